import Verif.Lemmas.Local
import Verif.Spec.Recolor
/-
A message rendered on two signs with other colors.
-/
namespace Ntcip
open Spec

/-- both succeed with related results, or both fail alike -/
def Out.Rel {ε α β : Type} (R : α → β → Prop) : Out ε α → Out ε β → Prop
  | .ok a, .ok b => R a b
  | .err e, .err f => e = f
  | .panic p, .panic q => p = q
  | _, _ => False

/-- both are there and related, or none is -/
def Option.Rel {α β : Type} (R : α → β → Prop) : Option α → Option β → Prop
  | some a, some b => R a b
  | none, none => True
  | _, _ => False

section Rel
variable {ε α β γ δ : Type} {R : α → β → Prop} {S : γ → δ → Prop}

theorem Res.Rel.bind {x : Res α} {y : Res β} {f : α → Res γ} {g : β → Res δ} (h : Res.Rel R x y)
    (hf : ∀ a b, R a b → Res.Rel S (f a) (g b)) : Res.Rel S (x >>= f) (y >>= g) := by
  cases x <;> cases y <;> simp only [Res.Rel] at h
  · exact hf _ _ h
  · exact h

theorem Out.Rel.bind {x : Out ε α} {y : Out ε β} {f : α → Out ε γ} {g : β → Out ε δ} (h : Out.Rel R x y)
    (hf : ∀ a b, R a b → Out.Rel S (f a) (g b)) : Out.Rel S (x >>= f) (y >>= g) := by
  cases x <;> cases y <;> simp only [Out.Rel] at h
  · exact hf _ _ h
  · exact h
  · exact h

theorem Out.Rel.refl_bind {x : Out ε α} {f : α → Out ε γ} {g : α → Out ε δ}
    (hf : ∀ a, Out.Rel S (f a) (g a)) : Out.Rel S (x >>= f) (x >>= g) := by
  cases x
  · exact hf _
  · exact rfl
  · exact rfl

theorem Res.Rel.out {x : Res α} {y : Res β} (h : Res.Rel R x y) : Out.Rel (ε := ε) R (.ofRes x) (.ofRes y) := by
  cases x <;> cases y <;> simp only [Res.Rel] at h <;> exact h

theorem Out.Rel.mapErr {δ : Type} {x : Out ε α} {y : Out ε β} (f : ε → δ) (h : Out.Rel R x y) :
    Out.Rel R (x.mapErr f) (y.mapErr f) := by
  cases x <;> cases y <;> simp only [Out.Rel] at h
  · exact h
  · exact congrArg f h
  · exact h

theorem Except.Rel.out {x : Except ε α} {y : Except ε β} (h : Except.Rel R x y) :
    Out.Rel R (ofExcept x) (ofExcept y) := by
  cases x <;> cases y <;> simp only [Except.Rel] at h <;> exact h

end Rel

theorem All2.append {α β : Type} {R : α → β → Prop} {as as' : List α} {bs bs' : List β} (h : All2 R as bs)
    (h' : All2 R as' bs') : All2 R (as ++ as') (bs ++ bs') := by
  induction h with
  | nil => exact h'
  | cons h1 _ ih => exact .cons h1 ih

/-! ### layout does not look at colors -/

/-- the state with other colors -/
def RenderState.tinted (c : ColorCtx) (rs : RenderState) : RenderState := { rs with colorCtx := c }

/-- the span with other colors -/
def Span.tinted (c : ColorCtx) (s : Span) : Span := { s with state := s.state.tinted c }

section Tinted
variable (c : ColorCtx) (t : FontTable)

theorem width_tinted (s : Span) : (s.tinted c).width t = s.width t := by
  simp only [Span.tinted, RenderState.tinted, Span.width, Span.charSpacingFonts, RenderState.font]

theorem between_tinted (s p : Span) : (s.tinted c).charSpacingBetween (p.tinted c) t = s.charSpacingBetween p t := by
  simp only [Span.tinted, RenderState.tinted, Span.charSpacingBetween, Span.charSpacingFonts, RenderState.font]

theorem height_tinted (s : Span) : (s.tinted c).height t = s.height t := by
  simp only [Span.tinted, RenderState.tinted, Span.height, RenderState.font]

theorem fontSpacing_tinted (s : Span) : (s.tinted c).fontSpacing t = s.fontSpacing t := by
  simp only [Span.tinted, RenderState.tinted, Span.fontSpacing, RenderState.font]

theorem offsetHorizLoop_tinted (rs : RenderState) (l : List Span) (p : Option Span) (b a : Nat) :
    offsetHorizLoop t (rs.tinted c) (l.map (Span.tinted c)) (p.map (Span.tinted c)) b a =
      offsetHorizLoop t rs l p b a := by
  induction l generalizing p b a with
  | nil => rfl
  | cons s l ih =>
    have ih' := ih (some s)
    rw [Option.map_some] at ih'
    cases p with
    | none =>
      simp only [List.map_cons, Option.map_none, offsetHorizLoop, width_tinted, ih']
      rfl
    | some p =>
      simp only [List.map_cons, Option.map_some, offsetHorizLoop, width_tinted, between_tinted, ih']
      rfl

theorem textLines_tinted (l : List Span) (ls : List TextLine) :
    textLines t (l.map (Span.tinted c)) ls = textLines t l ls := by
  induction l generalizing ls with
  | nil => rfl
  | cons s l ih =>
    rw [List.map_cons, textLines, textLines, height_tinted, fontSpacing_tinted]
    simp only [ih]
    rfl

theorem filter_tinted (p q : Span → Bool) (h : ∀ s, p (s.tinted c) = q s) (l : List Span) :
    (l.map (Span.tinted c)).filter p = (l.filter q).map (Span.tinted c) := by
  induction l with
  | nil => rfl
  | cons s l ih =>
    rw [List.map_cons, List.filter_cons, List.filter_cons, h, ih]
    split <;> rfl

theorem checkJustLoop_tinted (l : List Span) (jp jl n) :
    checkJustLoop jp jl n (l.map (Span.tinted c)) = checkJustLoop jp jl n l := by
  induction l generalizing jp jl n with
  | nil => rfl
  | cons s l ih =>
    simp only [List.map_cons, checkJustLoop, ih]
    rfl

theorem offsetHoriz_tinted (d : Dms) (l : List Span) (s : Span) :
    offsetHoriz d (l.map (Span.tinted c)) (s.tinted c) = offsetHoriz d l s := by
  unfold offsetHoriz
  dsimp only
  rw [filter_tinted c (q := fun x => s.state.matchesSpan x.state) (h := fun _ => rfl)]
  rw [show offsetHorizLoop d.fontDefinition (s.tinted c).state
    ((l.filter fun x => s.state.matchesSpan x.state).map (Span.tinted c)) none 0 0 = _ from
    offsetHorizLoop_tinted c d.fontDefinition s.state _ none 0 0]
  rfl

theorem offsetVert_tinted (d : Dms) (l : List Span) (s : Span) :
    offsetVert d (l.map (Span.tinted c)) (s.tinted c) = offsetVert d l s := by
  unfold offsetVert
  dsimp only
  rw [filter_tinted c (q := fun x => s.state.matchesLine x.state) (h := fun _ => rfl), textLines_tinted]
  rfl

theorem spanX_tinted (d : Dms) (l : List Span) (s : Span) :
    spanX d (l.map (Span.tinted c)) (s.tinted c) = spanX d l s := by
  unfold spanX spanXLeft spanXCenter spanXRight
  rw [offsetHoriz_tinted]
  rfl

theorem spanY_tinted (d : Dms) (l : List Span) (s : Span) :
    spanY d (l.map (Span.tinted c)) (s.tinted c) = spanY d l s := by
  unfold spanY baseline baselineTop baselineMiddle baselineBottom
  rw [offsetVert_tinted, height_tinted]
  rfl

end Tinted

/-- drawing pixels (or nothing) over related pixels gives related pixels -/
def DrawnOver (P : Rgb → Rgb → Prop) (x y : Option Rgb) : Prop := ∀ a b, P a b → P (x.getD a) (y.getD b)

theorem Res.Rel.over {P : Rgb → Rgb → Prop} {x y : Res (Option Rgb)} (h : Res.Rel (Option.Rel P) x y) : Res.Rel (DrawnOver P) x y := by
  cases x <;> cases y <;> simp only [Res.Rel] at h
  · rename_i x y
    cases x <;> cases y <;> simp only [Option.Rel] at h
    · exact fun _ _ h => h
    · exact fun _ _ _ => h
  · exact h

/-- What is needed of the colors: `K` relates the color contexts of both signs, `P` the colors; `V` are the values of the
message. -/
structure ColorSim (P : Rgb → Rgb → Prop) (K : ColorCtx → ColorCtx → Prop) (V : Value → Prop)
    (d d' : Dms) : Prop where
  fg : ∀ c c', K c c' → P c.foregroundRgb c'.foregroundRgb
  bg : ∀ c c', K c c' → P c.backgroundRgb c'.backgroundRgb
  setF : ∀ c c' x, K c c' → V (.colorForeground x) →
    Except.Rel K (c.setForeground x (.colorForeground x)) (c'.setForeground x (.colorForeground x))
  setB : ∀ c c' x, K c c' → V (.colorBackground x) →
    Except.Rel K (c.setBackground x (.colorBackground x)) (c'.setBackground x (.colorBackground x))
  setP : ∀ c c' x, K c c' → V (.pageBackground x) →
    Except.Rel K (c.setBackground x (.pageBackground x)) (c'.setBackground x (.pageBackground x))
  setR : ∀ c c' r x, K c c' → V (.colorRectangle r x) →
    Except.Rel K (c.setForeground (some x) (.colorRectangle r x)) (c'.setForeground (some x) (.colorRectangle r x))
  graphic : ∀ c c' n pos g x y, K c c' → V (.graphic n pos) → g ∈ d.graphicDefinition → g.number = n →
    Res.Rel (DrawnOver P) (g.pixelFn x y c) (g.pixelFn x y c')

theorem lookupGraphic_number {d : Dms} {gn gid g} (h : lookupGraphic d gn gid = .ok g) : g.number = gn := by
  unfold lookupGraphic GraphicTable.graphic at h
  split at h
  · rename_i g' hg; simp only [Out.ok.injEq] at h; subst h; simpa using List.find?_some hg
  · rename_i g' gid hg; split at h
    · simp only [Out.ok.injEq] at h; subst h; simpa using List.find?_some hg
    · simp at h
  · simp at h

/-- alike but for the colors -/
structure Tint (K : ColorCtx → ColorCtx → Prop) (rs rs' : RenderState) : Prop where
  ctx : K rs.colorCtx rs'.colorCtx
  eq : rs' = rs.tinted rs'.colorCtx

/-- alike but for the colors -/
def TintS (K : ColorCtx → ColorCtx → Prop) (s s' : Span) : Prop := Tint K s.state s'.state ∧ s'.str = s.str

section Draw
variable {P : Rgb → Rgb → Prop} {K : ColorCtx → ColorCtx → Prop} {V : Value → Prop} {d d' : Dms}

theorem All2.tinted {l l' : List Span} (h : All2 (TintS K) l l') (c : ColorCtx) :
    l'.map (Span.tinted c) = l.map (Span.tinted c) := by
  induction h with
  | nil => rfl
  | cons h1 _ ih =>
    rename_i s s' _ _ _
    rw [List.map_cons, List.map_cons, ih]
    congr 1
    obtain ⟨⟨_, he⟩, hs⟩ := h1
    cases s; cases s'
    simp only [Span.tinted] at *
    rw [he, hs]
    rfl

theorem TintS.tinted {s s' : Span} (h : TintS K s s') (c : ColorCtx) : s'.tinted c = s.tinted c := by
  have := All2.tinted (.cons h .nil) c
  simpa using this

theorem setPx_rel {r r' : Raster} (h : Recolored P r r') {c c' : Rgb} (hc : P c c') (x y : Nat) :
    Res.Rel (Recolored P) (r.setPx x y c) (r'.setPx x y c') := by
  unfold Raster.setPx
  rw [h.width, h.height]
  split
  · refine ⟨rfl, rfl, fun i j => ?_⟩
    dsimp only
    split
    · exact hc
    · exact h.pixel i j
  · exact rfl

theorem renderBits_rel {c c' : Rgb} (hc : P c c') (w h x y : Nat) (b : UInt8) (n : Nat) {r r' : Raster}
    (hr : Recolored P r r') (xx yy : Nat) :
    Res.Rel (fun p q => Recolored P p.1 q.1 ∧ q.2 = p.2) (CharacterEntry.renderBits w h x y c b n r xx yy)
      (CharacterEntry.renderBits w h x y c' b n r' xx yy) := by
  induction n generalizing r r' xx yy with
  | zero => exact ⟨hr, rfl⟩
  | succ n ih =>
    unfold CharacterEntry.renderBits
    have key : ∀ r r', Recolored P r r' → Res.Rel (fun p q => Recolored P p.1 q.1 ∧ q.2 = p.2)
        (if xx + 1 ≥ w then
          if yy + 1 ≥ h then pure (r, 0, yy + 1) else CharacterEntry.renderBits w h x y c b n r 0 (yy + 1)
        else CharacterEntry.renderBits w h x y c b n r (xx + 1) yy)
        (if xx + 1 ≥ w then
          if yy + 1 ≥ h then pure (r', 0, yy + 1) else CharacterEntry.renderBits w h x y c' b n r' 0 (yy + 1)
        else CharacterEntry.renderBits w h x y c' b n r' (xx + 1) yy) := by
      intro r r' hr
      split
      · split
        · exact ⟨hr, rfl⟩
        · exact ih hr _ _
      · exact ih hr _ _
    dsimp only
    split
    · exact Res.Rel.bind (setPx_rel hr hc _ _) key
    · exact key _ _ hr

theorem renderBytes_rel {c c' : Rgb} (hc : P c c') (w h x y : Nat) (bs : List UInt8) {r r' : Raster}
    (hr : Recolored P r r') (xx yy : Nat) :
    Res.Rel (Recolored P) (CharacterEntry.renderBytes w h x y c bs r xx yy)
      (CharacterEntry.renderBytes w h x y c' bs r' xx yy) := by
  induction bs generalizing r r' xx yy with
  | nil => exact hr
  | cons b bs ih =>
    unfold CharacterEntry.renderBytes
    refine Res.Rel.bind (renderBits_rel hc w h x y b 8 hr xx yy) fun p q hpq => ?_
    obtain ⟨h1, h2⟩ := hpq
    obtain ⟨p1, p2⟩ := p
    obtain ⟨q1, q2⟩ := q
    cases h2
    exact ih h1 _ _

theorem renderTextLoop_rel {c c' : Rgb} (hc : P c c') (f : Font) (x y cs : Nat) (str : Str) {r r' : Raster}
    (hr : Recolored P r r') (xx : Nat) :
    Out.Rel (Recolored P) (f.renderTextLoop x y cs c r xx str) (f.renderTextLoop x y cs c' r' xx str) := by
  induction str generalizing r r' xx with
  | nil => exact hr
  | cons ch str ih =>
    unfold Font.renderTextLoop
    cases f.character ch with
    | none => exact rfl
    | some e =>
      dsimp only
      exact Out.Rel.bind (Res.Rel.out (renderBytes_rel hc _ _ _ _ _ hr 0 0)) fun p q hpq => ih hpq _

theorem renderSpansLoop_rel (hd : SameButColors d d') (hs : ColorSim P K V d d') {l l' : List Span}
    (hl : All2 (TintS K) l l') {ss ss' : List Span} (hss : All2 (TintS K) ss ss') {r r' : Raster}
    (hr : Recolored P r r') :
    Out.Rel (Recolored P) (renderSpansLoop d l ss r) (renderSpansLoop d' l' ss' r') := by
  induction hss generalizing r r' with
  | nil => exact hr
  | cons h1 _ ih =>
    rename_i s s' _ _ _
    have hc : SameCfg d { d with fontDefinition := d'.fontDefinition } := ⟨rfl, rfl⟩
    have ex : spanX d' l' s' = spanX d l s := by
      rw [← spanX_tinted s.state.colorCtx d', ← spanX_tinted s.state.colorCtx d, hl.tinted, h1.tinted]
      unfold spanX spanXLeft spanXCenter spanXRight offsetHoriz
      simp only [Dms.cellWidth, Dms.charWidth, hd.fonts, hd.charWidth]
    have ey : spanY d' l' s' = spanY d l s := by
      rw [← spanY_tinted s.state.colorCtx d', ← spanY_tinted s.state.colorCtx d, hl.tinted, h1.tinted]
      unfold spanY baseline baselineTop baselineMiddle baselineBottom offsetVert
      simp only [Dms.cellHeight, Dms.charHeight, hd.fonts, hd.charHeight]
    have ef : s'.state.font d'.fontDefinition = s.state.font d.fontDefinition := by
      rw [hd.fonts, h1.1.eq]; rfl
    unfold renderSpansLoop
    rw [ex, ey, ef]
    refine Out.Rel.refl_bind fun x => Out.Rel.refl_bind fun y => Out.Rel.refl_bind fun f => ?_
    refine Out.Rel.bind (R := Recolored P) ?_ fun r r' hr => ih hr
    unfold Span.renderText
    refine Out.Rel.mapErr _ ?_
    have ec : s'.charSpacingFont f = s.charSpacingFont f := by
      unfold Span.charSpacingFont
      rw [h1.1.eq]; rfl
    rw [h1.2, ec]
    exact renderTextLoop_rel (hs.fg _ _ h1.1.ctx) f x y _ _ hr 0

theorem renderTextSpans_rel (hd : SameButColors d d') (hs : ColorSim P K V d d') {l l' : List Span}
    (hl : All2 (TintS K) l l') {r r' : Raster} (hr : Recolored P r r') :
    Out.Rel (Recolored P) (renderTextSpans d l r) (renderTextSpans d' l' r') := by
  have e : checkJustification l' = checkJustification l := by
    have c : ColorCtx := (RenderState.new d).colorCtx
    unfold checkJustification
    rw [← checkJustLoop_tinted c l', ← checkJustLoop_tinted c l, hl.tinted]
  unfold renderTextSpans
  rw [e]
  split
  · exact rfl
  · exact renderSpansLoop_rel hd hs hl hl hr

theorem copyColor_rel {r r' : Raster} (hr : Recolored P r r') {c c' : Rgb} (hc : P c c') (x y w h : Nat) :
    Recolored P (r.copyColor x y w h c) (r'.copyColor x y w h c') := by
  refine ⟨hr.width, hr.height, fun i j => ?_⟩
  dsimp only [Raster.copyColor]
  split
  · exact hc
  · exact hr.pixel i j

theorem renderRect_rel {r r' : Raster} (hr : Recolored P r r') {c c' : Rgb} (hc : P c c') (rect : Rectangle)
    (v : Value) : Out.Rel (Recolored P) (renderRect r rect c v) (renderRect r' rect c' v) := by
  unfold renderRect
  rw [hr.width, hr.height]
  split
  · exact rfl
  · split
    · exact rfl
    · refine Out.Rel.refl_bind fun i => ?_
      split
      · exact copyColor_rel hr hc _ _ _ _
      · exact rfl

theorem renderLoop_rel {g : Graphic} {c c' : ColorCtx}
    (hp : ∀ x y, Res.Rel (DrawnOver P) (g.pixelFn x y c) (g.pixelFn x y c')) (x y : Nat) (ps : List (Nat × Nat))
    {r r' : Raster} (hr : Recolored P r r') (hin : ∀ p ∈ ps, x + p.1 < r.width ∧ y + p.2 < r.height) :
    Res.Rel (Recolored P) (g.renderLoop c x y ps r) (g.renderLoop c' x y ps r') := by
  induction ps generalizing r r' with
  | nil => exact hr
  | cons p ps ih =>
    obtain ⟨xx, yy⟩ := p
    have h0 := hin (xx, yy) (List.mem_cons_self ..)
    have h1 : ∀ p ∈ ps, x + p.1 < r.width ∧ y + p.2 < r.height := fun p hp => hin p (List.mem_cons_of_mem _ hp)
    unfold Graphic.renderLoop
    refine Res.Rel.bind (hp xx yy) fun a b hab => ?_
    have key : ∃ q q' : Raster, (match a with
          | some c => r.setPx (x + xx) (y + yy) c
          | none => pure r) = .ok q ∧ (match b with
          | some c => r'.setPx (x + xx) (y + yy) c
          | none => pure r') = .ok q' ∧ Recolored P q q' ∧ q.width = r.width ∧ q.height = r.height := by
      have e : ∀ (r : Raster) (o : Option Rgb), x + xx < r.width ∧ y + yy < r.height → (match o with
          | some c => r.setPx (x + xx) (y + yy) c
          | none => pure r) = (.ok { r with px := fun i j => if i = x + xx ∧ j = y + yy then o.getD (r.px i j) else r.px i j } :
            Res Raster) := by
        intro r o h
        cases o with
        | none => simp
        | some c => simp [Raster.setPx, h]
      refine ⟨_, _, e r a h0, e r' b (by rw [hr.width, hr.height]; exact h0), ⟨hr.width, hr.height, fun i j => ?_⟩, rfl, rfl⟩
      dsimp only
      split
      · exact hab _ _ (hr.pixel i j)
      · exact hr.pixel i j
    obtain ⟨q, q', e1, e2, h2, h3, h4⟩ := key
    have h5 := ih h2 (by rw [h3, h4]; exact h1)
    cases a <;> cases b <;> dsimp only at e1 e2 ⊢ <;> rw [e1, e2] <;> exact h5

theorem renderGraphic_rel {g : Graphic} {c c' : ColorCtx}
    (hp : ∀ x y, Res.Rel (DrawnOver P) (g.pixelFn x y c) (g.pixelFn x y c')) (x y : Nat)
    {r r' : Raster} (hr : Recolored P r r') :
    Out.Rel (Recolored P) (g.renderGraphic r x y c) (g.renderGraphic r' x y c') := by
  unfold Graphic.renderGraphic
  rw [hr.width, hr.height]
  split
  · exact rfl
  · split
    · exact rfl
    · refine Res.Rel.out (renderLoop_rel hp _ _ _ hr ?_)
      rintro ⟨i, j⟩ hm
      rw [mem_gridPoints] at hm
      dsimp only
      omega

/-- the items of the message are values of `V` -/
def ValuesOf (V : Value → Prop) (ss : List Str) : Prop := ∀ s ∈ ss, ∀ v, tryFrom s = .ok (.ok v) → V v

theorem renderGraphicsLoop_rel (hd : SameButColors d d') (hs : ColorSim P K V d d') {ss : List Str}
    (hv : ValuesOf V ss) {c c' : ColorCtx} (hc : K c c') {r r' : Raster} (hr : Recolored P r r') :
    Out.Rel (Recolored P) (renderGraphicsLoop d ss c r) (renderGraphicsLoop d' ss c' r') := by
  induction ss generalizing c c' r r' with
  | nil => exact hr
  | cons s ss ih =>
    have ih' := fun {c c'} (hc : K c c') {r r'} (hr : Recolored P r r') =>
      ih (fun x hx => hv x (by simp [hx])) hc hr
    have hv0 := hv s (by simp)
    unfold renderGraphicsLoop
    cases hp : tryFrom s with
    | panic p => exact rfl
    | ok e =>
      cases e with
      | error e => exact rfl
      | ok v =>
        have hV := hv0 v hp
        simp only [Out.ofRes_ok, Out.ok_bind, ofExcept]
        have hl : ∀ n gid, lookupGraphic d' n gid = lookupGraphic d n gid := by
          intro n gid; unfold lookupGraphic; rw [hd.graphics]
        cases v <;> try exact ih' hc hr
        case colorBackground x =>
          exact Out.Rel.bind (Except.Rel.out (hs.setB _ _ _ hc hV)) fun a b hab => ih' hab hr
        case colorForeground x =>
          exact Out.Rel.bind (Except.Rel.out (hs.setF _ _ _ hc hV)) fun a b hab => ih' hab hr
        case colorRectangle rect x =>
          exact Out.Rel.bind (Except.Rel.out (hs.setR _ _ _ _ hc hV)) fun a b hab =>
            Out.Rel.bind (renderRect_rel hr (hs.fg _ _ hab) rect _) fun p q hpq => ih' hc hpq
        case graphic n pos =>
          rcases pos with _ | ⟨x, y, gid⟩
          · simp only [hl]
            cases hg : lookupGraphic d n none with
            | err e => exact rfl
            | panic p => exact rfl
            | ok g =>
              simp only [Out.ok_bind]
              exact Out.Rel.bind (Out.Rel.mapErr _ (renderGraphic_rel
                (fun x y => hs.graphic _ _ n _ g x y hc hV (lookupGraphic_mem hg) (lookupGraphic_number hg)) _ _ hr)) fun p q hpq => ih' hc hpq
          · simp only [hl]
            cases hg : lookupGraphic d n gid with
            | err e => exact rfl
            | panic p => exact rfl
            | ok g =>
              simp only [Out.ok_bind]
              exact Out.Rel.bind (Out.Rel.mapErr _ (renderGraphic_rel
                (fun x y => hs.graphic _ _ n _ g x y hc hV (lookupGraphic_mem hg) (lookupGraphic_number hg)) _ _ hr)) fun p q hpq => ih' hc hpq
        all_goals first | exact rfl | exact hr

end Draw

/-! ### state -/

section State
variable {P : Rgb → Rgb → Prop} {K : ColorCtx → ColorCtx → Prop} {V : Value → Prop} {d d' : Dms}

/-- alike but for the colors -/
structure TintR (K : ColorCtx → ColorCtx → Prop) (st st' : Rtr) : Prop where
  rs : Tint K st.rs st'.rs
  pageState : st'.pageState = st.pageState
  spans : All2 (TintS K) st.spans st'.spans
  lineBlank : st'.lineBlank = st.lineBlank

theorem updateTextRectangle_colors (hd : SameButColors d d') (full rect : Rectangle) :
    updateTextRectangle d' full rect = updateTextRectangle d full rect := by
  unfold updateTextRectangle
  simp only [Dms.cellWidth, Dms.cellHeight, Dms.charWidth, Dms.charHeight, hd.charWidth, hd.charHeight]

theorem badLineSpacing_colors (hd : SameButColors d d') (ls : Option UInt8) :
    badLineSpacing d' ls = badLineSpacing d ls := by
  unfold badLineSpacing
  simp only [Dms.charHeight, hd.charHeight]

theorem Res.Rel.refl_bind {α γ δ : Type} {S : γ → δ → Prop} {x : Res α} {f : α → Res γ} {g : α → Res δ}
    (hf : ∀ a, Res.Rel S (f a) (g a)) : Res.Rel S (x >>= f) (x >>= g) := by
  cases x
  · exact hf _
  · exact rfl

/-- results of `rtrStep` -/
def RelC (K : ColorCtx → ColorCtx → Prop) (p q : Ctl × Rtr) : Prop := q.1 = p.1 ∧ TintR K p.2 q.2

theorem rtrStep_rel (hd : SameButColors d d') (hs : ColorSim P K V d d') {ds ds' : RenderState}
    (hds : Tint K ds ds') (po : Bool) {st st' : Rtr} (hst : TintR K st st') {v : Value} (hv : V v) :
    Res.Rel (RelC K) (rtrStep d ds po st v) (rtrStep d' ds' po st' v) := by
  obtain ⟨rs, ps, sp, lb⟩ := st
  obtain ⟨rs', ps', sp', lb'⟩ := st'
  obtain ⟨⟨h1, h2⟩, rfl, h3, rfl⟩ := hst
  obtain ⟨k1, k2⟩ := hds
  dsimp only at h1 h2 h3
  generalize rs'.colorCtx = c' at h1 h2
  subst h2
  generalize ds'.colorCtx = dc' at k1 k2
  subst k2
  have keep : TintR K ⟨rs, ps', sp, lb'⟩ ⟨rs.tinted c', ps', sp', lb'⟩ := ⟨⟨h1, rfl⟩, rfl, h3, rfl⟩
  unfold rtrStep
  dsimp only
  split
  · -- [cf]
    rename_i x
    have := hs.setF _ _ x h1 hv
    rw [show (rs.tinted c').colorCtx = c' from rfl]
    cases hx : rs.colorCtx.setForeground x (.colorForeground x) <;>
      cases hy : c'.setForeground x (.colorForeground x) <;> rw [hx, hy] at this <;> simp only [Except.Rel] at this
    · exact ⟨by rw [this], keep⟩
    · exact ⟨rfl, ⟨this, rfl⟩, rfl, h3, rfl⟩
  · exact ⟨rfl, ⟨h1, rfl⟩, rfl, h3, rfl⟩
  · exact ⟨rfl, ⟨h1, rfl⟩, rfl, h3, rfl⟩
  · exact ⟨rfl, keep⟩
  · exact ⟨rfl, keep⟩
  · exact ⟨rfl, ⟨h1, rfl⟩, rfl, h3, rfl⟩
  · exact ⟨rfl, keep⟩
  · -- [jp]
    rename_i jp _
    rw [show (rs.tinted c').justPage = rs.justPage from rfl, show (ds.tinted dc').justPage = ds.justPage from rfl]
    split
    · exact ⟨rfl, ⟨h1, rfl⟩, rfl, h3, rfl⟩
    · exact ⟨rfl, keep⟩
  · -- [nl]
    rw [badLineSpacing_colors hd]
    split
    · exact ⟨rfl, keep⟩
    · rw [show (rs.tinted c').lineNumber = rs.lineNumber from rfl]
      refine Res.Rel.refl_bind fun n => ⟨rfl, ⟨h1, rfl⟩, rfl, ?_, rfl⟩
      dsimp only
      split
      · exact h3.append (.cons ⟨⟨h1, rfl⟩, rfl⟩ .nil)
      · exact h3
  · exact ⟨rfl, ⟨h1, rfl⟩, rfl, h3, rfl⟩
  · -- [sc]
    simp only [Dms.charWidth, hd.charWidth]
    split
    · exact ⟨rfl, keep⟩
    · exact ⟨rfl, ⟨h1, rfl⟩, rfl, h3, rfl⟩
  · exact ⟨rfl, ⟨h1, rfl⟩, rfl, h3, rfl⟩
  · -- [tr]
    rw [updateTextRectangle_colors hd, show (ds.tinted dc').textRectangle = ds.textRectangle from rfl]
    refine Res.Rel.refl_bind fun o => ?_
    split
    · exact ⟨rfl, ⟨h1, rfl⟩, rfl, h3, rfl⟩
    · exact ⟨rfl, ⟨h1, rfl⟩, rfl, h3, rfl⟩
  · -- text
    rw [show (rs.tinted c').spanNumber = rs.spanNumber from rfl]
    exact Res.Rel.refl_bind fun n => ⟨rfl, ⟨h1, rfl⟩, rfl, h3.append (.cons ⟨⟨h1, rfl⟩, rfl⟩ .nil), rfl⟩
  · -- [hc]
    split
    · rw [show (rs.tinted c').spanNumber = rs.spanNumber from rfl]
      exact Res.Rel.refl_bind fun n => ⟨rfl, ⟨h1, rfl⟩, rfl, h3.append (.cons ⟨⟨h1, rfl⟩, rfl⟩ .nil), rfl⟩
    · exact ⟨rfl, keep⟩
  · exact ⟨rfl, keep⟩

/-- results of `rtrLoop` -/
def RelL (K : ColorCtx → ColorCtx → Prop) (p q : Except SyntaxError Unit × Rtr × List Str) : Prop :=
  q.1 = p.1 ∧ TintR K p.2.1 q.2.1 ∧ q.2.2 = p.2.2

theorem rtrLoop_rel (hd : SameButColors d d') (hs : ColorSim P K V d d') {ds ds' : RenderState}
    (hds : Tint K ds ds') (po : Bool) {ss : List Str} (hv : ValuesOf V ss) {st st' : Rtr} (hst : TintR K st st') :
    Res.Rel (RelL K) (rtrLoop d ds po ss st) (rtrLoop d' ds' po ss st') := by
  induction ss generalizing st st' with
  | nil => exact ⟨rfl, hst, rfl⟩
  | cons s ss ih =>
    unfold rtrLoop
    cases hp : tryFrom s with
    | panic p => exact rfl
    | ok e =>
      cases e with
      | error e => exact ⟨rfl, hst, rfl⟩
      | ok v =>
        have h := rtrStep_rel hd hs hds po hst (hv s (by simp) v hp)
        cases hx : rtrStep d ds po st v with
        | panic p =>
          cases hy : rtrStep d' ds' po st' v with
          | panic q => rw [hx, hy] at h; simp only [hx, hy]; exact h
          | ok q => rw [hx, hy] at h; exact h.elim
        | ok p =>
          cases hy : rtrStep d' ds' po st' v with
          | panic q => rw [hx, hy] at h; exact h.elim
          | ok q =>
            obtain ⟨c, st1⟩ := p
            obtain ⟨c', st1'⟩ := q
            rw [hx, hy] at h
            obtain ⟨e1, h1⟩ := h
            dsimp only at e1 h1
            subst e1
            simp only [hx, hy]
            cases c' with
            | cont => exact ih (fun x hx => hv x (by simp [hx])) h1
            | brk => exact ⟨rfl, h1, rfl⟩
            | fail e => exact ⟨rfl, h1, rfl⟩

/-- pages alike but for the colors -/
structure TintP (K : ColorCtx → ColorCtx → Prop) (V : Value → Prop) (pg pg' : Pages) : Prop where
  dflt : Tint K pg.defaultState pg'.defaultState
  cur : Tint K pg.renderState pg'.renderState
  pageState : pg'.pageState = pg.pageState
  values : pg'.values = pg.values
  spans : All2 (TintS K) pg.spans pg'.spans
  valuesOf : ValuesOf V pg.values

theorem ValuesOf.suffix {ss ss' : List Str} (h : ValuesOf V ss) (hs : ss' <:+ ss) : ValuesOf V ss' :=
  fun s hm => h s (hs.subset hm)

/-- results with a state of the iterator -/
def RelE {α : Type} (R : α → α → Prop) (K : ColorCtx → ColorCtx → Prop) (V : Value → Prop)
    (p q : Except SyntaxError α × Pages) : Prop := Except.Rel R p.1 q.1 ∧ TintP K V p.2 q.2

theorem Tint.off {rs rs' : RenderState} (h : Tint K rs rs') : rs'.pageOffTimeDs = rs.pageOffTimeDs := by
  rw [h.eq]; rfl

theorem Tint.on {rs rs' : RenderState} (h : Tint K rs rs') : rs'.pageOnTimeDs = rs.pageOnTimeDs := by
  rw [h.eq]; rfl

theorem renderTextRectangle_rel (hd : SameButColors d d') (hs : ColorSim P K V d d') {pg pg' : Pages}
    (hp : TintP K V pg pg') {r r' : Raster} (hr : Recolored P r r') :
    Res.Rel (RelE (Recolored P) K V) (renderTextRectangle d pg r) (renderTextRectangle d' pg' r') := by
  unfold renderTextRectangle
  rw [hp.values, hp.cur.off]
  have hl := rtrLoop_rel hd hs hp.dflt (decide (pg.renderState.pageOffTimeDs > 0)) hp.valuesOf
    (st := ⟨pg.renderState, .doneState (decide (pg.renderState.pageOffTimeDs > 0)), [], true⟩)
    (st' := ⟨pg'.renderState, .doneState (decide (pg.renderState.pageOffTimeDs > 0)), [], true⟩)
    ⟨hp.cur, rfl, .nil, rfl⟩
  cases hx : rtrLoop d pg.defaultState (decide (pg.renderState.pageOffTimeDs > 0)) pg.values
      ⟨pg.renderState, .doneState (decide (pg.renderState.pageOffTimeDs > 0)), [], true⟩ with
  | panic p =>
    cases hy : rtrLoop d' pg'.defaultState (decide (pg.renderState.pageOffTimeDs > 0)) pg.values
      ⟨pg'.renderState, .doneState (decide (pg.renderState.pageOffTimeDs > 0)), [], true⟩ with
    | panic q => rw [hx, hy] at hl; simp only [hx, hy]; exact hl
    | ok q => rw [hx, hy] at hl; exact hl.elim
  | ok p =>
    cases hy : rtrLoop d' pg'.defaultState (decide (pg.renderState.pageOffTimeDs > 0)) pg.values
      ⟨pg'.renderState, .doneState (decide (pg.renderState.pageOffTimeDs > 0)), [], true⟩ with
    | panic q => rw [hx, hy] at hl; exact hl.elim
    | ok q =>
      obtain ⟨e, st, vs⟩ := p
      obtain ⟨e', st', vs'⟩ := q
      rw [hx, hy] at hl
      obtain ⟨e1, h1, e2⟩ := hl
      dsimp only at e1 h1 e2
      subst e1 e2
      have hsuf := rtrLoop_suffix hx
      have key : TintP K V { pg with renderState := st.rs, pageState := st.pageState, spans := st.spans, values := vs' }
          { pg' with renderState := st'.rs, pageState := st'.pageState, spans := st'.spans, values := vs' } :=
        ⟨hp.dflt, h1.rs, h1.pageState, rfl, h1.spans, hp.valuesOf.suffix hsuf⟩
      simp only [hx, hy, Res.ok_bind]
      cases e' with
      | error e => exact ⟨rfl, key⟩
      | ok u =>
        have ht := renderTextSpans_rel hd hs h1.spans hr
        dsimp only
        cases h3 : renderTextSpans d st.spans r <;> cases h4 : renderTextSpans d' st'.spans r' <;>
          rw [h3, h4] at ht <;> simp only [Out.Rel] at ht
        · exact ⟨ht, key⟩
        · exact ⟨ht, key⟩
        · exact ht

theorem onPageLoop_rel (hd : SameButColors d d') (hs : ColorSim P K V d d') (fuel n : Nat) {pg pg' : Pages}
    (hp : TintP K V pg pg') {r r' : Raster} (hr : Recolored P r r') :
    Res.Rel (RelE (Recolored P) K V) (onPageLoop d fuel n pg r) (onPageLoop d' fuel n pg' r') := by
  induction fuel generalizing n pg pg' r r' with
  | zero => exact ⟨hr, hp⟩
  | succ fuel ih =>
    unfold onPageLoop
    rw [hp.pageState]
    split
    · have hg := renderGraphicsLoop_rel hd hs hp.valuesOf hp.cur.ctx hr
      rw [hp.values]
      cases h3 : renderGraphicsLoop d pg.values pg.renderState.colorCtx r <;>
        cases h4 : renderGraphicsLoop d' pg.values pg'.renderState.colorCtx r' <;>
        rw [h3, h4] at hg <;> simp only [Out.Rel] at hg
      · refine Res.Rel.bind (renderTextRectangle_rel hd hs hp hg) fun p q hpq => ?_
        obtain ⟨e, p⟩ := p
        obtain ⟨e', q⟩ := q
        obtain ⟨k1, k2⟩ := hpq
        cases e <;> cases e' <;> simp only [Except.Rel] at k1
        · exact ⟨k1, k2⟩
        · dsimp only
          split
          · exact ⟨rfl, k2⟩
          · exact ih _ k2 k1
      · exact ⟨hg, hp⟩
      · exact hg
    · exact ⟨hr, hp⟩

theorem checkUnsupported_colors (hd : SameButColors d d') (ss : List Str) :
    checkUnsupported d' ss = checkUnsupported d ss := by
  induction ss with
  | nil => rfl
  | cons s ss ih => unfold checkUnsupported; simp only [ih, hd.tags]

theorem updatePageStateLoop_rel (hs : ColorSim P K V d d') {ds ds' : RenderState} (hds : Tint K ds ds')
    {ss : List Str} (hv : ValuesOf V ss) {rs rs' : RenderState} (hrs : Tint K rs rs') :
    Res.Rel (fun p q => q.1 = p.1 ∧ Tint K p.2 q.2) (updatePageStateLoop ds ss rs)
      (updatePageStateLoop ds' ss rs') := by
  induction ss generalizing rs rs' with
  | nil => exact ⟨rfl, hrs⟩
  | cons s ss ih =>
    have ih' := fun {rs rs'} (h : Tint K rs rs') => ih (fun x hx => hv x (by simp [hx])) h
    unfold updatePageStateLoop
    cases hp : tryFrom s with
    | panic p => exact rfl
    | ok e =>
      cases e with
      | error e => exact ⟨rfl, hrs⟩
      | ok v =>
        have hV := hv s (by simp) v hp
        cases v <;> try exact ih' hrs
        case colorBackground x =>
          have := hs.setB _ _ x hrs.ctx hV
          dsimp only
          cases hx : rs.colorCtx.setBackground x (.colorBackground x) <;>
            cases hy : rs'.colorCtx.setBackground x (.colorBackground x) <;> rw [hx, hy] at this <;>
            simp only [Except.Rel] at this
          · exact ⟨by rw [this], hrs⟩
          · refine ih' ⟨this, ?_⟩
            rw [hrs.eq]; rfl
        case pageBackground x =>
          have := hs.setP _ _ x hrs.ctx hV
          dsimp only
          cases hx : rs.colorCtx.setBackground x (.pageBackground x) <;>
            cases hy : rs'.colorCtx.setBackground x (.pageBackground x) <;> rw [hx, hy] at this <;>
            simp only [Except.Rel] at this
          · exact ⟨by rw [this], hrs⟩
          · refine ih' ⟨this, ?_⟩
            rw [hrs.eq]; rfl
        case newPage => exact ⟨rfl, hrs⟩
        case pageTime on off =>
          refine ih' ⟨hrs.ctx, ?_⟩
          rw [hrs.eq, hds.on, hds.off]; rfl

theorem updatePageState_rel (hs : ColorSim P K V d d') {ds ds' : RenderState} (hds : Tint K ds ds')
    {ss : List Str} (hv : ValuesOf V ss) {rs rs' : RenderState} (hrs : Tint K rs rs') :
    Res.Rel (fun p q => q.1 = p.1 ∧ Tint K p.2 q.2) (updatePageState ds rs ss) (updatePageState ds' rs' ss) := by
  unfold updatePageState
  refine updatePageStateLoop_rel hs hds hv ⟨hrs.ctx, ?_⟩
  rw [hrs.eq, hds.eq]
  rfl

theorem buildRaster_rel (hs : ColorSim P K V d d') {rs rs' : RenderState} (h : Tint K rs rs') :
    Recolored P (buildRaster rs) (buildRaster rs') := by
  have e : rs'.textRectangle = rs.textRectangle := by rw [h.eq]; rfl
  unfold buildRaster
  rw [e]
  exact ⟨rfl, rfl, fun _ _ => hs.bg _ _ h.ctx⟩

theorem renderOnPage_rel (hd : SameButColors d d') (hs : ColorSim P K V d d') {pg pg' : Pages}
    (hp : TintP K V pg pg') :
    Res.Rel (RelE (RecoloredPage P) K V) (renderOnPage d pg) (renderOnPage d' pg') := by
  unfold renderOnPage
  rw [hp.values, checkUnsupported_colors hd]
  cases checkUnsupported d pg.values with
  | panic p => exact rfl
  | err e => exact ⟨rfl, hp⟩
  | ok u =>
    dsimp only
    refine Res.Rel.bind (updatePageState_rel hs hp.dflt hp.valuesOf hp.cur) fun p q hpq => ?_
    obtain ⟨e, rs⟩ := p
    obtain ⟨e', rs'⟩ := q
    obtain ⟨e1, h1⟩ := hpq
    dsimp only at e1 h1
    subst e1
    cases e' with
    | error e => exact ⟨rfl, hp.dflt, h1, hp.pageState, rfl, hp.spans, hp.valuesOf⟩
    | ok u =>
      dsimp only
      refine Res.Rel.bind (onPageLoop_rel hd hs _ _ (pg := { pg with renderState := rs, pageState := .on false })
        (pg' := { pg' with renderState := rs', pageState := .on false, values := pg.values })
        ⟨hp.dflt, h1, rfl, rfl, hp.spans, hp.valuesOf⟩ (buildRaster_rel hs h1)) fun p q hpq => ?_
      obtain ⟨e, p⟩ := p
      obtain ⟨e', q⟩ := q
      obtain ⟨k1, k2⟩ := hpq
      cases e <;> cases e' <;> simp only [Except.Rel] at k1
      · exact ⟨k1, k2⟩
      · refine ⟨⟨?_, k1⟩, k2⟩
        show q.renderState.pageOnTimeDs.toNat = _
        rw [k2.cur.on]

theorem next_rel (hd : SameButColors d d') (hs : ColorSim P K V d d') {pg pg' : Pages}
    (hp : TintP K V pg pg') :
    Res.Rel (fun p q => Option.Rel (Except.Rel (RecoloredPage P)) p.1 q.1 ∧ TintP K V p.2 q.2)
      (Pages.next d pg) (Pages.next d' pg') := by
  unfold Pages.next
  rw [hp.pageState]
  split
  · refine Res.Rel.bind (renderOnPage_rel hd hs hp) fun p q hpq => ?_
    obtain ⟨e, p⟩ := p
    obtain ⟨e', q⟩ := q
    exact ⟨hpq.1, hpq.2⟩
  · dsimp only [renderOffPage]
    refine ⟨⟨?_, ?_⟩, hp.dflt, hp.cur, ?_, hp.values, hp.spans, hp.valuesOf⟩
    · show pg'.renderState.pageOffTimeDs.toNat = _
      rw [hp.cur.off]
    · exact buildRaster_rel hs hp.cur
    · show pg'.pageState.nextState = _
      rw [hp.pageState]
  · exact ⟨trivial, hp⟩

theorem run_rel (hd : SameButColors d d') (hs : ColorSim P K V d d') (k : Nat) {pg pg' : Pages}
    (hp : TintP K V pg pg') :
    Res.Rel (fun p q => All2 (Except.Rel (RecoloredPage P)) p.1 q.1)
      (Pages.run d k pg) (Pages.run d' k pg') := by
  induction k generalizing pg pg' with
  | zero => exact All2.nil
  | succ k ih =>
    unfold Pages.run
    refine Res.Rel.bind (next_rel hd hs hp) fun p q hpq => ?_
    obtain ⟨x, p⟩ := p
    obtain ⟨x', q⟩ := q
    obtain ⟨k1, k2⟩ := hpq
    cases x <;> cases x' <;> simp only [Option.Rel] at k1
    · exact All2.nil
    · dsimp only
      refine Res.Rel.bind (ih k2) fun a b hab => ?_
      exact All2.cons k1 hab

theorem new_rel (hd : SameButColors d d') (hk : K (signCtx d) (signCtx d')) (ms : Str)
    (hv : ValuesOf V (slices ms)) : TintP K V (Pages.new d ms) (Pages.new d' ms) := by
  have key : Tint K (RenderState.new d) (RenderState.new d') := by
    refine ⟨?_, ?_⟩
    · show K d.colorCtx d'.colorCtx
      rw [colorCtx_eq, colorCtx_eq]; exact hk
    · simp only [RenderState.new, RenderState.tinted, hd.width, hd.height, hd.font, hd.justLine, hd.justPage, hd.pageOn,
        hd.pageOff]
  exact ⟨key, key, rfl, rfl, .nil, hv⟩

end State
end Ntcip
