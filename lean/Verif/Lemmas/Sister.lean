import Verif.Spec.Sister
import Verif.Lemmas.Recolor
import Verif.Lemmas.PageRun
import Verif.Spec.Narrow
/-
A message rendered on a sign with classic colors and on one with 24-bit colors.
-/
namespace Ntcip
open Spec

/-- the color is one of a list, or the default color -/
def ListedOr (x : Rgb) (c : Color) : Prop := (∃ v, c = .legacy v) ∨ c = .ofRgb x

/-- the contexts of both signs -/
structure SisterCtx (c c' : ColorCtx) : Prop where
  scheme : c.colorScheme = .colorClassic
  eq : c' = { c with colorScheme := .color24Bit }
  curF : ListedOr c.fgDefault c.fgCurrent
  curB : ListedOr c.bgDefault c.bgCurrent

section Sister
variable {c c' : ColorCtx}

theorem SisterCtx.legacy (h : SisterCtx c c') (v : UInt8) : c'.rgb (.legacy v) = c.rgb (.legacy v) := by
  rw [h.eq]
  simp [ColorCtx.rgb, h.scheme]

theorem SisterCtx.fgRgb (h : SisterCtx c c') : c.foregroundRgb = c'.foregroundRgb := by
  have e1 : c'.fgCurrent = c.fgCurrent := by rw [h.eq]
  have e2 : c'.fgDefault = c.fgDefault := by rw [h.eq]
  unfold ColorCtx.foregroundRgb
  rw [e1, e2]
  rcases h.curF with ⟨v, e⟩ | e
  · rw [e, h.legacy]
  · rw [e, rgb_eq, rgb_eq, h.scheme, show c'.colorScheme = .color24Bit by rw [h.eq]]
    rfl

theorem SisterCtx.bgRgb (h : SisterCtx c c') : c.backgroundRgb = c'.backgroundRgb := by
  have e1 : c'.bgCurrent = c.bgCurrent := by rw [h.eq]
  have e2 : c'.bgDefault = c.bgDefault := by rw [h.eq]
  unfold ColorCtx.backgroundRgb
  rw [e1, e2]
  rcases h.curB with ⟨v, e⟩ | e
  · rw [e, h.legacy]
  · rw [e, rgb_eq, rgb_eq, h.scheme, show c'.colorScheme = .color24Bit by rw [h.eq]]
    rfl

theorem SisterCtx.setF (h : SisterCtx c c') (x : Option Color) (v : Value) (hx : ∀ r g b, x ≠ some (.rgb r g b)) :
    Except.Rel SisterCtx (c.setForeground x v) (c'.setForeground x v) := by
  unfold ColorCtx.setForeground
  match x with
  | none =>
    refine ⟨h.scheme, ?_, .inr rfl, h.curB⟩
    rw [h.eq]
  | some (.rgb r g b) => exact absurd rfl (hx r g b)
  | some (.legacy u) =>
    dsimp only
    rw [h.legacy]
    cases c.rgb (.legacy u) with
    | none => exact rfl
    | some y =>
      refine ⟨h.scheme, ?_, .inl ⟨u, rfl⟩, h.curB⟩
      rw [h.eq]

theorem SisterCtx.setB (h : SisterCtx c c') (x : Option Color) (v : Value) (hx : ∀ r g b, x ≠ some (.rgb r g b)) :
    Except.Rel SisterCtx (c.setBackground x v) (c'.setBackground x v) := by
  unfold ColorCtx.setBackground
  match x with
  | none =>
    refine ⟨h.scheme, ?_, h.curF, .inr rfl⟩
    rw [h.eq]
  | some (.rgb r g b) => exact absurd rfl (hx r g b)
  | some (.legacy u) =>
    dsimp only
    rw [h.legacy]
    cases c.rgb (.legacy u) with
    | none => exact rfl
    | some y =>
      refine ⟨h.scheme, ?_, h.curF, .inl ⟨u, rfl⟩⟩
      rw [h.eq]

theorem SisterCtx.pixel (h : SisterCtx c c') (g : Graphic) (hg : g.gtype ≠ .monochrome1Bit) (x y : Nat) :
    g.pixelFn x y c = g.pixelFn x y c' := by
  have e8 : g.pixel8 x y c = g.pixel8 x y c' := by
    unfold Graphic.pixel8
    simp only [h.legacy]
  unfold Graphic.pixelFn
  split
  · exact absurd ‹_› hg
  · exact e8
  · exact e8
  · rfl

end Sister

theorem optionRel_self {α} (x : Option α) : Option.Rel (fun a b : α => a = b) x x := by cases x <;> trivial

theorem resRel_self {α} (x : Res (Option α)) : Res.Rel (Option.Rel (fun a b : α => a = b)) x x := by
  cases x
  · exact optionRel_self _
  · exact rfl

/-- the contexts of both signs, with their default colors -/
structure SisterOf (d : Dms) (c c' : ColorCtx) : Prop where
  ctx : SisterCtx c c'
  fg : c.fgDefault = signForeground d
  bg : c.bgDefault = signBackground d

theorem set_default {c : ColorCtx} {x v a} (h : c.setForeground x v = .ok a) : a.fgDefault = c.fgDefault ∧ a.bgDefault = c.bgDefault := by
  unfold ColorCtx.setForeground at h
  split at h
  · split at h
    · cases h; exact ⟨rfl, rfl⟩
    · cases h
  · cases h; exact ⟨rfl, rfl⟩

theorem setB_default {c : ColorCtx} {x v a} (h : c.setBackground x v = .ok a) : a.fgDefault = c.fgDefault ∧ a.bgDefault = c.bgDefault := by
  unfold ColorCtx.setBackground at h
  split at h
  · split at h
    · cases h; exact ⟨rfl, rfl⟩
    · cases h
  · cases h; exact ⟨rfl, rfl⟩

theorem SisterOf.setF {d c c'} (h : SisterOf d c c') (x : Option Color) (v : Value) (hx : ∀ r g b, x ≠ some (.rgb r g b)) :
    Except.Rel (SisterOf d) (c.setForeground x v) (c'.setForeground x v) := by
  have := h.ctx.setF x v hx
  cases h1 : c.setForeground x v <;> cases h2 : c'.setForeground x v <;> rw [h1, h2] at this <;> simp only [Except.Rel] at this
  · exact this
  · exact ⟨this, (set_default h1).1.trans h.fg, (set_default h1).2.trans h.bg⟩

theorem SisterOf.setB {d c c'} (h : SisterOf d c c') (x : Option Color) (v : Value) (hx : ∀ r g b, x ≠ some (.rgb r g b)) :
    Except.Rel (SisterOf d) (c.setBackground x v) (c'.setBackground x v) := by
  have := h.ctx.setB x v hx
  cases h1 : c.setBackground x v <;> cases h2 : c'.setBackground x v <;> rw [h1, h2] at this <;> simp only [Except.Rel] at this
  · exact this
  · exact ⟨this, (setB_default h1).1.trans h.fg, (setB_default h1).2.trans h.bg⟩

theorem drawnOver_self {P : Rgb → Rgb → Prop} (hP : ∀ a, P a a) (x : Option Rgb) : DrawnOver P x x := by
  intro a b h
  cases x
  · exact h
  · exact hP _

/-- the current color on both signs: the same, or on the sign with 24-bit colors the default color -/
theorem cur_over {d c c'} (h : SisterOf d c c') {x y : Color} {r : Rgb} (e : y = x) (hx : ListedOr r x)
    (hr : r = signForeground d ∨ r = signBackground d) : DrawnOver (SameOrDefault d) (c.rgb x) (c'.rgb y) := by
  subst e
  rcases hx with ⟨v, rfl⟩ | rfl
  · rw [h.ctx.legacy]; exact drawnOver_self (fun _ => .inl rfl) _
  · intro a b _
    rw [show c'.rgb (.ofRgb r) = some r by rw [h.ctx.eq]; rfl]
    exact .inr hr

theorem SisterOf.pixel {d c c'} (h : SisterOf d c c') (g : Graphic) (x y : Nat) :
    Res.Rel (DrawnOver (SameOrDefault d)) (g.pixelFn x y c) (g.pixelFn x y c') := by
  by_cases hg : g.gtype = .monochrome1Bit
  · unfold Graphic.pixelFn
    rw [hg]
    dsimp only
    unfold Graphic.pixel1
    refine Res.Rel.refl_bind fun b => ?_
    dsimp only
    split
    · exact drawnOver_self (fun _ => .inl rfl) _
    · split
      · exact drawnOver_self (fun _ => .inl rfl) _
      · split
        · exact cur_over h (by rw [h.ctx.eq]) h.ctx.curB (.inr h.bg)
        · exact cur_over h (by rw [h.ctx.eq]) h.ctx.curF (.inl h.fg)
  · rw [h.ctx.pixel g hg]
    cases g.pixelFn x y c'
    · exact drawnOver_self (fun _ => .inl rfl) _
    · exact rfl

/-- the values of such messages -/
def SisterValue (d : Dms) (v : Value) : Prop :=
  (∀ r g b, v ≠ .colorForeground (some (.rgb r g b)) ∧ v ≠ .colorBackground (some (.rgb r g b)) ∧
    v ≠ .pageBackground (some (.rgb r g b)) ∧ ∀ rect, v ≠ .colorRectangle rect (.rgb r g b)) ∧
  ∀ n pos, v = .graphic n pos → ∀ g ∈ d.graphicDefinition, g.number = n → g.gtype ≠ .monochrome1Bit

/-- the values of messages with bitmaps -/
def SisterColors (v : Value) : Prop :=
  ∀ r g b, v ≠ .colorForeground (some (.rgb r g b)) ∧ v ≠ .colorBackground (some (.rgb r g b)) ∧
    v ≠ .pageBackground (some (.rgb r g b)) ∧ ∀ rect, v ≠ .colorRectangle rect (.rgb r g b)

theorem sisterOf_sim (d d' : Dms) : ColorSim (SameOrDefault d) (SisterOf d) SisterColors d d' := by
  constructor
  · intro c c' h; exact .inl h.ctx.fgRgb
  · intro c c' h; exact .inl h.ctx.bgRgb
  · intro c c' x h hv; exact h.setF _ _ fun r g b e => (hv r g b).1 (by rw [e])
  · intro c c' x h hv; exact h.setB _ _ fun r g b e => (hv r g b).2.1 (by rw [e])
  · intro c c' x h hv; exact h.setB _ _ fun r g b e => (hv r g b).2.2.1 (by rw [e])
  · intro c c' r x h hv
    exact h.setF _ _ fun r' g b e => (hv r' g b).2.2.2 r (by rw [Option.some.inj e])
  · intro c c' n pos g x y h _ _ _; exact h.pixel g x y

theorem sister_sim (d d' : Dms) : ColorSim (fun a b => a = b) SisterCtx (SisterValue d) d d' := by
  constructor
  · intro c c' h; exact h.fgRgb
  · intro c c' h; exact h.bgRgb
  · intro c c' x h hv; exact h.setF _ _ fun r g b e => (hv.1 r g b).1 (by rw [e])
  · intro c c' x h hv; exact h.setB _ _ fun r g b e => (hv.1 r g b).2.1 (by rw [e])
  · intro c c' x h hv; exact h.setB _ _ fun r g b e => (hv.1 r g b).2.2.1 (by rw [e])
  · intro c c' r x h hv
    exact h.setF _ _ fun r' g b e => (hv.1 r' g b).2.2.2 r (by rw [Option.some.inj e])
  · intro c c' n pos g x y h hv hm hn
    rw [h.pixel g (hv.2 n pos rfl g hm hn)]
    exact (resRel_self _).over

theorem recolored_eq {p q : Page} (h : RecoloredPage (fun a b => a = b) p q) : q = p := by
  obtain ⟨⟨w, ht, px⟩, t⟩ := p
  obtain ⟨⟨w', ht', px'⟩, t'⟩ := q
  obtain ⟨h1, h2, h3, h4⟩ := h
  dsimp only at h1 h2 h3 h4
  have : px' = px := by funext i j; exact (h4 i j).symm
  rw [h1, h2, h3, this]

theorem result_eq {p q : Except SyntaxError Page} (h : Except.Rel (RecoloredPage (fun a b => a = b)) p q) : q = p := by
  cases p <;> cases q <;> simp only [Except.Rel] at h
  · rw [h]
  · rw [recolored_eq h]

theorem steps_sister {K V} {d d' : Dms} (hd : SameButColors d d') (hs : ColorSim (fun a b => a = b) K V d d')
    {pg pg' pg1 : Pages} {xs} (h : TintP K V pg pg') (hx : Steps d pg xs pg1) :
    ∃ pg1', Steps d' pg' xs pg1' ∧ TintP K V pg1 pg1' := by
  induction hx generalizing pg' with
  | nil => exact ⟨pg', .nil, h⟩
  | @cons pg pg2 pg3 x xs hn _ ih =>
    have := next_rel hd hs h
    rw [hn] at this
    cases hy : Pages.next d' pg' with
    | panic p => rw [hy] at this; exact this.elim
    | ok q =>
      rw [hy] at this
      obtain ⟨x', pg2'⟩ := q
      obtain ⟨h1, h2⟩ := this
      cases x' with
      | none => exact h1.elim
      | some x' =>
        have e := result_eq h1
        subst e
        obtain ⟨pg3', h3, h4⟩ := ih h2
        refine ⟨pg3', ?_, h4⟩
        rw [← h.pageState]
        exact .cons hy h3

theorem steps_sister_back {K V} {d d' : Dms} (hd : SameButColors d d') (hs : ColorSim (fun a b => a = b) K V d d')
    {pg pg' pg1' : Pages} {xs} (h : TintP K V pg pg') (hx : Steps d' pg' xs pg1') :
    ∃ pg1, Steps d pg xs pg1 ∧ TintP K V pg1 pg1' := by
  induction hx generalizing pg with
  | nil => exact ⟨pg, .nil, h⟩
  | @cons pg' pg2' pg3' x xs hn _ ih =>
    have := next_rel hd hs h
    rw [hn] at this
    cases hy : Pages.next d pg with
    | panic p => rw [hy] at this; exact this.elim
    | ok q =>
      rw [hy] at this
      obtain ⟨x', pg2⟩ := q
      obtain ⟨h1, h2⟩ := this
      cases x' with
      | none => exact h1.elim
      | some x' =>
        have e := result_eq h1
        subst e
        obtain ⟨pg3, h3, h4⟩ := ih h2
        refine ⟨pg3, ?_, h4⟩
        rw [h.pageState]
        exact .cons hy h3

/-- results of two signs -/
def CrossResult (P : Rgb → Rgb → Prop) (x y : Bool × Except SyntaxError Page) : Prop :=
  x.1 = y.1 ∧ Except.Rel (RecoloredPage P) x.2 y.2

theorem steps_cross {P K V} {d d' : Dms} (hd : SameButColors d d') (hs : ColorSim P K V d d')
    {pg pg' pg1 : Pages} {xs} (h : TintP K V pg pg') (hx : Steps d pg xs pg1) :
    ∃ ys pg1', Steps d' pg' ys pg1' ∧ TintP K V pg1 pg1' ∧ Pairwise2 (CrossResult P) xs ys := by
  induction hx generalizing pg' with
  | nil => exact ⟨[], pg', .nil, h, .nil⟩
  | @cons pg pg2 pg3 x xs hn _ ih =>
    have := next_rel hd hs h
    rw [hn] at this
    cases hy : Pages.next d' pg' with
    | panic p => rw [hy] at this; exact this.elim
    | ok q =>
      rw [hy] at this
      obtain ⟨x', pg2'⟩ := q
      obtain ⟨h1, h2⟩ := this
      cases x' with
      | none => exact h1.elim
      | some x' =>
        obtain ⟨ys, pg3', h3, h4, h5⟩ := ih h2
        exact ⟨_, pg3', .cons hy h3, h4, .cons ⟨by rw [h.pageState], h1⟩ h5⟩

end Ntcip
