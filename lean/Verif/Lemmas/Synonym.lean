import Verif.Lemmas.Recolor
import Verif.Lemmas.PageErr
import Verif.Spec.Synonym
/-
Two messages that say the same in other words, rendered side by side.
-/
namespace Ntcip
open Spec

/-! ### colors -/

/-- a color context of the sign -/
structure OfSign (d : Dms) (c : ColorCtx) : Prop where
  scheme : c.colorScheme = d.multiCfg.colorScheme
  fg : c.fgDefault = signForeground d
  bg : c.bgDefault = signBackground d

/-- contexts whose colors look alike -/
structure CtxLike (d : Dms) (g : Bool) (c c' : ColorCtx) : Prop where
  left : OfSign d c
  right : OfSign d c'
  fg : c'.foregroundRgb = c.foregroundRgb
  bg : c'.backgroundRgb = c.backgroundRgb
  fgPx : g = true → c'.rgb c'.fgCurrent = c.rgb c.fgCurrent
  bgPx : g = true → c'.rgb c'.bgCurrent = c.rgb c.bgCurrent

theorem OfSign.rgb {d : Dms} {c : ColorCtx} (h : OfSign d c) (x : Color) :
    c.rgb x = colorValue d.multiCfg.colorScheme (signForeground d) (signBackground d) x := by
  rw [rgb_eq, h.scheme, h.fg, h.bg]

/-- what a color becomes as foreground -/
def asForeground (d : Dms) : Option Color → Color
  | some c => c
  | none => .ofRgb (signForeground d)

/-- what a color becomes as background -/
def asBackground (d : Dms) : Option Color → Color
  | some c => c
  | none => .ofRgb (signBackground d)

/-- may the color be set? -/
def settable (d : Dms) : Option Color → Prop
  | some c => ∃ x, colorValue d.multiCfg.colorScheme (signForeground d) (signBackground d) c = some x
  | none => True

theorem setForeground_sign {d : Dms} {c : ColorCtx} (h : OfSign d c) (a : Option Color) (v : Value) :
    (settable d a ∧ c.setForeground a v = .ok { c with fgCurrent := asForeground d a }) ∨
      (¬ settable d a ∧ c.setForeground a v = .error (.unsupportedTagValue v.display)) := by
  unfold ColorCtx.setForeground settable asForeground
  cases a with
  | none => left; exact ⟨trivial, by simp only [h.fg]⟩
  | some a =>
    simp only [h.rgb]
    cases colorValue d.multiCfg.colorScheme (signForeground d) (signBackground d) a with
    | none => right; simp
    | some x => left; simp

theorem setBackground_sign {d : Dms} {c : ColorCtx} (h : OfSign d c) (a : Option Color) (v : Value) :
    (settable d a ∧ c.setBackground a v = .ok { c with bgCurrent := asBackground d a }) ∨
      (¬ settable d a ∧ c.setBackground a v = .error (.unsupportedTagValue v.display)) := by
  unfold ColorCtx.setBackground settable asBackground
  cases a with
  | none => left; exact ⟨trivial, by simp only [h.bg]⟩
  | some a =>
    simp only [h.rgb]
    cases colorValue d.multiCfg.colorScheme (signForeground d) (signBackground d) a with
    | none => right; simp
    | some x => left; simp

theorem shown_settable {d : Dms} {g dflt a x} (h : shownColor d g dflt a = some x) : settable d a := by
  cases a with
  | none => trivial
  | some a => exact ⟨x, h⟩

theorem shown_asForeground {d : Dms} {g a x} (h : shownColor d g (signForeground d) a = some x) :
    (colorValue d.multiCfg.colorScheme (signForeground d) (signBackground d) (asForeground d a)).getD (signForeground d) = x ∧
      (g = true → colorValue d.multiCfg.colorScheme (signForeground d) (signBackground d) (asForeground d a) = some x) := by
  cases a with
  | some a => unfold shownColor at h; unfold asForeground; simp only at h ⊢; rw [h]; exact ⟨rfl, fun _ => rfl⟩
  | none =>
    unfold shownColor at h
    simp only at h
    split at h
    · cases h
    · rename_i hn
      cases h
      unfold asForeground Color.ofRgb colorValue
      simp only
      split
      · exact ⟨rfl, fun _ => rfl⟩
      · rename_i hs
        exact ⟨rfl, fun hg => absurd ⟨hg, hs⟩ hn⟩

theorem shown_asBackground {d : Dms} {g a x} (h : shownColor d g (signBackground d) a = some x) :
    (colorValue d.multiCfg.colorScheme (signForeground d) (signBackground d) (asBackground d a)).getD (signBackground d) = x ∧
      (g = true → colorValue d.multiCfg.colorScheme (signForeground d) (signBackground d) (asBackground d a) = some x) := by
  cases a with
  | some a => unfold shownColor at h; unfold asBackground; simp only at h ⊢; rw [h]; exact ⟨rfl, fun _ => rfl⟩
  | none =>
    unfold shownColor at h
    simp only at h
    split at h
    · cases h
    · rename_i hn
      cases h
      unfold asBackground Color.ofRgb colorValue
      simp only
      split
      · exact ⟨rfl, fun _ => rfl⟩
      · rename_i hs
        exact ⟨rfl, fun hg => absurd ⟨hg, hs⟩ hn⟩

theorem foregroundRgb_ofSign {d : Dms} {c : ColorCtx} (h : OfSign d c) : c.foregroundRgb =
    (colorValue d.multiCfg.colorScheme (signForeground d) (signBackground d) c.fgCurrent).getD (signForeground d) := by
  unfold ColorCtx.foregroundRgb
  rw [h.rgb, h.fg]
  cases colorValue d.multiCfg.colorScheme (signForeground d) (signBackground d) c.fgCurrent <;> rfl

theorem backgroundRgb_ofSign {d : Dms} {c : ColorCtx} (h : OfSign d c) : c.backgroundRgb =
    (colorValue d.multiCfg.colorScheme (signForeground d) (signBackground d) c.bgCurrent).getD (signBackground d) := by
  unfold ColorCtx.backgroundRgb
  rw [h.rgb, h.bg]
  cases colorValue d.multiCfg.colorScheme (signForeground d) (signBackground d) c.bgCurrent <;> rfl

/-- both succeed with related results, or both fail with errors related by `E` -/
def Except.RelE {ε ζ α β : Type} (E : ε → ζ → Prop) (R : α → β → Prop) : Except ε α → Except ζ β → Prop
  | .ok a, .ok b => R a b
  | .error e, .error f => E e f
  | _, _ => False

/-- both succeed with related results, or both fail with errors related by `E`, or both panic -/
def Out.RelE {ε ζ α β : Type} (E : ε → ζ → Prop) (R : α → β → Prop) : Out ε α → Out ζ β → Prop
  | .ok a, .ok b => R a b
  | .err e, .err f => E e f
  | .panic p, .panic q => p = q
  | _, _ => False

theorem Out.RelE.bind {ε ζ α β γ δ : Type} {E : ε → ζ → Prop} {R : α → β → Prop} {S : γ → δ → Prop} {x : Out ε α}
    {y : Out ζ β} {f : α → Out ε γ} {g : β → Out ζ δ} (h : Out.RelE E R x y)
    (hf : ∀ a b, R a b → Out.RelE E S (f a) (g b)) : Out.RelE E S (x >>= f) (y >>= g) := by
  cases x <;> cases y <;> simp only [Out.RelE] at h
  · exact hf _ _ h
  · exact h
  · exact h

theorem Except.RelE.out {ε ζ α β : Type} {E : ε → ζ → Prop} {R : α → β → Prop} {x : Except ε α} {y : Except ζ β}
    (h : Except.RelE E R x y) : Out.RelE E R (ofExcept x) (ofExcept y) := by
  cases x <;> cases y <;> simp only [Except.RelE] at h <;> exact h

section Colors
variable {d : Dms} {g : Bool}

theorem CtxLike.setF {c c' : ColorCtx} (h : CtxLike d g c c') {a b : Option Color}
    (hs : SameShown d g (signForeground d) a b) {v w : Value} (hvw : Synonym d g v w) :
    Except.RelE (SameError d g) (CtxLike d g) (c.setForeground a v) (c'.setForeground b w) := by
  have hset : settable d a ↔ settable d b := by
    rcases hs with rfl | ⟨x, h1, h2⟩
    · exact Iff.rfl
    · exact ⟨fun _ => shown_settable h2, fun _ => shown_settable h1⟩
  rcases setForeground_sign h.left a v with ⟨ha, e⟩ | ⟨ha, e⟩ <;>
    rcases setForeground_sign h.right b w with ⟨hb, e'⟩ | ⟨hb, e'⟩ <;> rw [e, e']
  · have key : (colorValue d.multiCfg.colorScheme (signForeground d) (signBackground d) (asForeground d b)).getD
          (signForeground d) =
        (colorValue d.multiCfg.colorScheme (signForeground d) (signBackground d) (asForeground d a)).getD (signForeground d) ∧
        (g = true → colorValue d.multiCfg.colorScheme (signForeground d) (signBackground d) (asForeground d b) =
          colorValue d.multiCfg.colorScheme (signForeground d) (signBackground d) (asForeground d a)) := by
      rcases hs with rfl | ⟨x, h1, h2⟩
      · exact ⟨rfl, fun _ => rfl⟩
      · have k1 := shown_asForeground h1
        have k2 := shown_asForeground h2
        exact ⟨by rw [k1.1, k2.1], fun hg => by rw [k1.2 hg, k2.2 hg]⟩
    have l : OfSign d { c with fgCurrent := asForeground d a } := ⟨h.left.scheme, h.left.fg, h.left.bg⟩
    have r : OfSign d { c' with fgCurrent := asForeground d b } := ⟨h.right.scheme, h.right.fg, h.right.bg⟩
    refine ⟨l, r, ?_, ?_, fun hg => ?_, fun hg => ?_⟩
    · rw [foregroundRgb_ofSign l, foregroundRgb_ofSign r]; exact key.1
    · have := h.bg
      rw [backgroundRgb_ofSign h.left, backgroundRgb_ofSign h.right] at this
      rw [backgroundRgb_ofSign l, backgroundRgb_ofSign r]; exact this
    · rw [l.rgb, r.rgb]; exact key.2 hg
    · have := h.bgPx hg
      rw [h.left.rgb, h.right.rgb] at this
      rw [l.rgb, r.rgb]; exact this
  · exact absurd (hset.1 ha) hb
  · exact absurd (hset.2 hb) ha
  · exact .value hvw

theorem CtxLike.setB {c c' : ColorCtx} (h : CtxLike d g c c') {a b : Option Color}
    (hs : SameShown d g (signBackground d) a b) {v w : Value} (hvw : Synonym d g v w) :
    Except.RelE (SameError d g) (CtxLike d g) (c.setBackground a v) (c'.setBackground b w) := by
  have hset : settable d a ↔ settable d b := by
    rcases hs with rfl | ⟨x, h1, h2⟩
    · exact Iff.rfl
    · exact ⟨fun _ => shown_settable h2, fun _ => shown_settable h1⟩
  rcases setBackground_sign h.left a v with ⟨ha, e⟩ | ⟨ha, e⟩ <;>
    rcases setBackground_sign h.right b w with ⟨hb, e'⟩ | ⟨hb, e'⟩ <;> rw [e, e']
  · have key : (colorValue d.multiCfg.colorScheme (signForeground d) (signBackground d) (asBackground d b)).getD
          (signBackground d) =
        (colorValue d.multiCfg.colorScheme (signForeground d) (signBackground d) (asBackground d a)).getD (signBackground d) ∧
        (g = true → colorValue d.multiCfg.colorScheme (signForeground d) (signBackground d) (asBackground d b) =
          colorValue d.multiCfg.colorScheme (signForeground d) (signBackground d) (asBackground d a)) := by
      rcases hs with rfl | ⟨x, h1, h2⟩
      · exact ⟨rfl, fun _ => rfl⟩
      · have k1 := shown_asBackground h1
        have k2 := shown_asBackground h2
        exact ⟨by rw [k1.1, k2.1], fun hg => by rw [k1.2 hg, k2.2 hg]⟩
    have l : OfSign d { c with bgCurrent := asBackground d a } := ⟨h.left.scheme, h.left.fg, h.left.bg⟩
    have r : OfSign d { c' with bgCurrent := asBackground d b } := ⟨h.right.scheme, h.right.fg, h.right.bg⟩
    refine ⟨l, r, ?_, ?_, fun hg => ?_, fun hg => ?_⟩
    · have := h.fg
      rw [foregroundRgb_ofSign h.left, foregroundRgb_ofSign h.right] at this
      rw [foregroundRgb_ofSign l, foregroundRgb_ofSign r]; exact this
    · rw [backgroundRgb_ofSign l, backgroundRgb_ofSign r]; exact key.1
    · have := h.fgPx hg
      rw [h.left.rgb, h.right.rgb] at this
      rw [l.rgb, r.rgb]; exact this
    · rw [l.rgb, r.rgb]; exact key.2 hg
  · exact absurd (hset.1 ha) hb
  · exact absurd (hset.2 hb) ha
  · exact .value hvw

/-- pixels of graphics -/
theorem CtxLike.pixel {c c' : ColorCtx} (h : CtxLike d g c c') (hg : g = true) (gr : Graphic) (x y : Nat) :
    gr.pixelFn x y c' = gr.pixelFn x y c := by
  have e : ∀ k, c'.rgb k = c.rgb k := fun k => by rw [h.left.rgb, h.right.rgb]
  unfold Graphic.pixelFn Graphic.pixel1 Graphic.pixel8
  rw [h.fgPx hg, h.bgPx hg]
  simp only [e]

theorem CtxLike.drawn {c c' : ColorCtx} (h : CtxLike d g c c') (hg : g = true) (gr : Graphic) (r : Raster) (x y : Nat) :
    gr.renderGraphic r x y c' = gr.renderGraphic r x y c := by
  have e : ∀ ps r, gr.renderLoop c' (x - 1) (y - 1) ps r = gr.renderLoop c (x - 1) (y - 1) ps r := by
    intro ps
    induction ps with
    | nil => intro r; rfl
    | cons p ps ih =>
      intro r
      obtain ⟨i, j⟩ := p
      unfold Graphic.renderLoop
      rw [h.pixel hg]
      simp only [ih]
  unfold Graphic.renderGraphic
  rw [e]

end Colors

/-! ### states -/

/-- the state with a fixed color context, and without the version ID of the font where it is the right one -/
def RenderState.plain (t : FontTable) (c : ColorCtx) (rs : RenderState) : RenderState :=
  { rs with colorCtx := c,
            fontVersionId := if rs.fontVersionId = (t.font rs.fontNum).map Font.versionId then none else rs.fontVersionId }

/-- the same for a span -/
def Span.plain (t : FontTable) (c : ColorCtx) (s : Span) : Span := { s with state := s.state.plain t c }

section Plain
variable (c : ColorCtx) (t : FontTable)

theorem font_plain (rs : RenderState) : (rs.plain t c).font t = rs.font t := by
  unfold RenderState.font RenderState.plain
  dsimp only
  cases ht : t.font rs.fontNum with
  | none => simp
  | some f =>
    cases hv : rs.fontVersionId with
    | none => simp
    | some v =>
      by_cases e : v = f.versionId
      · simp [e]
      · simp [e]

theorem charSpacingFonts_plain (s : Span) : (s.plain t c).charSpacingFonts t = s.charSpacingFonts t := by
  unfold Span.charSpacingFonts
  rw [show (s.plain t c).state = s.state.plain t c from rfl, font_plain]
  rfl

theorem width_plain (s : Span) : (s.plain t c).width t = s.width t := by
  unfold Span.width
  rw [charSpacingFonts_plain, show (s.plain t c).state = s.state.plain t c from rfl, font_plain]
  rfl

theorem between_plain (s p : Span) : (s.plain t c).charSpacingBetween (p.plain t c) t = s.charSpacingBetween p t := by
  unfold Span.charSpacingBetween
  rw [charSpacingFonts_plain, charSpacingFonts_plain]
  rfl

theorem height_plain (s : Span) : (s.plain t c).height t = s.height t := by
  unfold Span.height
  rw [show (s.plain t c).state = s.state.plain t c from rfl, font_plain]

theorem fontSpacing_plain (s : Span) : (s.plain t c).fontSpacing t = s.fontSpacing t := by
  unfold Span.fontSpacing
  rw [show (s.plain t c).state = s.state.plain t c from rfl, font_plain]

theorem offsetHorizLoop_plain (rs : RenderState) (l : List Span) (p : Option Span) (b a : Nat) :
    offsetHorizLoop t (rs.plain t c) (l.map (Span.plain t c)) (p.map (Span.plain t c)) b a =
      offsetHorizLoop t rs l p b a := by
  induction l generalizing p b a with
  | nil => rfl
  | cons s l ih =>
    have ih' := ih (some s)
    rw [Option.map_some] at ih'
    cases p with
    | none =>
      simp only [List.map_cons, Option.map_none, offsetHorizLoop, width_plain, ih']
      rfl
    | some p =>
      simp only [List.map_cons, Option.map_some, offsetHorizLoop, width_plain, between_plain, ih']
      rfl

theorem textLines_plain (l : List Span) (ls : List TextLine) :
    textLines t (l.map (Span.plain t c)) ls = textLines t l ls := by
  induction l generalizing ls with
  | nil => rfl
  | cons s l ih =>
    rw [List.map_cons, textLines, textLines, height_plain, fontSpacing_plain]
    simp only [ih]
    rfl

theorem filter_plain (p q : Span → Bool) (h : ∀ s, p (s.plain t c) = q s) (l : List Span) :
    (l.map (Span.plain t c)).filter p = (l.filter q).map (Span.plain t c) := by
  induction l with
  | nil => rfl
  | cons s l ih =>
    rw [List.map_cons, List.filter_cons, List.filter_cons, h, ih]
    split <;> rfl

theorem checkJustLoop_plain (l : List Span) (jp jl n) :
    checkJustLoop jp jl n (l.map (Span.plain t c)) = checkJustLoop jp jl n l := by
  induction l generalizing jp jl n with
  | nil => rfl
  | cons s l ih =>
    simp only [List.map_cons, checkJustLoop, ih]
    rfl

theorem offsetHoriz_plain (d : Dms) (l : List Span) (s : Span) :
    offsetHoriz d (l.map (Span.plain d.fontDefinition c)) (s.plain d.fontDefinition c) = offsetHoriz d l s := by
  unfold offsetHoriz
  dsimp only
  rw [filter_plain c d.fontDefinition (q := fun x => s.state.matchesSpan x.state) (h := fun _ => rfl)]
  rw [show offsetHorizLoop d.fontDefinition (s.plain d.fontDefinition c).state
    ((l.filter fun x => s.state.matchesSpan x.state).map (Span.plain d.fontDefinition c)) none 0 0 = _ from
    offsetHorizLoop_plain c d.fontDefinition s.state _ none 0 0]
  rfl

theorem offsetVert_plain (d : Dms) (l : List Span) (s : Span) :
    offsetVert d (l.map (Span.plain d.fontDefinition c)) (s.plain d.fontDefinition c) = offsetVert d l s := by
  unfold offsetVert
  dsimp only
  rw [filter_plain c d.fontDefinition (q := fun x => s.state.matchesLine x.state) (h := fun _ => rfl), textLines_plain]
  rfl

theorem spanX_plain (d : Dms) (l : List Span) (s : Span) :
    spanX d (l.map (Span.plain d.fontDefinition c)) (s.plain d.fontDefinition c) = spanX d l s := by
  unfold spanX spanXLeft spanXCenter spanXRight
  rw [offsetHoriz_plain]
  rfl

theorem spanY_plain (d : Dms) (l : List Span) (s : Span) :
    spanY d (l.map (Span.plain d.fontDefinition c)) (s.plain d.fontDefinition c) = spanY d l s := by
  unfold spanY baseline baselineTop baselineMiddle baselineBottom
  rw [offsetVert_plain, height_plain]
  rfl

end Plain

/-- states that look alike -/
structure Like (d : Dms) (g : Bool) (rs rs' : RenderState) : Prop where
  ctx : CtxLike d g rs.colorCtx rs'.colorCtx
  eq : ∀ c, rs'.plain d.fontDefinition c = rs.plain d.fontDefinition c

/-- spans that look alike -/
def LikeS (d : Dms) (g : Bool) (s s' : Span) : Prop := Like d g s.state s'.state ∧ s'.str = s.str

section Draw
variable {d : Dms} {g : Bool}

theorem LikeS.plain {s s' : Span} (h : LikeS d g s s') (c : ColorCtx) :
    s'.plain d.fontDefinition c = s.plain d.fontDefinition c := by
  unfold Span.plain
  rw [h.1.eq c, h.2]

theorem All2.plain {l l' : List Span} (h : All2 (LikeS d g) l l') (c : ColorCtx) :
    l'.map (Span.plain d.fontDefinition c) = l.map (Span.plain d.fontDefinition c) := by
  induction h with
  | nil => rfl
  | cons h1 _ ih => rw [List.map_cons, List.map_cons, ih, h1.plain]

theorem renderSpansLoop_like {l l' : List Span} (hl : All2 (LikeS d g) l l') {ss ss' : List Span}
    (hss : All2 (LikeS d g) ss ss') (r : Raster) : renderSpansLoop d l' ss' r = renderSpansLoop d l ss r := by
  induction hss generalizing r with
  | nil => rfl
  | cons h1 _ ih =>
    rename_i s s' _ _ _
    have ex : spanX d l' s' = spanX d l s := by
      rw [← spanX_plain s.state.colorCtx d l', ← spanX_plain s.state.colorCtx d l, hl.plain, h1.plain]
    have ey : spanY d l' s' = spanY d l s := by
      rw [← spanY_plain s.state.colorCtx d l', ← spanY_plain s.state.colorCtx d l, hl.plain, h1.plain]
    have ef : s'.state.font d.fontDefinition = s.state.font d.fontDefinition := by
      rw [← font_plain s.state.colorCtx, h1.1.eq, font_plain]
    have ec : ∀ f, s'.charSpacingFont f = s.charSpacingFont f := by
      intro f
      have := congrArg RenderState.charSpacing (h1.1.eq s.state.colorCtx)
      unfold Span.charSpacingFont
      rw [show s'.state.charSpacing = s.state.charSpacing from this]
    unfold renderSpansLoop Span.renderText
    rw [ex, ey, ef, h1.1.ctx.fg, h1.2]
    simp only [ih, ec]

theorem renderTextSpans_like {l l' : List Span} (hl : All2 (LikeS d g) l l') (r : Raster) :
    renderTextSpans d l' r = renderTextSpans d l r := by
  have e : checkJustification l' = checkJustification l := by
    unfold checkJustification
    rw [← checkJustLoop_plain (signCtx d) d.fontDefinition l', ← checkJustLoop_plain (signCtx d) d.fontDefinition l, hl.plain]
  unfold renderTextSpans
  rw [e]
  split
  · rfl
  · exact renderSpansLoop_like hl hl r

/-- the raster has the size of the sign -/
def OfSize (d : Dms) (r : Raster) : Prop :=
  r.width = d.vmsCfg.signWidthPixels.toNat ∧ r.height = d.vmsCfg.signHeightPixels.toNat

theorem toNat_satSub (a b : UInt16) : (Rectangle.satSub a b).toNat = a.toNat - b.toNat := by
  unfold Rectangle.satSub
  split
  · rename_i h; rw [UInt16.toNat_sub_of_le _ _ h]
  · rename_i h
    have : ¬ b.toNat ≤ a.toNat := fun k => h (UInt16.le_iff_toNat_le.2 k)
    simp; omega

theorem extend_extent (r full : Rectangle) :
    (r.extendWidthHeight full).x = r.x ∧ (r.extendWidthHeight full).y = r.y ∧
      (r.extendWidthHeight full).width.toNat = extent full.width.toNat r.x.toNat r.width.toNat ∧
      (r.extendWidthHeight full).height.toNat = extent full.height.toNat r.y.toNat r.height.toNat := by
  have e : ∀ a : UInt16, a > 0 ↔ ¬ a.toNat = 0 := by
    intro a
    rw [show (a > 0) = (0 < a) from rfl, UInt16.lt_iff_toNat_lt]
    simp; omega
  refine ⟨rfl, rfl, ?_, ?_⟩ <;> unfold Rectangle.extendWidthHeight extent <;> simp only [e]
  · by_cases h : r.width.toNat = 0 <;> simp [h, toNat_satSub]
  · by_cases h : r.height.toNat = 0 <;> simp [h, toNat_satSub]

theorem Spec.SameRect.extended {r r' : Rectangle} (h : SameRect d r r') (full : Rectangle)
    (hw : full.width = d.vmsCfg.signWidthPixels) (hh : full.height = d.vmsCfg.signHeightPixels) :
    r'.extendWidthHeight full = r.extendWidthHeight full := by
  obtain ⟨a1, a2, a3, a4⟩ := extend_extent r full
  obtain ⟨b1, b2, b3, b4⟩ := extend_extent r' full
  have e3 : (r'.extendWidthHeight full).width = (r.extendWidthHeight full).width := by
    rw [← UInt16.toNat_inj, a3, b3, hw]; exact h.width
  have e4 : (r'.extendWidthHeight full).height = (r.extendWidthHeight full).height := by
    rw [← UInt16.toNat_inj, a4, b4, hh]; exact h.height
  cases hx : r'.extendWidthHeight full
  cases hy : r.extendWidthHeight full
  rw [hx] at b1 b2 e3 e4
  rw [hy] at a1 a2 e3 e4
  simp only at *
  rw [b1, a1, b2, a2, e3, e4, h.x, h.y]

theorem Spec.SameRect.refl (r : Rectangle) : SameRect d r r := ⟨rfl, rfl, rfl, rfl⟩

theorem renderRect_like {r r' : Rectangle} (h : SameRect d r r') {page : Raster} (hp : OfSize d page) (c : Rgb)
    {v w : Value} (hvw : Synonym d g v w) :
    Out.RelE (SameError d g) (fun a b => b = a ∧ OfSize d a) (renderRect page r c v) (renderRect page r' c w) := by
  unfold renderRect
  rw [h.x, h.y]
  split
  · exact rfl
  · split
    · exact rfl
    · have ew : UInt16.ofNat page.width = d.vmsCfg.signWidthPixels := by rw [hp.1]; simp
      have eh : UInt16.ofNat page.height = d.vmsCfg.signHeightPixels := by rw [hp.2]; simp
      rw [ew, eh]
      dsimp only
      rw [h.extended _ rfl rfl]
      cases (r.extendWidthHeight ⟨1, 1, d.vmsCfg.signWidthPixels, d.vmsCfg.signHeightPixels⟩).intersection .checked
        ⟨1, 1, d.vmsCfg.signWidthPixels, d.vmsCfg.signHeightPixels⟩ with
      | panic p => exact rfl
      | ok i =>
        simp only [Out.ofRes_ok, Out.ok_bind]
        split
        · exact ⟨rfl, hp⟩
        · exact .value hvw

theorem lookupGraphic_like {n : UInt8} {a b : Option UInt16}
    (h : SameVersion ((d.graphicDefinition.find? fun f => f.number == n).map Graphic.versionId) a b) :
    lookupGraphic d n b = lookupGraphic d n a := by
  rcases h with rfl | ⟨h1, h2⟩
  · rfl
  · unfold lookupGraphic GraphicTable.graphic
    cases hg : d.graphicDefinition.find? (fun f => f.number == n) with
    | none => cases a <;> cases b <;> rfl
    | some f =>
      rw [hg] at h1 h2
      rcases h1 with rfl | rfl <;> rcases h2 with rfl | rfl <;> simp

/-- items of the message are no graphics, if none are to be drawn -/
def NoGraphicIn (g : Bool) (ss : List Str) : Prop :=
  g = true ∨ ∀ s ∈ ss, ∀ n pos, tryFrom s ≠ .ok (.ok (.graphic n pos))

theorem graphicsLoop_graphic {s : Str} {n : UInt8} {a : Option (UInt16 × UInt16 × Option UInt16)}
    (h : tryFrom s = .ok (.ok (.graphic n a))) (rest : List Str) (c : ColorCtx) (r : Raster) :
    renderGraphicsLoop d (s :: rest) c r = (do
      let g ← lookupGraphic d n (a.getD (1, 1, none)).2.2
      let raster ← (g.renderGraphic r (a.getD (1, 1, none)).1.toNat (a.getD (1, 1, none)).2.1.toNat c).mapErr
        GraphicError.toSyntax
      renderGraphicsLoop d rest c raster) := by
  conv => lhs; unfold renderGraphicsLoop
  rw [h]
  simp only [Out.ofRes_ok, Out.ok_bind, ofExcept]
  rcases a with _ | ⟨x, y, gid⟩ <;> rfl

/-- what a value does in the loop over the graphics -/
def graphicsBody (d : Dms) (v : Value) (rest : List Str) (c : ColorCtx) (r : Raster) : Out SyntaxError Raster :=
  match v with
    | .colorBackground clr => ofExcept (c.setBackground clr v) >>= fun c => renderGraphicsLoop d rest c r
    | .colorForeground clr => ofExcept (c.setForeground clr v) >>= fun c => renderGraphicsLoop d rest c r
    | .colorRectangle rect clr => ofExcept (c.setForeground (some clr) v) >>= fun c' =>
        renderRect r rect c'.foregroundRgb v >>= fun r => renderGraphicsLoop d rest c r
    | .field _ _ => .panic .unimplemented
    | .flash _ _ _ => .panic .unimplemented
    | .flashEnd => .panic .unimplemented
    | .graphic n a => do
      let g ← lookupGraphic d n (a.getD (1, 1, none)).2.2
      let raster ← (g.renderGraphic r (a.getD (1, 1, none)).1.toNat (a.getD (1, 1, none)).2.1.toNat c).mapErr
        GraphicError.toSyntax
      renderGraphicsLoop d rest c raster
    | .manufacturerSpecific _ _ => .panic .unimplemented
    | .manufacturerSpecificEnd _ _ => .panic .unimplemented
    | .movingText _ _ _ _ _ _ => .panic .unimplemented
    | .newPage => .ok r
    | .textRectangle _ => .ok r
    | _ => renderGraphicsLoop d rest c r

theorem graphicsLoop_value {s : Str} {v : Value} (h : tryFrom s = .ok (.ok v)) (rest : List Str) (c : ColorCtx) (r : Raster) :
    renderGraphicsLoop d (s :: rest) c r = graphicsBody d v rest c r := by
  cases v
  case graphic n a => exact graphicsLoop_graphic h rest c r
  all_goals
    conv => lhs; unfold renderGraphicsLoop
    rw [h]
    rfl

/-- rasters alike, of the size of the sign -/
def SameR (d : Dms) (a b : Raster) : Prop := b = a ∧ OfSize d a

theorem graphics_step {s s' : Str} {v w : Value} (hv : tryFrom s = .ok (.ok v)) (hw : tryFrom s' = .ok (.ok w))
    (hvw : Synonym d g v w) (hg : g = true ∨ ∀ n pos, v ≠ .graphic n pos) {rest rest' : List Str} {c c' : ColorCtx}
    (hc : CtxLike d g c c') {r : Raster} (hr : OfSize d r)
    (ih : ∀ {c c' : ColorCtx}, CtxLike d g c c' → ∀ {r}, OfSize d r →
      Out.RelE (SameError d g) (SameR d) (renderGraphicsLoop d rest c r) (renderGraphicsLoop d rest' c' r)) :
    Out.RelE (SameError d g) (SameR d) (renderGraphicsLoop d (s :: rest) c r) (renderGraphicsLoop d (s' :: rest') c' r) := by
  rw [graphicsLoop_value hv, graphicsLoop_value hw]
  have graphic : ∀ (n : UInt8) (a b : Option (UInt16 × UInt16 × Option UInt16)), (a.getD (1, 1, none)).1 = (b.getD (1, 1, none)).1 →
      (a.getD (1, 1, none)).2.1 = (b.getD (1, 1, none)).2.1 →
      SameVersion ((d.graphicDefinition.find? fun f => f.number == n).map Graphic.versionId)
        (a.getD (1, 1, none)).2.2 (b.getD (1, 1, none)).2.2 → g = true →
      Out.RelE (SameError d g) (SameR d)
       (do
        let g ← lookupGraphic d n (a.getD (1, 1, none)).2.2
        let raster ← (g.renderGraphic r (a.getD (1, 1, none)).1.toNat (a.getD (1, 1, none)).2.1.toNat c).mapErr
          GraphicError.toSyntax
        renderGraphicsLoop d rest c raster)
       (do
        let g ← lookupGraphic d n (b.getD (1, 1, none)).2.2
        let raster ← (g.renderGraphic r (b.getD (1, 1, none)).1.toNat (b.getD (1, 1, none)).2.1.toNat c').mapErr
          GraphicError.toSyntax
        renderGraphicsLoop d rest' c' raster) := by
    intro n a b h1 h2 h3 hg
    rw [lookupGraphic_like h3, ← h1, ← h2]
    cases lookupGraphic d n (a.getD (1, 1, none)).2.2 with
    | err e => exact .refl _
    | panic p => exact rfl
    | ok gr =>
      simp only [Out.ok_bind]
      rw [hc.drawn hg]
      cases hx : gr.renderGraphic r (a.getD (1, 1, none)).1.toNat (a.getD (1, 1, none)).2.1.toNat c with
      | err e => exact .refl _
      | panic p => exact rfl
      | ok r1 =>
        have := renderGraphic_painted hx
        exact ih hc ⟨by rw [this.width, hr.1], by rw [this.height, hr.2]⟩
  have fill : ∀ {r1 r2 k k'}, SameRect d r1 r2 → SameShown d g (signForeground d) (some k) (some k') →
      Out.RelE (SameError d g) (SameR d)
        (ofExcept (c.setForeground (some k) (.colorRectangle r1 k)) >>= fun c' =>
          renderRect r r1 c'.foregroundRgb (.colorRectangle r1 k) >>= fun r => renderGraphicsLoop d rest c r)
        (ofExcept (c'.setForeground (some k') (.colorRectangle r2 k')) >>= fun c'' =>
          renderRect r r2 c''.foregroundRgb (.colorRectangle r2 k') >>= fun r => renderGraphicsLoop d rest' c' r) := by
    intro r1 r2 k k' h1 h2
    refine Out.RelE.bind (Except.RelE.out (hc.setF h2 (.fill h1 h2))) fun a b hab => ?_
    rw [hab.fg]
    refine Out.RelE.bind (renderRect_like h1 hr _ (.fill h1 h2)) fun a b hab => ?_
    obtain ⟨rfl, hs⟩ := hab
    exact ih hc hs
  cases hvw with
  | refl =>
    cases v
    case graphic n a =>
      refine graphic n a a rfl rfl (.inl rfl) ?_
      rcases hg with hg | hg
      · exact hg
      · exact absurd rfl (hg n a)
    case colorRectangle rect k => exact fill (.refl rect) (.inl rfl)
    case colorBackground k =>
      exact Out.RelE.bind (Except.RelE.out (hc.setB (.inl rfl) (.refl _))) fun a b hab => ih hab hr
    case colorForeground k =>
      exact Out.RelE.bind (Except.RelE.out (hc.setF (.inl rfl) (.refl _))) fun a b hab => ih hab hr
    all_goals first | exact ih hc hr | exact rfl | exact ⟨rfl, hr⟩
  | foreground h =>
    exact Out.RelE.bind (Except.RelE.out (hc.setF h (.foreground h))) fun a b hab => ih hab hr
  | background h =>
    exact Out.RelE.bind (Except.RelE.out (hc.setB h (.background h))) fun a b hab => ih hab hr
  | fill h1 h2 => exact fill h1 h2
  | graphic h1 h2 h3 =>
    rename_i n a b
    refine graphic n a b h1 h2 h3 ?_
    rcases hg with hg | hg
    · exact hg
    · exact absurd rfl (hg n a)
  | textRect h => exact ⟨rfl, hr⟩
  | _ => exact ih hc hr

/-- both messages have the same items -/
abbrev SameItems (d : Dms) (g : Bool) (ss ss' : List Str) : Prop := All2 (SameItem d g) ss ss'

theorem SameItem.cases {s s' : Str} (h : SameItem d g s s') :
    (∃ p, tryFrom s = .panic p ∧ tryFrom s' = .panic p) ∨ (∃ e, tryFrom s = .ok (.error e) ∧ tryFrom s' = .ok (.error e)) ∨
      ∃ v w, tryFrom s = .ok (.ok v) ∧ tryFrom s' = .ok (.ok w) ∧ Synonym d g v w := by
  rcases h with h | h
  · cases hs : tryFrom s with
    | panic p => left; exact ⟨p, rfl, by rw [h, hs]⟩
    | ok e =>
      cases e with
      | error e => right; left; exact ⟨e, rfl, by rw [h, hs]⟩
      | ok v => right; right; exact ⟨v, v, rfl, by rw [h, hs], .refl v⟩
  · exact .inr (.inr h)

theorem renderGraphicsLoop_like {ss ss' : List Str} (hs : SameItems d g ss ss') (hg : NoGraphicIn g ss) {c c' : ColorCtx}
    (hc : CtxLike d g c c') {r : Raster} (hr : OfSize d r) :
    Out.RelE (SameError d g) (SameR d) (renderGraphicsLoop d ss c r) (renderGraphicsLoop d ss' c' r) := by
  induction hs generalizing c c' r with
  | nil => exact ⟨rfl, hr⟩
  | cons h1 _ ih =>
    rename_i s s' ss ss' hs
    have hg' : NoGraphicIn g ss := hg.imp id fun h x hx => h x (by simp [hx])
    rcases SameItem.cases h1 with ⟨p, e1, e2⟩ | ⟨e, e1, e2⟩ | ⟨v, w, e1, e2, hvw⟩
    · unfold renderGraphicsLoop; rw [e1, e2]; exact rfl
    · unfold renderGraphicsLoop; rw [e1, e2]; exact .refl _
    · refine graphics_step e1 e2 hvw ?_ hc hr (fun hc _ hr => ih hg' hc hr)
      rcases hg with hg | hg
      · exact .inl hg
      · exact .inr fun n pos hp => hg s (by simp) n pos (hp ▸ e1)

end Draw

/-! ### text -/

section Text
variable {d : Dms} {g : Bool}

/-- the version ID, or none where it is the right one -/
def plainVid (t : FontTable) (n : UInt8) (v : Option UInt16) : Option UInt16 :=
  if v = (t.font n).map Font.versionId then none else v

/-- the state with other colors and version ID -/
def RenderState.dressed (c : ColorCtx) (v : Option UInt16) (rs : RenderState) : RenderState :=
  { rs with colorCtx := c, fontVersionId := v }

theorem like_iff {rs rs' : RenderState} : Like d g rs rs' ↔ CtxLike d g rs.colorCtx rs'.colorCtx ∧
    rs' = rs.dressed rs'.colorCtx rs'.fontVersionId ∧
    plainVid d.fontDefinition rs.fontNum rs'.fontVersionId = plainVid d.fontDefinition rs.fontNum rs.fontVersionId := by
  constructor
  · rintro ⟨h1, h2⟩
    have h := h2 rs.colorCtx
    cases rs; cases rs'
    simp only [RenderState.plain, RenderState.mk.injEq, true_and] at h
    obtain ⟨e1, e2, e3, e4, e5, e6, e7, e8, e9, e10, e11⟩ := h
    subst e1 e2 e3 e4 e5 e6 e8 e9 e10 e11
    exact ⟨h1, rfl, e7⟩
  · rintro ⟨h1, h2, h3⟩
    refine ⟨h1, fun c => ?_⟩
    cases rs; cases rs'
    simp only [RenderState.dressed, RenderState.mk.injEq, true_and] at h2
    obtain ⟨e1, e2, e3, e4, e5, e6, e8, e9, e10, e11⟩ := h2
    subst e1 e2 e3 e4 e5 e6 e8 e9 e10 e11
    simp only [RenderState.plain, RenderState.mk.injEq, true_and, and_true]
    exact h3

/-- loop variables alike -/
structure LikeR (d : Dms) (g : Bool) (st st' : Rtr) : Prop where
  rs : Like d g st.rs st'.rs
  pageState : st'.pageState = st.pageState
  spans : All2 (LikeS d g) st.spans st'.spans
  lineBlank : st'.lineBlank = st.lineBlank

/-- rounds that end alike -/
inductive CtlLike (d : Dms) (g : Bool) : Ctl → Ctl → Prop
  | cont : CtlLike d g .cont .cont
  | brk : CtlLike d g .brk .brk
  | fail {e f} : SameError d g e f → CtlLike d g (.fail e) (.fail f)

/-- results of `rtrStep` -/
def LikeC (d : Dms) (g : Bool) (p q : Ctl × Rtr) : Prop := CtlLike d g p.1 q.1 ∧ LikeR d g p.2 q.2

theorem charFromU32_of {n : UInt16} {c : Char} (h : c.toNat = n.toNat) : charFromU32 n.toNat = some c := by
  unfold charFromU32
  have hv : c.toNat < 0xD800 ∨ (0xDFFF < c.toNat ∧ c.toNat < 0x110000) := c.valid
  rw [← h, if_pos hv]
  rw [Char.ofNat_toNat]

theorem plainVid_same {t : FontTable} {n : UInt8} {a b : Option UInt16}
    (h : SameVersion ((t.find? fun f => f.number == n).map Font.versionId) a b) : plainVid t n b = plainVid t n a := by
  rcases h with rfl | ⟨h1, h2⟩
  · rfl
  · have e : (t.font n).map Font.versionId = (t.find? fun f => f.number == n).map Font.versionId := rfl
    have key : ∀ x, x = none ∨ x = (t.find? fun f => f.number == n).map Font.versionId → plainVid t n x = none := by
      intro x hx
      unfold plainVid
      rw [e]
      split
      · rfl
      · rename_i hn
        rcases hx with rfl | rfl
        · rfl
        · exact absurd rfl hn
    rw [key a h1, key b h2]

theorem rtrStep_like (po : Bool) {st st' : Rtr} (hst : LikeR d g st st') {v w : Value} (hvw : Synonym d g v w) :
    Res.Rel (LikeC d g) (rtrStep d (.new d) po st v) (rtrStep d (.new d) po st' w) := by
  obtain ⟨rs, ps, sp, lb⟩ := st
  obtain ⟨rs', ps', sp', lb'⟩ := st'
  obtain ⟨h, rfl, h3, rfl⟩ := hst
  rw [like_iff] at h
  dsimp only at h h3
  obtain ⟨h1, h2, hv⟩ := h
  generalize rs'.colorCtx = c' at h1 h2
  generalize rs'.fontVersionId = v' at h2 hv
  subst h2
  have like : ∀ {a : RenderState} {c' v'}, CtxLike d g a.colorCtx c' →
      plainVid d.fontDefinition a.fontNum v' = plainVid d.fontDefinition a.fontNum a.fontVersionId →
      Like d g a (a.dressed c' v') := fun h1 h2 => like_iff.2 ⟨h1, rfl, h2⟩
  have here : Like d g rs (rs.dressed c' v') := like h1 hv
  have keep : LikeR d g ⟨rs, ps', sp, lb'⟩ ⟨rs.dressed c' v', ps', sp', lb'⟩ := ⟨here, rfl, h3, rfl⟩
  -- rounds of the loop, for values and their synonyms
  have fgStep : ∀ a b v w, SameShown d g (signForeground d) a b → Synonym d g v w →
      Res.Rel (LikeC d g)
        (match rs.colorCtx.setForeground a v with
          | .ok ctx => .ok (.cont, ⟨{ rs with colorCtx := ctx }, ps', sp, lb'⟩)
          | .error e => .ok (.fail e, ⟨rs, ps', sp, lb'⟩))
        (match c'.setForeground b w with
          | .ok ctx => .ok (.cont, ⟨{ rs.dressed c' v' with colorCtx := ctx }, ps', sp', lb'⟩)
          | .error e => .ok (.fail e, ⟨rs.dressed c' v', ps', sp', lb'⟩)) := by
    intro a b v w hs hvw
    have := h1.setF hs hvw
    cases hx : rs.colorCtx.setForeground a v <;> cases hy : c'.setForeground b w <;> rw [hx, hy] at this <;>
      simp only [Except.RelE] at this
    · exact ⟨.fail this, keep⟩
    · exact ⟨.cont, like_iff.2 ⟨this, rfl, hv⟩, rfl, h3, rfl⟩
  have rectStep : ∀ r r', SameRect d r r' → Res.Rel (LikeC d g)
      (rtrStep d (.new d) po ⟨rs, ps', sp, lb'⟩ (.textRectangle r))
      (rtrStep d (.new d) po ⟨rs.dressed c' v', ps', sp', lb'⟩ (.textRectangle r')) := by
    intro r r' hr
    simp only [rtrStep, updateTextRectangle]
    rw [hr.extended _ rfl rfl]
    refine Res.Rel.refl_bind fun o => ?_
    split
    · exact ⟨.brk, like_iff.2 ⟨h1, rfl, hv⟩, rfl, h3, rfl⟩
    · exact ⟨.fail (.value (.textRect hr)), here, rfl, h3, rfl⟩
  have textStep : ∀ t : Str, Res.Rel (LikeC d g)
      (do
        let sn ← chk8 (rs.spanNumber + 1)
        pure (Ctl.cont, (⟨{ rs with spanNumber := sn }, ps', sp ++ [⟨rs, t⟩], false⟩ : Rtr)))
      (do
        let sn ← chk8 (rs.spanNumber + 1)
        pure (Ctl.cont, (⟨{ rs.dressed c' v' with spanNumber := sn }, ps', sp' ++ [⟨rs.dressed c' v', t⟩], false⟩ : Rtr))) := by
    intro t
    exact Res.Rel.refl_bind fun n => ⟨.cont, like_iff.2 ⟨h1, rfl, hv⟩, rfl, h3.append (.cons ⟨here, rfl⟩ .nil), rfl⟩
  have fontStep : ∀ n a b, SameVersion ((d.fontDefinition.find? fun f => f.number == n).map Font.versionId) a b →
      LikeC d g (.cont, ⟨{ rs with fontNum := n, fontVersionId := a }, ps', sp, lb'⟩)
        (.cont, ⟨{ rs.dressed c' v' with fontNum := n, fontVersionId := b }, ps', sp', lb'⟩) :=
    fun n a b hab => ⟨.cont, like_iff.2 ⟨h1, rfl, plainVid_same hab⟩, rfl, h3, rfl⟩
  have jpStep : ∀ j : JustificationPage, Res.Rel (LikeC d g)
      (if j ≠ rs.justPage then
        Res.ok (Ctl.cont, (⟨{ rs with justPage := j, lineNumber := 0, spanNumber := 0 }, ps', sp, lb'⟩ : Rtr))
      else .ok (.cont, ⟨rs, ps', sp, lb'⟩))
      (if j ≠ (rs.dressed c' v').justPage then
        Res.ok (Ctl.cont, (⟨{ rs.dressed c' v' with justPage := j, lineNumber := 0, spanNumber := 0 }, ps', sp', lb'⟩ : Rtr))
      else .ok (.cont, ⟨rs.dressed c' v', ps', sp', lb'⟩)) := by
    intro j
    rw [show (rs.dressed c' v').justPage = rs.justPage from rfl]
    split
    · exact ⟨.cont, like_iff.2 ⟨h1, rfl, hv⟩, rfl, h3, rfl⟩
    · exact ⟨.cont, keep⟩
  have jlStep : ∀ j : JustificationLine, LikeC d g
      (.cont, ⟨{ rs with justLine := j, spanNumber := 0 }, ps', sp, lb'⟩)
      (.cont, ⟨{ rs.dressed c' v' with justLine := j, spanNumber := 0 }, ps', sp', lb'⟩) :=
    fun j => ⟨.cont, like_iff.2 ⟨h1, rfl, hv⟩, rfl, h3, rfl⟩
  have spStep : ∀ o, LikeC d g
      (.cont, ⟨{ rs with charSpacing := o }, ps', sp, lb'⟩)
      (.cont, ⟨{ rs.dressed c' v' with charSpacing := o }, ps', sp', lb'⟩) :=
    fun j => ⟨.cont, like_iff.2 ⟨h1, rfl, hv⟩, rfl, h3, rfl⟩
  cases hvw with
  | refl =>
    cases v
    case colorForeground a => exact fgStep a a _ _ (.inl rfl) (.refl _)
    case font f =>
      rcases f with _ | ⟨n, vid⟩
      · exact fontStep _ _ _ (.inl rfl)
      · exact fontStep n vid vid (.inl rfl)
    case justificationLine j =>
      rcases j with _ | j
      · exact jlStep _
      · cases j <;> first | exact jlStep _ | exact ⟨.fail (.refl _), keep⟩
    case justificationPage j =>
      rcases j with _ | j
      · exact jpStep _
      · cases j <;> first | exact jpStep _ | exact ⟨.fail (.refl _), keep⟩
    case newLine ls =>
      simp only [rtrStep]
      split
      · exact ⟨.fail (.refl _), keep⟩
      · refine Res.Rel.refl_bind fun n => ⟨.cont, like_iff.2 ⟨h1, rfl, hv⟩, rfl, ?_, rfl⟩
        dsimp only
        split
        · exact h3.append (.cons ⟨here, rfl⟩ .nil)
        · exact h3
    case newPage => exact ⟨.brk, here, rfl, h3, rfl⟩
    case spacingCharacter n =>
      simp only [rtrStep]
      split
      · exact ⟨.fail (.refl _), keep⟩
      · exact spStep _
    case spacingCharacterEnd => exact spStep _
    case textRectangle r => exact rectStep r r (.refl r)
    case text t => exact textStep t
    case hexadecimalCharacter n =>
      simp only [rtrStep]
      split
      · exact textStep _
      · exact ⟨.fail (.refl _), keep⟩
    all_goals exact ⟨.cont, keep⟩
  | foreground h => exact fgStep _ _ _ _ h (.foreground h)
  | textRect h => exact rectStep _ _ h
  | font k1 k2 =>
    rename_i a b
    have key : ∀ (rs : RenderState) (sp : List Span) (a : Option (UInt8 × Option UInt16)),
        rtrStep d (.new d) po ⟨rs, ps', sp, lb'⟩ (.font a) = .ok (.cont, ⟨{ rs with
          fontNum := (a.getD (d.multiCfg.defaultFont, none)).1,
          fontVersionId := (a.getD (d.multiCfg.defaultFont, none)).2 }, ps', sp, lb'⟩) := by
      intro rs sp a
      rcases a with _ | ⟨n, vid⟩ <;> rfl
    rw [key, key, ← k1]
    exact fontStep _ _ _ k2
  | justLine k1 k2 k3 =>
    rename_i a b
    have key : ∀ (rs : RenderState) (sp : List Span) (a : Option JustificationLine),
        rtrStep d (.new d) po ⟨rs, ps', sp, lb'⟩ (.justificationLine a) =
          if a.getD d.multiCfg.defaultJustificationLine = .other ∨ a.getD d.multiCfg.defaultJustificationLine = .full then
            .ok (.fail (.unsupportedTagValue (Value.justificationLine a).display), ⟨rs, ps', sp, lb'⟩)
          else .ok (.cont, ⟨{ rs with justLine := a.getD d.multiCfg.defaultJustificationLine, spanNumber := 0 }, ps', sp, lb'⟩) := by
      intro rs sp a
      rcases a with _ | j
      · simp only [Option.getD_none]
        rw [if_neg (by simp [k1, k2])]
        rfl
      · cases j <;> rfl
    rw [key, key, ← k3]
    split
    · exact ⟨.fail (.value (.justLine k1 k2 k3)), keep⟩
    · exact jlStep _
  | justPage k1 k3 =>
    rename_i a b
    have key : ∀ (rs : RenderState) (sp : List Span) (a : Option JustificationPage),
        rtrStep d (.new d) po ⟨rs, ps', sp, lb'⟩ (.justificationPage a) =
          if a.getD d.multiCfg.defaultJustificationPage = .other then
            .ok (.fail (.unsupportedTagValue (Value.justificationPage a).display), ⟨rs, ps', sp, lb'⟩)
          else if a.getD d.multiCfg.defaultJustificationPage ≠ rs.justPage then
            .ok (.cont, ⟨{ rs with justPage := a.getD d.multiCfg.defaultJustificationPage, lineNumber := 0, spanNumber := 0 },
              ps', sp, lb'⟩)
          else .ok (.cont, ⟨rs, ps', sp, lb'⟩) := by
      intro rs sp a
      rcases a with _ | j
      · simp only [Option.getD_none]
        rw [if_neg k1]
        rfl
      · cases j <;> rfl
    rw [key, key, ← k3]
    split
    · exact ⟨.fail (.value (.justPage k1 k3)), keep⟩
    · exact jpStep _
  | @char n c k1 k2 _ =>
    have hn : n ≠ 0 := fun h => k1 (by rw [h]; rfl)
    simp only [rtrStep, charFromU32_of k2, if_neg hn]
    exact textStep [c]
  | @char' n c k1 k2 _ =>
    have hn : n ≠ 0 := fun h => k1 (by rw [h]; rfl)
    simp only [rtrStep, charFromU32_of k2, if_neg hn]
    exact textStep [c]
  | _ => exact ⟨.cont, keep⟩

/-- results of `rtrLoop` -/
def LikeL (d : Dms) (g : Bool) (p q : Except SyntaxError Unit × Rtr × List Str) : Prop :=
  Except.RelE (SameError d g) (fun _ _ => True) p.1 q.1 ∧ LikeR d g p.2.1 q.2.1 ∧ SameItems d g p.2.2 q.2.2

theorem rtrLoop_like (po : Bool) {ss ss' : List Str} (hs : SameItems d g ss ss') {st st' : Rtr} (hst : LikeR d g st st') :
    Res.Rel (LikeL d g) (rtrLoop d (.new d) po ss st) (rtrLoop d (.new d) po ss' st') := by
  induction hs generalizing st st' with
  | nil => exact ⟨trivial, hst, .nil⟩
  | cons h1 htl ih =>
    unfold rtrLoop
    rcases SameItem.cases h1 with ⟨p, e1, e2⟩ | ⟨e, e1, e2⟩ | ⟨v, w, e1, e2, hvw⟩ <;> rw [e1, e2]
    · exact rfl
    · exact ⟨.refl _, hst, htl⟩
    · dsimp only
      have h := rtrStep_like po hst hvw
      cases hx : rtrStep d (.new d) po st v with
      | panic p =>
        cases hy : rtrStep d (.new d) po st' w with
        | panic q => rw [hx, hy] at h; exact h
        | ok q => rw [hx, hy] at h; exact h.elim
      | ok p =>
        cases hy : rtrStep d (.new d) po st' w with
        | panic q => rw [hx, hy] at h; exact h.elim
        | ok q =>
          obtain ⟨c, st1⟩ := p
          obtain ⟨c', st1'⟩ := q
          rw [hx, hy] at h
          obtain ⟨k1, k2⟩ := h
          dsimp only at k1 k2
          cases k1 with
          | cont => exact ih k2
          | brk => exact ⟨trivial, k2, htl⟩
          | fail he => exact ⟨he, k2, htl⟩

/-- pages alike -/
structure LikeP (d : Dms) (g : Bool) (pg pg' : Pages) : Prop where
  dflt : pg.defaultState = .new d
  dflt' : pg'.defaultState = .new d
  cur : Like d g pg.renderState pg'.renderState
  pageState : pg'.pageState = pg.pageState
  values : SameItems d g pg.values pg'.values
  spans : All2 (LikeS d g) pg.spans pg'.spans
  graphics : NoGraphicIn g pg.values

/-- results with a state of the iterator -/
def LikeE {α : Type} (R : α → α → Prop) (d : Dms) (g : Bool) (p q : Except SyntaxError α × Pages) : Prop :=
  Except.RelE (SameError d g) R p.1 q.1 ∧ LikeP d g p.2 q.2

theorem Like.off {rs rs' : RenderState} (h : Like d g rs rs') : rs'.pageOffTimeDs = rs.pageOffTimeDs := by
  rw [(like_iff.1 h).2.1]; rfl

theorem Like.on {rs rs' : RenderState} (h : Like d g rs rs') : rs'.pageOnTimeDs = rs.pageOnTimeDs := by
  rw [(like_iff.1 h).2.1]; rfl

theorem Like.rect {rs rs' : RenderState} (h : Like d g rs rs') : rs'.textRectangle = rs.textRectangle := by
  rw [(like_iff.1 h).2.1]; rfl

theorem NoGraphicIn.suffix {ss ss' : List Str} (h : NoGraphicIn g ss) (hs : ss' <:+ ss) : NoGraphicIn g ss' :=
  h.imp id fun h s hm => h s (hs.subset hm)

theorem renderTextRectangle_like {pg pg' : Pages} (hp : LikeP d g pg pg') {r : Raster} (hr : OfSize d r) :
    Res.Rel (LikeE (SameR d) d g) (renderTextRectangle d pg r) (renderTextRectangle d pg' r) := by
  unfold renderTextRectangle
  rw [hp.cur.off, hp.dflt, hp.dflt']
  have hl := rtrLoop_like (decide (pg.renderState.pageOffTimeDs > 0)) hp.values
    (st := ⟨pg.renderState, .doneState (decide (pg.renderState.pageOffTimeDs > 0)), [], true⟩)
    (st' := ⟨pg'.renderState, .doneState (decide (pg.renderState.pageOffTimeDs > 0)), [], true⟩)
    ⟨hp.cur, rfl, .nil, rfl⟩
  cases hx : rtrLoop d (.new d) (decide (pg.renderState.pageOffTimeDs > 0)) pg.values
      ⟨pg.renderState, .doneState (decide (pg.renderState.pageOffTimeDs > 0)), [], true⟩ with
  | panic p =>
    cases hy : rtrLoop d (.new d) (decide (pg.renderState.pageOffTimeDs > 0)) pg'.values
      ⟨pg'.renderState, .doneState (decide (pg.renderState.pageOffTimeDs > 0)), [], true⟩ with
    | panic q => rw [hx, hy] at hl; simp only [hx, hy]; exact hl
    | ok q => rw [hx, hy] at hl; exact hl.elim
  | ok p =>
    cases hy : rtrLoop d (.new d) (decide (pg.renderState.pageOffTimeDs > 0)) pg'.values
      ⟨pg'.renderState, .doneState (decide (pg.renderState.pageOffTimeDs > 0)), [], true⟩ with
    | panic q => rw [hx, hy] at hl; exact hl.elim
    | ok q =>
      obtain ⟨e, st, vs⟩ := p
      obtain ⟨e', st', vs'⟩ := q
      rw [hx, hy] at hl
      obtain ⟨e1, h1, e2⟩ := hl
      dsimp only at e1 h1 e2
      have key : LikeP d g { pg with renderState := st.rs, pageState := st.pageState, spans := st.spans, values := vs }
          { pg' with renderState := st'.rs, pageState := st'.pageState, spans := st'.spans, values := vs' } :=
        ⟨hp.dflt, hp.dflt', h1.rs, h1.pageState, e2, h1.spans, hp.graphics.suffix (rtrLoop_suffix hx)⟩
      simp only [hx, hy, Res.ok_bind]
      rw [hp.dflt, hp.dflt'] at key
      cases e with
      | error e =>
        cases e' with
        | error e' => exact ⟨e1, key⟩
        | ok u => exact e1.elim
      | ok u =>
        cases e' with
        | error e' => exact e1.elim
        | ok u' =>
          dsimp only
          rw [renderTextSpans_like h1.spans]
          cases h3 : renderTextSpans d st.spans r with
          | panic p => exact rfl
          | err e => exact ⟨.refl _, key⟩
          | ok r1 =>
            have := renderTextSpans_painted h3
            exact ⟨⟨rfl, by rw [this.width, hr.1], by rw [this.height, hr.2]⟩, key⟩

theorem onPageLoop_like (fuel n : Nat) {pg pg' : Pages} (hp : LikeP d g pg pg') {r : Raster} (hr : OfSize d r) :
    Res.Rel (LikeE (SameR d) d g) (onPageLoop d fuel n pg r) (onPageLoop d fuel n pg' r) := by
  induction fuel generalizing n pg pg' r with
  | zero => exact ⟨⟨rfl, hr⟩, hp⟩
  | succ fuel ih =>
    unfold onPageLoop
    rw [hp.pageState]
    split
    · have hg := renderGraphicsLoop_like hp.values hp.graphics hp.cur.ctx hr
      cases h3 : renderGraphicsLoop d pg.values pg.renderState.colorCtx r <;>
        cases h4 : renderGraphicsLoop d pg'.values pg'.renderState.colorCtx r <;>
        rw [h3, h4] at hg <;> simp only [Out.RelE] at hg
      · obtain ⟨rfl, hs⟩ := hg
        refine Res.Rel.bind (renderTextRectangle_like hp hs) fun p q hpq => ?_
        obtain ⟨e, p⟩ := p
        obtain ⟨e', q⟩ := q
        obtain ⟨k1, k2⟩ := hpq
        cases e <;> cases e' <;> simp only [Except.RelE] at k1
        · exact ⟨k1, k2⟩
        · obtain ⟨rfl, hs⟩ := k1
          dsimp only
          split
          · exact ⟨.refl _, k2⟩
          · exact ih _ k2 hs
      · exact ⟨hg, hp⟩
      · exact hg
    · exact ⟨⟨rfl, hr⟩, hp⟩

theorem checkUnsupported_value {s : Str} {v : Value} (h : tryFrom s = .ok (.ok v)) (rest : List Str) :
    checkUnsupported d (s :: rest) = match v.tag with
      | some tag =>
        if !d.multiCfg.supportedMultiTags tag then .err (.unsupportedTag v.display)
        else if tag = .np then .ok ()
        else checkUnsupported d rest
      | none => checkUnsupported d rest := by
  conv => lhs; unfold checkUnsupported
  rw [h]
  rfl

theorem checkUnsupported_like {ss ss' : List Str} (hs : SameItems d g ss ss') :
    Out.RelE (SameError d g) (fun _ _ => True) (checkUnsupported d ss) (checkUnsupported d ss') := by
  induction hs with
  | nil => exact trivial
  | cons h1 _ ih =>
    rename_i _ _ rs1 rs2 _
    rcases SameItem.cases h1 with ⟨p, e1, e2⟩ | ⟨e, e1, e2⟩ | ⟨v, w, e1, e2, hvw⟩
    · unfold checkUnsupported; rw [e1, e2]; exact rfl
    · unfold checkUnsupported; rw [e1, e2]; exact .refl _
    · rw [checkUnsupported_value e1, checkUnsupported_value e2]
      have same : w.tag = v.tag → Out.RelE (SameError d g) (fun _ _ => True)
          (match v.tag with
            | some tag =>
              if !d.multiCfg.supportedMultiTags tag then .err (.unsupportedTag v.display)
              else if tag = .np then .ok ()
              else checkUnsupported d rs1
            | none => checkUnsupported d rs1)
          (match w.tag with
            | some tag =>
              if !d.multiCfg.supportedMultiTags tag then .err (.unsupportedTag w.display)
              else if tag = .np then .ok ()
              else checkUnsupported d rs2
            | none => checkUnsupported d rs2) := by
        intro he
        rw [he]
        split
        · split
          · exact .tag hvw
          · split
            · exact trivial
            · exact ih
        · exact ih
      cases hvw with
      | char _ _ hh =>
        simp only [Value.tag, hh, Bool.not_true, Bool.false_eq_true, if_false, reduceCtorEq]
        exact ih
      | char' _ _ hh =>
        simp only [Value.tag, hh, Bool.not_true, Bool.false_eq_true, if_false, reduceCtorEq]
        exact ih
      | _ => exact same rfl

/-- results of `update_page_state` -/
def LikeU (d : Dms) (g : Bool) (p q : Except SyntaxError Unit × RenderState) : Prop :=
  Except.RelE (SameError d g) (fun _ _ => True) p.1 q.1 ∧ Like d g p.2 q.2

/-- what a value does to the state of the page -/
def pageBody (ds : RenderState) (v : Value) (rest : List Str) (rs : RenderState) :
    Res (Except SyntaxError Unit × RenderState) :=
  match v with
  | .colorBackground clr => match rs.colorCtx.setBackground clr v with
    | .ok ctx => updatePageStateLoop ds rest { rs with colorCtx := ctx }
    | .error e => .ok (.error e, rs)
  | .pageBackground clr => match rs.colorCtx.setBackground clr v with
    | .ok ctx => updatePageStateLoop ds rest { rs with colorCtx := ctx }
    | .error e => .ok (.error e, rs)
  | .newPage => .ok (.ok (), rs)
  | .pageTime on off =>
    updatePageStateLoop ds rest { rs with pageOnTimeDs := on.getD ds.pageOnTimeDs,
                                          pageOffTimeDs := off.getD ds.pageOffTimeDs }
  | _ => updatePageStateLoop ds rest rs

theorem updatePageStateLoop_value {ds : RenderState} {s : Str} {v : Value} (h : tryFrom s = .ok (.ok v)) (rest : List Str)
    (rs : RenderState) : updatePageStateLoop ds (s :: rest) rs = pageBody ds v rest rs := by
  conv => lhs; unfold updatePageStateLoop
  rw [h]
  cases v <;> rfl

theorem updatePageStateLoop_like {ss ss' : List Str} (hs : SameItems d g ss ss') {rs rs' : RenderState}
    (hrs : Like d g rs rs') :
    Res.Rel (LikeU d g) (updatePageStateLoop (.new d) ss rs) (updatePageStateLoop (.new d) ss' rs') := by
  induction hs generalizing rs rs' with
  | nil => exact ⟨trivial, hrs⟩
  | cons h1 _ ih =>
    rename_i s s' ss ss' _
    rcases SameItem.cases h1 with ⟨p, e1, e2⟩ | ⟨e, e1, e2⟩ | ⟨v, w, e1, e2, hvw⟩
    · unfold updatePageStateLoop; rw [e1, e2]; exact rfl
    · unfold updatePageStateLoop; rw [e1, e2]; exact ⟨.refl _, hrs⟩
    · rw [updatePageStateLoop_value e1, updatePageStateLoop_value e2]
      have h2 := (like_iff.1 hrs)
      have bgStep : ∀ a b v w, SameShown d g (signBackground d) a b → Synonym d g v w →
          Res.Rel (LikeU d g)
            (match rs.colorCtx.setBackground a v with
              | .ok ctx => updatePageStateLoop (.new d) ss { rs with colorCtx := ctx }
              | .error e => .ok (.error e, rs))
            (match rs'.colorCtx.setBackground b w with
              | .ok ctx => updatePageStateLoop (.new d) ss' { rs' with colorCtx := ctx }
              | .error e => .ok (.error e, rs')) := by
        intro a b v w hab hvw
        have := hrs.ctx.setB hab hvw
        cases hx : rs.colorCtx.setBackground a v <;> cases hy : rs'.colorCtx.setBackground b w <;> rw [hx, hy] at this <;>
          simp only [Except.RelE] at this
        · exact ⟨this, hrs⟩
        · refine ih (like_iff.2 ⟨this, ?_, ?_⟩)
          · rw [h2.2.1]; rfl
          · exact h2.2.2
      have timeStep : ∀ on off, Res.Rel (LikeU d g)
          (updatePageStateLoop (.new d) ss { rs with pageOnTimeDs := on, pageOffTimeDs := off })
          (updatePageStateLoop (.new d) ss' { rs' with pageOnTimeDs := on, pageOffTimeDs := off }) := by
        intro on off
        refine ih (like_iff.2 ⟨h2.1, ?_, h2.2.2⟩)
        rw [h2.2.1]; rfl
      cases hvw with
      | refl =>
        cases v
        case colorBackground a => exact bgStep a a _ _ (.inl rfl) (.refl _)
        case pageBackground a => exact bgStep a a _ _ (.inl rfl) (.refl _)
        case newPage => exact ⟨trivial, hrs⟩
        case pageTime on off => exact timeStep _ _
        all_goals exact ih hrs
      | background h => exact bgStep _ _ _ _ h (.background h)
      | page h => exact bgStep _ _ _ _ h (.page h)
      | times k1 k2 =>
        unfold pageBody
        dsimp only
        rw [show (RenderState.new d).pageOnTimeDs = d.multiCfg.defaultPageOnTime from rfl,
          show (RenderState.new d).pageOffTimeDs = d.multiCfg.defaultPageOffTime from rfl, k1, k2]
        exact timeStep _ _
      | _ => exact ih hrs

theorem updatePageState_like {ss ss' : List Str} (hs : SameItems d g ss ss') {rs rs' : RenderState} (hrs : Like d g rs rs') :
    Res.Rel (LikeU d g) (updatePageState (.new d) rs ss) (updatePageState (.new d) rs' ss') := by
  unfold updatePageState
  have h2 := (like_iff.1 hrs)
  refine updatePageStateLoop_like hs (like_iff.2 ⟨h2.1, ?_, h2.2.2⟩)
  rw [h2.2.1]; rfl

theorem buildRaster_like {rs rs' : RenderState} (h : Like d g rs rs') : buildRaster rs' = buildRaster rs := by
  unfold buildRaster
  rw [h.rect, h.ctx.bg]

end Text
end Ntcip
