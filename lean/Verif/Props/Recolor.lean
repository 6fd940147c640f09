import Verif.Lemmas.Recolor
import Verif.Props.Color
import Verif.Props.Accept
import Verif.Props.Version
/-
Property C76: colors of a sign only recolor its pages.
-/
namespace Ntcip
open Spec Tests

theorem run_mono {P Q : Rgb → Rgb → Prop} (h : ∀ a b, P a b → Q a b) {d d' : Dms} {ms : Str} {k : Nat}
    (hr : RecoloredRun P d d' ms k) : RecoloredRun Q d d' ms k := by
  have key : ∀ as bs, All2 (Except.Rel (ε := SyntaxError) (RecoloredPage P)) as bs →
      All2 (Except.Rel (RecoloredPage Q)) as bs := by
    intro as bs hab
    induction hab with
    | nil => exact .nil
    | cons h1 _ ih =>
      refine .cons ?_ ih
      rename_i a b _ _ _
      cases a <;> cases b <;> simp only [Except.Rel] at h1
      · exact h1
      · exact ⟨h1.1, h1.2.width, h1.2.height, fun i j => h _ _ (h1.2.pixel i j)⟩
  unfold RecoloredRun at *
  cases hx : Pages.run d k (Pages.new d ms) <;> cases hy : Pages.run d' k (Pages.new d' ms) <;>
    rw [hx, hy] at hr <;> simp only [Res.Rel] at hr
  · exact key _ _ hr
  · exact hr

theorem ofRgb_shown (s : ColorScheme) (fg bg x : Rgb) :
    colorValue s fg bg (.ofRgb x) = if s = .color24Bit then some x else none := rfl

/-- **C76**: a message without color tags and graphics is shown alike by signs which only differ in colors, be it the color
scheme, the default colors or the LEDs: same errors, same number of pages for the same times, and at each place either
both pixels have the default foreground color of their sign, or both the background color. -/
theorem C76_text (d d' : Dms) (hd : SameButColors d d') (ms : Str)
    (hm : ∀ v, .ok (.ok v) ∈ values ms → ¬Colored v) (k : Nat) :
    RecoloredRun (BothDefault d d') d d' ms k := by
  have hfg : ∀ d : Dms, (signCtx d).foregroundRgb = signForeground d := by
    intro d
    unfold ColorCtx.foregroundRgb
    rw [rgb_eq]
    show (match colorValue _ _ _ (.ofRgb (signForeground d)) with | some rgb => rgb | none => _) = _
    rw [ofRgb_shown]
    by_cases h : (signCtx d).colorScheme = .color24Bit
    · rw [if_pos h]
    · rw [if_neg h]; rfl
  have hbg : ∀ d : Dms, (signCtx d).backgroundRgb = signBackground d := by
    intro d
    unfold ColorCtx.backgroundRgb
    rw [rgb_eq]
    show (match colorValue _ _ _ (.ofRgb (signBackground d)) with | some rgb => rgb | none => _) = _
    rw [ofRgb_shown]
    by_cases h : (signCtx d).colorScheme = .color24Bit
    · rw [if_pos h]
    · rw [if_neg h]; rfl
  refine run_rel (K := fun c c' => c = signCtx d ∧ c' = signCtx d') (V := fun v => ¬Colored v) hd ?_ k
    (new_rel hd ⟨rfl, rfl⟩ ms ?_)
  · constructor
    · rintro c c' ⟨rfl, rfl⟩; exact .inl ⟨hfg d, hfg d'⟩
    · rintro c c' ⟨rfl, rfl⟩; exact .inr ⟨hbg d, hbg d'⟩
    all_goals intros; exact absurd trivial ‹_›
  · intro s hs v hv
    exact hm v (by rw [values, List.mem_map]; exact ⟨s, hs, hv⟩)

/-- color contexts of two signs with the same color scheme -/
structure SchemeCtx (d d' : Dms) (c c' : ColorCtx) : Prop where
  scheme : c.colorScheme = d.multiCfg.colorScheme
  scheme' : c'.colorScheme = d.multiCfg.colorScheme
  fg : c.fgDefault = signForeground d
  fg' : c'.fgDefault = signForeground d'
  bg : c.bgDefault = signBackground d
  bg' : c'.bgDefault = signBackground d'
  curF : c'.fgCurrent = c.fgCurrent ∨ (c.fgCurrent = .ofRgb (signForeground d) ∧ c'.fgCurrent = .ofRgb (signForeground d'))
  curB : c'.bgCurrent = c.bgCurrent ∨ (c.bgCurrent = .ofRgb (signBackground d) ∧ c'.bgCurrent = .ofRgb (signBackground d'))

theorem colorValue_some (s : ColorScheme) (fg bg fg' bg' : Rgb) (x : Color) :
    (colorValue s fg bg x).isSome = (colorValue s fg' bg' x).isSome := by
  unfold colorValue
  cases x with
  | legacy v => cases s <;> dsimp only <;> (repeat' split) <;> rfl
  | rgb r g b => rfl

section Scheme
variable {d d' : Dms} {c c' : ColorCtx} (hsame : d'.multiCfg.colorScheme = d.multiCfg.colorScheme)
include hsame

theorem SchemeCtx.rgb (h : SchemeCtx d d' c c') (x : Color) :
    Option.Rel (SameColor d d') (c.rgb x) (c'.rgb x) := by
  rw [rgb_eq, rgb_eq, h.scheme, h.scheme', h.fg, h.bg, h.fg', h.bg']
  have := colorValue_some d.multiCfg.colorScheme (signForeground d) (signBackground d) (signForeground d')
    (signBackground d') x
  cases h1 : colorValue d.multiCfg.colorScheme (signForeground d) (signBackground d) x <;>
    cases h2 : colorValue d.multiCfg.colorScheme (signForeground d') (signBackground d') x <;>
    rw [h1, h2] at this <;> simp only [Option.isSome_none, Option.isSome_some, reduceCtorEq] at this
  · trivial
  · exact ⟨x, h1, by rw [hsame]; exact h2⟩

omit hsame in
theorem SchemeCtx.default (h : SchemeCtx d d' c c') (a a' : Rgb) (P : Rgb → Rgb → Prop) (hp : P a a') :
    Option.Rel P (c.rgb (.ofRgb a)) (c'.rgb (.ofRgb a')) := by
  rw [rgb_eq, rgb_eq, ofRgb_shown, ofRgb_shown, h.scheme, h.scheme']
  by_cases hs : d.multiCfg.colorScheme = .color24Bit
  · rw [if_pos hs, if_pos hs]; exact hp
  · rw [if_neg hs, if_neg hs]; trivial

theorem SchemeCtx.curFg (h : SchemeCtx d d' c c') :
    Option.Rel (fun a b => BothDefault d d' a b ∨ SameColor d d' a b) (c.rgb c.fgCurrent) (c'.rgb c'.fgCurrent) := by
  rcases h.curF with e | ⟨e1, e2⟩
  · rw [e]
    have := h.rgb hsame c.fgCurrent
    cases hx : c.rgb c.fgCurrent <;> cases hy : c'.rgb c.fgCurrent <;> rw [hx, hy] at this <;>
      simp only [Option.Rel] at this
    · trivial
    · exact .inr this
  · rw [e1, e2]; exact h.default _ _ _ (.inl (.inl ⟨rfl, rfl⟩))

theorem SchemeCtx.curBg (h : SchemeCtx d d' c c') :
    Option.Rel (fun a b => BothDefault d d' a b ∨ SameColor d d' a b) (c.rgb c.bgCurrent) (c'.rgb c'.bgCurrent) := by
  rcases h.curB with e | ⟨e1, e2⟩
  · rw [e]
    have := h.rgb hsame c.bgCurrent
    cases hx : c.rgb c.bgCurrent <;> cases hy : c'.rgb c.bgCurrent <;> rw [hx, hy] at this <;>
      simp only [Option.Rel] at this
    · trivial
    · exact .inr this
  · rw [e1, e2]; exact h.default _ _ _ (.inl (.inr ⟨rfl, rfl⟩))

theorem SchemeCtx.setForeground (h : SchemeCtx d d' c c') (x : Option Color) (v : Value) :
    Except.Rel (SchemeCtx d d') (c.setForeground x v) (c'.setForeground x v) := by
  unfold ColorCtx.setForeground
  cases x with
  | none =>
    refine ⟨h.scheme, h.scheme', h.fg, h.fg', h.bg, h.bg', .inr ⟨?_, ?_⟩, h.curB⟩
    · show Color.ofRgb c.fgDefault = _; rw [h.fg]
    · show Color.ofRgb c'.fgDefault = _; rw [h.fg']
  | some x =>
    have := h.rgb hsame x
    dsimp only
    cases hx : c.rgb x <;> cases hy : c'.rgb x <;> rw [hx, hy] at this <;> simp only [Option.Rel] at this
    · exact rfl
    · exact ⟨h.scheme, h.scheme', h.fg, h.fg', h.bg, h.bg', .inl rfl, h.curB⟩

theorem SchemeCtx.setBackground (h : SchemeCtx d d' c c') (x : Option Color) (v : Value) :
    Except.Rel (SchemeCtx d d') (c.setBackground x v) (c'.setBackground x v) := by
  unfold ColorCtx.setBackground
  cases x with
  | none =>
    refine ⟨h.scheme, h.scheme', h.fg, h.fg', h.bg, h.bg', h.curF, .inr ⟨?_, ?_⟩⟩
    · show Color.ofRgb c.bgDefault = _; rw [h.bg]
    · show Color.ofRgb c'.bgDefault = _; rw [h.bg']
  | some x =>
    have := h.rgb hsame x
    dsimp only
    cases hx : c.rgb x <;> cases hy : c'.rgb x <;> rw [hx, hy] at this <;> simp only [Option.Rel] at this
    · exact rfl
    · exact ⟨h.scheme, h.scheme', h.fg, h.fg', h.bg, h.bg', h.curF, .inl rfl⟩

theorem SchemeCtx.pixel (h : SchemeCtx d d' c c') (g : Graphic)
    (hg : g.gtype = .color24Bit → d.multiCfg.colorScheme = .color24Bit) (x y : Nat) :
    Res.Rel (Option.Rel (fun a b => BothDefault d d' a b ∨ SameColor d d' a b)) (g.pixelFn x y c) (g.pixelFn x y c') := by
  have one : Res.Rel (Option.Rel (fun a b => BothDefault d d' a b ∨ SameColor d d' a b)) (g.pixel1 x y c)
      (g.pixel1 x y c') := by
    unfold Graphic.pixel1
    refine Res.Rel.refl_bind fun b => ?_
    dsimp only
    split
    · trivial
    · split
      · trivial
      · split
        · exact h.curBg hsame
        · exact h.curFg hsame
  have eight : Res.Rel (Option.Rel (fun a b => BothDefault d d' a b ∨ SameColor d d' a b)) (g.pixel8 x y c)
      (g.pixel8 x y c') := by
    unfold Graphic.pixel8
    refine Res.Rel.refl_bind fun b => ?_
    split
    · trivial
    · have := h.rgb hsame (.legacy b)
      cases hx : c.rgb (.legacy b) <;> cases hy : c'.rgb (.legacy b) <;> rw [hx, hy] at this <;>
        simp only [Option.Rel] at this
      · trivial
      · exact .inr this
  unfold Graphic.pixelFn
  split
  · exact one
  · exact eight
  · exact eight
  · rename_i ht
    have hs := hg ht
    unfold Graphic.pixel24
    refine Res.Rel.refl_bind fun b => Res.Rel.refl_bind fun gr => Res.Rel.refl_bind fun r => ?_
    split
    · trivial
    · exact .inr ⟨.rgb r gr b, by simp [colorValue, hs], by simp [colorValue, hsame, hs]⟩

end Scheme

/-- **C76** (all messages): signs of the same color scheme which only differ in default colors or LEDs show a message alike:
same errors, same number of pages for the same times, and at each place both pixels have the default foreground
color of their sign, or both the background color, or both are what their sign shows for the same color value.
Graphics of 24 bits are for 24-bit signs. -/
theorem C76_scheme (d d' : Dms) (hd : SameButColors d d') (hs : d'.multiCfg.colorScheme = d.multiCfg.colorScheme)
    (hg : ∀ g ∈ d.graphicDefinition, g.gtype = .color24Bit → d.multiCfg.colorScheme = .color24Bit)
    (ms : Str) (k : Nat) :
    RecoloredRun (fun c c' => BothDefault d d' c c' ∨ SameColor d d' c c') d d' ms k := by
  refine run_rel (K := SchemeCtx d d') (V := fun _ => True) hd ?_ k
    (new_rel hd ⟨rfl, hs, rfl, rfl, rfl, rfl, .inr ⟨rfl, rfl⟩, .inr ⟨rfl, rfl⟩⟩ ms fun _ _ _ _ => trivial)
  constructor
  · intro c c' h
    unfold ColorCtx.foregroundRgb
    have := h.curFg hs
    cases hx : c.rgb c.fgCurrent <;> cases hy : c'.rgb c'.fgCurrent <;> rw [hx, hy] at this <;>
      simp only [Option.Rel] at this
    · exact .inl (.inl ⟨h.fg, h.fg'⟩)
    · exact this
  · intro c c' h
    unfold ColorCtx.backgroundRgb
    have := h.curBg hs
    cases hx : c.rgb c.bgCurrent <;> cases hy : c'.rgb c'.bgCurrent <;> rw [hx, hy] at this <;>
      simp only [Option.Rel] at this
    · exact .inl (.inr ⟨h.bg, h.bg'⟩)
    · exact this
  · intro c c' x h _; exact h.setForeground hs _ _
  · intro c c' x h _; exact h.setBackground hs _ _
  · intro c c' x h _; exact h.setBackground hs _ _
  · intro c c' r x h _; exact h.setForeground hs _ _
  · intro c c' n pos g x y h _ hm _; exact (h.pixel hs g (hg g hm) x y).over

/-- **C76** (monochrome 1-bit signs): the colors of the LEDs only recolor: at each place both signs show the foreground color,
or both the background color, for every message. -/
theorem C76_monochrome (d d' : Dms) (hd : SameButColors d d') (h1 : d.multiCfg.colorScheme = .monochrome1Bit)
    (h2 : d'.multiCfg.colorScheme = .monochrome1Bit) (hg : ∀ g ∈ d.graphicDefinition, g.gtype ≠ .color24Bit)
    (ms : Str) (k : Nat) : RecoloredRun (BothDefault d d') d d' ms k := by
  refine run_mono ?_ (C76_scheme d d' hd (h2.trans h1.symm) (fun g hm ht => absurd ht (hg g hm)) ms k)
  rintro c c' (h | ⟨x, k1, k2⟩)
  · exact h
  · cases x with
    | rgb r g b => rw [h1] at k1; simp [colorValue] at k1
    | legacy v =>
      rw [h1] at k1
      rw [h2] at k2
      simp only [colorValue] at k1 k2
      split at k1
      · rename_i e
        rw [if_pos e] at k2
        simp only [Option.some.injEq] at k1 k2
        exact .inr ⟨k1.symm, k2.symm⟩
      · rename_i e
        rw [if_neg e] at k2
        split at k1
        · rename_i e
          rw [if_pos e] at k2
          simp only [Option.some.injEq] at k1 k2
          exact .inl ⟨k1.symm, k2.symm⟩
        · cases k1

/-! ### cases -/

/-- a sign without graphics of 24 bits -/
def Tests.plainDms : Dms := { smallDms with
  graphicDefinition := smallDms.graphicDefinition.filter fun g => g.gtype ≠ .color24Bit }

/-- a sign with blue text on white -/
def Tests.blueDms : Dms := { plainDms with
  multiCfg := { plainDms.multiCfg with defaultForegroundRgb := .rgb 0 0 255, defaultBackgroundRgb := .legacy 7 } }

/-- a sign with green LEDs -/
def Tests.greenDms : Dms := { plainDms with
  vmsCfg := { plainDms.vmsCfg with monoForeground := (0, 200, 0), monoBackground := (1, 2, 3) }
  multiCfg := { plainDms.multiCfg with colorScheme := .monochrome1Bit } }

/-- a sign with red LEDs -/
def Tests.redDms : Dms := { greenDms with
  vmsCfg := { greenDms.vmsCfg with monoForeground := (200, 0, 0), monoBackground := (0, 0, 0) } }

-- the hypotheses are met
example : SameButColors plainDms blueDms := by constructor <;> rfl
example : SameButColors blueDms redDms := by constructor <;> rfl
example : SameButColors greenDms redDms ∧ ∀ g ∈ greenDms.graphicDefinition, g.gtype ≠ .color24Bit :=
  ⟨by constructor <;> rfl, by decide⟩
example : ∀ v, .ok (.ok v) ∈ values c!"[jl2]A[np]A" → ¬Colored v := by
  have : values c!"[jl2]A[np]A" = [.ok (.ok (.justificationLine (some .left))), .ok (.ok (.text c!"A")),
      .ok (.ok .newPage), .ok (.ok (.text c!"A"))] := by decide +kernel
  intro v hv
  rw [this] at hv
  simp only [List.mem_cons, Res.ok.injEq, Except.ok.injEq, List.not_mem_nil, or_false] at hv
  rcases hv with rfl | rfl | rfl | rfl <;> exact id

-- text on signs of different color schemes
example : pixels plainDms c!"[jp2][jl2]A" [(0, 0), (1, 0), (2, 0)] =
    [signBackground plainDms, signForeground plainDms, signBackground plainDms] := by decide +kernel
example : pixels blueDms c!"[jp2][jl2]A" [(0, 0), (1, 0), (2, 0)] =
    [(255, 255, 255), (0, 0, 255), (255, 255, 255)] := by decide +kernel
example : pixels redDms c!"[jp2][jl2]A" [(0, 0), (1, 0), (2, 0)] =
    [(0, 0, 0), (200, 0, 0), (0, 0, 0)] := by decide +kernel

-- colors of tags on signs of the same color scheme
example : pixels greenDms c!"[pb1][cf0][jp2][jl2]A[cf]A" [(0, 0), (1, 0), (5, 0)] =
    [(0, 200, 0), (1, 2, 3), (0, 200, 0)] := by decide +kernel
example : pixels redDms c!"[pb1][cf0][jp2][jl2]A[cf]A" [(0, 0), (1, 0), (5, 0)] =
    [(200, 0, 0), (0, 0, 0), (200, 0, 0)] := by decide +kernel
example : pixels blueDms c!"[pb1][jp2][jl2]A[cf0]A" [(0, 0), (1, 0), (5, 0)] =
    [(255, 0, 0), (0, 0, 255), (0, 0, 0)] := by decide +kernel

/-- **C76**: color tags may be refused by signs of another color scheme, so `C76_text` needs messages without. -/
theorem C76_tags : SameButColors blueDms redDms ∧ nextError blueDms c!"[cf9]A" = none ∧
    nextError redDms c!"[cf9]A" ≠ none := by
  refine ⟨by constructor <;> rfl, ?_⟩
  decide +kernel

end Ntcip
