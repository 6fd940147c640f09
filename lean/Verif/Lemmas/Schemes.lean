import Verif.Spec.Schemes
import Verif.Lemmas.Sister
import Verif.Props.Recolor
/-
A message rendered on signs with other color schemes.
-/
namespace Ntcip
open Spec

/-- color contexts of both signs: the same color that both have, or both have their default color -/
structure CrossCtx (d d' : Dms) (c c' : ColorCtx) : Prop where
  scheme : c.colorScheme = d.multiCfg.colorScheme
  scheme' : c'.colorScheme = d'.multiCfg.colorScheme
  fg : c.fgDefault = signForeground d
  fg' : c'.fgDefault = signForeground d'
  bg : c.bgDefault = signBackground d
  bg' : c'.bgDefault = signBackground d'
  curF : (c'.fgCurrent = c.fgCurrent ∧ HasColor d c.fgCurrent ∧ HasColor d' c.fgCurrent) ∨
    (c.fgCurrent = .ofRgb (signForeground d) ∧ c'.fgCurrent = .ofRgb (signForeground d'))
  curB : (c'.bgCurrent = c.bgCurrent ∧ HasColor d c.bgCurrent ∧ HasColor d' c.bgCurrent) ∨
    (c.bgCurrent = .ofRgb (signBackground d) ∧ c'.bgCurrent = .ofRgb (signBackground d'))

theorem hasColor_admits {d : Dms} {c} : HasColor d c ↔ Admits d.multiCfg.colorScheme c := by
  unfold HasColor Admits
  cases d.multiCfg.colorScheme <;> cases c <;> exact Iff.rfl

section Cross
variable {d d' : Dms} {c c' : ColorCtx}

theorem rgb_some {ctx : ColorCtx} (hs : ctx.colorScheme = d.multiCfg.colorScheme) {x} (h : HasColor d x) :
    ∃ a, ctx.rgb x = some a := by
  rw [hasColor_admits, ← hs, ← C16_rgb_iff] at h
  exact Option.isSome_iff_exists.1 h

theorem CrossCtx.rgb (h : CrossCtx d d' c c') {x} (h1 : HasColor d x) (h2 : HasColor d' x) :
    ∃ a b, c.rgb x = some a ∧ c'.rgb x = some b ∧ SameColor d d' a b := by
  obtain ⟨a, ha⟩ := rgb_some h.scheme h1
  obtain ⟨b, hb⟩ := rgb_some h.scheme' h2
  refine ⟨a, b, ha, hb, x, ?_, ?_⟩
  · rw [← ha, rgb_eq, h.scheme, h.fg, h.bg]
  · rw [← hb, rgb_eq, h.scheme', h.fg', h.bg']

theorem fg_default {ctx : ColorCtx} (h : ctx.fgCurrent = .ofRgb ctx.fgDefault) : ctx.foregroundRgb = ctx.fgDefault := by
  unfold ColorCtx.foregroundRgb
  rw [h, rgb_eq, ofRgb_shown]
  by_cases hs : ctx.colorScheme = .color24Bit
  · rw [if_pos hs]
  · rw [if_neg hs]

theorem bg_default {ctx : ColorCtx} (h : ctx.bgCurrent = .ofRgb ctx.bgDefault) : ctx.backgroundRgb = ctx.bgDefault := by
  unfold ColorCtx.backgroundRgb
  rw [h, rgb_eq, ofRgb_shown]
  by_cases hs : ctx.colorScheme = .color24Bit
  · rw [if_pos hs]
  · rw [if_neg hs]

theorem CrossCtx.fgRgb (h : CrossCtx d d' c c') :
    BothDefault d d' c.foregroundRgb c'.foregroundRgb ∨ SameColor d d' c.foregroundRgb c'.foregroundRgb := by
  rcases h.curF with ⟨e, h1, h2⟩ | ⟨e1, e2⟩
  · obtain ⟨a, b, ha, hb, hs⟩ := h.rgb h1 h2
    unfold ColorCtx.foregroundRgb
    rw [e, ha, hb]
    exact .inr hs
  · rw [fg_default (by rw [e1, h.fg]), fg_default (by rw [e2, h.fg'])]
    exact .inl (.inl ⟨h.fg, h.fg'⟩)

theorem CrossCtx.bgRgb (h : CrossCtx d d' c c') :
    BothDefault d d' c.backgroundRgb c'.backgroundRgb ∨ SameColor d d' c.backgroundRgb c'.backgroundRgb := by
  rcases h.curB with ⟨e, h1, h2⟩ | ⟨e1, e2⟩
  · obtain ⟨a, b, ha, hb, hs⟩ := h.rgb h1 h2
    unfold ColorCtx.backgroundRgb
    rw [e, ha, hb]
    exact .inr hs
  · rw [bg_default (by rw [e1, h.bg]), bg_default (by rw [e2, h.bg'])]
    exact .inl (.inr ⟨h.bg, h.bg'⟩)

theorem CrossCtx.setF (h : CrossCtx d d' c c') (x : Option Color) (v : Value) (hx : ∀ y, x = some y → HasColor d y ∧ HasColor d' y) :
    Except.Rel (CrossCtx d d') (c.setForeground x v) (c'.setForeground x v) := by
  unfold ColorCtx.setForeground
  cases x with
  | none =>
    refine ⟨h.scheme, h.scheme', h.fg, h.fg', h.bg, h.bg', .inr ⟨?_, ?_⟩, h.curB⟩
    · show Color.ofRgb c.fgDefault = _; rw [h.fg]
    · show Color.ofRgb c'.fgDefault = _; rw [h.fg']
  | some x =>
    obtain ⟨h1, h2⟩ := hx x rfl
    obtain ⟨a, b, ha, hb, _⟩ := h.rgb h1 h2
    dsimp only
    rw [ha, hb]
    exact ⟨h.scheme, h.scheme', h.fg, h.fg', h.bg, h.bg', .inl ⟨rfl, h1, h2⟩, h.curB⟩

theorem CrossCtx.setB (h : CrossCtx d d' c c') (x : Option Color) (v : Value) (hx : ∀ y, x = some y → HasColor d y ∧ HasColor d' y) :
    Except.Rel (CrossCtx d d') (c.setBackground x v) (c'.setBackground x v) := by
  unfold ColorCtx.setBackground
  cases x with
  | none =>
    refine ⟨h.scheme, h.scheme', h.fg, h.fg', h.bg, h.bg', h.curF, .inr ⟨?_, ?_⟩⟩
    · show Color.ofRgb c.bgDefault = _; rw [h.bg]
    · show Color.ofRgb c'.bgDefault = _; rw [h.bg']
  | some x =>
    obtain ⟨h1, h2⟩ := hx x rfl
    obtain ⟨a, b, ha, hb, _⟩ := h.rgb h1 h2
    dsimp only
    rw [ha, hb]
    exact ⟨h.scheme, h.scheme', h.fg, h.fg', h.bg, h.bg', h.curF, .inl ⟨rfl, h1, h2⟩⟩

theorem Res.bind_rel {α β : Type} {R : β → β → Prop} (x : Res α) {f g : α → Res β} (h : ∀ a, Res.Rel R (f a) (g a)) :
    Res.Rel R (x >>= f) (x >>= g) := by
  cases x
  · exact h _
  · exact rfl

/-- reading a pixel of a graphic panics alike, whatever the colors are -/
theorem pixelFn_any (g : Graphic) (x y : Nat) (c c' : ColorCtx) :
    Res.Rel (fun _ _ => True) (g.pixelFn x y c) (g.pixelFn x y c') := by
  have one : Res.Rel (fun _ _ => True) (g.pixel1 x y c) (g.pixel1 x y c') := by
    unfold Graphic.pixel1
    refine Res.bind_rel _ fun b => ?_
    dsimp only
    repeat' split
    all_goals trivial
  have eight : Res.Rel (fun _ _ => True) (g.pixel8 x y c) (g.pixel8 x y c') := by
    unfold Graphic.pixel8
    refine Res.bind_rel _ fun b => ?_
    repeat' split
    all_goals trivial
  unfold Graphic.pixelFn
  split
  · exact one
  · exact eight
  · exact eight
  · cases g.pixel24 x y <;> trivial

theorem default_rel (h : CrossCtx d d' c c') (hs : d.multiCfg.colorScheme = .color24Bit ↔ d'.multiCfg.colorScheme = .color24Bit)
    {a b : Rgb} {P : Rgb → Rgb → Prop} (hp : P a b) : Option.Rel P (c.rgb (.ofRgb a)) (c'.rgb (.ofRgb b)) := by
  rw [rgb_eq, rgb_eq, ofRgb_shown, ofRgb_shown, h.scheme, h.scheme']
  by_cases h1 : d.multiCfg.colorScheme = .color24Bit
  · rw [if_pos h1, if_pos (hs.1 h1)]; exact hp
  · rw [if_neg h1, if_neg fun k => h1 (hs.2 k)]; trivial

/-- a graphic of both signs -/
theorem CrossCtx.pixel (h : CrossCtx d d' c c') (g : Graphic) (hg : SharedGraphic d d' g) (x y : Nat) :
    Res.Rel (Option.Rel (fun a b => BothDefault d d' a b ∨ SameColor d d' a b)) (g.pixelFn x y c) (g.pixelFn x y c') := by
  have both : ∀ x, HasColor d x → HasColor d' x →
      Option.Rel (fun a b => BothDefault d d' a b ∨ SameColor d d' a b) (c.rgb x) (c'.rgb x) := by
    intro x h1 h2
    obtain ⟨a, b, ha, hb, hs⟩ := h.rgb h1 h2
    rw [ha, hb]
    exact .inr hs
  have eight : (∀ b ∈ g.bitmap, HasColor d (.legacy b) ↔ HasColor d' (.legacy b)) →
      Res.Rel (Option.Rel (fun a b => BothDefault d d' a b ∨ SameColor d d' a b)) (g.pixel8 x y c) (g.pixel8 x y c') := by
    intro hb
    unfold Graphic.pixel8 Graphic.byteAt
    cases hi : g.bitmap[y * g.width.toNat + x]? with
    | none => exact rfl
    | some b =>
      have hm := hb b (List.mem_of_getElem? hi)
      simp only [bind, Res.bind, pure]
      split
      · trivial
      · by_cases h1 : HasColor d (.legacy b)
        · exact both _ h1 (hm.1 h1)
        · have h2 : ¬ HasColor d' (.legacy b) := fun k => h1 (hm.2 k)
          have n1 : c.rgb (.legacy b) = none := by
            rw [hasColor_admits, ← h.scheme, ← C16_rgb_iff, Bool.not_eq_true, Option.isSome_eq_false_iff] at h1
            simpa using h1
          have n2 : c'.rgb (.legacy b) = none := by
            rw [hasColor_admits, ← h.scheme', ← C16_rgb_iff, Bool.not_eq_true, Option.isSome_eq_false_iff] at h2
            simpa using h2
          rw [n1, n2]
          trivial
  unfold SharedGraphic at hg
  unfold Graphic.pixelFn
  cases ht : g.gtype <;> simp only [ht] at hg ⊢
  · unfold Graphic.pixel1
    refine Res.Rel.refl_bind fun b => ?_
    dsimp only
    split
    · trivial
    · split
      · trivial
      · split
        · rcases h.curB with ⟨e, h1, h2⟩ | ⟨e1, e2⟩
          · rw [e]; exact both _ h1 h2
          · rw [e1, e2]; exact default_rel h hg (.inl (.inr ⟨rfl, rfl⟩))
        · rcases h.curF with ⟨e, h1, h2⟩ | ⟨e1, e2⟩
          · rw [e]; exact both _ h1 h2
          · rw [e1, e2]; exact default_rel h hg (.inl (.inl ⟨rfl, rfl⟩))
  · exact eight hg
  · exact eight hg
  · unfold Graphic.pixel24
    refine Res.Rel.refl_bind fun b => Res.Rel.refl_bind fun gr => Res.Rel.refl_bind fun r => ?_
    split
    · trivial
    · exact .inr ⟨.rgb r gr b, by simp [colorValue, hg.1], by simp [colorValue, hg.2]⟩

end Cross

/-- the values of such messages, of whose graphics `Q` is known -/
def CrossValue (d d' : Dms) (Q : Graphic → Prop) (v : Value) : Prop :=
  (∀ c, tagColor v = some c → HasColor d c ∧ HasColor d' c) ∧
    ∀ n pos, v = .graphic n pos → ∀ g ∈ d.graphicDefinition, g.number = n → Q g

theorem cross_sim (d d' : Dms) {P : Rgb → Rgb → Prop} (hP : ∀ a b, BothDefault d d' a b ∨ SameColor d d' a b → P a b)
    {Q : Graphic → Prop} (hg : ∀ g, Q g → (∀ a b, P a b) ∨ SharedGraphic d d' g ∨ (g.gtype = .color24Bit ∧ ∀ a, P a a)) :
    ColorSim P (CrossCtx d d') (CrossValue d d' Q) d d' := by
  constructor
  · intro c c' h; exact hP _ _ h.fgRgb
  · intro c c' h; exact hP _ _ h.bgRgb
  · intro c c' x h hv; exact h.setF _ _ fun y e => hv.1 y (by rw [e]; rfl)
  · intro c c' x h hv; exact h.setB _ _ fun y e => hv.1 y (by rw [e]; rfl)
  · intro c c' x h hv; exact h.setB _ _ fun y e => hv.1 y (by rw [e]; rfl)
  · intro c c' r x h hv; exact h.setF _ _ fun y e => hv.1 y (by rw [← e]; rfl)
  · intro c c' n pos g x y h hv hm hn
    rcases hg g (hv.2 n pos rfl g hm hn) with hall | hsh | ⟨ht, hs⟩
    · have := pixelFn_any g x y c c'
      cases h1 : g.pixelFn x y c <;> cases h2 : g.pixelFn x y c' <;> rw [h1, h2] at this <;> simp only [Res.Rel] at this
      · exact fun _ _ _ => hall _ _
      · exact this
    · have := (h.pixel g hsh x y).over
      cases h1 : g.pixelFn x y c <;> cases h2 : g.pixelFn x y c' <;> rw [h1, h2] at this <;> simp only [Res.Rel] at this
      · rename_i a b
        have key := (h.pixel g hsh x y)
        rw [h1, h2] at key
        simp only [Res.Rel] at key
        cases a <;> cases b <;> simp only [Option.Rel] at key
        · exact fun _ _ k => k
        · exact fun _ _ _ => hP _ _ key
      · exact this
    · unfold Graphic.pixelFn
      simp only [ht]
      cases g.pixel24 x y with
      | panic p => exact rfl
      | ok a =>
        cases a with
        | none => exact fun _ _ k => k
        | some a => exact fun _ _ _ => hs a

end Ntcip
