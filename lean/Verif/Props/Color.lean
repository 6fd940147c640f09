import Verif.Lemmas.Color
/-
C15, C16, C17: colors.
-/
namespace Ntcip

/-! ### C15 -/

/-- **C15 (holds when the background component is not above the foreground one)** level `v` gives
the exact interpolation from background to foreground, background at 0, foreground at 255,
never outside, monotone in `v`.
Missing for the full claim: it is false when the background component exceeds the foreground
component, see `C15_false`. -/
theorem C15_interpolation_partial (bg fg v : UInt8) (h : bg ≤ fg) :
    (ColorCtx.lerp bg fg v).toNat = Spec.interpolate bg.toNat fg.toNat v.toNat ∧
    ColorCtx.lerp bg fg 0 = bg ∧ ColorCtx.lerp bg fg 255 = fg ∧
    bg ≤ ColorCtx.lerp bg fg v ∧ ColorCtx.lerp bg fg v ≤ fg ∧
    ∀ w, v ≤ w → ColorCtx.lerp bg fg v ≤ ColorCtx.lerp bg fg w := by
  rw [UInt8.le_iff_toNat_le] at h
  have key : ∀ u, (ColorCtx.lerp bg fg u).toNat = Spec.interpolate bg.toNat fg.toNat u.toNat := by
    intro u; rw [lerp_toNat, Nat.min_eq_left h, Nat.max_eq_right h]
  have hv := v.toNat_lt
  refine ⟨key v, ?_, ?_, ?_, ?_, ?_⟩
  · apply UInt8.toNat_inj.1; simp [key, Spec.interpolate]
  · apply UInt8.toNat_inj.1; simp [key, Spec.interpolate]; omega
  · rw [UInt8.le_iff_toNat_le, key]; simp [Spec.interpolate]
  · rw [UInt8.le_iff_toNat_le, key]; unfold Spec.interpolate
    have : (fg.toNat - bg.toNat) * v.toNat / 255 ≤ fg.toNat - bg.toNat := by
      apply Nat.div_le_of_le_mul
      rw [Nat.mul_comm 255]; exact Nat.mul_le_mul_left _ (by omega)
    omega
  · intro w hw
    rw [UInt8.le_iff_toNat_le] at hw ⊢
    rw [key, key]; unfold Spec.interpolate
    exact Nat.add_le_add_left (Nat.div_le_div_right (Nat.mul_le_mul_left _ hw)) _

/-- whatever the order, the result stays between the two components -/
theorem C15_between (bg fg v : UInt8) :
    min bg.toNat fg.toNat ≤ (ColorCtx.lerp bg fg v).toNat ∧
    (ColorCtx.lerp bg fg v).toNat ≤ max bg.toNat fg.toNat := by
  rcases Nat.le_total bg.toNat fg.toNat with h | h
  · have := C15_interpolation_partial bg fg v (UInt8.le_iff_toNat_le.2 h)
    have h1 := UInt8.le_iff_toNat_le.1 this.2.2.2.1
    have h2 := UInt8.le_iff_toNat_le.1 this.2.2.2.2.1
    omega
  · have e : ColorCtx.lerp bg fg v = ColorCtx.lerp fg bg v := by
      apply UInt8.toNat_inj.1; rw [lerp_toNat, lerp_toNat, Nat.min_comm, Nat.max_comm]
    have := C15_interpolation_partial fg bg v (UInt8.le_iff_toNat_le.2 h)
    have h1 := UInt8.le_iff_toNat_le.1 this.2.2.2.1
    have h2 := UInt8.le_iff_toNat_le.1 this.2.2.2.2.1
    rw [e]; omega

/-- **C15 is false in general**: level 0 gives the background exactly when the background component
is at most the foreground component.  Otherwise the scale is inverted (level 0 gives the
foreground, level 255 the background). -/
theorem C15_level0_iff (bg fg : UInt8) : ColorCtx.lerp bg fg 0 = bg ↔ bg ≤ fg := by
  rw [← UInt8.toNat_inj, lerp_toNat, UInt8.le_iff_toNat_le]
  simp [Spec.interpolate]; omega

theorem C15_inverted (bg fg : UInt8) (h : fg ≤ bg) :
    ColorCtx.lerp bg fg 0 = fg ∧ ColorCtx.lerp bg fg 255 = bg := by
  rw [← UInt8.toNat_inj, ← UInt8.toNat_inj, lerp_toNat, lerp_toNat]
  rw [UInt8.le_iff_toNat_le] at h
  simp [Spec.interpolate]; omega

theorem C15_false : ¬ ∀ bg fg : UInt8, ColorCtx.lerp bg fg 0 = bg ∧ ColorCtx.lerp bg fg 255 = fg := by
  intro h; exact absurd (h 255 0).1 (by decide)

/-- the pixel color of an 8-bit monochrome level: each component interpolated -/
theorem C15_rgb_monochrome_8 (ctx : ColorCtx) (v : UInt8) (hs : ctx.colorScheme = .monochrome8Bit)
    (h : ctx.bgDefault.1 ≤ ctx.fgDefault.1 ∧ ctx.bgDefault.2.1 ≤ ctx.fgDefault.2.1 ∧
      ctx.bgDefault.2.2 ≤ ctx.fgDefault.2.2) :
    ∃ r g b, ctx.rgb (.legacy v) = some (r, g, b) ∧
      r.toNat = Spec.interpolate ctx.bgDefault.1.toNat ctx.fgDefault.1.toNat v.toNat ∧
      g.toNat = Spec.interpolate ctx.bgDefault.2.1.toNat ctx.fgDefault.2.1.toNat v.toNat ∧
      b.toNat = Spec.interpolate ctx.bgDefault.2.2.toNat ctx.fgDefault.2.2.toNat v.toNat := by
  refine ⟨_, _, _, by simp only [ColorCtx.rgb, hs, ColorCtx.rgbMonochrome8]; rfl, ?_, ?_, ?_⟩
  · exact (C15_interpolation_partial _ _ v h.1).1
  · exact (C15_interpolation_partial _ _ v h.2.1).1
  · exact (C15_interpolation_partial _ _ v h.2.2).1

-- a non-trivial case of the hypotheses
example : ((10 : UInt8) ≤ 200) ∧ ColorCtx.lerp 10 200 77 = 67 := by decide

/-! ### C16 -/

/-- Independent table: which colors a scheme can show -/
def Spec.Admits : ColorScheme → Color → Prop
  | .monochrome1Bit, .legacy v => v.toNat ≤ 1
  | .monochrome8Bit, .legacy _ => True
  | .colorClassic, .legacy v => v.toNat ≤ 9
  | .color24Bit, .legacy v => v.toNat ≤ 9
  | .color24Bit, .rgb _ _ _ => True
  | _, .rgb _ _ _ => False

theorem fromU8_isSome (v : UInt8) : (ColorClassic.fromU8 v).isSome = true ↔ v.toNat ≤ 9 := by
  revert v
  have h : ∀ n : Fin 256, (ColorClassic.fromU8 (UInt8.ofFin n)).isSome = true ↔
      (UInt8.ofFin n).toNat ≤ 9 := by decide +kernel
  intro v; exact h v.toFin

/-- **C16** a color resolves to an RGB value exactly when the scheme admits it -/
theorem C16_rgb_iff (ctx : ColorCtx) (c : Color) :
    (ctx.rgb c).isSome = true ↔ Spec.Admits ctx.colorScheme c := by
  have h1 : ∀ v : UInt8, (ctx.rgbMonochrome1 v).isSome = true ↔ v.toNat ≤ 1 := by
    intro v
    have e0 : v = 0 ↔ v.toNat = 0 := by rw [← UInt8.toNat_inj]; rfl
    have e1 : v = 1 ↔ v.toNat = 1 := by rw [← UInt8.toNat_inj]; rfl
    simp only [ColorCtx.rgbMonochrome1, e0, e1]
    split
    · simp; omega
    · split
      · simp; omega
      · simp; omega
  cases hs : ctx.colorScheme <;> cases c <;>
    simp [ColorCtx.rgb, hs, Spec.Admits, ColorCtx.rgbMonochrome8, ColorCtx.rgbClassic, h1,
      fromU8_isSome]

/-- **C16** setting the foreground: accepted exactly for admitted colors, and then that color is
the current one; otherwise `UnsupportedTagValue` naming the tag. -/
theorem C16_set_foreground (ctx : ColorCtx) (c : Color) (v : Value) :
    (Spec.Admits ctx.colorScheme c →
      ctx.setForeground (some c) v = .ok { ctx with fgCurrent := c }) ∧
    (¬ Spec.Admits ctx.colorScheme c →
      ctx.setForeground (some c) v = .error (.unsupportedTagValue v.display)) := by
  rw [← C16_rgb_iff]
  unfold ColorCtx.setForeground
  cases h : ctx.rgb c <;> simp [h]

/-- **C16** the same for the background -/
theorem C16_set_background (ctx : ColorCtx) (c : Color) (v : Value) :
    (Spec.Admits ctx.colorScheme c →
      ctx.setBackground (some c) v = .ok { ctx with bgCurrent := c }) ∧
    (¬ Spec.Admits ctx.colorScheme c →
      ctx.setBackground (some c) v = .error (.unsupportedTagValue v.display)) := by
  rw [← C16_rgb_iff]
  unfold ColorCtx.setBackground
  cases h : ctx.rgb c <;> simp [h]

/-- **C16** the color shown is the one the tag names: the default colors on 1-bit signs, a level between them on
8-bit signs, the classic color, or the triple itself -/
theorem C16_rgb_value (ctx : ColorCtx) (c : Color) :
    ctx.rgb c = Spec.colorValue ctx.colorScheme ctx.fgDefault ctx.bgDefault c := rgb_eq ctx c

/-- **C17** the numbers of the classic colors -/
theorem C17_values (k : ColorClassic) : Spec.classicColors[k.toU8.toNat]? = some k.rgb := by
  cases k <;> decide

example : Spec.Admits .colorClassic (.legacy 9) ∧ ¬ Spec.Admits .colorClassic (.legacy 10) := by
  simp [Spec.Admits]

/-! ### C17 -/

/-- **C17** `from_u8` accepts exactly 0..=9 -/
theorem C17_from_u8_range (v : UInt8) : (ColorClassic.fromU8 v).isSome = true ↔ v.toNat ≤ 9 :=
  fromU8_isSome v

/-- **C17** `from_u8` and `u8::from` are inverse -/
theorem C17_round_trip (v : UInt8) (k : ColorClassic) :
    ColorClassic.fromU8 v = some k ↔ v = k.toU8 := by
  have h : ∀ n : Fin 256, ColorClassic.fromU8 (UInt8.ofFin n) = some k ↔ UInt8.ofFin n = k.toU8 := by
    cases k <;> decide +kernel
  exact h v.toFin

/-- **C17** distinct classic colors have distinct RGB values and distinct numbers -/
theorem C17_injective (a b : ColorClassic) :
    (a.rgb = b.rgb → a = b) ∧ (a.toU8 = b.toU8 → a = b) := by
  cases a <;> cases b <;> decide

end Ntcip
