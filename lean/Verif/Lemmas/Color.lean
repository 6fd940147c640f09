import Verif.Spec.Color
/-
Lemmas on colors.
-/
namespace Ntcip
open Spec

theorem u8_max_toNat (a b : UInt8) : (max a b).toNat = max a.toNat b.toNat := by
  have : (max a b) = if a ≤ b then b else a := rfl
  rw [this]; split <;> rename_i h <;> simp [UInt8.le_iff_toNat_le] at h <;> omega

theorem u8_min_toNat (a b : UInt8) : (min a b).toNat = min a.toNat b.toNat := by
  have : (min a b) = if a ≤ b then a else b := rfl
  rw [this]; split <;> rename_i h <;> simp [UInt8.le_iff_toNat_le] at h <;> omega

/-- the division trick of `lerp` is exact -/
theorem div255 (c : Nat) (h : c ≤ 65025) : (c + 1 + c / 256) / 256 = c / 255 := by omega

theorem lerp_toNat (bg fg v : UInt8) :
    (ColorCtx.lerp bg fg v).toNat =
      Spec.interpolate (min bg.toNat fg.toNat) (max bg.toNat fg.toNat) v.toNat := by
  have hb := bg.toNat_lt; have hf := fg.toNat_lt; have hv := v.toNat_lt
  have hle : min bg fg ≤ max bg fg := by
    rw [UInt8.le_iff_toNat_le, u8_max_toNat, u8_min_toNat]; omega
  have hd : (max bg fg - min bg fg).toNat = max bg.toNat fg.toNat - min bg.toNat fg.toNat := by
    rw [UInt8.toNat_sub_of_le _ _ hle, u8_max_toNat, u8_min_toNat]
  unfold ColorCtx.lerp Spec.interpolate
  simp only [UInt8.toNat_add, UInt8.toNat_ofNat', hd, u8_min_toNat]
  have h1 : (max bg.toNat fg.toNat - min bg.toNat fg.toNat) * v.toNat ≤ 65025 := by
    have := Nat.mul_le_mul (show max bg.toNat fg.toNat - min bg.toNat fg.toNat ≤ 255 by omega)
      (show v.toNat ≤ 255 by omega)
    omega
  have h2 : (max bg.toNat fg.toNat - min bg.toNat fg.toNat) * v.toNat / 255 ≤
      max bg.toNat fg.toNat - min bg.toNat fg.toNat := by
    apply Nat.div_le_of_le_mul
    rw [Nat.mul_comm 255]
    exact Nat.mul_le_mul_left _ (by omega)
  rw [div255 _ h1]
  omega

theorem rgbClassic_eq (v : UInt8) : ColorCtx.rgbClassic v = classicColors[v.toNat]? := by
  have h : ∀ n : Fin 256, ColorCtx.rgbClassic (UInt8.ofFin n) =
      classicColors[(UInt8.ofFin n).toNat]? := by decide +kernel
  exact h v.toFin

theorem lerp_level (bg fg v : UInt8) : ColorCtx.lerp bg fg v = level bg fg v := by
  unfold level; rw [← lerp_toNat, UInt8.ofNat_toNat]

theorem rgb_eq (ctx : ColorCtx) (c : Color) :
    ctx.rgb c = colorValue ctx.colorScheme ctx.fgDefault ctx.bgDefault c := by
  have e0 (v : UInt8) : v = 0 ↔ v.toNat = 0 := by rw [← UInt8.toNat_inj]; rfl
  have e1 (v : UInt8) : v = 1 ↔ v.toNat = 1 := by rw [← UInt8.toNat_inj]; rfl
  cases hs : ctx.colorScheme <;> cases c <;>
    simp [ColorCtx.rgb, hs, colorValue, ColorCtx.rgbMonochrome1, ColorCtx.rgbMonochrome8, lerp_level, rgbClassic_eq, e0, e1]

theorem toRgb_eq (c : Color) : c.toRgb = configRgb c := by
  cases c <;> simp [Color.toRgb, configRgb, rgbClassic_eq]

end Ntcip
