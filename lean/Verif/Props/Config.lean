import Verif.Model.Sign
/-
C18, C19: validation of the sign configuration.
-/
namespace Ntcip

/-! ### C18 -/

/-- Independent statement (in integers): border + pixels × pitch fits in the sign face -/
def Spec.Fits (s : SignCfg) (v : VmsCfg) : Prop :=
  s.horizontalBorder.toNat + v.signWidthPixels.toNat * v.horizontalPitch.toNat ≤ s.signWidth.toNat ∧
  s.verticalBorder.toNat + v.signHeightPixels.toNat * v.verticalPitch.toNat ≤ s.signHeight.toNat

instance (s : SignCfg) (v : VmsCfg) : Decidable (Spec.Fits s v) := by
  unfold Spec.Fits; infer_instance

/-- `border + pixels * pitch ≤ face` as the code computes it -/
def dimCheck (p : Profile) (border pixels : UInt16) (pitch : UInt8) (face : UInt16) : Res Bool := do
  let m ← mulU16 p pixels pitch.toUInt16
  let t ← addU16 p border m
  pure (decide (t ≤ face))

theorem dimCheck_exact (p : Profile) (border pixels : UInt16) (pitch : UInt8) (face : UInt16)
    (h : border.toNat + pixels.toNat * pitch.toNat < 65536) :
    dimCheck p border pixels pitch face =
      .ok (decide (border.toNat + pixels.toNat * pitch.toNat ≤ face.toNat)) := by
  have hm : pixels.toNat * pitch.toUInt16.toNat < 65536 := by simp; omega
  have e1 : (pixels * pitch.toUInt16).toNat = pixels.toNat * pitch.toNat := by
    rw [UInt16.toNat_mul]; simp at *; omega
  have e2 : (border + pixels * pitch.toUInt16).toNat = border.toNat + pixels.toNat * pitch.toNat := by
    rw [UInt16.toNat_add, e1]; omega
  simp only [dimCheck, mulU16, hm, if_true, Res.ok_bind, addU16, e1, h, Res.pure_eq,
    UInt16.le_iff_toNat_le, e2]

theorem dimCheck_checked_overflow (border pixels : UInt16) (pitch : UInt8) (face : UInt16)
    (h : ¬ border.toNat + pixels.toNat * pitch.toNat < 65536) :
    dimCheck .checked border pixels pitch face = .panic .overflow := by
  by_cases hm : pixels.toNat * pitch.toUInt16.toNat < 65536
  · have e1 : (pixels * pitch.toUInt16).toNat = pixels.toNat * pitch.toNat := by
      rw [UInt16.toNat_mul]; simp at *; omega
    simp only [dimCheck, mulU16, hm, if_true, Res.ok_bind, addU16, e1, h, if_false,
      Res.panic_bind]
  · simp only [dimCheck, mulU16, hm, if_false, Res.panic_bind]

theorem dimCheck_wrapping (border pixels : UInt16) (pitch : UInt8) (face : UInt16) :
    dimCheck .wrapping border pixels pitch face =
      .ok (decide ((border.toNat + pixels.toNat * pitch.toNat) % 65536 ≤ face.toNat)) := by
  have : dimCheck .wrapping border pixels pitch face =
      .ok (decide (border + pixels * pitch.toUInt16 ≤ face)) := by
    simp only [dimCheck, mulU16, addU16]
    split <;> simp only [Res.ok_bind] <;> split <;> simp
  rw [this]; congr 2
  rw [UInt16.le_iff_toNat_le, UInt16.toNat_add, UInt16.toNat_mul]
  simp

theorem validate_eq (p : Profile) (s : SignCfg) (v : VmsCfg) :
    s.validate p v = match dimCheck p s.horizontalBorder v.signWidthPixels v.horizontalPitch s.signWidth with
      | .panic e => .panic e
      | .ok false => .err .invalidDimensions
      | .ok true => match dimCheck p s.verticalBorder v.signHeightPixels v.verticalPitch s.signHeight with
        | .panic e => .panic e
        | .ok false => .err .invalidDimensions
        | .ok true => .ok () := by
  have h1 : s.isWidthValid p v =
    dimCheck p s.horizontalBorder v.signWidthPixels v.horizontalPitch s.signWidth := rfl
  have h2 : s.isHeightValid p v =
    dimCheck p s.verticalBorder v.signHeightPixels v.verticalPitch s.signHeight := rfl
  simp only [SignCfg.validate, h1, h2]
  generalize dimCheck p s.horizontalBorder _ _ _ = a
  generalize dimCheck p s.verticalBorder _ _ _ = b
  rcases a with (_ | _) | _ <;> simp
  rcases b with (_ | _) | _ <;> simp

/-- **C18 (acceptance, checked arithmetic)**: `validate` returns `Ok` exactly when the pixels and
border fit in the face, for all field values. -/
theorem C18_checked_accepts_iff (s : SignCfg) (v : VmsCfg) :
    s.validate .checked v = .ok () ↔ Spec.Fits s v := by
  rw [validate_eq]
  have hw := s.signWidth.toNat_lt
  have hh := s.signHeight.toNat_lt
  unfold Spec.Fits
  by_cases h1 : s.horizontalBorder.toNat + v.signWidthPixels.toNat * v.horizontalPitch.toNat < 65536
  · rw [dimCheck_exact _ _ _ _ _ h1]
    by_cases h2 : s.verticalBorder.toNat + v.signHeightPixels.toNat * v.verticalPitch.toNat < 65536
    · rw [dimCheck_exact _ _ _ _ _ h2]
      split <;> rename_i heq <;> simp at heq
      · simp; omega
      · split <;> rename_i heq2 <;> simp at heq2
        · simp; omega
        · simp; omega
    · rw [dimCheck_checked_overflow _ _ _ _ h2]
      split <;> simp <;> omega
  · rw [dimCheck_checked_overflow _ _ _ _ h1]; simp; omega

/-- **C18 (both build profiles, no overflow)**: when `border + pixels × pitch` is below 65536 in both
directions, `validate` decides exactly `Fits` and does not panic.
Missing for the full claim: the values whose sum or product leaves `u16`, for which the claim is
false (`C18_checked_panics`, `C18_wrapping_false`). -/
theorem C18_validate_partial (p : Profile) (s : SignCfg) (v : VmsCfg)
    (h1 : s.horizontalBorder.toNat + v.signWidthPixels.toNat * v.horizontalPitch.toNat < 65536)
    (h2 : s.verticalBorder.toNat + v.signHeightPixels.toNat * v.verticalPitch.toNat < 65536) :
    s.validate p v = if Spec.Fits s v then .ok () else .err .invalidDimensions := by
  rw [validate_eq, dimCheck_exact _ _ _ _ _ h1, dimCheck_exact _ _ _ _ _ h2]
  split <;> rename_i heq <;> simp at heq
  · rw [if_neg (by unfold Spec.Fits; omega)]
  · split <;> rename_i heq2 <;> simp at heq2
    · rw [if_neg (by unfold Spec.Fits; omega)]
    · rw [if_pos (by unfold Spec.Fits; omega)]

/-- **C18 is false with overflow checks**: exact condition of the panic. -/
theorem C18_checked_panics_iff (s : SignCfg) (v : VmsCfg) :
    s.validate .checked v = .panic .overflow ↔
      65536 ≤ s.horizontalBorder.toNat + v.signWidthPixels.toNat * v.horizontalPitch.toNat ∨
      (s.horizontalBorder.toNat + v.signWidthPixels.toNat * v.horizontalPitch.toNat ≤ s.signWidth.toNat ∧
       65536 ≤ s.verticalBorder.toNat + v.signHeightPixels.toNat * v.verticalPitch.toNat) := by
  rw [validate_eq]
  have hw := s.signWidth.toNat_lt
  by_cases h1 : s.horizontalBorder.toNat + v.signWidthPixels.toNat * v.horizontalPitch.toNat < 65536
  · rw [dimCheck_exact _ _ _ _ _ h1]
    by_cases h2 : s.verticalBorder.toNat + v.signHeightPixels.toNat * v.verticalPitch.toNat < 65536
    · rw [dimCheck_exact _ _ _ _ _ h2]
      split <;> rename_i heq <;> simp at heq
      · simp; omega
      · split <;> rename_i heq2 <;> simp at heq2
        · simp; omega
        · simp; omega
    · rw [dimCheck_checked_overflow _ _ _ _ h2]
      split <;> rename_i heq <;> simp at heq <;> simp <;> omega
  · rw [dimCheck_checked_overflow _ _ _ _ h1]; simp; omega

/-- the default configuration with 1000 × 70 mm pixels: 70060 does not fit `u16` -/
theorem C18_checked_panics :
    SignCfg.default.validate .checked { VmsCfg.default with signWidthPixels := 1000 } =
      .panic .overflow := by decide +kernel

/-- **C18 in a release build** (wrapping arithmetic): what is decided is the inequality modulo 2^16;
signs that fit are accepted … -/
theorem C18_wrapping_iff (s : SignCfg) (v : VmsCfg) :
    s.validate .wrapping v = .ok () ↔
      (s.horizontalBorder.toNat + v.signWidthPixels.toNat * v.horizontalPitch.toNat) % 65536
        ≤ s.signWidth.toNat ∧
      (s.verticalBorder.toNat + v.signHeightPixels.toNat * v.verticalPitch.toNat) % 65536
        ≤ s.signHeight.toNat := by
  rw [validate_eq, dimCheck_wrapping, dimCheck_wrapping]
  split <;> rename_i heq <;> simp at heq
  · simp; omega
  · split <;> rename_i heq2 <;> simp at heq2
    · simp; omega
    · simp; omega

/-- … it never panics … -/
theorem C18_wrapping_no_panic (s : SignCfg) (v : VmsCfg) (e : Panic) :
    s.validate .wrapping v ≠ .panic e := by
  rw [validate_eq, dimCheck_wrapping, dimCheck_wrapping]
  split <;> rename_i heq <;> simp at heq <;> try simp
  split <;> rename_i heq <;> simp at heq <;> simp

/-- … but **it accepts signs that do not fit**: 60 + 937 × 70 = 65650 mm on a 2920 mm face. -/
theorem C18_wrapping_false :
    SignCfg.default.validate .wrapping { VmsCfg.default with signWidthPixels := 937 } = .ok () ∧
    ¬ Spec.Fits SignCfg.default { VmsCfg.default with signWidthPixels := 937 } := by
  constructor <;> decide +kernel

-- the default configuration satisfies the hypotheses
example : Spec.Fits SignCfg.default VmsCfg.default ∧
    SignCfg.default.validate .wrapping VmsCfg.default = .ok () := by
  constructor <;> decide +kernel
example : ¬ Spec.Fits SignCfg.default { VmsCfg.default with signWidthPixels := 41 } ∧
    SignCfg.default.validate .wrapping { VmsCfg.default with signWidthPixels := 41 }
      = .err .invalidDimensions := by
  constructor <;> decide +kernel

/-! ### C19 -/

/-- **C19** accepted exactly when at least one page is allowed and signs with several pages support
`[np]`; otherwise the error is `InvalidPageCfg`. -/
theorem C19_multi_cfg_validate (m : MultiCfg) :
    (m.validate = .ok () ↔
      1 ≤ m.maxNumberPages.toNat ∧ (2 ≤ m.maxNumberPages.toNat → m.supportedMultiTags .np = true)) ∧
    (m.validate ≠ .ok () → m.validate = .error .invalidPageCfg) := by
  have e0 : m.maxNumberPages = 0 ↔ m.maxNumberPages.toNat = 0 := by
    rw [← UInt8.toNat_inj]; rfl
  have e1 : m.maxNumberPages > 1 ↔ 1 < m.maxNumberPages.toNat := by
    rw [gt_iff_lt, UInt8.lt_iff_toNat_lt]; rfl
  simp only [MultiCfg.validate, e0, e1]
  cases hnp : m.supportedMultiTags .np <;> split <;> simp_all <;> omega

example : MultiCfg.default.validate = .ok () := by decide +kernel
example : ({ MultiCfg.default with supportedMultiTags := fun t => t == Tag.nl }).validate
    = .error .invalidPageCfg := by decide +kernel
example : ({ MultiCfg.default with supportedMultiTags := fun _ => false, maxNumberPages := 1 }).validate
    = .ok () := by decide +kernel

end Ntcip
