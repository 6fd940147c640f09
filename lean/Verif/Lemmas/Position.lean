import Verif.Model.Position
import Verif.Spec.Position
import Verif.Lemmas.F32
/-
Both directions of the pixel positions as one computation, its monotonicity and its error.
-/
namespace Ntcip
open Spec F32

/-! ### one computation for both directions

`n` is the number of pixels and gaps as computed in 16 bits. -/
namespace FAxis

def pitch (a : Axis) (n : Nat) : ℚ :=
  if 0 < n then fmin (F32.ofNat a.pitch) (div (F32.ofNat a.face) (F32.ofNat n)) else F32.ofNat a.pitch

def extra (a : Axis) (n : Nat) : ℚ := fmax (sub (F32.ofNat a.face) (mul (F32.ofNat n) (pitch a n))) 0

def border (a : Axis) (n : Nat) : ℚ :=
  if 0 < a.gaps then fmin (F32.ofNat a.border) (div (extra a n) 2) else div (extra a n) 2

def width (a : Axis) (n : Nat) : ℚ := sub (F32.ofNat a.face) (mul (border a n) 2)

def excess (a : Axis) (n : Nat) : ℚ := fmax (sub (width a n) (mul (pitch a n) (F32.ofNat a.pixels))) 0

def gap (a : Axis) (n : Nat) : ℚ := if 0 < a.gaps then div (excess a n) (F32.ofNat a.gaps) else 0

def offset (a : Axis) (n x : Nat) : ℚ := if 1 < a.cell then mul (F32.ofNat (x / a.cell)) (gap a n) else 0

def pos (a : Axis) (n x : Nat) : ℚ :=
  add (add (border a n) (offset a n x)) (mul (add (F32.ofNat x) (1 / 2)) (pitch a n))

def result (a : Axis) (n x w : Nat) : Option ℚ := div? (mul (F32.ofNat w) (pos a n x)) (F32.ofNat a.face)

end FAxis

theorem gapCharCount_eq (d : Dms) : d.gapCharCount.toNat = (Axis.horiz d).gaps := by
  have h := d.vmsCfg.signWidthPixels.toNat_lt
  unfold Dms.gapCharCount Dms.charWidth Dms.pixelWidth Axis.gaps Axis.horiz
  dsimp only
  change _ = if d.vmsCfg.charWidthPixels.toNat ≤ 1 ∨ d.vmsCfg.signWidthPixels.toNat ≤ 1 then 0 else (d.vmsCfg.signWidthPixels.toNat - 1) / d.vmsCfg.charWidthPixels.toNat
  simp only [gt_iff_lt, UInt16.lt_iff_toNat_lt, UInt8.toNat_toUInt16]
  have e1 : (1 : UInt16).toNat = 1 := rfl
  rw [e1]
  split
  · rw [if_neg (by omega), UInt16.toNat_div, UInt8.toNat_toUInt16, UInt16.toNat_sub_of_le]
    · rfl
    · rw [UInt16.le_iff_toNat_le, e1]; omega
  · split
    · rfl
    · rw [Nat.div_eq_of_lt (by omega)]; rfl

theorem gapLineCount_eq (d : Dms) : d.gapLineCount.toNat = (Axis.vert d).gaps := by
  have h := d.vmsCfg.signHeightPixels.toNat_lt
  unfold Dms.gapLineCount Dms.charHeight Dms.pixelHeight Axis.gaps Axis.vert
  dsimp only
  change _ = if d.vmsCfg.charHeightPixels.toNat ≤ 1 ∨ d.vmsCfg.signHeightPixels.toNat ≤ 1 then 0 else (d.vmsCfg.signHeightPixels.toNat - 1) / d.vmsCfg.charHeightPixels.toNat
  simp only [gt_iff_lt, UInt16.lt_iff_toNat_lt, UInt8.toNat_toUInt16]
  have e1 : (1 : UInt16).toNat = 1 := rfl
  rw [e1]
  split
  · rw [if_neg (by omega), UInt16.toNat_div, UInt8.toNat_toUInt16, UInt16.toNat_sub_of_le]
    · rfl
    · rw [UInt16.le_iff_toNat_le, e1]; omega
  · split
    · rfl
    · rw [Nat.div_eq_of_lt (by omega)]; rfl

theorem u16_gt_zero (a : UInt16) : a > 0 ↔ 0 < a.toNat := by
  rw [gt_iff_lt, UInt16.lt_iff_toNat_lt]; rfl

theorem u32_gt_one (a : UInt8) : a.toUInt32 > 1 ↔ 1 < a.toNat := by
  rw [gt_iff_lt, UInt32.lt_iff_toNat_lt, UInt8.toNat_toUInt32]; rfl

theorem pixelX_eq (p : Profile) (d : Dms) (x w : UInt32) :
    d.pixelX p x w = addU16 p d.vmsCfg.signWidthPixels d.gapCharCount >>= fun pix =>
      .ok (FAxis.result (Axis.horiz d) pix.toNat x.toNat w.toNat) := by
  have hg := gapCharCount_eq d
  cases hp : addU16 p d.vmsCfg.signWidthPixels d.gapCharCount with
  | panic k => simp [Dms.pixelX, Dms.borderHorizMm, hp]
  | ok pix =>
    have hP : d.pitchHorizMm p = .ok (FAxis.pitch (Axis.horiz d) pix.toNat) := by
      unfold Dms.pitchHorizMm FAxis.pitch
      simp only [hp, Res.ok_bind, u16_gt_zero]
      split <;> rfl
    have hB : d.borderHorizMm p = .ok (FAxis.border (Axis.horiz d) pix.toNat) := by
      unfold Dms.borderHorizMm FAxis.border
      simp only [hp, hP, Res.ok_bind, u16_gt_zero, hg]
      split <;> rfl
    have hE : d.excessCharMm p = .ok (FAxis.excess (Axis.horiz d) pix.toNat) := by
      unfold Dms.excessCharMm Dms.pixelWidthMm
      simp only [hB, hP, Res.ok_bind]
      rfl
    have hG : d.gapCharMm p = .ok (FAxis.gap (Axis.horiz d) pix.toNat) := by
      unfold Dms.gapCharMm FAxis.gap
      simp only [hE, Res.ok_bind, u16_gt_zero, hg]
      split <;> rfl
    have hO : d.charOffsetMm p x = .ok (FAxis.offset (Axis.horiz d) pix.toNat x.toNat) := by
      unfold Dms.charOffsetMm FAxis.offset
      simp only [hG, Res.ok_bind, u32_gt_one, UInt32.toNat_div, UInt8.toNat_toUInt32]
      rw [show (Axis.horiz d).cell = d.vmsCfg.charWidthPixels.toNat from rfl]
      split <;> rfl
    unfold Dms.pixelX
    simp only [hB, hO, hP, Res.ok_bind]
    rfl

theorem pixelY_eq (p : Profile) (d : Dms) (x w : UInt32) :
    d.pixelY p x w = addU16 p d.vmsCfg.signHeightPixels d.gapLineCount >>= fun pix =>
      .ok (FAxis.result (Axis.vert d) pix.toNat x.toNat w.toNat) := by
  have hg := gapLineCount_eq d
  cases hp : addU16 p d.vmsCfg.signHeightPixels d.gapLineCount with
  | panic k => simp [Dms.pixelY, Dms.borderVertMm, hp]
  | ok pix =>
    have hP : d.pitchVertMm p = .ok (FAxis.pitch (Axis.vert d) pix.toNat) := by
      unfold Dms.pitchVertMm FAxis.pitch
      simp only [hp, Res.ok_bind, u16_gt_zero]
      split <;> rfl
    have hB : d.borderVertMm p = .ok (FAxis.border (Axis.vert d) pix.toNat) := by
      unfold Dms.borderVertMm FAxis.border
      simp only [hp, hP, Res.ok_bind, u16_gt_zero, hg]
      split <;> rfl
    have hE : d.excessLineMm p = .ok (FAxis.excess (Axis.vert d) pix.toNat) := by
      unfold Dms.excessLineMm Dms.pixelHeightMm
      simp only [hB, hP, Res.ok_bind]
      rfl
    have hG : d.gapLineMm p = .ok (FAxis.gap (Axis.vert d) pix.toNat) := by
      unfold Dms.gapLineMm FAxis.gap
      simp only [hE, Res.ok_bind, u16_gt_zero, hg]
      split <;> rfl
    have hO : d.lineOffsetMm p x = .ok (FAxis.offset (Axis.vert d) pix.toNat x.toNat) := by
      unfold Dms.lineOffsetMm FAxis.offset
      simp only [hG, Res.ok_bind, u32_gt_one, UInt32.toNat_div, UInt8.toNat_toUInt32]
      rw [show (Axis.vert d).cell = d.vmsCfg.charHeightPixels.toNat from rfl]
      split <;> rfl
    unfold Dms.pixelY
    simp only [hB, hO, hP, Res.ok_bind]
    rfl

/-! ### monotone -/

theorem fmin_nonneg {a b : ℚ} (ha : 0 ≤ a) (hb : 0 ≤ b) : 0 ≤ fmin a b := by unfold fmin; split <;> assumption

theorem fmax_nonneg (a : ℚ) : 0 ≤ fmax a 0 := by unfold fmax; split <;> linarith

namespace FAxis
variable (a : Axis) (n : Nat)

theorem pitch_nonneg : 0 ≤ pitch a n := by
  unfold pitch
  split
  · exact fmin_nonneg (ofNat_nonneg _) (rnd_nonneg (div_nonneg (ofNat_nonneg _) (ofNat_nonneg _)))
  · exact ofNat_nonneg _

theorem border_nonneg : 0 ≤ border a n := by
  have h : 0 ≤ div (extra a n) 2 := rnd_nonneg (div_nonneg (fmax_nonneg _) (by norm_num))
  unfold border
  split
  · exact fmin_nonneg (ofNat_nonneg _) h
  · exact h

theorem gap_nonneg : 0 ≤ gap a n := by
  unfold gap
  split
  · exact rnd_nonneg (div_nonneg (fmax_nonneg _) (ofNat_nonneg _))
  · exact le_refl _

theorem offset_nonneg (x : Nat) : 0 ≤ offset a n x := by
  unfold offset
  split
  · exact rnd_nonneg (mul_nonneg (ofNat_nonneg _) (gap_nonneg a n))
  · exact le_refl _

theorem pos_nonneg (x : Nat) : 0 ≤ pos a n x := by
  have h1 := border_nonneg a n
  have h2 := offset_nonneg a n x
  have h3 := ofNat_nonneg x
  exact rnd_nonneg (add_nonneg (rnd_nonneg (add_nonneg h1 h2))
    (rnd_nonneg (mul_nonneg (rnd_nonneg (by linarith)) (pitch_nonneg a n))))

theorem pos_mono {x y : Nat} (h : x ≤ y) : pos a n x ≤ pos a n y := by
  have ho : offset a n x ≤ offset a n y := by
    unfold offset
    split
    · exact rnd_mono (mul_le_mul_of_nonneg_right (ofNat_mono (Nat.div_le_div_right h)) (gap_nonneg a n))
    · exact le_refl _
  refine rnd_mono (add_le_add (rnd_mono (by linarith)) (rnd_mono ?_))
  refine mul_le_mul_of_nonneg_right (rnd_mono ?_) (pitch_nonneg a n)
  have := ofNat_mono h
  linarith

theorem result_mono {x y w : Nat} (h : x ≤ y) {q r : ℚ} (hq : result a n x w = some q) (hr : result a n y w = some r) :
    q ≤ r := by
  unfold result div? at hq hr
  split at hq
  · cases hq
  · rename_i hne
    rw [if_neg hne] at hr
    cases hq; cases hr
    have h0 := ofNat_nonneg a.face
    refine rnd_mono (div_le_div_of_nonneg_right (rnd_mono ?_) h0)
    exact mul_le_mul_of_nonneg_left (pos_mono a n h) (ofNat_nonneg _)

/-! ### no overflow

Every intermediate result is below `2 ^ 128`, the limit of `f32`, for all 32-bit arguments. -/

theorem mul_le_pow {x y : ℚ} {j k : Nat} (hx : x ≤ 2 ^ j) (hy0 : 0 ≤ y) (hy : y ≤ 2 ^ k) : mul x y ≤ 2 ^ (j + k) := by
  refine rnd_le_pow ?_
  rw [pow_add]
  exact (mul_le_mul_of_nonneg_right hx hy0).trans (mul_le_mul_of_nonneg_left hy (by positivity))

theorem ofNat_le_pow {m k : Nat} (h : m < 2 ^ k) : F32.ofNat m ≤ 2 ^ k :=
  rnd_le_pow (by exact_mod_cast h.le)

theorem pos_bounded {a : Axis} (n : Nat) (hf : a.face < 2 ^ 16) (hp : a.pitch < 2 ^ 8) {x : Nat}
    (hx : x < 2 ^ 32) : pitch a n ≤ 2 ^ 8 ∧ extra a n ≤ 2 ^ 16 ∧ border a n ≤ 2 ^ 16 ∧ excess a n ≤ 2 ^ 16 ∧
      gap a n ≤ 2 ^ 16 ∧ offset a n x ≤ 2 ^ 48 ∧ pos a n x ≤ 2 ^ 50 := by
  have h0 := pitch_nonneg a n
  have hpit : pitch a n ≤ 2 ^ 8 := by
    unfold pitch fmin
    split
    · split
      · exact ofNat_le_pow hp
      · exact (not_le.1 ‹_›).le.trans (ofNat_le_pow hp)
    · exact ofNat_le_pow hp
  have hfm : ∀ q : ℚ, q ≤ 2 ^ 16 → fmax q 0 ≤ 2 ^ 16 := by
    intro q h; unfold fmax; split <;> [norm_num; exact h]
  have hext : extra a n ≤ 2 ^ 16 := by
    refine hfm _ (rnd_le_pow ?_)
    have := ofNat_le_pow hf
    have : 0 ≤ mul (F32.ofNat n) (pitch a n) := rnd_nonneg (mul_nonneg (ofNat_nonneg _) h0)
    linarith
  have hhalf : div (extra a n) 2 ≤ 2 ^ 16 := rnd_le_pow (by linarith)
  have hbor : border a n ≤ 2 ^ 16 := by
    unfold border fmin
    split
    · split
      · exact (‹F32.ofNat a.border ≤ div (extra a n) 2›).trans hhalf
      · exact hhalf
    · exact hhalf
  have hb0 := border_nonneg a n
  have hexc : excess a n ≤ 2 ^ 16 := by
    refine hfm _ (rnd_le_pow ?_)
    have h1 : width a n ≤ 2 ^ 16 := by
      refine rnd_le_pow ?_
      have := ofNat_le_pow hf
      have : 0 ≤ mul (border a n) 2 := rnd_nonneg (by linarith)
      linarith
    have : 0 ≤ mul (pitch a n) (F32.ofNat a.pixels) := rnd_nonneg (mul_nonneg h0 (ofNat_nonneg _))
    linarith
  have hgap : gap a n ≤ 2 ^ 16 := by
    unfold gap
    split
    · rename_i hg
      have h1 : (1 : ℚ) ≤ F32.ofNat a.gaps := by
        have := ofNat_mono (show 1 ≤ a.gaps from hg)
        rw [ofNat_exact (n := 1) (by norm_num)] at this
        simpa using this
      refine rnd_le_pow ?_
      rw [div_le_iff₀ (by linarith)]
      linarith
    · norm_num
  have hoff : offset a n x ≤ 2 ^ 48 := by
    unfold offset
    split
    · exact mul_le_pow (j := 32) (k := 16)
        (ofNat_le_pow (lt_of_le_of_lt (Nat.div_le_self _ _) hx)) (gap_nonneg a n) hgap
    · norm_num
  refine ⟨hpit, hext, hbor, hexc, hgap, hoff, ?_⟩
  refine rnd_le_pow ?_
  have t1 : add (border a n) (offset a n x) ≤ 2 ^ 49 := rnd_le_pow (by linarith)
  have t2 : mul (add (F32.ofNat x) (1 / 2)) (pitch a n) ≤ 2 ^ (33 + 8) := by
    refine mul_le_pow (rnd_le_pow ?_) h0 hpit
    have := ofNat_le_pow hx
    linarith
  linarith

theorem result_bounded {a : Axis} (n : Nat) (hf : a.face < 2 ^ 16) (hp : a.pitch < 2 ^ 8) {x w : Nat}
    (hx : x < 2 ^ 32) (hw : w < 2 ^ 32) {q : ℚ} (h : result a n x w = some q) : q ≤ 2 ^ 82 := by
  have hpos := (pos_bounded n hf hp hx).2.2.2.2.2.2
  have hm : mul (F32.ofNat w) (pos a n x) ≤ 2 ^ 82 :=
    mul_le_pow (j := 32) (k := 50) (ofNat_le_pow hw) (pos_nonneg a n x) hpos
  unfold result div? at h
  split at h
  · cases h
  · cases h
    rename_i hne
    have hface : 1 ≤ a.face := by
      rcases Nat.eq_zero_or_pos a.face with h0 | h0
      · rw [h0] at hne; exact absurd (by rw [ofNat_exact (by norm_num)]; simp) hne
      · exact h0
    have h1 : (1 : ℚ) ≤ F32.ofNat a.face := by
      have := ofNat_mono hface
      rw [ofNat_exact (n := 1) (by norm_num)] at this
      simpa using this
    refine rnd_le_pow ?_
    rw [div_le_iff₀ (by linarith)]
    linarith

/-! ### error -/

/-- absolute error: rounding of a number of at most `m` in size -/
theorem rnd_near {v m : ℚ} (h : |v| ≤ m) (hm : pow2 (-126) ≤ m) : |rnd v - v| ≤ m / 2 ^ 24 := by
  by_cases h1 : pow2 (-126) ≤ |v|
  · refine (rnd_err h1).trans ?_
    exact div_le_div_of_nonneg_right h (by norm_num)
  · refine (rnd_err_small (not_le.1 h1)).trans ?_
    exact div_le_div_of_nonneg_right hm (by norm_num)

/-- an axis of a sign: sizes are 16-bit numbers, with a face and pixels -/
structure Sane (a : Axis) : Prop where
  face : 0 < a.face
  face16 : a.face < 65536
  border16 : a.border < 65536
  pitch8 : a.pitch < 256
  pixels : 0 < a.pixels
  total16 : a.pixels + a.gaps < 65536

variable {a : Axis}

theorem near2 (hs : Sane a) {v : ℚ} (h : |v| ≤ 2 * a.face) : |rnd v - v| ≤ a.face / 2 ^ 23 := by
  have hf : (1 : ℚ) ≤ a.face := by exact_mod_cast hs.face
  have := rnd_near h (by have : pow2 (-126) ≤ 1 := by (rw [pow2_eq]; norm_num)
                         linarith)
  refine this.trans (le_of_eq ?_)
  ring

/-- the step is at most what the face has room for, and not small -/
theorem step_facts (hs : Sane a) : 0 ≤ a.step ∧ (a.pixels + a.gaps : Nat) * a.step ≤ a.face ∧
    (0 < a.pitch → (a.face : ℚ) / 65536 ≤ a.step) := by
  have hn : (0 : ℚ) < (a.pixels + a.gaps : Nat) := by have := hs.pixels; exact_mod_cast (by omega)
  have hn2 : ((a.pixels + a.gaps : Nat) : ℚ) ≤ 65536 := by exact_mod_cast hs.total16.le
  have hf : (1 : ℚ) ≤ a.face := by exact_mod_cast hs.face
  have hf2 : (a.face : ℚ) ≤ 65536 := by exact_mod_cast hs.face16.le
  unfold Axis.step
  refine ⟨le_min (by positivity) (by positivity), ?_, fun hp => le_min ?_ ?_⟩
  · have := min_le_right (a.pitch : ℚ) (a.face / (a.pixels + a.gaps : Nat))
    calc _ ≤ ((a.pixels + a.gaps : Nat) : ℚ) * (a.face / (a.pixels + a.gaps : Nat)) :=
          mul_le_mul_of_nonneg_left this hn.le
      _ = a.face := by field_simp
  · have : (1 : ℚ) ≤ a.pitch := by exact_mod_cast hp
    rw [div_le_iff₀ (by norm_num)]; linarith
  · exact div_le_div_of_nonneg_left (by linarith) hn hn2

theorem pitch_close (hs : Sane a) : |pitch a (a.pixels + a.gaps) - a.step| ≤ a.step / 2 ^ 24 := by
  have hn0 : 0 < a.pixels + a.gaps := by have := hs.pixels; omega
  have hm := hs.face16; have hm2 := hs.pitch8; have hm3 := hs.total16
  rw [pitch, if_pos hn0, ofNat_exact (by omega), ofNat_exact (by omega), ofNat_exact (by omega)]
  unfold fmin div Axis.step
  have hn : (0 : ℚ) < (a.pixels + a.gaps : Nat) := by exact_mod_cast hn0
  have hn2 : ((a.pixels + a.gaps : Nat) : ℚ) ≤ 65536 := by exact_mod_cast hs.total16.le
  have hf : (1 : ℚ) ≤ a.face := by exact_mod_cast hs.face
  have hp : rnd (a.pitch : ℚ) = a.pitch := ofNat_exact (by omega)
  generalize ((a.pixels + a.gaps : Nat) : ℚ) = n at *
  generalize (a.face : ℚ) = f at *
  have hfn : 0 < f / n := by positivity
  have hq : pow2 (-126) ≤ |f / n| := by
    rw [abs_of_pos hfn, le_div_iff₀ hn, pow2_eq]
    norm_num
    linarith
  have he := rnd_err hq
  rw [abs_of_pos hfn] at he
  rcases le_total (a.pitch : ℚ) (f / n) with hle | hle
  · rw [min_eq_left hle, if_pos (by have := rnd_mono hle; rwa [hp] at this), sub_self, abs_zero]
    positivity
  · rw [min_eq_right hle]
    have h2 := rnd_mono hle
    rw [hp] at h2
    split
    · rwa [le_antisymm ‹_› h2]
    · exact he

theorem fmin_close {x y x' y' e : ℚ} (hx : |x - x'| ≤ e) (hy : |y - y'| ≤ e) : |fmin x y - min x' y'| ≤ e := by
  rw [abs_le] at *
  unfold fmin
  rcases le_total x' y' with h | h
  · rw [min_eq_left h]; split <;> constructor <;> linarith
  · rw [min_eq_right h]; split <;> constructor <;> linarith

theorem fmax_close {x x' e : ℚ} (hx : |x - x'| ≤ e) (h : 0 ≤ x') : |fmax x 0 - x'| ≤ e := by
  rw [abs_le] at *
  unfold fmax
  split <;> constructor <;> linarith

theorem room_nonneg (hs : Sane a) : 0 ≤ a.room := by
  have := (step_facts hs).2.1
  unfold Axis.room; linarith

theorem margin_facts (hs : Sane a) : 0 ≤ a.margin ∧ a.margin ≤ a.room / 2 := by
  have := room_nonneg hs
  unfold Axis.margin
  split
  · constructor <;> linarith
  · exact ⟨le_min (by positivity) (by linarith), min_le_right _ _⟩

/-- the room for gaps -/
theorem spare_facts (hs : Sane a) : 0 ≤ (a.face : ℚ) - 2 * a.margin - a.pixels * a.step := by
  have h1 := (margin_facts hs).2
  have h2 := (step_facts hs).1
  unfold Axis.room at h1
  have h3 : (0 : ℚ) ≤ a.gaps * a.step := by positivity
  push_cast at h1
  nlinarith

theorem border_close (hs : Sane a) :
    |border a (a.pixels + a.gaps) - a.margin| ≤ 9 / 4 * (a.face / 2 ^ 23) := by
  have hm := hs.face16; have hm3 := hs.total16; have hm4 := hs.border16
  have hP := pitch_close hs
  obtain ⟨hS0, hS1, -⟩ := step_facts hs
  have hP0 := pitch_nonneg a (a.pixels + a.gaps)
  have hR := room_nonneg hs
  have hex : |extra a (a.pixels + a.gaps) - a.room| ≤ 5 / 2 * (a.face / 2 ^ 23) := by
    refine fmax_close ?_ hR
    rw [ofNat_exact (by omega), ofNat_exact (by omega)]
    unfold sub mul Axis.room
    have hn : (0 : ℚ) ≤ (a.pixels + a.gaps : Nat) := by positivity
    have hf : (1 : ℚ) ≤ a.face := by exact_mod_cast hs.face
    generalize pitch a (a.pixels + a.gaps) = P at *
    have near := @near2 a hs
    generalize ((a.pixels + a.gaps : Nat) : ℚ) = n at *
    generalize (a.face : ℚ) = f at *
    generalize a.step = S at *
    rw [abs_le] at hP
    have k1 : n * P - n * S ≤ f / 2 ^ 24 := by nlinarith [mul_le_mul_of_nonneg_left hP.2 hn]
    have k2 : -(f / 2 ^ 24) ≤ n * P - n * S := by nlinarith [mul_le_mul_of_nonneg_left hP.1 hn]
    have k3 : 0 ≤ n * P := mul_nonneg hn hP0
    have n1 := near (v := n * P) (by rw [abs_of_nonneg k3]; linarith)
    rw [abs_le] at n1
    have n2 := near (v := f - rnd (n * P)) (by rw [abs_le]; constructor <;> linarith)
    rw [abs_le] at n2
    rw [abs_le]
    constructor <;> linarith
  have hh : |div (extra a (a.pixels + a.gaps)) 2 - a.room / 2| ≤ 9 / 4 * (a.face / 2 ^ 23) := by
    unfold div
    have hroom : a.room ≤ a.face := by
      unfold Axis.room
      have : 0 ≤ ((a.pixels + a.gaps : Nat) : ℚ) * a.step := mul_nonneg (by positivity) hS0
      linarith
    have hf : (1 : ℚ) ≤ a.face := by exact_mod_cast hs.face
    rw [abs_le] at hex
    have n1 := near2 hs (v := extra a (a.pixels + a.gaps) / 2) (by rw [abs_le]; constructor <;> linarith)
    rw [abs_le] at n1 ⊢
    constructor <;> linarith
  unfold border Axis.margin
  by_cases hg : a.gaps = 0
  · rw [if_neg (by omega), if_pos hg]; exact hh
  · rw [if_pos (by omega), if_neg hg]
    refine fmin_close ?_ hh
    rw [ofNat_exact (by omega), sub_self, abs_zero]
    positivity

theorem excess_close (hs : Sane a) :
    |excess a (a.pixels + a.gaps) - (a.face - 2 * a.margin - a.pixels * a.step)| ≤ 9 * (a.face / 2 ^ 23) := by
  have hm := hs.face16; have hm3 := hs.total16
  refine fmax_close ?_ (spare_facts hs)
  have hB := border_close hs
  have hP := pitch_close hs
  obtain ⟨hS0, hS1, -⟩ := step_facts hs
  obtain ⟨hM0, hM1⟩ := margin_facts hs
  have hf : (1 : ℚ) ≤ a.face := by exact_mod_cast hs.face
  have hpx : (0 : ℚ) ≤ a.pixels := by positivity
  have hpn : (a.pixels : ℚ) * a.step ≤ a.face := by
    refine le_trans ?_ hS1
    push_cast
    nlinarith [mul_nonneg (show (0 : ℚ) ≤ a.gaps by positivity) hS0]
  have hpn0 : 0 ≤ (a.pixels : ℚ) * a.step := mul_nonneg hpx hS0
  have hroom : a.room ≤ a.face := by
    unfold Axis.room
    have : 0 ≤ ((a.pixels + a.gaps : Nat) : ℚ) * a.step := mul_nonneg (by positivity) hS0
    linarith
  unfold sub width mul sub
  rw [ofNat_exact (by omega), ofNat_exact (by omega)]
  have near := @near2 a hs
  generalize pitch a (a.pixels + a.gaps) = P at *
  generalize border a (a.pixels + a.gaps) = B at *
  generalize (a.face : ℚ) = f at *
  generalize (a.pixels : ℚ) = n at *
  generalize a.step = S at *
  generalize a.margin = M at *
  rw [abs_le] at hP hB
  have k1 : P * n - n * S ≤ f / 2 ^ 24 := by nlinarith [mul_le_mul_of_nonneg_left hP.2 hpx]
  have k2 : -(f / 2 ^ 24) ≤ P * n - n * S := by nlinarith [mul_le_mul_of_nonneg_left hP.1 hpx]
  have n1 := near (v := P * n) (by rw [abs_le]; constructor <;> linarith)
  have n2 := near (v := B * 2) (by rw [abs_le]; constructor <;> linarith)
  rw [abs_le] at n1 n2
  have n3 := near (v := f - rnd (B * 2)) (by rw [abs_le]; constructor <;> linarith)
  rw [abs_le] at n3
  have n4 := near (v := rnd (f - rnd (B * 2)) - rnd (P * n)) (by rw [abs_le]; constructor <;> linarith)
  rw [abs_le] at n4 ⊢
  constructor <;> linarith

/-- the cell of a pixel of the sign -/
theorem cell_le {x : Nat} (hx : x < a.pixels) (hc : 1 < a.cell) : x / a.cell ≤ a.gaps := by
  unfold Axis.gaps
  split
  · rename_i h
    rcases h with h | h
    · omega
    · rw [show x = 0 by omega]; simp
  · exact Nat.div_le_div_right (by omega)

theorem gaps_cell (h : ¬ 1 < a.cell) : a.gaps = 0 := by unfold Axis.gaps; rw [if_pos (.inl (by omega))]

theorem gap_zero (h : a.gaps = 0) : a.gap = 0 := by unfold Axis.gap; rw [h]; simp

theorem axis_gap_nonneg (hs : Sane a) : 0 ≤ a.gap := div_nonneg (spare_facts hs) (by positivity)

theorem offset_close (hs : Sane a) {x : Nat} (hx : x < a.pixels) :
    |offset a (a.pixels + a.gaps) x - (x / a.cell : Nat) * a.gap| ≤ 11 * (a.face / 2 ^ 23) := by
  have hf : (1 : ℚ) ≤ a.face := by exact_mod_cast hs.face
  unfold offset
  split
  · rename_i hc
    have hle := cell_le hx hc
    by_cases hg : a.gaps = 0
    · rw [gap, if_neg (by omega), mul, mul_zero, rnd_zero, gap_zero hg, mul_zero, sub_zero, abs_zero]
      positivity
    · rw [gap, if_pos (by omega)]
      have hm3 := hs.total16
      have hc16 : x / a.cell < 2 ^ 24 := by omega
      rw [ofNat_exact hc16, ofNat_exact (by omega)]
      have hE := excess_close hs
      have hD := spare_facts hs
      have hM := (margin_facts hs).1
      have hpS : 0 ≤ (a.pixels : ℚ) * a.step := mul_nonneg (by positivity) (step_facts hs).1
      have hE0 : 0 ≤ excess a (a.pixels + a.gaps) := fmax_nonneg _
      unfold Axis.gap mul div
      have hcg : ((x / a.cell : Nat) : ℚ) ≤ a.gaps := by exact_mod_cast hle
      have hc0 : (0 : ℚ) ≤ (x / a.cell : Nat) := by positivity
      have hG : (1 : ℚ) ≤ a.gaps := by exact_mod_cast (by omega : 1 ≤ a.gaps)
      have hG2 : (a.gaps : ℚ) ≤ 65536 := by exact_mod_cast (by omega : a.gaps ≤ 65536)
      have near := @near2 a hs
      have hDf : (a.face : ℚ) - 2 * a.margin - a.pixels * a.step ≤ a.face := by linarith
      generalize (a.face : ℚ) - 2 * a.margin - a.pixels * a.step = D at *
      generalize excess a (a.pixels + a.gaps) = E at *
      generalize ((x / a.cell : Nat) : ℚ) = c at *
      generalize (a.gaps : ℚ) = G at *
      generalize (a.face : ℚ) = f at *
      have hGp : 0 < G := by linarith
      rw [abs_le] at hE
      have hEf : E ≤ 2 * f := by linarith
      have n1 := rnd_near (v := E / G) (m := 2 * f / G)
        (by rw [abs_of_nonneg (by positivity)]; exact div_le_div_of_nonneg_right hEf hGp.le)
        (by rw [le_div_iff₀ hGp, pow2_eq]; norm_num; linarith)
      rw [abs_le] at n1
      have r0 : 0 ≤ rnd (E / G) := rnd_nonneg (by positivity)
      -- scale by c ≤ G
      have hcG : c / G ≤ 1 := (div_le_one hGp).2 hcg
      have hcG0 : 0 ≤ c / G := by positivity
      have e1 : c * (2 * f / G / 2 ^ 24) = c / G * (f / 2 ^ 23) := by ring
      have e2 : c * (E / G) = c / G * E := by ring
      have e3 : c * (D / G) = c / G * D := by ring
      have s1 := mul_le_mul_of_nonneg_left n1.1 hc0
      have s2 := mul_le_mul_of_nonneg_left n1.2 hc0
      rw [mul_neg, e1, mul_sub, e2] at s1
      rw [e1, mul_sub, e2] at s2
      have d0 : 0 ≤ f / 2 ^ 23 := by positivity
      have t1 : c / G * (f / 2 ^ 23) ≤ f / 2 ^ 23 := mul_le_of_le_one_left d0 hcG
      have t2 : c / G * (E - D) ≤ 9 * (f / 2 ^ 23) := by
        nlinarith [mul_le_mul_of_nonneg_left hE.2 hcG0]
      have t3 : -(9 * (f / 2 ^ 23)) ≤ c / G * (E - D) := by
        nlinarith [mul_le_mul_of_nonneg_left hE.1 hcG0]
      have t4 : c / G * E ≤ E := mul_le_of_le_one_left hE0 hcG
      rw [mul_sub] at t2 t3
      have n2 := near (v := c * rnd (E / G)) (by
        rw [abs_of_nonneg (mul_nonneg hc0 r0)]; linarith)
      rw [abs_le] at n2 ⊢
      rw [e3]
      constructor <;> linarith
  · rename_i hc
    rw [gap_zero (gaps_cell hc), mul_zero, sub_zero, abs_zero]
    positivity

/-- centers are on the face -/
theorem center_facts (hs : Sane a) {x : Nat} (hx : x < a.pixels) :
    a.step / 2 ≤ a.center x ∧ a.center x ≤ a.face - a.step / 2 ∧
    0 ≤ (x / a.cell : Nat) * a.gap ∧ (x / a.cell : Nat) * a.gap ≤ a.face - 2 * a.margin - a.pixels * a.step := by
  have hD := spare_facts hs
  have hM := (margin_facts hs).1
  have hS := (step_facts hs).1
  have hg := axis_gap_nonneg hs
  have ho : 0 ≤ (x / a.cell : Nat) * a.gap := mul_nonneg (by positivity) hg
  have hxp : (x : ℚ) + 1 ≤ a.pixels := by exact_mod_cast hx
  have ho2 : (x / a.cell : Nat) * a.gap ≤ a.face - 2 * a.margin - a.pixels * a.step := by
    by_cases hc : 1 < a.cell
    · by_cases hG : a.gaps = 0
      · rw [gap_zero hG, mul_zero]; exact hD
      · have hGp : (0 : ℚ) < a.gaps := by exact_mod_cast (by omega : 0 < a.gaps)
        have hle : ((x / a.cell : Nat) : ℚ) ≤ a.gaps := by exact_mod_cast cell_le hx hc
        unfold Axis.gap
        rw [← mul_div_assoc, div_le_iff₀ hGp, mul_comm]
        exact mul_le_mul_of_nonneg_left hle hD
    · rw [gap_zero (gaps_cell hc), mul_zero]; exact hD
  refine ⟨?_, ?_, ho, ho2⟩
  · unfold Axis.center
    nlinarith [mul_nonneg (show (0 : ℚ) ≤ x by positivity) hS]
  · unfold Axis.center
    nlinarith [mul_le_mul_of_nonneg_right hxp hS]

theorem pos_close (hs : Sane a) {x : Nat} (hx : x < a.pixels) :
    |pos a (a.pixels + a.gaps) x - a.center x| ≤ 17 * (a.face / 2 ^ 23) := by
  have hf : (1 : ℚ) ≤ a.face := by exact_mod_cast hs.face
  have hO := offset_close hs hx
  have hB := border_close hs
  have hP := pitch_close hs
  obtain ⟨c1, c2, c3, c4⟩ := center_facts hs hx
  have hM := (margin_facts hs).1
  have hD := spare_facts hs
  obtain ⟨hS0, hS1, -⟩ := step_facts hs
  have hm3 := hs.total16
  have hX : add (F32.ofNat x) (1 / 2) = (x : ℚ) + 1 / 2 := by
    have h := rnd_exact (n := 2 * x + 1) (k := -1) (by omega) (by omega)
    rw [add, ofNat_exact (by omega)]
    have e : ((2 * x + 1 : Nat) : ℚ) * pow2 (-1) = x + 1 / 2 := by
      rw [pow2_eq]; push_cast; norm_num; ring
    rwa [e] at h
  unfold pos Axis.center at *
  rw [hX]
  unfold add mul
  have hX0 : (0 : ℚ) ≤ x + 1 / 2 := by positivity
  have hX1 : ((x : ℚ) + 1 / 2) * a.step ≤ a.pixels * a.step := by
    have : (x : ℚ) + 1 ≤ a.pixels := by exact_mod_cast hx
    exact mul_le_mul_of_nonneg_right (by linarith) hS0
  have hX2 : 0 ≤ ((x : ℚ) + 1 / 2) * a.step := mul_nonneg hX0 hS0
  have near := @near2 a hs
  generalize border a (a.pixels + a.gaps) = B at *
  generalize offset a (a.pixels + a.gaps) x = O at *
  generalize pitch a (a.pixels + a.gaps) = P at *
  generalize ((x / a.cell : Nat) : ℚ) * a.gap = o at *
  generalize (x : ℚ) + 1 / 2 = X at *
  generalize (a.pixels : ℚ) * a.step = p at *
  generalize (a.face : ℚ) = f at *
  generalize a.step = S at *
  generalize a.margin = M at *
  rw [abs_le] at hO hB hP
  have k1 : X * P - X * S ≤ f / 2 ^ 24 := by nlinarith [mul_le_mul_of_nonneg_left hP.2 hX0]
  have k2 : -(f / 2 ^ 24) ≤ X * P - X * S := by nlinarith [mul_le_mul_of_nonneg_left hP.1 hX0]
  have n1 := near (v := X * P) (by rw [abs_le]; constructor <;> linarith)
  have n2 := near (v := B + O) (by rw [abs_le]; constructor <;> linarith)
  rw [abs_le] at n1 n2
  have n3 := near (v := rnd (B + O) + rnd (X * P)) (by rw [abs_le]; constructor <;> linarith)
  rw [abs_le] at n3 ⊢
  constructor <;> linarith

/-- the computed position is close to the exact one -/
theorem result_close (hs : Sane a) {x w : Nat} (hx : x < a.pixels) :
    ∃ q, result a (a.pixels + a.gaps) x w = some q ∧ |q - w * (a.center x / a.face)| ≤ w / 2 ^ 18 := by
  have hf : (1 : ℚ) ≤ a.face := by exact_mod_cast hs.face
  have hm := hs.face16
  have hpos := pos_close hs hx
  obtain ⟨c1, c2, -, -⟩ := center_facts hs hx
  have hS0 := (step_facts hs).1
  unfold result
  rw [ofNat_exact (n := a.face) (by omega), div?, if_neg (by linarith)]
  refine ⟨_, rfl, ?_⟩
  unfold mul
  have hp0 := pos_nonneg a (a.pixels + a.gaps) x
  rcases Nat.eq_zero_or_pos w with h0 | h0
  · subst h0; simp [F32.ofNat, rnd_zero]
  have hw1 : (1 : ℚ) ≤ w := by exact_mod_cast h0
  have small : pow2 (-126) ≤ 1 := by rw [pow2_eq]; norm_num
  have nw := rnd_near (v := (w : ℚ)) (m := w) (by rw [abs_of_nonneg (by linarith)]) (by linarith)
  rw [F32.ofNat]
  have hr0 : 0 ≤ rnd (w : ℚ) := rnd_nonneg (by linarith)
  generalize rnd (w : ℚ) = r at *
  generalize (w : ℚ) = v at *
  generalize pos a (a.pixels + a.gaps) x = p at *
  generalize a.center x = c at *
  generalize (a.face : ℚ) = f at *
  generalize a.step = S at *
  rw [abs_le] at hpos nw
  have hv0 : 0 ≤ v := by linarith
  have hp2 : p ≤ 2 * f := by linarith
  -- r * p against v * c
  have k1 : r * p - v * c ≤ 18 * (v * (f / 2 ^ 23)) := by
    have : (r - v) * p ≤ v / 2 ^ 24 * p := mul_le_mul_of_nonneg_right nw.2 hp0
    have h2 : v / 2 ^ 24 * p ≤ v / 2 ^ 24 * (2 * f) := mul_le_mul_of_nonneg_left hp2 (by positivity)
    have h3 := mul_le_mul_of_nonneg_left hpos.2 hv0
    nlinarith
  have k2 : -(18 * (v * (f / 2 ^ 23))) ≤ r * p - v * c := by
    have : -(v / 2 ^ 24) * p ≤ (r - v) * p := mul_le_mul_of_nonneg_right nw.1 hp0
    have h2 : v / 2 ^ 24 * p ≤ v / 2 ^ 24 * (2 * f) := mul_le_mul_of_nonneg_left hp2 (by positivity)
    have h3 := mul_le_mul_of_nonneg_left hpos.1 hv0
    nlinarith
  have hrp0 : 0 ≤ r * p := mul_nonneg hr0 hp0
  have hvc : v * c ≤ v * f := mul_le_mul_of_nonneg_left (by linarith) hv0
  have hvc0 : 0 ≤ v * c := mul_nonneg hv0 (by linarith)
  have hvf : 1 ≤ v * f := by nlinarith
  have n1 := rnd_near (v := r * p) (m := 4 * (v * f)) (by rw [abs_of_nonneg hrp0]; nlinarith) (by linarith)
  rw [abs_le] at n1
  have hfp : 0 < f := by linarith
  have k3 : rnd (r * p) / f - v * (c / f) ≤ 20 * (v / 2 ^ 23) := by
    rw [← mul_div_assoc, ← sub_div, div_le_iff₀ hfp]; nlinarith
  have k4 : -(20 * (v / 2 ^ 23)) ≤ rnd (r * p) / f - v * (c / f) := by
    rw [← mul_div_assoc v, ← sub_div, le_div_iff₀ hfp]; nlinarith
  have hcf : c / f ≤ 1 := (div_le_one hfp).2 (by linarith)
  have hcf0 : 0 ≤ c / f := div_nonneg (by linarith) hfp.le
  have hvcf : v * (c / f) ≤ v := by nlinarith
  have hvcf0 : 0 ≤ v * (c / f) := mul_nonneg hv0 hcf0
  have n2 := rnd_near (v := rnd (r * p) / f) (m := 2 * v)
    (by rw [abs_le]; constructor <;> linarith) (by linarith)
  rw [abs_le] at n2 ⊢
  constructor <;> linarith

end FAxis
end Ntcip
