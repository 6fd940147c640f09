import Verif.Lemmas.Position
import Verif.Tests.Render
import Verif.Props.Config
/-
C25: pixel positions are ordered and on the face.
-/
namespace Ntcip
open Spec Tests

/-- the number of pixels and gaps is a 16-bit number, in both directions -/
structure Spec.CountsFit (d : Dms) : Prop where
  horiz : (Axis.horiz d).pixels + (Axis.horiz d).gaps < 65536
  vert : (Axis.vert d).pixels + (Axis.vert d).gaps < 65536

theorem addU16_fit {p : Profile} {a b : UInt16} (h : a.toNat + b.toNat < 65536) :
    addU16 p a b = .ok (a + b) ∧ (a + b).toNat = a.toNat + b.toNat := by
  refine ⟨by unfold addU16; rw [if_pos h], ?_⟩
  rw [UInt16.toNat_add, Nat.mod_eq_of_lt h]

theorem sane_horiz {d : Dms} (hc : CountsFit d) (hf : d.signCfg.signWidth ≠ 0) (hp : d.vmsCfg.signWidthPixels ≠ 0) :
    FAxis.Sane (Axis.horiz d) where
  face := Nat.pos_of_ne_zero fun h => hf (UInt16.toNat_inj.1 h)
  face16 := UInt16.toNat_lt _
  border16 := UInt16.toNat_lt _
  pitch8 := UInt8.toNat_lt _
  pixels := Nat.pos_of_ne_zero fun h => hp (UInt16.toNat_inj.1 h)
  total16 := hc.horiz

theorem sane_vert {d : Dms} (hc : CountsFit d) (hf : d.signCfg.signHeight ≠ 0) (hp : d.vmsCfg.signHeightPixels ≠ 0) :
    FAxis.Sane (Axis.vert d) where
  face := Nat.pos_of_ne_zero fun h => hf (UInt16.toNat_inj.1 h)
  face16 := UInt16.toNat_lt _
  border16 := UInt16.toNat_lt _
  pitch8 := UInt8.toNat_lt _
  pixels := Nat.pos_of_ne_zero fun h => hp (UInt16.toNat_inj.1 h)
  total16 := hc.vert

theorem pixelX_fit {p : Profile} {d : Dms} (hc : CountsFit d) (x w : UInt32) :
    d.pixelX p x w =
      .ok (FAxis.result (Axis.horiz d) ((Axis.horiz d).pixels + (Axis.horiz d).gaps) x.toNat w.toNat) := by
  obtain ⟨h1, h2⟩ := addU16_fit (p := p) (a := d.vmsCfg.signWidthPixels) (b := d.gapCharCount)
    (by rw [gapCharCount_eq]; exact hc.horiz)
  rw [pixelX_eq, h1, Res.ok_bind, h2, gapCharCount_eq]
  rfl

theorem pixelY_fit {p : Profile} {d : Dms} (hc : CountsFit d) (y h : UInt32) :
    d.pixelY p y h =
      .ok (FAxis.result (Axis.vert d) ((Axis.vert d).pixels + (Axis.vert d).gaps) y.toNat h.toNat) := by
  obtain ⟨h1, h2⟩ := addU16_fit (p := p) (a := d.vmsCfg.signHeightPixels) (b := d.gapLineCount)
    (by rw [gapLineCount_eq]; exact hc.vert)
  rw [pixelY_eq, h1, Res.ok_bind, h2, gapLineCount_eq]
  rfl

/-- **C25 (order)** Positions are monotone in the pixel index: for every sign, all pixels, also beyond the sign,
and every scale. -/
theorem C25_monotone (p : Profile) (d : Dms) (w : UInt32) (i j : UInt32) (h : i ≤ j) :
    (∀ q r, d.pixelX p i w = .ok (some q) → d.pixelX p j w = .ok (some r) → q ≤ r) ∧
    (∀ q r, d.pixelY p i w = .ok (some q) → d.pixelY p j w = .ok (some r) → q ≤ r) := by
  have h : i.toNat ≤ j.toNat := h
  constructor <;> intro q r hq hr
  · rw [pixelX_eq, Res.bind_eq_ok] at hq hr
    obtain ⟨n, hn, hq⟩ := hq
    obtain ⟨m, hm, hr⟩ := hr
    rw [hn] at hm; cases hm
    simp only [Res.ok.injEq] at hq hr
    exact FAxis.result_mono _ _ h hq hr
  · rw [pixelY_eq, Res.bind_eq_ok] at hq hr
    obtain ⟨n, hn, hq⟩ := hq
    obtain ⟨m, hm, hr⟩ := hr
    rw [hn] at hm; cases hm
    simp only [Res.ok.injEq] at hq hr
    exact FAxis.result_mono _ _ h hq hr

/-- **C25 (position)** The position of each pixel of a sign is the scaled center of the pixel in exact numbers
(`Axis.center`), up to an error of `w / 2 ^ 18`.  Counts of pixels and gaps must be 16-bit numbers. -/
theorem C25_position_partial (p : Profile) (d : Dms) (hc : CountsFit d) (w : UInt32) :
    (∀ x, d.signCfg.signWidth ≠ 0 → x.toNat < d.vmsCfg.signWidthPixels.toNat → ∃ q, d.pixelX p x w = .ok (some q) ∧
      |q - w.toNat * ((Axis.horiz d).center x.toNat / d.signCfg.signWidth.toNat)| ≤ (w.toNat : ℚ) / 2 ^ 18) ∧
    (∀ y, d.signCfg.signHeight ≠ 0 → y.toNat < d.vmsCfg.signHeightPixels.toNat → ∃ q, d.pixelY p y w = .ok (some q) ∧
      |q - w.toNat * ((Axis.vert d).center y.toNat / d.signCfg.signHeight.toNat)| ≤ (w.toNat : ℚ) / 2 ^ 18) := by
  constructor
  · intro x hf hx
    have hs := sane_horiz hc hf (fun h => by rw [h] at hx; exact absurd hx (Nat.not_lt_zero _))
    obtain ⟨q, hq, hb⟩ := FAxis.result_close hs hx (w := w.toNat)
    exact ⟨q, by rw [pixelX_fit hc, hq], hb⟩
  · intro y hf hy
    have hs := sane_vert hc hf (fun h => by rw [h] at hy; exact absurd hy (Nat.not_lt_zero _))
    obtain ⟨q, hq, hb⟩ := FAxis.result_close hs hy (w := w.toNat)
    exact ⟨q, by rw [pixelY_fit hc, hq], hb⟩

theorem axis_inside {a : Axis} (hs : FAxis.Sane a) (hp : 0 < a.pitch) {x w : Nat} (hx : x < a.pixels) (hw : 0 < w)
    {q : ℚ} (hq : |q - w * (a.center x / a.face)| ≤ w / 2 ^ 18) : 0 < q ∧ q < w := by
  obtain ⟨c1, c2, -, -⟩ := FAxis.center_facts hs hx
  have hS := (FAxis.step_facts hs).2.2 hp
  have hf : (0 : ℚ) < a.face := by exact_mod_cast hs.face
  have hw' : (0 : ℚ) < w := by exact_mod_cast hw
  have l1 : (1 : ℚ) / 2 ^ 17 ≤ a.center x / a.face := by
    rw [le_div_iff₀ hf]; linarith
  have l2 : a.center x / a.face ≤ 1 - (1 : ℚ) / 2 ^ 17 := by
    rw [div_le_iff₀ hf]; linarith
  rw [abs_le] at hq
  have m1 := mul_le_mul_of_nonneg_left l1 hw'.le
  have m2 := mul_le_mul_of_nonneg_left l2 hw'.le
  constructor <;> linarith

theorem axis_strict {a : Axis} (hs : FAxis.Sane a) (hp : 0 < a.pitch) {x y w : Nat} (hxy : x < y)
    (hw : 0 < w) {q r : ℚ} (hq : |q - w * (a.center x / a.face)| ≤ w / 2 ^ 18)
    (hr : |r - w * (a.center y / a.face)| ≤ w / 2 ^ 18) : q < r := by
  have hS := (FAxis.step_facts hs).2.2 hp
  have hS0 := (FAxis.step_facts hs).1
  have hf : (0 : ℚ) < a.face := by exact_mod_cast hs.face
  have hw' : (0 : ℚ) < w := by exact_mod_cast hw
  have hd : a.center x + a.step ≤ a.center y := by
    unfold Axis.center
    have h1 : ((x / a.cell : Nat) : ℚ) ≤ (y / a.cell : Nat) := by
      exact_mod_cast Nat.div_le_div_right hxy.le
    have h2 := mul_le_mul_of_nonneg_right h1 (FAxis.axis_gap_nonneg hs)
    have h3 : (x : ℚ) + 1 ≤ y := by exact_mod_cast hxy
    have h4 := mul_le_mul_of_nonneg_right h3 hS0
    linarith
  have l : a.center x / a.face + 1 / 2 ^ 16 ≤ a.center y / a.face := by
    rw [le_div_iff₀ hf, add_mul, div_mul_cancel₀ _ hf.ne']; linarith
  have m := mul_le_mul_of_nonneg_left l hw'.le
  rw [abs_le] at hq hr
  linarith

/-- **C25 (inside)** Pixels of the sign are strictly inside of the face.  The full claim has no conditions on the
counts and on the pitch; see `C25_false`. -/
theorem C25_inside_partial (p : Profile) (d : Dms) (hc : CountsFit d) (w : UInt32) (hw : w ≠ 0) :
    (∀ x, d.signCfg.signWidth ≠ 0 → d.pitchHoriz ≠ 0 → x.toNat < d.vmsCfg.signWidthPixels.toNat →
      ∃ q, d.pixelX p x w = .ok (some q) ∧ 0 < q ∧ q < w.toNat) ∧
    (∀ y, d.signCfg.signHeight ≠ 0 → d.pitchVert ≠ 0 → y.toNat < d.vmsCfg.signHeightPixels.toNat →
      ∃ q, d.pixelY p y w = .ok (some q) ∧ 0 < q ∧ q < w.toNat) := by
  obtain ⟨h1, h2⟩ := C25_position_partial p d hc w
  have hw : 0 < w.toNat := Nat.pos_of_ne_zero fun h => hw (UInt32.toNat_inj.1 h)
  constructor
  · intro x hf hp hx
    obtain ⟨q, hq, hb⟩ := h1 x hf hx
    exact ⟨q, hq, axis_inside (sane_horiz hc hf fun h => by rw [h] at hx; exact absurd hx (Nat.not_lt_zero _))
      (Nat.pos_of_ne_zero fun h => hp (UInt8.toNat_inj.1 h)) hx hw hb⟩
  · intro y hf hp hy
    obtain ⟨q, hq, hb⟩ := h2 y hf hy
    exact ⟨q, hq, axis_inside (sane_vert hc hf fun h => by rw [h] at hy; exact absurd hy (Nat.not_lt_zero _))
      (Nat.pos_of_ne_zero fun h => hp (UInt8.toNat_inj.1 h)) hy hw hb⟩

/-- **C25 (distinct)** Different pixels of the sign have different positions. -/
theorem C25_strict_partial (p : Profile) (d : Dms) (hc : CountsFit d) (w : UInt32) (hw : w ≠ 0) :
    (∀ x y, d.signCfg.signWidth ≠ 0 → d.pitchHoriz ≠ 0 → x < y → y.toNat < d.vmsCfg.signWidthPixels.toNat →
      ∃ q r, d.pixelX p x w = .ok (some q) ∧ d.pixelX p y w = .ok (some r) ∧ q < r) ∧
    (∀ x y, d.signCfg.signHeight ≠ 0 → d.pitchVert ≠ 0 → x < y → y.toNat < d.vmsCfg.signHeightPixels.toNat →
      ∃ q r, d.pixelY p x w = .ok (some q) ∧ d.pixelY p y w = .ok (some r) ∧ q < r) := by
  obtain ⟨h1, h2⟩ := C25_position_partial p d hc w
  have hw : 0 < w.toNat := Nat.pos_of_ne_zero fun h => hw (UInt32.toNat_inj.1 h)
  constructor
  · intro x y hf hp hxy hy
    have hxy : x.toNat < y.toNat := hxy
    obtain ⟨q, hq, hb⟩ := h1 x hf (by omega)
    obtain ⟨r, hr, hb2⟩ := h1 y hf hy
    exact ⟨q, r, hq, hr, axis_strict (sane_horiz hc hf fun h => by rw [h] at hy; exact absurd hy (Nat.not_lt_zero _))
      (Nat.pos_of_ne_zero fun h => hp (UInt8.toNat_inj.1 h)) hxy hw hb hb2⟩
  · intro x y hf hp hxy hy
    have hxy : x.toNat < y.toNat := hxy
    obtain ⟨q, hq, hb⟩ := h2 x hf (by omega)
    obtain ⟨r, hr, hb2⟩ := h2 y hf hy
    exact ⟨q, r, hq, hr, axis_strict (sane_vert hc hf fun h => by rw [h] at hy; exact absurd hy (Nat.not_lt_zero _))
      (Nat.pos_of_ne_zero fun h => hp (UInt8.toNat_inj.1 h)) hxy hw hb hb2⟩

/-- the exact centers: the first and the last pixel are equally far from the edges of the face -/
theorem axis_centred {a : Axis} (hs : FAxis.Sane a) : a.center 0 + a.center (a.pixels - 1) = a.face := by
  have hp := hs.pixels
  have e : ((a.pixels - 1 : Nat) : ℚ) = a.pixels - 1 := by rw [Nat.cast_sub hp]; simp
  unfold Axis.center
  rw [e, Nat.zero_div]
  by_cases hg : a.gaps = 0
  · rw [FAxis.gap_zero hg, Axis.margin, if_pos hg, Axis.room, hg]
    push_cast
    ring
  · have hc : (a.pixels - 1) / a.cell = a.gaps := by
      unfold Axis.gaps at hg ⊢
      split at hg
      · exact absurd rfl hg
      · rw [if_neg ‹_›]
    have hG : (a.gaps : ℚ) ≠ 0 := by exact_mod_cast hg
    rw [hc, Axis.gap, mul_div_cancel₀ _ hG]
    push_cast
    ring

/-- the exact centers: neighbours in a character cell are a step apart, neighbours in different cells also by the
gap -/
theorem axis_step {a : Axis} (x : Nat) :
    a.center (x + 1) - a.center x = a.step + (if (x + 1) / a.cell = x / a.cell then 0 else a.gap) := by
  unfold Axis.center
  by_cases h : (x + 1) / a.cell = x / a.cell
  · rw [if_pos h, h]; push_cast; ring
  · have h2 : (x + 1) / a.cell = x / a.cell + 1 := by
      rw [Nat.succ_div] at h ⊢
      split at h
      · rw [if_pos ‹_›]
      · exact absurd rfl h
    rw [if_neg h, h2]; push_cast; ring

/-- **C25 (centred)** The first and the last pixel are equally far from the edges, up to the error. -/
theorem C25_centred_partial (p : Profile) (d : Dms) (hc : CountsFit d) (w : UInt32) (hf : d.signCfg.signWidth ≠ 0)
    (hp : d.vmsCfg.signWidthPixels ≠ 0) :
    ∃ q r, d.pixelX p 0 w = .ok (some q) ∧ d.pixelX p (d.vmsCfg.signWidthPixels - 1).toUInt32 w = .ok (some r) ∧
      |q + r - w.toNat| ≤ (w.toNat : ℚ) / 2 ^ 17 := by
  have hs := sane_horiz hc hf hp
  have hpx : 0 < d.vmsCfg.signWidthPixels.toNat := hs.pixels
  have e : (d.vmsCfg.signWidthPixels - 1).toUInt32.toNat = d.vmsCfg.signWidthPixels.toNat - 1 := by
    rw [UInt16.toNat_toUInt32, UInt16.toNat_sub_of_le _ _ (by rw [UInt16.le_iff_toNat_le]; exact hpx)]
    rfl
  obtain ⟨h1, -⟩ := C25_position_partial p d hc w
  obtain ⟨q, hq, hb⟩ := h1 0 hf hpx
  obtain ⟨r, hr, hb2⟩ := h1 (d.vmsCfg.signWidthPixels - 1).toUInt32 hf (by omega)
  refine ⟨q, r, hq, hr, ?_⟩
  rw [e] at hb2
  have hz : (0 : UInt32).toNat = 0 := rfl
  rw [hz] at hb
  have hcen := axis_centred hs
  change (Axis.horiz d).center 0 + (Axis.horiz d).center (d.vmsCfg.signWidthPixels.toNat - 1) = (d.signCfg.signWidth.toNat : ℚ) at hcen
  have hF : (0 : ℚ) < d.signCfg.signWidth.toNat := by exact_mod_cast hs.face
  have k : (w.toNat : ℚ) * ((Axis.horiz d).center 0 / d.signCfg.signWidth.toNat) +
      w.toNat * ((Axis.horiz d).center (d.vmsCfg.signWidthPixels.toNat - 1) / d.signCfg.signWidth.toNat) = w.toNat := by
    rw [← mul_add, ← add_div, hcen, div_self hF.ne', mul_one]
  rw [abs_le] at hb hb2 ⊢
  constructor <;> linarith

/-! ### not vacuous -/

theorem charDms_counts : CountsFit charDms := ⟨by decide +kernel, by decide +kernel⟩

/-- a sign of 100 × 21 pixels with cells of 5 × 7: 19 and 2 gaps -/
example : (Axis.horiz charDms).gaps = 19 ∧ (Axis.vert charDms).gaps = 2 := by decide +kernel

example : ∃ q r, charDms.pixelX .checked 4 800 = .ok (some q) ∧ charDms.pixelX .checked 5 800 = .ok (some r) ∧ q < r :=
  (C25_strict_partial .checked charDms charDms_counts 800 (by decide)).1 4 5 (by decide +kernel) (by decide +kernel)
    (by decide) (by decide +kernel)

/-- exact numbers, and computed ones -/
example : (Axis.horiz charDms).step = 7120 / 119 ∧ (Axis.horiz charDms).gap = 7120 / 119 := by decide +kernel
example : charDms.pixelX .checked 5 800 = .ok (some (1431879 / 32768)) := by decide +kernel

/-! ### where the full claim fails -/

/-- a wide sign, a sign without pitch -/
def flatDms (face pixels : UInt16) (cell pitch : UInt8) : Dms := { charDms with
  signCfg := { charDms.signCfg with signWidth := face, horizontalBorder := 0 }
  vmsCfg := { charDms.vmsCfg with signWidthPixels := pixels, charWidthPixels := cell, horizontalPitch := pitch } }

/-- **C25 fails**: the number of pixels and gaps of a valid sign may overflow, which is a panic; on a valid sign
with pitch 0 the last pixel may be beyond the face. -/
theorem C25_false :
    ((∃ d, (flatDms 65535 60000 2 1).intoBuilder.build .checked = .ok d) ∧
      (flatDms 65535 60000 2 1).pixelX .checked 0 800 = .panic .overflow) ∧
    ((∃ d, (flatDms 297 148 2 0).intoBuilder.build .checked = .ok d) ∧
      ∃ q, (flatDms 297 148 2 0).pixelX .checked 147 1 = .ok (some q) ∧ 1 < q) := by
  refine ⟨⟨⟨_, rfl⟩, by decide +kernel⟩, ⟨_, rfl⟩, 8388609 / 8388608, by decide +kernel, by decide +kernel⟩

end Ntcip
