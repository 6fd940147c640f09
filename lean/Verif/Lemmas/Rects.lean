import Verif.Spec.Rects
import Verif.Lemmas.Drawing
/-
Text rectangles and color rectangles.
-/
namespace Ntcip
open Spec

theorem u16_gt {a b : UInt16} : a > b ↔ b.toNat < a.toNat := UInt16.lt_iff_toNat_lt

theorem u16_max (a b : UInt16) : (max a b).toNat = max a.toNat b.toNat := by
  show (if a ≤ b then b else a).toNat = _
  have := UInt16.le_iff_toNat_le (a := a) (b := b)
  split <;> rename_i h <;> rw [this] at h <;> omega

theorem u16_min (a b : UInt16) : (min a b).toNat = min a.toNat b.toNat := by
  show (if a ≤ b then a else b).toNat = _
  have := UInt16.le_iff_toNat_le (a := a) (b := b)
  split <;> rename_i h <;> rw [this] at h <;> omega

theorem u16_sub {a b : UInt16} (h : b.toNat ≤ a.toNat) : (a - b).toNat = a.toNat - b.toNat :=
  UInt16.toNat_sub_of_le a b (UInt16.le_iff_toNat_le.2 h)

theorem satSub_toNat (a b : UInt16) : (Rectangle.satSub a b).toNat = a.toNat - b.toNat := by
  unfold Rectangle.satSub
  split
  · rename_i h; exact u16_sub (UInt16.le_iff_toNat_le.1 h)
  · rename_i h
    rw [UInt16.le_iff_toNat_le] at h
    show 0 = _; omega

theorem extend_x (r full : Rectangle) : (r.extendWidthHeight full).x = r.x := rfl
theorem extend_y (r full : Rectangle) : (r.extendWidthHeight full).y = r.y := rfl
theorem extend_width (r full : Rectangle) :
    (r.extendWidthHeight full).width.toNat = extWidth r full.width.toNat := by
  unfold Rectangle.extendWidthHeight extWidth
  dsimp only
  by_cases h : r.width > 0
  · rw [if_pos h]; rw [u16_gt] at h; rw [if_neg (by have : (0:UInt16).toNat = 0 := rfl; omega)]
  · rw [if_neg h]; rw [u16_gt] at h
    have e : (0:UInt16).toNat = 0 := rfl
    have e1 : (1:UInt16).toNat = 1 := rfl
    rw [if_pos (by omega), satSub_toNat, satSub_toNat, e1]
theorem extend_height (r full : Rectangle) :
    (r.extendWidthHeight full).height.toNat = extHeight r full.height.toNat := by
  unfold Rectangle.extendWidthHeight extHeight
  dsimp only
  by_cases h : r.height > 0
  · rw [if_pos h]; rw [u16_gt] at h; rw [if_neg (by have : (0:UInt16).toNat = 0 := rfl; omega)]
  · rw [if_neg h]; rw [u16_gt] at h
    have e : (0:UInt16).toNat = 0 := rfl
    have e1 : (1:UInt16).toNat = 1 := rfl
    rw [if_pos (by omega), satSub_toNat, satSub_toNat, e1]

theorem addU16_checked (a b : UInt16) :
    addU16 .checked a b = if a.toNat + b.toNat < 65536 then .ok (a + b) else .panic .overflow := by
  unfold addU16; split <;> simp_all

theorem rect_eq {a b : Rectangle} : a = b ↔ a.x.toNat = b.x.toNat ∧ a.y.toNat = b.y.toNat ∧
    a.width.toNat = b.width.toNat ∧ a.height.toNat = b.height.toNat := by
  simp only [UInt16.toNat_inj]
  constructor
  · rintro rfl; simp
  · rcases a with ⟨a1, a2, a3, a4⟩; rcases b with ⟨b1, b2, b3, b4⟩
    rintro ⟨h1, h2, h3, h4⟩
    dsimp only at *
    subst h1 h2 h3 h4; rfl

theorem extendWidthHeight_eq (d : Dms) (r : Rectangle) :
    r.extendWidthHeight d.fullRect = ⟨r.x, r.y, .ofNat (extWidth r d.vmsCfg.signWidthPixels.toNat),
      .ofNat (extHeight r d.vmsCfg.signHeightPixels.toNat)⟩ := by
  have e1 := extend_width r d.fullRect
  have e2 := extend_height r d.fullRect
  have e3 : d.fullRect.width = d.vmsCfg.signWidthPixels := rfl
  have e4 : d.fullRect.height = d.vmsCfg.signHeightPixels := rfl
  rw [e3] at e1
  rw [e4] at e2
  rw [rect_eq]
  refine ⟨rfl, rfl, ?_, ?_⟩
  · rw [← e1]; simp
  · rw [← e2]; simp

theorem extend_opened (d : Dms) (r : Rectangle) : r.extendWidthHeight d.fullRect = opened d r :=
  extendWidthHeight_eq d r

/-- intersection with the rectangle of a sign -/
theorem intersection_full {r : Rectangle} {W H : UInt16} (hW : W.toNat < 65535) (hH : H.toNat < 65535)
    (hx : r.x.toNat + r.width.toNat < 65536) (hy : r.y.toNat + r.height.toNat < 65536)
    (hd : ¬ (r.width.toNat = 0 ∧ r.height.toNat = 0)) :
    ∃ i, r.intersection .checked ⟨1, 1, W, H⟩ = .ok i ∧
      (i = r ↔ 1 ≤ r.x.toNat ∧ 1 ≤ r.y.toNat ∧ 0 < r.width.toNat ∧ 0 < r.height.toNat ∧
        r.x.toNat - 1 + r.width.toNat ≤ W.toNat ∧ r.y.toNat - 1 + r.height.toNat ≤ H.toNat) := by
  have e1 : (1:UInt16).toNat = 1 := rfl
  unfold Rectangle.intersection
  simp only [addU16_checked, e1]
  rw [if_pos hx, if_pos (by omega), if_pos hy, if_pos (by omega)]
  simp only [Res.ok_bind, Res.pure_eq]
  have ax : (r.x + r.width).toNat = r.x.toNat + r.width.toNat := by
    rw [UInt16.toNat_add]; omega
  have ay : (r.y + r.height).toNat = r.y.toNat + r.height.toNat := by
    rw [UInt16.toNat_add]; omega
  have aW : (1 + W).toNat = 1 + W.toNat := by
    rw [UInt16.toNat_add, e1]; omega
  have aH : (1 + H).toNat = 1 + H.toNat := by
    rw [UInt16.toNat_add, e1]; omega
  split
  · rename_i h
    simp only [u16_gt, u16_max, u16_min, ax, ay, aW, aH, e1] at h
    refine ⟨_, rfl, ?_⟩
    rw [rect_eq]
    dsimp only
    rw [u16_sub (by simp only [u16_max, u16_min, ax, ay, aW, aH, e1]; omega),
      u16_sub (by simp only [u16_max, u16_min, ax, ay, aW, aH, e1]; omega)]
    simp only [u16_max, u16_min, ax, ay, aW, aH, e1]
    omega
  · rename_i h
    simp only [u16_gt, u16_max, u16_min, ax, ay, aW, aH, e1] at h
    refine ⟨_, rfl, ?_⟩
    rw [rect_eq]
    have : Rectangle.default.width.toNat = 0 := rfl
    have : Rectangle.default.height.toNat = 0 := rfl
    have : Rectangle.default.x.toNat = 1 := rfl
    have : Rectangle.default.y.toNat = 1 := rfl
    omega

theorem intersection_panic {r : Rectangle} {W H : UInt16}
    (h : 65536 ≤ r.x.toNat + r.width.toNat ∨ 65536 ≤ r.y.toNat + r.height.toNat ∨
      W.toNat = 65535 ∨ H.toNat = 65535) :
    r.intersection .checked ⟨1, 1, W, H⟩ = .panic .overflow := by
  have e1 : (1:UInt16).toNat = 1 := rfl
  unfold Rectangle.intersection
  simp only [addU16_checked, e1]
  by_cases h1 : r.x.toNat + r.width.toNat < 65536
  · rw [if_pos h1]
    by_cases h2 : 1 + W.toNat < 65536
    · rw [if_pos h2]
      by_cases h3 : r.y.toNat + r.height.toNat < 65536
      · rw [if_pos h3, if_neg (by omega)]; rfl
      · rw [if_neg h3]; rfl
    · rw [if_neg h2]; rfl
  · rw [if_neg h1]; rfl

/-- A text rectangle which the sign accepts, after extension to the edge of the sign -/
structure Spec.TextRect (d : Dms) (w h : Nat) (r : Rectangle) : Prop where
  x : 1 ≤ r.x.toNat
  y : 1 ≤ r.y.toNat
  width : 0 < extWidth r w
  height : 0 < extHeight r h
  right : r.x.toNat - 1 + extWidth r w ≤ w
  bottom : r.y.toNat - 1 + extHeight r h ≤ h
  left_aligned : (r.x.toNat - 1) % (signCellWidth d) = 0
  width_aligned : extWidth r w % (signCellWidth d) = 0
  top_aligned : (r.y.toNat - 1) % (signCellHeight d) = 0
  height_aligned : extHeight r h % (signCellHeight d) = 0

/-- the extended rectangle is its intersection with the raster if it is inside -/
theorem extend_intersection {r : Rectangle} {W H : UInt16}
    (hW : W.toNat < 65535) (hH : H.toNat < 65535) (hd : ¬ (W.toNat = 0 ∧ H.toNat = 0))
    (hx : r.x.toNat + extWidth r W.toNat < 65536) (hy : r.y.toNat + extHeight r H.toNat < 65536) :
    ∃ i, (r.extendWidthHeight ⟨1, 1, W, H⟩).intersection .checked ⟨1, 1, W, H⟩ = .ok i ∧
      (i = r.extendWidthHeight ⟨1, 1, W, H⟩ ↔ 1 ≤ r.x.toNat ∧ 1 ≤ r.y.toNat ∧ 0 < extWidth r W.toNat ∧
        0 < extHeight r H.toNat ∧ r.x.toNat - 1 + extWidth r W.toNat ≤ W.toNat ∧
        r.y.toNat - 1 + extHeight r H.toNat ≤ H.toNat) := by
  have ew := extend_width r ⟨1, 1, W, H⟩
  have eh := extend_height r ⟨1, 1, W, H⟩
  have ex := extend_x r ⟨1, 1, W, H⟩
  have ey := extend_y r ⟨1, 1, W, H⟩
  dsimp only at ew eh
  generalize hq : r.extendWidthHeight ⟨1, 1, W, H⟩ = q at *
  by_cases h0 : q.width.toNat = 0 ∧ q.height.toNat = 0
  · -- the intersection is the default rectangle, which is not `q`
    have e1 : (1:UInt16).toNat = 1 := rfl
    unfold Rectangle.intersection
    simp only [addU16_checked, e1]
    rw [if_pos (by rw [ex, ew]; omega), if_pos (by omega), if_pos (by rw [ey, eh]; omega), if_pos (by omega)]
    simp only [Res.ok_bind, Res.pure_eq]
    have ax : (q.x + q.width).toNat = q.x.toNat := by
      rw [UInt16.toNat_add, h0.1]; have := q.x.toNat_lt; omega
    rw [if_neg (by simp only [u16_gt, u16_max, u16_min, ax]; omega)]
    refine ⟨_, rfl, ?_⟩
    have : Rectangle.default.x.toNat = 1 := rfl
    have : Rectangle.default.y.toNat = 1 := rfl
    constructor
    · rw [rect_eq]
      rintro ⟨a, b, c, e⟩
      rw [ex] at a; rw [ey] at b
      rw [h0.1] at ew; rw [h0.2] at eh
      unfold extWidth at ew
      unfold extHeight at eh
      split at ew <;> split at eh <;> omega
    · omega
  · obtain ⟨i, hi, hiff⟩ := intersection_full (r := q) hW hH (by rw [ex, ew]; exact hx)
      (by rw [ey, eh]; exact hy) h0
    rw [ew, eh, ex, ey] at hiff
    exact ⟨i, hi, hiff⟩

theorem updateTextRectangle_eq {d : Dms} {r : Rectangle} {W H : UInt16}
    (hW : W.toNat < 65535) (hH : H.toNat < 65535) (hd : ¬ (W.toNat = 0 ∧ H.toNat = 0))
    (hx : r.x.toNat + extWidth r W.toNat < 65536) (hy : r.y.toNat + extHeight r H.toNat < 65536) :
    (TextRect d W.toNat H.toNat r →
      updateTextRectangle d ⟨1, 1, W, H⟩ r = .ok (some (r.extendWidthHeight ⟨1, 1, W, H⟩))) ∧
    (¬ TextRect d W.toNat H.toNat r → updateTextRectangle d ⟨1, 1, W, H⟩ r = .ok none) := by
  have ew := extend_width r ⟨1, 1, W, H⟩
  have eh := extend_height r ⟨1, 1, W, H⟩
  have ex := extend_x r ⟨1, 1, W, H⟩
  have ey := extend_y r ⟨1, 1, W, H⟩
  obtain ⟨i, hi, hiff⟩ := extend_intersection hW hH hd hx hy
  dsimp only at ew eh
  unfold updateTextRectangle
  dsimp only
  generalize hq : r.extendWidthHeight ⟨1, 1, W, H⟩ = q at *
  rw [hi]
  simp only [Res.ok_bind]
  rw [ew, eh, ex, ey]
  by_cases hin : i = q
  · obtain ⟨h1, h2, h3, h4, h5, h6⟩ := hiff.1 hin
    rw [if_neg (by simpa using hin)]
    have s1 : sub16 r.x.toNat 1 = .ok (r.x.toNat - 1) := by rw [sub16_ok]; omega
    have s2 : sub16 r.y.toNat 1 = .ok (r.y.toNat - 1) := by rw [sub16_ok]; omega
    rw [s1, s2]
    simp only [Res.ok_bind, Res.pure_eq]
    by_cases c1 : (r.x.toNat - 1) % (signCellWidth d) ≠ 0 ∨ extWidth r W.toNat % (signCellWidth d) ≠ 0
    · rw [if_pos c1]
      refine ⟨fun h => ?_, fun _ => rfl⟩
      have := h.left_aligned; have := h.width_aligned; omega
    · rw [if_neg c1]
      by_cases c2 : (r.y.toNat - 1) % (signCellHeight d) ≠ 0 ∨ extHeight r H.toNat % (signCellHeight d) ≠ 0
      · rw [if_pos c2]
        refine ⟨fun h => ?_, fun _ => rfl⟩
        have := h.top_aligned; have := h.height_aligned; omega
      · rw [if_neg c2]
        refine ⟨fun _ => rfl, fun h => absurd ?_ h⟩
        exact ⟨h1, h2, h3, h4, h5, h6, by omega, by omega, by omega, by omega⟩
  · rw [if_pos (by simpa using hin)]
    refine ⟨fun h => absurd (hiff.2 ?_) hin, fun _ => rfl⟩
    exact ⟨h.x, h.y, h.width, h.height, h.right, h.bottom⟩

end Ntcip
