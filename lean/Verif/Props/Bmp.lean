import Verif.Lemmas.Bmp
/-
Property C73: images written by the BMP writer of the examples read back.
-/
namespace Ntcip
open Spec Bmp

/-- size of raster for which all `u32` arithmetic of the writer is in range -/
def Spec.BmpFits (r : Raster) : Prop :=
  3 * r.width < 4294967296 ∧ r.height < 4294967296 ∧ 54 + 3 * (r.width * r.height) < 4294967296

theorem write_fits {r : Raster} {bs : List UInt8} (hr : BmpFits r) (h : write r = .ok bs) :
    bs = ([0x42, 0x4D] ++ u32 (54 + r.width * r.height * 3) ++ u32 0 ++ u32 54) ++
      infoHeader r ++ (rows r).reverse.flatMap fun row =>
        rowPixels row ++ List.replicate ((4 - 3 * r.width % 4) % 4) 0 := by
  obtain ⟨h1, h2, h3⟩ := hr
  rw [write_eq (by omega) (by omega)] at h
  exact (Res.ok.inj h).symm

/-- **C73** (partial): without overflow a file is written, … -/
theorem C73_writes_partial (r : Raster) (hr : BmpFits r) : ∃ bs, write r = .ok bs := by
  obtain ⟨h1, h2, h3⟩ := hr
  exact ⟨_, write_eq (by omega) (by omega)⟩

/-- with the headers of an image of the size of the raster, and all its rows … -/
theorem C73_file_partial (r : Raster) (hr : BmpFits r) (bs : List UInt8) (h : write r = .ok bs) :
    BmpFile bs r.width r.height := by
  have hb := write_fits hr h
  obtain ⟨h1, h2, h3⟩ := hr
  generalize hd : ((rows r).reverse.flatMap fun row =>
        rowPixels row ++ List.replicate ((4 - 3 * r.width % 4) % 4) (0 : UInt8)) = d at hb
  simp only [infoHeader, List.append_assoc] at hb
  have hl : d.length = bmpStride r.width * r.height := by
    rw [← hd, length_flatMap_blocks _ _ _ (row_length r), Nat.mul_comm]
    simp [rows]
  subst hb
  refine ⟨rfl, ?_, ?_, ?_, ?_, ?_, ?_, ?_, ?_⟩
  · exact leAt_u32 ([0x42, 0x4D] ++ u32 _ ++ u32 0) _ 54 (by omega)
  · exact leAt_u32 ([0x42, 0x4D] ++ u32 _ ++ u32 0 ++ u32 54) _ 40 (by omega)
  · exact leAt_u32 ([0x42, 0x4D] ++ u32 _ ++ u32 0 ++ u32 54 ++ u32 40) _ r.width
      (by omega)
  · exact leAt_u32 ([0x42, 0x4D] ++ u32 _ ++ u32 0 ++ u32 54 ++ u32 40 ++ u32 _) _
      r.height (by omega)
  · exact leAt_u16 ([0x42, 0x4D] ++ u32 _ ++ u32 0 ++ u32 54 ++ u32 40 ++ u32 _ ++ u32 _) _ 1
      (by omega)
  · exact leAt_u16 ([0x42, 0x4D] ++ u32 _ ++ u32 0 ++ u32 54 ++ u32 40 ++ u32 _ ++ u32 _ ++ u16 1) _
      24 (by omega)
  · exact leAt_u32 ([0x42, 0x4D] ++ u32 _ ++ u32 0 ++ u32 54 ++ u32 40 ++ u32 _ ++ u32 _ ++ u16 1 ++
      u16 24) _ 0 (by omega)
  · simp only [List.length_append, List.length_cons, List.length_nil, hl,
      show ∀ v, (u32 v).length = 4 from fun _ => rfl,
      show ∀ v, (u16 v).length = 2 from fun _ => rfl]
    omega

/-- and every pixel is read back in its color, at its place -/
theorem C73_pixels_partial (r : Raster) (hr : BmpFits r) (bs : List UInt8) (h : write r = .ok bs)
    (x y : Nat) (hx : x < r.width) (hy : y < r.height) : bmpPixel bs x y = some (r.px x y) := by
  have hf := C73_file_partial r hr bs h
  have hb := write_fits hr h
  have hlen : ∀ (p : List UInt8) (q : Nat), (([0x42, 0x4D] ++ u32 (54 + r.width * r.height * 3) ++
      u32 0 ++ u32 54) ++ infoHeader r ++ p)[54 + q]? = p[q]? := by
    intro p q
    rw [List.getElem?_append_right (by simp [u32, u16, infoHeader])]
    congr 1
    simp only [infoHeader, List.length_append, List.length_cons, List.length_nil,
      show ∀ v, (u32 v).length = 4 from fun _ => rfl,
      show ∀ v, (u16 v).length = 2 from fun _ => rfl]
    omega
  have hs := padding_eq r.width
  have hrow : (rows r).reverse[r.height - 1 - y]? =
      some ((List.range r.width).map fun x => r.px x y) := by
    rw [List.getElem?_reverse (by simp [rows]; omega)]
    simp only [rows, List.length_map, List.length_range]
    rw [show r.height - 1 - (r.height - 1 - y) = y by omega]
    simp [hy]
  have hi : r.height - 1 - y < (rows r).reverse.length := by simp [rows]; omega
  have hrow' : (rows r).reverse[r.height - 1 - y] = (List.range r.width).map fun x => r.px x y := by
    rw [List.getElem?_eq_getElem hi] at hrow
    exact Option.some.inj hrow
  have hp : ∀ j, j < 3 → bs[54 + (r.height - 1 - y) * bmpStride r.width + 3 * x + j]? =
      [(r.px x y).2.2, (r.px x y).2.1, (r.px x y).1][j]? := by
    intro j hj
    rw [hb, show 54 + (r.height - 1 - y) * bmpStride r.width + 3 * x + j =
      54 + ((r.height - 1 - y) * bmpStride r.width + (3 * x + j)) by omega, hlen,
      getElem?_flatMap_blocks (bmpStride r.width) _ _ (row_length r) _ _ (by omega) hi, hrow',
      List.getElem?_append_left (by rw [rowPixels_length]; simp; omega),
      show 3 * x + j = x * 3 + j by omega]
    unfold rowPixels
    rw [getElem?_flatMap_blocks 3 _ _ (by simp) x j hj (by simpa using hx)]
    simp
  have h0 := hp 0 (by omega)
  have h1 := hp 1 (by omega)
  have h2 := hp 2 (by omega)
  simp only [Nat.add_zero, List.getElem?_cons_zero, List.getElem?_cons_succ] at h0 h1 h2
  simp only [bmpPixel, hf.offset, hf.width, hf.height, hx, hy, and_self, if_true, h0, h1, h2]

/-- nothing else is read from the file -/
theorem C73_outside (r : Raster) (hr : BmpFits r) (bs : List UInt8) (h : write r = .ok bs)
    (x y : Nat) (hxy : ¬(x < r.width ∧ y < r.height)) : bmpPixel bs x y = none := by
  have hf := C73_file_partial r hr bs h
  simp only [bmpPixel, hf.offset, hf.width, hf.height, if_neg hxy]

/-- The header tells the size of the file exactly if the rows are not filled up. -/
theorem C73_size_iff (r : Raster) (hr : BmpFits r) (bs : List UInt8) (h : write r = .ok bs) :
    BmpSize bs ↔ r.width % 4 = 0 ∨ r.height = 0 := by
  have hf := C73_file_partial r hr bs h
  have hb := write_fits hr h
  obtain ⟨h1, h2, h3⟩ := hr
  have hsz : leAt bs 2 4 = some (54 + r.width * r.height * 3) := by
    subst hb
    simp only [List.append_assoc]
    exact leAt_u32 [0x42, 0x4D] _ _ (by omega)
  rw [BmpSize, hsz, hf.length, Option.some.injEq, Nat.add_left_cancel_iff]
  have hs := padding_eq r.width
  rw [← hs]
  have e : r.width * r.height * 3 = 3 * r.width * r.height := by
    rw [Nat.mul_comm, ← Nat.mul_assoc]
  rw [e, Nat.add_mul]
  constructor
  · intro h
    have h0 : (4 - 3 * r.width % 4) % 4 * r.height = 0 := by omega
    rcases Nat.mul_eq_zero.1 h0 with h0 | h0
    · left; omega
    · right; exact h0
  · rintro (h0 | h0)
    · rw [show (4 - 3 * r.width % 4) % 4 = 0 by omega]; simp
    · simp [h0]

/-- **C73**: the full claim is false: the file size in the header of an image of one pixel is 57, but
the file has 58 bytes. -/
theorem C73_false : ∃ (r : Raster) (bs : List UInt8), BmpFits r ∧ write r = .ok bs ∧ ¬BmpSize bs ∧
    leAt bs 2 4 = some 57 ∧ bs.length = 58 := by
  refine ⟨.withColor 1 1 (1, 2, 3), _, ⟨by decide, by decide, by decide⟩, rfl, ?_, rfl, rfl⟩
  unfold BmpSize
  decide +kernel

/-- Larger rasters are a panic with overflow checks. -/
theorem C73_overflow (r : Raster) (hw : r.width < 4294967296) (hh : r.height < 4294967296) :
    write r = .panic .overflow ↔ ¬BmpFits r := by
  constructor
  · intro h hr
    obtain ⟨bs, hb⟩ := C73_writes_partial r hr
    rw [hb] at h
    exact absurd h (by simp)
  · intro hr
    unfold BmpFits at hr
    simp only [write, header, pixelData, chk32]
    by_cases c1 : r.width * r.height < 4294967296
    · rw [if_pos c1, Res.ok_bind]
      by_cases c2 : r.width * r.height * 3 < 4294967296
      · rw [if_pos c2, Res.ok_bind]
        by_cases c3 : 14 + 40 + r.width * r.height * 3 < 4294967296
        · rw [if_pos c3, if_neg (by omega)]
          rfl
        · rw [if_neg c3]; rfl
      · rw [if_neg c2]; rfl
    · rw [if_neg c1]; rfl

/-- an image of 2 by 2 different pixels meets the hypotheses; a row has 6 bytes filled up to 8 -/
example : ∃ bs, BmpFits ⟨2, 2, fun x y => (UInt8.ofNat x, UInt8.ofNat y, 9)⟩ ∧
    write ⟨2, 2, fun x y => (UInt8.ofNat x, UInt8.ofNat y, 9)⟩ = .ok bs ∧
    bmpPixel bs 1 0 = some (1, 0, 9) ∧ bmpPixel bs 0 1 = some (0, 1, 9) ∧ bs.length = 70 := by
  refine ⟨_, ⟨by decide, by decide, by decide⟩, rfl, ?_⟩
  decide +kernel

/-- a width for which the size is right -/
example : ∃ bs, BmpFits (.withColor 4 2 (1, 2, 3)) ∧ write (.withColor 4 2 (1, 2, 3)) = .ok bs ∧
    BmpSize bs := by
  refine ⟨_, ⟨by decide, by decide, by decide⟩, rfl, ?_⟩
  unfold BmpSize
  decide +kernel

end Ntcip
