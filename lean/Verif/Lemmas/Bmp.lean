import Verif.Model.Bmp
import Verif.Spec.Bmp
/-
Lemmas about the BMP writer.
-/
namespace Ntcip
open Spec

/-- element of a concatenation of blocks of the same length -/
theorem getElem?_flatMap_blocks {α β : Type} (k : Nat) (f : α → List β) (l : List α)
    (hk : ∀ a ∈ l, (f a).length = k) (i j : Nat) (hj : j < k) (hi : i < l.length) :
    (l.flatMap f)[i * k + j]? = (f l[i])[j]? := by
  induction l generalizing i with
  | nil => simp at hi
  | cons a l ih =>
    have ha := hk a (by simp)
    rw [List.flatMap_cons]
    cases i with
    | zero => rw [List.getElem?_append_left (by omega)]; simp
    | succ i =>
      rw [List.getElem?_append_right (by rw [ha, Nat.succ_mul]; omega)]
      rw [show (i + 1) * k + j - (f a).length = i * k + j by rw [ha, Nat.succ_mul]; omega]
      rw [ih (fun b hb => hk b (by simp [hb])) i (by simpa using hi)]
      simp

theorem length_flatMap_blocks {α β : Type} (k : Nat) (f : α → List β) (l : List α)
    (hk : ∀ a ∈ l, (f a).length = k) : (l.flatMap f).length = l.length * k := by
  induction l with
  | nil => simp
  | cons a l ih =>
    rw [List.flatMap_cons, List.length_append, hk a (by simp), ih fun b hb => hk b (by simp [hb]),
      List.length_cons, Nat.succ_mul]
    omega

namespace Bmp

theorem rowPixels_length (row : List Rgb) : (rowPixels row).length = row.length * 3 :=
  length_flatMap_blocks 3 _ _ (by simp)

theorem padding_eq (w : Nat) : 3 * w + (4 - 3 * w % 4) % 4 = bmpStride w := by
  unfold bmpStride
  omega

theorem row_length (r : Raster) (row : List Rgb) (h : row ∈ (rows r).reverse) :
    (rowPixels row ++ List.replicate ((4 - 3 * r.width % 4) % 4) (0 : UInt8)).length =
      bmpStride r.width := by
  simp only [rows, List.mem_reverse, List.mem_map] at h
  obtain ⟨y, -, rfl⟩ := h
  rw [List.length_append, rowPixels_length, List.length_replicate, ← padding_eq]
  simp
  omega

/-- sizes below which nothing overflows -/
theorem write_eq {r : Raster} (h : 54 + r.width * r.height * 3 < 4294967296)
    (hw : 3 * r.width < 4294967296) :
    write r = .ok (([0x42, 0x4D] ++ u32 (54 + r.width * r.height * 3) ++ u32 0 ++ u32 54) ++
      infoHeader r ++ (rows r).reverse.flatMap fun row =>
        rowPixels row ++ List.replicate ((4 - 3 * r.width % 4) % 4) 0) := by
  simp only [write, header, pixelData, chk32]
  rw [if_pos (by omega)]
  simp only [Res.ok_bind]
  rw [if_pos (by omega)]
  simp only [Res.ok_bind]
  rw [if_pos (by omega), if_pos hw]
  simp only [Res.ok_bind, Nat.reduceAdd]

theorem byte_toNat (n k : Nat) : (UInt8.ofNat (n >>> k)).toNat = n / 2 ^ k % 256 := by
  simp [Nat.shiftRight_eq_div_pow]

theorem leAt_u32 (a b : List UInt8) (v : Nat) (hv : v < 4294967296) :
    leAt (a ++ (u32 v ++ b)) a.length 4 = some v := by
  have e : ∀ i, (a ++ (u32 v ++ b))[a.length + i]? = (u32 v ++ b)[i]? := by
    intro i
    rw [List.getElem?_append_right (by omega)]
    congr 1
    omega
  have e0 := e 0
  have e1 := e 1
  have e2 := e 2
  have e3 := e 3
  simp only [u32, List.cons_append, Nat.add_zero, List.getElem?_cons_zero,
    List.getElem?_cons_succ] at e0 e1 e2 e3
  simp only [leAt, Nat.add_assoc, Nat.reduceAdd, u32, List.cons_append, e0, e1, e2, e3]
  simp
  omega

theorem leAt_u16 (a b : List UInt8) (v : Nat) (hv : v < 65536) :
    leAt (a ++ (u16 v ++ b)) a.length 2 = some v := by
  have e : ∀ i, (a ++ (u16 v ++ b))[a.length + i]? = (u16 v ++ b)[i]? := by
    intro i
    rw [List.getElem?_append_right (by omega)]
    congr 1
    omega
  have e0 := e 0
  have e1 := e 1
  simp only [u16, List.cons_append, Nat.add_zero, List.getElem?_cons_zero,
    List.getElem?_cons_succ] at e0 e1
  simp only [leAt, u16, List.cons_append, e0, e1]
  simp
  omega

end Bmp
end Ntcip
