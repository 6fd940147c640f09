import Verif.Model.Raster
/-
What a reader of BMP files sees, written from the file format: a file header of 14 bytes, an info
header of 40 bytes, rows from bottom to top, each of them blue, green, red bytes filled up to a
multiple of 4 bytes.  All numbers are little endian.
-/
namespace Ntcip.Spec

/-- the little endian number of `n` bytes at an offset; missing bytes count as none -/
def leAt (bs : List UInt8) (off : Nat) : Nat → Option Nat
  | 0 => some 0
  | n + 1 =>
    match bs[off]?, leAt bs (off + 1) n with
    | some b, some v => some (b.toNat + 256 * v)
    | _, _ => none

/-- bytes of a row of `w` pixels with 24 bits, filled up to a multiple of 4 -/
def bmpStride (w : Nat) : Nat := (3 * w + 3) / 4 * 4

/-- the color a reader finds at column `x` and row `y` from the top -/
def bmpPixel (bs : List UInt8) (x y : Nat) : Option Rgb :=
  match leAt bs 10 4, leAt bs 18 4, leAt bs 22 4 with
  | some off, some w, some h =>
    if x < w ∧ y < h then
      let at_ := off + (h - 1 - y) * bmpStride w + 3 * x
      match bs[at_]?, bs[at_ + 1]?, bs[at_ + 2]? with
      | some b, some g, some r => some (r, g, b)
      | _, _, _ => none
    else none
  | _, _, _ => none

/-- headers of an uncompressed image of `w` by `h` pixels with 24 bits, and pixels up to the end -/
structure BmpFile (bs : List UInt8) (w h : Nat) : Prop where
  magic : bs.take 2 = [66, 77]
  offset : leAt bs 10 4 = some 54
  info : leAt bs 14 4 = some 40
  width : leAt bs 18 4 = some w
  height : leAt bs 22 4 = some h
  planes : leAt bs 26 2 = some 1
  bits : leAt bs 28 2 = some 24
  compression : leAt bs 30 4 = some 0
  length : bs.length = 54 + bmpStride w * h

/-- the file size told by the header is the size of the file -/
def BmpSize (bs : List UInt8) : Prop := leAt bs 2 4 = some bs.length

end Ntcip.Spec
