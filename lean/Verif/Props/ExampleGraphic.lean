import Verif.Props.Example
import Verif.Props.GraphicsExact
/-
Property C107: what the graphic example writes.
-/
namespace Ntcip
open Spec

/-- **C107** the image written for a graphic has its size, and each pixel has the color of the graphic there; it is black
where the graphic is transparent or has no color -/
theorem C107_image (W H : Nat) (g : Graphic) (hg : GraphicOk W H g) (ht : g.gtype ≠ .monochrome8Bit) :
    ∃ bs, Example.writeGraphic g = .ok bs ∧ BmpFile bs g.width.toNat g.height.toNat ∧
      (∀ x y, x < g.width.toNat → y < g.height.toNat →
        ∃ c, PixelValue g.gtype g.bitmap (y * g.width.toNat + x) c ∧
          bmpPixel bs x y = some (if g.transparentColor = some c then (0, 0, 0) else (decoded g.gtype c).getD (0, 0, 0))) ∧
      ∀ x y, ¬(x < g.width.toNat ∧ y < g.height.toNat) → bmpPixel bs x y = none := by
  obtain ⟨r, h1, h2, h3, h4⟩ := C36_decoding_partial W H g hg ht
  have hw := g.width.toNat_lt
  have hh := g.height.toNat_lt
  have hp : r.width * r.height ≤ 65535 * 255 := by
    rw [h2, h3]
    exact Nat.mul_le_mul (by omega) (by omega)
  obtain ⟨bs, hb, hf, hx⟩ := image_written (r := Example.dropAlpha r)
    ⟨by simp only [Example.dropAlpha]; omega, by simp only [Example.dropAlpha]; omega,
      by simp only [Example.dropAlpha]; omega⟩
  simp only [Example.dropAlpha, h2, h3] at hf hx
  refine ⟨bs, ?_, hf, ?_, ?_⟩
  · unfold Example.writeGraphic
    rw [h1]; exact hb
  · intro x y ax ay
    obtain ⟨c, hc, hr⟩ := h4 x y ax ay
    refine ⟨c, hc, ?_⟩
    rw [hx x y, if_pos ⟨ax, ay⟩, hr]
    split <;> rfl
  · intro x y hn
    rw [hx x y, if_neg hn]

/-- the arrow of the example -/
def Spec.arrowRows : List Str :=
  [c!".....#.....",
   c!".....#.....",
   c!".....#.....",
   c!"#....#....#",
   c!".#...#...#.",
   c!"..#..#..#..",
   c!"...#.#.#...",
   c!"....###....",
   c!".....#....."]

/-- **C107 (the program)** the file of the example shows the arrow, white on black -/
theorem C107_program : ∃ bs, Example.graphicMain = .ok (c!"graphic.bmp", bs) ∧ BmpFile bs 11 9 ∧
    ∀ x y, bmpPixel bs x y = if x < 11 ∧ y < 9 then
      some (if ((arrowRows.getD y []).getD x '.') = '#' then (255, 255, 255) else (0, 0, 0)) else none := by
  obtain ⟨bs, h1, h2, h3, h4⟩ := C107_image 11 9 Example.arrow ⟨by decide, by decide, ⟨by decide, by decide⟩, by simp [Example.arrow]⟩
    (by decide)
  refine ⟨bs, by rw [Example.graphicMain, h1]; rfl, h2, ?_⟩
  have hb : Example.writeGraphic Example.arrow = .ok bs := h1
  intro x y
  split
  · rename_i h
    have key : ∀ y < 9, ∀ x < 11, (match Example.writeGraphic Example.arrow with
        | .ok bs => bmpPixel bs x y
        | .panic _ => none) =
        some (if ((arrowRows.getD y []).getD x '.') = '#' then (255, 255, 255) else (0, 0, 0)) := by decide +kernel
    have := key y h.2 x h.1
    rwa [hb] at this
  · rename_i h
    exact h4 x y h

-- a graphic with a transparent color: red, transparent (black) and green
example : ∃ bs, Example.writeGraphic ⟨1, [], 1, 3, .colorClassic, some (.legacy 7), [1, 7, 3]⟩ = .ok bs ∧
    bmpPixel bs 0 0 = some (255, 0, 0) ∧ bmpPixel bs 1 0 = some (0, 0, 0) ∧ bmpPixel bs 2 0 = some (0, 255, 0) :=
  ⟨_, rfl, by decide +kernel, by decide +kernel, by decide +kernel⟩

end Ntcip
