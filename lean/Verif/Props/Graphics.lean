import Verif.Lemmas.Graphics
import Verif.Props.Color
import Verif.Tests.Render
/-
C36, C37, C38: graphics.
-/
namespace Ntcip
open Spec

/-! ### C36 graphic decoding -/

/-- what a pixel value of a graphic type looks like -/
def Spec.decoded : ColorScheme → Color → Option Rgb
  | .monochrome1Bit, .legacy v => some (if v = 1 then (255, 255, 255) else (0, 0, 0))
  | .monochrome8Bit, .legacy v => some (v, v, v)
  | _, .legacy v => classicColors[v.toNat]?
  | _, .rgb r g b => some (r, g, b)

/-- what `to_raster` gives for any valid graphic -/
theorem toRaster_valid (W H : Nat) (g : Graphic) (hg : GraphicOk W H g) :
    ∃ r, g.toRaster = .ok r ∧ r.width = g.width.toNat ∧ r.height = g.height.toNat ∧
      ∀ x y, x < g.width.toNat → y < g.height.toNat →
        ∃ c, PixelValue g.gtype g.bitmap (y * g.width.toNat + x) c ∧
          r.px x y = if g.transparentColor = some c then none else Spec.shown g.gtype g.toRasterCtx c := by
  classical
  have hv := valid_pixel W H g hg
  obtain ⟨r, h1, h2, h3, h4⟩ := toRasterLoop_ok g g.toRasterCtx
    (fun x y => if h : ∃ c, PixelValue g.gtype g.bitmap (y * g.width.toNat + x) c then
      (if g.transparentColor = some h.choose then none
       else Spec.shown g.gtype g.toRasterCtx h.choose) else none)
    (gridPoints g.width.toNat g.height.toNat)
    ⟨g.width.toNat, g.height.toNat, fun _ _ => none⟩
    (by
      intro x y hxy
      rw [mem_gridPoints] at hxy
      have h := hv x y hxy.1 hxy.2
      rw [dif_pos h]
      exact pixelFn_ok g x y _ _ h.choose_spec)
    (by intro x y hxy; rwa [mem_gridPoints] at hxy)
  refine ⟨r, h1, h2, h3, ?_⟩
  intro x y hx hy
  have h := hv x y hx hy
  refine ⟨h.choose, h.choose_spec, ?_⟩
  rw [h4, if_pos ((mem_gridPoints _ _ _ _).2 ⟨hx, hy⟩), dif_pos h]
  simp

/-- **C36 (every type except monochrome 8-bit)** `to_raster` of a valid graphic ends without an
index out of bounds, has the dimensions of the graphic, and each pixel is the bitmap value at
`row × width + column` decoded by the type, clear where it is the transparent color.
(Classic color numbers above 9 name no color; such pixels are clear as well.)
Missing for the full claim: false for monochrome 8-bit graphics, see `C36_false`. -/
theorem C36_decoding_partial (W H : Nat) (g : Graphic) (hg : GraphicOk W H g)
    (ht : g.gtype ≠ .monochrome8Bit) :
    ∃ r, g.toRaster = .ok r ∧ r.width = g.width.toNat ∧ r.height = g.height.toNat ∧
      ∀ x y, x < g.width.toNat → y < g.height.toNat →
        ∃ c, PixelValue g.gtype g.bitmap (y * g.width.toNat + x) c ∧
          r.px x y = if g.transparentColor = some c then none else Spec.decoded g.gtype c := by
  obtain ⟨r, h1, h2, h3, h4⟩ := toRaster_valid W H g hg
  refine ⟨r, h1, h2, h3, ?_⟩
  intro x y hx hy
  obtain ⟨c, hc, hr⟩ := h4 x y hx hy
  refine ⟨c, hc, ?_⟩
  rw [hr]
  congr 1
  generalize hs : g.gtype = s at *
  cases hc with
  | mono1 _ _ b hb =>
    simp only [Spec.shown, if_true, decoded, Graphic.toRasterCtx, hs, ColorCtx.new, colorValue,
      Color.ofRgb, ColorClassic.rgb]
    split <;> simp
  | mono8 => exact absurd rfl ht
  | classic _ _ v hb =>
    simp [Spec.shown, decoded, Graphic.toRasterCtx, ColorCtx.new, colorValue]
  | full => simp [Spec.shown, decoded]

/-- **C36 (bounds, size)** for every valid graphic, of every type, `to_raster` ends without an index
out of bounds and has the dimensions of the graphic; transparent pixels are clear. -/
theorem C36_no_panic (W H : Nat) (g : Graphic) (hg : GraphicOk W H g) :
    ∃ r, g.toRaster = .ok r ∧ r.width = g.width.toNat ∧ r.height = g.height.toNat ∧
      ∀ x y c, x < g.width.toNat → y < g.height.toNat →
        PixelValue g.gtype g.bitmap (y * g.width.toNat + x) c → g.transparentColor = some c →
        r.px x y = none := by
  obtain ⟨r, h1, h2, h3, h4⟩ := toRaster_valid W H g hg
  refine ⟨r, h1, h2, h3, ?_⟩
  intro x y c hx hy hc ht
  obtain ⟨c', hc', hr⟩ := h4 x y hx hy
  rw [hr, if_pos (by rw [ht, pixelValue_unique hc hc'])]

/-- a 1 × 1 monochrome 8-bit graphic at full brightness, no transparent color -/
def mono8Graphic : Graphic := ⟨1, [], 1, 1, .monochrome8Bit, none, [255]⟩

/-- **C36 is false for monochrome 8-bit graphics**: levels are shown as classic color numbers; a
pixel of full brightness comes out clear although the graphic has no transparent color, and
level 1 comes out red. -/
theorem C36_false :
    GraphicOk 1 1 mono8Graphic ∧ PixelValue mono8Graphic.gtype mono8Graphic.bitmap 0 (.legacy 255) ∧
    (∃ r, mono8Graphic.toRaster = .ok r ∧ r.px 0 0 = none) ∧
    Spec.decoded mono8Graphic.gtype (.legacy 255) = some (255, 255, 255) ∧
    (∃ r, { mono8Graphic with bitmap := [1] }.toRaster = .ok r ∧ r.px 0 0 = some (255, 0, 0)) := by
  refine ⟨⟨by decide, by decide, rfl, by simp [mono8Graphic]⟩, .mono8 _ _ _ rfl, ⟨_, rfl, ?_⟩, rfl,
    ⟨_, rfl, ?_⟩⟩ <;> decide

/-- the graphics of the unit tests are non-trivial cases -/
example : ∀ g ∈ Tests.testGraphics, g.number ≠ 0 → g.toRaster.isOk = true := by decide +kernel

example : GraphicOk 50 50 ⟨7, [], 2, 2, .color24Bit, some (.rgb 0 0xFF 0),
    [0xFF, 0xFF, 0xFF, 0xFF, 0x00, 0xFF, 0x00, 0xFF, 0x00, 0xFF, 0x00, 0xFF]⟩ :=
  ⟨by decide, by decide, rfl, by rintro c ⟨⟩; exact .inr ⟨_, _, _, rfl, rfl⟩⟩

/-! ### C37 graphic placement -/

/-- **C37 (failure)** at a position from 1, rendering fails exactly when the graphic exceeds the
page, with `TooBig`. -/
theorem C37_too_big_iff (g : Graphic) (page : Raster) (x y : Nat)
    (hx : 1 ≤ x) (hy : 1 ≤ y) (ctx : ColorCtx) (e : GraphicError) :
    g.renderGraphic page x y ctx = .err e ↔
      e = .tooBig ∧ (page.width < x - 1 + g.width.toNat ∨ page.height < y - 1 + g.height.toNat) := by
  unfold Graphic.renderGraphic
  rw [if_neg (by omega)]
  split
  · rename_i h
    simp only [Out.err.injEq]
    constructor
    · rintro rfl; exact ⟨rfl, h⟩
    · rintro ⟨rfl, _⟩; rfl
  · rename_i h
    have : ∀ z : Res Raster, (Out.ofRes z : Out GraphicError Raster) ≠ .err e := by
      intro z; cases z <;> simp [Out.ofRes]
    constructor
    · intro h'; exact absurd h' (this _)
    · rintro ⟨_, h'⟩; exact absurd h' h

/-- **C37 (placement)** a graphic inside the page: the page keeps its size, pixels outside of the
box keep their color, transparent pixels of the box keep the color below, the others get the color
their value shows in the color context (or keep the color if the context cannot show it). -/
theorem C37_placement (W H : Nat) (g : Graphic) (hg : GraphicOk W H g) (page : Raster) (x y : Nat)
    (hx : 1 ≤ x) (hy : 1 ≤ y) (ctx : ColorCtx)
    (hw : x - 1 + g.width.toNat ≤ page.width) (hh : y - 1 + g.height.toNat ≤ page.height) :
    ∃ r, g.renderGraphic page x y ctx = .ok r ∧ r.width = page.width ∧ r.height = page.height ∧
      (∀ i j, ¬ (x - 1 ≤ i ∧ i < x - 1 + g.width.toNat ∧ y - 1 ≤ j ∧ j < y - 1 + g.height.toNat) →
        r.px i j = page.px i j) ∧
      ∀ xx yy c, xx < g.width.toNat → yy < g.height.toNat →
        PixelValue g.gtype g.bitmap (yy * g.width.toNat + xx) c →
        (g.transparentColor = some c → r.px (x - 1 + xx) (y - 1 + yy) = page.px (x - 1 + xx) (y - 1 + yy)) ∧
        (g.transparentColor ≠ some c → r.px (x - 1 + xx) (y - 1 + yy) =
          (Spec.shown g.gtype ctx c).getD (page.px (x - 1 + xx) (y - 1 + yy))) := by
  classical
  have hv := valid_pixel W H g hg
  obtain ⟨r, h1, h2, h3, h4⟩ := renderLoop_ok g ctx (x - 1) (y - 1)
    (fun x y => if h : ∃ c, PixelValue g.gtype g.bitmap (y * g.width.toNat + x) c then
      (if g.transparentColor = some h.choose then none
       else Spec.shown g.gtype ctx h.choose) else none)
    (gridPoints g.width.toNat g.height.toNat) page
    (by
      intro x y hxy
      rw [mem_gridPoints] at hxy
      have h := hv x y hxy.1 hxy.2
      rw [dif_pos h]
      exact pixelFn_ok g x y _ _ h.choose_spec)
    (by intro x y hxy; rw [mem_gridPoints] at hxy; omega)
  refine ⟨r, ?_, h2, h3, ?_, ?_⟩
  · unfold Graphic.renderGraphic
    rw [if_neg (by omega), if_neg (by omega), h1]; rfl
  · intro i j hij
    rw [h4, if_neg]
    rw [mem_gridPoints]; omega
  · intro xx yy c hxx hyy hc
    have h : ∃ c, PixelValue g.gtype g.bitmap (yy * g.width.toNat + xx) c := ⟨c, hc⟩
    have hcc : h.choose = c := pixelValue_unique h.choose_spec hc
    have := h4 (x - 1 + xx) (y - 1 + yy)
    rw [if_pos ⟨by omega, by omega, (mem_gridPoints _ _ _ _).2 ⟨by omega, by omega⟩⟩] at this
    simp only [Nat.add_sub_cancel_left] at this
    rw [dif_pos h, hcc] at this
    constructor
    · intro ht; rw [this, if_pos ht]; rfl
    · intro ht; rw [this, if_neg ht]

example : ∃ r, mono8Graphic.renderGraphic (.withColor 3 2 (0, 0, 0)) 3 2
    (.new .monochrome8Bit (255, 128, 0) (0, 0, 0)) = .ok r ∧ r.px 2 1 = (255, 128, 0) :=
  ⟨_, rfl, by decide⟩

/-! ### C38 1-bit graphics with default colors -/

/-- the claim of C38 for one sign color scheme, one pair of default colors and one graphic -/
def Spec.ShowsDefaults (scheme : ColorScheme) (fg bg : Rgb) (g : Graphic) : Prop :=
  ∀ (page : Raster) (x y : Nat), 1 ≤ x → 1 ≤ y → x - 1 + g.width.toNat ≤ page.width →
    y - 1 + g.height.toNat ≤ page.height →
    ∃ r, g.renderGraphic page x y (.new scheme fg bg) = .ok r ∧
      ∀ xx yy, xx < g.width.toNat → yy < g.height.toNat →
        (PixelValue .monochrome1Bit g.bitmap (yy * g.width.toNat + xx) (.legacy 1) →
          g.transparentColor ≠ some (.legacy 1) → r.px (x - 1 + xx) (y - 1 + yy) = fg) ∧
        (PixelValue .monochrome1Bit g.bitmap (yy * g.width.toNat + xx) (.legacy 0) →
          g.transparentColor ≠ some (.legacy 0) → r.px (x - 1 + xx) (y - 1 + yy) = bg)

/-- **C38 (24-bit signs)** a 1-bit graphic rendered with default colors shows lit pixels in the
default foreground and unlit ones in the default background.
Missing for the full claim: false on every other color scheme, see `C38_invisible`. -/
theorem C38_default_colors_partial (W H : Nat) (g : Graphic) (hg : GraphicOk W H g)
    (ht : g.gtype = .monochrome1Bit) (fg bg : Rgb) : ShowsDefaults .color24Bit fg bg g := by
  intro page x y hx hy hw hh
  obtain ⟨r, h1, _, _, _, h5⟩ := C37_placement W H g hg page x y hx hy (.new .color24Bit fg bg) hw hh
  refine ⟨r, h1, ?_⟩
  intro xx yy hxx hyy
  constructor
  · intro hc hne
    rw [(h5 xx yy _ hxx hyy (by rw [ht]; exact hc)).2 hne]
    simp [Spec.shown, ht, ColorCtx.new, colorValue, Color.ofRgb]
  · intro hc hne
    rw [(h5 xx yy _ hxx hyy (by rw [ht]; exact hc)).2 hne]
    simp [Spec.shown, ht, ColorCtx.new, colorValue, Color.ofRgb]

/-- **C38 is false on all other signs**: with the default colors a 1-bit graphic changes no pixel. -/
theorem C38_invisible (W H : Nat) (g : Graphic) (hg : GraphicOk W H g)
    (ht : g.gtype = .monochrome1Bit) (scheme : ColorScheme) (hs : scheme ≠ .color24Bit) (fg bg : Rgb)
    (page : Raster) (x y : Nat) (hx : 1 ≤ x) (hy : 1 ≤ y)
    (hw : x - 1 + g.width.toNat ≤ page.width) (hh : y - 1 + g.height.toNat ≤ page.height) :
    ∃ r, g.renderGraphic page x y (.new scheme fg bg) = .ok r ∧ ∀ i j, r.px i j = page.px i j := by
  obtain ⟨r, h1, _, _, h4, h5⟩ := C37_placement W H g hg page x y hx hy (.new scheme fg bg) hw hh
  refine ⟨r, h1, ?_⟩
  intro i j
  by_cases hbox : (x - 1 ≤ i ∧ i < x - 1 + g.width.toNat ∧ y - 1 ≤ j ∧ j < y - 1 + g.height.toNat)
  · obtain ⟨xx, rfl⟩ : ∃ xx, i = x - 1 + xx := ⟨i - (x - 1), by omega⟩
    obtain ⟨yy, rfl⟩ : ∃ yy, j = y - 1 + yy := ⟨j - (y - 1), by omega⟩
    obtain ⟨c, hc⟩ := valid_pixel W H g hg xx yy (by omega) (by omega)
    have := h5 xx yy c (by omega) (by omega) hc
    by_cases htr : g.transparentColor = some c
    · exact this.1 htr
    · rw [this.2 htr]
      have hnone : ∀ z : Rgb, colorValue scheme fg bg (.ofRgb z) = none := by
        intro z; cases scheme <;> simp_all [colorValue, Color.ofRgb]
      rw [ht] at hc
      cases hc
      simp only [Spec.shown, ht, if_true]
      have e1 : (ColorCtx.new scheme fg bg).fgCurrent = .ofRgb fg := rfl
      have e2 : (ColorCtx.new scheme fg bg).bgCurrent = .ofRgb bg := rfl
      rw [e1, e2]
      simp [ColorCtx.new, hnone]
  · exact h4 i j hbox

/-- witness: one lit pixel on a monochrome 1-bit sign -/
theorem C38_false : ¬ ShowsDefaults .monochrome1Bit (255, 208, 0) (0, 0, 0)
    ⟨1, [], 1, 1, .monochrome1Bit, none, [0x80]⟩ := by
  intro h
  obtain ⟨r, h1, h2⟩ := h (.withColor 1 1 (0, 0, 0)) 1 1 (by decide) (by decide) (by decide) (by decide)
  have := (h2 0 0 (by decide) (by decide)).1 (by
    have := PixelValue.mono1 [0x80] 0 0x80 rfl; exact this) (by simp)
  simp only [Nat.sub_self, Nat.zero_add] at this
  have h3 : Graphic.renderGraphic ⟨1, [], 1, 1, .monochrome1Bit, none, [0x80]⟩
    (.withColor 1 1 (0, 0, 0)) 1 1 (.new .monochrome1Bit (255, 208, 0) (0, 0, 0)) =
      .ok (.withColor 1 1 (0, 0, 0)) := rfl
  rw [h3] at h1
  cases h1
  revert this; decide

end Ntcip
