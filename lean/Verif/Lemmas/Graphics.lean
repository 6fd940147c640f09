import Verif.Lemmas.Glyph
import Verif.Lemmas.Color
namespace Ntcip

theorem mem_gridPoints (w h x y : Nat) : (x, y) ∈ gridPoints w h ↔ x < w ∧ y < h := by
  simp only [gridPoints, List.mem_flatMap, List.mem_map, List.mem_range, Prod.mk.injEq]
  constructor
  · rintro ⟨b, hb, a, ha, rfl, rfl⟩; exact ⟨ha, hb⟩
  · rintro ⟨hx, hy⟩; exact ⟨y, hy, x, hx, rfl, rfl⟩

theorem toRasterLoop_cons (g : Graphic) (ctx : ColorCtx) (x y : Nat) (rest : List (Nat × Nat))
    (r : RasterA) : g.toRasterLoop ctx ((x, y) :: rest) r =
      g.pixelFn x y ctx >>= fun clr =>
        (match clr with
          | some c => r.setPx x y c
          | none => pure r) >>= fun r => g.toRasterLoop ctx rest r := by
  rw [Graphic.toRasterLoop]
  cases g.pixelFn x y ctx with
  | ok o => cases o <;> rfl
  | panic k => rfl

theorem renderLoop_cons (g : Graphic) (ctx : ColorCtx) (x0 y0 x y : Nat) (rest : List (Nat × Nat))
    (r : Raster) : g.renderLoop ctx x0 y0 ((x, y) :: rest) r =
      g.pixelFn x y ctx >>= fun clr =>
        (match clr with
          | some c => r.setPx (x0 + x) (y0 + y) c
          | none => pure r) >>= fun r => g.renderLoop ctx x0 y0 rest r := by
  rw [Graphic.renderLoop]
  cases g.pixelFn x y ctx with
  | ok o => cases o <;> rfl
  | panic k => rfl

/-- the loops of `to_raster`, for pixels with known values `fn` -/
theorem toRasterLoop_ok (g : Graphic) (ctx : ColorCtx) (fn : Nat → Nat → Option Rgb)
    (pts : List (Nat × Nat)) (r : RasterA)
    (hfn : ∀ x y, (x, y) ∈ pts → g.pixelFn x y ctx = .ok (fn x y))
    (hin : ∀ x y, (x, y) ∈ pts → x < r.width ∧ y < r.height) :
    ∃ r', g.toRasterLoop ctx pts r = .ok r' ∧ r'.width = r.width ∧ r'.height = r.height ∧
      ∀ i j, r'.px i j = if (i, j) ∈ pts then (fn i j).or (r.px i j) else r.px i j := by
  induction pts generalizing r with
  | nil => exact ⟨r, rfl, rfl, rfl, by simp⟩
  | cons p rest ih =>
    obtain ⟨x, y⟩ := p
    have h1 := hfn x y (by simp)
    rw [toRasterLoop_cons, h1]
    simp only [Res.ok_bind]
    cases hc : fn x y with
    | none =>
      obtain ⟨r', h2, h3, h4, h5⟩ := ih r (fun a b h => hfn a b (by simp [h]))
        (fun a b h => hin a b (by simp [h]))
      refine ⟨r', h2, h3, h4, ?_⟩
      intro i j
      rw [h5]
      by_cases hp : (i, j) = (x, y)
      · have := Prod.mk.inj hp
        obtain ⟨rfl, rfl⟩ := this
        simp [hc]
      · simp only [List.mem_cons, hp, false_or]
    | some c =>
      have hb := hin x y (by simp)
      simp only [RasterA.setPx, hb, and_self, if_true, Res.ok_bind]
      obtain ⟨r', h2, h3, h4, h5⟩ := ih { r with px := fun i j => if i = x ∧ j = y then some c else r.px i j }
        (fun a b h => hfn a b (by simp [h])) (fun a b h => hin a b (by simp [h]))
      refine ⟨r', h2, h3, h4, ?_⟩
      intro i j
      rw [h5]
      by_cases hp : i = x ∧ j = y
      · obtain ⟨rfl, rfl⟩ := hp
        simp [hc]
      · simp only [List.mem_cons, Prod.mk.injEq, hp, false_or, if_false]

/-- the loops of `render_graphic`, for pixels with known values `fn` -/
theorem renderLoop_ok (g : Graphic) (ctx : ColorCtx) (x0 y0 : Nat) (fn : Nat → Nat → Option Rgb)
    (pts : List (Nat × Nat)) (r : Raster)
    (hfn : ∀ x y, (x, y) ∈ pts → g.pixelFn x y ctx = .ok (fn x y))
    (hin : ∀ x y, (x, y) ∈ pts → x0 + x < r.width ∧ y0 + y < r.height) :
    ∃ r', g.renderLoop ctx x0 y0 pts r = .ok r' ∧ r'.width = r.width ∧ r'.height = r.height ∧
      ∀ i j, r'.px i j = if x0 ≤ i ∧ y0 ≤ j ∧ (i - x0, j - y0) ∈ pts then
        (fn (i - x0) (j - y0)).getD (r.px i j) else r.px i j := by
  induction pts generalizing r with
  | nil => exact ⟨r, rfl, rfl, rfl, by simp⟩
  | cons p rest ih =>
    obtain ⟨x, y⟩ := p
    have h1 := hfn x y (by simp)
    rw [renderLoop_cons, h1]
    simp only [Res.ok_bind]
    have key : ∀ i j, (x0 ≤ i ∧ y0 ≤ j ∧ (i - x0, j - y0) = (x, y)) ↔ (i = x0 + x ∧ j = y0 + y) := by
      intro i j; rw [Prod.mk.injEq]; omega
    cases hc : fn x y with
    | none =>
      obtain ⟨r', h2, h3, h4, h5⟩ := ih r (fun a b h => hfn a b (by simp [h]))
        (fun a b h => hin a b (by simp [h]))
      refine ⟨r', h2, h3, h4, ?_⟩
      intro i j
      rw [h5]
      by_cases hp : i = x0 + x ∧ j = y0 + y
      · obtain ⟨rfl, rfl⟩ := hp
        simp [hc]
      · have hp' := mt (key i j).1 hp
        simp only [List.mem_cons]
        grind
    | some c =>
      have hb := hin x y (by simp)
      simp only [Raster.setPx, hb, and_self, if_true, Res.ok_bind]
      obtain ⟨r', h2, h3, h4, h5⟩ := ih
        { r with px := fun i j => if i = x0 + x ∧ j = y0 + y then c else r.px i j }
        (fun a b h => hfn a b (by simp [h])) (fun a b h => hin a b (by simp [h]))
      refine ⟨r', h2, h3, h4, ?_⟩
      intro i j
      rw [h5]
      by_cases hp : i = x0 + x ∧ j = y0 + y
      · obtain ⟨rfl, rfl⟩ := hp
        simp [hc]
      · have hp' := mt (key i j).1 hp
        simp only [List.mem_cons, hp, if_false]
        grind

namespace Spec

/-- The value of pixel `k` (row-major) of a bitmap, by graphic type: one bit, most significant
first; one byte; three bytes B, G, R. -/
inductive PixelValue : ColorScheme → List UInt8 → Nat → Color → Prop
  | mono1 (bm k b) : bm[k / 8]? = some b → PixelValue .monochrome1Bit bm k
      (.legacy (if b.toNat / 2 ^ (7 - k % 8) % 2 = 1 then 1 else 0))
  | mono8 (bm k v) : bm[k]? = some v → PixelValue .monochrome8Bit bm k (.legacy v)
  | classic (bm k v) : bm[k]? = some v → PixelValue .colorClassic bm k (.legacy v)
  | full (bm k r g b) : bm[3 * k]? = some b → bm[3 * k + 1]? = some g → bm[3 * k + 2]? = some r →
      PixelValue .color24Bit bm k (.rgb r g b)

end Spec

/-- a bitmap of the right size has a value for each pixel -/
theorem pixelValue_exists (s : ColorScheme) (bm : List UInt8) (n k : Nat) (hk : k < n)
    (hb : Spec.BitmapBytes s n bm.length) : ∃ c, Spec.PixelValue s bm k c := by
  cases s with
  | monochrome1Bit =>
    have : k / 8 < bm.length := by simp only [Spec.BitmapBytes, Spec.BytesFor] at hb; omega
    exact ⟨_, .mono1 _ _ _ (List.getElem?_eq_getElem this)⟩
  | monochrome8Bit =>
    have : k < bm.length := by simp only [Spec.BitmapBytes] at hb; omega
    exact ⟨_, .mono8 _ _ _ (List.getElem?_eq_getElem this)⟩
  | colorClassic =>
    have : k < bm.length := by simp only [Spec.BitmapBytes] at hb; omega
    exact ⟨_, .classic _ _ _ (List.getElem?_eq_getElem this)⟩
  | color24Bit =>
    have : 3 * k + 2 < bm.length := by simp only [Spec.BitmapBytes] at hb; omega
    exact ⟨_, .full _ _ _ _ _ (List.getElem?_eq_getElem (by omega))
      (List.getElem?_eq_getElem (by omega)) (List.getElem?_eq_getElem this)⟩

theorem pixelValue_unique {s : ColorScheme} {bm : List UInt8} {k : Nat} {c c' : Color}
    (h : Spec.PixelValue s bm k c) (h' : Spec.PixelValue s bm k c') : c = c' := by
  cases h <;> cases h' <;> simp_all

/-- how the code shows a pixel value: the current colors for 1-bit graphics, a level of the sign's
color scheme for 8-bit and classic graphics, the triple itself for 24-bit graphics -/
def Spec.shown (s : ColorScheme) (ctx : ColorCtx) : Color → Option Rgb
  | .legacy v =>
    let rgb := Spec.colorValue ctx.colorScheme ctx.fgDefault ctx.bgDefault
    if s = .monochrome1Bit then (if v = 1 then rgb ctx.fgCurrent else rgb ctx.bgCurrent) else rgb (.legacy v)
  | .rgb r g b => some (r, g, b)

theorem pixelFn_ok (g : Graphic) (x y : Nat) (ctx : ColorCtx) (c : Color)
    (h : Spec.PixelValue g.gtype g.bitmap (y * g.width.toNat + x) c) :
    g.pixelFn x y ctx = .ok (if g.transparentColor = some c then none else Spec.shown g.gtype ctx c) := by
  unfold Graphic.pixelFn
  generalize hs : g.gtype = s at h
  cases h with
  | mono1 _ _ b hb =>
    simp only [Graphic.pixel1, Graphic.byteAt, hb, Res.ok_bind, bitAt_eq]
    by_cases hbit : b.toNat / 2 ^ (7 - (y * g.width.toNat + x) % 8) % 2 = 1
    · by_cases ht : g.transparentColor = some (.legacy 1) <;> simp [hbit, ht, Spec.shown, rgb_eq]
    · by_cases ht : g.transparentColor = some (.legacy 0) <;> simp [hbit, ht, Spec.shown, rgb_eq]
  | mono8 _ _ v hb =>
    simp only [Graphic.pixel8, Graphic.byteAt, hb, Res.ok_bind, Spec.shown, rgb_eq]
    split <;> simp [*]
  | classic _ _ v hb =>
    simp only [Graphic.pixel8, Graphic.byteAt, hb, Res.ok_bind, Spec.shown, rgb_eq]
    split <;> simp [*]
  | full _ _ r gg b h1 h2 h3 =>
    simp only [Graphic.pixel24, Graphic.byteAt, h1, h2, h3, Res.ok_bind, Spec.shown, rgb_eq]
    split <;> simp [*]

theorem pos_lt {w h x y : Nat} (hx : x < w) (hy : y < h) : y * w + x < w * h := by
  have : (y + 1) * w ≤ h * w := Nat.mul_le_mul_right _ hy
  rw [Nat.add_mul, Nat.mul_comm h] at this
  omega

/-- each pixel of a valid graphic has a value -/
theorem valid_pixel (W H : Nat) (g : Graphic) (hg : Spec.GraphicOk W H g) (x y : Nat)
    (hx : x < g.width.toNat) (hy : y < g.height.toNat) :
    ∃ c, Spec.PixelValue g.gtype g.bitmap (y * g.width.toNat + x) c :=
  pixelValue_exists _ _ _ _ (pos_lt hx hy) hg.bitmap

end Ntcip
