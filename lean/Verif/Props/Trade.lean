import Verif.Lemmas.Trade
/-
C115: text rectangles without common pixels can be exchanged.
C116: a text rectangle that is told twice is the same as told once.
-/
namespace Ntcip
open Spec Tests

variable {d : Dms}

theorem trade_tags {k t sp a b} (h : TradeV d k t sp a b) : TagsOk d a ↔ TagsOk d b := by
  unfold TagsOk
  simp only [trade_mem h]

theorem trade_forward (hd : SizeOk d) (hok : SignOk d) (hf : FontsOk d.fontDefinition) (W H : Nat)
    (hg : GraphicsOk W H d.graphicDefinition) {ms ms' : Str} (hs : SizesOk d ms) (hs' : SizesOk d ms') {k}
    (hc : k = false → CellHeights d) {a b : List Value} (hv : Parses (slices ms) a) (hv' : Parses (slices ms') b)
    (h : TradeV d k (signAttr d) none a b) (xs) (hx : ShownAs d ms xs) :
    ∃ ys, ShownAs d ms' ys ∧ onPictures ys = onPictures xs ∧ durations ys = durations xs ∧ (k = true → ys = xs) := by
  have hp := splitPages_trade h
  obtain ⟨⟨h1, h2⟩, h3⟩ := (shown_iff d hd hok hf W H hg ms hs hv xs).1 hx
  have q2 := ((trade_pagesQuiet hp rfl splitPages_plain).1 h2).1
  obtain ⟨ys, hy⟩ := quiet_shown d hd hok ms' hs' hv' ⟨(trade_tags h).1 h1, q2⟩
  have h3' := ((shown_iff d hd hok hf W H hg ms' hs' hv' ys).1 hy).2
  have hr := parses_inRange hv (slices_items ms)
  exact ⟨ys, hy, trade_pictured hd hg.numbers hc hp rfl
    (fun p hp v hm => ⟨splitPages_plain p hp v hm, hr v (splitPages_mem p hp v hm)⟩) h2 h3 h3'⟩

/-- **C115** Two text rectangles without common pixels, one right after the other, can be exchanged.  If their values are
texts and tags of their style, and the style after each is that before it, then the message with the two in the other order
is shown if the message is, with the same pictures (ON pages) and the same durations.  The fonts of the sign are as high
as whole character cells (always so without character cells). -/
theorem C115_exchange (d : Dms) (hd : SizeOk d) (hok : SignOk d) (hf : FontsOk d.fontDefinition) (W H : Nat)
    (hg : GraphicsOk W H d.graphicDefinition) (hc : CellHeights d) (ms ms' : Str) (hs : SizesOk d ms) (hs' : SizesOk d ms')
    (pre post : List Value) (r r' : Rectangle) (A B : List Value)
    (hv : Parses (slices ms) (pre ++ .textRectangle r :: (A ++ .textRectangle r' :: (B ++ post))))
    (hv' : Parses (slices ms') (pre ++ .textRectangle r' :: (B ++ .textRectangle r :: (A ++ post))))
    (hA : Keeps d (styleSince d pre) (spacingSince pre) A) (hB : Keeps d (styleSince d pre) (spacingSince pre) B)
    (hr : Sep d r r') (he : EndsRect post) (xs) (hx : ShownAs d ms xs) :
    ∃ ys, ShownAs d ms' ys ∧ onPictures ys = onPictures xs ∧ durations ys = durations xs := by
  have ht : TradeV d false (signAttr d) none (pre ++ (flat [(r, A), (r', B)] ++ post))
      (pre ++ (flat [(r', B), (r, A)] ++ post)) := tradeV_at pre (.swap hr hA hB) he
  have e1 : flat [(r, A), (r', B)] ++ post = .textRectangle r :: (A ++ .textRectangle r' :: (B ++ post)) := by simp [flat]
  have e2 : flat [(r', B), (r, A)] ++ post = .textRectangle r' :: (B ++ .textRectangle r :: (A ++ post)) := by simp [flat]
  rw [e1, e2] at ht
  obtain ⟨ys, h1, h2, h3, _⟩ := trade_forward hd hok hf W H hg hs hs' (fun _ => hc) hv hv' ht xs hx
  exact ⟨ys, h1, h2, h3⟩

/-- **C116** A text rectangle with texts, whose style after it is that before it, can be told twice: the same pages are
shown, unless there are then too many text rectangles on a page. -/
theorem C116_again (d : Dms) (hd : SizeOk d) (hok : SignOk d) (hf : FontsOk d.fontDefinition) (W H : Nat)
    (hg : GraphicsOk W H d.graphicDefinition) (ms ms' : Str) (hs : SizesOk d ms) (hs' : SizesOk d ms')
    (pre post : List Value) (r : Rectangle) (A : List Value)
    (hv : Parses (slices ms) (pre ++ .textRectangle r :: (A ++ .textRectangle r :: (A ++ post))))
    (hv' : Parses (slices ms') (pre ++ .textRectangle r :: (A ++ post)))
    (hA : Keeps d (styleSince d pre) (spacingSince pre) A) (he : EndsRect post) (xs) :
    ShownAs d ms xs ↔ ShownAs d ms' xs ∧
      ∀ p ∈ splitPages (pre ++ .textRectangle r :: (A ++ .textRectangle r :: (A ++ post))), rectCount p < 50 := by
  have ht : TradeV d true (signAttr d) none (pre ++ (flat [(r, A), (r, A)] ++ post))
      (pre ++ (flat [(r, A)] ++ post)) := tradeV_at pre (.again hA) he
  have e1 : flat [(r, A), (r, A)] ++ post = .textRectangle r :: (A ++ .textRectangle r :: (A ++ post)) := by simp [flat]
  have e2 : flat [(r, A)] ++ post = .textRectangle r :: (A ++ post) := by simp [flat]
  rw [e1, e2] at ht
  have hp := splitPages_trade ht
  have key := trade_forward hd hok hf W H hg hs hs' (fun e => by cases e) hv hv' ht
  constructor
  · intro hx
    obtain ⟨ys, h1, _, _, h4⟩ := key xs hx
    obtain rfl := h4 rfl
    refine ⟨h1, fun p hp => ?_⟩
    have := pagesQuiet_count ((shown_iff d hd hok hf W H hg ms hs hv _).1 hx).1.2 p hp
    omega
  · rintro ⟨hx, hn⟩
    obtain ⟨⟨h1, h2⟩, _⟩ := (shown_iff d hd hok hf W H hg ms' hs' hv' xs).1 hx
    have q2 := (trade_pagesQuiet hp rfl splitPages_plain).2 ⟨h2, fun p hp => by have := hn p hp; omega⟩
    obtain ⟨ys, hy⟩ := quiet_shown d hd hok ms hs hv ⟨(trade_tags ht).2 h1, q2⟩
    obtain ⟨zs, k1, _, _, k4⟩ := key ys hy
    obtain rfl := k4 rfl
    have hr := parses_inRange hv' (slices_items ms')
    have a := ((shown_iff d hd hok hf W H hg ms' hs' hv' _).1 hx).2
    have b := ((shown_iff d hd hok hf W H hg ms' hs' hv' _).1 k1).2
    obtain rfl := pictured_unique hg.numbers (fun p hp v hm => hr v (splitPages_mem p hp v hm)) a b
    exact hy

/-- **C115 (built)** the same on a sign made by the builder, for messages of at most 128 characters -/
theorem C115_built (p : Profile) (b : DmsBuilder) (d : Dms) (h : b.build p = .ok d)
    (hw : d.vmsCfg.signWidthPixels.toNat < 65535) (hh : d.vmsCfg.signHeightPixels.toNat < 65535)
    (hz : ¬ (d.vmsCfg.signWidthPixels.toNat = 0 ∧ d.vmsCfg.signHeightPixels.toNat = 0))
    (hf : 1 ≤ d.multiCfg.defaultFont.toNat)
    (hjp : d.multiCfg.defaultJustificationPage ≠ .other)
    (hjl : d.multiCfg.defaultJustificationLine ≠ .other ∧ d.multiCfg.defaultJustificationLine ≠ .full)
    (hc : CellHeights d) (ms ms' : Str) (hl : ms.length ≤ 128) (hl' : ms'.length ≤ 128)
    (pre post : List Value) (r r' : Rectangle) (A B : List Value)
    (hv : Parses (slices ms) (pre ++ .textRectangle r :: (A ++ .textRectangle r' :: (B ++ post))))
    (hv' : Parses (slices ms') (pre ++ .textRectangle r' :: (B ++ .textRectangle r :: (A ++ post))))
    (hA : Keeps d (styleSince d pre) (spacingSince pre) A) (hB : Keeps d (styleSince d pre) (spacingSince pre) B)
    (hr : Sep d r r') (he : EndsRect post) (xs) (hx : ShownAs d ms xs) :
    ∃ ys, ShownAs d ms' ys ∧ onPictures ys = onPictures xs ∧ durations ys = durations xs := by
  have hv1 := C22_built_sign_valid p b d h
  exact C115_exchange d ⟨hw, hh, hz⟩ ⟨hw, hh, hf, hjp, hjl, hv1.2.2.2.2.1.fonts, hv1.2.2.2.2.2.1.graphics⟩ hv1.2.2.2.2.1 _ _
    hv1.2.2.2.2.2.1 hc ms ms' (sizesOk_short d ms hl) (sizesOk_short d ms' hl') pre post r r' A B hv hv' hA hB hr he xs hx

/-- **C116 (built)** the same on a sign made by the builder, for messages of at most 128 characters -/
theorem C116_built (p : Profile) (b : DmsBuilder) (d : Dms) (h : b.build p = .ok d)
    (hw : d.vmsCfg.signWidthPixels.toNat < 65535) (hh : d.vmsCfg.signHeightPixels.toNat < 65535)
    (hz : ¬ (d.vmsCfg.signWidthPixels.toNat = 0 ∧ d.vmsCfg.signHeightPixels.toNat = 0))
    (hf : 1 ≤ d.multiCfg.defaultFont.toNat)
    (hjp : d.multiCfg.defaultJustificationPage ≠ .other)
    (hjl : d.multiCfg.defaultJustificationLine ≠ .other ∧ d.multiCfg.defaultJustificationLine ≠ .full)
    (ms ms' : Str) (hl : ms.length ≤ 128) (hl' : ms'.length ≤ 128) (pre post : List Value) (r : Rectangle) (A : List Value)
    (hv : Parses (slices ms) (pre ++ .textRectangle r :: (A ++ .textRectangle r :: (A ++ post))))
    (hv' : Parses (slices ms') (pre ++ .textRectangle r :: (A ++ post)))
    (hA : Keeps d (styleSince d pre) (spacingSince pre) A) (he : EndsRect post) (xs) :
    ShownAs d ms xs ↔ ShownAs d ms' xs ∧
      ∀ p ∈ splitPages (pre ++ .textRectangle r :: (A ++ .textRectangle r :: (A ++ post))), rectCount p < 50 := by
  have hv1 := C22_built_sign_valid p b d h
  exact C116_again d ⟨hw, hh, hz⟩ ⟨hw, hh, hf, hjp, hjl, hv1.2.2.2.2.1.fonts, hv1.2.2.2.2.2.1.graphics⟩ hv1.2.2.2.2.1 _ _
    hv1.2.2.2.2.2.1 ms ms' (sizesOk_short d ms hl) (sizesOk_short d ms' hl') pre post r A hv hv' hA he xs

/-! ### cases -/

/-- two text rectangles side by side, the first in red -/
def leftRight : Str := c!"[tr1,1,30,30][cf255,0,0]A[nl]B[cf][tr31,1,30,30]C"
/-- the other way round -/
def rightLeft : Str := c!"[tr31,1,30,30]C[tr1,1,30,30][cf255,0,0]A[nl]B[cf]"

theorem leftRight_values : Parses (slices leftRight) ([] ++ .textRectangle ⟨1, 1, 30, 30⟩ ::
    ([.colorForeground (some (.rgb 255 0 0)), .text c!"A", .newLine none, .text c!"B", .colorForeground none] ++
      .textRectangle ⟨31, 1, 30, 30⟩ :: ([.text c!"C"] ++ []))) := by
  rw [show slices leftRight = [c!"[tr1,1,30,30]", c!"[cf255,0,0]", c!"A", c!"[nl]", c!"B", c!"[cf]", c!"[tr31,1,30,30]", c!"C"]
    by decide +kernel]
  repeat (first | exact .nil | refine .cons (by decide +kernel) ?_)

theorem rightLeft_values : Parses (slices rightLeft) ([] ++ .textRectangle ⟨31, 1, 30, 30⟩ :: ([.text c!"C"] ++
    .textRectangle ⟨1, 1, 30, 30⟩ :: ([.colorForeground (some (.rgb 255 0 0)), .text c!"A", .newLine none, .text c!"B",
      .colorForeground none] ++ []))) := by
  rw [show slices rightLeft = [c!"[tr31,1,30,30]", c!"C", c!"[tr1,1,30,30]", c!"[cf255,0,0]", c!"A", c!"[nl]", c!"B", c!"[cf]"]
    by decide +kernel]
  repeat (first | exact .nil | refine .cons (by decide +kernel) ?_)

-- the two are shown alike
example (xs) (hx : ShownAs fullDms leftRight xs) :
    ∃ ys, ShownAs fullDms rightLeft ys ∧ onPictures ys = onPictures xs ∧ durations ys = durations xs := by
  refine C115_built .checked _ fullDms fullDms_built (by decide +kernel) (by decide +kernel) (by decide +kernel)
    (by decide +kernel) (by decide) ⟨by decide, by decide⟩ (.inl (by decide +kernel)) leftRight rightLeft
    (by decide +kernel) (by decide +kernel) [] [] _ _ _ _ leftRight_values rightLeft_values ?_ ?_ ?_ trivial xs hx
  · refine ⟨?_, by decide +kernel, by decide +kernel⟩
    intro v hv
    simp only [List.mem_cons, List.not_mem_nil, or_false] at hv
    rcases hv with rfl | rfl | rfl | rfl | rfl <;> trivial
  · refine ⟨?_, by decide +kernel, by decide +kernel⟩
    intro v hv
    simp only [List.mem_cons, List.not_mem_nil, or_false] at hv
    subst hv
    trivial
  · rintro i j ⟨h1, h2⟩
    simp only [PixelIn, extWidth, extHeight] at h1 h2
    simp at h1 h2
    omega

example : (summary fullDms leftRight).map List.length = some 1 ∧ summary fullDms leftRight = summary fullDms rightLeft := by
  decide +kernel

-- overlapping text rectangles: the later one is on top
example : pixels fullDms c!"[tr1,1,30,30][cf255,0,0]A[cf][tr1,1,40,30]A" [(0, 1)] = [(255, 255, 255)] ∧
    pixels fullDms c!"[tr1,1,40,30]A[tr1,1,30,30][cf255,0,0]A[cf]" [(0, 1)] = [(255, 0, 0)] := by decide +kernel

-- a color that is not set back is that of the next text rectangle
example : pixels fullDms c!"[tr1,1,30,30][cf255,0,0]A[tr31,1,30,30]C" [(30, 1)] ≠
    pixels fullDms c!"[tr31,1,30,30]C[tr1,1,30,30][cf255,0,0]A" [(30, 1)] := by decide +kernel

/-- a text rectangle told twice -/
def toldTwice : Str := c!"A[tr31,1,30,30]C[nl]D[tr31,1,30,30]C[nl]D[np]E"
/-- told once -/
def toldOnce : Str := c!"A[tr31,1,30,30]C[nl]D[np]E"

example (xs) : ShownAs fullDms toldTwice xs ↔ ShownAs fullDms toldOnce xs := by
  have key := C116_built .checked _ fullDms fullDms_built (by decide +kernel) (by decide +kernel) (by decide +kernel)
    (by decide +kernel) (by decide) ⟨by decide, by decide⟩ toldTwice toldOnce (by decide +kernel) (by decide +kernel)
    [.text c!"A"] [.newPage, .text c!"E"] ⟨31, 1, 30, 30⟩ [.text c!"C", .newLine none, .text c!"D"] ?_ ?_ ?_ trivial xs
  · rw [key, and_iff_left]
    decide +kernel
  · rw [show slices toldTwice = [c!"A", c!"[tr31,1,30,30]", c!"C", c!"[nl]", c!"D", c!"[tr31,1,30,30]", c!"C", c!"[nl]", c!"D",
      c!"[np]", c!"E"] by decide +kernel]
    repeat (first | exact .nil | refine .cons (by decide +kernel) ?_)
  · rw [show slices toldOnce = [c!"A", c!"[tr31,1,30,30]", c!"C", c!"[nl]", c!"D", c!"[np]", c!"E"] by decide +kernel]
    repeat (first | exact .nil | refine .cons (by decide +kernel) ?_)
  · refine ⟨?_, by decide +kernel, by decide +kernel⟩
    intro v hv
    simp only [List.mem_cons, List.not_mem_nil, or_false] at hv
    rcases hv with rfl | rfl | rfl <;> trivial

example : (summary fullDms toldTwice).map List.length = some 2 := by decide +kernel

end Ntcip
