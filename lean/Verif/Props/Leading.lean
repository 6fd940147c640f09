import Verif.Lemmas.Leading
/-
C139: the spacing of an `[nl]` tag moves the lines below it.
-/
namespace Ntcip
open Spec Tests

/-- **C139**: two messages differ in the spacing of one `[nl]` tag on the last page. Then their last pages are two blocks of
the same look: the lines above the tag (`h` rows high) and the lines below it, and between the blocks are as many rows as
the tag says, or else the mean of the line spacings of the fonts (`gapOf`). The whole text is higher or lower by the difference
of the spacings, and stands in its place for this height. -/
theorem C139_blocks (d : Dms) (hf : FontsOk d.fontDefinition) (h0 : 1 ≤ d.multiCfg.defaultFont.toNat) (W H : Nat)
    (hg : GraphicsOk W H d.graphicDefinition) (ms ms1 ms2 : Str) (vs us ws : List Value) (s s' : Option UInt8) (J : JustificationPage)
    (hv : Parses (slices ms) vs) (hv1 : Parses (slices ms1) (vs ++ (us ++ .newLine s :: ws)))
    (hv2 : Parses (slices ms2) (vs ++ (us ++ .newLine s' :: ws))) (hfull : d.vmsCfg.charHeightPixels = 0)
    (hu : ∀ w ∈ us, AddsText w) (hw : ∀ w ∈ ws, AddsText w) (hju : ∀ j, Value.justificationPage j ∉ us)
    (hjw : ∀ j, Value.justificationPage j ∉ ws) (hx0 : ∃ x, Value.text x ∈ ws)
    (hn : ∀ v ∈ (lastText d vs).values, PutsNothing v)
    (ht : Tidy (signAttr d) (lastText d vs).attr true true ((lastText d vs).values ++ (us ++ .newLine s :: ws)))
    (hJ : ((lastText d vs).values.foldl (TextAttr.apply (signAttr d)) (lastText d vs).attr).justPage = J)
    (xs xs1 xs2) (hx : ShownAs d ms xs) (hx1 : ShownAs d ms1 xs1) (hx2 : ShownAs d ms2 xs2) :
    ∃ ys p p1 p2 off, xs = ys ++ (true, .ok p) :: off ∧ xs1 = ys ++ (true, .ok p1) :: off ∧ xs2 = ys ++ (true, .ok p2) :: off ∧
      (∀ o ∈ off, o.1 = false) ∧ p.durationDs = p1.durationDs ∧ p.durationDs = p2.durationDs ∧
      ∃ B T h g g' n n',
        h = linesHeight true d.fontDefinition (layoutOf d (lastText d vs).attr (lastText d vs).spacing (lastText d vs).rect
          ((lastText d vs).values ++ (us ++ .newLine s :: ws))) (newLines us) ∧
        g = gapOf d.fontDefinition s (newLines us) (layoutOf d (lastText d vs).attr (lastText d vs).spacing (lastText d vs).rect
          ((lastText d vs).values ++ (us ++ .newLine s :: ws))) ∧
        g' = gapOf d.fontDefinition s' (newLines us) (layoutOf d (lastText d vs).attr (lastText d vs).spacing (lastText d vs).rect
          ((lastText d vs).values ++ (us ++ .newLine s' :: ws))) ∧
        n = blockHeight d (layoutOf d (lastText d vs).attr (lastText d vs).spacing (lastText d vs).rect
          ((lastText d vs).values ++ (us ++ .newLine s :: ws))) ∧
        n' = blockHeight d (layoutOf d (lastText d vs).attr (lastText d vs).spacing (lastText d vs).rect
          ((lastText d vs).values ++ (us ++ .newLine s' :: ws))) ∧
        n ≤ (lastText d vs).rect.height.toNat ∧ n' ≤ (lastText d vs).rect.height.toNat ∧ n' + g = n + g' ∧
        (∀ i j, B i j ≠ none → j < h) ∧ (∀ i j, T i j ≠ none → h + g + j < n) ∧
        InTwoBlocks B T (linesTop (lastText d vs).rect J n) h g p.raster p1.raster ∧
        InTwoBlocks B T (linesTop (lastText d vs).rect J n') h g' p.raster p2.raster := by
  have hw' : ∀ r, ∀ w ∈ us ++ Value.newLine r :: ws, AddsText w := by
    intro r w hm
    rcases List.mem_append.1 hm with hm | hm
    · exact hu w hm
    · rcases List.mem_cons.1 hm with rfl | hm
      · trivial
      · exact hw w hm
  obtain ⟨ys, p, p1, p2, off, e1, e2, e3, e4, e5, e6, e7, e8⟩ := shown_over d hf h0 W H hg ms ms1 ms2 vs _ _ hv hv1 hv2
    (hw' s) (hw' s') hn xs xs1 xs2 hx hx1 hx2
  exact ⟨ys, p, p1, p2, off, e1, e2, e3, e4, e5, e6, textDrawn_leading hfull hn hju hjw hx0 ht hJ e7 e8⟩

/-- the pixels of two blocks -/
theorem twoBlocks_px {B T y h s a b} (k : InTwoBlocks B T y h s a b) (hB : ∀ i j, B i j ≠ none → j < h) (i j : Nat) :
    (j < y + h → b.px i j = (if y ≤ j then B i (j - y) else none).getD (a.px i j)) ∧
    (y + h ≤ j → j < y + h + s → b.px i j = a.px i j) ∧
    (y + h + s ≤ j → b.px i j = (T i (j - (y + h + s))).getD (a.px i j)) := by
  obtain ⟨a1, h1, h2⟩ := k
  have eB : y + h ≤ j → B (i - 0) (j - y) = none := by
    intro hj
    cases e : B (i - 0) (j - y) with
    | none => rfl
    | some c =>
      have := hB _ _ (by rw [e]; exact Option.some_ne_none c)
      omega
  refine ⟨fun hj => ?_, fun hj hj' => ?_, fun hj => ?_⟩
  · rw [h2.2.2, if_neg (by omega), h1.2.2]
    simp
  · rw [h2.2.2, if_neg (by omega), h1.2.2, eB hj]
    simp
  · rw [h2.2.2, if_pos ⟨by omega, by omega⟩, h1.2.2, eB (by omega)]
    simp

/-- **C139** at the top: what is above the tag does not change, between the blocks nothing is drawn, and what is below is
moved by the difference of the spacings (over the same background). -/
theorem C139_top (d : Dms) (hf : FontsOk d.fontDefinition) (h0 : 1 ≤ d.multiCfg.defaultFont.toNat) (W H : Nat)
    (hg : GraphicsOk W H d.graphicDefinition) (ms ms1 ms2 : Str) (vs us ws : List Value) (s s' : Option UInt8)
    (hv : Parses (slices ms) vs) (hv1 : Parses (slices ms1) (vs ++ (us ++ .newLine s :: ws)))
    (hv2 : Parses (slices ms2) (vs ++ (us ++ .newLine s' :: ws))) (hfull : d.vmsCfg.charHeightPixels = 0)
    (hu : ∀ w ∈ us, AddsText w) (hw : ∀ w ∈ ws, AddsText w) (hju : ∀ j, Value.justificationPage j ∉ us)
    (hjw : ∀ j, Value.justificationPage j ∉ ws) (hx0 : ∃ x, Value.text x ∈ ws)
    (hn : ∀ v ∈ (lastText d vs).values, PutsNothing v)
    (ht : Tidy (signAttr d) (lastText d vs).attr true true ((lastText d vs).values ++ (us ++ .newLine s :: ws)))
    (hJ : ((lastText d vs).values.foldl (TextAttr.apply (signAttr d)) (lastText d vs).attr).justPage = .top)
    (xs xs1 xs2) (hx : ShownAs d ms xs) (hx1 : ShownAs d ms1 xs1) (hx2 : ShownAs d ms2 xs2) :
    ∃ ys p p1 p2 off, xs = ys ++ (true, .ok p) :: off ∧ xs1 = ys ++ (true, .ok p1) :: off ∧ xs2 = ys ++ (true, .ok p2) :: off ∧
      ∃ e g g', g = gapOf d.fontDefinition s (newLines us) (layoutOf d (lastText d vs).attr (lastText d vs).spacing (lastText d vs).rect
          ((lastText d vs).values ++ (us ++ .newLine s :: ws))) ∧
        g' = gapOf d.fontDefinition s' (newLines us) (layoutOf d (lastText d vs).attr (lastText d vs).spacing (lastText d vs).rect
          ((lastText d vs).values ++ (us ++ .newLine s' :: ws))) ∧
        e = (lastText d vs).rect.y.toNat - 1 + linesHeight true d.fontDefinition (layoutOf d (lastText d vs).attr
          (lastText d vs).spacing (lastText d vs).rect ((lastText d vs).values ++ (us ++ .newLine s :: ws))) (newLines us) ∧
        (∀ i j, j < e → p1.raster.px i j = p2.raster.px i j) ∧
        (∀ i j, e ≤ j → j < e + g → p1.raster.px i j = p.raster.px i j) ∧
        (∀ i j, e ≤ j → j < e + g' → p2.raster.px i j = p.raster.px i j) ∧
        ∀ i j, p.raster.px i (e + g + j) = p.raster.px i (e + g' + j) →
          p1.raster.px i (e + g + j) = p2.raster.px i (e + g' + j) := by
  obtain ⟨ys, p, p1, p2, off, e1, e2, e3, _, _, _, B, T, h, g, g', n, n', k1, g1, g2, _, _, _, _, _, b1, _, k4, k5⟩ :=
    C139_blocks d hf h0 W H hg ms ms1 ms2 vs us ws s s' .top hv hv1 hv2 hfull hu hw hju hjw hx0 hn ht hJ xs xs1 xs2 hx hx1 hx2
  have el : ∀ m, linesTop (lastText d vs).rect .top m = (lastText d vs).rect.y.toNat - 1 := fun _ => rfl
  rw [el] at k4 k5
  refine ⟨ys, p, p1, p2, off, e1, e2, e3, _, g, g', g1, g2, rfl, ?_⟩
  rw [← k1]
  refine ⟨fun i j hj => ?_, fun i j hj hj' => ?_, fun i j hj hj' => ?_, fun i j hp => ?_⟩
  · rw [(twoBlocks_px k4 b1 i j).1 hj, (twoBlocks_px k5 b1 i j).1 hj]
  · exact (twoBlocks_px k4 b1 i j).2.1 hj hj'
  · exact (twoBlocks_px k5 b1 i j).2.1 hj hj'
  · rw [(twoBlocks_px k4 b1 i _).2.2 (by omega), (twoBlocks_px k5 b1 i _).2.2 (by omega), hp]
    congr 2
    omega

/-- **C139** at the bottom: what is below the tag does not change, and what is above is moved by the difference of the
spacings (over the same background). `e` is the first row of the lines below. -/
theorem C139_bottom (d : Dms) (hf : FontsOk d.fontDefinition) (h0 : 1 ≤ d.multiCfg.defaultFont.toNat) (W H : Nat)
    (hg : GraphicsOk W H d.graphicDefinition) (ms ms1 ms2 : Str) (vs us ws : List Value) (s s' : Option UInt8)
    (hv : Parses (slices ms) vs) (hv1 : Parses (slices ms1) (vs ++ (us ++ .newLine s :: ws)))
    (hv2 : Parses (slices ms2) (vs ++ (us ++ .newLine s' :: ws))) (hfull : d.vmsCfg.charHeightPixels = 0)
    (hu : ∀ w ∈ us, AddsText w) (hw : ∀ w ∈ ws, AddsText w) (hju : ∀ j, Value.justificationPage j ∉ us)
    (hjw : ∀ j, Value.justificationPage j ∉ ws) (hx0 : ∃ x, Value.text x ∈ ws)
    (hn : ∀ v ∈ (lastText d vs).values, PutsNothing v)
    (ht : Tidy (signAttr d) (lastText d vs).attr true true ((lastText d vs).values ++ (us ++ .newLine s :: ws)))
    (hJ : ((lastText d vs).values.foldl (TextAttr.apply (signAttr d)) (lastText d vs).attr).justPage = .bottom)
    (xs xs1 xs2) (hx : ShownAs d ms xs) (hx1 : ShownAs d ms1 xs1) (hx2 : ShownAs d ms2 xs2) :
    ∃ ys p p1 p2 off, xs = ys ++ (true, .ok p) :: off ∧ xs1 = ys ++ (true, .ok p1) :: off ∧ xs2 = ys ++ (true, .ok p2) :: off ∧
      ∃ e g g', g = gapOf d.fontDefinition s (newLines us) (layoutOf d (lastText d vs).attr (lastText d vs).spacing (lastText d vs).rect
          ((lastText d vs).values ++ (us ++ .newLine s :: ws))) ∧
        g' = gapOf d.fontDefinition s' (newLines us) (layoutOf d (lastText d vs).attr (lastText d vs).spacing (lastText d vs).rect
          ((lastText d vs).values ++ (us ++ .newLine s' :: ws))) ∧
        e + blockHeight d (layoutOf d (lastText d vs).attr (lastText d vs).spacing (lastText d vs).rect
          ((lastText d vs).values ++ (us ++ .newLine s :: ws))) =
          (lastText d vs).rect.y.toNat - 1 + (lastText d vs).rect.height.toNat + g +
          linesHeight true d.fontDefinition (layoutOf d (lastText d vs).attr
          (lastText d vs).spacing (lastText d vs).rect ((lastText d vs).values ++ (us ++ .newLine s :: ws))) (newLines us) ∧
        (∀ i j, e ≤ j → p1.raster.px i j = p2.raster.px i j) ∧
        (∀ i j, e ≤ j + g → j < e → p1.raster.px i j = p.raster.px i j) ∧
        (∀ i j, e ≤ j + g' → j < e → p2.raster.px i j = p.raster.px i j) ∧
        ∀ i j j', j + g < e → j' + g' = j + g → p.raster.px i j = p.raster.px i j' →
          p1.raster.px i j = p2.raster.px i j' := by
  obtain ⟨ys, p, p1, p2, off, e1, e2, e3, _, _, _, B, T, h, g, g', n, n', k1, g1, g2, k2, _, l1, l2, l3, b1, _, k4, k5⟩ :=
    C139_blocks d hf h0 W H hg ms ms1 ms2 vs us ws s s' .bottom hv hv1 hv2 hfull hu hw hju hjw hx0 hn ht hJ xs xs1 xs2 hx hx1 hx2
  have el : ∀ m, linesTop (lastText d vs).rect .bottom m =
    (lastText d vs).rect.y.toNat - 1 + ((lastText d vs).rect.height.toNat - m) := fun _ => rfl
  rw [el] at k4 k5
  refine ⟨ys, p, p1, p2, off, e1, e2, e3,
    (lastText d vs).rect.y.toNat - 1 + ((lastText d vs).rect.height.toNat - n) + h + g,
    g, g', g1, g2, ?_, ?_⟩
  · rw [← k1, ← k2]
    omega
  refine ⟨fun i j hj => ?_, fun i j hj hj' => ?_, fun i j hj hj' => ?_, fun i j j' hj he hp => ?_⟩
  · rw [(twoBlocks_px k4 b1 i j).2.2 hj, (twoBlocks_px k5 b1 i j).2.2 (by omega)]
    congr 2
    omega
  · exact (twoBlocks_px k4 b1 i j).2.1 (by omega) (by omega)
  · exact (twoBlocks_px k5 b1 i j).2.1 (by omega) (by omega)
  · rw [(twoBlocks_px k4 b1 i j).1 (by omega), (twoBlocks_px k5 b1 i j').1 (by omega), hp]
    congr 1
    by_cases h : (lastText d vs).rect.y.toNat - 1 + ((lastText d vs).rect.height.toNat - n) ≤ j
    · rw [if_pos h, if_pos (by omega)]
      congr 1
      omega
    · rw [if_neg h, if_neg (by omega)]

/-- **C139**: a spacing that is not told is like the mean of the line spacings of the fonts. More generally, messages with the
same gap are shown the same. -/
theorem C139_gap (d : Dms) (hf : FontsOk d.fontDefinition) (h0 : 1 ≤ d.multiCfg.defaultFont.toNat) (W H : Nat)
    (hg : GraphicsOk W H d.graphicDefinition) (ms ms1 ms2 : Str) (vs us ws : List Value) (s s' : Option UInt8)
    (J : JustificationPage) (hv : Parses (slices ms) vs) (hv1 : Parses (slices ms1) (vs ++ (us ++ .newLine s :: ws)))
    (hv2 : Parses (slices ms2) (vs ++ (us ++ .newLine s' :: ws))) (hfull : d.vmsCfg.charHeightPixels = 0)
    (hu : ∀ w ∈ us, AddsText w) (hw : ∀ w ∈ ws, AddsText w) (hju : ∀ j, Value.justificationPage j ∉ us)
    (hjw : ∀ j, Value.justificationPage j ∉ ws) (hx0 : ∃ x, Value.text x ∈ ws)
    (hn : ∀ v ∈ (lastText d vs).values, PutsNothing v)
    (ht : Tidy (signAttr d) (lastText d vs).attr true true ((lastText d vs).values ++ (us ++ .newLine s :: ws)))
    (hJ : ((lastText d vs).values.foldl (TextAttr.apply (signAttr d)) (lastText d vs).attr).justPage = J)
    (hgap : gapOf d.fontDefinition s (newLines us) (layoutOf d (lastText d vs).attr (lastText d vs).spacing (lastText d vs).rect
          ((lastText d vs).values ++ (us ++ .newLine s :: ws))) =
      gapOf d.fontDefinition s' (newLines us) (layoutOf d (lastText d vs).attr (lastText d vs).spacing (lastText d vs).rect
          ((lastText d vs).values ++ (us ++ .newLine s' :: ws))))
    (xs xs1 xs2) (hx : ShownAs d ms xs) (hx1 : ShownAs d ms1 xs1) (hx2 : ShownAs d ms2 xs2) : xs1 = xs2 := by
  obtain ⟨ys, p, p1, p2, off, _, e2, e3, _, f1, f2, B, T, h, g, g', n, n', _, g1, g2, _, _, _, _, l, _, _, k4, k5⟩ :=
    C139_blocks d hf h0 W H hg ms ms1 ms2 vs us ws s s' J hv hv1 hv2 hfull hu hw hju hjw hx0 hn ht hJ xs xs1 xs2 hx hx1 hx2
  obtain rfl : g = g' := by rw [g1, g2, hgap]
  obtain rfl : n' = n := by omega
  obtain ⟨a1, h1, h2⟩ := k4
  obtain ⟨a2, h1', h2'⟩ := k5
  obtain ⟨r1, dur1⟩ := p1
  obtain ⟨r2, dur2⟩ := p2
  obtain ⟨w1, t1, x1⟩ := r1
  obtain ⟨w2, t2, x2⟩ := r2
  have ew : w1 = w2 := h2.1.trans (h1.1.trans (h1'.1.symm.trans h2'.1.symm))
  have et : t1 = t2 := 
    h2.2.1.trans (h1.2.1.trans (h1'.2.1.symm.trans h2'.2.1.symm))
  have ex : x1 = x2 := by
    funext i j
    exact (h2.2.2 i j).trans (by rw [h1.2.2 i j, ← h1'.2.2 i j]; exact (h2'.2.2 i j).symm)
  have ed : dur1 = dur2 := f1.symm.trans f2
  rw [e2, e3, ew, et, ex, ed]

/-! ### examples -/

-- the hypotheses of C139, and what it tells: a spacing of 1 or 4 before the second line, at the top of a text rectangle
example : ∃ xs xs1 xs2, ShownAs fullDms c!"X[tr11,5,40,26]" xs ∧ ShownAs fullDms c!"X[tr11,5,40,26]A[nl1]B" xs1 ∧
    ShownAs fullDms c!"X[tr11,5,40,26]A[nl4]B" xs2 ∧
    ∃ ys p p1 p2 off e, xs = ys ++ (true, .ok p) :: off ∧ xs1 = ys ++ (true, .ok p1) :: off ∧
      xs2 = ys ++ (true, .ok p2) :: off ∧ (∀ i j, j < e → p1.raster.px i j = p2.raster.px i j) ∧
      ∀ i j, p.raster.px i (e + 1 + j) = p.raster.px i (e + 4 + j) → p1.raster.px i (e + 1 + j) = p2.raster.px i (e + 4 + j) := by
  obtain ⟨xs, hx, hn, _⟩ := summary_noError (d := fullDms) (ms := c!"X[tr11,5,40,26]") (l := [(true, 60, 30, 30)])
    (by decide +kernel)
  obtain ⟨xs1, hx1, hn1, _⟩ := summary_noError (d := fullDms) (ms := c!"X[tr11,5,40,26]A[nl1]B")
    (l := [(true, 60, 30, 30)]) (by decide +kernel)
  obtain ⟨xs2, hx2, hn2, _⟩ := summary_noError (d := fullDms) (ms := c!"X[tr11,5,40,26]A[nl4]B")
    (l := [(true, 60, 30, 30)]) (by decide +kernel)
  have hv := C22_built_sign_valid .checked _ _ fullDms_built
  have e0 : (lastText fullDms [.text c!"X", .textRectangle ⟨11, 5, 40, 26⟩]).values = [] := by decide +kernel
  obtain ⟨ys, p, p1, p2, off, e1, e2, e3, e, g, g', hg1, hg2, _, k1, _, _, k2⟩ := C139_top fullDms hv.2.2.2.2.1 (by decide)
    _ _ hv.2.2.2.2.2.1 c!"X[tr11,5,40,26]" c!"X[tr11,5,40,26]A[nl1]B" c!"X[tr11,5,40,26]A[nl4]B"
    [.text c!"X", .textRectangle ⟨11, 5, 40, 26⟩] [.text c!"A"] [.text c!"B"] (some 1) (some 4)
    (parses_of (by decide +kernel)) (parses_of (by decide +kernel)) (parses_of (by decide +kernel)) (by decide)
    (by simp [AddsText]) (by simp [AddsText]) (by simp) (by simp) ⟨c!"B", by simp⟩
    (by rw [e0]; simp)
    (by rw [e0]; exact ⟨trivial, fun h => by simp [freshAfter] at h, trivial, trivial⟩)
    (by decide +kernel) xs xs1 xs2 ⟨hx, hn⟩ ⟨hx1, hn1⟩ ⟨hx2, hn2⟩
  have hg1 : g = 1 := by
    simp only [gapOf, Option.map_some, Option.getD_some] at hg1
    exact hg1
  have hg2 : g' = 4 := by
    simp only [gapOf, Option.map_some, Option.getD_some] at hg2
    exact hg2
  subst hg1 hg2
  exact ⟨xs, xs1, xs2, ⟨hx, hn⟩, ⟨hx1, hn1⟩, ⟨hx2, hn2⟩, ys, p, p1, p2, off, e, e1, e2, e3, k1, k2⟩

-- a spacing that is not told is the one of the font (the hypotheses of C139_gap)
example : ∃ xs1 xs2, ShownAs fullDms c!"X[tr11,5,40,26]A[nl]B" xs1 ∧
    ShownAs fullDms c!"X[tr11,5,40,26]A[nl2]B" xs2 ∧ xs1 = xs2 := by
  obtain ⟨xs, hx, hn, _⟩ := summary_noError (d := fullDms) (ms := c!"X[tr11,5,40,26]") (l := [(true, 60, 30, 30)])
    (by decide +kernel)
  obtain ⟨xs1, hx1, hn1, _⟩ := summary_noError (d := fullDms) (ms := c!"X[tr11,5,40,26]A[nl]B")
    (l := [(true, 60, 30, 30)]) (by decide +kernel)
  obtain ⟨xs2, hx2, hn2, _⟩ := summary_noError (d := fullDms) (ms := c!"X[tr11,5,40,26]A[nl2]B")
    (l := [(true, 60, 30, 30)]) (by decide +kernel)
  have hv := C22_built_sign_valid .checked _ _ fullDms_built
  have e0 : (lastText fullDms [.text c!"X", .textRectangle ⟨11, 5, 40, 26⟩]).values = [] := by decide +kernel
  exact ⟨xs1, xs2, ⟨hx1, hn1⟩, ⟨hx2, hn2⟩, C139_gap fullDms hv.2.2.2.2.1 (by decide)
    _ _ hv.2.2.2.2.2.1 c!"X[tr11,5,40,26]" c!"X[tr11,5,40,26]A[nl]B" c!"X[tr11,5,40,26]A[nl2]B"
    [.text c!"X", .textRectangle ⟨11, 5, 40, 26⟩] [.text c!"A"] [.text c!"B"] none (some 2) _
    (parses_of (by decide +kernel)) (parses_of (by decide +kernel)) (parses_of (by decide +kernel)) (by decide)
    (by simp [AddsText]) (by simp [AddsText]) (by simp) (by simp) ⟨c!"B", by simp⟩
    (by rw [e0]; simp)
    (by rw [e0]; exact ⟨trivial, fun h => by simp [freshAfter] at h, trivial, trivial⟩)
    rfl (by decide +kernel) xs xs1 xs2 ⟨hx, hn⟩ ⟨hx1, hn1⟩ ⟨hx2, hn2⟩⟩

-- the second line is three rows lower at the top, the first line three rows higher at the bottom
example : pixels fullDms c!"[tr11,5,40,26][jp2]B[cf255,0,0][nl1]B" [(10, 4), (10, 11), (10, 12), (10, 13), (10, 20), (10, 21)] =
    [(255, 255, 255), (255, 255, 255), (0, 0, 0), (255, 0, 0), (255, 0, 0), (0, 0, 0)] ∧
    pixels fullDms c!"[tr11,5,40,26][jp2]B[cf255,0,0][nl4]B" [(10, 4), (10, 11), (10, 12), (10, 15), (10, 16), (10, 23)] =
    [(255, 255, 255), (255, 255, 255), (0, 0, 0), (0, 0, 0), (255, 0, 0), (255, 0, 0)] :=
  ⟨by decide +kernel, by decide +kernel⟩

example : pixels fullDms c!"[tr11,5,40,26][jp4]B[cf255,0,0][nl1]B" [(10, 12), (10, 13), (10, 20), (10, 21), (10, 22), (10, 29)] =
    [(0, 0, 0), (255, 255, 255), (255, 255, 255), (0, 0, 0), (255, 0, 0), (255, 0, 0)] ∧
    pixels fullDms c!"[tr11,5,40,26][jp4]B[cf255,0,0][nl4]B" [(10, 9), (10, 10), (10, 17), (10, 18), (10, 21), (10, 22), (10, 29)] =
    [(0, 0, 0), (255, 255, 255), (255, 255, 255), (0, 0, 0), (0, 0, 0), (255, 0, 0), (255, 0, 0)] :=
  ⟨by decide +kernel, by decide +kernel⟩

end Ntcip
