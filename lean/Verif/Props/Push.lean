import Verif.Lemmas.Push
/-
C138: another text pushes the texts after it by the difference of the widths.
-/
namespace Ntcip
open Spec Tests

/-- **C138**: two messages have the same texts on the last line, but for one. Then their last pages are three parts, from
left to right: the texts before it, the text, and the texts after it. The first and the last part are the same in both
pages. Each part begins where the one before ends, so the last part is moved by the difference of the widths of the two
texts. -/
theorem C138_parts (d : Dms) (hf : FontsOk d.fontDefinition) (h0 : 1 ≤ d.multiCfg.defaultFont.toNat) (W H : Nat)
    (hg : GraphicsOk W H d.graphicDefinition) (ms ms1 ms2 : Str) (vs bs tail : List Value) (a a' : Str) (J : JustificationLine)
    (hv : Parses (slices ms) vs) (hv1 : Parses (slices ms1) (vs ++ (bs ++ .text a :: tail)))
    (hv2 : Parses (slices ms2) (vs ++ (bs ++ .text a' :: tail)))
    (hb : ∀ w ∈ bs, StaysOnLine w) (ht : ∀ w ∈ tail, StaysOnLine w) (hn : ∀ v ∈ (lastText d vs).values, PutsNothing v)
    (hJ : ((lastText d vs).values.foldl (TextAttr.apply (signAttr d)) (lastText d vs).attr).justLine = J)
    (hc : J = .center → d.vmsCfg.charWidthPixels = 0)
    (xs xs1 xs2) (hx : ShownAs d ms xs) (hx1 : ShownAs d ms1 xs1) (hx2 : ShownAs d ms2 xs2) :
    ∃ ys p p1 p2 off, xs = ys ++ (true, .ok p) :: off ∧ xs1 = ys ++ (true, .ok p1) :: off ∧ xs2 = ys ++ (true, .ok p2) :: off ∧
      (∀ o ∈ off, o.1 = false) ∧ p.durationDs = p1.durationDs ∧ p.durationDs = p2.durationDs ∧
      ∃ B A A' T nb w w' n n',
        SpanWidth d.fontDefinition (spanOf d (lastText d vs).rect ⟨((lastText d vs).values ++ bs).foldl
          (TextAttr.apply (signAttr d)) (lastText d vs).attr, (lastText d vs).spacing, 0, a⟩) w ∧
        SpanWidth d.fontDefinition (spanOf d (lastText d vs).rect ⟨((lastText d vs).values ++ bs).foldl
          (TextAttr.apply (signAttr d)) (lastText d vs).attr, (lastText d vs).spacing, 0, a'⟩) w' ∧
        LineWidth d.fontDefinition none (layoutOf d (lastText d vs).attr (lastText d vs).spacing (lastText d vs).rect
          ((lastText d vs).values ++ (bs ++ [.text a]))) (nb + w) ∧
        LineWidth d.fontDefinition none (layoutOf d (lastText d vs).attr (lastText d vs).spacing (lastText d vs).rect
          ((lastText d vs).values ++ (bs ++ .text a :: tail))) n ∧
        LineWidth d.fontDefinition none (layoutOf d (lastText d vs).attr (lastText d vs).spacing (lastText d vs).rect
          ((lastText d vs).values ++ (bs ++ .text a' :: tail))) n' ∧
        n ≤ (lastText d vs).rect.width.toNat ∧ n' ≤ (lastText d vs).rect.width.toNat ∧ n' + w = n + w' ∧
        (∀ i j, B i j ≠ none → i < nb) ∧ (∀ i j, A i j ≠ none → i < w) ∧ (∀ i j, A' i j ≠ none → i < w') ∧
        (∀ i j, T i j ≠ none → nb + w + i < n) ∧
        InThreeParts B A T (lineLeft (lastText d vs).rect J n) nb w p.raster p1.raster ∧
        InThreeParts B A' T (lineLeft (lastText d vs).rect J n') nb w' p.raster p2.raster := by
  have hw : ∀ y, ∀ w ∈ bs ++ Value.text y :: tail, AddsText w := by
    have st : ∀ w, StaysOnLine w → AddsText w := by
      intro w this
      cases w <;> first | exact this.elim | trivial
    intro y w hm
    rcases List.mem_append.1 hm with hm | hm
    · exact st w (hb w hm)
    · rcases List.mem_cons.1 hm with rfl | hm
      · trivial
      · exact st w (ht w hm)
  obtain ⟨ys, p, p1, p2, off, e1, e2, e3, e4, e5, e6, e7, e8⟩ := shown_over d hf h0 W H hg ms ms1 ms2 vs _ _ hv hv1 hv2
    (hw a) (hw a') hn xs xs1 xs2 hx hx1 hx2
  exact ⟨ys, p, p1, p2, off, e1, e2, e3, e4, e5, e6, textDrawn_push hn hb ht hJ hc e7 e8⟩

/-- the pixels of three parts -/
theorem threeParts_px {B A T x nb w a b} (h : InThreeParts B A T x nb w a b) (hB : ∀ i j, B i j ≠ none → i < nb)
    (hA : ∀ i j, A i j ≠ none → i < w) (i j : Nat) :
    (i < x + nb → b.px i j = (if x ≤ i then B (i - x) j else none).getD (a.px i j)) ∧
    (x + nb + w ≤ i → b.px i j = (T (i - (x + nb + w)) j).getD (a.px i j)) := by
  obtain ⟨a1, a2, h1, h2, h3⟩ := h
  refine ⟨fun hi => ?_, fun hi => ?_⟩
  · rw [h3.2.2, if_neg (by omega), h2.2.2, if_neg (by omega), h1.2.2]
    simp
  · have eA : A (i - (x + nb)) (j - 0) = none := by
      cases e : A (i - (x + nb)) (j - 0) with
      | none => rfl
      | some c =>
        have := hA _ _ (by rw [e]; exact Option.some_ne_none c)
        omega
    have eB : B (i - x) (j - 0) = none := by
      cases e : B (i - x) (j - 0) with
      | none => rfl
      | some c =>
        have := hB _ _ (by rw [e]; exact Option.some_ne_none c)
        omega
    rw [h3.2.2, if_pos ⟨by omega, by omega⟩, h2.2.2, eA, h1.2.2, eB]
    simp

/-- **C138** at the left: what is left of the text does not change, and what is right of it is moved by the difference of
the widths of the texts (over the same background). -/
theorem C138_left (d : Dms) (hf : FontsOk d.fontDefinition) (h0 : 1 ≤ d.multiCfg.defaultFont.toNat) (W H : Nat)
    (hg : GraphicsOk W H d.graphicDefinition) (ms ms1 ms2 : Str) (vs bs tail : List Value) (a a' : Str)
    (hv : Parses (slices ms) vs) (hv1 : Parses (slices ms1) (vs ++ (bs ++ .text a :: tail)))
    (hv2 : Parses (slices ms2) (vs ++ (bs ++ .text a' :: tail)))
    (hb : ∀ w ∈ bs, StaysOnLine w) (ht : ∀ w ∈ tail, StaysOnLine w) (hn : ∀ v ∈ (lastText d vs).values, PutsNothing v)
    (hJ : ((lastText d vs).values.foldl (TextAttr.apply (signAttr d)) (lastText d vs).attr).justLine = .left)
    (xs xs1 xs2) (hx : ShownAs d ms xs) (hx1 : ShownAs d ms1 xs1) (hx2 : ShownAs d ms2 xs2) :
    ∃ ys p p1 p2 off, xs = ys ++ (true, .ok p) :: off ∧ xs1 = ys ++ (true, .ok p1) :: off ∧ xs2 = ys ++ (true, .ok p2) :: off ∧
      ∃ nb w w',
        SpanWidth d.fontDefinition (spanOf d (lastText d vs).rect ⟨((lastText d vs).values ++ bs).foldl
          (TextAttr.apply (signAttr d)) (lastText d vs).attr, (lastText d vs).spacing, 0, a⟩) w ∧
        SpanWidth d.fontDefinition (spanOf d (lastText d vs).rect ⟨((lastText d vs).values ++ bs).foldl
          (TextAttr.apply (signAttr d)) (lastText d vs).attr, (lastText d vs).spacing, 0, a'⟩) w' ∧
        LineWidth d.fontDefinition none (layoutOf d (lastText d vs).attr (lastText d vs).spacing (lastText d vs).rect
          ((lastText d vs).values ++ (bs ++ [.text a]))) (nb + w) ∧
        (∀ i j, i < (lastText d vs).rect.x.toNat - 1 + nb → p1.raster.px i j = p2.raster.px i j) ∧
        ∀ i i' j, (lastText d vs).rect.x.toNat - 1 + nb + w ≤ i → i' + w = i + w' → p.raster.px i j = p.raster.px i' j →
          p1.raster.px i j = p2.raster.px i' j := by
  obtain ⟨ys, p, p1, p2, off, e1, e2, e3, _, _, _, B, A, A', T, nb, w, w', n, n', k1, k2, k3, _, _, _, _, _, b1, b2, b3, _, k4, k5⟩ :=
    C138_parts d hf h0 W H hg ms ms1 ms2 vs bs tail a a' .left hv hv1 hv2 hb ht hn hJ (fun e => by cases e) xs xs1 xs2 hx hx1 hx2
  have el : ∀ m, lineLeft (lastText d vs).rect .left m = (lastText d vs).rect.x.toNat - 1 := fun _ => rfl
  rw [el] at k4 k5
  refine ⟨ys, p, p1, p2, off, e1, e2, e3, nb, w, w', k1, k2, k3, fun i j hi => ?_, fun i i' j hi he hp => ?_⟩
  · rw [(threeParts_px k4 b1 b2 i j).1 hi, (threeParts_px k5 b1 b3 i j).1 hi]
  · rw [(threeParts_px k4 b1 b2 i j).2 hi, (threeParts_px k5 b1 b3 i' j).2 (by omega), hp]
    congr 2
    omega

/-- **C138** at the right: what is right of the text does not change, and what is left of it is moved by the difference of
the widths of the texts (over the same background). `e` is the column after the text. -/
theorem C138_right (d : Dms) (hf : FontsOk d.fontDefinition) (h0 : 1 ≤ d.multiCfg.defaultFont.toNat) (W H : Nat)
    (hg : GraphicsOk W H d.graphicDefinition) (ms ms1 ms2 : Str) (vs bs tail : List Value) (a a' : Str)
    (hv : Parses (slices ms) vs) (hv1 : Parses (slices ms1) (vs ++ (bs ++ .text a :: tail)))
    (hv2 : Parses (slices ms2) (vs ++ (bs ++ .text a' :: tail)))
    (hb : ∀ w ∈ bs, StaysOnLine w) (ht : ∀ w ∈ tail, StaysOnLine w) (hn : ∀ v ∈ (lastText d vs).values, PutsNothing v)
    (hJ : ((lastText d vs).values.foldl (TextAttr.apply (signAttr d)) (lastText d vs).attr).justLine = .right)
    (xs xs1 xs2) (hx : ShownAs d ms xs) (hx1 : ShownAs d ms1 xs1) (hx2 : ShownAs d ms2 xs2) :
    ∃ ys p p1 p2 off, xs = ys ++ (true, .ok p) :: off ∧ xs1 = ys ++ (true, .ok p1) :: off ∧ xs2 = ys ++ (true, .ok p2) :: off ∧
      ∃ e w w' n nb,
        SpanWidth d.fontDefinition (spanOf d (lastText d vs).rect ⟨((lastText d vs).values ++ bs).foldl
          (TextAttr.apply (signAttr d)) (lastText d vs).attr, (lastText d vs).spacing, 0, a⟩) w ∧
        SpanWidth d.fontDefinition (spanOf d (lastText d vs).rect ⟨((lastText d vs).values ++ bs).foldl
          (TextAttr.apply (signAttr d)) (lastText d vs).attr, (lastText d vs).spacing, 0, a'⟩) w' ∧
        LineWidth d.fontDefinition none (layoutOf d (lastText d vs).attr (lastText d vs).spacing (lastText d vs).rect
          ((lastText d vs).values ++ (bs ++ .text a :: tail))) n ∧
        LineWidth d.fontDefinition none (layoutOf d (lastText d vs).attr (lastText d vs).spacing (lastText d vs).rect
          ((lastText d vs).values ++ (bs ++ [.text a]))) (nb + w) ∧
        e + n = (lastText d vs).rect.x.toNat - 1 + (lastText d vs).rect.width.toNat + (nb + w) ∧
        (∀ i j, e ≤ i → p1.raster.px i j = p2.raster.px i j) ∧
        ∀ i i' j, i + w < e → i' + w' = i + w → p.raster.px i j = p.raster.px i' j →
          p1.raster.px i j = p2.raster.px i' j := by
  obtain ⟨ys, p, p1, p2, off, e1, e2, e3, _, _, _, B, A, A', T, nb, w, w', n, n', k1, k2, k3, k3', _, l1, l2, l3, b1, b2, b3, _, k4, k5⟩ :=
    C138_parts d hf h0 W H hg ms ms1 ms2 vs bs tail a a' .right hv hv1 hv2 hb ht hn hJ (fun e => by cases e) xs xs1 xs2 hx hx1 hx2
  have el : ∀ m, lineLeft (lastText d vs).rect .right m =
    (lastText d vs).rect.x.toNat - 1 + ((lastText d vs).rect.width.toNat - m) := fun _ => rfl
  rw [el] at k4 k5
  refine ⟨ys, p, p1, p2, off, e1, e2, e3, (lastText d vs).rect.x.toNat - 1 + ((lastText d vs).rect.width.toNat - n) + nb + w,
    w, w', n, nb, k1, k2, k3', k3, by omega, fun i j hi => ?_, fun i i' j hi he hp => ?_⟩
  · rw [(threeParts_px k4 b1 b2 i j).2 hi, (threeParts_px k5 b1 b3 i j).2 (by omega)]
    congr 2
    omega
  · rw [(threeParts_px k4 b1 b2 i j).1 (by omega), (threeParts_px k5 b1 b3 i' j).1 (by omega), hp]
    congr 1
    by_cases h : (lastText d vs).rect.x.toNat - 1 + ((lastText d vs).rect.width.toNat - n) ≤ i
    · rw [if_pos h, if_pos (by omega)]
      congr 1
      omega
    · rw [if_neg h, if_neg (by omega)]

/-! ### examples -/

-- the hypotheses of C138, and what it tells: `A` or `AA` between two `B`, at the left of a text rectangle
example : ∃ xs xs1 xs2, ShownAs fullDms c!"X[tr11,11,40,20]" xs ∧
    ShownAs fullDms c!"X[tr11,11,40,20]B[cf255,0,0]A[cf0,255,0]B" xs1 ∧
    ShownAs fullDms c!"X[tr11,11,40,20]B[cf255,0,0]AA[cf0,255,0]B" xs2 ∧
    ∃ ys p p1 p2 off nb w w', xs = ys ++ (true, .ok p) :: off ∧ xs1 = ys ++ (true, .ok p1) :: off ∧
      xs2 = ys ++ (true, .ok p2) :: off ∧ (∀ i j, i < 10 + nb → p1.raster.px i j = p2.raster.px i j) ∧
      ∀ i i' j, 10 + nb + w ≤ i → i' + w = i + w' → p.raster.px i j = p.raster.px i' j → p1.raster.px i j = p2.raster.px i' j := by
  obtain ⟨xs, hx, hn, _⟩ := summary_noError (d := fullDms) (ms := c!"X[tr11,11,40,20]") (l := [(true, 60, 30, 30)])
    (by decide +kernel)
  obtain ⟨xs1, hx1, hn1, _⟩ := summary_noError (d := fullDms) (ms := c!"X[tr11,11,40,20]B[cf255,0,0]A[cf0,255,0]B")
    (l := [(true, 60, 30, 30)]) (by decide +kernel)
  obtain ⟨xs2, hx2, hn2, _⟩ := summary_noError (d := fullDms) (ms := c!"X[tr11,11,40,20]B[cf255,0,0]AA[cf0,255,0]B")
    (l := [(true, 60, 30, 30)]) (by decide +kernel)
  have hv := C22_built_sign_valid .checked _ _ fullDms_built
  obtain ⟨ys, p, p1, p2, off, e1, e2, e3, nb, w, w', _, _, _, k1, k2⟩ := C138_left fullDms hv.2.2.2.2.1 (by decide)
    _ _ hv.2.2.2.2.2.1 c!"X[tr11,11,40,20]" c!"X[tr11,11,40,20]B[cf255,0,0]A[cf0,255,0]B"
    c!"X[tr11,11,40,20]B[cf255,0,0]AA[cf0,255,0]B"
    [.text c!"X", .textRectangle ⟨11, 11, 40, 20⟩] [.text c!"B", .colorForeground (some (.rgb 255 0 0))]
    [.colorForeground (some (.rgb 0 255 0)), .text c!"B"] c!"A" c!"AA"
    (parses_of (by decide +kernel)) (parses_of (by decide +kernel)) (parses_of (by decide +kernel))
    (by simp [StaysOnLine]) (by simp [StaysOnLine])
    (by
      intro v hm
      have : v ∈ ([] : List Value) := hm
      cases this)
    (by decide +kernel) xs xs1 xs2 ⟨hx, hn⟩ ⟨hx1, hn1⟩ ⟨hx2, hn2⟩
  have e : (lastText fullDms [.text c!"X", .textRectangle ⟨11, 11, 40, 20⟩]).rect = ⟨11, 11, 40, 20⟩ := by
    decide +kernel
  rw [e] at k1 k2
  exact ⟨xs, xs1, xs2, ⟨hx, hn⟩, ⟨hx1, hn1⟩, ⟨hx2, hn2⟩, ys, p, p1, p2, off, nb, w, w', e1, e2, e3, k1, k2⟩

-- `A` is 5 columns wide, `AA` 12: the second `B` is moved by 7 columns at the left, the first one at the right
example : pixels fullDms c!"[tr11,11,40,20]B[cf255,0,0]A[cf0,255,0]B" [(10, 12), (14, 12), (17, 12), (24, 12), (28, 12), (31, 12)] =
    [(255, 255, 255), (255, 255, 255), (255, 0, 0), (0, 255, 0), (0, 255, 0), (0, 0, 0)] ∧
    pixels fullDms c!"[tr11,11,40,20]B[cf255,0,0]AA[cf0,255,0]B" [(10, 12), (14, 12), (17, 12), (24, 12), (31, 12), (35, 12)] =
    [(255, 255, 255), (255, 255, 255), (255, 0, 0), (255, 0, 0), (0, 255, 0), (0, 255, 0)] :=
  ⟨by decide +kernel, by decide +kernel⟩

example : pixels fullDms c!"[tr11,11,40,20][jl4]B[cf255,0,0]A[cf0,255,0]B" [(31, 12), (35, 12), (38, 12), (45, 12), (49, 12)] =
    [(255, 255, 255), (255, 255, 255), (255, 0, 0), (0, 255, 0), (0, 255, 0)] ∧
    pixels fullDms c!"[tr11,11,40,20][jl4]B[cf255,0,0]AA[cf0,255,0]B" [(24, 12), (28, 12), (31, 12), (45, 12), (49, 12)] =
    [(255, 255, 255), (255, 255, 255), (255, 0, 0), (0, 255, 0), (0, 255, 0)] :=
  ⟨by decide +kernel, by decide +kernel⟩

end Ntcip
