import Verif.Lemmas.Before
import Verif.Props.Added
/-
C127: text put before text at the bottom, or at the right, does not move it.
-/
namespace Ntcip
open Spec Tests

theorem typesOnLine_text {v : Value} (h : TypesOnLine v) : AddsText v := by
  cases v <;> first | exact h.elim | trivial

/-- **C127 (above)** Take a message which ends with text at the bottom of its last text rectangle, in order.  When lines are
put before this text, which end with the style they began with, and both messages are shown, then they are shown with the
same pages, except for the last one.  It has the same size and time, and its pixels are the same, except for pixels which
are lit by the texts of the new lines, and are above all texts which were there before. -/
theorem C127_above (d : Dms) (hf : FontsOk d.fontDefinition) (h0 : 1 ≤ d.multiCfg.defaultFont.toNat) (W H : Nat)
    (hg : GraphicsOk W H d.graphicDefinition) (ms ms' : Str) (vs new ws : List Value) (s : Option UInt8)
    (hv : Parses (slices ms) (vs ++ ws)) (hv' : Parses (slices ms') (vs ++ (new ++ .newLine s :: ws)))
    (hn : ∀ w ∈ new, AddsText w) (hw : ∀ w ∈ ws, AddsText w)
    (hp : ∀ j, Value.justificationPage j ∉ new ++ ws)
    (hu : ∀ u ∈ (lastText d vs).values, PutsNothing u) (hj : ((lastText d vs).after d).justPage = .bottom)
    (hst : new.foldl (TextAttr.apply (signAttr d)) ((lastText d vs).after d) = (lastText d vs).after d)
    (ht : Tidy (signAttr d) (lastText d vs).attr true true ((lastText d vs).values ++ (new ++ .newLine s :: ws)))
    (xs xs') (hx : ShownAs d ms xs) (hx' : ShownAs d ms' xs') :
    ∃ ys p p' off, xs = ys ++ (true, .ok p) :: off ∧ xs' = ys ++ (true, .ok p') :: off ∧ (∀ o ∈ off, o.1 = false) ∧
      p.durationDs = p'.durationDs ∧ p.raster.width = p'.raster.width ∧ p.raster.height = p'.raster.height ∧
      ∀ i j, p'.raster.px i j ≠ p.raster.px i j →
        LitAbove d
          (layoutOf d (lastText d vs).attr (lastText d vs).spacing (lastText d vs).rect ((lastText d vs).values ++ ws))
          (layoutOf d (lastText d vs).attr (lastText d vs).spacing (lastText d vs).rect
            ((lastText d vs).values ++ (new ++ .newLine s :: ws))) i j := by
  refine shown_ended d hf h0 W H hg ms ms' vs ws (new ++ .newLine s :: ws) hv hv' hw ?_ xs xs' hx hx'
    (fun b b' => ∀ i j, b'.px i j ≠ b.px i j → LitAbove d _ _ i j) ?_
  · intro w hm
    rcases List.mem_append.1 hm with hm | hm
    · exact hn w hm
    · rcases List.mem_cons.1 hm with rfl | hm
      · trivial
      · exact hw w hm
  · intro a b b' h1 h2
    exact textDrawn_above hu ht hj (fun j hm => hp j (List.mem_append_left _ hm))
      (fun j hm => hp j (List.mem_append_right _ hm)) hst h1 h2

/-- **C127 (left)** Take a message which ends with one line of text at the right of its last text rectangle, in one font.
When text is put before it on this line, with any colors and spacings, which ends with the style it began with, and both
messages are shown, then they are shown with the same pages, except for the last one.  It has the same size and time, and
its pixels are the same, except for pixels which are lit by the new texts, and are to the left of all texts which were
there before. -/
theorem C127_left (d : Dms) (hf : FontsOk d.fontDefinition) (h0 : 1 ≤ d.multiCfg.defaultFont.toNat) (W H : Nat)
    (hg : GraphicsOk W H d.graphicDefinition) (ms ms' : Str) (vs new ws : List Value)
    (hv : Parses (slices ms) (vs ++ ws)) (hv' : Parses (slices ms') (vs ++ (new ++ ws)))
    (hn : ∀ w ∈ new, TypesOnLine w) (hw : ∀ w ∈ ws, TypesOnLine w)
    (hu : ∀ u ∈ (lastText d vs).values, PutsNothing u) (hj : ((lastText d vs).after d).justLine = .right)
    (hst : new.foldl (TextAttr.apply (signAttr d)) ((lastText d vs).after d) = (lastText d vs).after d)
    (ht : Tidy (signAttr d) (lastText d vs).attr true true (lastText d vs).values)
    (xs xs') (hx : ShownAs d ms xs) (hx' : ShownAs d ms' xs') :
    ∃ ys p p' off, xs = ys ++ (true, .ok p) :: off ∧ xs' = ys ++ (true, .ok p') :: off ∧ (∀ o ∈ off, o.1 = false) ∧
      p.durationDs = p'.durationDs ∧ p.raster.width = p'.raster.width ∧ p.raster.height = p'.raster.height ∧
      ∀ i j, p'.raster.px i j ≠ p.raster.px i j →
        LitLeft d
          (layoutOf d (lastText d vs).attr (lastText d vs).spacing (lastText d vs).rect ((lastText d vs).values ++ ws))
          (layoutOf d (lastText d vs).attr (lastText d vs).spacing (lastText d vs).rect
            ((lastText d vs).values ++ (new ++ ws))) i j := by
  refine shown_ended d hf h0 W H hg ms ms' vs ws (new ++ ws) hv hv' (fun w hm => typesOnLine_text (hw w hm))
    (fun w hm => typesOnLine_text ((List.mem_append.1 hm).elim (hn w) (hw w))) xs xs' hx hx'
    (fun b b' => ∀ i j, b'.px i j ≠ b.px i j → LitLeft d _ _ i j) ?_
  intro a b b' h1 h2
  exact textDrawn_left hu ht hj hn hw hst h1 h2

/-! ### examples -/

-- the hypotheses of C127 (above), and what it tells
example : ∃ xs xs', ShownAs fullDms c!"A[np][jp4]B[jl4]C" xs ∧ ShownAs fullDms c!"A[np][jp4]A[nl]C[nl2]B[jl4]C" xs' ∧
    ∃ ys p p' off, xs = ys ++ (true, .ok p) :: off ∧ xs' = ys ++ (true, .ok p') :: off ∧
      ∀ i j, p'.raster.px i j ≠ p.raster.px i j →
        LitAbove fullDms
          (layoutOf fullDms (signAttr fullDms) none (signRect fullDms)
            [.justificationPage (some .bottom), .text c!"B", .justificationLine (some .right), .text c!"C"])
          (layoutOf fullDms (signAttr fullDms) none (signRect fullDms)
            [.justificationPage (some .bottom), .text c!"A", .newLine none, .text c!"C", .newLine (some 2), .text c!"B",
              .justificationLine (some .right), .text c!"C"]) i j := by
  obtain ⟨xs, hx, hn, _⟩ := summary_noError (d := fullDms) (ms := c!"A[np][jp4]B[jl4]C")
    (l := [(true, 60, 30, 30), (true, 60, 30, 30)]) (by decide +kernel)
  obtain ⟨xs', hx', hn', _⟩ := summary_noError (d := fullDms) (ms := c!"A[np][jp4]A[nl]C[nl2]B[jl4]C")
    (l := [(true, 60, 30, 30), (true, 60, 30, 30)]) (by decide +kernel)
  have hv := C22_built_sign_valid .checked _ _ fullDms_built
  obtain ⟨ys, p, p', off, h1, h2, _, _, _, _, h3⟩ := C127_above fullDms hv.2.2.2.2.1 (by decide) _ _ hv.2.2.2.2.2.1
    c!"A[np][jp4]B[jl4]C" c!"A[np][jp4]A[nl]C[nl2]B[jl4]C" [.text c!"A", .newPage, .justificationPage (some .bottom)]
    [.text c!"A", .newLine none, .text c!"C"] [.text c!"B", .justificationLine (some .right), .text c!"C"] (some 2)
    (by
      rw [show slices c!"A[np][jp4]B[jl4]C" = [c!"A", c!"[np]", c!"[jp4]", c!"B", c!"[jl4]", c!"C"] by decide +kernel]
      exact .cons (by decide +kernel) (.cons (by decide +kernel) (.cons (by decide +kernel) (.cons (by decide +kernel)
        (.cons (by decide +kernel) (.cons (by decide +kernel) .nil))))))
    (by
      rw [show slices c!"A[np][jp4]A[nl]C[nl2]B[jl4]C" =
        [c!"A", c!"[np]", c!"[jp4]", c!"A", c!"[nl]", c!"C", c!"[nl2]", c!"B", c!"[jl4]", c!"C"] by decide +kernel]
      exact .cons (by decide +kernel) (.cons (by decide +kernel) (.cons (by decide +kernel) (.cons (by decide +kernel)
        (.cons (by decide +kernel) (.cons (by decide +kernel) (.cons (by decide +kernel) (.cons (by decide +kernel)
          (.cons (by decide +kernel) (.cons (by decide +kernel) .nil))))))))))
    (by simp [AddsText]) (by simp [AddsText]) (by simp) (by simp [lastText, LastText.add, PutsNothing]) (by decide) (by decide)
    ⟨.inr (by decide), trivial, fun h => by simp [freshAfter] at h, trivial, fun h => by simp [freshAfter] at h, trivial,
      .inr (by decide), trivial, trivial⟩ xs xs' ⟨hx, hn⟩ ⟨hx', hn'⟩
  exact ⟨xs, xs', ⟨hx, hn⟩, ⟨hx', hn'⟩, ys, p, p', off, h1, h2, h3⟩

-- the hypotheses of C127 (left), and what it tells
example : ∃ xs xs', ShownAs fullDms c!"A[np][jl4]B[hc43]" xs ∧ ShownAs fullDms c!"A[np][jl4][cf255,0,0]A[cf]B[hc43]" xs' ∧
    ∃ ys p p' off, xs = ys ++ (true, .ok p) :: off ∧ xs' = ys ++ (true, .ok p') :: off ∧
      ∀ i j, p'.raster.px i j ≠ p.raster.px i j →
        LitLeft fullDms
          (layoutOf fullDms (signAttr fullDms) none (signRect fullDms)
            [.justificationLine (some .right), .text c!"B", .hexadecimalCharacter 0x43])
          (layoutOf fullDms (signAttr fullDms) none (signRect fullDms)
            [.justificationLine (some .right), .colorForeground (some (.rgb 255 0 0)), .text c!"A", .colorForeground none,
              .text c!"B", .hexadecimalCharacter 0x43]) i j := by
  obtain ⟨xs, hx, hn, _⟩ := summary_noError (d := fullDms) (ms := c!"A[np][jl4]B[hc43]")
    (l := [(true, 60, 30, 30), (true, 60, 30, 30)]) (by decide +kernel)
  obtain ⟨xs', hx', hn', _⟩ := summary_noError (d := fullDms) (ms := c!"A[np][jl4][cf255,0,0]A[cf]B[hc43]")
    (l := [(true, 60, 30, 30), (true, 60, 30, 30)]) (by decide +kernel)
  have hv := C22_built_sign_valid .checked _ _ fullDms_built
  obtain ⟨ys, p, p', off, h1, h2, _, _, _, _, h3⟩ := C127_left fullDms hv.2.2.2.2.1 (by decide) _ _ hv.2.2.2.2.2.1
    c!"A[np][jl4]B[hc43]" c!"A[np][jl4][cf255,0,0]A[cf]B[hc43]" [.text c!"A", .newPage, .justificationLine (some .right)]
    [.colorForeground (some (.rgb 255 0 0)), .text c!"A", .colorForeground none] [.text c!"B", .hexadecimalCharacter 0x43]
    (by
      rw [show slices c!"A[np][jl4]B[hc43]" = [c!"A", c!"[np]", c!"[jl4]", c!"B", c!"[hc43]"] by decide +kernel]
      exact .cons (by decide +kernel) (.cons (by decide +kernel) (.cons (by decide +kernel) (.cons (by decide +kernel)
        (.cons (by decide +kernel) .nil)))))
    (by
      rw [show slices c!"A[np][jl4][cf255,0,0]A[cf]B[hc43]" =
        [c!"A", c!"[np]", c!"[jl4]", c!"[cf255,0,0]", c!"A", c!"[cf]", c!"B", c!"[hc43]"] by decide +kernel]
      exact .cons (by decide +kernel) (.cons (by decide +kernel) (.cons (by decide +kernel) (.cons (by decide +kernel)
        (.cons (by decide +kernel) (.cons (by decide +kernel) (.cons (by decide +kernel) (.cons (by decide +kernel) .nil))))))))
    (by simp [TypesOnLine]) (by simp [TypesOnLine]) (by simp [lastText, LastText.add, PutsNothing]) (by decide) (by decide)
    ⟨.inr (by decide), trivial⟩ xs xs' ⟨hx, hn⟩ ⟨hx', hn'⟩
  exact ⟨xs, xs', ⟨hx, hn⟩, ⟨hx', hn'⟩, ys, p, p', off, h1, h2, h3⟩

/-- **C127 (why)** Text in the middle moves when an empty line is put before it, text in the center moves when text is put
before it (its right half is another), and text at the right in a lower font moves down when text in a higher font is put
before it. -/
theorem C127_moved :
    (∃ coords, pixels fullDms c!"[jp3]B" coords ≠ pixels fullDms c!"[jp3][nl]B" coords) ∧
    (∃ coords, pixels fullDms c!"[jl3]B" coords ≠ pixels fullDms c!"[jl3]AB" coords ∧ ∀ c ∈ coords, 30 ≤ c.1) ∧
    ∃ coords, pixels fullDms c!"[jl4][fo5]B" coords ≠ pixels fullDms c!"[jl4][fo8]A[fo5]B" coords ∧
      ∀ c ∈ coords, 58 ≤ c.1 := by
  refine ⟨⟨[(0, 10), (0, 11), (0, 12), (0, 13)], ?_⟩, ⟨[(30, 7), (31, 7), (32, 7), (33, 7)], ?_⟩,
    ⟨[(58, 0), (59, 0), (58, 1), (59, 1), (58, 2), (59, 2)], ?_⟩⟩
  · decide +kernel
  · decide +kernel
  · decide +kernel

end Ntcip
