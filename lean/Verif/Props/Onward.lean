import Verif.Lemmas.Typed
import Verif.Props.Added
/-
C118: text typed on does not move the text to the left.
-/
namespace Ntcip
open Spec Tests

theorem addsOnLine_text {v : Value} (h : AddsOnLine v) : AddsText v := by
  cases v <;> first | exact h.elim | trivial

/-- **C118** When a message that ends in text goes on on the same line, after text at the left or with another line
justification, and without another font, and both messages are shown, then they are shown with the same pages, except for
the last one.  It has the same size and time, and its pixels are the same, except for pixels which are lit by the added
texts, and are to the right of all old texts of the line with the same line justification. -/
theorem C118_onward (d : Dms) (hf : FontsOk d.fontDefinition) (h0 : 1 ≤ d.multiCfg.defaultFont.toNat) (W H : Nat)
    (hg : GraphicsOk W H d.graphicDefinition) (ms ms' : Str) (vs ws : List Value) (hv : Parses (slices ms) vs)
    (hv' : Parses (slices ms') (vs ++ ws)) (hw : ∀ w ∈ ws, AddsOnLine w)
    (xs xs') (hx : ShownAs d ms xs) (hx' : ShownAs d ms' xs')
    (ht : Tidy (signAttr d) (lastText d vs).attr true true ((lastText d vs).values ++ ws))
    (he : EndsInText (lastText d vs).values) (hb : GoesOn ((lastText d vs).after d) ws) :
    ∃ ys p p' off, xs = ys ++ (true, .ok p) :: off ∧ xs' = ys ++ (true, .ok p') :: off ∧ (∀ o ∈ off, o.1 = false) ∧
      p.durationDs = p'.durationDs ∧ p.raster.width = p'.raster.width ∧ p.raster.height = p'.raster.height ∧
      ∀ i j, p'.raster.px i j ≠ p.raster.px i j →
        LitRight d
          (layoutOf d (lastText d vs).attr (lastText d vs).spacing (lastText d vs).rect (lastText d vs).values)
          (layoutOf d (lastText d vs).attr (lastText d vs).spacing (lastText d vs).rect ((lastText d vs).values ++ ws)) i j := by
  refine shown_ended d hf h0 W H hg ms ms' vs [] ws (by rwa [List.append_nil]) hv' (by simp)
    (fun w hm => addsOnLine_text (hw w hm)) xs xs' hx hx'
    (fun b b' => ∀ i j, b'.px i j ≠ b.px i j → LitRight d _ _ i j) ?_
  intro a b b' h1 h2
  rw [List.append_nil] at h1
  exact textDrawn_onward ht hw he hb h1 h2

/-- **C118 (typed)** The same if just the text at the end of the message becomes longer: pixels of the last page change only
where the longer text lights them, to the right of all that was on its line with its line justification before, and so also
of the shorter text. -/
theorem C118_typed (d : Dms) (hf : FontsOk d.fontDefinition) (h0 : 1 ≤ d.multiCfg.defaultFont.toNat) (W H : Nat)
    (hg : GraphicsOk W H d.graphicDefinition) (ms ms' : Str) (vs : List Value) (x more : Str)
    (hv : Parses (slices ms) (vs ++ [.text x])) (hv' : Parses (slices ms') (vs ++ [.text (x ++ more)]))
    (xs xs') (hx : ShownAs d ms xs) (hx' : ShownAs d ms' xs')
    (ht : Tidy (signAttr d) (lastText d vs).attr true true ((lastText d vs).values ++ [.text x]))
    (hb : ((lastText d vs).after d).justLine ≠ .center ∧ ((lastText d vs).after d).justLine ≠ .right) :
    ∃ ys p p' off, xs = ys ++ (true, .ok p) :: off ∧ xs' = ys ++ (true, .ok p') :: off ∧ (∀ o ∈ off, o.1 = false) ∧
      p.durationDs = p'.durationDs ∧ p.raster.width = p'.raster.width ∧ p.raster.height = p'.raster.height ∧
      ∀ i j, p'.raster.px i j ≠ p.raster.px i j →
        LitTyped d
          (layoutOf d (lastText d vs).attr (lastText d vs).spacing (lastText d vs).rect ((lastText d vs).values ++ [.text x]))
          (layoutOf d (lastText d vs).attr (lastText d vs).spacing (lastText d vs).rect
            ((lastText d vs).values ++ [.text (x ++ more)])) i j :=
  shown_ended d hf h0 W H hg ms ms' vs [.text x] [.text (x ++ more)] hv hv' (by simp [AddsText]) (by simp [AddsText])
    xs xs' hx hx' (fun b b' => ∀ i j, b'.px i j ≠ b.px i j → LitTyped d _ _ i j) (textDrawn_typed ht hb)

/-! ### examples -/

-- the hypotheses of C118, and what it tells: text at the right is added
example : ∃ xs xs', ShownAs fullDms c!"A[nl]B" xs ∧ ShownAs fullDms c!"A[nl]B[cf255,0,0][hc43][jl4]C" xs' ∧
    ∃ ys p p' off, xs = ys ++ (true, .ok p) :: off ∧ xs' = ys ++ (true, .ok p') :: off ∧
      ∀ i j, p'.raster.px i j ≠ p.raster.px i j →
        LitRight fullDms (layoutOf fullDms (signAttr fullDms) none (signRect fullDms) [.text c!"A", .newLine none, .text c!"B"])
          (layoutOf fullDms (signAttr fullDms) none (signRect fullDms)
            [.text c!"A", .newLine none, .text c!"B", .colorForeground (some (.rgb 255 0 0)), .hexadecimalCharacter 0x43,
              .justificationLine (some .right), .text c!"C"]) i j := by
  obtain ⟨xs, hx, hn, _⟩ := summary_noError (d := fullDms) (ms := c!"A[nl]B") (l := [(true, 60, 30, 30)]) (by decide +kernel)
  obtain ⟨xs', hx', hn', _⟩ := summary_noError (d := fullDms) (ms := c!"A[nl]B[cf255,0,0][hc43][jl4]C")
    (l := [(true, 60, 30, 30)]) (by decide +kernel)
  have hv := C22_built_sign_valid .checked _ _ fullDms_built
  obtain ⟨ys, p, p', off, h1, h2, _, _, _, _, h3⟩ := C118_onward fullDms hv.2.2.2.2.1 (by decide) _ _ hv.2.2.2.2.2.1
    c!"A[nl]B" c!"A[nl]B[cf255,0,0][hc43][jl4]C" [.text c!"A", .newLine none, .text c!"B"]
    [.colorForeground (some (.rgb 255 0 0)), .hexadecimalCharacter 0x43, .justificationLine (some .right), .text c!"C"]
    (by
      rw [show slices c!"A[nl]B" = [c!"A", c!"[nl]", c!"B"] by decide +kernel]
      exact .cons (by decide +kernel) (.cons (by decide +kernel) (.cons (by decide +kernel) .nil)))
    (by
      rw [show slices c!"A[nl]B[cf255,0,0][hc43][jl4]C" =
        [c!"A", c!"[nl]", c!"B", c!"[cf255,0,0]", c!"[hc43]", c!"[jl4]", c!"C"] by decide +kernel]
      exact .cons (by decide +kernel) (.cons (by decide +kernel) (.cons (by decide +kernel) (.cons (by decide +kernel)
        (.cons (by decide +kernel) (.cons (by decide +kernel) (.cons (by decide +kernel) .nil)))))))
    (by simp [AddsOnLine]) xs xs' ⟨hx, hn⟩ ⟨hx', hn'⟩
    ⟨trivial, fun _ => by simp_all [freshAfter], trivial, trivial, trivial, .inr (by decide), trivial, trivial⟩
    ⟨[.text c!"A", .newLine none], .text c!"B", rfl, .inl ⟨_, rfl⟩⟩ ⟨by decide, by decide⟩
  exact ⟨xs, xs', ⟨hx, hn⟩, ⟨hx', hn'⟩, ys, p, p', off, h1, h2, h3⟩

-- a longer text
example : ∃ xs xs', ShownAs fullDms c!"A[nl]AB" xs ∧ ShownAs fullDms c!"A[nl]ABC" xs' ∧
    ∃ ys p p' off, xs = ys ++ (true, .ok p) :: off ∧ xs' = ys ++ (true, .ok p') :: off ∧
      ∀ i j, p'.raster.px i j ≠ p.raster.px i j →
        LitTyped fullDms (layoutOf fullDms (signAttr fullDms) none (signRect fullDms) [.text c!"A", .newLine none, .text c!"AB"])
          (layoutOf fullDms (signAttr fullDms) none (signRect fullDms) [.text c!"A", .newLine none, .text c!"ABC"]) i j := by
  obtain ⟨xs, hx, hn, _⟩ := summary_noError (d := fullDms) (ms := c!"A[nl]AB") (l := [(true, 60, 30, 30)]) (by decide +kernel)
  obtain ⟨xs', hx', hn', _⟩ := summary_noError (d := fullDms) (ms := c!"A[nl]ABC") (l := [(true, 60, 30, 30)])
    (by decide +kernel)
  have hv := C22_built_sign_valid .checked _ _ fullDms_built
  obtain ⟨ys, p, p', off, h1, h2, _, _, _, _, h3⟩ := C118_typed fullDms hv.2.2.2.2.1 (by decide) _ _ hv.2.2.2.2.2.1
    c!"A[nl]AB" c!"A[nl]ABC" [.text c!"A", .newLine none] c!"AB" c!"C"
    (by
      rw [show slices c!"A[nl]AB" = [c!"A", c!"[nl]", c!"AB"] by decide +kernel]
      exact .cons (by decide +kernel) (.cons (by decide +kernel) (.cons (by decide +kernel) .nil)))
    (by
      rw [show slices c!"A[nl]ABC" = [c!"A", c!"[nl]", c!"ABC"] by decide +kernel]
      exact .cons (by decide +kernel) (.cons (by decide +kernel) (.cons (by decide +kernel) .nil)))
    xs xs' ⟨hx, hn⟩ ⟨hx', hn'⟩ ⟨trivial, fun _ => by simp_all [freshAfter], trivial, trivial⟩ ⟨by decide, by decide⟩
  exact ⟨xs, xs', ⟨hx, hn⟩, ⟨hx', hn'⟩, ys, p, p', off, h1, h2, h3⟩

/-- **C118 (why)** Text in the center or at the right moves when text is added after it, and a higher font moves the text
before it down. -/
theorem C118_moved : (∃ coords, pixels fullDms c!"[jl3]A" coords ≠ pixels fullDms c!"[jl3]AB" coords ∧
      ∀ c ∈ coords, c.1 < 30) ∧
    pixels fullDms c!"[jl4]A" [(59, 7)] ≠ pixels fullDms c!"[jl4]AB" [(59, 7)] ∧
    pixels fullDms c!"[fo5]A" [(0, 1)] ≠ pixels fullDms c!"[fo5]A[fo8]B" [(0, 1)] := by
  refine ⟨⟨[(24, 7), (25, 7), (26, 7), (27, 7), (28, 7), (29, 7)], ?_⟩, ?_⟩
  · decide +kernel
  · decide +kernel

end Ntcip
