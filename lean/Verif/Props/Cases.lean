import Verif.Props.After
import Verif.Props.Ends
import Verif.Props.First
import Verif.Props.FontExact
import Verif.Props.Iff
import Verif.Props.Wording
/-
Concrete cases that meet the hypotheses of theorems whose own files have no such case beside them: each `example`
applies the theorem to the case.
-/
namespace Ntcip
open Spec Tfon Tests

/-- a sign of the builder never panics for this message: the hypotheses of C50 and C94 -/
theorem casesNoPanic : NeverPanics fullDms c!"A[jl4]~[np]B" := by
  intro n q hq
  obtain ⟨pages, pg, k⟩ := C44_built_partial .checked _ fullDms fullDms_built (by decide +kernel) (by decide +kernel)
    (by decide +kernel) (by decide) ⟨by decide, by decide⟩ c!"A[jl4]~[np]B" (by decide +kernel) (by decide +kernel)
    (by decide +kernel) (by decide +kernel) (.inl (.inl (by decide +kernel))) n
  rw [hq] at k; cases k

theorem casesNoPanicText : NeverPanics fullDms c!"A[jl4]B[np]B" := by
  intro n q hq
  obtain ⟨pages, pg, k⟩ := C44_built_partial .checked _ fullDms fullDms_built (by decide +kernel) (by decide +kernel)
    (by decide +kernel) (by decide) ⟨by decide, by decide⟩ c!"A[jl4]B[np]B" (by decide +kernel) (by decide +kernel)
    (by decide +kernel) (by decide +kernel) (.inl (.inl (by decide +kernel))) n
  rw [hq] at k; cases k

-- C50: the message has an error (font without `~`) on the first page and still ends, or repeats one error
example : (∃ xs, Spec.Yields fullDms c!"A[jl4]~[np]B" xs ∧ xs.length ≤ 2 * ((slices c!"A[jl4]~[np]B").length + 1)) ∨
    ∃ xs e, xs.length ≤ 2 * ((slices c!"A[jl4]~[np]B").length + 1) + 1 ∧
      ∀ n, ∃ pg', Steps fullDms (Pages.new fullDms c!"A[jl4]~[np]B") (xs ++ List.replicate n (true, .error e)) pg' :=
  C50_dichotomy _ _ fun _ _ h p hp => casesNoPanic _ p (steps_run h hp)

-- C50 (texts): only late tags, so it ends
example : ∃ xs, Spec.Yields fullDms c!"A[jl4]~[np]B" xs ∧ xs.length ≤ 2 * ((slices c!"A[jl4]~[np]B").length + 1) := by
  refine C50_text_ends_partial _ _ (fun _ _ h p hp => casesNoPanic _ p (steps_run h hp)) ?_
  rw [show slices c!"A[jl4]~[np]B" = [c!"A", c!"[jl4]", c!"~", c!"[np]", c!"B"] by decide +kernel]
  intro s hs
  simp only [List.mem_cons, List.not_mem_nil, or_false] at hs
  rcases hs with rfl | rfl | rfl | rfl | rfl
  · exact ⟨.text c!"A", by decide +kernel, by decide +kernel, id⟩
  · exact ⟨.justificationLine (some .right), by decide +kernel, by decide +kernel, id⟩
  · exact ⟨.text c!"~", by decide +kernel, by decide +kernel, id⟩
  · exact ⟨.newPage, by decide +kernel, by decide +kernel, id⟩
  · exact ⟨.text c!"B", by decide +kernel, by decide +kernel, id⟩

-- C94 on this message
example (xs : List (Bool × Except SyntaxError Page)) : Spec.Yields fullDms c!"A[jl4]~[np]B" xs ↔
    Given fullDms (signAttr fullDms) (signPage fullDms) (slices c!"A[jl4]~[np]B") xs :=
  C94_built .checked _ fullDms fullDms_built (by decide +kernel) (by decide +kernel) (by decide +kernel)
    (by decide +kernel) (by decide) ⟨by decide, by decide⟩ c!"A[jl4]~[np]B" (by decide +kernel) (by decide +kernel)
    (by decide +kernel) (by decide +kernel) (.inl (.inl (by decide +kernel))) xs

-- C61: a span kept, one dropped for its blanks, one dropped for a character outside of Latin-1
example : normalize c!"A B" = .ok c!"A B" ∧ normalize c!"  " = .ok [] ∧ normalize c!"A\u0100" = .ok [] := by
  decide +kernel
example : normalize c!"A B" = .ok c!"A B" :=
  (C61_span_partial c!"A B" (by decide) (by unfold Plain; decide +kernel)).1
    ⟨by decide +kernel, 'A', by decide, by unfold IsSpace; decide +kernel⟩

-- C34: a font with no characters loses its height
example : ∃ ps, Tfon.write ⟨1, c!"X", 7, 1, 2, []⟩ = .ok ps ∧
    Tfon.parse 3 ps = .ok ⟨1, c!"X", 0, 1, 2, List.replicate 3 .default⟩ := by
  have h : Tfon.write ⟨1, c!"X", 7, 1, 2, []⟩ = .ok _ := rfl
  exact ⟨_, h, C34_empty ⟨1, c!"X", 7, 1, 2, []⟩ _ 3 h ⟨c!"X", by decide +kernel⟩ (by decide +kernel)⟩

-- C38: a graphic of one bit a pixel in its default colors
example (fg bg : Rgb) : ShowsDefaults .color24Bit fg bg ⟨4, c!"Example 2", 6, 10, .monochrome1Bit, none,
    [0x84, 0x92, 0x63, 0x08, 0xC2, 0x48, 0xA1, 0x70]⟩ :=
  C38_default_colors_partial 60 30 _ ⟨by decide, by decide, by unfold BitmapBytes BytesFor; decide +kernel, by simp⟩ rfl fg bg

-- C57: a pattern with two places
example : ValidPattern patDms c!"A[nl]B" [.text c!"A", .newLine none, .text c!"B"] ∧ supports patDms .newPage = true := by
  refine ⟨⟨?_, by decide +kernel⟩, by decide +kernel⟩
  rw [show slices c!"A[nl]B" = [c!"A", c!"[nl]", c!"B"] by decide +kernel]
  exact .cons (by decide +kernel) (.cons (by decide +kernel) (.cons (by decide +kernel) .nil))

-- C39 and C41: two pages with no text rectangles
example : ∃ xs, Spec.Yields fullDms c!"A[np]B" xs ∧ NoError xs ∧
    (∀ p, (true, Except.ok p) ∈ xs → p.raster.width = 60 ∧ p.raster.height = 30) := by
  have hs : summary fullDms c!"A[np]B" = some [(true, some (60, 30, 30)), (true, some (60, 30, 30))] := by
    decide +kernel
  obtain ⟨xs, ⟨pg', h1, h2⟩, hn, -⟩ := summary_noError (l := [(true, (60, 30, 30)), (true, (60, 30, 30))]) hs
  exact ⟨xs, ⟨pg', h1, h2⟩, hn, fun p hp => C39_on_page_size_partial fullDms _ _ _ h1 p hp⟩

-- C24: three graphics into a table of four slots
example : ∃ t', insertGraphics (List.replicate 4 .default) testGraphics = some t' ∧
    GraphicTable.graphic t' 5 = testGraphics[1]? ∧ GraphicTable.graphic t' 3 = none :=
  ⟨_, rfl, by decide +kernel, by decide +kernel⟩

-- C83 and C90: the second page of this message is faulty, its first fault is the missing font
example : SizeOk graphDms ∧ summary graphDms c!"A[np][fo9]A[jl4]" =
      some [(true, some (60, 30, 30)), (true, none)] ∧
    firstFault graphDms c!"A[np][fo9]A[jl4]" = some (.fontNotDefined 9) :=
  ⟨⟨by decide +kernel, by decide +kernel, by decide +kernel⟩, by decide +kernel, by decide +kernel⟩

end Ntcip
