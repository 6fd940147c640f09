import Verif.Lemmas.Move
import Verif.Props.Larger
/-
Property C77: moving rectangles and graphics moves the picture.
-/
namespace Ntcip
open Spec Tests

/-- the values of the message are `vs`, there are no syntax errors -/
def Spec.HasValues (ms : Str) (vs : List Value) : Prop := values ms = vs.map fun v => .ok (.ok v)

/-- **C77** (page by page): as long as pages are made without errors, the pages of the message whose rectangles
and graphics are moved are the pages moved, ON and OFF alike and for the same times. -/
theorem C77_steps_partial (d : Dms) (hd : DrawOk d) (hf : FontsOk d.fontDefinition)
    (h0 : 1 ≤ d.multiCfg.defaultFont.toNat) (hc : CellHeights d) (m : Shift) (ms ms' : Str) (vs vs' : List Value)
    (hv : HasValues ms vs) (hv' : HasValues ms' vs') (hm : All2 (MovedValue d m) vs vs') (hb : Boxed false vs)
    (xs) (pg : Pages) (h : Steps d (Pages.new d ms) xs pg) (hn : NoError xs) :
    ∃ xs' pg', Steps d (Pages.new d ms') xs' pg' ∧ All2 (MovedPage m) xs xs' := by
  obtain ⟨xs', pg', h1, _, h2⟩ := steps_moved (m := m) hd hf h0 hc h hn
    (pg' := Pages.new d ms') ⟨pagesOk_new d ms, pagesOk_new d ms', rfl, rfl, movedSlices_of hm hb hv hv',
      fun e => (by cases e), rfl, rfl⟩
  exact ⟨xs', pg', h1, h2⟩

/-- **C77**: if all rectangles (with a size) and graphics of a message are moved alike and stay inside of the sign,
and all its text is in text rectangles, the message is shown as before, with all pages moved. -/
theorem C77_moved_partial (d : Dms) (hd : DrawOk d) (hf : FontsOk d.fontDefinition)
    (h0 : 1 ≤ d.multiCfg.defaultFont.toNat) (hc : CellHeights d) (m : Shift) (ms ms' : Str) (vs vs' : List Value)
    (hv : HasValues ms vs) (hv' : HasValues ms' vs') (hm : All2 (MovedValue d m) vs vs') (hb : Boxed false vs)
    (xs) (h : Yields d ms xs) (hn : NoError xs) :
    ∃ xs', Yields d ms' xs' ∧ All2 (MovedPage m) xs xs' := by
  obtain ⟨pg, h, hend⟩ := h
  obtain ⟨xs', pg', h1, h2, h3⟩ := steps_moved (m := m) hd hf h0 hc h hn
    (pg' := Pages.new d ms') ⟨pagesOk_new d ms, pagesOk_new d ms', rfl, rfl, movedSlices_of hm hb hv hv',
      fun e => (by cases e), rfl, rfl⟩
  refine ⟨xs', ⟨pg', h1, ?_⟩, h3⟩
  have hdone := (next_none hend).1
  unfold Pages.next
  rw [h2.pageState, hdone]

/-! ### cases -/

/-- a message with a color rectangle, a graphic and text in a rectangle, and a second page -/
def Tests.moveMsg : Str := c!"[cr1,1,20,20,255,0,0][g7,2,3][tr1,1,30,20][jl4][jp3]AB[nl]A[np][tr3,3,20,9]B"

/-- the same, moved by 25 columns and 8 rows -/
def Tests.moveMsg' : Str := c!"[cr26,9,20,20,255,0,0][g7,27,11][tr26,9,30,20][jl4][jp3]AB[nl]A[np][tr28,11,20,9]B"

-- the hypotheses are met
example : DrawOk graphDms ∧ FontsOk graphDms.fontDefinition ∧ 1 ≤ graphDms.multiCfg.defaultFont.toNat ∧
    CellHeights graphDms := ⟨fullDms_accept.toDrawOk, fullDms_accept.fonts, fullDms_accept.font, .inl rfl⟩
example : HasValues moveMsg [.colorRectangle ⟨1, 1, 20, 20⟩ (.rgb 255 0 0), .graphic 7 (some (2, 3, none)),
    .textRectangle ⟨1, 1, 30, 20⟩, .justificationLine (some .right), .justificationPage (some .middle), .text c!"AB",
    .newLine none, .text c!"A", .newPage, .textRectangle ⟨3, 3, 20, 9⟩, .text c!"B"] := by
  unfold HasValues; decide +kernel
example : HasValues moveMsg' [.colorRectangle ⟨26, 9, 20, 20⟩ (.rgb 255 0 0), .graphic 7 (some (27, 11, none)),
    .textRectangle ⟨26, 9, 30, 20⟩, .justificationLine (some .right), .justificationPage (some .middle), .text c!"AB",
    .newLine none, .text c!"A", .newPage, .textRectangle ⟨28, 11, 20, 9⟩, .text c!"B"] := by
  unfold HasValues; decide +kernel
example : Boxed false [.colorRectangle ⟨1, 1, 20, 20⟩ (.rgb 255 0 0), .graphic 7 (some (2, 3, none)),
    .textRectangle ⟨1, 1, 30, 20⟩, .justificationLine (some .right), .justificationPage (some .middle), .text c!"AB",
    .newLine none, .text c!"A", .newPage, .textRectangle ⟨3, 3, 20, 9⟩, .text c!"B"] := by
  simp [Boxed, Writes]
example : All2 (MovedValue graphDms ⟨1, 1, 26, 9⟩)
    [.colorRectangle ⟨1, 1, 20, 20⟩ (.rgb 255 0 0), .graphic 7 (some (2, 3, none)),
      .textRectangle ⟨1, 1, 30, 20⟩, .text c!"AB", .newPage, .textRectangle ⟨3, 3, 20, 9⟩]
    [.colorRectangle ⟨26, 9, 20, 20⟩ (.rgb 255 0 0), .graphic 7 (some (27, 11, none)),
      .textRectangle ⟨26, 9, 30, 20⟩, .text c!"AB", .newPage, .textRectangle ⟨28, 11, 20, 9⟩] := by
  refine .cons (.color ⟨?_, ?_, ?_, ?_⟩ ?_ ?_ ?_) (.cons (.graphic ?_ ?_ ?_) (.cons (.text ⟨?_, ?_, ?_, ?_⟩ ?_ ?_ ?_)
    (.cons (.same trivial) (.cons (.same trivial) (.cons (.text ⟨?_, ?_, ?_, ?_⟩ ?_ ?_ ?_) .nil)))))
  all_goals first | decide | (constructor <;> decide)

-- both are shown; the moved one has the pixels of the other, 25 columns to the right and 8 rows below
example : pageCount (render graphDms moveMsg) = some 2 ∧ pageCount (render graphDms moveMsg') = some 2 := by
  decide +kernel
example : ((pixels graphDms moveMsg ((List.range 30).map fun i => (i, 3))) ==
      (pixels graphDms moveMsg' ((List.range 30).map fun i => (i + 25, 11)))) = true ∧
    ((pixels graphDms moveMsg ((List.range 30).map fun i => (i, 13))) ==
      (pixels graphDms moveMsg' ((List.range 30).map fun i => (i + 25, 21)))) = true ∧
    (pixels graphDms moveMsg [(0, 3), (20, 3)]) = [(255, 0, 0), signBackground graphDms] := by decide +kernel

/-- **C77** is false for fonts that are no whole character cells: centered text may be drawn above its rectangle.
This cannot be at the top of the sign, there the renderer panics. -/
theorem C77_false : (tallCellDms.intoBuilder.build .checked matches .ok _) = true ∧
    pageCount (render tallCellDms c!"[tr1,11,100,10][jp3]A") = some 1 ∧
    (match render tallCellDms c!"[tr1,1,100,10][jp3]A" with
      | .panic _ => true
      | _ => false) = true := by
  decide +kernel

/-- Sizes are needed: rectangles without a size reach to the edges of the sign, wherever they start. -/
theorem C77_sizes : pixels graphDms c!"[cr1,1,0,0,9,9,9]" [(0, 0), (59, 0)] = [(9, 9, 9), (9, 9, 9)] ∧
    pixels graphDms c!"[cr2,1,0,0,9,9,9]" [(1, 0), (59, 0)] = [(9, 9, 9), (9, 9, 9)] ∧
    pageCount (render graphDms c!"[tr1,1,0,0]ABAB") = some 1 ∧
    pageCount (render graphDms c!"[tr51,1,0,0]ABAB") = none := by decide +kernel

end Ntcip
