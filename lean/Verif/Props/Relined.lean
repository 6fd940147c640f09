import Verif.Lemmas.Relined
import Verif.Props.Wording
import Verif.Spec.Sequel
/-
C121: a pattern that is filled with other lines
-/
namespace Ntcip
open Spec Tests

theorem parses_relined {ls ls' : List Str} (hp : Pairwise2 LinePair ls ls') {V V' : List Value}
    (h : Pairwise2 (Relined ls ls') V V') : ∀ {us us'}, Parses (V.map Value.display) us → Parses (V'.map Value.display) us' →
    Pairwise2 (Relined ls ls') us us' := by
  have hz : ∀ {l l'}, (l, l') ∈ ls.zip ls' → LinePair l l' := by
    clear h
    induction hp with
    | nil => intro l l' h; simp at h
    | cons hl _ ih =>
      intro l l' h
      rw [List.zip_cons_cons] at h
      rcases List.mem_cons.1 h with h | h
      · cases h; exact hl
      · exact ih h
  induction h with
  | nil =>
    intro us us' h h'
    cases h; cases h'
    exact .nil
  | cons hv _ ih =>
    intro us us' h h'
    cases h with
    | cons hu h =>
      cases h' with
      | cons hu' h' =>
        refine .cons ?_ (ih h h')
        cases hv with
        | same =>
          rw [hu] at hu'
          simp only [Res.ok.injEq, Except.ok.injEq] at hu'
          subst hu'
          exact .same
        | @line l l' hm =>
          rcases hz hm with ⟨rfl, rfl⟩ | ⟨k, k'⟩
          · rw [hu] at hu'
            simp only [Res.ok.injEq, Except.ok.injEq] at hu'
            subst hu'
            exact .same
          · have e := (display_parse (.text l) ⟨simpleLine_range k, by simp⟩).2
            have e' := (display_parse (.text l') ⟨simpleLine_range k', by simp⟩).2
            rw [e] at hu
            rw [e'] at hu'
            simp only [Res.ok.injEq, Except.ok.injEq] at hu hu'
            subst hu hu'
            exact .line hm

theorem relined_reworded {ls ls' : List Str} {V V' : List Value} (h : Pairwise2 (Relined ls ls') V V') :
    Pairwise2 Reworded V V' := by
  induction h with
  | nil => exact .nil
  | cons hv _ ih =>
    refine .cons ?_ ih
    cases hv with
    | same => exact .same
    | line _ => exact .text

/-- **C121 (values)** A pattern without font tags between the texts of an area is filled twice, with the same number of
lines without tags. The two messages have the same values one by one, but for the lines: in place of a line of the first list
is the line with the same number of the second list. -/
theorem C121_values (d : Dms) (hn : supports d .newPage = true) (pat : Str) (vs : List Value) (h : ValidPattern d pat vs)
    (ha : ∀ a ∈ areas vs, Apart (a.body.filter fun v => !isFont v)) (ls ls' : List Str) (hl : Pairwise2 LinePair ls ls')
    (s s' : Str) (hs : fill d pat ls = .ok s) (hs' : fill d pat ls' = .ok s') (us us' : List Value)
    (hu : Parses (slices s) us) (hu' : Parses (slices s') us') : Pairwise2 (Relined ls ls') us us' := by
  obtain ⟨V, V', rfl, rfl, h1, h2, h3, h4, h5⟩ := filled_relined (fill_filled h hn hs) (fill_filled h hn hs') hl
    (areasFrom_linked _ _ _ _) (fun a hma v hv => valid_inRange h v (areas_mem hma v hv)) (by simp) ha
  rw [slices_display h2, mergeT_apart h4] at hu
  rw [slices_display h3, mergeT_apart h5] at hu'
  exact parses_relined hl h1 hu hu'

/-- **C121 (rows)** and when both are shown, their pages come at the same places with the same durations, and differ only in
rows of spans with another text -/
theorem C121_rows (d : Dms) (hf : FontsOk d.fontDefinition) (h0 : 1 ≤ d.multiCfg.defaultFont.toNat) (W H : Nat)
    (hg : GraphicsOk W H d.graphicDefinition) (hn : supports d .newPage = true) (pat : Str) (vs : List Value)
    (h : ValidPattern d pat vs) (ha : ∀ a ∈ areas vs, Apart (a.body.filter fun v => !isFont v)) (ls ls' : List Str)
    (hl : Pairwise2 LinePair ls ls') (s s' : Str) (hs : fill d pat ls = .ok s) (hs' : fill d pat ls' = .ok s')
    (xs xs') (hx : ShownAs d s xs) (hx' : ShownAs d s' xs') :
    ∃ us us', Parses (slices s) us ∧ Parses (slices s') us' ∧ Pairwise2 (Relined ls ls') us us' ∧
      SameBut d (fun i j t sp rect ws ws' => NewWords d t sp rect ws ws' i j) (signAttr d) xs xs'
        (splitPages us) (splitPages us') := by
  obtain ⟨us, hu, _⟩ := C92_pictures d hf h0 W H hg s xs hx.1 hx.2
  obtain ⟨us', hu', _⟩ := C92_pictures d hf h0 W H hg s' xs' hx'.1 hx'.2
  have hr := C121_values d hn pat vs h ha ls ls' hl s s' hs hs' us us' hu hu'
  exact ⟨us, us', hu, hu', hr, C97_rows d hf h0 W H hg s s' us us' hu hu' (relined_reworded hr) xs xs' hx.1 hx.2 hx'.1 hx'.2⟩

/-- **C121 (text rectangles)** and, when fonts have the height of character cells or there are none, inside of text
rectangles with other lines. -/
theorem C121_rectangles (d : Dms) (hf : FontsOk d.fontDefinition) (hc : CellHeights d)
    (h0 : 1 ≤ d.multiCfg.defaultFont.toNat) (W H : Nat)
    (hg : GraphicsOk W H d.graphicDefinition) (hn : supports d .newPage = true) (pat : Str) (vs : List Value)
    (h : ValidPattern d pat vs) (ha : ∀ a ∈ areas vs, Apart (a.body.filter fun v => !isFont v)) (ls ls' : List Str)
    (hl : Pairwise2 LinePair ls ls') (s s' : Str) (hs : fill d pat ls = .ok s) (hs' : fill d pat ls' = .ok s')
    (xs xs') (hx : ShownAs d s xs) (hx' : ShownAs d s' xs') :
    ∃ us us', Parses (slices s) us ∧ Parses (slices s') us' ∧ Pairwise2 (Relined ls ls') us us' ∧
      SameBut d (fun i j _ _ rect ws ws' => NewIn rect ws ws' i j) (signAttr d) xs xs' (splitPages us) (splitPages us') := by
  obtain ⟨us, hu, _⟩ := C92_pictures d hf h0 W H hg s xs hx.1 hx.2
  obtain ⟨us', hu', _⟩ := C92_pictures d hf h0 W H hg s' xs' hx'.1 hx'.2
  have hr := C121_values d hn pat vs h ha ls ls' hl s s' hs hs' us us' hu hu'
  exact ⟨us, us', hu, hu', hr,
    C97_rectangles d hf hc h0 W H hg s s' us us' hu hu' (relined_reworded hr) xs xs' hx.1 hx.2 hx'.1 hx'.2⟩

/-! ### an example -/

-- a pattern of two pages, the first with two text rectangles
def filledOne : Str := c!"[tr1,1,50,8]ABC DE[fo7][tr1,10,50,7][jl4]123[np]TEXT[cf1]"
def filledTwo : Str := c!"[tr1,1,50,8]ABC DE[fo7][tr1,10,50,7][jl4]40[np]TEXT[cf1]"

-- filled with two lines, of which the second is another one
example : fill patDms shownPat [c!"ABC DE", c!"123"] = .ok filledOne ∧ fill patDms shownPat [c!"ABC DE", c!"40"] =
    .ok filledTwo := ⟨by decide +kernel, by decide +kernel⟩

-- what is given for them
example : summary patDms filledOne = some [(true, some (50, 21, 30)), (true, some (50, 21, 30))] ∧
    summary patDms filledTwo = some [(true, some (50, 21, 30)), (true, some (50, 21, 30))] :=
  ⟨by decide +kernel, by decide +kernel⟩

-- the hypotheses of C121, and what it tells: the first page is the same outside of the second text rectangle, and the second
-- page is the same
example : ∃ p p' q q', Spec.Yields patDms filledOne [(true, .ok p), (true, .ok q)] ∧
    Spec.Yields patDms filledTwo [(true, .ok p'), (true, .ok q')] ∧
    (∀ i j, j < 9 ∨ 16 ≤ j → p.raster.px i j = p'.raster.px i j) ∧ ∀ i j, q.raster.px i j = q'.raster.px i j := by
  obtain ⟨xs, hx, hn, hl⟩ := summary_noError (d := patDms) (ms := filledOne) (l := [(true, 50, 21, 30), (true, 50, 21, 30)])
    (by decide +kernel)
  obtain ⟨xs', hx', hn', hl'⟩ := summary_noError (d := patDms) (ms := filledTwo)
    (l := [(true, 50, 21, 30), (true, 50, 21, 30)]) (by decide +kernel)
  have hs : Parses (slices filledOne) [.textRectangle ⟨1, 1, 50, 8⟩, .text c!"ABC DE", .font (some (7, none)),
      .textRectangle ⟨1, 10, 50, 7⟩, .justificationLine (some .right), .text c!"123", .newPage, .text c!"TEXT",
      .colorForeground (some (.legacy 1))] := by
    rw [show slices filledOne = [c!"[tr1,1,50,8]", c!"ABC DE", c!"[fo7]", c!"[tr1,10,50,7]", c!"[jl4]", c!"123", c!"[np]",
      c!"TEXT", c!"[cf1]"] by decide +kernel]
    repeat' first | exact Parses.nil | refine Parses.cons (by decide +kernel) ?_
  have hs' : Parses (slices filledTwo) [.textRectangle ⟨1, 1, 50, 8⟩, .text c!"ABC DE", .font (some (7, none)),
      .textRectangle ⟨1, 10, 50, 7⟩, .justificationLine (some .right), .text c!"40", .newPage, .text c!"TEXT",
      .colorForeground (some (.legacy 1))] := by
    rw [show slices filledTwo = [c!"[tr1,1,50,8]", c!"ABC DE", c!"[fo7]", c!"[tr1,10,50,7]", c!"[jl4]", c!"40", c!"[np]",
      c!"TEXT", c!"[cf1]"] by decide +kernel]
    repeat' first | exact Parses.nil | refine Parses.cons (by decide +kernel) ?_
  have simple : ∀ {l : Str}, (l ≠ [] ∧ ∀ c ∈ l, c ≠ '[' ∧ c ≠ ']' ∧ 1 ≤ c.toNat ∧ c.toNat ≤ 0xFF) → SimpleLine l := fun h => h
  have hap : ∀ a ∈ areas shownVals, Apart (a.body.filter fun v => !isFont v) := by
    intro a ha
    simp only [shownVals, areas, areasFrom, opens, Bool.false_eq_true, if_false, if_true, List.mem_cons, List.not_mem_nil,
      or_false] at ha
    rcases ha with rfl | rfl | rfl | rfl <;> simp [Apart, isFont, plainText]
  obtain ⟨us, us', hu, hu', _, key⟩ := C121_rectangles patDms patDms_accept.fonts (.inl rfl) (by decide) _ _
    patDms_accept.graphics rfl shownPat shownVals shownPat_valid hap [c!"ABC DE", c!"123"] [c!"ABC DE", c!"40"]
    (.cons (.inr ⟨simple (by decide), simple (by decide)⟩) (.cons (.inr ⟨simple (by decide), simple (by decide)⟩) .nil))
    filledOne filledTwo (by decide +kernel) (by decide +kernel) xs xs' ⟨hx, hn⟩ ⟨hx', hn'⟩
  obtain rfl := parses_unique hs hu
  obtain rfl := parses_unique hs' hu'
  rw [show splitPages [.textRectangle ⟨1, 1, 50, 8⟩, .text c!"ABC DE", .font (some (7, none)),
      .textRectangle ⟨1, 10, 50, 7⟩, .justificationLine (some .right), .text c!"123", .newPage, .text c!"TEXT",
      .colorForeground (some (.legacy 1))] = [[.textRectangle ⟨1, 1, 50, 8⟩, .text c!"ABC DE", .font (some (7, none)),
      .textRectangle ⟨1, 10, 50, 7⟩, .justificationLine (some .right), .text c!"123"], [.text c!"TEXT",
      .colorForeground (some (.legacy 1))]] from rfl, show splitPages [.textRectangle ⟨1, 1, 50, 8⟩, .text c!"ABC DE",
      .font (some (7, none)),
      .textRectangle ⟨1, 10, 50, 7⟩, .justificationLine (some .right), .text c!"40", .newPage, .text c!"TEXT",
      .colorForeground (some (.legacy 1))] = [[.textRectangle ⟨1, 1, 50, 8⟩, .text c!"ABC DE", .font (some (7, none)),
      .textRectangle ⟨1, 10, 50, 7⟩, .justificationLine (some .right), .text c!"40"], [.text c!"TEXT",
      .colorForeground (some (.legacy 1))]] from rfl] at key
  cases key with
  | @page _ p p' off _ _ _ _ _ _ _ _ _ _ k1 key =>
    cases key with
    | @page _ q q' off2 _ _ _ _ _ _ _ _ _ _ k2 key =>
      cases key
      simp only [List.length_cons, List.length_append, List.length_nil] at hl
      obtain rfl : off = [] := List.eq_nil_of_length_eq_zero (by omega)
      obtain rfl : off2 = [] := List.eq_nil_of_length_eq_zero (by omega)
      refine ⟨p, p', q, q', hx, hx', fun i j hi => ?_, fun i j => ?_⟩
      · refine Classical.byContradiction fun hne => ?_
        cases k1 i j hne with
        | here h => exact h.1 rfl
        | later h => cases h with
          | here h => exact h.1 rfl
          | later h => cases h with
            | here h =>
              have := h.2.2
              have e : (opened patDms ⟨1, 10, 50, 7⟩).y = 10 := by decide
              have e' : (opened patDms ⟨1, 10, 50, 7⟩).height = 7 := by decide
              rw [e, e'] at this
              have e2 : (10 : UInt16).toNat = 10 := rfl
              have e3 : (7 : UInt16).toNat = 7 := rfl
              omega
      · refine Classical.byContradiction fun hne => ?_
        cases k2 i j hne with
        | here h => exact h.1 rfl

-- and there is a pixel of the second text rectangle that is not
example : pixels patDms filledOne [(36, 12)] ≠ pixels patDms filledTwo [(36, 12)] := by
  decide +kernel

end Ntcip
