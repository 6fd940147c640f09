import Verif.Lemmas.Wording
/-
C97: other texts change pixels in the rows of their lines only, inside of their text rectangles.
-/
namespace Ntcip
open Spec Tests

theorem pictured_sameBut {d : Dms} (hu : UniqueNumbers (fun g : Graphic => g.number.toNat) d.graphicDefinition)
    {N : Nat → Nat → TextAttr → Option UInt8 → Rectangle → List Value → List Value → Prop}
    (hN : ∀ {i j t sp rect vs vs' a a' b b'}, TextDrawn d t sp rect vs a b → TextDrawn d t sp rect vs' a' b' →
      Pairwise2 (Reduced []) vs vs' → ¬ N i j t sp rect vs vs' → a.px i j = a'.px i j → b.px i j = b'.px i j)
    {ps ps' : List (List Value)} (h : Pairwise2 (Pairwise2 (Reduced [])) ps ps') :
    ∀ {t p xs xs'}, (∀ vs ∈ ps, ∀ v ∈ vs, InRange v) → Pictured d t p xs ps → Pictured d t p xs' ps' →
    SameBut d N t xs xs' ps ps' := by
  induction h with
  | nil =>
    intro t p xs xs' _ h1 h2
    unfold Pictured at h1 h2
    subst h1; subst h2
    exact .nil
  | @cons vs vs' ps ps' hr _ ih =>
    intro t p xs xs' hv h1 h2
    unfold Pictured at h1 h2
    obtain ⟨r1, m1, k1, rfl, k2⟩ := h1
    obtain ⟨r2, m2, l1, rfl, l2⟩ := h2
    rw [pageTimes_reduced hr, background_reduced hr, foldl_reduced hr] at l2
    rw [background_reduced hr] at l1
    rw [pageTimes_reduced hr, background_reduced hr, lastRect_narrow (sections_narrow hr).2]
    have s1 := composed_size k1
    have s2 := composed_size l1
    have hz := sections_all (P := fun v => ∀ pos, v ≠ .graphic 0 pos) (vs := vs) (by
      rintro v hm pos rfl
      have := hv vs (List.mem_cons_self ..) _ hm
      simp [InRange] at this)
    refine .page ?_ rfl (by rw [s1.1, s2.1]) (by rw [s1.2, s2.2]) (fun i j hne => ?_)
      (ih (fun us hm => hv us (List.mem_cons_of_mem _ hm)) k2 l2)
    · intro o ho
      split at ho
      · simp only [List.mem_singleton] at ho; rw [ho]
      · simp at ho
    · refine Classical.byContradiction fun hno => hne ?_
      exact composed_reworded hu hN k1 l1 (sections_narrow hr).1 (sections_narrow hr).2 (fun pos hm => hz.1 _ hm pos rfl)
        (fun w hw pos hm => hz.2 w hw _ hm pos rfl) hno rfl rfl rfl

/-- **C97** two shown messages with the same tags, and any other texts: their pages have the same sizes and times, and
differ only in pixels that are in the rows of a line with another text, in the columns of its text rectangle. -/
theorem C97_rows (d : Dms) (hf : FontsOk d.fontDefinition) (h0 : 1 ≤ d.multiCfg.defaultFont.toNat) (W H : Nat)
    (hg : GraphicsOk W H d.graphicDefinition) (ms ms' : Str) (vs vs' : List Value) (hv : Parses (slices ms) vs)
    (hv' : Parses (slices ms') vs') (hr : Pairwise2 Reworded vs vs') (xs xs') (hx : Spec.Yields d ms xs) (hn : NoError xs)
    (hx' : Spec.Yields d ms' xs') (hn' : NoError xs') :
    SameBut d (fun i j t sp rect ws ws' => NewWords d t sp rect ws ws' i j) (signAttr d) xs xs'
      (splitPages vs) (splitPages vs') := by
  obtain ⟨us, hu, hp⟩ := C92_pictures d hf h0 W H hg ms xs hx hn
  obtain rfl := parses_unique hv hu
  obtain ⟨us', hu', hp'⟩ := C92_pictures d hf h0 W H hg ms' xs' hx' hn'
  obtain rfl := parses_unique hv' hu'
  exact pictured_sameBut hg.numbers textDrawn_reworded (splitPages_reduced (reworded_all hr))
    (fun p hpp v hm => parses_inRange hv (slices_items ms) v (splitPages_mem p hpp v hm)) hp hp'

/-- **C97 (text rectangles)** on a sign with fonts of the height of its character cells, or without character cells, they
differ only in pixels inside of text rectangles with other texts. -/
theorem C97_rectangles (d : Dms) (hf : FontsOk d.fontDefinition) (hc : CellHeights d)
    (h0 : 1 ≤ d.multiCfg.defaultFont.toNat) (W H : Nat)
    (hg : GraphicsOk W H d.graphicDefinition) (ms ms' : Str) (vs vs' : List Value) (hv : Parses (slices ms) vs)
    (hv' : Parses (slices ms') vs') (hr : Pairwise2 Reworded vs vs') (xs xs') (hx : Spec.Yields d ms xs) (hn : NoError xs)
    (hx' : Spec.Yields d ms' xs') (hn' : NoError xs') :
    SameBut d (fun i j _ _ rect ws ws' => NewIn rect ws ws' i j) (signAttr d) xs xs' (splitPages vs) (splitPages vs') := by
  obtain ⟨us, hu, hp⟩ := C92_pictures d hf h0 W H hg ms xs hx hn
  obtain rfl := parses_unique hv hu
  obtain ⟨us', hu', hp'⟩ := C92_pictures d hf h0 W H hg ms' xs' hx' hn'
  obtain rfl := parses_unique hv' hu'
  exact pictured_sameBut hg.numbers (textDrawn_elsewhere hc) (splitPages_reduced (reworded_all hr))
    (fun p hpp v hm => parses_inRange hv (slices_items ms) v (splitPages_mem p hpp v hm)) hp hp'

/-! ### an example -/

-- the second page has another text in its text rectangle
def oldWords : Str := c!"ABC[np][tr1,1,30,10]DE[tr31,1,30,10]A"
def newWords : Str := c!"ABC[np][tr1,1,30,10]DE[tr31,1,30,10]BCD"

-- what is given for them
example : summary fullDms oldWords = some [(true, some (60, 30, 30)), (true, some (60, 30, 30))] ∧
    summary fullDms newWords = some [(true, some (60, 30, 30)), (true, some (60, 30, 30))] :=
  ⟨by decide +kernel, by decide +kernel⟩

theorem summary_noError {d ms} {l : List (Bool × Nat × Nat × Nat)}
    (h : summary d ms = some (l.map fun x => (x.1, some x.2))) : ∃ xs, Spec.Yields d ms xs ∧ NoError xs ∧ xs.length = l.length := by
  obtain ⟨xs, hy, hx⟩ := summary_yields h
  refine ⟨xs, hy, ?_, ?_⟩
  · intro x hm
    have : (x.1, match x.2 with
      | .ok p => some (p.raster.width, p.raster.height, p.durationDs)
      | .error _ => none) ∈ _ := hx ▸ List.mem_map_of_mem hm
    cases hx2 : x.2 with
    | ok p => exact ⟨p, rfl⟩
    | error e => rw [hx2] at this; simp at this
  · have := congrArg List.length hx
    simpa using this.symm

-- the hypotheses of C97, and what it tells: the first page is the same, and the left half of the second one
example : ∃ p p' q q', Spec.Yields fullDms oldWords [(true, .ok p), (true, .ok q)] ∧
    Spec.Yields fullDms newWords [(true, .ok p'), (true, .ok q')] ∧
    (∀ i j, p.raster.px i j = p'.raster.px i j) ∧ (∀ i j, i < 30 → q.raster.px i j = q'.raster.px i j) := by
  obtain ⟨xs, hx, hn, hl⟩ := summary_noError (d := fullDms) (ms := oldWords) (l := [(true, 60, 30, 30), (true, 60, 30, 30)])
    (by decide +kernel)
  obtain ⟨xs', hx', hn', hl'⟩ := summary_noError (d := fullDms) (ms := newWords)
    (l := [(true, 60, 30, 30), (true, 60, 30, 30)]) (by decide +kernel)
  have hs : Parses (slices oldWords) [.text c!"ABC", .newPage, .textRectangle ⟨1, 1, 30, 10⟩, .text c!"DE",
      .textRectangle ⟨31, 1, 30, 10⟩, .text c!"A"] := by
    rw [show slices oldWords = [c!"ABC", c!"[np]", c!"[tr1,1,30,10]", c!"DE", c!"[tr31,1,30,10]", c!"A"] by decide +kernel]
    exact .cons (by decide +kernel) (.cons (by decide +kernel) (.cons (by decide +kernel)
      (.cons (by decide +kernel) (.cons (by decide +kernel) (.cons (by decide +kernel) .nil)))))
  have hs' : Parses (slices newWords) [.text c!"ABC", .newPage, .textRectangle ⟨1, 1, 30, 10⟩, .text c!"DE",
      .textRectangle ⟨31, 1, 30, 10⟩, .text c!"BCD"] := by
    rw [show slices newWords = [c!"ABC", c!"[np]", c!"[tr1,1,30,10]", c!"DE", c!"[tr31,1,30,10]", c!"BCD"] by decide +kernel]
    exact .cons (by decide +kernel) (.cons (by decide +kernel) (.cons (by decide +kernel)
      (.cons (by decide +kernel) (.cons (by decide +kernel) (.cons (by decide +kernel) .nil)))))
  have hv := C22_built_sign_valid .checked _ _ fullDms_built
  have key := C97_rectangles fullDms hv.2.2.2.2.1 (.inl rfl) (by decide) _ _ hv.2.2.2.2.2.1 oldWords newWords _ _ hs hs'
    (.cons .same (.cons .same (.cons .same (.cons .same (.cons .same (.cons .text .nil)))))) xs xs' hx hn hx' hn'
  rw [show splitPages [.text c!"ABC", .newPage, .textRectangle ⟨1, 1, 30, 10⟩, .text c!"DE",
      .textRectangle ⟨31, 1, 30, 10⟩, .text c!"A"] = [[.text c!"ABC"], [.textRectangle ⟨1, 1, 30, 10⟩, .text c!"DE",
      .textRectangle ⟨31, 1, 30, 10⟩, .text c!"A"]] from rfl, show splitPages [.text c!"ABC", .newPage,
      .textRectangle ⟨1, 1, 30, 10⟩, .text c!"DE", .textRectangle ⟨31, 1, 30, 10⟩, .text c!"BCD"] = [[.text c!"ABC"],
      [.textRectangle ⟨1, 1, 30, 10⟩, .text c!"DE", .textRectangle ⟨31, 1, 30, 10⟩, .text c!"BCD"]] from rfl] at key
  cases key with
  | @page _ p p' off _ _ _ _ _ _ _ _ _ _ k1 key =>
    cases key with
    | @page _ q q' off2 _ _ _ _ _ _ _ _ _ _ k2 key =>
      cases key
      simp only [List.length_cons, List.length_append, List.length_nil] at hl
      obtain rfl : off = [] := List.eq_nil_of_length_eq_zero (by omega)
      obtain rfl : off2 = [] := List.eq_nil_of_length_eq_zero (by omega)
      refine ⟨p, p', q, q', hx, hx', fun i j => ?_, fun i j hi => ?_⟩
      · refine Classical.byContradiction fun hne => ?_
        cases k1 i j hne with
        | here h => exact h.1 rfl
      · refine Classical.byContradiction fun hne => ?_
        cases k2 i j hne with
        | here h => exact h.1 rfl
        | later h => cases h with
          | here h => exact h.1 rfl
          | later h => cases h with
            | here h =>
              have := h.2.1.1
              have e : (opened fullDms ⟨31, 1, 30, 10⟩).x = 31 := by decide
              rw [e] at this
              have e2 : (31 : UInt16).toNat = 31 := rfl
              omega

-- there, its pixels differ
example : pixels fullDms c!"[tr31,1,30,10]A" [(30, 0)] ≠ pixels fullDms c!"[tr31,1,30,10]BCD" [(30, 0)] := by
  decide +kernel

end Ntcip
