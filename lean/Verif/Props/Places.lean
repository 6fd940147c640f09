import Verif.Lemmas.Places
import Verif.Props.Wording
/-
Property C124: another text moves only the texts of its line on one side of it.
-/
namespace Ntcip
open Spec Tests

/-- **C124** two shown messages with the same tags, and any other texts: their pages have the same sizes and times, and
differ only in pixels which are lit, in one of the two, by a text that is another one, or that is moved by another text of
its line: at the left by a text before it, at the right by a text after it, in the center by any text. -/
theorem C124_places (d : Dms) (hf : FontsOk d.fontDefinition) (h0 : 1 ≤ d.multiCfg.defaultFont.toNat) (W H : Nat)
    (hg : GraphicsOk W H d.graphicDefinition) (ms ms' : Str) (vs vs' : List Value) (hv : Parses (slices ms) vs)
    (hv' : Parses (slices ms') vs') (hr : Pairwise2 Reworded vs vs') (xs xs') (hx : Spec.Yields d ms xs) (hn : NoError xs)
    (hx' : Spec.Yields d ms' xs') (hn' : NoError xs') :
    SameBut d (fun i j t sp rect ws ws' => NewPlaces d t sp rect ws ws' i j) (signAttr d) xs xs'
      (splitPages vs) (splitPages vs') := by
  obtain ⟨us, hu, hp⟩ := C92_pictures d hf h0 W H hg ms xs hx hn
  obtain rfl := parses_unique hv hu
  obtain ⟨us', hu', hp'⟩ := C92_pictures d hf h0 W H hg ms' xs' hx' hn'
  obtain rfl := parses_unique hv' hu'
  exact pictured_sameBut hg.numbers textDrawn_places (splitPages_reduced (reworded_all hr))
    (fun p hpp v hm => parses_inRange hv (slices_items ms) v (splitPages_mem p hpp v hm)) hp hp'

theorem before_other {t own own' p ss n} (h : BeforeAt t own p ss n) :
    ∃ n', BeforeAt t own' p ss n' ∧ (own' ≤ own → n' ≤ n) := by
  induction h with
  | nil => exact ⟨0, .nil, fun _ => Nat.le_refl _⟩
  | @first s ss w n hw _ ih =>
    obtain ⟨n', h1, h2⟩ := ih
    refine ⟨_, .first hw h1, fun ho => ?_⟩
    have := h2 ho
    split <;> split <;> omega
  | @next p s ss g w n hg hw _ ih =>
    obtain ⟨n', h1, h2⟩ := ih
    refine ⟨_, .next hg hw h1, fun ho => ?_⟩
    have := h2 ho
    split <;> split <;> split <;> split <;> omega

theorem before_past {t own own' p ss n n' s w} (h : BeforeAt t own p ss n) (h' : BeforeAt t own' p ss n')
    (hs : s ∈ ss) (hn : s.state.spanNumber = own) (ho : own < own') (hw : SpanWidth t s w) : n + w ≤ n' := by
  have mono : ∀ {p ss n n'}, BeforeAt t own p ss n → BeforeAt t own' p ss n' → n ≤ n' := by
    intro p ss n n' h h'
    obtain ⟨m, h1, h2⟩ := before_other (own' := own) h'
    rw [beforeAt_unique h h1]
    exact h2 (by omega)
  induction h generalizing n' with
  | nil => simp at hs
  | @first u ss a n ha hb ih =>
    cases h' with
    | first ha' hb' =>
      rw [spanWidth_unique ha ha']
      have hm := mono hb hb'
      rcases List.mem_cons.1 hs with rfl | hs
      · rw [← spanWidth_unique hw ha']
        rw [if_neg (by omega), if_pos (by omega)]; omega
      · have := ih hb' hs
        split <;> split <;> omega
  | @next p u ss g a n hg ha hb ih =>
    cases h' with
    | next hg' ha' hb' =>
      rw [spanWidth_unique ha ha', gap_unique hg hg']
      have hm := mono hb hb'
      rcases List.mem_cons.1 hs with rfl | hs
      · rw [← spanWidth_unique hw ha']
        rw [if_pos (by omega), if_neg (by omega), if_pos (by omega), if_pos (by omega)]; omega
      · have := ih hb' hs
        split <;> split <;> split <;> split <;> omega

theorem sameLine_of_mem {ss : List Span} {s u : Span} (h : u ∈ sameLine ss s) : sameLine ss u = sameLine ss s := by
  unfold sameLine at h ⊢
  rw [List.mem_filter] at h
  have := h.2
  simp only [decide_eq_true_eq] at this
  rw [this.1, this.2.1, this.2.2]

/-- the place of another text of the line -/
theorem beside_place {d : Dms} {K : List Span} {s v : Span} {i j : Nat} (hs : s ∈ K) (hr : v.state.textRectangle = s.state.textRectangle)
    (hm : v ∈ sameLine K s) (hv : v = s ∨ Moves v s) (h : LitBy d K s i j) : InRows d K v j ∧
    (v.state.justLine = .left → ∃ x, ExactX d K v x ∧ x ≤ i) ∧
    (v.state.justLine = .right → (∀ o ∈ sameLine K v, o.state.spanNumber = v.state.spanNumber → o = v) →
      ∃ x w, ExactX d K v x ∧ SpanWidth d.fontDefinition v w ∧ i < x + w) := by
  obtain ⟨x, y, hx, hy, hl⟩ := h
  have e := sameLine_of_mem hm
  have hss : s ∈ sameLine K s := by
    unfold sameLine; rw [List.mem_filter]; exact ⟨hs, by simp⟩
  have hj : v.state.justLine = s.state.justLine := by
    unfold sameLine at hm; rw [List.mem_filter] at hm
    have := hm.2
    simp only [decide_eq_true_eq] at this
    exact this.2.2
  obtain ⟨n, a, b1, b2, b3, b4⟩ := hx
  -- widths of the texts of the line
  have hwid : ∀ {p ss n}, LineWidth d.fontDefinition p ss n → ∀ u ∈ ss, ∃ w, SpanWidth d.fontDefinition u w := by
    intro p ss n h
    induction h with
    | nil => intro u hu; simp at hu
    | first hw _ ih =>
      intro u hu
      rcases List.mem_cons.1 hu with rfl | hu
      · exact ⟨_, hw⟩
      · exact ih u hu
    | next _ hw _ ih =>
      intro u hu
      rcases List.mem_cons.1 hu with rfl | hu
      · exact ⟨_, hw⟩
      · exact ih u hu
  obtain ⟨ws, hws⟩ := hwid b2 s hss
  obtain ⟨wv, hwv⟩ := hwid b2 v hm
  obtain ⟨f, hf, hy'⟩ := hy
  obtain ⟨l1, l2, l3, l4⟩ := lightsAt_inside hl hf hws
  obtain ⟨n', c1, c2⟩ := before_other (own' := v.state.spanNumber) b1
  refine ⟨⟨s, by rw [e]; exact hss, y, f, ⟨f, hf, hy'⟩, hf, l3, l4⟩, fun hjl => ?_, fun hjr hu => ?_⟩
  · refine ⟨_, ⟨n', a, by rw [e]; exact c1, by rw [e]; exact b2, by rw [hr]; exact b3, rfl⟩, ?_⟩
    rw [hj] at hjl
    rw [hj, hr, hjl]
    rw [hjl] at b4
    simp only [reduceCtorEq, if_false, lineLeft] at b4 ⊢
    have : n' ≤ n := by
      refine c2 ?_
      rcases hv with rfl | hv
      · exact Nat.le_refl _
      · unfold Moves at hv; rw [hjl] at hv; exact Nat.le_of_lt hv
    omega
  · refine ⟨_, wv, ⟨n', a, by rw [e]; exact c1, by rw [e]; exact b2, by rw [hr]; exact b3, rfl⟩, hwv, ?_⟩
    rw [hj] at hjr
    rw [hj, hr, hjr]
    rw [hjr] at b4
    simp only [reduceCtorEq, if_false, lineLeft] at b4 ⊢
    have key : s = v ∨ s.state.spanNumber < v.state.spanNumber := by
      rcases hv with rfl | hv
      · exact .inl rfl
      · unfold Moves at hv; rw [hjr] at hv
        rcases Nat.lt_or_eq_of_le hv with h | h
        · exact .inr h
        · exact .inl (hu s (by rw [e]; exact hss) h)
    rcases key with rfl | hlt
    · rw [beforeAt_unique b1 c1] at b4
      rw [spanWidth_unique hws hwv] at l2
      omega
    · have := before_past b1 c1 hss rfl hlt hws
      omega

theorem numberedLayout_states {d : Dms} {t sp rect vs vs'} (hr : Pairwise2 (Reduced []) vs vs') {k : Nat} {s s' : Span}
    (h : (numberedLayout d t sp rect vs)[k]? = some s) (h' : (numberedLayout d t sp rect vs')[k]? = some s') :
    s.state = s'.state ∧ s.state.textRectangle = rect := by
  have hlay := pieces_narrow (d := d) (rect := rect) hr t sp 0 true
  change Pairwise2 _ (layoutOf d t sp rect vs) (layoutOf d t sp rect vs') at hlay
  unfold numberedLayout at h h'
  rw [numbers_reworded hr] at h'
  rw [List.getElem?_zipWith] at h h'
  cases e : (layoutOf d t sp rect vs)[k]? with
  | none => rw [e] at h; simp at h
  | some a =>
    cases e' : (layoutOf d t sp rect vs')[k]? with
    | none => rw [e'] at h'; simp at h'
    | some a' =>
      rw [e] at h
      rw [e'] at h'
      cases en : (numbers (signAttr d) t 0 true vs)[k]? with
      | none => rw [en] at h; simp at h
      | some n =>
        rw [en] at h h'
        simp only [Option.some.injEq] at h h'
        subst h
        subst h'
        obtain ⟨k1, rfl⟩ := List.getElem?_eq_some_iff.1 e
        obtain ⟨k2, rfl⟩ := List.getElem?_eq_some_iff.1 e'
        have := (pairwise2_at hlay k k1 k2).1
        refine ⟨by simp only [this], ?_⟩
        have hm : (layoutOf d t sp rect vs)[k] ∈ (pieces (signAttr d) t sp 0 true vs).map (spanOf d rect) :=
          List.getElem_mem k1
        obtain ⟨p, _, hp⟩ := List.mem_map.1 hm
        show (layoutOf d t sp rect vs)[k].state.textRectangle = rect
        rw [← hp]
        rfl

theorem newPlaces_beside {d : Dms} {t sp rect vs vs'} {i j : Nat} (hr : Pairwise2 (Reduced []) vs vs')
    (h : NewPlaces d t sp rect vs vs' i j) : BesideNew d t sp rect vs vs' i j := by
  obtain ⟨k, s, s', h1, h2, hl, m, u, u', k1, k2, hne, hm, hmv⟩ := h
  obtain ⟨es, er⟩ := numberedLayout_states hr h1 h2
  obtain ⟨eu, eur⟩ := numberedLayout_states hr k1 k2
  refine ⟨m, u, u', k1, k2, hne, ?_⟩
  rcases hl with hl | hl
  · refine ⟨_, u, .inl ⟨rfl, rfl⟩, beside_place (List.mem_of_getElem? h1) (by rw [er, eur]) hm ?_ hl⟩
    rcases hmv with rfl | hmv
    · rw [h1] at k1; cases k1; exact .inl rfl
    · exact .inr hmv
  · rw [eu]
    refine ⟨_, u', .inr ⟨rfl, rfl⟩, beside_place (List.mem_of_getElem? h2) (by rw [← es, ← eu, er, eur]) ?_ ?_ hl⟩
    · unfold sameLine at hm ⊢
      rw [List.mem_filter] at hm ⊢
      refine ⟨List.mem_of_getElem? k2, ?_⟩
      rw [← es, ← eu]; exact hm.2
    · rcases hmv with rfl | hmv
      · rw [h2] at k2; cases k2; exact .inl rfl
      · refine .inr ?_
        unfold Moves at hmv ⊢
        rw [← es, ← eu]; exact hmv

/-- **C124 (sides)** the pages differ only in the rows of a line with another text; if its line justification is left, not
to the left of that text, and if it is right, not to the right of it. -/
theorem C124_beside (d : Dms) (hf : FontsOk d.fontDefinition) (h0 : 1 ≤ d.multiCfg.defaultFont.toNat) (W H : Nat)
    (hg : GraphicsOk W H d.graphicDefinition) (ms ms' : Str) (vs vs' : List Value) (hv : Parses (slices ms) vs)
    (hv' : Parses (slices ms') vs') (hr : Pairwise2 Reworded vs vs') (xs xs') (hx : Spec.Yields d ms xs) (hn : NoError xs)
    (hx' : Spec.Yields d ms' xs') (hn' : NoError xs') :
    SameBut d (fun i j t sp rect ws ws' => BesideNew d t sp rect ws ws' i j) (signAttr d) xs xs'
      (splitPages vs) (splitPages vs') := by
  obtain ⟨us, hu, hp⟩ := C92_pictures d hf h0 W H hg ms xs hx hn
  obtain rfl := parses_unique hv hu
  obtain ⟨us', hu', hp'⟩ := C92_pictures d hf h0 W H hg ms' xs' hx' hn'
  obtain rfl := parses_unique hv' hu'
  exact pictured_sameBut hg.numbers
    (fun h h' hr hn ha => textDrawn_places h h' hr (fun hp => hn (newPlaces_beside hr hp)) ha)
    (splitPages_reduced (reworded_all hr))
    (fun p hpp v hm => parses_inRange hv (slices_items ms) v (splitPages_mem p hpp v hm)) hp hp'

/-! ### an example -/

-- at the left, the second of three texts is another one; at the right as well
def oldPlaces : Str := c!"[jl2]A[fo8]B[fo8]C[nl][jl4]A[fo8]B[fo8]C"
def newPlaces : Str := c!"[jl2]A[fo8]HIT[fo8]C[nl][jl4]A[fo8]HIT[fo8]C"

-- the hypotheses of C124
example : ∃ xs xs', Spec.Yields fullDms oldPlaces xs ∧ Spec.Yields fullDms newPlaces xs' ∧ ∃ ps ps',
    SameBut fullDms (fun i j t sp rect ws ws' => BesideNew fullDms t sp rect ws ws' i j) (signAttr fullDms) xs xs' ps ps' := by
  obtain ⟨xs, hx, hn, _⟩ := summary_noError (d := fullDms) (ms := oldPlaces) (l := [(true, 60, 30, 30)]) (by decide +kernel)
  obtain ⟨xs', hx', hn', _⟩ := summary_noError (d := fullDms) (ms := newPlaces) (l := [(true, 60, 30, 30)])
    (by decide +kernel)
  have hs : Parses (slices oldPlaces) [.justificationLine (some .left), .text c!"A", .font (some (8, none)), .text c!"B",
      .font (some (8, none)), .text c!"C", .newLine none, .justificationLine (some .right), .text c!"A",
      .font (some (8, none)), .text c!"B", .font (some (8, none)), .text c!"C"] := parses_of (by decide +kernel)
  have hs' : Parses (slices newPlaces) [.justificationLine (some .left), .text c!"A", .font (some (8, none)), .text c!"HIT",
      .font (some (8, none)), .text c!"C", .newLine none, .justificationLine (some .right), .text c!"A",
      .font (some (8, none)), .text c!"HIT", .font (some (8, none)), .text c!"C"] := parses_of (by decide +kernel)
  have hv := C22_built_sign_valid .checked _ _ fullDms_built
  refine ⟨xs, xs', hx, hx', _, _, C124_beside fullDms hv.2.2.2.2.1 (by decide) _ _ hv.2.2.2.2.2.1 oldPlaces newPlaces _ _
    hs hs' ?_ xs xs' hx hn hx' hn'⟩
  exact .cons .same (.cons .same (.cons .same (.cons .text (.cons .same (.cons .same (.cons .same (.cons .same (.cons .same
    (.cons .same (.cons .text (.cons .same (.cons .same .nil))))))))))))

-- the first text at the left and the last one at the right stay as they are …
example : pixels fullDms oldPlaces [(0, 2), (4, 4), (55, 12), (59, 11)] =
    pixels fullDms newPlaces [(0, 2), (4, 4), (55, 12), (59, 11)] := by
  decide +kernel

-- … the last one at the left and the first one at the right are moved
example : pixels fullDms oldPlaces [(14, 2)] ≠ pixels fullDms newPlaces [(14, 2)] ∧
    pixels fullDms oldPlaces [(41, 11)] ≠ pixels fullDms newPlaces [(41, 11)] := by
  decide +kernel

end Ntcip
