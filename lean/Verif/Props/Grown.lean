import Verif.Lemmas.Grown
import Verif.Props.Resize
import Verif.Props.Narrow
/-
C129: a message that is shown, is also shown with larger text rectangles.
-/
namespace Ntcip
open Spec Tests

theorem takePage_grown {d : Dms} {ss' : List Str} {p' rest' b} (h : TakePage ss' p' rest' b) :
    ∀ {ss V V'}, Parses ss V → Parses ss' V' → Pairwise2 (Grown d) V V' →
    ∃ p rest, TakePage ss p rest b ∧ Pairwise2 (Grown d) p p' ∧
      ∃ W W', Parses rest W ∧ Parses rest' W' ∧ Pairwise2 (Grown d) W W' := by
  have npr : ∀ {v : Value}, Grown d v .newPage → v = .newPage := by rintro v ⟨⟩; rfl
  induction h with
  | nil =>
    intro ss V V' h1 h2 hr
    cases h2; cases hr; cases h1
    exact ⟨[], [], .nil, .nil, [], [], .nil, .nil, .nil⟩
  | np hs =>
    intro ss V V' h1 h2 hr
    cases h2 with
    | cons k1 k2 =>
      rw [hs] at k1; cases k1
      cases hr with
      | cons r1 r2 =>
        obtain rfl := npr r1
        cases h1 with
        | cons k3 k4 => exact ⟨[], _, .np k3, .nil, _, _, k4, k2, r2⟩
  | cons hs hne _ ih =>
    intro ss V V' h1 h2 hr
    cases h2 with
    | cons k1 k2 =>
      rw [hs] at k1; cases k1
      cases hr with
      | @cons v _ _ _ r1 r2 =>
        cases h1 with
        | cons k3 k4 =>
          obtain ⟨p, rest, l1, l2, l3⟩ := ih k4 k2 r2
          refine ⟨v :: p, rest, .cons k3 ?_ l1, .cons r1 l2, l3⟩
          rintro rfl
          cases r1
          exact hne rfl

theorem grown_tag {d v v'} (h : Grown d v v') : v'.tag = v.tag := by
  rcases grown_or h with rfl | ⟨x, y, rfl, rfl, _⟩ <;> rfl

theorem itemStop_grown {d : Dms} {ss' z} (h : ItemStop d ss' z) : ∀ {ss V V'}, (∀ s ∈ ss', Item s) →
    Parses ss V → Parses ss' V' → Pairwise2 (Grown d) V V' → ∃ z, ItemStop d ss z := by
  have wrong : ∀ {s v e}, tryFrom s = .ok (.ok v) → ¬ WrongItem s e := by
    intro s v e hv hw
    rcases wrongItem_error hw with k | ⟨p, k⟩
    · rw [hv] at k; simp at k
    · rw [hv] at k; cases k
  induction h with
  | panic hp =>
    intro ss V V' hi h1 h2 hr
    cases h2 with
    | cons k1 _ =>
      obtain ⟨p, h⟩ := (panicItem_iff (hi _ (List.mem_cons_self ..))).2 hp
      rw [k1] at h; cases h
  | bad _ hw =>
    intro ss V V' hi h1 h2 hr
    cases h2 with
    | cons k1 _ => exact absurd hw (wrong k1)
  | tag hd ht hs =>
    intro ss V V' hi h1 h2 hr
    rw [← C84_item] at hd
    cases h2 with
    | cons k1 _ =>
      rw [hd] at k1; cases k1
      cases hr with
      | cons r1 _ =>
        cases h1 with
        | cons k3 _ => exact ⟨_, .tag ((C84_item ..).1 k3) (by rw [← grown_tag r1]; exact ht) hs⟩
  | later hd hne hs _ ih =>
    intro ss V V' hi h1 h2 hr
    rw [← C84_item] at hd
    cases h2 with
    | cons k1 k2 =>
      rw [hd] at k1; cases k1
      cases hr with
      | cons r1 r2 =>
        cases h1 with
        | cons k3 k4 =>
          obtain ⟨z, hz⟩ := ih (fun s hs => hi s (List.mem_cons_of_mem _ hs)) k4 k2 r2
          refine ⟨z, .later ((C84_item ..).1 k3) ?_ (by rw [← grown_tag r1]; exact hs) hz⟩
          rintro rfl
          cases r1
          exact hne rfl

theorem pageStop_grown {d : Dms} {t ss ss' V V' z} (h : PageStop d t ss' z) (hi : ∀ s ∈ ss', Item s) (h1 : Parses ss V)
    (h2 : Parses ss' V') (hr : Pairwise2 (Grown d) V V') : ∃ z, PageStop d t ss z := by
  rcases h with h | ⟨p', rest', b, k1, k2, k3, k4⟩
  · obtain ⟨z, hz⟩ := itemStop_grown h hi h1 h2 hr
    exact ⟨z, .inl hz⟩
  · obtain ⟨p, rest, l1, l2, _⟩ := takePage_grown k1 h1 h2 hr
    refine Classical.byContradiction fun hno => ?_
    have hsup : ∀ v ∈ p, ∀ t, v.tag = some t → d.multiCfg.supportedMultiTags t = true := by
      intro v hv t ht
      obtain ⟨v', hv', hr'⟩ : ∃ v' ∈ p', Grown d v v' := by
        clear l1 hno k1 k2 k4
        induction l2 with
        | nil => simp at hv
        | cons hr _ ih =>
          rcases List.mem_cons.1 hv with rfl | hv
          · exact ⟨_, List.mem_cons_self .., hr⟩
          · obtain ⟨a, h1, h2⟩ := ih hv
            exact ⟨a, List.mem_cons_of_mem _ h1, h2⟩
      exact k2 v' hv' t (by rw [grown_tag hr']; exact ht)
    have hk : Silent (pageStops d t p) := silent_iff.2 fun e he => hno ⟨e, .inr ⟨p, rest, b, l1, hsup, k3, he⟩⟩
    exact silent_iff.1 (pageStops_grown l2 hk) z k4

theorem firstStop_grown {d : Dms} {t ss' z} (h : FirstStop d t ss' z) : ∀ {ss V V'}, (∀ s ∈ ss', Item s) →
    Parses ss V → Parses ss' V' → Pairwise2 (Grown d) V V' → ∃ z, FirstStop d t ss z := by
  induction h with
  | here h =>
    intro ss V V' hi h1 h2 hr
    obtain ⟨z, hz⟩ := pageStop_grown h hi h1 h2 hr
    exact ⟨z, .here hz⟩
  | @later t _ _ _ _ hno ht _ ih =>
    intro ss V V' hi h1 h2 hr
    obtain ⟨p, rest, l1, l2, W, W', l3, l4, l5⟩ := takePage_grown ht h1 h2 hr
    by_cases hz : ∃ z, PageStop d t ss z
    · obtain ⟨z, hz⟩ := hz
      exact ⟨z, .here hz⟩
    · have hi' := takePage_items ht hi
      obtain ⟨z, k⟩ := ih hi' l3 l4 l5
      rw [foldl_grown l2] at k
      exact ⟨z, .later (fun z h => hz ⟨z, h⟩) l1 k⟩

/-! ### sizes and times -/

theorem splitPages_grown {d : Dms} {V V'} (h : Pairwise2 (Grown d) V V') :
    Pairwise2 (Pairwise2 (Grown d)) (splitPages V) (splitPages V') := by
  induction h with
  | nil => exact .cons .nil .nil
  | @cons v v' V V' hr _ ih =>
    by_cases hv : v = .newPage
    · subst hv; cases hr
      exact .cons .nil ih
    · have hv' : v' ≠ .newPage := by
        rcases grown_or hr with rfl | ⟨x, y, rfl, rfl, _⟩
        · exact hv
        · simp
      obtain ⟨p, ps, e1, e2⟩ := splitPages_cons (vs := V) hv
      obtain ⟨p', ps', e3, e4⟩ := splitPages_cons (vs := V') hv'
      rw [e2, e4]
      rw [e1, e3] at ih
      cases ih with
      | cons h1 h2 => exact .cons (.cons hr h1) h2

theorem pageTimes_grown {d vs vs'} (h : Pairwise2 (Grown d) vs vs') : ∀ a b, pageTimes a b vs' = pageTimes a b vs := by
  intro a
  induction h with
  | nil => intro b; rfl
  | cons hr _ ih =>
    intro b
    unfold pageTimes at ih ⊢
    rw [List.foldl_cons, List.foldl_cons, ih]
    rcases grown_or hr with rfl | ⟨x, y, rfl, rfl, _⟩ <;> rfl

theorem background_grown {d vs vs'} (h : Pairwise2 (Grown d) vs vs') : ∀ a b, background a b vs' = background a b vs := by
  intro a
  induction h with
  | nil => intro b; rfl
  | cons hr _ ih =>
    intro b
    unfold background at ih ⊢
    rw [List.foldl_cons, List.foldl_cons, ih]
    rcases grown_or hr with rfl | ⟨x, y, rfl, rfl, _⟩ <;> rfl

theorem pictured_grown {d : Dms} {ps ps'} (h : Pairwise2 (Pairwise2 (Grown d)) ps ps') :
    ∀ {t p xs xs'}, Pictured d t p xs ps → Pictured d t p xs' ps' → Pairwise2 SameTime xs xs' := by
  induction h with
  | nil =>
    intro t p xs xs' h1 h2
    unfold Pictured at h1 h2
    subst h1; subst h2
    exact .nil
  | cons hr _ ih =>
    intro t p xs xs' h1 h2
    unfold Pictured at h1 h2
    obtain ⟨r1, m1, k1, rfl, k2⟩ := h1
    obtain ⟨r2, m2, l1, rfl, l2⟩ := h2
    rw [pageTimes_grown hr, background_grown hr, foldl_grown hr] at l2
    rw [background_grown hr] at l1
    rw [pageTimes_grown hr, background_grown hr]
    have s1 := composed_size k1
    have s2 := composed_size l1
    refine .cons ⟨rfl, _, _, rfl, rfl, rfl, fun _ => ⟨by rw [s1.1, s2.1], by rw [s1.2, s2.2]⟩⟩ (Pairwise2.append ?_ (ih k2 l2))
    split
    · exact .cons ⟨rfl, _, _, rfl, rfl, rfl, fun h => by cases h⟩ .nil
    · exact .nil

/-- **C129** A message that is shown is also shown when its text rectangles are replaced with ones as large or larger.  Where
they are on the sign does not matter (on signs with character cells they must not begin above the old ones).  There are as
many pages, with the same times, and the pages are as large. -/
theorem C129_larger (d : Dms) (hd : SizeOk d) (hok : SignOk d) (hf : FontsOk d.fontDefinition) (W H : Nat)
    (hg : GraphicsOk W H d.graphicDefinition) (ms ms' : Str) (hs : SizesOk d ms) (hs' : SizesOk d ms')
    (vs vs' : List Value) (hv : Parses (slices ms) vs) (hv' : Parses (slices ms') vs')
    (hr : Pairwise2 (Grown d) vs vs') (xs) (hx : ShownAs d ms xs) :
    ∃ xs', ShownAs d ms' xs' ∧ Pairwise2 SameTime xs xs' := by
  obtain ⟨hno, us, hu, hp⟩ := (C93_message d hd hok hf W H hg ms hs xs).1 hx
  obtain rfl := parses_unique hv hu
  have hno' : ∀ z, ¬ FirstStop d (signAttr d) (slices ms') z := by
    intro z hz
    obtain ⟨z, k⟩ := firstStop_grown hz (slices_items ms') hv hv' hr
    exact hno z k
  rcases course_stop hd hok hs' _ (Nat.lt_succ_self _) (.nil (pg := Pages.new d ms')) rfl with
    ⟨ys, g1, z, _, _, _, k4⟩ | ⟨ys, g1, k1, k2, k3, _⟩
  · rw [pagesNew_attr] at k4
    exact absurd ((k4 z).2 rfl) (hno' z)
  · have hy : Spec.Yields d ms' ys := ⟨g1, k1, by unfold Pages.next; rw [k3]⟩
    obtain ⟨us', hu', hp'⟩ := C92_pictures d hf hok.font W H hg ms' ys hy k2
    obtain rfl := parses_unique hv' hu'
    exact ⟨ys, ⟨hy, k2⟩, pictured_grown (splitPages_grown hr) hp hp'⟩

theorem grown_self (d : Dms) (vs : List Value) : Pairwise2 (Grown d) vs vs := by
  induction vs with
  | nil => exact .nil
  | cons v vs ih => exact .cons .same ih

/-- **C129 (the same pages)** When a text rectangle of a message which is shown is made larger, and the edges which its texts
are justified to stay where they are, the message is shown with the same pages (only the blank page of an off time may be
of another size). -/
theorem C129_same (d : Dms) (hd : SizeOk d) (hok : SignOk d) (hf : FontsOk d.fontDefinition) (W H : Nat)
    (hg : GraphicsOk W H d.graphicDefinition) (ms ms' : Str) (hs : SizesOk d ms) (hs' : SizesOk d ms')
    (vs us rest : List Value) (r r' : Rectangle) (hv : Parses (slices ms) (vs ++ .textRectangle r :: (us ++ rest)))
    (hv' : Parses (slices ms') (vs ++ .textRectangle r' :: (us ++ rest)))
    (hu : ∀ u ∈ us, u ≠ .newPage ∧ ∀ q, u ≠ .textRectangle q) (hr : RectEnds rest) (hl : AsLarge d r r')
    (hk : KeepsEdges d (vs.foldl (TextAttr.apply (signAttr d)) (signAttr d)) us (opened d r) (opened d r'))
    (xs) (hx : ShownAs d ms xs) : ∃ xs', ShownAs d ms' xs' ∧ Pairwise2 SameButBlank xs xs' := by
  obtain ⟨xs', hx', _⟩ := C129_larger d hd hok hf W H hg ms ms' hs hs' _ _ hv hv'
    ((grown_self d vs).append (.cons (.rect hl) (grown_self d _))) xs hx
  exact ⟨xs', hx', C128_resized d hf hok.font W H hg ms ms' vs us rest r r' hv hv' hu hr hk xs xs' hx hx'⟩

/-! ### cases -/

-- the hypotheses of C129: the rectangle is moved to the right and down, and made larger
example : ∃ xs, ShownAs fullDms c!"[pt10o5][tr20,11,30,0][jl4][jp4]A[np]C" xs ∧ xs.length = 4 := by
  obtain ⟨xs, hx, hn, hlen⟩ := summary_noError (d := fullDms) (ms := c!"[pt10o5][tr3,1,20,12][jl4][jp4]A[np]C")
    (l := [(true, 60, 30, 10), (false, 20, 12, 5), (true, 60, 30, 10), (false, 60, 30, 5)]) (by decide +kernel)
  have hv := C22_built_sign_valid .checked _ _ fullDms_built
  have hsz : SizeOk fullDms := ⟨by decide +kernel, by decide +kernel, by decide +kernel⟩
  have hok : SignOk fullDms := ⟨by decide +kernel, by decide +kernel, by decide +kernel, by decide, ⟨by decide, by decide⟩,
    hv.2.2.2.2.1.fonts, hv.2.2.2.2.2.1.graphics⟩
  obtain ⟨xs', h1, h2⟩ := C129_larger fullDms hsz hok hv.2.2.2.2.1 _ _ hv.2.2.2.2.2.1
    c!"[pt10o5][tr3,1,20,12][jl4][jp4]A[np]C" c!"[pt10o5][tr20,11,30,0][jl4][jp4]A[np]C"
      (sizesOk_short _ _ (by decide)) (sizesOk_short _ _ (by decide))
    [.pageTime (some 10) (some 5), .textRectangle ⟨3, 1, 20, 12⟩, .justificationLine (some .right),
      .justificationPage (some .bottom), .text c!"A", .newPage, .text c!"C"]
    [.pageTime (some 10) (some 5), .textRectangle ⟨20, 11, 30, 0⟩, .justificationLine (some .right),
      .justificationPage (some .bottom), .text c!"A", .newPage, .text c!"C"]
    (by
      rw [show slices c!"[pt10o5][tr3,1,20,12][jl4][jp4]A[np]C" = [c!"[pt10o5]", c!"[tr3,1,20,12]", c!"[jl4]",
        c!"[jp4]", c!"A", c!"[np]", c!"C"] by decide +kernel]
      exact .cons (by decide +kernel) (.cons (by decide +kernel) (.cons (by decide +kernel)
        (.cons (by decide +kernel) (.cons (by decide +kernel) (.cons (by decide +kernel)
        (.cons (by decide +kernel) .nil)))))))
    (by
      rw [show slices c!"[pt10o5][tr20,11,30,0][jl4][jp4]A[np]C" = [c!"[pt10o5]", c!"[tr20,11,30,0]", c!"[jl4]",
        c!"[jp4]", c!"A", c!"[np]", c!"C"] by decide +kernel]
      exact .cons (by decide +kernel) (.cons (by decide +kernel) (.cons (by decide +kernel)
        (.cons (by decide +kernel) (.cons (by decide +kernel) (.cons (by decide +kernel)
        (.cons (by decide +kernel) .nil)))))))
    (.cons .same (.cons (.rect ⟨⟨by decide, by decide⟩, ⟨by decide, by decide, by decide, by decide, by decide, by decide,
      by decide, by decide, by decide, by decide⟩, by decide, by decide, .inl (by decide)⟩) (grown_self _ _))) xs ⟨hx, hn⟩
  refine ⟨xs', h1, ?_⟩
  rw [← pairwise2_length h2, hlen]
  rfl

-- the hypotheses of C129 (the same pages): the left edge is moved to the left
example : ∃ xs xs', ShownAs fullDms c!"[pt10o5][tr3,1,20,12][jl4][jp4]A[np]C" xs ∧ ShownAs fullDms
  c!"[pt10o5][tr1,1,22,12][jl4][jp4]A[np]C" xs' ∧
    Pairwise2 SameButBlank xs xs' := by
  obtain ⟨xs, hx, hn, _⟩ := summary_noError (d := fullDms) (ms := c!"[pt10o5][tr3,1,20,12][jl4][jp4]A[np]C")
    (l := [(true, 60, 30, 10), (false, 20, 12, 5), (true, 60, 30, 10), (false, 60, 30, 5)]) (by decide +kernel)
  have hv := C22_built_sign_valid .checked _ _ fullDms_built
  have hsz : SizeOk fullDms := ⟨by decide +kernel, by decide +kernel, by decide +kernel⟩
  have hok : SignOk fullDms := ⟨by decide +kernel, by decide +kernel, by decide +kernel, by decide, ⟨by decide, by decide⟩,
    hv.2.2.2.2.1.fonts, hv.2.2.2.2.2.1.graphics⟩
  obtain ⟨xs', h1, h2⟩ := C129_same fullDms hsz hok hv.2.2.2.2.1 _ _ hv.2.2.2.2.2.1
    c!"[pt10o5][tr3,1,20,12][jl4][jp4]A[np]C" c!"[pt10o5][tr1,1,22,12][jl4][jp4]A[np]C"
      (sizesOk_short _ _ (by decide)) (sizesOk_short _ _ (by decide))
    [.pageTime (some 10) (some 5)] [.justificationLine (some .right), .justificationPage (some .bottom), .text c!"A"]
    [.newPage, .text c!"C"] ⟨3, 1, 20, 12⟩ ⟨1, 1, 22, 12⟩
    (by
      rw [show slices c!"[pt10o5][tr3,1,20,12][jl4][jp4]A[np]C" = [c!"[pt10o5]", c!"[tr3,1,20,12]", c!"[jl4]",
        c!"[jp4]", c!"A", c!"[np]", c!"C"] by decide +kernel]
      exact .cons (by decide +kernel) (.cons (by decide +kernel) (.cons (by decide +kernel)
        (.cons (by decide +kernel) (.cons (by decide +kernel) (.cons (by decide +kernel)
        (.cons (by decide +kernel) .nil)))))))
    (by
      rw [show slices c!"[pt10o5][tr1,1,22,12][jl4][jp4]A[np]C" = [c!"[pt10o5]", c!"[tr1,1,22,12]", c!"[jl4]",
        c!"[jp4]", c!"A", c!"[np]", c!"C"] by decide +kernel]
      exact .cons (by decide +kernel) (.cons (by decide +kernel) (.cons (by decide +kernel)
        (.cons (by decide +kernel) (.cons (by decide +kernel) (.cons (by decide +kernel)
        (.cons (by decide +kernel) .nil)))))))
    (by simp) trivial
    ⟨⟨by decide, by decide⟩, ⟨by decide, by decide, by decide, by decide, by decide, by decide, by decide, by decide, by decide,
      by decide⟩, by decide, by decide, .inl (by decide)⟩
    (by
      intro p hp
      simp only [pieces, piece, List.nil_append, List.append_nil, List.mem_singleton] at hp
      subst hp
      exact ⟨rfl, rfl⟩) xs ⟨hx, hn⟩
  exact ⟨xs, xs', ⟨hx, hn⟩, h1, h2⟩

/-- **C129 (why)** A smaller rectangle does not do, also if it is wider.  On a sign with character cells, a rectangle of the
same size, but nearer to the top of the sign, does not do: text in the middle panics there. -/
theorem C129_smaller :
    summary fullDms c!"[tr1,1,20,12]A" = some [(true, some (60, 30, 30))] ∧ summary fullDms c!"[tr1,1,60,3]A" = some [(true, none)] ∧
    renderPanics tallCellDms c!"[tr1,11,100,10][jp3]A" = false ∧ renderPanics tallCellDms c!"[tr1,1,100,10][jp3]A" = true := by
  refine ⟨?_, ?_, ?_, ?_⟩ <;> decide +kernel

end Ntcip
