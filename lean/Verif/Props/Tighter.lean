import Verif.Lemmas.Tighter
import Verif.Props.Stop
import Verif.Props.Narrow
import Verif.Props.Wording
import Verif.Spec.Sequel
/-
C131: a message that is shown, is also shown with smaller spacings.
-/
namespace Ntcip
open Spec Tests

theorem takePage_tighter {ss' : List Str} {p' rest' b} (h : TakePage ss' p' rest' b) :
    ∀ {ss V V'}, Parses ss V → Parses ss' V' → Pairwise2 Tightened V V' →
    ∃ p rest, TakePage ss p rest b ∧ Pairwise2 Tightened p p' ∧
      ∃ W W', Parses rest W ∧ Parses rest' W' ∧ Pairwise2 Tightened W W' := by
  have npr : ∀ {v : Value}, Tightened v .newPage → v = .newPage := by rintro v ⟨⟩; rfl
  induction h with
  | nil =>
    intro ss V V' h1 h2 hr
    cases h2; cases hr; cases h1
    exact ⟨[], [], .nil, .nil, [], [], .nil, .nil, .nil⟩
  | np hs =>
    intro ss V V' h1 h2 hr
    cases h2 with
    | cons k1 k2 =>
      rw [hs] at k1; cases k1
      cases hr with
      | cons r1 r2 =>
        obtain rfl := npr r1
        cases h1 with
        | cons k3 k4 => exact ⟨[], _, .np k3, .nil, _, _, k4, k2, r2⟩
  | cons hs hne _ ih =>
    intro ss V V' h1 h2 hr
    cases h2 with
    | cons k1 k2 =>
      rw [hs] at k1; cases k1
      cases hr with
      | @cons v _ _ _ r1 r2 =>
        cases h1 with
        | cons k3 k4 =>
          obtain ⟨p, rest, l1, l2, l3⟩ := ih k4 k2 r2
          refine ⟨v :: p, rest, .cons k3 ?_ l1, .cons r1 l2, l3⟩
          rintro rfl
          cases r1
          exact hne rfl

theorem tightened_tag {v v'} (h : Tightened v v') : v'.tag = v.tag := by
  rcases tightened_or h with rfl | ⟨x, y, _, rfl, rfl⟩ | ⟨x, y, _, rfl, rfl⟩ <;> rfl

theorem itemStop_tighter {d : Dms} {ss' z} (h : ItemStop d ss' z) : ∀ {ss V V'}, (∀ s ∈ ss', Item s) →
    Parses ss V → Parses ss' V' → Pairwise2 Tightened V V' → ∃ z, ItemStop d ss z := by
  have wrong : ∀ {s v e}, tryFrom s = .ok (.ok v) → ¬ WrongItem s e := by
    intro s v e hv hw
    rcases wrongItem_error hw with k | ⟨p, k⟩
    · rw [hv] at k; simp at k
    · rw [hv] at k; cases k
  induction h with
  | panic hp =>
    intro ss V V' hi h1 h2 hr
    cases h2 with
    | cons k1 _ =>
      obtain ⟨p, h⟩ := (panicItem_iff (hi _ (List.mem_cons_self ..))).2 hp
      rw [k1] at h; cases h
  | bad _ hw =>
    intro ss V V' hi h1 h2 hr
    cases h2 with
    | cons k1 _ => exact absurd hw (wrong k1)
  | tag hd ht hs =>
    intro ss V V' hi h1 h2 hr
    rw [← C84_item] at hd
    cases h2 with
    | cons k1 _ =>
      rw [hd] at k1; cases k1
      cases hr with
      | cons r1 _ =>
        cases h1 with
        | cons k3 _ => exact ⟨_, .tag ((C84_item ..).1 k3) (by rw [← tightened_tag r1]; exact ht) hs⟩
  | later hd hne hs _ ih =>
    intro ss V V' hi h1 h2 hr
    rw [← C84_item] at hd
    cases h2 with
    | cons k1 k2 =>
      rw [hd] at k1; cases k1
      cases hr with
      | cons r1 r2 =>
        cases h1 with
        | cons k3 k4 =>
          obtain ⟨z, hz⟩ := ih (fun s hs => hi s (List.mem_cons_of_mem _ hs)) k4 k2 r2
          refine ⟨z, .later ((C84_item ..).1 k3) ?_ (by rw [← tightened_tag r1]; exact hs) hz⟩
          rintro rfl
          cases r1
          exact hne rfl

theorem pageStop_tighter {d : Dms} {t t' ss ss' V V' z} (ht : AttrTighter t t') (h : PageStop d t' ss' z) (hi : ∀ s ∈ ss', Item s) (h1 : Parses ss V)
    (h2 : Parses ss' V') (hr : Pairwise2 Tightened V V') : ∃ z, PageStop d t ss z := by
  rcases h with h | ⟨p', rest', b, k1, k2, k3, k4⟩
  · obtain ⟨z, hz⟩ := itemStop_tighter h hi h1 h2 hr
    exact ⟨z, .inl hz⟩
  · obtain ⟨p, rest, l1, l2, _⟩ := takePage_tighter k1 h1 h2 hr
    refine Classical.byContradiction fun hno => ?_
    have hsup : ∀ v ∈ p, ∀ t, v.tag = some t → d.multiCfg.supportedMultiTags t = true := by
      intro v hv t ht
      obtain ⟨v', hv', hr'⟩ : ∃ v' ∈ p', Tightened v v' := by
        clear l1 hno k1 k2 k4
        induction l2 with
        | nil => simp at hv
        | cons hr _ ih =>
          rcases List.mem_cons.1 hv with rfl | hv
          · exact ⟨_, List.mem_cons_self .., hr⟩
          · obtain ⟨a, h1, h2⟩ := ih hv
            exact ⟨a, List.mem_cons_of_mem _ h1, h2⟩
      exact k2 v' hv' t (by rw [tightened_tag hr']; exact ht)
    have hk : Silent (pageStops d t p) := silent_iff.2 fun e he => hno ⟨e, .inr ⟨p, rest, b, l1, hsup, k3, he⟩⟩
    exact silent_iff.1 (pageStops_tighter l2 ht hk) z k4

theorem firstStop_tighter {d : Dms} {t' ss' z} (h : FirstStop d t' ss' z) : ∀ {t ss V V'}, AttrTighter t t' →
    (∀ s ∈ ss', Item s) → Parses ss V → Parses ss' V' → Pairwise2 Tightened V V' → ∃ z, FirstStop d t ss z := by
  induction h with
  | here h =>
    intro t ss V V' hta hi h1 h2 hr
    obtain ⟨z, hz⟩ := pageStop_tighter hta h hi h1 h2 hr
    exact ⟨z, .here hz⟩
  | later hno ht _ ih =>
    intro t ss V V' hta hi h1 h2 hr
    obtain ⟨p, rest, l1, l2, W, W', l3, l4, l5⟩ := takePage_tighter ht h1 h2 hr
    by_cases hz : ∃ z, PageStop d t ss z
    · obtain ⟨z, hz⟩ := hz
      exact ⟨z, .here hz⟩
    · have hi' := takePage_items ht hi
      obtain ⟨z, k⟩ := ih (foldl_tighter _ l2 hta) hi' l3 l4 l5
      exact ⟨z, .later (fun z h => hz ⟨z, h⟩) l1 k⟩

/-! ### sizes and times -/

theorem splitPages_tighter {V V'} (h : Pairwise2 Tightened V V') :
    Pairwise2 (Pairwise2 Tightened) (splitPages V) (splitPages V') := by
  induction h with
  | nil => exact .cons .nil .nil
  | @cons v v' V V' hr _ ih =>
    by_cases hv : v = .newPage
    · subst hv; cases hr
      exact .cons .nil ih
    · have hv' : v' ≠ .newPage := by
        rcases tightened_or hr with rfl | ⟨x, y, _, rfl, rfl⟩ | ⟨x, y, _, rfl, rfl⟩
        · exact hv
        · simp
        · simp
      obtain ⟨p, ps, e1, e2⟩ := splitPages_cons (vs := V) hv
      obtain ⟨p', ps', e3, e4⟩ := splitPages_cons (vs := V') hv'
      rw [e2, e4]
      rw [e1, e3] at ih
      cases ih with
      | cons h1 h2 => exact .cons (.cons hr h1) h2

theorem pageTimes_tighter {vs vs'} (h : Pairwise2 Tightened vs vs') : ∀ a b, pageTimes a b vs' = pageTimes a b vs := by
  intro a
  induction h with
  | nil => intro b; rfl
  | cons hr _ ih =>
    intro b
    unfold pageTimes at ih ⊢
    rw [List.foldl_cons, List.foldl_cons, ih]
    rcases tightened_or hr with rfl | ⟨x, y, _, rfl, rfl⟩ | ⟨x, y, _, rfl, rfl⟩ <;> rfl

theorem background_tighter {vs vs'} (h : Pairwise2 Tightened vs vs') : ∀ a b, background a b vs' = background a b vs := by
  intro a
  induction h with
  | nil => intro b; rfl
  | cons hr _ ih =>
    intro b
    unfold background at ih ⊢
    rw [List.foldl_cons, List.foldl_cons, ih]
    rcases tightened_or hr with rfl | ⟨x, y, _, rfl, rfl⟩ | ⟨x, y, _, rfl, rfl⟩ <;> rfl

theorem lastRect_tighter {d : Dms} {m m'} (h : SectionsTighter m m') : ∀ r, lastRect d r m' = lastRect d r m := by
  induction h with
  | nil => intro r; rfl
  | @cons x y _ _ hr _ ih =>
    intro r
    obtain ⟨r1, us⟩ := x
    obtain ⟨r2, us'⟩ := y
    obtain ⟨rfl, _⟩ : r1 = r2 ∧ _ := hr
    exact ih _

theorem pictured_tighter {d : Dms} {ps ps'} (h : Pairwise2 (Pairwise2 Tightened) ps ps') :
    ∀ {t t' p xs xs'}, Pictured d t p xs ps → Pictured d t' p xs' ps' → Pairwise2 SameFrame xs xs' := by
  induction h with
  | nil =>
    intro t t' p xs xs' h1 h2
    unfold Pictured at h1 h2
    subst h1; subst h2
    exact .nil
  | cons hr _ ih =>
    intro t t' p xs xs' h1 h2
    unfold Pictured at h1 h2
    obtain ⟨r1, m1, k1, rfl, k2⟩ := h1
    obtain ⟨r2, m2, l1, rfl, l2⟩ := h2
    rw [pageTimes_tighter hr, background_tighter hr] at l2
    rw [background_tighter hr] at l1
    rw [pageTimes_tighter hr, background_tighter hr, lastRect_tighter (sections_tighter hr).2]
    have s1 := composed_size k1
    have s2 := composed_size l1
    refine .cons ⟨rfl, _, _, rfl, rfl, rfl, by rw [s1.1, s2.1], by rw [s1.2, s2.2]⟩ (Pairwise2.append ?_ (ih k2 l2))
    split
    · exact .cons ⟨rfl, _, _, rfl, rfl, rfl, rfl, rfl⟩ .nil
    · exact .nil

/-- **C131** A message that is shown is also shown with smaller spacings: when the numbers in its [sc] and [nl] tags are
replaced with smaller ones.  There are as many pages, of the same sizes and times. -/
theorem C131_tighter (d : Dms) (hd : SizeOk d) (hok : SignOk d) (hf : FontsOk d.fontDefinition) (W H : Nat)
    (hg : GraphicsOk W H d.graphicDefinition) (ms ms' : Str) (hs : SizesOk d ms) (hs' : SizesOk d ms')
    (vs vs' : List Value) (hv : Parses (slices ms) vs) (hv' : Parses (slices ms') vs')
    (hr : Pairwise2 Tightened vs vs') (xs) (hx : ShownAs d ms xs) :
    ∃ xs', ShownAs d ms' xs' ∧ Pairwise2 SameFrame xs xs' := by
  obtain ⟨hno, us, hu, hp⟩ := (C93_message d hd hok hf W H hg ms hs xs).1 hx
  obtain rfl := parses_unique hv hu
  have hno' : ∀ z, ¬ FirstStop d (signAttr d) (slices ms') z := by
    intro z hz
    obtain ⟨z, k⟩ := firstStop_tighter hz (attrTighter_self _) (slices_items ms') hv hv' hr
    exact hno z k
  rcases course_stop hd hok hs' _ (Nat.lt_succ_self _) (.nil (pg := Pages.new d ms')) rfl with
    ⟨ys, g1, z, _, _, _, k4⟩ | ⟨ys, g1, k1, k2, k3, _⟩
  · rw [pagesNew_attr] at k4
    exact absurd ((k4 z).2 rfl) (hno' z)
  · have hy : Spec.Yields d ms' ys := ⟨g1, k1, by unfold Pages.next; rw [k3]⟩
    obtain ⟨us', hu', hp'⟩ := C92_pictures d hf hok.font W H hg ms' ys hy k2
    obtain rfl := parses_unique hv' hu'
    exact ⟨ys, ⟨hy, k2⟩, pictured_tighter (splitPages_tighter hr) hp hp'⟩

/-! ### cases -/

-- the hypotheses of C131: the first message just fits, with larger spacings it does not
example : ∃ xs, ShownAs fullDms c!"[sc2]ABCDEFG[/sc][np]A[nl2]B[nl3]C" xs ∧ xs.length = 2 := by
  obtain ⟨xs, hx, hn, hlen⟩ := summary_noError (d := fullDms) (ms := c!"[sc4]ABCDEFG[/sc][np]A[nl3]B[nl3]C")
    (l := [(true, 60, 30, 30), (true, 60, 30, 30)]) (by decide +kernel)
  have hv := C22_built_sign_valid .checked _ _ fullDms_built
  have hsz : SizeOk fullDms := ⟨by decide +kernel, by decide +kernel, by decide +kernel⟩
  have hok : SignOk fullDms := ⟨by decide +kernel, by decide +kernel, by decide +kernel, by decide, ⟨by decide, by decide⟩,
    hv.2.2.2.2.1.fonts, hv.2.2.2.2.2.1.graphics⟩
  obtain ⟨xs', h1, h2⟩ := C131_tighter fullDms hsz hok hv.2.2.2.2.1 _ _ hv.2.2.2.2.2.1
    c!"[sc4]ABCDEFG[/sc][np]A[nl3]B[nl3]C" c!"[sc2]ABCDEFG[/sc][np]A[nl2]B[nl3]C" (sizesOk_short _ _ (by decide))
    (sizesOk_short _ _ (by decide))
    [.spacingCharacter 4, .text c!"ABCDEFG", .spacingCharacterEnd, .newPage, .text c!"A", .newLine (some 3), .text c!"B",
      .newLine (some 3), .text c!"C"]
    [.spacingCharacter 2, .text c!"ABCDEFG", .spacingCharacterEnd, .newPage, .text c!"A", .newLine (some 2), .text c!"B",
      .newLine (some 3), .text c!"C"]
    (by
      rw [show slices c!"[sc4]ABCDEFG[/sc][np]A[nl3]B[nl3]C" =
        [c!"[sc4]", c!"ABCDEFG", c!"[/sc]", c!"[np]", c!"A", c!"[nl3]", c!"B", c!"[nl3]", c!"C"] by decide +kernel]
      exact .cons (by decide +kernel) (.cons (by decide +kernel) (.cons (by decide +kernel) (.cons (by decide +kernel)
        (.cons (by decide +kernel) (.cons (by decide +kernel) (.cons (by decide +kernel) (.cons (by decide +kernel)
          (.cons (by decide +kernel) .nil)))))))))
    (by
      rw [show slices c!"[sc2]ABCDEFG[/sc][np]A[nl2]B[nl3]C" =
        [c!"[sc2]", c!"ABCDEFG", c!"[/sc]", c!"[np]", c!"A", c!"[nl2]", c!"B", c!"[nl3]", c!"C"] by decide +kernel]
      exact .cons (by decide +kernel) (.cons (by decide +kernel) (.cons (by decide +kernel) (.cons (by decide +kernel)
        (.cons (by decide +kernel) (.cons (by decide +kernel) (.cons (by decide +kernel) (.cons (by decide +kernel)
          (.cons (by decide +kernel) .nil)))))))))
    (.cons (.chars (by decide)) (.cons .same (.cons .same (.cons .same (.cons .same (.cons (.lines (by decide))
      (.cons .same (.cons .same (.cons .same .nil))))))))) xs ⟨hx, hn⟩
  exact ⟨xs', h1, by rw [← pairwise2_length h2, hlen]; rfl⟩

-- larger spacings do not fit
example : summary fullDms c!"[sc5]ABCDEFG[/sc][np]A[nl4]B[nl3]C" = some [(true, none), (true, none)] := by decide +kernel

/-- **C131 (why)** A spacing that is told can not be left out: that of the font can be larger, and the message is then
refused. -/
theorem C131_left_out :
    summary fullDms c!"[sc0]ABCDEFGHIJ" = some [(true, some (60, 30, 30))] ∧
    summary fullDms c!"ABCDEFGHIJ" = some [(true, none)] := ⟨by decide +kernel, by decide +kernel⟩

end Ntcip
