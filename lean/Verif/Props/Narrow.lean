import Verif.Lemmas.Narrow
import Verif.Props.Stop
/-
C96: a message that is shown, is also shown with narrower texts.
-/
namespace Ntcip
open Spec Tests

theorem takePage_reduced {ft : FontTable} {ss' : List Str} {p' rest' b} (h : TakePage ss' p' rest' b) :
    ∀ {ss V V'}, Parses ss V → Parses ss' V' → Pairwise2 (Reduced ft) V V' →
    ∃ p rest, TakePage ss p rest b ∧ Pairwise2 (Reduced ft) p p' ∧
      ∃ W W', Parses rest W ∧ Parses rest' W' ∧ Pairwise2 (Reduced ft) W W' := by
  have npr : ∀ {v : Value}, Reduced ft v .newPage → v = .newPage := by rintro v ⟨⟩; rfl
  induction h with
  | nil =>
    intro ss V V' h1 h2 hr
    cases h2; cases hr; cases h1
    exact ⟨[], [], .nil, .nil, [], [], .nil, .nil, .nil⟩
  | np hs =>
    intro ss V V' h1 h2 hr
    cases h2 with
    | cons k1 k2 =>
      rw [hs] at k1; cases k1
      cases hr with
      | cons r1 r2 =>
        obtain rfl := npr r1
        cases h1 with
        | cons k3 k4 => exact ⟨[], _, .np k3, .nil, _, _, k4, k2, r2⟩
  | cons hs hne _ ih =>
    intro ss V V' h1 h2 hr
    cases h2 with
    | cons k1 k2 =>
      rw [hs] at k1; cases k1
      cases hr with
      | @cons v _ _ _ r1 r2 =>
        cases h1 with
        | cons k3 k4 =>
          obtain ⟨p, rest, l1, l2, l3⟩ := ih k4 k2 r2
          refine ⟨v :: p, rest, .cons k3 ?_ l1, .cons r1 l2, l3⟩
          rintro rfl
          cases r1
          exact hne rfl

theorem takePage_items {ss : List Str} {vs rest b} (h : TakePage ss vs rest b) (hi : ∀ s ∈ ss, Item s) :
    ∀ s ∈ rest, Item s := by
  induction h with
  | nil => exact hi
  | np _ => exact fun s hs => hi s (List.mem_cons_of_mem _ hs)
  | cons _ _ _ ih => exact ih fun s hs => hi s (List.mem_cons_of_mem _ hs)

theorem reduced_tag {ft v v'} (h : Reduced ft v v') : v'.tag = v.tag := by
  rcases reduced_or h with rfl | ⟨x, y, rfl, rfl, _⟩ <;> rfl

/-- the items of the page: valid, and with the same tags -/
theorem itemStop_reduced {d : Dms} {ft : FontTable} {ss' z} (h : ItemStop d ss' z) : ∀ {ss V V'}, (∀ s ∈ ss', Item s) →
    Parses ss V → Parses ss' V' → Pairwise2 (Reduced ft) V V' → ∃ z, ItemStop d ss z := by
  have wrong : ∀ {s v e}, tryFrom s = .ok (.ok v) → ¬ WrongItem s e := by
    intro s v e hv hw
    rcases wrongItem_error hw with k | ⟨p, k⟩
    · rw [hv] at k; simp at k
    · rw [hv] at k; cases k
  induction h with
  | panic hp =>
    intro ss V V' hi h1 h2 hr
    cases h2 with
    | cons k1 _ =>
      obtain ⟨p, h⟩ := (panicItem_iff (hi _ (List.mem_cons_self ..))).2 hp
      rw [k1] at h; cases h
  | bad _ hw =>
    intro ss V V' hi h1 h2 hr
    cases h2 with
    | cons k1 _ => exact absurd hw (wrong k1)
  | tag hd ht hs =>
    intro ss V V' hi h1 h2 hr
    rw [← C84_item] at hd
    cases h2 with
    | cons k1 _ =>
      rw [hd] at k1; cases k1
      cases hr with
      | cons r1 _ =>
        cases h1 with
        | cons k3 _ => exact ⟨_, .tag ((C84_item ..).1 k3) (by rw [← reduced_tag r1]; exact ht) hs⟩
  | later hd hne hs _ ih =>
    intro ss V V' hi h1 h2 hr
    rw [← C84_item] at hd
    cases h2 with
    | cons k1 k2 =>
      rw [hd] at k1; cases k1
      cases hr with
      | cons r1 r2 =>
        cases h1 with
        | cons k3 k4 =>
          obtain ⟨z, hz⟩ := ih (fun s hs => hi s (List.mem_cons_of_mem _ hs)) k4 k2 r2
          refine ⟨z, .later ((C84_item ..).1 k3) ?_ (by rw [← reduced_tag r1]; exact hs) hz⟩
          rintro rfl
          cases r1
          exact hne rfl

theorem pageStop_reduced {d : Dms} {t ss ss' V V' z} (h : PageStop d t ss' z) (hi : ∀ s ∈ ss', Item s) (h1 : Parses ss V)
    (h2 : Parses ss' V') (hr : Pairwise2 (Reduced d.fontDefinition) V V') : ∃ z, PageStop d t ss z := by
  rcases h with h | ⟨p', rest', b, k1, k2, k3, k4⟩
  · obtain ⟨z, hz⟩ := itemStop_reduced h hi h1 h2 hr
    exact ⟨z, .inl hz⟩
  · obtain ⟨p, rest, l1, l2, _⟩ := takePage_reduced k1 h1 h2 hr
    refine Classical.byContradiction fun hno => ?_
    have hsup : ∀ v ∈ p, ∀ t, v.tag = some t → d.multiCfg.supportedMultiTags t = true := by
      intro v hv t ht
      obtain ⟨v', hv', hr'⟩ : ∃ v' ∈ p', Reduced d.fontDefinition v v' := by
        clear l1 hno k1 k2 k4
        induction l2 with
        | nil => simp at hv
        | cons hr _ ih =>
          rcases List.mem_cons.1 hv with rfl | hv
          · exact ⟨_, List.mem_cons_self .., hr⟩
          · obtain ⟨a, h1, h2⟩ := ih hv
            exact ⟨a, List.mem_cons_of_mem _ h1, h2⟩
      exact k2 v' hv' t (by rw [reduced_tag hr']; exact ht)
    have hk : Silent (pageStops d t p) := silent_iff.2 fun e he => hno ⟨e, .inr ⟨p, rest, b, l1, hsup, k3, he⟩⟩
    exact silent_iff.1 (pageStops_narrow l2 hk) z k4

theorem firstStop_reduced {d : Dms} {t ss' z} (h : FirstStop d t ss' z) : ∀ {ss V V'}, (∀ s ∈ ss', Item s) →
    Parses ss V → Parses ss' V' → Pairwise2 (Reduced d.fontDefinition) V V' → ∃ z, FirstStop d t ss z := by
  induction h with
  | here h =>
    intro ss V V' hi h1 h2 hr
    obtain ⟨z, hz⟩ := pageStop_reduced h hi h1 h2 hr
    exact ⟨z, .here hz⟩
  | @later t _ _ _ _ hno ht _ ih =>
    intro ss V V' hi h1 h2 hr
    obtain ⟨p, rest, l1, l2, W, W', l3, l4, l5⟩ := takePage_reduced ht h1 h2 hr
    by_cases hz : ∃ z, PageStop d t ss z
    · obtain ⟨z, hz⟩ := hz
      exact ⟨z, .here hz⟩
    · have hi' := takePage_items ht hi
      obtain ⟨z, k⟩ := ih hi' l3 l4 l5
      rw [foldl_reduced l2] at k
      exact ⟨z, .later (fun z h => hz ⟨z, h⟩) l1 k⟩

/-! ### sizes and times -/

theorem composed_size {d : Dms} {bg t sp rect vs more a b} (h : Composed d bg t sp rect vs more a b) :
    b.width = a.width ∧ b.height = a.height := by
  have text : ∀ {t sp rect vs a b}, TextDrawn d t sp rect vs a b → b.width = a.width ∧ b.height = a.height := by
    rintro t sp rect vs a b ⟨ps, _, _, _, _, h, _⟩
    exact ⟨h.width, h.height⟩
  induction h with
  | last h1 h2 =>
    rw [(text h2).1, (text h2).2, h1.width, h1.height]; exact ⟨rfl, rfl⟩
  | next h1 h2 _ ih =>
    rw [ih.1, ih.2, (text h2).1, (text h2).2, h1.width, h1.height]; exact ⟨rfl, rfl⟩

theorem splitPages_reduced {ft : FontTable} {V V'} (h : Pairwise2 (Reduced ft) V V') :
    Pairwise2 (Pairwise2 (Reduced ft)) (splitPages V) (splitPages V') := by
  induction h with
  | nil => exact .cons .nil .nil
  | @cons v v' V V' hr _ ih =>
    by_cases hv : v = .newPage
    · subst hv; cases hr
      exact .cons .nil ih
    · have hv' : v' ≠ .newPage := by
        rcases reduced_or hr with rfl | ⟨x, y, rfl, rfl, _⟩
        · exact hv
        · simp
      obtain ⟨p, ps, e1, e2⟩ := splitPages_cons (vs := V) hv
      obtain ⟨p', ps', e3, e4⟩ := splitPages_cons (vs := V') hv'
      rw [e2, e4]
      rw [e1, e3] at ih
      cases ih with
      | cons h1 h2 => exact .cons (.cons hr h1) h2

theorem pageTimes_reduced {ft vs vs'} (h : Pairwise2 (Reduced ft) vs vs') : ∀ a b, pageTimes a b vs' = pageTimes a b vs := by
  intro a
  induction h with
  | nil => intro b; rfl
  | cons hr _ ih =>
    intro b
    unfold pageTimes at ih ⊢
    rw [List.foldl_cons, List.foldl_cons, ih]
    rcases reduced_or hr with rfl | ⟨x, y, rfl, rfl, _⟩ <;> rfl

theorem background_reduced {ft vs vs'} (h : Pairwise2 (Reduced ft) vs vs') : ∀ a b, background a b vs' = background a b vs := by
  intro a
  induction h with
  | nil => intro b; rfl
  | cons hr _ ih =>
    intro b
    unfold background at ih ⊢
    rw [List.foldl_cons, List.foldl_cons, ih]
    rcases reduced_or hr with rfl | ⟨x, y, rfl, rfl, _⟩ <;> rfl

theorem lastRect_narrow {d : Dms} {ft m m'} (h : SectionsNarrower ft m m') : ∀ r, lastRect d r m' = lastRect d r m := by
  induction h with
  | nil => intro r; rfl
  | @cons x y _ _ hr _ ih =>
    intro r
    obtain ⟨r1, us⟩ := x
    obtain ⟨r2, us'⟩ := y
    obtain ⟨rfl, _⟩ : r1 = r2 ∧ _ := hr
    exact ih _

theorem pictured_frames {d : Dms} {ft : FontTable} {ps ps'} (h : Pairwise2 (Pairwise2 (Reduced ft)) ps ps') :
    ∀ {t p xs xs'}, Pictured d t p xs ps → Pictured d t p xs' ps' → Pairwise2 SameFrame xs xs' := by
  induction h with
  | nil =>
    intro t p xs xs' h1 h2
    unfold Pictured at h1 h2
    subst h1; subst h2
    exact .nil
  | cons hr _ ih =>
    intro t p xs xs' h1 h2
    unfold Pictured at h1 h2
    obtain ⟨r1, m1, k1, rfl, k2⟩ := h1
    obtain ⟨r2, m2, l1, rfl, l2⟩ := h2
    rw [pageTimes_reduced hr, background_reduced hr, foldl_reduced hr] at l2
    rw [background_reduced hr] at l1
    rw [pageTimes_reduced hr, background_reduced hr, lastRect_narrow (sections_narrow hr).2]
    have s1 := composed_size k1
    have s2 := composed_size l1
    refine .cons ⟨rfl, _, _, rfl, rfl, rfl, by rw [s1.1, s2.1], by rw [s1.2, s2.2]⟩ (Pairwise2.append ?_ (ih k2 l2))
    split
    · exact .cons ⟨rfl, _, _, rfl, rfl, rfl, rfl, rfl⟩ .nil
    · exact .nil

/-- **C96** a message that is shown is also shown when its texts are replaced by ones that are not wider (in fonts of the
sign with the characters of the old text), and all its pages have the same sizes and times. -/
theorem C96_narrower (d : Dms) (hd : SizeOk d) (hok : SignOk d) (hf : FontsOk d.fontDefinition) (W H : Nat)
    (hg : GraphicsOk W H d.graphicDefinition) (ms ms' : Str) (hs : SizesOk d ms) (hs' : SizesOk d ms')
    (vs vs' : List Value) (hv : Parses (slices ms) vs) (hv' : Parses (slices ms') vs')
    (hr : Pairwise2 (Reduced d.fontDefinition) vs vs') (xs) (hx : Spec.Yields d ms xs) (hn : NoError xs) :
    ∃ xs', Spec.Yields d ms' xs' ∧ NoError xs' ∧ Pairwise2 SameFrame xs xs' := by
  obtain ⟨hno, us, hu, hp⟩ := (C93_message d hd hok hf W H hg ms hs xs).1 ⟨hx, hn⟩
  obtain rfl := parses_unique hv hu
  have hno' : ∀ z, ¬ FirstStop d (signAttr d) (slices ms') z := by
    intro z hz
    obtain ⟨z, k⟩ := firstStop_reduced hz (slices_items ms') hv hv' hr
    exact hno z k
  rcases course_stop hd hok hs' _ (Nat.lt_succ_self _) (.nil (pg := Pages.new d ms')) rfl with
    ⟨ys, g1, z, _, _, _, k4⟩ | ⟨ys, g1, k1, k2, k3, _⟩
  · rw [pagesNew_attr] at k4
    exact absurd ((k4 z).2 rfl) (hno' z)
  · have hy : Spec.Yields d ms' ys := ⟨g1, k1, by unfold Pages.next; rw [k3]⟩
    obtain ⟨us', hu', hp'⟩ := C92_pictures d hf hok.font W H hg ms' ys hy k2
    obtain rfl := parses_unique hv' hu'
    exact ⟨ys, hy, k2, pictured_frames (splitPages_reduced hr) hp hp'⟩


/-! ### shortened texts -/

/-- the width of characters after `k` pixels -/
def advanceFrom (cs k : Nat) (ws : List Nat) : Nat :=
  ws.sum + cs * (List.range ws.length).countP (fun i => 0 < k + (ws.take i).sum)

theorem advanceFrom_cons (cs k a : Nat) (ws : List Nat) :
    advanceFrom cs k (a :: ws) = a + (if 0 < k then cs else 0) + advanceFrom cs (k + a) ws := by
  unfold advanceFrom
  rw [List.length_cons, List.range_succ_eq_map, List.countP_cons, List.countP_map, List.sum_cons]
  have e : (fun i => decide (0 < k + ((a :: ws).take i).sum)) ∘ Nat.succ =
      fun i => decide (0 < k + a + (ws.take i).sum) := by
    funext i
    rw [Function.comp_apply, decide_eq_decide, Nat.succ_eq_add_one, List.take_succ_cons, List.sum_cons, Nat.add_assoc]
  rw [e, Nat.mul_add]
  by_cases hk : 0 < k <;> simp [hk] <;> omega

theorem advanceFrom_mono (cs : Nat) {ws us : List Nat} (h : ws.Sublist us) :
    ∀ k k', k ≤ k' → advanceFrom cs k ws ≤ advanceFrom cs k' us := by
  induction h with
  | slnil => intro k k' _; simp [advanceFrom]
  | cons a _ ih =>
    intro k k' hk
    rw [advanceFrom_cons]
    have := ih k (k' + a) (by omega)
    omega
  | cons_cons a _ ih =>
    intro k k' hk
    rw [advanceFrom_cons, advanceFrom_cons]
    have := ih (k + a) (k' + a) (by omega)
    split <;> split <;> omega

theorem advance_sublist (cs : Nat) {ws us : List Nat} (h : ws.Sublist us) : advance cs ws ≤ advance cs us := by
  have e : ∀ l, advance cs l = advanceFrom cs 0 l := fun l => by unfold advance advanceFrom; simp only [Nat.zero_add]
  rw [e, e]
  exact advanceFrom_mono cs h 0 0 (Nat.le_refl _)

theorem narrower_sublist (t : FontTable) {a b : Str} (h : b.Sublist a) : Narrower t a b := by
  intro f _ es hd
  suffices key : ∃ es', Defined f b es' ∧ es'.Sublist es by
    obtain ⟨es', h1, h2⟩ := key
    exact ⟨es', h1, fun cs => advance_sublist cs (h2.map _)⟩
  unfold Defined at hd ⊢
  induction h generalizing es with
  | slnil => exact ⟨[], rfl, List.nil_sublist _⟩
  | cons c _ ih =>
    cases es with
    | nil => simp at hd
    | cons e es =>
      simp only [List.map_cons, List.cons.injEq] at hd
      obtain ⟨es', h1, h2⟩ := ih _ hd.2
      exact ⟨es', h1, .cons e h2⟩
  | cons_cons c _ ih =>
    cases es with
    | nil => simp at hd
    | cons e es =>
      simp only [List.map_cons, List.cons.injEq] at hd
      obtain ⟨es', h1, h2⟩ := ih _ hd.2
      exact ⟨e :: es', by rw [List.map_cons, List.map_cons, hd.1, h1], .cons_cons e h2⟩

/-- the same value, or a text without some of its characters -/
inductive Spec.Shortened : Value → Value → Prop
  | same {v} : Shortened v v
  | text {a b} : b.Sublist a → Shortened (.text a) (.text b)

/-- **C96 (shorter texts)** on a sign made by the builder, a message of at most 128 characters that is shown, is also
shown when characters of its texts are left out (but no text is left out completely). -/
theorem C96_shortened (p : Profile) (b : DmsBuilder) (d : Dms) (h : b.build p = .ok d)
    (hw : d.vmsCfg.signWidthPixels.toNat < 65535) (hh : d.vmsCfg.signHeightPixels.toNat < 65535)
    (hz : ¬ (d.vmsCfg.signWidthPixels.toNat = 0 ∧ d.vmsCfg.signHeightPixels.toNat = 0))
    (hf : 1 ≤ d.multiCfg.defaultFont.toNat)
    (hjp : d.multiCfg.defaultJustificationPage ≠ .other)
    (hjl : d.multiCfg.defaultJustificationLine ≠ .other ∧ d.multiCfg.defaultJustificationLine ≠ .full)
    (ms ms' : Str) (hl : ms.length ≤ 128) (hl' : ms'.length ≤ 128)
    (vs vs' : List Value) (hv : Parses (slices ms) vs) (hv' : Parses (slices ms') vs')
    (hr : Pairwise2 Shortened vs vs') (xs) (hx : Spec.Yields d ms xs) (hn : NoError xs) :
    ∃ xs', Spec.Yields d ms' xs' ∧ NoError xs' ∧ Pairwise2 SameFrame xs xs' := by
  have hv1 := C22_built_sign_valid p b d h
  have hr' : Pairwise2 (Reduced d.fontDefinition) vs vs' := by
    clear hv hv' hx
    induction hr with
    | nil => exact .nil
    | cons k _ ih =>
      refine .cons ?_ ih
      cases k with
      | same => exact .same
      | text k => exact .text (narrower_sublist _ k)
  exact C96_narrower d ⟨hw, hh, hz⟩ ⟨hw, hh, hf, hjp, hjl, hv1.2.2.2.2.1.fonts, hv1.2.2.2.2.2.1.graphics⟩ hv1.2.2.2.2.1 _ _
    hv1.2.2.2.2.2.1 ms ms' (sizesOk_short d ms hl) (sizesOk_short d ms' hl') vs vs' hv hv' hr' xs hx hn

/-! ### cases -/

/-- a message, and the same one with shorter texts -/
def longMessage : Str := c!"[pt10o5]ABCDEFGHI[np][jl4]ABC"
def shortMessage : Str := c!"[pt10o5]BDI[np][jl4]C"

-- the text fills the line, one more character is too much
example : summary fullDms longMessage = some [(true, some (60, 30, 10)), (false, some (60, 30, 5)),
      (true, some (60, 30, 10)), (false, some (60, 30, 5))] ∧
    summary fullDms c!"[pt10o5]ABCDEFGHIJ[np][jl4]ABC" =
      some [(true, none), (false, some (60, 30, 5)), (true, some (60, 30, 10)), (false, some (60, 30, 5))] :=
  ⟨by decide +kernel, by decide +kernel⟩

-- the hypotheses of C96_shortened, and what it tells
example : ∃ xs', Spec.Yields fullDms shortMessage xs' ∧ NoError xs' ∧ xs'.map (·.1) = [true, false, true, false] := by
  have h : summary fullDms longMessage = some [(true, some (60, 30, 10)), (false, some (60, 30, 5)),
      (true, some (60, 30, 10)), (false, some (60, 30, 5))] := by decide +kernel
  obtain ⟨xs, hy, hx⟩ := summary_yields h
  have hn : NoError xs := by
    intro x hm
    have : (x.1, match x.2 with
      | .ok p => some (p.raster.width, p.raster.height, p.durationDs)
      | .error _ => none) ∈ _ := hx ▸ List.mem_map_of_mem hm
    cases hx2 : x.2 with
    | ok p => exact ⟨p, rfl⟩
    | error e => rw [hx2] at this; simp at this
  have hs : Parses (slices longMessage) [.pageTime (some 10) (some 5), .text c!"ABCDEFGHI", .newPage,
      .justificationLine (some .right), .text c!"ABC"] := by
    rw [show slices longMessage = [c!"[pt10o5]", c!"ABCDEFGHI", c!"[np]", c!"[jl4]", c!"ABC"] by decide +kernel]
    exact .cons (by decide +kernel) (.cons (by decide +kernel) (.cons (by decide +kernel)
      (.cons (by decide +kernel) (.cons (by decide +kernel) .nil))))
  have hs' : Parses (slices shortMessage) [.pageTime (some 10) (some 5), .text c!"BDI", .newPage,
      .justificationLine (some .right), .text c!"C"] := by
    rw [show slices shortMessage = [c!"[pt10o5]", c!"BDI", c!"[np]", c!"[jl4]", c!"C"] by decide +kernel]
    exact .cons (by decide +kernel) (.cons (by decide +kernel) (.cons (by decide +kernel)
      (.cons (by decide +kernel) (.cons (by decide +kernel) .nil))))
  obtain ⟨xs', k1, k2, k3⟩ := C96_shortened .checked _ fullDms fullDms_built (by decide +kernel) (by decide +kernel)
    (by decide +kernel) (by decide +kernel) (by decide) ⟨by decide, by decide⟩ longMessage shortMessage
    (by decide +kernel) (by decide +kernel) _ _ hs hs'
    (.cons .same (.cons (.text (by decide)) (.cons .same (.cons .same (.cons (.text (by decide)) .nil))))) xs hy hn
  refine ⟨xs', k1, k2, ?_⟩
  have e : xs'.map (·.1) = xs.map (·.1) := by
    clear hx hy hn k1 k2
    induction k3 with
    | nil => rfl
    | cons h _ ih => rw [List.map_cons, List.map_cons, ih, h.1]
  rw [e]
  have := congrArg (List.map Prod.fst) hx
  simpa [List.map_map, Function.comp_def] using this.symm

end Ntcip
