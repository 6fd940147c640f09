import Verif.Spec.Sequel
import Verif.Props.Alone
/-
C100: messages one after another.
-/
namespace Ntcip
open Spec Tests

theorem splitPages_sequel (us vs : List Value) :
    splitPages (us ++ .newPage :: vs) = splitPages us ++ splitPages vs := by
  induction us with
  | nil => simp [splitPages]
  | cons u us ih =>
    by_cases hu : u = .newPage
    · subst hu
      simp only [List.cons_append, splitPages, if_true, ih]
    · obtain ⟨p, ps, e1, e2⟩ := splitPages_cons (vs := us) hu
      rw [e2, List.cons_append]
      simp only [splitPages]
      rw [if_neg hu, ih, e1]
      rfl

theorem splitPages_before {T vs : List Value} (hT : ∀ v ∈ T, v ≠ .newPage) {p ps} (h : splitPages vs = p :: ps) :
    splitPages (T ++ vs) = (T ++ p) :: ps := by
  induction T with
  | nil => exact h
  | cons v T ih =>
    rw [List.cons_append, List.cons_append]
    simp only [splitPages]
    rw [if_neg (hT v (List.mem_cons_self ..)), ih fun w hw => hT w (List.mem_cons_of_mem _ hw)]

theorem splitPages_fold {α : Type} {f : α → Value → α} (hf : ∀ a, f a .newPage = a) (vs : List Value) :
    ∀ a, (splitPages vs).flatten.foldl f a = vs.foldl f a := by
  induction vs with
  | nil => intro a; rfl
  | cons v vs ih =>
    intro a
    by_cases hv : v = .newPage
    · subst hv
      simp only [splitPages, if_true, List.flatten_cons, List.nil_append, List.foldl_cons, hf]
      exact ih a
    · obtain ⟨p, ps, e1, e2⟩ := splitPages_cons (vs := vs) hv
      rw [e2, List.flatten_cons, List.cons_append, List.foldl_cons, List.foldl_cons, ← ih, e1, List.flatten_cons]

theorem pagesQuiet_append {d : Dms} : ∀ {ps qs t}, PagesQuiet d t (ps ++ qs) ↔
    PagesQuiet d t ps ∧ PagesQuiet d (ps.flatten.foldl (TextAttr.apply (signAttr d)) t) qs := by
  intro ps
  induction ps with
  | nil => intro qs t; simp [PagesQuiet]
  | cons p ps ih =>
    intro qs t
    rw [List.cons_append, List.flatten_cons, List.foldl_append]
    simp only [PagesQuiet]
    rw [ih, and_assoc]

theorem pictured_append {d : Dms} : ∀ {ps qs t p xs ys}, Pictured d t p xs ps →
    Pictured d (ps.flatten.foldl (TextAttr.apply (signAttr d)) t)
      (pageTimes (signPage d).1 p.1 ps.flatten, background (signPage d).2 p.2 ps.flatten) ys qs →
    Pictured d t p (xs ++ ys) (ps ++ qs) := by
  intro ps
  induction ps with
  | nil =>
    intro qs t p xs ys h1 h2
    unfold Pictured at h1
    subst h1
    exact h2
  | cons q ps ih =>
    intro qs t p xs ys h1 h2
    unfold Pictured at h1
    obtain ⟨raster, more, k1, rfl, k3⟩ := h1
    rw [List.cons_append]
    unfold Pictured
    refine ⟨raster, more ++ ys, k1, by simp only [List.append_assoc], ih k3 ?_⟩
    rw [List.flatten_cons] at h2
    unfold pageTimes background at h2 ⊢
    rw [List.foldl_append, List.foldl_append, List.foldl_append] at h2
    exact h2

theorem usable_quiet {d : Dms} {v : Value} (hs : isState v = true) (h : ValueOk d v) : QuietValue d v := by
  refine ⟨?_, ?_, ?_⟩
  · rintro (e | _) hz
    · change BackgroundFault d v e at hz
      cases hz with
      | cb hz => exact hz h.1
      | pb hz => exact hz h.1
    · exact hz
  · rintro (e | _) hz
    · obtain ⟨_, hz⟩ : _ ∧ PaintFault d v e := hz
      cases hz with
      | value _ hz => exact hz h
      | missing _ => cases hs
      | version _ _ => cases hs
      | big _ _ _ => cases hs
    · rcases (hz : PaintPanic d v) with hz | ⟨r, c, rfl, _⟩
      · cases v <;> simp [isState] at hs <;> simp [unimplemented] at hz
      · cases hs
  · rintro (e | _) hz
    · exact (hz : LayoutFault d v e).2.1 h
    · exact hz

/-! ### the checks, the other way -/

theorem state_rectStops_inv {d : Dms} {T : List Value} (hT : ∀ v ∈ T, isState v = true) {t sp rect ws next}
    (h : Silent (rectStops d t sp rect (T ++ ws) next)) :
    Silent (rectStops d (T.foldl (TextAttr.apply (signAttr d)) t) sp rect ws next) := by
  unfold rectStops at h ⊢
  simp only [silent_append, silent_map, List.mem_append] at h ⊢
  obtain ⟨h1, h2, h3, h4⟩ := h
  refine ⟨fun v hv => h1 v (.inr hv), fun v hv => h2 v (.inr hv), h3, ?_⟩
  unfold layoutOf at h4 ⊢
  rw [state_pieces hT] at h4
  exact h4

theorem state_pageStops_inv {d : Dms} {T : List Value} (hT : ∀ v ∈ T, isState v = true) {t B}
    (h : Silent (pageStops d t (T ++ B))) : Silent (pageStops d (T.foldl (TextAttr.apply (signAttr d)) t) B) := by
  unfold pageStops at h ⊢
  rw [silent_append, silent_map, state_sections hT] at h
  rw [silent_append, silent_map]
  refine ⟨fun v hv => h.1 v (List.mem_append_right _ hv), ?_⟩
  have h := h.2
  cases hm : (sections B).2 with
  | nil =>
    rw [hm] at h
    unfold rectsStops at h ⊢
    rw [silent_append] at h ⊢
    exact ⟨state_rectStops_inv hT h.1, h.2⟩
  | cons x more =>
    rw [hm] at h
    obtain ⟨r, us⟩ := x
    unfold rectsStops at h ⊢
    rw [silent_append, silent_cons] at h ⊢
    refine ⟨state_rectStops_inv hT h.1, h.2.1, ?_⟩
    have h := h.2.2
    rw [List.foldl_append, List.foldl_append, state_spacing hT] at h
    exact h

/-! ### the property -/

theorem shownAs_unique {d ms xs ys} (h : ShownAs d ms xs) (h' : ShownAs d ms ys) : xs = ys :=
  steps_unique h.1.choose_spec.1 h.1.choose_spec.2 h'.1.choose_spec.1 h'.1.choose_spec.2

/-- **C100** let `T` be state tags that the sign can use, which take back the effect of all values of a message.  Then
the message, a new page with the tags `T`, and another message are shown together exactly if each of the two messages
is shown, and what is given is what is given for the first and then for the second message. -/
theorem C100_sequence (d : Dms) (hd : SizeOk d) (hok : SignOk d) (hf : FontsOk d.fontDefinition) (W H : Nat)
    (hg : GraphicsOk W H d.graphicDefinition) (ms ms' both : Str) (hs : SizesOk d ms) (hs' : SizesOk d ms')
    (hs2 : SizesOk d both) (vs T vs' : List Value) (hv : Parses (slices ms) vs) (hv' : Parses (slices ms') vs')
    (hv2 : Parses (slices both) (vs ++ .newPage :: (T ++ vs'))) (hT : ∀ v ∈ T, isState v = true ∧ Usable d v)
    (hnp : d.multiCfg.supportedMultiTags .np = true) (hst : Restored d (vs ++ T))
    (hc : (∀ c, Value.colorBackground c ∉ T) ∨ ∀ n pos, Value.graphic n pos ∉ vs') (zs) :
    ShownAs d both zs ↔ ∃ xs ys, zs = xs ++ ys ∧ ShownAs d ms xs ∧ ShownAs d ms' ys := by
  have hTs : ∀ v ∈ T, isState v = true := fun v h => (hT v h).1
  have hTn : ∀ v ∈ T, v ≠ .newPage := by
    rintro v h rfl
    have := hTs _ h
    cases this
  have hqv : ∀ v ∈ T, QuietValue d v := fun v h => usable_quiet (hTs v h) (hT v h).2.2
  obtain ⟨p, ps, hp⟩ : ∃ p ps, splitPages vs' = p :: ps := by
    cases h : splitPages vs' with
    | nil => exact absurd h (splitPages_ne_nil _)
    | cons p ps => exact ⟨p, ps, rfl⟩
  have hspl : splitPages (vs ++ .newPage :: (T ++ vs')) = splitPages vs ++ (T ++ p) :: ps := by
    rw [splitPages_sequel, splitPages_before hTn hp]
  obtain ⟨s1, s2, s3⟩ := hst
  have ea : ∀ t, (splitPages vs).flatten.foldl (TextAttr.apply (signAttr d)) t = vs.foldl (TextAttr.apply (signAttr d)) t :=
    splitPages_fold (fun _ => rfl) vs
  have et : ∀ c, pageTimes (signPage d).1 c (splitPages vs).flatten = pageTimes (signPage d).1 c vs := by
    intro c; unfold pageTimes; exact splitPages_fold (fun _ => rfl) vs c
  have eb : ∀ c, background (signPage d).2 c (splitPages vs).flatten = background (signPage d).2 c vs := by
    intro c; unfold background; exact splitPages_fold (fun _ => rfl) vs c
  have e1 : T.foldl (TextAttr.apply (signAttr d)) (vs.foldl (TextAttr.apply (signAttr d)) (signAttr d)) = signAttr d := by
    rw [← List.foldl_append]; exact s1
  have e2 : pageTimes (signPage d).1 (pageTimes (signPage d).1 (signPage d).1 vs) T = (signPage d).1 := by
    unfold pageTimes at s2 ⊢; rw [List.foldl_append] at s2; exact s2
  have e3 : background (signPage d).2 (background (signPage d).2 (signPage d).2 vs) T = (signPage d).2 := by
    unfold background at s3 ⊢; rw [List.foldl_append] at s3; exact s3
  have fwd : ∀ xs ys, ShownAs d ms xs → ShownAs d ms' ys → ShownAs d both (xs ++ ys) := by
    intro xs ys hx hy
    obtain ⟨⟨h1, h2⟩, h3⟩ := (shown_iff d hd hok hf W H hg ms hs hv xs).1 hx
    obtain ⟨⟨h1', h2'⟩, h3'⟩ := (shown_iff d hd hok hf W H hg ms' hs' hv' ys).1 hy
    refine (shown_iff d hd hok hf W H hg both hs2 hv2 (xs ++ ys)).2 ⟨⟨?_, ?_⟩, ?_⟩
    · intro v h
      rcases List.mem_append.1 h with h | h
      · exact h1 v h
      · rcases List.mem_cons.1 h with rfl | h
        · intro t ht
          rw [newPage_tag] at ht; cases ht
          exact hnp
        · rcases List.mem_append.1 h with h | h
          · exact (hT v h).2.1
          · exact h1' v h
    · rw [hspl, pagesQuiet_append]
      refine ⟨h2, ?_⟩
      rw [hp] at h2'
      rw [ea]
      refine ⟨state_pageStops hTs hqv (by rw [e1]; exact h2'.1), ?_⟩
      rw [List.foldl_append, e1]
      exact h2'.2
    · rw [hspl]
      refine pictured_append h3 ?_
      rw [ea, et, eb]
      rw [hp] at h3'
      unfold Pictured at h3' ⊢
      obtain ⟨raster, more, k1, k2, k3⟩ := h3'
      have ft : pageTimes (signPage d).1 (pageTimes (signPage d).1 (signPage d).1 vs) (T ++ p) =
          pageTimes (signPage d).1 (signPage d).1 p := by
        rw [← congrArg (fun c => pageTimes (signPage d).1 c p) e2]
        unfold pageTimes; rw [List.foldl_append]
      have fb : background (signPage d).2 (background (signPage d).2 (signPage d).2 vs) (T ++ p) =
          background (signPage d).2 (signPage d).2 p := by
        rw [← congrArg (fun c => background (signPage d).2 c p) e3]
        unfold background; rw [List.foldl_append]
      simp only [ft, fb, state_sections hTs, List.foldl_append, e1]
      refine ⟨raster, more, ?_, k2, k3⟩
      refine state_composed hTs (hc.imp id fun h n pos hm => h n pos ?_) (by rw [e1]; exact k1)
      exact splitPages_mem p (by rw [hp]; exact List.mem_cons_self ..) _ (sections_mem _ hm)
  constructor
  · intro hz
    obtain ⟨⟨h1, h2⟩, _⟩ := (shown_iff d hd hok hf W H hg both hs2 hv2 zs).1 hz
    rw [hspl, pagesQuiet_append, ea] at h2
    obtain ⟨q1, q2, q3⟩ := h2
    have q2 := state_pageStops_inv hTs q2
    rw [e1] at q2
    rw [List.foldl_append, e1] at q3
    obtain ⟨xs, hx⟩ := quiet_shown d hd hok ms hs hv ⟨fun v h => h1 v (List.mem_append_left _ h), q1⟩
    obtain ⟨ys, hy⟩ := quiet_shown d hd hok ms' hs' hv'
      ⟨fun v h => h1 v (List.mem_append_right _ (List.mem_cons_of_mem _ (List.mem_append_right _ h))), by
        rw [hp]; exact ⟨q2, q3⟩⟩
    exact ⟨xs, ys, shownAs_unique hz (fwd xs ys hx hy), hx, hy⟩
  · rintro ⟨xs, ys, rfl, hx, hy⟩
    exact fwd xs ys hx hy

/-- **C100 (reset)** on a sign made by the builder that supports the tags `[np]`, `[fo]`, `[jl]`, `[jp]`, `[sc]`, `[cf]`,
`[pb]` and `[pt]`, two messages with `[np][fo][jl][jp][/sc][cf][pb][pt]` between them are shown exactly if both are shown:
what is given is what is given for the first and then for the second one. -/
theorem C100_reset (p : Profile) (b : DmsBuilder) (d : Dms) (h : b.build p = .ok d)
    (hw : d.vmsCfg.signWidthPixels.toNat < 65535) (hh : d.vmsCfg.signHeightPixels.toNat < 65535)
    (hz : ¬ (d.vmsCfg.signWidthPixels.toNat = 0 ∧ d.vmsCfg.signHeightPixels.toNat = 0))
    (hf : 1 ≤ d.multiCfg.defaultFont.toNat)
    (hjp : d.multiCfg.defaultJustificationPage ≠ .other)
    (hjl : d.multiCfg.defaultJustificationLine ≠ .other ∧ d.multiCfg.defaultJustificationLine ≠ .full)
    (ht : ∀ t ∈ [Tag.np, .fo, .jl, .jp, .sc, .cf, .pb, .pt], d.multiCfg.supportedMultiTags t = true)
    (ms ms' both : Str) (hl : ms.length ≤ 128) (hl' : ms'.length ≤ 128) (hl2 : both.length ≤ 128)
    (vs vs' : List Value) (hv : Parses (slices ms) vs) (hv' : Parses (slices ms') vs')
    (hv2 : Parses (slices both) (vs ++ .newPage :: (resetTags ++ vs'))) (zs) :
    ShownAs d both zs ↔ ∃ xs ys, zs = xs ++ ys ∧ ShownAs d ms xs ∧ ShownAs d ms' ys := by
  have hv1 := C22_built_sign_valid p b d h
  refine C100_sequence d ⟨hw, hh, hz⟩ ⟨hw, hh, hf, hjp, hjl, hv1.2.2.2.2.1.fonts, hv1.2.2.2.2.2.1.graphics⟩ hv1.2.2.2.2.1 _ _
    hv1.2.2.2.2.2.1 ms ms' both (sizesOk_short d ms hl) (sizesOk_short d ms' hl') (sizesOk_short d both hl2) vs resetTags vs'
    hv hv' hv2 ?_ (ht _ (List.mem_cons_self ..)) ?_ (.inl (by intro c; simp [resetTags])) zs
  · intro v hm
    simp only [resetTags, List.mem_cons, List.not_mem_nil, or_false] at hm
    rcases hm with rfl | rfl | rfl | rfl | rfl | rfl | rfl <;>
      refine ⟨rfl, fun t ht' => ht t ?_, fun c hc => by simp [tagColor] at hc, ?_⟩
    any_goals rfl
    all_goals
      simp only [Value.tag, Option.some.injEq] at ht'
      subst ht'
      decide
  · unfold Restored SameState resetTags pageTimes background
    simp only [List.foldl_append]
    exact ⟨rfl, rfl, rfl⟩

/-! ### cases -/

/-- two messages, and both with the reset tags between them -/
def firstMessage : Str := c!"[cf255,0,0][pt10o5][jl4]A[np]B"
def secondMessage : Str := c!"[jp3]C"
def bothMessages : Str := c!"[cf255,0,0][pt10o5][jl4]A[np]B[np][fo][jl][jp][/sc][cf][pb][pto][jp3]C"

def firstValues : List Value :=
  [.colorForeground (some (.rgb 255 0 0)), .pageTime (some 10) (some 5), .justificationLine (some .right), .text c!"A",
    .newPage, .text c!"B"]

-- the hypotheses of C100_reset, and what it tells
example : ∃ xs y, Spec.Yields fullDms firstMessage xs ∧ Spec.Yields fullDms secondMessage [y] ∧ xs.length = 4 ∧
    Spec.Yields fullDms bothMessages (xs ++ [y]) := by
  obtain ⟨xs, hx, hn, hl⟩ := summary_noError (d := fullDms) (ms := firstMessage) (l := [(true, 60, 30, 10), (false, 60, 30, 5),
    (true, 60, 30, 10), (false, 60, 30, 5)]) (by decide +kernel)
  obtain ⟨ys, hy, hn', hl'⟩ := summary_noError (d := fullDms) (ms := secondMessage) (l := [(true, 60, 30, 30)])
    (by decide +kernel)
  have hs : Parses (slices firstMessage) firstValues := by
    rw [show slices firstMessage = [c!"[cf255,0,0]", c!"[pt10o5]", c!"[jl4]", c!"A", c!"[np]", c!"B"] by decide +kernel]
    exact .cons (by decide +kernel) (.cons (by decide +kernel) (.cons (by decide +kernel) (.cons (by decide +kernel)
      (.cons (by decide +kernel) (.cons (by decide +kernel) .nil)))))
  have hs' : Parses (slices secondMessage) [.justificationPage (some .middle), .text c!"C"] := by
    rw [show slices secondMessage = [c!"[jp3]", c!"C"] by decide +kernel]
    exact .cons (by decide +kernel) (.cons (by decide +kernel) .nil)
  have hs2 : Parses (slices bothMessages) (firstValues ++ .newPage :: (resetTags ++
      [.justificationPage (some .middle), .text c!"C"])) := by
    rw [show slices bothMessages = slices firstMessage ++ c!"[np]" :: ([c!"[fo]", c!"[jl]", c!"[jp]", c!"[/sc]", c!"[cf]", c!"[pb]",
      c!"[pto]"] ++ slices secondMessage) by decide +kernel]
    refine parses_append hs (.cons (by decide +kernel) (parses_append ?_ hs'))
    exact .cons (by decide +kernel) (.cons (by decide +kernel) (.cons (by decide +kernel) (.cons (by decide +kernel)
      (.cons (by decide +kernel) (.cons (by decide +kernel) (.cons (by decide +kernel) .nil))))))
  have key := (C100_reset .checked _ fullDms fullDms_built (by decide +kernel)
    (by decide +kernel) (by decide +kernel) (by decide +kernel) (by decide) ⟨by decide, by decide⟩ (by decide +kernel)
    firstMessage secondMessage bothMessages (by decide +kernel) (by decide +kernel) (by decide +kernel) _ _ hs hs' hs2
    (xs ++ ys)).2 ⟨xs, ys, rfl, ⟨hx, hn⟩, hy, hn'⟩
  match ys, hl', hy, key with
  | [y], _, hy, key => exact ⟨xs, y, hx, hy, hl, key.1⟩

-- without the reset tags, the second message is seen at another place, in another color and for another time
example : summary fullDms c!"[cf255,0,0][pt10o5][jl4]A[np]B[np][jp3]C" =
    some [(true, some (60, 30, 10)), (false, some (60, 30, 5)), (true, some (60, 30, 10)), (false, some (60, 30, 5)),
      (true, some (60, 30, 10)), (false, some (60, 30, 5))] := by decide +kernel

end Ntcip
