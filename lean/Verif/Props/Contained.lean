import Verif.Spec.Contained
import Verif.Props.After
import Verif.Lemmas.Quiet
/-
Property C95, widened: pages with text rectangles, and every fault that leaves the other pages alone.
-/
namespace Ntcip
open Spec Tests

variable {d : Dms}

/-- all attributes of a page, by text rectangles -/
theorem sections_fold (a : TextAttr) (vs : List Value) : ∀ t,
    (sections vs).2.foldl (fun t q => q.2.foldl (TextAttr.apply a) t) ((sections vs).1.foldl (TextAttr.apply a) t) =
      vs.foldl (TextAttr.apply a) t := by
  induction vs with
  | nil => intro t; rfl
  | cons v vs ih =>
    intro t
    cases v <;> exact ih _

/-- an error that the next page follows has been found when the whole page was read -/
theorem rectsAfter_next {more : List (Rectangle × List Value)} : ∀ {n t sp rect k ws x t' r},
    (∃ c ∈ rectsAfter d n t sp rect k ws more, c x) → x.2 = .next t' r →
    t' = more.foldl (fun t q => q.2.foldl (TextAttr.apply (signAttr d)) t) (ws.foldl (TextAttr.apply (signAttr d)) t) ∧
      r = lastRect d rect more := by
  induction more with
  | nil =>
    rintro n t sp rect k ws x t' r ⟨c, hc, hx⟩ he
    rw [rectsAfter_eq] at hc
    simp only [tagsAfter, List.map_nil, List.take_nil, List.append_nil] at hc
    have fin : ∀ {c0}, followed (afterRect (ws.foldl (TextAttr.apply (signAttr d)) t) rect (k + ws.length + 1) []) c0 x →
        t' = ws.foldl (TextAttr.apply (signAttr d)) t ∧ r = rect := by
      intro c0 h
      have := h.2
      rw [he] at this
      simp only [afterRect, List.isEmpty_nil, if_true, Resume.next.injEq] at this
      exact this
    rcases List.mem_append.1 hc with hc | hc
    · obtain ⟨_, _, rfl⟩ := List.mem_map.1 hc
      have := hx.2; rw [he] at this; cases this
    rcases List.mem_append.1 hc with hc | hc
    · rcases List.mem_append.1 hc with hc | hc
      · obtain ⟨_, _, rfl⟩ := List.mem_map.1 hc
        have := hx.2; rw [he] at this; cases this
      · obtain ⟨_, _, rfl⟩ := List.mem_map.1 hc
        exact fin hx
    · obtain rfl := List.mem_singleton.1 hc
      exact fin hx
  | cons q more ih =>
    obtain ⟨r0, us⟩ := q
    rintro n t sp rect k ws x t' r ⟨c, hc, hx⟩ he
    rw [rectsAfter_eq] at hc
    have fin : ∀ {c0}, ¬ followed (afterRect (ws.foldl (TextAttr.apply (signAttr d)) t) rect (k + ws.length + 1)
        ((r0, us) :: more)) c0 x := by
      intro c0 h
      have := h.2
      rw [he] at this
      cases this
    rcases List.mem_append.1 hc with hc | hc
    · obtain ⟨_, _, rfl⟩ := List.mem_map.1 hc
      have := hx.2; rw [he] at this; cases this
    rcases List.mem_append.1 hc with hc | hc
    · rcases List.mem_append.1 hc with hc | hc
      · rcases List.mem_append.1 hc with hc | hc
        · obtain ⟨_, _, rfl⟩ := List.mem_map.1 hc
          have := hx.2; rw [he] at this; cases this
        · obtain ⟨_, _, rfl⟩ := List.mem_map.1 hc
          have := hx.2; rw [he] at this; cases this
      · obtain ⟨_, _, rfl⟩ := List.mem_map.1 hc
        exact (fin hx).elim
    · rcases List.mem_cons.1 hc with rfl | hc
      · exact (fin hx).elim
      · exact ih ⟨c, hc, hx⟩ he

theorem checksAfter_next {t vs x t' r} (h : First (checksAfter d t vs) x) (he : x.2 = .next t' r) :
    t' = vs.foldl (TextAttr.apply (signAttr d)) t ∧ r = lastRect d (signRect d) (sections vs).2 := by
  obtain ⟨c, hc, hx⟩ := first_mem h
  rcases List.mem_append.1 hc with hc | hc
  · obtain ⟨v, _, rfl⟩ := List.mem_map.1 hc
    have := hx.2; rw [he] at this; cases this
  · rw [← sections_fold]
    exact rectsAfter_next ⟨c, hc, hx⟩ he

/-- a page of a message, and the pages after it -/
theorem page_rest {ss V vs rest b} (hp : Parses ss V) (hv : TagsOk d V) (ht : TakePage ss vs rest b) :
    TagsOk d vs ∧ (b = true → d.multiCfg.supportedMultiTags .np = true) ∧
      ∃ W, Parses rest W ∧ TagsOk d W ∧ splitPages V = vs :: (if b then splitPages W else []) := by
  rcases takePage_parses ht hp with ⟨rfl, rfl⟩ | ⟨rfl, W, rfl, hW⟩
  · have hr : rest = [] := takePage_end ht
    subst hr
    refine ⟨hv, by simp, [], .nil, by simp [TagsOk], ?_⟩
    obtain ⟨us, hu, hsp⟩ := takePage_split ht [] .nil
    obtain rfl := parses_unique hu hp
    exact hsp
  · refine ⟨fun v hm => hv v (List.mem_append_left _ hm), fun _ => ?_, W, hW,
      fun v hm => hv v (List.mem_append_right _ (List.mem_cons_of_mem _ hm)), ?_⟩
    · exact hv .newPage (List.mem_append_right _ (List.mem_cons_self ..)) _ rfl
    · obtain ⟨us, hu, hsp⟩ := takePage_split ht W hW
      obtain rfl := parses_unique hu hp
      exact hsp

/-- the first fault of a page with valid items -/
theorem firstAfter_checks {t ss vs rest b} (ht : TakePage ss vs rest b) (hs : TagsOk d vs)
    (hnp : b = true → d.multiCfg.supportedMultiTags .np = true) :
    (∀ x, FirstAfter d t ss x ↔ First (checksAfter d t vs) x) ∧
      ∀ e, FirstFault d t ss e ↔ First (pageChecks d t vs) e := by
  refine ⟨fun x => ⟨?_, fun h => .inr ⟨vs, rest, b, ht, hs, hnp, h⟩⟩,
    fun e => ⟨?_, fun h => .inr ⟨vs, rest, b, ht, hs, hnp, h⟩⟩⟩
  · rintro (⟨hf, _⟩ | ⟨vs', rest', b', ht', _, _, hf⟩)
    · exact (itemFault_take ht hs hnp hf).elim
    · obtain ⟨rfl, -, -⟩ := takePage_unique ht ht'
      exact hf
  · rintro (hf | ⟨vs', rest', b', ht', _, _, hf⟩)
    · exact (itemFault_take ht hs hnp hf).elim
    · obtain ⟨rfl, -, -⟩ := takePage_unique ht ht'
      exact hf

theorem given_separate {t p ss xs} (h : Given d t p ss xs) : ∀ {V}, Parses ss V → TagsOk d V →
    Contained d t (splitPages V) → Separate d t p xs (splitPages V) := by
  induction h with
  | @shown t p ss vs rest b raster more hno ht hc hG hend ih =>
    intro V hp hv hC
    obtain ⟨h1, h2, W, h4, h5, h6⟩ := page_rest hp hv ht
    rw [h6] at hC ⊢
    rw [Separate]
    refine ⟨_, more, rfl, .inr ⟨raster, rfl, fun e he => hno e (((firstAfter_checks ht h1 h2).2 e).2 he), hc⟩, ?_⟩
    cases b with
    | true => exact ih rfl h4 h5 hC.2
    | false => exact hend rfl
  | page hfa ht _ _ =>
    intro V hp hv hC
    obtain ⟨h1, h2, W, h4, h5, h6⟩ := page_rest hp hv ht
    rw [h6] at hC
    rcases hC.1 _ (((firstAfter_checks ht h1 h2).1 _).1 hfa) with ⟨_, _, h⟩ | ⟨_, h⟩ <;> cases h
  | @next t p ss vs rest b e t' rect more hfa ht hG hend ih =>
    intro V hp hv hC
    obtain ⟨h1, h2, W, h4, h5, h6⟩ := page_rest hp hv ht
    rw [h6] at hC ⊢
    have hf := ((firstAfter_checks ht h1 h2).1 _).1 hfa
    obtain ⟨rfl, rfl⟩ := checksAfter_next hf rfl
    rw [Separate]
    refine ⟨_, more, rfl, .inl ⟨e, rfl, ((firstAfter_checks ht h1 h2).2 e).1 (firstAfter_fault hfa)⟩, ?_⟩
    cases b with
    | true => exact ih rfl h4 h5 hC.2
    | false => exact hend rfl
  | @stop t p ss vs rest b e rect hfa ht =>
    intro V hp hv hC
    obtain ⟨h1, h2, W, h4, h5, h6⟩ := page_rest hp hv ht
    rw [h6] at hC ⊢
    rcases hC.1 _ (((firstAfter_checks ht h1 h2).1 _).1 hfa) with ⟨_, _, h⟩ | ⟨hb, h⟩
    · cases h
    · cases h
      cases b with
      | true => exact (splitPages_ne W hb).elim
      | false =>
        rw [Separate]
        exact ⟨_, [], by rw [List.append_nil], .inl ⟨e, rfl,
          ((firstAfter_checks ht h1 h2).2 e).1 (firstAfter_fault hfa)⟩, rfl⟩

/-- such a message comes to its end -/
theorem contained_ends (hd : SizeOk d) {ms : Str} (hp : NeverPanics d ms) (n : Nat) : ∀ {pg xs0 V},
    (splitPages V).length < n → Steps d (Pages.new d ms) xs0 pg → isOn pg.pageState = true → Parses pg.values V →
    TagsOk d V → Contained d (textAttr pg.renderState) (splitPages V) →
    ∃ xs q, Steps d pg xs q ∧ q.pageState = .done := by
  induction n with
  | zero => intro pg xs0 V h; omega
  | succ n ih =>
    intro pg xs0 V hl hs hon hV hv hC
    obtain ⟨x, pg1, hx⟩ := next_gives hon fun p hpp => hp _ p (steps_run hs hpp)
    have hs1 := steps_snoc hs hx
    -- after the OFF page
    have fin : ∀ {vs rest} {b : Bool}, TakePage pg.values vs rest b → pg1.pageState = (if b then PageState.newPage
          else PageState.doneState) (decide (pg1.renderState.pageOffTimeDs > 0)) →
        pg1.values = rest → textAttr pg1.renderState = vs.foldl (TextAttr.apply (signAttr d)) (textAttr pg.renderState) →
        ∃ xs q, Steps d pg xs q ∧ q.pageState = .done := by
      intro vs rest b ht hst hr ha
      obtain ⟨h1, h2, W, h4, h5, h6⟩ := page_rest hV hv ht
      obtain ⟨pg2, k1, k2, k3, k4, k5⟩ := end_steps hs1 hst
      rw [h6] at hC hl
      cases b with
      | false => exact ⟨_, pg2, .cons hx k1, k5 rfl⟩
      | true =>
        rw [if_pos rfl] at hC hl
        simp only [List.length_cons] at hl
        obtain ⟨xs, q, q1, q2⟩ := ih (pg := pg2) (V := W) (by omega) (steps_append hs1 k1) (k4 rfl)
          (by rw [k3, hr]; exact h4) h5 (by rw [k2, ha]; exact hC.2)
        exact ⟨_, q, .cons hx (steps_append k1 q1), q2⟩
    cases x with
    | ok page =>
      obtain ⟨vs, rest, b, hO⟩ := renderOnPage_ok ((next_on hon).1 hx)
      have hdef := (steps_state hs (pagesOk_new d ms)).default
      obtain ⟨_, a1, a2⟩ := hO.attr (by rw [hdef]; exact steps_sign hs)
      exact fin hO.take hO.state hO.values a1
    | error e =>
      obtain ⟨o, o1, o2, o3⟩ := page_after hd hs hon hx
      cases o with
      | none => cases o1
      | some o =>
        obtain ⟨e', r⟩ := o
        have hfa := (o2 _).2 rfl
        rcases o3 _ _ rfl with ⟨hr, _⟩ | ⟨vs, rest, b, ht, hl', hp1⟩
        · obtain ⟨vs, rest, b, ht⟩ : ∃ vs rest b, TakePage pg.values vs rest b := by
            obtain ⟨p, rest, b, h, _⟩ := parses_takes hV
            exact ⟨p, rest, b, h⟩
          obtain ⟨h1, h2, W, h4, h5, h6⟩ := page_rest hV hv ht
          rw [h6] at hC
          rcases hC.1 _ (((firstAfter_checks ht h1 h2).1 _).1 hfa) with ⟨_, _, h⟩ | ⟨_, h⟩ <;>
            (rw [hr] at h; cases h)
        · obtain ⟨h1, h2, W, h4, h5, h6⟩ := page_rest hV hv ht
          have hf := ((firstAfter_checks ht h1 h2).1 _).1 hfa
          have hC' := hC
          rw [h6] at hC'
          rcases hC'.1 _ hf with ⟨t', r', h⟩ | ⟨hb, h⟩
          · cases h
            obtain ⟨rfl, rfl⟩ := checksAfter_next hf rfl
            exact fin ht hl'.1 hl'.2.1 hl'.2.2.1
          · cases h
            obtain ⟨pg2, k1, k2, k3, k4, k5⟩ := end_steps (b := false) hs1 hl'.1
            exact ⟨_, pg2, .cons hx k1, k5 rfl⟩

/-- **C95 (other pages)** when all tags of a message are supported and the first fault of each page is found when the whole
page has been read (so on pages before the last one: in the texts of its last text rectangle, or their number), each page is
given at its place, or its first error; times, colors and text attributes of every page are in effect afterwards, as if
there were no error; each page and each error is followed by its OFF page.  Other faults do affect other pages, see
C95_later_page_lost. -/
theorem C95_contained_partial (d : Dms) (hd : SizeOk d) (hf : FontsOk d.fontDefinition)
    (h0 : 1 ≤ d.multiCfg.defaultFont.toNat) (W H : Nat) (hg : GraphicsOk W H d.graphicDefinition) (ms : Str)
    (hp : NeverPanics d ms) (vs : List Value) (hv : Parses (slices ms) vs)
    (hs : ∀ v ∈ vs, supports d v = true) (hc : Contained d (signAttr d) (splitPages vs)) :
    ∃ xs, Spec.Yields d ms xs ∧ Separate d (signAttr d) (signPage d) xs (splitPages vs) := by
  have hT : TagsOk d vs := by
    intro v hm t ht
    have := hs v hm
    unfold supports at this
    rw [ht] at this
    exact this
  obtain ⟨xs, q, q1, q2⟩ := contained_ends hd hp _ (Nat.lt_succ_self _) (.nil (pg := Pages.new d ms)) rfl hv hT
    (by rw [pagesNew_attr]; exact hc)
  have hy : Spec.Yields d ms xs := ⟨q, q1, by unfold Pages.next; rw [q2]⟩
  exact ⟨xs, hy, given_separate ((C94_given d hd hf h0 W H hg ms hp xs).1 hy) hv hT hc⟩

/-! ### cases -/

/-- a page that was followed by an OFF page and more pages -/
theorem contained_off (hd : SizeOk d) {ms : Str} {xs pg x pg1 vs rest b} (h : Steps d (Pages.new d ms) xs pg)
    (hon : isOn pg.pageState = true) (hx : Pages.next d pg = .ok (some x, pg1)) (hoff : pg1.pageState = .off true)
    (ht : TakePage pg.values vs rest b) (hs : TagsOk d vs)
    (hnp : b = true → d.multiCfg.supportedMultiTags .np = true) :
    ∀ y, First (checksAfter d (textAttr pg.renderState) vs) y → ∃ t' r, y.2 = .next t' r := by
  intro y hy
  obtain ⟨o, o1, o2, o3⟩ := page_after hd h hon hx
  have ho := (o2 y).1 (((firstAfter_checks ht hs hnp).1 y).2 hy)
  obtain ⟨e, r⟩ := y
  rcases o3 e r ho with ⟨_, k, _⟩ | ⟨_, _, _, _, k, _⟩
  · rw [hoff] at k; cases k
  · cases r with
    | page t k' => have := k.1; rw [hoff] at this; cases this
    | next t r => exact ⟨t, r, rfl⟩
    | stop r =>
      have := k.1
      rw [hoff] at this
      unfold PageState.doneState at this
      split at this <;> cases this

/-- a page that was shown -/
theorem contained_shown (hd : SizeOk d) {ms : Str} {xs pg x pg1 vs rest b} (h : Steps d (Pages.new d ms) xs pg)
    (hon : isOn pg.pageState = true) (hx : Pages.next d pg = .ok (some (.ok x), pg1))
    (ht : TakePage pg.values vs rest b) (hs : TagsOk d vs)
    (hnp : b = true → d.multiCfg.supportedMultiTags .np = true) :
    ∀ y, ¬ First (checksAfter d (textAttr pg.renderState) vs) y := by
  intro y hy
  obtain ⟨o, o1, o2, o3⟩ := page_after hd h hon hx
  have ho := (o2 y).1 (((firstAfter_checks ht hs hnp).1 y).2 hy)
  rw [ho] at o1
  cases o1

-- two text rectangles, a character that is not in the font in the last one: the error, its OFF page, the next page
example : summary fullDms c!"[pt10o5][tr1,1,30,15]A[tr1,16,30,15]~[np]B" =
    some [(true, none), (false, some (30, 15, 5)), (true, some (60, 30, 10)), (false, some (60, 30, 5))] := by
  decide +kernel

-- the hypotheses of C95_contained_partial
example : NeverPanics fullDms c!"[pt10o5][tr1,1,30,15]A[tr1,16,30,15]~[np]B" ∧
    Parses (slices c!"[pt10o5][tr1,1,30,15]A[tr1,16,30,15]~[np]B")
      [.pageTime (some 10) (some 5), .textRectangle ⟨1, 1, 30, 15⟩, .text c!"A", .textRectangle ⟨1, 16, 30, 15⟩,
        .text c!"~", .newPage, .text c!"B"] ∧
    (∀ v ∈ [Value.pageTime (some 10) (some 5), .textRectangle ⟨1, 1, 30, 15⟩, .text c!"A",
      .textRectangle ⟨1, 16, 30, 15⟩, .text c!"~", .newPage, .text c!"B"], supports fullDms v = true) ∧
    Contained fullDms (signAttr fullDms) (splitPages [.pageTime (some 10) (some 5), .textRectangle ⟨1, 1, 30, 15⟩,
      .text c!"A", .textRectangle ⟨1, 16, 30, 15⟩, .text c!"~", .newPage, .text c!"B"]) := by
  have hsz : SizeOk fullDms := ⟨by decide +kernel, by decide +kernel, by decide +kernel⟩
  have hT : ∀ vs, (∀ v ∈ vs, supports fullDms v = true) → TagsOk fullDms vs := by
    intro vs hs v hm t ht
    have := hs v hm
    unfold supports at this
    rw [ht] at this
    exact this
  refine ⟨?_, ?_, by decide +kernel, ?_⟩
  · intro n q hq
    obtain ⟨pages, pg, k⟩ := C44_built_partial .checked _ fullDms fullDms_built (by decide +kernel) (by decide +kernel)
      (by decide +kernel) (by decide) ⟨by decide, by decide⟩ c!"[pt10o5][tr1,1,30,15]A[tr1,16,30,15]~[np]B"
      (by decide +kernel) (by decide +kernel)
      (by decide +kernel) (by decide +kernel) (.inl (.inl (by decide +kernel))) n
    rw [hq] at k; cases k
  · rw [show slices c!"[pt10o5][tr1,1,30,15]A[tr1,16,30,15]~[np]B" =
      [c!"[pt10o5]", c!"[tr1,1,30,15]", c!"A", c!"[tr1,16,30,15]", c!"~", c!"[np]", c!"B"] by decide +kernel]
    exact .cons (by decide +kernel) (.cons (by decide +kernel) (.cons (by decide +kernel) (.cons (by decide +kernel)
      (.cons (by decide +kernel) (.cons (by decide +kernel) (.cons (by decide +kernel) .nil))))))
  · rw [show splitPages [.pageTime (some 10) (some 5), .textRectangle ⟨1, 1, 30, 15⟩, .text c!"A",
        .textRectangle ⟨1, 16, 30, 15⟩, .text c!"~", .newPage, .text c!"B"] =
      [[.pageTime (some 10) (some 5), .textRectangle ⟨1, 1, 30, 15⟩, .text c!"A", .textRectangle ⟨1, 16, 30, 15⟩,
        .text c!"~"], [.text c!"B"]] by decide]
    have run : ∃ x pg1 y pg2 z pg3, Pages.next fullDms (Pages.new fullDms c!"[pt10o5][tr1,1,30,15]A[tr1,16,30,15]~[np]B") =
          .ok (some x, pg1) ∧ pg1.pageState = .off true ∧ Pages.next fullDms pg1 = .ok (some y, pg2) ∧
        isOn pg2.pageState = true ∧ pg2.values = [c!"B"] ∧ textAttr pg2.renderState = signAttr fullDms ∧
        Pages.next fullDms pg2 = .ok (some (.ok z), pg3) := by
      have k : (match Pages.next fullDms (Pages.new fullDms c!"[pt10o5][tr1,1,30,15]A[tr1,16,30,15]~[np]B") with
        | .ok (some _, pg1) => decide (pg1.pageState = .off true) && (match Pages.next fullDms pg1 with
          | .ok (some _, pg2) => decide (isOn pg2.pageState = true ∧ pg2.values = [c!"B"] ∧
              textAttr pg2.renderState = signAttr fullDms) && (match Pages.next fullDms pg2 with
            | .ok (some (.ok _), _) => true
            | _ => false)
          | _ => false)
        | _ => false) = true := by decide +kernel
      split at k
      · rename_i x pg1 h1
        rw [Bool.and_eq_true] at k
        obtain ⟨k1, k⟩ := k
        split at k
        · rename_i y pg2 h2
          rw [Bool.and_eq_true] at k
          obtain ⟨k2, k⟩ := k
          split at k
          · rename_i z pg3 h3
            have k2 := of_decide_eq_true k2
            exact ⟨x, pg1, y, pg2, z, pg3, h1, of_decide_eq_true k1, h2, k2.1, k2.2.1, k2.2.2, h3⟩
          · cases k
        · cases k
      · cases k
    obtain ⟨x, pg1, y, pg2, z, pg3, h1, h2, h3, h4, h5, h6, h7⟩ := run
    refine ⟨fun w hw => .inl ?_, fun w hw => ?_, trivial⟩
    · refine contained_off hsz .nil rfl h1 h2 (vs := [.pageTime (some 10) (some 5), .textRectangle ⟨1, 1, 30, 15⟩, .text c!"A",
        .textRectangle ⟨1, 16, 30, 15⟩, .text c!"~"]) (rest := [c!"B"]) (b := true) ?_ (hT _ (by decide +kernel))
        (fun _ => by decide +kernel) w ?_
      · rw [show (Pages.new fullDms c!"[pt10o5][tr1,1,30,15]A[tr1,16,30,15]~[np]B").values =
          [c!"[pt10o5]", c!"[tr1,1,30,15]", c!"A", c!"[tr1,16,30,15]", c!"~", c!"[np]", c!"B"] by decide +kernel]
        exact .cons (by decide +kernel) (by decide) (.cons (by decide +kernel) (by decide) (.cons (by decide +kernel)
          (by decide) (.cons (by decide +kernel) (by decide) (.cons (by decide +kernel) (by decide)
          (.np (by decide +kernel))))))
      · rw [pagesNew_attr]; exact hw
    · refine (contained_shown hsz (.cons h1 (.cons h3 .nil)) h4 h7 (vs := [.text c!"B"]) (rest := []) (b := false) ?_
        (hT _ (by decide +kernel)) (fun h => nomatch h) w ?_).elim
      · rw [h5]; exact .cons (by decide +kernel) (by decide) .nil
      · rw [h6]; exact hw

end Ntcip
