import Verif.Lemmas.Account
import Verif.Props.Picture
import Verif.Props.Look
import Verif.Props.Render
/-
Property C92: everything that is given for a message, its pages or its first error.
-/
namespace Ntcip
open Spec Tests

/-- any number of calls of `next` do not panic -/
def Spec.NeverPanics (d : Dms) (ms : Str) : Prop := ∀ n p, Pages.run d n (Pages.new d ms) ≠ .panic p

theorem steps_run {d : Dms} {pg xs pg'} (h : Steps d pg xs pg') {p} (hp : Pages.next d pg' = .panic p) :
    Pages.run d (xs.length + 1) pg = .panic p := by
  induction h with
  | nil => simp [Pages.run, hp]
  | cons hx _ ih => rw [List.length_cons, Pages.run, hx]; simp [ih hp]

theorem next_gives {d : Dms} {pg : Pages} (hon : isOn pg.pageState = true) (hp : ∀ p, Pages.next d pg ≠ .panic p) :
    ∃ x pg', Pages.next d pg = .ok (some x, pg') := by
  cases h : Pages.next d pg with
  | panic p => exact absurd h (hp p)
  | ok r =>
    obtain ⟨o, pg'⟩ := r
    cases o with
    | some x => exact ⟨x, pg', rfl⟩
    | none => rw [(next_none h).1] at hon; cases hon

/-- after an ON page, and its OFF page if there is one -/
theorem next_page {d : Dms} {ms : Str} {pg xs0 p pg1} (h0 : Steps d (Pages.new d ms) xs0 pg)
    (hon : isOn pg.pageState = true) (hx : Pages.next d pg = .ok (some (.ok p), pg1)) :
    ∃ vs rest b ys pg2, TakePage pg.values vs rest b ∧ Steps d pg ys pg2 ∧ NoError ys ∧
      pg2.values = rest ∧ textAttr pg2.renderState = vs.foldl (TextAttr.apply (signAttr d)) (textAttr pg.renderState) ∧
      (if b then isOn pg2.pageState = true else pg2.pageState = .done) := by
  obtain ⟨vs, rest, b, ho⟩ := renderOnPage_ok ((next_on hon).1 hx)
  obtain ⟨_, ha, _⟩ := ho.attr (by rw [(steps_state h0 (pagesOk_new d ms)).default]; exact steps_sign h0)
  have h1 := steps_snoc h0 hx
  have hs := ho.state
  refine ⟨vs, rest, b, ?_⟩
  by_cases hz : pg1.renderState.pageOffTimeDs > 0
  · rw [decide_eq_true hz] at hs
    have hx1 : Pages.next d pg1 = .ok (some (.ok (renderOffPage pg1).1), (renderOffPage pg1).2) := by
      unfold Pages.next
      cases b <;> rw [hs] <;> rfl
    refine ⟨_, _, ho.take, .cons hx (.cons hx1 .nil), ?_, ho.values, ha, ?_⟩
    · intro x hm
      simp only [List.mem_cons, List.not_mem_nil, or_false] at hm
      rcases hm with rfl | rfl <;> exact ⟨_, rfl⟩
    · cases b <;> simp [renderOffPage, hs, PageState.newPage, PageState.doneState, PageState.nextState, isOn]
  · rw [decide_eq_false hz] at hs
    refine ⟨_, _, ho.take, .cons hx .nil, ?_, ho.values, ha, ?_⟩
    · intro x hm
      simp only [List.mem_cons, List.not_mem_nil, or_false] at hm
      subst hm
      exact ⟨_, rfl⟩
    · cases b <;> simp [hs, PageState.newPage, PageState.doneState, isOn]

/-- the course of the remaining pages: they end without error, or there is a first error, that of the first fault -/
theorem course {d : Dms} (hd : SizeOk d) {ms : Str} (hp : NeverPanics d ms) (n : Nat) : ∀ {pg xs0}, pg.values.length < n →
    Steps d (Pages.new d ms) xs0 pg → isOn pg.pageState = true →
    (∃ ys pg1 pg2 e, Steps d pg ys pg1 ∧ NoError ys ∧ Pages.next d pg1 = .ok (some (.error e), pg2) ∧
      ∀ e', FirstFaulty d (textAttr pg.renderState) pg.values e' ↔ e' = e) ∨
    (∃ ys pg1, Steps d pg ys pg1 ∧ NoError ys ∧ pg1.pageState = .done ∧
      ∀ e', ¬ FirstFaulty d (textAttr pg.renderState) pg.values e') := by
  induction n with
  | zero => intro pg xs0 hl; omega
  | succ n ih =>
    intro pg xs0 hl h0 hon
    obtain ⟨x, pg1, hx⟩ := next_gives hon (fun p hpp => hp _ p (steps_run h0 hpp))
    have hf := page_first hd h0 hon hx
    cases x with
    | error e =>
      refine .inl ⟨[], pg, pg1, e, .nil, by simp [NoError], hx, fun e' => ⟨fun h => ?_, ?_⟩⟩
      · cases h with
        | here h => have := (hf e').1 h; cases this; rfl
        | later h _ _ => exact absurd ((hf e).2 rfl) (h e)
      · rintro rfl
        exact .here ((hf _).2 rfl)
    | ok p =>
      have hno : ∀ e, ¬ FirstFault d (textAttr pg.renderState) pg.values e := fun e he => nomatch (hf e).1 he
      obtain ⟨vs, rest, b, ys, pg2, ht, hs, hn, e1, e2, e3⟩ := next_page h0 hon hx
      cases b with
      | false =>
        refine .inr ⟨ys, pg2, hs, hn, by simpa using e3, fun e' h => ?_⟩
        cases h with
        | here h => exact hno _ h
        | later _ ht' _ => obtain ⟨_, _, h⟩ := takePage_unique ht ht'; cases h
      | true =>
        have key : ∀ e', FirstFaulty d (textAttr pg.renderState) pg.values e' ↔
            FirstFaulty d (textAttr pg2.renderState) pg2.values e' := by
          intro e'
          rw [e1, e2]
          constructor
          · intro h
            cases h with
            | here h => exact absurd h (hno _)
            | later _ ht' h => obtain ⟨rfl, rfl, _⟩ := takePage_unique ht ht'; exact h
          · exact .later hno ht
        have hl2 : pg2.values.length < n := by
          have := (takePage_shorter ht).2 rfl
          rw [e1]; omega
        rcases ih hl2 (steps_append h0 hs) (by simpa using e3) with ⟨zs, g1, g2, e, k1, k2, k3, k4⟩ | ⟨zs, g1, k1, k2, k3, k4⟩
        · refine .inl ⟨ys ++ zs, g1, g2, e, steps_append hs k1, ?_, k3, fun e' => (key e').trans (k4 e')⟩
          intro x hm
          rcases List.mem_append.1 hm with hm | hm
          · exact hn x hm
          · exact k2 x hm
        · refine .inr ⟨ys ++ zs, g1, steps_append hs k1, ?_, k3, fun e' h => k4 e' ((key e').1 h)⟩
          intro x hm
          rcases List.mem_append.1 hm with hm | hm
          · exact hn x hm
          · exact k2 x hm

/-- two courses without errors: an error or the end after one of them is the same after the other -/
theorem steps_stop {d : Dms} {pg xs ys pg1 pg2} (h : Steps d pg xs pg1) (hx : NoError xs)
    (h' : Steps d pg ys pg2) (hy : NoError ys) {o o' : Option (Except SyntaxError Page)} {g g'}
    (h1 : Pages.next d pg1 = .ok (o, g)) (h2 : Pages.next d pg2 = .ok (o', g'))
    (ho : ∀ p, o ≠ some (.ok p)) (ho' : ∀ p, o' ≠ some (.ok p)) : xs = ys ∧ o = o' := by
  induction h generalizing ys with
  | nil =>
    cases h' with
    | nil => rw [h1] at h2; cases h2; exact ⟨rfl, rfl⟩
    | cons k _ =>
      rw [h1] at k; cases k
      obtain ⟨p, e⟩ := hy _ (List.mem_cons_self ..)
      exact absurd (by rw [← e]) (ho p)
  | cons k _ ih =>
    cases h' with
    | nil =>
      rw [h2] at k; cases k
      obtain ⟨p, e⟩ := hx _ (List.mem_cons_self ..)
      exact absurd (by rw [← e]) (ho' p)
    | cons k' h' =>
      rw [k] at k'; cases k'
      obtain ⟨rfl, e⟩ := ih (fun x hm => hx x (List.mem_cons_of_mem _ hm)) h' (fun x hm => hy x (List.mem_cons_of_mem _ hm)) h1
      exact ⟨rfl, e⟩

/-- **C92 (first error)** `e` is the first error given for the message exactly when it is the error of the first fault of
the first page that has one. -/
theorem C92_first_error (d : Dms) (hd : SizeOk d) (ms : Str) (hp : NeverPanics d ms) (e : SyntaxError) :
    (∃ xs pg pg', Steps d (Pages.new d ms) xs pg ∧ NoError xs ∧ Pages.next d pg = .ok (some (.error e), pg')) ↔
      FirstFaulty d (signAttr d) (slices ms) e := by
  have hc := course hd hp _ (Nat.lt_succ_self _) (.nil (pg := Pages.new d ms)) rfl
  rw [pagesNew_attr] at hc
  rcases hc with ⟨ys, g1, g2, e', k1, k2, k3, k4⟩ | ⟨ys, g1, k1, k2, k3, k4⟩
  · rw [show slices ms = (Pages.new d ms).values from rfl, k4]
    constructor
    · rintro ⟨xs, pg, pg', h, hn, hx⟩
      obtain ⟨_, h⟩ := steps_stop h hn k1 k2 hx k3 (by simp) (by simp)
      simpa using h
    · rintro rfl
      exact ⟨ys, g1, g2, k1, k2, k3⟩
  · refine ⟨?_, fun h => absurd h (k4 e)⟩
    rintro ⟨xs, pg, pg', h, hn, hx⟩
    have k : Pages.next d g1 = .ok (none, g1) := by unfold Pages.next; rw [k3]
    obtain ⟨_, h⟩ := steps_stop h hn k1 k2 hx k (by simp) (by simp)
    cases h

/-- **C92 (pages)** when there is no error, the pages are those described by the values of the message (`Pictured`). -/
theorem C92_pictures (d : Dms) (hf : FontsOk d.fontDefinition) (h0 : 1 ≤ d.multiCfg.defaultFont.toNat) (W H : Nat)
    (hg : GraphicsOk W H d.graphicDefinition) (ms : Str) (xs) (h : Spec.Yields d ms xs) (hn : NoError xs) :
    ∃ vs, Parses (slices ms) vs ∧ Pictured d (signAttr d) (signPage d) xs (splitPages vs) := by
  obtain ⟨pg', hs, he⟩ := h
  obtain ⟨vs, h1, h2⟩ := steps_picture hf h0 hg hs (next_none he).1 .nil (by simp [NoError]) hn (by simp [Pages.new])
  refine ⟨vs, h1, ?_⟩
  have e : (.ofRgb d.backgroundDefaultRgb : Color) = .ofRgb (signBackground d) := by
    rw [backgroundDefault_eq]
  have e2 : PicturedFrom d (Pages.new d ms) xs vs = Pictured d (textAttr (Pages.new d ms).renderState)
      ((d.multiCfg.defaultPageOnTime, d.multiCfg.defaultPageOffTime), .ofRgb d.backgroundDefaultRgb) xs
      (splitPages vs) := rfl
  rw [e2, e, pagesNew_attr] at h2
  exact h2

theorem pictured_unique {d : Dms} (hu : UniqueNumbers (fun g : Graphic => g.number.toNat) d.graphicDefinition)
    {ps : List (List Value)} : ∀ {t p xs ys}, (∀ vs ∈ ps, ∀ v ∈ vs, InRange v) → Pictured d t p xs ps →
    Pictured d t p ys ps → xs = ys := by
  induction ps with
  | nil => intro t p xs ys _ h h'; rw [Pictured] at h h'; rw [h, h']
  | cons vs ps ih =>
    intro t p xs ys hv h h'
    obtain ⟨r, more, h1, h2, h3⟩ := h
    obtain ⟨r', more', h1', h2', h3'⟩ := h'
    have hz := sections_all (P := fun v => ∀ pos, v ≠ .graphic 0 pos) (vs := vs) (by
      rintro v hm pos rfl
      have := hv vs (List.mem_cons_self ..) _ hm
      simp [InRange] at this)
    obtain rfl := composed_unique hu h1 (fun pos hm => hz.1 _ hm pos rfl) (fun w hw pos hm => hz.2 w hw _ hm pos rfl) h1'
    obtain rfl := ih (fun us hm => hv us (List.mem_cons_of_mem _ hm)) h3 h3'
    rw [h2, h2']

/-- **C92 (one description)** the values of a message describe one list of pages. -/
theorem C92_unique (d : Dms) (W H : Nat) (hg : GraphicsOk W H d.graphicDefinition) (ms : Str) (vs)
    (hp : Parses (slices ms) vs) (xs ys) (h : Pictured d (signAttr d) (signPage d) xs (splitPages vs))
    (h' : Pictured d (signAttr d) (signPage d) ys (splitPages vs)) : xs = ys :=
  pictured_unique hg.numbers
    (fun p hpp v hv => parses_inRange hp (slices_items ms) v (splitPages_mem p hpp v hv)) h h'

/-- **C92** what is given for a message on which rendering does not panic (see C44): its pages are given, without error,
exactly when no page has a fault, and they are the pages described by its values; otherwise the first error is that of the
first fault (`C92_first_error`). -/
theorem C92_message (d : Dms) (hd : SizeOk d) (hf : FontsOk d.fontDefinition) (h0 : 1 ≤ d.multiCfg.defaultFont.toNat)
    (W H : Nat) (hg : GraphicsOk W H d.graphicDefinition) (ms : Str) (hp : NeverPanics d ms)
    (xs : List (Bool × Except SyntaxError Page)) :
    (Spec.Yields d ms xs ∧ NoError xs) ↔ (∀ e, ¬ FirstFaulty d (signAttr d) (slices ms) e) ∧
      ∃ vs, Parses (slices ms) vs ∧ Pictured d (signAttr d) (signPage d) xs (splitPages vs) := by
  have hc := course hd hp _ (Nat.lt_succ_self _) (.nil (pg := Pages.new d ms)) rfl
  rw [pagesNew_attr] at hc
  constructor
  · rintro ⟨h, hn⟩
    refine ⟨fun e he => ?_, C92_pictures d hf h0 W H hg ms xs h hn⟩
    obtain ⟨ys, g1, g2, k1, k2, k3⟩ := (C92_first_error d hd ms hp e).2 he
    obtain ⟨pg', hs, hend⟩ := h
    obtain ⟨_, h⟩ := steps_stop hs hn k1 k2 hend k3 (by simp) (by simp)
    cases h
  · rintro ⟨hno, vs, hv, hpic⟩
    rcases hc with ⟨ys, g1, g2, e', k1, k2, k3, k4⟩ | ⟨ys, g1, k1, k2, k3, k4⟩
    · exact absurd ((k4 e').2 rfl) (hno e')
    · have hy : Spec.Yields d ms ys := ⟨g1, k1, by unfold Pages.next; rw [k3]⟩
      obtain ⟨vs', hv', hpic'⟩ := C92_pictures d hf h0 W H hg ms ys hy k2
      obtain rfl := parses_unique hv hv'
      obtain rfl := C92_unique d W H hg ms vs hv xs ys hpic hpic'
      exact ⟨hy, k2⟩

/-- **C92 (without panic)** the messages of C44 -/
theorem C92_no_panic (d : Dms) (hd : SignOk d) (ms : Str) (hm : MessageOk d ms) (hs : SizesOk d ms) : NeverPanics d ms := by
  intro n p h
  obtain ⟨pages, pg, k⟩ := C44_no_panic_partial d hd ms hm hs n
  rw [h] at k; cases k

/-- **C92 (built signs)** on a sign made by the builder, for messages of at most 128 ASCII characters (with the conditions
of C44 on tags): either no page has a fault, and the pages described by the values are given without error; or some page
has one, and the first error is that of the first fault. -/
theorem C92_built (p : Profile) (b : DmsBuilder) (d : Dms) (h : b.build p = .ok d)
    (hw : d.vmsCfg.signWidthPixels.toNat < 65535) (hh : d.vmsCfg.signHeightPixels.toNat < 65535)
    (hz : ¬ (d.vmsCfg.signWidthPixels.toNat = 0 ∧ d.vmsCfg.signHeightPixels.toNat = 0))
    (hf : 1 ≤ d.multiCfg.defaultFont.toNat)
    (hjp : d.multiCfg.defaultJustificationPage ≠ .other)
    (hjl : d.multiCfg.defaultJustificationLine ≠ .other ∧ d.multiCfg.defaultJustificationLine ≠ .full)
    (ms : Str) (ha : ∀ c ∈ ms, c.toNat < 128) (hl : ms.length ≤ 128)
    (hfit : ∀ v ∈ validValues ms, ValueFits v) (himp : ∀ v ∈ validValues ms, Supportable d v)
    (hmid : SignCells d ∨ (d.multiCfg.defaultJustificationPage ≠ .middle ∧
      .justificationPage (some .middle) ∉ validValues ms)) :
    ((∀ e, ¬ FirstFaulty d (signAttr d) (slices ms) e) ∧ ∃ vs xs, Parses (slices ms) vs ∧
      Pictured d (signAttr d) (signPage d) xs (splitPages vs) ∧ Spec.Yields d ms xs ∧ NoError xs) ∨
    ∃ e, FirstFaulty d (signAttr d) (slices ms) e ∧
      ∃ xs pg pg', Steps d (Pages.new d ms) xs pg ∧ NoError xs ∧ Pages.next d pg = .ok (some (.error e), pg') := by
  have hv := C22_built_sign_valid p b d h
  have hp : NeverPanics d ms := by
    intro n q hq
    obtain ⟨pages, pg, k⟩ := C44_built_partial p b d h hw hh hf hjp hjl ms ha hl hfit himp hmid n
    rw [hq] at k; cases k
  have hd : SizeOk d := ⟨hw, hh, hz⟩
  have hc := course hd hp _ (Nat.lt_succ_self _) (.nil (pg := Pages.new d ms)) rfl
  rw [pagesNew_attr] at hc
  rcases hc with ⟨ys, g1, g2, e', k1, k2, k3, k4⟩ | ⟨ys, g1, k1, k2, k3, k4⟩
  · exact .inr ⟨e', (k4 e').2 rfl, ys, g1, g2, k1, k2, k3⟩
  · have hy : Spec.Yields d ms ys := ⟨g1, k1, by unfold Pages.next; rw [k3]⟩
    obtain ⟨vs, h1, h2⟩ := C92_pictures d hv.2.2.2.2.1 hf _ _ hv.2.2.2.2.2.1 ms ys hy k2
    exact .inl ⟨k4, vs, ys, h1, h2, hy, k2⟩

/-! ### cases -/

-- the hypotheses of C92 are met by messages with tags in any order, with and without faults
example : NeverPanics fullDms mixedMessage := by
  intro n q hq
  obtain ⟨pages, pg, k⟩ := C44_built_partial .checked _ fullDms fullDms_built (by decide +kernel) (by decide +kernel)
    (by decide +kernel) (by decide) ⟨by decide, by decide⟩ mixedMessage (by decide +kernel) (by decide +kernel)
    (by decide +kernel) (by decide +kernel) (.inl (.inl (by decide +kernel))) n
  rw [hq] at k; cases k

-- colors, lines and graphics in any order
example : shownB graphDms c!"[jp3]A[jl4]B[nl][cf255,0,0]A[tr1,1,60,10]B[g7,5,5][np]A" = some true := by decide +kernel
-- the first page is shown, the error is that of the second one: of its first fault, not of its other ones
example : summary graphDms c!"A[nl]B[np][fo9]A[fo8]~[np]A" =
      some [(true, some (60, 30, 30)), (true, none), (true, some (60, 30, 30))] ∧
    firstFault graphDms c!"A[nl]B[np][fo9]A[fo8]~[np]A" = some (.fontNotDefined 9) := by decide +kernel

end Ntcip
