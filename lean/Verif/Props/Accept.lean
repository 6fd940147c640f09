import Verif.Lemmas.Accept
import Verif.Props.Compose
/-
Property C67: a page is rendered exactly when the sign can show it.
-/
namespace Ntcip
open Spec Tests

theorem next_on {d pg page pg'} (hon : isOn pg.pageState = true) :
    Pages.next d pg = .ok (some (.ok page), pg') ↔ renderOnPage d pg = .ok (.ok page, pg') := by
  unfold Pages.next
  cases hs : pg.pageState with
  | on _ =>
    simp only [Res.bind_eq_ok, Res.pure_eq, Res.ok.injEq, Prod.mk.injEq, Option.some.injEq]
    constructor
    · rintro ⟨⟨x, y⟩, hx, rfl, rfl⟩
      exact hx
    · intro hx
      exact ⟨_, hx, rfl, rfl⟩
  | off _ => rw [hs] at hon; simp [isOn] at hon
  | done => rw [hs] at hon; simp [isOn] at hon

/-- One page; `t` are the text attributes before it. -/
theorem page_accepted_iff {d : Dms} (hd : AcceptOk d) {ms : Str} {xs pg}
    (h : Steps d (Pages.new d ms) xs pg) (hon : isOn pg.pageState = true) {t} (ha : textAttr pg.renderState = t)
    (htidy : ∀ vs rest b, TakePage pg.values vs rest b → vs.length ≤ 255 ∧ TidyPage d t vs) :
    (∃ page pg', Pages.next d pg = .ok (some (.ok page), pg')) ↔
      ∃ vs rest b, TakePage pg.values vs rest b ∧ PageOk d t vs b := by
  have hp := steps_state h (pagesOk_new d ms)
  have hsign := steps_sign h
  have hnext := fun page pg' => next_on (d := d) (page := page) (pg' := pg') hon
  -- the state after the first look at the page
  have start : ∀ {vs rest b rs}, TakePage pg.values vs rest b →
      updatePageState pg.defaultState pg.renderState pg.values = .ok (.ok (), rs) →
      rs.lineSpacing = none ∧ rs.textRectangle = (signRect d) ∧ textAttr rs = t := by
    intro vs rest b rs ht h1
    unfold updatePageState at h1
    obtain ⟨_, b2, _⟩ := updatePageStateLoop_bg (d := d) (ds := pg.defaultState)
      (by rw [hp.default]; exact ⟨hsign.ds, hsign.fg, hsign.bg, hsign.scheme⟩) h1 ht
    obtain ⟨_, _, _, _, _, ue, _⟩ := updatePageStateLoop_ok h1
    refine ⟨by rw [ue]; simp [hp.default, RenderState.new], by rw [ue]; rw [hp.default]; rfl, by rw [b2, ← ha]; rfl⟩
  constructor
  · rintro ⟨page, pg', hx⟩
    rw [hnext] at hx
    obtain ⟨vs, rest, b, hO⟩ := renderOnPage_ok hx
    obtain ⟨_, t2⟩ := htidy vs rest b hO.take
    have hcol := renderOnPage_color hx hO.take
    rw [hsign.scheme] at hcol
    unfold renderOnPage at hx
    split at hx
    · simp at hx
    · simp at hx
    · simp only [Res.bind_eq_ok] at hx
      obtain ⟨⟨x, rs⟩, h1, h2⟩ := hx
      cases x with
      | error e => simp at h2
      | ok u =>
        simp only [Res.bind_eq_ok] at h2
        obtain ⟨⟨y, pg1⟩, h2, h3⟩ := h2
        cases y with
        | error e => simp at h3
        | ok raster =>
          have hdr : Drawing d ms _ _ := Drawing.start h h1
          obtain ⟨e1, e2, e3⟩ := start hO.take h1
          have := onPageLoop_needs hd h2 (by decide) (by decide) rfl hdr hO.take
            (by dsimp only; rw [e1, e2, e3]; exact allSections_imp (fun _ _ _ _ h => h.1) t2)
          dsimp only at this
          rw [e1, e2, e3] at this
          obtain ⟨n1, n2, n3⟩ := this
          exact ⟨vs, rest, b, hO.take, hO.supported, hO.npSupported,
            fun v hv => valueOk_of (hcol v hv) (n1 v hv).1 (n1 v hv).2, by unfold maxTextRectangles at n2; omega, n3⟩
  · rintro ⟨vs, rest, b, ht, hok⟩
    obtain ⟨t1, t2⟩ := htidy vs rest b ht
    obtain ⟨rs, h1⟩ := updatePageStateLoop_accept (ds := pg.defaultState) ht
      { pg.renderState with
        textRectangle := pg.defaultState.textRectangle, lineSpacing := pg.defaultState.lineSpacing, lineNumber := 0,
        spanNumber := 0 } (by
        intro v hv
        have := (hok.values v hv).1
        rw [← hsign.scheme] at this
        exact this)
    have h1 : updatePageState pg.defaultState pg.renderState pg.values = .ok (.ok (), rs) := h1
    have hdr : Drawing d ms _ _ := Drawing.start h h1
    obtain ⟨e1, e2, e3⟩ := start ht h1
    obtain ⟨raster, pg1, h2⟩ := onPageLoop_accept hd (fuel := maxTextRectangles + 2) (n := 0) (by decide) rfl hdr ht
      hok.values t1 (by have := hok.rects; unfold maxTextRectangles; omega) (by dsimp only; rw [e1, e2, e3]; exact t2)
      (by dsimp only; rw [e1, e2, e3]; exact hok.texts)
    refine ⟨⟨raster, pg1.renderState.pageOnTimeDs.toNat⟩, pg1, ?_⟩
    rw [hnext]
    unfold renderOnPage
    rw [checkUnsupported_take ht hok.supported hok.npSupported]
    simp only [h1, Res.ok_bind, h2, Res.pure_eq]

/-- **C67** pages that are accepted.  At any time before an ON page (no error before), let the values of the page be in
order (`TidyPage`) and not more than 255, if the page is well formed at all.  Then `next` gives an image of the page
exactly when the page is well formed and the sign can show it (`PageOk`): all tags are supported, colors are of the
scheme, rectangles and graphics are inside of the sign, less than 50 text rectangles, fonts and characters are defined,
each line is not wider than its rectangle and the lines not higher. -/
theorem C67_page_iff (d : Dms) (hd : AcceptOk d) (ms : Str) (xs pg)
    (h : Steps d (Pages.new d ms) xs pg) (hn : NoError xs) (hon : isOn pg.pageState = true) :
    ∃ us, Consumed (slices ms) pg.values us ∧
      let t := us.foldl (TextAttr.apply (signAttr d)) (signAttr d)
      ((∀ vs rest b, TakePage pg.values vs rest b → vs.length ≤ 255 ∧ TidyPage d t vs) →
        ((∃ page pg', Pages.next d pg = .ok (some (.ok page), pg')) ↔
          ∃ vs rest b, TakePage pg.values vs rest b ∧ PageOk d t vs b)) := by
  obtain ⟨us, hc, ha, _⟩ := C53_carry d ms xs pg h hn
  exact ⟨us, hc, fun htidy => page_accepted_iff hd h hon ha htidy⟩

theorem takePage_shorter {ss vs rest b} (h : TakePage ss vs rest b) : rest.length ≤ ss.length ∧
    (b = true → rest.length < ss.length) := by
  induction h with
  | nil => simp
  | np _ => simp
  | cons _ _ _ ih => simp only [List.length_cons]; omega

/-- the state in which the pages end is reached without error, exactly when all remaining pages are acceptable -/
theorem message_needs {d : Dms} (hd : AcceptOk d) {ms : Str} {pg xs pg'} (h : Steps d pg xs pg') (hn : NoError xs)
    (hend : pg'.pageState = .done) : ∀ {xs0}, Steps d (Pages.new d ms) xs0 pg →
    (pg.pageState = .off true ∨ isOn pg.pageState = true) →
    (∀ t ss, PageAt d (textAttr pg.renderState) pg.values t ss →
      ∀ vs rest b, TakePage ss vs rest b → vs.length ≤ 255 ∧ TidyPage d t vs) →
    ∀ t ss, PageAt d (textAttr pg.renderState) pg.values t ss → ∃ vs rest b, TakePage ss vs rest b ∧ PageOk d t vs b := by
  induction h with
  | nil =>
    intro xs0 _ hs
    rw [hend] at hs
    simp [isOn] at hs
  | @cons pg pg1 pg' x xs hx hs ih =>
    intro xs0 h0 hst htidy t ss hat
    have hn1 : NoError xs := fun y hy => hn y (List.mem_cons_of_mem _ hy)
    obtain ⟨p, rfl⟩ : ∃ p, x = .ok p := hn _ (List.mem_cons_self ..)
    have ih := ih hn1 hend (steps_snoc h0 hx)
    rcases next_cases hx with ⟨hon, h1⟩ | ⟨hoff, ⟨b, hb⟩, hp, rfl⟩
    · have hpage := (page_accepted_iff hd h0 hon rfl (htidy _ _ .first)).1 ⟨p, pg1, hx⟩
      cases hat with
      | first => exact hpage
      | later ht hat =>
        obtain ⟨vs, rest, b, ho⟩ := renderOnPage_ok h1
        obtain ⟨rfl, rfl, rfl⟩ := takePage_unique ht ho.take
        obtain ⟨_, ha, _⟩ := ho.attr (by rw [(steps_state h0 (pagesOk_new d ms)).default]; exact steps_sign h0)
        rw [ho.values, ha] at ih
        refine ih ?_ (fun t ss h => htidy t ss (.later ht h)) t ss hat
        rw [ho.state]
        simp only [PageState.newPage, if_true]
        split <;> simp [isOn]
    · have hbt : b = true := by
        rcases hst with hst | hst
        · rw [hb] at hst; simpa using hst
        · rw [hb] at hst; simp [isOn] at hst
      subst hbt
      exact ih (by right; simp [renderOffPage, hb, PageState.nextState, isOn]) htidy t ss hat

theorem steps_append {d pg xs pg1 ys pg2} (h : Steps d pg xs pg1) (h' : Steps d pg1 ys pg2) :
    Steps d pg (xs ++ ys) pg2 := by
  induction h with
  | nil => exact h'
  | cons hx _ ih => exact .cons hx (ih h')

theorem message_accept {d : Dms} (hd : AcceptOk d) {ms : Str} (n : Nat) : ∀ {pg xs0}, pg.values.length < n →
    Steps d (Pages.new d ms) xs0 pg → isOn pg.pageState = true →
    (∀ t ss, PageAt d (textAttr pg.renderState) pg.values t ss →
      ∀ vs rest b, TakePage ss vs rest b → vs.length ≤ 255 ∧ TidyPage d t vs) →
    (∀ t ss, PageAt d (textAttr pg.renderState) pg.values t ss → ∃ vs rest b, TakePage ss vs rest b ∧ PageOk d t vs b) →
    ∃ xs pg', Steps d pg xs pg' ∧ NoError xs ∧ pg'.pageState = .done := by
  induction n with
  | zero => intro pg xs0 hl; omega
  | succ n ih =>
    intro pg xs0 hl h0 hon htidy hok
    obtain ⟨p, pg1, hx⟩ := (page_accepted_iff hd h0 hon rfl (htidy _ _ .first)).2 (hok _ _ .first)
    obtain ⟨vs, rest, b, ho⟩ := renderOnPage_ok ((next_on hon).1 hx)
    obtain ⟨_, ha, _⟩ := ho.attr (by rw [(steps_state h0 (pagesOk_new d ms)).default]; exact steps_sign h0)
    have h1 := steps_snoc h0 hx
    have hs := ho.state
    -- an OFF page may follow
    obtain ⟨ys, pg2, g1, g2, g3, g4, g5, g6⟩ : ∃ ys pg2, Steps d pg ys pg2 ∧ NoError ys ∧
        (∃ xs1, Steps d (Pages.new d ms) xs1 pg2) ∧ pg2.values = rest ∧
        textAttr pg2.renderState = vs.foldl (TextAttr.apply (signAttr d)) (textAttr pg.renderState) ∧
        (if b then isOn pg2.pageState = true else pg2.pageState = .done) := by
      by_cases hz : pg1.renderState.pageOffTimeDs > 0
      · rw [decide_eq_true hz] at hs
        have hx1 : Pages.next d pg1 = .ok (some (.ok (renderOffPage pg1).1), (renderOffPage pg1).2) := by
          unfold Pages.next
          cases b <;> rw [hs] <;> rfl
        refine ⟨_, _, .cons hx (.cons hx1 .nil), ?_, ⟨_, steps_snoc h1 hx1⟩, ho.values, ha, ?_⟩
        · intro x hm
          simp only [List.mem_cons, List.not_mem_nil, or_false] at hm
          rcases hm with rfl | rfl <;> exact ⟨_, rfl⟩
        · cases b <;> simp [renderOffPage, hs, PageState.newPage, PageState.doneState, PageState.nextState, isOn]
      · rw [decide_eq_false hz] at hs
        refine ⟨_, _, .cons hx .nil, ?_, ⟨_, h1⟩, ho.values, ha, ?_⟩
        · intro x hm
          simp only [List.mem_cons, List.not_mem_nil, or_false] at hm
          subst hm
          exact ⟨_, rfl⟩
        · cases b <;> simp [hs, PageState.newPage, PageState.doneState, isOn]
    obtain ⟨xs1, g3⟩ := g3
    cases b with
    | false => exact ⟨ys, pg2, g1, g2, by simpa using g6⟩
    | true =>
      obtain ⟨zs, pg3, k1, k2, k3⟩ := ih (by have := (takePage_shorter ho.take).2 rfl; rw [g4]; omega) g3
        (by simpa using g6)
        (by rw [g4, g5]; exact fun t ss h => htidy t ss (.later ho.take h))
        (by rw [g4, g5]; exact fun t ss h => hok t ss (.later ho.take h))
      refine ⟨ys ++ zs, pg3, steps_append g1 k1, ?_, k3⟩
      intro x hm
      rcases List.mem_append.1 hm with hm | hm
      · exact g2 x hm
      · exact k2 x hm

/-- **C67 (messages)** Let the values of all pages of a message be in order.  Then all its pages are rendered without any
error exactly when the sign can show all of them. -/
theorem C67_message_iff (d : Dms) (hd : AcceptOk d) (ms : Str) (ht : TidyMessage d ms) :
    (∃ xs, Yields d ms xs ∧ NoError xs) ↔ Showable d ms := by
  constructor
  · rintro ⟨xs, ⟨pg', h1, h2⟩, hn⟩
    have k := message_needs hd h1 hn (next_none h2).1 .nil (.inr rfl) (by rw [pagesNew_attr]; exact ht)
    rw [pagesNew_attr] at k
    exact k
  · intro hok
    obtain ⟨xs, pg', h1, h2, h3⟩ := message_accept hd _ (Nat.lt_succ_self _) (pg := Pages.new d ms) .nil rfl
      (by rw [pagesNew_attr]; exact ht) (by rw [pagesNew_attr]; exact hok)
    refine ⟨xs, ⟨pg', h1, ?_⟩, h2⟩
    unfold Pages.next
    rw [h3]

/-! a sign that meets the hypotheses -/

theorem Tests.fullDms_accept : AcceptOk graphDms where
  width := by decide
  height := by decide
  size := by decide
  graphics := (C21_accepts_iff _ 60 30).mp (by decide +kernel)
  font := by decide
  justPage := by decide
  justLine := by decide
  fonts := (C20_accepts_iff _).mp (by decide +kernel)

/-! a message that meets the hypotheses -/

instance (dflt a : TextAttr) (fresh blank : Bool) (v : Value) : Decidable (InOrder dflt a fresh blank v) := by
  unfold InOrder
  split <;> infer_instance

instance decTidy (dflt : TextAttr) : ∀ a fresh blank vs, Decidable (Tidy dflt a fresh blank vs)
  | _, _, _, [] => isTrue trivial
  | a, fresh, blank, v :: vs =>
    have := decTidy dflt (TextAttr.apply dflt a v) (freshAfter dflt a fresh v) (blankAfter blank v) vs
    inferInstanceAs (Decidable (_ ∧ _))

theorem pageAt_step {d t ss t' ss' vs rest b} (ht : TakePage ss vs rest b) (h : PageAt d t ss t' ss') :
    (t' = t ∧ ss' = ss) ∨ (b = true ∧ PageAt d (vs.foldl (TextAttr.apply (signAttr d)) t) rest t' ss') := by
  cases h with
  | first => exact .inl ⟨rfl, rfl⟩
  | later ht' h =>
    obtain ⟨rfl, rfl, rfl⟩ := takePage_unique ht ht'
    exact .inr ⟨rfl, h⟩

/-- values of one page -/
def Tests.takeValues : List Str → Option (List Value × List Str × Bool)
  | [] => some ([], [], false)
  | s :: ss => match tryFrom s with
    | .ok (.ok .newPage) => some ([], ss, true)
    | .ok (.ok v) => (takeValues ss).map fun (vs, rest, b) => (v :: vs, rest, b)
    | _ => none

theorem takeValues_take {ss vs rest b} (h : takeValues ss = some (vs, rest, b)) : TakePage ss vs rest b := by
  induction ss generalizing vs rest b with
  | nil =>
    simp only [takeValues, Option.some.injEq, Prod.mk.injEq] at h
    obtain ⟨rfl, rfl, rfl⟩ := h
    exact .nil
  | cons s ss ih =>
    unfold takeValues at h
    split at h
    · rename_i hv
      simp only [Option.some.injEq, Prod.mk.injEq] at h
      obtain ⟨rfl, rfl, rfl⟩ := h
      exact .np hv
    · rename_i v hne hv
      simp only [Option.map_eq_some_iff] at h
      obtain ⟨⟨vs', rest', b'⟩, h1, h2⟩ := h
      simp only [Prod.mk.injEq] at h2
      obtain ⟨rfl, rfl, rfl⟩ := h2
      exact .cons hv hne (ih h1)
    · cases h

/-- two pages, the first with two text rectangles, a graphic and a color rectangle -/
def Tests.acceptMsg : Str := c!"AB[nl]A[tr1,11,60,20][g7,3,13][cr1,25,4,4,9,9,9][jl4]A[np]B"

-- the hypotheses of C67 hold for the message
example : TidyMessage graphDms acceptMsg := by
  intro t ss hat vs rest b ht
  have h1 : TakePage (slices acceptMsg) _ _ _ := takeValues_take (vs := [.text c!"AB", .newLine none, .text c!"A",
    .textRectangle ⟨1, 11, 60, 20⟩, .graphic 7 (some (3, 13, none)),
    .colorRectangle ⟨1, 25, 4, 4⟩ (.rgb 9 9 9), .justificationLine (some .right), .text c!"A"])
    (rest := [c!"B"]) (b := true) (by decide +kernel)
  have h2 : TakePage [c!"B"] _ _ _ := takeValues_take (vs := [.text c!"B"]) (rest := []) (b := false) (by decide +kernel)
  have mid : ∀ {t sp rect ws}, (pieces (signAttr graphDms) t sp 0 true ws).all (·.attr.justPage ≠ .middle) = true →
      (∃ s ∈ layoutOf graphDms t sp rect ws, s.state.justPage = .middle) →
        CellFonts graphDms (layoutOf graphDms t sp rect ws) := by
    rintro t sp rect ws h ⟨s, hs, e⟩
    obtain ⟨p, hp, rfl⟩ := List.mem_map.1 hs
    rw [List.all_eq_true] at h
    exact absurd e (by simpa using h p hp : ¬ p.attr.justPage = .middle)
  rcases pageAt_step h1 hat with ⟨rfl, rfl⟩ | ⟨_, hat⟩
  · obtain ⟨rfl, rfl, rfl⟩ := takePage_unique h1 ht
    exact ⟨by decide, .next ⟨by decide, mid (by decide +kernel)⟩ (.last ⟨by decide, mid (by decide +kernel)⟩)⟩
  · rcases pageAt_step h2 hat with ⟨rfl, rfl⟩ | ⟨h, _⟩
    · obtain ⟨rfl, rfl, rfl⟩ := takePage_unique h2 ht
      exact ⟨by decide, .last ⟨by decide, mid (by decide +kernel)⟩⟩
    · cases h

-- and it is rendered
example : pageCount (render graphDms acceptMsg) = some 2 := by decide +kernel
-- these are not: the line is too wide, lines are too high, the graphic is not inside, font 9 is not defined
example : pageCount (render graphDms c!"ABABABABABABABABABABAB") = none := by decide +kernel
example : pageCount (render graphDms c!"A[tr1,11,60,9]A[nl]A[nl]A") = none := by decide +kernel
example : pageCount (render graphDms c!"A[g7,60,13]") = none := by decide +kernel
example : pageCount (render graphDms c!"A[fo9]A") = none := by decide +kernel
-- without the text the font does not matter
example : pageCount (render graphDms c!"A[fo9]") = some 1 := by decide +kernel

end Ntcip
