import Verif.Lemmas.First
import Verif.Props.Fault
/-
Property C90: the error given for a page is that of its first fault.
-/
namespace Ntcip
open Spec Tests

theorem errOf_some {α : Type} {x : Except SyntaxError α} {e} : errOf x = some e ↔ x = .error e := by
  cases x with
  | ok a => simp [errOf]
  | error e' => simp [errOf]

theorem itemFault_take {d : Dms} {ss vs rest b e} (ht : TakePage ss vs rest b)
    (hs : ∀ v ∈ vs, ∀ t, v.tag = some t → d.multiCfg.supportedMultiTags t = true)
    (hnp : b = true → d.multiCfg.supportedMultiTags .np = true) (hf : ItemFault d ss e) : False := by
  have wrong : ∀ {s v e}, tryFrom s = .ok (.ok v) → ¬ WrongItem s e := by
    intro s v e hv hw
    rcases wrongItem_error hw with k | ⟨p, k⟩
    · rw [hv] at k; simp at k
    · rw [hv] at k; cases k
  induction ht with
  | nil => cases hf
  | np hv =>
    cases hf with
    | bad hw => exact wrong hv hw
    | tag hd' ht' hsup =>
      rw [← C84_item, hv] at hd'
      cases hd'
      rw [show Value.newPage.tag = some .np from rfl] at ht'
      cases ht'
      rw [hnp rfl] at hsup; cases hsup
    | later hd' hne _ _ =>
      rw [← C84_item, hv] at hd'
      cases hd'
      exact hne rfl
  | @cons s v ss vs rest b hv hne ht ih =>
    have ih := ih (fun v h => hs v (List.mem_cons_of_mem _ h)) hnp
    cases hf with
    | bad hw => exact wrong hv hw
    | tag hd' ht' hsup =>
      rw [← C84_item, hv] at hd'
      cases hd'
      rw [hs v (List.mem_cons_self ..) _ ht'] at hsup; cases hsup
    | later _ _ _ hf => exact ih hf

theorem page_first {d : Dms} (hd : SizeOk d) {ms : Str} {xs pg x pg'} (h : Steps d (Pages.new d ms) xs pg)
    (hon : isOn pg.pageState = true) (hx : Pages.next d pg = .ok (some x, pg')) :
    ∀ e, FirstFault d (textAttr pg.renderState) pg.values e ↔ x = .error e := by
  have hp := steps_state h (pagesOk_new d ms)
  have hsign := steps_sign h
  rcases next_cases hx with ⟨_, hx⟩ | ⟨hoff, _⟩
  · unfold renderOnPage at hx
    split at hx
    · simp at hx
    · rename_i e' hc
      simp only [Res.ok.injEq, Prod.mk.injEq] at hx
      obtain ⟨rfl, _⟩ := hx
      have hi := checkUnsupported_first (r := some e') hc
      intro e
      constructor
      · rintro (hf | ⟨vs, rest, b, ht, hs, hnp, _⟩)
        · rw [hi, Option.some.injEq] at hf; rw [hf]
        · exact (itemFault_take ht hs hnp ((hi e').2 rfl)).elim
      · intro he
        cases he
        exact .inl ((hi e').2 rfl)
    · rename_i hc
      have hi := checkUnsupported_first (r := none) ⟨_, hc⟩
      obtain ⟨vs, rest, b, ht, hsup, hnp⟩ := checkUnsupported_ok hc
      -- the claim about the checks of the page
      have fin : ∀ {r}, Verdict (pageChecks d (textAttr pg.renderState) vs) r → errOf x = r →
          (∀ e, FirstFault d (textAttr pg.renderState) pg.values e ↔ x = .error e) := by
        intro r hv hr e
        rw [← errOf_some, hr]
        constructor
        · rintro (hf | ⟨vs', rest', b', ht', _, _, hf⟩)
          · rw [hi] at hf; cases hf
          · obtain ⟨rfl, _⟩ := takePage_unique ht ht'
            exact verdict_unique pageChecks_one hv (r' := some e) hf
        · intro he
          rw [he] at hv
          exact .inr ⟨vs, rest, b, ht, hsup, hnp, hv⟩
      simp only [Res.bind_eq_ok] at hx
      obtain ⟨⟨y, rs⟩, h1, h2⟩ := hx
      have hbg := updatePageStateLoop_first (d := d) ht _ (by dsimp only; exact hsign.scheme) _ _ h1
      cases y with
      | error e' =>
        simp only [Res.pure_eq, Res.ok.injEq, Prod.mk.injEq] at h2
        obtain ⟨rfl, _⟩ := h2
        exact fin (r := some e') (verdict_stop hbg) rfl
      | ok u =>
        simp only [Res.bind_eq_ok] at h2
        obtain ⟨⟨z, pg1⟩, h2, h3⟩ := h2
        have hdr : Drawing d ms _ _ := Drawing.start h h1
        have start : rs.lineSpacing = none ∧ rs.textRectangle = (signRect d) ∧
            textAttr rs = textAttr pg.renderState := by
          unfold updatePageState at h1
          obtain ⟨_, b2, _⟩ := updatePageStateLoop_bg (d := d) (ds := pg.defaultState)
            (by rw [hp.default]; exact ⟨hsign.ds, hsign.fg, hsign.bg, hsign.scheme⟩) h1 ht
          obtain ⟨_, _, _, _, _, ue, _⟩ := updatePageStateLoop_ok h1
          refine ⟨by rw [ue]; simp [hp.default, RenderState.new], by rw [ue]; rw [hp.default]; rfl, by rw [b2]; rfl⟩
        obtain ⟨e1, e2, e3⟩ := start
        have key := onPageLoop_first hd h2 (by decide) (by decide) rfl hdr ht
        dsimp only at key
        rw [e1, e2, e3] at key
        have hxz : errOf x = errOf z := by
          cases z with
          | ok raster => simp at h3; rw [← h3.1]; rfl
          | error e' => simp at h3; rw [← h3.1]; rfl
        exact fin (verdict_append hbg key) hxz
  · rw [hoff] at hon; cases hon

/-- **C90 (items)** the error of an item that is not valid, exactly -/
theorem C90_item (s : Str) (hp : ∀ p, tryFrom s ≠ .panic p) (e : SyntaxError) :
    tryFrom s = .ok (.error e) ↔ WrongItem s e :=
  ⟨tryFrom_fault, fun h => (wrongItem_error h).resolve_right fun ⟨p, k⟩ => hp p k⟩

-- which of two faults is told of: items come first, also later ones; background colors; then the text rectangles one
-- after the other, each with colors and graphics, tags, justification, texts
example : [c!"A[g6][xx]", c!"[g6][cb99]", c!"[fo9]A[g6]", c!"[fo9]A[tr1,1,61,7]", c!"[fo9]A[tr1,1,60,10][g6]",
      c!"[jl4]A[jl2][fo9]A", c!"[hcD800][g6]", c!"[jl4]A[jl2]A[hcD800]", c!"~[fo9]A", c!"[fo9]A[nl][fo8]~"].map
        (firstFault graphDms) =
    [some (.unsupportedTag c!"xx"), some (.unsupportedTagValue c!"[cb99]"), some (.graphicNotDefined 6),
      some (.unsupportedTagValue c!"[tr1,1,61,7]"), some (.fontNotDefined 9), some .tagConflict,
      some (.graphicNotDefined 6), some (.unsupportedTagValue c!"[hc55296]"), some (.characterNotDefined '~'),
      some (.fontNotDefined 9)] := by
  decide +kernel

/-- **C90** the error given for a page is that of its first fault (`FirstFault`), and a page without faults is shown. -/
theorem C90_page (d : Dms) (hd : SizeOk d) (ms : Str) (xs pg) (h : Steps d (Pages.new d ms) xs pg)
    (hn : NoError xs) (hon : isOn pg.pageState = true) (x pg') (hx : Pages.next d pg = .ok (some x, pg')) :
    ∃ us, Consumed (slices ms) pg.values us ∧
      let t := us.foldl (TextAttr.apply (signAttr d)) (signAttr d)
      ∀ e, x = .error e ↔ FirstFault d t pg.values e := by
  obtain ⟨us, hc, ha, _⟩ := C53_carry d ms xs pg h hn
  refine ⟨us, hc, ?_⟩
  dsimp only
  rw [← ha]
  exact fun e => (page_first hd h hon hx e).symm

/-- **C90** the same of the page after other errors, with the text attributes in effect there. -/
theorem C90_later (d : Dms) (hd : SizeOk d) (ms : Str) (xs pg) (h : Steps d (Pages.new d ms) xs pg)
    (hon : isOn pg.pageState = true) (x pg') (hx : Pages.next d pg = .ok (some x, pg')) (e : SyntaxError) :
    x = .error e ↔ FirstFault d (textAttr pg.renderState) pg.values e :=
  (page_first hd h hon hx e).symm

/-- **C90** lines are counted by their numbers, if these have no gaps -/
theorem C90_lines (d : Dms) (spans : List Span) (s : Span) (hs : s ∈ spans) (n : Nat)
    (hn : Dense 0 (samePage spans s) n) : totalHeight d spans s =
      linesHeight (decide (d.vmsCfg.charHeightPixels = 0)) d.fontDefinition (samePage spans s) (n - 1) :=
  totalHeight_dense hn hs

/-- **C90** at most one error is that of the first fault -/
theorem C90_unique (d : Dms) (t : TextAttr) (ss : List Str) (hp : ∀ s ∈ ss, ∀ p, tryFrom s ≠ .panic p) (e e')
    (h : FirstFault d t ss e) (h' : FirstFault d t ss e') : e = e' := by
  have hno : ∃ r, Outcome (checkUnsupported d ss) r := by
    cases hc : checkUnsupported d ss with
    | ok u => exact ⟨none, u, rfl⟩
    | err e => exact ⟨some e, rfl⟩
    | panic p =>
      exfalso
      clear h h'
      induction ss with
      | nil => simp [checkUnsupported] at hc
      | cons s ss ih =>
        unfold checkUnsupported at hc
        cases ht : tryFrom s with
        | panic p' => exact hp s (List.mem_cons_self ..) p' ht
        | ok y =>
          rw [ht] at hc
          simp only [Out.ofRes_ok, Out.ok_bind] at hc
          cases y with
          | error e => simp [ofExcept] at hc
          | ok v =>
            simp only [ofExcept, Out.ok_bind] at hc
            have ih := ih fun s h => hp s (List.mem_cons_of_mem _ h)
            split at hc
            · split at hc
              · simp at hc
              · split at hc
                · simp at hc
                · exact ih hc
            · exact ih hc
  obtain ⟨r, hr⟩ := hno
  have hi := checkUnsupported_first hr
  rcases h with h | ⟨vs, rest, b, ht, hs, hnp, hf⟩
  · rcases h' with h' | ⟨vs, rest, b, ht, hs, hnp, hf⟩
    · have h1 := (hi e).1 h
      rw [(hi e').1 h'] at h1
      exact (Option.some.inj h1).symm
    · exact (itemFault_take ht hs hnp h).elim
  · rcases h' with h' | ⟨vs', rest', b', ht', _, _, hf'⟩
    · exact (itemFault_take ht hs hnp h').elim
    · obtain ⟨rfl, _⟩ := takePage_unique ht ht'
      exact Option.some.inj (verdict_unique pageChecks_one (r := some e) (r' := some e') hf hf')

end Ntcip
