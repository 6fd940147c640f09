import Verif.Props.First
import Verif.Spec.After
/-
Lemmas on what is given after an error.
-/
namespace Ntcip
open Spec

/-- the same checks, with what follows -/
theorem verdict_followed {r : Resume} {cs : List Check} {o} (h : Verdict cs o) :
    Verdict (cs.map (followed r)) (o.map (·, r)) := by
  cases o with
  | none =>
    intro c hc x hx
    obtain ⟨c0, h0, rfl⟩ := List.mem_map.1 hc
    exact h c0 h0 _ hx.1
  | some e =>
    induction cs with
    | nil => cases h
    | cons c cs ih =>
      cases h with
      | here h => exact .here ⟨h, rfl⟩
      | later h1 h2 => exact .later (fun x hx => h1 _ hx.1) (ih h2)

/-- the state after an error of the page that began at `ss0`, in which `rest` comes after the page -/
def LeftAt (ss0 rest : List Str) (b : Bool) (pg : Pages) : Resume → Prop
  | .page t k => isOn pg.pageState = true ∧ pg.values = ss0.drop k ∧ textAttr pg.renderState = t
  | .next t rect => pg.pageState = (if b then PageState.newPage else PageState.doneState)
      (decide (pg.renderState.pageOffTimeDs > 0)) ∧ pg.values = rest ∧ textAttr pg.renderState = t ∧
      pg.renderState.textRectangle = rect
  | .stop rect => pg.pageState = PageState.doneState (decide (pg.renderState.pageOffTimeDs > 0)) ∧
      pg.renderState.textRectangle = rect

/-- page times and background -/
def pageAttrOf (rs : RenderState) : PageAttr := ((rs.pageOnTimeDs, rs.pageOffTimeDs), rs.colorCtx.bgCurrent)

/-- the state in which a failed value is left -/
theorem rtrStep_left {d ds po st v st' e} (h : rtrStep d ds po st v = .ok (.fail e, st')) :
    st'.rs = st.rs ∧ ((∀ r, v ≠ .textRectangle r) → st'.pageState = st.pageState) ∧
      (∀ r, v = .textRectangle r → st'.pageState = .on false) := by
  unfold rtrStep at h
  split at h <;> dsimp only at h
  all_goals first
    | (split at h <;> first
        | (simp only [Res.ok.injEq, Prod.mk.injEq] at h; rw [← h.2]; exact ⟨rfl, fun _ => rfl, by simp⟩)
        | (simp at h; done)
        | (simp only [Res.bind_eq_ok, Res.pure_eq, Res.ok.injEq, Prod.mk.injEq] at h; obtain ⟨_, _, h, _⟩ := h; cases h))
    | (simp only [Res.ok.injEq, Prod.mk.injEq] at h; rw [← h.2]; exact ⟨rfl, fun _ => rfl, by simp⟩)
    | (simp only [Res.bind_eq_ok] at h
       obtain ⟨o, _, h⟩ := h
       cases o <;> simp only [Res.pure_eq, Res.ok.injEq, Prod.mk.injEq] at h <;> first
        | (rw [← h.2]; exact ⟨rfl, fun k => absurd rfl (k _), fun _ _ => rfl⟩)
        | (cases h.1))
    | (simp at h; done)
    | (simp only [Res.bind_eq_ok, Res.pure_eq, Res.ok.injEq, Prod.mk.injEq] at h; obtain ⟨_, _, h, _⟩ := h; cases h)

theorem rtrStep_keeps {d ds po st v c st'} (hd : SignState d ds st.rs) (h : rtrStep d ds po st v = .ok (c, st')) :
    pageAttrOf st'.rs = pageAttrOf st.rs := by
  cases c with
  | cont =>
    have k := rtrStep_cont h
    simp only [pageAttrOf, k.onTime, k.offTime, (rtrStep_attr hd h).2.1]
  | brk =>
    rcases rtrStep_brk h with ⟨_, rfl⟩ | ⟨r, r', _, _, rfl⟩ <;> rfl
  | fail e => rw [(rtrStep_left h).1]

/-- the checks of the tags of a text rectangle, with what follows -/
def tagsAfter (d : Dms) (t : TextAttr) (rect : Rectangle) (k : Nat) (ws : List Value)
    (more : List (Rectangle × List Value)) : List (SyntaxError × Resume → Prop) :=
  ws.map (fun v => followed (.stop rect) (LayoutFault d v)) ++
    ((more.map Prod.fst).take 1).map (fun r => followed (.page (ws.foldl (TextAttr.apply (signAttr d)) t) (k + ws.length + 1))
      (LayoutFault d (.textRectangle r)))

theorem rtrLoop_after {d : Dms} (hd : SizeOk d) {po} {ss : List Str} {vs rest b} (ht : TakePage ss vs rest b) :
    ∀ {st st' : Rtr} {x rest'} {ss0 : List Str} {k}, SignState d (RenderState.new d) st.rs → ss = ss0.drop k →
      rtrLoop d (RenderState.new d) po ss st = .ok (x, st', rest') →
      pageAttrOf st'.rs = pageAttrOf st.rs ∧
      ((∃ u, x = .ok u) → rest' = if (sections vs).2.isEmpty then rest else ss0.drop (k + (sections vs).1.length + 1)) ∧
      ∃ o : Option (SyntaxError × Resume), o.map (·.1) = errOf x ∧
        Verdict (tagsAfter d (textAttr st.rs) st.rs.textRectangle k (sections vs).1 (sections vs).2) o ∧
        ∀ e r, o = some (e, r) →
          (r = .stop st.rs.textRectangle ∧ st'.pageState = st.pageState ∧ st'.rs.textRectangle = st.rs.textRectangle) ∨
          ∃ t k', r = .page t k' ∧ st'.pageState = .on false ∧ rest' = ss0.drop k' ∧ textAttr st'.rs = t := by
  induction ht with
  | nil =>
    intro st st' x rest' ss0 k _ _ h
    simp only [rtrLoop, Res.ok.injEq, Prod.mk.injEq] at h
    obtain ⟨rfl, rfl, rfl⟩ := h
    exact ⟨rfl, fun _ => rfl, none, rfl, verdict_nil, by simp⟩
  | np hp =>
    intro st st' x rest' ss0 k _ _ h
    rw [rtrLoop, hp] at h
    simp [rtrStep] at h
    obtain ⟨rfl, rfl, rfl⟩ := h
    exact ⟨rfl, fun _ => rfl, none, rfl, verdict_nil, by simp⟩
  | @cons s v ss vs rest b hp hne ht ih =>
    intro st st' x rest' ss0 k hs hk h
    have hk1 : ss = ss0.drop (k + 1) := by
      rw [← List.drop_drop, ← hk]; rfl
    unfold rtrLoop at h
    rw [hp] at h
    simp only at h
    by_cases htr : ∃ r, v = .textRectangle r
    · obtain ⟨r, rfl⟩ := htr
      simp only [sections, List.isEmpty_cons, List.length_nil, tagsAfter, List.map_nil, List.nil_append, List.map_cons,
        List.take_succ_cons, List.take_zero, List.foldl_nil]
      split at h
      · simp at h
      · rename_i st1 h1
        exact absurd rfl ((rtrStep_cont h1).notRect r)
      · rename_i st1 h1
        simp only [Res.ok.injEq, Prod.mk.injEq] at h
        obtain ⟨rfl, rfl, rfl⟩ := h
        refine ⟨rtrStep_keeps hs h1, fun _ => by simpa using hk1, none, rfl, ?_, by simp⟩
        refine verdict_single (fun _ e => ?_) (by simp)
        rintro ⟨⟨_, h2, _⟩, _⟩
        apply h2
        refine ⟨(fun k hk => by cases hk), ?_⟩
        unfold rtrStep at h1
        simp only [Res.bind_eq_ok] at h1
        obtain ⟨o, ho, h1⟩ := h1
        cases o with
        | none => simp at h1
        | some r' => exact updateTextRectangle_textRect' hd ho
      · rename_i e' st1 h1
        simp only [Res.ok.injEq, Prod.mk.injEq] at h
        obtain ⟨rfl, rfl, rfl⟩ := h
        obtain ⟨l1, _, l3⟩ := rtrStep_left h1
        refine ⟨rtrStep_keeps hs h1, by simp, some (e', _), rfl, verdict_here ⟨rtrStep_layout hd hs.scheme h1, rfl⟩, ?_⟩
        rintro e r' he
        cases he
        exact .inr ⟨_, _, rfl, l3 r rfl, by simpa using hk1, by rw [l1]⟩
    · have hnr : ∀ r, v ≠ .textRectangle r := fun r e => htr ⟨r, e⟩
      rw [sections_cons hnr]
      simp only [tagsAfter, List.map_cons, List.cons_append, List.length_cons, List.foldl_cons]
      split at h
      · simp at h
      · rename_i st1 h1
        obtain ⟨a1, _, a3⟩ := rtrStep_attr hs h1
        obtain ⟨i1, i2, o, i3, i4, i5⟩ := ih a3 hk1 h
        have hkr := (rtrStep_cont h1).rect
        have e1 : ∀ n, k + 1 + n + 1 = k + (n + 1) + 1 := fun n => by omega
        rw [hkr, a1] at i4
        rw [hkr, (rtrStep_cont h1).pageState] at i5
        simp only [tagsAfter, e1] at i4 i2
        exact ⟨i1.trans (rtrStep_keeps hs h1), i2, o, i3,
          verdict_cons (fun x hx => rtrStep_noFault hnr hs.scheme h1 _ hx.1) i4, i5⟩
      · rename_i st1 h1
        rcases rtrStep_brk h1 with ⟨rfl, _⟩ | ⟨r, r', rfl, _⟩
        · exact absurd rfl hne
        · exact absurd rfl (hnr r)
      · rename_i e' st1 h1
        simp only [Res.ok.injEq, Prod.mk.injEq] at h
        obtain ⟨rfl, rfl, rfl⟩ := h
        obtain ⟨l1, l2, _⟩ := rtrStep_left h1
        refine ⟨rtrStep_keeps hs h1, by simp, some (e', _), rfl, verdict_here ⟨rtrStep_layout hd hs.scheme h1, rfl⟩, ?_⟩
        rintro e r' he
        cases he
        exact .inl ⟨rfl, l2 hnr, by rw [l1]⟩

theorem renderTextRectangle_after {d ms pg page x pg'} (hd : SizeOk d) (h : Drawing d ms pg page)
    (hon : pg.pageState = .on false) {vs rest b} (ht : TakePage pg.values vs rest b) {ss0 : List Str} {k}
    (hk : pg.values = ss0.drop k) (hr : renderTextRectangle d pg page = .ok (x, pg')) :
    let rect := pg.renderState.textRectangle
    let t' := (sections vs).1.foldl (TextAttr.apply (signAttr d)) (textAttr pg.renderState)
    let k' := k + (sections vs).1.length + 1
    pageAttrOf pg'.renderState = pageAttrOf pg.renderState ∧
    ((∃ u, x = .ok u) → LeftAt ss0 rest b pg' (afterRect t' rect k' (sections vs).2)) ∧
    ∃ o : Option (SyntaxError × Resume), o.map (·.1) = errOf x ∧
      Verdict (tagsAfter d (textAttr pg.renderState) rect k (sections vs).1 (sections vs).2 ++
        (textChecks d rect (layoutOf d (textAttr pg.renderState) pg.renderState.lineSpacing rect (sections vs).1)).map
          (followed (afterRect t' rect k' (sections vs).2))) o ∧
      ∀ e r, o = some (e, r) → LeftAt ss0 rest b pg' r := by
  intro rect t' k'
  have hf := renderTextRectangle_first hd h hon ht hr
  obtain ⟨hp, hw, hh⟩ := drawing_ok h
  have hsign := drawing_sign h
  unfold renderTextRectangle at hr
  rw [hp.default] at hr
  simp only [Res.bind_eq_ok] at hr
  obtain ⟨⟨y, st, values⟩, hl, hr⟩ := hr
  dsimp only at hr hf
  obtain ⟨a1, a2, o, a3, a4, a5⟩ := rtrLoop_after hd ht (st := ⟨pg.renderState, _, [], true⟩) hsign hk hl
  have hoff : st.rs.pageOffTimeDs = pg.renderState.pageOffTimeDs := congrArg (·.1.2) a1
  cases y with
  | error e' =>
    simp only [Res.pure_eq, Res.ok.injEq, Prod.mk.injEq] at hr
    obtain ⟨rfl, rfl⟩ := hr
    refine ⟨a1, by simp, o, a3, ?_, fun e r hor => ?_⟩
    · cases o with
      | none => cases a3
      | some z => exact verdict_stop a4
    · rcases a5 e r hor with ⟨rfl, k1, k2⟩ | ⟨t, k', rfl, k1, k2, k3⟩
      · exact ⟨by dsimp only; rw [k1, hoff], k2⟩
      · exact ⟨by dsimp only; rw [k1]; rfl, k2, k3⟩
  | ok u =>
    obtain rfl : o = none := by
      cases o with
      | none => rfl
      | some z => cases a3
    obtain ⟨hsec, e1, e2, e3⟩ := rtrLoop_end (st := ⟨pg.renderState, _, [], true⟩) hsign hl ht
    have hleft : LeftAt ss0 rest b ⟨RenderState.new d, st.rs, st.pageState, values, st.spans⟩
        (afterRect t' rect k' (sections vs).2) := by
      have a2 := a2 ⟨_, rfl⟩
      unfold afterRect
      generalize (sections vs).2 = more at a2 e3
      cases more with
      | nil =>
        refine ⟨?_, a2, e1, e3.2⟩
        rw [e3.1, hoff]
        cases b <;> rfl
      | cons q more => exact ⟨by dsimp only; rw [e3.1]; rfl, a2, e1⟩
    simp only at hr
    have fin : ∀ {r}, Verdict (textChecks d rect (layoutOf d (textAttr pg.renderState) pg.renderState.lineSpacing rect
          (sections vs).1)) r → Verdict (tagsAfter d (textAttr pg.renderState) rect k (sections vs).1 (sections vs).2 ++
        (textChecks d rect (layoutOf d (textAttr pg.renderState) pg.renderState.lineSpacing rect (sections vs).1)).map
          (followed (afterRect t' rect k' (sections vs).2))) (r.map (·, afterRect t' rect k' (sections vs).2)) :=
      fun hv => verdict_append a4 (verdict_followed hv)
    have tail : ∀ {cs cs' cs'' : List Check} {r}, (∀ c ∈ cs, ∀ e, ¬ c e) → (∀ c ∈ cs', ∀ e, ¬ c e) →
        Verdict (cs ++ (cs' ++ cs'')) r → Verdict cs'' r := by
      intro cs cs' cs'' r h1 h2 hv
      rw [← List.append_assoc] at hv
      have h3 : ∀ c ∈ cs ++ cs', ∀ e, ¬ c e := fun c hc => (List.mem_append.1 hc).elim (h1 c) (h2 c)
      generalize cs ++ cs' = ds at h3 hv
      cases r with
      | none => exact fun c hc => hv c (List.mem_append_right _ hc)
      | some e =>
        induction ds with
        | nil => exact hv
        | cons c ds ih =>
          cases hv with
          | here hc => exact absurd hc (h3 c (List.mem_cons_self ..) e)
          | later _ hv => exact ih (fun c hc => h3 c (List.mem_cons_of_mem _ hc)) hv
    have hv := rtrLoop_first hd ht (st := ⟨pg.renderState, _, [], true⟩) hsign hl
    have hv : Verdict _ none := hv
    have hf := tail (fun c hc => hv c (List.mem_append_left _ hc)) (fun c hc => hv c (List.mem_append_right _ hc)) hf
    split at hr
    · simp at hr
    · rename_i e' hts
      simp only [Res.pure_eq, Res.ok.injEq, Prod.mk.injEq] at hr
      obtain ⟨rfl, rfl⟩ := hr
      refine ⟨a1, by simp, _, rfl, fin hf, ?_⟩
      rintro e r he
      cases he
      exact hleft
    · rename_i p' hts
      simp only [Res.pure_eq, Res.ok.injEq, Prod.mk.injEq] at hr
      obtain ⟨rfl, rfl⟩ := hr
      exact ⟨a1, fun _ => hleft, none, rfl, fin hf, by simp⟩

theorem rectsAfter_eq (d n t sp rect k ws more) : rectsAfter d n t sp rect k ws more =
    (ws.map (PaintFault d)).map (followed (.page t k)) ++ ((tagsAfter d t rect k ws more ++
      (textChecks d rect (layoutOf d t sp rect ws)).map (followed (afterRect (ws.foldl (TextAttr.apply (signAttr d)) t) rect
        (k + ws.length + 1) more))) ++
      followed (afterRect (ws.foldl (TextAttr.apply (signAttr d)) t) rect (k + ws.length + 1) more) (CountFault n) ::
      (match more with
      | [] => []
      | (r, us) :: more => rectsAfter d (n + 1) (ws.foldl (TextAttr.apply (signAttr d)) t) (ws.foldl spacingAfter sp)
          (opened d r) (k + ws.length + 1) us more)) := by
  cases more with
  | nil => rw [rectsAfter]; simp [rectAfter, tagsAfter, afterRect, Function.comp_def]
  | cons q more =>
    obtain ⟨r, us⟩ := q; rw [rectsAfter]; simp [rectAfter, tagsAfter, afterRect, Function.comp_def]

theorem onPageLoop_after {d ms} (hd : SizeOk d) {fuel n pg page x pg'}
    (h : onPageLoop d fuel n pg page = .ok (x, pg'))
    (hn : n ≤ maxTextRectangles) (hfuel : maxTextRectangles + 1 ≤ fuel + n)
    (hs : pg.pageState = .on false) (hdr : Drawing d ms pg page)
    {vs rest b} (ht : TakePage pg.values vs rest b) {ss0 : List Str} {k} (hk : pg.values = ss0.drop k) :
    pageAttrOf pg'.renderState = pageAttrOf pg.renderState ∧
    ∃ o : Option (SyntaxError × Resume), o.map (·.1) = errOf x ∧
      Verdict (rectsAfter d (n + 1) (textAttr pg.renderState) pg.renderState.lineSpacing pg.renderState.textRectangle k
        (sections vs).1 (sections vs).2) o ∧
      ∀ e r, o = some (e, r) → LeftAt ss0 rest b pg' r := by
  induction fuel generalizing n pg page vs k with
  | zero => omega
  | succ fuel ih =>
    rw [onPageLoop, if_pos hs] at h
    obtain ⟨hp, hw, hh⟩ := drawing_ok hdr
    have hsign := drawing_sign hdr
    rw [rectsAfter_eq]
    have gr := fun {r} => renderGraphicsLoop_first (r := r) hd (takePage_section ht) hp.items hsign.scheme hw hh
    split at h
    · simp at h
    · rename_i e' hgr
      simp only [Res.ok.injEq, Prod.mk.injEq] at h
      obtain ⟨rfl, rfl⟩ := h
      refine ⟨rfl, some (e', _), rfl, verdict_stop (verdict_followed (gr (r := some e') hgr)), ?_⟩
      rintro e r he
      cases he
      exact ⟨by rw [hs]; rfl, hk, rfl⟩
    · rename_i mid hgr
      have gr := verdict_followed (r := .page (textAttr pg.renderState) k) (gr (r := none) ⟨_, hgr⟩)
      have hd1 := Drawing.graphics hdr hgr
      simp only [Res.bind_eq_ok] at h
      obtain ⟨⟨y, pg1⟩, h1, h2⟩ := h
      obtain ⟨a1, a2, o, a3, a4, a5⟩ := renderTextRectangle_after hd hd1 hs ht hk h1
      cases y with
      | error e' =>
        simp only [Res.pure_eq, Res.ok.injEq, Prod.mk.injEq] at h2
        obtain ⟨rfl, rfl⟩ := h2
        refine ⟨a1, o, a3, ?_, a5⟩
        cases o with
        | none => cases a3
        | some z => exact verdict_append gr (verdict_stop a4)
      | ok page1 =>
        have hleft := a2 ⟨_, rfl⟩
        obtain rfl : o = none := by
          cases o with
          | none => rfl
          | some z => cases a3
        have hd2 := Drawing.text hd1 h1
        obtain ⟨st, values, hl, hpg1, hts⟩ := renderTextRectangle_ok h1
        rw [hp.default] at hl
        obtain ⟨hsec, e1, e2, e3⟩ := rtrLoop_end (st := ⟨pg.renderState, _, [], true⟩) hsign hl ht
        simp only at h2
        split at h2
        · rename_i hlt
          simp only [Res.pure_eq, Res.ok.injEq, Prod.mk.injEq] at h2
          obtain ⟨rfl, rfl⟩ := h2
          refine ⟨a1, some (_, _), rfl, verdict_append gr (verdict_append a4 (verdict_here ⟨⟨hlt, rfl⟩, rfl⟩)), ?_⟩
          rintro e r he
          cases he
          exact hleft
        · rename_i hlt
          have hcount : ∀ r e, ¬ followed r (CountFault (n + 1)) e := fun r e hc => hlt hc.1.1
          generalize he : (sections vs).2 = more at e3 a4 hleft ⊢
          cases more with
          | nil =>
            dsimp only at e3
            have : errOf x = none ∧ pg' = pg1 := by
              cases fuel with
              | zero =>
                simp only [onPageLoop, Res.ok.injEq, Prod.mk.injEq] at h2
                obtain ⟨rfl, rfl⟩ := h2; exact ⟨rfl, rfl⟩
              | succ f =>
                rw [onPageLoop, if_neg (by rw [hpg1]; dsimp only; rw [e3.1]; exact pageEnd_ne b _)] at h2
                simp only [Res.ok.injEq, Prod.mk.injEq] at h2
                obtain ⟨rfl, rfl⟩ := h2; exact ⟨rfl, rfl⟩
            rw [this.1, this.2]
            exact ⟨a1, none, rfl, verdict_append gr (verdict_append a4 (verdict_cons (hcount _) verdict_nil)), by simp⟩
          | cons q more =>
            obtain ⟨r, ws1⟩ := q
            obtain ⟨e4, e5, ws, e6, e7⟩ := e3
            obtain ⟨b1, o', b2, b3, b4⟩ := ih h2 (by omega) (by omega) (by rw [hpg1]; exact e4) hd2 (vs := ws)
              (by rw [hpg1]; exact e6) hleft.2.1
            rw [e7, hpg1] at b3
            dsimp only at b3
            rw [e1, e2, e5] at b3
            exact ⟨b1.trans a1, o', b2, verdict_append gr (verdict_append a4 (verdict_cons (hcount _) b3)), b4⟩

/-- text attributes do not change, also when there is an error -/
theorem updatePageState_attr {ds rs : RenderState} {ss x rs'} (h : updatePageState ds rs ss = .ok (x, rs')) :
    textAttr rs' = textAttr rs := by
  unfold updatePageState at h
  have key : ∀ {ss} {rs : RenderState}, updatePageStateLoop ds ss rs = .ok (x, rs') → textAttr rs' = textAttr rs := by
    intro ss
    induction ss with
    | nil => intro rs h; simp only [updatePageStateLoop, Res.ok.injEq, Prod.mk.injEq] at h; rw [← h.2]
    | cons s ss ih =>
      have bg : ∀ {rs : RenderState} {c v ctx}, rs.colorCtx.setBackground c v = .ok ctx →
          textAttr { rs with colorCtx := ctx } = textAttr rs := by
        intro rs c v ctx hc
        simp only [textAttr, setBackground_bg hc]
      intro rs h
      unfold updatePageStateLoop at h
      split at h
      · simp at h
      · simp only [Res.ok.injEq, Prod.mk.injEq] at h; rw [← h.2]
      · split at h
        · split at h
          · rename_i hc; exact (ih h).trans (bg hc)
          · simp only [Res.ok.injEq, Prod.mk.injEq] at h; rw [← h.2]
        · split at h
          · rename_i hc; exact (ih h).trans (bg hc)
          · simp only [Res.ok.injEq, Prod.mk.injEq] at h; rw [← h.2]
        · simp only [Res.ok.injEq, Prod.mk.injEq] at h; rw [← h.2]
        · exact (ih h).trans rfl
        · exact ih h
  exact (key h).trans rfl

/-- the checks, each with what follows -/
inductive Tagged : List Check → List (SyntaxError × Resume → Prop) → Prop
  | nil : Tagged [] []
  | cons {c r cs ds} : Tagged cs ds → Tagged (c :: cs) (followed r c :: ds)

theorem tagged_append {cs ds cs' ds'} (h : Tagged cs ds) (h' : Tagged cs' ds') : Tagged (cs ++ cs') (ds ++ ds') := by
  induction h with
  | nil => exact h'
  | cons _ ih => exact .cons ih

theorem tagged_map (r : Resume) (cs : List Check) : Tagged cs (cs.map (followed r)) := by
  induction cs with
  | nil => exact .nil
  | cons c cs ih => exact .cons ih

theorem tagged_first {cs ds x} (h : Tagged cs ds) (hf : First ds x) : First cs x.1 := by
  induction h with
  | nil => cases hf
  | cons _ ih =>
    cases hf with
    | here h => exact .here h.1
    | later h1 h2 => exact .later (fun e he => h1 (e, _) ⟨he, rfl⟩) (ih h2)

theorem tagged_one {cs ds} (h : Tagged cs ds) (h1 : ∀ c ∈ cs, ∀ e e', c e → c e' → e = e') :
    ∀ c ∈ ds, ∀ x x', c x → c x' → x = x' := by
  induction h with
  | nil => simp
  | @cons c r cs ds _ ih =>
    intro c' hc x x' hx hx'
    rcases List.mem_cons.1 hc with rfl | hc
    · exact Prod.ext (h1 c (List.mem_cons_self ..) _ _ hx.1 hx'.1) (hx.2.trans hx'.2.symm)
    · exact ih (fun c hc => h1 c (List.mem_cons_of_mem _ hc)) c' hc x x' hx hx'

theorem rectsAfter_tagged {d n t sp rect k ws more} :
    Tagged (rectsChecks d n t sp rect ws more) (rectsAfter d n t sp rect k ws more) := by
  induction more generalizing n t sp rect k ws with
  | nil =>
    rw [rectsAfter_eq, rectsChecks_eq, rectChecks, List.append_assoc]
    refine tagged_append (tagged_map _ _) ?_
    refine tagged_append ?_ (.cons .nil)
    simp only [tagsAfter, List.map_nil, List.take_nil, List.append_nil, nextTagRect, List.head?_nil, Option.map_none,
      Option.toList_none, List.nil_append]
    refine tagged_append ?_ (tagged_map _ _)
    rw [show ws.map (fun v => followed (.stop rect) (LayoutFault d v)) =
      (ws.map (LayoutFault d)).map (followed (.stop rect)) by simp [Function.comp_def]]
    exact tagged_map _ _
  | cons q more ih =>
    obtain ⟨r, us⟩ := q
    rw [rectsAfter_eq, rectsChecks_eq, rectChecks, List.append_assoc]
    refine tagged_append (tagged_map _ _) ?_
    refine tagged_append ?_ (.cons ih)
    simp only [tagsAfter, List.map_cons, List.take_succ_cons, List.take_zero, nextTagRect, List.head?_cons, Option.map_some,
      Option.toList_some, List.map_nil, List.append_assoc]
    refine tagged_append ?_ (tagged_append (.cons .nil) (tagged_map _ _))
    rw [show ws.map (fun v => followed (.stop rect) (LayoutFault d v)) =
      (ws.map (LayoutFault d)).map (followed (.stop rect)) by simp [Function.comp_def]]
    exact tagged_map _ _

/-- the checks of a page, with what follows -/
def pageAfter (d : Dms) (t : TextAttr) (vs : List Value) : List (SyntaxError × Resume → Prop) :=
  vs.map (fun v => followed (.page t 0) (BackgroundFault d v)) ++
    rectsAfter d 1 t none (signRect d) 0 (sections vs).1 (sections vs).2

theorem pageAfter_tagged {d t vs} : Tagged (pageChecks d t vs) (pageAfter d t vs) := by
  refine tagged_append ?_ rectsAfter_tagged
  rw [show vs.map (fun v => followed (.page t 0) (BackgroundFault d v)) =
    (vs.map (BackgroundFault d)).map (followed (.page t 0)) by simp [Function.comp_def]]
  exact tagged_map _ _

theorem firstAfter_fault {d t ss x} (h : FirstAfter d t ss x) : FirstFault d t ss x.1 := by
  rcases h with h | ⟨vs, rest, b, h1, h2, h3, h4⟩
  · exact .inl h.1
  · exact .inr ⟨vs, rest, b, h1, h2, h3, tagged_first pageAfter_tagged h4⟩

theorem firstAfter_same {d t ss x y} (h : FirstAfter d t ss x) (h' : FirstAfter d t ss y) : x.2 = y.2 := by
  rcases h with h | ⟨vs, rest, b, h1, h2, h3, h4⟩
  · rcases h' with h' | ⟨vs', rest', b', k1, k2, k3, k4⟩
    · rw [h.2, h'.2]
    · exact (itemFault_take k1 k2 k3 h.1).elim
  · rcases h' with h' | ⟨vs', rest', b', k1, k2, k3, k4⟩
    · exact (itemFault_take h1 h2 h3 h'.1).elim
    · obtain ⟨rfl, _⟩ := takePage_unique h1 k1
      have := verdict_unique (tagged_one pageAfter_tagged pageChecks_one) (r := some x) (r' := some y) h4 k4
      cases this
      rfl

/-- a page: its first fault, and the state after it -/
theorem page_after {d : Dms} (hd : SizeOk d) {ms : Str} {xs pg x pg'} (h : Steps d (Pages.new d ms) xs pg)
    (hon : isOn pg.pageState = true) (hx : Pages.next d pg = .ok (some x, pg')) :
    ∃ o : Option (SyntaxError × Resume), o.map (·.1) = errOf x ∧
      (∀ y, FirstAfter d (textAttr pg.renderState) pg.values y ↔ o = some y) ∧
      ∀ e r, o = some (e, r) →
        (r = .page (textAttr pg.renderState) 0 ∧ isOn pg'.pageState = true ∧ pg'.values = pg.values ∧
          textAttr pg'.renderState = textAttr pg.renderState) ∨
        ∃ vs rest b, TakePage pg.values vs rest b ∧ LeftAt pg.values rest b pg' r ∧
          pageAttrOf pg'.renderState = attrAfter d (pageAttrOf pg.renderState) vs := by
  have hp := steps_state h (pagesOk_new d ms)
  have hsign := steps_sign h
  rcases next_cases hx with ⟨_, hx⟩ | ⟨hoff, _⟩
  · unfold renderOnPage at hx
    split at hx
    · simp at hx
    · rename_i e' hc
      simp only [Res.ok.injEq, Prod.mk.injEq] at hx
      obtain ⟨rfl, rfl⟩ := hx
      have hi := checkUnsupported_first (r := some e') hc
      refine ⟨some (e', .page (textAttr pg.renderState) 0), rfl, fun y => ⟨?_, ?_⟩, ?_⟩
      · rintro (⟨hf, hr⟩ | ⟨vs, rest, b, ht, hs, hnp, _⟩)
        · rw [hi, Option.some.injEq] at hf
          rw [hf, ← hr]
        · exact (itemFault_take ht hs hnp ((hi e').2 rfl)).elim
      · intro he
        cases he
        exact .inl ⟨(hi e').2 rfl, rfl⟩
      · intro e r he
        cases he
        exact .inl ⟨rfl, hon, rfl, rfl⟩
    · rename_i hc
      have hi := checkUnsupported_first (r := none) ⟨_, hc⟩
      obtain ⟨vs, rest, b, ht, hsup, hnp⟩ := checkUnsupported_ok hc
      have fin : ∀ {o : Option (SyntaxError × Resume)}, Verdict (pageAfter d (textAttr pg.renderState) vs) o →
          ∀ y, FirstAfter d (textAttr pg.renderState) pg.values y ↔ o = some y := by
        intro o hv y
        constructor
        · rintro (⟨hf, _⟩ | ⟨vs', rest', b', ht', _, _, hf⟩)
          · rw [hi] at hf; cases hf
          · obtain ⟨rfl, _⟩ := takePage_unique ht ht'
            exact verdict_unique (tagged_one pageAfter_tagged pageChecks_one) hv (r' := some y) hf
        · intro he
          rw [he] at hv
          exact .inr ⟨vs, rest, b, ht, hsup, hnp, hv⟩
      simp only [Res.bind_eq_ok] at hx
      obtain ⟨⟨y, rs⟩, h1, h2⟩ := hx
      have hbg := updatePageStateLoop_first (d := d) ht _ (by dsimp only; exact hsign.scheme) _ _ h1
      have hbg := verdict_followed (r := .page (textAttr pg.renderState) 0) hbg
      rw [List.map_map] at hbg
      cases y with
      | error e' =>
        simp only [Res.pure_eq, Res.ok.injEq, Prod.mk.injEq] at h2
        obtain ⟨rfl, rfl⟩ := h2
        refine ⟨some (e', .page (textAttr pg.renderState) 0), rfl, fin (verdict_stop hbg), ?_⟩
        intro e r he
        cases he
        refine .inl ⟨rfl, hon, rfl, ?_⟩
        have := updatePageState_attr h1
        exact this
      | ok u =>
        simp only [Res.bind_eq_ok] at h2
        obtain ⟨⟨z, pg1⟩, h2, h3⟩ := h2
        have hdr : Drawing d ms _ _ := Drawing.start h h1
        have start : rs.lineSpacing = none ∧ rs.textRectangle = (signRect d) ∧
            textAttr rs = textAttr pg.renderState ∧ pageAttrOf rs = attrAfter d (pageAttrOf pg.renderState) vs := by
          unfold updatePageState at h1
          obtain ⟨b1, b2, _⟩ := updatePageStateLoop_bg (d := d) (ds := pg.defaultState)
            (by rw [hp.default]; exact ⟨hsign.ds, hsign.fg, hsign.bg, hsign.scheme⟩) h1 ht
          obtain ⟨vs1, _, _, ht1, ut, ue, _⟩ := updatePageStateLoop_ok h1
          obtain ⟨rfl, _⟩ := takePage_unique ht ht1
          refine ⟨by rw [ue]; simp [hp.default, RenderState.new], by rw [ue]; rw [hp.default]; rfl, by rw [b2]; rfl, ?_⟩
          rw [hp.default] at ut
          exact Prod.ext ut b1
        obtain ⟨e1, e2, e3, e4⟩ := start
        obtain ⟨k1, o, k2, k3, k4⟩ := onPageLoop_after hd h2 (by decide) (by decide) rfl hdr ht (ss0 := pg.values) (k := 0) rfl
        dsimp only at k1 k3 k4
        rw [e1, e2, e3] at k3
        have hxz : errOf x = errOf z ∧ pg' = pg1 := by
          cases z with
          | ok raster => simp at h3; rw [← h3.1, ← h3.2]; exact ⟨rfl, rfl⟩
          | error e' => simp at h3; rw [← h3.1, ← h3.2]; exact ⟨rfl, rfl⟩
        rw [hxz.1, hxz.2]
        exact ⟨o, k2, fin (verdict_append hbg k3), fun e r he => .inr ⟨vs, rest, b, ht, k4 e r he, k1.trans e4⟩⟩
  · rw [hoff] at hon; cases hon

end Ntcip
