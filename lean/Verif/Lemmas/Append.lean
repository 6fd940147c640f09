import Verif.Lemmas.Denote
/-
Lemmas for C79: rendering a message followed by a page break and another message.
-/
namespace Ntcip
open Spec

section
variable {s : Str} (hs : tryFrom s = .ok (.ok .newPage)) (W : List Str)
include hs

theorem checkUnsupported_ext (d : Dms) (hd : d.multiCfg.supportedMultiTags .np = true) (ss : List Str) :
    checkUnsupported d (ss ++ s :: W) = checkUnsupported d ss := by
  induction ss with
  | nil =>
    simp only [List.nil_append, checkUnsupported, hs, Out.ofRes, Out.ok_bind, ofExcept, Value.tag, hd]
    rfl
  | cons t ss ih => simp only [List.cons_append, checkUnsupported, ih]

theorem updatePageStateLoop_ext (ds : RenderState) (ss : List Str) (rs : RenderState) :
    updatePageStateLoop ds (ss ++ s :: W) rs = updatePageStateLoop ds ss rs := by
  induction ss generalizing rs with
  | nil => simp only [List.nil_append, updatePageStateLoop, hs]
  | cons t ss ih => simp only [List.cons_append, updatePageStateLoop, ih]

theorem renderGraphicsLoop_ext (d : Dms) (ss : List Str) (c : ColorCtx) (r : Raster) :
    renderGraphicsLoop d (ss ++ s :: W) c r = renderGraphicsLoop d ss c r := by
  induction ss generalizing c r with
  | nil => simp only [List.nil_append, renderGraphicsLoop, hs, Out.ofRes, Out.ok_bind, ofExcept]
  | cons t ss ih => simp only [List.cons_append, renderGraphicsLoop, ih]

theorem rtrLoop_ext (d : Dms) (ds : RenderState) (po : Bool) (ss : List Str) (st : Rtr) :
    Res.Rel (fun p q => q.1 = p.1 ∧
      ((q.2.1 = p.2.1 ∧ q.2.2 = p.2.2 ++ s :: W ∧ (p.1 = .ok () → p.2.1.pageState = .on false ∨ p.2.1.pageState = .newPage po)) ∨
       (p.1 = .ok () ∧ p.2.1.pageState = st.pageState ∧ p.2.2 = [] ∧ q.2.1 = { p.2.1 with pageState := .newPage po } ∧
        q.2.2 = W))) (rtrLoop d ds po ss st) (rtrLoop d ds po (ss ++ s :: W) st) := by
  induction ss generalizing st with
  | nil =>
    simp only [List.nil_append, rtrLoop, hs, rtrStep]
    exact ⟨rfl, .inr ⟨rfl, rfl, rfl, rfl, rfl⟩⟩
  | cons t ss ih =>
    simp only [List.cons_append, rtrLoop]
    cases tryFrom t with
    | panic p => exact rfl
    | ok x => cases x with
      | error e => exact ⟨rfl, .inl ⟨rfl, rfl, fun h => by cases h⟩⟩
      | ok v =>
        simp only
        cases hx : rtrStep d ds po st v with
        | panic p => exact rfl
        | ok q =>
          obtain ⟨c, st'⟩ := q
          cases c with
          | cont =>
            have := ih st'
            have e : st'.pageState = st.pageState := (rtrStep_cont hx).pageState
            simp only [e] at this
            exact this
          | brk =>
            refine ⟨rfl, .inl ⟨rfl, rfl, fun _ => ?_⟩⟩
            rcases rtrStep_brk hx with ⟨-, rfl⟩ | ⟨_, _, -, -, rfl⟩
            · exact .inr rfl
            · exact .inl rfl
          | fail e => exact ⟨rfl, .inl ⟨rfl, rfl, fun h => by cases h⟩⟩

end

/-- is there more to be shown? -/
def More : PageState → Prop
  | .on _ => True
  | .off b => b = true
  | .done => False

/-- the same state of rendering, with a page break and more items to come -/
def ExtP (s : Str) (W : List Str) (pg pg' : Pages) : Prop := pg' = { pg with values := pg.values ++ s :: W }

/-- one is at its end, the other one after the page break -/
def EndP (W : List Str) (c : Bool) (pg pg' : Pages) : Prop :=
  pg.values = [] ∧ ∃ st, pg' = { pg with values := W, pageState := st } ∧
    ((pg.pageState = .off false ∧ st = .off true) ∨ (pg.pageState = .done ∧ st = .on c))

section
variable {s : Str} (hs : tryFrom s = .ok (.ok .newPage)) (W : List Str)
include hs

theorem renderTextRectangle_ext (d : Dms) (pg : Pages) (r : Raster) :
    Res.Rel (fun p q => q.1 = p.1 ∧ ((ExtP s W p.2 q.2 ∧ ((∃ a, p.1 = .ok a) → More p.2.pageState)) ∨ EndP W true p.2 q.2))
      (renderTextRectangle d pg r) (renderTextRectangle d { pg with values := pg.values ++ s :: W } r) := by
  unfold renderTextRectangle
  refine Res.Rel.bind (rtrLoop_ext hs W d _ _ _ _) ?_
  rintro ⟨e, st, ss⟩ ⟨e', st', ss'⟩ ⟨h1, h2⟩
  simp only at h1 h2
  subst h1
  rcases h2 with ⟨rfl, rfl, h3⟩ | ⟨rfl, h3, rfl, rfl, rfl⟩
  · cases e' with
    | error e => exact ⟨rfl, .inl ⟨rfl, fun ⟨_, h⟩ => by cases h⟩⟩
    | ok u =>
      have hm : More st'.pageState := by
        rcases h3 rfl with h | h <;> rw [h]
        · trivial
        · unfold PageState.newPage; split <;> simp [More]
      simp only
      cases renderTextSpans d st'.spans r with
      | panic p => exact rfl
      | err e => exact ⟨rfl, .inl ⟨rfl, fun _ => hm⟩⟩
      | ok r' => exact ⟨rfl, .inl ⟨rfl, fun _ => hm⟩⟩
  · have hm : EndP ss' true ⟨pg.defaultState, st.rs, st.pageState, [], st.spans⟩
        ⟨pg.defaultState, st.rs, .newPage (decide (pg.renderState.pageOffTimeDs > 0)), ss', st.spans⟩ := by
      refine ⟨rfl, _, rfl, ?_⟩
      simp only at h3 ⊢
      rw [h3, PageState.doneState, PageState.newPage]
      split
      · exact .inl ⟨rfl, rfl⟩
      · exact .inr ⟨rfl, rfl⟩
    simp only
    cases renderTextSpans d st.spans r with
    | panic p => exact rfl
    | err e => exact ⟨rfl, .inr hm⟩
    | ok r' => exact ⟨rfl, .inr hm⟩

omit hs in
theorem onPageLoop_halt (d : Dms) (fuel n : Nat) (pg : Pages) (h : pg.pageState ≠ .on false) (r : Raster) :
    onPageLoop d fuel n pg r = .ok (.ok r, pg) := by
  cases fuel with
  | zero => rfl
  | succ f => rw [onPageLoop, if_neg h]

theorem onPageLoop_ext (d : Dms) (fuel n : Nat) (pg : Pages) (hp : More pg.pageState) (r : Raster) :
    Res.Rel (fun p q => q.1 = p.1 ∧ ((ExtP s W p.2 q.2 ∧ ((∃ a, p.1 = .ok a) → More p.2.pageState)) ∨ EndP W true p.2 q.2))
      (onPageLoop d fuel n pg r) (onPageLoop d fuel n { pg with values := pg.values ++ s :: W } r) := by
  induction fuel generalizing n pg r with
  | zero => exact ⟨rfl, .inl ⟨rfl, fun _ => hp⟩⟩
  | succ fuel ih =>
    unfold onPageLoop
    simp only [renderGraphicsLoop_ext hs]
    by_cases hp' : pg.pageState = .on false
    · simp only [if_pos hp']
      cases renderGraphicsLoop d pg.values pg.renderState.colorCtx r with
      | panic p => exact rfl
      | err e => exact ⟨rfl, .inl ⟨rfl, fun _ => hp⟩⟩
      | ok r1 =>
        simp only
        refine Res.Rel.bind (renderTextRectangle_ext hs W d pg r1) ?_
        rintro ⟨e, pg1⟩ ⟨e', pg1'⟩ ⟨h1, h2⟩
        simp only at h1 h2
        subst h1
        simp only
        cases e' with
        | error e => exact ⟨rfl, h2⟩
        | ok r2 =>
          simp only
          by_cases hm : n + 1 > maxTextRectangles
          · simp only [if_pos hm]
            exact ⟨rfl, h2.imp_left fun h => ⟨h.1, fun _ => h.2 ⟨_, rfl⟩⟩⟩
          · simp only [if_neg hm]
            rcases h2 with ⟨h2, h3⟩ | h2
            · rw [h2]; exact ih _ _ (h3 ⟨_, rfl⟩) _
            · have h4 := h2
              obtain ⟨_, st, rfl, h5⟩ := h4
              rw [onPageLoop_halt, onPageLoop_halt]
              · exact ⟨rfl, .inr h2⟩
              · rcases h5 with ⟨h5, h6⟩ | ⟨h5, h6⟩ <;> simp [h6]
              · rcases h5 with ⟨h5, _⟩ | ⟨h5, _⟩ <;> simp [h5]
    · simp only [if_neg hp']; exact ⟨rfl, .inl ⟨rfl, fun _ => hp⟩⟩

theorem renderOnPage_ext (d : Dms) (hd : d.multiCfg.supportedMultiTags .np = true) (pg : Pages) (hp : More pg.pageState) :
    Res.Rel (fun p q => q.1 = p.1 ∧ ((ExtP s W p.2 q.2 ∧ ((∃ a, p.1 = .ok a) → More p.2.pageState)) ∨
      EndP W true p.2 q.2)) (renderOnPage d pg) (renderOnPage d { pg with values := pg.values ++ s :: W }) := by
  unfold renderOnPage
  simp only [checkUnsupported_ext hs W d hd, updatePageState, updatePageStateLoop_ext hs]
  cases checkUnsupported d pg.values with
  | panic p => exact rfl
  | err e => exact ⟨rfl, .inl ⟨rfl, fun _ => hp⟩⟩
  | ok u =>
    simp only
    refine Res.Rel.refl_bind ?_
    rintro ⟨e, rs⟩
    cases e with
    | error e => exact ⟨rfl, .inl ⟨rfl, fun _ => hp⟩⟩
    | ok u =>
      simp only
      refine Res.Rel.bind (onPageLoop_ext hs W d _ _ { pg with renderState := rs, pageState := .on false } trivial _) ?_
      rintro ⟨e, pg1⟩ ⟨e', pg1'⟩ ⟨h1, h2⟩
      simp only at h1 h2
      subst h1
      have e : pg1'.renderState = pg1.renderState := by
        rcases h2 with ⟨h2, _⟩ | ⟨_, _, rfl, _⟩
        · rw [h2]
        · rfl
      cases e' with
      | error e => exact ⟨rfl, h2.imp_left fun h => ⟨h.1, fun ⟨_, h⟩ => by cases h⟩⟩
      | ok r2 =>
        simp only [e]
        exact ⟨rfl, h2.imp_left fun h => ⟨h.1, fun _ => h.2 ⟨_, rfl⟩⟩⟩

end

/-- the two states of rendering go together -/
def AppP (s : Str) (W : List Str) (pg pg' : Pages) : Prop :=
  ExtP s W pg pg' ∨ ∃ c, EndP W c pg pg'

/-- … and the first one was not left by an error -/
def AppP1 (s : Str) (W : List Str) (pg pg' : Pages) : Prop :=
  (ExtP s W pg pg' ∧ More pg.pageState) ∨ ∃ c, EndP W c pg pg'

theorem next_np {s : Str} (hs : tryFrom s = .ok (.ok .newPage)) (W : List Str) (d : Dms)
    (hd : d.multiCfg.supportedMultiTags .np = true) {pg pg' pg1 : Pages} {x} (h : AppP s W pg pg')
    (hn : Pages.next d pg = .ok (some x, pg1)) :
    isOn pg'.pageState = isOn pg.pageState ∧ ∃ pg1', Pages.next d pg' = .ok (some x, pg1') ∧ AppP s W pg1 pg1' ∧
      (AppP1 s W pg pg' → (∃ p, x = .ok p) → AppP1 s W pg1 pg1') := by
  rcases h with h | ⟨c, h0, st, rfl, h⟩
  · rw [h]
    refine ⟨rfl, ?_⟩
    obtain ⟨ds, rs, ps, vs, sp⟩ := pg
    cases ps with
    | on b =>
      have ho := renderOnPage_ext hs W d hd ⟨ds, rs, .on b, vs, sp⟩ trivial
      simp only [Pages.next] at hn ⊢
      cases hr : renderOnPage d ⟨ds, rs, .on b, vs, sp⟩ with
      | panic p => rw [hr] at hn; simp at hn
      | ok q =>
        rw [hr] at hn ho
        cases hr' : renderOnPage d ⟨ds, rs, .on b, vs ++ s :: W, sp⟩ with
        | panic p => rw [hr'] at ho; exact ho.elim
        | ok q' =>
          rw [hr'] at ho
          simp only [Res.pure_eq, Res.ok_bind, Res.ok.injEq, Prod.mk.injEq, Option.some.injEq] at hn
          obtain ⟨rfl, rfl⟩ := hn
          obtain ⟨h1, h2⟩ := ho
          refine ⟨q'.2, by simp [h1], ?_, ?_⟩
          · rcases h2 with ⟨h2, _⟩ | h2
            · exact .inl h2
            · exact .inr ⟨_, h2⟩
          · intro _ hx
            rcases h2 with ⟨h2, h3⟩ | h2
            · exact .inl ⟨h2, h3 hx⟩
            · exact .inr ⟨_, h2⟩
    | off b =>
      simp only [Pages.next, renderOffPage, Res.ok.injEq, Prod.mk.injEq, Option.some.injEq] at hn
      obtain ⟨rfl, rfl⟩ := hn
      refine ⟨_, rfl, .inl rfl, fun hm _ => ?_⟩
      rcases hm with ⟨_, hm⟩ | ⟨c, h0, st, h1, h2⟩
      · simp only [More] at hm
        subst hm
        exact .inl ⟨rfl, trivial⟩
      · simp only [Pages.mk.injEq, true_and, and_true] at h1
        obtain ⟨rfl, h1⟩ := h1
        rcases h2 with ⟨h2, h3⟩ | ⟨h2, _⟩
        · simp [h3] at h2
        · simp at h2
    | done => simp [Pages.next] at hn
  · obtain ⟨ds, rs, ps, vs, sp⟩ := pg
    rcases h with ⟨h1, h2⟩ | ⟨h1, h2⟩ <;> simp only at h0 h1 <;> subst h0 h1 h2
    · simp only [Pages.next, renderOffPage, Res.ok.injEq, Prod.mk.injEq, Option.some.injEq] at hn
      obtain ⟨rfl, rfl⟩ := hn
      have e : EndP W false ⟨ds, rs, .done, [], sp⟩ ⟨ds, rs, .on false, W, sp⟩ := ⟨rfl, _, rfl, .inr ⟨rfl, rfl⟩⟩
      exact ⟨rfl, _, rfl, .inr ⟨_, e⟩, fun _ _ => .inr ⟨_, e⟩⟩
    · simp [Pages.next] at hn

theorem steps_np {s : Str} (hs : tryFrom s = .ok (.ok .newPage)) (W : List Str) {d : Dms}
    (hd : d.multiCfg.supportedMultiTags .np = true) {pg pg' pg1 : Pages} {xs} (h : AppP s W pg pg')
    (hst : Steps d pg xs pg1) :
    ∃ pg1', Steps d pg' xs pg1' ∧ AppP s W pg1 pg1' ∧ (AppP1 s W pg pg' → NoError xs → AppP1 s W pg1 pg1') := by
  induction hst generalizing pg' with
  | nil => exact ⟨pg', .nil, h, fun h _ => h⟩
  | @cons pg pg2 pg3 x xs hn _ ih =>
    obtain ⟨h1, pg2', h2, h3, h4⟩ := next_np hs W d hd h hn
    obtain ⟨pg3', h5, h6, h7⟩ := ih h3
    refine ⟨pg3', ?_, h6, fun ha he => h7 (h4 ha (he _ (List.mem_cons_self ..)))
      fun y hy => he y (List.mem_cons_of_mem _ hy)⟩
    rw [← h1]
    exact .cons h2 h5

/-! ### what the earlier pages leave behind -/

/-- the same state of rendering, or the same at the start of a page, but for what is reset there -/
def ResetP (pg pg' : Pages) : Prop :=
  pg' = pg ∨ ∃ b b' rect ls ln sn sp, pg.pageState = .on b ∧
    pg' = { pg with pageState := .on b', spans := sp, renderState := { pg.renderState with
      textRectangle := rect, lineSpacing := ls, lineNumber := ln, spanNumber := sn } }

theorem onPageLoop_reset (d : Dms) (fuel n : Nat) (pg : Pages) (hp : pg.pageState = .on false) (sp : List Span)
    (r : Raster) :
    Res.Rel (fun p q => q.1 = p.1 ∧ q.2.renderState = p.2.renderState ∧ ResetP p.2 q.2) (onPageLoop d fuel n pg r)
      (onPageLoop d fuel n { pg with spans := sp } r) := by
  have e : ResetP pg { pg with spans := sp } :=
    .inr ⟨false, false, pg.renderState.textRectangle, pg.renderState.lineSpacing, pg.renderState.lineNumber,
      pg.renderState.spanNumber, sp, hp, by rw [← hp]⟩
  cases fuel with
  | zero => exact ⟨rfl, rfl, e⟩
  | succ fuel =>
    unfold onPageLoop
    simp only [if_pos hp]
    cases renderGraphicsLoop d pg.values pg.renderState.colorCtx r with
    | panic p => exact rfl
    | err x => exact ⟨rfl, rfl, e⟩
    | ok r1 =>
      simp only
      have e2 : renderTextRectangle d { pg with spans := sp } r1 = renderTextRectangle d pg r1 := rfl
      rw [e2]
      refine Res.Rel.refl_bind ?_
      rintro ⟨x, pg1⟩
      cases x with
      | error x => exact ⟨rfl, rfl, .inl rfl⟩
      | ok r2 =>
        simp only
        by_cases hm : n + 1 > maxTextRectangles
        · simp only [if_pos hm]; exact ⟨rfl, rfl, .inl rfl⟩
        · simp only [if_neg hm]
          cases onPageLoop d fuel (n + 1) pg1 r2 with
          | panic p => exact rfl
          | ok q => exact ⟨rfl, rfl, .inl rfl⟩

theorem next_reset (d : Dms) {pg pg' : Pages} (h : ResetP pg pg') :
    Res.Rel (fun p q => q.1 = p.1 ∧ ResetP p.2 q.2) (Pages.next d pg) (Pages.next d pg') := by
  rcases h with rfl | ⟨b, b', rect, ls, ln, sn, sp, hb, rfl⟩
  · cases Pages.next d pg' with
    | panic p => exact rfl
    | ok q => exact ⟨rfl, .inl rfl⟩
  · obtain ⟨ds, rs, ps, vs, sp'⟩ := pg
    simp only at hb
    subst hb
    simp only [Pages.next, renderOnPage]
    have e0 : updatePageState ds { rs with textRectangle := rect, lineSpacing := ls, lineNumber := ln, spanNumber := sn }
        vs = updatePageState ds rs vs := rfl
    simp only [e0]
    refine Res.Rel.bind (R := fun p q => q.1 = p.1 ∧ ResetP p.2 q.2) ?_ (fun _ _ h => ⟨by rw [h.1], h.2⟩)
    cases checkUnsupported d vs with
    | panic p => exact rfl
    | err e => exact ⟨rfl, .inr ⟨b, b', rect, ls, ln, sn, sp, rfl, rfl⟩⟩
    | ok u =>
      simp only
      refine Res.Rel.refl_bind ?_
      rintro ⟨e, rs1⟩
      cases e with
      | error e =>
        exact ⟨rfl, .inr ⟨b, b', rs1.textRectangle, rs1.lineSpacing, rs1.lineNumber, rs1.spanNumber, sp, rfl, rfl⟩⟩
      | ok u =>
        simp only
        refine Res.Rel.bind (onPageLoop_reset d _ _ ⟨ds, rs1, .on false, vs, sp'⟩ rfl sp _) ?_
        rintro ⟨e, pg1⟩ ⟨e', pg1'⟩ ⟨h1, h2, h3⟩
        simp only at h1 h2 h3
        subst h1
        cases e' with
        | error e => exact ⟨rfl, h3⟩
        | ok r2 => simp only [h2]; exact ⟨rfl, h3⟩

theorem steps_reset {d : Dms} {pg pg' pg1 : Pages} {xs} (h : ResetP pg pg') (hs : Steps d pg xs pg1) :
    ∃ pg1', Steps d pg' xs pg1' ∧ ResetP pg1 pg1' := by
  induction hs generalizing pg' with
  | nil => exact ⟨pg', .nil, h⟩
  | @cons pg pg2 pg3 x xs hn _ ih =>
    have := next_reset d h
    rw [hn] at this
    cases hy : Pages.next d pg' with
    | panic p => rw [hy] at this; exact this.elim
    | ok q =>
      rw [hy] at this
      obtain ⟨x', pg2'⟩ := q
      obtain ⟨h1, h2⟩ := this
      simp only at h1 h2
      subst h1
      obtain ⟨pg3', h3, h4⟩ := ih h2
      refine ⟨pg3', ?_, h4⟩
      have hp : isOn pg'.pageState = isOn pg.pageState := by
        rcases h with rfl | ⟨b, b', _, _, _, _, _, hb, rfl⟩
        · rfl
        · rw [hb]; rfl
      rw [← hp]
      exact .cons hy h3

theorem Spec.Steps.append {d : Dms} {pg pg1 pg2 : Pages} {xs ys} (h : Steps d pg xs pg1) (h' : Steps d pg1 ys pg2) :
    Steps d pg (xs ++ ys) pg2 := by
  induction h with
  | nil => exact h'
  | cons hn _ ih => exact .cons hn (ih h')

end Ntcip
