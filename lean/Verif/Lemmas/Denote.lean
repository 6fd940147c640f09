import Verif.Lemmas.Recolor
/-
Rendering looks at the items of a message only through their values (used by C78).
-/
namespace Ntcip
open Spec

/-- items of the same values -/
def Alike (ss ss' : List Str) : Prop := ss.map tryFrom = ss'.map tryFrom

theorem Alike.refl (ss : List Str) : Alike ss ss := rfl

/-- induction along two lists of the same values -/
theorem Alike.induct {P : List Str → List Str → Prop} (h0 : P [] [])
    (h1 : ∀ s s' ss ss', tryFrom s' = tryFrom s → Alike ss ss' → P ss ss' → P (s :: ss) (s' :: ss'))
    {ss ss' : List Str} (h : Alike ss ss') : P ss ss' := by
  unfold Alike at h
  induction ss generalizing ss' with
  | nil => cases ss' with
    | nil => exact h0
    | cons s' ss' => simp at h
  | cons s ss ih => cases ss' with
    | nil => simp at h
    | cons s' ss' =>
      simp only [List.map_cons, List.cons.injEq] at h
      exact h1 s s' ss ss' h.1.symm h.2 (ih h.2)

theorem checkUnsupported_alike (d : Dms) {ss ss' : List Str} (h : Alike ss ss') :
    checkUnsupported d ss' = checkUnsupported d ss := by
  refine Alike.induct (P := fun ss ss' => checkUnsupported d ss' = checkUnsupported d ss) rfl ?_ h
  intro s s' ss ss' hs _ ih
  simp only [checkUnsupported, hs, ih]

theorem updatePageStateLoop_alike (ds : RenderState) {ss ss' : List Str} (h : Alike ss ss') (rs : RenderState) :
    updatePageStateLoop ds ss' rs = updatePageStateLoop ds ss rs := by
  revert rs
  refine Alike.induct (P := fun ss ss' => ∀ rs, updatePageStateLoop ds ss' rs = updatePageStateLoop ds ss rs)
    (fun _ => rfl) ?_ h
  intro s s' ss ss' hs _ ih rs
  simp only [updatePageStateLoop, hs, ih]

theorem renderGraphicsLoop_alike (d : Dms) {ss ss' : List Str} (h : Alike ss ss') (c : ColorCtx) (r : Raster) :
    renderGraphicsLoop d ss' c r = renderGraphicsLoop d ss c r := by
  revert c r
  refine Alike.induct (P := fun ss ss' => ∀ c r, renderGraphicsLoop d ss' c r = renderGraphicsLoop d ss c r)
    (fun _ _ => rfl) ?_ h
  intro s s' ss ss' hs _ ih c r
  simp only [renderGraphicsLoop, hs, ih]

theorem rtrLoop_alike (d : Dms) (ds : RenderState) (po : Bool) {ss ss' : List Str} (h : Alike ss ss') (st : Rtr) :
    Res.Rel (fun p q => q.1 = p.1 ∧ q.2.1 = p.2.1 ∧ Alike p.2.2 q.2.2) (rtrLoop d ds po ss st)
      (rtrLoop d ds po ss' st) := by
  revert st
  refine Alike.induct (P := fun ss ss' => ∀ st,
    Res.Rel (fun p q => q.1 = p.1 ∧ q.2.1 = p.2.1 ∧ Alike p.2.2 q.2.2) (rtrLoop d ds po ss st)
      (rtrLoop d ds po ss' st)) (fun st => by exact ⟨rfl, rfl, Alike.refl []⟩) ?_ h
  intro s s' ss ss' hs hss ih st
  simp only [rtrLoop, hs]
  cases tryFrom s with
  | panic p => exact rfl
  | ok x => cases x with
    | error e => exact ⟨rfl, rfl, hss⟩
    | ok v =>
      simp only
      cases rtrStep d ds po st v with
      | panic p => exact rfl
      | ok q =>
        obtain ⟨c, st'⟩ := q
        cases c with
        | cont => exact ih st'
        | brk => exact ⟨rfl, rfl, hss⟩
        | fail e => exact ⟨rfl, rfl, hss⟩

/-- the same state of rendering, but for the spelling of the items left -/
def AlikeP (pg pg' : Pages) : Prop :=
  ∃ ss', Alike pg.values ss' ∧ pg' = { pg with values := ss' }

theorem renderTextRectangle_alike (d : Dms) {pg pg' : Pages} (h : AlikeP pg pg') (r : Raster) :
    Res.Rel (fun p q => q.1 = p.1 ∧ AlikeP p.2 q.2) (renderTextRectangle d pg r) (renderTextRectangle d pg' r) := by
  obtain ⟨ss', h, rfl⟩ := h
  unfold renderTextRectangle
  refine Res.Rel.bind (rtrLoop_alike d _ _ h _) ?_
  rintro ⟨e, st, ss⟩ ⟨e', st', ss'⟩ ⟨h1, h2, h3⟩
  simp only at h1 h2 h3
  subst h1 h2
  simp only
  cases e' with
  | error e => exact ⟨rfl, ss', h3, rfl⟩
  | ok u =>
    simp only
    cases renderTextSpans d st'.spans r with
    | panic p => exact rfl
    | err e => exact ⟨rfl, ss', h3, rfl⟩
    | ok r' => exact ⟨rfl, ss', h3, rfl⟩

theorem onPageLoop_alike (d : Dms) (fuel n : Nat) {pg pg' : Pages} (h : AlikeP pg pg') (r : Raster) :
    Res.Rel (fun p q => q.1 = p.1 ∧ AlikeP p.2 q.2) (onPageLoop d fuel n pg r) (onPageLoop d fuel n pg' r) := by
  induction fuel generalizing n pg pg' r with
  | zero => exact ⟨rfl, h⟩
  | succ fuel ih =>
    have hx := renderTextRectangle_alike d h
    obtain ⟨ss', hs, rfl⟩ := h
    unfold onPageLoop
    simp only [renderGraphicsLoop_alike d hs]
    by_cases hp : pg.pageState = .on false
    · simp only [if_pos hp]
      cases renderGraphicsLoop d pg.values pg.renderState.colorCtx r with
      | panic p => exact rfl
      | err e => exact ⟨rfl, ss', hs, rfl⟩
      | ok r1 =>
        simp only
        refine Res.Rel.bind (hx r1) ?_
        rintro ⟨e, pg1⟩ ⟨e', pg1'⟩ ⟨h1, h2⟩
        simp only at h1 h2
        subst h1
        simp only
        cases e' with
        | error e => exact ⟨rfl, h2⟩
        | ok r2 =>
          simp only
          by_cases hm : n + 1 > maxTextRectangles
          · simp only [if_pos hm]; exact ⟨rfl, h2⟩
          · simp only [if_neg hm]; exact ih _ h2 _
    · simp only [if_neg hp]; exact ⟨rfl, ss', hs, rfl⟩

theorem renderOnPage_alike (d : Dms) {pg pg' : Pages} (h : AlikeP pg pg') :
    Res.Rel (fun p q => q.1 = p.1 ∧ AlikeP p.2 q.2) (renderOnPage d pg) (renderOnPage d pg') := by
  obtain ⟨ss', hs, rfl⟩ := h
  unfold renderOnPage
  simp only [checkUnsupported_alike d hs, updatePageState, updatePageStateLoop_alike _ hs]
  cases checkUnsupported d pg.values with
  | panic p => exact rfl
  | err e => exact ⟨rfl, ss', hs, rfl⟩
  | ok u =>
    simp only
    refine Res.Rel.refl_bind ?_
    rintro ⟨e, rs⟩
    cases e with
    | error e => exact ⟨rfl, ss', hs, rfl⟩
    | ok u =>
      simp only
      refine Res.Rel.bind (onPageLoop_alike d _ _ (pg := { pg with renderState := rs, pageState := .on false })
        ⟨ss', hs, rfl⟩ _) ?_
      rintro ⟨e, pg1⟩ ⟨e', pg1'⟩ ⟨h1, h2⟩
      simp only at h1 h2
      subst h1
      have h3 := h2
      obtain ⟨ss1, h4, rfl⟩ := h2
      cases e' with
      | error e => exact ⟨rfl, h3⟩
      | ok r2 => exact ⟨rfl, h3⟩

theorem next_alike (d : Dms) {pg pg' : Pages} (h : AlikeP pg pg') :
    Res.Rel (fun p q => q.1 = p.1 ∧ AlikeP p.2 q.2) (Pages.next d pg) (Pages.next d pg') := by
  have ho := renderOnPage_alike d h
  obtain ⟨ss', hs, rfl⟩ := h
  unfold Pages.next
  obtain ⟨ds, rs, ps, vs, sp⟩ := pg
  cases ps with
  | on b =>
    simp only
    refine Res.Rel.bind ho ?_
    rintro ⟨e, pg1⟩ ⟨e', pg1'⟩ ⟨h1, h2⟩
    simp only at h1
    subst h1
    exact ⟨rfl, h2⟩
  | off b => exact ⟨rfl, ss', hs, rfl⟩
  | done => exact ⟨rfl, ss', hs, rfl⟩

theorem run_alike (d : Dms) (k : Nat) {pg pg' : Pages} (h : AlikeP pg pg') :
    Res.Rel (fun p q => q.1 = p.1 ∧ AlikeP p.2 q.2) (Pages.run d k pg) (Pages.run d k pg') := by
  induction k generalizing pg pg' with
  | zero => exact ⟨rfl, h⟩
  | succ k ih =>
    unfold Pages.run
    refine Res.Rel.bind (next_alike d h) ?_
    rintro ⟨e, pg1⟩ ⟨e', pg1'⟩ ⟨h1, h2⟩
    simp only at h1 h2
    subst h1
    cases e' with
    | none => exact ⟨rfl, h2⟩
    | some x =>
      simp only
      refine Res.Rel.bind (ih h2) ?_
      rintro ⟨xs, pg2⟩ ⟨xs', pg2'⟩ ⟨h3, h4⟩
      simp only at h3 h4
      subst h3
      exact ⟨rfl, h4⟩

end Ntcip
