import Verif.Props.Pages
/-
What an error leaves behind in the page iterator.
-/
namespace Ntcip
open Spec

/-- set the background color, and the page times -/
def RenderState.app (o : Option Color) (t : Option (UInt8 × UInt8)) (rs : RenderState) : RenderState :=
  { rs with
    colorCtx := { rs.colorCtx with bgCurrent := o.getD rs.colorCtx.bgCurrent }
    pageOnTimeDs := (t.map Prod.fst).getD rs.pageOnTimeDs
    pageOffTimeDs := (t.map Prod.snd).getD rs.pageOffTimeDs }

theorem app_app_self (o : Option Color) (t : Option (UInt8 × UInt8)) (rs : RenderState) :
    RenderState.app o t (RenderState.app o t rs) = RenderState.app o t rs := by
  cases o <;> cases t <;> rfl

theorem setBackground_app (o : Option Color) (t : Option (UInt8 × UInt8)) (rs : RenderState) (c : Option Color)
    (v : Value) :
    (∃ e, rs.colorCtx.setBackground c v = .error e ∧ (rs.app o t).colorCtx.setBackground c v = .error e) ∨
    ∃ x, rs.colorCtx.setBackground c v = .ok { rs.colorCtx with bgCurrent := x } ∧
      (rs.app o t).colorCtx.setBackground c v = .ok { rs.colorCtx with bgCurrent := x } := by
  have hr : ∀ c, (rs.app o t).colorCtx.rgb c = rs.colorCtx.rgb c := fun c => by cases c <;> rfl
  cases c with
  | none => exact .inr ⟨_, rfl, rfl⟩
  | some c =>
    unfold ColorCtx.setBackground
    simp only [hr]
    cases rs.colorCtx.rgb c with
    | none => exact .inl ⟨_, rfl, rfl⟩
    | some x => exact .inr ⟨c, rfl, rfl⟩

/-- the loop sets colors and times, whatever they were -/
theorem updatePageStateLoop_app {ds : RenderState} {vals : List Str} {rs : RenderState} {r rs'}
    (h : updatePageStateLoop ds vals rs = .ok (r, rs')) :
    ∃ o t, rs' = rs.app o t ∧
      ∀ o' t', updatePageStateLoop ds vals (rs.app o' t') = .ok (r, (rs.app o' t').app o t) := by
  induction vals generalizing rs with
  | nil =>
    simp only [updatePageStateLoop, Res.ok.injEq, Prod.mk.injEq] at h
    obtain ⟨rfl, rfl⟩ := h
    exact ⟨none, none, rfl, fun _ _ => rfl⟩
  | cons s vals ih =>
    simp only [updatePageStateLoop] at h ⊢
    have bg : ∀ (c : Option Color) (v : Value),
        (match rs.colorCtx.setBackground c v with
          | .ok ctx => updatePageStateLoop ds vals { rs with colorCtx := ctx }
          | .error e => .ok (.error e, rs)) = .ok (r, rs') →
        ∃ o t, rs' = rs.app o t ∧ ∀ o' t',
          (match (rs.app o' t').colorCtx.setBackground c v with
            | .ok ctx => updatePageStateLoop ds vals { rs.app o' t' with colorCtx := ctx }
            | .error e => .ok (.error e, rs.app o' t')) = .ok (r, (rs.app o' t').app o t) := by
      intro c v h
      rcases setBackground_app none none rs c v with ⟨e, h1, -⟩ | ⟨x, h1, -⟩
      · rw [h1] at h
        simp only [Res.ok.injEq, Prod.mk.injEq] at h
        obtain ⟨rfl, rfl⟩ := h
        refine ⟨none, none, rfl, fun o' t' => ?_⟩
        rcases setBackground_app o' t' rs c v with ⟨e', h2, h3⟩ | ⟨x, h2, -⟩
        · rw [h1] at h2; cases h2
          rw [h3]; rfl
        · rw [h1] at h2; cases h2
      · rw [h1] at h
        obtain ⟨o, t, e, hi⟩ := ih h
        refine ⟨some (o.getD x), t, ?_, fun o' t' => ?_⟩
        · rw [e]; cases o <;> rfl
        · rcases setBackground_app o' t' rs c v with ⟨e', h2, -⟩ | ⟨x', h2, h3⟩
          · rw [h1] at h2; cases h2
          · rw [h1] at h2; cases h2
            rw [h3]
            have := hi none t'
            refine Eq.trans this ?_
            cases o <;> cases t <;> rfl
    cases hs : tryFrom s with
    | panic p => rw [hs] at h; simp at h
    | ok x =>
      rw [hs] at h
      cases x with
      | error e =>
        simp only [Res.ok.injEq, Prod.mk.injEq] at h
        obtain ⟨rfl, rfl⟩ := h
        exact ⟨none, none, rfl, fun _ _ => rfl⟩
      | ok v =>
        cases v with
        | colorBackground c => exact bg c _ h
        | pageBackground c => exact bg c _ h
        | newPage =>
          simp only [Res.ok.injEq, Prod.mk.injEq] at h
          obtain ⟨rfl, rfl⟩ := h
          exact ⟨none, none, rfl, fun _ _ => rfl⟩
        | pageTime on off =>
          obtain ⟨o, t, e, hi⟩ := ih h
          refine ⟨o, some (t.getD (on.getD ds.pageOnTimeDs, off.getD ds.pageOffTimeDs)), ?_, fun o' t' => ?_⟩
          · rw [e]; cases t <;> rfl
          · refine Eq.trans (hi o' none) ?_
            cases o <;> cases t <;> rfl
        | _ => exact ih h

theorem updatePageState_again {ds rs : RenderState} {vals : List Str} {r rs'}
    (h : updatePageState ds rs vals = .ok (r, rs')) : updatePageState ds rs' vals = .ok (r, rs') := by
  unfold updatePageState at h ⊢
  obtain ⟨o, t, rfl, hi⟩ := updatePageStateLoop_app h
  refine Eq.trans (hi o t) ?_
  rw [app_app_self]

/-! ### what is consumed -/

theorem rtrLoop_length {d ds po vals st r st' vals'} (h : rtrLoop d ds po vals st = .ok (r, st', vals')) :
    vals'.length ≤ vals.length := by
  induction vals generalizing st with
  | nil => simp only [rtrLoop, Res.ok.injEq, Prod.mk.injEq] at h; rw [← h.2.2]; simp
  | cons s vals ih =>
    simp only [rtrLoop] at h
    split at h
    · simp at h
    · simp only [Res.ok.injEq, Prod.mk.injEq] at h; rw [← h.2.2]; simp
    · split at h
      · simp at h
      · have := ih h; simp; omega
      · simp only [Res.ok.injEq, Prod.mk.injEq] at h; rw [← h.2.2]; simp
      · simp only [Res.ok.injEq, Prod.mk.injEq] at h; rw [← h.2.2]; simp

theorem rtrLoop_values {d ds po vals st r st' vals'} (h : rtrLoop d ds po vals st = .ok (r, st', vals')) :
    vals'.length < vals.length ∨ (st'.pageState = st.pageState) := by
  induction vals generalizing st with
  | nil =>
    simp only [rtrLoop, Res.ok.injEq, Prod.mk.injEq] at h
    obtain ⟨-, rfl, rfl⟩ := h
    exact .inr rfl
  | cons s vals ih =>
    left
    simp only [rtrLoop] at h
    split at h
    · simp at h
    · simp only [Res.ok.injEq, Prod.mk.injEq] at h; rw [← h.2.2]; simp
    · split at h
      · simp at h
      · have := rtrLoop_length h; simp; omega
      · simp only [Res.ok.injEq, Prod.mk.injEq] at h; rw [← h.2.2]; simp
      · simp only [Res.ok.injEq, Prod.mk.injEq] at h; rw [← h.2.2]; simp

theorem budget_lt {pg : Pages} {n : Nat} (h : pg.values.length < n) : budget pg < 2 * (n + 1) := by
  unfold budget
  split <;> omega

theorem budget_done {pg : Pages} {b : Bool} (h : pg.pageState = .doneState b) : budget pg ≤ 1 := by
  unfold budget
  rw [h]
  cases b <;> simp [PageState.doneState]

theorem renderTextRectangle_budget {d pg raster r pg'} (h : renderTextRectangle d pg raster = .ok (r, pg')) :
    budget pg' < 2 * (pg.values.length + 1) := by
  unfold renderTextRectangle at h
  simp only [Res.bind_eq_ok] at h
  obtain ⟨⟨r1, st, vals⟩, h1, h2⟩ := h
  have hp : pg'.pageState = st.pageState ∧ pg'.values = vals := by
    cases r1 with
    | error e =>
      simp only [Res.pure_eq, Res.ok.injEq, Prod.mk.injEq] at h2
      rw [← h2.2]; exact ⟨rfl, rfl⟩
    | ok u =>
      cases h3 : renderTextSpans d st.spans raster with
      | panic p => simp only [h3] at h2; simp at h2
      | err e => simp only [h3, Res.pure_eq, Res.ok.injEq, Prod.mk.injEq] at h2; rw [← h2.2]; exact ⟨rfl, rfl⟩
      | ok x => simp only [h3, Res.pure_eq, Res.ok.injEq, Prod.mk.injEq] at h2; rw [← h2.2]; exact ⟨rfl, rfl⟩
  rcases rtrLoop_values h1 with h3 | h3
  · exact budget_lt (by rw [hp.2]; exact h3)
  · have := budget_done (hp.1.trans h3)
    omega

theorem onPageLoop_budget {d fuel n pg raster r pg'} (h : onPageLoop d fuel n pg raster = .ok (r, pg')) :
    budget pg' ≤ budget pg ∧ (fuel ≠ 0 → pg.pageState = .on false →
      budget pg' < budget pg ∨
        ∃ e, renderGraphicsLoop d pg.values pg.renderState.colorCtx raster = .err e ∧ r = .error e ∧ pg' = pg) := by
  induction fuel generalizing n pg raster with
  | zero =>
    simp only [onPageLoop, Res.ok.injEq, Prod.mk.injEq] at h
    exact ⟨by rw [h.2]; exact Nat.le_refl _, by simp⟩
  | succ fuel ih =>
    rw [onPageLoop] at h
    split at h
    · rename_i hp
      have hb : budget pg = 2 * (pg.values.length + 1) := by unfold budget; rw [hp]
      split at h
      · simp at h
      · rename_i e he
        simp only [Res.ok.injEq, Prod.mk.injEq] at h
        obtain ⟨rfl, rfl⟩ := h
        exact ⟨Nat.le_refl _, fun _ _ => .inr ⟨e, he, rfl, rfl⟩⟩
      · rename_i raster1 _
        simp only [Res.bind_eq_ok] at h
        obtain ⟨⟨r1, pg1⟩, h1, h2⟩ := h
        have hlt : budget pg1 < budget pg := by rw [hb]; exact renderTextRectangle_budget h1
        have : budget pg' ≤ budget pg1 := by
          cases r1 with
          | error e =>
            simp only [Res.pure_eq, Res.ok.injEq, Prod.mk.injEq] at h2
            rw [h2.2]; exact Nat.le_refl _
          | ok raster2 =>
            simp only at h2
            split at h2
            · simp only [Res.pure_eq, Res.ok.injEq, Prod.mk.injEq] at h2
              rw [h2.2]; exact Nat.le_refl _
            · exact (ih h2).1
        exact ⟨by omega, fun _ _ => .inl (by omega)⟩
    · rename_i hp
      simp only [Res.ok.injEq, Prod.mk.injEq] at h
      exact ⟨by rw [h.2]; exact Nat.le_refl _, fun _ h' => absurd h' hp⟩

/-- why rendering is stuck: before anything of the page is consumed -/
inductive Stuck (d : Dms) (pg : Pages) (e : SyntaxError) : Prop
  | unsupported (h : checkUnsupported d pg.values = .err e)
  | background (rs : RenderState) (h : updatePageState pg.defaultState pg.renderState pg.values = .ok (.error e, rs))
  | graphics (rs : RenderState) (raster : Raster)
    (h : renderGraphicsLoop d pg.values rs.colorCtx raster = .err e)

theorem next_onPage {d : Dms} {pg : Pages} {x pg'} (hon : isOn pg.pageState = true)
    (h : renderOnPage d pg = .ok (x, pg')) : Pages.next d pg = .ok (some x, pg') := by
  unfold Pages.next
  cases hp : pg.pageState <;> simp_all [isOn]

theorem renderOnPage_error {d pg e pg'} (hon : isOn pg.pageState = true)
    (h : renderOnPage d pg = .ok (.error e, pg')) :
    budget pg' < budget pg ∨ Pages.next d pg' = .ok (some (.error e), pg') ∧ Stuck d pg e := by
  have hb : budget pg = 2 * (pg.values.length + 1) := by
    unfold budget; cases hps : pg.pageState <;> simp_all [isOn]
  have h0 := h
  unfold renderOnPage at h
  split at h
  · simp at h
  · rename_i e' he
    simp only [Res.ok.injEq, Prod.mk.injEq, Except.error.injEq] at h
    obtain ⟨rfl, rfl⟩ := h
    exact .inr ⟨next_onPage hon h0, .unsupported he⟩
  · rename_i hc
    simp only [Res.bind_eq_ok] at h
    obtain ⟨⟨r, rs⟩, h1, h2⟩ := h
    have ha := updatePageState_again h1
    cases r with
    | error e' =>
      simp only [Res.pure_eq, Res.ok.injEq, Prod.mk.injEq, Except.error.injEq] at h2
      obtain ⟨rfl, rfl⟩ := h2
      refine .inr ⟨next_onPage hon ?_, .background rs h1⟩
      unfold renderOnPage
      simp only [hc, ha, Res.ok_bind, Res.pure_eq]
    | ok u =>
      simp only [Res.bind_eq_ok] at h2
      obtain ⟨⟨r2, pg2⟩, h3, h4⟩ := h2
      cases r2 with
      | ok raster => simp at h4
      | error e' =>
        simp only [Res.pure_eq, Res.ok.injEq, Prod.mk.injEq, Except.error.injEq] at h4
        obtain ⟨rfl, rfl⟩ := h4
        rcases (onPageLoop_budget h3).2 (by simp [maxTextRectangles]) rfl with h5 | ⟨e2, h5, h6, rfl⟩
        · left
          rw [hb]
          exact h5
        · cases h6
          refine .inr ⟨next_onPage rfl ?_, .graphics rs _ h5⟩
          unfold renderOnPage
          simp only [hc, ha, Res.ok_bind]
          rw [onPageLoop, if_pos rfl]
          simp only [h5, Res.ok_bind, Res.pure_eq]

theorem next_budget {d pg x pg'} (h : Pages.next d pg = .ok (some x, pg')) :
    budget pg' < budget pg ∨ ∃ e, x = .error e ∧ Pages.next d pg' = .ok (some (.error e), pg') ∧ Stuck d pg e := by
  rcases next_cases h with ⟨hon, h1⟩ | ⟨hoff, ⟨b', hb⟩, hq, rfl⟩
  · cases x with
    | error e =>
      rcases renderOnPage_error hon h1 with h2 | h2
      · exact .inl h2
      · exact .inr ⟨e, rfl, h2⟩
    | ok q =>
      left
      obtain ⟨vs, rest, b, ho⟩ := renderOnPage_ok h1
      have e0 : budget pg = 2 * (pg.values.length + 1) := by
        unfold budget; cases hps : pg.pageState <;> simp_all [isOn]
      have hl := takePage_length ho.take
      have hv := ho.values
      have es := ho.state
      rw [e0]
      unfold budget
      rw [es, hv]
      cases b
      · simp only [PageState.doneState, Bool.false_eq_true, if_false]
        split <;> rename_i hh <;> split at hh <;> simp_all <;> omega
      · simp only [PageState.newPage, if_true] at *
        split <;> rename_i hh <;> split at hh <;> simp_all <;> omega
  · left
    cases b' <;> simp [budget, renderOffPage, hb, PageState.nextState]

end Ntcip
