import Verif.Lemmas.Pages
/-
Invariants of the page iterator, on every path (errors included), and runs without errors.
-/
namespace Ntcip
open Spec

theorem updatePageStateLoop_inv {ds : RenderState} {ss rs x rs'} (I : ColorCtx → Prop)
    (hI : ∀ ctx c v ctx', I ctx → ctx.setBackground c v = .ok ctx' → I ctx')
    (h : updatePageStateLoop ds ss rs = .ok (x, rs')) (hi : I rs.colorCtx) : I rs'.colorCtx := by
  induction ss generalizing rs with
  | nil =>
    simp only [updatePageStateLoop, Res.ok.injEq, Prod.mk.injEq] at h
    rw [← h.2]; exact hi
  | cons s ss ih =>
    unfold updatePageStateLoop at h
    split at h
    · simp at h
    · simp only [Res.ok.injEq, Prod.mk.injEq] at h; rw [← h.2]; exact hi
    · split at h
      · split at h
        · rename_i hc; exact ih h (hI _ _ _ _ hi hc)
        · simp only [Res.ok.injEq, Prod.mk.injEq] at h; rw [← h.2]; exact hi
      · split at h
        · rename_i hc; exact ih h (hI _ _ _ _ hi hc)
        · simp only [Res.ok.injEq, Prod.mk.injEq] at h; rw [← h.2]; exact hi
      · simp only [Res.ok.injEq, Prod.mk.injEq] at h; rw [← h.2]; exact hi
      · exact ih (rs := { rs with pageOnTimeDs := _, pageOffTimeDs := _ }) h hi
      · exact ih h hi

theorem rtrStep_fail {d ds po st v st' e} (h : rtrStep d ds po st v = .ok (.fail e, st')) :
    st'.rs = st.rs := by
  unfold rtrStep at h
  split at h <;> dsimp only at h
  · split at h <;> simp at h
    rw [h.2]
  · simp at h
  · simp at h
  · simp at h; rw [h.2]
  · simp at h; rw [h.2]
  · simp at h
  · simp at h; rw [h.2]
  · split at h <;> simp at h
  · split at h <;> simp at h
    rw [h.2]
  · simp at h
  · split at h <;> simp at h
    rw [h.2]
  · simp at h
  · simp only [Res.bind_eq_ok] at h
    obtain ⟨o, _, h⟩ := h
    cases o <;> simp at h
    rw [← h.2]
  · simp at h
  · split at h <;> simp at h
    rw [h.2]
  · simp at h

theorem rtrLoop_inv {d ds po ss st x st' rest} (I : ColorCtx → Prop)
    (hI : ∀ ctx c v ctx', I ctx → ctx.setForeground c v = .ok ctx' → I ctx')
    (h : rtrLoop d ds po ss st = .ok (x, st', rest)) (hi : I st.rs.colorCtx) : I st'.rs.colorCtx := by
  induction ss generalizing st with
  | nil =>
    simp only [rtrLoop, Res.ok.injEq, Prod.mk.injEq] at h
    rw [← h.2.1]; exact hi
  | cons s ss ih =>
    unfold rtrLoop at h
    split at h
    · simp at h
    · simp only [Res.ok.injEq, Prod.mk.injEq] at h; rw [← h.2.1]; exact hi
    · split at h
      · simp at h
      · rename_i h1; exact ih h ((rtrStep_cont h1).colors I hI hi)
      · rename_i h1
        simp only [Res.ok.injEq, Prod.mk.injEq] at h; rw [← h.2.1]
        rcases rtrStep_brk h1 with ⟨_, rfl⟩ | ⟨_, _, _, _, rfl⟩ <;> exact hi
      · rename_i h1
        simp only [Res.ok.injEq, Prod.mk.injEq] at h; rw [← h.2.1, rtrStep_fail h1]; exact hi

theorem renderTextRectangle_inv {d pg raster x pg'} (I : ColorCtx → Prop)
    (hI : ∀ ctx c v ctx', I ctx → ctx.setForeground c v = .ok ctx' → I ctx')
    (h : renderTextRectangle d pg raster = .ok (x, pg')) :
    pg'.defaultState = pg.defaultState ∧ (I pg.renderState.colorCtx → I pg'.renderState.colorCtx) := by
  unfold renderTextRectangle at h
  simp only [Res.bind_eq_ok] at h
  obtain ⟨⟨y, st, values⟩, h1, h2⟩ := h
  have key : pg' = ⟨pg.defaultState, st.rs, st.pageState, values, st.spans⟩ := by
    cases y with
    | error e => simp only [Res.pure_eq, Res.ok.injEq, Prod.mk.injEq] at h2; exact h2.2.symm
    | ok u =>
      simp only at h2
      split at h2
      · simp at h2
      · simp only [Res.pure_eq, Res.ok.injEq, Prod.mk.injEq] at h2; exact h2.2.symm
      · simp only [Res.pure_eq, Res.ok.injEq, Prod.mk.injEq] at h2; exact h2.2.symm
  subst key
  exact ⟨rfl, fun hi => rtrLoop_inv I hI h1 hi⟩

theorem onPageLoop_inv {d fuel n pg raster x pg'} (I : ColorCtx → Prop)
    (hI : ∀ ctx c v ctx', I ctx → ctx.setForeground c v = .ok ctx' → I ctx')
    (h : onPageLoop d fuel n pg raster = .ok (x, pg')) :
    pg'.defaultState = pg.defaultState ∧ (I pg.renderState.colorCtx → I pg'.renderState.colorCtx) := by
  induction fuel generalizing n pg raster with
  | zero =>
    simp only [onPageLoop, Res.ok.injEq, Prod.mk.injEq] at h
    obtain ⟨_, rfl⟩ := h; exact ⟨rfl, id⟩
  | succ fuel ih =>
    rw [onPageLoop] at h
    split at h
    · split at h
      · simp at h
      · simp only [Res.ok.injEq, Prod.mk.injEq] at h
        obtain ⟨_, rfl⟩ := h; exact ⟨rfl, id⟩
      · simp only [Res.bind_eq_ok] at h
        obtain ⟨⟨y, pg1⟩, h1, h2⟩ := h
        obtain ⟨k1, k2⟩ := renderTextRectangle_inv I hI h1
        cases y with
        | error e =>
          simp only [Res.pure_eq, Res.ok.injEq, Prod.mk.injEq] at h2
          obtain ⟨_, rfl⟩ := h2; exact ⟨k1, k2⟩
        | ok r =>
          simp only at h2
          split at h2
          · simp only [Res.pure_eq, Res.ok.injEq, Prod.mk.injEq] at h2
            obtain ⟨_, rfl⟩ := h2; exact ⟨k1, k2⟩
          · obtain ⟨m1, m2⟩ := ih h2
            exact ⟨m1.trans k1, m2 ∘ k2⟩
    · simp only [Res.ok.injEq, Prod.mk.injEq] at h
      obtain ⟨_, rfl⟩ := h; exact ⟨rfl, id⟩

theorem renderOnPage_inv {d pg x pg'} (I : ColorCtx → Prop)
    (hI : ∀ ctx c v ctx', I ctx → ctx.setForeground c v = .ok ctx' → I ctx')
    (hB : ∀ ctx c v ctx', I ctx → ctx.setBackground c v = .ok ctx' → I ctx')
    (h : renderOnPage d pg = .ok (x, pg')) :
    pg'.defaultState = pg.defaultState ∧ (I pg.renderState.colorCtx → I pg'.renderState.colorCtx) := by
  unfold renderOnPage at h
  split at h
  · simp at h
  · simp only [Res.ok.injEq, Prod.mk.injEq] at h
    obtain ⟨_, rfl⟩ := h; exact ⟨rfl, id⟩
  · simp only [Res.bind_eq_ok] at h
    obtain ⟨⟨y, rs⟩, h1, h2⟩ := h
    have hu : I pg.renderState.colorCtx → I rs.colorCtx := fun hi =>
      updatePageStateLoop_inv I hB h1 hi
    cases y with
    | error e =>
      simp only [Res.pure_eq, Res.ok.injEq, Prod.mk.injEq] at h2
      obtain ⟨_, rfl⟩ := h2; exact ⟨rfl, hu⟩
    | ok u =>
      simp only [Res.bind_eq_ok] at h2
      obtain ⟨⟨z, pg1⟩, h3, h4⟩ := h2
      obtain ⟨m1, m2⟩ := onPageLoop_inv I hI h3
      cases z with
      | error e =>
        simp only [Res.pure_eq, Res.ok.injEq, Prod.mk.injEq] at h4
        obtain ⟨_, rfl⟩ := h4; exact ⟨m1, fun h => m2 (hu h)⟩
      | ok r =>
        simp only [Res.pure_eq, Res.ok.injEq, Prod.mk.injEq] at h4
        obtain ⟨_, rfl⟩ := h4; exact ⟨m1, fun h => m2 (hu h)⟩

/-- `next`, case by case -/
theorem next_cases {d pg x pg'} (h : Pages.next d pg = .ok (some x, pg')) :
    (isOn pg.pageState = true ∧ renderOnPage d pg = .ok (x, pg')) ∨
    (isOn pg.pageState = false ∧ (∃ b, pg.pageState = .off b) ∧ x = .ok (renderOffPage pg).1 ∧
      pg' = (renderOffPage pg).2) := by
  unfold Pages.next at h
  split at h
  · rename_i b hb
    simp only [Res.bind_eq_ok, Res.pure_eq, Res.ok.injEq, Prod.mk.injEq] at h
    obtain ⟨⟨r, pg1⟩, h1, h2⟩ := h
    simp only [Option.some.injEq] at h2
    obtain ⟨rfl, rfl⟩ := h2
    exact .inl ⟨by simp [hb, isOn], h1⟩
  · rename_i b hb
    simp only [Res.ok.injEq, Prod.mk.injEq, Option.some.injEq] at h
    exact .inr ⟨by simp [hb, isOn], ⟨b, hb⟩, h.1.symm, h.2.symm⟩
  · simp at h

theorem next_none {d pg pg'} (h : Pages.next d pg = .ok (none, pg')) :
    pg.pageState = .done ∧ pg' = pg := by
  unfold Pages.next at h
  split at h
  · simp only [Res.bind_eq_ok, Res.pure_eq, Res.ok.injEq, Prod.mk.injEq] at h
    obtain ⟨⟨r, pg1⟩, h1, h2⟩ := h
    simp at h2
  · simp at h
  · rename_i hd
    simp only [Res.ok.injEq, Prod.mk.injEq] at h
    exact ⟨hd, h.2.symm⟩

/-- invariant of the color context, and the default state, along a run -/
theorem next_inv {d pg x pg'} (I : ColorCtx → Prop)
    (hI : ∀ ctx c v ctx', I ctx → ctx.setForeground c v = .ok ctx' → I ctx')
    (hB : ∀ ctx c v ctx', I ctx → ctx.setBackground c v = .ok ctx' → I ctx')
    (h : Pages.next d pg = .ok (some x, pg')) :
    pg'.defaultState = pg.defaultState ∧ (I pg.renderState.colorCtx → I pg'.renderState.colorCtx) := by
  rcases next_cases h with ⟨_, h1⟩ | ⟨_, _, _, rfl⟩
  · exact renderOnPage_inv I hI hB h1
  · exact ⟨rfl, id⟩

/-- a property of states and items that holds along a run -/
theorem steps_ind {d pg xs pg'} (h : Steps d pg xs pg') (I : Pages → Prop)
    (J : Bool → Except SyntaxError Page → Prop)
    (hI : ∀ pg x pg', I pg → Pages.next d pg = .ok (some x, pg') → I pg' ∧ J (isOn pg.pageState) x)
    (h0 : I pg) : I pg' ∧ ∀ x ∈ xs, J x.1 x.2 := by
  induction h with
  | nil => exact ⟨h0, by simp⟩
  | cons hn _ ih =>
    obtain ⟨h1, h2⟩ := hI _ _ _ h0 hn
    obtain ⟨i1, i2⟩ := ih h1
    refine ⟨i1, fun x hx => ?_⟩
    rcases List.mem_cons.1 hx with rfl | hx
    · exact h2
    · exact i2 x hx

theorem signState_new (d : Dms) (ms : Str) :
    SignState d (Pages.new d ms).defaultState (Pages.new d ms).renderState :=
  ⟨rfl, foregroundDefault_eq d, backgroundDefault_eq d, rfl⟩

theorem renderNew_attr (d : Dms) : textAttr (RenderState.new d) = signAttr d := by
  unfold signAttr; rw [← foregroundDefault_eq]; rfl

theorem renderNew_background (d : Dms) :
    (RenderState.new d).colorCtx.bgCurrent = .ofRgb (signBackground d) := by
  rw [← backgroundDefault_eq]; rfl

theorem pagesNew_attr (d : Dms) (ms : Str) : textAttr (Pages.new d ms).renderState = signAttr d :=
  renderNew_attr d

theorem pagesNew_background (d : Dms) (ms : Str) :
    (Pages.new d ms).renderState.colorCtx.bgCurrent = .ofRgb (signBackground d) :=
  renderNew_background d

theorem takePage_end {ss vs rest} (h : TakePage ss vs rest false) : rest = [] := by
  generalize hb : false = b at h
  induction h with
  | nil => rfl
  | np _ => simp at hb
  | cons _ _ _ ih => exact ih hb

/-- after the last page nothing is left -/
theorem onPage_rest {d pg page pg' vs rest b} (ho : OnPage d pg page pg' vs rest b) :
    pg'.pageState = .done ∨ pg'.pageState = .off false → pg'.values = [] := by
  intro hh
  rw [ho.values]
  cases b with
  | false => exact takePage_end ho.take
  | true =>
    have e := ho.state
    simp only [if_true, PageState.newPage] at e
    rw [e] at hh
    split at hh <;> simp at hh

theorem takePage_length {ss vs rest b} (h : TakePage ss vs rest b) :
    rest.length + (if b then 1 else 0) ≤ ss.length := by
  induction h with
  | nil => simp
  | np _ => simp
  | cons _ _ _ ih => simp only [List.length_cons]; omega

theorem takePage_no_tr {ss vs rest b} (h : TakePage ss vs rest b)
    (hn : ∀ s ∈ ss, ∀ r, tryFrom s ≠ .ok (.ok (.textRectangle r))) :
    (∀ v ∈ vs, ∀ r, v ≠ .textRectangle r) ∧
      ∀ s ∈ rest, ∀ r, tryFrom s ≠ .ok (.ok (.textRectangle r)) := by
  induction h with
  | nil => exact ⟨by simp, by simp⟩
  | np _ => exact ⟨by simp, fun s hs => hn s (List.mem_cons_of_mem _ hs)⟩
  | cons hv _ _ ih =>
    obtain ⟨i1, i2⟩ := ih (fun s hs => hn s (List.mem_cons_of_mem _ hs))
    refine ⟨fun v hv' => ?_, i2⟩
    rcases List.mem_cons.1 hv' with rfl | hv'
    · rintro r rfl; exact hn _ (List.mem_cons_self ..) r hv
    · exact i1 v hv'

end Ntcip
