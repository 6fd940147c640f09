import Verif.Lemmas.Stuck
import Verif.Spec.Pattern
/-
C50: when the page iterator ends.
-/
namespace Ntcip
open Spec Tests

/-! ### ends, or one error forever -/

theorem runs_to_end (d : Dms) (pg : Pages)
    (hp : ∀ xs pg', Steps d pg xs pg' → ∀ p, Pages.next d pg' ≠ .panic p) :
    ∃ xs pg', Steps d pg xs pg' ∧ (Pages.next d pg' = .ok (none, pg') ∧ xs.length ≤ budget pg ∨
      (∃ e, Pages.next d pg' = .ok (some (.error e), pg')) ∧ xs.length ≤ budget pg + 1) := by
  generalize hn : budget pg = n
  induction n using Nat.strongRecOn generalizing pg with
  | ind n ih =>
    cases hx : Pages.next d pg with
    | panic p => exact absurd hx (hp [] pg .nil p)
    | ok r =>
      obtain ⟨o, pg1⟩ := r
      cases o with
      | none =>
        obtain ⟨_, rfl⟩ := next_none hx
        exact ⟨[], _, .nil, .inl ⟨hx, by simp⟩⟩
      | some x =>
        rcases next_budget hx with h1 | ⟨e, rfl, h1, -⟩
        · obtain ⟨xs, pg', h2, h3⟩ := ih _ (by omega) pg1 (fun xs pg' h => hp _ _ (.cons hx h)) rfl
          refine ⟨_, pg', .cons hx h2, ?_⟩
          rcases h3 with ⟨h3, h4⟩ | ⟨h3, h4⟩
          · exact .inl ⟨h3, by simp only [List.length_cons]; omega⟩
          · exact .inr ⟨h3, by simp only [List.length_cons]; omega⟩
        · exact ⟨_, pg1, .cons hx .nil, .inr ⟨⟨e, h1⟩, by simp⟩⟩

/-- all further calls of `next` give this error -/
theorem stays {d : Dms} {pg : Pages} {e : SyntaxError} (h : Pages.next d pg = .ok (some (.error e), pg)) (n : Nat) :
    Steps d pg (List.replicate n (isOn pg.pageState, .error e)) pg := by
  induction n with
  | zero => exact .nil
  | succ n ih => rw [List.replicate_succ]; exact .cons h ih

theorem steps_trans {d pg xs pg1 ys pg2} (h : Steps d pg xs pg1) (h' : Steps d pg1 ys pg2) :
    Steps d pg (xs ++ ys) pg2 := by
  induction h with
  | nil => exact h'
  | cons hx _ ih => exact .cons hx (ih h')

/-- **C50 (dichotomy)** unless a call of `next` panics, the iterator ends after at most two items for each item of
the message and two more; or after one item more than that all further items are one and the same error. -/
theorem C50_dichotomy (d : Dms) (ms : Str)
    (hp : ∀ xs pg', Steps d (Pages.new d ms) xs pg' → ∀ p, Pages.next d pg' ≠ .panic p) :
    (∃ xs, Yields d ms xs ∧ xs.length ≤ 2 * ((slices ms).length + 1)) ∨
    ∃ xs e, xs.length ≤ 2 * ((slices ms).length + 1) + 1 ∧
      ∀ n, ∃ pg', Steps d (Pages.new d ms) (xs ++ List.replicate n (true, .error e)) pg' := by
  obtain ⟨xs, pg', h1, ⟨h2, h3⟩ | ⟨⟨e, h2⟩, h3⟩⟩ := runs_to_end d (Pages.new d ms) hp
  · exact .inl ⟨xs, ⟨pg', h1, h2⟩, h3⟩
  · refine .inr ⟨xs, e, h3, fun n => ⟨pg', ?_⟩⟩
    have hon : isOn pg'.pageState = true := by
      rcases next_cases h2 with ⟨h, -⟩ | ⟨-, -, h, -⟩
      · exact h
      · cases h
    have := stays h2 n
    rw [hon] at this
    exact steps_trans h1 this

/-! ### errors that end -/

/-- tags that are looked at before the texts of a page: colors, color rectangles and graphics -/
def Spec.EarlyTag : Value → Prop
  | .colorBackground _ => True
  | .pageBackground _ => True
  | .colorForeground _ => True
  | .colorRectangle _ _ => True
  | .graphic _ _ => True
  | _ => False

/-- the item has a supported value, and not one of these -/
def LateItem (d : Dms) (s : Str) : Prop := ∃ v, tryFrom s = .ok (.ok v) ∧ supports d v = true ∧ ¬ EarlyTag v

theorem checkUnsupported_late {d : Dms} {ss : List Str} (h : ∀ s ∈ ss, LateItem d s) :
    checkUnsupported d ss = .ok () := by
  induction ss with
  | nil => rfl
  | cons s ss ih =>
    obtain ⟨v, h1, h2, -⟩ := h s (List.mem_cons_self ..)
    have ih := ih fun s hs => h s (List.mem_cons_of_mem _ hs)
    simp only [checkUnsupported, h1, Out.ofRes, ofExcept, Out.ok_bind]
    unfold supports at h2
    split
    · rename_i t ht
      rw [ht] at h2
      simp only at h2
      simp only [h2, Bool.not_true, Bool.false_eq_true, if_false, ih]
      split <;> rfl
    · exact ih

theorem updatePageStateLoop_late {d : Dms} {ds : RenderState} {ss : List Str} (h : ∀ s ∈ ss, LateItem d s)
    (rs : RenderState) : ∃ rs', updatePageStateLoop ds ss rs = .ok (.ok (), rs') := by
  induction ss generalizing rs with
  | nil => exact ⟨_, rfl⟩
  | cons s ss ih =>
    obtain ⟨v, h1, h2, h3⟩ := h s (List.mem_cons_self ..)
    have ih := ih fun s hs => h s (List.mem_cons_of_mem _ hs)
    simp only [updatePageStateLoop, h1]
    cases v <;> first | exact absurd trivial h3 | exact ih _ | exact ⟨_, rfl⟩

theorem renderGraphicsLoop_late {d : Dms} {ss : List Str} (h : ∀ s ∈ ss, LateItem d s) (ctx : ColorCtx)
    (raster : Raster) (e : SyntaxError) : renderGraphicsLoop d ss ctx raster ≠ .err e := by
  induction ss with
  | nil => simp [renderGraphicsLoop]
  | cons s ss ih =>
    obtain ⟨v, h1, h2, h3⟩ := h s (List.mem_cons_self ..)
    have ih := ih fun s hs => h s (List.mem_cons_of_mem _ hs)
    simp only [renderGraphicsLoop, h1, Out.ofRes, ofExcept, Out.ok_bind]
    cases v <;> first | exact absurd trivial h3 | exact ih | simp

theorem stuck_late {d : Dms} {pg : Pages} {e : SyntaxError} (h : ∀ s ∈ pg.values, LateItem d s) : ¬ Stuck d pg e := by
  intro hs
  cases hs with
  | unsupported h1 => rw [checkUnsupported_late h] at h1; simp at h1
  | background rs h1 =>
    obtain ⟨rs', h2⟩ := updatePageStateLoop_late (ds := pg.defaultState) h
      { pg.renderState with textRectangle := pg.defaultState.textRectangle, lineSpacing := pg.defaultState.lineSpacing,
                            lineNumber := 0, spanNumber := 0 }
    unfold updatePageState at h1
    rw [h2] at h1
    simp at h1
  | graphics rs raster h1 => exact renderGraphicsLoop_late h _ _ _ h1

theorem rtrLoop_rest {d ds po vals st r st' vals'} (h : rtrLoop d ds po vals st = .ok (r, st', vals')) :
    ∀ s ∈ vals', s ∈ vals := by
  induction vals generalizing st with
  | nil => simp only [rtrLoop, Res.ok.injEq, Prod.mk.injEq] at h; rw [← h.2.2]; simp
  | cons s vals ih =>
    intro x hx
    simp only [rtrLoop] at h
    split at h
    · simp at h
    · simp only [Res.ok.injEq, Prod.mk.injEq] at h
      rw [← h.2.2] at hx; exact List.mem_cons_of_mem _ hx
    · split at h
      · simp at h
      · exact List.mem_cons_of_mem _ (ih h x hx)
      · simp only [Res.ok.injEq, Prod.mk.injEq] at h
        rw [← h.2.2] at hx; exact List.mem_cons_of_mem _ hx
      · simp only [Res.ok.injEq, Prod.mk.injEq] at h
        rw [← h.2.2] at hx; exact List.mem_cons_of_mem _ hx

theorem renderTextRectangle_rest {d pg raster r pg'} (h : renderTextRectangle d pg raster = .ok (r, pg')) :
    ∀ s ∈ pg'.values, s ∈ pg.values := by
  unfold renderTextRectangle at h
  simp only [Res.bind_eq_ok] at h
  obtain ⟨⟨r1, st, vals⟩, h1, h2⟩ := h
  have hp : pg'.values = vals := by
    cases r1 with
    | error e =>
      simp only [Res.pure_eq, Res.ok.injEq, Prod.mk.injEq] at h2
      rw [← h2.2]
    | ok u =>
      cases h3 : renderTextSpans d st.spans raster with
      | panic p => simp only [h3] at h2; simp at h2
      | err e => simp only [h3, Res.pure_eq, Res.ok.injEq, Prod.mk.injEq] at h2; rw [← h2.2]
      | ok x => simp only [h3, Res.pure_eq, Res.ok.injEq, Prod.mk.injEq] at h2; rw [← h2.2]
  rw [hp]
  exact rtrLoop_rest h1

theorem onPageLoop_rest {d fuel n pg raster r pg'} (h : onPageLoop d fuel n pg raster = .ok (r, pg')) :
    ∀ s ∈ pg'.values, s ∈ pg.values := by
  induction fuel generalizing n pg raster with
  | zero =>
    simp only [onPageLoop, Res.ok.injEq, Prod.mk.injEq] at h
    rw [h.2]; exact fun s hs => hs
  | succ fuel ih =>
    rw [onPageLoop] at h
    split at h
    · split at h
      · simp at h
      · simp only [Res.ok.injEq, Prod.mk.injEq] at h
        rw [h.2]; exact fun s hs => hs
      · simp only [Res.bind_eq_ok] at h
        obtain ⟨⟨r1, pg1⟩, h1, h2⟩ := h
        have hr := renderTextRectangle_rest h1
        intro s hs
        apply hr
        cases r1 with
        | error e =>
          simp only [Res.pure_eq, Res.ok.injEq, Prod.mk.injEq] at h2
          rw [h2.2]; exact hs
        | ok raster2 =>
          simp only at h2
          split at h2
          · simp only [Res.pure_eq, Res.ok.injEq, Prod.mk.injEq] at h2
            rw [h2.2]; exact hs
          · exact ih h2 s hs
    · simp only [Res.ok.injEq, Prod.mk.injEq] at h
      rw [h.2]; exact fun s hs => hs

theorem next_rest {d pg x pg'} (h : Pages.next d pg = .ok (some x, pg')) : ∀ s ∈ pg'.values, s ∈ pg.values := by
  rcases next_cases h with ⟨-, h⟩ | ⟨-, -, -, rfl⟩
  · unfold renderOnPage at h
    split at h
    · simp at h
    · simp only [Res.ok.injEq, Prod.mk.injEq] at h
      rw [h.2]; exact fun s hs => hs
    · simp only [Res.bind_eq_ok] at h
      obtain ⟨⟨r, rs⟩, h1, h2⟩ := h
      cases r with
      | error e' =>
        simp only [Res.pure_eq, Res.ok.injEq, Prod.mk.injEq] at h2
        rw [← h2.2]; exact fun s hs => hs
      | ok u =>
        simp only [Res.bind_eq_ok] at h2
        obtain ⟨⟨r2, pg2⟩, h3, h4⟩ := h2
        have hr := onPageLoop_rest h3
        cases r2 with
        | ok raster =>
          simp only [Res.pure_eq, Res.ok.injEq, Prod.mk.injEq] at h4
          rw [← h4.2]; exact hr
        | error e' =>
          simp only [Res.pure_eq, Res.ok.injEq, Prod.mk.injEq] at h4
          rw [← h4.2]; exact hr
  · exact fun s hs => hs

theorem late_ends (d : Dms) (pg : Pages)
    (hp : ∀ xs pg', Steps d pg xs pg' → ∀ p, Pages.next d pg' ≠ .panic p) (h : ∀ s ∈ pg.values, LateItem d s) :
    ∃ xs pg', Steps d pg xs pg' ∧ Pages.next d pg' = .ok (none, pg') ∧ xs.length ≤ budget pg := by
  generalize hn : budget pg = n
  induction n using Nat.strongRecOn generalizing pg with
  | ind n ih =>
    cases hx : Pages.next d pg with
    | panic p => exact absurd hx (hp [] pg .nil p)
    | ok r =>
      obtain ⟨o, pg1⟩ := r
      cases o with
      | none =>
        obtain ⟨_, rfl⟩ := next_none hx
        exact ⟨[], _, .nil, hx, by simp⟩
      | some x =>
        rcases next_budget hx with h1 | ⟨e, rfl, -, h1⟩
        · obtain ⟨xs, pg', h2, h3, h4⟩ := ih _ (by omega) pg1 (fun xs pg' h => hp _ _ (.cons hx h))
            (fun s hs => h s (next_rest hx s hs)) rfl
          exact ⟨_, pg', .cons hx h2, h3, by simp only [List.length_cons]; omega⟩
        · exact absurd h1 (stuck_late h)

/-- **C50 (errors in texts)** unless a call of `next` panics, the iterator ends, with or without errors, for every
message of supported items without color, color rectangle and graphic tags.  Missing for the full claim: other
messages, see `C50_dichotomy` and `C50_false`. -/
theorem C50_text_ends_partial (d : Dms) (ms : Str)
    (hp : ∀ xs pg', Steps d (Pages.new d ms) xs pg' → ∀ p, Pages.next d pg' ≠ .panic p)
    (h : ∀ s ∈ slices ms, ∃ v, tryFrom s = .ok (.ok v) ∧ supports d v = true ∧ ¬ EarlyTag v) :
    ∃ xs, Yields d ms xs ∧ xs.length ≤ 2 * ((slices ms).length + 1) := by
  obtain ⟨xs, pg', h1, h2, h3⟩ := late_ends d (Pages.new d ms) hp h
  exact ⟨xs, ⟨pg', h1, h2⟩, h3⟩

/-- **C50 (what follows an error)** on one and the same sign the page after an error is rendered (text too wide), is
not rendered (justification not supported: the message ends), or is never reached (color not supported: the error is
repeated) -/
theorem C50_after_error :
    (Pages.run fullDms 5 (Pages.new fullDms c!"TOO WIDE FOR THE SIGN[np]A")).map' (·.1.map Except.isOk) =
      .ok [false, true] ∧
    (Pages.run fullDms 5 (Pages.new fullDms c!"[jl5]A[np]A")).map' (·.1.map Except.isOk) = .ok [false] ∧
    (Pages.run fullDms 5 (Pages.new fullDms c!"[cb99]A[np]A")).map' (·.1.map Except.isOk) =
      .ok [false, false, false, false, false] := by
  decide +kernel

end Ntcip
