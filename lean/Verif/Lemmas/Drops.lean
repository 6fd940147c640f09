import Verif.Props.Normalize
import Verif.Lemmas.PageRun
/-
Rendering does not change when state tags that repeat the state are dropped.
-/
namespace Ntcip
open Spec

/-- is the span number 0 after the value? -/
def freshOf (fr : Bool) : Value → Bool
  | .text _ => false
  | .hexadecimalCharacter _ => false
  | .newLine _ => true
  | .newPage => true
  | .textRectangle _ => true
  | .justificationLine _ => true
  | _ => fr

/-- the second list is the first one without wrong items and repeated state tags; a repeated `[jl]` tag is not after
text -/
inductive Drops : NormState → Bool → List Str → List Str → Prop
  | nil {st fr} : Drops st fr [] []
  | bad {st fr s e ss ss'} : tryFrom s = .ok (.error e) → Drops st fr ss ss' → Drops st fr (s :: ss) ss'
  | drop {st fr s v ss ss'} : tryFrom s = .ok (.ok v) → (st.update v).1 = true →
      (∀ j, v = .justificationLine j → fr = true) → Drops (st.update v).2 fr ss ss' → Drops st fr (s :: ss) ss'
  | keep {st fr s s' v ss ss'} : tryFrom s = .ok (.ok v) → tryFrom s' = .ok (.ok v) →
      Drops (st.update v).2 (freshOf fr v) ss ss' → Drops st fr (s :: ss) (s' :: ss')

/-- the current foreground color is the one `normalize` knows -/
def FgAgree (cf : Option Color) (ctx : ColorCtx) : Prop := ∀ v, ctx.setForeground cf v = .ok ctx

/-- the render state has what `normalize` knows -/
structure Agree (st : NormState) (ds rs : RenderState) : Prop where
  cf : FgAgree st.cf rs.colorCtx
  fo : (rs.fontNum, rs.fontVersionId) = st.fo.getD (ds.fontNum, ds.fontVersionId)
  jl : rs.justLine = st.jl.getD ds.justLine
  jp : rs.justPage = st.jp.getD ds.justPage

theorem rgb_fg (ctx : ColorCtx) (c : Color) (x : Color) : ({ ctx with fgCurrent := x } : ColorCtx).rgb c = ctx.rgb c := by
  cases c <;> rfl

theorem rgb_bg (ctx : ColorCtx) (c : Color) (x : Color) : ({ ctx with bgCurrent := x } : ColorCtx).rgb c = ctx.rgb c := by
  cases c <;> rfl

theorem setForeground_agree {ctx ctx' : ColorCtx} {c : Option Color} {v : Value}
    (h : ctx.setForeground c v = .ok ctx') : FgAgree c ctx' := by
  intro w
  unfold ColorCtx.setForeground at h ⊢
  cases c with
  | none => simp only [Except.ok.injEq] at h; subst h; rfl
  | some c =>
    simp only at h ⊢
    split at h
    · rename_i hc
      simp only [Except.ok.injEq] at h
      subst h
      rw [rgb_fg, hc]
    · simp at h

theorem setBackground_agree {ctx ctx' : ColorCtx} {cf c : Option Color} {v : Value}
    (h : ctx.setBackground c v = .ok ctx') (hf : FgAgree cf ctx) : FgAgree cf ctx' := by
  have : ∃ b, ctx' = { ctx with bgCurrent := b } := by
    unfold ColorCtx.setBackground at h
    split at h
    · split at h
      · simp only [Except.ok.injEq] at h; exact ⟨_, h.symm⟩
      · simp at h
    · simp only [Except.ok.injEq] at h; exact ⟨_, h.symm⟩
  obtain ⟨b, rfl⟩ := this
  intro w
  have := hf w
  unfold ColorCtx.setForeground at this ⊢
  cases cf with
  | none => simp only [Except.ok.injEq] at this ⊢; rw [ColorCtx.mk.injEq] at *; simp_all
  | some x =>
    simp only [rgb_bg] at this ⊢
    split at this
    · rename_i hx
      simp only [Except.ok.injEq] at this ⊢; rw [ColorCtx.mk.injEq] at *; simp_all
    · simp at this

/-- a dropped value is a state tag -/
theorem update_true {st : NormState} {v : Value} (h : (st.update v).1 = true) :
    (v = .colorForeground st.cf ∨ v = .font st.fo ∨ v = .justificationLine st.jl ∨ v = .justificationPage st.jp) ∧
    (st.update v).2 = st := by
  cases v <;> simp [NormState.update] at h <;> subst h <;> simp [NormState.update]

theorem drops_unsupported (d : Dms) {st fr ss ss'} (h : Drops st fr ss ss') (hc : checkUnsupported d ss = .ok ()) :
    checkUnsupported d ss' = .ok () := by
  induction h with
  | nil => rfl
  | bad hs _ _ => simp [checkUnsupported, hs, ofExcept] at hc
  | @drop st fr s v ss ss' hs hu _ _ ih =>
    apply ih
    obtain ⟨hv, _⟩ := update_true hu
    simp only [checkUnsupported, hs, Out.ofRes_ok, Out.ok_bind, ofExcept] at hc
    rcases hv with rfl | rfl | rfl | rfl <;> simp only [Value.tag] at hc <;> split at hc <;> simp_all
  | @keep st fr s s' v ss ss' hs hs' hd ih =>
    simp only [checkUnsupported, hs, hs', Out.ofRes_ok, Out.ok_bind, ofExcept] at hc ⊢
    split
    · rename_i tag ht
      simp only [ht] at hc
      split
      · rename_i h1; rw [if_pos h1] at hc; simp at hc
      · rename_i h1
        rw [if_neg h1] at hc
        split
        · rfl
        · rename_i h2; rw [if_neg h2] at hc; exact ih hc
    · rename_i ht
      simp only [ht] at hc
      exact ih hc

theorem drops_pageState (ds : RenderState) {st fr ss ss'} (h : Drops st fr ss ss') {rs rs'}
    (hc : updatePageStateLoop ds ss rs = .ok (.ok (), rs')) :
    updatePageStateLoop ds ss' rs = .ok (.ok (), rs') := by
  induction h generalizing rs with
  | nil => exact hc
  | bad hs _ _ => simp [updatePageStateLoop, hs] at hc
  | @drop st fr s v ss ss' hs hu _ _ ih =>
    apply ih
    obtain ⟨hv, _⟩ := update_true hu
    simp only [updatePageStateLoop, hs] at hc
    rcases hv with rfl | rfl | rfl | rfl <;> exact hc
  | @keep st fr s s' v ss ss' hs hs' hd ih =>
    simp only [updatePageStateLoop, hs, hs'] at hc ⊢
    cases v <;> simp only at hc ⊢
    case colorBackground c =>
      split at hc
      · exact ih hc
      · simp at hc
    case pageBackground c =>
      split at hc
      · exact ih hc
      · simp at hc
    case newPage => exact hc
    all_goals exact ih hc

/-- updating the page state keeps what `normalize` knows -/
theorem pageState_agree {st : NormState} {ds : RenderState} (ss : List Str) {rs rs' : RenderState}
    (h : Agree st ds rs) (hc : updatePageStateLoop ds ss rs = .ok (.ok (), rs')) :
    Agree st ds rs' ∧ rs'.spanNumber = rs.spanNumber := by
  induction ss generalizing rs with
  | nil => simp only [updatePageStateLoop, Res.ok.injEq, Prod.mk.injEq, true_and] at hc; subst hc; exact ⟨h, rfl⟩
  | cons s ss ih =>
    simp only [updatePageStateLoop] at hc
    split at hc
    · simp at hc
    · simp at hc
    · rename_i v hv
      cases v <;> simp only at hc
      case colorBackground c =>
        split at hc
        · rename_i hb
          have key := fun ha => ih ha hc
          exact key ⟨setBackground_agree hb h.cf, h.fo, h.jl, h.jp⟩
        · simp at hc
      case pageBackground c =>
        split at hc
        · rename_i hb
          have key := fun ha => ih ha hc
          exact key ⟨setBackground_agree hb h.cf, h.fo, h.jl, h.jp⟩
        · simp at hc
      case newPage =>
        simp only [Res.ok.injEq, Prod.mk.injEq, true_and] at hc; subst hc; exact ⟨h, rfl⟩
      case pageTime =>
        have key := fun ha => ih ha hc
        exact key ⟨h.cf, h.fo, h.jl, h.jp⟩
      all_goals exact ih h hc

theorem drops_graphics (d : Dms) {st fr ss ss'} (h : Drops st fr ss ss') {ctx a b} (hf : FgAgree st.cf ctx)
    (hc : renderGraphicsLoop d ss ctx a = .ok b) : renderGraphicsLoop d ss' ctx a = .ok b := by
  induction h generalizing ctx a with
  | nil => exact hc
  | bad hs _ _ => simp [renderGraphicsLoop, hs, ofExcept] at hc
  | @drop st fr s v ss ss' hs hu _ _ ih =>
    obtain ⟨hv, e⟩ := update_true hu
    rw [e] at ih
    apply ih hf
    simp only [renderGraphicsLoop, hs, Out.ofRes_ok, Out.ok_bind, ofExcept] at hc
    rcases hv with rfl | rfl | rfl | rfl
    · simp only [hf (.colorForeground st.cf), Out.ok_bind] at hc
      exact hc
    all_goals exact hc
  | @keep st fr s s' v ss ss' hs hs' hd ih =>
    simp only [renderGraphicsLoop, hs, hs', Out.ofRes_ok, Out.ok_bind, ofExcept] at hc ⊢
    cases v <;> simp (failIfUnchanged := false) only [NormState.update] at hc ih ⊢
    case colorBackground c =>
      split at hc
      · rename_i hb
        exact ih (setBackground_agree hb hf) hc
      · simp at hc
    case colorForeground c =>
      split at hc
      · rename_i hb
        exact ih (setForeground_agree hb) hc
      · simp at hc
    case colorRectangle r c =>
      simp only [Out.bind_eq_ok] at hc ⊢
      obtain ⟨x, h1, y, h2, h3⟩ := hc
      exact ⟨x, h1, y, h2, ih hf h3⟩
    case graphic n pos =>
      rcases pos with _ | ⟨x, y, id⟩
      · simp only [Out.bind_eq_ok] at hc ⊢
        obtain ⟨x, h1, y, h2, h3⟩ := hc
        exact ⟨x, h1, y, h2, ih hf h3⟩
      · simp only [Out.bind_eq_ok] at hc ⊢
        obtain ⟨x, h1, y, h2, h3⟩ := hc
        exact ⟨x, h1, y, h2, ih hf h3⟩
    all_goals first | exact ih hf hc | exact hc

/-- a kept value changes both states alike -/
theorem step_agree {d : Dms} {ds : RenderState} {po : Bool} {r r' : Rtr} {v : Value} {st : NormState} {c : Ctl}
    (h : Agree st ds r.rs) (hs : rtrStep d ds po r v = .ok (c, r')) (hc : ∀ e, c ≠ .fail e) :
    Agree (st.update v).2 ds r'.rs := by
  obtain ⟨h1, h2, h3, h4⟩ := h
  unfold rtrStep at hs
  split at hs <;> dsimp only at hs
  · split at hs <;> simp only [Res.ok.injEq, Prod.mk.injEq] at hs <;> obtain ⟨rfl, rfl⟩ := hs
    · rename_i hb
      exact ⟨setForeground_agree hb, h2, h3, h4⟩
    · exact absurd rfl (hc _)
  · simp only [Res.ok.injEq, Prod.mk.injEq] at hs; obtain ⟨rfl, rfl⟩ := hs
    exact ⟨h1, rfl, h3, h4⟩
  · simp only [Res.ok.injEq, Prod.mk.injEq] at hs; obtain ⟨rfl, rfl⟩ := hs
    exact ⟨h1, rfl, h3, h4⟩
  · simp only [Res.ok.injEq, Prod.mk.injEq] at hs; exact absurd hs.1.symm (hc _)
  · simp only [Res.ok.injEq, Prod.mk.injEq] at hs; exact absurd hs.1.symm (hc _)
  · simp only [Res.ok.injEq, Prod.mk.injEq] at hs; obtain ⟨rfl, rfl⟩ := hs
    exact ⟨h1, h2, rfl, h4⟩
  · simp only [Res.ok.injEq, Prod.mk.injEq] at hs; exact absurd hs.1.symm (hc _)
  · split at hs <;> simp only [Res.ok.injEq, Prod.mk.injEq] at hs <;> obtain ⟨rfl, rfl⟩ := hs
    · exact ⟨h1, h2, h3, rfl⟩
    · rename_i hj
      exact ⟨h1, h2, h3, by simpa [NormState.update] using (Classical.not_not.1 hj).symm⟩
  · split at hs
    · simp only [Res.ok.injEq, Prod.mk.injEq] at hs; exact absurd hs.1.symm (hc _)
    · simp only [Res.bind_eq_ok, Res.pure_eq, Res.ok.injEq, Prod.mk.injEq] at hs
      obtain ⟨_, _, rfl, rfl⟩ := hs
      exact ⟨h1, h2, h3, h4⟩
  · simp only [Res.ok.injEq, Prod.mk.injEq] at hs; obtain ⟨rfl, rfl⟩ := hs
    exact ⟨h1, h2, h3, h4⟩
  · split at hs <;> simp only [Res.ok.injEq, Prod.mk.injEq] at hs
    · exact absurd hs.1.symm (hc _)
    · obtain ⟨rfl, rfl⟩ := hs
      exact ⟨h1, h2, h3, h4⟩
  · simp only [Res.ok.injEq, Prod.mk.injEq] at hs; obtain ⟨rfl, rfl⟩ := hs
    exact ⟨h1, h2, h3, h4⟩
  · simp only [Res.bind_eq_ok] at hs
    obtain ⟨o, _, hs⟩ := hs
    cases o <;> simp only [Res.pure_eq, Res.ok.injEq, Prod.mk.injEq] at hs
    · exact absurd hs.1.symm (hc _)
    · obtain ⟨rfl, rfl⟩ := hs
      exact ⟨h1, h2, h3, h4⟩
  · simp only [Res.bind_eq_ok, Res.pure_eq, Res.ok.injEq, Prod.mk.injEq] at hs
    obtain ⟨_, _, rfl, rfl⟩ := hs
    exact ⟨h1, h2, h3, h4⟩
  · split at hs
    · simp only [Res.bind_eq_ok, Res.pure_eq, Res.ok.injEq, Prod.mk.injEq] at hs
      obtain ⟨_, _, rfl, rfl⟩ := hs
      exact ⟨h1, h2, h3, h4⟩
    · simp only [Res.ok.injEq, Prod.mk.injEq] at hs; exact absurd hs.1.symm (hc _)
  · simp only [Res.ok.injEq, Prod.mk.injEq] at hs; obtain ⟨rfl, rfl⟩ := hs
    by_cases hv : ∃ f, v = .font f
    · obtain ⟨f, rfl⟩ := hv
      rcases f with _ | ⟨n, vid⟩ <;> simp_all
    · cases v <;> first | exact ⟨h1, h2, h3, h4⟩ | simp_all

theorem step_fresh {d : Dms} {ds : RenderState} {po : Bool} {r r' : Rtr} {v : Value} {fr : Bool}
    (h : fr = true → r.rs.spanNumber = 0) (hs : rtrStep d ds po r v = .ok (.cont, r')) :
    freshOf fr v = true → r'.rs.spanNumber = 0 := by
  unfold rtrStep at hs
  split at hs <;> dsimp only at hs
  · split at hs <;> simp only [Res.ok.injEq, Prod.mk.injEq] at hs <;> simp at hs
    subst hs; exact h
  · simp at hs; subst hs; exact h
  · simp at hs; subst hs; exact h
  · simp at hs
  · simp at hs
  · simp at hs; subst hs; intro _; rfl
  · simp at hs
  · split at hs <;> simp at hs <;> subst hs
    · intro _; rfl
    · exact h
  · split at hs
    · simp at hs
    · simp only [Res.bind_eq_ok, Res.pure_eq, Res.ok.injEq, Prod.mk.injEq] at hs
      obtain ⟨_, _, _, rfl⟩ := hs
      intro _; rfl
  · simp at hs
  · split at hs <;> simp at hs
    subst hs; exact h
  · simp at hs; subst hs; exact h
  · simp only [Res.bind_eq_ok] at hs
    obtain ⟨o, _, hs⟩ := hs
    cases o <;> simp at hs
  · simp [freshOf]
  · simp [freshOf]
  · simp at hs; subst hs
    intro hf
    apply h
    cases v <;> simp_all [freshOf]

theorem drops_rtr (d : Dms) (ds : RenderState) (po : Bool) {st fr ss ss'} (h : Drops st fr ss ss') {r r' rest}
    (ha : Agree st ds r.rs) (hf : fr = true → r.rs.spanNumber = 0)
    (hc : rtrLoop d ds po ss r = .ok (.ok (), r', rest)) :
    ∃ rest' st' fr', rtrLoop d ds po ss' r = .ok (.ok (), r', rest') ∧ Drops st' fr' rest rest' ∧ Agree st' ds r'.rs := by
  induction h generalizing r with
  | nil =>
    simp only [rtrLoop, Res.ok.injEq, Prod.mk.injEq, true_and] at hc
    obtain ⟨rfl, rfl⟩ := hc
    exact ⟨[], _, true, rfl, .nil, ha⟩
  | bad hs _ _ => simp [rtrLoop, hs] at hc
  | @drop st fr s v ss ss' hs hu hj _ ih =>
    obtain ⟨hv, e⟩ := update_true hu
    rw [e] at ih
    apply ih ha hf
    simp only [rtrLoop, hs] at hc
    have hstep : rtrStep d ds po r v = .ok (.cont, r) ∨ ∃ e, rtrStep d ds po r v = .ok (.fail e, r) := by
      rcases hv with rfl | rfl | rfl | rfl
      · left
        simp only [rtrStep, ha.cf (.colorForeground st.cf)]
      · left
        have := ha.fo
        rcases hfo : st.fo with _ | ⟨n, vid⟩ <;> rw [hfo] at this <;> simp only [Option.getD, Prod.mk.injEq] at this <;>
          simp only [rtrStep, ← this.1, ← this.2]
      · have h0 := hf (hj _ rfl)
        have hl := ha.jl
        rcases hjl : st.jl with _ | j <;> rw [hjl] at hl <;> simp only [Option.getD] at hl
        · left; simp only [rtrStep, Option.getD, ← hl, ← h0]
        · cases j <;> first
            | (right; exact ⟨_, rfl⟩)
            | (left; simp only [rtrStep, Option.getD, ← hl, ← h0])
      · have hl := ha.jp
        rcases hjl : st.jp with _ | j <;> rw [hjl] at hl <;> simp only [Option.getD] at hl
        · left; simp [rtrStep, ← hl]
        · cases j <;> first
            | (right; exact ⟨_, rfl⟩)
            | (left; simp [rtrStep, ← hl])
    rcases hstep with h | ⟨e, h⟩ <;> rw [h] at hc
    · exact hc
    · simp at hc
  | @keep st fr s s' v ss ss' hs hs' hd ih =>
    simp only [rtrLoop, hs, hs'] at hc ⊢
    split at hc
    · simp at hc
    · rename_i r1 h1
      exact ih (step_agree ha h1 (by simp)) (step_fresh hf h1) hc
    · rename_i r1 h1
      simp only [Res.ok.injEq, Prod.mk.injEq, true_and] at hc
      obtain ⟨rfl, rfl⟩ := hc
      exact ⟨_, _, _, rfl, hd, step_agree ha h1 (by simp)⟩
    · simp at hc

theorem rtrLoop_fresh {d : Dms} {ds : RenderState} {po : Bool} {ss r r' rest}
    (h : rtrLoop d ds po ss r = .ok (.ok (), r', rest)) (hp : r.pageState ≠ .on false) :
    r'.pageState = .on false → r'.rs.spanNumber = 0 := by
  induction ss generalizing r with
  | nil =>
    simp only [rtrLoop, Res.ok.injEq, Prod.mk.injEq, true_and] at h
    obtain ⟨rfl, _⟩ := h
    exact fun h => absurd h hp
  | cons s ss ih =>
    simp only [rtrLoop] at h
    split at h
    · simp at h
    · simp at h
    · split at h
      · simp at h
      · rename_i h1
        exact ih h (by rw [(rtrStep_cont h1).pageState]; exact hp)
      · rename_i h1
        simp only [Res.ok.injEq, Prod.mk.injEq, true_and] at h
        obtain ⟨rfl, _⟩ := h
        rcases rtrStep_brk h1 with ⟨_, rfl⟩ | ⟨_, _, _, _, rfl⟩
        · intro hp
          simp only [PageState.newPage] at hp
          split at hp <;> simp at hp
        · exact fun _ => rfl
      · simp at h

theorem drops_textRectangle (d : Dms) {pg pg' : Pages} {ss' : List Str} {st fr a b} (h : Drops st fr pg.values ss')
    (ha : Agree st pg.defaultState pg.renderState) (hf : fr = true → pg.renderState.spanNumber = 0)
    (hc : renderTextRectangle d pg a = .ok (.ok b, pg')) :
    ∃ rest' st' fr', renderTextRectangle d { pg with values := ss' } a = .ok (.ok b, { pg' with values := rest' }) ∧
      Drops st' fr' pg'.values rest' ∧ Agree st' pg'.defaultState pg'.renderState ∧
      (pg'.pageState = .on false → pg'.renderState.spanNumber = 0) := by
  unfold renderTextRectangle at hc ⊢
  simp only [Res.bind_eq_ok] at hc
  obtain ⟨⟨x, r, rest⟩, h1, h2⟩ := hc
  cases x with
  | error e => simp at h2
  | ok u =>
    obtain ⟨rest', st', fr', e1, e2, e3⟩ := drops_rtr d pg.defaultState _ h (r := ⟨pg.renderState, _, [], true⟩) ha hf h1
    simp only [e1, Res.ok_bind]
    simp only at h2
    split at h2
    · simp at h2
    · simp at h2
    · rename_i hr
      simp only [Res.pure_eq, Res.ok.injEq, Prod.mk.injEq, Except.ok.injEq] at h2
      obtain ⟨rfl, rfl⟩ := h2
      refine ⟨rest', st', fr', by simp, e2, e3, rtrLoop_fresh h1 ?_⟩
      simp only [PageState.doneState]
      split <;> simp

theorem drops_onPage (d : Dms) (fuel n : Nat) {pg pg' : Pages} {ss' : List Str} {st fr a b}
    (h : Drops st fr pg.values ss') (ha : Agree st pg.defaultState pg.renderState)
    (hf : pg.pageState = .on false → pg.renderState.spanNumber = 0)
    (hc : onPageLoop d fuel n pg a = .ok (.ok b, pg')) :
    ∃ rest' st' fr', onPageLoop d fuel n { pg with values := ss' } a = .ok (.ok b, { pg' with values := rest' }) ∧
      Drops st' fr' pg'.values rest' ∧ Agree st' pg'.defaultState pg'.renderState := by
  induction fuel generalizing n pg ss' st fr a with
  | zero =>
    simp only [onPageLoop, Res.ok.injEq, Prod.mk.injEq, Except.ok.injEq] at hc ⊢
    obtain ⟨rfl, rfl⟩ := hc
    exact ⟨ss', st, fr, ⟨rfl, rfl⟩, h, ha⟩
  | succ fuel ih =>
    simp only [onPageLoop] at hc ⊢
    split at hc
    · rename_i hp
      split at hc
      · simp at hc
      · simp at hc
      · rename_i g hg
        rw [if_pos hp, drops_graphics d h ha.cf hg]
        simp only [Res.bind_eq_ok] at hc ⊢
        obtain ⟨⟨x, pg1⟩, h1, h2⟩ := hc
        cases x with
        | error e => simp at h2
        | ok u =>
          obtain ⟨rest', st', fr', e1, e2, e3, e4⟩ := drops_textRectangle d h ha (fun _ => hf hp) h1
          simp only at h2
          split at h2
          · simp at h2
          · rename_i hn
            obtain ⟨r2, st2, fr2, g1, g2, g3⟩ := ih (n + 1) e2 e3 e4 h2
            refine ⟨r2, st2, fr2, ⟨_, e1, ?_⟩, g2, g3⟩
            simp only
            rw [if_neg hn]
            exact g1
    · rename_i hp
      simp only [Res.ok.injEq, Prod.mk.injEq, Except.ok.injEq] at hc
      obtain ⟨rfl, rfl⟩ := hc
      rw [if_neg hp]
      exact ⟨ss', st, fr, rfl, h, ha⟩

theorem drops_renderOnPage (d : Dms) {pg pg' : Pages} {ss' : List Str} {st fr page}
    (h : Drops st fr pg.values ss') (ha : Agree st pg.defaultState pg.renderState)
    (hc : renderOnPage d pg = .ok (.ok page, pg')) :
    ∃ rest' st' fr', renderOnPage d { pg with values := ss' } = .ok (.ok page, { pg' with values := rest' }) ∧
      Drops st' fr' pg'.values rest' ∧ Agree st' pg'.defaultState pg'.renderState := by
  unfold renderOnPage at hc ⊢
  split at hc
  · simp at hc
  · simp at hc
  · rename_i hu
    rw [drops_unsupported d h hu]
    simp only [Res.bind_eq_ok] at hc ⊢
    obtain ⟨⟨x, rs⟩, h1, h2⟩ := hc
    cases x with
    | error e => simp at h2
    | ok u =>
      simp only [Res.bind_eq_ok] at h2
      obtain ⟨⟨y, pg1⟩, h3, h4⟩ := h2
      cases y with
      | error e => simp at h4
      | ok b =>
        simp only [Res.pure_eq, Res.ok.injEq, Prod.mk.injEq, Except.ok.injEq] at h4
        obtain ⟨rfl, rfl⟩ := h4
        have hst := pageState_agree pg.values (st := st) (ds := pg.defaultState)
          (rs := { pg.renderState with
            textRectangle := pg.defaultState.textRectangle, lineSpacing := pg.defaultState.lineSpacing,
            lineNumber := 0, spanNumber := 0 }) ⟨ha.cf, ha.fo, ha.jl, ha.jp⟩ h1
        obtain ⟨rest', st', fr', e1, e2, e3⟩ := drops_onPage d _ _
          (pg := { pg with renderState := rs, pageState := .on false }) h hst.1 (fun _ => hst.2) h3
        refine ⟨rest', st', fr', ⟨_, drops_pageState pg.defaultState h h1, ?_⟩, e2, e3⟩
        simp only [Res.bind_eq_ok]
        exact ⟨_, e1, rfl⟩

theorem drops_steps (d : Dms) {pg pg' : Pages} {ss' : List Str} {st fr xs} (h : Drops st fr pg.values ss')
    (ha : Agree st pg.defaultState pg.renderState) (hs : Steps d pg xs pg') (hn : NoError xs)
    (hd : Pages.next d pg' = .ok (none, pg')) :
    ∃ rest', Steps d { pg with values := ss' } xs { pg' with values := rest' } ∧
      Pages.next d { pg' with values := rest' } = .ok (none, { pg' with values := rest' }) := by
  induction hs generalizing ss' st fr with
  | @nil pg =>
    refine ⟨ss', .nil, ?_⟩
    unfold Pages.next at hd ⊢
    cases hp : pg.pageState <;> rw [hp] at hd <;> simp at hd ⊢
  | @cons pg pg1 pg' x xs h1 _ ih =>
    obtain ⟨p, hp⟩ := hn (_, x) (List.mem_cons_self ..)
    simp only at hp
    subst hp
    have hn' : NoError xs := fun x hx => hn x (by simp [hx])
    unfold Pages.next at h1
    cases hps : pg.pageState with
    | on b =>
      rw [hps] at h1
      simp only [Res.bind_eq_ok, Res.pure_eq, Res.ok.injEq, Prod.mk.injEq, Option.some.injEq] at h1
      obtain ⟨⟨x, pg2⟩, h1, rfl, rfl⟩ := h1
      obtain ⟨rest', st', fr', e1, e2, e3⟩ := drops_renderOnPage d h ha h1
      obtain ⟨r2, g1, g2⟩ := ih e2 e3 hn' hd
      refine ⟨r2, ?_, g2⟩
      rw [← hps]
      refine .cons (pg := { pg with values := ss' }) ?_ g1
      unfold Pages.next
      rw [hps] at e1
      simp only [hps, e1, Res.ok_bind, Res.pure_eq]
    | off b =>
      rw [hps] at h1
      simp only [renderOffPage, Res.ok.injEq, Prod.mk.injEq, Option.some.injEq, Except.ok.injEq] at h1
      obtain ⟨rfl, rfl⟩ := h1
      obtain ⟨r2, g1, g2⟩ := ih h ha hn' hd
      refine ⟨r2, ?_, g2⟩
      rw [← hps]
      refine .cons (pg := { pg with values := ss' }) ?_ g1
      unfold Pages.next
      simp only [hps, renderOffPage]
    | done => rw [hps] at h1; simp at h1

end Ntcip
