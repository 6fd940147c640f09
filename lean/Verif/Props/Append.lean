import Verif.Lemmas.Append
import Verif.Props.Denote
import Verif.Props.Pages
/-
Property C79: a message followed by a page break and another message.
-/
namespace Ntcip
open Spec Tests

theorem np_plain : Plain c!"np" := by
  intro c hc
  simp at hc
  rcases hc with rfl | rfl <;> decide

theorem slices_np (ms rest : Str) (ha : (slices ms).getLast? ≠ some ['[']) :
    slices (ms ++ c!"[np]" ++ rest) = slices ms ++ c!"[np]" :: slices rest :=
  slices_around ms c!"np" rest np_plain ha

theorem np_value : tryFrom c!"[np]" = .ok (.ok .newPage) := by decide +kernel

/-- **C79 (earlier pages)**: whatever is appended to a message after a page break, what the message showed is shown
first. -/
theorem C79_earlier (d : Dms) (ms rest : Str) (hd : d.multiCfg.supportedMultiTags .np = true)
    (ha : (slices ms).getLast? ≠ some ['[']) (xs) (h : Yields d ms xs) :
    ∃ pg', Steps d (Pages.new d (ms ++ c!"[np]" ++ rest)) xs pg' := by
  obtain ⟨pg1, h1, _⟩ := h
  have := steps_np np_value (slices rest) hd (pg := Pages.new d ms) (pg' := Pages.new d (ms ++ c!"[np]" ++ rest))
    (.inl (by rw [ExtP, Pages.new, slices_np ms rest ha]; rfl)) h1
  obtain ⟨pg1', h2, _⟩ := this
  exact ⟨pg1', h2⟩

/-- after these values font, justification, character spacing, colors and page times are the defaults of the sign -/
def Spec.Restores (d : Dms) (us : List Value) : Prop :=
  us.foldl (TextAttr.apply (signAttr d)) (signAttr d) = signAttr d ∧
  background (signPage d).2 (signPage d).2 us = (signPage d).2 ∧
  pageTimes (signPage d).1 (signPage d).1 us = (signPage d).1

instance (d : Dms) (us : List Value) : Decidable (Restores d us) := by unfold Restores; infer_instance

theorem steps_signState {d : Dms} {pg pg' : Pages} {xs} (h : Steps d pg xs pg') (hn : NoError xs)
    (hd : SignState d pg.defaultState pg.renderState) : SignState d pg'.defaultState pg'.renderState := by
  induction h with
  | nil => exact hd
  | @cons pg pg1 pg' x xs hx hs ih =>
    obtain ⟨p, rfl⟩ : ∃ p, x = .ok p := hn _ (List.mem_cons_self ..)
    refine ih (fun y hy => hn y (List.mem_cons_of_mem _ hy)) ?_
    rcases next_cases hx with ⟨hon, h1⟩ | ⟨hoff, ⟨b, hb⟩, hp, rfl⟩
    · obtain ⟨vs, rest, b, ho⟩ := renderOnPage_ok h1
      exact (ho.attr hd).1
    · exact ⟨hd.ds, hd.fg, hd.bg, hd.scheme⟩

theorem parses_last {ss : List Str} {us} (h : Parses ss us) : ss.getLast? ≠ some ['['] := by
  intro hl
  have hm := List.mem_of_getLast? hl
  have : ∀ {ss us}, Parses ss us → ∀ t ∈ ss, ∃ v, tryFrom t = .ok (.ok v) := by
    intro ss us h
    induction h with
    | nil => simp
    | cons hv _ ih =>
      intro t ht
      rcases List.mem_cons.1 ht with rfl | ht
      · exact ⟨_, hv⟩
      · exact ih t ht
  obtain ⟨v, hv⟩ := this h _ hm
  have e : tryFrom ['['] = .ok (.error (.unsupportedTag ['['])) := by decide +kernel
  simp [e] at hv

theorem parses_unique {ss : List Str} {us vs} (h : Parses ss us) (h' : Parses ss vs) : us = vs := by
  induction h generalizing vs with
  | nil => cases h'; rfl
  | cons hv _ ih =>
    cases h' with
    | cons hv' h' =>
      rw [hv] at hv'
      simp only [Res.ok.injEq, Except.ok.injEq] at hv'
      rw [hv', ih h']

/-- **C79 (later pages)**: if a message leaves all attributes at the defaults of the sign, then a message appended after a
page break is shown as if it was alone. -/
theorem C79_appended (d : Dms) (ms rest : Str) (hd : d.multiCfg.supportedMultiTags .np = true) (us : List Value)
    (hu : Parses (slices ms) us) (hr : Restores d us) (xs ys) (h : Yields d ms xs) (hn : NoError xs)
    (h' : Yields d rest ys) : Yields d (ms ++ c!"[np]" ++ rest) (xs ++ ys) := by
  have ha := parses_last hu
  obtain ⟨pg1, h1, h2⟩ := h
  obtain ⟨h2, -⟩ := next_none h2
  have e0 : ExtP c!"[np]" (slices rest) (Pages.new d ms) (Pages.new d (ms ++ c!"[np]" ++ rest)) := by
    rw [ExtP, Pages.new, slices_np ms rest ha]; rfl
  obtain ⟨pg1', h3, -, h4⟩ := steps_np np_value (slices rest) hd (.inl e0) h1
  rcases h4 (.inl ⟨e0, trivial⟩) hn with ⟨-, hm⟩ | ⟨c, hv, st, hpg, h5⟩
  · rw [h2] at hm; exact hm.elim
  · simp only [h2, reduceCtorEq, false_and, true_and, false_or] at h5
    subst h5
    obtain ⟨us', hc, ht, hb, hp⟩ := C53_carry d _ _ _ h3 hn
    have hsign := steps_signState h3 hn (signState_new d _)
    have hval : pg1'.values = slices rest := by rw [hpg]
    have hus : us' = us ++ [.newPage] := by
      obtain ⟨pre, hpre, hp1⟩ := hc
      rw [hval, slices_np ms rest ha] at hpre
      have : pre = slices ms ++ [c!"[np]"] := by
        have e : slices ms ++ c!"[np]" :: slices rest = (slices ms ++ [c!"[np]"]) ++ slices rest := by simp
        rw [e] at hpre
        exact (List.append_cancel_right hpre).symm
      subst this
      exact parses_unique hp1 (parses_append hu (.cons np_value .nil))
    subst hus
    obtain ⟨r1, r2, r3⟩ := hr
    have ht' : textAttr pg1'.renderState = signAttr d := by
      rw [ht, List.foldl_append, r1]; rfl
    have hb' : pg1'.renderState.colorCtx.bgCurrent = (signPage d).2 := by
      rw [hb]; unfold background at r2 ⊢; rw [List.foldl_append, r2]; rfl
    have hp' : (pg1'.renderState.pageOnTimeDs, pg1'.renderState.pageOffTimeDs) = (signPage d).1 := by
      rw [hp]; unfold pageTimes at r3 ⊢; rw [List.foldl_append, r3]; rfl
    have key : ResetP (Pages.new d rest) pg1' := by
      obtain ⟨rds, rrs, rps, rvs, rsp⟩ := pg1'
      simp only [Pages.mk.injEq] at hpg
      obtain ⟨ctx, t1, t2, tr, jp, jl, fn, fv, ls, cs, ln, sn⟩ := rrs
      obtain ⟨csch, fgd, fgc, bgd, bgc⟩ := ctx
      obtain ⟨s1, s2, s3, s4⟩ := hsign
      rw [← foregroundDefault_eq] at s2
      rw [← backgroundDefault_eq] at s3
      rw [← renderNew_attr] at ht'
      simp only [signPage, Prod.mk.injEq] at hp'
      rw [signPage] at hb'
      simp only [← backgroundDefault_eq] at hb'
      simp only at s1 s2 s3 s4 hb' hval hp'
      simp only [textAttr, TextAttr.mk.injEq] at ht'
      obtain ⟨a1, a2, a3, a4, a5, a6⟩ := ht'
      subst s1 s2 s3 s4 hb' hval
      obtain ⟨rfl, rfl⟩ := hp'
      subst a1 a2 a3 a4 a5 a6
      refine .inr ⟨true, c, tr, ls, ln, sn, rsp, rfl, ?_⟩
      rw [hpg.2.2.1]
      rfl
    obtain ⟨pg2, h6, h7⟩ := h'
    obtain ⟨pg2', h8, h9⟩ := steps_reset key h6
    refine ⟨pg2', h3.append h8, ?_⟩
    obtain ⟨h7, -⟩ := next_none h7
    rcases h9 with rfl | ⟨b, _, _, _, _, _, _, hb, _⟩
    · simp [Pages.next, h7]
    · simp [h7] at hb

/-- no value which sets an attribute -/
def Spec.NoAttr : Value → Prop
  | .font _ | .justificationLine _ | .justificationPage _ | .spacingCharacter _ | .spacingCharacterEnd
  | .colorForeground _ | .colorBackground _ | .pageBackground _ | .pageTime _ _ => False
  | _ => True

theorem restores_plain (d : Dms) {us : List Value} (h : ∀ v ∈ us, NoAttr v) : Restores d us := by
  induction us with
  | nil => exact ⟨rfl, rfl, rfl⟩
  | cons v us ih =>
    obtain ⟨h1, h2, h3⟩ := ih fun v hv => h v (List.mem_cons_of_mem _ hv)
    have hv := h v (List.mem_cons_self ..)
    refine ⟨?_, ?_, ?_⟩
    · rw [List.foldl_cons]
      have : TextAttr.apply (signAttr d) (signAttr d) v = signAttr d := by
        cases v <;> simp [NoAttr] at hv <;> rfl
      rw [this, h1]
    · have : background (signPage d).2 (signPage d).2 (v :: us) = background (signPage d).2 (signPage d).2 us := by
        cases v <;> simp [NoAttr] at hv <;> rfl
      rw [this, h2]
    · have : pageTimes (signPage d).1 (signPage d).1 (v :: us) = pageTimes (signPage d).1 (signPage d).1 us := by
        cases v <;> simp [NoAttr] at hv <;> rfl
      rw [this, h3]

/-- **C79**: so a message without attributes and a message joined by a page break are shown one after the other. -/
theorem C79_joined (d : Dms) (ms rest : Str) (hd : d.multiCfg.supportedMultiTags .np = true) (us : List Value)
    (hu : Parses (slices ms) us) (hr : ∀ v ∈ us, NoAttr v) (xs ys) (h : Yields d ms xs) (hn : NoError xs)
    (h' : Yields d rest ys) : Yields d (ms ++ c!"[np]" ++ rest) (xs ++ ys) :=
  C79_appended d ms rest hd us hu (restores_plain d hr) xs ys h hn h'

-- three messages meeting the hypotheses: without attributes, restoring them, and not restoring them
example : fullDms.multiCfg.supportedMultiTags .np = true ∧ (slices c!"A[nl]B").getLast? ≠ some ['['] := by decide +kernel
example : summary fullDms c!"A[nl]B" = some [(true, some (60, 30, 30))] := by decide +kernel
example : summary fullDms c!"[pt20o10]C" = some [(true, some (60, 30, 20)), (false, some (60, 30, 10))] := by
  decide +kernel
example : summary fullDms c!"A[nl]B[np][pt20o10]C" =
      some [(true, some (60, 30, 30)), (true, some (60, 30, 20)), (false, some (60, 30, 10))] := by decide +kernel
example : Parses (slices c!"[jl4]A[jl]") [.justificationLine (some .right), .text c!"A", .justificationLine none] ∧
    Restores fullDms [.justificationLine (some .right), .text c!"A", .justificationLine none] :=
  ⟨.cons (by decide +kernel) (.cons (by decide +kernel) (.cons (by decide +kernel) .nil)), by decide +kernel⟩
example : ¬ Restores fullDms [.pageTime (some 20) none, .text c!"A"] := by decide +kernel
example : summary fullDms c!"B" = some [(true, some (60, 30, 30))] := by decide +kernel
example : summary fullDms c!"[pt20]A[np]B" = some [(true, some (60, 30, 20)), (true, some (60, 30, 20))] := by decide +kernel

end Ntcip
