import Verif.Props.NormalizeExact
import Verif.Props.Escape
/-
C130: `normalize` goes from left to right.
-/
namespace Ntcip
open Spec

theorem slices_tagged {a b : Str} (ha : (slices a).getLast? ≠ some ['[']) (hb : ∀ c, b.head? = some c → c = '[') :
    slices (a ++ b) = slices a ++ slices b := by
  apply slices_append
  intro t ht
  refine ⟨fun _ _ c hc => .inl (hb c hc), ?_, ?_⟩
  · rintro b' rfl _ c hc
    refine ⟨?_, hb c hc⟩
    rintro rfl
    exact ha ht
  · rintro rfl h
    exact absurd (hb _ h) (by decide)

theorem normLoop_append (l l' : List Str) : ∀ st, normLoop st (l ++ l') = (normLoop st l).bind fun s => normLoop s l' := by
  induction l with
  | nil => intro st; rfl
  | cons s l ih =>
    intro st
    rw [List.cons_append, normLoop, normLoop]
    cases hs : tryFrom s with
    | panic p => rfl
    | ok x =>
      cases x with
      | error e => exact ih st
      | ok v => exact ih _

theorem normalize_loop {a m : Str} (h : normalize a = .ok m) : ∃ st, normLoop .init (slices a) = .ok st ∧ st.norm = m := by
  unfold normalize at h
  cases hl : normLoop .init (slices a) with
  | panic p => rw [hl] at h; simp at h
  | ok st => rw [hl] at h; simp at h; exact ⟨st, rfl, h⟩

theorem display_not_open {v : Value} (hv : InRange v) : v.display ≠ ['['] := by
  intro h
  rcases display_shape v hv with ⟨_, t, rfl, h1, h2, h3⟩ | ⟨_, h1 | h1 | ⟨b, _, _, h1⟩⟩
  · rw [h3] at h
    subst h
    exact absurd (h2 '[' (by simp)).1 (by simp)
  · rw [h1] at h; simp at h
  · rw [h1] at h; simp at h
  · rw [h1] at h; simp at h

theorem normalize_last {a m : Str} (h : normalize a = .ok m) : (slices m).getLast? ≠ some ['['] := by
  intro hl
  obtain ⟨v, hv, _, e⟩ := normalize_items h _ (List.mem_of_getLast? hl)
  exact display_not_open hv e.symm

/-! ### the state of the loop -/

/-- the attributes after values -/
def NormState.after (st : NormState) (vs : List Value) : NormState := vs.foldl (fun s v => (s.update v).2) st

theorem same_trans {a b c : NormState} (h : a.Same b) (h' : b.Same c) : a.Same c :=
  ⟨h.1.trans h'.1, h.2.1.trans h'.2.1, h.2.2.1.trans h'.2.2.1, h.2.2.2.trans h'.2.2.2⟩

theorem same_symm {a b : NormState} (h : a.Same b) : b.Same a := ⟨h.1.symm, h.2.1.symm, h.2.2.1.symm, h.2.2.2.symm⟩

theorem after_same {a b : NormState} (h : a.Same b) (vs : List Value) : (a.after vs).Same (b.after vs) := by
  induction vs generalizing a b with
  | nil => exact h
  | cons v vs ih => exact ih (update_same h v).2

theorem step_same (st : NormState) (v : Value) : (st.step v).Same (st.update v).2 := by
  unfold NormState.step
  dsimp only
  split
  · split <;> exact ⟨rfl, rfl, rfl, rfl⟩
  · exact ⟨rfl, rfl, rfl, rfl⟩

theorem foldl_step_same (vs : List Value) (st : NormState) : (vs.foldl NormState.step st).Same (st.after vs) := by
  induction vs generalizing st with
  | nil => exact ⟨rfl, rfl, rfl, rfl⟩
  | cons v vs ih => exact same_trans (ih _) (after_same (step_same st v) vs)

theorem update_true_same {st : NormState} {v : Value} (h : (st.update v).1 = true) : (st.update v).2.Same st := by
  cases v <;> simp [NormState.update, NormState.Same] at h ⊢ <;> exact h

theorem after_dedup (st : NormState) (vs : List Value) : (st.after (dedup st vs)).Same (st.after vs) := by
  induction vs generalizing st with
  | nil => exact ⟨rfl, rfl, rfl, rfl⟩
  | cons v vs ih =>
    rw [dedup]
    split
    · rename_i h
      refine same_trans (after_same (same_symm (update_true_same h)) _) ?_
      exact ih _
    · exact ih _

theorem update_text (st : NormState) (t : Str) : st.update (.text t) = (false, st) := rfl

theorem after_mergeT (st : NormState) (vs : List Value) : (st.after (mergeT vs)) = (st.after vs) := by
  induction vs generalizing st with
  | nil => rfl
  | cons v vs ih =>
    rw [mergeT]
    rcases joinSpan_cases v (mergeT vs) with ⟨a, b, r', rfl, hr, _, _, hj⟩ | ⟨hj, -⟩
    · rw [hj]
      have := ih st
      rw [hr] at this
      exact this
    · rw [hj]
      exact ih _

/-- after something visible nothing is left behind -/
theorem foldl_step_trail {vs : List Value} (h : ∀ v, vs.getLast? = some v → v.isBlank = false) {st : NormState}
    (ht : st.trail = []) : (vs.foldl NormState.step st).trail = [] := by
  rcases List.eq_nil_or_concat vs with rfl | ⟨ws, v, rfl⟩
  · exact ht
  · rw [List.concat_eq_append, List.foldl_append]
    have hv := h v (by simp)
    have hu : ∀ s : NormState, (s.update v).1 = false := by
      intro s; cases v <;> first | rfl | simp [Value.isBlank] at hv
    show (NormState.step _ v).trail = []
    unfold NormState.step
    simp [hu, hv]

theorem dedup_visible {vs : List Value} (h : ∀ v, vs.getLast? = some v → v.isBlank = false) (st : NormState) :
    ∀ v, (dedup st vs).getLast? = some v → v.isBlank = false := by
  induction vs generalizing st with
  | nil => intro v hv; simp [dedup] at hv
  | cons w vs ih =>
    intro v hv
    rw [dedup] at hv
    cases vs with
    | nil =>
      simp only [dedup] at hv
      split at hv
      · simp at hv
      · simp at hv; subst hv; exact h _ (by simp)
    | cons x xs =>
      have ih := ih (fun v hv => h v (by rw [List.getLast?_cons_cons]; exact hv))
      split at hv
      · exact ih _ v hv
      · cases hd : dedup (st.update w).2 (x :: xs) with
        | nil =>
          exfalso
          have hne : ∀ (l : List Value) (st : NormState), l ≠ [] → (∀ v, l.getLast? = some v → v.isBlank = false) →
              dedup st l ≠ [] := by
            intro l
            induction l with
            | nil => intro st h1; exact absurd rfl h1
            | cons y l ih' =>
              intro st _ hl
              rw [dedup]
              split
              · rename_i hu
                cases l with
                | nil =>
                  have := hl y (by simp)
                  cases y <;> first | simp [NormState.update] at hu; done | simp [Value.isBlank] at this
                | cons z l => exact ih' _ (by simp) (fun v hv => hl v (by rw [List.getLast?_cons_cons]; exact hv))
              · simp
          exact hne (x :: xs) _ (by simp) (fun v hv => h v (by rw [List.getLast?_cons_cons]; exact hv)) hd
        | cons y ys =>
          rw [hd, List.getLast?_cons_cons, ← hd] at hv
          exact ih _ v hv

theorem state_ext {a b : NormState} (h : a.Same b) (hn : a.norm = b.norm) (ht : a.trail = b.trail) : a = b := by
  obtain ⟨h1, h2, h3, h4⟩ := h
  cases a; cases b
  simp_all

/-- **C130 (the beginning)** What is normalized does not change when a tag, and anything more, is put behind the message:
the normalized message only gets longer.  It gets longer exactly if something visible is put behind it. -/
theorem C130_prefix (a b n : Str) (ha : (slices a).getLast? ≠ some ['[']) (hb : ∀ c, b.head? = some c → c = '[')
    (h : normalize (a ++ b) = .ok n) : ∃ m, normalize a = .ok m ∧ (∃ k, n = m ++ k) ∧
      (n = m ↔ ∀ v, .ok (.ok v) ∈ values b → ¬ Visible v) := by
  obtain ⟨st, hst, rfl⟩ := normalize_loop h
  rw [slices_tagged ha hb, normLoop_append] at hst
  cases hl : normLoop .init (slices a) with
  | panic p => rw [hl] at hst; cases hst
  | ok sa =>
    rw [hl] at hst
    have hst : normLoop sa (slices b) = .ok st := hst
    refine ⟨sa.norm, by unfold normalize; rw [hl]; rfl, ?_⟩
    have e := normLoop_ok hst
    have e := congrArg NormState.norm e
    rw [foldl_step] at e
    have hz : ((∀ v, .ok (.ok v) ∈ values b → ¬ Visible v) ↔ trimB (dedup sa (validValues b)) = []) := by
      rw [trimB_eq_nil]
      constructor
      · intro hv v hm
        have hm := (dedup_sublist _ _).subset hm
        exact (isBlank_iff v (validValues_inRange b v hm)).2 (hv v (mem_validValues.1 hm))
      · intro hv v hm hvis
        have hm := mem_validValues.2 hm
        have hbl : v.isBlank ≠ true := fun hb => (isBlank_iff v (validValues_inRange b v hm)).1 hb hvis
        refine hbl (hv v ?_)
        clear e hst hv hvis
        have hu : ∀ s : NormState, (s.update v).1 = false := by
          intro s; cases v <;> first | rfl | simp [Value.isBlank] at hbl
        revert hm
        generalize validValues b = l
        generalize sa = s
        intro hm
        induction l generalizing s with
        | nil => simp at hm
        | cons w l ih =>
          rw [dedup]
          rcases List.mem_cons.1 hm with rfl | hm
          · rw [if_neg (by simp [hu])]; exact List.mem_cons_self ..
          · split
            · exact ih _ hm
            · exact List.mem_cons_of_mem _ (ih _ hm)
    rw [hz, e]
    show (∃ k, (if trimB (dedup sa (validValues b)) = [] then sa.norm else _) = sa.norm ++ k) ∧
      ((if trimB (dedup sa (validValues b)) = [] then sa.norm else _) = sa.norm ↔ trimB (dedup sa (validValues b)) = [])
    by_cases hk : trimB (dedup sa (validValues b)) = []
    · rw [if_pos hk]
      exact ⟨⟨[], by simp⟩, iff_of_true rfl hk⟩
    · rw [if_neg hk]
      refine ⟨⟨_, List.append_assoc ..⟩, iff_of_false ?_ hk⟩
      intro he
      rw [List.append_assoc, List.append_right_eq_self, List.append_eq_nil_iff] at he
      obtain ⟨x, xs, hx⟩ := List.exists_cons_of_ne_nil hk
      have he := he.2
      have : (trimB (dedup sa (validValues b))).flatMap Value.display = [] := he
      rw [hx, List.flatMap_cons, List.append_eq_nil_iff] at this
      refine display_ne_nil x (validValues_inRange b x ?_) this.1
      obtain ⟨c, h1, _⟩ := trimB_spec (dedup sa (validValues b))
      refine (dedup_sublist sa _).subset ?_
      rw [h1, hx]
      simp

/-- **C130** A message can be normalized while it is written.  When the part `a` ends with something visible, and is followed
by a tag and anything more, then normalizing the whole gives the same as normalizing the normalized part with the rest put
behind it. -/
theorem C130_onward (a b m : Str) (ha : (slices a).getLast? ≠ some ['[']) (hb : ∀ c, b.head? = some c → c = '[')
    (hs : SmallHex a) (hl : ∀ v, (validValues a).getLast? = some v → Visible v) (h : normalize a = .ok m) :
    normalize (m ++ b) = normalize (a ++ b) := by
  have h' := C07_idempotent_partial a m h hs
  obtain ⟨sa, e1, n1⟩ := normalize_loop h
  obtain ⟨sm, e2, n2⟩ := normalize_loop h'
  have hl : ∀ v, (validValues a).getLast? = some v → v.isBlank = false := by
    intro v hv
    cases hb : v.isBlank with
    | false => rfl
    | true => exact absurd (hl v hv) ((isBlank_iff v (validValues_inRange a v (List.mem_of_getLast? hv))).1 hb)
  have hk : kept a = dedup .init (validValues a) := trimB_of_last (dedup_visible hl _)
  have es : sm = sa := by
    have f1 := normLoop_ok e1
    have f2 := normLoop_ok e2
    have g1 : sa = (validValues a).foldl NormState.step .init := f1
    have g2 : sm = (validValues m).foldl NormState.step .init := f2
    rw [valid_normalize_small h hs] at g2
    refine state_ext ?_ (n2.trans n1.symm) ?_
    · rw [g1, g2]
      refine same_trans (foldl_step_same _ _) (same_trans ?_ (same_symm (foldl_step_same _ _)))
      rw [after_mergeT, hk]
      exact after_dedup _ _
    · rw [g1, g2, foldl_step_trail hl rfl, foldl_step_trail (mergeT_last _ (kept_last a)) rfl]
  unfold normalize
  rw [slices_tagged ha hb, slices_tagged (normalize_last h) hb, normLoop_append, normLoop_append, e1, e2, es]

-- the hypotheses of C130, and what it tells
example : normalize (c!"[fo3]A[fo3]B[nl]" ++ c!"[jl2][cf] ") = .ok c!"[fo3]AB" ∧
    (slices c!"[fo3]A[fo3]B[nl]").getLast? ≠ some ['['] ∧ normalize c!"[fo3]A[fo3]B[nl]" = .ok c!"[fo3]AB" := by decide +kernel

example (b : Str) (hb : ∀ c, b.head? = some c → c = '[') :
    normalize (c!"[fo3]AB" ++ b) = normalize (c!"[FO][fo3]A[fo3]B" ++ b) :=
  C130_onward c!"[FO][fo3]A[fo3]B" b c!"[fo3]AB" (by decide +kernel) hb
    (by
      intro c hc
      rw [← mem_validValues, show validValues c!"[FO][fo3]A[fo3]B" =
        [.font none, .font (some (3, none)), .text c!"A", .font (some (3, none)), .text c!"B"] by decide +kernel] at hc
      simp at hc)
    (by
      intro v hv
      rw [show validValues c!"[FO][fo3]A[fo3]B" =
        [.font none, .font (some (3, none)), .text c!"A", .font (some (3, none)), .text c!"B"] by decide +kernel] at hv
      obtain rfl : Value.text c!"B" = v := by simpa using hv
      exact ⟨'B', by simp, by simp [IsSpace]⟩)
    (by decide +kernel)

/-- **C130 (why)** A part that does not end with something visible can not be normalized first (its last tags would be lost),
and the rest can not be normalized on its own (a tag that goes back to the default would be lost). -/
theorem C130_parts :
    (normalize c!"A[fo3]" = .ok c!"A" ∧ normalize (c!"A" ++ c!"[nl]B") = .ok c!"A[nl]B" ∧
      normalize (c!"A[fo3]" ++ c!"[nl]B") = .ok c!"A[fo3][nl]B") ∧
    (normalize c!"[fo]B" = .ok c!"B" ∧ normalize (c!"[fo3]A" ++ c!"[fo]B") = .ok c!"[fo3]A[fo]B" ∧
      normalize (c!"[fo3]A" ++ c!"B") = .ok c!"[fo3]AB") := by decide +kernel

end Ntcip
