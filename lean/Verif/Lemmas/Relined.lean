import Verif.Spec.Relined
import Verif.Props.Shown
import Verif.Lemmas.Wording
/-
Lemmas on a pattern that is filled with other lines.
-/
namespace Ntcip
open Spec

theorem relined_append {R : Value → Value → Prop} {a b a' b' : List Value} (h : Pairwise2 R a a') (h' : Pairwise2 R b b') :
    Pairwise2 R (a ++ b) (a' ++ b') := by
  induction h with
  | nil => exact h'
  | cons h _ ih => exact .cons h ih

theorem relined_refl (ls ls' : List Str) (vs : List Value) : Pairwise2 (Relined ls ls') vs vs := by
  induction vs with
  | nil => exact .nil
  | cons v vs ih => exact .cons .same ih

theorem relined_mono {ls ls' ks ks' : List Str} (h : ∀ x ∈ ks.zip ks', x ∈ ls.zip ls') {vs vs'}
    (hr : Pairwise2 (Relined ks ks') vs vs') : Pairwise2 (Relined ls ls') vs vs' := by
  induction hr with
  | nil => exact .nil
  | cons hv _ ih =>
    refine .cons ?_ ih
    cases hv with
    | same => exact .same
    | line hm => exact .line (h _ hm)

theorem simpleLine_range {l : Str} (h : SimpleLine l) : InRange (.text l) :=
  .inr (.inr ⟨h.1, fun c hc => ⟨(h.2 c hc).1, (h.2 c hc).2.1⟩, fun c hc => (h.2 c hc).2.2⟩)

theorem linePair_plain {l l' : Str} (h : LinePair l l') : Plain l ∧ Plain l' := by
  rcases h with ⟨rfl, rfl⟩ | ⟨h, h'⟩
  · exact ⟨by simp [Plain], by simp [Plain]⟩
  · exact ⟨fun c hc => ⟨(h.2 c hc).1, (h.2 c hc).2.1⟩, fun c hc => ⟨(h'.2 c hc).1, (h'.2 c hc).2.1⟩⟩

theorem textVals_relined {l l' : Str} (h : LinePair l l') : Pairwise2 (Relined [l] [l']) (textVals l) (textVals l') := by
  rcases h with ⟨rfl, rfl⟩ | ⟨h, h'⟩
  · exact relined_refl _ _ _
  · have : textVals l = [.text l] := by unfold textVals; rw [if_neg h.1]
    rw [this]
    have : textVals l' = [.text l'] := by unfold textVals; rw [if_neg h'.1]
    rw [this]
    exact .cons (.line (by simp)) .nil

theorem lineVals_relined {ls ls' : List Str} (h : Pairwise2 LinePair ls ls') :
    Pairwise2 (Relined ls ls') (lineVals ls) (lineVals ls') := by
  induction h with
  | nil => exact .nil
  | @cons l l' ls ls' hl hs ih =>
    cases hs with
    | nil => exact textVals_relined hl
    | @cons k k' ls ls' hk hs =>
      rw [lineVals_cons l (ls := k :: ls) (by simp), lineVals_cons l' (ls := k' :: ls') (by simp)]
      refine relined_append (relined_mono ?_ (textVals_relined hl)) (.cons .same (relined_mono ?_ ih))
      · intro x hx; simp only [List.zip_cons_cons, List.zip_nil_left, List.mem_singleton] at hx; simp [hx]
      · intro x hx; exact List.mem_cons_of_mem _ hx

theorem lineVals_range {ls ls' : List Str} (h : Pairwise2 LinePair ls ls') :
    (∀ v ∈ lineVals ls, InRange v) ∧ ∀ v ∈ lineVals ls', InRange v := by
  have key : ∀ {l l'}, LinePair l l' → (l ≠ [] → InRange (.text l)) ∧ (l' ≠ [] → InRange (.text l')) := by
    intro l l' h
    rcases h with ⟨rfl, rfl⟩ | ⟨h, h'⟩
    · exact ⟨fun k => absurd rfl k, fun k => absurd rfl k⟩
    · exact ⟨fun _ => simpleLine_range h, fun _ => simpleLine_range h'⟩
  have all : (∀ l ∈ ls, l ≠ [] → InRange (.text l)) ∧ ∀ l ∈ ls', l ≠ [] → InRange (.text l) := by
    induction h with
    | nil => exact ⟨by simp, by simp⟩
    | cons hl _ ih =>
      constructor
      · intro l hm
        rcases List.mem_cons.1 hm with rfl | hm
        · exact (key hl).1
        · exact ih.1 l hm
      · intro l hm
        rcases List.mem_cons.1 hm with rfl | hm
        · exact (key hl).2
        · exact ih.2 l hm
  constructor
  · intro v hv
    rcases lineVals_mem hv with rfl | ⟨l, hl, hne, rfl⟩
    · simp [InRange, AtMost]
    · exact all.1 l hl hne
  · intro v hv
    rcases lineVals_mem hv with rfl | ⟨l, hl, hne, rfl⟩
    · simp [InRange, AtMost]
    · exact all.2 l hl hne

theorem linePairs_plain {ls ls' : List Str} (h : Pairwise2 LinePair ls ls') : (∀ l ∈ ls, Plain l) ∧ ∀ l ∈ ls', Plain l := by
  induction h with
  | nil => exact ⟨by simp, by simp⟩
  | cons hl _ ih =>
    have := linePair_plain hl
    exact ⟨by simpa using ⟨this.1, ih.1⟩, by simpa using ⟨this.2, ih.2⟩⟩

theorem pairwise2_take {R : Str → Str → Prop} {ls ls' : List Str} (h : Pairwise2 R ls ls') : ∀ k,
    Pairwise2 R (ls.take k) (ls'.take k) ∧ Pairwise2 R (ls.drop k) (ls'.drop k) := by
  induction h with
  | nil => intro k; simp only [List.take_nil, List.drop_nil]; exact ⟨.nil, .nil⟩
  | cons h hs ih =>
    intro k
    cases k with
    | zero => exact ⟨.nil, .cons h hs⟩
    | succ k => exact ⟨.cons h (ih k).1, (ih k).2⟩

/-- a pattern filled with two lists of lines has the same values, but for the lines -/
theorem filled_relined {d : Dms} {as ls p s} (hf : Filled d as ls p s) : ∀ {ls' s'}, Filled d as ls' p s' →
    Pairwise2 LinePair ls ls' → Linked as → (∀ a ∈ as, ∀ v ∈ areaValues a, InRange v) →
    (∀ f, p = some f → InRange (.font f)) → (∀ a ∈ as, Apart (a.body.filter fun v => !isFont v)) →
    ∃ V V', s = V.flatMap Value.display ∧ s' = V'.flatMap Value.display ∧ Pairwise2 (Relined ls ls') V V' ∧
      (∀ v ∈ V, InRange v) ∧ (∀ v ∈ V', InRange v) ∧ Apart V ∧ Apart V' := by
  have pend : ∀ {p : Option FontTag} {vs : List Value}, (∀ f, p = some f → InRange (.font f)) → (∀ v ∈ vs, InRange v) →
      ∀ f, pendingFont p vs = some f → InRange (.font f) := by
    intro p vs
    induction vs generalizing p with
    | nil => intro hp _ f hf; exact hp f hf
    | cons v vs ih =>
      intro hp hv
      have hv0 := hv v (List.mem_cons_self ..)
      have hv1 : ∀ w ∈ vs, InRange w := fun w hw => hv w (List.mem_cons_of_mem _ hw)
      intro f hf
      unfold pendingFont at hf
      rw [List.foldl_cons] at hf
      refine ih (p := _) ?_ hv1 f hf
      intro g hg
      clear hv hf
      cases v <;> first | exact hp g hg | (cases hg; exact hv0)
  have next : ∀ {a : Area} {as : List Area}, Linked (a :: as) → Linked as ∧ (∀ v ∈ a.next.toList, opens v = true) ∧
      (as ≠ [] → a.next ≠ none) := by
    intro a as h
    cases as with
    | nil =>
      have : a.next = none := h
      rw [this]
      exact ⟨trivial, by simp, by simp⟩
    | cons b as =>
      obtain ⟨⟨v, h1, h2⟩, h3⟩ := h
      rw [h1]
      refine ⟨h3, ?_, by simp⟩
      simpa using h2
  have hnil : ∀ {as ls p s}, Filled d as ls p s → as = [] → s = [] := by
    intro as ls p s h e; subst e; cases h; rfl
  have nextEq : ∀ a : Area, nextText a = a.next.toList.flatMap Value.display := by
    intro a; unfold nextText; cases a.next <;> simp
  have opensPlain : ∀ {v}, opens v = true → plainText v = false := by
    intro v h; cases v <;> first | rfl | simp [opens] at h
  -- the values of one area, and those of the areas after it
  have step : ∀ {a : Area} {as : List Area} {B B' V V' : List Value} {ls ls' : List Str}, Linked (a :: as) →
      (∀ v ∈ areaValues a, InRange v) → (∀ v ∈ B, InRange v) → (∀ v ∈ B', InRange v) → Apart B → Apart B' →
      Pairwise2 (Relined ls ls') B B' → Pairwise2 (Relined ls ls') V V' → (∀ v ∈ V, InRange v) → (∀ v ∈ V', InRange v) →
      Apart V → Apart V' → (as = [] → V = [] ∧ V' = []) →
      Pairwise2 (Relined ls ls') (B ++ (a.next.toList ++ V)) (B' ++ (a.next.toList ++ V')) ∧
      (∀ v ∈ B ++ (a.next.toList ++ V), InRange v) ∧ (∀ v ∈ B' ++ (a.next.toList ++ V'), InRange v) ∧
      Apart (B ++ (a.next.toList ++ V)) ∧ Apart (B' ++ (a.next.toList ++ V')) := by
    intro a as B B' V V' ls ls' hl ha hB hB' aB aB' hP hP' hV hV' aV aV' he
    obtain ⟨_, n1, n2⟩ := next hl
    have hr : ∀ v ∈ a.next.toList, InRange v := fun v hv => ha v (List.mem_append_right _ hv)
    have hap : ∀ {V : List Value}, Apart V → (as = [] → V = []) →
        Apart (a.next.toList ++ V) ∧ ∀ w, (a.next.toList ++ V).head? = some w → plainText w = false := by
      intro V hV he
      cases hn : a.next with
      | none =>
        have : as = [] := Classical.byContradiction fun h => n2 h hn
        rw [he this]
        exact ⟨trivial, by simp⟩
      | some v =>
        have hv := opensPlain (n1 v (by rw [hn]; simp))
        exact ⟨⟨fun h => by rw [hv] at h; simp at h, hV⟩, by simpa using hv⟩
    have k := hap aV fun e => (he e).1
    have k' := hap aV' fun e => (he e).2
    refine ⟨relined_append hP (relined_append (relined_refl _ _ _) hP'), ?_, ?_, apart_join aB k.1 k.2,
      apart_join aB' k'.1 k'.2⟩
    · intro v hv
      rcases List.mem_append.1 hv with hv | hv
      · exact hB v hv
      · rcases List.mem_append.1 hv with hv | hv
        · exact hr v hv
        · exact hV v hv
    · intro v hv
      rcases List.mem_append.1 hv with hv | hv
      · exact hB' v hv
      · rcases List.mem_append.1 hv with hv | hv
        · exact hr v hv
        · exact hV' v hv
  induction hf with
  | nil =>
    intro ls' s' hf' _ _ _ _ _
    cases hf'
    exact ⟨[], [], rfl, rfl, .nil, by simp, by simp, trivial, trivial⟩
  | @skip a as ls p s hf hF ih =>
    intro ls' s' hf' hl hk hr hp ha
    cases hf' with
    | fill hf' => rw [hf] at hf'; cases hf'
    | @skip _ _ _ _ s2 _ hF' =>
      obtain ⟨V, V', e1, e2, h1, h2, h3, h4, h5⟩ := ih hF' hl (next hk).1 (fun b hb => hr b (List.mem_cons_of_mem _ hb))
        (pend hp fun v hv => hr a (List.mem_cons_self ..) v (List.mem_append_left _ hv))
        (fun b hb => ha b (List.mem_cons_of_mem _ hb))
      have hB : ∀ v ∈ a.body.filter (fun v => !isFont v), InRange v := fun v hv =>
        hr a (List.mem_cons_self ..) v (List.mem_append_left _ (List.mem_filter.1 hv).1)
      have hba := ha a (List.mem_cons_self ..)
      by_cases hemp : as = []
      · have z := hnil hF hemp
        have z' := hnil hF' hemp
        have k := step (V := []) (V' := []) hk (hr a (List.mem_cons_self ..)) hB hB hba hba (relined_refl ls ls' _) .nil
          (by simp) (by simp) trivial trivial (fun _ => ⟨rfl, rfl⟩)
        refine ⟨_, _, ?_, ?_, k⟩
        · simp [z, nextEq, tagsText]
        · simp [z', nextEq, tagsText]
      · have k := step hk (hr a (List.mem_cons_self ..)) hB hB hba hba (relined_refl ls ls' _) h1 h2 h3 h4 h5
          (fun e => absurd e hemp)
        refine ⟨_, _, ?_, ?_, k⟩
        · simp [e1, nextEq, tagsText]
        · simp [e2, nextEq, tagsText]
  | @fill a as ls p s n hf hn hF ih =>
    intro ls' s' hf' hl hk hr hp ha
    cases hf' with
    | skip hf' => rw [hf] at hf'; cases hf'
    | @fill _ _ _ _ s2 n' _ hn' hF' =>
      rw [hn] at hn'
      cases hn'
      obtain ⟨t1, t2⟩ := pairwise2_take hl n
      obtain ⟨V, V', e1, e2, h1, h2, h3, h4, h5⟩ := ih hF' t2 (next hk).1 (fun b hb => hr b (List.mem_cons_of_mem _ hb))
        (by simp) (fun b hb => ha b (List.mem_cons_of_mem _ hb))
      have hB : ∀ v ∈ a.body.filter (fun v => !isFont v), InRange v := fun v hv =>
        hr a (List.mem_cons_self ..) v (List.mem_append_left _ (List.mem_filter.1 hv).1)
      have hocc : ∀ v ∈ a.body.filter (fun v => !isFont v), plainText v = false := by
        intro v hv
        unfold Area.fillable at hf
        rw [Bool.and_eq_true, Bool.not_eq_true', List.any_eq_false] at hf
        have := hf.1 v (List.mem_filter.1 hv).1
        cases v <;> first | rfl | simp [occupies] at this
      have hF0 : ∀ f, pendingFont p a.body = some f → InRange (.font f) :=
        pend hp fun v hv => hr a (List.mem_cons_self ..) v (List.mem_append_left _ hv)
      have hfs : ∃ fs, fontText (pendingFont p a.body) = fs.flatMap Value.display ∧ (∀ v ∈ fs, InRange v) ∧ Apart fs ∧
          ∀ w, fs.head? = some w → plainText w = false := by
        cases hpf : pendingFont p a.body with
        | none => exact ⟨[], rfl, by simp, trivial, by simp⟩
        | some f =>
          refine ⟨[.font f], by simp [fontText], ?_, ⟨by simp, trivial⟩, by simp [plainText]⟩
          intro v hv
          rw [List.mem_singleton] at hv
          subst hv
          exact hF0 f hpf
      obtain ⟨fs, f1, f2, f3, f4⟩ := hfs
      obtain ⟨lr, lr'⟩ := lineVals_range t1
      obtain ⟨lp, lp'⟩ := linePairs_plain t1
      have zt : ∀ x ∈ (ls.take n).zip (ls'.take n), x ∈ ls.zip ls' := by
        intro x hx
        rw [List.zip, ← List.take_zipWith] at hx
        exact List.mem_of_mem_take hx
      have zd : ∀ x ∈ (ls.drop n).zip (ls'.drop n), x ∈ ls.zip ls' := by
        intro x hx
        rw [List.zip, ← List.drop_zipWith] at hx
        exact List.mem_of_mem_drop hx
      have pre : ∀ {B C : List Value}, (∀ v ∈ B, plainText v = false) → Apart C → Apart (B ++ C) := by
        intro B C hB hC
        induction B with
        | nil => exact hC
        | cons v B ih =>
          have hv := hB v (List.mem_cons_self ..)
          exact ⟨fun h => absurd (hv.symm.trans h) (by simp), ih fun w hw => hB w (List.mem_cons_of_mem _ hw)⟩
      have rng : ∀ {L : List Value}, (∀ v ∈ L, InRange v) →
          ∀ v ∈ a.body.filter (fun v => !isFont v) ++ (L ++ fs), InRange v := by
        intro L hL v hv
        rcases List.mem_append.1 hv with hv | hv
        · exact hB v hv
        · rcases List.mem_append.1 hv with hv | hv
          · exact hL v hv
          · exact f2 v hv
      have k := step (B := a.body.filter (fun v => !isFont v) ++ (lineVals (ls.take n) ++ fs))
        (B' := a.body.filter (fun v => !isFont v) ++ (lineVals (ls'.take n) ++ fs)) (V := if as = [] then [] else V)
        (V' := if as = [] then [] else V') hk (hr a (List.mem_cons_self ..)) (rng lr) (rng lr')
        (pre hocc (apart_join (apart_lineVals _) f3 f4)) (pre hocc (apart_join (apart_lineVals _) f3 f4))
        (relined_append (relined_refl ls ls' _) (relined_append (relined_mono zt (lineVals_relined t1)) (relined_refl _ _ _)))
        (by split
            · exact .nil
            · exact relined_mono zd h1)
        (by split
            · simp
            · exact h2)
        (by split
            · simp
            · exact h3)
        (by split
            · trivial
            · exact h4)
        (by split
            · trivial
            · exact h5) (fun e => by simp [e])
      refine ⟨_, _, ?_, ?_, k⟩
      · by_cases hemp : as = []
        · rw [hnil hF hemp, f1, nextEq, ← lineVals_display lp]
          simp [hemp, tagsText]
        · rw [e1, f1, nextEq, ← lineVals_display lp]
          simp [hemp, tagsText]
      · by_cases hemp : as = []
        · rw [hnil hF' hemp, f1, nextEq, ← lineVals_display lp']
          simp [hemp, tagsText]
        · rw [e2, f1, nextEq, ← lineVals_display lp']
          simp [hemp, tagsText]

end Ntcip
