import Verif.Lemmas.Display
import Verif.Props.Ranges
import Verif.Props.Panic
/-
`normalize` as operations on lists of values, and how canonical texts are cut again.
-/
namespace Ntcip
open Spec

/-- the value of a slice, if valid -/
def validOf (s : Str) : Option Value :=
  match tryFrom s with
  | .ok (.ok v) => some v
  | _ => none

/-- the valid values of a string -/
def validValues (ms : Str) : List Value := (slices ms).filterMap validOf

theorem validOf_eq_some {s : Str} {v : Value} : validOf s = some v ↔ tryFrom s = .ok (.ok v) := by
  unfold validOf; split <;> simp_all

theorem validValues_inRange (ms : Str) : ∀ v ∈ validValues ms, InRange v := by
  intro v hv
  obtain ⟨s, hs, h⟩ := List.mem_filterMap.1 hv
  exact C04_in_range s v (slices_items ms s hs) (validOf_eq_some.1 h)

/-- drop the state tags that repeat the state -/
def dedup (st : NormState) : List Value → List Value
  | [] => []
  | v :: vs => if (st.update v).1 then dedup (st.update v).2 vs else v :: dedup (st.update v).2 vs

/-- drop blank values at the end -/
def trimB : List Value → List Value
  | [] => []
  | v :: vs => if trimB vs = [] ∧ v.isBlank = true then [] else v :: trimB vs

/-- the states agree, except for the strings -/
def NormState.Same (a b : NormState) : Prop := a.cf = b.cf ∧ a.fo = b.fo ∧ a.jl = b.jl ∧ a.jp = b.jp

theorem update_same {a b : NormState} (h : a.Same b) (v : Value) :
    (a.update v).1 = (b.update v).1 ∧ (a.update v).2.Same (b.update v).2 := by
  obtain ⟨h1, h2, h3, h4⟩ := h
  cases v <;> simp [NormState.update, NormState.Same, h1, h2, h3, h4]

theorem dedup_same {a b : NormState} (h : a.Same b) (vs : List Value) : dedup a vs = dedup b vs := by
  induction vs generalizing a b with
  | nil => rfl
  | cons v vs ih =>
    obtain ⟨h1, h2⟩ := update_same h v
    simp only [dedup, h1, ih h2]

theorem update_strings (st : NormState) (v : Value) :
    (st.update v).2.norm = st.norm ∧ (st.update v).2.trail = st.trail := by
  cases v <;> simp [NormState.update]

theorem foldl_step (vs : List Value) (st : NormState) :
    (vs.foldl NormState.step st).norm =
      if trimB (dedup st vs) = [] then st.norm
      else st.norm ++ st.trail ++ (trimB (dedup st vs)).flatMap Value.display := by
  induction vs generalizing st with
  | nil => simp [dedup, trimB]
  | cons v vs ih =>
    rw [List.foldl_cons, ih]
    obtain ⟨h1, h2⟩ := update_strings st v
    by_cases hs : (st.update v).1 = true
    · have e : st.step v = (st.update v).2 := by
        simp only [NormState.step, hs]; rfl
      rw [e]
      simp only [dedup, hs, if_true, h1, h2]
    · have hs' : (st.update v).1 = false := by simpa using hs
      simp only [dedup, hs', Bool.false_eq_true, if_false]
      by_cases hb : v.isBlank = true
      · have e : st.step v = { (st.update v).2 with trail := st.trail ++ v.display } := by
          simp only [NormState.step, hs', hb, h2]; rfl
        have e2 : dedup (st.step v) vs = dedup (st.update v).2 vs :=
          dedup_same (by rw [e]; exact ⟨rfl, rfl, rfl, rfl⟩) vs
        rw [e2, e]
        simp only [trimB, hb, and_true, h1]
        by_cases ht : trimB (dedup (st.update v).2 vs) = []
        · simp [ht]
        · simp [ht]
      · have e : st.step v = { (st.update v).2 with norm := st.norm ++ st.trail ++ v.display, trail := [] } := by
          simp only [NormState.step, hs', hb, h1, h2]; rfl
        have e2 : dedup (st.step v) vs = dedup (st.update v).2 vs :=
          dedup_same (by rw [e]; exact ⟨rfl, rfl, rfl, rfl⟩) vs
        rw [e2, e]
        simp only [trimB, hb, and_false, if_false, Bool.false_eq_true]
        by_cases ht : trimB (dedup (st.update v).2 vs) = []
        · simp [ht]
        · simp [ht]

theorem normLoop_ok {st st' : NormState} {l : List Str} (h : normLoop st l = .ok st') :
    st' = (l.filterMap validOf).foldl NormState.step st := by
  induction l generalizing st with
  | nil => simp [normLoop] at h; simp [h]
  | cons s l ih =>
    simp only [normLoop] at h
    cases hs : tryFrom s with
    | panic p => rw [hs] at h; simp at h
    | ok x =>
      rw [hs] at h
      cases x with
      | error e =>
        simp only at h
        have : validOf s = none := by simp [validOf, hs]
        rw [List.filterMap_cons_none this]
        exact ih h
      | ok v =>
        simp only at h
        have : validOf s = some v := by simp [validOf, hs]
        rw [List.filterMap_cons_some this]
        exact ih h

/-- the values `normalize` keeps -/
def kept (ms : Str) : List Value := trimB (dedup .init (validValues ms))

/-- **normalize** writes the kept values -/
theorem normalize_eq {ms n : Str} (h : normalize ms = .ok n) : n = (kept ms).flatMap Value.display := by
  unfold normalize at h
  cases hl : normLoop .init (slices ms) with
  | panic p => rw [hl] at h; simp at h
  | ok st =>
    rw [hl] at h
    simp at h
    rw [← h, normLoop_ok hl, foldl_step]
    unfold kept validValues
    split
    · rename_i he; rw [he]; rfl
    · simp [NormState.init]

theorem dedup_sublist (st : NormState) (vs : List Value) : (dedup st vs).Sublist vs := by
  induction vs generalizing st with
  | nil => simp [dedup]
  | cons v vs ih =>
    simp only [dedup]
    split
    · exact (ih _).cons v
    · exact (ih _).cons_cons v

theorem trimB_spec (vs : List Value) :
    ∃ b, vs = trimB vs ++ b ∧ (∀ v ∈ b, v.isBlank = true) ∧
      ∀ v, (trimB vs).getLast? = some v → v.isBlank = false := by
  induction vs with
  | nil => exact ⟨[], by simp [trimB]⟩
  | cons v vs ih =>
    obtain ⟨b, h1, h2, h3⟩ := ih
    by_cases hc : trimB vs = [] ∧ v.isBlank = true
    · refine ⟨v :: vs, ?_, ?_, ?_⟩
      · simp [trimB, hc]
      · intro w hw
        rcases List.mem_cons.1 hw with rfl | hw
        · exact hc.2
        · rw [h1, hc.1] at hw; exact h2 w (by simpa using hw)
      · simp [trimB, hc]
    · refine ⟨b, ?_, h2, ?_⟩
      · simp only [trimB, if_neg hc, List.cons_append]
        rw [← h1]
      · intro w hw
        simp only [trimB, if_neg hc] at hw
        cases ht : trimB vs with
        | nil =>
          rw [ht] at hw
          simp at hw; subst hw
          simpa [ht] using hc
        | cons x xs =>
          rw [ht, List.getLast?_cons_cons] at hw
          exact h3 w (by rw [ht]; exact hw)

theorem trimB_eq_nil {vs : List Value} : trimB vs = [] ↔ ∀ v ∈ vs, v.isBlank = true := by
  induction vs with
  | nil => simp [trimB]
  | cons v vs ih =>
    simp only [trimB, List.mem_cons, forall_eq_or_imp]
    rw [← ih]
    by_cases hc : trimB vs = [] ∧ v.isBlank = true
    · simp [hc]
    · simp only [if_neg hc]
      constructor
      · intro h; simp at h
      · rintro ⟨h1, h2⟩; exact absurd ⟨h2, h1⟩ hc

theorem trimB_of_last {vs : List Value} (h : ∀ v, vs.getLast? = some v → v.isBlank = false) :
    trimB vs = vs := by
  obtain ⟨b, h1, h2, -⟩ := trimB_spec vs
  cases hb : b.getLast? with
  | none =>
    rw [List.getLast?_eq_none_iff] at hb
    subst hb
    simpa using h1.symm
  | some v =>
    have : vs.getLast? = some v := by
      rw [h1, List.getLast?_append, hb]; rfl
    have h3 := h v this
    have h4 := h2 v (List.mem_of_getLast? hb)
    simp [h3] at h4

theorem kept_sublist (ms : Str) : (kept ms).Sublist (validValues ms) := by
  obtain ⟨b, h, -⟩ := trimB_spec (dedup .init (validValues ms))
  have h1 : (kept ms).Sublist (dedup .init (validValues ms)) := by
    conv => rhs; rw [h]
    exact List.sublist_append_left _ _
  exact h1.trans (dedup_sublist _ _)

theorem kept_inRange (ms : Str) : ∀ v ∈ kept ms, InRange v :=
  fun v hv => validValues_inRange ms v ((kept_sublist ms).subset hv)

/-! ### cutting canonical texts again -/

/-- no bracket inside -/
def plainB (s : Str) : Bool := s.all fun c => c != '[' && c != ']'

theorem plainB_iff (s : Str) : plainB s = true ↔ Plain s := by
  simp [plainB, Plain]

/-- a text span, not an escape -/
def isSpan : Value → Bool
  | .text t => plainB t
  | _ => false

/-- adjacent text spans become one -/
def joinSpan : Value → List Value → List Value
  | .text a, .text b :: r => if plainB a && plainB b then .text (a ++ b) :: r else .text a :: .text b :: r
  | v, r => v :: r

/-- adjacent text spans become one -/
def mergeT : List Value → List Value
  | [] => []
  | v :: vs => joinSpan v (mergeT vs)

theorem joinSpan_cases (v : Value) (r : List Value) :
    (∃ a b r', v = .text a ∧ r = .text b :: r' ∧ Plain a ∧ Plain b ∧ joinSpan v r = .text (a ++ b) :: r') ∨
    (joinSpan v r = v :: r ∧ ∀ w r', r = w :: r' → ¬ (isSpan v = true ∧ isSpan w = true)) := by
  unfold joinSpan
  split
  · rename_i a b r
    by_cases h : (plainB a && plainB b) = true
    · rw [if_pos h]
      rw [Bool.and_eq_true, plainB_iff, plainB_iff] at h
      exact .inl ⟨a, b, r, rfl, rfl, h.1, h.2, rfl⟩
    · rw [if_neg h]
      refine .inr ⟨rfl, ?_⟩
      rintro w r' ⟨⟩ ⟨h1, h2⟩
      simp only [isSpan] at h1 h2
      simp [h1, h2] at h
  · rename_i hx
    refine .inr ⟨rfl, ?_⟩
    rintro w r' rfl ⟨h1, h2⟩
    cases v <;> simp [isSpan] at h1
    cases w <;> simp [isSpan] at h2
    exact hx _ _ _ rfl rfl

/-- how a value is written -/
theorem display_shape (v : Value) (hv : InRange v) :
    (isSpan v = true ∧ ∃ t, v = .text t ∧ t ≠ [] ∧ Plain t ∧ v.display = t) ∨
    (isSpan v = false ∧ (v.display = c!"[[" ∨ v.display = c!"]]" ∨
      ∃ b, Plain b ∧ b ≠ [] ∧ v.display = '[' :: (b ++ [']']))) := by
  by_cases ht : ∃ t, v = .text t
  · obtain ⟨t, rfl⟩ := ht
    rcases text_display t hv with ⟨rfl, h⟩ | ⟨rfl, h⟩ | ⟨h1, h2, h3, h⟩
    · exact .inr ⟨rfl, .inl h⟩
    · exact .inr ⟨rfl, .inr (.inl h)⟩
    · exact .inl ⟨(plainB_iff t).2 h2, t, rfl, h1, h2, h⟩
  · have hsp : isSpan v = false := by
      cases v <;> first | rfl | exact absurd ⟨_, rfl⟩ ht
    refine .inr ⟨hsp, .inr (.inr ?_)⟩
    by_cases hc : ∃ c, v = .hexadecimalCharacter c
    · obtain ⟨c, rfl⟩ := hc
      exact ⟨'h' :: 'c' :: dec c.toNat, by simp [plain_cons, dec_plain], by simp, rfl⟩
    · obtain ⟨k, r, h1, h2, h3, h4⟩ := display_kind v ⟨hv, fun c h => absurd ⟨c, h⟩ hc⟩ fun t h => ht ⟨t, h⟩
      refine ⟨k.name ++ r, ?_, by cases k <;> simp [Kind.name], h1⟩
      rw [plain_append]
      exact ⟨by cases k <;> simp [Kind.name, plain_cons, plain_nil], h3⟩

theorem display_item (v : Value) (hv : InRange v) : Item v.display := by
  rcases display_shape v hv with ⟨-, t, -, h1, h2, h3⟩ | ⟨-, h | h | ⟨b, h1, -, h2⟩⟩
  · rw [h3]; exact .span t h1 h2
  · rw [h]; exact .escOpen
  · rw [h]; exact .escClose
  · rw [h2]; exact .tag b h1

theorem display_ne_nil (v : Value) (hv : InRange v) : v.display ≠ [] := item_ne_nil (display_item v hv)

theorem display_head (v : Value) (hv : InRange v) (h : isSpan v = false) (r : Str) :
    ∃ c, (v.display ++ r).head? = some c ∧ IsBracket c := by
  rcases display_shape v hv with ⟨h', -⟩ | ⟨-, h | h | ⟨b, h1, -, h2⟩⟩
  · simp [h] at h'
  · rw [h]; exact ⟨'[', rfl, .inl rfl⟩
  · rw [h]; exact ⟨']', rfl, .inr rfl⟩
  · rw [h2]; exact ⟨'[', rfl, .inl rfl⟩

/-- after the text of a value may follow anything but, after a text span, other text -/
theorem display_follows (v : Value) (hv : InRange v) (next : Option Char)
    (hn : isSpan v = true → ∀ c, next = some c → IsBracket c) : Follows v.display next := by
  rcases display_shape v hv with ⟨hs, t, -, h1, h2, h3⟩ | ⟨-, h | h | ⟨b, h1, -, h2⟩⟩
  · rw [h3]
    refine ⟨fun _ _ => hn hs, ?_, ?_⟩
    · rintro b rfl; exact absurd (h2 '[' (by simp)).1 (by simp)
    · rintro rfl; exact absurd (h2 ']' (by simp)).2 (by simp)
  · rw [h]
    refine ⟨fun _ hp => absurd (hp '[' (by simp)).1 (by simp), ?_, by simp⟩
    intro b hb hp
    simp at hb; subst hb
    exact absurd (hp '[' (by simp)).1 (by simp)
  · rw [h]
    exact ⟨fun _ hp => absurd (hp ']' (by simp)).2 (by simp), by simp, by simp⟩
  · rw [h2]
    refine ⟨fun _ hp => absurd (hp '[' (by simp)).1 (by simp), ?_, by simp⟩
    intro b' hb hp
    simp at hb; subst hb
    exact absurd (hp ']' (by simp)).2 (by simp)

theorem joinSpan_inRange {v : Value} {r : List Value} (hv : InRange v) (hr : ∀ w ∈ r, InRange w) :
    ∀ w ∈ joinSpan v r, InRange w := by
  rcases joinSpan_cases v r with ⟨a, b, r', rfl, rfl, ha, hb, h⟩ | ⟨h, -⟩
  · rw [h]
    intro w hw
    rcases List.mem_cons.1 hw with rfl | hw
    · rcases hv with rfl | rfl | ⟨h1, h2, h3⟩
      · exact absurd (ha '[' (by simp)).1 (by simp)
      · exact absurd (ha ']' (by simp)).2 (by simp)
      · rcases hr (.text b) (by simp) with rfl | rfl | ⟨h4, h5, h6⟩
        · exact absurd (hb '[' (by simp)).1 (by simp)
        · exact absurd (hb ']' (by simp)).2 (by simp)
        · refine .inr (.inr ⟨by simp [h1], plain_append.2 ⟨ha, hb⟩, ?_⟩)
          intro c hc
          rcases List.mem_append.1 hc with hc | hc
          · exact h3 c hc
          · exact h6 c hc
    · exact hr w (by simp [hw])
  · rw [h]
    intro w hw
    rcases List.mem_cons.1 hw with rfl | hw
    · exact hv
    · exact hr w hw

theorem mergeT_inRange {vs : List Value} (h : ∀ v ∈ vs, InRange v) : ∀ v ∈ mergeT vs, InRange v := by
  induction vs with
  | nil => simp [mergeT]
  | cons v vs ih =>
    exact joinSpan_inRange (h v (by simp)) (ih fun w hw => h w (by simp [hw]))

theorem display_span {a : Str} (h : Plain a) : (Value.text a).display = a := by
  simp only [Value.display]
  rw [doubleChar_plain '[' a fun c hc => (h c hc).1, doubleChar_plain ']' a fun c hc => (h c hc).2]

/-- an operation that does not see where text is divided is not changed by merging -/
theorem mergeT_flatMap {α : Type} (f : Value → List α)
    (hf : ∀ a b, Plain a → Plain b → f (.text (a ++ b)) = f (.text a) ++ f (.text b)) (vs : List Value) :
    (mergeT vs).flatMap f = vs.flatMap f := by
  induction vs with
  | nil => rfl
  | cons v vs ih =>
    rw [List.flatMap_cons, ← ih, mergeT]
    rcases joinSpan_cases v (mergeT vs) with ⟨a, b, r', rfl, hr, ha, hb, h⟩ | ⟨h, -⟩
    · rw [h, hr]; simp [hf a b ha hb]
    · rw [h]; simp

theorem mergeT_display (vs : List Value) :
    (mergeT vs).flatMap Value.display = vs.flatMap Value.display := by
  apply mergeT_flatMap
  intro a b ha hb
  rw [display_span ha, display_span hb, display_span (plain_append.2 ⟨ha, hb⟩)]

theorem joinSpan_isSpan (v : Value) (r : List Value) :
    ∃ w r', joinSpan v r = w :: r' ∧ isSpan w = isSpan v := by
  rcases joinSpan_cases v r with ⟨a, b, r', rfl, rfl, ha, hb, h⟩ | ⟨h, -⟩
  · refine ⟨_, _, h, ?_⟩
    simp only [isSpan]
    rw [(plainB_iff _).2 (plain_append.2 ⟨ha, hb⟩), (plainB_iff _).2 ha]
  · exact ⟨_, _, h, rfl⟩

theorem mergeT_cut {vs : List Value} (hv : ∀ v ∈ vs, InRange v) : Cut ((mergeT vs).map Value.display) := by
  induction vs with
  | nil => trivial
  | cons v vs ih =>
    have ih := ih fun w hw => hv w (by simp [hw])
    have hr := mergeT_inRange (vs := vs) fun w hw => hv w (by simp [hw])
    have hm := mergeT_inRange hv
    rw [mergeT] at hm ⊢
    rcases joinSpan_cases v (mergeT vs) with ⟨a, b, r', rfl, hx, ha, hb, h⟩ | ⟨h, hns⟩
    · rw [h] at hm ⊢
      rw [hx] at ih
      obtain ⟨-, i2, i3⟩ := ih
      refine ⟨display_item _ (hm _ (by simp)), ?_, i3⟩
      apply display_follows _ (hm _ (by simp))
      intro _ c hc
      have hbn : b ≠ [] := by
        have := hr (.text b) (by simp [hx])
        rcases this with rfl | rfl | h'
        · simp
        · simp
        · exact h'.1
      rw [display_span hb] at i2
      exact i2.1 hbn hb c hc
    · rw [h] at hm ⊢
      refine ⟨display_item _ (hm _ (by simp)), ?_, ih⟩
      apply display_follows _ (hm _ (by simp))
      intro hs c hc
      cases hmv : mergeT vs with
      | nil => rw [hmv] at hc; simp at hc
      | cons w r' =>
        have hw : isSpan w = false := by
          have := hns w r' hmv
          simp [hs] at this; exact this
        rw [hmv] at hc
        obtain ⟨d, hd, hdb⟩ := display_head w (hm w (by simp [hmv])) hw (r'.map Value.display).flatten
        rw [List.map_cons, List.flatten_cons, hd] at hc
        cases hc; exact hdb

/-- **the canonical texts of values, put together, are cut into these values again** except that
adjacent text spans become one -/
theorem slices_display {vs : List Value} (hv : ∀ v ∈ vs, InRange v) :
    slices (vs.flatMap Value.display) = (mergeT vs).map Value.display := by
  rw [← slices_of_cut (mergeT_cut hv), ← mergeT_display]
  simp [List.flatMap_def]

/-- reading a canonical text -/
theorem display_tryFrom (v : Value) (hv : InRange v) :
    tryFrom v.display = .ok (.ok v) ∨ ∃ c, v = .hexadecimalCharacter c ∧ 10 ≤ c.toNat ∧
      ((∃ c', tryFrom v.display = .ok (.ok (.hexadecimalCharacter c')) ) ∨
        (10000 ≤ c.toNat ∧ ∃ e, tryFrom v.display = .ok (.error e))) := by
  by_cases hc : ∀ c, v = .hexadecimalCharacter c → c.toNat < 10
  · exact .inl (display_parse v ⟨hv, hc⟩).2
  · have hc' : ∃ c, v = .hexadecimalCharacter c ∧ 10 ≤ c.toNat := by
      apply Classical.byContradiction
      intro hn
      apply hc
      intro c h
      apply Decidable.byContradiction
      intro h'
      exact hn ⟨c, h, by omega⟩
    obtain ⟨c, rfl, h10⟩ := hc'
    refine .inr ⟨c, rfl, h10, ?_⟩
    have e : (Value.hexadecimalCharacter c).display = '[' :: (Kind.hc.name ++ dec c.toNat ++ [']']) := rfl
    rw [e, tryFrom_kind .hc _ _ (kind_name_lower _) trivial (dec_plain _)]
    simp only [Kind.body]
    cases hx : parseHex16 (dec c.toNat) with
    | some c' => exact .inl ⟨c', rfl⟩
    | none =>
      refine .inr ⟨?_, _, rfl⟩
      apply Decidable.byContradiction
      intro hlt
      obtain ⟨c', h'⟩ := parseHex16_dec c.toNat (by omega)
      simp [hx] at h'

end Ntcip
