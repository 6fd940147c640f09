import Verif.Props.Normalize
import Verif.Props.Canonical
/-
C07 and C08: for which strings they hold.
-/
namespace Ntcip
open Spec

/-- the hexadecimal characters among values -/
def hexOf : Value → Option UInt16
  | .hexadecimalCharacter c => some c
  | _ => none

theorem hexOf_eq {v : Value} {c : UInt16} : hexOf v = some c ↔ v = .hexadecimalCharacter c := by
  cases v <;> simp [hexOf]

theorem hexOf_mergeT (vs : List Value) : (mergeT vs).filterMap hexOf = vs.filterMap hexOf := by
  induction vs with
  | nil => rfl
  | cons v vs ih =>
    rw [mergeT, List.filterMap_cons, ← ih]
    rcases joinSpan_cases v (mergeT vs) with ⟨a, b, r', rfl, hr, -, -, hj⟩ | ⟨hj, -⟩
    · rw [hj, hr]; rfl
    · rw [hj, List.filterMap_cons]

theorem hexOf_dedup (st : NormState) (vs : List Value) : (dedup st vs).filterMap hexOf = vs.filterMap hexOf := by
  induction vs generalizing st with
  | nil => rfl
  | cons v vs ih =>
    rw [dedup]
    split
    · rename_i h
      rw [ih]
      cases v <;> first | rfl | simp [NormState.update] at h
    · rw [List.filterMap_cons, List.filterMap_cons, ih]

theorem hexOf_trimB (vs : List Value) : (trimB vs).filterMap hexOf = vs.filterMap hexOf := by
  obtain ⟨b, h, h1, -⟩ := trimB_spec vs
  have hb : b.filterMap hexOf = [] := by
    rw [List.filterMap_eq_nil_iff]
    intro v hv
    have := h1 v hv
    cases v <;> first | rfl | simp [Value.isBlank] at this
  rw [show vs.filterMap hexOf = (trimB vs ++ b).filterMap hexOf from congrArg _ h, List.filterMap_append, hb,
    List.append_nil]

theorem hexOf_kept (ms : Str) : (mergeT (kept ms)).filterMap hexOf = (validValues ms).filterMap hexOf := by
  rw [hexOf_mergeT, kept, hexOf_trimB, hexOf_dedup]

theorem dec_inj {a b : Nat} (h : dec a = dec b) : a = b := by
  have := congrArg (digitsVal 10 0) h
  rw [digitsVal_dec, digitsVal_dec] at this
  exact Option.some.inj this

theorem hex_display_inj {a b : UInt16}
    (h : (Value.hexadecimalCharacter a).display = (Value.hexadecimalCharacter b).display) : a = b := by
  have h : '[' :: (Kind.hc.name ++ dec a.toNat ++ [']']) = '[' :: (Kind.hc.name ++ dec b.toNat ++ [']']) := h
  simp at h
  exact UInt16.toNat.inj (dec_inj h)

theorem display_inj {v w : Value} (hv : InRange v) (hw : InRange w) (h : v.display = w.display) : v = w := by
  rcases display_tryFrom v hv with h1 | ⟨a, rfl, h2, h1⟩ <;>
    rcases display_tryFrom w hw with h3 | ⟨b, rfl, h4, h3⟩
  · rw [h, h3] at h1; simpa using h1.symm
  · rw [h] at h1
    rcases h3 with ⟨c, h3⟩ | ⟨-, e, h3⟩
    · rw [h1] at h3
      simp at h3; subst h3
      rw [hex_display_inj h]
    · rw [h1] at h3; simp at h3
  · rw [h] at h1
    rcases h1 with ⟨c, h1⟩ | ⟨-, e, h1⟩
    · rw [h1] at h3
      simp at h3; subst h3
      rw [hex_display_inj h]
    · rw [h1] at h3; simp at h3
  · rw [hex_display_inj h]

theorem map_display_inj {a b : List Value} (ha : ∀ v ∈ a, InRange v) (hb : ∀ v ∈ b, InRange v)
    (h : a.map Value.display = b.map Value.display) : a = b := by
  induction a generalizing b with
  | nil => cases b <;> simp at h ⊢
  | cons v a ih =>
    cases b with
    | nil => simp at h
    | cons w b =>
      simp at h
      rw [display_inj (ha v (by simp)) (hb w (by simp)) h.1,
        ih (fun v hv => ha v (by simp [hv])) (fun v hv => hb v (by simp [hv])) h.2]

theorem filterMap_self {α : Type} {f : α → Option α} {l : List α} (h : l.filterMap f = l) :
    ∀ x ∈ l, f x = some x := by
  induction l with
  | nil => simp
  | cons x l ih =>
    cases hx : f x with
    | none =>
      rw [List.filterMap_cons_none hx] at h
      have := List.length_filterMap_le f l
      rw [h] at this
      simp at this
      omega
    | some y =>
      rw [List.filterMap_cons_some hx] at h
      simp at h
      intro z hz
      rcases List.mem_cons.1 hz with rfl | hz
      · rw [hx, h.1]
      · exact ih h.2 z hz

theorem hexOf_reread (vs : List Value) (hv : ∀ v ∈ vs, InRange v) :
    (vs.filterMap reread).filterMap hexOf =
      (vs.filterMap hexOf).filterMap fun c => (reread (.hexadecimalCharacter c)).bind hexOf := by
  induction vs with
  | nil => rfl
  | cons v vs ih =>
    have ih := ih fun w hw => hv w (by simp [hw])
    cases hx : hexOf v with
    | some c =>
      have := hexOf_eq.1 hx; subst this
      rw [List.filterMap_cons_some hx]
      cases hr : reread (.hexadecimalCharacter c) with
      | none =>
        rw [List.filterMap_cons_none hr, ih, List.filterMap_cons_none (by rw [hr]; rfl)]
      | some w =>
        rw [List.filterMap_cons_some hr, List.filterMap_cons, List.filterMap_cons, ih, hr]
        rfl
    | none =>
      have hr : reread v = some v := by
        rcases reread_cases v (hv v (by simp)) with h | ⟨c, rfl, -, -⟩
        · exact h
        · simp [hexOf] at hx
      rw [List.filterMap_cons_some hr, List.filterMap_cons_none hx, List.filterMap_cons_none hx, ih]

/-- **C07 (exactly)** normalizing the output of `normalize` again changes nothing if, and only if, the original
string has no hexadecimal character with two or more decimal digits. -/
theorem C07_iff (ms n : Str) (h : normalize ms = .ok n) : normalize n = .ok n ↔ SmallHex ms := by
  refine ⟨fun hn => ?_, C07_idempotent_partial ms n h⟩
  have hm := mergeT_inRange (kept_inRange ms)
  have e : mergeT (kept n) = mergeT (kept ms) :=
    map_display_inj (mergeT_inRange (kept_inRange n)) hm ((slices_normalize hn).symm.trans (slices_normalize h))
  have h1 := hexOf_kept n
  rw [e, hexOf_kept, valid_normalize h, hexOf_reread _ hm, hexOf_kept] at h1
  intro c hc
  have := filterMap_self h1.symm c (List.mem_filterMap.2 ⟨_, mem_validValues.2 hc, rfl⟩)
  apply (C06_hex_partial c).1
  cases hr : reread (.hexadecimalCharacter c) with
  | none => rw [hr] at this; simp at this
  | some w =>
    rw [hr] at this
    have := hexOf_eq.1 (show hexOf w = some c from this)
    subst this
    exact validOf_eq_some.1 hr

theorem hex_mem_kept {ms : Str} {c : UInt16} (h : .hexadecimalCharacter c ∈ validValues ms) :
    .hexadecimalCharacter c ∈ mergeT (kept ms) := by
  have : c ∈ (validValues ms).filterMap hexOf := List.mem_filterMap.2 ⟨_, h, rfl⟩
  rw [← hexOf_kept] at this
  obtain ⟨v, hv, e⟩ := List.mem_filterMap.1 this
  rwa [hexOf_eq.1 e] at hv

/-- decimal digits read as hexadecimal digits: as many digits -/
theorem digitsVal_hex_lower (f n : Nat) (h : n ≤ f) :
    ∃ m, digitsVal 16 0 (decAux f n) = some m ∧ ∀ k, 10 ^ k ≤ n → 16 ^ k ≤ m := by
  induction f generalizing n with
  | zero =>
    have : n = 0 := by omega
    subst this
    refine ⟨0, by decide, fun k hk => ?_⟩
    have := Nat.pow_pos (n := k) (show 0 < 10 by omega)
    omega
  | succ f ih =>
    simp only [decAux]
    split
    · rename_i hn
      refine ⟨n, by simp [digitsVal, digitVal_digitChar 16 n (by omega) (by omega)], fun k hk => ?_⟩
      cases k with
      | zero => simpa using hk
      | succ k =>
        rw [Nat.pow_succ] at hk
        have := Nat.pow_pos (n := k) (show 0 < 10 by omega)
        omega
    · obtain ⟨m, h1, h2⟩ := ih (n / 10) (by omega)
      refine ⟨m * 16 + n % 10, ?_, fun k hk => ?_⟩
      · rw [digitsVal_append, h1]
        simp [digitsVal, digitVal_digitChar 16 (n % 10) (by omega) (by omega)]
      · cases k with
        | zero =>
          have := h2 0 (by simp; omega)
          simp at this ⊢; omega
        | succ k =>
          rw [Nat.pow_succ] at hk ⊢
          have := h2 k (by omega)
          omega

theorem hex_display_invalid {c : UInt16} (h : 10000 ≤ c.toNat) (v : Value) :
    tryFrom (Value.hexadecimalCharacter c).display ≠ .ok (.ok v) := by
  have e : (Value.hexadecimalCharacter c).display = '[' :: (Kind.hc.name ++ dec c.toNat ++ [']']) := rfl
  rw [e, tryFrom_kind .hc _ _ (kind_name_lower _) trivial (dec_plain _)]
  simp only [Kind.body, parseHex16]
  rw [parseUInt_digits _ _ _ (dec_ne_nil _) (dec_head _)]
  obtain ⟨m, h1, h2⟩ := digitsVal_hex_lower c.toNat c.toNat (Nat.le_refl _)
  rw [show digitsVal 16 0 (dec c.toNat) = some m from h1]
  have := h2 4 (by omega)
  have hm : ¬ m ≤ 65535 := by omega
  simp [hm, orTagValue]

/-- **C08 (exactly)** every item of the output of `normalize` is valid if, and only if, the original string has no
hexadecimal character from 10000 (`[hc2710]`) up. -/
theorem C08_iff (ms n : Str) (h : normalize ms = .ok n) : (∀ x ∈ values n, ∃ v, x = .ok (.ok v)) ↔
    ∀ c, .ok (.ok (.hexadecimalCharacter c)) ∈ values ms → c.toNat < 10000 := by
  refine ⟨fun hn c hc => ?_, C08_well_formed_partial ms n h⟩
  apply Decidable.byContradiction
  intro hlt
  have hm := hex_mem_kept (mem_validValues.2 hc)
  obtain ⟨v, hv⟩ := hn (tryFrom (Value.hexadecimalCharacter c).display) (by
    rw [values, slices_normalize h]
    exact List.mem_map.2 ⟨_, List.mem_map.2 ⟨_, hm, rfl⟩, rfl⟩)
  exact hex_display_invalid (by omega) v hv

-- below and above both limits
example : normalize c!"[FO][hc9]A" = .ok c!"[hc9]A" ∧ SmallHex c!"[FO][hc9]A" := by
  refine ⟨by decide +kernel, fun c hc => ?_⟩
  have : values c!"[FO][hc9]A" =
    [.ok (.ok (.font none)), .ok (.ok (.hexadecimalCharacter 9)), .ok (.ok (.text c!"A"))] := by decide +kernel
  rw [this] at hc
  simp at hc
  rw [hc]; decide
example : normalize c!"[hcA]" = .ok c!"[hc10]" ∧ normalize c!"[hc10]" = .ok c!"[hc16]" ∧
    normalize c!"[hc270F]" = .ok c!"[hc9999]" ∧ normalize c!"[hc2710]" = .ok c!"[hc10000]" ∧
    tryFrom c!"[hc9999]" = .ok (.ok (.hexadecimalCharacter 0x9999)) ∧
    tryFrom c!"[hc10000]" = .ok (.error (.unsupportedTagValue c!"hc10000")) := by decide +kernel

end Ntcip
