import Verif.Lemmas.Dispatch
/-
`Value::try_from` on the items of a MULTI string.
-/
namespace Ntcip
open Spec

theorem asciiLower_eq_toLower (c : Char) : asciiLower c = c.toLower := by
  unfold asciiLower Char.toLower
  have e : ('A' ≤ c ∧ c ≤ 'Z') ↔ (c.val ≥ 'A'.val ∧ c.val ≤ 'Z'.val) := Iff.rfl
  by_cases h : 'A' ≤ c ∧ c ≤ 'Z'
  · rw [if_pos h, dif_pos (e.1 h)]
    apply Char.ext
    have h1 : 65 ≤ c.toNat := h.1
    have h2 : c.toNat ≤ 90 := h.2
    apply UInt32.toNat_inj.1
    have key : ∀ n : Fin 26, (Char.ofNat (n.val + 65 + 32)).toNat = n.val + 65 + 32 := by decide +kernel
    have := key ⟨c.toNat - 65, by omega⟩
    rw [show c.toNat - 65 + 65 = c.toNat by omega] at this
    have e2 : (Char.ofNat (c.toNat + 32)).val.toNat = c.toNat + 32 := this
    rw [e2]
    have e3 : c.val.toNat = c.toNat := rfl
    have e4 : ('a'.val - 'A'.val).toNat = 32 := by decide
    rw [UInt32.toNat_add, e3, e4]; omega
  · rw [if_neg h, dif_neg (mt e.2 h)]

theorem tryFrom_tag (b : Str) (hb : Plain b) : tryFrom ('[' :: (b ++ [']'])) = parseTag b := by
  have h1 : ¬ ('[' :: (b ++ [']']) = c!"[[" ∨ '[' :: (b ++ [']']) = c!"]]") := by
    cases b with
    | nil => simp
    | cons c b => simp
  unfold tryFrom
  rw [if_neg h1, if_pos (by simp [List.getLast?_cons])]
  simp

theorem tryFrom_esc : tryFrom c!"[[" = .ok (.ok (.text c!"[")) ∧
    tryFrom c!"]]" = .ok (.ok (.text c!"]")) := ⟨by decide, by decide⟩

theorem tryFrom_span (t : Str) (hn : t ≠ []) (hp : Plain t) :
    tryFrom t = if t.any (fun c => !validChar c) then .ok (.error (.other "Invalid code point"))
      else .ok (.ok (.text t)) := by
  cases t with
  | nil => simp at hn
  | cons c t =>
    have hc := (plain_cons.1 hp).1
    unfold tryFrom
    rw [if_neg (by simp [hc.1, hc.2]), if_neg (by simp [hc.1]), if_neg (by simp [hc.1, hc.2])]

theorem tryFrom_stray : tryFrom c!"]" = .ok (.error (.unsupportedTag c!"]")) := by decide

theorem tryFrom_frag (b : Str) (hb : Plain b) :
    tryFrom ('[' :: b) = .ok (.error (.unsupportedTag ('[' :: b))) := by
  unfold tryFrom
  rw [if_neg, if_neg, if_pos (by simp)]
  · rintro ⟨-, h⟩
    cases hb' : b.getLast? with
    | none =>
      have : b = [] := List.getLast?_eq_none_iff.1 hb'
      subst this; simp at h
    | some c =>
      have hm := List.mem_of_getLast? hb'
      rw [List.getLast?_cons, hb'] at h
      simp at h
      exact (hb c hm).2 h
  · cases b with
    | nil => simp
    | cons c b => have := (plain_cons.1 hb).1; simp [this.1]

/-- a tag and what it means -/
theorem tryFrom_kind (k : Kind) (pre r : Str) (h : pre.map asciiLower = k.name) (hk : k.Ok r)
    (hp : Plain r) :
    tryFrom ('[' :: (pre ++ r ++ [']'])) = orTagValue (pre ++ r) (k.body r) := by
  rw [tryFrom_tag, parseTag_kind k pre r h hk]
  rw [plain_append]
  refine ⟨?_, hp⟩
  intro c hc
  have hm : asciiLower c ∈ k.name := by rw [← h]; exact List.mem_map_of_mem hc
  have : ∀ d ∈ k.name, d ≠ '[' ∧ d ≠ ']' := by cases k <;> decide
  have hd := this _ hm
  have e1 : asciiLower '[' = '[' := by decide
  have e2 : asciiLower ']' = ']' := by decide
  constructor
  · rintro rfl; exact hd.1 e1
  · rintro rfl; exact hd.2 e2

/-- where a valid value comes from -/
theorem tryFrom_ok {t : Str} {v : Value} (ht : Item t) (h : tryFrom t = .ok (.ok v)) :
    (t = c!"[[" ∧ v = .text c!"[") ∨ (t = c!"]]" ∧ v = .text c!"]") ∨
    (v = .text t ∧ t ≠ [] ∧ Plain t ∧ t.any (fun c => !validChar c) = false) ∨
    ∃ (k : Kind) (pre r : Str), t = '[' :: (pre ++ r ++ [']']) ∧ pre.map asciiLower = k.name ∧ k.Ok r ∧ Plain r ∧
      k.body r = .ok (some v) := by
  cases ht with
  | escOpen => rw [tryFrom_esc.1] at h; cases h; exact .inl ⟨rfl, rfl⟩
  | escClose => rw [tryFrom_esc.2] at h; cases h; exact .inr (.inl ⟨rfl, rfl⟩)
  | span _ hn hp =>
    rw [tryFrom_span t hn hp] at h
    cases hb : t.any (fun c => !validChar c)
    · simp only [hb, Bool.false_eq_true, if_false, Res.ok.injEq, Except.ok.injEq] at h
      exact .inr (.inr (.inl ⟨h.symm, hn, hp, rfl⟩))
    · simp [hb] at h
  | stray => rw [tryFrom_stray] at h; cases h
  | frag b hb => rw [tryFrom_frag b hb] at h; cases h
  | tag b hb =>
    right; right; right
    rw [tryFrom_tag b hb] at h
    rcases parseTag_cases b with ⟨k, pre, r, rfl, hp, hk⟩ | ⟨h2, -⟩
    · rw [parseTag_kind k pre r hp hk] at h
      refine ⟨k, pre, r, rfl, hp, hk, (plain_append.1 hb).2, ?_⟩
      cases hbd : k.body r with
      | panic p => rw [hbd] at h; cases h
      | ok o => cases o with
        | none => rw [hbd] at h; cases h
        | some v' => rw [hbd] at h; cases h; rfl
    · rw [h2] at h; cases h

end Ntcip
