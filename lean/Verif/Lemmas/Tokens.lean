import Verif.Model.Multi
import Verif.Spec.Tokens
/-
Tokenizing: `slices` computes the one and only correct cut of a string.
-/
namespace Ntcip
open Spec

theorem plain_nil : Plain [] := by simp [Plain]
theorem plain_cons {c : Char} {s : Str} : Plain (c :: s) ↔ (c ≠ '[' ∧ c ≠ ']') ∧ Plain s := by
  simp [Plain]
theorem plain_append {a b : Str} : Plain (a ++ b) ↔ Plain a ∧ Plain b := by
  simp only [Plain, List.mem_append, or_imp, forall_and]
  grind

/-- plain characters are stepped over -/
theorem scan_plain (opn : Bool) (p r : Str) (i : Nat) (hp : Plain p) :
    scan opn i (p ++ r) = scan opn (i + p.length) r := by
  induction p generalizing i with
  | nil => simp
  | cons c p ih =>
    obtain ⟨⟨h1, h2⟩, hp⟩ := plain_cons.1 hp
    simp only [List.cons_append, List.length_cons, scan, h1, h2, false_and, if_false]
    rw [ih _ hp]; congr 1; omega

theorem item_ne_nil {t : Str} (h : Item t) : t ≠ [] := by
  cases h <;> simp_all

theorem scan_opn_frag {b r : Str} (hb : Plain b)
    (hr : ∀ c, r.head? = some c → c = '[') (hbn : b = [] → r = []) :
    scan true 0 ('[' :: (b ++ r)) = if r = [] then none else some (b.length + 1) := by
  rw [scan]
  simp only [Nat.lt_irrefl, and_false, if_false, show ('[' = ']') = False by decide, gt_iff_lt]
  rw [scan_plain _ _ _ _ hb]
  cases r with
  | nil => simp [scan]
  | cons c r =>
    have := hr c (by simp); subst this
    simp [scan, Nat.add_comm]

/-- a well-shaped item followed by something allowed is what `nextSlice` takes -/
theorem nextSlice_item {t r : Str} (ht : Item t) (hf : Follows t r.head?) :
    nextSlice (t ++ r) = some (t, r) := by
  obtain ⟨f1, f2, f3⟩ := hf
  cases ht with
  | escOpen => simp [nextSlice]
  | escClose => simp [nextSlice]
  | tag b hb =>
    have h1 : ((('[' :: (b ++ [']'])) ++ r).take 2 = c!"[[" ∨
        (('[' :: (b ++ [']'])) ++ r).take 2 = c!"]]") = False := by
      cases b with
      | nil => simp
      | cons c b => have := (plain_cons.1 hb).1; simp [this.1]
    have h2 : scan true 0 (('[' :: (b ++ [']'])) ++ r) = some (b.length + 2) := by
      rw [List.cons_append, scan, List.append_assoc]
      simp only [Nat.lt_irrefl, and_false, if_false, show ('[' = ']') = False by decide, gt_iff_lt]
      rw [scan_plain _ _ _ _ hb]
      simp [scan]; omega
    simp only [nextSlice, h1, if_false]
    rw [show decide ((('[' :: (b ++ [']'])) ++ r).head? = some '[') = true by simp, h2]
    simp [List.take_append, List.drop_append, List.take_of_length_le]
  | span _ hn hp =>
    cases t with
    | nil => simp at hn
    | cons c t =>
      have hc := (plain_cons.1 hp).1
      have h1 : ((c :: t ++ r).take 2 = c!"[[" ∨ (c :: t ++ r).take 2 = c!"]]") = False := by
        simp [hc.1, hc.2]
      simp only [nextSlice, h1, if_false]
      rw [show decide ((c :: t ++ r).head? = some '[') = false by simp [hc.1], scan_plain _ _ _ _ hp]
      cases r with
      | nil => simp [scan]
      | cons d r =>
        have hd := f1 (by simp) hp d (by simp)
        rcases hd with hd | hd <;> subst hd <;> simp [scan]
  | stray =>
    have h1 : (([']'] ++ r).take 2 = c!"[[" ∨ ([']'] ++ r).take 2 = c!"]]") = False := by
      cases r with
      | nil => simp
      | cons d r => simpa using f3 rfl
    simp only [nextSlice, h1, if_false]
    simp [scan]
  | frag b hb =>
    have h0 : b = [] → r = [] := by
      intro h; cases r with
      | nil => rfl
      | cons d r => have := f2 b rfl hb d (by simp); simp [h] at this
    have h1 : (('[' :: b ++ r).take 2 = c!"[[" ∨ ('[' :: b ++ r).take 2 = c!"]]") = False := by
      cases b with
      | nil => simp [h0 rfl]
      | cons c b => have := (plain_cons.1 hb).1; simp [this.1]
    simp only [nextSlice, h1, if_false]
    rw [show decide (('[' :: b ++ r).head? = some '[') = true by simp, List.cons_append,
      scan_opn_frag hb (fun c hc => (f2 b rfl hb c hc).2) h0]
    by_cases hr : r = []
    · simp [hr]
    · simp [hr]

/-- longest plain prefix -/
theorem exists_plain_prefix (s : Str) : ∃ p r, s = p ++ r ∧ Plain p ∧
    (∀ c, r.head? = some c → IsBracket c) := by
  induction s with
  | nil => exact ⟨[], [], rfl, plain_nil, by simp⟩
  | cons c s ih =>
    by_cases h : IsBracket c
    · exact ⟨[], c :: s, rfl, plain_nil, by simpa using h⟩
    · obtain ⟨p, r, rfl, hp, hr⟩ := ih
      simp only [IsBracket, not_or] at h
      exact ⟨c :: p, r, rfl, plain_cons.2 ⟨h, hp⟩, hr⟩

/-- every non-empty string begins with an item -/
theorem exists_item (s : Str) (hs : s ≠ []) :
    ∃ t r, s = t ++ r ∧ Item t ∧ Follows t r.head? := by
  cases s with
  | nil => simp at hs
  | cons c s =>
    by_cases h1 : c = '['
    · subst h1
      obtain ⟨p, r, rfl, hp, hr⟩ := exists_plain_prefix s
      cases r with
      | nil =>
        refine ⟨'[' :: p, [], by simp, .frag p hp, ?_, ?_, ?_⟩ <;> simp
      | cons d r =>
        have hd := hr d (by simp)
        by_cases hd1 : d = '['
        · subst hd1
          by_cases hp0 : p = []
          · subst hp0
            refine ⟨_, r, by simp, .escOpen, ?_, ?_, ?_⟩ <;> simp [Plain]
          · refine ⟨'[' :: p, '[' :: r, by simp, .frag p hp, ?_, ?_, ?_⟩
            · simp [Plain]
            · rintro b hb _ c hc; simp at hb hc; subst hb hc; exact ⟨hp0, rfl⟩
            · simp
        · have : d = ']' := hd.resolve_left hd1
          subst this
          refine ⟨'[' :: (p ++ [']']), r, by simp, .tag p hp, ?_, ?_, ?_⟩
          · simp [Plain]
          · rintro b hb hb2; simp at hb; subst hb; exact absurd rfl (hb2 ']' (by simp)).2
          · simp
    · by_cases h2 : c = ']'
      · subst h2
        by_cases h3 : s.head? = some ']'
        · cases s with
          | nil => simp at h3
          | cons d s =>
            simp at h3; subst h3
            refine ⟨_, s, by simp, .escClose, ?_, ?_, ?_⟩ <;> simp [Plain]
        · refine ⟨[']'], s, by simp, .stray, ?_, ?_, ?_⟩
          · simp [Plain]
          · simp
          · exact fun _ => h3
      · obtain ⟨p, r, rfl, hp, hr⟩ := exists_plain_prefix s
        have hpl : Plain (c :: p) := plain_cons.2 ⟨⟨h1, h2⟩, hp⟩
        refine ⟨c :: p, r, by simp, .span _ (by simp) hpl, ?_, ?_, ?_⟩
        · exact fun _ _ => hr
        · rintro b hb; simp [h1] at hb
        · simp [h2]

theorem nextSlice_nil : nextSlice [] = none := by simp [nextSlice, scan]

/-- what `nextSlice` does on a non-empty string -/
theorem nextSlice_spec (s : Str) (hs : s ≠ []) :
    ∃ t r, nextSlice s = some (t, r) ∧ s = t ++ r ∧ Item t ∧ Follows t r.head? := by
  obtain ⟨t, r, rfl, ht, hf⟩ := exists_item s hs
  exact ⟨t, r, nextSlice_item ht hf, rfl, ht, hf⟩

/-- more fuel than characters makes no difference -/
theorem slicesAux_fuel (n : Nat) (s : Str) (h : s.length ≤ n) : slicesAux n s = slicesAux s.length s := by
  induction n using Nat.strongRecOn generalizing s with
  | ind n ih =>
  cases s with
  | nil => cases n <;> simp [slicesAux, nextSlice_nil]
  | cons c s =>
    cases n with
    | zero => simp at h
    | succ n =>
      obtain ⟨t, r, hn, hs, ht, -⟩ := nextSlice_spec (c :: s) (by simp)
      have hlen : r.length ≤ s.length := by
        have := congrArg List.length hs
        have := List.length_pos_iff.2 (item_ne_nil ht)
        simp at *; omega
      simp only [List.length_cons, slicesAux, hn]
      simp only [List.length_cons] at h
      by_cases hns : n = s.length
      · subst hns; rfl
      · rw [ih n (by omega) r (by omega), ih s.length (by omega) r (by omega)]

theorem slices_nil : slices [] = [] := by simp [slices, slicesAux]

/-- `slices` of an item followed by the rest -/
theorem slices_item {t r : Str} (ht : Item t) (hf : Follows t r.head?) :
    slices (t ++ r) = t :: slices r := by
  have hpos := List.length_pos_iff.2 (item_ne_nil ht)
  obtain ⟨n, hn⟩ : ∃ n, (t ++ r).length = n + 1 := ⟨(t ++ r).length - 1, by simp; omega⟩
  rw [slices, hn, slicesAux, nextSlice_item ht hf]
  simp only [slices]
  rw [slicesAux_fuel n r (by simp at hn; omega)]

/-- induction along the slices of a string -/
theorem slices_induction {P : Str → Prop} (h0 : P [])
    (h1 : ∀ t r, Item t → Follows t r.head? → P r → P (t ++ r)) (s : Str) : P s := by
  generalize hn : s.length = n
  induction n using Nat.strongRecOn generalizing s with
  | ind n ih =>
  by_cases hs : s = []
  · subst hs; exact h0
  · obtain ⟨t, r, rfl, ht, hf⟩ := exists_item s hs
    have := List.length_pos_iff.2 (item_ne_nil ht)
    exact h1 t r ht hf (ih r.length (by simp at hn; omega) r rfl)

theorem slices_flatten (s : Str) : (slices s).flatten = s := by
  induction s using slices_induction with
  | h0 => simp [slices_nil]
  | h1 t r ht hf ih => rw [slices_item ht hf]; simp [ih]

theorem slices_cut (s : Str) : Cut (slices s) := by
  induction s using slices_induction with
  | h0 => simp [slices_nil, Cut]
  | h1 t r ht hf ih =>
    rw [slices_item ht hf]
    exact ⟨ht, by rwa [slices_flatten], ih⟩

/-- the correct cut is unique -/
theorem slices_of_cut {toks : List Str} (h : Cut toks) : slices toks.flatten = toks := by
  induction toks with
  | nil => simp [slices_nil]
  | cons t rest ih =>
    obtain ⟨h1, h2, h3⟩ := h
    simp only [List.flatten_cons]
    rw [slices_item h1 h2, ih h3]

theorem slices_items (s : Str) : ∀ t ∈ slices s, Item t := by
  induction s using slices_induction with
  | h0 => simp [slices_nil]
  | h1 t r ht hf ih =>
    rw [slices_item ht hf]
    intro x hx
    rcases List.mem_cons.1 hx with rfl | hx
    · exact ht
    · exact ih x hx

end Ntcip
