import Verif.Spec.Tables
namespace Ntcip
open Spec

theorem divCeil_eq (a n : Nat) : n = divCeil a 8 ↔ BytesFor a n := by
  unfold divCeil BytesFor
  split <;> omega

theorem uniqueNumbers_nil {α} (num : α → Nat) : UniqueNumbers num [] := by
  intro i j a b h; simp at h

theorem uniqueNumbers_cons {α} (num : α → Nat) (a : α) (l : List α) :
    UniqueNumbers num (a :: l) ↔ (num a ≠ 0 → ∀ b ∈ l, num b ≠ num a) ∧ UniqueNumbers num l := by
  constructor
  · intro h
    refine ⟨?_, ?_⟩
    · intro h0 b hb he
      obtain ⟨j, hj⟩ := List.mem_iff_getElem?.1 hb
      have := h 0 (j + 1) a b (by simp) (by simpa using hj) h0 he.symm
      omega
    · intro i j x y hi hj h0 he
      have := h (i + 1) (j + 1) x y (by simpa using hi) (by simpa using hj) h0 he
      omega
  · rintro ⟨h1, h2⟩ i j x y hi hj h0 he
    cases i with
    | zero => cases j with
      | zero => rfl
      | succ j =>
        simp at hi hj; subst hi
        exact absurd he.symm (h1 h0 y (List.mem_iff_getElem?.2 ⟨j, hj⟩))
    | succ i => cases j with
      | zero =>
        simp at hi hj; subst hj
        exact absurd he (h1 (by omega) x (List.mem_iff_getElem?.2 ⟨i, hi⟩))
      | succ j =>
        simp at hi hj
        have := h2 i j x y hi hj h0 he
        omega

/-- an entry of a table with unique numbers is the one found under its number -/
theorem find?_of_unique {α} (num : α → Nat) (l : List α) (hu : UniqueNumbers num l) (p : α → Bool)
    (a : α) (ha : a ∈ l) (h0 : num a ≠ 0) (hp : ∀ x, p x = true ↔ num x = num a) :
    l.find? p = some a := by
  induction l with
  | nil => simp at ha
  | cons b l ih =>
    rw [uniqueNumbers_cons] at hu
    by_cases hb : num b = num a
    · have : b = a := by
        rcases List.mem_cons.1 ha with h | h
        · exact h.symm
        · exact absurd hb.symm (hu.1 (by omega) a h)
      subst this
      simp [(hp b).2 rfl]
    · have hpb : p b = false := by
        cases h : p b
        · rfl
        · exact absurd ((hp b).1 h) hb
      rw [List.find?_cons, hpb]
      apply ih hu.2
      rcases List.mem_cons.1 ha with h | h
      · subst h; exact absurd rfl hb
      · exact h

theorem u8_ne_zero (v : UInt8) : v > 0 ↔ v.toNat ≠ 0 := by
  rw [gt_iff_lt, UInt8.lt_iff_toNat_lt]
  show 0 < _ ↔ _
  omega

theorem u8_lt_one (v : UInt8) : v < 1 ↔ v.toNat = 0 := by
  rw [UInt8.lt_iff_toNat_lt]
  show _ < 1 ↔ _
  omega

theorem u16_ne_zero (v : UInt16) : v > 0 ↔ v.toNat ≠ 0 := by
  rw [gt_iff_lt, UInt16.lt_iff_toNat_lt]
  show 0 < _ ↔ _
  omega

theorem u16_lt_one (v : UInt16) : v < 1 ↔ v.toNat = 0 := by
  rw [UInt16.lt_iff_toNat_lt]
  show _ < 1 ↔ _
  omega

/-- replacing the first entry with a given number, as through `font_mut` / `graphic_mut` -/
def setFirst {α : Type} (num : α → Nat) (n : Nat) (g : α) : List α → Option (List α)
  | [] => none
  | a :: l => if num a = n then some (g :: l) else (setFirst num n g l).map (a :: ·)

theorem setFirst_none {α} (num : α → Nat) (n : Nat) (g : α) (l : List α) :
    setFirst num n g l = none ↔ ∀ a ∈ l, num a ≠ n := by
  induction l with
  | nil => simp [setFirst]
  | cons a l ih =>
    simp only [setFirst, List.forall_mem_cons, ← ih]
    split <;> simp [*]

theorem setFirst_mem {α} (num : α → Nat) (n : Nat) (g : α) (l l' : List α)
    (h : setFirst num n g l = some l') (x : α) (hx : x ∈ l') : x = g ∨ x ∈ l := by
  induction l generalizing l' with
  | nil => simp [setFirst] at h
  | cons a l ih =>
    simp only [setFirst] at h
    split at h
    · simp at h; subst h; simp at hx ⊢; grind
    · simp at h
      obtain ⟨r, hr, rfl⟩ := h
      rcases List.mem_cons.1 hx with rfl | hx
      · simp
      · have := ih r hr hx
        simp; grind

theorem setFirst_length {α} (num : α → Nat) (n : Nat) (g : α) (l l' : List α)
    (h : setFirst num n g l = some l') : l'.length = l.length := by
  induction l generalizing l' with
  | nil => simp [setFirst] at h
  | cons a l ih =>
    simp only [setFirst] at h
    split at h
    · simp at h; subst h; simp
    · simp at h
      obtain ⟨r, hr, rfl⟩ := h
      simp [ih r hr]

/-- the number of unused slots goes down by one when one of them gets a number -/
theorem setFirst_free {α} (num : α → Nat) (g : α) (hg : num g ≠ 0) (l l' : List α)
    (h : setFirst num 0 g l = some l') :
    (l'.countP (fun a => num a = 0)) + 1 = l.countP (fun a => num a = 0) := by
  induction l generalizing l' with
  | nil => simp [setFirst] at h
  | cons a l ih =>
    simp only [setFirst] at h
    split at h
    · rename_i h0
      simp at h; subst h; simp [hg, h0]
    · rename_i h0
      simp at h
      obtain ⟨r, hr, rfl⟩ := h
      simp [h0, ih r hr]

theorem setFirst_unique {α} (num : α → Nat) (n : Nat) (g : α) (l l' : List α)
    (hu : UniqueNumbers num l)
    (hg : num g = 0 ∨ num g = n ∨ ∀ a ∈ l, num a ≠ num g)
    (h : setFirst num n g l = some l') : UniqueNumbers num l' := by
  induction l generalizing l' with
  | nil => simp [setFirst] at h
  | cons a l ih =>
    rw [uniqueNumbers_cons] at hu
    simp only [setFirst] at h
    split at h
    · rename_i hn
      simp at h; subst h
      rw [uniqueNumbers_cons]
      refine ⟨?_, hu.2⟩
      intro h0 b hb
      rcases hg with hg | hg | hg
      · exact absurd hg h0
      · rw [hg, ← hn]; exact hu.1 (by omega) b hb
      · exact hg b (List.mem_cons_of_mem _ hb)
    · rename_i hn
      simp at h
      obtain ⟨r, hr, rfl⟩ := h
      rw [uniqueNumbers_cons]
      refine ⟨?_, ih r hu.2 ?_ hr⟩
      · intro h0 b hb
        rcases setFirst_mem _ _ _ _ _ hr b hb with rfl | hb
        · rcases hg with hg | hg | hg
          · omega
          · omega
          · exact fun h => hg a (by simp) h.symm
        · exact hu.1 h0 b hb
      · rcases hg with hg | hg | hg
        · exact .inl hg
        · exact .inr (.inl hg)
        · exact .inr (.inr (fun a ha => hg a (List.mem_cons_of_mem _ ha)))

theorem setFirst_find {α} (num : α → Nat) (n : Nat) (g : α) (l l' : List α)
    (hu : UniqueNumbers num l)
    (hg : num g = 0 ∨ num g = n ∨ ∀ a ∈ l, num a ≠ num g)
    (h : setFirst num n g l = some l') (m : Nat) (hm : m ≠ 0) :
    l'.find? (fun a => num a == m) =
      if m = num g then some g else if m = n then none else l.find? (fun a => num a == m) := by
  induction l generalizing l' with
  | nil => simp [setFirst] at h
  | cons a l ih =>
    rw [uniqueNumbers_cons] at hu
    simp only [setFirst] at h
    split at h
    · rename_i hn
      simp at h; subst h
      by_cases h1 : m = num g
      · simp [h1]
      · rw [List.find?_cons]
        have : (num g == m) = false := by simp; omega
        simp only [this, if_neg h1]
        split
        · rename_i h2
          rw [List.find?_eq_none]
          intro x hx
          simp
          have := hu.1 (by omega) x hx
          omega
        · rename_i h2
          rw [List.find?_cons]
          have : (num a == m) = false := by simp; omega
          rw [this]
    · rename_i hn
      simp at h
      obtain ⟨r, hr, rfl⟩ := h
      have ih' := ih r hu.2 (by
        rcases hg with hg | hg | hg
        · exact .inl hg
        · exact .inr (.inl hg)
        · exact .inr (.inr (fun a ha => hg a (List.mem_cons_of_mem _ ha)))) hr
      rw [List.find?_cons, List.find?_cons]
      by_cases h1 : num a = m
      · have e : (num a == m) = true := by simpa using h1
        simp only [e]
        have : m ≠ num g := by
          rcases hg with hg | hg | hg
          · omega
          · omega
          · have := hg a (by simp); omega
        rw [if_neg this, if_neg (by omega)]
      · have e : (num a == m) = false := by simpa using h1
        simp only [e, ih']

end Ntcip
