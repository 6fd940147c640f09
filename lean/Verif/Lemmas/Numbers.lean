import Verif.Lemmas.Tokens
/-
Writing and reading numbers, cutting at separators.
-/
namespace Ntcip

/-- `c` is an ASCII decimal digit -/
def Spec.IsDigit (c : Char) : Prop := 48 ≤ c.toNat ∧ c.toNat ≤ 57

instance (c : Char) : Decidable (Spec.IsDigit c) := inferInstanceAs (Decidable (_ ∧ _))

/-- `c` is an ASCII digit or lower-case hexadecimal letter -/
def Spec.IsHexDigit (c : Char) : Prop := Spec.IsDigit c ∨ (97 ≤ c.toNat ∧ c.toNat ≤ 102)

instance (c : Char) : Decidable (Spec.IsHexDigit c) := inferInstanceAs (Decidable (_ ∨ _))

theorem digitChar_toNat (n : Nat) (h : n < 16) :
    (digitChar n).toNat = if n < 10 then 48 + n else 87 + n := by
  have : ∀ n : Fin 16, (digitChar n.val).toNat = if n.val < 10 then 48 + n.val else 87 + n.val := by
    decide +kernel
  exact this ⟨n, h⟩

theorem digitChar_isDigit (n : Nat) (h : n < 10) : Spec.IsDigit (digitChar n) := by
  have := digitChar_toNat n (by omega)
  rw [if_pos h] at this
  unfold Spec.IsDigit; omega

theorem digitChar_isHexDigit (n : Nat) (h : n < 16) : Spec.IsHexDigit (digitChar n) := by
  have := digitChar_toNat n h
  unfold Spec.IsHexDigit Spec.IsDigit
  split at this <;> omega

theorem digitVal_digitChar (radix n : Nat) (h : n < radix) (hr : radix ≤ 16) :
    digitVal radix (digitChar n) = some n := by
  have hn := digitChar_toNat n (by omega)
  have key : (if 48 ≤ (digitChar n).toNat ∧ (digitChar n).toNat ≤ 57 then some ((digitChar n).toNat - 48)
           else if 97 ≤ (digitChar n).toNat ∧ (digitChar n).toNat ≤ 102 then some ((digitChar n).toNat - 87)
           else if 65 ≤ (digitChar n).toNat ∧ (digitChar n).toNat ≤ 70 then some ((digitChar n).toNat - 55)
           else none) = some n := by
    split at hn
    · rw [if_pos (by omega)]; congr 1; omega
    · rw [if_neg (by omega), if_pos (by omega)]; congr 1; omega
  simp only [digitVal, key, h, if_true]

theorem digitVal_ten (c : Char) :
    digitVal 10 c = if Spec.IsDigit c then some (c.toNat - 48) else none := by
  unfold digitVal
  simp only
  by_cases h : 48 ≤ c.toNat ∧ c.toNat ≤ 57
  · have h' : Spec.IsDigit c := h
    rw [if_pos h, if_pos h']; simp only; rw [if_pos (by omega)]
  · have h' : ¬ Spec.IsDigit c := h
    rw [if_neg h, if_neg h']
    by_cases h2 : 97 ≤ c.toNat ∧ c.toNat ≤ 102
    · rw [if_pos h2]; simp only; rw [if_neg (by omega)]
    · rw [if_neg h2]
      by_cases h3 : 65 ≤ c.toNat ∧ c.toNat ≤ 70
      · rw [if_pos h3]; simp only; rw [if_neg (by omega)]
      · rw [if_neg h3]

theorem digitsVal_append (radix acc : Nat) (a b : Str) :
    digitsVal radix acc (a ++ b) = (digitsVal radix acc a).bind fun v => digitsVal radix v b := by
  induction a generalizing acc with
  | nil => simp [digitsVal]
  | cons c a ih =>
    simp only [List.cons_append, digitsVal]
    cases digitVal radix c <;> simp [ih]

theorem decAux_spec (f n : Nat) (h : n ≤ f) :
    decAux f n ≠ [] ∧ (∀ c ∈ decAux f n, Spec.IsDigit c) ∧ digitsVal 10 0 (decAux f n) = some n := by
  induction f generalizing n with
  | zero =>
    have : n = 0 := by omega
    subst this
    refine ⟨by simp [decAux], ?_, by decide⟩
    intro c hc
    simp only [decAux, List.mem_singleton] at hc
    rw [hc]; exact digitChar_isDigit _ (by omega)
  | succ f ih =>
    rw [decAux]
    split
    · rename_i hn
      refine ⟨by simp, ?_, ?_⟩
      · intro c hc; rw [List.mem_singleton.1 hc]; exact digitChar_isDigit _ hn
      · simp [digitsVal, digitVal_digitChar 10 n hn (by omega)]
    · obtain ⟨h1, h2, h3⟩ := ih (n / 10) (by omega)
      refine ⟨by simp, ?_, ?_⟩
      · intro c hc
        rcases List.mem_append.1 hc with hc | hc
        · exact h2 c hc
        · rw [List.mem_singleton.1 hc]; exact digitChar_isDigit _ (by omega)
      · rw [digitsVal_append, h3]
        simp [digitsVal, digitVal_digitChar 10 (n % 10) (by omega) (by omega)]
        omega

theorem dec_ne_nil (n : Nat) : dec n ≠ [] := (decAux_spec n n (Nat.le_refl _)).1
theorem dec_digits (n : Nat) : ∀ c ∈ dec n, Spec.IsDigit c := (decAux_spec n n (Nat.le_refl _)).2.1
theorem digitsVal_dec (n : Nat) : digitsVal 10 0 (dec n) = some n :=
  (decAux_spec n n (Nat.le_refl _)).2.2

theorem isDigit_ne {c d : Char} (h : Spec.IsDigit c) (hd : ¬ Spec.IsDigit d) : c ≠ d := by
  rintro rfl; exact hd h

/-- parsing digits that do not begin with `+` -/
theorem parseUInt_digits (radix max : Nat) (s : Str) (hne : s ≠ []) (hp : s.head? ≠ some '+') :
    parseUInt radix max s = (digitsVal radix 0 s).bind fun v => if v ≤ max then some v else none := by
  cases s with
  | nil => simp at hne
  | cons c s =>
    have hc : c ≠ '+' := by simpa using hp
    unfold parseUInt
    split
    · rename_i h; simp at h; exact absurd h.1 hc
    · simp only
      cases digitsVal radix 0 (c :: s) <;> simp

theorem dec_head (n : Nat) : (dec n).head? ≠ some '+' := by
  intro h
  have := dec_digits n '+' (List.mem_of_mem_head? h)
  revert this; decide

theorem parseUInt_dec (max n : Nat) (h : n ≤ max) : parseUInt 10 max (dec n) = some n := by
  rw [parseUInt_digits _ _ _ (dec_ne_nil n) (dec_head n), digitsVal_dec]
  simp [h]

theorem parseU8_dec (v : UInt8) : parseU8 (dec v.toNat) = some v := by
  have := v.toNat_lt
  simp [parseU8, parseUInt_dec 255 v.toNat (by omega)]
theorem parseU16_dec (v : UInt16) : parseU16 (dec v.toNat) = some v := by
  have := v.toNat_lt
  simp [parseU16, parseUInt_dec 65535 v.toNat (by omega)]
theorem parseU32_dec (v : UInt32) : parseU32 (dec v.toNat) = some v := by
  have := v.toNat_lt
  simp [parseU32, parseUInt_dec 4294967295 v.toNat (by omega)]

theorem hex04_hexDigits (n : Nat) : ∀ c ∈ hex04 n, Spec.IsHexDigit c := by
  intro c hc
  simp only [hex04, List.mem_cons, List.not_mem_nil, or_false] at hc
  rcases hc with rfl | rfl | rfl | rfl <;> exact digitChar_isHexDigit _ (by omega)

theorem parseHex16_hex04 (v : UInt16) : parseHex16 (hex04 v.toNat) = some v := by
  have hv := v.toNat_lt
  have hh : (hex04 v.toNat).head? ≠ some '+' := by
    intro h
    have := hex04_hexDigits _ _ (List.mem_of_mem_head? h)
    revert this; decide
  have hd : digitsVal 16 0 (hex04 v.toNat) = some v.toNat := by
    simp only [hex04, digitsVal]
    rw [digitVal_digitChar 16 _ (by omega) (by omega)]; simp only
    rw [digitVal_digitChar 16 _ (by omega) (by omega)]; simp only
    rw [digitVal_digitChar 16 _ (by omega) (by omega)]; simp only
    rw [digitVal_digitChar 16 _ (by omega) (by omega)]; simp only
    congr 1; omega
  rw [parseHex16, parseUInt_digits _ _ _ (by simp [hex04]) hh, hd]
  simp [show v.toNat ≤ 65535 by omega]

theorem utf8Size_ascii (c : Char) : c.utf8Size = 1 ↔ c.toNat < 128 := by
  unfold Char.utf8Size Char.toNat
  have e : c.val.toNat < 128 ↔ c.val ≤ UInt32.ofNatLT 127 (by decide) := by
    rw [UInt32.le_iff_toNat_le]
    have : (UInt32.ofNatLT 127 (by decide)).toNat = 127 := rfl
    omega
  rw [e]
  simp only
  split
  · rename_i h; exact ⟨fun _ => h, fun _ => rfl⟩
  · simp only [*, iff_false]; (repeat' split) <;> omega

theorem utf8Size_pos (c : Char) : 0 < c.utf8Size := Char.utf8Size_pos c

theorem blen_append (a b : Str) : blen (a ++ b) = blen a + blen b := by
  induction a with
  | nil => simp [blen]
  | cons c a ih => simp [blen, ih]; omega

theorem blen_ascii (s : Str) (h : ∀ c ∈ s, c.toNat < 128) : blen s = s.length := by
  induction s with
  | nil => rfl
  | cons c s ih =>
    simp only [blen, List.length_cons]
    rw [ih (fun c hc => h c (by simp [hc])), (utf8Size_ascii c).2 (h c (by simp))]; omega

theorem blen_hex04 (n : Nat) : blen (hex04 n) = 4 := by
  rw [blen_ascii]
  · rfl
  · intro c hc
    have := hex04_hexDigits n c hc
    unfold Spec.IsHexDigit Spec.IsDigit at this; omega

theorem blen_pos {s : Str} (h : s ≠ []) : 0 < blen s := by
  cases s with
  | nil => simp at h
  | cons c s => have := utf8Size_pos c; simp [blen]; omega

theorem blen_eq_zero {s : Str} : blen s = 0 ↔ s = [] := by
  constructor
  · intro h; cases s with
    | nil => rfl
    | cons c s => have := utf8Size_pos c; simp [blen] at h; omega
  · rintro rfl; rfl

/-! slices after ASCII characters -/

theorem sliceFrom_zero (s : Str) : sliceFrom 0 s = .ok s := by cases s <;> simp [sliceFrom]

theorem sliceFrom_ascii (k : Nat) (c : Char) (s : Str) (h : c.toNat < 128) :
    sliceFrom (k + 1) (c :: s) = sliceFrom k s := by
  rw [sliceFrom, if_neg (by omega), if_pos (by rw [(utf8Size_ascii c).2 h]; omega),
    (utf8Size_ascii c).2 h]
  rfl

theorem sliceTo_zero (s : Str) : sliceTo 0 s = .ok [] := by cases s <;> simp [sliceTo]

theorem sliceTo_ascii (k : Nat) (c : Char) (s : Str) (h : c.toNat < 128) :
    sliceTo (k + 1) (c :: s) = (sliceTo k s).map' (c :: ·) := by
  rw [sliceTo, if_neg (by omega), if_pos (by rw [(utf8Size_ascii c).2 h]; omega),
    (utf8Size_ascii c).2 h]
  rfl

theorem slice_one (c : Char) (s : Str) :
    (c.toNat < 128 → sliceFrom 1 (c :: s) = .ok s ∧ sliceTo 1 (c :: s) = .ok [c]) ∧
    (¬ c.toNat < 128 → sliceFrom 1 (c :: s) = .panic .boundary ∧
      sliceTo 1 (c :: s) = .panic .boundary) := by
  constructor
  · intro h
    rw [sliceFrom_ascii 0 c s h, sliceTo_ascii 0 c s h, sliceFrom_zero, sliceTo_zero]
    exact ⟨rfl, rfl⟩
  · intro h
    have h1 : c.utf8Size ≠ 1 := fun e => h ((utf8Size_ascii c).1 e)
    have h2 := utf8Size_pos c
    rw [sliceFrom, sliceTo, if_neg (by omega), if_neg (by omega), if_neg (by omega), if_neg (by omega)]
    exact ⟨rfl, rfl⟩

/-! cutting at separators -/

theorem splitAux_none (p : Char → Bool) (n : Option Nat) (cur a : Str) (h : ∀ c ∈ a, p c = false) :
    splitAux p n cur a = [cur.reverse ++ a] := by
  induction a generalizing cur with
  | nil => simp [splitAux]
  | cons c a ih =>
    cases n with
    | none =>
      simp only [splitAux, h c (by simp)]
      rw [if_neg (by simp), ih _ (fun c hc => h c (by simp [hc]))]; simp
    | some n =>
      cases n with
      | zero => simp [splitAux]
      | succ n =>
        simp only [splitAux, h c (by simp)]
        rw [if_neg (by simp), ih _ (fun c hc => h c (by simp [hc]))]; simp

theorem splitAux_cut (p : Char → Bool) (n : Option Nat) (hn : n ≠ some 0) (cur a : Str) (d : Char) (b : Str)
    (h : ∀ c ∈ a, p c = false) (hd : p d = true) :
    splitAux p n cur (a ++ d :: b) = (cur.reverse ++ a) :: splitAux p (n.map (· - 1)) [] b := by
  induction a generalizing cur with
  | nil =>
    cases n with
    | none => simp [splitAux, hd]
    | some n => cases n with
      | zero => simp at hn
      | succ n => simp [splitAux, hd]
  | cons c a ih =>
    cases n with
    | none =>
      simp only [List.cons_append, splitAux, h c (by simp)]
      rw [if_neg (by simp), ih _ (fun c hc => h c (by simp [hc]))]; simp
    | some n => cases n with
      | zero => simp at hn
      | succ n =>
        simp only [List.cons_append, splitAux, h c (by simp)]
        rw [if_neg (by simp), ih _ (fun c hc => h c (by simp [hc]))]; simp

theorem splitN_one (p : Char → Bool) (a : Str) : splitN 1 p a = [a] := by
  cases a <;> simp [splitN, splitAux]

theorem splitN_none (n : Nat) (p : Char → Bool) (a : Str) (h : ∀ c ∈ a, p c = false) :
    splitN n p a = [a] := by
  rw [splitN, splitAux_none _ _ _ _ h]; simp

theorem splitN_cut (n : Nat) (p : Char → Bool) (a : Str) (d : Char) (b : Str)
    (h : ∀ c ∈ a, p c = false) (hd : p d = true) :
    splitN (n + 2) p (a ++ d :: b) = a :: splitN (n + 1) p b := by
  simp only [splitN]
  rw [splitAux_cut _ _ (by simp) _ _ _ _ h hd]; simp

theorem splitAll_none (p : Char → Bool) (a : Str) (h : ∀ c ∈ a, p c = false) :
    splitAll p a = [a] := by
  rw [splitAll, splitAux_none _ _ _ _ h]; simp

theorem splitAll_cut (p : Char → Bool) (a : Str) (d : Char) (b : Str)
    (h : ∀ c ∈ a, p c = false) (hd : p d = true) :
    splitAll p (a ++ d :: b) = a :: splitAll p b := by
  simp only [splitAll]
  rw [splitAux_cut _ _ (by simp) _ _ _ _ h hd]; simp

/-- pieces are made of characters of the string -/
theorem mem_splitAux (p : Char → Bool) (n : Option Nat) (cur s : Str) :
    ∀ t ∈ splitAux p n cur s, ∀ c ∈ t, c ∈ cur ∨ c ∈ s := by
  induction s generalizing n cur with
  | nil => intro t ht c hc; simp [splitAux] at ht; subst ht; simp at hc; exact .inl hc
  | cons d s ih =>
    intro t ht c hc
    have key : ∀ m : Option Nat, t ∈ (if p d then cur.reverse :: splitAux p m [] s
        else splitAux p n (d :: cur) s) → c ∈ cur ∨ c ∈ d :: s := by
      intro m hm
      split at hm
      · rcases List.mem_cons.1 hm with rfl | hm
        · simp at hc; exact .inl hc
        · rcases ih _ _ t hm c hc with h | h
          · simp at h
          · exact .inr (by simp [h])
      · rcases ih _ _ t hm c hc with h | h
        · rcases List.mem_cons.1 h with rfl | h
          · exact .inr (by simp)
          · exact .inl h
        · exact .inr (by simp [h])
    cases n with
    | none => simp only [splitAux] at ht; exact key _ ht
    | some n => cases n with
      | zero =>
        simp only [splitAux, List.mem_singleton] at ht; subst ht
        rcases List.mem_append.1 hc with h | h
        · exact .inl (by simpa using h)
        · exact .inr h
      | succ n => simp only [splitAux] at ht; exact key _ ht

theorem mem_splitN (n : Nat) (p : Char → Bool) (s t : Str) (ht : t ∈ splitN n p s) :
    ∀ c ∈ t, c ∈ s := by
  intro c hc
  have := mem_splitAux p _ _ _ t ht c hc
  simpa using this

end Ntcip
