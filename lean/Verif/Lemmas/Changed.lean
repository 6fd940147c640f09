import Verif.Lemmas.Oer
import Verif.Spec.Changed
/-
Lemmas on the checksum of data with changed bits.
-/
namespace Ntcip.Crc
open Spec

/-- some shifts of the register -/
def shifts : Nat → BitVec 16 → BitVec 16
  | 0, s => s
  | n + 1, s => shifts n (shift s)

theorem shifts_add (m n : Nat) (s : BitVec 16) : shifts (m + n) s = shifts n (shifts m s) := by
  induction m generalizing s with
  | zero => simp [shifts]
  | succ m ih => rw [show m + 1 + n = (m + n) + 1 by omega, shifts, shifts, ih]

theorem shifts_xor (n : Nat) (a b : BitVec 16) : shifts n (a ^^^ b) = shifts n a ^^^ shifts n b := by
  induction n generalizing a b with
  | zero => rfl
  | succ n ih => rw [shifts, shift_xor, ih]; rfl

theorem shifts_inj {n : Nat} {a b : BitVec 16} (h : shifts n a = shifts n b) : a = b := by
  induction n generalizing a b with
  | zero => exact h
  | succ n ih => exact shift_inj (ih h)

theorem shifts_zero (n : Nat) : shifts n 0#16 = 0#16 := by
  induction n with
  | zero => rfl
  | succ n ih => rw [shifts, show shift 0#16 = 0#16 by decide]; exact ih

/-- update of the register with one bit -/
def bitStep (s : BitVec 16) (b : Bool) : BitVec 16 := shift (s ^^^ if b then 1#16 else 0#16)

theorem bits_xor (s t : BitVec 16) : ∀ (a b : List Bool), a.length = b.length →
    (List.zipWith xor a b).foldl bitStep (s ^^^ t) = a.foldl bitStep s ^^^ b.foldl bitStep t := by
  intro a
  induction a generalizing s t with
  | nil => intro b h; cases b <;> simp_all
  | cons x a ih =>
    intro b h
    cases b with
    | nil => simp at h
    | cons y b =>
      simp only [List.zipWith_cons_cons, List.foldl_cons]
      rw [← ih _ _ b (by simpa using h)]
      congr 1
      unfold bitStep
      rw [← shift_xor]
      congr 1
      cases x <;> cases y
      · simp
      · simp [BitVec.xor_assoc]
      · simp only [Bool.xor_false, if_true, Bool.false_eq_true, if_false, BitVec.xor_zero]; ac_rfl
      · simp only [Bool.xor_self, if_true, Bool.false_eq_true, if_false, BitVec.xor_zero]
        rw [show s ^^^ 1#16 ^^^ (t ^^^ 1#16) = s ^^^ t ^^^ (1#16 ^^^ 1#16) by ac_rfl, BitVec.xor_self, BitVec.xor_zero]

theorem bits_false (s : BitVec 16) (n : Nat) : (List.replicate n false).foldl bitStep s = shifts n s := by
  induction n generalizing s with
  | zero => rfl
  | succ n ih => rw [List.replicate_succ, List.foldl_cons, ih, shifts]; simp [bitStep]

theorem bits_byte0 : ∀ n < 256, (byteBits (UInt8.ofNat n)).foldl bitStep 0#16 = byte 0#16 (UInt8.ofNat n) := by
  decide +kernel

theorem bits_byte (s : BitVec 16) (b : UInt8) : (byteBits b).foldl bitStep s = byte s b := by
  have h := bits_xor 0#16 s (byteBits b) (List.replicate 8 false) (by simp [byteBits])
  rw [bits_false] at h
  have e : List.zipWith xor (byteBits b) (List.replicate 8 false) = byteBits b := by
    simp [byteBits, List.range_succ, List.replicate]
  rw [e] at h
  have h0 := bits_byte0 b.toNat b.toNat_lt
  rw [UInt8.ofNat_toNat] at h0
  rw [h0] at h
  rw [show (0#16 ^^^ s) = s by simp] at h
  rw [h, byte_eq, byte_eq, show (0#16 ^^^ b.toBitVec.setWidth 16) = b.toBitVec.setWidth 16 by simp, shift8_xor]
  rw [BitVec.xor_comm]
  rfl

theorem bytesBits_run (s : BitVec 16) (l : List UInt8) : (bytesBits l).foldl bitStep s = l.foldl byte s := by
  induction l generalizing s with
  | nil => rfl
  | cons b l ih =>
    rw [bytesBits, List.flatMap_cons, List.foldl_append, bits_byte]
    exact ih _

theorem bytesBits_length (l : List UInt8) : (bytesBits l).length = 8 * l.length := by
  induction l with
  | nil => rfl
  | cons b l ih =>
    have : (bytesBits (b :: l)) = byteBits b ++ bytesBits l := rfl
    rw [this, List.length_append, ih, List.length_cons]
    simp [byteBits]; omega

theorem changedBits_length {l l' : List UInt8} (h : l.length = l'.length) : (changedBits l l').length = 8 * l.length := by
  simp [changedBits, bytesBits_length, h]

/-- Data of the same length has the same register exactly if the changed bits have none. -/
theorem changed_run {l l' : List UInt8} (h : l.length = l'.length) (s : BitVec 16) :
    l.foldl byte s = l'.foldl byte s ↔ (changedBits l l').foldl bitStep 0#16 = 0#16 := by
  have := bits_xor s s (bytesBits l) (bytesBits l') (by rw [bytesBits_length, bytesBits_length, h])
  rw [BitVec.xor_self, bytesBits_run, bytesBits_run] at this
  rw [changedBits, this]
  constructor
  · intro e; rw [e, BitVec.xor_self]
  · exact xor_cancel

/-! ### an odd number of bits -/

def parity (s : BitVec 16) : Bool := (List.range 16).foldl (fun b k => b ^^ s.getLsbD k) false

theorem parity_eq (s : BitVec 16) : parity s = (s.getLsbD 0 ^^ s.getLsbD 1 ^^ s.getLsbD 2 ^^ s.getLsbD 3 ^^ s.getLsbD 4 ^^
    s.getLsbD 5 ^^ s.getLsbD 6 ^^ s.getLsbD 7 ^^ s.getLsbD 8 ^^ s.getLsbD 9 ^^ s.getLsbD 10 ^^ s.getLsbD 11 ^^
    s.getLsbD 12 ^^ s.getLsbD 13 ^^ s.getLsbD 14 ^^ s.getLsbD 15) := by
  simp [parity, List.range_succ]

theorem parity_xor (a b : BitVec 16) : parity (a ^^^ b) = (parity a ^^ parity b) := by
  have : ∀ (l : List Nat) (x y : Bool), l.foldl (fun c k => c ^^ (a ^^^ b).getLsbD k) (x ^^ y) =
      (l.foldl (fun c k => c ^^ a.getLsbD k) x ^^ l.foldl (fun c k => c ^^ b.getLsbD k) y) := by
    intro l
    induction l with
    | nil => intro x y; rfl
    | cons k l ih =>
      intro x y
      simp only [List.foldl_cons]
      rw [← ih, BitVec.getLsbD_xor]
      congr 1
      cases x <;> cases y <;> cases a.getLsbD k <;> cases b.getLsbD k <;> rfl
  exact this _ false false

theorem parity_shr (s : BitVec 16) : parity (s >>> 1) = (parity s ^^ s.getLsbD 0) := by
  simp only [parity_eq, BitVec.getLsbD_ushiftRight]
  rw [show s.getLsbD (1 + 15) = false from BitVec.getLsbD_of_ge _ _ (by omega)]
  simp only [Bool.xor_false, Nat.reduceAdd]
  generalize s.getLsbD 0 = x
  cases x <;> simp

theorem parity_shift (s : BitVec 16) : parity (shift s) = parity s := by
  rw [shift_eq, parity_xor, parity_shr]
  by_cases h : s.getLsbD 0
  · rw [if_pos h, h, show parity 0x8408#16 = true by decide]; cases parity s <;> rfl
  · rw [if_neg h, show parity 0#16 = false by decide]
    rw [Bool.not_eq_true] at h
    rw [h]; cases parity s <;> rfl

theorem parity_bits (s : BitVec 16) (e : List Bool) :
    parity (e.foldl bitStep s) = (parity s ^^ decide (e.count true % 2 = 1)) := by
  induction e generalizing s with
  | nil => simp
  | cons b e ih =>
    rw [List.foldl_cons, ih, bitStep, parity_shift, parity_xor]
    cases b
    · rw [if_neg (by simp), show parity 0#16 = false by decide]
      simp
    · rw [if_pos rfl, show parity 1#16 = true by decide, List.count_cons_self]
      rcases Nat.mod_two_eq_zero_or_one (e.count true) with h | h
      · rw [show (List.count true e + 1) % 2 = 1 by omega, h]; cases parity s <;> rfl
      · rw [show (List.count true e + 1) % 2 = 0 by omega, h]; cases parity s <;> rfl

theorem odd_bits {e : List Bool} (h : e.count true % 2 = 1) : e.foldl bitStep 0#16 ≠ 0#16 := by
  intro h0
  have := parity_bits 0#16 e
  rw [h0, h] at this
  simp [show parity 0#16 = false by decide] at this

/-! ### two bits -/

def stepN (e : Nat) : Nat := Nat.xor (e / 2) (e % 2 * 0x8408)

def iterN : Nat → Nat → Nat
  | 0, s => s
  | _ + 1, 0 => 0
  | n + 1, s + 1 => iterN n (stepN (s + 1))

theorem shift_stepN (s : BitVec 16) : (shift s).toNat = stepN s.toNat := by
  rw [shift_eq, BitVec.toNat_xor, BitVec.toNat_ushiftRight, Nat.shiftRight_eq_div_pow]
  unfold stepN
  have e : s.getLsbD 0 = decide (s.toNat % 2 = 1) := by
    simp [BitVec.getLsbD, Nat.testBit_zero]
  rw [e]
  rcases Nat.mod_two_eq_zero_or_one s.toNat with h | h <;> rw [h] <;> rfl

theorem shifts_iterN (n : Nat) (s : BitVec 16) : (shifts n s).toNat = iterN n s.toNat := by
  induction n generalizing s with
  | zero => rfl
  | succ n ih =>
    rw [shifts, ih, shift_stepN]
    cases hs : s.toNat with
    | zero =>
      have : ∀ n, iterN n 0 = 0 := by intro n; cases n <;> rfl
      rw [show stepN 0 = 0 by rfl, this, this]
    | succ k => rfl

theorem period : shifts 32767 1#16 = 1#16 := by
  apply BitVec.eq_of_toNat_eq
  rw [shifts_iterN]
  decide +kernel

theorem shifts_sub {m n : Nat} (h : m ≤ n) (hm : shifts m 1#16 = 1#16) (hn : shifts n 1#16 = 1#16) :
    shifts (n - m) 1#16 = 1#16 := by
  have := shifts_add m (n - m) 1#16
  rw [Nat.add_sub_cancel' h, hm, hn] at this
  exact this.symm

theorem shifts_mul {m : Nat} (hm : shifts m 1#16 = 1#16) (k : Nat) : shifts (k * m) 1#16 = 1#16 := by
  induction k with
  | zero => simp [shifts]
  | succ k ih => rw [Nat.succ_mul, shifts_add, ih, hm]

theorem shifts_mod {m n : Nat} (hm : shifts m 1#16 = 1#16) (hn : shifts n 1#16 = 1#16) : shifts (n % m) 1#16 = 1#16 := by
  rw [show n % m = n - (n / m) * m by rw [Nat.mod_eq_sub_mul_div, Nat.mul_comm]]
  exact shifts_sub (Nat.div_mul_le_self _ _) (shifts_mul hm _) hn

theorem shifts_gcd {m n : Nat} (hm : shifts m 1#16 = 1#16) (hn : shifts n 1#16 = 1#16) :
    shifts (Nat.gcd m n) 1#16 = 1#16 := by
  induction m, n using Nat.gcd.induction with
  | H0 n => simpa using hn
  | H1 m n h ih => rw [Nat.gcd_rec]; exact ih (shifts_mod hm hn) hm

theorem not_period (n : Nat) (hn : n = 4681 ∨ n = 1057 ∨ n = 217) : shifts n 1#16 ≠ 1#16 := by
  intro h
  have h := congrArg BitVec.toNat h
  rw [shifts_iterN] at h
  rcases hn with rfl | rfl | rfl <;> revert h <;> decide +kernel

theorem small_divisors : ∀ k < 182, 32767 % k = 0 → k = 1 ∨ k = 7 ∨ k = 31 ∨ k = 151 := by
  decide +kernel

theorem divisors (k : Nat) (hk : k < 32767) (h : 32767 % k = 0) : 4681 % k = 0 ∨ 1057 % k = 0 ∨ 217 % k = 0 := by
  by_cases h1 : k < 182
  · rcases small_divisors k h1 h with rfl | rfl | rfl | rfl <;> decide
  · obtain ⟨q, hq⟩ := Nat.dvd_of_mod_eq_zero h
    have hq2 : q < 182 := by
      apply Nat.lt_of_not_le
      intro hge
      have := Nat.mul_le_mul (show 182 ≤ k by omega) hge
      omega
    have := small_divisors q hq2 (by rw [hq]; exact Nat.mul_mod_left _ _)
    rcases this with rfl | rfl | rfl | rfl
    · omega
    · left; rw [show k = 4681 by omega]
    · right; left; rw [show k = 1057 by omega]
    · right; right; rw [show k = 217 by omega]

/-- The register comes back after a multiple of 32767 shifts, and only then. -/
theorem period_iff (k : Nat) : shifts k 1#16 = 1#16 ↔ 32767 ∣ k := by
  constructor
  · intro h
    have hg := shifts_gcd h period
    have hd : Nat.gcd k 32767 ∣ 32767 := Nat.gcd_dvd_right _ _
    by_cases he : Nat.gcd k 32767 = 32767
    · exact he ▸ Nat.gcd_dvd_left _ _
    · exfalso
      have hl : Nat.gcd k 32767 < 32767 := by
        have := Nat.le_of_dvd (by omega) hd
        omega
      have := divisors _ hl (Nat.mod_eq_zero_of_dvd hd)
      rcases this with h1 | h1 | h1
      · obtain ⟨q, hq⟩ := Nat.dvd_of_mod_eq_zero h1
        exact not_period 4681 (.inl rfl) (by rw [hq, Nat.mul_comm]; exact shifts_mul hg q)
      · obtain ⟨q, hq⟩ := Nat.dvd_of_mod_eq_zero h1
        exact not_period 1057 (.inr (.inl rfl)) (by rw [hq, Nat.mul_comm]; exact shifts_mul hg q)
      · obtain ⟨q, hq⟩ := Nat.dvd_of_mod_eq_zero h1
        exact not_period 217 (.inr (.inr rfl)) (by rw [hq, Nat.mul_comm]; exact shifts_mul hg q)
  · rintro ⟨q, rfl⟩
    rw [Nat.mul_comm]
    exact shifts_mul period q

theorem run_false (a : Nat) (e : List Bool) :
    (List.replicate a false ++ e).foldl bitStep 0#16 = e.foldl bitStep 0#16 := by
  rw [List.foldl_append, bits_false, shifts_zero]

theorem run_end (e : List Bool) (c : Nat) :
    (e ++ List.replicate c false).foldl bitStep 0#16 = 0#16 ↔ e.foldl bitStep 0#16 = 0#16 := by
  rw [List.foldl_append, bits_false]
  constructor
  · intro h
    exact shifts_inj (h.trans (shifts_zero c).symm)
  · intro h; rw [h, shifts_zero]

theorem two_bits (a m c : Nat) :
    (List.replicate a false ++ true :: (List.replicate m false ++ true :: List.replicate c false)).foldl bitStep 0#16 = 0#16 ↔
      32767 ∣ m + 1 := by
  rw [run_false]
  have e : true :: (List.replicate m false ++ true :: List.replicate c false) =
      (true :: (List.replicate m false ++ [true])) ++ List.replicate c false := by simp
  rw [e, run_end, List.foldl_cons, List.foldl_append, bits_false, List.foldl_cons, List.foldl_nil, bitStep, bitStep,
    if_pos rfl, show (0#16 ^^^ 1#16) = 1#16 by decide, ← period_iff]
  have e2 : shifts m (shift 1#16) = shifts (m + 1) 1#16 := rfl
  rw [e2]
  constructor
  · intro h
    exact xor_cancel (shift_zero _ h)
  · intro h
    rw [h]; decide

theorem count_none {e : List Bool} (h : e.count true = 0) : e = List.replicate e.length false := by
  induction e with
  | nil => rfl
  | cons b e ih =>
    cases b with
    | true => simp at h
    | false =>
      rw [List.length_cons, List.replicate_succ, ← ih (by simpa using h)]

theorem count_first {e : List Bool} {n : Nat} (h : e.count true = n + 1) :
    ∃ a e', e = List.replicate a false ++ true :: e' ∧ e'.count true = n := by
  induction e with
  | nil => simp at h
  | cons b e ih =>
    cases b with
    | true => exact ⟨0, e, rfl, by simpa using h⟩
    | false =>
      obtain ⟨a, e', h1, h2⟩ := ih (by simpa using h)
      exact ⟨a + 1, e', by rw [h1]; rfl, h2⟩

theorem count_two {e : List Bool} (h : e.count true = 2) :
    ∃ a m c, e = List.replicate a false ++ true :: (List.replicate m false ++ true :: List.replicate c false) := by
  obtain ⟨a, e1, rfl, h1⟩ := count_first h
  obtain ⟨m, e2, rfl, h2⟩ := count_first h1
  exact ⟨a, m, e2.length, by rw [← count_none h2]⟩

theorem few_bits {e : List Bool} (hl : e.length ≤ 32767) (h1 : 1 ≤ e.count true) (h3 : e.count true ≤ 3) :
    e.foldl bitStep 0#16 ≠ 0#16 := by
  by_cases h2 : e.count true = 2
  · obtain ⟨a, m, c, rfl⟩ := count_two h2
    rw [Ne, two_bits]
    intro hd
    have := Nat.le_of_dvd (by omega) hd
    simp at hl
    omega
  · exact odd_bits (by omega)

/-! ### bits close to each other -/

def bitsNum : List Bool → Nat
  | [] => 0
  | b :: bs => (if b then 1 else 0) + 2 * bitsNum bs

theorem bitsNum_lt (w : List Bool) : bitsNum w < 2 ^ w.length := by
  induction w with
  | nil => simp [bitsNum]
  | cons b w ih => rw [bitsNum, List.length_cons, Nat.pow_succ]; cases b <;> simp <;> omega

theorem bitsNum_zero {w : List Bool} (h : bitsNum w = 0) : true ∉ w := by
  induction w with
  | nil => simp
  | cons b w ih =>
    rw [bitsNum] at h
    cases b with
    | true => simp at h
    | false => simpa using ih (by simp at h; omega)

theorem shift_double {n : Nat} (h : n < 2 ^ 15) : shift (BitVec.ofNat 16 (2 * n)) = BitVec.ofNat 16 n := by
  apply BitVec.eq_of_toNat_eq
  rw [shift_stepN]
  simp only [BitVec.toNat_ofNat]
  rw [Nat.mod_eq_of_lt (by omega), Nat.mod_eq_of_lt (by omega), stepN]
  rw [show 2 * n % 2 = 0 by omega, show 2 * n / 2 = n by omega]
  simp

theorem window_run (w : List Bool) (s : BitVec 16) (h : w.length ≤ 16) :
    w.foldl bitStep s = shifts w.length (s ^^^ BitVec.ofNat 16 (bitsNum w)) := by
  induction w generalizing s with
  | nil => simp [shifts, bitsNum]
  | cons b w ih =>
    rw [List.length_cons] at h
    have hlt : bitsNum w < 2 ^ 15 := Nat.lt_of_lt_of_le (bitsNum_lt w) (Nat.pow_le_pow_right (by omega) (by omega))
    rw [List.foldl_cons, ih _ (by omega), List.length_cons, shifts, bitStep]
    congr 1
    rw [← shift_double hlt, ← shift_xor, BitVec.xor_assoc]
    congr 2
    rw [bitsNum]
    apply BitVec.eq_of_toNat_eq
    rw [BitVec.toNat_xor]
    cases b
    · simp
    · simp only [if_true, BitVec.toNat_ofNat]
      rw [Nat.mod_eq_of_lt (a := 2 * bitsNum w) (by omega), Nat.mod_eq_of_lt (a := 1 + 2 * bitsNum w) (by omega)]
      rw [show (1 % 2 ^ 16) = 1 by rfl, Nat.xor_comm]
      rw [Nat.add_comm]
      apply Nat.eq_of_testBit_eq
      intro i
      rw [Nat.testBit_xor]
      cases i with
      | zero => simp [Nat.testBit_zero]
      | succ i => simp [Nat.testBit_succ]; rw [show (2 * bitsNum w + 1) / 2 = bitsNum w by omega]

theorem window_bits {w : List Bool} (h : w.length ≤ 16) (hw : true ∈ w) : w.foldl bitStep 0#16 ≠ 0#16 := by
  intro h0
  rw [window_run w _ h] at h0
  have := shifts_inj (h0.trans (shifts_zero _).symm)
  have h1 := congrArg BitVec.toNat this
  simp only [BitVec.zero_xor, BitVec.toNat_ofNat] at h1
  rw [Nat.mod_eq_of_lt (Nat.lt_of_lt_of_le (bitsNum_lt w) (Nat.pow_le_pow_right (by omega) h))] at h1
  exact bitsNum_zero h1 hw

end Ntcip.Crc
