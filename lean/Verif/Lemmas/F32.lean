import Verif.Model.F32
import Mathlib.Algebra.Order.Field.Rat
import Mathlib.Algebra.Order.Field.Power
import Mathlib.Data.Rat.Floor
import Mathlib.Tactic.Linarith
import Mathlib.Tactic.Positivity
import Mathlib.Tactic.FieldSimp
import Mathlib.Tactic.Ring
/-
Facts about the rounding of Model/F32.lean: it is monotone, keeps numbers of 24 bits, and errs by at most half
a unit of the last place.
-/
namespace Ntcip.F32

theorem pow2_eq (k : Int) : pow2 k = (2 : ℚ) ^ k := by
  cases k with
  | ofNat n => simp [pow2]
  | negSucc n => simp [pow2, zpow_negSucc]

theorem pow2_pos (k : Int) : 0 < pow2 k := by rw [pow2_eq]; positivity

theorem pow2_add (a b : Int) : pow2 (a + b) = pow2 a * pow2 b := by
  simp only [pow2_eq]; exact zpow_add₀ (by norm_num) a b

theorem pow2_le {a b : Int} (h : a ≤ b) : pow2 a ≤ pow2 b := by
  simp only [pow2_eq]; exact zpow_le_zpow_right₀ (by norm_num) h

theorem pow2_lt {a b : Int} (h : pow2 a < pow2 b) : a < b := by
  by_contra h'
  have := pow2_le (not_lt.1 h')
  linarith

theorem pow2_succ (a : Int) : pow2 (a + 1) = 2 * pow2 a := by
  rw [pow2_add, mul_comm]; simp [pow2]

/-- a power of two with a natural exponent is an integer -/
theorem pow2_nat {a : Int} (h : 0 ≤ a) : ∃ n : Int, pow2 a = n := by
  obtain ⟨n, rfl⟩ := Int.eq_ofNat_of_zero_le h
  exact ⟨2 ^ n, by simp [pow2_eq]⟩

theorem expo_spec {q : ℚ} (h : 0 < q) : pow2 (expo q) ≤ q ∧ q < pow2 (expo q + 1) := by
  have hn : 0 < q.num := Rat.num_pos.2 h
  have hd : 0 < q.den := q.den_pos
  have hna : q.num.natAbs ≠ 0 := by omega
  have e : q = (q.num.natAbs : ℚ) / q.den := by
    conv_lhs => rw [← Rat.num_div_den q]
    congr 1
    have : q.num = (q.num.natAbs : Int) := by omega
    rw [this]; simp
  have a1 := Nat.log2_self_le hna
  have a2 := Nat.lt_log2_self (n := q.num.natAbs)
  have b1 := Nat.log2_self_le hd.ne'
  have b2 := Nat.lt_log2_self (n := q.den)
  have a1 : ((2 : ℚ) ^ q.num.natAbs.log2) ≤ q.num.natAbs := by exact_mod_cast a1
  have a2 : (q.num.natAbs : ℚ) < 2 ^ (q.num.natAbs.log2 + 1) := by exact_mod_cast a2
  have b1 : ((2 : ℚ) ^ q.den.log2) ≤ q.den := by exact_mod_cast b1
  have b2 : (q.den : ℚ) < 2 ^ (q.den.log2 + 1) := by exact_mod_cast b2
  have hdq : (0 : ℚ) < q.den := by exact_mod_cast hd
  unfold expo
  dsimp only
  clear hna
  generalize q.num.natAbs.log2 = A at *
  generalize q.den.log2 = B at *
  generalize (q.num.natAbs : ℚ) = N at *
  generalize (q.den : ℚ) = D at *
  have up : q < pow2 ((A : Int) - B + 1) := by
    rw [pow2_succ, pow2_eq, zpow_sub₀ (by norm_num), zpow_natCast, zpow_natCast, e, ← mul_div_assoc,
      div_lt_div_iff₀ hdq (by positivity)]
    rw [pow_succ] at a2
    nlinarith [pow_pos (show (0 : ℚ) < 2 by norm_num) A, pow_pos (show (0 : ℚ) < 2 by norm_num) B]
  have lo : pow2 ((A : Int) - B - 1) ≤ q := by
    have : pow2 ((A : Int) - B - 1) * 2 = pow2 ((A : Int) - B) := by
      rw [mul_comm, ← pow2_succ]; congr 1; omega
    have h2 : pow2 ((A : Int) - B) ≤ 2 * q := by
      rw [pow2_eq, zpow_sub₀ (by norm_num), zpow_natCast, zpow_natCast, e, ← mul_div_assoc,
        div_le_div_iff₀ (by positivity) hdq]
      rw [pow_succ] at b2
      nlinarith [pow_pos (show (0 : ℚ) < 2 by norm_num) A, pow_pos (show (0 : ℚ) < 2 by norm_num) B]
    linarith
  split
  · exact ⟨‹_›, up⟩
  · rename_i hlt
    refine ⟨lo, ?_⟩
    rw [sub_add_cancel]
    exact not_le.1 hlt

theorem expo_mono {q r : ℚ} (h : 0 < q) (hr : q ≤ r) : expo q ≤ expo r := by
  have h1 := (expo_spec h).1
  have h2 := (expo_spec (lt_of_lt_of_le h hr)).2
  have := pow2_lt (lt_of_le_of_lt (h1.trans hr) h2)
  omega

/-! ### the nearest integer -/

theorem floor_eq (q : ℚ) : q.floor = ⌊q⌋ := rfl

theorem nearest_err (q : ℚ) : |(nearest q : ℚ) - q| ≤ 1 / 2 := by
  have h1 := Int.floor_le q
  have h2 := Int.lt_floor_add_one q
  unfold nearest
  dsimp only
  rw [floor_eq]
  rw [abs_le]
  split
  · constructor <;> linarith
  · split
    · push_cast; constructor <;> linarith
    · split
      · constructor <;> linarith
      · push_cast; constructor <;> linarith

theorem nearest_int (n : Int) : nearest n = n := by
  unfold nearest
  dsimp only
  rw [floor_eq, Int.floor_intCast, sub_self, if_pos (by norm_num)]

theorem nearest_mono {q r : ℚ} (h : q ≤ r) : nearest q ≤ nearest r := by
  have hf := Int.floor_le_floor h
  rcases lt_or_eq_of_le hf with hlt | heq
  · have h1 : nearest q ≤ ⌊q⌋ + 1 := by
      unfold nearest; dsimp only; rw [floor_eq]; split <;> [omega; split <;> [omega; split <;> omega]]
    have h2 : ⌊r⌋ ≤ nearest r := by
      unfold nearest; dsimp only; rw [floor_eq]; split <;> [omega; split <;> [omega; split <;> omega]]
    omega
  · unfold nearest
    dsimp only
    rw [floor_eq, floor_eq, ← heq]
    split <;> split <;> try omega
    all_goals first
      | (exfalso; linarith)
      | (split <;> try omega
         all_goals first
           | (exfalso; linarith)
           | (split <;> first | omega | (exfalso; linarith)))

theorem nearest_between {q : ℚ} {a b : Int} (ha : (a : ℚ) ≤ q) (hb : q ≤ b) : a ≤ nearest q ∧ nearest q ≤ b := by
  rw [← nearest_int a, ← nearest_int b, nearest_int a, nearest_int b]
  constructor
  · have := nearest_mono ha; rwa [nearest_int] at this
  · have := nearest_mono hb; rwa [nearest_int] at this

/-! ### rounding -/

theorem ulp_pos (q : ℚ) : 0 < ulp q := pow2_pos _

theorem ulp_mono {q r : ℚ} (h : 0 < q) (hr : q ≤ r) : ulp q ≤ ulp r :=
  pow2_le (by have := expo_mono h hr; omega)

theorem rndPos_err (q : ℚ) : |rndPos q - q| ≤ ulp q / 2 := by
  have hu := ulp_pos q
  have h := nearest_err (q / ulp q)
  have e : rndPos q - q = (nearest (q / ulp q) - q / ulp q) * ulp q := by
    unfold rndPos; field_simp
  rw [e, abs_mul, abs_of_pos hu]
  nlinarith

/-- the rounded number is at most the next power of two -/
theorem rndPos_le_pow {q : ℚ} {k : Int} (h : 0 < q) (hk : q ≤ pow2 k) (hk2 : -149 ≤ k) : rndPos q ≤ pow2 k := by
  have hu := ulp_pos q
  have : max (expo q - 23) (-149) ≤ k := by
    have := pow2_lt (lt_of_le_of_lt (expo_spec h).1 (lt_of_le_of_lt hk (show pow2 k < pow2 (k+1) by
      rw [pow2_succ]; linarith [pow2_pos k])))
    omega
  obtain ⟨n, hn⟩ := pow2_nat (a := k - max (expo q - 23) (-149)) (by omega)
  have e : pow2 k = n * ulp q := by
    rw [← hn, ulp, ← pow2_add]; congr 1; omega
  have hq : q / ulp q ≤ n := by rw [div_le_iff₀ hu]; linarith
  have h1 : nearest (q / ulp q) ≤ n := by
    have := nearest_mono hq; rwa [nearest_int] at this
  rw [e, rndPos]
  have : (nearest (q / ulp q) : ℚ) ≤ n := by exact_mod_cast h1
  nlinarith

/-- the rounded number is at least every power of two below -/
theorem pow_le_rndPos {q : ℚ} {k : Int} (hk : pow2 k ≤ q) (hk2 : -149 ≤ k) (hk3 : expo q - 23 ≤ k) :
    pow2 k ≤ rndPos q := by
  have hu := ulp_pos q
  obtain ⟨n, hn⟩ := pow2_nat (a := k - max (expo q - 23) (-149)) (by omega)
  have e : pow2 k = n * ulp q := by
    rw [← hn, ulp, ← pow2_add]; congr 1; omega
  have hq : (n : ℚ) ≤ q / ulp q := by rw [le_div_iff₀ hu]; linarith
  have h1 : n ≤ nearest (q / ulp q) := by
    have := nearest_mono hq; rwa [nearest_int] at this
  rw [e, rndPos]
  have : (n : ℚ) ≤ nearest (q / ulp q) := by exact_mod_cast h1
  nlinarith

theorem rndPos_nonneg {q : ℚ} (h : 0 < q) : 0 ≤ rndPos q := by
  have hu := ulp_pos q
  have hq : ((0 : Int) : ℚ) ≤ q / ulp q := by simpa using (div_pos h hu).le
  have h1 : 0 ≤ nearest (q / ulp q) := by
    have := nearest_mono hq; rwa [nearest_int] at this
  rw [rndPos]
  have : (0 : ℚ) ≤ nearest (q / ulp q) := by exact_mod_cast h1
  nlinarith

theorem rndPos_mono {q r : ℚ} (h : 0 < q) (hr : q ≤ r) : rndPos q ≤ rndPos r := by
  have hu := ulp_pos q
  have hv := ulp_pos r
  by_cases he : ulp q = ulp r
  · unfold rndPos
    rw [← he]
    have h1 : nearest (q / ulp q) ≤ nearest (r / ulp q) :=
      nearest_mono (by rw [div_le_div_iff_of_pos_right hu]; exact hr)
    have : (nearest (q / ulp q) : ℚ) ≤ nearest (r / ulp q) := by exact_mod_cast h1
    nlinarith
  · have hm := expo_mono h hr
    have hne : max (expo q - 23) (-149) ≠ max (expo r - 23) (-149) := fun e => he (by rw [ulp, ulp, e])
    have hlt : expo q < expo r := by
      rcases lt_or_eq_of_le hm with h | h
      · exact h
      · exact absurd (by rw [h]) hne
    have h1 : rndPos q ≤ pow2 (expo r) := rndPos_le_pow h
      ((expo_spec h).2.le.trans (pow2_le (by omega))) (by omega)
    have h2 : pow2 (expo r) ≤ rndPos r :=
      pow_le_rndPos (expo_spec (lt_of_lt_of_le h hr)).1 (by omega) (by omega)
    exact h1.trans h2

theorem rnd_zero : rnd 0 = 0 := by simp [rnd]

theorem rnd_pos_eq {q : ℚ} (h : 0 < q) : rnd q = rndPos q := by
  rw [rnd, if_neg h.ne', if_pos h]

theorem rnd_neg (q : ℚ) : rnd (-q) = - rnd q := by
  rcases lt_trichotomy q 0 with h | h | h
  · have h2 : 0 < -q := by linarith
    rw [rnd_pos_eq h2, rnd, if_neg h.ne, if_neg (by linarith)]; simp
  · subst h; simp [rnd]
  · rw [rnd_pos_eq h, rnd, if_neg (by linarith), if_neg (by linarith)]; simp

theorem rnd_nonneg {q : ℚ} (h : 0 ≤ q) : 0 ≤ rnd q := by
  rcases lt_or_eq_of_le h with h | h
  · rw [rnd_pos_eq h]; exact rndPos_nonneg h
  · subst h; rw [rnd_zero]

theorem rnd_mono {q r : ℚ} (h : q ≤ r) : rnd q ≤ rnd r := by
  have key : ∀ q r : ℚ, 0 ≤ q → q ≤ r → rnd q ≤ rnd r := by
    intro q r h0 h
    rcases lt_or_eq_of_le h0 with h0 | h0
    · rw [rnd_pos_eq h0, rnd_pos_eq (lt_of_lt_of_le h0 h)]; exact rndPos_mono h0 h
    · subst h0; rw [rnd_zero]; exact rnd_nonneg h
  rcases le_total 0 q with h0 | h0
  · exact key q r h0 h
  · rcases le_total 0 r with h1 | h1
    · have := rnd_nonneg (q := -q) (by linarith)
      rw [rnd_neg] at this
      have := rnd_nonneg h1
      linarith
    · have := key (-r) (-q) (by linarith) (by linarith)
      rw [rnd_neg, rnd_neg] at this
      linarith

/-- relative error of normal numbers -/
theorem rnd_err {q : ℚ} (h : pow2 (-126) ≤ |q|) : |rnd q - q| ≤ |q| / 2 ^ 24 := by
  have key : ∀ q : ℚ, pow2 (-126) ≤ q → |rnd q - q| ≤ q / 2 ^ 24 := by
    intro q h
    have h0 : 0 < q := lt_of_lt_of_le (pow2_pos _) h
    rw [rnd_pos_eq h0]
    refine (rndPos_err q).trans ?_
    have he : -126 ≤ expo q := by
      have := pow2_lt (lt_of_le_of_lt h (expo_spec h0).2)
      omega
    have hu : ulp q = pow2 (expo q) / 2 ^ 23 := by
      rw [ulp, max_eq_left (by omega), pow2_eq, pow2_eq, zpow_sub₀ (by norm_num)]
      norm_num
    rw [hu]
    have := (expo_spec h0).1
    rw [div_div, show (2 : ℚ) ^ 23 * 2 = 2 ^ 24 by norm_num]
    exact div_le_div_of_nonneg_right this (by norm_num)
  rcases le_total 0 q with h0 | h0
  · rw [abs_of_nonneg h0] at h ⊢; exact key q h
  · rw [abs_of_nonpos h0] at h ⊢
    have := key (-q) h
    rw [rnd_neg, show -rnd q - -q = -(rnd q - q) by ring, abs_neg] at this
    exact this

/-- absolute error of subnormal numbers -/
theorem rnd_err_small {q : ℚ} (h : |q| < pow2 (-126)) : |rnd q - q| ≤ pow2 (-126) / 2 ^ 24 := by
  have key : ∀ q : ℚ, 0 < q → q < pow2 (-126) → |rnd q - q| ≤ pow2 (-126) / 2 ^ 24 := by
    intro q h0 h
    rw [rnd_pos_eq h0]
    refine (rndPos_err q).trans ?_
    have he : expo q < -126 := pow2_lt (lt_of_le_of_lt (expo_spec h0).1 h)
    have hu : ulp q = pow2 (-149) := by rw [ulp, max_eq_right (by omega)]
    rw [hu, pow2_eq, pow2_eq]
    norm_num
  rcases lt_trichotomy 0 q with h0 | h0 | h0
  · rw [abs_of_pos h0] at h; exact key q h0 h
  · rw [← h0, rnd_zero, sub_self, abs_zero, pow2_eq]; norm_num
  · rw [abs_of_neg h0] at h
    have := key (-q) (by linarith) h
    rwa [rnd_neg, show -rnd q - -q = -(rnd q - q) by ring, abs_neg] at this

/-- numbers of at most 24 bits -/
theorem rnd_exact {n : Nat} {k : Int} (h : n < 2 ^ 24) (hk : -149 ≤ k) : rnd (n * pow2 k) = n * pow2 k := by
  rcases Nat.eq_zero_or_pos n with h0 | h0
  · subst h0; simp [rnd]
  · have hn : (0 : ℚ) < n := by exact_mod_cast h0
    have hq : (0 : ℚ) < n * pow2 k := mul_pos hn (pow2_pos k)
    have h24 : (n : ℚ) < 2 ^ 24 := by exact_mod_cast h
    rw [rnd_pos_eq hq]
    have he : expo (n * pow2 k) < k + 24 := by
      refine pow2_lt (lt_of_le_of_lt (expo_spec hq).1 ?_)
      rw [add_comm, pow2_add, show pow2 24 = 2 ^ 24 from by rw [pow2_eq]; norm_num]
      exact mul_lt_mul_of_pos_right h24 (pow2_pos k)
    obtain ⟨m, hm⟩ := pow2_nat (a := k - max (expo (n * pow2 k) - 23) (-149)) (by omega)
    have e : pow2 k = m * ulp (n * pow2 k) := by
      rw [← hm, ulp, ← pow2_add]; congr 1; omega
    have hu := ulp_pos (n * pow2 k)
    have e2 : n * pow2 k / ulp (n * pow2 k) = ((n * m : Int) : ℚ) := by
      rw [div_eq_iff hu.ne']
      push_cast
      rw [mul_assoc, ← e]
    rw [rndPos, e2, nearest_int]
    push_cast
    rw [mul_assoc, ← e]

theorem ofNat_exact {n : Nat} (h : n < 2 ^ 24) : ofNat n = n := by
  have := rnd_exact (k := 0) h (by omega)
  simpa [pow2, ofNat] using this

/-- powers of two are bounds of rounding -/
theorem rnd_le_pow {q : ℚ} {k : Nat} (h : q ≤ 2 ^ k) : rnd q ≤ 2 ^ k := by
  have e := rnd_exact (n := 1) (k := k) (by norm_num) (by omega)
  rw [pow2_eq] at e
  simp only [Nat.cast_one, one_mul, zpow_natCast] at e
  rw [← e]
  exact rnd_mono h

theorem ofNat_mono {a b : Nat} (h : a ≤ b) : ofNat a ≤ ofNat b := rnd_mono (by exact_mod_cast h)

theorem ofNat_nonneg (a : Nat) : 0 ≤ ofNat a := rnd_nonneg (by positivity)

end Ntcip.F32
