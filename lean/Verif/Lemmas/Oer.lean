import Verif.Model.Oer
import Verif.Spec.Oer
namespace Ntcip
open Spec Oer

theorem shr32 (v : UInt32) (k : Nat) (hk : k < 32) :
    (v >>> (UInt32.ofNat k)).toUInt8.toNat = v.toNat / 2 ^ k % 256 := by
  rw [UInt32.toNat_toUInt8, UInt32.toNat_shiftRight, Nat.shiftRight_eq_div_pow]
  have : (UInt32.ofNat k).toNat % 32 = k := by
    rw [UInt32.toNat_ofNat']; omega
  rw [this]

theorem byte8 (v : UInt32) : v.toUInt8.toNat = v.toNat % 256 := by simp
theorem b32_8 (v : UInt32) : (v >>> 8).toUInt8.toNat = v.toNat / 256 % 256 := shr32 v 8 (by omega)
theorem b32_16 (v : UInt32) : (v >>> 16).toUInt8.toNat = v.toNat / 65536 % 256 := shr32 v 16 (by omega)
theorem b32_24 (v : UInt32) : (v >>> 24).toUInt8.toNat = v.toNat / 16777216 % 256 := shr32 v 24 (by omega)

theorem b16_8 (v : UInt16) : (v >>> 8).toUInt8.toNat = v.toNat / 256 := by
  rw [UInt16.toNat_toUInt8, UInt16.toNat_shiftRight, Nat.shiftRight_eq_div_pow]
  have := v.toNat_lt
  have e : (8 : UInt16).toNat % 16 = 8 := rfl
  rw [e]; omega

theorem beVal_u8 (v : UInt32) (h : v.toNat < 256) : beVal (u8 v.toUInt8) = v.toNat := by
  simp only [u8, beVal, List.foldl_cons, List.foldl_nil, byte8]; omega

theorem beVal_u16 (v : UInt16) : beVal (u16 v) = v.toNat := by
  have e : v.toUInt8.toNat = v.toNat % 256 := by simp
  simp only [u16, beVal, List.foldl_cons, List.foldl_nil, b16_8, e]; omega

theorem beVal_u16' (v : UInt32) (h : v.toNat < 65536) : beVal (u16 v.toUInt16) = v.toNat := by
  rw [beVal_u16, UInt32.toNat_toUInt16]; omega

theorem beVal_u24 (v : UInt32) (h : v.toNat < 16777216) : beVal (u24 v) = v.toNat := by
  simp only [u24, beVal, List.foldl_cons, List.foldl_nil, b32_8, b32_16]
  rw [byte8]; omega

theorem beVal_u32 (v : UInt32) : beVal (u32 v) = v.toNat := by
  have := v.toNat_lt
  simp only [u32, beVal, List.foldl_cons, List.foldl_nil, b32_8, b32_16, b32_24]
  rw [byte8]; omega

theorem le_lit (v : UInt32) (k : Nat) (hk : k < 2 ^ 32) : v ≤ UInt32.ofNat k ↔ v.toNat ≤ k := by
  rw [UInt32.le_iff_toNat_le, UInt32.toNat_ofNat', Nat.mod_eq_of_lt hk]

theorem lengthPrefix_eq (n : UInt32) : lengthPrefix n =
    if n.toNat < 128 then [n.toUInt8]
    else if n.toNat < 256 then 129 :: u8 n.toUInt8
    else if n.toNat < 65536 then 130 :: u16 n.toUInt16
    else if n.toNat < 16777216 then 131 :: u24 n
    else 132 :: u32 n := by
  unfold lengthPrefix
  have h1 : n ≤ 0x7F ↔ n.toNat < 128 := (le_lit n 127 (by omega)).trans (by omega)
  have h2 : n ≤ 0xFF ↔ n.toNat < 256 := (le_lit n 255 (by omega)).trans (by omega)
  have h3 : n ≤ 0xFFFF ↔ n.toNat < 65536 := (le_lit n 65535 (by omega)).trans (by omega)
  have h4 : n ≤ 0xFFFFFF ↔ n.toNat < 16777216 := (le_lit n 16777215 (by omega)).trans (by omega)
  simp only [h1, h2, h3, h4]
  rfl

theorem uint_eq (n : UInt32) : uint n =
    if n.toNat < 256 then 1 :: u8 n.toUInt8
    else if n.toNat < 65536 then 2 :: u16 n.toUInt16
    else if n.toNat < 16777216 then 3 :: u24 n
    else 4 :: u32 n := by
  unfold uint
  have h2 : n ≤ 0xFF ↔ n.toNat < 256 := (le_lit n 255 (by omega)).trans (by omega)
  have h3 : n ≤ 0xFFFF ↔ n.toNat < 65536 := (le_lit n 65535 (by omega)).trans (by omega)
  have h4 : n ≤ 0xFFFFFF ↔ n.toNat < 16777216 := (le_lit n 16777215 (by omega)).trans (by omega)
  simp only [h2, h3, h4]
  rfl

/-- long form of a length -/
theorem decodeLength_long (b : UInt8) (k : Nat) (hb : b.toNat = 128 + k) (hk : 0 < k)
    (bs rest : List UInt8) (hl : bs.length = k) :
    decodeLength (b :: (bs ++ rest)) = some (beVal bs, rest) := by
  have : b.toNat - 128 = k := by omega
  simp only [decodeLength, this]
  rw [if_neg (by omega), if_neg (by simp; omega)]
  subst hl
  simp

theorem decodeUint_short (b : UInt8) (k : Nat) (hb : b.toNat = k) (hk : 0 < k) (hk2 : k < 128)
    (bs rest : List UInt8) (hl : bs.length = k) :
    decodeUint (b :: (bs ++ rest)) = some (beVal bs, rest) := by
  simp only [decodeUint, decodeLength, hb]
  rw [if_pos hk2]
  simp only
  rw [if_neg (by simp; omega)]
  subst hl
  simp

theorem foldl_be_lt (bs : List UInt8) (a : Nat) :
    bs.foldl (fun a b => a * 256 + b.toNat) a < (a + 1) * 256 ^ bs.length := by
  induction bs generalizing a with
  | nil => simp
  | cons b bs ih =>
    have h1 := ih (a * 256 + b.toNat)
    have hb := b.toNat_lt
    have h2 : (a * 256 + b.toNat + 1) * 256 ^ bs.length ≤ ((a + 1) * 256) * 256 ^ bs.length :=
      Nat.mul_le_mul_right _ (by omega)
    simp only [List.foldl_cons, List.length_cons, Nat.pow_succ]
    rw [Nat.mul_comm (256 ^ bs.length), ← Nat.mul_assoc]
    omega

theorem beVal_lt (bs : List UInt8) : beVal bs < 256 ^ bs.length := by
  have := foldl_be_lt bs 0
  simpa [beVal] using this

theorem beVal_ge_length (bs : List UInt8) :
    (256 ≤ beVal bs → 2 ≤ bs.length) ∧ (65536 ≤ beVal bs → 3 ≤ bs.length) ∧
    (16777216 ≤ beVal bs → 4 ≤ bs.length) ∧ (1 ≤ beVal bs → 1 ≤ bs.length) := by
  have h := beVal_lt bs
  refine ⟨?_, ?_, ?_, ?_⟩ <;> intro hb <;> apply Nat.le_of_not_lt <;> intro hl
  · have := Nat.pow_le_pow_right (n := 256) (by omega) (show bs.length ≤ 1 by omega); omega
  · have := Nat.pow_le_pow_right (n := 256) (by omega) (show bs.length ≤ 2 by omega); omega
  · have := Nat.pow_le_pow_right (n := 256) (by omega) (show bs.length ≤ 3 by omega); omega
  · have := Nat.pow_le_pow_right (n := 256) (by omega) (show bs.length ≤ 0 by omega); omega

/-! ### CRC -/
namespace Crc

theorem shift_eq (s : BitVec 16) : shift s = (s >>> 1) ^^^ (if s.getLsbD 0 then 0x8408#16 else 0#16) := by
  unfold shift; split <;> simp

theorem shift_xor (a b : BitVec 16) : shift (a ^^^ b) = shift a ^^^ shift b := by
  simp only [shift_eq, BitVec.getLsbD_xor, BitVec.ushiftRight_xor_distrib]
  generalize a >>> 1 = x
  generalize b >>> 1 = y
  cases a.getLsbD 0 <;> cases b.getLsbD 0
  · simp
  · simp [BitVec.xor_assoc]
  · simp only [Bool.xor_false, if_true]
    have : x ^^^ y ^^^ 0x8408#16 = x ^^^ 0x8408#16 ^^^ y := by ac_rfl
    simpa using this
  · simp only [Bool.xor_self]
    have : x ^^^ 0x8408#16 ^^^ (y ^^^ 0x8408#16) = x ^^^ y ^^^ (0x8408#16 ^^^ 0x8408#16) := by
      ac_rfl
    simp [this]

theorem shift_zero (z : BitVec 16) (h : shift z = 0#16) : z = 0#16 := by
  rw [shift_eq] at h
  have h15 : (z >>> 1 ^^^ (if z.getLsbD 0 then 0x8408#16 else 0#16)).getLsbD 15 = false := by
    rw [h]; rfl
  cases h0 : z.getLsbD 0 with
  | true =>
    rw [h0, if_pos rfl, BitVec.getLsbD_xor, BitVec.getLsbD_ushiftRight,
      BitVec.getLsbD_of_ge z (1 + 15) (by omega)] at h15
    exact absurd h15 (by decide)
  | false =>
    rw [h0, if_neg (by simp), BitVec.xor_zero] at h
    apply BitVec.eq_of_getLsbD_eq
    intro i hi
    cases i with
    | zero => rw [h0]; rfl
    | succ i =>
      have : (z >>> 1).getLsbD i = false := by rw [h, BitVec.getLsbD_zero]
      rw [BitVec.getLsbD_ushiftRight, Nat.add_comm] at this
      rw [this, BitVec.getLsbD_zero]

theorem xor_cancel {a b : BitVec 16} (h : a ^^^ b = 0#16) : a = b := by
  have : a ^^^ b ^^^ b = b := by rw [h]; simp
  rw [BitVec.xor_assoc] at this
  simpa using this

theorem shift_inj {a b : BitVec 16} (h : shift a = shift b) : a = b := by
  apply xor_cancel
  apply shift_zero
  rw [shift_xor, h]; simp

/-- eight shifts -/
def shift8 (s : BitVec 16) : BitVec 16 := shift (shift (shift (shift (shift (shift (shift (shift s)))))))

theorem shift8_xor (a b : BitVec 16) : shift8 (a ^^^ b) = shift8 a ^^^ shift8 b := by
  simp only [shift8, shift_xor]

theorem shift8_inj {a b : BitVec 16} (h : shift8 a = shift8 b) : a = b := by
  unfold shift8 at h
  exact shift_inj (shift_inj (shift_inj (shift_inj (shift_inj (shift_inj (shift_inj (shift_inj h)))))))

theorem byte_eq (s : BitVec 16) (b : UInt8) : byte s b = shift8 (s ^^^ b.toBitVec.setWidth 16) := rfl

/-- the register before a byte is determined by the register after it -/
theorem byte_inj_left {s t : BitVec 16} {b : UInt8} (h : byte s b = byte t b) : s = t := by
  rw [byte_eq, byte_eq] at h
  have := shift8_inj h
  have e := congrArg (· ^^^ b.toBitVec.setWidth 16) this
  simpa [BitVec.xor_assoc] using e

theorem byte_inj_right {s : BitVec 16} {a b : UInt8} (h : byte s a = byte s b) : a = b := by
  rw [byte_eq, byte_eq] at h
  have := shift8_inj h
  have e := congrArg (s ^^^ ·) this
  simp only [← BitVec.xor_assoc, BitVec.xor_self, BitVec.zero_xor] at e
  have := congrArg BitVec.toNat e
  simp at this
  rw [← UInt8.toNat_inj]
  exact this

/-- a byte in the upper half of the register reaches the lower half after eight shifts -/
theorem shift8_high (b : UInt8) : shift8 (b.toBitVec.setWidth 16 <<< 8) = b.toBitVec.setWidth 16 := by
  have h : ∀ n : Fin 256, shift8 ((UInt8.ofFin n).toBitVec.setWidth 16 <<< 8) =
      (UInt8.ofFin n).toBitVec.setWidth 16 := by decide +kernel
  exact h b.toFin

theorem two_bytes (s : BitVec 16) (a b : UInt8) : byte (byte s a) b =
    shift8 (shift8 (s ^^^ a.toBitVec.setWidth 16 ^^^ (b.toBitVec.setWidth 16 <<< 8))) := by
  rw [byte_eq, byte_eq, shift8_xor (s ^^^ _), shift8_high]

/-- two bytes are determined by the register before and after them -/
theorem two_bytes_inj {s : BitVec 16} {a b a' b' : UInt8}
    (h : byte (byte s a) b = byte (byte s a') b') : a = a' ∧ b = b' := by
  rw [two_bytes, two_bytes] at h
  have := shift8_inj (shift8_inj h)
  have e := congrArg (s ^^^ ·) this
  simp only [← BitVec.xor_assoc, BitVec.xor_self, BitVec.zero_xor] at e
  have e2 : a.toBitVec.setWidth 16 = a'.toBitVec.setWidth 16 := by
    apply BitVec.eq_of_getLsbD_eq
    intro i hi
    have := congrArg (fun v => BitVec.getLsbD v i) e
    simp only [BitVec.getLsbD_xor, BitVec.getLsbD_shiftLeft] at this
    by_cases h8 : i < 8
    · simp [h8] at this ⊢
      simp_all
    · have h1 : (a.toBitVec).getLsbD i = false := BitVec.getLsbD_of_ge _ _ (by omega)
      have h2 : (a'.toBitVec).getLsbD i = false := BitVec.getLsbD_of_ge _ _ (by omega)
      simp [h1, h2]
  have ha : a = a' := by
    have := congrArg BitVec.toNat e2
    simp at this
    rw [← UInt8.toNat_inj]; exact this
  subst ha
  refine ⟨rfl, ?_⟩
  rw [← two_bytes, ← two_bytes] at h
  exact byte_inj_right (s := byte s a) h

theorem foldl_inj {s t : BitVec 16} (bs : List UInt8) (h : bs.foldl byte s = bs.foldl byte t) : s = t := by
  induction bs generalizing s t with
  | nil => exact h
  | cons b bs ih => exact byte_inj_left (ih h)

theorem checksum_inj {x y : List UInt8} (h : checksum x = checksum y) :
    x.foldl byte 0xffff#16 = y.foldl byte 0xffff#16 := by
  unfold checksum at h
  have := congrArg (· ^^^ 0xffff#16) h
  simpa [BitVec.xor_assoc] using this

theorem fromBe_inj {x y : BitVec 16} (h : fromBe x = fromBe y) : x = y := by
  unfold fromBe at h
  have h' : (x <<< 8) ||| (x >>> 8) = (y <<< 8) ||| (y >>> 8) := congrArg UInt16.toBitVec h
  apply BitVec.eq_of_getLsbD_eq
  intro i hi
  by_cases h8 : i < 8
  · have := congrArg (fun v => BitVec.getLsbD v (i + 8)) h'
    simp only [BitVec.getLsbD_or, BitVec.getLsbD_shiftLeft, BitVec.getLsbD_ushiftRight] at this
    have e1 : x.getLsbD (8 + (i + 8)) = false := BitVec.getLsbD_of_ge _ _ (by omega)
    have e2 : y.getLsbD (8 + (i + 8)) = false := BitVec.getLsbD_of_ge _ _ (by omega)
    have e3 : i + 8 < 16 := by omega
    have e4 : ¬ i + 8 < 8 := by omega
    simpa [e1, e2, e3, e4] using this
  · have := congrArg (fun v => BitVec.getLsbD v (i - 8)) h'
    simp only [BitVec.getLsbD_or, BitVec.getLsbD_shiftLeft, BitVec.getLsbD_ushiftRight] at this
    have e1 : i - 8 < 8 := by omega
    have e2 : 8 + (i - 8) = i := by omega
    simpa [e1, e2] using this

/-- messages that differ inside two adjacent bytes have different checksums -/
theorem burst (pre post : List UInt8) (a b a' b' : UInt8)
    (h : fromBe (checksum (pre ++ [a, b] ++ post)) = fromBe (checksum (pre ++ [a', b'] ++ post))) :
    a = a' ∧ b = b' := by
  have := checksum_inj (fromBe_inj h)
  simp only [List.foldl_append] at this
  exact two_bytes_inj (foldl_inj post this)

theorem burst1 (pre post : List UInt8) (a a' : UInt8)
    (h : fromBe (checksum (pre ++ [a] ++ post)) = fromBe (checksum (pre ++ [a'] ++ post))) :
    a = a' := by
  have := checksum_inj (fromBe_inj h)
  simp only [List.foldl_append] at this
  exact byte_inj_right (foldl_inj post this)

end Crc
end Ntcip
