/-
Decoding of OER lengths and unsigned integers (ITU-T X.696, clauses 8.6 and 10), written from the
standard independently of the encoder.
-/
namespace Ntcip.Spec

/-- value of octets, most significant first -/
def beVal (bs : List UInt8) : Nat := bs.foldl (fun a b => a * 256 + b.toNat) 0

/-- Length determinant: one octet below 128, or 128 + k followed by k octets (k ≥ 1).  Gives the
length and what follows. -/
def decodeLength : List UInt8 → Option (Nat × List UInt8)
  | [] => none
  | b :: rest =>
    if b.toNat < 128 then some (b.toNat, rest)
    else if b.toNat = 128 ∨ rest.length < b.toNat - 128 then none
    else some (beVal (rest.take (b.toNat - 128)), rest.drop (b.toNat - 128))

/-- Unsigned integer without upper bound: length determinant, then that many octets -/
def decodeUint (bs : List UInt8) : Option (Nat × List UInt8) :=
  match decodeLength bs with
  | none => none
  | some (k, rest) =>
    if k = 0 ∨ rest.length < k then none else some (beVal (rest.take k), rest.drop k)

end Ntcip.Spec
