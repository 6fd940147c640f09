/-
IEEE 754 binary32 arithmetic, as far as `f32` is used by /repo/src/dms/sign.rs.

A finite `f32` is the rational number it stands for.  An operation of `f32` is the operation on rationals
followed by `F32.rnd`, the rounding to the nearest number with 24 significant bits, ties to even, including
subnormal numbers.  Not represented: the sign of zero (no operation used here depends on it), and overflow to
infinity (`Lemmas/Position.lean` has bounds far below 2 ^ 128).  Division by zero is `none`.
-/
namespace Ntcip.F32

/-- powers of two -/
def pow2 : Int → Rat
  | .ofNat n => ((2 ^ n : Nat) : Rat)
  | .negSucc n => 1 / ((2 ^ (n + 1) : Nat) : Rat)

/-- the exponent `e` of a positive number: `2 ^ e ≤ q < 2 ^ (e + 1)` -/
def expo (q : Rat) : Int :=
  let e := (q.num.natAbs.log2 : Int) - (q.den.log2 : Int)
  if pow2 e ≤ q then e else e - 1

/-- the nearest integer, ties to even -/
def nearest (q : Rat) : Int :=
  let f := q.floor
  let r := q - f
  if r < 1 / 2 then f
  else if 1 / 2 < r then f + 1
  else if f % 2 = 0 then f else f + 1

/-- the distance of neighbouring `f32` numbers near a positive number -/
def ulp (q : Rat) : Rat := pow2 (max (expo q - 23) (-149))

/-- the nearest `f32` of a positive number -/
def rndPos (q : Rat) : Rat := nearest (q / ulp q) * ulp q

/-- the nearest `f32` -/
def rnd (q : Rat) : Rat :=
  if q = 0 then 0 else if 0 < q then rndPos q else - rndPos (- q)

/-- conversion of an unsigned integer, `n as f32` -/
def ofNat (n : Nat) : Rat := rnd n

/-- `a + b` -/
def add (a b : Rat) : Rat := rnd (a + b)
/-- `a - b` -/
def sub (a b : Rat) : Rat := rnd (a - b)
/-- `a * b` -/
def mul (a b : Rat) : Rat := rnd (a * b)
/-- `a / b` with `b` not zero -/
def div (a b : Rat) : Rat := rnd (a / b)
/-- `a / b`; `none` is infinity or not a number -/
def div? (a b : Rat) : Option Rat := if b = 0 then none else some (rnd (a / b))
/-- `f32::min` of finite numbers -/
def fmin (a b : Rat) : Rat := if a ≤ b then a else b
/-- `f32::max` of finite numbers -/
def fmax (a b : Rat) : Rat := if a ≤ b then b else a

end Ntcip.F32
