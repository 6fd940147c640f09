/-
Basic notions shared by all parts of the model: outcomes with explicit panics,
strings, and the pieces of the Rust standard library the crate relies on.
-/
namespace Ntcip

deriving instance DecidableEq for Except

/-- Character-list literal: `c!"[nl]"` is the list `['[', 'n', 'l', ']']`. -/
syntax:max (name := charListLit) "c!" str : term
macro_rules
  | `(c! $s:str) => do
    let cs := s.getString.toList.map fun c => Lean.Syntax.mkCharLit c
    `([$(cs.toArray),*])

/-- Strings.  Rust `&str`/`String` (all of /repo/src) modelled as the list of their
Unicode scalar values; byte lengths and byte offsets are recovered with `blen`
and `sliceFrom`/`sliceTo` below. -/
abbrev Str := List Char

/-- The ways a Rust function of the crate can panic. -/
inductive Panic where
  /-- arithmetic overflow (profile with overflow checks) -/
  | overflow
  /-- slice / array / raster index out of bounds -/
  | index
  /-- byte offset not on a UTF-8 character boundary, or past the end -/
  | boundary
  /-- `unwrap` on `None`/`Err` -/
  | unwrap
  /-- `unreachable!()` -/
  | unreachable
  /-- `unimplemented!()` -/
  | unimplemented
  /-- not a panic: the Rust code loops forever -/
  | diverge
  deriving DecidableEq, Repr

/-- Outcome of a function that can panic. -/
inductive Res (α : Type) where
  | ok (a : α)
  | panic (p : Panic)
  deriving DecidableEq, Repr

namespace Res
variable {α β : Type}

@[inline] def bind : Res α → (α → Res β) → Res β
  | ok a, f => f a
  | panic p, _ => panic p

instance : Monad Res where
  pure := Res.ok
  bind := Res.bind

def map' (f : α → β) : Res α → Res β
  | ok a => ok (f a)
  | panic p => panic p

/-- did the computation return normally? -/
def isOk : Res α → Bool
  | ok _ => true
  | panic _ => false

@[simp] theorem pure_eq (a : α) : (pure a : Res α) = ok a := rfl
@[simp] theorem ok_bind (a : α) (f : α → Res β) : (ok a >>= f) = f a := rfl
@[simp] theorem panic_bind (p : Panic) (f : α → Res β) : ((panic p : Res α) >>= f) = panic p := rfl
@[simp] theorem bind_eq_ok {x : Res α} {f : α → Res β} {b : β} :
    (x >>= f) = ok b ↔ ∃ a, x = ok a ∧ f a = ok b := by
  cases x <;> simp
@[simp] theorem bind_eq_panic {x : Res α} {f : α → Res β} {p : Panic} :
    (x >>= f) = panic p ↔ x = panic p ∨ ∃ a, x = ok a ∧ f a = panic p := by
  cases x <;> simp
@[simp] theorem isOk_ok (a : α) : (ok a).isOk = true := rfl
@[simp] theorem isOk_panic (p : Panic) : (panic p : Res α).isOk = false := rfl
@[simp] theorem map_eq (f : α → β) (x : Res α) : (f <$> x) = x.map' f := by cases x <;> rfl
@[simp] theorem map'_ok (f : α → β) (a : α) : (ok a).map' f = ok (f a) := rfl
@[simp] theorem map'_panic (f : α → β) (p : Panic) : (panic p).map' f = panic p := rfl
end Res

/-- Outcome of a function returning `Result<α, ε>` that can also panic. -/
inductive Out (ε α : Type) where
  | ok (a : α)
  | err (e : ε)
  | panic (p : Panic)
  deriving DecidableEq, Repr

namespace Out
variable {ε α β : Type}

@[inline] def bind : Out ε α → (α → Out ε β) → Out ε β
  | ok a, f => f a
  | err e, _ => err e
  | panic p, _ => panic p

instance : Monad (Out ε) where
  pure := Out.ok
  bind := Out.bind

/-- a panic-only computation used inside a fallible one -/
def ofRes : Res α → Out ε α
  | .ok a => ok a
  | .panic p => panic p

/-- `map_err`, as done by `?` through `From` -/
def mapErr {δ : Type} (f : ε → δ) : Out ε α → Out δ α
  | ok a => ok a
  | err e => err (f e)
  | panic p => panic p

@[simp] theorem pure_eq (a : α) : (pure a : Out ε α) = ok a := rfl
@[simp] theorem ok_bind (a : α) (f : α → Out ε β) : (ok a >>= f) = f a := rfl
@[simp] theorem err_bind (e : ε) (f : α → Out ε β) : ((err e : Out ε α) >>= f) = err e := rfl
@[simp] theorem panic_bind (p : Panic) (f : α → Out ε β) :
    ((panic p : Out ε α) >>= f) = panic p := rfl
@[simp] theorem bind_eq_ok {x : Out ε α} {f : α → Out ε β} {b : β} :
    (x >>= f) = ok b ↔ ∃ a, x = ok a ∧ f a = ok b := by
  cases x <;> simp
theorem bind_unit_eq_ok {x : Out ε Unit} {f : Unit → Out ε β} {b : β} :
    (x >>= f) = ok b ↔ x = ok () ∧ f () = ok b := by
  cases x <;> simp
@[simp] theorem bind_eq_panic {x : Out ε α} {f : α → Out ε β} {p : Panic} :
    (x >>= f) = panic p ↔ x = panic p ∨ ∃ a, x = ok a ∧ f a = panic p := by
  cases x <;> simp
@[simp] theorem bind_eq_err {x : Out ε α} {f : α → Out ε β} {e : ε} :
    (x >>= f) = err e ↔ x = err e ∨ ∃ a, x = ok a ∧ f a = err e := by
  cases x <;> simp
@[simp] theorem ofRes_ok (a : α) : (ofRes (.ok a) : Out ε α) = ok a := rfl
@[simp] theorem ofRes_panic (p : Panic) : (ofRes (.panic p) : Out ε α) = panic p := rfl
@[simp] theorem ofRes_eq_ok {x : Res α} {a : α} : (ofRes x : Out ε α) = ok a ↔ x = .ok a := by
  cases x <;> simp [ofRes]
@[simp] theorem ofRes_eq_panic {x : Res α} {p : Panic} :
    (ofRes x : Out ε α) = panic p ↔ x = .panic p := by
  cases x <;> simp [ofRes]
@[simp] theorem ofRes_ne_err {x : Res α} {e : ε} : (ofRes x : Out ε α) ≠ err e := by
  cases x <;> simp [ofRes]
@[simp] theorem mapErr_ok {δ : Type} (f : ε → δ) (a : α) : (ok a).mapErr f = ok a := rfl
@[simp] theorem mapErr_err {δ : Type} (f : ε → δ) (e : ε) : (err e : Out ε α).mapErr f = err (f e) := rfl
@[simp] theorem mapErr_panic {δ : Type} (f : ε → δ) (p : Panic) :
    (panic p : Out ε α).mapErr f = panic p := rfl
end Out

/-- Build profile for integer arithmetic: `checked` (debug, or `overflow-checks = true`)
panics on overflow, `wrapping` (release default) wraps around. -/
inductive Profile where
  | checked
  | wrapping
  deriving DecidableEq, Repr

/-- `u16 + u16` under a profile -/
def addU16 (p : Profile) (a b : UInt16) : Res UInt16 :=
  if a.toNat + b.toNat < 65536 then .ok (a + b)
  else match p with
    | .checked => .panic .overflow
    | .wrapping => .ok (a + b)

/-- `u16 * u16` under a profile -/
def mulU16 (p : Profile) (a b : UInt16) : Res UInt16 :=
  if a.toNat * b.toNat < 65536 then .ok (a * b)
  else match p with
    | .checked => .panic .overflow
    | .wrapping => .ok (a * b)

/-- result of `u16` arithmetic in the checked profile, kept as a `Nat` -/
def chk16 (n : Nat) : Res Nat := if n < 65536 then .ok n else .panic .overflow

/-- result of `u8` arithmetic in the checked profile, kept as a `Nat` -/
def chk8 (n : Nat) : Res Nat := if n < 256 then .ok n else .panic .overflow

/-- `u16` subtraction in the checked profile -/
def sub16 (a b : Nat) : Res Nat := if b ≤ a then .ok (a - b) else .panic .overflow

/-! ### strings -/

/-- `str::len`: length in UTF-8 bytes -/
def blen : Str → Nat
  | [] => 0
  | c :: cs => c.utf8Size + blen cs

/-- `&s[k..]` (panics off a character boundary or past the end) -/
def sliceFrom (k : Nat) (s : Str) : Res Str :=
  match s with
  | [] => if k = 0 then .ok [] else .panic .boundary
  | c :: cs =>
    if k = 0 then .ok (c :: cs)
    else if c.utf8Size ≤ k then sliceFrom (k - c.utf8Size) cs
    else .panic .boundary

/-- `&s[..k]` (panics off a character boundary or past the end) -/
def sliceTo (k : Nat) (s : Str) : Res Str :=
  match s with
  | [] => if k = 0 then .ok [] else .panic .boundary
  | c :: cs =>
    if k = 0 then .ok []
    else if c.utf8Size ≤ k then (sliceTo (k - c.utf8Size) cs).map' (c :: ·)
    else .panic .boundary

/-- `char::to_ascii_lowercase` -/
def asciiLower (c : Char) : Char :=
  if 'A' ≤ c ∧ c ≤ 'Z' then Char.ofNat (c.toNat + 32) else c

/-- `str::splitn(n, p)` (for `n ≥ 1`): at most `n` pieces, the last one keeps the rest.
The argument is `n - 1`, the number of cuts still allowed.
`cur` is the piece being collected, in reverse. -/
def splitAux (p : Char → Bool) : Option Nat → Str → Str → List Str
  | _, cur, [] => [cur.reverse]
  | some 0, cur, s => [cur.reverse ++ s]
  | n, cur, c :: cs =>
    if p c then cur.reverse :: splitAux p (n.map (· - 1)) [] cs
    else splitAux p n (c :: cur) cs

/-- `str::splitn(n, p)` for `n ≥ 1` -/
def splitN (n : Nat) (p : Char → Bool) (s : Str) : List Str := splitAux p (some (n - 1)) [] s

/-- `str::split(p)` -/
def splitAll (p : Char → Bool) (s : Str) : List Str := splitAux p none [] s

def isComma (c : Char) : Bool := c == ','

/-- `char::to_digit(radix)` for radix 10 or 16 -/
def digitVal (radix : Nat) (c : Char) : Option Nat :=
  let n := c.toNat
  let d := if 48 ≤ n ∧ n ≤ 57 then some (n - 48)
           else if 97 ≤ n ∧ n ≤ 102 then some (n - 87)
           else if 65 ≤ n ∧ n ≤ 70 then some (n - 55)
           else none
  match d with
  | some v => if v < radix then some v else none
  | none => none

/-- value of a string of digits, most significant first -/
def digitsVal (radix : Nat) : Nat → Str → Option Nat
  | acc, [] => some acc
  | acc, c :: cs => match digitVal radix c with
    | some d => digitsVal radix (acc * radix + d) cs
    | none => none

/-- `uN::from_str_radix(s, radix)` / `s.parse::<uN>()` with `max = uN::MAX`:
an optional `+`, then at least one digit, value at most `max` (all errors are `none`).
Rust checks for overflow at each digit; as the accumulated value never decreases
this is the same as checking the final value. -/
def parseUInt (radix max : Nat) (s : Str) : Option Nat :=
  let ds := match s with
    | '+' :: rest => rest
    | _ => s
  match ds with
  | [] => none
  | _ => match digitsVal radix 0 ds with
    | some v => if v ≤ max then some v else none
    | none => none

def parseU8 (s : Str) : Option UInt8 := (parseUInt 10 255 s).map UInt8.ofNat
def parseU16 (s : Str) : Option UInt16 := (parseUInt 10 65535 s).map UInt16.ofNat
def parseU32 (s : Str) : Option UInt32 := (parseUInt 10 4294967295 s).map UInt32.ofNat
def parseHex16 (s : Str) : Option UInt16 := (parseUInt 16 65535 s).map UInt16.ofNat

/-- lower-case hexadecimal / decimal digit -/
def digitChar (n : Nat) : Char := if n < 10 then Char.ofNat (48 + n) else Char.ofNat (87 + n)

/-- `{}` for an unsigned integer (`fuel` ≥ number of digits) -/
def decAux : Nat → Nat → Str
  | 0, n => [digitChar (n % 10)]
  | f + 1, n => if n < 10 then [digitChar n] else decAux f (n / 10) ++ [digitChar (n % 10)]

/-- `{}` for an unsigned integer -/
def dec (n : Nat) : Str := decAux n n

/-- `{:04x}` for a `u16` -/
def hex04 (n : Nat) : Str :=
  [digitChar (n / 4096 % 16), digitChar (n / 256 % 16), digitChar (n / 16 % 16), digitChar (n % 16)]

/-- `char::is_whitespace` (Unicode White_Space) -/
def isWhitespace (c : Char) : Bool :=
  let n := c.toNat
  (9 ≤ n && n ≤ 13) || n == 32 || n == 0x85 || n == 0xA0 || n == 0x1680 ||
  (0x2000 ≤ n && n ≤ 0x200A) || n == 0x2028 || n == 0x2029 || n == 0x202F || n == 0x205F ||
  n == 0x3000

end Ntcip
