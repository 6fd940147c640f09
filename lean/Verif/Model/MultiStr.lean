import Verif.Model.Multi
/-
The `MultiStr` iterator of /repo/src/dms/multi.rs with its byte offset, as the code has it.  The other parts of the model
use `nextSlice`, `slices` and `values` of Multi.lean; Props/Bytes.lean shows that they are the same.
-/
namespace Ntcip

/-- `MultiStr`; multi.rs:374-382.  The offset is in bytes. -/
structure MultiStr where
  ms : Str
  offset : Nat
  deriving DecidableEq, Repr

namespace MultiStr

/-- `MultiStr::new`; multi.rs:1363-1367 -/
def new (ms : Str) : MultiStr := ⟨ms, 0⟩

/-- `MultiStr::split`; multi.rs:1369-1372 (`split_at` panics off a character boundary) -/
def split (m : MultiStr) : Res (Str × Str) := do
  let a ← sliceTo m.offset m.ms
  let b ← sliceFrom m.offset m.ms
  pure (a, b)

/-- `MultiStr::remaining`; multi.rs:1374-1377 -/
def remaining (m : MultiStr) : Res Str := sliceFrom m.offset m.ms

/-- `MultiStr::chop_start`; multi.rs:1379-1385.  `debug_assert!` panics in debug builds. -/
def chopStart (m : MultiStr) (i : Nat) : Res (Option Str × MultiStr) :=
  if i = 0 then .panic .unreachable
  else do
    let rest ← sliceFrom m.offset m.ms
    let s ← sliceTo i rest
    pure (some s, { m with offset := m.offset + i })

/-- The `for (i, c) in ms.char_indices()` loop of `next_slice`; multi.rs:1393-1404, with the byte index `i`.  Gives the
argument of `chop_start`; `opn` is `ms.starts_with('[')`. -/
def scanBytes (opn : Bool) : Nat → Str → Option Nat
  | _, [] => none
  | i, c :: cs =>
    if c = '[' ∧ i > 0 then some i
    else if c = ']' then
      if opn then some (i + 1) else some (max i 1)
    else scanBytes opn (i + c.utf8Size) cs

/-- `MultiStr::next_slice`; multi.rs:1387-1408 -/
def nextSlice (m : MultiStr) : Res (Option Str × MultiStr) := do
  let ms ← m.remaining
  if ms.take 2 = c!"[[" ∨ ms.take 2 = c!"]]" then m.chopStart 2
  else match scanBytes (ms.head? = some '[') 0 ms with
    | some i => m.chopStart i
    | none => do
      let ms ← m.remaining
      let m := { m with offset := m.offset + blen ms }
      if ms ≠ [] then pure (some ms, m) else pure (none, m)

end MultiStr

end Ntcip
