import Verif.Model.Sign
/-
Model of /repo/src/dms/pattern.rs
-/
namespace Ntcip

/-- `PatValue`; pattern.rs:8-15 -/
inductive PatValue where
  | value (v : Value)
  | fillableRect (r : Rectangle) (font : UInt8)
  deriving DecidableEq, Repr

/-- `PatIter`; pattern.rs:17-31.  `rest` is the part of the pattern still to be parsed. -/
structure PatIter where
  rest : Str
  value : Option Value
  fontNum : UInt8
  rectFont : Option (Rectangle × UInt8)
  atEnd : Bool
  deriving DecidableEq, Repr

/-- `PatIter::new`; pattern.rs:53-65 -/
def PatIter.new (d : Dms) (ms : Str) : PatIter :=
  ⟨ms, none, d.multiCfg.defaultFont, some (d.fullRect, d.multiCfg.defaultFont), false⟩

/-- Does the sign not support the tag of `v`?  Condition of pattern.rs:236-238 -/
def unsupportedBy (d : Dms) (v : Value) : Bool :=
  match v.tag with
  | some tag => !d.multiCfg.supportedMultiTags tag
  | none => false

/-- Second half of `PatIter::next`, from the check for support on; pattern.rs:236-273 -/
def PatIter.step (d : Dms) (it : PatIter) (v : Value) :
    Option (Except SyntaxError PatValue) × PatIter :=
  if unsupportedBy d v then (some (.error (.unsupportedTag v.display)), it)
  else
    let emit : Option (Except SyntaxError PatValue) :=
      if it.atEnd then none else some (.ok (.value v))
    match v with
    | .font none => (emit, { it with fontNum := d.multiCfg.defaultFont })
    | .font (some (n, _)) => (emit, { it with fontNum := n })
    | .text _ => (emit, { it with rectFont := none })
    | .newLine _ => (emit, { it with rectFont := none })
    | .newPage =>
      let it' := { it with rectFont := some (d.fullRect, it.fontNum) }
      match it.rectFont with
      | some (rect, font) =>
        (some (.ok (.fillableRect rect font)), { it' with value := some v })
      | none => (emit, it')
    | .textRectangle tr =>
      let it' := { it with rectFont := some (tr.extendWidthHeight d.fullRect, it.fontNum) }
      match it.rectFont with
      | some (rect, font) =>
        if rect ≠ d.fullRect then
          (some (.ok (.fillableRect rect font)), { it' with value := some v })
        else (emit, it')
      | none => (emit, it')
    | _ => (emit, it)

/-- `PatIter::next`; pattern.rs:220-274 -/
def PatIter.next (d : Dms) (it : PatIter) :
    Res (Option (Except SyntaxError PatValue) × PatIter) :=
  if it.atEnd then .ok (none, it)
  else match it.value with
    | some v => .ok (some (.ok (.value v)), { it with value := none })
    | none => match nextSlice it.rest with
      | some (s, rest) => match tryFrom s with
        | .panic p => .panic p
        | .ok (.error e) => .ok (some (.error e), { it with rest := rest })
        | .ok (.ok v) => .ok (PatIter.step d { it with rest := rest } v)
      | none => .ok (PatIter.step d { it with rest := [], atEnd := true } .newPage)

/-- What the iterator yields, in order, up to the end or the first panic.  `fuel` bounds the
number of calls; `patItems` gives enough. -/
def patItemsAux (d : Dms) : Nat → PatIter → List (Res (Except SyntaxError PatValue))
  | 0, _ => []
  | fuel + 1, it => match PatIter.next d it with
    | .panic p => [.panic p]
    | .ok (none, _) => []
    | .ok (some x, it) => .ok x :: patItemsAux d fuel it

/-- All items of `PatIter::new(dms, ms)` -/
def patItems (d : Dms) (ms : Str) : List (Res (Except SyntaxError PatValue)) :=
  patItemsAux d (2 * ms.length + 2) (PatIter.new d ms)

/-- The loops of `widths`; pattern.rs:89-105.  `n` is `rect_num`, a `u8` (checked profile);
`flatten` skips errors. -/
def widthsLoop (d : Dms) : List (Res (Except SyntaxError PatValue)) → Nat →
    Res (List (UInt16 × UInt8 × Nat))
  | [], _ => .ok []
  | .panic p :: _, _ => .panic p
  | .ok (.ok (.fillableRect r f)) :: rest, n => do
    let n' ← chk8 (n + 1)
    let k ← d.rectLines r f
    let tail ← widthsLoop d rest n'
    pure (List.replicate k (r.width, f, n) ++ tail)
  | .ok _ :: rest, n => widthsLoop d rest n

/-- `MessagePattern::widths`, collected; pattern.rs:79-107 -/
def widths (d : Dms) (pat : Str) : Res (List (UInt16 × UInt8 × Nat)) :=
  widthsLoop d (patItems d pat) 0

/-- The loop `for i in 0..rect_lines` of `fill`, from round `i` on (`k` rounds to go);
pattern.rs:118-128.  Gives the text pushed and the lines left. -/
def fillLines : Nat → Nat → List Str → Str × List Str
  | 0, _, lines => ([], lines)
  | _ + 1, _, [] => ([], [])
  | k + 1, i, line :: lines =>
    let (s, rest) := fillLines k (i + 1) lines
    ((if i > 0 then c!"[nl]" else []) ++ line ++ s, rest)

/-- The loop of `fill`; pattern.rs:113-137 -/
def fillLoop (d : Dms) : List (Res (Except SyntaxError PatValue)) → List Str →
    Option (Option (UInt8 × Option UInt16)) → Str → Res Str
  | [], _, _, ms => .ok ms
  | .panic p :: _, _, _, _ => .panic p
  | .ok (.error _) :: _, _, _, _ => .ok []
  | .ok (.ok (.value (.font fv))) :: rest, lines, _, ms => fillLoop d rest lines (some fv) ms
  | .ok (.ok (.value v)) :: rest, lines, fv, ms => fillLoop d rest lines fv (ms ++ v.display)
  | .ok (.ok (.fillableRect r f)) :: rest, lines, fv, ms => do
    let k ← d.rectLines r f
    let (s, lines) := fillLines k 0 lines
    let tag := match fv with
      | some fv => (Value.font fv).display
      | none => []
    fillLoop d rest lines none (ms ++ s ++ tag)

/-- `MessagePattern::fill`; pattern.rs:109-139 -/
def fill (d : Dms) (pat : Str) (lines : List Str) : Res Str :=
  fillLoop d (patItems d pat) lines none []

/-- Is the value part of a line of text (`lines`, pattern.rs:159-165)? -/
def Value.isLinePart : Value → Bool
  | .text _ => true
  | .colorForeground _ => true
  | .justificationLine _ => true
  | .spacingCharacter _ => true
  | .spacingCharacterEnd => true
  | _ => false

/-- The inner loop of `lines` for a fillable rectangle; pattern.rs:156-177.
`before`/`after` are the variables of that name, `cons`/`rest` the two parts of
`values.split()`, `acc` the lines pushed (in order), `n` is `n_lines`.
Result: lines pushed, `before`, `after`, `n_lines`.
`fuel` bounds the number of rounds: each consumes a slice. -/
def scanLines : Nat → (cons rest before after : Str) → Nat → List Str →
    Res (List Str × Str × Str × Nat)
  | 0, _, _, before, after, n, acc => .ok (acc, before, after, n)
  | fuel + 1, cons, rest, before, after, n, acc =>
    match nextSlice rest with
    | none => .ok (acc, before, after, n)
    | some (s, rest') => match tryFrom s with
      | .panic p => .panic p
      | .ok (.error _) => .ok (acc, before, after, n)
      | .ok (.ok v) =>
        if v.isLinePart then scanLines fuel (cons ++ s) rest' (cons ++ s) rest' n acc
        else match v with
          | .newLine _ =>
            if n > 0 then scanLines fuel [] rest' [] rest' (n - 1) (acc ++ [before])
            else scanLines fuel [] rest' [] rest' n acc
          | _ => .ok (acc, before, after, n)

/-- Padding of the lines of a rectangle; pattern.rs:178-183 -/
def padLines (before : Str) : Nat → List Str
  | 0 => []
  | n + 1 => before :: List.replicate n []

/-- Skipping of font tags in `ms`, then the next value; pattern.rs:191-196 and 206.
Gives the value found (`none` at the end) and the rest of the string after it. -/
def skipFonts : Nat → Str → Res (Option (Except SyntaxError Value) × Str)
  | 0, rest => .ok (none, rest)
  | fuel + 1, rest => match nextSlice rest with
    | none => .ok (none, rest)
    | some (s, rest') => match tryFrom s with
      | .panic p => .panic p
      | .ok (.ok (.font _)) => skipFonts fuel rest'
      | .ok x => .ok (some x, rest')

/-- The loop of `lines`; pattern.rs:150-210 -/
def linesLoop (d : Dms) : List (Res (Except SyntaxError PatValue)) → Str → List Str →
    Res (List Str)
  | [], _, acc => .ok acc
  | .panic p :: _, _, _ => .panic p
  | .ok (.error _) :: items, ms, acc => linesLoop d items ms acc
  | .ok (.ok (.fillableRect r f)) :: items, ms, acc => do
    let k ← d.rectLines r f
    let (acc, before, after, n) ← scanLines (ms.length + 1) [] ms [] ms k acc
    linesLoop d items after (acc ++ padLines before n)
  | .ok (.ok (.value (.font _))) :: items, ms, acc => linesLoop d items ms acc
  | .ok (.ok (.value val)) :: items, ms, acc => do
    let (value, after) ← skipFonts (ms.length + 1) ms
    match value with
    | some (.ok v) => if v = val then linesLoop d items after acc else pure []
    | none => if val = .newPage then linesLoop d items after acc else pure []
    | some (.error _) => pure []

/-- `MessagePattern::lines`, collected; pattern.rs:141-212 -/
def lines (d : Dms) (pat ms : Str) : Res (List Str) := linesLoop d (patItems d pat) ms []

end Ntcip
