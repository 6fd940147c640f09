import Verif.Model.Multi
/-
What a sequence of MULTI values means to a reader, independent of the functions of the crate:
the attributes in effect, what is visible, and the trace of visible things with their attributes.
-/
namespace Ntcip.Spec

/-- the last value chosen by `f`, default `none` -/
def lastOf {α : Type} (f : Value → Option (Option α)) (p : List Value) : Option α :=
  (p.reverse.findSome? f).getD none

/-- foreground color after the values `p` -/
def colorOf : List Value → Option Color := lastOf fun | .colorForeground c => some c | _ => none
/-- font after the values `p` -/
def fontOf : List Value → Option (UInt8 × Option UInt16) := lastOf fun | .font f => some f | _ => none
/-- line justification after the values `p` -/
def lineJustOf : List Value → Option JustificationLine :=
  lastOf fun | .justificationLine j => some j | _ => none
/-- page justification after the values `p` -/
def pageJustOf : List Value → Option JustificationPage :=
  lastOf fun | .justificationPage j => some j | _ => none

/-- a tag `[cf]`, `[fo]`, `[jl]`, `[jp]` that repeats what is in effect after `p` -/
def Redundant (p : List Value) : Value → Prop
  | .colorForeground c => c = colorOf p
  | .font f => f = fontOf p
  | .justificationLine j => j = lineJustOf p
  | .justificationPage j => j = pageJustOf p
  | _ => False

/-- white space among the characters of MULTI (U+0001 to U+00FF) -/
def IsSpace (c : Char) : Prop :=
  (9 ≤ c.toNat ∧ c.toNat ≤ 13) ∨ c.toNat = 32 ∨ c.toNat = 0x85 ∨ c.toNat = 0xA0

/-- values with something to see: non-white text, graphic, color rectangle, field, hexadecimal
character, manufacturer tag, moving text -/
def Visible : Value → Prop
  | .text t => ∃ c ∈ t, ¬ IsSpace c
  | .graphic _ _ | .colorRectangle _ _ | .field _ _ | .hexadecimalCharacter _
  | .manufacturerSpecific _ _ | .manufacturerSpecificEnd _ _ | .movingText _ _ _ _ _ _ => True
  | _ => False

/-- one character of text, or one tag -/
inductive Atom where
  | char (c : Char)
  | tag (v : Value)

/-- nothing to see -/
def Atom.Blank : Atom → Prop
  | char c => IsSpace c
  | tag v => ¬ Visible v

/-- the characters of a text, or the tag; state tags count only by their effect; hexadecimal
characters are left out unless `hex` -/
def atoms (hex : Bool) : Value → List Atom
  | .text t => t.map .char
  | .colorForeground _ | .font _ | .justificationLine _ | .justificationPage _ => []
  | .hexadecimalCharacter c => if hex then [.tag (.hexadecimalCharacter c)] else []
  | v => [.tag v]

/-- the attributes in effect -/
structure Attrs where
  color : Option Color
  font : Option (UInt8 × Option UInt16)
  lineJust : Option JustificationLine
  pageJust : Option JustificationPage

/-- the attributes in effect after `p` -/
def attrsOf (p : List Value) : Attrs := ⟨colorOf p, fontOf p, lineJustOf p, pageJustOf p⟩

/-- every character and tag of `vs`, each with the attributes in effect there; `p` came before -/
def trace (hex : Bool) (p : List Value) : List Value → List (Atom × Attrs)
  | [] => []
  | v :: vs => (atoms hex v).map (·, attrsOf p) ++ trace hex (p ++ [v]) vs

end Ntcip.Spec
