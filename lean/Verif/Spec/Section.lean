import Verif.Spec.Place
import Verif.Spec.Pages
/-
Specification of the texts of a text rectangle, with their attributes and lines.
-/
namespace Ntcip.Spec

/-- the values `vs` are those up to the next `[np]` or `[tr]` tag, or the end -/
inductive Section : List Str → List Value → Prop
  | nil : Section [] []
  | np {s ss} : tryFrom s = .ok (.ok .newPage) → Section (s :: ss) []
  | tr {s ss r} : tryFrom s = .ok (.ok (.textRectangle r)) → Section (s :: ss) []
  | cons {s v ss vs} : tryFrom s = .ok (.ok v) → v ≠ .newPage → (∀ r, v ≠ .textRectangle r) →
      Section ss vs → Section (s :: ss) (v :: vs)

/-- a text, or (with empty string) a line without text -/
structure Piece where
  attr : TextAttr
  /-- spacing of the `[nl]` tag of the line -/
  spacing : Option UInt8
  line : Nat
  str : Str
  deriving DecidableEq, Repr

/-- the text of a hexadecimal character -/
def hexText (c : UInt16) : Str := if c = 0 then [] else [Char.ofNat c.toNat]

/-- line after the value: counted from 0, from the change of the page justification -/
def lineAfter (dflt a : TextAttr) (line : Nat) : Value → Nat
  | .newLine _ => line + 1
  | .justificationPage j => if j.getD dflt.justPage = a.justPage then line else 0
  | _ => line

/-- is nothing on the line after the value, since the last `[nl]` tag? -/
def blankAfter (blank : Bool) : Value → Bool
  | .newLine _ => true
  | .text _ => false
  | .hexadecimalCharacter _ => false
  | _ => blank

/-- what a value puts on the line -/
def piece (a : TextAttr) (sp : Option UInt8) (line : Nat) (blank : Bool) : Value → List Piece
  | .text t => [⟨a, sp, line, t⟩]
  | .hexadecimalCharacter c => [⟨a, sp, line, hexText c⟩]
  | .newLine _ => if blank then [⟨a, sp, line, []⟩] else []
  | _ => []

/-- spacing before the line after the value -/
def spacingAfter (sp : Option UInt8) : Value → Option UInt8
  | .newLine ls => ls
  | _ => sp

/-- the texts of the values; `dflt` are the default attributes, `a` those in effect before, on line `line` with
spacing `sp`, which has no text yet if `blank` -/
def pieces (dflt : TextAttr) : TextAttr → Option UInt8 → Nat → Bool → List Value → List Piece
  | _, _, _, _, [] => []
  | a, sp, line, blank, v :: vs => piece a sp line blank v ++
      pieces dflt (TextAttr.apply dflt a v) (spacingAfter sp v) (lineAfter dflt a line v) (blankAfter blank v) vs

/-- the piece a span draws -/
def pieceOf (s : Span) : Piece := ⟨textAttr s.state, s.state.lineSpacing, s.state.lineNumber, s.str⟩

/-- is nothing on the line after the value, since the last `[nl]` tag or change of the page justification? -/
def freshAfter (dflt a : TextAttr) (fresh : Bool) : Value → Bool
  | .newLine _ => true
  | .text _ => false
  | .hexadecimalCharacter _ => false
  | .justificationPage j => if j.getD dflt.justPage = a.justPage then fresh else true
  | _ => fresh

/-- A value in order: justification goes from left to right on a line and from top to bottom, and there is text
between a change of the page justification and an `[nl]` tag (unless the line has been blank) -/
def InOrder (dflt a : TextAttr) (fresh blank : Bool) : Value → Prop
  | .newLine _ => fresh = true → blank = true
  | .justificationLine j => fresh = true ∨ a.justLine.toNat < (j.getD dflt.justLine).toNat
  | .justificationPage j => j.getD dflt.justPage = a.justPage ∨ a.justPage.toNat < (j.getD dflt.justPage).toNat
  | _ => True

/-- all values are in order -/
def Tidy (dflt : TextAttr) : TextAttr → Bool → Bool → List Value → Prop
  | _, _, _, [] => True
  | a, fresh, blank, v :: vs => InOrder dflt a fresh blank v ∧
      Tidy dflt (TextAttr.apply dflt a v) (freshAfter dflt a fresh v) (blankAfter blank v) vs

end Ntcip.Spec
