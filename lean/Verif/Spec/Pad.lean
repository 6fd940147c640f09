import Verif.Spec.Places
/-
Specification of blank characters at the ends of texts.
-/
namespace Ntcip.Spec

/-- a character of which no pixel is lit -/
def BlankGlyph (f : Font) (e : CharacterEntry) : Prop :=
  ∀ row col, row < f.height.toNat → col < e.width.toNat → bit e.bitmap (row * e.width.toNat + col) = false

/-- characters which are blank in the font of the text `s` -/
def BlankText (t : FontTable) (s : Span) (b : Str) : Prop :=
  ∀ f, FontOf t s f → ∀ ch ∈ b, ∀ e, f.character ch = some e → BlankGlyph f e

/-- Do the texts differ only by blank characters at the end where they do not move the text: after text at the left, and
before text at the right? -/
def AddsBlanks (t : FontTable) (u u' : Span) : Prop :=
  match u.state.justLine with
  | .center => False
  | .right => ∃ b, (u'.str = b ++ u.str ∨ u.str = b ++ u'.str) ∧ BlankText t u b
  | _ => ∃ b, (u'.str = u.str ++ b ∨ u.str = u'.str ++ b) ∧ BlankText t u b

/-- Is the pixel lit, in one of the two, by a text which is another one, not only by blanks at its free end, or which is moved
by another text of its line?  `ws` and `ws'` are the values of a text rectangle `rect`, with the same tags. -/
def SeenPlaces (d : Dms) (t : TextAttr) (sp : Option UInt8) (rect : Rectangle) (ws ws' : List Value) (i j : Nat) : Prop :=
  let L := numberedLayout d t sp rect ws
  let L' := numberedLayout d t sp rect ws'
  ∃ (k : Nat) (s s' : Span), L[k]? = some s ∧ L'[k]? = some s' ∧ (LitBy d L s i j ∨ LitBy d L' s' i j) ∧
  ∃ (m : Nat) (u u' : Span), L[m]? = some u ∧ L'[m]? = some u' ∧ u.str ≠ u'.str ∧ u ∈ sameLine L s ∧
    if m = k then ¬ AddsBlanks d.fontDefinition u u' else Moves u s

/-- the values after the last text of a line -/
def EndsLine : List Value → Prop
  | [] => True
  | .newLine _ :: _ => True
  | .newPage :: _ => True
  | .textRectangle _ :: _ => True
  | _ => False

/-- the same values, but for characters of the kind `B` at the ends of lines -/
inductive PaddedLines (B : Char → Prop) : List Value → List Value → Prop
  | nil : PaddedLines B [] []
  | keep {v vs vs'} : PaddedLines B vs vs' → PaddedLines B (v :: vs) (v :: vs')
  | pad {x b vs vs'} : EndsLine vs → (∀ ch ∈ b, B ch) → PaddedLines B vs vs' →
      PaddedLines B (.text x :: vs) (.text (x ++ b) :: vs')

/-- is the line without text after the value, if it is (or not) before? -/
def startAfter (start : Bool) : Value → Bool
  | .newLine _ => true
  | .newPage => true
  | .textRectangle _ => true
  | .text _ => false
  | .hexadecimalCharacter _ => false
  | _ => start

/-- the same values, but for characters of the kind `B` at the beginnings of lines; `start`: is this the beginning of a line? -/
inductive PaddedStarts (B : Char → Prop) : Bool → List Value → List Value → Prop
  | nil {start} : PaddedStarts B start [] []
  | keep {start v vs vs'} : PaddedStarts B (startAfter start v) vs vs' → PaddedStarts B start (v :: vs) (v :: vs')
  | pad {x b vs vs'} : (∀ ch ∈ b, B ch) → PaddedStarts B false vs vs' →
      PaddedStarts B true (.text x :: vs) (.text (b ++ x) :: vs')

/-- a character which is blank in all fonts of the sign -/
def BlankChar (d : Dms) (ch : Char) : Prop := ∀ f ∈ d.fontDefinition, ∀ e, f.character ch = some e → BlankGlyph f e

/-- a value which does not tell a justification -/
def NoJust (v : Value) : Prop := (∀ j, v ≠ .justificationLine j) ∧ ∀ j, v ≠ .justificationPage j

end Ntcip.Spec
