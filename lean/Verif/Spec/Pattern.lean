import Verif.Spec.Rects
import Verif.Spec.Pages
import Verif.Model.Sign
/-
Specification of message patterns, in terms of their values.
-/
namespace Ntcip.Spec

/-- The sign supports the tag of the value -/
def supports (d : Dms) (v : Value) : Bool :=
  match v.tag with
  | some tag => d.multiCfg.supportedMultiTags tag
  | none => true

/-- A valid pattern: every item is valid and supported by the sign -/
def ValidPattern (d : Dms) (pat : Str) (vs : List Value) : Prop :=
  Parses (slices pat) vs ∧ ∀ v ∈ vs, supports d v = true

/-- Begins a page or text rectangle -/
def opens : Value → Bool
  | .newPage => true
  | .textRectangle _ => true
  | _ => false

/-- A part of a pattern, from one opening tag to the next: the values before it, the opening tag (none for the
implicit first page), its content, and the tag that opens the next area (none at the end) -/
structure Area where
  before : List Value
  opener : Option Value
  body : List Value
  next : Option Value

/-- All areas of a pattern, given those of the first area read so far -/
def areasFrom (before : List Value) (opener : Option Value) (body : List Value) : List Value → List Area
  | [] => [⟨before, opener, body, none⟩]
  | v :: vs =>
    if opens v then
      ⟨before, opener, body, some v⟩ :: areasFrom (before ++ opener.toList ++ body) (some v) [] vs
    else areasFrom before opener (body ++ [v]) vs

/-- All areas of a pattern -/
def areas (vs : List Value) : List Area := areasFrom [] none [] vs

/-- Pixels of an area: the text rectangle, extended to the edge of the sign, or the whole sign -/
def Area.rect (d : Dms) (a : Area) : Rectangle :=
  match a.opener with
  | some (.textRectangle r) => ⟨r.x, r.y, .ofNat (extWidth r d.vmsCfg.signWidthPixels.toNat),
      .ofNat (extHeight r d.vmsCfg.signHeightPixels.toNat)⟩
  | _ => ⟨1, 1, d.vmsCfg.signWidthPixels, d.vmsCfg.signHeightPixels⟩

/-- Font number after some values: that of the last font tag -/
def fontAfter (d : Dms) (vs : List Value) : UInt8 :=
  vs.foldl (fun n v => match v with
    | .font none => d.multiCfg.defaultFont
    | .font (some (n, _)) => n
    | _ => n) d.multiCfg.defaultFont

/-- Font number in effect at the beginning of the area -/
def Area.font (d : Dms) (a : Area) : UInt8 := fontAfter d a.before

/-- makes an area unavailable for filling -/
def occupies : Value → Bool
  | .text _ => true
  | .newLine _ => true
  | _ => false

/-- Can lines be filled into the area?  It must be blank; the whole sign is not available when a text
rectangle follows. -/
def Area.fillable (d : Dms) (a : Area) : Bool :=
  !a.body.any occupies &&
  match a.next with
  | some (.textRectangle _) =>
    a.rect d != ⟨1, 1, d.vmsCfg.signWidthPixels, d.vmsCfg.signHeightPixels⟩
  | _ => true

/-- `ws` are the fillable lines (width, font number, rectangle number) of the areas `as`, numbered from `n` on:
each has as many lines as fit -/
inductive FillLines (d : Dms) : Nat → List Area → List (UInt16 × UInt8 × Nat) → Prop
  | nil {n} : FillLines d n [] []
  | cons {n a as k ws} : d.rectLines (a.rect d) (a.font d) = .ok k → FillLines d (n + 1) as ws →
      FillLines d n (a :: as) (List.replicate k ((a.rect d).width, a.font d, n) ++ ws)

/-- value of a font tag -/
abbrev FontTag := Option (UInt8 × Option UInt16)

def isFont : Value → Bool
  | .font _ => true
  | _ => false

/-- canonical text of all but the font tags -/
def tagsText (vs : List Value) : Str := (vs.filter fun v => !isFont v).flatMap Value.display

/-- the last font tag, if any, otherwise `p` -/
def pendingFont (p : Option FontTag) (vs : List Value) : Option FontTag :=
  vs.foldl (fun p v => match v with
    | .font f => some f
    | _ => p) p

def fontText : Option FontTag → Str
  | some f => (Value.font f).display
  | none => []

def nextText (a : Area) : Str :=
  match a.next with
  | some v => v.display
  | none => []

/-- Lines separated by `[nl]` -/
def joinLines (ls : List Str) : Str := List.intercalate c!"[nl]" ls

/-- `s` is the text of the areas, with the lines `ls` filled into the fillable ones, each taking as many as fit.
Font tags are moved behind the lines of the next fillable area: `p` is the one still to be written. -/
inductive Filled (d : Dms) : List Area → List Str → Option FontTag → Str → Prop
  | nil {ls p} : Filled d [] ls p []
  | skip {a as ls p s} : a.fillable d = false → Filled d as ls (pendingFont p a.body) s →
      Filled d (a :: as) ls p (tagsText a.body ++ nextText a ++ s)
  | fill {a as ls p s k} : a.fillable d = true → d.rectLines (a.rect d) (a.font d) = .ok k →
      Filled d as (ls.drop k) none s →
      Filled d (a :: as) ls p
        (tagsText a.body ++ joinLines (ls.take k) ++ fontText (pendingFont p a.body) ++ nextText a ++ s)

/-- part of a line of text -/
def inLine : Value → Bool
  | .text _ => true
  | .colorForeground _ => true
  | .justificationLine _ => true
  | .spacingCharacter _ => true
  | .spacingCharacterEnd => true
  | _ => false

/-- A line of text: all its items are valid, and texts, `[cf]`, `[jl]` or `[sc]` tags -/
def LineText (l : Str) : Prop := ∃ vs, Parses (slices l) vs ∧ ∀ v ∈ vs, inLine v = true

/-- a text without brackets -/
def plainText : Value → Bool
  | .text t => t.all fun c => c != '[' && c != ']'
  | _ => false

/-- no two plain texts next to each other -/
def Apart : List Value → Prop
  | [] => True
  | v :: vs => (plainText v = true → ∀ w, vs.head? = some w → plainText w = false) ∧ Apart vs

end Ntcip.Spec
