import Verif.Model.Multi
import Verif.Spec.Tokens
/-
The grammar of MULTI tags: how the items of a message are written, and what they mean.  Only the types of values are from
the model.
-/
namespace Ntcip.Spec

/-- `c` is the digit `d` -/
def DigitIs (radix : Nat) (c : Char) (d : Nat) : Prop := d < radix ∧ c!"0123456789abcdef"[d]? = some c.toLower

/-- one or more digits, most significant first -/
inductive DigitsAre (radix : Nat) : Str → Nat → Prop
  | one {c d} : DigitIs radix c d → DigitsAre radix [c] d
  | more {s n c d} : DigitsAre radix s n → DigitIs radix c d → DigitsAre radix (s ++ [c]) (n * radix + d)

/-- an unsigned number, with or without `+` -/
inductive NumberIs (radix : Nat) : Str → Nat → Prop
  | digits {s n} : DigitsAre radix s n → NumberIs radix s n
  | plus {s n} : DigitsAre radix s n → NumberIs radix ('+' :: s) n

/-- decimal numbers of 8, 16 and 32 bits, and hexadecimal numbers of 16 bits -/
def Num8 (s : Str) (n : UInt8) : Prop := NumberIs 10 s n.toNat
def Num16 (s : Str) (n : UInt16) : Prop := NumberIs 10 s n.toNat
def Num32 (s : Str) (n : UInt32) : Prop := NumberIs 10 s n.toNat
def NumHex (s : Str) (n : UInt16) : Prop := NumberIs 16 s n.toNat

/-- a number that may be missing -/
inductive OptNum : Str → Option UInt8 → Prop
  | missing : OptNum [] none
  | given {s n} : Num8 s n → OptNum s (some n)

/-- a version: 4 characters, hexadecimal -/
def VersionIs (s : Str) (v : UInt16) : Prop := s.length = 4 ∧ NumHex s v

/-- a color: one number, or three for red, green and blue -/
inductive ColorIs : Str → Color → Prop
  | legacy {s n} : Num8 s n → ColorIs s (.legacy n)
  | rgb {a b c r g k} : Num8 a r → Num8 b g → Num8 c k → ColorIs (a ++ ',' :: b ++ ',' :: c) (.rgb r g k)

/-- a point, counted from 1 -/
inductive PointIs : Str → UInt16 → UInt16 → Prop
  | mk {a b x y} : Num16 a x → Num16 b y → x ≠ 0 → y ≠ 0 → PointIs (a ++ ',' :: b) x y

/-- a rectangle: point, width, height -/
inductive RectIs : Str → Rectangle → Prop
  | mk {p x y a w b h} : PointIs p x y → Num16 a w → Num16 b h → RectIs (p ++ ',' :: a ++ ',' :: b) ⟨x, y, w, h⟩

/-- a time of at most 9.9 seconds that may be missing -/
def FlashIs (s : Str) (t : Option UInt8) : Prop := OptNum s t ∧ ∀ n, t = some n → n ≤ 99

/-- direction, width, step, rate and text of moving text -/
inductive MovingIs : Str → MovingTextDirection → UInt16 → UInt8 → UInt8 → Str → Prop
  | left {c a b r w n k t} : c.toLower = 'l' → Num16 a w → Num8 b n → Num8 r k →
      MovingIs (c :: a ++ ',' :: b ++ ',' :: r ++ ',' :: t) .left w n k t
  | right {c a b r w n k t} : c.toLower = 'r' → Num16 a w → Num8 b n → Num8 r k →
      MovingIs (c :: a ++ ',' :: b ++ ',' :: r ++ ',' :: t) .right w n k t

/-- a number and a text that may be missing -/
inductive CodeIs : Str → UInt32 → Option Str → Prop
  | code {a n} : Num32 a n → CodeIs a n none
  | text {a n t} : Num32 a n → CodeIs (a ++ ',' :: t) n (some t)

/-- The value of the tag with this name (in lower case) and these parameters -/
inductive TagIs : List Char → Str → Value → Prop
  | newLine : TagIs c!"nl" [] (.newLine none)
  | newLineSpacing {c n} : DigitIs 10 c n.toNat → TagIs c!"nl" [c] (.newLine (some n))
  | newPage : TagIs c!"np" [] .newPage
  | fontDefault : TagIs c!"fo" [] (.font none)
  | font {a n} : Num8 a n → n ≠ 0 → TagIs c!"fo" a (.font (some (n, none)))
  | fontVersion {a n b v} : Num8 a n → n ≠ 0 → VersionIs b v → TagIs c!"fo" (a ++ ',' :: b) (.font (some (n, some v)))
  | justLineDefault : TagIs c!"jl" [] (.justificationLine none)
  | justLine {c j} : (c, j) ∈ [('1', .other), ('2', .left), ('3', .center), ('4', .right), ('5', .full)] →
      TagIs c!"jl" [c] (.justificationLine (some j))
  | justPageDefault : TagIs c!"jp" [] (.justificationPage none)
  | justPage {c j} : (c, j) ∈ [('1', .other), ('2', .top), ('3', .middle), ('4', .bottom)] →
      TagIs c!"jp" [c] (.justificationPage (some j))
  | pageTimeOn {a t} : OptNum a t → TagIs c!"pt" a (.pageTime t none)
  | pageTime {a t b o c} : OptNum a t → c.toLower = 'o' → OptNum b o → TagIs c!"pt" (a ++ c :: b) (.pageTime t o)
  | pageBackgroundDefault : TagIs c!"pb" [] (.pageBackground none)
  | pageBackground {a c} : ColorIs a c → TagIs c!"pb" a (.pageBackground (some c))
  | colorForegroundDefault : TagIs c!"cf" [] (.colorForeground none)
  | colorForeground {a c} : ColorIs a c → TagIs c!"cf" a (.colorForeground (some c))
  | colorBackgroundDefault : TagIs c!"cb" [] (.colorBackground none)
  | colorBackground {a n} : Num8 a n → TagIs c!"cb" a (.colorBackground (some (.legacy n)))
  | colorRectangle {a r b c} : RectIs a r → ColorIs b c → TagIs c!"cr" (a ++ ',' :: b) (.colorRectangle r c)
  | textRectangle {a r} : RectIs a r → TagIs c!"tr" a (.textRectangle r)
  | spacing {a n} : Num8 a n → n ≤ 99 → TagIs c!"sc" a (.spacingCharacter n)
  | spacingEnd : TagIs c!"/sc" [] .spacingCharacterEnd
  | hexadecimal {a n} : NumHex a n → TagIs c!"hc" a (.hexadecimalCharacter n)
  | flash : TagIs c!"fl" [] (.flash .onOff none none)
  | flashOn {c a t} : c.toLower = 't' → FlashIs a t → TagIs c!"fl" (c :: a) (.flash .onOff t none)
  | flashOnOff {c a t k b o} : c.toLower = 't' → FlashIs a t → k.toLower = 'o' → FlashIs b o →
      TagIs c!"fl" (c :: a ++ k :: b) (.flash .onOff t o)
  | flashOff {c a t} : c.toLower = 'o' → FlashIs a t → TagIs c!"fl" (c :: a) (.flash .offOn t none)
  | flashOffOn {c a t k b o} : c.toLower = 'o' → FlashIs a t → k.toLower = 't' → FlashIs b o →
      TagIs c!"fl" (c :: a ++ k :: b) (.flash .offOn t o)
  | flashEnd : TagIs c!"/fl" [] .flashEnd
  | circular {c a dir w n k t} : c.toLower = 'c' → MovingIs a dir w n k t →
      TagIs c!"mv" (c :: a) (.movingText .circular dir w n k t)
  | linear {c a dir w n k t} : c.toLower = 'l' → MovingIs a dir w n k t →
      TagIs c!"mv" (c :: a) (.movingText (.linear 0) dir w n k t)
  | linearDelay {c d i a dir w n k t} : c.toLower = 'l' → DigitIs 10 d i.toNat → MovingIs a dir w n k t →
      TagIs c!"mv" (c :: d :: a) (.movingText (.linear i) dir w n k t)
  | manufacturer {a n t} : CodeIs a n t → TagIs c!"ms" a (.manufacturerSpecific n t)
  | manufacturerEnd {a n t} : CodeIs a n t → TagIs c!"/ms" a (.manufacturerSpecificEnd n t)
  | field {a n} : Num8 a n → n < 14 → TagIs c!"f" a (.field n none)
  | fieldWidth {a n b w} : Num8 a n → n < 14 → OptNum b w → TagIs c!"f" (a ++ ',' :: b) (.field n w)
  | graphic {a n} : Num8 a n → n ≠ 0 → TagIs c!"g" a (.graphic n none)
  | graphicAt {a n p x y} : Num8 a n → n ≠ 0 → PointIs p x y → TagIs c!"g" (a ++ ',' :: p) (.graphic n (some (x, y, none)))
  | graphicVersion {a n p x y b v} : Num8 a n → n ≠ 0 → PointIs p x y → VersionIs b v →
      TagIs c!"g" (a ++ ',' :: p ++ ',' :: b) (.graphic n (some (x, y, some v)))

/-- The value of an item: one of the two escapes, a tag whose name may be in upper or lower case, or text -/
inductive Denotes : Str → Value → Prop
  | escOpen : Denotes c!"[[" (.text c!"[")
  | escClose : Denotes c!"]]" (.text c!"]")
  | tag {name params v} : TagIs (name.map Char.toLower) params v → Denotes ('[' :: (name ++ params ++ [']'])) v
  | text {s} : s.head? ≠ some '[' → s.head? ≠ some ']' → (∀ c ∈ s, 1 ≤ c.toNat ∧ c.toNat ≤ 0xFF) → Denotes s (.text s)

/-- the items with these values, one by one -/
inductive AllDenote : List Str → List Value → Prop
  | nil : AllDenote [] []
  | cons {s ss v vs} : Denotes s v → AllDenote ss vs → AllDenote (s :: ss) (v :: vs)

/-- The message is made of items with these values, cut at the boundaries of tags -/
def MessageIs (ms : Str) (vs : List Value) : Prop := ∃ items, items.flatten = ms ∧ Cut items ∧ AllDenote items vs

end Ntcip.Spec
