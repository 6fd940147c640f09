/-
Independent description of how a MULTI string is cut into items.
Does not mention the model.
-/
namespace Ntcip.Spec

/-- no bracket inside -/
def Plain (s : List Char) : Prop := ∀ c ∈ s, c ≠ '[' ∧ c ≠ ']'

/-- the shapes an item of a MULTI string can have -/
inductive Item : List Char → Prop
  /-- the escape `[[` -/
  | escOpen : Item ['[', '[']
  /-- the escape `]]` -/
  | escClose : Item [']', ']']
  /-- a complete tag, without brackets inside -/
  | tag (b : List Char) : Plain b → Item ('[' :: (b ++ [']']))
  /-- a text span: one or more characters, none of them a bracket -/
  | span (t : List Char) : t ≠ [] → Plain t → Item t
  /-- a stray closing bracket -/
  | stray : Item [']']
  /-- an opening bracket that is never closed -/
  | frag (b : List Char) : Plain b → Item ('[' :: b)

/-- is `c` a bracket? -/
def IsBracket (c : Char) : Prop := c = '[' ∨ c = ']'

/-- What may come after the item `t` (`none`: nothing, the string ends; `some c`: the next
character is `c`).
* after a text span only a bracket: spans are maximal;
* an unterminated fragment goes on until the next `[` or the end; a lone `[` can only be the last
  item;
* after a stray `]` there is no other `]` (that would be an escape). -/
def Follows (t : List Char) (next : Option Char) : Prop :=
  (t ≠ [] → Plain t → ∀ c, next = some c → IsBracket c) ∧
  (∀ b, t = '[' :: b → Plain b → ∀ c, next = some c → b ≠ [] ∧ c = '[') ∧
  (t = [']'] → next ≠ some ']')

/-- `toks` is a correct way to cut a string: every item has a legal shape, and is followed by
something it may be followed by. -/
def Cut : List (List Char) → Prop
  | [] => True
  | t :: rest => Item t ∧ Follows t rest.flatten.head? ∧ Cut rest

end Ntcip.Spec
