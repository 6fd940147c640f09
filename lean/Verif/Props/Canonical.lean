import Verif.Lemmas.Display
import Verif.Props.Ranges
/-
C06: the canonical text of a value.
-/
namespace Ntcip
open Spec

theorem faithful_of_item {t : Str} {v : Value} (ht : Item t) (h : tryFrom t = .ok (.ok v))
    (hc : ∀ c, v = .hexadecimalCharacter c → c.toNat < 10) : Faithful v :=
  ⟨C04_in_range t v ht h, hc⟩

/-- **C06 (all values except hexadecimal characters of two or more decimal digits)** a value that
was read from an item of a MULTI string, written in its canonical form, is read back as the same
value; and the canonical form is one item.
Missing for the full claim: `[hc]` is written in decimal, but read in hexadecimal, see
`C06_hex_partial` and `C06_false`. -/
theorem C06_roundtrip_partial (t : Str) (v : Value) (ht : Item t) (h : tryFrom t = .ok (.ok v))
    (hc : ∀ c, v = .hexadecimalCharacter c → c.toNat < 10) :
    tryFrom v.display = .ok (.ok v) ∧ slices v.display = [v.display] := by
  obtain ⟨h1, h2⟩ := display_parse v (faithful_of_item ht h hc)
  refine ⟨h2, ?_⟩
  have hf : Follows v.display ([] : Str).head? := by simp [Follows]
  have := slices_item (r := []) h1 hf
  rwa [List.append_nil, slices_nil] at this

/-- **C06 (hexadecimal characters)** exactly the code points below 10 survive. -/
theorem C06_hex_partial (c : UInt16) :
    tryFrom (Value.hexadecimalCharacter c).display = .ok (.ok (.hexadecimalCharacter c)) ↔
      c.toNat < 10 := by
  constructor
  · intro h
    have e : (Value.hexadecimalCharacter c).display = '[' :: (Kind.hc.name ++ dec c.toNat ++ [']']) := rfl
    rw [e, tryFrom_kind .hc _ _ (kind_name_lower _) trivial (dec_plain _)] at h
    simp only [Kind.body, parseHex16] at h
    rw [parseUInt_digits _ _ _ (dec_ne_nil _) (dec_head _)] at h
    obtain ⟨m, h1, h2, h3, -⟩ := digitsVal_hex_dec c.toNat c.toNat (Nat.le_refl _)
    rw [show digitsVal 16 0 (dec c.toNat) = some m from h1] at h
    simp only [Option.bind_some] at h
    by_cases hm : m ≤ 65535
    · simp [hm, orTagValue] at h
      have := congrArg UInt16.toNat h
      simp at this
      omega
    · simp [hm, orTagValue] at h
  · intro h
    exact (display_parse (.hexadecimalCharacter c) ⟨trivial, by rintro _ ⟨⟩; exact h⟩).2

/-- **C06 is false** for hexadecimal characters: `[hc41]` is U+0041 'A', its canonical text
`[hc65]` is U+0065 'e'; the canonical text of `[hcFFFF]` is not a valid tag. -/
theorem C06_false :
    tryFrom c!"[hc41]" = .ok (.ok (.hexadecimalCharacter 0x41)) ∧
    (Value.hexadecimalCharacter 0x41).display = c!"[hc65]" ∧
    tryFrom c!"[hc65]" = .ok (.ok (.hexadecimalCharacter 0x65)) ∧
    (Value.hexadecimalCharacter 0xFFFF).display = c!"[hc65535]" ∧
    tryFrom c!"[hc65535]" = .ok (.error (.unsupportedTagValue c!"hc65535")) := by decide +kernel

-- different text, same value
example : tryFrom c!"[FO+07,0aBc]" = .ok (.ok (.font (some (7, some 0xabc)))) ∧
    (Value.font (some (7, some 0xabc))).display = c!"[fo7,0abc]" ∧
    tryFrom c!"[fo7,0abc]" = .ok (.ok (.font (some (7, some 0xabc)))) := by decide +kernel
example : tryFrom c!"[fl]" = .ok (.ok (.flash .onOff none none)) ∧
    (Value.flash .onOff none none).display = c!"[flto]" := by decide +kernel

end Ntcip
