import Verif.Lemmas.Oer
import Verif.Props.Text
/-
C31 – C33: version IDs and the OER encoding under them.
-/
namespace Ntcip
open Spec Oer Tests

/-! ### C33 encoding of lengths and integers -/

/-- **C33 (length)** every length prefix decodes to the length, whatever follows -/
theorem C33_length_decodes (n : UInt32) (rest : List UInt8) :
    decodeLength (lengthPrefix n ++ rest) = some (n.toNat, rest) := by
  rw [lengthPrefix_eq]
  split
  · rename_i h
    simp only [List.cons_append, List.nil_append, decodeLength, byte8, Nat.mod_eq_of_lt (show n.toNat < 256 by omega), h, if_true]
  split
  · rename_i h
    rw [List.cons_append, decodeLength_long 129 1 rfl (by omega) _ _ rfl, beVal_u8 n h]
  split
  · rename_i h
    rw [List.cons_append, decodeLength_long 130 2 rfl (by omega) _ _ rfl, beVal_u16' n h]
  split
  · rename_i h
    rw [List.cons_append, decodeLength_long 131 3 rfl (by omega) _ _ rfl, beVal_u24 n h]
  · rw [List.cons_append, decodeLength_long 132 4 rfl (by omega) _ _ rfl, beVal_u32 n]

/-- **C33 (integer)** every unsigned integer decodes to its value, whatever follows -/
theorem C33_uint_decodes (n : UInt32) (rest : List UInt8) :
    decodeUint (uint n ++ rest) = some (n.toNat, rest) := by
  rw [uint_eq]
  split
  · rename_i h
    rw [List.cons_append, decodeUint_short 1 1 rfl (by omega) (by omega) _ _ rfl, beVal_u8 n h]
  split
  · rename_i h
    rw [List.cons_append, decodeUint_short 2 2 rfl (by omega) (by omega) _ _ rfl, beVal_u16' n h]
  split
  · rename_i h
    rw [List.cons_append, decodeUint_short 3 3 rfl (by omega) (by omega) _ _ rfl, beVal_u24 n h]
  · rw [List.cons_append, decodeUint_short 4 4 rfl (by omega) (by omega) _ _ rfl, beVal_u32 n]

/-- **C33 (shortest length)** no octets that decode to the same length are fewer -/
theorem C33_length_shortest (n : UInt32) (bs : List UInt8) (h : decodeLength bs = some (n.toNat, [])) :
    (lengthPrefix n).length ≤ bs.length := by
  cases bs with
  | nil => simp [decodeLength] at h
  | cons b rest =>
    rw [lengthPrefix_eq]
    simp only [decodeLength] at h
    by_cases hb : b.toNat < 128
    · rw [if_pos hb] at h
      simp only [Option.some.injEq, Prod.mk.injEq] at h
      rw [if_pos (by omega)]; simp
    · rw [if_neg hb] at h
      split at h
      · simp at h
      · rename_i hk
        simp only [Option.some.injEq, Prod.mk.injEq, List.drop_eq_nil_iff] at h
        obtain ⟨h1, h2⟩ := h
        rw [List.take_of_length_le h2] at h1
        have hl := beVal_ge_length rest
        rw [h1] at hl
        simp only [List.length_cons]
        repeat' split
        all_goals simp only [List.length_cons, List.length_nil, u8, u16, u24, u32]
        all_goals omega

/-- **C33 (shortest integer)** no octets that decode to the same integer are fewer -/
theorem C33_uint_shortest (n : UInt32) (bs : List UInt8) (h : decodeUint bs = some (n.toNat, [])) :
    (uint n).length ≤ bs.length := by
  rw [uint_eq]
  unfold decodeUint at h
  split at h
  · simp at h
  · rename_i k rest hd
    split at h
    · simp at h
    · rename_i hk
      simp only [Option.some.injEq, Prod.mk.injEq, List.drop_eq_nil_iff] at h
      obtain ⟨h1, h2⟩ := h
      rw [List.take_of_length_le h2] at h1
      have hl := beVal_ge_length rest
      rw [h1] at hl
      have hbs : rest.length + 1 ≤ bs.length := by
        cases bs with
        | nil => simp [decodeLength] at hd
        | cons b r =>
          simp only [decodeLength] at hd
          split at hd
          · simp only [Option.some.injEq, Prod.mk.injEq] at hd
            rw [← hd.2]; simp
          · split at hd
            · simp at hd
            · simp only [Option.some.injEq, Prod.mk.injEq] at hd
              rw [← hd.2]; simp
      repeat' split
      all_goals simp only [List.length_cons, List.length_nil, u8, u16, u24, u32]
      all_goals omega

example : lengthPrefix 300 = [130, 1, 44] := by decide +kernel
example : decodeLength [130, 1, 44, 7] = some (300, [7]) := by decide +kernel

/-! ### C31 detection of local corruption -/

/-- **C31 (graphics)** graphics that differ only inside two adjacent bytes of the bitmap have
different version IDs. -/
theorem C31_graphic_burst (g : Graphic) (pre post : List UInt8) (a b a' b' : UInt8)
    (hne : (a, b) ≠ (a', b')) :
    ({ g with bitmap := pre ++ [a, b] ++ post } : Graphic).versionId ≠
    ({ g with bitmap := pre ++ [a', b'] ++ post } : Graphic).versionId := by
  intro h
  apply hne
  have : ∃ head, ∀ bm, ({ g with bitmap := bm } : Graphic).oer = head ++ bm :=
    ⟨({ g with bitmap := [] } : Graphic).oer, fun bm => by simp [Graphic.oer, octetStr]⟩
  obtain ⟨head, hh⟩ := this
  unfold Graphic.versionId at h
  rw [hh, hh, ← List.append_assoc, ← List.append_assoc, ← List.append_assoc, ← List.append_assoc] at h
  obtain ⟨h1, h2⟩ := Crc.burst _ _ _ _ _ _ h
  rw [h1, h2]

/-- **C31 (graphics, one byte)** also for bitmaps of a single byte -/
theorem C31_graphic_byte (g : Graphic) (pre post : List UInt8) (a a' : UInt8) (hne : a ≠ a') :
    ({ g with bitmap := pre ++ [a] ++ post } : Graphic).versionId ≠
    ({ g with bitmap := pre ++ [a'] ++ post } : Graphic).versionId := by
  intro h
  apply hne
  have : ∃ head, ∀ bm, ({ g with bitmap := bm } : Graphic).oer = head ++ bm :=
    ⟨({ g with bitmap := [] } : Graphic).oer, fun bm => by simp [Graphic.oer, octetStr]⟩
  obtain ⟨head, hh⟩ := this
  unfold Graphic.versionId at h
  rw [hh, hh, ← List.append_assoc, ← List.append_assoc, ← List.append_assoc, ← List.append_assoc] at h
  exact Crc.burst1 _ _ _ _ h

/-- the bytes hashed for a font around the bitmap of one character -/
theorem font_oer_context (f : Font) (cs ds : List CharacterEntry) (c : CharacterEntry)
    (hc : c.number ≠ 0) (n : Nat) :
    ∃ head tail, ∀ bm : List UInt8, bm.length = n →
      ({ f with characters := cs ++ { c with bitmap := bm } :: ds } : Font).oer = head ++ bm ++ tail := by
  have hc' : c.number > 0 := by
    rw [u16_ne_zero]; intro h; apply hc; rw [← UInt16.toNat_inj]; exact h
  refine ⟨u8 f.number ++ u8 f.height ++ u8 f.charSpacing ++ u8 f.lineSpacing ++
    uint (UInt32.ofNat ((cs ++ c :: ds).filter (fun c => c.number > 0)).length) ++
    cs.flatMap Font.charOer ++ Oer.u16 c.number ++ Oer.u8 c.width ++ lengthPrefix (UInt32.ofNat n),
    ds.flatMap Font.charOer, ?_⟩
  intro bm hl
  have e : ((cs ++ { c with bitmap := bm } :: ds).filter (fun c => c.number > 0)).length =
      ((cs ++ c :: ds).filter (fun c => c.number > 0)).length := by
    simp only [List.filter_append, List.length_append]
    congr 1
    by_cases h : c.number > 0
    · simp [h]
    · exact absurd hc' h
  simp only [Font.oer, e, List.flatMap_append, List.flatMap_cons]
  simp [Font.charOer, hc', octetString, hl, List.append_assoc]

/-- **C31 (fonts)** fonts that differ only inside two adjacent bytes of the bitmap of one character
have different version IDs. -/
theorem C31_font_burst (f : Font) (cs ds : List CharacterEntry) (c : CharacterEntry)
    (hc : c.number ≠ 0) (pre post : List UInt8) (a b a' b' : UInt8) (hne : (a, b) ≠ (a', b')) :
    ({ f with characters := cs ++ { c with bitmap := pre ++ [a, b] ++ post } :: ds } : Font).versionId ≠
    ({ f with characters := cs ++ { c with bitmap := pre ++ [a', b'] ++ post } :: ds } : Font).versionId := by
  intro h
  apply hne
  obtain ⟨head, tail, hh⟩ := font_oer_context f cs ds c hc (pre.length + 2 + post.length)
  unfold Font.versionId at h
  rw [hh _ (by simp only [List.length_append, List.length_cons, List.length_nil]),
    hh _ (by simp only [List.length_append, List.length_cons, List.length_nil])] at h
  have e : ∀ x y : UInt8, head ++ (pre ++ [x, y] ++ post) ++ tail =
      (head ++ pre) ++ [x, y] ++ (post ++ tail) := by intro x y; simp
  rw [e, e] at h
  obtain ⟨h1, h2⟩ := Crc.burst _ _ _ _ _ _ h
  rw [h1, h2]

/-- **C31 (fonts, one byte)** -/
theorem C31_font_byte (f : Font) (cs ds : List CharacterEntry) (c : CharacterEntry)
    (hc : c.number ≠ 0) (pre post : List UInt8) (a a' : UInt8) (hne : a ≠ a') :
    ({ f with characters := cs ++ { c with bitmap := pre ++ [a] ++ post } :: ds } : Font).versionId ≠
    ({ f with characters := cs ++ { c with bitmap := pre ++ [a'] ++ post } :: ds } : Font).versionId := by
  intro h
  apply hne
  obtain ⟨head, tail, hh⟩ := font_oer_context f cs ds c hc (pre.length + 1 + post.length)
  unfold Font.versionId at h
  rw [hh _ (by simp only [List.length_append, List.length_cons, List.length_nil]),
    hh _ (by simp only [List.length_append, List.length_cons, List.length_nil])] at h
  have e : ∀ x : UInt8, head ++ (pre ++ [x] ++ post) ++ tail =
      (head ++ pre) ++ [x] ++ (post ++ tail) := by intro x; simp
  rw [e, e] at h
  exact Crc.burst1 _ _ _ _ h

-- one bit of a bitmap
example : (⟨1, [], 1, 8, .monochrome1Bit, none, [] ++ [0x80] ++ []⟩ : Graphic).versionId ≠
    (⟨1, [], 1, 8, .monochrome1Bit, none, [] ++ [0x81] ++ []⟩ : Graphic).versionId :=
  C31_graphic_byte ⟨1, [], 1, 8, .monochrome1Bit, none, []⟩ [] [] 0x80 0x81 (by decide)

/-! ### C32 the hashed bytes determine the content -/

theorem u16_append_inj {v w : UInt16} {x y : List UInt8} (h : u16 v ++ x = u16 w ++ y) : v = w ∧ x = y := by
  simp only [u16, List.cons_append, List.nil_append, List.cons.injEq] at h
  refine ⟨?_, h.2.2⟩
  have e : beVal (u16 v) = beVal (u16 w) := by
    simp only [u16, h.1, h.2.1]
  rw [beVal_u16, beVal_u16] at e
  exact UInt16.toNat_inj.1 e

theorem u8_append_inj {v w : UInt8} {x y : List UInt8} (h : u8 v ++ x = u8 w ++ y) : v = w ∧ x = y := by
  simpa [u8] using h

theorem octetString_append_inj {a b x y : List UInt8} (ha : a.length < 2 ^ 32) (hb : b.length < 2 ^ 32)
    (h : octetString a ++ x = octetString b ++ y) : a = b ∧ x = y := by
  unfold octetString at h
  rw [List.append_assoc, List.append_assoc] at h
  have h1 := C33_length_decodes (UInt32.ofNat a.length) (a ++ x)
  rw [h, C33_length_decodes] at h1
  simp only [Option.some.injEq, Prod.mk.injEq, UInt32.toNat_ofNat', Nat.mod_eq_of_lt ha,
    Nat.mod_eq_of_lt hb] at h1
  exact (List.append_inj h1.2 h1.1).symm.imp Eq.symm Eq.symm |>.symm

theorem charOers_inj (cs ds : List CharacterEntry)
    (hc : ∀ c ∈ cs, c.number ≠ 0 ∧ c.bitmap.length < 2 ^ 32)
    (hd : ∀ c ∈ ds, c.number ≠ 0 ∧ c.bitmap.length < 2 ^ 32)
    (h : cs.flatMap Font.charOer = ds.flatMap Font.charOer) : cs = ds := by
  have pos : ∀ c : CharacterEntry, c.number ≠ 0 → c.number > 0 := by
    intro c hc
    rw [u16_ne_zero]; intro h; apply hc; rw [← UInt16.toNat_inj]; exact h
  induction cs generalizing ds with
  | nil =>
    cases ds with
    | nil => rfl
    | cons d ds =>
      have := pos d (hd d (by simp)).1
      simp [Font.charOer, this, Oer.u16] at h
  | cons c cs ih =>
    have hcp := pos c (hc c (by simp)).1
    cases ds with
    | nil => simp [Font.charOer, hcp, Oer.u16] at h
    | cons d ds =>
      have hdp := pos d (hd d (by simp)).1
      simp only [List.flatMap_cons, Font.charOer, hcp, hdp, if_true, List.append_assoc] at h
      obtain ⟨h1, h⟩ := u16_append_inj h
      obtain ⟨h2, h⟩ := u8_append_inj h
      obtain ⟨h3, h⟩ := octetString_append_inj (hc c (by simp)).2 (hd d (by simp)).2 h
      have := ih ds (fun c h => hc c (List.mem_cons_of_mem _ h))
        (fun c h => hd c (List.mem_cons_of_mem _ h)) h
      rw [this]
      cases c; cases d; simp_all

/-- **C32 (fonts)** for valid fonts, the bytes hashed into the version ID determine number, height,
spacings and the defined characters with their widths and bitmaps, in order. -/
theorem C32_font_bytes (f g : Font) (hf : FontOk f) (hg : FontOk g) (h : f.oer = g.oer) :
    f.number = g.number ∧ f.height = g.height ∧ f.charSpacing = g.charSpacing ∧
    f.lineSpacing = g.lineSpacing ∧
    f.characters.filter (fun c => c.number.toNat ≠ 0) =
      g.characters.filter (fun c => c.number.toNat ≠ 0) := by
  have e : ∀ l : List CharacterEntry, l.filter (fun c => c.number > 0) =
      l.filter (fun c => c.number.toNat ≠ 0) := by
    intro l; congr 1; funext c
    simp only [u16_ne_zero]
  have small : ∀ (f : Font), FontOk f → ∀ c ∈ f.characters.filter (fun c => c.number.toNat ≠ 0),
      c.number ≠ 0 ∧ c.bitmap.length < 2 ^ 32 := by
    intro f hf c hc
    simp only [List.mem_filter, decide_eq_true_eq] at hc
    refine ⟨?_, ?_⟩
    · intro h; rw [h] at hc; exact hc.2 rfl
    · have hb := hf.bitmaps c hc.1 hc.2
      unfold BytesFor at hb
      have h1 := c.width.toNat_lt
      have h2 := f.height.toNat_lt
      have : c.width.toNat * f.height.toNat ≤ 255 * 255 := Nat.mul_le_mul (by omega) (by omega)
      omega
  unfold Font.oer at h
  rw [← flatMap_charOer_filter f.characters, ← flatMap_charOer_filter g.characters] at h
  simp only [List.append_assoc, e] at h
  obtain ⟨h1, h⟩ := u8_append_inj h
  obtain ⟨h2, h⟩ := u8_append_inj h
  obtain ⟨h3, h⟩ := u8_append_inj h
  obtain ⟨h4, h⟩ := u8_append_inj h
  have k := C33_uint_decodes (UInt32.ofNat
    (f.characters.filter (fun c => c.number.toNat ≠ 0)).length)
    ((f.characters.filter (fun c => c.number.toNat ≠ 0)).flatMap Font.charOer)
  rw [h, C33_uint_decodes] at k
  simp only [Option.some.injEq, Prod.mk.injEq] at k
  exact ⟨h1, h2, h3, h4, charOers_inj _ _ (small f hf) (small g hg) k.2.symm⟩

/-- **C32 (graphics)** graphics with transparent colors of the right kind and the same hashed bytes
agree on everything but the name. -/
theorem C32_graphic_bytes (w1 h1 w2 h2 : Nat) (f g : Graphic) (hf : GraphicOk w1 h1 f)
    (hg : GraphicOk w2 h2 g) (h : f.oer = g.oer) : f = { g with name := f.name } := by
  unfold Graphic.oer at h
  simp only [List.append_assoc] at h
  obtain ⟨e1, h⟩ := u8_append_inj h
  obtain ⟨e2, h⟩ := u16_append_inj h
  obtain ⟨e3, h⟩ := u16_append_inj h
  obtain ⟨e4, h⟩ := u8_append_inj h
  obtain ⟨e5, h⟩ := u8_append_inj h
  have e2' : f.height = g.height := by
    have := congrArg UInt16.toNat e2
    rw [← UInt8.toNat_inj]; simpa using this
  have e4' : f.gtype = g.gtype := by
    revert e4; cases f.gtype <;> cases g.gtype <;> decide
  have hft := hf.transparent
  have hgt := hg.transparent
  have e6 : f.transparentColor = g.transparentColor ∧ f.bitmap = g.bitmap := by
    rw [← e4'] at hgt
    cases ht : f.transparentColor with
    | none =>
      cases ht' : g.transparentColor with
      | none => simp [ht, ht', u8, octetStr] at h; simp [h]
      | some c => simp [ht, ht'] at e5
    | some c =>
      cases ht' : g.transparentColor with
      | none => simp [ht, ht'] at e5
      | some d =>
        rw [ht, ht'] at h
        have k1 := hft c ht
        have k2 := hgt d ht'
        unfold TransparentKind at k1 k2
        cases c <;> cases d <;> simp_all [u8, octetStr]
  cases f; cases g
  simp_all

/-- **C32 (valid tables)** together with C30: for valid fonts the hashed bytes are equal exactly when
the content is. -/
theorem C32_font_bytes_iff (f g : Font) (hf : FontOk f) (hg : FontOk g) :
    f.oer = g.oer ↔ f.number = g.number ∧ f.height = g.height ∧ f.charSpacing = g.charSpacing ∧
      f.lineSpacing = g.lineSpacing ∧
      f.characters.filter (fun c => c.number.toNat ≠ 0) =
        g.characters.filter (fun c => c.number.toNat ≠ 0) := by
  refine ⟨C32_font_bytes f g hf hg, ?_⟩
  rintro ⟨h1, h2, h3, h4, h5⟩
  have e : ∀ l : List CharacterEntry, l.filter (fun c => c.number > 0) =
      l.filter (fun c => c.number.toNat ≠ 0) := by
    intro l; congr 1; funext c
    simp only [u16_ne_zero]
  unfold Font.oer
  rw [← flatMap_charOer_filter f.characters, ← flatMap_charOer_filter g.characters]
  simp only [e, h1, h2, h3, h4, h5]

-- the hypotheses hold for real fonts
example : FontOk f07 ∧ FontOk f08 ∧ f07.oer ≠ f08.oer :=
  ⟨((fontValidate_iff _).1 (by decide +kernel)).2, ((fontValidate_iff _).1 (by decide +kernel)).2,
   by decide +kernel⟩

/-- without the kind check on the transparent color the bytes would be ambiguous -/
example : (⟨1, [], 1, 1, .monochrome8Bit, some (.legacy 5), [0]⟩ : Graphic).oer =
    (⟨1, [], 1, 1, .monochrome8Bit, some (.rgb 5 0 0), [0]⟩ : Graphic).oer := by decide +kernel

end Ntcip
