import Verif.Lemmas.Changed
import Verif.Props.Oer
/-
C119: version IDs tell of a few changed bits.
-/
namespace Ntcip
open Spec Oer Tests

theorem fromBe_checksum {x y : List UInt8} :
    Crc.fromBe (Crc.checksum x) = Crc.fromBe (Crc.checksum y) ↔
      x.foldl Crc.byte 0xffff#16 = y.foldl Crc.byte 0xffff#16 := by
  constructor
  · exact fun h => Crc.checksum_inj (Crc.fromBe_inj h)
  · intro h; simp only [Crc.checksum, h]

/-- data with the same beginning and end -/
theorem changed_inside (head tail : List UInt8) {l l' : List UInt8} (h : l.length = l'.length) :
    Crc.fromBe (Crc.checksum (head ++ l ++ tail)) = Crc.fromBe (Crc.checksum (head ++ l' ++ tail)) ↔
      (changedBits l l').foldl Crc.bitStep 0#16 = 0#16 := by
  rw [fromBe_checksum, ← Crc.changed_run h (head.foldl Crc.byte 0xffff#16)]
  simp only [List.foldl_append]
  exact ⟨Crc.foldl_inj tail, fun h => by rw [h]⟩

theorem graphic_changed (g : Graphic) {bm bm' : List UInt8} (h : bm.length = bm'.length) :
    ({ g with bitmap := bm } : Graphic).versionId = ({ g with bitmap := bm' } : Graphic).versionId ↔
      (changedBits bm bm').foldl Crc.bitStep 0#16 = 0#16 := by
  have hh : ∀ bm, ({ g with bitmap := bm } : Graphic).oer = ({ g with bitmap := [] } : Graphic).oer ++ bm ++ [] :=
    fun bm => by simp [Graphic.oer, octetStr]
  unfold Graphic.versionId
  rw [hh bm, hh bm']
  exact changed_inside _ _ h

/-- **C119 (odd)** When an odd number of bits of the bitmap of a graphic is changed, so is its version ID. -/
theorem C119_graphic_odd (g : Graphic) (bm bm' : List UInt8) (hl : bm.length = bm'.length)
    (h : bitsChanged bm bm' % 2 = 1) :
    ({ g with bitmap := bm } : Graphic).versionId ≠ ({ g with bitmap := bm' } : Graphic).versionId := by
  rw [Ne, graphic_changed g hl]
  exact Crc.odd_bits h

/-- **C119 (few)** When one, two or three bits of the bitmap of a graphic of up to 4095 bytes are changed, so is its version
ID. -/
theorem C119_graphic_few (g : Graphic) (bm bm' : List UInt8) (hl : bm.length = bm'.length) (hs : bm.length ≤ 4095)
    (h1 : 1 ≤ bitsChanged bm bm') (h3 : bitsChanged bm bm' ≤ 3) :
    ({ g with bitmap := bm } : Graphic).versionId ≠ ({ g with bitmap := bm' } : Graphic).versionId := by
  rw [Ne, graphic_changed g hl]
  exact Crc.few_bits (by rw [Crc.changedBits_length hl]; omega) h1 h3

/-- **C119 (two)** When exactly two bits are changed, then the version ID is the same exactly if their distance is a
multiple of 32767 bits. -/
theorem C119_graphic_two_iff (g : Graphic) (bm bm' : List UInt8) (hl : bm.length = bm'.length) (a m c : Nat)
    (h : changedBits bm bm' =
      List.replicate a false ++ true :: (List.replicate m false ++ true :: List.replicate c false)) :
    ({ g with bitmap := bm } : Graphic).versionId = ({ g with bitmap := bm' } : Graphic).versionId ↔ 32767 ∣ m + 1 := by
  rw [graphic_changed g hl, h, Crc.two_bits]

/-- **C119 (burst)** When only bits within 16 consecutive bits are changed, wherever they begin, so is the version ID. -/
theorem C119_graphic_burst (g : Graphic) (bm bm' : List UInt8) (hl : bm.length = bm'.length) (a c : Nat) (w : List Bool)
    (h : changedBits bm bm' = List.replicate a false ++ (w ++ List.replicate c false)) (hw : w.length ≤ 16) (ht : true ∈ w) :
    ({ g with bitmap := bm } : Graphic).versionId ≠ ({ g with bitmap := bm' } : Graphic).versionId := by
  rw [Ne, graphic_changed g hl, h, Crc.run_false, Crc.run_end]
  exact Crc.window_bits hw ht

/-! ### fonts -/

theorem changedBits_append {a a' b b' : List UInt8} (h : a.length = a'.length) :
    changedBits (a ++ b) (a' ++ b') = changedBits a a' ++ changedBits b b' := by
  unfold changedBits
  rw [show bytesBits (a ++ b) = bytesBits a ++ bytesBits b by simp [bytesBits],
    show bytesBits (a' ++ b') = bytesBits a' ++ bytesBits b' by simp [bytesBits]]
  exact List.zipWith_append (by rw [Crc.bytesBits_length, Crc.bytesBits_length, h])

theorem changedBits_same (a : List UInt8) : changedBits a a = List.replicate (8 * a.length) false := by
  unfold changedBits
  rw [← Crc.bytesBits_length]
  generalize bytesBits a = l
  induction l with
  | nil => rfl
  | cons b l ih => rw [List.zipWith_cons_cons, ih, List.length_cons, List.replicate_succ, Bool.xor_self]

theorem bitsChanged_same (a : List UInt8) : bitsChanged a a = 0 := by
  rw [bitsChanged, changedBits_same, List.count_replicate]; rfl

theorem bitsChanged_append {a a' b b' : List UInt8} (h : a.length = a'.length) :
    bitsChanged (a ++ b) (a' ++ b') = bitsChanged a a' + bitsChanged b b' := by
  simp only [bitsChanged, changedBits_append h, List.count_append]

theorem charOer_changed {c c' : CharacterEntry} (h1 : c.number = c'.number) (h2 : c.width = c'.width)
    (h3 : c.bitmap.length = c'.bitmap.length) :
    (Font.charOer c).length = (Font.charOer c').length ∧
      bitsChanged (Font.charOer c) (Font.charOer c') = (if c.number = 0 then 0 else bitsChanged c.bitmap c'.bitmap) ∧
      (Font.charOer c).length ≤ (if c.number = 0 then 0 else c.bitmap.length + 8) := by
  unfold Font.charOer
  by_cases h0 : c.number = 0
  · rw [if_pos h0, if_pos h0, ← h1, h0]
    simp [bitsChanged_same]
  · have hp : c.number > 0 := by
      rw [u16_ne_zero]; intro h; apply h0; rw [← UInt16.toNat_inj]; exact h
    rw [if_neg h0, if_neg h0, ← h1, if_pos hp, if_pos hp, ← h2]
    unfold octetString
    rw [← h3]
    refine ⟨by simp [h3], ?_, ?_⟩
    · rw [← List.append_assoc, ← List.append_assoc, bitsChanged_append rfl, bitsChanged_same, Nat.zero_add]
    · have : (lengthPrefix (UInt32.ofNat c.bitmap.length)).length ≤ 5 := by
        rw [lengthPrefix_eq]
        repeat' split
        all_goals simp [u8, u16, u24, u32]
      simp [u8, u16]
      omega

theorem slots_changed : ∀ {cs cs' : List CharacterEntry}, SameSlots cs cs' →
    (cs.filter (fun c => c.number > 0)).length = (cs'.filter (fun c => c.number > 0)).length ∧
      (cs.flatMap Font.charOer).length = (cs'.flatMap Font.charOer).length ∧
      bitsChanged (cs.flatMap Font.charOer) (cs'.flatMap Font.charOer) = glyphBitsChanged cs cs' ∧
      (cs.flatMap Font.charOer).length ≤ glyphsSize cs := by
  intro cs
  induction cs with
  | nil =>
    intro cs' h
    cases cs' with
    | nil => exact ⟨rfl, rfl, rfl, Nat.le_refl _⟩
    | cons c' cs' => exact h.elim
  | cons c cs ih =>
    intro cs' h
    cases cs' with
    | nil => exact h.elim
    | cons c' cs' =>
      obtain ⟨h1, h2, h3, h4⟩ := h
      obtain ⟨i1, i2, i3, i4⟩ := ih h4
      obtain ⟨j1, j2, j3⟩ := charOer_changed h1 h2 h3
      refine ⟨?_, ?_, ?_, ?_⟩
      · simp only [List.filter_cons, ← h1]
        split <;> simp [i1]
      · simp only [List.flatMap_cons, List.length_append, i2, j1]
      · simp only [List.flatMap_cons]
        rw [bitsChanged_append j1, i3, j2]; rfl
      · simp only [List.flatMap_cons, List.length_append]
        have : glyphsSize (c :: cs) = (if c.number = 0 then 0 else c.bitmap.length + 8) + glyphsSize cs := by
          simp [glyphsSize]
        omega

theorem font_changed (f : Font) {cs cs' : List CharacterEntry} (h : SameSlots cs cs') :
    ({ f with characters := cs } : Font).versionId = ({ f with characters := cs' } : Font).versionId ↔
      (changedBits (cs.flatMap Font.charOer) (cs'.flatMap Font.charOer)).foldl Crc.bitStep 0#16 = 0#16 := by
  obtain ⟨h1, h2, _, _⟩ := slots_changed h
  unfold Font.versionId Font.oer
  simp only [h1]
  have := changed_inside (u8 f.number ++ u8 f.height ++ u8 f.charSpacing ++ u8 f.lineSpacing ++
    uint (UInt32.ofNat (cs'.filter (fun c => c.number > 0)).length)) [] h2
  simpa using this

/-- **C119 (odd, fonts)** When an odd number of bits of the characters of a font is changed, so is its version ID. -/
theorem C119_font_odd (f : Font) (cs cs' : List CharacterEntry) (hs : SameSlots cs cs')
    (h : glyphBitsChanged cs cs' % 2 = 1) :
    ({ f with characters := cs } : Font).versionId ≠ ({ f with characters := cs' } : Font).versionId := by
  rw [Ne, font_changed f hs]
  exact Crc.odd_bits (by rw [← (slots_changed hs).2.2.1] at h; exact h)

/-- **C119 (few, fonts)** When one, two or three bits of the characters of a font are changed, also of different characters,
so is its version ID, if the data of the characters has up to 4095 bytes. -/
theorem C119_font_few (f : Font) (cs cs' : List CharacterEntry) (hs : SameSlots cs cs') (hg : glyphsSize cs ≤ 4095)
    (h1 : 1 ≤ glyphBitsChanged cs cs') (h3 : glyphBitsChanged cs cs' ≤ 3) :
    ({ f with characters := cs } : Font).versionId ≠ ({ f with characters := cs' } : Font).versionId := by
  rw [Ne, font_changed f hs]
  obtain ⟨_, i2, i3, i4⟩ := slots_changed hs
  rw [← i3] at h1 h3
  exact Crc.few_bits (by rw [Crc.changedBits_length i2]; omega) h1 h3

/-- **C119 (burst, fonts)** When only bits within 16 consecutive bits of a character of a font are changed, wherever they
begin, so is the version ID. -/
theorem C119_font_burst (f : Font) (cs ds : List CharacterEntry) (c : CharacterEntry) (hc : c.number ≠ 0)
    (bm bm' : List UInt8) (hl : bm.length = bm'.length) (a k : Nat) (w : List Bool)
    (h : changedBits bm bm' = List.replicate a false ++ (w ++ List.replicate k false)) (hw : w.length ≤ 16) (ht : true ∈ w) :
    ({ f with characters := cs ++ { c with bitmap := bm } :: ds } : Font).versionId ≠
      ({ f with characters := cs ++ { c with bitmap := bm' } :: ds } : Font).versionId := by
  obtain ⟨head, tail, hh⟩ := font_oer_context f cs ds c hc bm.length
  unfold Font.versionId
  rw [hh bm rfl, hh bm' hl.symm, Ne, changed_inside head tail hl, h, Crc.run_false, Crc.run_end]
  exact Crc.window_bits hw ht

/-! ### cases -/

/-- **C119 (limit)** The bound of 4095 bytes can not be left out: there are two valid graphics of 256 by 128 pixels, which
differ in two pixels only and have the same version ID. -/
theorem C119_unseen : ∃ g g' : Graphic, g.validate 256 128 = .ok () ∧ g'.validate 256 128 = .ok () ∧
    g' = { g with bitmap := g'.bitmap } ∧ bitsChanged g.bitmap g'.bitmap = 2 ∧ g.versionId = g'.versionId := by
  have e : changedBits (0 :: (List.replicate 4094 0 ++ [0])) (1 :: (List.replicate 4094 0 ++ [128])) =
      List.replicate 0 false ++ true :: (List.replicate 32766 false ++ true :: List.replicate 0 false) := by
    rw [show (0 :: (List.replicate 4094 0 ++ [0]) : List UInt8) = [0] ++ (List.replicate 4094 0 ++ [0]) from rfl,
      show (1 :: (List.replicate 4094 0 ++ [128]) : List UInt8) = [1] ++ (List.replicate 4094 0 ++ [128]) from rfl,
      changedBits_append (a := [0]) (a' := [1]) rfl, changedBits_append (b := [0]) (b' := [128]) rfl, changedBits_same, List.length_replicate,
      show changedBits [0] [1] = true :: List.replicate 7 false by decide,
      show changedBits [0] [128] = List.replicate 7 false ++ [true] by decide]
    rw [List.replicate_zero, List.nil_append, List.cons_append, ← List.append_assoc, ← List.append_assoc,
      List.replicate_append_replicate, List.replicate_append_replicate]
  refine ⟨⟨1, [], 128, 256, .monochrome1Bit, none, 0 :: (List.replicate 4094 0 ++ [0])⟩,
    ⟨1, [], 128, 256, .monochrome1Bit, none, 1 :: (List.replicate 4094 0 ++ [128])⟩, ?_, ?_, rfl, ?_, ?_⟩
  · decide +kernel
  · decide +kernel
  · rw [bitsChanged, e, List.count_append, List.count_cons, List.count_append, List.count_cons, List.count_replicate,
      List.count_replicate]
    rfl
  · exact (C119_graphic_two_iff ⟨1, [], 128, 256, .monochrome1Bit, none, []⟩ _ _
      (by rw [List.length_cons, List.length_cons, List.length_append, List.length_append, List.length_cons, List.length_cons]) 0 32766 0 e).2 ⟨1, rfl⟩

-- three pixels of a graphic
example : ({ (⟨1, [], 3, 8, .monochrome1Bit, none, []⟩ : Graphic) with bitmap := [0x18, 0x3c, 0x18] } : Graphic).versionId ≠
    ({ (⟨1, [], 3, 8, .monochrome1Bit, none, []⟩ : Graphic) with bitmap := [0x10, 0x3c, 0x99] } : Graphic).versionId :=
  C119_graphic_few _ _ _ rfl (by decide) (by decide) (by decide)

-- bits in three bytes, within 16 bits
example : ({ (⟨1, [], 3, 8, .monochrome1Bit, none, []⟩ : Graphic) with bitmap := [0, 0, 0] } : Graphic).versionId ≠
    ({ (⟨1, [], 3, 8, .monochrome1Bit, none, []⟩ : Graphic) with bitmap := [0xF0, 0xFF, 0x0F] } : Graphic).versionId :=
  C119_graphic_burst _ _ _ rfl 4 4 (List.replicate 16 true) (by decide) (by decide) (by decide)

-- two bits in different characters of a font
example : ({ f08 with characters := [⟨65, 3, [0x5f, 0x6d]⟩, ⟨66, 3, [0xd7, 0x5c]⟩] } : Font).versionId ≠
    ({ f08 with characters := [⟨65, 3, [0x5f, 0x6f]⟩, ⟨66, 3, [0x57, 0x5c]⟩] } : Font).versionId :=
  C119_font_few _ _ _ ⟨rfl, rfl, rfl, rfl, rfl, rfl, trivial⟩ (by decide) (by decide) (by decide)

end Ntcip
