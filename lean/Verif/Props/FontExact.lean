import Verif.Props.FontFile
import Verif.Props.Tfon
import Verif.Props.Text
/-
C29 and C35: exactly what `Font::width` and `tfon::parse` do.
-/
namespace Ntcip
open Spec Tfon Tests

/-! ### C29 -/

/-- **C29 (exactly)** a non-zero width is returned exactly if the font has slots and all of them have this width,
including the unused ones -/
theorem C29_iff (f : Font) (w : UInt8) (hw : w ≠ 0) :
    f.width = w ↔ f.characters ≠ [] ∧ ∀ c ∈ f.characters, c.width = w := by
  constructor
  · intro h
    refine ⟨?_, C29_width_sound f w hw h⟩
    intro e
    apply hw
    rw [← h]
    simp [Font.width, e]
  · rintro ⟨hne, h⟩
    unfold Font.width
    cases hcs : f.characters with
    | nil => exact absurd hcs hne
    | cons c cs =>
      rw [hcs] at h
      simp only [h c (List.mem_cons_self ..)]
      rw [if_pos]
      rw [List.all_eq_true]
      intro d hd
      simpa using h d hd

/-- **C29 (unused slots)** in a valid font whose unused slots are empty, as those of a new font, the width is 0 as
soon as there is one unused slot -/
theorem C29_unused (f : Font) (h : CharacterEntry.default ∈ f.characters) : f.width = 0 := by
  apply Decidable.byContradiction
  intro hw
  exact hw (((C29_iff f _ hw).1 rfl).2 _ h).symm

example : ({ f07 with characters := [⟨65, 5, []⟩, ⟨66, 5, []⟩] } : Font).width = 5 ∧
    ({ f07 with characters := [⟨65, 5, []⟩, ⟨66, 5, []⟩, .default] } : Font).width = 0 := by decide +kernel

/-! ### C34 -/

/-- **C34 (fonts without characters)** the font read back differs in its height, which is 0 -/
theorem C34_empty (f : Font) (ps : List TProp) (C : Nat) (hw : Tfon.write f = .ok ps)
    (hname : ∃ s, f.name = fstr64 s) (he : used f = []) :
    Tfon.parse C ps = .ok { f with height := 0, characters := List.replicate C .default } := by
  have hv := (C34_write_iff f).1 ⟨ps, hw⟩
  unfold Tfon.write at hw
  simp only [Out.bind_unit_eq_ok, Out.pure_eq, Out.ok.injEq] at hw
  obtain ⟨_, rfl⟩ := hw
  rw [charProps_used f hv.2, he]
  obtain ⟨s, hs⟩ := hname
  have e : fstr64 f.name = f.name := by rw [hs, fstr64_idem]
  simp [Tfon.parse, parseLoop, parseStep, e, Font.default]

/-- **C34 (exactly)** when the font read back is the one that was written, but for the order of slots: exactly if
the font has a character -/
theorem C34_round_trip_iff (f : Font) (ps : List TProp) (C : Nat) (hw : Tfon.write f = .ok ps)
    (hname : ∃ s, f.name = fstr64 s) (hC : (used f).length ≤ C) :
    Tfon.parse C ps = .ok { f with
      characters := used f ++ List.replicate (C - (used f).length) .default } ↔ used f ≠ [] := by
  refine ⟨fun h he => ?_, fun hne => C34_round_trip_partial f ps C hw hname hne hC⟩
  rw [C34_empty f ps C hw hname he] at h
  have hv := ((C34_write_iff f).1 ⟨ps, hw⟩).2.height
  simp only [Out.ok.injEq, Font.mk.injEq] at h
  have := h.2.2.1
  rw [← this] at hv
  simp at hv

/-! ### C35 -/

/-- does the property write to a slot of the font? -/
def Spec.UsesSlot : TProp → Prop
  | .codePoint _ => True
  | .bitmap _ => True
  | _ => False

/-- heights of the bitmaps -/
def Spec.bitmapHeights (ps : List TProp) : List UInt8 :=
  ps.filterMap fun
    | .bitmap b => some b.height
    | _ => none

/-- a property that needs a slot, when those before have used up `C` slots -/
def Spec.OutOfSlots (C : Nat) (props : List TProp) : Prop :=
  ∃ pre p post, props = pre ++ p :: post ∧ UsesSlot p ∧ C ≤ pre.countP isBitmap ∧
    HeightsAgree (bitmapHeights (pre ++ [p]))

theorem heightsAgree_cons2 {h b : UInt8} {l : List UInt8} :
    HeightsAgree (h :: b :: l) ↔ (h ≠ 0 → b = h) ∧ HeightsAgree (b :: l) := by
  unfold HeightsAgree
  rw [List.pairwise_cons]
  constructor
  · rintro ⟨h1, h2⟩
    exact ⟨h1 b (by simp), h2⟩
  · rintro ⟨h1, h2⟩
    refine ⟨?_, h2⟩
    intro x hx h0
    rcases List.mem_cons.1 hx with rfl | hx
    · exact h1 h0
    · have e := h1 h0
      have := (List.pairwise_cons.1 h2).1 x hx
      rw [e] at this
      exact this h0

theorem heightsAgree_zero {l : List UInt8} : HeightsAgree (0 :: l) ↔ HeightsAgree l := by
  unfold HeightsAgree
  rw [List.pairwise_cons]
  exact ⟨And.right, fun h => ⟨fun _ _ h0 => absurd rfl h0, h⟩⟩

/-- like `OutOfSlots`, in the middle of a file -/
def OutFrom (h : UInt8) (C row : Nat) (props : List TProp) : Prop :=
  ∃ pre p post, props = pre ++ p :: post ∧ UsesSlot p ∧ C ≤ row + pre.countP isBitmap ∧
    HeightsAgree (h :: bitmapHeights (pre ++ [p]))

theorem outFrom_nil {h : UInt8} {C row : Nat} : ¬ OutFrom h C row [] := by
  rintro ⟨pre, p, post, h, -⟩
  simp at h

theorem outFrom_skip {h : UInt8} {C row : Nat} {p : TProp} {ps : List TProp} (hp : ¬ UsesSlot p) :
    OutFrom h C row (p :: ps) ↔ OutFrom h C row ps := by
  have hb : isBitmap p = false := by cases p <;> simp [UsesSlot] at hp <;> rfl
  have hh : ∀ l, bitmapHeights (p :: l) = bitmapHeights l := by
    intro l; cases p <;> simp [UsesSlot] at hp <;> rfl
  constructor
  · rintro ⟨pre, q, post, h1, h2, h3, h4⟩
    cases pre with
    | nil => simp at h1; rw [h1.1] at hp; exact absurd h2 hp
    | cons x pre =>
      simp at h1
      obtain ⟨rfl, h1⟩ := h1
      refine ⟨pre, q, post, h1, h2, ?_, ?_⟩
      · rw [List.countP_cons, hb] at h3; simpa using h3
      · rw [List.cons_append, hh] at h4; exact h4
  · rintro ⟨pre, q, post, rfl, h2, h3, h4⟩
    refine ⟨p :: pre, q, post, rfl, h2, ?_, ?_⟩
    · rw [List.countP_cons, hb]; simpa using h3
    · rw [List.cons_append, hh]; exact h4

theorem outFrom_code {h : UInt8} {C row : Nat} {cp : UInt16} {ps : List TProp} :
    OutFrom h C row (.codePoint cp :: ps) ↔ C ≤ row ∨ OutFrom h C row ps := by
  constructor
  · rintro ⟨pre, q, post, h1, h2, h3, h4⟩
    cases pre with
    | nil => simp at h3; exact .inl h3
    | cons x pre =>
      simp at h1
      obtain ⟨rfl, h1⟩ := h1
      exact .inr ⟨pre, q, post, h1, h2, by simpa [List.countP_cons, isBitmap] using h3, h4⟩
  · rintro (h1 | ⟨pre, q, post, rfl, h2, h3, h4⟩)
    · exact ⟨[], _, ps, rfl, trivial, by simpa using h1, by simp [bitmapHeights, HeightsAgree]⟩
    · exact ⟨.codePoint cp :: pre, q, post, rfl, h2, by simpa [List.countP_cons, isBitmap] using h3, h4⟩

theorem outFrom_bitmap {h : UInt8} {C row : Nat} {b : Bitmap} {ps : List TProp} :
    OutFrom h C row (.bitmap b :: ps) ↔ (h ≠ 0 → b.height = h) ∧ (C ≤ row ∨ OutFrom b.height C (row + 1) ps) := by
  have hh : ∀ l, bitmapHeights (.bitmap b :: l) = b.height :: bitmapHeights l := fun l => rfl
  constructor
  · rintro ⟨pre, q, post, h1, h2, h3, h4⟩
    cases pre with
    | nil =>
      simp at h1 h3
      rw [List.nil_append, ← h1.1, hh, heightsAgree_cons2] at h4
      exact ⟨h4.1, .inl h3⟩
    | cons x pre =>
      simp at h1
      obtain ⟨rfl, h1⟩ := h1
      rw [List.cons_append, hh, heightsAgree_cons2] at h4
      refine ⟨h4.1, .inr ⟨pre, q, post, h1, h2, ?_, h4.2⟩⟩
      simp [List.countP_cons, isBitmap] at h3 ⊢
      omega
  · rintro ⟨h1, h2 | ⟨pre, q, post, rfl, h2, h3, h4⟩⟩
    · refine ⟨[], _, ps, rfl, trivial, by simpa using h2, ?_⟩
      rw [List.nil_append, hh, heightsAgree_cons2]
      exact ⟨h1, by simp [bitmapHeights, HeightsAgree]⟩
    · refine ⟨.bitmap b :: pre, q, post, rfl, h2, ?_, ?_⟩
      · simp [List.countP_cons, isBitmap] at h3 ⊢
        omega
      · rw [List.cons_append, hh, heightsAgree_cons2]; exact ⟨h1, h4⟩

theorem parseStep_agree {font : Font} {row : Nat} {b : Bitmap} (h : font.height ≠ 0 → b.height = font.height) :
    parseStep font row (.bitmap b) = (do
      let cs ← updAt font.characters row (fun c => { c with width := b.width, bitmap := b.bits })
      pure ({ font with height := b.height, characters := cs }, row + 1)) := by
  by_cases h0 : font.height = 0
  · simp [parseStep, h0]
  · have hp : font.height > 0 := by
      have : font.height.toNat ≠ 0 := fun h => h0 (UInt8.toNat_inj.1 h)
      exact UInt8.lt_iff_toNat_lt.2 (by simpa using Nat.pos_of_ne_zero this)
    simp [parseStep, hp, h h0]

theorem parseStep_differ {font : Font} {row : Nat} {b : Bitmap} (h : ¬ (font.height ≠ 0 → b.height = font.height)) :
    parseStep font row (.bitmap b) = .err .invalidCharHeight := by
  have h0 : font.height ≠ 0 := fun h0 => h fun h' => absurd h0 h'
  have h1 : b.height ≠ font.height := fun h1 => h fun _ => h1
  have hp : font.height > 0 := by
    have : font.height.toNat ≠ 0 := fun h => h0 (UInt8.toNat_inj.1 h)
    exact UInt8.lt_iff_toNat_lt.2 (by simpa using Nat.pos_of_ne_zero this)
  simp [parseStep, hp, h1]

theorem parseLoop_exact (props : List TProp) (font : Font) (row : Nat) :
    ((∃ e, parseLoop font row props = .panic e) ↔ OutFrom font.height font.characters.length row props) ∧
    ((∃ g, parseLoop font row props = .ok g) ↔ HeightsAgree (font.height :: bitmapHeights props) ∧
      ¬ OutFrom font.height font.characters.length row props) := by
  induction props generalizing font row with
  | nil => simp [parseLoop, outFrom_nil, bitmapHeights, HeightsAgree]
  | cons p props ih =>
    cases p with
    | codePoint cp =>
      simp only [parseLoop, parseStep, outFrom_code]
      by_cases hlt : row < font.characters.length
      · obtain ⟨cs', h1, h2⟩ := updAt_lt font.characters row (fun c => { c with number := cp }) hlt
        simp only [h1, Out.ok_bind, Out.pure_eq]
        have := ih { font with characters := cs' } row
        simp only [h2] at this
        rw [this.1, this.2]
        have hn : ¬ font.characters.length ≤ row := by omega
        simp only [hn, false_or, true_and]
        exact Iff.rfl
      · rw [updAt_ge _ _ _ (by omega)]
        have hn : font.characters.length ≤ row := by omega
        simp [hn]
    | bitmap b =>
      simp only [parseLoop, outFrom_bitmap]
      have hh : bitmapHeights (.bitmap b :: props) = b.height :: bitmapHeights props := rfl
      rw [hh, heightsAgree_cons2]
      by_cases hok : font.height ≠ 0 → b.height = font.height
      · rw [parseStep_agree hok]
        by_cases hlt : row < font.characters.length
        · obtain ⟨cs', h1, h2⟩ := updAt_lt font.characters row
            (fun c => { c with width := b.width, bitmap := b.bits }) hlt
          simp only [h1, Out.ok_bind, Out.pure_eq]
          have := ih { font with height := b.height, characters := cs' } (row + 1)
          simp only [h2] at this
          rw [this.1, this.2]
          have hn : ¬ font.characters.length ≤ row := by omega
          simp [hn]
          exact ⟨fun _ => hok, ⟨fun h => ⟨⟨hok, h.1⟩, fun _ => h.2⟩, fun h => ⟨h.1.2, h.2 hok⟩⟩⟩
        · rw [updAt_ge _ _ _ (by omega)]
          have hn : font.characters.length ≤ row := by omega
          simp [hn]
          exact ⟨hok, fun _ _ => hok⟩
      · rw [parseStep_differ hok]
        simp only [Out.err_bind, hok, false_and]
        simp
    | fontName nm =>
      rw [outFrom_skip (by simp [UsesSlot])]
      exact ih { font with name := fstr64 nm } row
    | fontNumber n =>
      rw [outFrom_skip (by simp [UsesSlot])]
      exact ih { font with number := n } row
    | charSpacing n =>
      rw [outFrom_skip (by simp [UsesSlot])]
      exact ih { font with charSpacing := n } row
    | lineSpacing n =>
      rw [outFrom_skip (by simp [UsesSlot])]
      exact ih { font with lineSpacing := n } row
    | other =>
      rw [outFrom_skip (by simp [UsesSlot])]
      exact ih font row

/-- **C35 (exactly)** reading a font file panics exactly if it needs more slots than the table has, by the bitmaps
before and before bitmaps of different heights are seen -/
theorem C35_panic_iff (C : Nat) (props : List TProp) :
    (∃ e, Tfon.parse C props = .panic e) ↔ OutOfSlots C props := by
  have := (parseLoop_exact props (Font.default C) 0).1
  unfold Tfon.parse
  rw [this]
  simp only [OutFrom, OutOfSlots, Font.default, heightsAgree_zero, List.length_replicate, Nat.zero_add]

/-- **C35 (exactly)** a font is read exactly if the heights of its bitmaps agree and it fits the table -/
theorem C35_ok_iff (C : Nat) (props : List TProp) :
    (∃ f, Tfon.parse C props = .ok f) ↔ HeightsAgree (bitmapHeights props) ∧ ¬ OutOfSlots C props := by
  have := (parseLoop_exact props (Font.default C) 0).2
  unfold Tfon.parse
  rw [this]
  simp only [OutFrom, OutOfSlots, Font.default, heightsAgree_zero, List.length_replicate, Nat.zero_add]

-- a table of one slot: one glyph fits, the code point of the next does not
example : (∃ f, Tfon.parse 1 [.codePoint 65, .bitmap ⟨1, 1, [0x80]⟩] = .ok f) ∧
    Tfon.parse 1 [.codePoint 65, .bitmap ⟨1, 1, [0x80]⟩, .codePoint 66] = .panic .index ∧
    Tfon.parse 1 [.codePoint 65, .bitmap ⟨1, 1, [0x80]⟩, .bitmap ⟨2, 1, [0x80]⟩] = .err .invalidCharHeight :=
  ⟨⟨_, rfl⟩, by decide +kernel, by decide +kernel⟩

end Ntcip
