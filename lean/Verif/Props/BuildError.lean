import Verif.Props.Tables
import Verif.Tests.Render
/-
Property C87: the error of building a sign tells of the first fault.  Exact conditions for C20: which table gives which
error, and which makes validation panic.
-/
namespace Ntcip
open Spec Tests

namespace Spec

/-- `a` is the first entry whose number (other than 0) is used again later -/
def FirstTwice {α : Type} (num : α → Nat) (l : List α) (a : α) : Prop :=
  ∃ pre post, l = pre ++ a :: post ∧ num a ≠ 0 ∧ (∃ b ∈ post, num b = num a) ∧
    ∀ p c q, pre = p ++ c :: q → num c ≠ 0 → ∀ b ∈ q ++ a :: post, num b ≠ num c

/-- `a` is the first entry with `bad` -/
def FirstBad {α : Type} (ok : α → Prop) (l : List α) (a : α) : Prop :=
  ∃ pre post, l = pre ++ a :: post ∧ ¬ ok a ∧ ∀ b ∈ pre, ok b

/-- all bitmaps of a font have the right size -/
def BitmapsOk (f : Font) : Prop :=
  ∀ c ∈ f.characters, c.number.toNat ≠ 0 → BytesFor (c.width.toNat * f.height.toNat) c.bitmap.length

/-- a number which is no Unicode character -/
def Surrogate (n : Nat) : Prop := 0xD800 ≤ n ∧ n ≤ 0xDFFF

/-- the fault of a numbered font, in order of importance -/
inductive FontFault (f : Font) : FontError → Prop
  | height : f.height.toNat = 0 → FontFault f .invalidHeight
  | bitmap : f.height.toNat ≠ 0 → ¬ BitmapsOk f → FontFault f .invalidCharHeight
  | char {c ch} : f.height.toNat ≠ 0 → BitmapsOk f → FirstTwice (fun c : CharacterEntry => c.number.toNat) f.characters c →
      ch.toNat = c.number.toNat → FontFault f (.duplicateChar ch)

/-- the font has the same surrogate twice -/
def FontBroken (f : Font) : Prop := f.height.toNat ≠ 0 ∧ BitmapsOk f ∧
  ∃ c, FirstTwice (fun c : CharacterEntry => c.number.toNat) f.characters c ∧ Surrogate c.number.toNat

/-- an unused slot, or a valid font -/
def SlotOk (f : Font) : Prop := f.number.toNat ≠ 0 → FontOk f

/-- the fault of a font table: that of the first font with a fault; or a number used twice -/
inductive FontsFault (t : FontTable) : FontError → Prop
  | font {f e} : FirstBad SlotOk t f → FontFault f e → FontsFault t e
  | number {f} : (∀ f ∈ t, SlotOk f) → FirstTwice (fun f : Font => f.number.toNat) t f →
      FontsFault t (.duplicateNumber f.number)

/-- the fault of a numbered graphic on a sign of `w × h` pixels, in order of importance -/
inductive GraphicFault (w h : Nat) (g : Graphic) : GraphicError → Prop
  | height : ¬ (1 ≤ g.height.toNat ∧ g.height.toNat ≤ h) → GraphicFault w h g .invalidHeight
  | width : (1 ≤ g.height.toNat ∧ g.height.toNat ≤ h) → ¬ (1 ≤ g.width.toNat ∧ g.width.toNat ≤ w) →
      GraphicFault w h g .invalidWidth
  | bitmap : (1 ≤ g.height.toNat ∧ g.height.toNat ≤ h) → (1 ≤ g.width.toNat ∧ g.width.toNat ≤ w) →
      ¬ BitmapBytes g.gtype (g.width.toNat * g.height.toNat) g.bitmap.length → GraphicFault w h g .invalidBitmap
  | transparent {c} : (1 ≤ g.height.toNat ∧ g.height.toNat ≤ h) → (1 ≤ g.width.toNat ∧ g.width.toNat ≤ w) →
      BitmapBytes g.gtype (g.width.toNat * g.height.toNat) g.bitmap.length →
      g.transparentColor = some c → ¬ TransparentKind g.gtype c → GraphicFault w h g .invalidTransparentColor

/-- an unused slot, or a valid graphic -/
def GraphicSlotOk (w h : Nat) (g : Graphic) : Prop := g.number.toNat ≠ 0 → GraphicOk w h g

/-- the fault of a graphic table -/
inductive GraphicsFault (w h : Nat) (t : GraphicTable) : GraphicError → Prop
  | graphic {g e} : FirstBad (GraphicSlotOk w h) t g → GraphicFault w h g e → GraphicsFault w h t e
  | number {g} : (∀ g ∈ t, GraphicSlotOk w h g) → FirstTwice (fun g : Graphic => g.number.toNat) t g →
      GraphicsFault w h t .duplicateNumber

/-- pages can be configured -/
def BuildPages (m : MultiCfg) : Prop :=
  1 ≤ m.maxNumberPages.toNat ∧ (2 ≤ m.maxNumberPages.toNat → m.supportedMultiTags .np = true)

/-- the graphics of a sign: those not larger than the sign -/
def keptGraphics (b : DmsBuilder) : GraphicTable := b.graphicDefinition.map fun g =>
  if TooLarge b.vmsCfg.signWidthPixels b.vmsCfg.signHeightPixels g then .default else g

/-- width and height in millimeters of the pixels with the borders -/
def usedWidth (b : DmsBuilder) : Nat :=
  b.signCfg.horizontalBorder.toNat + b.vmsCfg.signWidthPixels.toNat * b.vmsCfg.horizontalPitch.toNat
def usedHeight (b : DmsBuilder) : Nat :=
  b.signCfg.verticalBorder.toNat + b.vmsCfg.signHeightPixels.toNat * b.vmsCfg.verticalPitch.toNat

/-- the sums of the check of dimensions, as far as it is done, are below 65536 -/
def NoDimOverflow (b : DmsBuilder) : Prop :=
  usedWidth b < 65536 ∧ (usedWidth b ≤ b.signCfg.signWidth.toNat → usedHeight b < 65536)

/-- the fault of a sign -/
inductive BuildFault (b : DmsBuilder) : SignError → Prop
  | dimensions : NoDimOverflow b → ¬ Fits b.signCfg b.vmsCfg → BuildFault b (.cfg .invalidDimensions)
  | pages : Fits b.signCfg b.vmsCfg → ¬ BuildPages b.multiCfg → BuildFault b (.cfg .invalidPageCfg)
  | font {e} : Fits b.signCfg b.vmsCfg → BuildPages b.multiCfg → FontsFault b.fontDefinition e → BuildFault b (.font e)
  | graphic {e} : Fits b.signCfg b.vmsCfg → BuildPages b.multiCfg → FontsOk b.fontDefinition →
      GraphicsFault b.vmsCfg.signWidthPixels.toNat b.vmsCfg.signHeightPixels.toNat (keptGraphics b) e →
      BuildFault b (.graphic e)

end Spec

theorem firstTwice_cons {α : Type} {num : α → Nat} {x : α} {l : List α} {a : α} :
    FirstTwice num (x :: l) a ↔
      (num x ≠ 0 ∧ (∃ b ∈ l, num b = num x) ∧ a = x) ∨
      (¬ (num x ≠ 0 ∧ ∃ b ∈ l, num b = num x) ∧ FirstTwice num l a) := by
  constructor
  · rintro ⟨pre, post, e, h0, h1, h2⟩
    cases pre with
    | nil =>
      simp only [List.nil_append, List.cons.injEq] at e
      obtain ⟨rfl, rfl⟩ := e
      exact .inl ⟨h0, h1, rfl⟩
    | cons y pre =>
      simp only [List.cons_append, List.cons.injEq] at e
      obtain ⟨rfl, rfl⟩ := e
      refine .inr ⟨?_, pre, post, rfl, h0, h1, ?_⟩
      · rintro ⟨k, b, hb, hbe⟩
        exact h2 [] x pre rfl k b hb hbe
      · rintro p c q rfl hc
        exact h2 (x :: p) c q rfl hc
  · rintro (⟨h0, h1, rfl⟩ | ⟨hx, pre, post, rfl, h0, h1, h2⟩)
    · exact ⟨[], l, rfl, h0, h1, by simp⟩
    · refine ⟨x :: pre, post, rfl, h0, h1, ?_⟩
      intro p c q e hc b hb
      cases p with
      | nil =>
        simp only [List.nil_append, List.cons.injEq] at e
        obtain ⟨rfl, rfl⟩ := e
        exact fun he => hx ⟨hc, b, hb, he⟩
      | cons y p =>
        simp only [List.cons_append, List.cons.injEq] at e
        obtain ⟨rfl, rfl⟩ := e
        exact h2 p c q rfl hc b hb

theorem firstTwice_nil {α : Type} {num : α → Nat} {a : α} : ¬ FirstTwice num [] a := by
  rintro ⟨pre, post, e, _⟩; simp at e

theorem firstBad_cons {α : Type} {ok : α → Prop} {x : α} {l : List α} {a : α} :
    FirstBad ok (x :: l) a ↔ (¬ ok x ∧ a = x) ∨ (ok x ∧ FirstBad ok l a) := by
  constructor
  · rintro ⟨pre, post, e, h0, h1⟩
    cases pre with
    | nil =>
      simp only [List.nil_append, List.cons.injEq] at e
      obtain ⟨rfl, rfl⟩ := e
      exact .inl ⟨h0, rfl⟩
    | cons y pre =>
      simp only [List.cons_append, List.cons.injEq] at e
      obtain ⟨rfl, rfl⟩ := e
      exact .inr ⟨h1 x (by simp), pre, post, rfl, h0, fun b hb => h1 b (by simp [hb])⟩
  · rintro (⟨h0, rfl⟩ | ⟨hx, pre, post, rfl, h0, h1⟩)
    · exact ⟨[], l, rfl, h0, by simp⟩
    · exact ⟨x :: pre, post, rfl, h0, by simpa [hx] using h1⟩

theorem firstBad_nil {α : Type} {ok : α → Prop} {a : α} : ¬ FirstBad ok [] a := by
  rintro ⟨pre, post, e, _⟩; simp at e

theorem charFromU32_u16 (n : UInt16) :
    (¬ Surrogate n.toNat ∧ ∃ ch : Char, charFromU32 n.toNat = some ch ∧ ch.toNat = n.toNat) ∨
      (Surrogate n.toNat ∧ charFromU32 n.toNat = none) := by
  have hn := n.toNat_lt
  unfold charFromU32 Surrogate
  by_cases h : n.toNat < 0xD800 ∨ (0xDFFF < n.toNat ∧ n.toNat < 0x110000)
  · refine .inl ⟨by omega, Char.ofNat n.toNat, by rw [if_pos h], ?_⟩
    rw [Char.ofNat, dif_pos (by unfold Nat.isValidChar; omega)]
    rfl
  · exact .inr ⟨by omega, by rw [if_neg h]⟩

theorem char_eq_of_toNat {a b : Char} (h : a.toNat = b.toNat) : a = b := by
  have : a.val.toNat = b.val.toNat := h
  exact Char.ext (UInt32.toNat_inj.1 this)

theorem validateCharNumbers_cases (cs : List CharacterEntry) :
    (∀ e, Font.validateCharNumbers cs = .err e ↔
      ∃ c ch, FirstTwice (fun c : CharacterEntry => c.number.toNat) cs c ∧ ch.toNat = c.number.toNat ∧ e = .duplicateChar ch) ∧
    (∀ p, Font.validateCharNumbers cs = .panic p ↔ p = .unwrap ∧
      ∃ c, FirstTwice (fun c : CharacterEntry => c.number.toNat) cs c ∧ Surrogate c.number.toNat) := by
  induction cs with
  | nil => simp [Font.validateCharNumbers, firstTwice_nil]
  | cons c cs ih =>
    rw [Font.validateCharNumbers]
    simp only [u16_ne_zero, List.any_eq_true, beq_iff_eq, ← UInt16.toNat_inj, firstTwice_cons]
    by_cases h : c.number.toNat ≠ 0 ∧ ∃ x ∈ cs, x.number.toNat = c.number.toNat
    · rw [if_pos h]
      rcases charFromU32_u16 c.number with ⟨hs, ch, h1, h2⟩ | ⟨hs, h1⟩
      · rw [h1]
        constructor
        · intro e
          constructor
          · intro he
            simp only [Out.err.injEq] at he
            exact ⟨c, ch, .inl ⟨h.1, h.2, rfl⟩, h2, he.symm⟩
          · rintro ⟨c', ch', ⟨_, _, rfl⟩ | ⟨k, _⟩, h3, rfl⟩
            · rw [char_eq_of_toNat (h2.trans h3.symm)]
            · exact absurd h k
        · intro p
          constructor
          · intro he; simp at he
          · rintro ⟨_, c', ⟨_, _, rfl⟩ | ⟨k, _⟩, h3⟩
            · exact absurd h3 hs
            · exact absurd h k
      · rw [h1]
        constructor
        · intro e
          constructor
          · intro he; simp at he
          · rintro ⟨c', ch', ⟨_, _, rfl⟩ | ⟨k, _⟩, h3, rfl⟩
            · have := ch'.valid
              unfold Surrogate at hs
              have h4 : ch'.toNat = ch'.val.toNat := rfl
              rw [← h3, h4] at hs
              unfold UInt32.isValidChar Nat.isValidChar at this
              omega
            · exact absurd h k
        · intro p
          constructor
          · intro he
            simp only [Out.panic.injEq] at he
            exact ⟨he.symm, c, .inl ⟨h.1, h.2, rfl⟩, hs⟩
          · rintro ⟨rfl, _⟩; rfl
    · rw [if_neg h]
      have e1 : ∀ c', ((c.number.toNat ≠ 0 ∧ (∃ b ∈ cs, b.number.toNat = c.number.toNat) ∧ c' = c) ∨
          (¬ (c.number.toNat ≠ 0 ∧ ∃ b ∈ cs, b.number.toNat = c.number.toNat) ∧
            FirstTwice (fun c : CharacterEntry => c.number.toNat) cs c')) ↔
          FirstTwice (fun c : CharacterEntry => c.number.toNat) cs c' := by
        intro c'
        constructor
        · rintro (⟨a, b, _⟩ | ⟨_, k⟩)
          · exact absurd ⟨a, b⟩ h
          · exact k
        · exact fun k => .inr ⟨h, k⟩
      simp only [e1]
      exact ih

theorem fontValidate_cases (f : Font) (hf : f.number.toNat ≠ 0) :
    (∀ e, f.validate = .err e ↔ FontFault f e) ∧ (∀ p, f.validate = .panic p ↔ p = .unwrap ∧ FontBroken f) := by
  have hb : (f.characters.all fun c => c.isValid f.height) = true ↔ BitmapsOk f := by
    simp only [List.all_eq_true, isValid_iff]; rfl
  have hc := validateCharNumbers_cases f.characters
  unfold Font.validate
  rw [if_neg (by rw [u8_lt_one]; exact hf)]
  by_cases h2 : f.height.toNat = 0
  · rw [if_pos (by rw [u8_lt_one]; exact h2)]
    constructor
    · intro e
      simp only [Out.err.injEq]
      constructor
      · rintro rfl; exact .height h2
      · intro h; cases h <;> first | rfl | contradiction
    · intro p
      simp [FontBroken, h2]
  · rw [if_neg (by rw [u8_lt_one]; exact h2)]
    by_cases h3 : BitmapsOk f
    · rw [if_neg (by simp only [Bool.not_eq_true', Bool.not_eq_false]; exact hb.2 h3)]
      constructor
      · intro e
        rw [hc.1]
        constructor
        · rintro ⟨c, ch, k1, k2, rfl⟩; exact .char h2 h3 k1 k2
        · intro h
          cases h with
          | height h => exact absurd h h2
          | bitmap _ h => exact absurd h3 h
          | char _ _ k1 k2 => exact ⟨_, _, k1, k2, rfl⟩
      · intro p
        rw [hc.2]
        simp [FontBroken, h2, h3]
    · rw [if_pos (by rw [Bool.not_eq_true', ← Bool.not_eq_true, hb]; exact h3)]
      constructor
      · intro e
        simp only [Out.err.injEq]
        constructor
        · rintro rfl; exact .bitmap h2 h3
        · intro h; cases h <;> first | rfl | contradiction
      · intro p
        simp [FontBroken, h3]

theorem fontValidate_ok {f : Font} (hf : f.number.toNat ≠ 0) : f.validate = .ok () ↔ FontOk f := by
  rw [fontValidate_iff]; simp [hf]

theorem validateFonts_cases (t : FontTable) :
    (∀ e, FontTable.validateFonts t = .err e ↔ ∃ f, FirstBad SlotOk t f ∧ FontFault f e) ∧
    (∀ p, FontTable.validateFonts t = .panic p ↔ p = .unwrap ∧ ∃ f, FirstBad SlotOk t f ∧ FontBroken f) := by
  induction t with
  | nil => simp [FontTable.validateFonts, firstBad_nil]
  | cons f t ih =>
    simp only [FontTable.validateFonts, u8_ne_zero, firstBad_cons]
    by_cases h0 : f.number.toNat ≠ 0
    · rw [if_pos h0]
      have hc := fontValidate_cases f h0
      have ho := fontValidate_ok h0
      have hs : SlotOk f ↔ FontOk f := by simp [SlotOk, h0]
      cases hv : f.validate with
      | ok u =>
        have hok : SlotOk f := hs.2 (ho.1 (by rw [hv]))
        simp only [hok, not_true_eq_false, false_and, true_and, false_or]
        exact ih
      | err e =>
        have hf := (hc.1 e).1 hv
        have hok : ¬ SlotOk f := fun h => by
          have := ho.2 (hs.1 h); rw [hv] at this; simp at this
        simp only [hok, not_false_eq_true, true_and, false_and, or_false, exists_eq_left]
        constructor
        · intro e'
          rw [← hc.1, hv]; rfl
        · intro p
          constructor
          · intro h; cases h
          · rintro ⟨rfl, k⟩
            have := (hc.2 _).2 ⟨rfl, k⟩
            rw [hv] at this; cases this
      | panic p =>
        have hf := (hc.2 p).1 hv
        have hok : ¬ SlotOk f := fun h => by
          have := ho.2 (hs.1 h); rw [hv] at this; simp at this
        simp only [hok, not_false_eq_true, true_and, false_and, or_false, exists_eq_left]
        constructor
        · intro e'
          rw [← hc.1, hv]; constructor <;> intro h <;> cases h
        · intro p'
          rw [← hc.2, hv]; rfl
    · rw [if_neg h0]
      have hok : SlotOk f := fun h => absurd h h0
      simp only [hok, not_true_eq_false, false_and, true_and, false_or]
      exact ih

theorem validateFontNumbers_cases (t : FontTable) :
    (∀ e, FontTable.validateFontNumbers t = .err e ↔
      ∃ f, FirstTwice (fun f : Font => f.number.toNat) t f ∧ e = .duplicateNumber f.number) ∧
    (∀ p, FontTable.validateFontNumbers t ≠ .panic p) := by
  induction t with
  | nil => simp [FontTable.validateFontNumbers, firstTwice_nil]
  | cons c cs ih =>
    rw [FontTable.validateFontNumbers]
    simp only [u8_ne_zero, List.any_eq_true, beq_iff_eq, ← UInt8.toNat_inj, firstTwice_cons]
    by_cases h : c.number.toNat ≠ 0 ∧ ∃ x ∈ cs, x.number.toNat = c.number.toNat
    · rw [if_pos h]
      refine ⟨fun e => ?_, fun p => by simp⟩
      constructor
      · intro he
        simp only [Out.err.injEq] at he
        exact ⟨c, .inl ⟨h.1, h.2, rfl⟩, he.symm⟩
      · rintro ⟨c', ⟨_, _, rfl⟩ | ⟨k, _⟩, rfl⟩
        · rfl
        · exact absurd h k
    · rw [if_neg h]
      refine ⟨fun e => ?_, ih.2⟩
      rw [ih.1]
      constructor
      · rintro ⟨f, h1, h2⟩; exact ⟨f, .inr ⟨h, h1⟩, h2⟩
      · rintro ⟨f, ⟨a, b, _⟩ | ⟨_, h1⟩, h2⟩
        · exact absurd ⟨a, b⟩ h
        · exact ⟨f, h1, h2⟩

/-- **C20 (errors)** a font table gives an error exactly for a fault of this kind: the first font which is not valid is
reported with its first fault; if all fonts are valid, the first font number used twice. -/
theorem C20_error_iff (t : FontTable) (e : FontError) : FontTable.validate t = .err e ↔ FontsFault t e := by
  have h1 := validateFonts_cases t
  have h2 := validateFontNumbers_cases t
  have h3 := validateFonts_iff t
  unfold FontTable.validate
  cases hv : FontTable.validateFonts t with
  | ok u =>
    have hs : ∀ f ∈ t, SlotOk f := h3.1 (by rw [hv])
    show FontTable.validateFontNumbers t = .err e ↔ _
    rw [h2.1]
    constructor
    · rintro ⟨f, k, rfl⟩; exact .number hs k
    · intro h
      cases h with
      | font k _ =>
        obtain ⟨pre, post, rfl, k, _⟩ := k
        exact absurd (hs _ (by simp)) k
      | number _ k => exact ⟨_, k, rfl⟩
  | err e' =>
    obtain ⟨f, k1, k2⟩ := (h1.1 e').1 hv
    have hs : ¬ ∀ f ∈ t, SlotOk f := by
      obtain ⟨pre, post, rfl, k, _⟩ := k1
      exact fun hs => absurd (hs _ (by simp)) k
    constructor
    · intro h
      cases h
      exact .font k1 k2
    · intro h
      cases h with
      | font k k' =>
        have := (h1.1 e).2 ⟨_, k, k'⟩
        rw [hv] at this; exact this
      | number k _ => exact absurd k hs
  | panic p =>
    obtain ⟨f, k1, k2⟩ := ((h1.2 p).1 hv).2
    have hs : ¬ ∀ f ∈ t, SlotOk f := by
      obtain ⟨pre, post, rfl, k, _⟩ := k1
      exact fun hs => absurd (hs _ (by simp)) k
    constructor
    · intro h; cases h
    · intro h
      cases h with
      | font k k' =>
        have := (h1.1 e).2 ⟨_, k, k'⟩
        rw [hv] at this; cases this
      | number k _ => exact absurd k hs

/-- **C20 (panics)** validation of a font table panics exactly when the first font which is not valid has the right
height and bitmaps, and its first character number used twice is a surrogate. -/
theorem C20_panics_iff (t : FontTable) (p : Panic) : FontTable.validate t = .panic p ↔
    p = .unwrap ∧ ∃ f, FirstBad SlotOk t f ∧ FontBroken f := by
  have h1 := validateFonts_cases t
  have h2 := validateFontNumbers_cases t
  rw [← h1.2]
  unfold FontTable.validate
  cases hv : FontTable.validateFonts t with
  | ok u =>
    constructor
    · intro h; exact absurd h (h2.2 p)
    · intro h; cases h
  | err e => constructor <;> intro h <;> cases h
  | panic p => rfl

theorem graphicValidate_cases (g : Graphic) (w h : UInt16) (hg : g.number.toNat ≠ 0) (e : GraphicError) :
    g.validate w h = .error e ↔ GraphicFault w.toNat h.toNat g e := by
  have hb := isBitmapValid_iff g
  have ht := isTransparentColorValid_iff g
  have e1 : (g.height < 1 ∨ g.height.toUInt16 > h) ↔ ¬ (1 ≤ g.height.toNat ∧ g.height.toNat ≤ h.toNat) := by
    rw [u8_lt_one, gt_iff_lt, UInt16.lt_iff_toNat_lt, UInt8.toNat_toUInt16]; omega
  have e2 : (g.width < 1 ∨ g.width > w) ↔ ¬ (1 ≤ g.width.toNat ∧ g.width.toNat ≤ w.toNat) := by
    rw [u16_lt_one, gt_iff_lt, UInt16.lt_iff_toNat_lt]; omega
  unfold Graphic.validate
  rw [if_neg (by rw [u8_lt_one]; exact hg)]
  simp only [e1, e2]
  by_cases h2 : 1 ≤ g.height.toNat ∧ g.height.toNat ≤ h.toNat
  · rw [if_neg (by simpa using h2)]
    by_cases h3 : 1 ≤ g.width.toNat ∧ g.width.toNat ≤ w.toNat
    · rw [if_neg (by simpa using h3)]
      by_cases h4 : g.isBitmapValid = true
      · rw [if_neg (by simp [h4])]
        by_cases h5 : g.isTransparentColorValid = true
        · rw [if_neg (by simp [h5])]
          constructor
          · intro h; cases h
          · intro h
            cases h with
            | height k => exact absurd h2 k
            | width _ k => exact absurd h3 k
            | bitmap _ _ k => exact absurd (hb.1 h4) k
            | transparent _ _ _ k1 k2 => exact absurd (ht.1 h5 _ k1) k2
        · rw [if_pos (by simpa using h5)]
          rw [ht] at h5
          constructor
          · intro h
            cases h
            cases hc : g.transparentColor with
            | none => exact absurd (by simp [hc]) h5
            | some c =>
              refine .transparent h2 h3 (hb.1 h4) hc (fun k => h5 ?_)
              intro c' hc'
              rw [hc] at hc'
              cases hc'
              exact k
          · intro h
            cases h with
            | height k => exact absurd h2 k
            | width _ k => exact absurd h3 k
            | bitmap _ _ k => exact absurd (hb.1 h4) k
            | transparent => rfl
      · rw [if_pos (by simpa using h4)]
        rw [hb] at h4
        constructor
        · intro h; cases h; exact .bitmap h2 h3 h4
        · intro h
          cases h with
          | height k => exact absurd h2 k
          | width _ k => exact absurd h3 k
          | bitmap _ _ k => rfl
          | transparent _ _ k => exact absurd k h4
    · rw [if_pos h3]
      constructor
      · intro h; cases h; exact .width h2 h3
      · intro h
        cases h with
        | height k => exact absurd h2 k
        | width _ k => rfl
        | bitmap _ k => exact absurd k h3
        | transparent _ k => exact absurd k h3
  · rw [if_pos h2]
    constructor
    · intro h; cases h; exact .height h2
    · intro h
      cases h with
      | height k => rfl
      | width k => exact absurd k h2
      | bitmap k => exact absurd k h2
      | transparent k => exact absurd k h2

theorem validateGraphics_cases (w h : UInt16) (t : GraphicTable) (e : GraphicError) :
    GraphicTable.validateGraphics w h t = .error e ↔
      ∃ g, FirstBad (GraphicSlotOk w.toNat h.toNat) t g ∧ GraphicFault w.toNat h.toNat g e := by
  induction t with
  | nil => simp [GraphicTable.validateGraphics, firstBad_nil]
  | cons g t ih =>
    simp only [GraphicTable.validateGraphics, u8_ne_zero, firstBad_cons]
    by_cases h0 : g.number.toNat ≠ 0
    · rw [if_pos h0]
      have hc := graphicValidate_cases g w h h0
      have ho := graphicValidate_iff g w h
      have hs : GraphicSlotOk w.toNat h.toNat g ↔ GraphicOk w.toNat h.toNat g := by simp [GraphicSlotOk, h0]
      cases hv : g.validate w h with
      | ok u =>
        have hok : GraphicSlotOk w.toNat h.toNat g := hs.2 (ho.1 (by rw [hv])).2
        simp only [hok, not_true_eq_false, false_and, true_and, false_or]
        exact ih
      | error e' =>
        have hok : ¬ GraphicSlotOk w.toNat h.toNat g := fun k => by
          have := ho.2 ⟨h0, hs.1 k⟩; rw [hv] at this; simp at this
        simp only [hok, not_false_eq_true, true_and, false_and, or_false, exists_eq_left]
        rw [← hc, hv]
    · rw [if_neg h0]
      have hok : GraphicSlotOk w.toNat h.toNat g := fun k => absurd k h0
      simp only [hok, not_true_eq_false, false_and, true_and, false_or]
      exact ih

theorem validateGraphicNumbers_cases (t : GraphicTable) (e : GraphicError) :
    GraphicTable.validateGraphicNumbers t = .error e ↔
      ∃ g, FirstTwice (fun g : Graphic => g.number.toNat) t g ∧ e = .duplicateNumber := by
  induction t with
  | nil => simp [GraphicTable.validateGraphicNumbers, firstTwice_nil]
  | cons c cs ih =>
    rw [GraphicTable.validateGraphicNumbers]
    simp only [u8_ne_zero, List.any_eq_true, beq_iff_eq, ← UInt8.toNat_inj, firstTwice_cons]
    by_cases h : c.number.toNat ≠ 0 ∧ ∃ x ∈ cs, x.number.toNat = c.number.toNat
    · rw [if_pos h]
      constructor
      · intro he
        simp only [Except.error.injEq] at he
        exact ⟨c, .inl ⟨h.1, h.2, rfl⟩, he.symm⟩
      · rintro ⟨c', _, rfl⟩
        rfl
    · rw [if_neg h]
      rw [ih]
      constructor
      · rintro ⟨f, h1, h2⟩; exact ⟨f, .inr ⟨h, h1⟩, h2⟩
      · rintro ⟨f, ⟨a, b, _⟩ | ⟨_, h1⟩, h2⟩
        · exact absurd ⟨a, b⟩ h
        · exact ⟨f, h1, h2⟩

/-- **C21 (errors)** a graphic table gives an error exactly for a fault of this kind: the first graphic which is not valid
is reported with its first fault; if all are valid, a number used twice. -/
theorem C21_error_iff (t : GraphicTable) (w h : UInt16) (e : GraphicError) :
    GraphicTable.validate t w h = .error e ↔ GraphicsFault w.toNat h.toNat t e := by
  have h1 := validateGraphics_cases w h t
  have h2 := validateGraphicNumbers_cases t
  have h3 := validateGraphics_iff w h t
  unfold GraphicTable.validate
  cases hv : GraphicTable.validateGraphics w h t with
  | ok u =>
    have hs : ∀ g ∈ t, GraphicSlotOk w.toNat h.toNat g := h3.1 (by rw [hv])
    simp only []
    rw [h2]
    constructor
    · rintro ⟨f, k, rfl⟩; exact .number hs k
    · intro k
      cases k with
      | graphic k _ =>
        obtain ⟨pre, post, rfl, k, _⟩ := k
        exact absurd (hs _ (by simp)) k
      | number _ k => exact ⟨_, k, rfl⟩
  | error e' =>
    obtain ⟨f, k1, k2⟩ := (h1 e').1 hv
    have hs : ¬ ∀ g ∈ t, GraphicSlotOk w.toNat h.toNat g := by
      obtain ⟨pre, post, rfl, k, _⟩ := k1
      exact fun hs => absurd (hs _ (by simp)) k
    constructor
    · intro k
      cases k
      exact .graphic k1 k2
    · intro k
      cases k with
      | graphic k k' =>
        have := (h1 e).2 ⟨_, k, k'⟩
        rw [hv] at this; exact this
      | number k _ => exact absurd k hs

instance (b : DmsBuilder) : Decidable (NoDimOverflow b) := by unfold NoDimOverflow; infer_instance

/-- the check of dimensions with overflow checks -/
theorem signValidate_eq (b : DmsBuilder) : b.signCfg.validate .checked b.vmsCfg =
    if ¬ NoDimOverflow b then .panic .overflow
    else if Fits b.signCfg b.vmsCfg then .ok () else .err .invalidDimensions := by
  have hw := b.signCfg.signWidth.toNat_lt
  rw [validate_eq]
  unfold NoDimOverflow Fits usedWidth usedHeight
  by_cases h1 : b.signCfg.horizontalBorder.toNat + b.vmsCfg.signWidthPixels.toNat * b.vmsCfg.horizontalPitch.toNat < 65536
  · rw [dimCheck_exact _ _ _ _ _ h1]
    by_cases h2 : b.signCfg.horizontalBorder.toNat + b.vmsCfg.signWidthPixels.toNat * b.vmsCfg.horizontalPitch.toNat ≤
        b.signCfg.signWidth.toNat
    · by_cases h3 : b.signCfg.verticalBorder.toNat + b.vmsCfg.signHeightPixels.toNat * b.vmsCfg.verticalPitch.toNat < 65536
      · rw [dimCheck_exact _ _ _ _ _ h3]
        by_cases h4 : b.signCfg.verticalBorder.toNat + b.vmsCfg.signHeightPixels.toNat * b.vmsCfg.verticalPitch.toNat ≤
            b.signCfg.signHeight.toNat <;> simp [h1, h2, h3, h4]
      · rw [dimCheck_checked_overflow _ _ _ _ (by omega)]
        simp [h2, h3]
    · simp [h1, h2]
  · rw [dimCheck_checked_overflow _ _ _ _ (by omega)]
    simp [h1]

theorem multiValidate_eq (m : MultiCfg) : (m.validate = .ok () ∧ BuildPages m) ∨
    (m.validate = .error .invalidPageCfg ∧ ¬ BuildPages m) := by
  obtain ⟨h1, h2⟩ := C19_multi_cfg_validate m
  by_cases h : BuildPages m
  · exact .inl ⟨h1.2 h, h⟩
  · exact .inr ⟨h2 (fun k => h (h1.1 k)), h⟩

def builtDms (b : DmsBuilder) : Dms where
  signCfg := b.signCfg
  vmsCfg := b.vmsCfg
  fontDefinition := b.fontDefinition
  multiCfg := b.multiCfg
  graphicDefinition := keptGraphics b

/-- what building gives, step by step -/
theorem build_eq (p : Profile) (b : DmsBuilder) : b.build p =
    match b.signCfg.validate p b.vmsCfg with
    | .panic e => .panic e
    | .err e => .err (.cfg e)
    | .ok () => match b.multiCfg.validate with
      | .error e => .err (.cfg e)
      | .ok () => match FontTable.validate b.fontDefinition with
        | .panic e => .panic e
        | .err e => .err (.font e)
        | .ok () => match GraphicTable.validate (keptGraphics b) b.vmsCfg.signWidthPixels b.vmsCfg.signHeightPixels with
          | .error e => .err (.graphic e)
          | .ok () => .ok (builtDms b) := by
  unfold DmsBuilder.build
  simp only [retain_eq]
  unfold builtDms keptGraphics
  generalize b.signCfg.validate p b.vmsCfg = a1
  generalize b.multiCfg.validate = a2
  generalize FontTable.validate b.fontDefinition = a3
  generalize GraphicTable.validate _ _ _ = a4
  rcases a1 with _ | _ | _ <;> rcases a2 with _ | _ <;> rcases a3 with _ | _ | _ <;> rcases a4 with _ | _ <;> rfl

/-- **C87** building a sign (with overflow checks) fails with an error exactly if the sign has a fault of this kind, in
the order: dimensions, pages, fonts, graphics; of a table, the first entry with a fault, then numbers used twice. -/
theorem C87_error_iff (b : DmsBuilder) (e : SignError) : b.build .checked = .err e ↔ BuildFault b e := by
  rw [build_eq, signValidate_eq]
  have hF : Fits b.signCfg b.vmsCfg → NoDimOverflow b := by
    have := b.signCfg.signWidth.toNat_lt
    have := b.signCfg.signHeight.toNat_lt
    unfold Fits NoDimOverflow usedWidth usedHeight
    omega
  by_cases h1 : NoDimOverflow b
  · rw [if_neg (by simpa using h1)]
    by_cases h2 : Fits b.signCfg b.vmsCfg
    · rw [if_pos h2]
      rcases multiValidate_eq b.multiCfg with ⟨h3, h3'⟩ | ⟨h3, h3'⟩
      · rw [h3]
        have h4 := C20_error_iff b.fontDefinition
        have h4' := C20_accepts_iff b.fontDefinition
        cases hv : FontTable.validate b.fontDefinition with
        | ok u =>
          have hk := h4'.1 hv
          have h5 := C21_error_iff (keptGraphics b) b.vmsCfg.signWidthPixels b.vmsCfg.signHeightPixels
          have hno : ∀ {e}, ¬ FontsFault b.fontDefinition e := by
            intro e k
            have := (h4 e).2 k
            rw [hv] at this; cases this
          cases hw : GraphicTable.validate (keptGraphics b) b.vmsCfg.signWidthPixels b.vmsCfg.signHeightPixels with
          | ok u =>
            constructor
            · intro k; cases k
            · intro k
              cases k with
              | dimensions _ k => exact absurd h2 k
              | pages _ k => exact absurd h3' k
              | font _ _ k => exact absurd k hno
              | graphic _ _ _ k =>
                have := (h5 _).2 k
                rw [hw] at this; cases this
          | error e' =>
            constructor
            · intro k
              cases k
              exact .graphic h2 h3' hk ((h5 _).1 hw)
            · intro k
              cases k with
              | dimensions _ k => exact absurd h2 k
              | pages _ k => exact absurd h3' k
              | font _ _ k => exact absurd k hno
              | graphic _ _ _ k =>
                have := (h5 _).2 k
                rw [hw] at this; cases this; rfl
        | err e' =>
          constructor
          · intro k
            cases k
            exact .font h2 h3' ((h4 _).1 hv)
          · intro k
            cases k with
            | dimensions _ k => exact absurd h2 k
            | pages _ k => exact absurd h3' k
            | font _ _ k =>
              have := (h4 _).2 k
              rw [hv] at this; cases this; rfl
            | graphic _ _ k => have := h4'.2 k; rw [hv] at this; cases this
        | panic p =>
          constructor
          · intro k; cases k
          · intro k
            cases k with
            | dimensions _ k => exact absurd h2 k
            | pages _ k => exact absurd h3' k
            | font _ _ k => have := (h4 _).2 k; rw [hv] at this; cases this
            | graphic _ _ k => have := h4'.2 k; rw [hv] at this; cases this
      · rw [h3]
        constructor
        · intro k; cases k; exact .pages h2 h3'
        · intro k
          cases k with
          | dimensions _ k => exact absurd h2 k
          | pages => rfl
          | font _ k => exact absurd k h3'
          | graphic _ k => exact absurd k h3'
    · rw [if_neg h2]
      constructor
      · intro k; cases k; exact .dimensions h1 h2
      · intro k
        cases k with
        | dimensions => rfl
        | pages k => exact absurd k h2
        | font k => exact absurd k h2
        | graphic k => exact absurd k h2
  · rw [if_pos h1]
    constructor
    · intro k; cases k
    · intro k
      cases k with
      | dimensions k => exact absurd k h1
      | pages k => exact absurd (hF k) h1
      | font k => exact absurd (hF k) h1
      | graphic k => exact absurd (hF k) h1

/-- **C87 (panics)** building panics exactly if the dimensions overflow 16 bits or, those and the pages being right, the
font table is one of those of `C20_panics_iff`. -/
theorem C87_panics_iff (b : DmsBuilder) : (∃ p, b.build .checked = .panic p) ↔ ¬ NoDimOverflow b ∨
    (Fits b.signCfg b.vmsCfg ∧ BuildPages b.multiCfg ∧ ∃ f, FirstBad SlotOk b.fontDefinition f ∧ FontBroken f) := by
  rw [build_eq, signValidate_eq]
  by_cases h1 : NoDimOverflow b
  · rw [if_neg (by simpa using h1)]
    simp only [h1, not_true_eq_false, false_or]
    by_cases h2 : Fits b.signCfg b.vmsCfg
    · rw [if_pos h2]
      simp only [h2, true_and]
      rcases multiValidate_eq b.multiCfg with ⟨h3, h3'⟩ | ⟨h3, h3'⟩
      · rw [h3]
        simp only [h3', true_and]
        have h4 := C20_panics_iff b.fontDefinition
        cases hv : FontTable.validate b.fontDefinition with
        | panic p => exact ⟨fun _ => ((h4 p).1 hv).2, fun _ => ⟨p, rfl⟩⟩
        | err e =>
          constructor
          · rintro ⟨p, k⟩; cases k
          · intro k
            have := (h4 _).2 ⟨rfl, k⟩
            rw [hv] at this; cases this
        | ok u =>
          constructor
          · rintro ⟨p, k⟩
            dsimp only at k
            split at k <;> cases k
          · intro k
            have := (h4 _).2 ⟨rfl, k⟩
            rw [hv] at this; cases this
      · rw [h3]
        simp [h3']
    · rw [if_neg h2]
      simp [h2]
  · rw [if_pos h1]
    simp [h1]

/-- **C87 (errors never given)** neither `InvalidNumber` of fonts or graphics nor `TooBig` is ever an error of building. -/
theorem C87_never (b : DmsBuilder) :
    b.build .checked ≠ .err (.font .invalidNumber) ∧ b.build .checked ≠ .err (.graphic .invalidNumber) ∧
    b.build .checked ≠ .err (.graphic .tooBig) := by
  refine ⟨?_, ?_, ?_⟩ <;> rw [ne_eq, C87_error_iff] <;> intro h
  · cases h with
    | font _ _ h => cases h with | font _ h => cases h
  · cases h with
    | graphic _ _ _ h => cases h with | graphic _ h => cases h
  · cases h with
    | graphic _ _ _ h => cases h with | graphic _ h => cases h

/-- the error of building -/
def Tests.buildError (b : DmsBuilder) : Option SignError := match b.build .checked with
  | .err e => some e
  | _ => none

-- each error is given for a sign
example : buildError (fullDms.intoBuilder.withMultiCfg { fullDms.multiCfg with maxNumberPages := 0 }) =
    some (.cfg .invalidPageCfg) := by decide +kernel
example : buildError (fullDms.intoBuilder.withVmsCfg { fullDms.vmsCfg with signWidthPixels := 100 }) =
    some (.cfg .invalidDimensions) := by decide +kernel
-- of two faults, that of the font which comes first
example : FontTable.validate [.default 1, ⟨1, [], 0, 0, 0, []⟩, ⟨2, [], 1, 0, 0, [⟨65, 1, []⟩]⟩] = .err .invalidHeight ∧
    FontTable.validate [.default 1, ⟨2, [], 1, 0, 0, [⟨65, 1, []⟩]⟩, ⟨1, [], 0, 0, 0, []⟩] = .err .invalidCharHeight ∧
    FontTable.validate [⟨2, [], 1, 0, 0, [⟨65, 1, [1]⟩, ⟨66, 1, [1]⟩, ⟨66, 1, [1]⟩, ⟨65, 1, [1]⟩]⟩] =
      .err (.duplicateChar 'A') := by decide +kernel
example : GraphicTable.validate [.default, ⟨1, [], 1, 1, .color24Bit, some (.legacy 1), [1, 2, 3]⟩] 5 5 =
      .error .invalidTransparentColor ∧
    GraphicTable.validate [⟨1, [], 1, 1, .color24Bit, some (.legacy 1), [1, 2]⟩] 5 5 = .error .invalidBitmap ∧
    GraphicTable.validate [⟨1, [], 1, 6, .color24Bit, some (.legacy 1), [1, 2]⟩] 5 5 = .error .invalidWidth ∧
    GraphicTable.validate [⟨1, [], 6, 6, .color24Bit, some (.legacy 1), [1, 2]⟩] 5 5 = .error .invalidHeight ∧
    GraphicTable.validate [⟨1, [], 1, 1, .color24Bit, none, [1, 2, 3]⟩, ⟨1, [], 1, 1, .color24Bit, none, [1, 2, 3]⟩] 5 5 =
      .error .duplicateNumber := by decide +kernel

end Ntcip
