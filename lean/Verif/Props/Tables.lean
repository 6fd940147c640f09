import Verif.Lemmas.Tables
import Verif.Props.Config
import Verif.Tests.Fonts
/-
C20 – C24: font and graphic tables, the sign builder.
-/
namespace Ntcip
open Spec Tests

/-! ### C20 font table validation -/

theorem isValid_iff (c : CharacterEntry) (h : UInt8) :
    c.isValid h = true ↔ (c.number.toNat ≠ 0 → BytesFor (c.width.toNat * h.toNat) c.bitmap.length) := by
  have e : c.number = 0 ↔ c.number.toNat = 0 := by rw [← UInt16.toNat_inj]; rfl
  simp [CharacterEntry.isValid, ← divCeil_eq, e]
  by_cases h0 : c.number.toNat = 0 <;> simp [h0]

theorem validateCharNumbers_iff (cs : List CharacterEntry) :
    Font.validateCharNumbers cs = .ok () ↔
      UniqueNumbers (fun c : CharacterEntry => c.number.toNat) cs := by
  induction cs with
  | nil => simp [Font.validateCharNumbers, uniqueNumbers_nil]
  | cons c cs ih =>
    rw [uniqueNumbers_cons, ← ih, Font.validateCharNumbers]
    simp only [u16_ne_zero, List.any_eq_true, beq_iff_eq, ← UInt16.toNat_inj]
    split
    · rename_i h
      obtain ⟨h0, d, hd, he⟩ := h
      have : ¬ ∀ b ∈ cs, b.number.toNat ≠ c.number.toNat := fun hh => hh d hd he
      split <;> simp [h0] <;> exact fun hh => absurd hh this
    · rename_i h
      constructor
      · intro hv
        refine ⟨?_, hv⟩
        intro h0 b hb he
        exact h ⟨h0, b, hb, he⟩
      · exact fun hv => hv.2

theorem fontValidate_iff (f : Font) : f.validate = .ok () ↔ f.number.toNat ≠ 0 ∧ FontOk f := by
  unfold Font.validate
  simp only [u8_lt_one]
  by_cases h1 : f.number.toNat = 0
  · simp [h1]
  by_cases h2 : f.height.toNat = 0
  · simp [h1, h2]; intro h; have := h.height; omega
  by_cases h3 : f.characters.all (fun c => c.isValid f.height) = true
  · simp only [h1, h2, h3, if_false, Bool.not_true, Bool.false_eq_true]
    rw [validateCharNumbers_iff]
    simp only [List.all_eq_true, isValid_iff] at h3
    exact ⟨fun h => ⟨h1, by omega, h3, h⟩, fun h => h.2.chars⟩
  · rw [Bool.not_eq_true] at h3
    simp only [h1, h2, h3, if_false, Bool.not_false, if_true]
    have : ¬ FontOk f := by
      intro h
      have := h.bitmaps
      rw [← Bool.not_eq_true] at h3
      apply h3
      simp only [List.all_eq_true, isValid_iff]
      exact this
    simp [this]

theorem validateFonts_iff (t : FontTable) : FontTable.validateFonts t = .ok () ↔
    ∀ f ∈ t, f.number.toNat ≠ 0 → FontOk f := by
  induction t with
  | nil => simp [FontTable.validateFonts]
  | cons f t ih =>
    simp only [FontTable.validateFonts, u8_ne_zero, List.forall_mem_cons]
    by_cases h : f.number.toNat ≠ 0
    · simp only [if_pos h, Out.bind_unit_eq_ok, fontValidate_iff, ih]
      simp [h]
    · simp only [if_neg h]
      rw [ih]
      simp at h; simp [h]

theorem validateFontNumbers_iff (t : FontTable) : FontTable.validateFontNumbers t = .ok () ↔
    UniqueNumbers (fun f : Font => f.number.toNat) t := by
  induction t with
  | nil => simp [FontTable.validateFontNumbers, uniqueNumbers_nil]
  | cons c cs ih =>
    rw [uniqueNumbers_cons, ← ih, FontTable.validateFontNumbers]
    simp only [u8_ne_zero, List.any_eq_true, beq_iff_eq, ← UInt8.toNat_inj]
    split
    · rename_i h
      obtain ⟨h0, d, hd, he⟩ := h
      have : ¬ ∀ b ∈ cs, b.number.toNat ≠ c.number.toNat := fun hh => hh d hd he
      simp [h0]; exact fun hh => absurd hh this
    · rename_i h
      constructor
      · intro hv
        refine ⟨?_, hv⟩
        intro h0 b hb he
        exact h ⟨h0, b, hb, he⟩
      · exact fun hv => hv.2

/-- **C20 (acceptance)** for all tables: accepted exactly when valid. -/
theorem C20_accepts_iff (t : FontTable) : FontTable.validate t = .ok () ↔ FontsOk t := by
  simp only [FontTable.validate, Out.bind_unit_eq_ok, validateFonts_iff, validateFontNumbers_iff]
  exact ⟨fun h => ⟨h.1, h.2⟩, fun h => ⟨h.fonts, h.numbers⟩⟩

theorem validateCharNumbers_no_panic (cs : List CharacterEntry)
    (h : ∀ c ∈ cs, c.number.toNat < 0xD800 ∨ 0xDFFF < c.number.toNat) (e : Panic) :
    Font.validateCharNumbers cs ≠ .panic e := by
  induction cs with
  | nil => simp [Font.validateCharNumbers]
  | cons c cs ih =>
    rw [Font.validateCharNumbers]
    split
    · have h1 := h c (by simp)
      have h2 := c.number.toNat_lt
      have : charFromU32 c.number.toNat = some (Char.ofNat c.number.toNat) := by
        unfold charFromU32; rw [if_pos (by omega)]
      simp [this]
    · exact ih (fun c hc => h c (List.mem_cons_of_mem _ hc))

theorem fontValidate_no_panic (f : Font)
    (h : ∀ c ∈ f.characters, c.number.toNat < 0xD800 ∨ 0xDFFF < c.number.toNat) (e : Panic) :
    f.validate ≠ .panic e := by
  unfold Font.validate
  repeat' split
  all_goals first
    | simp; done
    | exact validateCharNumbers_no_panic _ h e

/-- **C20 (no panic)** when no character number is a UTF-16 surrogate.  Missing for the full claim:
a surrogate number used twice, which panics (`C20_false`). -/
theorem C20_no_panic_partial (t : FontTable)
    (h : ∀ f ∈ t, ∀ c ∈ f.characters, c.number.toNat < 0xD800 ∨ 0xDFFF < c.number.toNat)
    (e : Panic) : FontTable.validate t ≠ .panic e := by
  have h1 : FontTable.validateFonts t ≠ .panic e := by
    induction t with
    | nil => simp [FontTable.validateFonts]
    | cons f t ih =>
      have ih' := ih (fun f hf => h f (List.mem_cons_of_mem _ hf))
      simp only [FontTable.validateFonts]
      split
      · simp only [Out.bind_eq_panic, ne_eq, not_or]
        refine ⟨fontValidate_no_panic f (h f (by simp)) e, ?_⟩
        rintro ⟨_, _, hh⟩
        exact ih' hh
      · exact ih'
  have h2 : FontTable.validateFontNumbers t ≠ .panic e := by
    clear h h1
    induction t with
    | nil => simp [FontTable.validateFontNumbers]
    | cons f t ih =>
      rw [FontTable.validateFontNumbers]
      split
      · simp
      · exact ih
  simp only [FontTable.validate, Out.bind_eq_panic, ne_eq, not_or]
  exact ⟨h1, fun ⟨_, _, hh⟩ => h2 hh⟩

/-- **C20 is false**: a font with the same surrogate number (U+D800) twice makes validation panic
instead of reporting `DuplicateChar`. -/
theorem C20_false : FontTable.validate
    [⟨1, [], 1, 0, 0, [⟨0xD800, 1, [0x80]⟩, ⟨0xD800, 1, [0x80]⟩]⟩] = .panic .unwrap := by
  decide +kernel

-- a real font table is valid; hypotheses of the no-panic theorem hold for it
example : FontTable.validate [f07, f08] = .ok () := by decide +kernel
example : ∀ f ∈ [f07, f08], ∀ c ∈ f.characters, c.number.toNat < 0xD800 ∨ 0xDFFF < c.number.toNat := by
  decide +kernel
example : FontTable.validate [f07, f07] = .err (.duplicateNumber 7) := by decide +kernel

/-! ### C21 graphic table validation -/

theorem isBitmapValid_iff (g : Graphic) : g.isBitmapValid = true ↔
    BitmapBytes g.gtype (g.width.toNat * g.height.toNat) g.bitmap.length := by
  unfold Graphic.isBitmapValid BitmapBytes
  cases g.gtype <;> simp only [beq_iff_eq, Nat.mul_comm g.height.toNat]
  · rw [eq_comm, divCeil_eq]
  · exact eq_comm
  · exact eq_comm
  · omega

theorem isTransparentColorValid_iff (g : Graphic) : g.isTransparentColorValid = true ↔
    ∀ c, g.transparentColor = some c → TransparentKind g.gtype c := by
  unfold Graphic.isTransparentColorValid TransparentKind
  cases g.gtype <;> rcases g.transparentColor with _ | _ | _ <;> simp

theorem graphicValidate_iff (g : Graphic) (w h : UInt16) :
    g.validate w h = .ok () ↔ g.number.toNat ≠ 0 ∧ GraphicOk w.toNat h.toNat g := by
  simp only [Graphic.validate, u8_lt_one, u16_lt_one]
  simp only [gt_iff_lt, UInt16.lt_iff_toNat_lt, UInt8.toNat_toUInt16]
  have hb := isBitmapValid_iff g
  have ht := isTransparentColorValid_iff g
  have key : GraphicOk w.toNat h.toNat g ↔
    (1 ≤ g.height.toNat ∧ g.height.toNat ≤ h.toNat) ∧ (1 ≤ g.width.toNat ∧ g.width.toNat ≤ w.toNat) ∧
      g.isBitmapValid = true ∧ g.isTransparentColorValid = true := by
    rw [hb, ht]
    exact ⟨fun k => ⟨k.height, k.width, k.bitmap, k.transparent⟩,
      fun ⟨a, b, c, d⟩ => ⟨a, b, c, d⟩⟩
  rw [key]
  by_cases h1 : g.number.toNat = 0
  · rw [if_pos h1]; simp [h1]
  rw [if_neg h1]
  by_cases h2 : g.height.toNat = 0 ∨ h.toNat < g.height.toNat
  · rw [if_pos h2]
    constructor
    · intro k; simp at k
    · rintro ⟨_, k, _⟩; omega
  rw [if_neg h2]
  by_cases h3 : g.width.toNat = 0 ∨ w.toNat < g.width.toNat
  · rw [if_pos h3]
    constructor
    · intro k; simp at k
    · rintro ⟨_, _, k, _⟩; omega
  rw [if_neg h3]
  have h2' : 1 ≤ g.height.toNat ∧ g.height.toNat ≤ h.toNat := by omega
  have h3' : 1 ≤ g.width.toNat ∧ g.width.toNat ≤ w.toNat := by omega
  cases g.isBitmapValid <;> cases g.isTransparentColorValid <;> simp [h1, h2', h3']

theorem validateGraphics_iff (w h : UInt16) (t : GraphicTable) :
    GraphicTable.validateGraphics w h t = .ok () ↔
      ∀ g ∈ t, g.number.toNat ≠ 0 → GraphicOk w.toNat h.toNat g := by
  induction t with
  | nil => simp [GraphicTable.validateGraphics]
  | cons g t ih =>
    simp only [GraphicTable.validateGraphics, List.forall_mem_cons, u8_ne_zero]
    by_cases h0 : g.number.toNat ≠ 0
    · rw [if_pos h0]
      have := graphicValidate_iff g w h
      split
      · rename_i hv
        rw [ih]; simp [hv] at this; simp [this]
      · rename_i e hv
        rw [hv] at this
        simp [h0] at this; simp [h0, this]
    · rw [if_neg h0, ih]; simp [h0]

theorem validateGraphicNumbers_iff (t : GraphicTable) :
    GraphicTable.validateGraphicNumbers t = .ok () ↔
      UniqueNumbers (fun g : Graphic => g.number.toNat) t := by
  induction t with
  | nil => simp [GraphicTable.validateGraphicNumbers, uniqueNumbers_nil]
  | cons c cs ih =>
    rw [uniqueNumbers_cons, ← ih, GraphicTable.validateGraphicNumbers]
    simp only [u8_ne_zero, List.any_eq_true, beq_iff_eq, ← UInt8.toNat_inj]
    split
    · rename_i h
      obtain ⟨h0, d, hd, he⟩ := h
      have : ¬ ∀ b ∈ cs, b.number.toNat ≠ c.number.toNat := fun hh => hh d hd he
      simp [h0]; exact fun hh => absurd hh this
    · rename_i h
      constructor
      · intro hv
        refine ⟨?_, hv⟩
        intro h0 b hb he
        exact h ⟨h0, b, hb, he⟩
      · exact fun hv => hv.2

/-- **C21** accepted exactly when every numbered graphic is valid on the sign and the numbers are
unique. -/
theorem C21_accepts_iff (t : GraphicTable) (w h : UInt16) :
    GraphicTable.validate t w h = .ok () ↔ GraphicsOk w.toNat h.toNat t := by
  have h1 := validateGraphics_iff w h t
  have h2 := validateGraphicNumbers_iff t
  unfold GraphicTable.validate
  split
  · rename_i hv
    rw [h2]
    exact ⟨fun k => ⟨h1.1 hv, k⟩, fun k => k.numbers⟩
  · rename_i e hv
    constructor
    · simp
    · intro k
      have := h1.2 k.graphics
      rw [hv] at this; simp at this

/-- **C21 (single graphic)** -/
theorem C21_graphic_iff (g : Graphic) (w h : UInt16) :
    g.validate w h = .ok () ↔ g.number.toNat ≠ 0 ∧ GraphicOk w.toNat h.toNat g :=
  graphicValidate_iff g w h

example : GraphicTable.validate
    [⟨1, [], 2, 3, .monochrome1Bit, some (.legacy 0), [0xA8]⟩, .default,
     ⟨2, [], 1, 1, .color24Bit, some (.rgb 1 2 3), [1, 2, 3]⟩] 3 2 = .ok () := by decide +kernel
example : GraphicTable.validate
    [⟨1, [], 2, 3, .monochrome1Bit, none, [0xA8]⟩] 2 2 = .error .invalidWidth := by decide +kernel

/-! ### C22 the builder -/

/-- a graphic that does not fit on a sign of `w × h` pixels -/
def Spec.TooLarge (w h : UInt16) (g : Graphic) : Prop :=
  w.toNat < g.width.toNat ∨ h.toNat < g.height.toNat

instance (w h : UInt16) (g : Graphic) : Decidable (Spec.TooLarge w h g) := by
  unfold Spec.TooLarge; infer_instance

theorem retain_eq (t : GraphicTable) (w h : UInt16) :
    GraphicTable.retain t w h = t.map fun g => if Spec.TooLarge w h g then .default else g := by
  unfold GraphicTable.retain Spec.TooLarge
  simp only [gt_iff_lt, UInt16.lt_iff_toNat_lt, UInt8.toNat_toUInt16]

/-- **C22** if `build` succeeds the sign keeps the configuration and fonts; fonts and graphics are
valid; each graphic slot holds the given graphic, or nothing if it is larger than the sign. -/
theorem C22_built_sign_valid (p : Profile) (b : DmsBuilder) (d : Dms) (h : b.build p = .ok d) :
    d.signCfg = b.signCfg ∧ d.vmsCfg = b.vmsCfg ∧ d.multiCfg = b.multiCfg ∧
    d.fontDefinition = b.fontDefinition ∧
    FontsOk d.fontDefinition ∧
    GraphicsOk d.vmsCfg.signWidthPixels.toNat d.vmsCfg.signHeightPixels.toNat d.graphicDefinition ∧
    d.graphicDefinition.length = b.graphicDefinition.length ∧
    (∀ (i : Nat) g, b.graphicDefinition[i]? = some g →
      ¬ Spec.TooLarge b.vmsCfg.signWidthPixels b.vmsCfg.signHeightPixels g →
      d.graphicDefinition[i]? = some g) ∧
    (∀ (i : Nat) g, b.graphicDefinition[i]? = some g →
      Spec.TooLarge b.vmsCfg.signWidthPixels b.vmsCfg.signHeightPixels g →
      d.graphicDefinition[i]? = some Graphic.default) ∧
    (p = .checked → Spec.Fits d.signCfg d.vmsCfg) ∧
    (1 ≤ d.multiCfg.maxNumberPages.toNat) ∧
    (2 ≤ d.multiCfg.maxNumberPages.toNat → d.multiCfg.supportedMultiTags .np = true) := by
  unfold DmsBuilder.build at h
  simp only [Out.bind_unit_eq_ok] at h
  obtain ⟨h1, h2, h3, h4, h5⟩ := h
  have e1 : b.signCfg.validate p b.vmsCfg = .ok () := by
    cases hh : b.signCfg.validate p b.vmsCfg <;> simp [hh] at h1; rfl
  have e2 : b.multiCfg.validate = .ok () := by
    cases hh : b.multiCfg.validate <;> simp [hh, DmsBuilder.liftE] at h2; rfl
  have e3 : FontTable.validate b.fontDefinition = .ok () := by
    cases hh : FontTable.validate b.fontDefinition <;> simp [hh] at h3; rfl
  have e4 : GraphicTable.validate (GraphicTable.retain b.graphicDefinition
      b.vmsCfg.signWidthPixels b.vmsCfg.signHeightPixels) b.vmsCfg.signWidthPixels
      b.vmsCfg.signHeightPixels = .ok () := by
    revert h4
    cases GraphicTable.validate (GraphicTable.retain b.graphicDefinition
      b.vmsCfg.signWidthPixels b.vmsCfg.signHeightPixels) b.vmsCfg.signWidthPixels
      b.vmsCfg.signHeightPixels <;> simp [DmsBuilder.liftE]
  rw [C20_accepts_iff] at e3
  rw [C21_accepts_iff] at e4
  rw [(C19_multi_cfg_validate _).1] at e2
  simp at h5
  subst h5
  refine ⟨rfl, rfl, rfl, rfl, e3, e4, ?_, ?_, ?_, ?_, e2.1, e2.2⟩
  · simp [retain_eq]
  · intro i g hi hg
    simp [retain_eq, hi, hg]
  · intro i g hi hg
    simp [retain_eq, hi, hg]
  · rintro rfl
    rwa [C18_checked_accepts_iff] at e1

/-- **C22 (exactly when)** with checked arithmetic, `build` succeeds exactly when the dimensions
fit, the page configuration and the fonts are valid, and the graphics not larger than the sign
are valid. -/
theorem C22_build_succeeds_iff (b : DmsBuilder) :
    (∃ d, b.build .checked = .ok d) ↔
      Spec.Fits b.signCfg b.vmsCfg ∧
      (1 ≤ b.multiCfg.maxNumberPages.toNat ∧
        (2 ≤ b.multiCfg.maxNumberPages.toNat → b.multiCfg.supportedMultiTags .np = true)) ∧
      FontsOk b.fontDefinition ∧
      GraphicsOk b.vmsCfg.signWidthPixels.toNat b.vmsCfg.signHeightPixels.toNat
        (b.graphicDefinition.map fun g =>
          if Spec.TooLarge b.vmsCfg.signWidthPixels b.vmsCfg.signHeightPixels g
          then .default else g) := by
  rw [← C18_checked_accepts_iff, ← C20_accepts_iff, ← C21_accepts_iff,
    ← (C19_multi_cfg_validate _).1, ← retain_eq]
  unfold DmsBuilder.build
  simp only [Out.bind_unit_eq_ok]
  generalize b.signCfg.validate .checked b.vmsCfg = a1
  generalize b.multiCfg.validate = a2
  generalize FontTable.validate b.fontDefinition = a3
  generalize GraphicTable.validate _ _ _ = a4
  rcases a1 with _ | _ | _ <;> rcases a2 with _ | _ <;> rcases a3 with _ | _ | _ <;>
    rcases a4 with _ | _ <;> simp [DmsBuilder.liftE]

/-! ### C23 rebuilding -/

theorem default_not_tooLarge (w h : UInt16) : ¬ Spec.TooLarge w h Graphic.default := by
  have e1 : Graphic.default.width.toNat = 0 := rfl
  have e2 : Graphic.default.height.toNat = 0 := rfl
  unfold Spec.TooLarge; omega

theorem retain_idem (t : GraphicTable) (w h : UInt16) :
    GraphicTable.retain (GraphicTable.retain t w h) w h = GraphicTable.retain t w h := by
  simp only [retain_eq, List.map_map]
  congr 1; funext g
  simp only [Function.comp]
  split
  · rw [if_neg (default_not_tooLarge w h)]
  · rfl

/-- **C23** rebuilding a built sign succeeds and gives the same sign -/
theorem C23_rebuild (p : Profile) (b : DmsBuilder) (d : Dms) (h : b.build p = .ok d) :
    d.intoBuilder.build p = .ok d := by
  unfold DmsBuilder.build at h
  simp only [Out.bind_unit_eq_ok, Out.pure_eq, Out.ok.injEq] at h
  obtain ⟨h1, h2, h3, h4, rfl⟩ := h
  simp only [DmsBuilder.build, Dms.intoBuilder, Out.bind_unit_eq_ok, retain_idem]
  exact ⟨h1, h2, h3, h4, rfl⟩

/-- **C23 (lookup)** every graphic that fits is found under its number in the built sign -/
theorem C23_graphic_lookup (p : Profile) (b : DmsBuilder) (d : Dms) (h : b.build p = .ok d)
    (g : Graphic) (hg : g ∈ b.graphicDefinition) (h0 : g.number.toNat ≠ 0)
    (hf : ¬ Spec.TooLarge b.vmsCfg.signWidthPixels b.vmsCfg.signHeightPixels g) :
    GraphicTable.graphic d.graphicDefinition g.number = some g := by
  have k := C22_built_sign_valid p b d h
  obtain ⟨i, hi⟩ := List.mem_iff_getElem?.1 hg
  have hd := k.2.2.2.2.2.2.2.1 i g hi hf
  exact find?_of_unique (fun g : Graphic => g.number.toNat) _ k.2.2.2.2.2.1.numbers _ g
    (List.mem_iff_getElem?.2 ⟨i, hd⟩) h0 (fun x => by simp [← UInt8.toNat_inj])

/-- **C23 (fonts)** every numbered font of the builder is found in the built sign -/
theorem C23_font_lookup (p : Profile) (b : DmsBuilder) (d : Dms) (h : b.build p = .ok d)
    (f : Font) (hf : f ∈ b.fontDefinition) (h0 : f.number.toNat ≠ 0) :
    FontTable.font d.fontDefinition f.number = some f := by
  have k := C22_built_sign_valid p b d h
  rw [← k.2.2.2.1] at hf
  exact find?_of_unique (fun g : Font => g.number.toNat) _ k.2.2.2.2.1.numbers _ f
    hf h0 (fun x => by simp [← UInt8.toNat_inj])

-- a built sign in which one graphic survives and one is dropped
example : ∃ d, (DmsBuilder.default 1 1 0 |>.withFontDefinition [f07, .default 128]
    |>.withGraphicDefinition [⟨1, [], 2, 3, .monochrome1Bit, none, [0xA8]⟩,
      ⟨2, [], 200, 200, .monochrome1Bit, none, []⟩]).build .checked = .ok d ∧
    d.graphicDefinition.map Graphic.number = [1, 0] := ⟨_, rfl, by decide +kernel⟩

/-! ### C24 tables behave like maps -/

/-- **C24 (lookup)** in a table with unique numbers a positive number finds the unique entry with
this number, and only fails when there is none. -/
theorem C24_font_lookup (t : FontTable) (hu : UniqueNumbers (fun f : Font => f.number.toNat) t)
    (n : UInt8) (hn : n.toNat ≠ 0) (f : Font) :
    FontTable.font t n = some f ↔ f ∈ t ∧ f.number = n := by
  constructor
  · intro h
    exact ⟨List.mem_of_find?_eq_some h, by simpa using List.find?_some h⟩
  · rintro ⟨hf, rfl⟩
    exact find?_of_unique (fun g : Font => g.number.toNat) _ hu _ f hf hn
      (fun x => by simp [← UInt8.toNat_inj])

theorem C24_graphic_lookup (t : GraphicTable)
    (hu : UniqueNumbers (fun g : Graphic => g.number.toNat) t)
    (n : UInt8) (hn : n.toNat ≠ 0) (g : Graphic) :
    GraphicTable.graphic t n = some g ↔ g ∈ t ∧ g.number = n := by
  constructor
  · intro h
    exact ⟨List.mem_of_find?_eq_some h, by simpa using List.find?_some h⟩
  · rintro ⟨hf, rfl⟩
    exact find?_of_unique (fun g : Graphic => g.number.toNat) _ hu _ g hf hn
      (fun x => by simp [← UInt8.toNat_inj])

theorem setFont_eq (t : FontTable) (n : UInt8) (g : Font) :
    FontTable.setFont t n g = setFirst (fun f : Font => f.number.toNat) n.toNat g t := by
  induction t with
  | nil => rfl
  | cons f t ih => simp only [FontTable.setFont, setFirst, ih, beq_iff_eq, ← UInt8.toNat_inj]

theorem setGraphic_eq (t : GraphicTable) (n : UInt8) (g : Graphic) :
    GraphicTable.setGraphic t n g = setFirst (fun f : Graphic => f.number.toNat) n.toNat g t := by
  induction t with
  | nil => rfl
  | cons f t ih => simp only [GraphicTable.setGraphic, setFirst, ih, beq_iff_eq, ← UInt8.toNat_inj]

theorem font_eq (t : FontTable) (n : UInt8) :
    FontTable.font t n = t.find? (fun f : Font => f.number.toNat == n.toNat) := by
  unfold FontTable.font; congr 1; funext f
  rw [Bool.eq_iff_iff]; simp [← UInt8.toNat_inj]

theorem graphic_eq (t : GraphicTable) (n : UInt8) :
    GraphicTable.graphic t n = t.find? (fun f : Graphic => f.number.toNat == n.toNat) := by
  unfold GraphicTable.graphic; congr 1; funext f
  rw [Bool.eq_iff_iff]; simp [← UInt8.toNat_inj]

/-- **C24 (update)** writing an entry through `font_mut(n)` (with `n = 0`: an unused slot), where the
new number is 0, `n` itself or not used yet, keeps the numbers unique; then the new number finds the
new entry, `n` finds nothing any more (unless it is the new number), and all other lookups are
unchanged. -/
theorem C24_font_update (t t' : FontTable) (n : UInt8) (g : Font)
    (hu : UniqueNumbers (fun f : Font => f.number.toNat) t)
    (hg : g.number = 0 ∨ g.number = n ∨ ∀ f ∈ t, f.number ≠ g.number)
    (h : FontTable.setFont t n g = some t') :
    UniqueNumbers (fun f : Font => f.number.toNat) t' ∧
    ∀ m : UInt8, m ≠ 0 → FontTable.font t' m =
      if m = g.number then some g else if m = n then none else FontTable.font t m := by
  rw [setFont_eq] at h
  have hg' : g.number.toNat = 0 ∨ g.number.toNat = n.toNat ∨
      ∀ a ∈ t, a.number.toNat ≠ g.number.toNat := by
    simpa [← UInt8.toNat_inj] using hg
  refine ⟨setFirst_unique _ _ _ _ _ hu hg' h, ?_⟩
  intro m hm
  rw [font_eq, font_eq, setFirst_find _ _ _ _ _ hu hg' h m.toNat
    (by simpa [← UInt8.toNat_inj] using hm)]
  simp [← UInt8.toNat_inj]

theorem C24_graphic_update (t t' : GraphicTable) (n : UInt8) (g : Graphic)
    (hu : UniqueNumbers (fun f : Graphic => f.number.toNat) t)
    (hg : g.number = 0 ∨ g.number = n ∨ ∀ f ∈ t, f.number ≠ g.number)
    (h : GraphicTable.setGraphic t n g = some t') :
    UniqueNumbers (fun f : Graphic => f.number.toNat) t' ∧
    ∀ m : UInt8, m ≠ 0 → GraphicTable.graphic t' m =
      if m = g.number then some g else if m = n then none else GraphicTable.graphic t m := by
  rw [setGraphic_eq] at h
  have hg' : g.number.toNat = 0 ∨ g.number.toNat = n.toNat ∨
      ∀ a ∈ t, a.number.toNat ≠ g.number.toNat := by
    simpa [← UInt8.toNat_inj] using hg
  refine ⟨setFirst_unique _ _ _ _ _ hu hg' h, ?_⟩
  intro m hm
  rw [graphic_eq, graphic_eq, setFirst_find _ _ _ _ _ hu hg' h m.toNat
    (by simpa [← UInt8.toNat_inj] using hm)]
  simp [← UInt8.toNat_inj]

/-- **C24 (room)** `font_mut(0)` finds a slot exactly when one is unused; filling it uses up one. -/
theorem C24_font_room (t : FontTable) (g : Font) (hg : g.number ≠ 0) :
    (FontTable.setFont t 0 g = none ↔ t.countP (fun f => f.number.toNat = 0) = 0) ∧
    ∀ t', FontTable.setFont t 0 g = some t' →
      t'.countP (fun f => f.number.toNat = 0) + 1 = t.countP (fun f => f.number.toNat = 0) := by
  simp only [setFont_eq]
  refine ⟨?_, fun t' h => ?_⟩
  · rw [setFirst_none, List.countP_eq_zero]; simp
  · exact setFirst_free (fun f : Font => f.number.toNat) g
      (by simpa [← UInt8.toNat_inj] using hg) t t' h

/-- inserting fonts one after the other into unused slots -/
def insertFonts : FontTable → List Font → Option FontTable
  | t, [] => some t
  | t, g :: gs => (FontTable.setFont t 0 g).bind (insertFonts · gs)

/-- **C24 (any sequence of insertions)** inserting fonts with distinct, positive, new numbers
succeeds exactly when there is room for all of them; then every inserted font is found under its
number and every other lookup is unchanged. -/
theorem C24_font_insertions (t : FontTable) (gs : List Font)
    (hu : UniqueNumbers (fun f : Font => f.number.toNat) t)
    (h0 : ∀ g ∈ gs, g.number ≠ 0)
    (hnew : ∀ g ∈ gs, ∀ f ∈ t, f.number ≠ g.number)
    (hd : (gs.map Font.number).Nodup) :
    ((∃ t', insertFonts t gs = some t') ↔ gs.length ≤ t.countP (fun f => f.number.toNat = 0)) ∧
    ∀ t', insertFonts t gs = some t' →
      (∀ g ∈ gs, FontTable.font t' g.number = some g) ∧
      (∀ m : UInt8, m ≠ 0 → m ∉ gs.map Font.number → FontTable.font t' m = FontTable.font t m) := by
  induction gs generalizing t with
  | nil => simp [insertFonts]
  | cons g gs ih =>
    simp only [List.forall_mem_cons, List.map_cons, List.nodup_cons] at h0 hnew hd
    have room := C24_font_room t g h0.1
    cases hs : FontTable.setFont t 0 g with
    | none =>
      have := room.1.1 hs
      simp [insertFonts, hs, this]
    | some t1 =>
      have hc := room.2 t1 hs
      have upd := C24_font_update t t1 0 g hu (.inr (.inr hnew.1)) hs
      have hnew1 : ∀ g' ∈ gs, ∀ f ∈ t1, f.number ≠ g'.number := by
        intro g' hg' f hf
        rw [setFont_eq] at hs
        rcases setFirst_mem _ _ _ _ _ hs f hf with rfl | hf
        · intro he
          exact hd.1 (he ▸ List.mem_map_of_mem hg')
        · exact hnew.2 g' hg' f hf
      have ih' := ih t1 upd.1 h0.2 hnew1 hd.2
      simp only [insertFonts, hs, Option.bind_some, List.length_cons]
      refine ⟨ih'.1.trans (by omega), ?_⟩
      intro t' ht'
      have k := ih'.2 t' ht'
      simp only [List.forall_mem_cons, List.map_cons]
      refine ⟨⟨?_, k.1⟩, ?_⟩
      · rw [k.2 g.number h0.1 hd.1, upd.2 g.number h0.1, if_pos rfl]
      · intro m hm hnm
        rw [List.mem_cons, not_or] at hnm
        rw [k.2 m hm hnm.2, upd.2 m hm, if_neg hnm.1, if_neg hm]

-- three fonts into a table of four slots
example : ∃ t', insertFonts (FontTable.default 1 4) [f08, f07, f02] = some t' ∧
    FontTable.font t' 7 = some f07 ∧ FontTable.font t' 8 = some f08 ∧ FontTable.font t' 3 = none :=
  ⟨_, rfl, by decide +kernel, by decide +kernel, by decide +kernel⟩

/-- inserting graphics one after the other into unused slots -/
def insertGraphics : GraphicTable → List Graphic → Option GraphicTable
  | t, [] => some t
  | t, g :: gs => (GraphicTable.setGraphic t 0 g).bind (insertGraphics · gs)

/-- **C24 (any sequence of insertions, graphics)** -/
theorem C24_graphic_insertions (t : GraphicTable) (gs : List Graphic)
    (hu : UniqueNumbers (fun f : Graphic => f.number.toNat) t)
    (h0 : ∀ g ∈ gs, g.number ≠ 0)
    (hnew : ∀ g ∈ gs, ∀ f ∈ t, f.number ≠ g.number)
    (hd : (gs.map Graphic.number).Nodup) :
    ((∃ t', insertGraphics t gs = some t') ↔ gs.length ≤ t.countP (fun f => f.number.toNat = 0)) ∧
    ∀ t', insertGraphics t gs = some t' →
      (∀ g ∈ gs, GraphicTable.graphic t' g.number = some g) ∧
      (∀ m : UInt8, m ≠ 0 → m ∉ gs.map Graphic.number →
        GraphicTable.graphic t' m = GraphicTable.graphic t m) := by
  induction gs generalizing t with
  | nil => simp [insertGraphics]
  | cons g gs ih =>
    simp only [List.forall_mem_cons, List.map_cons, List.nodup_cons] at h0 hnew hd
    have hg0 : g.number.toNat ≠ 0 := by simpa [← UInt8.toNat_inj] using h0.1
    cases hs : GraphicTable.setGraphic t 0 g with
    | none =>
      rw [setGraphic_eq, setFirst_none] at hs
      have : t.countP (fun f => f.number.toNat = 0) = 0 := by
        rw [List.countP_eq_zero]; simpa using hs
      have hs' : GraphicTable.setGraphic t 0 g = none := by
        rw [setGraphic_eq, setFirst_none]; exact hs
      simp [insertGraphics, hs', this]
    | some t1 =>
      have hc := by
        have := hs
        rw [setGraphic_eq] at this
        exact setFirst_free (fun f : Graphic => f.number.toNat) g hg0 t t1 this
      have upd := C24_graphic_update t t1 0 g hu (.inr (.inr hnew.1)) hs
      have hnew1 : ∀ g' ∈ gs, ∀ f ∈ t1, f.number ≠ g'.number := by
        intro g' hg' f hf
        rw [setGraphic_eq] at hs
        rcases setFirst_mem _ _ _ _ _ hs f hf with rfl | hf
        · intro he
          exact hd.1 (he ▸ List.mem_map_of_mem hg')
        · exact hnew.2 g' hg' f hf
      have ih' := ih t1 upd.1 h0.2 hnew1 hd.2
      simp only [insertGraphics, hs, Option.bind_some, List.length_cons]
      refine ⟨ih'.1.trans (by omega), ?_⟩
      intro t' ht'
      have k := ih'.2 t' ht'
      simp only [List.forall_mem_cons, List.map_cons]
      refine ⟨⟨?_, k.1⟩, ?_⟩
      · rw [k.2 g.number h0.1 hd.1, upd.2 g.number h0.1, if_pos rfl]
      · intro m hm hnm
        rw [List.mem_cons, not_or] at hnm
        rw [k.2 m hm hnm.2, upd.2 m hm, if_neg hnm.1, if_neg hm]

end Ntcip
