import Verif.Lemmas.Local
import Verif.Props.Ranges
import Verif.Props.Version
import Verif.Lemmas.Pattern
/-
Property C74: only the fonts, graphics and tags a message uses and few settings of a sign matter.
-/
namespace Ntcip.Spec

/-- the font of this number is used by the message: it is the default font, or named by a tag -/
def UsesFont (d : Dms) (ms : Str) (n : UInt8) : Prop :=
  n = d.multiCfg.defaultFont ∨ ∃ vid, .ok (.ok (.font (some (n, vid)))) ∈ values ms

/-- the graphic of this number is named by a tag of the message -/
def UsesGraphic (ms : Str) (n : UInt8) : Prop := ∃ pos, .ok (.ok (.graphic n pos)) ∈ values ms

/-- an item of the message has this tag -/
def UsesTag (ms : Str) (t : Tag) : Prop := ∃ v : Value, .ok (.ok v) ∈ values ms ∧ v.tag = some t

/-- The same settings, as far as they matter.  Not listed are: the geometry of the sign (`signCfg`), its pitch, default
flash times, character set, maximum number of pages and maximum length of messages. -/
structure SameSettings (d d' : Dms) : Prop where
  charHeight : d'.vmsCfg.charHeightPixels = d.vmsCfg.charHeightPixels
  charWidth : d'.vmsCfg.charWidthPixels = d.vmsCfg.charWidthPixels
  height : d'.vmsCfg.signHeightPixels = d.vmsCfg.signHeightPixels
  width : d'.vmsCfg.signWidthPixels = d.vmsCfg.signWidthPixels
  foreground : signForeground d' = signForeground d
  background : signBackground d' = signBackground d
  scheme : d'.multiCfg.colorScheme = d.multiCfg.colorScheme
  font : d'.multiCfg.defaultFont = d.multiCfg.defaultFont
  line : d'.multiCfg.defaultJustificationLine = d.multiCfg.defaultJustificationLine
  page : d'.multiCfg.defaultJustificationPage = d.multiCfg.defaultJustificationPage
  onTime : d'.multiCfg.defaultPageOnTime = d.multiCfg.defaultPageOnTime
  offTime : d'.multiCfg.defaultPageOffTime = d.multiCfg.defaultPageOffTime

/-- numbers of fonts and graphics are unique, and there is a default font -/
structure Numbered (d : Dms) : Prop where
  fonts : UniqueNumbers (fun f : Font => f.number.toNat) d.fontDefinition
  graphics : UniqueNumbers (fun g : Graphic => g.number.toNat) d.graphicDefinition
  font : 1 ≤ d.multiCfg.defaultFont.toNat

end Ntcip.Spec

namespace Ntcip
open Spec Tests

theorem fontsOf_uses (d : Dms) (ms : Str) : FontsOf (UsesFont d ms) (slices ms) :=
  fun s hs n vid h => .inr ⟨vid, by rw [values, List.mem_map]; exact ⟨s, hs, h⟩⟩

theorem graphicsOf_uses (ms : Str) : GraphicsOf (UsesGraphic ms) (slices ms) :=
  fun s hs n pos h => ⟨pos, by rw [values, List.mem_map]; exact ⟨s, hs, h⟩⟩

theorem usesFont_pos {d : Dms} (hd : Numbered d) {ms : Str} {n : UInt8} (h : UsesFont d ms n) :
    n.toNat ≠ 0 := by
  rcases h with rfl | ⟨vid, h⟩
  · have := hd.font; omega
  · have := C04_values_in_range ms _ h n vid rfl
    omega

theorem usesGraphic_pos {ms : Str} {n : UInt8} (h : UsesGraphic ms n) : n.toNat ≠ 0 := by
  obtain ⟨pos, h⟩ := h
  have := (C04_values_in_range ms _ h).1
  omega

theorem option_ext_some {α : Type} {a b : Option α} (h : ∀ x, a = some x ↔ b = some x) : a = b := by
  cases a with
  | none =>
    cases b with
    | none => rfl
    | some y => exact absurd ((h y).2 rfl) (by simp)
  | some x => exact ((h x).1 rfl).symm

theorem tagsOf_uses (ms : Str) : TagsOf (UsesTag ms) (slices ms) :=
  fun s hs v t h ht => ⟨v, by rw [values, List.mem_map]; exact ⟨s, hs, h⟩, ht⟩

/-- **C74**: two signs with the same settings, as far as they matter, which support the same of the tags of the message,
and whose tables have the same fonts and graphics under the numbers the message uses, give the same pages, errors and
panics for the message.  Other entries, their order, other settings and other tags do not matter. -/
theorem C74_unused (d d' : Dms) (ms : Str) (hc : SameSettings d d') (hd : Numbered d) (hd' : Numbered d')
    (ht : ∀ t, UsesTag ms t → d'.multiCfg.supportedMultiTags t = d.multiCfg.supportedMultiTags t)
    (hf : ∀ f, UsesFont d ms f.number → (f ∈ d.fontDefinition ↔ f ∈ d'.fontDefinition))
    (hg : ∀ g, UsesGraphic ms g.number → (g ∈ d.graphicDefinition ↔ g ∈ d'.graphicDefinition)) (k : Nat) :
    Pages.run d k (Pages.new d ms) = Pages.run d' k (Pages.new d' ms) := by
  have hn : Pages.new d' ms = Pages.new d ms := by
    simp only [Pages.new, RenderState.new, Dms.colorCtx, foregroundDefault_eq, backgroundDefault_eq,
      hc.height, hc.width, hc.foreground, hc.background, hc.scheme, hc.font,
      hc.line, hc.page, hc.onTime, hc.offTime]
  rw [hn]
  refine run_same (S := UsesFont d ms) (T := UsesGraphic ms) (U := UsesTag ms) ⟨hc.charWidth, hc.charHeight⟩ ht ?_ ?_ k
    ⟨.inl rfl, .inl rfl, fontsOf_uses d ms, graphicsOf_uses ms, tagsOf_uses ms⟩
  · intro n hu
    have h0 := usesFont_pos hd hu
    refine option_ext_some fun f => ?_
    rw [C24_font_lookup _ hd.fonts n h0, C24_font_lookup _ hd'.fonts n h0]
    constructor
    · rintro ⟨h, rfl⟩; exact ⟨(hf f hu).1 h, rfl⟩
    · rintro ⟨h, rfl⟩; exact ⟨(hf f hu).2 h, rfl⟩
  · intro n hu
    have h0 := usesGraphic_pos hu
    refine option_ext_some fun g => ?_
    rw [C24_graphic_lookup _ hd.graphics n h0, C24_graphic_lookup _ hd'.graphics n h0]
    constructor
    · rintro ⟨h, rfl⟩; exact ⟨(hg g hu).1 h, rfl⟩
    · rintro ⟨h, rfl⟩; exact ⟨(hg g hu).2 h, rfl⟩

theorem uniqueNumbers_perm {α : Type} {num : α → Nat} {l l' : List α} (h : l.Perm l')
    (hu : UniqueNumbers num l) : UniqueNumbers num l' := by
  induction h with
  | nil => exact hu
  | cons a h ih =>
    rw [uniqueNumbers_cons] at hu ⊢
    exact ⟨fun h0 b hb => hu.1 h0 b (h.mem_iff.2 hb), ih hu.2⟩
  | swap a b l =>
    simp only [uniqueNumbers_cons, List.forall_mem_cons] at hu ⊢
    grind
  | trans _ _ ih1 ih2 => exact ih2 (ih1 hu)

/-- **C74**: the order of the fonts and graphics in their tables does not matter, for any message. -/
theorem C74_order (d : Dms) (ms : Str) (F : FontTable) (G : GraphicTable) (hd : Numbered d)
    (hF : d.fontDefinition.Perm F) (hG : d.graphicDefinition.Perm G) (k : Nat) :
    Pages.run d k (Pages.new d ms) =
      Pages.run { d with fontDefinition := F, graphicDefinition := G } k
        (Pages.new { d with fontDefinition := F, graphicDefinition := G } ms) :=
  C74_unused d { d with fontDefinition := F, graphicDefinition := G } ms
    ⟨rfl, rfl, rfl, rfl, rfl, rfl, rfl, rfl, rfl, rfl, rfl, rfl⟩ hd
    ⟨uniqueNumbers_perm hF hd.fonts, uniqueNumbers_perm hG hd.graphics, hd.font⟩
    (fun _ _ => rfl) (fun _ _ => hF.mem_iff) (fun _ _ => hG.mem_iff) k

/-- **C74**: storing another font through `font_mut(n)` does not change messages that use neither
the number `n` nor the number of the new font. -/
theorem C74_store_font (d : Dms) (ms : Str) (n : UInt8) (g : Font) (t : FontTable) (hd : Numbered d)
    (hg : g.number = 0 ∨ g.number = n ∨ ∀ f ∈ d.fontDefinition, f.number ≠ g.number)
    (h : FontTable.setFont d.fontDefinition n g = some t)
    (h1 : ¬UsesFont d ms n) (h2 : ¬UsesFont d ms g.number) (k : Nat) :
    Pages.run d k (Pages.new d ms) =
      Pages.run { d with fontDefinition := t } k (Pages.new { d with fontDefinition := t } ms) := by
  obtain ⟨hu, hl⟩ := C24_font_update _ _ n g hd.fonts hg h
  refine C74_unused d { d with fontDefinition := t } ms ⟨rfl, rfl, rfl, rfl, rfl, rfl, rfl, rfl, rfl, rfl, rfl, rfl⟩ hd
    ⟨hu, hd.graphics, hd.font⟩ (fun _ _ => rfl) (fun f hf => ?_) (fun _ _ => Iff.rfl) k
  have h0 := usesFont_pos hd hf
  have e := hl f.number (by intro e; rw [e] at h0; exact h0 rfl)
  have n1 : f.number ≠ g.number := fun e => h2 (e ▸ hf)
  have n2 : f.number ≠ n := fun e => h1 (e ▸ hf)
  rw [if_neg n1, if_neg n2] at e
  have a := C24_font_lookup _ hd.fonts f.number h0 f
  have b := C24_font_lookup _ hu f.number h0 f
  rw [e, a] at b
  simpa using b

/-- **C74**: the geometry of the sign, its pitch, flash times, character set and limits (number of pages, length of
messages) do not matter for any message.  The limits are not enforced. -/
theorem C74_settings (d : Dms) (ms : Str) (sc : SignCfg) (hp vp fon foff : UInt8) (cs : CharacterSet) (mp : UInt8)
    (ml : UInt16) (k : Nat) :
    let d' := { d with
      signCfg := sc
      vmsCfg := { d.vmsCfg with horizontalPitch := hp, verticalPitch := vp }
      multiCfg := { d.multiCfg with defaultFlashOn := fon, defaultFlashOff := foff, defaultCharacterSet := cs,
                                    maxNumberPages := mp, maxMultiStringLength := ml } }
    Pages.run d k (Pages.new d ms) = Pages.run d' k (Pages.new d' ms) := by
  intro d'
  exact run_same (d := d) (d' := d') (S := fun _ => True) (T := fun _ => True) (U := fun _ => True) ⟨rfl, rfl⟩
    (fun _ _ => rfl) (fun _ _ => rfl) (fun _ _ => rfl) k
    ⟨trivial, trivial, fun _ _ _ _ _ => trivial, fun _ _ _ _ _ => trivial, fun _ _ _ _ _ _ => trivial⟩

theorem steps_same {d d' : Dms} (hc : SameCfg d d') {S T : UInt8 → Prop} {U : Tag → Prop} (hT : SameTags U d d')
    (hF : SameFonts S d.fontDefinition d'.fontDefinition)
    (hG : ∀ n, T n → GraphicTable.graphic d.graphicDefinition n = GraphicTable.graphic d'.graphicDefinition n)
    {pg pg' : Pages} {xs} (hu : Uses S T U pg) (h : Steps d pg xs pg') : Steps d' pg xs pg' := by
  induction h with
  | nil => exact .nil
  | cons hn _ ih =>
    have := next_same hc hT hF hG hu
    exact .cons (this.1 ▸ hn) (ih (this.2 _ _ hn))

/-- **C74**: a message shown without error is shown alike by a sign supporting more tags. -/
theorem C74_more_tags (d : Dms) (ms : Str) (T : Tag → Bool)
    (hT : ∀ t, d.multiCfg.supportedMultiTags t = true → T t = true) (xs) (h : Yields d ms xs) (hn : NoError xs) :
    Yields { d with multiCfg := { d.multiCfg with supportedMultiTags := T } } ms xs := by
  have hb := C42_message d ms xs h hn
  obtain ⟨pg', h1, h2⟩ := h
  refine ⟨pg', ?_, ?_⟩
  · have := steps_same (d := d) (d' := { d with multiCfg := { d.multiCfg with supportedMultiTags := T } })
      (S := fun _ => True) (T := fun _ => True) (U := UsesTag ms) ⟨rfl, rfl⟩ ?_ (fun _ _ => rfl) (fun _ _ => rfl)
      ⟨trivial, trivial, fun _ _ _ _ _ => trivial, fun _ _ _ _ _ => trivial, tagsOf_uses ms⟩ h1
    · exact this
    · rintro t ⟨v, hv, ht⟩
      rw [values, List.mem_map] at hv
      obtain ⟨s, hs, hv⟩ := hv
      cases hd : d.multiCfg.supportedMultiTags t with
      | true => exact hT t hd
      | false => exact absurd (.inr ⟨v, t, hv, ht, hd⟩) (hb s hs)
  · have := (next_none h2).1
    simp [Pages.next, this]

theorem patRun_same {d d' : Dms} (hw : d'.fullRect = d.fullRect) (hf : d'.multiCfg.defaultFont = d.multiCfg.defaultFont)
    (hn : d'.multiCfg.supportedMultiTags .np = d.multiCfg.supportedMultiTags .np) {xs : List (Res (Except SyntaxError Value))}
    (hx : ∀ v t, .ok (.ok v) ∈ xs → v.tag = some t → d'.multiCfg.supportedMultiTags t = d.multiCfg.supportedMultiTags t)
    (font : UInt8) (rf : Option (Rectangle × UInt8)) : patRun d' font rf xs = patRun d font rf xs := by
  induction xs generalizing font rf with
  | nil =>
    have hu : unsupportedBy d' .newPage = unsupportedBy d .newPage := by simp only [unsupportedBy, Value.tag, hn]
    rw [patRun, patRun, hu]; rfl
  | cons x xs ih =>
    have ih' := ih fun v t hv => hx v t (List.mem_cons_of_mem _ hv)
    cases x with
    | panic p => rfl
    | ok x => cases x with
      | error e => simp only [patRun, ih']
      | ok v =>
        have hu : unsupportedBy d' v = unsupportedBy d v := by
          unfold unsupportedBy
          cases ht : v.tag with
          | none => rfl
          | some t => simp only [hx v t (List.mem_cons_self ..) ht]
        simp only [patRun, hu, ih']
        cases v <;> simp only [fillBefore, nextFont, nextRect, hw, hf]

/-- fonts of the fillable rectangles -/
def RectFonts (S : UInt8 → Prop) (xs : List (Res (Except SyntaxError PatValue))) : Prop :=
  ∀ r f, .ok (.ok (.fillableRect r f)) ∈ xs → S f

theorem patRun_fonts {d : Dms} {S : UInt8 → Prop} (hd : S d.multiCfg.defaultFont)
    {xs : List (Res (Except SyntaxError Value))} (hx : ∀ n vid, .ok (.ok (.font (some (n, vid)))) ∈ xs → S n)
    {font : UInt8} (hf : S font) {rf : Option (Rectangle × UInt8)} (hr : ∀ r f, rf = some (r, f) → S f) :
    RectFonts S (patRun d font rf xs) := by
  have key : ∀ (rf : Option (Rectangle × UInt8)) v, (∀ r f, rf = some (r, f) → S f) →
      RectFonts S ((fillBefore d rf v).map good) := by
    intro rf v hr r f h
    rw [List.mem_map] at h
    obtain ⟨y, hy, h⟩ := h
    unfold good at h
    simp only [Res.ok.injEq, Except.ok.injEq] at h
    subst h
    unfold fillBefore at hy
    split at hy
    · split at hy
      · simp only [List.mem_singleton, PatValue.fillableRect.injEq] at hy
        exact hr _ _ (by rw [hy.2])
      · simp at hy
    · split at hy
      · split at hy
        · simp only [List.mem_singleton, PatValue.fillableRect.injEq] at hy
          exact hr _ _ (by rw [hy.2])
        · simp at hy
      · simp at hy
    · simp at hy
  induction xs generalizing font rf with
  | nil =>
    rw [patRun]
    split
    · intro r f h; simp at h
    · exact key _ _ hr
  | cons x xs ih =>
    have hx' : ∀ n vid, .ok (.ok (.font (some (n, vid)))) ∈ xs → S n :=
      fun n vid h => hx n vid (List.mem_cons_of_mem _ h)
    cases x with
    | panic p => intro r f h; simp [patRun] at h
    | ok x => cases x with
      | error e =>
        intro r f h
        simp only [patRun, List.mem_cons, Res.ok.injEq, reduceCtorEq, false_or] at h
        exact ih hx' hf hr r f h
      | ok v =>
        rw [patRun]
        split
        · intro r f h
          simp only [List.mem_cons, Res.ok.injEq, reduceCtorEq, false_or] at h
          exact ih hx' hf hr r f h
        · intro r f h
          rw [List.mem_append, List.mem_cons] at h
          rcases h with h | h | h
          · exact key _ _ hr r f h
          · simp [good] at h
          · refine ih hx' ?_ ?_ r f h
            · unfold nextFont
              split
              · exact hd
              · exact hx _ _ (List.mem_cons_self ..)
              · exact hf
            · intro r f h
              unfold nextRect at h
              split at h
              · simp at h
              · simp at h
              · simp only [Option.some.injEq, Prod.mk.injEq] at h; rw [← h.2]; exact hf
              · simp only [Option.some.injEq, Prod.mk.injEq] at h; rw [← h.2]; exact hf
              · exact hr r f h

section
variable {d d' : Dms} {S : UInt8 → Prop} (hF : SameFonts S d.fontDefinition d'.fontDefinition)
  (hh : d'.charHeight = d.charHeight)
include hF hh

theorem rectLines_same (r : Rectangle) {f : UInt8} (hf : S f) : d'.rectLines r f = d.rectLines r f := by
  unfold Dms.rectLines
  rw [hF f hf, hh]

theorem widthsLoop_same {xs : List (Res (Except SyntaxError PatValue))} (hx : RectFonts S xs) (n : Nat) :
    widthsLoop d' xs n = widthsLoop d xs n := by
  induction xs generalizing n with
  | nil => rfl
  | cons x xs ih =>
    have ih' := ih fun r f h => hx r f (List.mem_cons_of_mem _ h)
    rcases x with (_ | _ | ⟨r, f⟩) | p
    · simp only [widthsLoop, ih']
    · simp only [widthsLoop, ih']
    · simp only [widthsLoop, ih', rectLines_same hF hh r (hx r f (List.mem_cons_self ..))]
    · rfl

theorem fillLoop_same {xs : List (Res (Except SyntaxError PatValue))} (hx : RectFonts S xs) (ls fv ms) :
    fillLoop d' xs ls fv ms = fillLoop d xs ls fv ms := by
  induction xs generalizing ls fv ms with
  | nil => rfl
  | cons x xs ih =>
    have ih' := ih fun r f h => hx r f (List.mem_cons_of_mem _ h)
    rcases x with (_ | v | ⟨r, f⟩) | p
    · rfl
    · cases v <;> simp only [fillLoop, ih']
    · simp only [fillLoop, ih', rectLines_same hF hh r (hx r f (List.mem_cons_self ..))]
    · rfl

theorem linesLoop_same {xs : List (Res (Except SyntaxError PatValue))} (hx : RectFonts S xs) (ms acc) :
    linesLoop d' xs ms acc = linesLoop d xs ms acc := by
  induction xs generalizing ms acc with
  | nil => rfl
  | cons x xs ih =>
    have ih' := ih fun r f h => hx r f (List.mem_cons_of_mem _ h)
    rcases x with (_ | v | ⟨r, f⟩) | p
    · simp only [linesLoop, ih']
    · cases v <;> simp only [linesLoop, ih']
    · simp only [linesLoop, ih', rectLines_same hF hh r (hx r f (List.mem_cons_self ..))]
    · rfl

end

/-- **C74 (patterns)**: widths, filling and lines of a pattern depend only on the size of the sign, the height of its
character cells, its default font, which of the tags of the pattern and whether page breaks are supported, and the fonts
the pattern uses. -/
theorem C74_pattern (d d' : Dms) (pat : Str) (hh : d'.vmsCfg.signHeightPixels = d.vmsCfg.signHeightPixels)
    (hw : d'.vmsCfg.signWidthPixels = d.vmsCfg.signWidthPixels)
    (hc : d'.vmsCfg.charHeightPixels = d.vmsCfg.charHeightPixels)
    (hdf : d'.multiCfg.defaultFont = d.multiCfg.defaultFont)
    (hnp : d'.multiCfg.supportedMultiTags .np = d.multiCfg.supportedMultiTags .np)
    (ht : ∀ t, UsesTag pat t → d'.multiCfg.supportedMultiTags t = d.multiCfg.supportedMultiTags t)
    (hd : Numbered d) (hd' : Numbered d')
    (hf : ∀ f, UsesFont d pat f.number → (f ∈ d.fontDefinition ↔ f ∈ d'.fontDefinition)) (ls : List Str) (ms : Str) :
    widths d' pat = widths d pat ∧ fill d' pat ls = fill d pat ls ∧ lines d' pat ms = lines d pat ms := by
  have hF : SameFonts (UsesFont d pat) d.fontDefinition d'.fontDefinition := by
    intro n hu
    have h0 := usesFont_pos hd hu
    refine option_ext_some fun f => ?_
    rw [C24_font_lookup _ hd.fonts n h0, C24_font_lookup _ hd'.fonts n h0]
    constructor
    · rintro ⟨h, rfl⟩; exact ⟨(hf f hu).1 h, rfl⟩
    · rintro ⟨h, rfl⟩; exact ⟨(hf f hu).2 h, rfl⟩
  have e : patItems d' pat = patItems d pat := by
    have hr : d'.fullRect = d.fullRect := by simp only [Dms.fullRect, Dms.pixelWidth, Dms.pixelHeight, hh, hw]
    rw [patItems_eq, patItems_eq, hdf, hr]
    exact patRun_same hr hdf hnp (fun v t hv h => ht t ⟨v, hv, h⟩) _ _
  have hx : RectFonts (UsesFont d pat) (patItems d pat) := by
    rw [patItems_eq]
    refine patRun_fonts (.inl rfl) (fun n vid h => .inr ⟨vid, h⟩) (.inl rfl) fun r f h => ?_
    simp only [Option.some.injEq, Prod.mk.injEq] at h
    exact .inl h.2.symm
  have hc' : d'.charHeight = d.charHeight := hc
  exact ⟨by rw [widths, widths, e, widthsLoop_same hF hc' hx], by rw [fill, fill, e, fillLoop_same hF hc' hx],
    by rw [lines, lines, e, linesLoop_same hF hc' hx]⟩

/-- a sign with two fonts; the message uses the default font and a graphic -/
def Tests.twoFonts : Dms := { smallDms with
  fontDefinition := ⟨3, [], 1, 0, 0, []⟩ :: smallDms.fontDefinition }

/-- the hypotheses are met by signs with different fonts: font 3 is not used … -/
example : Numbered twoFonts ∧ Numbered smallDms ∧ ∀ f : Font, UsesFont twoFonts c!"[g7]A" f.number →
    (f ∈ twoFonts.fontDefinition ↔ f ∈ smallDms.fontDefinition) := by
  have u1 : FontsOk twoFonts.fontDefinition := (C20_accepts_iff _).mp (by decide +kernel)
  have u2 : FontsOk smallDms.fontDefinition := (C20_accepts_iff _).mp (by decide +kernel)
  have u3 : GraphicsOk 60 30 smallDms.graphicDefinition := (C21_accepts_iff _ 60 30).mp (by decide +kernel)
  refine ⟨⟨u1.numbers, u3.numbers, by decide⟩, ⟨u2.numbers, u3.numbers, by decide⟩, fun f hf => ?_⟩
  have hn : f.number = 8 := by
    rcases hf with h | ⟨vid, h⟩
    · exact h
    · have : values c!"[g7]A" = [.ok (.ok (.graphic 7 none)), .ok (.ok (.text c!"A"))] := by
        decide +kernel
      rw [this] at h
      simp at h
  have : f ≠ ⟨3, [], 1, 0, 0, []⟩ := by rintro rfl; exact absurd hn (by decide)
  simp [twoFonts, this]

/-- … and the message is shown -/
example : nextError twoFonts c!"[g7]A" = none ∧ nextError smallDms c!"[g7]A" = none := by decide +kernel

/-- a sign with other limits and without color rectangles -/
def Tests.strictDms : Dms := { smallDms with multiCfg := { smallDms.multiCfg with
  maxNumberPages := 1, maxMultiStringLength := 3, supportedMultiTags := fun t => t != .cr } }

-- its settings are the same as far as they matter, it supports the tags of the message; more pages and longer messages
-- than it allows are shown
example : SameSettings smallDms strictDms ∧ strictDms.multiCfg.supportedMultiTags .np = true ∧
    smallDms.multiCfg.supportedMultiTags .cr = true ∧ strictDms.multiCfg.supportedMultiTags .cr = false :=
  ⟨⟨rfl, rfl, rfl, rfl, rfl, rfl, rfl, rfl, rfl, rfl, rfl, rfl⟩, rfl, rfl, rfl⟩
example : summary strictDms c!"A[np]B" = summary smallDms c!"A[np]B" ∧ (summary strictDms c!"A[np]B").isSome = true := by
  decide +kernel

/-- a message that names font 3 is not shown alike -/
example : nextError twoFonts c!"[fo3]A" ≠ nextError smallDms c!"[fo3]A" := by decide +kernel

end Ntcip
