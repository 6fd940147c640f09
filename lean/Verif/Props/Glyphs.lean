import Verif.Lemmas.Glyphs
import Verif.Spec.Glyphs
import Verif.Props.Local
import Verif.Props.Render
/-
Property C123: only the characters of a font which a message uses matter.
-/
namespace Ntcip
open Spec Tests

theorem glyph_lookup {f : Font} (hu : UniqueNumbers (fun e : CharacterEntry => e.number.toNat) f.characters) {c : Char}
    (h0 : c.toNat ≠ 0) (hc : c.toNat < 65536) (e : CharacterEntry) :
    f.character c = some e ↔ e ∈ f.characters ∧ e.number.toNat = c.toNat := by
  unfold Font.character
  rw [if_pos hc]
  constructor
  · intro h
    exact ⟨List.mem_of_find?_eq_some h, by simpa using List.find?_some h⟩
  · rintro ⟨h, hn⟩
    exact find?_of_unique (fun g : CharacterEntry => g.number.toNat) _ hu _ e h (by omega) (fun x => by simp [hn])

theorem alike_glyphs {C : Char → Prop} {f f' : Font} (h : SameGlyphs C f f') (h0 : ∀ c, C c → c.toNat ≠ 0)
    (hu : UniqueNumbers (fun e : CharacterEntry => e.number.toNat) f.characters)
    (hu' : UniqueNumbers (fun e : CharacterEntry => e.number.toNat) f'.characters) : FontAlike C f f' := by
  refine ⟨h.height, h.charSpacing, h.lineSpacing, fun c hc => ?_⟩
  by_cases hb : c.toNat < 65536
  · refine option_ext_some fun e => ?_
    rw [glyph_lookup hu (h0 c hc) hb, glyph_lookup hu' (h0 c hc) hb]
    constructor
    · rintro ⟨a, b⟩; exact ⟨(h.glyphs c hc e b).2 a, b⟩
    · rintro ⟨a, b⟩; exact ⟨(h.glyphs c hc e b).1 a, b⟩
  · unfold Font.character
    rw [if_neg hb, if_neg hb]

/-- **C123**: two signs which differ in their fonts only give the same pages, errors and panics for a message without
NUL characters, if they have fonts under the same of the numbers the message uses, these fonts have the same height and
spacings, the same characters for the code points in the texts and `[hc…]` tags of the message, and are alike named
rightly or wrongly by the version IDs of its tags.  All other characters of the fonts do not matter. -/
theorem C123_glyphs (d : Dms) (F' : FontTable) (ms : Str) (hd : Numbered d)
    (hF' : UniqueNumbers (fun f : Font => f.number.toNat) F')
    (hu : ∀ f, f ∈ d.fontDefinition ∨ f ∈ F' → UsesFont d ms f.number →
      UniqueNumbers (fun e : CharacterEntry => e.number.toNat) f.characters)
    (h0 : ∀ c, UsesChar ms c → c.toNat ≠ 0)
    (h1 : ∀ f ∈ d.fontDefinition, UsesFont d ms f.number → ∃ f' ∈ F', SameGlyphs (UsesChar ms) f f' ∧
      ∀ vid, .ok (.ok (.font (some (f.number, some vid)))) ∈ values ms → (vid = f.versionId ↔ vid = f'.versionId))
    (h2 : ∀ f' ∈ F', UsesFont d ms f'.number → ∃ f ∈ d.fontDefinition, f.number = f'.number) (k : Nat) :
    Pages.run d k (Pages.new d ms) =
      Pages.run { d with fontDefinition := F' } k (Pages.new { d with fontDefinition := F' } ms) := by
  have hn : Pages.new { d with fontDefinition := F' } ms = Pages.new d ms := rfl
  rw [hn]
  let S : UInt8 → Option UInt16 → Prop := fun n vid =>
    (n = d.multiCfg.defaultFont ∧ vid = none) ∨ .ok (.ok (.font (some (n, vid)))) ∈ values ms
  have hS : ∀ n vid, S n vid → UsesFont d ms n := by
    rintro n vid (⟨h, -⟩ | h)
    · exact .inl h
    · exact .inr ⟨vid, h⟩
  refine run_glyphs (d := d) (d' := { d with fontDefinition := F' }) (pg := Pages.new d ms) (S := S) (C := UsesChar ms) ⟨rfl, rfl⟩ rfl ?_ rfl k ⟨.inl ⟨rfl, rfl⟩, .inl ⟨rfl, rfl⟩, ?_⟩
  · intro rs hs
    have hf := hS _ _ hs
    have hp := usesFont_pos hd hf
    unfold RenderState.font FontAlikeOut
    dsimp only
    cases e : FontTable.font d.fontDefinition rs.fontNum with
    | none =>
      have e' : FontTable.font F' rs.fontNum = none := by
        cases e' : FontTable.font F' rs.fontNum with
        | none => rfl
        | some f' =>
          rw [C24_font_lookup _ hF' _ hp] at e'
          obtain ⟨f, a, b⟩ := h2 f' e'.1 (by rw [e'.2]; exact hf)
          have := (C24_font_lookup _ hd.fonts _ hp f).2 ⟨a, b.trans e'.2⟩
          rw [e] at this; cases this
      rw [e']
      exact .inl ⟨_, rfl, rfl⟩
    | some f =>
      obtain ⟨a, b⟩ := (C24_font_lookup _ hd.fonts _ hp f).1 e
      have hf1 : UsesFont d ms f.number := by rw [b]; exact hf
      obtain ⟨f', a', g, hv⟩ := h1 f a hf1
      have e' := (C24_font_lookup _ hF' _ hp f').2 ⟨a', g.number.trans b⟩
      have ha := alike_glyphs g h0 (hu f (.inl a) hf1) (hu f' (.inr a') (by rw [g.number]; exact hf1))
      rw [e']
      cases hx : rs.fontVersionId with
      | none => exact .inr ⟨f, f', rfl, rfl, ha⟩
      | some vid =>
        have hm : .ok (.ok (.font (some (f.number, some vid)))) ∈ values ms := by
          rcases hs with ⟨-, h⟩ | h
          · rw [hx] at h; cases h
          · rw [hx, ← b] at h; exact h
        have := hv vid hm
        dsimp only
        by_cases hq : vid = f.versionId
        · rw [if_pos hq, if_pos (this.1 hq)]
          exact .inr ⟨f, f', rfl, rfl, ha⟩
        · rw [if_neg hq, if_neg fun h => hq (this.2 h)]
          exact .inl ⟨_, rfl, rfl⟩
  · intro s hs v hv
    have hm : .ok (.ok v) ∈ values ms := by rw [values, List.mem_map]; exact ⟨s, hs, hv⟩
    refine ⟨?_, ?_, ?_⟩
    · rintro n vid rfl; exact .inr hm
    · rintro t rfl c hc; exact .inl ⟨t, hm, hc⟩
    · rintro x rfl c hc; exact .inr ⟨x, hm, hc⟩

theorem uniqueNumbers_filter {α : Type} {num : α → Nat} (p : α → Bool) {l : List α} (h : UniqueNumbers num l) :
    UniqueNumbers num (l.filter p) := by
  induction l with
  | nil => exact h
  | cons a l ih =>
    rw [uniqueNumbers_cons] at h
    rw [List.filter_cons]
    split
    · rw [uniqueNumbers_cons]
      exact ⟨fun h0 b hb => h.1 h0 b (List.mem_filter.1 hb).1, ih h.2⟩
    · exact ih h.2

/-- **C123**: fonts cut down to the characters of the code points `keep`, among them those of the message, give the same
pages, errors and panics for a message without version IDs of fonts; the fonts may be renamed, too. -/
theorem C123_cut (d : Dms) (ms : Str) (keep : UInt16 → Bool) (name : Font → Str) (hd : Numbered d)
    (hu : ∀ f ∈ d.fontDefinition, UsesFont d ms f.number →
      UniqueNumbers (fun e : CharacterEntry => e.number.toNat) f.characters)
    (h0 : ∀ c, UsesChar ms c → c.toNat ≠ 0)
    (hk : ∀ c n, UsesChar ms c → n.toNat = c.toNat → keep n = true)
    (hv : ∀ n vid, .ok (.ok (.font (some (n, some vid)))) ∉ values ms) (k : Nat) :
    let F := d.fontDefinition.map fun f =>
      { f with name := name f, characters := f.characters.filter fun e => keep e.number }
    Pages.run d k (Pages.new d ms) =
      Pages.run { d with fontDefinition := F } k (Pages.new { d with fontDefinition := F } ms) := by
  intro F
  refine C123_glyphs d F ms hd ?_ ?_ h0 ?_ ?_ k
  · intro i j a b ha hb h1 h2
    simp only [F, List.getElem?_map, Option.map_eq_some_iff] at ha hb
    obtain ⟨x, hx, rfl⟩ := ha
    obtain ⟨y, hy, rfl⟩ := hb
    exact hd.fonts i j x y hx hy h1 h2
  · rintro f (hf | hf) hn
    · exact hu f hf hn
    · simp only [F, List.mem_map] at hf
      obtain ⟨g, hg, rfl⟩ := hf
      exact uniqueNumbers_filter _ (hu g hg hn)
  · intro f hf hn
    refine ⟨_, List.mem_map.2 ⟨f, hf, rfl⟩, ⟨rfl, rfl, rfl, rfl, ?_⟩, fun vid h => absurd h (hv _ _)⟩
    intro c hc e he
    simp only [List.mem_filter, hk c e.number hc he, and_true]
  · intro f' hf hn
    simp only [F, List.mem_map] at hf
    obtain ⟨g, hg, rfl⟩ := hf
    exact ⟨g, hg, rfl⟩

section
variable {d d' : Dms} {S : UInt8 → Prop} (hR : ∀ r f, S f → d'.rectLines r f = d.rectLines r f)
include hR

theorem widthsLoop_lines {xs : List (Res (Except SyntaxError PatValue))} (hx : RectFonts S xs) (n : Nat) :
    widthsLoop d' xs n = widthsLoop d xs n := by
  induction xs generalizing n with
  | nil => rfl
  | cons x xs ih =>
    have ih' := ih fun r f h => hx r f (List.mem_cons_of_mem _ h)
    rcases x with (_ | _ | ⟨r, f⟩) | p
    · simp only [widthsLoop, ih']
    · simp only [widthsLoop, ih']
    · simp only [widthsLoop, ih', hR r f (hx r f (List.mem_cons_self ..))]
    · rfl

theorem fillLoop_lines {xs : List (Res (Except SyntaxError PatValue))} (hx : RectFonts S xs) (ls fv ms) :
    fillLoop d' xs ls fv ms = fillLoop d xs ls fv ms := by
  induction xs generalizing ls fv ms with
  | nil => rfl
  | cons x xs ih =>
    have ih' := ih fun r f h => hx r f (List.mem_cons_of_mem _ h)
    rcases x with (_ | v | ⟨r, f⟩) | p
    · rfl
    · cases v <;> simp only [fillLoop, ih']
    · simp only [fillLoop, ih', hR r f (hx r f (List.mem_cons_self ..))]
    · rfl

theorem linesLoop_lines {xs : List (Res (Except SyntaxError PatValue))} (hx : RectFonts S xs) (ms acc) :
    linesLoop d' xs ms acc = linesLoop d xs ms acc := by
  induction xs generalizing ms acc with
  | nil => rfl
  | cons x xs ih =>
    have ih' := ih fun r f h => hx r f (List.mem_cons_of_mem _ h)
    rcases x with (_ | v | ⟨r, f⟩) | p
    · simp only [linesLoop, ih']
    · cases v <;> simp only [linesLoop, ih']
    · simp only [linesLoop, ih', hR r f (hx r f (List.mem_cons_self ..))]
    · rfl

end

/-- **C123 (patterns)**: widths, filling and lines of a pattern depend on the heights and line spacings of the fonts it
uses only, not on any of their characters. -/
theorem C123_pattern (d : Dms) (F' : FontTable) (pat : Str) (hd : Numbered d)
    (hF' : UniqueNumbers (fun f : Font => f.number.toNat) F')
    (h1 : ∀ f ∈ d.fontDefinition, UsesFont d pat f.number →
      ∃ f' ∈ F', f'.number = f.number ∧ f'.height = f.height ∧ f'.lineSpacing = f.lineSpacing)
    (h2 : ∀ f' ∈ F', UsesFont d pat f'.number → ∃ f ∈ d.fontDefinition, f.number = f'.number)
    (ls : List Str) (ms : Str) :
    widths { d with fontDefinition := F' } pat = widths d pat ∧
    fill { d with fontDefinition := F' } pat ls = fill d pat ls ∧
    lines { d with fontDefinition := F' } pat ms = lines d pat ms := by
  have hR : ∀ r f, UsesFont d pat f → Dms.rectLines { d with fontDefinition := F' } r f = d.rectLines r f := by
    intro r n hf
    have hp := usesFont_pos hd hf
    unfold Dms.rectLines
    dsimp only
    cases e : FontTable.font d.fontDefinition n with
    | none =>
      have e' : FontTable.font F' n = none := by
        cases e' : FontTable.font F' n with
        | none => rfl
        | some f' =>
          rw [C24_font_lookup _ hF' _ hp] at e'
          obtain ⟨f, a, b⟩ := h2 f' e'.1 (by rw [e'.2]; exact hf)
          have := (C24_font_lookup _ hd.fonts _ hp f).2 ⟨a, b.trans e'.2⟩
          rw [e] at this; cases this
      rw [e']
    | some f =>
      obtain ⟨a, b⟩ := (C24_font_lookup _ hd.fonts _ hp f).1 e
      obtain ⟨f', a', g1, g2, g3⟩ := h1 f a (by rw [b]; exact hf)
      rw [(C24_font_lookup _ hF' _ hp f').2 ⟨a', g1.trans b⟩]
      dsimp only [Dms.charHeight]
      rw [g2, g3]
  have e : patItems { d with fontDefinition := F' } pat = patItems d pat := by
    rw [patItems_eq, patItems_eq]
    exact patRun_same (d := d) (d' := { d with fontDefinition := F' }) rfl rfl rfl (fun v t hv h => rfl) _ _
  have hx : RectFonts (UsesFont d pat) (patItems d pat) := by
    rw [patItems_eq]
    refine patRun_fonts (.inl rfl) (fun n vid h => .inr ⟨vid, h⟩) (.inl rfl) fun r f h => ?_
    simp only [Option.some.injEq, Prod.mk.injEq] at h
    exact .inl h.2.symm
  exact ⟨by rw [widths, widths, e, widthsLoop_lines hR hx], by rw [fill, fill, e, fillLoop_lines hR hx],
    by rw [lines, lines, e, linesLoop_lines hR hx]⟩

/-- `fullDms`, its fonts cut down to three characters -/
def Tests.cutDms : Dms := { fullDms with fontDefinition := fullDms.fontDefinition.map fun f =>
  { f with name := c!"cut", characters := f.characters.filter fun e => e.number == 65 || e.number == 72 || e.number == 73 } }

-- the fonts are cut: other text cannot be shown …
example : nextError fullDms c!"HAT" = none ∧ nextError cutDms c!"HAT" ≠ none := by decide +kernel

/-- … but the hypotheses are met by a message of these characters in text and `[hc…]` tags, in two fonts -/
example (k : Nat) : Pages.run fullDms k (Pages.new fullDms c!"HI[nl][fo5]A[hc48]") =
    Pages.run cutDms k (Pages.new cutDms c!"HI[nl][fo5]A[hc48]") := by
  have hb := C22_built_sign_valid .checked _ _ fullDms_built
  have hv : values c!"HI[nl][fo5]A[hc48]" = [.ok (.ok (.text c!"HI")), .ok (.ok (.newLine none)),
      .ok (.ok (.font (some (5, none)))), .ok (.ok (.text c!"A")), .ok (.ok (.hexadecimalCharacter 72))] := by
    decide +kernel
  have hc : ∀ c, UsesChar c!"HI[nl][fo5]A[hc48]" c → c.toNat = 65 ∨ c.toNat = 72 ∨ c.toNat = 73 := by
    intro c h
    rcases h with ⟨t, h, ht⟩ | ⟨x, h, hx⟩
    · rw [hv] at h
      simp at h
      rcases h with rfl | rfl
      · simp at ht
        rcases ht with rfl | rfl <;> decide
      · simp at ht
        rw [ht]; decide
    · rw [hv] at h
      simp at h
      subst h
      right; left; exact hx.symm
  refine C123_cut fullDms _ (fun n => n == 65 || n == 72 || n == 73) (fun _ => c!"cut")
    ⟨hb.2.2.2.2.1.numbers, hb.2.2.2.2.2.1.numbers, by decide⟩ ?_ ?_ ?_ ?_ k
  · intro f hf hn
    refine (hb.2.2.2.2.1.fonts f hf ?_).chars
    rcases hn with h | ⟨vid, h⟩
    · rw [h]; decide
    · rw [hv] at h
      simp at h
      rw [h.1]; decide
  · intro c h; have := hc c h; omega
  · intro c n h hn
    have := hc c h
    simp only [Bool.or_eq_true, beq_iff_eq, ← UInt16.toNat_inj]
    have e1 : (65 : UInt16).toNat = 65 := rfl
    have e2 : (72 : UInt16).toNat = 72 := rfl
    have e3 : (73 : UInt16).toNat = 73 := rfl
    omega
  · intro n vid h
    rw [hv] at h
    simp at h

-- the message is shown
example : nextError fullDms c!"HI[nl][fo5]A[hc48]" = none := by decide +kernel

/-- fonts without any characters give the same widths, filled messages and lines, for all patterns -/
example (d : Dms) (hd : Numbered d) (pat : Str) (ls : List Str) (ms : Str) :
    let d' := { d with fontDefinition := d.fontDefinition.map fun f => { f with characters := [] } }
    widths d' pat = widths d pat ∧ fill d' pat ls = fill d pat ls ∧ lines d' pat ms = lines d pat ms := by
  refine C123_pattern d _ pat hd ?_ ?_ ?_ ls ms
  · intro i j a b ha hb h1 h2
    simp only [List.getElem?_map, Option.map_eq_some_iff] at ha hb
    obtain ⟨x, hx, rfl⟩ := ha
    obtain ⟨y, hy, rfl⟩ := hb
    exact hd.fonts i j x y hx hy h1 h2
  · exact fun f hf _ => ⟨_, List.mem_map.2 ⟨f, hf, rfl⟩, rfl, rfl, rfl⟩
  · rintro f' hf _
    obtain ⟨g, hg, rfl⟩ := List.mem_map.1 hf
    exact ⟨g, hg, rfl⟩

end Ntcip
