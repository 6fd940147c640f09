import Verif.Props.Tables
import Verif.Props.FontFile
/-
Property C105: fonts are found by their names.
-/
namespace Ntcip
open Spec Tfon

/-- all slots of the table that are not in use have the same name, as those made by default -/
def Spec.Unnamed (blank : Str) (t : FontTable) : Prop := ∀ f ∈ t, f.number = 0 → f.name = blank

theorem byName_cons (f : Font) (t : FontTable) (name : Str) :
    FontTable.fontByName (f :: t) name = if f.name = name then some f else FontTable.fontByName t name := by
  unfold FontTable.fontByName
  rw [List.find?_cons]
  by_cases h : f.name = name
  · rw [if_pos h]; simp [h]
  · rw [if_neg h, show (f.name == name) = false by simp [h]]

/-- **C105 (lookup)** the font found by a name is the first one in the table that has exactly this name -/
theorem C105_lookup (t : FontTable) (name : Str) (f : Font) :
    FontTable.fontByName t name = some f ↔
      ∃ before after, t = before ++ f :: after ∧ f.name = name ∧ ∀ g ∈ before, g.name ≠ name := by
  induction t with
  | nil => simp [FontTable.fontByName]
  | cons a t ih =>
    rw [byName_cons]
    constructor
    · intro h
      split at h
      · rename_i hn
        cases h
        exact ⟨[], t, rfl, hn, by simp⟩
      · rename_i hn
        obtain ⟨b, c, rfl, h1, h2⟩ := ih.1 h
        refine ⟨a :: b, c, rfl, h1, fun g hg => ?_⟩
        rcases List.mem_cons.1 hg with rfl | hg
        · exact hn
        · exact h2 g hg
    · rintro ⟨b, c, h0, h1, h2⟩
      cases b with
      | nil =>
        rw [List.nil_append, List.cons.injEq] at h0
        rw [h0.1, if_pos h1]
      | cons x b =>
        rw [List.cons_append, List.cons.injEq] at h0
        obtain ⟨rfl, h0⟩ := h0
        rw [if_neg (h2 _ (List.mem_cons_self ..))]
        exact ih.2 ⟨b, c, h0, h1, fun g hg => h2 g (List.mem_cons_of_mem _ hg)⟩

/-- **C105 (nothing found)** exactly when no font has the name -/
theorem C105_missing (t : FontTable) (name : Str) :
    FontTable.fontByName t name = none ↔ ∀ f ∈ t, f.name ≠ name := by
  induction t with
  | nil => simp [FontTable.fontByName]
  | cons a t ih =>
    rw [byName_cons]
    split
    · rename_i h
      simp [h]
    · rename_i h
      rw [ih, List.forall_mem_cons]
      exact ⟨fun k => ⟨h, k⟩, fun k => k.2⟩

/-- a font put in an unused slot -/
theorem byName_set {blank : Str} {t t' : FontTable} {g : Font} (hs : FontTable.setFont t 0 g = some t') (hu : Unnamed blank t) :
    (∀ name, name ≠ blank → name ≠ g.name → FontTable.fontByName t' name = FontTable.fontByName t name) ∧
    ((∀ f ∈ t, f.name ≠ g.name) → FontTable.fontByName t' g.name = some g) ∧
    (g.number ≠ 0 → Unnamed blank t') ∧ ∀ f ∈ t', f = g ∨ f ∈ t := by
  induction t generalizing t' with
  | nil => cases hs
  | cons a t ih =>
    have hu' : Unnamed blank t := fun f hf => hu f (List.mem_cons_of_mem _ hf)
    rw [FontTable.setFont] at hs
    split at hs
    · rename_i h0
      cases hs
      have hn := hu a (List.mem_cons_self ..) (by simpa using h0)
      refine ⟨fun name h1 h2 => ?_, fun _ => ?_, fun h => ?_, ?_⟩
      · rw [byName_cons, byName_cons, if_neg (Ne.symm h2), if_neg (by rw [hn]; exact Ne.symm h1)]
      · rw [byName_cons, if_pos rfl]
      · intro f hf hf0
        rcases List.mem_cons.1 hf with rfl | hf
        · exact absurd hf0 h
        · exact hu' f hf hf0
      · intro f hf
        rcases List.mem_cons.1 hf with rfl | hf
        · exact .inl rfl
        · exact .inr (List.mem_cons_of_mem _ hf)
    · rename_i h0
      rw [Option.map_eq_some_iff] at hs
      obtain ⟨t1, h1, rfl⟩ := hs
      obtain ⟨k1, k2, k3, k4⟩ := ih h1 hu'
      refine ⟨fun name h1 h2 => ?_, fun h => ?_, fun h => ?_, ?_⟩
      · rw [byName_cons, byName_cons, k1 name h1 h2]
      · rw [byName_cons, if_neg (h a (List.mem_cons_self ..))]
        exact k2 fun f hf => h f (List.mem_cons_of_mem _ hf)
      · intro f hf hf0
        rcases List.mem_cons.1 hf with rfl | hf
        · exact hu _ (List.mem_cons_self ..) hf0
        · exact k3 h f hf hf0
      · intro f hf
        rcases List.mem_cons.1 hf with rfl | hf
        · exact .inr (List.mem_cons_self ..)
        · rcases k4 f hf with h | h
          · exact .inl h
          · exact .inr (List.mem_cons_of_mem _ h)

/-- **C105 (insertions)** fonts with new and different names, put one after another in unused slots of a table, are all
found by their names, and all other names (but the one of unused slots, `blank`) give what they gave before -/
theorem C105_insertions (t : FontTable) (gs : List Font) (blank : Str) (hu : Unnamed blank t)
    (h0 : ∀ g ∈ gs, g.number ≠ 0 ∧ g.name ≠ blank)
    (hnew : ∀ g ∈ gs, ∀ f ∈ t, f.name ≠ g.name) (hd : (gs.map Font.name).Nodup) (t' : FontTable)
    (hs : insertFonts t gs = some t') :
    (∀ g ∈ gs, FontTable.fontByName t' g.name = some g) ∧
    ∀ name, name ≠ blank → name ∉ gs.map Font.name → FontTable.fontByName t' name = FontTable.fontByName t name := by
  induction gs generalizing t with
  | nil =>
    rw [insertFonts, Option.some.injEq] at hs
    subst hs
    exact ⟨by simp, fun _ _ _ => rfl⟩
  | cons g gs ih =>
    rw [insertFonts, Option.bind_eq_some_iff] at hs
    obtain ⟨t1, h1, hs⟩ := hs
    simp only [List.forall_mem_cons, List.map_cons, List.nodup_cons] at h0 hnew hd ⊢
    obtain ⟨k1, k2, k3, k4⟩ := byName_set h1 hu
    obtain ⟨i1, i2⟩ := ih t1 (k3 h0.1.1) h0.2 (by
      intro g' hg' f hf
      rcases k4 f hf with rfl | hf
      · intro he
        exact hd.1 (he ▸ List.mem_map_of_mem hg')
      · exact hnew.2 g' hg' f hf) hd.2 hs
    refine ⟨⟨?_, i1⟩, fun name hn hm => ?_⟩
    · rw [i2 _ h0.1.2 hd.1, k2 hnew.1]
    · rw [List.mem_cons, not_or] at hm
      rw [i2 name hn hm.2, k1 name hn hm.1]

/-- **C105 (font files)** a font that is read from a file with a name no other font has, and put in a table, is found by
this name exactly if the name has at most 64 bytes and no NUL character (other names are cut) -/
theorem C105_file (C : Nat) (ps : List TProp) (hC : (glyphs none ps).length ≤ C) (g : Font)
    (hf : Tfon.parse C ps = .ok g) (pre post : List TProp) (s : Str) (hp : ps = pre ++ .fontName s :: post)
    (hl : ∀ p ∈ post, ∀ s', p ≠ .fontName s') (t t' : FontTable) (hn : ∀ f ∈ t, f.name ≠ s)
    (hs : FontTable.setFont t 0 g = some t') :
    FontTable.fontByName t' s = some g ↔ utf8Len s ≤ 64 ∧ ∀ c ∈ s, c ≠ Char.ofNat 0 := by
  have hN := C70_name C ps hC g hf pre post s hp hl
  have hmem : ∀ {t t' : FontTable}, FontTable.setFont t 0 g = some t' → (∀ f ∈ t, f.name ≠ s) →
      (g.name = s → FontTable.fontByName t' s = some g) := by
    intro t
    induction t with
    | nil => intro t' h; cases h
    | cons a t ih =>
      intro t' h hn he
      rw [FontTable.setFont] at h
      split at h
      · cases h
        rw [byName_cons, if_pos he]
      · rw [Option.map_eq_some_iff] at h
        obtain ⟨t1, h1, rfl⟩ := h
        rw [byName_cons, if_neg (hn a (List.mem_cons_self ..))]
        exact ih h1 (fun f hf => hn f (List.mem_cons_of_mem _ hf)) he
  constructor
  · intro h
    obtain ⟨b, c, -, h1, -⟩ := (C105_lookup t' s g).1 h
    rw [← h1]
    exact ⟨hN.fits, hN.noNul⟩
  · rintro ⟨h1, h2⟩
    refine hmem hs hn ?_
    have := hN.longest s (List.prefix_refl s) h2 h1
    obtain ⟨x, hx⟩ := hN.begins
    obtain ⟨y, hy⟩ := this
    have hlen := congrArg List.length hx
    have hlen' := congrArg List.length hy
    rw [List.length_append] at hlen hlen'
    have : x = [] := List.length_eq_zero_iff.1 (by omega)
    rw [this, List.append_nil] at hx
    exact hx

/-! ### cases -/

-- two fonts in a table of three
example : Unnamed defaultName (FontTable.default 4 3) ∧ ∃ t', insertFonts (FontTable.default 4 3)
      [{ Font.default 4 with number := 2, name := c!"SMALL" }, { Font.default 4 with number := 1, name := c!"SMALLER" }] =
        some t' ∧ (FontTable.fontByName t' c!"SMALLER").map Font.number = some 1 ∧
      FontTable.fontByName t' c!"SMALLE" = none := by
  refine ⟨by unfold Unnamed; decide, _, rfl, by decide, by decide⟩
-- the font of a file, found by its name
example : Tfon.parse 4 [.fontName c!"SMALL", .fontNumber 3] = .ok { Font.default 4 with number := 3, name := c!"SMALL" } ∧
    (glyphs none [.fontName c!"SMALL", .fontNumber 3]).length ≤ 4 := by decide
-- a name of 65 bytes is not found
example : ((FontTable.setFont (FontTable.default 4 3) 0
    { Font.default 4 with number := 3, name := fstr64 (List.replicate 65 'A') }).bind
      fun t => FontTable.fontByName t (List.replicate 65 'A')) = none := by decide

end Ntcip
