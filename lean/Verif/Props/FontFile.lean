import Verif.Props.Tfon
/-
Property C70: reading a font file gives the font it describes.
-/
namespace Ntcip.Spec
open Tfon

/-- heights of the bitmaps of the file -/
def heights : List TProp → List UInt8 := List.filterMap fun | .bitmap b => some b.height | _ => none

/-- names, numbers and spacings in the file; the last one of each counts -/
def nameIn : TProp → Option Str | .fontName n => some (fstr64 n) | _ => none
def numberIn : TProp → Option UInt8 | .fontNumber n => some n | _ => none
def charSpacingIn : TProp → Option UInt8 | .charSpacing n => some n | _ => none
def lineSpacingIn : TProp → Option UInt8 | .lineSpacing n => some n | _ => none

/-- the last value given, or the default -/
def lastOr {α} (d : α) (f : TProp → Option α) (ps : List TProp) : α := (ps.filterMap f).getLast?.getD d

/-- The characters of the file: one for each bitmap, with the code point given since the bitmap before (the last, if there
are many); a code point after the last bitmap is an empty character. -/
def glyphs : Option UInt16 → List TProp → List CharacterEntry
  | none, [] => []
  | some n, [] => [⟨n, 0, []⟩]
  | _, .codePoint n :: ps => glyphs (some n) ps
  | cp, .bitmap b :: ps => ⟨cp.getD 0, b.width, b.bits⟩ :: glyphs none ps
  | cp, .fontName _ :: ps => glyphs cp ps
  | cp, .fontNumber _ :: ps => glyphs cp ps
  | cp, .charSpacing _ :: ps => glyphs cp ps
  | cp, .lineSpacing _ :: ps => glyphs cp ps
  | cp, .other :: ps => glyphs cp ps

/-- bitmaps after the first one which is not of height 0 have its height -/
def HeightsAgree (hs : List UInt8) : Prop := hs.Pairwise fun a b => a ≠ 0 → b = a

instance (hs : List UInt8) : Decidable (HeightsAgree hs) := inferInstanceAs (Decidable (List.Pairwise _ _))

/-- the font described by a file -/
def fontIn (C : Nat) (ps : List TProp) : Font where
  number := lastOr 0 numberIn ps
  name := lastOr defaultName nameIn ps
  height := ((heights ps).find? (· ≠ 0)).getD 0
  charSpacing := lastOr 0 charSpacingIn ps
  lineSpacing := lastOr 0 lineSpacingIn ps
  characters := glyphs none ps ++ List.replicate (C - (glyphs none ps).length) .default

end Ntcip.Spec

namespace Ntcip
open Spec Tests Tfon

theorem lastOr_nil {α} (d : α) (f : TProp → Option α) : lastOr d f [] = d := rfl

theorem lastOr_cons {α} (d : α) (f : TProp → Option α) (p : TProp) (ps : List TProp) :
    lastOr d f (p :: ps) = lastOr ((f p).getD d) f ps := by
  unfold lastOr
  cases h : f p with
  | none => simp [h]
  | some x => simp [h, List.getLast?_cons]

/-- slots not yet filled, the first one maybe with a code point -/
def slots : Option UInt16 → Nat → List CharacterEntry
  | none, k => List.replicate k .default
  | some n, k => ⟨n, 0, []⟩ :: List.replicate (k - 1) .default

theorem slots_cons (cp : Option UInt16) (k : Nat) :
    slots cp (k + 1) = ⟨cp.getD 0, 0, []⟩ :: List.replicate k .default := by
  cases cp <;> simp [slots, List.replicate_succ, CharacterEntry.default]

theorem glyphs_pos (n : UInt16) (ps : List TProp) : 0 < (glyphs (some n) ps).length := by
  induction ps generalizing n with
  | nil => simp [glyphs]
  | cons p ps ih => cases p <;> simp [glyphs, ih]

theorem parseLoop_file (ps : List TProp) (font : Font) (done : List CharacterEntry) (cp : Option UInt16) (k : Nat)
    (hc : font.characters = done ++ slots cp k) (hk : (glyphs cp ps).length ≤ k) :
    parseLoop font done.length ps =
      if HeightsAgree (font.height :: heights ps) then
        .ok { number := lastOr font.number numberIn ps
              name := lastOr font.name nameIn ps
              height := ((font.height :: heights ps).find? (· ≠ 0)).getD 0
              charSpacing := lastOr font.charSpacing charSpacingIn ps
              lineSpacing := lastOr font.lineSpacing lineSpacingIn ps
              characters := done ++ glyphs cp ps ++ List.replicate (k - (glyphs cp ps).length) .default }
      else .err .invalidCharHeight := by
  induction ps generalizing font done cp k with
  | nil =>
    rw [if_pos (by simp [heights, HeightsAgree])]
    simp only [parseLoop, lastOr_nil]
    have hh : ((font.height :: heights []).find? (· ≠ 0)).getD 0 = font.height := by
      by_cases h0 : font.height = 0 <;> simp [heights, h0]
    rw [hh]
    congr 1
    have : done ++ glyphs cp [] ++ List.replicate (k - (glyphs cp []).length) .default = font.characters := by
      rw [hc]
      cases cp <;> simp [glyphs, slots]
    rw [this]
  | cons p ps ih =>
    rw [parseLoop_cons]
    cases p with
    | fontName n =>
      simp only [parseStep, Out.ok_bind]
      rw [ih { font with name := fstr64 n } done cp k hc (by simpa [glyphs] using hk)]
      simp [lastOr_cons, nameIn, numberIn, charSpacingIn, lineSpacingIn, glyphs, heights]
    | fontNumber n =>
      simp only [parseStep, Out.ok_bind]
      rw [ih { font with number := n } done cp k hc (by simpa [glyphs] using hk)]
      simp [lastOr_cons, nameIn, numberIn, charSpacingIn, lineSpacingIn, glyphs, heights]
    | charSpacing n =>
      simp only [parseStep, Out.ok_bind]
      rw [ih { font with charSpacing := n } done cp k hc (by simpa [glyphs] using hk)]
      simp [lastOr_cons, nameIn, numberIn, charSpacingIn, lineSpacingIn, glyphs, heights]
    | lineSpacing n =>
      simp only [parseStep, Out.ok_bind]
      rw [ih { font with lineSpacing := n } done cp k hc (by simpa [glyphs] using hk)]
      simp [lastOr_cons, nameIn, numberIn, charSpacingIn, lineSpacingIn, glyphs, heights]
    | other =>
      simp only [parseStep, Out.ok_bind]
      rw [ih font done cp k hc (by simpa [glyphs] using hk)]
      simp [lastOr_cons, nameIn, numberIn, charSpacingIn, lineSpacingIn, glyphs, heights]
    | codePoint n =>
      have hk' : (glyphs (some n) ps).length ≤ k := by simpa [glyphs] using hk
      have hp := glyphs_pos n ps
      obtain ⟨k, rfl⟩ : ∃ k', k = k' + 1 := ⟨k - 1, by omega⟩
      rw [slots_cons] at hc
      simp only [parseStep, hc, updAt_append, Out.ok_bind, Out.pure_eq]
      rw [ih { font with characters := _ } done (some n) (k + 1) (by rw [slots_cons]; rfl) hk']
      simp [lastOr_cons, nameIn, numberIn, charSpacingIn, lineSpacingIn, glyphs, heights]
    | bitmap b =>
      have hk' : (glyphs none ps).length + 1 ≤ k := by simpa [glyphs] using hk
      obtain ⟨k, rfl⟩ : ∃ k', k = k' + 1 := ⟨k - 1, by omega⟩
      rw [slots_cons] at hc
      have step := fun (h : UInt8) =>
        ih { font with height := h, characters := done ++ ⟨cp.getD 0, b.width, b.bits⟩ :: List.replicate k .default }
          (done ++ [⟨cp.getD 0, b.width, b.bits⟩]) none k (by simp [slots]) (by omega)
      simp only [List.length_append, List.length_cons, List.length_nil, Nat.zero_add] at step
      have hh : heights (.bitmap b :: ps) = b.height :: heights ps := by simp [heights]
      rw [hh]
      simp only [parseStep, hc]
      by_cases h0 : font.height = 0
      · rw [if_neg (by rw [h0]; decide)]
        simp only [Out.pure_eq, Out.ok_bind, hc, updAt_append]
        rw [step b.height]
        have e : HeightsAgree (font.height :: b.height :: heights ps) ↔ HeightsAgree (b.height :: heights ps) := by
          rw [h0]; simp [HeightsAgree, List.pairwise_cons]
        simp only [e]
        simp [lastOr_cons, nameIn, numberIn, charSpacingIn, lineSpacingIn, glyphs, h0, List.find?_cons]
      · rw [if_pos (by rw [gt_iff_lt, UInt8.lt_iff_toNat_lt]; have := fun h => h0 (UInt8.toNat_inj.1 h); simp at this ⊢; omega)]
        by_cases hb : b.height = font.height
        · rw [if_neg (by simp [hb])]
          simp only [Out.pure_eq, Out.ok_bind, hc, updAt_append]
          rw [step font.height]
          have e : HeightsAgree (font.height :: b.height :: heights ps) ↔ HeightsAgree (font.height :: heights ps) := by
            rw [hb]; simp only [HeightsAgree, List.pairwise_cons, List.mem_cons, forall_eq_or_imp]
            constructor
            · rintro ⟨_, h2, h3⟩; exact ⟨h2, h3⟩
            · rintro ⟨h2, h3⟩; exact ⟨⟨fun _ => trivial, h2⟩, h2, h3⟩
          simp only [e]
          simp [lastOr_cons, nameIn, numberIn, charSpacingIn, lineSpacingIn, glyphs, h0, List.find?_cons]
        · rw [if_pos (by simpa using hb), if_neg]
          · rfl
          · intro h
            simp only [HeightsAgree, List.pairwise_cons, List.mem_cons, forall_eq_or_imp] at h
            exact hb (h.1.1 h0)

/-- **C70** A file with no more characters than the table has slots is read as the font it describes, or refused when
its bitmaps have different heights. -/
theorem C70_parse (C : Nat) (ps : List TProp) (hC : (glyphs none ps).length ≤ C) :
    Tfon.parse C ps = if HeightsAgree (heights ps) then .ok (fontIn C ps) else .err .invalidCharHeight := by
  have := parseLoop_file ps (Font.default C) [] none C (by simp [Font.default, slots]) hC
  unfold Tfon.parse
  rw [show (0 : Nat) = ([] : List CharacterEntry).length from rfl, this]
  have e : HeightsAgree ((Font.default C).height :: heights ps) ↔ HeightsAgree (heights ps) := by
    simp [Font.default, HeightsAgree, List.pairwise_cons]
  simp only [e]
  simp [Font.default, fontIn]

/-- bytes of a string in UTF-8 -/
def Spec.utf8Len (s : Str) : Nat := (s.map Char.utf8Size).sum

/-- The name of a font is the longest beginning of the name given that has no NUL character and fits in 64 bytes -/
structure Spec.NameOf (given name : Str) : Prop where
  begins : name <+: given
  noNul : ∀ c ∈ name, c ≠ Char.ofNat 0
  fits : utf8Len name ≤ 64
  longest : ∀ s, s <+: given → (∀ c ∈ s, c ≠ Char.ofNat 0) → utf8Len s ≤ 64 → s <+: name

theorem truncBytes_longest (n : Nat) (s : Str) : truncBytes n s <+: s ∧ utf8Len (truncBytes n s) ≤ n ∧
    ∀ t, t <+: s → utf8Len t ≤ n → t <+: truncBytes n s := by
  induction s generalizing n with
  | nil => simp [truncBytes, utf8Len]
  | cons c s ih =>
    simp only [truncBytes]
    split
    · rename_i hc
      obtain ⟨h1, h2, h3⟩ := ih (n - c.utf8Size)
      refine ⟨by simpa using h1, ?_, ?_⟩
      · simp only [utf8Len, List.map_cons, List.sum_cons] at h2 ⊢; omega
      · intro t ht hl
        cases t with
        | nil => simp
        | cons x t =>
          rw [List.cons_prefix_cons] at ht ⊢
          obtain ⟨rfl, ht⟩ := ht
          refine ⟨rfl, h3 t ht ?_⟩
          simp only [utf8Len, List.map_cons, List.sum_cons] at hl ⊢; omega
    · rename_i hc
      refine ⟨by simp, by simp [utf8Len], ?_⟩
      intro t ht hl
      cases t with
      | nil => simp
      | cons x t =>
        rw [List.cons_prefix_cons] at ht
        obtain ⟨rfl, ht⟩ := ht
        simp only [utf8Len, List.map_cons, List.sum_cons] at hl; omega

theorem utf8Len_prefix {a b : Str} (h : a <+: b) : utf8Len a ≤ utf8Len b := by
  obtain ⟨c, rfl⟩ := h
  simp [utf8Len]

theorem takeWhile_longest {p : Char → Bool} {s t : Str} (h : t <+: s) (ht : ∀ c ∈ t, p c = true) : t <+: s.takeWhile p := by
  induction s generalizing t with
  | nil => simpa using h
  | cons c s ih =>
    cases t with
    | nil => simp
    | cons x t =>
      rw [List.cons_prefix_cons] at h
      obtain ⟨rfl, h⟩ := h
      rw [List.takeWhile_cons_of_pos (ht x (List.mem_cons_self ..)), List.cons_prefix_cons]
      exact ⟨rfl, ih h fun c hc => ht c (List.mem_cons_of_mem _ hc)⟩

theorem fstr64_name (s : Str) : NameOf s (fstr64 s) := by
  obtain ⟨h1, h2, h3⟩ := truncBytes_longest 64 s
  have h4 := List.takeWhile_prefix (· ≠ Char.ofNat 0) (l := truncBytes 64 s)
  refine ⟨h4.trans h1, fun c hc => ?_, Nat.le_trans (utf8Len_prefix h4) h2, ?_⟩
  · have h5 := List.all_eq_true.1 (List.all_takeWhile (p := (· ≠ Char.ofNat 0)) (l := truncBytes 64 s)) c hc
    simpa using h5
  intro t ht hn hl
  exact takeWhile_longest (h3 t ht hl) fun c hc => by simpa using hn c hc

/-- **C70 (name)** the name of the font is the last one given, cut to 64 bytes, and at a NUL character -/
theorem C70_name (C : Nat) (ps : List TProp) (hC : (glyphs none ps).length ≤ C) (f : Font)
    (hf : Tfon.parse C ps = .ok f) (pre post : List TProp) (s : Str) (hp : ps = pre ++ .fontName s :: post)
    (hl : ∀ p ∈ post, ∀ s', p ≠ .fontName s') : NameOf s f.name := by
  rw [C70_parse C ps hC] at hf
  split at hf
  · simp only [Out.ok.injEq] at hf
    subst hf
    have : lastOr defaultName nameIn ps = fstr64 s := by
      have h0 : post.filterMap nameIn = [] := by
        rw [List.filterMap_eq_nil_iff]
        intro p h
        cases p <;> first | rfl | exact absurd rfl (hl _ h _)
      simp [hp, lastOr, nameIn, h0]
    rw [fontIn, this]
    exact fstr64_name s
  · simp at hf

-- a name of 40 characters with 2 bytes each is cut after 32 of them
example : NameOf (List.replicate 40 'é') (List.replicate 32 'é') := by
  have := fstr64_name (List.replicate 40 'é')
  rwa [show fstr64 (List.replicate 40 'é') = List.replicate 32 'é' from by decide] at this

/-- **C70 (heights)** when no bitmap has height 0, the file is read exactly if all have the same height, and this is the
height of the font -/
theorem C70_heights (C : Nat) (ps : List TProp) (hC : (glyphs none ps).length ≤ C) (h0 : ∀ h ∈ heights ps, h ≠ 0) :
    ((∃ f, Tfon.parse C ps = .ok f) ↔ ∀ a ∈ heights ps, ∀ b ∈ heights ps, a = b) ∧
    ∀ f, Tfon.parse C ps = .ok f → ∀ h ∈ heights ps, f.height = h := by
  rw [C70_parse C ps hC]
  have e : HeightsAgree (heights ps) ↔ ∀ a ∈ heights ps, ∀ b ∈ heights ps, a = b := by
    unfold HeightsAgree
    generalize heights ps = hs at h0
    induction hs with
    | nil => simp
    | cons x hs ih =>
      have ih := ih fun h m => h0 h (by simp [m])
      rw [List.pairwise_cons, ih]
      constructor
      · rintro ⟨h1, h2⟩ a ha b hb
        have hx := h0 x (by simp)
        have h1 : ∀ y ∈ x :: hs, y = x := by
          intro y hy
          rcases List.mem_cons.1 hy with rfl | hy
          · rfl
          · exact h1 y hy hx
        rw [h1 a ha, h1 b hb]
      · intro h
        exact ⟨fun b hb _ => h b (by simp [hb]) x (by simp), fun a ha b hb => h a (by simp [ha]) b (by simp [hb])⟩
  refine ⟨?_, ?_⟩
  · rw [← e]
    split <;> rename_i h
    · exact ⟨fun _ => h, fun _ => ⟨_, rfl⟩⟩
    · exact ⟨fun ⟨_, he⟩ => (nomatch he), fun h' => absurd h' h⟩
  · intro f hf h hm
    split at hf
    · rename_i hag
      simp only [Out.ok.injEq] at hf
      subst hf
      have hag := e.1 hag
      unfold fontIn
      simp only
      cases hh : heights ps with
      | nil => rw [hh] at hm; simp at hm
      | cons x hs =>
        have hx := h0 x (by simp [hh])
        simp only [List.find?_cons, hx, ne_eq, not_false_eq_true, decide_true, Option.getD_some]
        exact hag x (by simp [hh]) h hm
    · simp at hf

/-- **C70 (validity)** what is read is a valid font exactly if it has a number, a bitmap with a height, and its characters
have different code points and bitmaps of their size; `parse` does not check this -/
theorem C70_valid (C : Nat) (ps : List TProp) (hC : (glyphs none ps).length ≤ C) (ha : HeightsAgree (heights ps)) :
    ∃ f, Tfon.parse C ps = .ok f ∧ (f.validate = .ok () ↔
      lastOr 0 numberIn ps ≠ 0 ∧ (∃ h ∈ heights ps, h ≠ 0) ∧
      (∀ c ∈ glyphs none ps, c.number.toNat ≠ 0 → BytesFor (c.width.toNat * f.height.toNat) c.bitmap.length) ∧
      UniqueNumbers (fun c : CharacterEntry => c.number.toNat) (glyphs none ps)) := by
  refine ⟨fontIn C ps, by rw [C70_parse C ps hC, if_pos ha], ?_⟩
  rw [fontValidate_iff]
  have hnum : (fontIn C ps).number.toNat ≠ 0 ↔ lastOr 0 numberIn ps ≠ 0 := by
    unfold fontIn
    rw [ne_eq, ne_eq, ← UInt8.toNat_inj]; rfl
  have hh : 0 < (fontIn C ps).height.toNat ↔ ∃ h ∈ heights ps, h ≠ 0 := by
    unfold fontIn
    simp only
    cases hf : (heights ps).find? (· ≠ 0) with
    | none => simpa using hf
    | some h =>
      have h1 := List.find?_some hf
      have h2 := List.mem_of_find?_eq_some hf
      have h3 : h.toNat ≠ 0 := fun h3 => of_decide_eq_true h1 (UInt8.toNat_inj.1 h3)
      exact ⟨fun _ => ⟨h, h2, of_decide_eq_true h1⟩, fun _ => by simp only [Option.getD_some]; omega⟩
  have hdef : CharacterEntry.default.number.toNat = 0 := rfl
  constructor
  · rintro ⟨h1, h2, h3, h4⟩
    refine ⟨hnum.1 h1, hh.1 h2, fun c hc hn => h3 c (List.mem_append_left _ hc) hn, ?_⟩
    intro i j a b hi hj hn he
    have hl := List.getElem?_eq_some_iff.1 hi
    have hl' := List.getElem?_eq_some_iff.1 hj
    refine h4 i j a b ?_ ?_ hn he
    · show (glyphs none ps ++ _)[i]? = _
      rw [List.getElem?_append_left hl.1, hi]
    · show (glyphs none ps ++ _)[j]? = _
      rw [List.getElem?_append_left hl'.1, hj]
  · rintro ⟨h1, h2, h3, h4⟩
    refine ⟨hnum.2 h1, hh.2 h2, ?_, ?_⟩
    · intro c hc hn
      rcases List.mem_append.1 hc with hc | hc
      · exact h3 c hc hn
      · rw [List.eq_of_mem_replicate hc] at hn
        exact absurd hdef hn
    · have inside : ∀ (i : Nat) a, (fontIn C ps).characters[i]? = some a → a.number.toNat ≠ 0 →
          (glyphs none ps)[i]? = some a := by
        intro i a hi hn
        have hi : (glyphs none ps ++ _)[i]? = some a := hi
        rw [List.getElem?_append] at hi
        split at hi
        · exact hi
        · have := List.eq_of_mem_replicate (List.mem_of_getElem? hi)
          rw [this] at hn
          exact absurd hdef hn
      intro i j a b hi hj hn he
      exact h4 i j a b (inside i a hi hn) (inside j b hj (fun h0 => hn (he.trans h0))) hn he

-- two glyphs of height 2; the second name and the second code point of "B" count
example : Tfon.parse 3 [.fontName c!"x", .fontName c!"y", .fontNumber 4, .codePoint 65, .bitmap ⟨2, 4, [0xff]⟩, .codePoint 9,
      .codePoint 66, .bitmap ⟨2, 2, [0xf0]⟩] =
    .ok ⟨4, c!"y", 2, 0, 0, [⟨65, 4, [0xff]⟩, ⟨66, 2, [0xf0]⟩, .default]⟩ := by decide +kernel
-- a file which is read, although the font is not valid
example : ∃ f, Tfon.parse 3 [.fontNumber 4, .codePoint 65, .bitmap ⟨2, 4, [0xff]⟩, .codePoint 65, .bitmap ⟨2, 2, [0xf0]⟩] =
    .ok f ∧ f.validate ≠ .ok () := ⟨_, rfl, by decide +kernel⟩
-- bitmaps of height 0 at the begin are not noticed
example : ∃ f, Tfon.parse 3 [.bitmap ⟨0, 4, []⟩, .bitmap ⟨2, 2, [0xf0]⟩] = .ok f := ⟨_, rfl⟩

end Ntcip
