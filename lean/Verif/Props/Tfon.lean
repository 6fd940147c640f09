import Verif.Model.Tfon
import Verif.Props.Tables
/-
C34, C35: reading and writing fonts in tfon format.
-/
namespace Ntcip
open Spec Tests Tfon

theorem updAt_append (xs : List CharacterEntry) (c : CharacterEntry) (ys : List CharacterEntry)
    (g : CharacterEntry → CharacterEntry) :
    updAt (xs ++ c :: ys) xs.length g = .ok (xs ++ g c :: ys) := by
  induction xs with
  | nil => rfl
  | cons x xs ih => simp [updAt, ih]

theorem updAt_lt (cs : List CharacterEntry) (row : Nat) (g : CharacterEntry → CharacterEntry)
    (h : row < cs.length) : ∃ cs', updAt cs row g = .ok cs' ∧ cs'.length = cs.length := by
  induction cs generalizing row with
  | nil => simp at h
  | cons c cs ih =>
    cases row with
    | zero => exact ⟨_, rfl, rfl⟩
    | succ n =>
      obtain ⟨cs', h1, h2⟩ := ih n (by simpa using h)
      exact ⟨c :: cs', by simp [updAt, h1], by simp [h2]⟩

theorem updAt_ge (cs : List CharacterEntry) (row : Nat) (g : CharacterEntry → CharacterEntry)
    (h : cs.length ≤ row) : updAt cs row g = .panic .index := by
  induction cs generalizing row with
  | nil => rfl
  | cons c cs ih =>
    cases row with
    | zero => simp at h
    | succ n => simp [updAt, ih n (by simpa using h)]

/-- the defined characters of a font -/
def Spec.used (f : Font) : List CharacterEntry := f.characters.filter (fun c => c.number.toNat ≠ 0)

theorem charProps_used (f : Font) (hf : FontOk f) :
    f.characters.flatMap (charProps f.height) =
      (used f).flatMap fun c => [.codePoint c.number, .bitmap ⟨f.height, c.width, c.bitmap⟩] := by
  have key : ∀ cs : List CharacterEntry, (∀ c ∈ cs, c.number.toNat ≠ 0 →
      BytesFor (c.width.toNat * f.height.toNat) c.bitmap.length) →
      cs.flatMap (charProps f.height) = (cs.filter (fun c => c.number.toNat ≠ 0)).flatMap
        fun c => [.codePoint c.number, .bitmap ⟨f.height, c.width, c.bitmap⟩] := by
    intro cs hb
    induction cs with
    | nil => rfl
    | cons c cs ih =>
      have ih' := ih (fun c hc => hb c (List.mem_cons_of_mem _ hc))
      by_cases h0 : c.number.toNat ≠ 0
      · rw [List.filter_cons_of_pos (by simpa using h0)]
        simp only [List.flatMap_cons, ih']
        congr 1
        have := (divCeil_eq _ _).2 (hb c (by simp) h0)
        simp only [charProps, u16_ne_zero, if_pos h0, Bitmap.fromBits, if_pos this]
      · rw [List.filter_cons_of_neg (by simpa using h0)]
        simp only [List.flatMap_cons, ih']
        simp only [charProps, u16_ne_zero, if_neg h0, List.nil_append]
  exact key f.characters hf.bitmaps

theorem parseLoop_cons (font : Font) (row : Nat) (p : TProp) (rest : List TProp) :
    parseLoop font row (p :: rest) = (parseStep font row p >>= fun x => parseLoop x.1 x.2 rest) := rfl

theorem parseStep_bitmap (h : UInt8) (hh : h.toNat ≠ 0) (font : Font)
    (hf : font.height = 0 ∨ font.height = h) (row : Nat) (w : UInt8) (bits : List UInt8) :
    parseStep font row (.bitmap ⟨h, w, bits⟩) =
      (updAt font.characters row (fun c => { c with width := w, bitmap := bits }) >>= fun cs =>
        Out.ok ({ font with height := h, characters := cs }, row + 1)) := by
  have hhp : h > 0 := by rw [u8_ne_zero]; exact hh
  simp only [parseStep]
  rcases hf with h0 | h0
  · rw [if_neg (by rw [h0]; decide)]; rfl
  · subst h0; rw [if_pos hhp, if_neg (by simp)]; rfl

theorem parseLoop_glyphs (h : UInt8) (hh : h.toNat ≠ 0) (cs : List CharacterEntry) (k : Nat)
    (hk : cs.length ≤ k) (font : Font) (done : List CharacterEntry)
    (hc : font.characters = done ++ List.replicate k .default)
    (hf : font.height = 0 ∨ font.height = h) :
    parseLoop font done.length
      (cs.flatMap fun c => [.codePoint c.number, .bitmap ⟨h, c.width, c.bitmap⟩]) =
      .ok { font with
        height := if cs = [] then font.height else h,
        characters := done ++ cs ++ List.replicate (k - cs.length) .default } := by
  induction cs generalizing font done k with
  | nil => simp [parseLoop, ← hc]
  | cons c cs ih =>
    obtain ⟨k, rfl⟩ : ∃ k', k = k' + 1 := ⟨k - 1, by simp at hk; omega⟩
    rw [List.replicate_succ] at hc
    simp only [List.flatMap_cons, List.cons_append, List.nil_append, parseLoop_cons]
    have s1 : parseStep font done.length (.codePoint c.number) =
        .ok ({ font with characters := done ++ ⟨c.number, 0, []⟩ :: List.replicate k .default },
          done.length) := by
      simp [parseStep, hc, updAt_append, CharacterEntry.default]
    rw [s1]
    simp only [Out.ok_bind]
    rw [parseStep_bitmap h hh]
    · simp only [updAt_append, Out.ok_bind]
      have ih' := ih k (by simpa using hk)
        { font with height := h, characters := done ++ c :: List.replicate k .default } (done ++ [c])
        (by simp) (.inr rfl)
      rw [List.length_append] at ih'
      simp only [List.length_cons, List.length_nil] at ih'
      rw [ih']
      simp
    · exact hf

/-- **C34 (refusal)** `write` succeeds exactly for valid fonts with a positive number -/
theorem C34_write_iff (f : Font) :
    (∃ ps, Tfon.write f = .ok ps) ↔ f.number.toNat ≠ 0 ∧ FontOk f := by
  unfold Tfon.write
  simp only [Out.bind_unit_eq_ok, fontValidate_iff]
  constructor
  · rintro ⟨ps, h, _⟩; exact h
  · intro h; exact ⟨_, h, rfl⟩

theorem takeWhile_takeWhile {α} (p : α → Bool) (l : List α) :
    (l.takeWhile p).takeWhile p = l.takeWhile p := by
  induction l with
  | nil => rfl
  | cons a l ih => by_cases h : p a = true <;> simp [h, ih]

theorem truncBytes_takeWhile (n : Nat) (p : Char → Bool) (s : Str) :
    truncBytes n ((truncBytes n s).takeWhile p) = (truncBytes n s).takeWhile p := by
  induction s generalizing n with
  | nil => rfl
  | cons c s ih =>
    simp only [truncBytes]
    split
    · rename_i hn
      by_cases h : p c = true
      · simp only [List.takeWhile_cons, h, if_true, truncBytes, hn, ih]
      · simp only [List.takeWhile_cons, h]; rfl
    · rfl

/-- names of at most 64 bytes without NUL are kept -/
theorem fstr64_idem (s : Str) : fstr64 (fstr64 s) = fstr64 s := by
  unfold fstr64
  rw [truncBytes_takeWhile, takeWhile_takeWhile]

/-- **C34 (round trip)** reading what was written for a font with at least one defined character into a
table of `C` slots (enough for its characters) gives the same font, with the defined characters
first, in order, followed by empty slots.  The text layer of the tfon format is not part of the
model (it belongs to another crate), so this is about the properties it transports.
Missing for the full claim: that text layer, and fonts without characters, which lose their height
(`C34_false`). -/
theorem C34_round_trip_partial (f : Font) (ps : List TProp) (C : Nat)
    (hw : Tfon.write f = .ok ps) (hname : ∃ s, f.name = fstr64 s) (hne : used f ≠ [])
    (hC : (used f).length ≤ C) :
    Tfon.parse C ps = .ok { f with
      characters := used f ++ List.replicate (C - (used f).length) .default } := by
  have hv := (C34_write_iff f).1 ⟨ps, hw⟩
  unfold Tfon.write at hw
  simp only [Out.bind_unit_eq_ok, Out.pure_eq, Out.ok.injEq] at hw
  obtain ⟨_, rfl⟩ := hw
  rw [charProps_used f hv.2]
  obtain ⟨s, hs⟩ := hname
  unfold Tfon.parse
  simp only [List.cons_append, List.nil_append, parseLoop, parseStep, Out.ok_bind]
  have := parseLoop_glyphs f.height (by have := hv.2.height; omega) (used f) C hC
    { number := f.number, name := fstr64 f.name, height := 0, charSpacing := f.charSpacing,
      lineSpacing := f.lineSpacing, characters := List.replicate C .default } [] rfl (.inl rfl)
  simp only [List.length_nil, List.nil_append, hne, if_false] at this
  have e : fstr64 f.name = f.name := by rw [hs, fstr64_idem]
  rw [e] at this ⊢
  rw [← this]; rfl

/-- **C34 is false** for a valid font without characters: the height is not written -/
theorem C34_false : ∃ f : Font, f.number.toNat ≠ 0 ∧ FontOk f ∧ ∃ ps, Tfon.write f = .ok ps ∧
    Tfon.parse f.characters.length ps = .ok { f with height := 0 } ∧ f.height ≠ 0 :=
  ⟨⟨1, [], 7, 1, 1, [.default]⟩, by decide, ((fontValidate_iff _).1 (by decide +kernel)).2, _, rfl,
    by decide +kernel, by decide⟩

-- a real font: written, read back
example : ∃ ps, Tfon.write f07 = .ok ps ∧ used f07 ≠ [] ∧ f07.name = fstr64 f07.name ∧
    (used f07).length ≤ 128 := ⟨_, rfl, by decide +kernel, by decide +kernel, by decide +kernel⟩

/-! ### C35 reading never panics -/

/-- is the property a bitmap? -/
def Spec.isBitmap : TProp → Bool
  | .bitmap _ => true
  | _ => false

theorem parseStep_no_panic (font : Font) (row : Nat) (p : TProp) (h : row < font.characters.length) :
    match parseStep font row p with
    | .panic _ => False
    | .err _ => True
    | .ok (font', row') => font'.characters.length = font.characters.length ∧
        row' = row + (if Spec.isBitmap p then 1 else 0) := by
  cases p with
  | codePoint cp =>
    obtain ⟨cs', h1, h2⟩ := updAt_lt font.characters row (fun c => { c with number := cp }) h
    simp [parseStep, h1, h2, Spec.isBitmap]
  | bitmap b =>
    obtain ⟨cs', h1, h2⟩ := updAt_lt font.characters row
      (fun c => { c with width := b.width, bitmap := b.bits }) h
    by_cases g1 : font.height > 0
    · by_cases g2 : b.height = font.height
      · simp [parseStep, g1, g2, h1, h2, Spec.isBitmap]
      · simp [parseStep, g1, g2]
    · simp [parseStep, g1, h1, h2, Spec.isBitmap]
  | fontName nm => simp [parseStep, Spec.isBitmap]
  | fontNumber nm => simp [parseStep, Spec.isBitmap]
  | charSpacing nm => simp [parseStep, Spec.isBitmap]
  | lineSpacing nm => simp [parseStep, Spec.isBitmap]
  | other => simp [parseStep, Spec.isBitmap]

theorem parseLoop_no_panic (props : List TProp) (font : Font) (row : Nat)
    (h : row + props.countP Spec.isBitmap < font.characters.length) (e : Panic) :
    parseLoop font row props ≠ .panic e := by
  induction props generalizing font row with
  | nil => simp [parseLoop]
  | cons p props ih =>
    rw [List.countP_cons] at h
    have hs := parseStep_no_panic font row p (by omega)
    simp only [parseLoop]
    cases hp : parseStep font row p with
    | panic => rw [hp] at hs; exact hs.elim
    | err => simp
    | ok r =>
      obtain ⟨font', row'⟩ := r
      rw [hp] at hs
      simp only [Out.ok_bind]
      apply ih
      rw [hs.1, hs.2]; omega

/-- **C35** inputs with fewer bitmaps than the table has slots never panic.  Missing for the full
claim: inputs with more characters than slots, which do panic (`C35_false`). -/
theorem C35_no_panic_partial (C : Nat) (props : List TProp) (h : props.countP Spec.isBitmap < C)
    (e : Panic) : Tfon.parse C props ≠ .panic e := by
  unfold Tfon.parse
  apply parseLoop_no_panic
  simpa [Font.default] using h

/-- **C35 is false**: for every table size there is an input that makes `parse` panic: one glyph more
than there are slots. -/
theorem C35_false (C : Nat) :
    Tfon.parse C (List.replicate (C + 1) (.bitmap ⟨1, 1, [0x80]⟩)) = .panic .index := by
  unfold Tfon.parse
  have key : ∀ (n : Nat) (font : Font) (row : Nat), font.characters.length = C →
      (font.height = 0 ∨ font.height = 1) → row + n = C + 1 → 0 < n →
      parseLoop font row (List.replicate n (.bitmap ⟨1, 1, [0x80]⟩)) = .panic .index := by
    intro n
    induction n with
    | zero => intro _ _ _ _ _ h; omega
    | succ n ih =>
      intro font row hl hh hr _
      rw [List.replicate_succ]
      rw [parseLoop_cons, parseStep_bitmap 1 (by decide) font hh]
      by_cases hlt : row < font.characters.length
      · obtain ⟨cs', h1, h2⟩ := updAt_lt font.characters row
          (fun c => { c with width := 1, bitmap := [0x80] }) hlt
        simp only [h1, Out.ok_bind]
        exact ih _ _ (by simp [h2, hl]) (.inr rfl) (by omega) (by omega)
      · rw [updAt_ge _ _ _ (by omega)]; rfl
  exact key (C + 1) _ 0 (by simp [Font.default]) (.inl rfl) (by omega) (by omega)

example : Tfon.parse 2 [.codePoint 65, .bitmap ⟨1, 1, [0x80]⟩, .bitmap ⟨2, 1, [0x80]⟩] =
    .err .invalidCharHeight := by decide +kernel

end Ntcip
