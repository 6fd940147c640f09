import Verif.Lemmas.Glyph
import Verif.Props.Tables
/-
C27 – C30: text width, glyph drawing, fixed width, version ID of fonts.
-/
namespace Ntcip
open Spec Tests

/-! ### C27 text width -/

/-- Width of characters of widths `ws`: their sum, plus `cs` for each one that follows non-zero
width -/
def Spec.advance (cs : Nat) (ws : List Nat) : Nat :=
  ws.sum + cs * (List.range ws.length).countP (fun i => 0 < (ws.take i).sum)

theorem advance_nil (cs : Nat) : Spec.advance cs [] = 0 := rfl

theorem advance_snoc (cs : Nat) (ws : List Nat) (a : Nat) :
    Spec.advance cs (ws ++ [a]) = Spec.advance cs ws + (if 0 < ws.sum then cs else 0) + a := by
  unfold Spec.advance
  have e : (List.range ws.length).countP (fun i => decide (0 < ((ws ++ [a]).take i).sum)) =
      (List.range ws.length).countP (fun i => decide (0 < (ws.take i).sum)) := by
    apply List.countP_congr
    intro i hi
    rw [List.mem_range] at hi
    rw [List.take_append_of_le_length (by omega)]
  have e2 : (ws ++ [a]).take ws.length = ws := by simp
  simp only [List.length_append, List.length_cons, List.length_nil, List.range_succ,
    List.countP_append, List.countP_cons, List.countP_nil, e, List.sum_append, e2,
    List.sum_cons, List.sum_nil, Nat.mul_add]
  split <;> simp_all <;> omega

theorem advance_pos (cs : Nat) (ws : List Nat) : 0 < Spec.advance cs ws ↔ 0 < ws.sum := by
  unfold Spec.advance
  constructor
  · intro h
    apply Nat.pos_of_ne_zero
    intro h0
    have : ∀ i, (ws.take i).sum = 0 := by
      intro i
      have := congrArg List.sum (List.take_append_drop i ws)
      rw [List.sum_append] at this
      omega
    simp [h0, this] at h
  · intro h; omega

theorem advance_append_le (cs : Nat) (ws vs : List Nat) :
    Spec.advance cs ws ≤ Spec.advance cs (ws ++ vs) := by
  induction vs generalizing ws with
  | nil => simp
  | cons v vs ih =>
    have h1 := ih (ws ++ [v])
    rw [advance_snoc] at h1
    rw [List.append_assoc] at h1
    simp at h1
    omega

theorem textWidthLoop_step (f : Font) (cs : Nat) (ws : List Nat) (e : CharacterEntry) (rest : Str)
    (ch : Char) (he : f.character ch = some e) :
    Font.textWidthLoop f cs (advance cs ws) (ch :: rest) =
      if advance cs (ws ++ [e.width.toNat]) < 65536 then
        Font.textWidthLoop f cs (advance cs (ws ++ [e.width.toNat])) rest
      else .panic .overflow := by
  rw [advance_snoc, Font.textWidthLoop, he]
  simp only [gt_iff_lt, advance_pos, chk16]
  by_cases h0 : 0 < ws.sum
  · simp only [if_pos h0]
    by_cases h1 : advance cs ws + cs < 65536
    · simp only [if_pos h1, Out.ofRes_ok, Out.ok_bind]
      by_cases h2 : advance cs ws + cs + e.width.toNat < 65536
      · simp only [if_pos h2, Out.ofRes_ok, Out.ok_bind]
      · simp only [if_neg h2, Out.ofRes_panic, Out.panic_bind]
    · rw [if_neg h1, if_neg (by omega)]; simp
  · simp only [if_neg h0, Out.ofRes_ok, Out.ok_bind, Nat.add_zero]
    split <;> simp

/-- the characters of `text` are defined in the font, by the entries `es` -/
def Spec.Defined (f : Font) (text : Str) (es : List CharacterEntry) : Prop :=
  text.map f.character = es.map some

theorem textWidthLoop_defined (f : Font) (cs : Nat) (text : Str) (es : List CharacterEntry)
    (h : Defined f text es) (ws : List Nat) (rest : Str) (hw : advance cs ws < 65536) :
    Font.textWidthLoop f cs (advance cs ws) (text ++ rest) =
      if advance cs (ws ++ es.map (·.width.toNat)) < 65536 then
        Font.textWidthLoop f cs (advance cs (ws ++ es.map (·.width.toNat))) rest
      else .panic .overflow := by
  induction text generalizing es ws with
  | nil =>
    have : es = [] := by simpa [Defined] using h.symm
    subst this
    simp [hw]
  | cons ch text ih =>
    cases es with
    | nil => simp [Defined] at h
    | cons e es =>
      simp only [Defined, List.map_cons, List.cons.injEq] at h
      rw [List.cons_append, textWidthLoop_step f cs ws e _ ch h.1]
      have e1 : ws ++ (e :: es).map (·.width.toNat) = (ws ++ [e.width.toNat]) ++ es.map (·.width.toNat) := by
        simp
      rw [e1]
      split
      · rename_i hlt
        rw [ih es h.2 _ hlt]
      · rename_i hlt
        rw [if_neg]
        have := advance_append_le cs (ws ++ [e.width.toNat]) (es.map (·.width.toNat))
        omega

/-- every text is a longest defined part, followed by nothing or an undefined character -/
theorem defined_split (f : Font) (text : Str) :
    ∃ pre es, Defined f pre es ∧
      (text = pre ∨ ∃ ch post, text = pre ++ ch :: post ∧ f.character ch = none) := by
  induction text with
  | nil => exact ⟨[], [], rfl, .inl rfl⟩
  | cons ch text ih =>
    cases h : f.character ch with
    | none => exact ⟨[], [], rfl, .inr ⟨ch, text, rfl, h⟩⟩
    | some e =>
      obtain ⟨pre, es, hd, hc⟩ := ih
      refine ⟨ch :: pre, e :: es, by simp_all [Defined], ?_⟩
      rcases hc with rfl | ⟨c, post, rfl, hn⟩
      · exact .inl rfl
      · exact .inr ⟨c, post, rfl, hn⟩

/-- character spacing in effect -/
def Spec.spacing (f : Font) (cs : Option UInt16) : Nat := (cs.map UInt16.toNat).getD f.charSpacing.toNat

theorem textWidth_eq (f : Font) (text : Str) (cs : Option UInt16) :
    f.textWidth text cs = Font.textWidthLoop f (spacing f cs) (advance (spacing f cs) []) text := by
  unfold Font.textWidth spacing; cases cs <;> rfl

/-- **C27 (value)** `text_width` returns `w` exactly when all characters are defined and `w` is the
sum of their widths plus one spacing for each that follows non-zero width (and fits `u16`). -/
theorem C27_ok_iff (f : Font) (text : Str) (cs : Option UInt16) (w : Nat) :
    f.textWidth text cs = .ok w ↔
      ∃ es, Defined f text es ∧ w = advance (spacing f cs) (es.map (·.width.toNat)) ∧ w < 65536 := by
  rw [textWidth_eq]
  obtain ⟨pre, es, hd, rfl | ⟨ch, post, rfl, hn⟩⟩ := defined_split f text
  · have := textWidthLoop_defined f (spacing f cs) text es hd [] [] (by simp [advance_nil])
    simp only [List.append_nil, List.nil_append] at this
    rw [this]
    constructor
    · split
      · intro h; simp only [Font.textWidthLoop, Out.ok.injEq] at h
        exact ⟨es, hd, h.symm, by omega⟩
      · simp
    · rintro ⟨es', hd', rfl, hlt⟩
      have : es = es' := by
        have : es.map some = es'.map some := hd.symm.trans hd'
        exact (List.map_inj_right (by simp)).1 this
      subst this
      rw [if_pos hlt]; rfl
  · have := textWidthLoop_defined f (spacing f cs) pre es hd [] (ch :: post) (by simp [advance_nil])
    rw [this]
    constructor
    · split <;> simp [Font.textWidthLoop, hn]
    · rintro ⟨es', hd', _⟩
      have : some (none : Option CharacterEntry) = ((es'.map some)[pre.length]?) := by
        rw [← hd']; simp [hn]
      simp at this
      cases h : es'[pre.length]? <;> simp [h] at this

/-- **C27 (error)** `text_width` fails exactly when a character is undefined, with `InvalidChar` of
the first such character (and the defined part before it does not overflow `u16`). -/
theorem C27_err_iff (f : Font) (text : Str) (cs : Option UInt16) (e : FontError) :
    f.textWidth text cs = .err e ↔
      ∃ pre ch post es, text = pre ++ ch :: post ∧ Defined f pre es ∧ f.character ch = none ∧
        e = .invalidChar ch ∧ advance (spacing f cs) (es.map (·.width.toNat)) < 65536 := by
  rw [textWidth_eq]
  constructor
  · obtain ⟨pre, es, hd, rfl | ⟨ch, post, rfl, hn⟩⟩ := defined_split f text
    · have := textWidthLoop_defined f (spacing f cs) text es hd [] [] (by simp [advance_nil])
      simp only [List.append_nil] at this
      rw [this]; split <;> simp [Font.textWidthLoop]
    · have := textWidthLoop_defined f (spacing f cs) pre es hd [] (ch :: post) (by simp [advance_nil])
      rw [this]
      split
      · rename_i hlt
        simp only [Font.textWidthLoop, hn, Out.err.injEq]
        intro h
        exact ⟨pre, ch, post, es, rfl, hd, hn, h.symm, by simpa using hlt⟩
      · simp
  · rintro ⟨pre, ch, post, es, rfl, hd, hn, rfl, hlt⟩
    have := textWidthLoop_defined f (spacing f cs) pre es hd [] (ch :: post) (by simp [advance_nil])
    rw [this, if_pos (by simpa using hlt)]
    simp [Font.textWidthLoop, hn]

theorem advance_le (cs : Nat) (ws : List Nat) (M : Nat) (h : ∀ a ∈ ws, a ≤ M) :
    advance cs ws ≤ ws.length * (M + cs) := by
  unfold advance
  have h1 : ws.sum ≤ ws.length * M := by
    clear cs
    induction ws with
    | nil => simp
    | cons a ws ih =>
      have := ih (fun x hx => h x (List.mem_cons_of_mem _ hx))
      have := h a (by simp)
      simp only [List.sum_cons, List.length_cons, Nat.add_mul]
      omega
  have h2 : (List.range ws.length).countP (fun i => decide (0 < (ws.take i).sum)) ≤ ws.length := by
    have := List.countP_le_length (l := List.range ws.length)
      (p := fun i => decide (0 < (ws.take i).sum))
    simpa using this
  have h3 := Nat.mul_le_mul_left cs h2
  rw [Nat.mul_add, Nat.mul_comm ws.length cs]
  omega

/-- **C27 (no overflow)** texts with fewer than 65536 / (255 + spacing) characters give a width or
`InvalidChar`, never a panic.  Missing for the full claim: longer texts, whose width may leave `u16`
(`C27_false`). -/
theorem C27_total_partial (f : Font) (text : Str) (cs : Option UInt16)
    (h : text.length * (255 + spacing f cs) < 65536) (p : Panic) : f.textWidth text cs ≠ .panic p := by
  have key : ∀ pre es, Defined f pre es → pre.length ≤ text.length →
      advance (spacing f cs) (es.map (·.width.toNat)) < 65536 := by
    intro pre es hd hl
    have := advance_le (spacing f cs) (es.map (·.width.toNat)) 255 (by
      intro a ha
      simp only [List.mem_map] at ha
      obtain ⟨e, _, rfl⟩ := ha
      have := e.width.toNat_lt; omega)
    have hlen : pre.length = es.length := by
      have := congrArg List.length hd; simpa using this
    simp only [List.length_map] at this
    have := Nat.mul_le_mul_right (255 + spacing f cs) hl
    rw [← hlen] at *
    omega
  obtain ⟨pre, es, hd, he⟩ := defined_split f text
  rcases he with rfl | ⟨ch, post, rfl, hn⟩
  · rw [(C27_ok_iff f text cs _).2 ⟨es, hd, rfl, key _ _ hd (Nat.le_refl _)⟩]; simp
  · rw [(C27_err_iff f _ cs _).2 ⟨pre, ch, post, es, rfl, hd, hn, rfl, key _ _ hd (by simp)⟩]; simp

/-- **C27 (panics)** with overflow checks, `text_width` panics exactly when a begin of the text, all of its characters
defined, is 65536 pixels or wider. -/
theorem C27_panics_iff (f : Font) (text : Str) (cs : Option UInt16) (p : Panic) :
    f.textWidth text cs = .panic p ↔ p = .overflow ∧ ∃ pre post es, text = pre ++ post ∧ Defined f pre es ∧
      65536 ≤ advance (spacing f cs) (es.map (·.width.toNat)) := by
  rw [textWidth_eq]
  constructor
  · obtain ⟨pre, es, hd, rfl | ⟨ch, post, rfl, hn⟩⟩ := defined_split f text
    · have := textWidthLoop_defined f (spacing f cs) text es hd [] [] (by simp [advance_nil])
      simp only [List.append_nil, List.nil_append] at this
      rw [this]
      split
      · simp [Font.textWidthLoop]
      · intro h
        cases h
        exact ⟨rfl, text, [], es, by simp, hd, by omega⟩
    · have := textWidthLoop_defined f (spacing f cs) pre es hd [] (ch :: post) (by simp [advance_nil])
      rw [this]
      simp only [List.nil_append]
      split
      · simp [Font.textWidthLoop, hn]
      · intro h
        cases h
        exact ⟨rfl, pre, ch :: post, es, rfl, hd, by omega⟩
  · rintro ⟨rfl, pre, post, es, rfl, hd, hw⟩
    have := textWidthLoop_defined f (spacing f cs) pre es hd [] post (by simp [advance_nil])
    rw [this, if_neg (by simpa using hw)]

/-- **C27 is false with overflow checks**: 258 characters of 255 pixels panic. -/
theorem C27_false : (⟨1, [], 1, 0, 0, [⟨65, 255, List.replicate 32 0⟩]⟩ : Font).textWidth
    (List.replicate 258 'A') none = .panic .overflow := by decide +kernel

/-- **C27 (which character)** in a font with unique character numbers, `character` gives the entry
with the number of a (non-NUL) character, and fails exactly when there is none. -/
theorem C27_character_iff (f : Font)
    (hu : UniqueNumbers (fun c : CharacterEntry => c.number.toNat) f.characters)
    (ch : Char) (h0 : ch.toNat ≠ 0) (e : CharacterEntry) :
    f.character ch = some e ↔ e ∈ f.characters ∧ e.number.toNat = ch.toNat := by
  unfold Font.character
  split
  · constructor
    · intro h
      exact ⟨List.mem_of_find?_eq_some h, by simpa using List.find?_some h⟩
    · rintro ⟨he, hn⟩
      exact find?_of_unique _ _ hu _ e he (by omega) (fun x => by simp [hn])
  · constructor
    · simp
    · rintro ⟨_, hn⟩
      have := e.number.toNat_lt
      omega

/-- NUL finds an unused slot: it has a width although the font does not define it -/
theorem C27_nul_defined : (f07.character (Char.ofNat 0)).isSome = true ∧
    ∀ c ∈ f07.characters, c.number.toNat = 0 → c = CharacterEntry.default := by
  constructor <;> decide +kernel

-- "AB" in the test font: widths 4 + 4 and one spacing of 2
example : f07.textWidth c!"AB" none = .ok 10 := by decide +kernel
example : f07.textWidth c!"AéB" none = .err (.invalidChar 'é') := by decide +kernel

/-! ### C28 glyph drawing -/

/-- **C28** drawing a character with a bitmap of the right size, lit pixels inside the page: lit
pixels (by `is_pixel_lit`) get the foreground color, every other pixel of the page keeps its color,
the size of the page is unchanged. -/
theorem C28_glyph_drawing (c : CharacterEntry) (page : Raster) (x y h : Nat) (cf : Rgb)
    (hlen : BytesFor (c.width.toNat * h) c.bitmap.length)
    (hin : ∀ row col, row < h → col < c.width.toNat → c.isPixelLit row col = true →
      x + col < page.width ∧ y + row < page.height) :
    ∃ r, c.renderChar page x y h cf = .ok r ∧ r.width = page.width ∧ r.height = page.height ∧
      (∀ row col, row < h → col < c.width.toNat → c.isPixelLit row col = true →
        r.px (x + col) (y + row) = cf) ∧
      (∀ i j, (∀ row col, row < h → col < c.width.toNat → c.isPixelLit row col = true →
        ¬ (i = x + col ∧ j = y + row)) → r.px i j = page.px i j) := by
  have pos : ∀ row col, row < h → col < c.width.toNat →
      row * c.width.toNat + col < c.width.toNat * h ∧
      (row * c.width.toNat + col) % c.width.toNat = col ∧
      (row * c.width.toNat + col) / c.width.toNat = row := by
    intro row col hr hc
    refine ⟨?_, ?_, ?_⟩
    · have : (row + 1) * c.width.toNat ≤ h * c.width.toNat := Nat.mul_le_mul_right _ hr
      rw [Nat.add_mul, Nat.mul_comm h] at this
      omega
    · rw [Nat.add_comm, Nat.add_mul_mod_self_right, Nat.mod_eq_of_lt hc]
    · rw [Nat.add_comm, Nat.add_mul_div_right _ _ (by omega), Nat.div_eq_of_lt hc]; simp
  have rc : ∀ q, q < c.width.toNat * h → q / c.width.toNat < h ∧ q % c.width.toNat < c.width.toNat ∧
      q / c.width.toNat * c.width.toNat + q % c.width.toNat = q := by
    intro q hq
    have hw : 0 < c.width.toNat := Nat.pos_of_mul_pos_right (by omega : 0 < c.width.toNat * h)
    exact ⟨Nat.div_lt_of_lt_mul hq, Nat.mod_lt _ hw, Nat.div_add_mod' _ _⟩
  have lit : ∀ row col, col < c.width.toNat →
      (c.isPixelLit row col = true ↔ Spec.bit c.bitmap (row * c.width.toNat + col) = true) := by
    intro row col hc; rw [isPixelLit_eq]; simp [hc]
  obtain ⟨r, hr, hd⟩ := renderChar_drawn c page x y h cf hlen (by
    intro q hq hb
    obtain ⟨h1, h2, h3⟩ := rc q hq
    exact hin _ _ h1 h2 ((lit _ _ h2).2 (by rw [h3]; exact hb)))
  refine ⟨r, hr, hd.width, hd.height, ?_, ?_⟩
  · intro row col h1 h2 hl
    obtain ⟨p1, p2, p3⟩ := pos row col h1 h2
    have := hd.lit _ p1 ((lit row col h2).1 hl)
    rwa [p2, p3] at this
  · intro i j hij
    apply hd.other
    intro q hq hb
    obtain ⟨h1, h2, h3⟩ := rc q hq
    exact hij _ _ h1 h2 ((lit _ _ h2).2 (by rw [h3]; exact hb))

/-- **C28 (`is_pixel_lit`)** is the bit `row × width + col` of the bitmap, most significant bit
first; columns outside of the character are not lit. -/
theorem C28_is_pixel_lit (c : CharacterEntry) (row col : Nat) :
    c.isPixelLit row col = true ↔ col < c.width.toNat ∧
      ∃ b, c.bitmap[(row * c.width.toNat + col) / 8]? = some b ∧
        b.toNat / 2 ^ (7 - (row * c.width.toNat + col) % 8) % 2 = 1 := by
  rw [isPixelLit_eq]
  unfold Spec.bit
  simp only [Bool.and_eq_true, decide_eq_true_eq]
  cases c.bitmap[(row * c.width.toNat + col) / 8]? <;> simp

/-- **C28 (box)** when the box of a character fits on the page, only pixels of the box change. -/
theorem C28_inside_box (c : CharacterEntry) (page : Raster) (x y h : Nat) (cf : Rgb)
    (hlen : BytesFor (c.width.toNat * h) c.bitmap.length)
    (hx : x + c.width.toNat ≤ page.width) (hy : y + h ≤ page.height) :
    ∃ r, c.renderChar page x y h cf = .ok r ∧ r.width = page.width ∧ r.height = page.height ∧
      ∀ i j, r.px i j ≠ page.px i j →
        (x ≤ i ∧ i < x + c.width.toNat ∧ y ≤ j ∧ j < y + h ∧ c.isPixelLit (j - y) (i - x) = true) ∧
        r.px i j = cf := by
  obtain ⟨r, hr, h1, h2, h3, h4⟩ := C28_glyph_drawing c page x y h cf hlen (by omega)
  refine ⟨r, hr, h1, h2, ?_⟩
  intro i j hne
  have key : (x ≤ i ∧ i < x + c.width.toNat ∧ y ≤ j ∧ j < y + h ∧
      c.isPixelLit (j - y) (i - x) = true) := by
    apply Decidable.byContradiction
    intro hno
    apply hne
    apply h4
    rintro row col hr hc hl ⟨rfl, rfl⟩
    apply hno
    refine ⟨by omega, by omega, by omega, by omega, ?_⟩
    simpa using hl
  refine ⟨key, ?_⟩
  have := h3 (j - y) (i - x) (by omega) (by omega) key.2.2.2.2
  rw [Nat.add_sub_cancel' key.1, Nat.add_sub_cancel' key.2.2.1] at this
  exact this

/-- characters of valid fonts have bitmaps of the right size -/
theorem C28_valid_fonts (f : Font) (hf : FontOk f) (ch : Char) (h0 : ch.toNat ≠ 0)
    (c : CharacterEntry) (hc : f.character ch = some c) :
    BytesFor (c.width.toNat * f.height.toNat) c.bitmap.length := by
  rw [C27_character_iff f hf.chars ch h0] at hc
  exact hf.bitmaps c hc.1 (by omega)

example : ∃ c, f07.character 'A' = some c ∧ BytesFor (c.width.toNat * 7) c.bitmap.length ∧
    c.isPixelLit 0 1 = true ∧ c.isPixelLit 0 0 = false := by
  refine ⟨_, rfl, ?_, by decide +kernel, by decide +kernel⟩
  constructor <;> decide +kernel

/-! ### C29 fixed width -/

/-- **C29 (soundness)** a non-zero result is the width of every defined character -/
theorem C29_width_sound (f : Font) (w : UInt8) (hw : w ≠ 0) (h : f.width = w) :
    ∀ c ∈ f.characters, c.width = w := by
  unfold Font.width at h
  simp only at h
  have h' : ∃ v : UInt8, (if f.characters.all (fun c => c.width == v) then v else 0) = w :=
    ⟨_, h⟩
  clear h
  obtain ⟨v, h⟩ := h'
  split at h
  · rename_i hall
    rw [List.all_eq_true] at hall
    intro c hc
    have := hall c hc
    rw [h] at this
    simpa using this
  · exact absurd h.symm hw

/-- **C29 (tables without unused slots)**.  Missing for the full claim: fonts with unused slots, for
which it is false (`C29_false`). -/
theorem C29_width_partial (f : Font) (hne : f.characters ≠ [])
    (hused : ∀ c ∈ f.characters, c.number ≠ 0) (w : UInt8) (hw : w ≠ 0) :
    f.width = w ↔ ∀ c ∈ f.characters, c.number ≠ 0 → c.width = w := by
  constructor
  · intro h c hc _; exact C29_width_sound f w hw h c hc
  · intro h
    unfold Font.width
    cases hcs : f.characters with
    | nil => exact absurd hcs hne
    | cons c cs =>
      have hc : c.width = w := h c (by simp [hcs]) (hused c (by simp [hcs]))
      simp only [hc]
      rw [if_pos]
      rw [List.all_eq_true]
      intro d hd
      have : d.width = w := h d (by rw [hcs]; exact hd) (hused d (by rw [hcs]; exact hd))
      simpa using this

/-- **C29 is false**: a font whose only defined character is 5 wide, in a table of two slots -/
theorem C29_false : ∃ f : Font, FontOk f ∧ (∀ c ∈ f.characters, c.number ≠ 0 → c.width = 5) ∧
    (∃ c ∈ f.characters, c.number ≠ 0) ∧ f.width = 0 := by
  refine ⟨⟨1, [], 1, 1, 1, [⟨65, 5, [0xF8]⟩, .default]⟩, ?_, by decide +kernel, by decide +kernel,
    by decide +kernel⟩
  exact ((fontValidate_iff _).1 (by decide +kernel)).2

example : ({ f07 with characters := [⟨65, 5, []⟩, ⟨66, 5, []⟩] } : Font).width = 5 := by decide +kernel

/-! ### C30 version IDs depend on the content -/

theorem flatMap_charOer_filter (cs : List CharacterEntry) :
    (cs.filter (fun c => c.number > 0)).flatMap Font.charOer = cs.flatMap Font.charOer := by
  induction cs with
  | nil => rfl
  | cons c cs ih =>
    by_cases h : c.number > 0
    · rw [List.filter_cons_of_pos (by simpa using h)]; simp [ih]
    · rw [List.filter_cons_of_neg (by simpa using h)]
      simp [ih, Font.charOer, h]

/-- **C30 (fonts)** fonts with the same number, height, spacings and defined characters (in order)
have the same version ID, whatever their names and the positions of unused slots. -/
theorem C30_font_version_id (f g : Font) (h1 : f.number = g.number) (h2 : f.height = g.height)
    (h3 : f.charSpacing = g.charSpacing) (h4 : f.lineSpacing = g.lineSpacing)
    (h5 : f.characters.filter (fun c => c.number.toNat ≠ 0) =
      g.characters.filter (fun c => c.number.toNat ≠ 0)) :
    f.versionId = g.versionId := by
  have e : ∀ l : List CharacterEntry, l.filter (fun c => c.number > 0) =
      l.filter (fun c => c.number.toNat ≠ 0) := by
    intro l; congr 1; funext c
    simp only [u16_ne_zero]
  unfold Font.versionId
  congr 2
  unfold Font.oer
  rw [← flatMap_charOer_filter f.characters, ← flatMap_charOer_filter g.characters]
  simp only [e, h1, h2, h3, h4, h5]

/-- **C30 (graphics)** the name does not matter -/
theorem C30_graphic_version_id (g : Graphic) (nm : Str) :
    ({ g with name := nm } : Graphic).versionId = g.versionId := rfl

-- moving the unused slot and renaming
example : ∃ f g : Font, f ≠ g ∧ f.versionId = g.versionId :=
  ⟨⟨1, c!"a", 1, 1, 1, [⟨65, 5, [0xF8]⟩, .default, ⟨66, 1, [0x80]⟩]⟩,
   ⟨1, c!"b", 1, 1, 1, [.default, ⟨65, 5, [0xF8]⟩, ⟨66, 1, [0x80]⟩]⟩, by decide +kernel,
   C30_font_version_id _ _ rfl rfl rfl rfl (by decide +kernel)⟩

end Ntcip
