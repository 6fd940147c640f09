import Verif.Lemmas.Tables
namespace Ntcip

/-- bit `k` of a bitmap, most significant bit of the first byte first -/
def Spec.bit (bitmap : List UInt8) (k : Nat) : Bool :=
  match bitmap[k / 8]? with
  | some b => b.toNat / 2 ^ (7 - k % 8) % 2 == 1
  | none => false

theorem bitAt_eq (b : UInt8) (k : Nat) : CharacterEntry.bitAt b k = (b.toNat / 2 ^ k % 2 == 1) := by
  unfold CharacterEntry.bitAt
  rw [Nat.testBit_eq_decide_div_mod_eq]
  by_cases h : b.toNat / 2 ^ k % 2 = 1 <;> simp [h]

theorem isPixelLit_eq (c : CharacterEntry) (row col : Nat) :
    c.isPixelLit row col = (decide (col < c.width.toNat) && Spec.bit c.bitmap (row * c.width.toNat + col)) := by
  unfold CharacterEntry.isPixelLit Spec.bit
  split
  · simp only [*, decide_true, Bool.true_and]
    split <;> simp [*, bitAt_eq]
  · simp [*]

/-- `r` is `page` with the lit positions below `p` drawn at `(x, y)` -/
structure Drawn (bitmap : List UInt8) (w x y : Nat) (cf : Rgb) (page : Raster) (p : Nat) (r : Raster) :
    Prop where
  width : r.width = page.width
  height : r.height = page.height
  lit : ∀ q, q < p → Spec.bit bitmap q = true → r.px (x + q % w) (y + q / w) = cf
  other : ∀ i j, (∀ q, q < p → Spec.bit bitmap q = true → ¬ (i = x + q % w ∧ j = y + q / w)) →
    r.px i j = page.px i j

theorem drawn_zero (bitmap w x y cf page) : Drawn bitmap w x y cf page 0 page :=
  ⟨rfl, rfl, by omega, by simp⟩

/-- next position of the loops of `render_char` -/
theorem next_pos (w p : Nat) (hw : 0 < w) :
    ((p + 1) % w, (p + 1) / w) = if p % w + 1 ≥ w then (0, p / w + 1) else (p % w + 1, p / w) := by
  have h1 := Nat.mod_lt p hw
  have h2 := Nat.div_add_mod p w
  split
  · have hm : p % w + 1 = w := by omega
    have hp : p + 1 = w * (p / w + 1) := by rw [Nat.mul_add]; omega
    rw [hp, Nat.mul_mod_right, Nat.mul_div_cancel_left _ hw]
  · have hp : p + 1 = p % w + 1 + w * (p / w) := by omega
    rw [hp, Nat.add_mul_mod_self_left, Nat.add_mul_div_left _ _ hw, Nat.mod_eq_of_lt (by omega),
      Nat.div_eq_of_lt (by omega)]
    simp

/-- drawing one more position -/
theorem drawn_step {bitmap w x y cf page p r} (hd : Drawn bitmap w x y cf page p r)
    (hin : Spec.bit bitmap p = true → x + p % w < page.width ∧ y + p / w < page.height) :
    ∃ r', (if Spec.bit bitmap p = true then r.setPx (x + p % w) (y + p / w) cf else .ok r) = .ok r' ∧
      Drawn bitmap w x y cf page (p + 1) r' := by
  by_cases hb : Spec.bit bitmap p = true
  · have hh := hin hb
    rw [if_pos hb, Raster.setPx, if_pos (by rw [hd.width, hd.height]; exact hh)]
    refine ⟨_, rfl, hd.width, hd.height, ?_, ?_⟩
    · intro q hq hl
      simp only
      split
      · rfl
      · have : q ≠ p := by rintro rfl; simp_all
        exact hd.lit q (by omega) hl
    · intro i j hij
      simp only
      rw [if_neg (hij p (by omega) hb)]
      exact hd.other i j (fun q hq => hij q (by omega))
  · rw [if_neg hb]
    refine ⟨r, rfl, hd.width, hd.height, ?_, ?_⟩
    · intro q hq hl
      have : q ≠ p := by rintro rfl; exact hb hl
      exact hd.lit q (by omega) hl
    · intro i j hij
      exact hd.other i j (fun q hq => hij q (by omega))

theorem renderBits_succ (w h x y : Nat) (cf : Rgb) (b : UInt8) (n : Nat) (r : Raster) (xx yy : Nat) :
    CharacterEntry.renderBits w h x y cf b (n + 1) r xx yy =
      (if CharacterEntry.bitAt b n = true then r.setPx (x + xx) (y + yy) cf else .ok r) >>= fun r =>
        if xx + 1 ≥ w then
          if yy + 1 ≥ h then .ok (r, 0, yy + 1)
          else CharacterEntry.renderBits w h x y cf b n r 0 (yy + 1)
        else CharacterEntry.renderBits w h x y cf b n r (xx + 1) yy := by
  rw [CharacterEntry.renderBits]; split <;> rfl

theorem renderBits_drawn {bitmap w h x y cf page} (hw : 0 < w)
    (hin : ∀ q, q < w * h → Spec.bit bitmap q = true → x + q % w < page.width ∧ y + q / w < page.height)
    (b : UInt8) (n p : Nat) (r : Raster) (hd : Drawn bitmap w x y cf page p r) (hp : p < w * h)
    (h8 : ∃ k, p + n = 8 * (k + 1) ∧ bitmap[k]? = some b) (hn : n ≤ 8) (hn0 : 0 < n) :
    ∃ r', (p + n < w * h ∧
        CharacterEntry.renderBits w h x y cf b n r (p % w) (p / w) =
          .ok (r', (p + n) % w, (p + n) / w) ∧ Drawn bitmap w x y cf page (p + n) r') ∨
      (w * h ≤ p + n ∧ (∃ xx yy, CharacterEntry.renderBits w h x y cf b n r (p % w) (p / w) =
          .ok (r', xx, yy)) ∧ Drawn bitmap w x y cf page (w * h) r') := by
  induction n generalizing p r with
  | zero => omega
  | succ n ih =>
    obtain ⟨k, hk, hb⟩ := h8
    have hbit : Spec.bit bitmap p = CharacterEntry.bitAt b n := by
      unfold Spec.bit
      have e1 : p / 8 = k := by omega
      have e2 : 7 - p % 8 = n := by omega
      rw [e1, hb, bitAt_eq, e2]
    obtain ⟨r1, hs, hd1⟩ := drawn_step hd (hin p hp)
    have hs' : (if CharacterEntry.bitAt b n = true then r.setPx (x + p % w) (y + p / w) cf
        else .ok r) = .ok r1 := by rw [← hbit]; exact hs
    have hnp := next_pos w p hw
    have hdm := Nat.div_add_mod p w
    have hml := Nat.mod_lt p hw
    simp only [renderBits_succ, hs', Res.ok_bind]
    by_cases hx : p % w + 1 ≥ w
    · rw [if_pos hx] at hnp ⊢
      simp only [Prod.mk.injEq] at hnp
      by_cases hy : p / w + 1 ≥ h
      · rw [if_pos hy]
        -- last position
        have hlast : p + 1 = w * h := by
          have : p + 1 = w * (p / w + 1) := by rw [Nat.mul_add]; omega
          have : w * h ≤ w * (p / w + 1) := Nat.mul_le_mul_left _ hy
          omega
        refine ⟨r1, .inr ⟨by omega, ⟨_, _, rfl⟩, hlast ▸ hd1⟩⟩
      · rw [if_neg hy]
        have hlt : p + 1 < w * h := by
          have : p + 1 = w * (p / w + 1) := by rw [Nat.mul_add]; omega
          have : w * (p / w + 2) ≤ w * h := Nat.mul_le_mul_left _ (by omega)
          rw [Nat.mul_add] at this
          rw [Nat.mul_add] at *
          omega
        rcases Nat.eq_zero_or_pos n with rfl | hn'
        · refine ⟨r1, .inl ⟨by omega, ?_, hd1⟩⟩
          simp [CharacterEntry.renderBits, hnp]
        · have := ih (p + 1) r1 hd1 hlt ⟨k, by omega, hb⟩ (by omega) hn'
          rw [hnp.1, hnp.2] at this
          have e : p + 1 + n = p + (n + 1) := by omega
          rwa [e] at this
    · rw [if_neg hx] at hnp ⊢
      simp only [Prod.mk.injEq] at hnp
      have hlt : p + 1 < w * h := by
        have h3 : p / w < h := Nat.div_lt_of_lt_mul hp
        have : w * (p / w + 1) ≤ w * h := Nat.mul_le_mul_left _ h3
        rw [Nat.mul_add] at this
        omega
      rcases Nat.eq_zero_or_pos n with rfl | hn'
      · refine ⟨r1, .inl ⟨by omega, ?_, hd1⟩⟩
        simp [CharacterEntry.renderBits, hnp]
      · have := ih (p + 1) r1 hd1 hlt ⟨k, by omega, hb⟩ (by omega) hn'
        rw [hnp.1, hnp.2] at this
        have e : p + 1 + n = p + (n + 1) := by omega
        rwa [e] at this

theorem renderBytes_drawn {bitmap w h x y cf page} (hw : 0 < w)
    (hin : ∀ q, q < w * h → Spec.bit bitmap q = true → x + q % w < page.width ∧ y + q / w < page.height)
    (hlen : Spec.BytesFor (w * h) bitmap.length)
    (bs : List UInt8) (k : Nat) (hbs : bitmap.drop k = bs) (r : Raster) (hk : 8 * k < w * h)
    (hd : Drawn bitmap w x y cf page (8 * k) r) :
    ∃ r', CharacterEntry.renderBytes w h x y cf bs r (8 * k % w) (8 * k / w) = .ok r' ∧
      Drawn bitmap w x y cf page (w * h) r' := by
  obtain ⟨hl1, hl2⟩ := hlen
  induction bs generalizing k r with
  | nil =>
    have := List.drop_eq_nil_iff.1 hbs
    omega
  | cons b bs ih =>
    have hb : bitmap[k]? = some b := by
      have : (bitmap.drop k)[0]? = some b := by rw [hbs]; rfl
      simpa using this
    have hbs' : bitmap.drop (k + 1) = bs := by
      rw [← List.drop_drop, hbs]; rfl
    obtain ⟨r1, hr⟩ := renderBits_drawn (h := h) hw hin b 8 (8 * k) r hd hk ⟨k, by omega, hb⟩
      (by omega) (by omega)
    simp only [CharacterEntry.renderBytes]
    rcases hr with ⟨hlt, he, hd1⟩ | ⟨hge, ⟨xx, yy, he⟩, hd1⟩
    · rw [he]
      simp only [Res.ok_bind]
      have e : 8 * k + 8 = 8 * (k + 1) := by omega
      rw [e] at hd1 hlt ⊢
      exact ih (k + 1) hbs' r1 hlt hd1
    · rw [he]
      simp only [Res.ok_bind]
      have : bs = [] := by
        rw [← hbs']; apply List.drop_eq_nil_iff.2; omega
      subst this
      exact ⟨r1, rfl, hd1⟩

/-- `render_char` of a bitmap of the right size draws the lit positions of the box -/
theorem renderChar_drawn (c : CharacterEntry) (page : Raster) (x y h : Nat) (cf : Rgb)
    (hlen : Spec.BytesFor (c.width.toNat * h) c.bitmap.length)
    (hin : ∀ q, q < c.width.toNat * h → Spec.bit c.bitmap q = true →
      x + q % c.width.toNat < page.width ∧ y + q / c.width.toNat < page.height) :
    ∃ r, c.renderChar page x y h cf = .ok r ∧
      Drawn c.bitmap c.width.toNat x y cf page (c.width.toNat * h) r := by
  unfold CharacterEntry.renderChar
  rcases Nat.eq_zero_or_pos (c.width.toNat * h) with h0 | hpos
  · have : c.bitmap = [] := by
      apply List.eq_nil_of_length_eq_zero
      unfold Spec.BytesFor at hlen; omega
    rw [this, h0]
    exact ⟨page, rfl, drawn_zero _ _ _ _ _ _⟩
  · have hw : 0 < c.width.toNat := Nat.pos_of_mul_pos_right hpos
    have := renderBytes_drawn (cf := cf) hw hin hlen c.bitmap 0 rfl page (by omega) (drawn_zero _ _ _ _ _ _)
    simpa using this

end Ntcip
