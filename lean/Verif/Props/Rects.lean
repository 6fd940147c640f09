import Verif.Model.Multi
/-
Property C68: rectangles are sets of pixels.
-/
namespace Ntcip.Spec

/-- the pixel `(x, y)` is in the rectangle -/
def Covers (r : Rectangle) (x y : Nat) : Prop :=
  r.x.toNat ≤ x ∧ x < r.x.toNat + r.width.toNat ∧ r.y.toNat ≤ y ∧ y < r.y.toNat + r.height.toNat

/-- the edges of the rectangle fit in 16 bits -/
def In16 (r : Rectangle) : Prop := r.x.toNat + r.width.toNat < 65536 ∧ r.y.toNat + r.height.toNat < 65536

instance (r : Rectangle) (x y : Nat) : Decidable (Covers r x y) := inferInstanceAs (Decidable (_ ∧ _))
instance (r : Rectangle) : Decidable (In16 r) := inferInstanceAs (Decidable (_ ∧ _))

end Ntcip.Spec

namespace Ntcip
open Spec

theorem addU16_in {p : Profile} {a b : UInt16} (h : a.toNat + b.toNat < 65536) : addU16 p a b = .ok (a + b) := by
  unfold addU16
  rw [if_pos h]

theorem toNat_add16 {a b : UInt16} (h : a.toNat + b.toNat < 65536) : (a + b).toNat = a.toNat + b.toNat := by
  rw [UInt16.toNat_add]; omega

theorem toNat_max16 (a b : UInt16) : (max a b).toNat = max a.toNat b.toNat := by
  rw [show max a b = if a ≤ b then b else a from rfl]
  split <;> rename_i h <;> rw [UInt16.le_iff_toNat_le] at h <;> omega

theorem toNat_min16 (a b : UInt16) : (min a b).toNat = min a.toNat b.toNat := by
  rw [show min a b = if a ≤ b then a else b from rfl]
  split <;> rename_i h <;> rw [UInt16.le_iff_toNat_le] at h <;> omega

/-- **C68 (intersection)** the pixels of the intersection are those of both rectangles, in either build profile, when
the edges fit in 16 bits.  Missing for the full claim: other rectangles are a panic, or a wrong result (`C68_false`). -/
theorem C68_intersection_partial (p : Profile) (a b : Rectangle) (ha : In16 a) (hb : In16 b) :
    ∃ i, a.intersection p b = .ok i ∧ ∀ x y, Covers i x y ↔ Covers a x y ∧ Covers b x y := by
  obtain ⟨a1, a2⟩ := ha
  obtain ⟨b1, b2⟩ := hb
  unfold Rectangle.intersection
  simp only [addU16_in a1, addU16_in a2, addU16_in b1, addU16_in b2, Res.ok_bind]
  split
  · rename_i h
    refine ⟨_, rfl, fun x y => ?_⟩
    simp only [gt_iff_lt, UInt16.lt_iff_toNat_lt, toNat_min16, toNat_max16, toNat_add16 a1, toNat_add16 a2,
      toNat_add16 b1, toNat_add16 b2] at h
    have e1 := UInt16.toNat_sub_of_le (min (a.x + a.width) (b.x + b.width)) (max a.x b.x) (by
      simp only [UInt16.le_iff_toNat_le, toNat_min16, toNat_max16, toNat_add16 a1, toNat_add16 b1]; omega)
    have e2 := UInt16.toNat_sub_of_le (min (a.y + a.height) (b.y + b.height)) (max a.y b.y) (by
      simp only [UInt16.le_iff_toNat_le, toNat_min16, toNat_max16, toNat_add16 a2, toNat_add16 b2]; omega)
    simp only [Covers, e1, e2, toNat_min16, toNat_max16, toNat_add16 a1, toNat_add16 a2, toNat_add16 b1, toNat_add16 b2]
    omega
  · rename_i h
    refine ⟨_, rfl, fun x y => ?_⟩
    simp only [gt_iff_lt, UInt16.lt_iff_toNat_lt, toNat_min16, toNat_max16, toNat_add16 a1, toNat_add16 a2,
      toNat_add16 b1, toNat_add16 b2] at h
    simp only [Covers, Rectangle.default, UInt16.reduceToNat]
    omega

/-- **C68 (containment)** `contains` tells if all pixels of the other rectangle are in this one (rectangles of 16 bits
with at least one pixel); a rectangle it tells to contain another does always. -/
theorem C68_contains_partial (p : Profile) (a b : Rectangle) (ha : In16 a) (hb : In16 b) :
    ∃ c, a.contains p b = .ok c ∧ (c = true → ∀ x y, Covers b x y → Covers a x y) ∧
      ((∃ x y, Covers b x y) → (∀ x y, Covers b x y → Covers a x y) → c = true) := by
  obtain ⟨a1, a2⟩ := ha
  obtain ⟨b1, b2⟩ := hb
  have key : a.contains p b = .ok (decide (a.x.toNat ≤ b.x.toNat ∧ b.x.toNat + b.width.toNat ≤ a.x.toNat + a.width.toNat ∧
      a.y.toNat ≤ b.y.toNat ∧ b.y.toNat + b.height.toNat ≤ a.y.toNat + a.height.toNat)) := by
    unfold Rectangle.contains
    simp only [addU16_in a1, addU16_in a2, addU16_in b1, addU16_in b2, Res.ok_bind, Res.pure_eq, ge_iff_le,
      UInt16.le_iff_toNat_le, toNat_add16 a1, toNat_add16 a2, toNat_add16 b1, toNat_add16 b2]
    split
    · split
      · split
        · congr 1; simp [*]
        · congr 1; symm; simp [*]
      · congr 1; symm; simp [*]
    · congr 1; symm; simp [*]
  refine ⟨_, key, ?_, ?_⟩
  · intro h x y hc
    have h := of_decide_eq_true h
    simp only [Covers] at hc ⊢
    omega
  · rintro ⟨x, y, hc⟩ hall
    apply decide_eq_true
    have h1 := hall b.x.toNat b.y.toNat (by simp only [Covers] at hc ⊢; omega)
    have h2 := hall (b.x.toNat + b.width.toNat - 1) (b.y.toNat + b.height.toNat - 1) (by
      simp only [Covers] at hc ⊢; omega)
    simp only [Covers] at h1 h2 hc
    omega

theorem addU16_over {a b : UInt16} (h : ¬ a.toNat + b.toNat < 65536) : addU16 .checked a b = .panic .overflow := by
  unfold addU16
  rw [if_neg h]

/-- **C68 (panics)** with overflow checks, `intersection` panics exactly when an edge of a rectangle does not fit in
16 bits. -/
theorem C68_intersection_panics_iff (a b : Rectangle) (e : Panic) :
    a.intersection .checked b = .panic e ↔ e = .overflow ∧ ¬ (In16 a ∧ In16 b) := by
  constructor
  · intro h
    have hn : ¬ (In16 a ∧ In16 b) := by
      rintro ⟨ha, hb⟩
      obtain ⟨i, hi, _⟩ := C68_intersection_partial .checked a b ha hb
      rw [hi] at h; cases h
    refine ⟨?_, hn⟩
    have key : ∀ {x y : UInt16} {β} {f : UInt16 → Res β}, (addU16 .checked x y >>= f) = .panic e →
        e = .overflow ∨ f (x + y) = .panic e := by
      intro x y β f h
      by_cases hx : x.toNat + y.toNat < 65536
      · rw [addU16_in hx] at h; exact .inr h
      · rw [addU16_over hx] at h; cases h; exact .inl rfl
    unfold Rectangle.intersection at h
    rcases key h with h | h
    · exact h
    rcases key h with h | h
    · exact h
    rcases key h with h | h
    · exact h
    rcases key h with h | h
    · exact h
    dsimp only at h
    split at h <;> cases h
  · rintro ⟨rfl, h⟩
    unfold Rectangle.intersection In16 at *
    by_cases a1 : a.x.toNat + a.width.toNat < 65536
    · rw [addU16_in a1]
      by_cases b1 : b.x.toNat + b.width.toNat < 65536
      · rw [addU16_in b1]
        by_cases a2 : a.y.toNat + a.height.toNat < 65536
        · rw [addU16_in a2]
          by_cases b2 : b.y.toNat + b.height.toNat < 65536
          · exact absurd ⟨⟨a1, a2⟩, b1, b2⟩ h
          · rw [addU16_over b2]; rfl
        · rw [addU16_over a2]; rfl
      · rw [addU16_over b1]; rfl
    · rw [addU16_over a1]; rfl

/-- **C68 (panics of `contains`)** exactly when the other rectangle does not start left of this one and a right edge does
not fit in 16 bits; or the other is within this one from left to right, does not start above it and a bottom edge does
not fit. -/
theorem C68_contains_panics_iff (a b : Rectangle) (e : Panic) :
    a.contains .checked b = .panic e ↔ e = .overflow ∧ a.x.toNat ≤ b.x.toNat ∧
      (65536 ≤ b.x.toNat + b.width.toNat ∨ 65536 ≤ a.x.toNat + a.width.toNat ∨
        (b.x.toNat + b.width.toNat ≤ a.x.toNat + a.width.toNat ∧ a.y.toNat ≤ b.y.toNat ∧
          (65536 ≤ b.y.toNat + b.height.toNat ∨ 65536 ≤ a.y.toNat + a.height.toNat))) := by
  unfold Rectangle.contains
  simp only [ge_iff_le, UInt16.le_iff_toNat_le]
  by_cases h1 : a.x.toNat ≤ b.x.toNat
  · rw [if_pos h1]
    by_cases h2 : b.x.toNat + b.width.toNat < 65536
    · rw [addU16_in h2, Res.ok_bind]
      by_cases h3 : a.x.toNat + a.width.toNat < 65536
      · rw [addU16_in h3, Res.ok_bind, toNat_add16 h2, toNat_add16 h3]
        by_cases h4 : b.x.toNat + b.width.toNat ≤ a.x.toNat + a.width.toNat
        · rw [if_pos h4]
          by_cases h5 : a.y.toNat ≤ b.y.toNat
          · rw [if_pos h5]
            by_cases h6 : b.y.toNat + b.height.toNat < 65536
            · rw [addU16_in h6, Res.ok_bind]
              by_cases h7 : a.y.toNat + a.height.toNat < 65536
              · rw [addU16_in h7, Res.ok_bind]
                constructor
                · intro h; cases h
                · intro h; omega
              · rw [addU16_over h7]
                constructor
                · intro h; cases h; exact ⟨rfl, by omega⟩
                · rintro ⟨rfl, _⟩; rfl
            · rw [addU16_over h6]
              constructor
              · intro h; cases h; exact ⟨rfl, by omega⟩
              · rintro ⟨rfl, _⟩; rfl
          · rw [if_neg h5]
            constructor
            · intro h; cases h
            · intro h; omega
        · rw [if_neg h4]
          constructor
          · intro h; cases h
          · intro h; omega
      · rw [addU16_over h3]
        constructor
        · intro h; cases h; exact ⟨rfl, by omega⟩
        · rintro ⟨rfl, _⟩; rfl
    · rw [addU16_over h2]
      constructor
      · intro h; cases h; exact ⟨rfl, by omega⟩
      · rintro ⟨rfl, _⟩; rfl
  · rw [if_neg h1]
    constructor
    · intro h; cases h
    · intro h; omega

/-- The claim is false beyond 16 bits: `intersection` panics with overflow checks; without, the intersection of two
rectangles with common pixels is empty. -/
theorem C68_false : ∃ a b : Rectangle, (Covers a 60000 1 ∧ Covers b 60000 1) ∧
    a.intersection .checked b = .panic .overflow ∧ a.intersection .wrapping b = .ok .default ∧
    ∀ x y, ¬ Covers .default x y := by
  refine ⟨⟨60000, 1, 10000, 1⟩, ⟨1, 1, 65000, 1⟩, by decide, by decide, by decide, ?_⟩
  simp only [Covers, Rectangle.default, UInt16.reduceToNat]
  omega

example : (⟨1, 1, 10, 10⟩ : Rectangle).intersection .checked ⟨5, 8, 10, 10⟩ = .ok ⟨5, 8, 6, 3⟩ := by decide
example : (⟨1, 1, 10, 10⟩ : Rectangle).contains .checked ⟨5, 8, 6, 3⟩ = .ok true := by decide
example : (⟨1, 1, 10, 10⟩ : Rectangle).contains .checked ⟨5, 8, 7, 3⟩ = .ok false := by decide
example : In16 ⟨5, 8, 6, 3⟩ := by decide

end Ntcip
