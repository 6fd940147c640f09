import Verif.Model.Sign
namespace Ntcip

/-- Independent statement: `n` lines of height `h` with spacing `s` between them fit in `H` -/
def Spec.LinesFit (h s H n : Nat) : Prop := n * h + (n - 1) * s ≤ H

/-- `n` is the largest number of lines that fit -/
def Spec.MaxLines (h s H n : Nat) : Prop :=
  Spec.LinesFit h s H n ∧ ∀ m, Spec.LinesFit h s H m → m ≤ n

theorem linesFit_mono {h s H n m : Nat} (hm : m ≤ n) (hn : Spec.LinesFit h s H n) :
    Spec.LinesFit h s H m := by
  unfold Spec.LinesFit at *
  have a : m * h ≤ n * h := Nat.mul_le_mul_right _ hm
  have b : (m - 1) * s ≤ (n - 1) * s := Nat.mul_le_mul_right _ (by omega)
  omega

theorem linesFit_le {h s H n : Nat} (hp : 1 ≤ h + s) (hn : Spec.LinesFit h s H n) : n ≤ H + 1 := by
  unfold Spec.LinesFit at hn
  have a : (n - 1) * h ≤ n * h := Nat.mul_le_mul_right _ (by omega)
  have b : (n - 1) * 1 ≤ (n - 1) * (h + s) := Nat.mul_le_mul_left _ hp
  rw [Nat.mul_add] at b
  omega

theorem rectLinesLoop_max (h s H fuel n : Nat) (hp : 1 ≤ h + s) (hn : Spec.LinesFit h s H n)
    (hf : H + 3 ≤ n + fuel) :
    ∃ m, Dms.rectLinesLoop h s H fuel n = .ok m ∧ Spec.MaxLines h s H m := by
  induction fuel generalizing n with
  | zero => have := linesFit_le hp hn; omega
  | succ fuel ih =>
    have e : Spec.LinesFit h s H (n + 1) ↔ h * (n + 1) + s * n ≤ H := by
      unfold Spec.LinesFit; rw [Nat.mul_comm, Nat.add_sub_cancel, Nat.mul_comm n s]
    rw [Dms.rectLinesLoop]
    split
    · rename_i hc
      exact ih (n + 1) (e.2 hc) (by omega)
    · rename_i hc
      refine ⟨n, rfl, hn, ?_⟩
      intro m hm
      apply Nat.le_of_not_lt
      intro hlt
      exact hc (e.1 (linesFit_mono hlt hm))

theorem rectLinesLoop_diverge (H fuel n : Nat) : Dms.rectLinesLoop 0 0 H fuel n = .panic .diverge := by
  induction fuel generalizing n with
  | zero => rfl
  | succ fuel ih => rw [Dms.rectLinesLoop]; simp [ih]

theorem maxLines_unique {h s H n m : Nat} (hn : Spec.MaxLines h s H n) (hm : Spec.MaxLines h s H m) :
    n = m := by
  have := hn.2 m hm.1
  have := hm.2 n hn.1
  omega

end Ntcip
