import Verif.Lemmas.Lines
import Verif.Spec.Rects
import Verif.Props.Tables
import Verif.Tests.Pattern
/-
C26: number of fillable lines of a rectangle.
-/
namespace Ntcip
open Spec Tests

/-- What the number of lines of a rectangle of height `H` must be: largest number of lines that fit;
none without the font, or when the font is taller than the character cell. -/
def Spec.RectLines (d : Dms) (fnum : UInt8) (H n : Nat) : Prop :=
  match FontTable.font d.fontDefinition fnum with
  | none => n = 0
  | some f =>
    if d.vmsCfg.charHeightPixels.toNat = 0 then MaxLines f.height.toNat f.lineSpacing.toNat H n
    else if d.vmsCfg.charHeightPixels.toNat < f.height.toNat then n = 0
    else MaxLines d.vmsCfg.charHeightPixels.toNat 0 H n

theorem rectLines_spec (d : Dms) (rect : Rectangle) (fnum : UInt8)
    (hf : ∀ f, FontTable.font d.fontDefinition fnum = some f → d.vmsCfg.charHeightPixels = 0 →
      1 ≤ f.height.toNat + f.lineSpacing.toNat) :
    ∃ n, d.rectLines rect fnum = .ok n ∧ Spec.RectLines d fnum rect.height.toNat n := by
  unfold Dms.rectLines Spec.RectLines Dms.charHeight
  cases h : FontTable.font d.fontDefinition fnum with
  | none => simp
  | some f =>
    have e0 : d.vmsCfg.charHeightPixels = 0 ↔ d.vmsCfg.charHeightPixels.toNat = 0 := by
      rw [← UInt8.toNat_inj]; rfl
    have e1 : f.height > d.vmsCfg.charHeightPixels ↔ d.vmsCfg.charHeightPixels.toNat < f.height.toNat := by
      rw [gt_iff_lt, UInt8.lt_iff_toNat_lt]
    simp only [e0, e1]
    split
    · rename_i hc
      exact rectLinesLoop_max _ _ _ _ _
        (hf f h (by rw [← UInt8.toNat_inj]; simpa using hc)) (by simp [LinesFit]) (by omega)
    · split
      · exact ⟨0, rfl, rfl⟩
      · exact rectLinesLoop_max _ _ _ _ _ (by omega)
          (by simp [LinesFit]) (by omega)

/-- **C26** for every built sign, rectangle and positive font number the computation ends with the
largest number of lines that fit.  Missing for the full claim: font number 0, which finds an unused
slot of the font table (`C26_false`). -/
theorem C26_rect_lines_partial (p : Profile) (b : DmsBuilder) (d : Dms) (hb : b.build p = .ok d)
    (rect : Rectangle) (fnum : UInt8) (h0 : fnum ≠ 0) :
    ∃ n, d.rectLines rect fnum = .ok n ∧ Spec.RectLines d fnum rect.height.toNat n := by
  apply rectLines_spec
  intro f hf _
  have hu := (C22_built_sign_valid p b d hb).2.2.2.2.1
  have hn : f.number = fnum := by simpa using List.find?_some hf
  have hm := List.mem_of_find?_eq_some hf
  have := (hu.fonts f hm (by rw [hn]; simpa [← UInt8.toNat_inj] using h0)).height
  omega

/-- **C26 (when it does not end)** exactly on signs without character cells, for a font whose height and line spacing are
both 0: then no number of rounds is enough. -/
theorem C26_endless_iff (d : Dms) (rect : Rectangle) (fnum : UInt8) :
    (∀ n, d.rectLines rect fnum ≠ .ok n) ↔
      d.vmsCfg.charHeightPixels.toNat = 0 ∧ ∃ f, FontTable.font d.fontDefinition fnum = some f ∧
        f.height.toNat = 0 ∧ f.lineSpacing.toNat = 0 := by
  constructor
  · intro h
    apply Classical.byContradiction
    intro hc
    obtain ⟨n, hn, _⟩ := rectLines_spec d rect fnum (by
      intro f hf h0
      apply Classical.byContradiction
      intro hz
      exact hc ⟨by rw [h0]; rfl, f, hf, by omega, by omega⟩)
    exact h n hn
  · rintro ⟨h0, f, hf, h1, h2⟩ n
    have e0 : d.charHeight = 0 := by
      unfold Dms.charHeight
      rw [← UInt8.toNat_inj]; exact h0
    unfold Dms.rectLines
    rw [hf]
    simp only [e0, if_true, h1, h2, rectLinesLoop_diverge]
    simp

/-- the result is determined: no other number satisfies the specification -/
theorem C26_spec_unique (d : Dms) (fnum : UInt8) (H n m : Nat)
    (hn : Spec.RectLines d fnum H n) (hm : Spec.RectLines d fnum H m) : n = m := by
  unfold Spec.RectLines at hn hm
  split at hn <;> simp_all only []
  split at hn <;> simp_all only [if_true, if_false]
  · exact maxLines_unique hn hm
  · split at hn <;> simp_all only [if_true, if_false]
    exact maxLines_unique hn hm

/-- a sign with default font number 0 and an empty font slot: a configuration `build` accepts -/
def zeroFontBuilder : DmsBuilder :=
  ((DmsBuilder.default 1 1 0).withVmsCfg
      { VmsCfg.default with charHeightPixels := 0, charWidthPixels := 0 }).withMultiCfg
    { MultiCfg.default with defaultFont := 0 }

/-- **C26 is false**: that sign is accepted, and counting the lines of its full rectangle (done by
`MessagePattern::widths` for any pattern) never ends, whatever number of rounds is allowed. -/
theorem C26_false : ∃ d, zeroFontBuilder.build .checked = .ok d ∧
    d.rectLines (signRect d) d.multiCfg.defaultFont = .panic .diverge ∧
    (∀ f, FontTable.font d.fontDefinition d.multiCfg.defaultFont = some f →
      ∀ fuel, Dms.rectLinesLoop f.height.toNat f.lineSpacing.toNat (signRect d).height.toNat fuel 0 =
        .panic .diverge) := by
  refine ⟨_, rfl, by decide +kernel, ?_⟩
  intro f hf fuel
  have e1 : f.height.toNat = 0 := by
    have : f = Font.default 1 := by
      have e : FontTable.font [Font.default 1] 0 = some (Font.default 1) := by decide +kernel
      exact Option.some.inj (hf.symm.trans e)
    rw [this]; rfl
  have e2 : f.lineSpacing.toNat = 0 := by
    have : f = Font.default 1 := by
      have e : FontTable.font [Font.default 1] 0 = some (Font.default 1) := by decide +kernel
      exact Option.some.inj (hf.symm.trans e)
    rw [this]; rfl
  rw [e1, e2]; exact rectLinesLoop_diverge _ _ _

-- 3 lines of 7-pixel text with 2 pixels between on a 28 pixel high rectangle
example : patDms.rectLines ⟨1, 1, 50, 28⟩ 7 = .ok 3 := by decide +kernel
example : Spec.MaxLines 7 2 25 3 := ⟨by simp [LinesFit], fun m hm => by
  unfold LinesFit at hm; omega⟩

end Ntcip
