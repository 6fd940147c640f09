import Verif.Lemmas.Safe
import Verif.Props.Panic
import Verif.Props.Layout
/-
C44: rendering does not panic.
-/
namespace Ntcip
open Spec Tests

/-- A message which a sign can be asked to render: no tag on which the parser panics, rectangles whose
edges are 16-bit numbers, no supported tag without implementation -/
structure Spec.MessageOk (d : Dms) (ms : Str) : Prop where
  parses : ¬ HasPanicTag ms
  fits : ∀ v ∈ validValues ms, ValueFits v
  implemented : ∀ v ∈ validValues ms, Supportable d v
  /-- text in the vertical middle needs fonts which fill character cells -/
  middle : SignCells d ∨ (d.multiCfg.defaultJustificationPage ≠ .middle ∧
      .justificationPage (some .middle) ∉ validValues ms)

/-- All sums of widths and of heights are 16-bit numbers, and line and span numbers bytes: there is a bound
`M` for glyph widths, font heights and spacings, and the message is short. -/
def Spec.SizesOk (d : Dms) (ms : Str) : Prop :=
  ms.length ≤ 255 ∧ ∃ M, 99 ≤ M ∧ 2 * M * ms.length < 65536 ∧
    ∀ f ∈ d.fontDefinition, f.number.toNat ≠ 0 → FontSmall M f

/-- any fonts for up to 128 code points -/
theorem sizesOk_short (d : Dms) (ms : Str) (h : ms.length ≤ 128) : SizesOk d ms := by
  refine ⟨by omega, 255, by omega, by omega, fun f _ _ => ⟨?_, ?_, ?_, fun c _ => ?_⟩⟩
  · have := f.height.toNat_lt; omega
  · have := f.charSpacing.toNat_lt; omega
  · have := f.lineSpacing.toNat_lt; omega
  · have := c.width.toNat_lt; omega

theorem mem_valid {ms t : Str} {v : Value} (ht : t ∈ slices ms) (hv : tryFrom t = .ok (.ok v)) :
    v ∈ validValues ms := by
  unfold validValues
  rw [List.mem_filterMap]
  exact ⟨t, ht, validOf_eq_some.2 hv⟩

theorem pagesSafe_new {d : Dms} {ms : Str} {M : Nat} (hm : MessageOk d ms)
    (h99 : 99 ≤ M) (hf : ∀ f ∈ d.fontDefinition, f.number.toNat ≠ 0 → FontSmall M f)
    (hs : 2 * M * ms.length < 65536) (hl : ms.length ≤ 255) : PagesSafe M d (Pages.new d ms) := by
  have e : (Pages.new d ms).values.flatten = ms := slices_flatten ms
  refine ⟨pagesOk_new d ms, fun t ht => ⟨slices_items ms t ht, ?_, fun v hv => hm.fits v (mem_valid ht hv)⟩, h99,
    hf, by rw [e]; exact hs, by rw [e]; exact hl, ?_⟩
  · cases h : tryFrom t with
    | ok x => exact ⟨x, rfl⟩
    | panic p => exact absurd ((hasPanicTag_iff ms).2 ⟨t, ht, p, h⟩) hm.parses
  · rcases hm.middle with h | ⟨h1, h2⟩
    · exact .inl h
    · exact .inr ⟨⟨h1, fun t ht h => h2 (mem_valid ht h)⟩, h1⟩

/-- **C44** A sign with valid tables, of less than 65535 pixels in each direction, with a default font number
from 1 on and supported default justifications, renders messages without panic: any number of calls of
`Pages::next` give pages or errors.  The conditions on the message are those of `MessageOk` and `SizesOk`.
The full claim has none of them; `C44_false` has a panic for each. -/
theorem C44_no_panic_partial (d : Dms) (hd : SignOk d) (ms : Str) (hm : MessageOk d ms) (hs : SizesOk d ms)
    (n : Nat) : ∃ pages pg, Pages.run d n (Pages.new d ms) = .ok (pages, pg) := by
  obtain ⟨hl, M, h99, h2, hf⟩ := hs
  obtain ⟨⟨xs, pg⟩, h⟩ := run_some hd n (Pages.new d ms) (pagesSafe_new hm h99 hf h2 hl)
    (fun t ht v hv => hm.implemented v (mem_valid ht hv))
  exact ⟨xs, pg, h⟩

/-- **C44 (built signs)** the same for a sign made by the builder, where fonts and graphics need no condition,
and messages of at most 128 ASCII characters. -/
theorem C44_built_partial (p : Profile) (b : DmsBuilder) (d : Dms) (h : b.build p = .ok d)
    (hw : d.vmsCfg.signWidthPixels.toNat < 65535) (hh : d.vmsCfg.signHeightPixels.toNat < 65535)
    (hf : 1 ≤ d.multiCfg.defaultFont.toNat)
    (hjp : d.multiCfg.defaultJustificationPage ≠ .other)
    (hjl : d.multiCfg.defaultJustificationLine ≠ .other ∧ d.multiCfg.defaultJustificationLine ≠ .full)
    (ms : Str) (ha : ∀ c ∈ ms, c.toNat < 128) (hl : ms.length ≤ 128)
    (hfit : ∀ v ∈ validValues ms, ValueFits v) (himp : ∀ v ∈ validValues ms, Supportable d v)
    (hmid : SignCells d ∨ (d.multiCfg.defaultJustificationPage ≠ .middle ∧
      .justificationPage (some .middle) ∉ validValues ms)) (n : Nat) :
    ∃ pages pg, Pages.run d n (Pages.new d ms) = .ok (pages, pg) := by
  have hv := C22_built_sign_valid p b d h
  refine C44_no_panic_partial d ⟨hw, hh, hf, hjp, hjl, ?_, ?_⟩ ms ⟨C03_ascii ms ha, hfit, himp, hmid⟩
    (sizesOk_short d ms hl) n
  · exact hv.2.2.2.2.1.fonts
  · exact hv.2.2.2.2.2.1.graphics

/-- a message with tags of many kinds, each of which `C44` admits on the sign of the crate's test -/
def mixedMessage : Str := c!"[jp3]A[nl3][jl4]BC[fo5][hc41][np][tr10,4,30,20][cf255,0,0]D [[x]][/ms][cr1,1,60,30,0,0,9]E[fl]"

theorem fullDms_built : fullDms.intoBuilder.build .checked = .ok fullDms := by
  with_unfolding_all rfl

instance (r : Rectangle) : Decidable (RectFits r) := by unfold RectFits; infer_instance

instance (v : Value) : Decidable (ValueFits v) := by
  cases v <;> simp only [ValueFits] <;> infer_instance

instance (d : Dms) (v : Value) : Decidable (Supportable d v) :=
  decidable_of_iff (unimplemented v = true → (v.tag.any fun t => !d.multiCfg.supportedMultiTags t) = true) (by
    simp [Supportable, Option.any_eq_true])

/-- C44 is not vacuous: a sign of the builder and a message with text, rectangles, errors and an unsupported
tag -/
example (n : Nat) : ∃ pages pg, Pages.run fullDms n (Pages.new fullDms mixedMessage) = .ok (pages, pg) := by
  refine C44_built_partial .checked _ fullDms fullDms_built (by decide +kernel) (by decide +kernel)
    (by decide +kernel) (by decide) ⟨by decide, by decide⟩ _ (by decide +kernel) (by decide +kernel)
    (by decide +kernel) ?_ (.inl (.inl (by decide +kernel))) n
  decide +kernel

/-- does rendering of a message panic within three pages? -/
def renderPanics (d : Dms) (ms : Str) : Bool := !(Pages.run d 3 (Pages.new d ms)).isOk

/-- can the sign be built? -/
def isBuilt (d : Dms) : Bool := d.intoBuilder.build .checked matches .ok _

/-- signs with other default justifications -/
def justDms (jp : JustificationPage) (jl : JustificationLine) : Dms := { fullDms with
  multiCfg := { fullDms.multiCfg with defaultJustificationLine := jl, defaultJustificationPage := jp } }

/-- a sign which supports every tag -/
def allTagsDms : Dms := { fullDms with multiCfg := { fullDms.multiCfg with supportedMultiTags := fun _ => true } }

/-- a sign with an 1 pixel high font with a glyph and a spacing of 255 pixels -/
def wideFontDms : Dms := { fullDms with
  fontDefinition := [⟨8, [], 1, 255, 1, [⟨65, 255, List.replicate 32 0⟩]⟩] }

/-- a sign of 65535 × 30 pixels -/
def hugeDms : Dms := { fullDms with
  signCfg := { fullDms.signCfg with signWidth := 65535, horizontalBorder := 0 },
  vmsCfg := { fullDms.vmsCfg with signWidthPixels := 65535, horizontalPitch := 1 } }

/-- **C44 fails**: signs which pass validation and messages on which rendering panics. -/
theorem C44_false :
    -- the parser
    (isBuilt fullDms = true ∧ renderPanics fullDms c!"[mvé]" = true) ∧
    -- `[f0]` has no tag, so it is not an unsupported one; other tags without implementation
    renderPanics fullDms c!"[f0]" = true ∧
    (isBuilt allTagsDms = true ∧ renderPanics allTagsDms c!"[fl]" = true ∧ renderPanics allTagsDms c!"[/fl]" = true ∧
      renderPanics allTagsDms c!"[f1]" = true ∧ renderPanics allTagsDms c!"[ms1]" = true ∧
      renderPanics allTagsDms c!"[/ms1]" = true ∧ renderPanics allTagsDms c!"[mvcl100,1,1,A]" = true) ∧
    -- default justifications
    (isBuilt (justDms .other .left) = true ∧ renderPanics (justDms .other .left) c!"A" = true) ∧
    (isBuilt (justDms .top .other) = true ∧ renderPanics (justDms .top .other) c!"A" = true) ∧
    (isBuilt (justDms .top .full) = true ∧ renderPanics (justDms .top .full) c!"A" = true) ∧
    -- rectangles
    (renderPanics fullDms c!"[tr65535,1,1,1]" = true ∧ renderPanics fullDms c!"[cr1,65535,1,1,255,0,0]" = true) ∧
    (isBuilt hugeDms = true ∧ renderPanics hugeDms c!"[tr1,1,1,1]" = true) ∧
    -- text in the middle
    (isBuilt tallCellDms = true ∧ renderPanics tallCellDms c!"[tr1,1,100,10][jp3]A" = true) ∧
    -- default font 0
    (isBuilt badFontDms = true ∧ renderPanics badFontDms c!"[jp4]A" = true) ∧
    -- line and span numbers
    renderPanics fullDms (List.replicate 256 c!"[nl]").flatten = true ∧
    renderPanics fullDms (List.replicate 256 c!"[[").flatten = true ∧
    -- widths
    (isBuilt wideFontDms = true ∧ renderPanics wideFontDms (List.replicate 130 'A') = true) := by
  decide +kernel

end Ntcip
