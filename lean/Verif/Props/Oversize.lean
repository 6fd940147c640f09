import Verif.Props.Place
import Verif.Props.Version
import Verif.Props.Render
/-
Property C45: text that is drawn fits, whatever the spans; witnesses against the full claim.
-/
namespace Ntcip
open Spec Tests

theorem spanX_fits {d spans s x} (h : spanX d spans s = .ok x) :
    FitsWidth d spans s.state.textRectangle.width.toNat s := by
  have key : ∃ p, offsetHoriz d spans s = .ok p := by
    unfold spanX at h
    split at h
    · unfold spanXLeft at h
      simp only [Out.bind_eq_ok] at h
      obtain ⟨_, _, p, hp, _⟩ := h; exact ⟨p, hp⟩
    · unfold spanXCenter at h
      simp only [Out.bind_eq_ok] at h
      obtain ⟨_, _, p, hp, _⟩ := h; exact ⟨p, hp⟩
    · unfold spanXRight at h
      simp only [Out.bind_eq_ok] at h
      obtain ⟨_, _, p, hp, _⟩ := h; exact ⟨p, hp⟩
    · simp at h
  obtain ⟨⟨b, a⟩, hp⟩ := key
  obtain ⟨h1, h2⟩ := offsetHoriz_ok hp
  exact ⟨b + a, hsum_lineWidth h1, h2⟩

theorem spanY_fits {d spans s y n} (h : spanY d spans s = .ok y) (hs : s ∈ spans)
    (hd : Dense 0 (samePage spans s) n) :
    linesHeight (decide (d.vmsCfg.charHeightPixels = 0)) d.fontDefinition (samePage spans s) (n - 1) ≤
      s.state.textRectangle.height.toNat := by
  have key : ∃ p, offsetVert d spans s = .ok p := by
    unfold spanY at h
    simp only [Out.bind_eq_ok] at h
    obtain ⟨b, h, -⟩ := h
    unfold baseline at h
    split at h
    · unfold baselineTop at h
      simp only [Out.bind_eq_ok] at h
      obtain ⟨_, _, p, hp, _⟩ := h; exact ⟨p, hp⟩
    · unfold baselineMiddle at h
      simp only [Out.bind_eq_ok] at h
      obtain ⟨_, _, p, hp, _⟩ := h; exact ⟨p, hp⟩
    · unfold baselineBottom at h
      simp only [Out.bind_eq_ok] at h
      obtain ⟨_, _, p, hp, _⟩ := h; exact ⟨p, hp⟩
    · simp at h
  obtain ⟨⟨a, b⟩, hp⟩ := key
  obtain ⟨-, h2, h3⟩ := offsetVert_lines hd hs hp
  omega

/-- **C45 (drawn)** text that is drawn fits, for every sign and every list of spans: each line is at most as wide as the
text rectangle, and the lines of each page justification (numbered without gaps) are at most as high. -/
theorem C45_drawn (d : Dms) (spans : List Span) (page page' : Raster)
    (h : renderTextSpans d spans page = .ok page') :
    ∀ s ∈ spans, FitsWidth d spans s.state.textRectangle.width.toNat s ∧
      ∀ n, Dense 0 (samePage spans s) n →
        linesHeight (decide (d.vmsCfg.charHeightPixels = 0)) d.fontDefinition (samePage spans s) (n - 1) ≤
          s.state.textRectangle.height.toNat := by
  unfold renderTextSpans at h
  split at h
  · simp at h
  have key : ∀ ss page, (∀ s ∈ ss, s ∈ spans) → renderSpansLoop d spans ss page = .ok page' →
      ∀ s ∈ ss, (∃ x, spanX d spans s = .ok x) ∧ ∃ y, spanY d spans s = .ok y := by
    intro ss
    induction ss with
    | nil => simp
    | cons s ss ih =>
      intro page hsub h
      simp only [renderSpansLoop, Out.bind_eq_ok] at h
      obtain ⟨x, hx, y, hy, f, _, r1, _, h2⟩ := h
      intro u hu
      rcases List.mem_cons.1 hu with rfl | hu
      · exact ⟨⟨x, hx⟩, y, hy⟩
      · exact ih r1 (fun s hs => hsub s (List.mem_cons_of_mem _ hs)) h2 u hu
  intro s hs
  obtain ⟨⟨x, hx⟩, y, hy⟩ := key spans page (fun _ h => h) h s hs
  exact ⟨spanX_fits hx, fun n hd => spanY_fits hy hs hd⟩

-- the hypothesis of C45_drawn
example : ∃ page', renderTextSpans fullDms demoSpans (.withColor 60 30 (0, 0, 0)) = .ok page' := by
  have : (match renderTextSpans fullDms demoSpans (.withColor 60 30 (0, 0, 0)) with
    | .ok _ => true | _ => false) = true := by decide +kernel
  split at this
  · exact ⟨_, by assumption⟩
  · simp at this

/-- **C45** the full claim is false.  A line that follows a change of the page justification and an `[nl]` tag is counted
twice if it is of two texts: it fits as one text, but is too big as two of the same size.  A line of 65536 pixels or more
is a panic. -/
theorem C45_false :
    pageCount (render fullDms c!"[tr1,1,60,10]A[jp4][nl]BC") = some 1 ∧
    isTooBig (render fullDms c!"[tr1,1,60,10]A[jp4][nl]B[cf]C") = true ∧
    pageCount (render fullDms c!"[tr1,1,60,10]A[jp4]B[cf]C") = some 1 ∧
    renderPanics wideFontDms (List.replicate 130 'A') = true := by decide +kernel

end Ntcip
