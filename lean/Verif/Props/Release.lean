import Verif.Lemmas.Release
import Verif.Spec.Release
import Verif.Props.Render
import Verif.Props.Layout
import Verif.Props.Pages
import Verif.Props.Pattern
import Verif.Props.Accept
import Verif.Props.Same
/-
Release builds.
-/
namespace Ntcip
open Spec Tests

/-! ### C82 release builds -/

theorem releaseSteps_of {d : Dms} {pg pg' : Pages} {xs} (h : Steps d pg xs pg') : ReleaseSteps d pg xs pg' := by
  induction h with
  | nil => exact .nil
  | cons h _ ih => exact .cons ((Release.next_le d _).eq h) ih

/-- **C82** A release build shows the pages that a build with overflow checks shows, and gives the same errors.
The full claim has no condition; missing are messages for which a build with overflow checks panics. -/
theorem C82_same_partial (d : Dms) (ms : Str) (xs) (h : Yields d ms xs) : ReleaseYields d ms xs := by
  obtain ⟨pg', hs, he⟩ := h
  exact ⟨pg', releaseSteps_of hs, (Release.next_le d pg').eq he⟩

theorem releaseSteps_unique {d : Dms} {pg pg' pg'' : Pages} {xs ys} (h : ReleaseSteps d pg xs pg')
    (he : Release.next d pg' = .ok (none, pg')) (h' : ReleaseSteps d pg ys pg'')
    (he' : Release.next d pg'' = .ok (none, pg'')) : xs = ys := by
  induction h generalizing ys with
  | nil =>
    cases h' with
    | nil => rfl
    | cons k _ => rw [he] at k; cases k
  | cons k _ ih =>
    cases h' with
    | nil => rw [he'] at k; cases k
    | cons k' h' =>
      rw [k] at k'
      cases k'
      rw [ih he h']

/-- **C82 (only those)** and no other ones: for a message for which builds with overflow checks end without panic,
both builds show the same. -/
theorem C82_iff_partial (d : Dms) (ms : Str) (h : ∃ xs, Yields d ms xs) (ys) : ReleaseYields d ms ys ↔ Yields d ms ys := by
  refine ⟨fun hy => ?_, C82_same_partial d ms ys⟩
  obtain ⟨xs, hx⟩ := h
  obtain ⟨_, h1, h2⟩ := hy
  obtain ⟨_, h3, h4⟩ := C82_same_partial d ms xs hx
  obtain rfl := releaseSteps_unique h1 h2 h3 h4
  exact hx

/-- **C82 (calls)** any number of calls of `Pages::next`, for the signs and messages of C44 -/
theorem C82_no_panic_partial (d : Dms) (hd : SignOk d) (ms : Str) (hm : MessageOk d ms) (hs : SizesOk d ms)
    (n : Nat) : ∃ pages pg, Pages.run d n (Pages.new d ms) = .ok (pages, pg) ∧
      Release.run d n (Pages.new d ms) = .ok (pages, pg) := by
  obtain ⟨pages, pg, h⟩ := C44_no_panic_partial d hd ms hm hs n
  exact ⟨pages, pg, h, (Release.run_le d n _).eq h⟩

/-- **C82 (panics)** a release build panics only for messages for which a build with overflow checks does -/
theorem C82_panics (d : Dms) (ms : Str) (n : Nat) (p) (h : Release.run d n (Pages.new d ms) = .panic p) :
    ∃ p', Pages.run d n (Pages.new d ms) = .panic p' := by
  cases hr : Pages.run d n (Pages.new d ms) with
  | panic p' => exact ⟨p', rfl⟩
  | ok x => rw [(Release.run_le d n _).eq hr] at h; cases h

/-- **C82 (widths)** and the same for `MessagePattern::widths` -/
theorem C82_widths_partial (d : Dms) (pat : Str) (ws) (h : widths d pat = .ok ws) : Release.widths d pat = .ok ws :=
  (Release.widthsLoop_le d _ _).eq h

/-! ### rectangles -/

theorem addU16_wrap (a b : UInt16) : addU16 .wrapping a b = .ok (a + b) := by
  unfold addU16; split <;> rfl

theorem intersection_wrap_ne {r full : Rectangle} (h : 65536 ≤ r.x.toNat + r.width.toNat ∨ 65536 ≤ r.y.toNat + r.height.toNat)
    {i : Rectangle} (hi : r.intersection .wrapping full = .ok i) : i ≠ r := by
  unfold Rectangle.intersection at hi
  simp only [addU16_wrap, Res.ok_bind] at hi
  have a1 := r.x.toNat_lt
  have a2 := r.y.toNat_lt
  have a3 := r.width.toNat_lt
  have a4 := r.height.toNat_lt
  split at hi
  · rename_i hc
    exfalso
    obtain ⟨h1, h2⟩ := hc
    simp only [u16_gt, u16_max, u16_min, UInt16.toNat_add] at h1 h2
    omega
  · cases hi
    rintro rfl
    have : Rectangle.default.width.toNat = 0 := rfl
    have : Rectangle.default.height.toNat = 0 := rfl
    omega

/-- **C82 (text rectangles)** In release builds a `[tr]` tag is accepted exactly when its rectangle is not empty, inside of
the sign and aligned to the character cells; then it is the new text rectangle.  Also when its edges overflow `u16`, for
which builds with overflow checks panic (`C48_overflow`). -/
theorem C82_text_rectangles (d : Dms) (po : Bool) (st : Rtr) (r : Rectangle)
    (hW : d.vmsCfg.signWidthPixels.toNat < 65535) (hH : d.vmsCfg.signHeightPixels.toNat < 65535)
    (hd : ¬ (d.vmsCfg.signWidthPixels.toNat = 0 ∧ d.vmsCfg.signHeightPixels.toNat = 0)) :
    (TextRect d d.vmsCfg.signWidthPixels.toNat d.vmsCfg.signHeightPixels.toNat r →
      ∃ r', Release.rtrStep d (RenderState.new d) po st (.textRectangle r) =
          .ok (.brk, { st with pageState := .on false, rs := { st.rs with textRectangle := r', lineNumber := 0,
                                                                          spanNumber := 0 } }) ∧
        r'.x = r.x ∧ r'.y = r.y ∧ r'.width.toNat = extWidth r d.vmsCfg.signWidthPixels.toNat ∧
        r'.height.toNat = extHeight r d.vmsCfg.signHeightPixels.toNat) ∧
    (¬ TextRect d d.vmsCfg.signWidthPixels.toNat d.vmsCfg.signHeightPixels.toNat r →
      ∃ st', Release.rtrStep d (RenderState.new d) po st (.textRectangle r) =
        .ok (.fail (.unsupportedTagValue (Value.textRectangle r).display), st')) := by
  by_cases ho : r.x.toNat + extWidth r d.vmsCfg.signWidthPixels.toNat < 65536 ∧
      r.y.toNat + extHeight r d.vmsCfg.signHeightPixels.toNat < 65536
  · obtain ⟨h1, h2⟩ := C48_accepted_partial d po st r hW hH hd ho.1 ho.2
    refine ⟨fun h => ?_, fun h => ?_⟩
    · obtain ⟨r', h3, h4⟩ := h1 h
      exact ⟨r', (Release.rtrStep_le ..).eq h3, h4⟩
    · obtain ⟨st', h3⟩ := h2 h
      exact ⟨st', (Release.rtrStep_le ..).eq h3⟩
  · refine ⟨fun h => ?_, fun _ => ?_⟩
    · have := h.right; have := h.bottom
      omega
    · have e1 := extend_width r ⟨1, 1, d.vmsCfg.signWidthPixels, d.vmsCfg.signHeightPixels⟩
      have e2 := extend_height r ⟨1, 1, d.vmsCfg.signWidthPixels, d.vmsCfg.signHeightPixels⟩
      have e3 := extend_x r ⟨1, 1, d.vmsCfg.signWidthPixels, d.vmsCfg.signHeightPixels⟩
      have e4 := extend_y r ⟨1, 1, d.vmsCfg.signWidthPixels, d.vmsCfg.signHeightPixels⟩
      unfold Release.rtrStep
      show ∃ st', (Release.updateTextRectangle d ⟨1, 1, d.vmsCfg.signWidthPixels, d.vmsCfg.signHeightPixels⟩ r >>= _) = _
      unfold Release.updateTextRectangle
      dsimp only
      generalize r.extendWidthHeight ⟨1, 1, d.vmsCfg.signWidthPixels, d.vmsCfg.signHeightPixels⟩ = q at *
      dsimp only at e1 e2
      obtain ⟨i, hi⟩ : ∃ i, q.intersection .wrapping ⟨1, 1, d.vmsCfg.signWidthPixels, d.vmsCfg.signHeightPixels⟩ = .ok i := by
        unfold Rectangle.intersection
        simp only [addU16_wrap, Res.ok_bind]
        split <;> exact ⟨_, rfl⟩
      have hne := intersection_wrap_ne (by rw [e1, e2, e3, e4]; omega) hi
      rw [hi]
      simp only [Res.ok_bind, ne_eq, hne, not_false_eq_true, if_true, Res.pure_eq]
      exact ⟨_, rfl⟩

/-- **C82 (color rectangles)** In release builds a color rectangle inside of the page paints exactly its pixels; all others
are rejected. -/
theorem C82_color_rectangles (page : Raster) (r : Rectangle) (clr : Rgb) (v : Value)
    (hW : page.width < 65535) (hH : page.height < 65535) (hd : ¬ (page.width = 0 ∧ page.height = 0))
    (hx0 : r.x ≠ 0) (hy0 : r.y ≠ 0) :
    (InsideRect page.width page.height r → ∃ page', Release.renderRect page r clr v = .ok page' ∧
      page'.width = page.width ∧ page'.height = page.height ∧
      ∀ i j, (PixelIn page.width page.height r i j → page'.px i j = clr) ∧
        (¬ PixelIn page.width page.height r i j → page'.px i j = page.px i j)) ∧
    (¬ InsideRect page.width page.height r →
      Release.renderRect page r clr v = .err (.unsupportedTagValue v.display)) := by
  by_cases ho : r.x.toNat + extWidth r page.width < 65536 ∧ r.y.toNat + extHeight r page.height < 65536
  · obtain ⟨h1, h2⟩ := C49_fill_partial page r clr v hW hH hd hx0 hy0 ho.1 ho.2
    have le := Release.renderRect_le page r clr v
    refine ⟨fun h => ?_, fun h => ?_⟩
    · obtain ⟨p', h3, h4⟩ := h1 h
      exact ⟨p', le.okEq h3, h4⟩
    · exact le.errEq (h2 h)
  · refine ⟨fun h => ?_, fun _ => ?_⟩
    · have := h.right; have := h.bottom
      omega
    · have eW : (UInt16.ofNat page.width).toNat = page.width := by
        rw [UInt16.toNat_ofNat']; omega
      have eH : (UInt16.ofNat page.height).toNat = page.height := by
        rw [UInt16.toNat_ofNat']; omega
      have e1 := extend_width r ⟨1, 1, .ofNat page.width, .ofNat page.height⟩
      have e2 := extend_height r ⟨1, 1, .ofNat page.width, .ofNat page.height⟩
      have e3 := extend_x r ⟨1, 1, .ofNat page.width, .ofNat page.height⟩
      have e4 := extend_y r ⟨1, 1, .ofNat page.width, .ofNat page.height⟩
      unfold Release.renderRect
      rw [if_neg (by omega)]
      dsimp only
      dsimp only at e1 e2
      generalize r.extendWidthHeight ⟨1, 1, .ofNat page.width, .ofNat page.height⟩ = q at *
      obtain ⟨i, hi⟩ : ∃ i, q.intersection .wrapping ⟨1, 1, .ofNat page.width, .ofNat page.height⟩ = .ok i := by
        unfold Rectangle.intersection
        simp only [addU16_wrap, Res.ok_bind]
        split <;> exact ⟨_, rfl⟩
      have hne := intersection_wrap_ne (by rw [e1, e2, e3, e4, eW, eH]; omega) hi
      rw [hi]
      simp only [Out.ofRes_ok, Out.ok_bind, hne, if_false]

/-! ### a message for which release builds go wrong -/

/-- a sign of 60×30 pixels with the characters space, of 1 pixel, and `A`, which are to be 255 pixels apart -/
def Tests.blankDms : Dms := { fullDms with fontDefinition := [⟨8, c!"f", 2, 255, 1, [⟨32, 1, [0]⟩, ⟨65, 2, [0xF0]⟩]⟩] }

/-- 256 spaces and an `A` -/
def Tests.farMsg : Str := List.replicate 256 ' ' ++ c!"[fo8]A"

/-- a pixel of the first page in a release build -/
def Tests.releasePixel (d : Dms) (ms : Str) (x y : Nat) : Option Rgb :=
  match Release.next d (Pages.new d ms) with
  | .ok (some (.ok p), _) => some (p.raster.px x y)
  | _ => none

theorem releasePixel_some {d : Dms} {ms : Str} {x y : Nat} {c : Rgb} (h : releasePixel d ms x y = some c) :
    ∃ p pg, Release.next d (Pages.new d ms) = .ok (some (.ok p), pg) ∧ p.raster.px x y = c := by
  unfold releasePixel at h
  split at h
  · exact ⟨_, _, ‹_›, Option.some.inj h⟩
  · cases h

/-- **C82 fails** in release builds: a message with a text that is much wider than the sign is shown without error, with its
`A` in the upper left corner, since the sum of the widths wraps around to 2.  Builds with overflow checks panic; a valid
sign, and no unsupported tag.  By C45 it should be rejected as too big. -/
theorem C82_false : AcceptOk blankDms ∧ blankDms.vmsCfg.signWidthPixels = 60 ∧
    (∃ f t, blankDms.fontDefinition = [f] ∧ .text t ∈ validValues farMsg ∧ f.textWidth t none = .ok 65281) ∧
    Pages.next blankDms (Pages.new blankDms farMsg) = .panic .overflow ∧
    ∃ p pg, Release.next blankDms (Pages.new blankDms farMsg) = .ok (some (.ok p), pg) ∧
      p.raster.px 0 0 = (255, 255, 255) := by
  refine ⟨?_, rfl, ⟨_, List.replicate 256 ' ', rfl, by decide +kernel, by decide +kernel⟩, ?_,
    releasePixel_some (by decide +kernel)⟩
  · exact {
      width := by decide
      height := by decide
      size := by decide
      graphics := (C21_accepts_iff _ 60 30).mp (by decide +kernel)
      font := by decide
      justPage := by decide
      justLine := by decide
      fonts := (C20_accepts_iff _).mp (by decide +kernel) }
  · have : (match Pages.next blankDms (Pages.new blankDms farMsg) with | .panic p => decide (p = .overflow) | _ => false)
      = true := by decide +kernel
    split at this
    · rename_i h; rw [h]; exact congrArg _ (of_decide_eq_true this)
    · cases this

-- with fewer characters the sum does not wrap around: too big in both builds
example : (match Release.next blankDms (Pages.new blankDms c!" [fo8]A") with
    | .ok (some (.error e), _) => some e | _ => none) = some .textTooBig := by decide +kernel
-- rectangles beyond 16 bits are rejected, not a panic
example : (match Release.next fullDms (Pages.new fullDms c!"[tr65535,1,1,1]A") with
    | .ok (some (.error e), _) => some e | _ => none) = some (.unsupportedTagValue c!"[tr65535,1,1,1]") := by decide +kernel
-- `C82_same_partial` applies: both builds show two pages
example : ∃ xs, Yields fullDms c!"A[np]" xs ∧ ReleaseYields fullDms c!"A[np]" xs ∧ NoError xs := by
  obtain ⟨⟨_, xs, h, hn, _⟩, _⟩ := C71_false
  exact ⟨xs, h, C82_same_partial _ _ _ h, hn⟩
example : pageCount (render fullDms c!"A[np]") = some 2 := by decide +kernel

end Ntcip
