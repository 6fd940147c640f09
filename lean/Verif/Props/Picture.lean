import Verif.Lemmas.Picture
import Verif.Props.First
import Verif.Props.Asked
import Verif.Props.Blank
/-
Property C91: the values of a page determine its picture, whether they are in order or not.
-/
namespace Ntcip
open Spec Tests

theorem hasValue_graphic {ms : Str} {n : UInt8} {pos} (h : HasValue ms (.graphic n pos)) : n ≠ 0 := by
  obtain ⟨s, hs, hd⟩ := h
  have := C04_in_range _ _ (slices_items ms s hs) ((C84_item _ _).2 hd)
  simp only [InRange] at this
  rintro rfl
  simp at this

theorem page_unique {d : Dms} {ms : Str} {ss rest : List Str} {us vs : List Value} {b : Bool}
    (hu : UniqueNumbers (fun g : Graphic => g.number.toNat) d.graphicDefinition)
    (hc : Consumed (slices ms) ss us) (ht : TakePage ss vs rest b) {bg t sp rect a r r'}
    (h : Composed d bg t sp rect (sections vs).1 (sections vs).2 a r)
    (h' : Composed d bg t sp rect (sections vs).1 (sections vs).2 a r') : r = r' := by
  have hv := takePage_has hc ht
  obtain ⟨h1, h2⟩ := sections_all (P := fun v => ∀ pos, v ≠ .graphic 0 pos) (vs := vs)
    (fun v hm pos e => hasValue_graphic (e ▸ hv v hm) rfl)
  exact composed_unique hu h (fun pos hm => h1 _ hm pos rfl) (fun w hw pos hm => h2 w hw _ hm pos rfl) h'

/-- **C91** the picture of a page is the one described by its values: background, then for each text rectangle its color
rectangles and graphics and its texts, each at the place given by its line and number (`ExactX`, `ExactY`), whether the
tags are in order or not.  No other picture meets this description (`Composed`). -/
theorem C91_page (d : Dms) (hf : FontsOk d.fontDefinition) (h0 : 1 ≤ d.multiCfg.defaultFont.toNat) (W H : Nat)
    (hg : GraphicsOk W H d.graphicDefinition) (ms : Str) (xs pg page pg')
    (h : Steps d (Pages.new d ms) xs pg) (hn : NoError xs) (hon : isOn pg.pageState = true)
    (hx : Pages.next d pg = .ok (some (.ok page), pg')) :
    ∃ us vs b, Consumed (slices ms) pg.values us ∧ TakePage pg.values vs pg'.values b ∧
      let bg := background (signPage d).2 (signPage d).2 (us ++ vs)
      ∀ r : Raster, Composed d bg (us.foldl (TextAttr.apply (signAttr d)) (signAttr d)) none (signRect d)
        (sections vs).1 (sections vs).2
        (.withColor d.vmsCfg.signWidthPixels.toNat d.vmsCfg.signHeightPixels.toNat (backgroundRgb d bg)) r ↔
          r = page.raster := by
  obtain ⟨us, vs, b, h1, h2, h3⟩ := C66_page d hf h0 W H hg ms xs pg page pg' h hn hon hx
  refine ⟨us, vs, b, h1, h2, fun r => ⟨fun hr => ?_, fun hr => by rw [hr]; exact h3⟩⟩
  exact page_unique hg.numbers h1 h2 hr h3

/-- **C91** two pages, of any messages, with the same values, the same text attributes in effect before, and the same
background color show the same picture. -/
theorem C91_same (d : Dms) (hf : FontsOk d.fontDefinition) (h0 : 1 ≤ d.multiCfg.defaultFont.toNat) (W H : Nat)
    (hg : GraphicsOk W H d.graphicDefinition)
    (ms : Str) (xs pg page pg') (h : Steps d (Pages.new d ms) xs pg) (hn : NoError xs) (hon : isOn pg.pageState = true)
    (hx : Pages.next d pg = .ok (some (.ok page), pg'))
    (ns : Str) (ys qg qage qg') (k : Steps d (Pages.new d ns) ys qg) (kn : NoError ys) (kon : isOn qg.pageState = true)
    (kx : Pages.next d qg = .ok (some (.ok qage), qg'))
    (us us' vs : List Value) (b b' : Bool) (hc : Consumed (slices ms) pg.values us) (ht : TakePage pg.values vs pg'.values b)
    (kc : Consumed (slices ns) qg.values us') (kt : TakePage qg.values vs qg'.values b')
    (ha : us.foldl (TextAttr.apply (signAttr d)) (signAttr d) = us'.foldl (TextAttr.apply (signAttr d)) (signAttr d))
    (hb : background (signPage d).2 (signPage d).2 (us ++ vs) = background (signPage d).2 (signPage d).2 (us' ++ vs)) :
    page.raster = qage.raster := by
  obtain ⟨us1, vs1, b1, h1, h2, h3⟩ := C66_page d hf h0 W H hg ms xs pg page pg' h hn hon hx
  obtain ⟨us2, vs2, b2, k1, k2, k3⟩ := C66_page d hf h0 W H hg ns ys qg qage qg' k kn kon kx
  obtain rfl := consumed_unique h1 hc
  obtain rfl := consumed_unique k1 kc
  obtain ⟨rfl, _⟩ := takePage_unique h2 ht
  obtain ⟨rfl, _⟩ := takePage_unique k2 kt
  dsimp only at h3 k3
  rw [← ha, ← hb] at k3
  exact page_unique hg.numbers h1 h2 h3 k3

/-- **C91** what `next` gives at an ON page, without errors before: the error of the first fault, if there is one,
otherwise the page described by its values. -/
theorem C91_result (d : Dms) (hf : FontsOk d.fontDefinition) (h0 : 1 ≤ d.multiCfg.defaultFont.toNat) (W H : Nat)
    (hg : GraphicsOk W H d.graphicDefinition) (hd : SizeOk d) (ms : Str) (xs pg)
    (h : Steps d (Pages.new d ms) xs pg) (hn : NoError xs) (hon : isOn pg.pageState = true) (x pg')
    (hx : Pages.next d pg = .ok (some x, pg')) :
    ∃ us, Consumed (slices ms) pg.values us ∧
      let t := us.foldl (TextAttr.apply (signAttr d)) (signAttr d)
      ((∃ e, FirstFault d t pg.values e ∧ x = .error e) ∨
        ((∀ e, ¬ FirstFault d t pg.values e) ∧ ∃ vs b page, x = .ok page ∧ TakePage pg.values vs pg'.values b ∧
          let bg := background (signPage d).2 (signPage d).2 (us ++ vs)
          ∀ r : Raster, Composed d bg t none (signRect d) (sections vs).1 (sections vs).2
            (.withColor d.vmsCfg.signWidthPixels.toNat d.vmsCfg.signHeightPixels.toNat (backgroundRgb d bg)) r ↔
              r = page.raster)) := by
  obtain ⟨us, hc, he⟩ := C90_page d hd ms xs pg h hn hon x pg' hx
  refine ⟨us, hc, ?_⟩
  dsimp only at he ⊢
  cases x with
  | error e => exact .inl ⟨e, (he e).1 rfl, rfl⟩
  | ok page =>
    refine .inr ⟨fun e hff => (nomatch (he e).2 hff), ?_⟩
    obtain ⟨us', vs, b, h1, h2, h3⟩ := C91_page d hf h0 W H hg ms xs pg page pg' h hn hon hx
    obtain rfl := consumed_unique h1 hc
    exact ⟨vs, b, page, rfl, h2, h3⟩

/-- **C91** the place of a text is determined by the texts of its rectangle -/
theorem C91_place (d : Dms) (spans : List Span) (s : Span) (x x' y y' : Nat) (h : ExactX d spans s x ∧ ExactY d spans s y)
    (h' : ExactX d spans s x' ∧ ExactY d spans s y') : (x, y) = (x', y') :=
  Prod.ext (exactX_unique h.1 h'.1) (exactY_unique h.2 h'.2)

/-- **C64 (every message, the places)** the texts drawn for a text rectangle are those of its values (`pieces`,
`numbers`), each is drawn once, at the place of its line and number (`ExactX`, `ExactY`), exactly the pixels of its
characters change, to its color, later texts over earlier ones. -/
theorem C64_places (d : Dms) (hd : FontsOk d.fontDefinition) (h0 : 1 ≤ d.multiCfg.defaultFont.toNat)
    (ms : Str) (pg pg' : Pages) (page page' : Raster) (h : Drawing d ms pg page) (hon : pg.pageState = .on false)
    (hr : renderTextRectangle d pg page = .ok (.ok page', pg')) :
    ∃ vs, Section pg.values vs ∧ ∃ ps : List (Span × Nat × Nat),
      let spans := ps.map Prod.fst
      spans.map pieceOf = pieces (signAttr d) (textAttr pg.renderState) pg.renderState.lineSpacing 0 true vs ∧
      spans.map (·.state.spanNumber) = numbers (signAttr d) (textAttr pg.renderState) 0 true vs ∧
      (∀ p ∈ ps, p.1.state.textRectangle = pg.renderState.textRectangle ∧
        p.1.state.colorCtx.foregroundRgb = Spec.foregroundRgb d (pieceOf p.1).attr.foreground ∧
        ExactX d spans p.1 p.2.1 ∧ ExactY d spans p.1 p.2.2) ∧
      TextAt d.fontDefinition ps page page' := by
  obtain ⟨vs, h1, _⟩ := drawn_section h hon hr
  obtain ⟨ps, p1, ⟨p2, p3⟩, p4, _, p5, _⟩ := textDrawn hd h0 h hon hr h1
  exact ⟨vs, h1, ps, p1, p2, fun p hp => ⟨(p4 _ (List.mem_map_of_mem hp)).1, (p4 _ (List.mem_map_of_mem hp)).2.1, p3 p hp⟩, p5⟩

/-! ### cases -/

/-- numbers and lines of the texts of the first page -/
def Tests.textNumbers (d : Dms) (ms : Str) : Option (List (Nat × Nat)) :=
  (sectionValues (slices ms)).map fun vs => (numbers (signAttr d) (signAttr d) 0 true vs).zip
    ((pieces (signAttr d) (signAttr d) none 0 true vs).map (·.line))

-- texts out of order: a `[jl]` tag starts to count again, so that the texts before and after it have the same number
-- and place
example : textNumbers fullDms c!"A[jl2]B[hc41]" = some [(0, 0), (0, 0), (1, 0)] := by decide +kernel
example : ¬ Tidy (signAttr fullDms) (signAttr fullDms) true true
    [.text c!"A", .justificationLine (some .left), .text c!"B"] := by decide +kernel
-- such a message is shown, its page is that of the last texts alone when these have the same characters
example : litCount fullDms c!"AA[jl2]AA" = some 40 ∧ litCount fullDms c!"AA" = some 40 := by decide +kernel
-- a `[jp]` tag starts lines again, `[nl]` before any text of it makes a line that is not counted
example : textNumbers fullDms c!"A[jp4][nl]A[nl]A" = some [(0, 0), (0, 1), (0, 2)] := by decide +kernel
-- pages with the same values, attributes and background
example : pageCount (render fullDms c!"A[jl2]A[np][jl2]A[np]A[jl2]A") = some 3 := by decide +kernel

end Ntcip
