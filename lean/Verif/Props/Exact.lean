import Verif.Props.Place
/-
Property C64 without conditions on the message: every text is drawn once, at one place, and nothing else.
-/
namespace Ntcip
open Spec Tests

/-- the span `s`, drawn at `(x, y)`, lights the pixel `(i, j)` -/
def Spec.LightsAt (t : FontTable) (s : Span) (x y i j : Nat) : Prop :=
  ∃ f es, FontOf t s f ∧ Defined f s.str es ∧ TextLit es (charSpacing s f) f.height.toNat x y i j

/-- `b` is `a` with the spans drawn at the places given, in their foreground colors, later spans over earlier ones -/
structure Spec.TextAt (t : FontTable) (ps : List (Span × Nat × Nat)) (a b : Raster) : Prop where
  width : b.width = a.width
  height : b.height = a.height
  lit : ∀ l1 p l2 i j, ps = l1 ++ p :: l2 → LightsAt t p.1 p.2.1 p.2.2 i j →
    (∀ q ∈ l2, ¬ LightsAt t q.1 q.2.1 q.2.2 i j) → b.px i j = p.1.state.colorCtx.foregroundRgb
  unlit : ∀ i j, (∀ p ∈ ps, ¬ LightsAt t p.1 p.2.1 p.2.2 i j) → b.px i j = a.px i j

/-- the span at `(x, y)` is in the columns of the text rectangle, and not below it -/
def Spec.Within (t : FontTable) (rect : Rectangle) (p : Span × Nat × Nat) : Prop :=
  ∃ f w, FontOf t p.1 f ∧ SpanWidth t p.1 w ∧ rect.x.toNat - 1 ≤ p.2.1 ∧
    p.2.1 + w ≤ rect.x.toNat - 1 + rect.width.toNat ∧
    p.2.2 + f.height.toNat ≤ rect.y.toNat - 1 + rect.height.toNat

theorem spanText_placed {d : Dms} {spans : List Span} {s : Span} {page : Raster} {x y : Nat} {f : Font}
    {r : Raster} (hs : s ∈ spans) (hx : spanX d spans s = .ok x) (hy : spanY d spans s = .ok y)
    (hf : s.state.font d.fontDefinition = .ok f) (hr : s.renderText page f x y = .ok r)
    (fok : FontOk f) (hn : ∀ ch ∈ s.str, ch.toNat ≠ 0)
    (ha : Aligned d s.state.textRectangle) (hi : RectIn s.state.textRectangle page.width page.height) :
    Within d.fontDefinition s.state.textRectangle (s, x, y) ∧ r.width = page.width ∧ r.height = page.height ∧
      ∀ i j, (LightsAt d.fontDefinition s x y i j → r.px i j = s.state.colorCtx.foregroundRgb) ∧
        (¬ LightsAt d.fontDefinition s x y i j → r.px i j = page.px i j) := by
  obtain ⟨w, hw, x1, x2, x3⟩ := spanX_inside hx hs ha.x
  obtain ⟨f2, hf2, y3⟩ := spanY_bottom hy
  have hin : Within d.fontDefinition s.state.textRectangle (s, x, y) := ⟨f2, w, hf2, hw, x2, x3, y3⟩
  obtain ⟨f1, es, hf1, hd, rfl⟩ := hw
  have hf := font_ok.1 hf
  obtain rfl := fontOf_unique hf hf1
  obtain rfl := fontOf_unique hf hf2
  have hcs : s.charSpacingFont f = charSpacing s f := by
    unfold Span.charSpacingFont charSpacing
    split <;> rename_i h <;> simp [h]
  have h1 := hi.right
  have h2 := hi.bottom
  obtain ⟨r', hr', w1, w2, hpx⟩ := renderText_exact f fok x y (charSpacing s f) s.state.colorCtx.foregroundRgb
    s.str hn es hd page (by omega) (by omega)
  unfold Span.renderText at hr
  rw [hcs, hr'] at hr
  simp only [Out.mapErr_ok, Out.ok.injEq] at hr
  subst hr
  refine ⟨hin, w1, w2, fun i j => ?_⟩
  have key : LightsAt d.fontDefinition s x y i j ↔ TextLit es (charSpacing s f) f.height.toNat x y i j := by
    constructor
    · rintro ⟨f', es', hf', hd', hl⟩
      obtain rfl := fontOf_unique hf hf'
      obtain rfl := defined_unique hd hd'
      exact hl
    · intro hl
      exact ⟨f, es, hf, hd, hl⟩
  rw [key]
  exact hpx i j

theorem renderSpansLoop_placed {d : Dms} {spans ss : List Span} {page r : Raster} {rect : Rectangle}
    (h : renderSpansLoop d spans ss page = .ok r) (hsub : ∀ s ∈ ss, s ∈ spans)
    (hf : ∀ s ∈ spans, ∀ f, FontOf d.fontDefinition s f → FontOk f)
    (hn : ∀ s ∈ spans, ∀ ch ∈ s.str, ch.toNat ≠ 0)
    (hr : ∀ s ∈ spans, s.state.textRectangle = rect)
    (ha : Aligned d rect) (hi : RectIn rect page.width page.height) :
    ∃ ps, ps.map Prod.fst = ss ∧ (∀ p ∈ ps, Within d.fontDefinition rect p ∧
      spanX d spans p.1 = .ok p.2.1 ∧ spanY d spans p.1 = .ok p.2.2) ∧ TextAt d.fontDefinition ps page r := by
  induction ss generalizing page with
  | nil =>
    simp only [renderSpansLoop, Out.ok.injEq] at h
    subst h
    exact ⟨[], rfl, by simp, rfl, rfl, fun l1 s l2 i j e => by simp at e, fun _ _ _ => rfl⟩
  | cons s ss ih =>
    simp only [renderSpansLoop, Out.bind_eq_ok] at h
    obtain ⟨x, hx, y, hy, f, hff, r1, hr1, h⟩ := h
    have hs := hsub s (List.mem_cons_self ..)
    have e := hr s hs
    obtain ⟨w0, w1, w2, c1⟩ := spanText_placed hs hx hy hff hr1 (hf s hs f (font_ok.1 hff)) (hn s hs)
      (by rw [e]; exact ha) (by rw [e]; exact hi)
    rw [e] at w0
    obtain ⟨ps, e1, e2, c2⟩ := ih h (fun s hs => hsub s (List.mem_cons_of_mem _ hs)) (by rw [w1, w2]; exact hi)
    refine ⟨(s, x, y) :: ps, by rw [List.map_cons, e1], ?_, c2.width.trans w1, c2.height.trans w2, ?_, ?_⟩
    · intro p hp
      rcases List.mem_cons.1 hp with rfl | hp
      · exact ⟨w0, hx, hy⟩
      · exact e2 p hp
    · intro l1 p l2 i j e hl hlater
      cases l1 with
      | nil =>
        simp only [List.nil_append, List.cons.injEq] at e
        obtain ⟨rfl, rfl⟩ := e
        rw [c2.unlit i j hlater]
        exact (c1 i j).1 hl
      | cons a l1 =>
        simp only [List.cons_append, List.cons.injEq] at e
        exact c2.lit l1 p l2 i j e.2 hl hlater
    · intro i j hno
      rw [c2.unlit i j fun s hs => hno s (List.mem_cons_of_mem _ hs)]
      exact (c1 i j).2 (hno (s, x, y) (List.mem_cons_self ..))

/-- **C64 (every message)** each text of a text rectangle is drawn once, at one place in the columns of the rectangle and
not below it: there are places for the spans such that exactly the pixels of their characters change, to their
colors, later spans over earlier ones.  (`C64_tidy` gives the places for tidy values.) -/
theorem C64_drawn_once (d : Dms) (hd : FontsOk d.fontDefinition) (h0 : 1 ≤ d.multiCfg.defaultFont.toNat)
    (ms : Str) (pg pg' : Pages) (page page' : Raster) (h : Drawing d ms pg page) (hon : pg.pageState = .on false)
    (hr : renderTextRectangle d pg page = .ok (.ok page', pg')) :
    (∃ vs, Section pg.values vs ∧ pg'.spans.map pieceOf =
      pieces (signAttr d) (textAttr pg.renderState) pg.renderState.lineSpacing 0 true vs) ∧
    (∃ ps : List (Span × Nat × Nat), ps.map Prod.fst = pg'.spans ∧
      (∀ p ∈ ps, Within d.fontDefinition pg.renderState.textRectangle p) ∧ TextAt d.fontDefinition ps page page') ∧
    (∀ s ∈ pg'.spans, s.state.textRectangle = pg.renderState.textRectangle ∧
      s.state.colorCtx.foregroundRgb = Spec.foregroundRgb d (pieceOf s).attr.foreground) := by
  obtain ⟨vs, h1, h2, _⟩ := drawn_section h hon hr
  obtain ⟨r1, r2⟩ := C43_rectangle_inside d ms pg page h
  obtain ⟨hs, hall⟩ := drawn_spans h hr
  unfold renderTextSpans at hs
  split at hs
  · simp at hs
  · refine ⟨⟨vs, h1, h2⟩, ?_, fun s hs => ⟨(hall s hs).2, drawn_colors h hr s hs⟩⟩
    have hfo : ∀ s ∈ pg'.spans, ∀ f, FontOf d.fontDefinition s f → FontOk f := by
      intro s hs f hf
      obtain ⟨f1, f2⟩ := font_number hf
      refine hd.fonts f f1 ?_
      have := (hall s hs).1.1.font h0
      rw [f2]; omega
    obtain ⟨ps, e1, e2, e3⟩ := renderSpansLoop_placed hs (fun s h => h) hfo (fun s hs => (hall s hs).1.2)
      (fun s hs => (hall s hs).2) r2 r1
    exact ⟨ps, e1, fun p hp => (e2 p hp).1, e3⟩

/-- for given places there is one page: the pixels after drawing are determined by the pixels before -/
theorem textAt_unique {t ps a b b'} (h : TextAt t ps a b) (h' : TextAt t ps a b') :
    b.width = b'.width ∧ b.height = b'.height ∧ ∀ i j, b.px i j = b'.px i j := by
  refine ⟨by rw [h.width, h'.width], by rw [h.height, h'.height], fun i j => ?_⟩
  have key : ∀ ps : List (Span × Nat × Nat), (∀ p ∈ ps, ¬ LightsAt t p.1 p.2.1 p.2.2 i j) ∨
      ∃ l1 p l2, ps = l1 ++ p :: l2 ∧ LightsAt t p.1 p.2.1 p.2.2 i j ∧ ∀ q ∈ l2, ¬ LightsAt t q.1 q.2.1 q.2.2 i j := by
    intro ps
    induction ps with
    | nil => exact .inl (by simp)
    | cons p ps ih =>
      rcases ih with ih | ⟨l1, q, l2, rfl, hq, hl⟩
      · by_cases hp : LightsAt t p.1 p.2.1 p.2.2 i j
        · exact .inr ⟨[], p, ps, rfl, hp, ih⟩
        · exact .inl (by simpa [hp] using ih)
      · exact .inr ⟨p :: l1, q, l2, rfl, hq, hl⟩
  rcases key ps with h1 | ⟨l1, p, l2, e, h1, h2⟩
  · rw [h.unlit i j h1, h'.unlit i j h1]
  · rw [h.lit l1 p l2 i j e h1 h2, h'.lit l1 p l2 i j e h1 h2]

/-- texts of the first text rectangle of a message, if its text is drawn -/
def Tests.drawnTexts (d : Dms) (ms : Str) : Option (List Str) :=
  let pg := Pages.new d ms
  match updatePageState pg.defaultState pg.renderState pg.values with
  | .ok (.ok (), rs) =>
    match renderTextRectangle d { pg with renderState := rs, pageState := .on false } (buildRaster rs) with
    | .ok (.ok _, pg') => some (pg'.spans.map (·.str))
    | _ => none
  | _ => none

theorem drawnTexts_drawn {d ms ts} (h : drawnTexts d ms = some ts) :
    ∃ pg page pg' page', Drawing d ms pg page ∧ pg.pageState = .on false ∧
      renderTextRectangle d pg page = .ok (.ok page', pg') ∧ pg'.spans.map (·.str) = ts := by
  unfold drawnTexts at h
  dsimp only at h
  split at h
  · rename_i rs hu
    split at h
    · rename_i page' pg' hr
      exact ⟨_, _, pg', page', Drawing.start .nil hu, rfl, hr, by simpa using h⟩
    · simp at h
  · simp at h

-- the hypotheses of C64 for a message which is not tidy (the second text is drawn over the first one)
example : firstText fullDms c!"A[jl2]B" = none := by decide +kernel
example : ∃ pg page pg' page', Drawing fullDms c!"A[jl2]B" pg page ∧ pg.pageState = .on false ∧
    renderTextRectangle fullDms pg page = .ok (.ok page', pg') ∧ pg'.spans.map (·.str) = [c!"A", c!"B"] :=
  drawnTexts_drawn (by decide +kernel)

end Ntcip
