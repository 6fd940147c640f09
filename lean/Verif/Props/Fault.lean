import Verif.Lemmas.Fault
import Verif.Props.Accept
import Verif.Props.Oversize
import Verif.Props.Version
/-
Property C83: an error of the renderer tells of a fault of the message.
-/
namespace Ntcip
open Spec Tests

theorem page_fault {d : Dms} (hd : SizeOk d) {ms : Str} {xs pg e pg'} (h : Steps d (Pages.new d ms) xs pg)
    (hx : Pages.next d pg = .ok (some (.error e), pg')) :
    PageFault d (textAttr pg.renderState) pg.values e ∨
      (e = .textTooBig ∧ PageGaps d (textAttr pg.renderState) pg.values) := by
  have hp := steps_state h (pagesOk_new d ms)
  have hsign := steps_sign h
  rcases next_cases hx with ⟨_, hx⟩ | ⟨_, _, hx, _⟩
  · unfold renderOnPage at hx
    split at hx
    · simp at hx
    · rename_i e' hc
      simp only [Res.ok.injEq, Prod.mk.injEq, Except.error.injEq] at hx
      obtain ⟨rfl, _⟩ := hx
      exact .inl (.item (checkUnsupported_fault hc))
    · rename_i hc
      obtain ⟨vs, rest, b, ht, _, _⟩ := checkUnsupported_ok hc
      simp only [Res.bind_eq_ok] at hx
      obtain ⟨⟨x, rs⟩, h1, h2⟩ := hx
      cases x with
      | error e' =>
        simp only [Res.pure_eq, Res.ok.injEq, Prod.mk.injEq, Except.error.injEq] at h2
        obtain ⟨rfl, _⟩ := h2
        obtain ⟨_, v, hv, hn, rfl⟩ := updatePageStateLoop_color ht _ _ _ h1
        dsimp only at hn
        rw [hsign.scheme] at hn
        refine .inl (.value ht hv (.value ?_ fun hok => hn hok.1))
        rintro n pos rfl
        exact hn (fun k hk => by simp [tagColor] at hk)
      | ok u =>
        simp only [Res.bind_eq_ok] at h2
        obtain ⟨⟨y, pg1⟩, h2, h3⟩ := h2
        cases y with
        | ok raster => simp at h3
        | error e' =>
          simp only [Res.pure_eq, Res.ok.injEq, Prod.mk.injEq, Except.error.injEq] at h3
          obtain ⟨rfl, _⟩ := h3
          have hdr : Drawing d ms _ _ := Drawing.start h h1
          have start : rs.lineSpacing = none ∧ rs.textRectangle = (signRect d) ∧
              textAttr rs = textAttr pg.renderState := by
            unfold updatePageState at h1
            obtain ⟨_, b2, _⟩ := updatePageStateLoop_bg (d := d) (ds := pg.defaultState)
              (by rw [hp.default]; exact ⟨hsign.ds, hsign.fg, hsign.bg, hsign.scheme⟩) h1 ht
            obtain ⟨_, _, _, _, _, ue, _⟩ := updatePageStateLoop_ok h1
            refine ⟨by rw [ue]; simp [hp.default, RenderState.new], by rw [ue]; rw [hp.default]; rfl, by rw [b2]; rfl⟩
          obtain ⟨e1, e2, e3⟩ := start
          have := onPageLoop_fault hd h2 (by decide) rfl hdr ht
          dsimp only at this
          rw [e1, e2, e3] at this
          rcases this with ⟨v, hv, hf⟩ | ⟨hn, rfl⟩ | hf | ⟨he, hf⟩
          · exact .inl (.value ht hv hf)
          · exact .inl (.rects ht (by unfold maxTextRectangles at hn; omega))
          · exact .inl (.text ht hf)
          · exact .inr ⟨he, vs, rest, b, ht, hf⟩
  · cases hx

/-- the first error of the pages of a message -/
def firstFault (d : Dms) (ms : Str) : Option SyntaxError :=
  match render d ms with
  | .err e => some e
  | _ => none

theorem Tests.graphDms_size : SizeOk graphDms := ⟨by decide, by decide, by decide⟩

-- one message for each fault
example : [c!"A[xx]", c!"A]", c!"A[jl7]", c!"A\u0100", c!"A[tr1,1,61,7]A", c!"A[g6]", c!"A[g7,60,13]", c!"A[g7,1,1,0001]",
      c!"A[fo9]A", c!"A[nl]~", c!"[jl4]A[jl2]A", c!"ABABABABABABABABABABAB",
      c!"A[tr1,11,60,9]A[nl]A[nl]A"].map (firstFault graphDms) =
    [some (.unsupportedTag c!"xx"), some (.unsupportedTag c!"]"), some (.unsupportedTagValue c!"jl7"),
      some (.other "Invalid code point"), some (.unsupportedTagValue c!"[tr1,1,61,7]"), some (.graphicNotDefined 6),
      some (.other "Graphic too big"), some .graphicID, some (.fontNotDefined 9),
      some (.characterNotDefined '~'), some .tagConflict, some .textTooBig, some .textTooBig] := by decide +kernel
-- (font versions, on a sign with a small font)
example : firstFault smallDms c!"[fo8,d5d9]A" = some .fontVersionID := by decide +kernel

/-- **C83** an error of the renderer, also one after other errors: the page that begins at a suffix of the items of the
message has a fault of which the error tells (`PageFault`, with the text attributes `t` that are in effect there).  Only
the error `TextTooBig` may also be given for a page that is not in order, if lines are not numbered without gaps
(`PageGaps`; see `C45_false`). -/
theorem C83_error_partial (d : Dms) (hd : SizeOk d) (ms : Str) (xs pg) (h : Steps d (Pages.new d ms) xs pg)
    (e pg') (hx : Pages.next d pg = .ok (some (.error e), pg')) :
    pg.values <:+ slices ms ∧ ∃ t, PageFault d t pg.values e ∨ (e = .textTooBig ∧ PageGaps d t pg.values) := by
  refine ⟨?_, _, page_fault hd h hx⟩
  have key : ∀ {pg xs pg'}, Steps d pg xs pg' → pg'.values <:+ pg.values := by
    intro pg xs pg' h
    induction h with
    | nil => exact List.suffix_refl _
    | cons hn _ ih => exact ih.trans (next_suffix hn)
  exact key h

/-- **C83** the first error of a message: the text attributes are those of the values before the page. -/
theorem C83_first_partial (d : Dms) (hd : SizeOk d) (ms : Str) (xs pg) (h : Steps d (Pages.new d ms) xs pg)
    (hn : NoError xs) (e pg') (hx : Pages.next d pg = .ok (some (.error e), pg')) :
    ∃ us, Consumed (slices ms) pg.values us ∧
      let t := us.foldl (TextAttr.apply (signAttr d)) (signAttr d)
      PageFault d t pg.values e ∨ (e = .textTooBig ∧ PageGaps d t pg.values) := by
  obtain ⟨us, hc, ha, _⟩ := C53_carry d ms xs pg h hn
  refine ⟨us, hc, ?_⟩
  dsimp only
  rw [← ha]
  exact page_fault hd h hx

theorem someSection_tidy {d : Dms} {P Q : TextAttr → Option UInt8 → Rectangle → List Value → Prop} {t sp rect vs more}
    (ha : AllSections d P t sp rect vs more) (hs : SomeSection d Q t sp rect vs more)
    (hi : ∀ t sp rect vs, P t sp rect vs → ¬ Q t sp rect vs) : False := by
  induction hs with
  | here h => exact hi _ _ _ _ (allSections_first ha) h
  | later _ ih =>
    cases ha with
    | next _ ha => exact ih ha

/-- **C83** if the page is in order, its first error tells of a fault of it. -/
theorem C83_tidy (d : Dms) (hd : SizeOk d) (ms : Str) (xs pg) (h : Steps d (Pages.new d ms) xs pg)
    (hn : NoError xs) (e pg') (hx : Pages.next d pg = .ok (some (.error e), pg')) :
    ∃ us, Consumed (slices ms) pg.values us ∧
      let t := us.foldl (TextAttr.apply (signAttr d)) (signAttr d)
      ((∀ vs rest b, TakePage pg.values vs rest b → TidyPage d t vs) → PageFault d t pg.values e) := by
  obtain ⟨us, hc, hf⟩ := C83_first_partial d hd ms xs pg h hn e pg' hx
  refine ⟨us, hc, fun ht => ?_⟩
  rcases hf with hf | ⟨_, vs, rest, b, h1, h2⟩
  · exact hf
  · exact (someSection_tidy (ht vs rest b h1) h2 fun _ _ _ _ h3 h4 => h4.1 h3.1).elim

/-- **C83** the errors that are given; the others of the library (too many pages, field devices, flash regions, …) are
never given. -/
theorem C83_kinds (d : Dms) (hd : SizeOk d) (ms : Str) (xs pg) (h : Steps d (Pages.new d ms) xs pg)
    (e pg') (hx : Pages.next d pg = .ok (some (.error e), pg')) :
    (∃ s, e = .unsupportedTag s ∨ e = .unsupportedTagValue s) ∨ (∃ n, e = .graphicNotDefined n ∨ e = .fontNotDefined n) ∨
    (∃ c, e = .characterNotDefined c) ∨ e ∈ [.graphicID, .fontVersionID, .tagConflict, .textTooBig,
      .other "Graphic too big", .other "Too many text rectangles", .other "Invalid code point"] := by
  have item : ∀ {ss e}, ItemFault d ss e → (∃ s, e = .unsupportedTag s ∨ e = .unsupportedTagValue s) ∨
      e = .other "Invalid code point" := by
    intro ss e h
    induction h with
    | bad h =>
      cases h with
      | bracket _ _ _ => exact .inl ⟨_, .inl rfl⟩
      | name _ => exact .inl ⟨_, .inl rfl⟩
      | parameters _ _ => exact .inl ⟨_, .inr rfl⟩
      | character _ _ _ _ => exact .inr rfl
    | tag _ _ _ => exact .inl ⟨_, .inl rfl⟩
    | later _ _ _ _ ih => exact ih
  have text : ∀ {t sp rect vs more}, SomeSection d (fun t sp rect ws => TextFault d rect (layoutOf d t sp rect ws) e)
      t sp rect vs more → ∃ rect spans, TextFault d rect spans e := by
    intro t sp rect vs more h
    induction h with
    | here h => exact ⟨_, _, h⟩
    | later _ ih => exact ih
  rcases page_fault hd h hx with hf | ⟨rfl, _⟩
  · cases hf with
    | item h =>
      rcases item h with h | rfl
      · exact .inl h
      · simp
    | value _ _ h =>
      cases h with
      | value _ _ => exact .inl ⟨_, .inr rfl⟩
      | noGraphic _ => exact .inr (.inl ⟨_, .inl rfl⟩)
      | graphicId _ _ _ => simp
      | graphicBig _ _ => simp
    | rects _ _ => simp
    | text _ h =>
      obtain ⟨rect, spans, h⟩ := text h
      cases h with
      | noFont _ _ => exact .inr (.inl ⟨_, .inr rfl⟩)
      | version => simp
      | character => exact .inr (.inr (.inl ⟨_, rfl⟩))
      | conflict => simp
      | tooWide => simp
      | tooHigh => simp
  · simp

/-- **C83** the full claim is false: `TextTooBig` is given for a text of 2 lines of 7 pixels, at the top and at the bottom
of a rectangle with 10 rows, because `[cf]` makes two texts of the second one; without `[cf]` it is shown. -/
theorem C83_false :
    isTooBig (render fullDms c!"[tr1,1,60,10]A[jp4][nl]B[cf]C") = true ∧
    pageCount (render fullDms c!"[tr1,1,60,10]A[jp4][nl]BC") = some 1 :=
  ⟨C45_false.2.1, C45_false.1⟩

end Ntcip
