import Verif.Lemmas.Local
import Verif.Lemmas.States
/-
The renderer only looks at the characters of a font which are in the text.
-/
namespace Ntcip

/-- fonts the renderer cannot tell apart by characters of `C` -/
structure FontAlike (C : Char → Prop) (f f' : Font) : Prop where
  height : f'.height = f.height
  cs : f'.charSpacing = f.charSpacing
  ls : f'.lineSpacing = f.lineSpacing
  look : ∀ c, C c → f'.character c = f.character c

theorem FontAlike.mono {C C' : Char → Prop} {f f' : Font} (h : FontAlike C f f') (hc : ∀ c, C' c → C c) : FontAlike C' f f' :=
  ⟨h.height, h.cs, h.ls, fun c hx => h.look c (hc c hx)⟩

/-- results of looking up a font which cannot be told apart by characters of `C` -/
def FontAlikeOut (C : Char → Prop) (x y : Out SyntaxError Font) : Prop :=
  (∃ e, x = .err e ∧ y = .err e) ∨ ∃ f f', x = .ok f ∧ y = .ok f' ∧ FontAlike C f f'

theorem FontAlikeOut.mono {C C' : Char → Prop} {x y : Out SyntaxError Font} (h : FontAlikeOut C x y)
    (hc : ∀ c, C' c → C c) : FontAlikeOut C' x y := by
  rcases h with h | ⟨f, f', h1, h2, h3⟩
  · exact .inl h
  · exact .inr ⟨f, f', h1, h2, h3.mono hc⟩

/-- the tables have fonts which cannot be told apart by the text of the span -/
def GlyphAlike (F F' : FontTable) (s : Span) : Prop := FontAlikeOut (· ∈ s.str) (s.state.font F) (s.state.font F')

theorem textWidthLoop_glyphs {f f' : Font} {t : Str} (h : ∀ c ∈ t, f'.character c = f.character c) (cs w : Nat) :
    f'.textWidthLoop cs w t = f.textWidthLoop cs w t := by
  induction t generalizing w with
  | nil => rfl
  | cons c t ih =>
    unfold Font.textWidthLoop
    rw [h c (by simp)]
    simp only [ih fun x hx => h x (by simp [hx])]

theorem renderTextLoop_glyphs {f f' : Font} (hh : f'.height = f.height) {t : Str}
    (h : ∀ c ∈ t, f'.character c = f.character c) (x y cs : Nat) (cf : Rgb) (p : Raster) (xx : Nat) :
    f'.renderTextLoop x y cs cf p xx t = f.renderTextLoop x y cs cf p xx t := by
  induction t generalizing p xx with
  | nil => rfl
  | cons c t ih =>
    unfold Font.renderTextLoop
    rw [h c (by simp), hh]
    simp only [ih fun x hx => h x (by simp [hx])]

section Fonts
variable {F F' : FontTable}

theorem charSpacingFonts_glyphs {s : Span} (hs : GlyphAlike F F' s) : s.charSpacingFonts F = s.charSpacingFonts F' := by
  unfold Span.charSpacingFonts
  rcases hs with ⟨e, h1, h2⟩ | ⟨f, f', h1, h2, h3⟩
  · rw [h1, h2]
  · rw [h1, h2]
    simp only [Out.ok_bind, h3.cs]

theorem width_glyphs {s : Span} (hs : GlyphAlike F F' s) : s.width F = s.width F' := by
  unfold Span.width
  rw [charSpacingFonts_glyphs hs]
  rcases hs with ⟨e, h1, h2⟩ | ⟨f, f', h1, h2, h3⟩
  · rw [h1, h2]
  · rw [h1, h2]
    simp only [Out.ok_bind, Font.textWidth, textWidthLoop_glyphs h3.look]

theorem between_glyphs {s p : Span} (hs : GlyphAlike F F' s) (hp : GlyphAlike F F' p) :
    s.charSpacingBetween p F = s.charSpacingBetween p F' := by
  unfold Span.charSpacingBetween
  rw [charSpacingFonts_glyphs hs, charSpacingFonts_glyphs hp]

theorem height_glyphs {s : Span} (hs : GlyphAlike F F' s) : s.height F = s.height F' := by
  unfold Span.height
  rcases hs with ⟨e, h1, h2⟩ | ⟨f, f', h1, h2, h3⟩
  · rw [h1, h2]
  · rw [h1, h2]
    simp only [Out.ok_bind, h3.height]

theorem fontSpacing_glyphs {s : Span} (hs : GlyphAlike F F' s) : s.fontSpacing F = s.fontSpacing F' := by
  unfold Span.fontSpacing
  rcases hs with ⟨e, h1, h2⟩ | ⟨f, f', h1, h2, h3⟩
  · rw [h1, h2]
  · rw [h1, h2]
    simp only [Out.ok_bind, h3.ls]

theorem renderText_glyphs {f f' : Font} {s : Span} (h : FontAlike (· ∈ s.str) f f') (r : Raster) (x y : Nat) :
    s.renderText r f' x y = s.renderText r f x y := by
  unfold Span.renderText Font.renderText Span.charSpacingFont
  rw [h.cs, renderTextLoop_glyphs h.height h.look]

theorem offsetHorizLoop_glyphs {rs : RenderState} {l : List Span}
    (hl : ∀ s ∈ l, GlyphAlike F F' s) {p : Option Span} (hp : ∀ s, p = some s → GlyphAlike F F' s)
    (b a : Nat) : offsetHorizLoop F rs l p b a = offsetHorizLoop F' rs l p b a := by
  induction l generalizing p b a with
  | nil => rfl
  | cons s l ih =>
    have hs := hl s (by simp)
    have ih' := fun b a => ih (p := some s) (fun x hx => hl x (by simp [hx]))
      (fun x hx => by cases hx; exact hs) b a
    unfold offsetHorizLoop
    rw [width_glyphs hs]
    simp only [ih']
    cases p with
    | none => rfl
    | some p => simp only [between_glyphs hs (hp p rfl)]

theorem textLines_glyphs {l : List Span} (hl : ∀ s ∈ l, GlyphAlike F F' s)
    (ls : List TextLine) : textLines F l ls = textLines F' l ls := by
  induction l generalizing ls with
  | nil => rfl
  | cons s l ih =>
    have hs := hl s (by simp)
    have ih' := ih (fun x hx => hl x (by simp [hx]))
    unfold textLines
    rw [height_glyphs hs, fontSpacing_glyphs hs]
    simp only [ih']

end Fonts

section Sign
variable {d d' : Dms} (hc : SameCfg d d') {l : List Span}
  (hl : ∀ s ∈ l, GlyphAlike d.fontDefinition d'.fontDefinition s)
include hc hl

omit hc in
theorem offsetHoriz_glyphs (s : Span) : offsetHoriz d l s = offsetHoriz d' l s := by
  unfold offsetHoriz
  dsimp only
  rw [offsetHorizLoop_glyphs (fun x hx => hl x (List.mem_filter.1 hx).1) (by simp)]

theorem offsetVert_glyphs (s : Span) : offsetVert d l s = offsetVert d' l s := by
  unfold offsetVert
  simp only [Dms.charHeight, hc.charH]
  rw [textLines_glyphs (fun x hx => hl x (List.mem_filter.1 hx).1)]

theorem spanX_glyphs (s : Span) : spanX d l s = spanX d' l s := by
  unfold spanX spanXLeft spanXCenter spanXRight
  simp only [offsetHoriz_glyphs hl s, Dms.cellWidth, Dms.charWidth, hc.charW]

theorem spanY_glyphs (s : Span) (hs : GlyphAlike d.fontDefinition d'.fontDefinition s) :
    spanY d l s = spanY d' l s := by
  unfold spanY baseline baselineTop baselineMiddle baselineBottom
  simp only [offsetVert_glyphs hc hl s, height_glyphs hs, Dms.cellHeight, Dms.charHeight, hc.charH]

theorem renderSpansLoop_glyphs {k : List Span} (hk : ∀ s ∈ k, GlyphAlike d.fontDefinition d'.fontDefinition s)
    (r : Raster) : renderSpansLoop d l k r = renderSpansLoop d' l k r := by
  induction k generalizing r with
  | nil => rfl
  | cons s k ih =>
    have hs := hk s (by simp)
    unfold renderSpansLoop
    rw [spanX_glyphs hc hl s, spanY_glyphs hc hl s hs]
    simp only [ih fun x hx => hk x (by simp [hx])]
    rcases hs with ⟨e, h1, h2⟩ | ⟨f, f', h1, h2, h3⟩
    · rw [h1, h2]
    · rw [h1, h2]
      simp only [Out.ok_bind, renderText_glyphs h3]

theorem renderTextSpans_glyphs (r : Raster) : renderTextSpans d l r = renderTextSpans d' l r := by
  unfold renderTextSpans
  rw [renderSpansLoop_glyphs hc hl hl]

end Sign

section Rtr
variable {d d' : Dms} {S : UInt8 → Option UInt16 → Prop} {C : Char → Prop}

/-- the fonts and texts of state and spans are those of `S` and `C` -/
def GlyphIn (S : UInt8 → Option UInt16 → Prop) (C : Char → Prop) (st : Rtr) : Prop :=
  S st.rs.fontNum st.rs.fontVersionId ∧
  ∀ s ∈ st.spans, S s.state.fontNum s.state.fontVersionId ∧ ∀ c ∈ s.str, C c

/-- the value only names fonts of `S` and only has characters of `C` -/
structure ValueIn (S : UInt8 → Option UInt16 → Prop) (C : Char → Prop) (v : Value) : Prop where
  font : ∀ n vid, v = .font (some (n, vid)) → S n vid
  text : ∀ t, v = .text t → ∀ c ∈ t, C c
  hex : ∀ hc, v = .hexadecimalCharacter hc → ∀ c : Char, hc.toNat = c.toNat → C c

theorem rtrStep_glyphIn {ds : RenderState} {po : Bool} {st st' : Rtr} {v : Value}
    {c : Ctl} (hd : S ds.fontNum ds.fontVersionId) (hv : ValueIn S C v)
    (hst : GlyphIn S C st) (h : rtrStep d ds po st v = .ok (c, st')) : GlyphIn S C st' := by
  obtain ⟨h1, h2⟩ := hst
  unfold rtrStep at h
  split at h <;> dsimp only at h
  all_goals try (simp only [Res.ok.injEq, Prod.mk.injEq] at h; obtain ⟨-, rfl⟩ := h; exact ⟨h1, h2⟩)
  · split at h <;> (simp only [Res.ok.injEq, Prod.mk.injEq] at h; obtain ⟨-, rfl⟩ := h; exact ⟨h1, h2⟩)
  · simp only [Res.ok.injEq, Prod.mk.injEq] at h; obtain ⟨-, rfl⟩ := h; exact ⟨hd, h2⟩
  · simp only [Res.ok.injEq, Prod.mk.injEq] at h; obtain ⟨-, rfl⟩ := h; exact ⟨hv.font _ _ rfl, h2⟩
  · split at h <;> (simp only [Res.ok.injEq, Prod.mk.injEq] at h; obtain ⟨-, rfl⟩ := h; exact ⟨h1, h2⟩)
  · split at h
    · simp only [Res.ok.injEq, Prod.mk.injEq] at h; obtain ⟨-, rfl⟩ := h; exact ⟨h1, h2⟩
    · simp only [Res.bind_eq_ok, Res.pure_eq, Res.ok.injEq, Prod.mk.injEq] at h
      obtain ⟨_, _, -, rfl⟩ := h
      refine ⟨h1, ?_⟩
      dsimp only
      split
      · intro s hs
        rcases List.mem_append.1 hs with hs | hs
        · exact h2 s hs
        · rw [List.mem_singleton.1 hs]; exact ⟨h1, by simp⟩
      · exact h2
  · split at h <;> (simp only [Res.ok.injEq, Prod.mk.injEq] at h; obtain ⟨-, rfl⟩ := h; exact ⟨h1, h2⟩)
  · simp only [Res.bind_eq_ok] at h
    obtain ⟨o, _, h⟩ := h
    split at h <;> (simp only [Res.pure_eq, Res.ok.injEq, Prod.mk.injEq] at h; obtain ⟨-, rfl⟩ := h
                    exact ⟨h1, h2⟩)
  · simp only [Res.bind_eq_ok, Res.pure_eq, Res.ok.injEq, Prod.mk.injEq] at h
    obtain ⟨_, _, -, rfl⟩ := h
    refine ⟨h1, fun s hs => ?_⟩
    rcases List.mem_append.1 hs with hs | hs
    · exact h2 s hs
    · rw [List.mem_singleton.1 hs]; exact ⟨h1, hv.text _ rfl⟩
  · split at h
    · rename_i hcc
      simp only [Res.bind_eq_ok, Res.pure_eq, Res.ok.injEq, Prod.mk.injEq] at h
      obtain ⟨_, _, -, rfl⟩ := h
      refine ⟨h1, fun s hs => ?_⟩
      rcases List.mem_append.1 hs with hs | hs
      · exact h2 s hs
      · rw [List.mem_singleton.1 hs]
        refine ⟨h1, ?_⟩
        dsimp only
        split
        · simp
        · intro x hx
          rw [List.mem_singleton.1 hx]
          exact hv.hex _ rfl _ (charFromU32_toNat hcc).symm
    · simp only [Res.ok.injEq, Prod.mk.injEq] at h; obtain ⟨-, rfl⟩ := h; exact ⟨h1, h2⟩

/-- the values of the message only name fonts of `S` and only have characters of `C` -/
def GlyphsOf (S : UInt8 → Option UInt16 → Prop) (C : Char → Prop) (ss : List Str) : Prop :=
  ∀ s ∈ ss, ∀ v, tryFrom s = .ok (.ok v) → ValueIn S C v

theorem rtrLoop_glyphIn {ds : RenderState} {po : Bool} {ss rest : List Str}
    {st st' : Rtr} {x : Except SyntaxError Unit} (hd : S ds.fontNum ds.fontVersionId) (hss : GlyphsOf S C ss)
    (hst : GlyphIn S C st) (h : rtrLoop d ds po ss st = .ok (x, st', rest)) : GlyphIn S C st' := by
  induction ss generalizing st with
  | nil => simp only [rtrLoop, Res.ok.injEq, Prod.mk.injEq] at h; rw [← h.2.1]; exact hst
  | cons s ss ih =>
    unfold rtrLoop at h
    cases hv : tryFrom s with
    | panic p => simp [hv] at h
    | ok e =>
      cases e with
      | error e =>
        simp only [hv, Res.ok.injEq, Prod.mk.injEq] at h
        rw [← h.2.1]; exact hst
      | ok v =>
        simp only [hv] at h
        cases hr : rtrStep d ds po st v with
        | panic p => simp [hr] at h
        | ok q =>
          obtain ⟨c, st1⟩ := q
          have h1 : GlyphIn S C st1 := rtrStep_glyphIn hd (hss s (by simp) v hv) hst hr
          rw [hr] at h
          cases c with
          | cont => exact ih (fun x hx => hss x (by simp [hx])) h1 h
          | brk => simp only [Res.ok.injEq, Prod.mk.injEq] at h; rw [← h.2.1]; exact h1
          | fail e => simp only [Res.ok.injEq, Prod.mk.injEq] at h; rw [← h.2.1]; exact h1

/-- what the rest of a message shows is of `S` and `C` -/
structure UsesGlyphs (S : UInt8 → Option UInt16 → Prop) (C : Char → Prop) (pg : Pages) : Prop where
  dflt : S pg.defaultState.fontNum pg.defaultState.fontVersionId
  cur : S pg.renderState.fontNum pg.renderState.fontVersionId
  vals : GlyphsOf S C pg.values

theorem UsesGlyphs.suffix {pg pg' : Pages} (h : UsesGlyphs S C pg)
    (hd : pg'.defaultState = pg.defaultState) (hf : S pg'.renderState.fontNum pg'.renderState.fontVersionId)
    (hs : pg'.values <:+ pg.values) : UsesGlyphs S C pg' :=
  ⟨hd ▸ h.dflt, hf, fun s m => h.vals s (hs.subset m)⟩

/-- the tables have fonts under the numbers `S` which cannot be told apart by characters of `C` -/
def FontAlikeFonts (S : UInt8 → Option UInt16 → Prop) (C : Char → Prop) (F F' : FontTable) : Prop :=
  ∀ rs : RenderState, S rs.fontNum rs.fontVersionId → FontAlikeOut C (rs.font F) (rs.font F')

theorem renderTextRectangle_glyphs (hc : SameCfg d d') (hF : FontAlikeFonts S C d.fontDefinition d'.fontDefinition)
    {pg : Pages} (hu : UsesGlyphs S C pg) (r : Raster) :
    renderTextRectangle d pg r = renderTextRectangle d' pg r ∧
    ∀ x pg', renderTextRectangle d pg r = .ok (x, pg') → UsesGlyphs S C pg' := by
  have hst : GlyphIn S C ⟨pg.renderState, .doneState (decide (pg.renderState.pageOffTimeDs > 0)), [], true⟩ :=
    ⟨hu.cur, by simp⟩
  unfold renderTextRectangle
  simp only [rtrLoop_same hc]
  cases hr : rtrLoop d pg.defaultState (decide (pg.renderState.pageOffTimeDs > 0)) pg.values
      ⟨pg.renderState, .doneState (decide (pg.renderState.pageOffTimeDs > 0)), [], true⟩ with
  | panic p => simp
  | ok q =>
    obtain ⟨e, st, vals⟩ := q
    have h1 := rtrLoop_glyphIn hu.dflt hu.vals hst hr
    have h2 := rtrLoop_suffix hr
    simp only [Res.ok_bind]
    rw [← renderTextSpans_glyphs hc fun s hs => (hF s.state (h1.2 s hs).1).mono (h1.2 s hs).2]
    refine ⟨rfl, ?_⟩
    have key : UsesGlyphs S C { pg with renderState := st.rs, pageState := st.pageState, spans := st.spans,
                                        values := vals } := hu.suffix rfl h1.1 h2
    intro x pg' h
    cases e with
    | error e =>
      simp only [Res.pure_eq, Res.ok.injEq, Prod.mk.injEq] at h
      rw [← h.2]; exact key
    | ok u =>
      simp only at h
      split at h
      · simp at h
      · simp only [Res.pure_eq, Res.ok.injEq, Prod.mk.injEq] at h
        rw [← h.2]; exact key
      · simp only [Res.pure_eq, Res.ok.injEq, Prod.mk.injEq] at h
        rw [← h.2]; exact key

theorem onPageLoop_glyphs (hc : SameCfg d d') (hF : FontAlikeFonts S C d.fontDefinition d'.fontDefinition)
    (hG : d'.graphicDefinition = d.graphicDefinition)
    {fuel n : Nat} {pg : Pages} (hu : UsesGlyphs S C pg) (r : Raster) :
    onPageLoop d fuel n pg r = onPageLoop d' fuel n pg r ∧
    ∀ x pg', onPageLoop d fuel n pg r = .ok (x, pg') → UsesGlyphs S C pg' := by
  induction fuel generalizing n pg r with
  | zero =>
    refine ⟨rfl, fun x pg' h => ?_⟩
    simp only [onPageLoop, Res.ok.injEq, Prod.mk.injEq] at h
    rw [← h.2]; exact hu
  | succ fuel ih =>
    unfold onPageLoop
    rw [← renderGraphicsLoop_same (d := d) (d' := d') (T := fun _ => True) (fun n _ => by rw [hG])
      (fun _ _ _ _ _ => trivial)]
    by_cases hp : pg.pageState = .on false
    · simp only [if_pos hp]
      cases hr : renderGraphicsLoop d pg.values pg.renderState.colorCtx r with
      | panic p => simp
      | err e =>
        refine ⟨by simp only, fun x pg' h => ?_⟩
        simp only [Res.ok.injEq, Prod.mk.injEq] at h
        rw [← h.2]; exact hu
      | ok r1 =>
        have ht := renderTextRectangle_glyphs hc hF hu r1
        simp only
        rw [← ht.1]
        cases hq : renderTextRectangle d pg r1 with
        | panic p => simp
        | ok q =>
          obtain ⟨e, pg1⟩ := q
          have hu1 := ht.2 _ _ hq
          simp only [Res.ok_bind]
          cases e with
          | error e =>
            refine ⟨by simp only, fun x pg' h => ?_⟩
            simp only [Res.pure_eq, Res.ok.injEq, Prod.mk.injEq] at h
            rw [← h.2]; exact hu1
          | ok r2 =>
            simp only
            by_cases hm : n + 1 > maxTextRectangles
            · simp only [if_pos hm]
              refine ⟨trivial, fun x pg' h => ?_⟩
              simp only [Res.pure_eq, Res.ok.injEq, Prod.mk.injEq] at h
              rw [← h.2]; exact hu1
            · simp only [if_neg hm]
              exact ih hu1 r2
    · simp only [if_neg hp]
      refine ⟨trivial, fun x pg' h => ?_⟩
      simp only [Res.ok.injEq, Prod.mk.injEq] at h
      rw [← h.2]; exact hu

theorem updatePageStateLoop_fontId {ds : RenderState} {ss : List Str} {rs rs' : RenderState}
    {x : Except SyntaxError Unit} (h : updatePageStateLoop ds ss rs = .ok (x, rs')) :
    rs'.fontVersionId = rs.fontVersionId := by
  induction ss generalizing rs with
  | nil => simp only [updatePageStateLoop, Res.ok.injEq, Prod.mk.injEq] at h; rw [← h.2]
  | cons s ss ih =>
    unfold updatePageStateLoop at h
    split at h
    · simp at h
    · simp only [Res.ok.injEq, Prod.mk.injEq] at h; rw [← h.2]
    · split at h
      · split at h
        · have := ih h; exact this
        · simp only [Res.ok.injEq, Prod.mk.injEq] at h; rw [← h.2]
      · split at h
        · have := ih h; exact this
        · simp only [Res.ok.injEq, Prod.mk.injEq] at h; rw [← h.2]
      · simp only [Res.ok.injEq, Prod.mk.injEq] at h; rw [← h.2]
      · have := ih h; exact this
      · exact ih h

theorem renderOnPage_glyphs (hc : SameCfg d d') (hT : d'.multiCfg = d.multiCfg)
    (hF : FontAlikeFonts S C d.fontDefinition d'.fontDefinition) (hG : d'.graphicDefinition = d.graphicDefinition)
    {pg : Pages} (hu : UsesGlyphs S C pg) :
    renderOnPage d pg = renderOnPage d' pg ∧
    ∀ x pg', renderOnPage d pg = .ok (x, pg') → UsesGlyphs S C pg' := by
  unfold renderOnPage
  rw [checkUnsupported_same (d := d) (d' := d') (U := fun _ => True) (fun t _ => by rw [hT])
    (fun _ _ _ _ _ _ => trivial)]
  cases hcu : checkUnsupported d pg.values with
  | panic p => simp
  | err e =>
    refine ⟨by simp only, fun x pg' h => ?_⟩
    simp only [Res.ok.injEq, Prod.mk.injEq] at h
    rw [← h.2]; exact hu
  | ok u =>
    simp only
    cases hp : updatePageState pg.defaultState pg.renderState pg.values with
    | panic p => simp
    | ok q =>
      obtain ⟨e, rs⟩ := q
      have hn : S rs.fontNum rs.fontVersionId := by
        rw [updatePageState] at hp
        rw [updatePageStateLoop_fontNum hp, updatePageStateLoop_fontId hp]
        exact hu.cur
      simp only [Res.ok_bind]
      cases e with
      | error e =>
        refine ⟨by simp only, fun x pg' h => ?_⟩
        simp only [Res.pure_eq, Res.ok.injEq, Prod.mk.injEq] at h
        rw [← h.2]; exact hu.suffix rfl hn List.suffix_rfl
      | ok u =>
        simp only
        have hu1 : UsesGlyphs S C { pg with renderState := rs, pageState := .on false } :=
          hu.suffix rfl hn List.suffix_rfl
        have ho := onPageLoop_glyphs (fuel := maxTextRectangles + 2) (n := 0) hc hF hG hu1
          (buildRaster rs)
        rw [← ho.1]
        refine ⟨rfl, fun x pg' h => ?_⟩
        simp only [Res.bind_eq_ok] at h
        obtain ⟨⟨e, pg1⟩, h1, h2⟩ := h
        have hu2 := ho.2 _ _ h1
        cases e with
        | error e => simp only [Res.pure_eq, Res.ok.injEq, Prod.mk.injEq] at h2; rw [← h2.2]; exact hu2
        | ok r => simp only [Res.pure_eq, Res.ok.injEq, Prod.mk.injEq] at h2; rw [← h2.2]; exact hu2

theorem next_glyphs (hc : SameCfg d d') (hT : d'.multiCfg = d.multiCfg)
    (hF : FontAlikeFonts S C d.fontDefinition d'.fontDefinition) (hG : d'.graphicDefinition = d.graphicDefinition)
    {pg : Pages} (hu : UsesGlyphs S C pg) :
    Pages.next d pg = Pages.next d' pg ∧
    ∀ x pg', Pages.next d pg = .ok (x, pg') → UsesGlyphs S C pg' := by
  unfold Pages.next
  have ho := renderOnPage_glyphs hc hT hF hG hu
  rw [← ho.1]
  refine ⟨rfl, fun x pg' h => ?_⟩
  split at h
  · simp only [Res.bind_eq_ok, Res.pure_eq, Res.ok.injEq, Prod.mk.injEq] at h
    obtain ⟨⟨e, pg1⟩, h1, -, rfl⟩ := h
    exact ho.2 _ _ h1
  · simp only [renderOffPage, Res.ok.injEq, Prod.mk.injEq] at h
    rw [← h.2]; exact ⟨hu.dflt, hu.cur, hu.vals⟩
  · simp only [Res.ok.injEq, Prod.mk.injEq] at h
    rw [← h.2]; exact hu

theorem run_glyphs (hc : SameCfg d d') (hT : d'.multiCfg = d.multiCfg)
    (hF : FontAlikeFonts S C d.fontDefinition d'.fontDefinition) (hG : d'.graphicDefinition = d.graphicDefinition)
    (k : Nat) {pg : Pages} (hu : UsesGlyphs S C pg) :
    Pages.run d k pg = Pages.run d' k pg := by
  induction k generalizing pg with
  | zero => rfl
  | succ k ih =>
    unfold Pages.run
    have hn := next_glyphs hc hT hF hG hu
    rw [← hn.1]
    cases hq : Pages.next d pg with
    | panic p => simp
    | ok q =>
      obtain ⟨x, pg1⟩ := q
      simp only [Res.ok_bind]
      cases x with
      | none => simp only
      | some x => rw [ih (hn.2 _ _ hq)]

end Rtr
end Ntcip
