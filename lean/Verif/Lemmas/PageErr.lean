import Verif.Lemmas.PageRun
/-
Where the error "Too many text rectangles" comes from.
-/
namespace Ntcip
open Spec

/-- the error given when a page has too many text rectangles -/
def Spec.tooMany : SyntaxError := .other "Too many text rectangles"

theorem other_ne {s : String} (h : s ≠ "Too many text rectangles") : SyntaxError.other s ≠ tooMany := by
  simp only [tooMany, ne_eq, SyntaxError.other.injEq]; exact h

theorem orTagValue_ne {tag r e} (h : orTagValue tag r = .ok (.error e)) : e ≠ tooMany := by
  unfold orTagValue at h
  cases r with
  | panic p => simp [Res.map'] at h
  | ok o =>
    cases o with
    | none => simp [Res.map'] at h; subst h; simp [tooMany]
    | some v => simp [Res.map'] at h

/-- errors of a parser are not this error -/
def NeErr (r : Res (Except SyntaxError Value)) : Prop := ∀ e, r = .ok (.error e) → e ≠ tooMany

theorem neErr_ite {c : Prop} [Decidable c] {a b} (ha : NeErr a) (hb : NeErr b) :
    NeErr (if c then a else b) := by
  split
  · exact ha
  · exact hb

theorem parseTag_ne {tag e} (h : parseTag tag = .ok (.error e)) : e ≠ tooMany := by
  have ut : ∀ {e}, (Res.ok (Except.error (SyntaxError.unsupportedTag tag)) :
      Res (Except SyntaxError Value)) = .ok (.error e) → e ≠ tooMany := by
    intro e h; simp only [Res.ok.injEq, Except.error.injEq] at h; subst h; simp [tooMany]
  revert e
  show NeErr _
  unfold parseTag
  dsimp only
  iterate 22 (apply neErr_ite; first | exact fun _ h => orTagValue_ne h | exact fun _ h => ut h)
  exact fun _ h => ut h

theorem tryFrom_ne {s e} (h : tryFrom s = .ok (.error e)) : e ≠ tooMany := by
  unfold tryFrom at h
  split at h
  · simp at h
  · split at h
    · exact parseTag_ne h
    · split at h
      · simp only [Res.ok.injEq, Except.error.injEq] at h; subst h; simp [tooMany]
      · split at h
        · simp only [Res.ok.injEq, Except.error.injEq] at h; subst h; exact other_ne (by decide)
        · simp at h

theorem fontError_ne (e : FontError) : e.toSyntax ≠ tooMany := by
  cases e <;> first | exact other_ne (by decide) | simp [FontError.toSyntax, tooMany]

theorem graphicError_ne (e : GraphicError) : e.toSyntax ≠ tooMany := by
  cases e <;> exact other_ne (by decide)

theorem setForeground_ne {ctx : ColorCtx} {c v e} (h : ctx.setForeground c v = .error e) :
    e ≠ tooMany := by
  unfold ColorCtx.setForeground at h
  split at h <;> first
    | (simp at h; done)
    | (split at h <;> simp at h; subst h; simp [tooMany])
    | (simp at h; subst h; simp [tooMany])

theorem setBackground_ne {ctx : ColorCtx} {c v e} (h : ctx.setBackground c v = .error e) :
    e ≠ tooMany := by
  unfold ColorCtx.setBackground at h
  split at h <;> first
    | (simp at h; done)
    | (split at h <;> simp at h; subst h; simp [tooMany])
    | (simp at h; subst h; simp [tooMany])

theorem ofRes_ne_err {ε α : Type} {r : Res α} {e : ε} : Out.ofRes r ≠ .err e := by
  cases r <;> simp [Out.ofRes]

theorem font_ne {rs : RenderState} {t e} (h : rs.font t = .err e) : e ≠ tooMany := by
  unfold RenderState.font at h
  split at h
  · split at h <;> simp at h; subst h; simp [tooMany]
  · simp at h
  · simp at h; subst h; simp [tooMany]

theorem charSpacingFonts_ne {s : Span} {t e} (h : s.charSpacingFonts t = .err e) : e ≠ tooMany := by
  unfold Span.charSpacingFonts at h
  split at h
  · simp at h
  · simp only [Out.bind_eq_err, Out.pure_eq, reduceCtorEq, and_false, exists_false, or_false] at h
    exact font_ne h

theorem width_ne {s : Span} {t e} (h : s.width t = .err e) : e ≠ tooMany := by
  unfold Span.width at h
  simp only [Out.bind_eq_err, mapErr_eq_err] at h
  rcases h with h | ⟨f, _, h | ⟨cs, _, e', _, rfl⟩⟩
  · exact font_ne h
  · exact charSpacingFonts_ne h
  · exact fontError_ne _

theorem between_ne {s p : Span} {t e} (h : s.charSpacingBetween p t = .err e) : e ≠ tooMany := by
  unfold Span.charSpacingBetween at h
  split at h
  · simp at h
  · simp only [Out.bind_eq_err, Out.pure_eq, reduceCtorEq, and_false, exists_false, or_false] at h
    rcases h with h | ⟨_, _, h⟩
    · exact charSpacingFonts_ne h
    · exact charSpacingFonts_ne h

theorem height_ne {s : Span} {t e} (h : s.height t = .err e) : e ≠ tooMany := by
  unfold Span.height at h
  simp only [Out.bind_eq_err, Out.pure_eq, reduceCtorEq, and_false, exists_false, or_false] at h
  exact font_ne h

theorem fontSpacing_ne {s : Span} {t e} (h : s.fontSpacing t = .err e) : e ≠ tooMany := by
  unfold Span.fontSpacing at h
  simp only [Out.bind_eq_err, Out.pure_eq, reduceCtorEq, and_false, exists_false, or_false] at h
  exact font_ne h

theorem offsetHorizLoop_ne {t rs ss ps b a e} (h : offsetHorizLoop t rs ss ps b a = .err e) :
    e ≠ tooMany := by
  induction ss generalizing ps b a with
  | nil => simp [offsetHorizLoop] at h
  | cons s ss ih =>
    have last : ∀ {b a}, (do
        let w ← s.width t
        if s.state.spanNumber < rs.spanNumber then do
          let b ← .ofRes (chk16 (b + w))
          offsetHorizLoop t rs ss (some s) b a
        else do
          let a ← .ofRes (chk16 (a + w))
          offsetHorizLoop t rs ss (some s) b a : Out SyntaxError (Nat × Nat)) = .err e →
        e ≠ tooMany := by
      intro b a h
      simp only [Out.bind_eq_err] at h
      rcases h with h | ⟨w, _, h⟩
      · exact width_ne h
      · split at h
        · simp only [Out.bind_eq_err, ofRes_ne_err, false_or] at h
          obtain ⟨_, _, h⟩ := h; exact ih h
        · simp only [Out.bind_eq_err, ofRes_ne_err, false_or] at h
          obtain ⟨_, _, h⟩ := h; exact ih h
    unfold offsetHorizLoop at h
    cases ps with
    | none => exact last h
    | some p =>
      simp only [Out.bind_eq_err] at h
      rcases h with h | ⟨w, _, h⟩
      · exact between_ne h
      · split at h
        · simp only [Out.bind_eq_err, ofRes_ne_err, false_or, Out.pure_eq, Out.ok_bind] at h
          obtain ⟨_, _, h⟩ := h
          exact last (by simpa only [Out.bind_eq_err, ofRes_ne_err, false_or] using h)
        · simp only [Out.bind_eq_err, ofRes_ne_err, false_or, Out.pure_eq, Out.ok_bind] at h
          obtain ⟨_, _, h⟩ := h
          exact last (by simpa only [Out.bind_eq_err, ofRes_ne_err, false_or] using h)

theorem offsetHoriz_ne {d spans s e} (h : offsetHoriz d spans s = .err e) : e ≠ tooMany := by
  unfold offsetHoriz at h
  simp only [Out.bind_eq_err, ofRes_ne_err, false_or] at h
  rcases h with h | ⟨⟨b, a⟩, _, t, _, h⟩
  · exact offsetHorizLoop_ne h
  · split at h <;> simp at h
    subst h; simp [tooMany]

theorem spanX_ne {d spans s e} (h : spanX d spans s = .err e) : e ≠ tooMany := by
  unfold spanX at h
  split at h
  · unfold spanXLeft at h
    simp only [Out.bind_eq_err, ofRes_ne_err, false_or, and_false, exists_false, or_false] at h
    obtain ⟨_, _, h⟩ := h; exact offsetHoriz_ne h
  · unfold spanXCenter at h
    simp only [Out.bind_eq_err, ofRes_ne_err, false_or, and_false, exists_false, or_false] at h
    obtain ⟨_, _, h⟩ := h; exact offsetHoriz_ne h
  · unfold spanXRight at h
    simp only [Out.bind_eq_err, ofRes_ne_err, false_or, and_false, exists_false, or_false] at h
    obtain ⟨_, _, h⟩ := h; exact offsetHoriz_ne h
  · simp at h

theorem textLines_ne {t ss ls e} (h : textLines t ss ls = .err e) : e ≠ tooMany := by
  induction ss generalizing ls with
  | nil => simp [textLines] at h
  | cons s ss ih =>
    unfold textLines at h
    simp only [Out.bind_eq_err] at h
    rcases h with h | ⟨_, _, h | ⟨_, _, h⟩⟩
    · exact height_ne h
    · exact fontSpacing_ne h
    · split at h <;> exact ih h

theorem offsetVert_ne {d spans s e} (h : offsetVert d spans s = .err e) : e ≠ tooMany := by
  unfold offsetVert at h
  simp only [Out.bind_eq_err, ofRes_ne_err, false_or] at h
  rcases h with h | ⟨_, _, ⟨b, a⟩, _, t, _, h⟩
  · exact textLines_ne h
  · split at h <;> simp at h
    subst h; simp [tooMany]

theorem baseline_ne {d spans s e} (h : baseline d spans s = .err e) : e ≠ tooMany := by
  unfold baseline at h
  split at h
  · unfold baselineTop at h
    simp only [Out.bind_eq_err, ofRes_ne_err, false_or, and_false, exists_false, or_false] at h
    obtain ⟨_, _, h⟩ := h; exact offsetVert_ne h
  · unfold baselineMiddle at h
    simp only [Out.bind_eq_err, ofRes_ne_err, false_or, and_false, exists_false, or_false] at h
    obtain ⟨_, _, h⟩ := h; exact offsetVert_ne h
  · unfold baselineBottom at h
    simp only [Out.bind_eq_err, ofRes_ne_err, false_or, and_false, exists_false, or_false] at h
    obtain ⟨_, _, h⟩ := h; exact offsetVert_ne h
  · simp at h

theorem spanY_ne {d spans s e} (h : spanY d spans s = .err e) : e ≠ tooMany := by
  unfold spanY at h
  simp only [Out.bind_eq_err, ofRes_ne_err, and_false, exists_false, or_false] at h
  rcases h with h | ⟨_, _, h⟩
  · exact baseline_ne h
  · exact height_ne h

theorem renderSpansLoop_ne {d all ss r e} (h : renderSpansLoop d all ss r = .err e) : e ≠ tooMany := by
  induction ss generalizing r with
  | nil => simp [renderSpansLoop] at h
  | cons s ss ih =>
    unfold renderSpansLoop at h
    simp only [Out.bind_eq_err] at h
    rcases h with h | ⟨_, _, h | ⟨_, _, h | ⟨_, _, h | ⟨_, _, h⟩⟩⟩⟩
    · exact spanX_ne h
    · exact spanY_ne h
    · exact font_ne h
    · unfold Span.renderText at h
      simp only [mapErr_eq_err] at h
      obtain ⟨e', _, rfl⟩ := h; exact fontError_ne _
    · exact ih h

theorem checkJustLoop_ne {jp jl ln ss e} (h : checkJustLoop jp jl ln ss = .error e) : e ≠ tooMany := by
  induction ss generalizing jp jl ln with
  | nil => simp [checkJustLoop] at h
  | cons s ss ih =>
    unfold checkJustLoop at h
    dsimp only at h
    split at h
    · simp at h; subst h; simp [tooMany]
    · exact ih h

theorem renderTextSpans_ne {d spans r e} (h : renderTextSpans d spans r = .err e) : e ≠ tooMany := by
  unfold renderTextSpans at h
  split at h
  · rename_i h1; simp at h; subst h; exact checkJustLoop_ne h1
  · exact renderSpansLoop_ne h

theorem renderRect_ne {r rect c v e} (h : renderRect r rect c v = .err e) : e ≠ tooMany := by
  unfold renderRect at h
  split at h
  · simp at h
  · split at h
    · simp at h
    · simp only [Out.bind_eq_err, ofRes_ne_err, false_or] at h
      obtain ⟨_, _, h⟩ := h
      split at h <;> simp at h
      subst h; simp [tooMany]

theorem lookupGraphic_ne {d n i e} (h : lookupGraphic d n i = .err e) : e ≠ tooMany := by
  unfold lookupGraphic at h
  split at h
  · simp at h
  · split at h <;> simp at h; subst h; simp [tooMany]
  · simp at h; subst h; simp [tooMany]

theorem renderGraphicsLoop_ne {d ss ctx r e} (h : renderGraphicsLoop d ss ctx r = .err e) :
    e ≠ tooMany := by
  induction ss generalizing ctx r with
  | nil => simp [renderGraphicsLoop] at h
  | cons s ss ih =>
    unfold renderGraphicsLoop at h
    simp only [Out.bind_eq_err, ofRes_ne_err, false_or, ofExcept_eq_err] at h
    obtain ⟨v, hv, h | ⟨val, hval, h⟩⟩ := h
    · subst h
      cases hs : tryFrom s with
      | panic p => simp [hs, Out.ofRes] at hv
      | ok x => simp [hs, Out.ofRes] at hv; subst hv; exact tryFrom_ne hs
    · split at h <;> try simp only [Out.bind_eq_err, ofExcept_eq_err, mapErr_eq_err] at h
      · rcases h with h | ⟨_, _, h⟩
        · exact setBackground_ne h
        · exact ih h
      · rcases h with h | ⟨_, _, h⟩
        · exact setForeground_ne h
        · exact ih h
      · rcases h with h | ⟨_, _, h | ⟨_, _, h⟩⟩
        · exact setForeground_ne h
        · exact renderRect_ne h
        · exact ih h
      · simp at h
      · simp at h
      · simp at h
      · rcases h with h | ⟨_, _, ⟨e', _, rfl⟩ | ⟨_, _, h⟩⟩
        · exact lookupGraphic_ne h
        · exact graphicError_ne _
        · exact ih h
      · rcases h with h | ⟨_, _, ⟨e', _, rfl⟩ | ⟨_, _, h⟩⟩
        · exact lookupGraphic_ne h
        · exact graphicError_ne _
        · exact ih h
      · simp at h
      · simp at h
      · simp at h
      · simp at h
      · simp at h
      · exact ih h

theorem rtrStep_ne {d ds po st v st' e} (h : rtrStep d ds po st v = .ok (.fail e, st')) :
    e ≠ tooMany := by
  unfold rtrStep at h
  split at h <;> dsimp only at h
  · split at h <;> simp at h
    rename_i h1; rw [← h.1]; exact setForeground_ne h1
  · simp at h
  · simp at h
  · simp at h; rw [← h.1]; simp [tooMany]
  · simp at h; rw [← h.1]; simp [tooMany]
  · simp at h
  · simp at h; rw [← h.1]; simp [tooMany]
  · split at h <;> simp at h
  · split at h <;> simp at h
    rw [← h.1]; simp [tooMany]
  · simp at h
  · split at h <;> simp at h
    rw [← h.1]; simp [tooMany]
  · simp at h
  · simp only [Res.bind_eq_ok] at h
    obtain ⟨o, _, h⟩ := h
    cases o <;> simp at h
    rw [← h.1]; simp [tooMany]
  · simp at h
  · split at h <;> simp at h
    rw [← h.1]; simp [tooMany]
  · simp at h

theorem rtrLoop_ne {d ds po ss st st' rest e} (h : rtrLoop d ds po ss st = .ok (.error e, st', rest)) :
    e ≠ tooMany := by
  induction ss generalizing st with
  | nil => simp [rtrLoop] at h
  | cons s ss ih =>
    unfold rtrLoop at h
    split at h
    · simp at h
    · rename_i h1; simp at h; rw [← h.1]; exact tryFrom_ne h1
    · split at h
      · simp at h
      · exact ih h
      · simp at h
      · rename_i h1; simp at h; rw [← h.1]; exact rtrStep_ne h1

theorem renderTextRectangle_ne {d pg raster e pg'}
    (h : renderTextRectangle d pg raster = .ok (.error e, pg')) : e ≠ tooMany := by
  unfold renderTextRectangle at h
  simp only [Res.bind_eq_ok] at h
  obtain ⟨⟨x, st, values⟩, h1, h2⟩ := h
  cases x with
  | error e' =>
    simp only [Res.pure_eq, Res.ok.injEq, Prod.mk.injEq, Except.error.injEq] at h2
    rw [← h2.1]; exact rtrLoop_ne h1
  | ok u =>
    simp only at h2
    split at h2
    · simp at h2
    · rename_i h3
      simp only [Res.pure_eq, Res.ok.injEq, Prod.mk.injEq, Except.error.injEq] at h2
      rw [← h2.1]; exact renderTextSpans_ne h3
    · simp at h2

/-- the error comes with 50 `[tr]` tags -/
theorem onPageLoop_many {d fuel n pg raster pg'}
    (h : onPageLoop d fuel n pg raster = .ok (.error tooMany, pg')) (hs : pg.pageState = .on false)
    {vs rest b} (ht : TakePage pg.values vs rest b) : maxTextRectangles ≤ n + countTr vs := by
  induction fuel generalizing n pg raster vs with
  | zero => simp [onPageLoop] at h
  | succ fuel ih =>
    rw [onPageLoop, if_pos hs] at h
    split at h
    · simp at h
    · rename_i h1
      simp only [Res.ok.injEq, Prod.mk.injEq, Except.error.injEq] at h
      exact absurd h.1 (renderGraphicsLoop_ne h1)
    · rename_i r1 hg
      simp only [Res.bind_eq_ok] at h
      obtain ⟨⟨x, pg1⟩, h1, h2⟩ := h
      cases x with
      | error e =>
        simp only [Res.pure_eq, Res.ok.injEq, Prod.mk.injEq, Except.error.injEq] at h2
        exact absurd h2.1 (renderTextRectangle_ne h1)
      | ok r2 =>
        obtain ⟨st, values, hl, rfl, hts⟩ := renderTextRectangle_ok h1
        obtain ⟨l1, -⟩ := rtrLoop_ok hl
        simp only at h2
        split at h2
        · omega
        · rcases l1 _ _ _ ht with ⟨e1, ws, us, q, q', rfl, e2, e3, e4, e5⟩ | ⟨rfl, e1, e2, e3⟩
          · have := ih h2 e1 e3
            rw [countTr_append, countTr_cons_tr]; omega
          · cases fuel with
            | zero => simp [onPageLoop] at h2
            | succ f =>
              rw [onPageLoop, if_neg (by rw [e1]; exact pageEnd_ne b _)] at h2
              simp at h2

theorem updatePageStateLoop_ne {ds ss rs e rs'}
    (h : updatePageStateLoop ds ss rs = .ok (.error e, rs')) : e ≠ tooMany := by
  induction ss generalizing rs with
  | nil => simp [updatePageStateLoop] at h
  | cons s ss ih =>
    unfold updatePageStateLoop at h
    split at h
    · simp at h
    · rename_i h1; simp at h; rw [← h.1]; exact tryFrom_ne h1
    · split at h
      · split at h
        · exact ih h
        · rename_i h1; simp at h; rw [← h.1]; exact setBackground_ne h1
      · split at h
        · exact ih h
        · rename_i h1; simp at h; rw [← h.1]; exact setBackground_ne h1
      · simp at h
      · exact ih h
      · exact ih h

theorem checkUnsupported_ne {d ss e} (h : checkUnsupported d ss = .err e) : e ≠ tooMany := by
  induction ss with
  | nil => simp [checkUnsupported] at h
  | cons s ss ih =>
    unfold checkUnsupported at h
    simp only [Out.bind_eq_err, ofRes_ne_err, false_or, ofExcept_eq_err] at h
    obtain ⟨v, hv, h | ⟨val, hval, h⟩⟩ := h
    · subst h
      cases hs : tryFrom s with
      | panic p => simp [hs, Out.ofRes] at hv
      | ok x => simp [hs, Out.ofRes] at hv; subst hv; exact tryFrom_ne hs
    · split at h
      · split at h
        · simp at h; subst h; simp [tooMany]
        · split at h
          · simp at h
          · exact ih h
      · exact ih h

/-- a page rejected for the number of text rectangles has 50 or more -/
theorem renderOnPage_many {d pg pg'} (h : renderOnPage d pg = .ok (.error tooMany, pg')) :
    ∃ vs rest b, TakePage pg.values vs rest b ∧ maxTextRectangles ≤ countTr vs := by
  unfold renderOnPage at h
  split at h
  · simp at h
  · rename_i h1; simp at h; exact absurd h.1 (checkUnsupported_ne h1)
  · rename_i hc
    obtain ⟨vs, rest, b, ht, -⟩ := checkUnsupported_ok hc
    simp only [Res.bind_eq_ok] at h
    obtain ⟨⟨x, rs⟩, h1, h2⟩ := h
    cases x with
    | error e =>
      simp only [Res.pure_eq, Res.ok.injEq, Prod.mk.injEq, Except.error.injEq] at h2
      exact absurd h2.1 (updatePageStateLoop_ne h1)
    | ok u =>
      simp only [Res.bind_eq_ok] at h2
      obtain ⟨⟨y, pg1⟩, h2, h3⟩ := h2
      cases y with
      | error e =>
        simp only [Res.pure_eq, Res.ok.injEq, Prod.mk.injEq, Except.error.injEq] at h3
        obtain ⟨rfl, rfl⟩ := h3
        exact ⟨vs, rest, b, ht, by simpa using onPageLoop_many h2 rfl ht⟩
      | ok r => simp at h3

/-! ### the values left are a suffix -/

theorem rtrLoop_suffix {d ds po ss st x st' rest} (h : rtrLoop d ds po ss st = .ok (x, st', rest)) :
    rest <:+ ss := by
  induction ss generalizing st with
  | nil => simp only [rtrLoop, Res.ok.injEq, Prod.mk.injEq] at h; rw [← h.2.2]; exact List.suffix_refl _
  | cons s ss ih =>
    unfold rtrLoop at h
    split at h
    · simp at h
    · simp only [Res.ok.injEq, Prod.mk.injEq] at h; rw [← h.2.2]; exact List.suffix_cons ..
    · split at h
      · simp at h
      · exact (ih h).trans (List.suffix_cons ..)
      · simp only [Res.ok.injEq, Prod.mk.injEq] at h; rw [← h.2.2]; exact List.suffix_cons ..
      · simp only [Res.ok.injEq, Prod.mk.injEq] at h; rw [← h.2.2]; exact List.suffix_cons ..

theorem renderTextRectangle_suffix {d pg raster x pg'}
    (h : renderTextRectangle d pg raster = .ok (x, pg')) : pg'.values <:+ pg.values := by
  unfold renderTextRectangle at h
  simp only [Res.bind_eq_ok] at h
  obtain ⟨⟨y, st, values⟩, h1, h2⟩ := h
  have key : pg' = ⟨pg.defaultState, st.rs, st.pageState, values, st.spans⟩ := by
    cases y with
    | error e => simp only [Res.pure_eq, Res.ok.injEq, Prod.mk.injEq] at h2; exact h2.2.symm
    | ok u =>
      simp only at h2
      split at h2
      · simp at h2
      · simp only [Res.pure_eq, Res.ok.injEq, Prod.mk.injEq] at h2; exact h2.2.symm
      · simp only [Res.pure_eq, Res.ok.injEq, Prod.mk.injEq] at h2; exact h2.2.symm
  subst key
  exact rtrLoop_suffix h1

theorem onPageLoop_suffix {d fuel n pg raster x pg'}
    (h : onPageLoop d fuel n pg raster = .ok (x, pg')) : pg'.values <:+ pg.values := by
  induction fuel generalizing n pg raster with
  | zero =>
    simp only [onPageLoop, Res.ok.injEq, Prod.mk.injEq] at h
    obtain ⟨_, rfl⟩ := h; exact List.suffix_refl _
  | succ fuel ih =>
    rw [onPageLoop] at h
    split at h
    · split at h
      · simp at h
      · simp only [Res.ok.injEq, Prod.mk.injEq] at h
        obtain ⟨_, rfl⟩ := h; exact List.suffix_refl _
      · simp only [Res.bind_eq_ok] at h
        obtain ⟨⟨y, pg1⟩, h1, h2⟩ := h
        have k := renderTextRectangle_suffix h1
        cases y with
        | error e =>
          simp only [Res.pure_eq, Res.ok.injEq, Prod.mk.injEq] at h2
          obtain ⟨_, rfl⟩ := h2; exact k
        | ok r =>
          simp only at h2
          split at h2
          · simp only [Res.pure_eq, Res.ok.injEq, Prod.mk.injEq] at h2
            obtain ⟨_, rfl⟩ := h2; exact k
          · exact (ih h2).trans k
    · simp only [Res.ok.injEq, Prod.mk.injEq] at h
      obtain ⟨_, rfl⟩ := h; exact List.suffix_refl _

theorem next_suffix {d pg x pg'} (h : Pages.next d pg = .ok (some x, pg')) :
    pg'.values <:+ pg.values := by
  rcases next_cases h with ⟨_, h⟩ | ⟨_, _, _, rfl⟩
  · unfold renderOnPage at h
    split at h
    · simp at h
    · simp only [Res.ok.injEq, Prod.mk.injEq] at h
      obtain ⟨_, rfl⟩ := h; exact List.suffix_refl _
    · simp only [Res.bind_eq_ok] at h
      obtain ⟨⟨y, rs⟩, h1, h2⟩ := h
      cases y with
      | error e =>
        simp only [Res.pure_eq, Res.ok.injEq, Prod.mk.injEq] at h2
        obtain ⟨_, rfl⟩ := h2; exact List.suffix_refl _
      | ok u =>
        simp only [Res.bind_eq_ok] at h2
        obtain ⟨⟨z, pg1⟩, h3, h4⟩ := h2
        have k := onPageLoop_suffix h3
        cases z with
        | error e =>
          simp only [Res.pure_eq, Res.ok.injEq, Prod.mk.injEq] at h4
          obtain ⟨_, rfl⟩ := h4; exact k
        | ok r =>
          simp only [Res.pure_eq, Res.ok.injEq, Prod.mk.injEq] at h4
          obtain ⟨_, rfl⟩ := h4; exact k
  · exact List.suffix_refl _

/-- is the item a `[tr]` tag? -/
def Spec.isTr (s : Str) : Bool :=
  match tryFrom s with
  | .ok (.ok (.textRectangle _)) => true
  | _ => false

theorem takePage_countTr {ss vs rest b} (h : TakePage ss vs rest b) :
    countTr vs ≤ ss.countP isTr := by
  induction h with
  | nil => simp [countTr]
  | np _ => simp [countTr]
  | @cons s v ss vs rest b hv _ _ ih =>
    simp only [countTr, List.countP_cons] at ih ⊢
    have e : ∀ r, v = .textRectangle r → isTr s = true := by rintro r rfl; simp [isTr, hv]
    cases v <;> simp [e] <;> omega

theorem next_countTr {d pg x pg'} (h : Pages.next d pg = .ok (some x, pg')) :
    pg'.values.countP isTr ≤ pg.values.countP isTr := (next_suffix h).sublist.countP_le

end Ntcip
