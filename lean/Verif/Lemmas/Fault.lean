import Verif.Spec.Fault
import Verif.Props.Grammar
import Verif.Lemmas.Accept
/-
Lemmas on the errors of the renderer, and the faults they tell of.
-/
namespace Ntcip
open Spec

/-! ### text -/

theorem font_fault {d : Dms} {rect spans} {s : Span} {e} (hs : s ∈ spans) (h : s.state.font d.fontDefinition = .err e) :
    TextFault d rect spans e := by
  unfold RenderState.font at h
  split at h
  · rename_i f v h1 h2
    split at h
    · simp at h
    · rename_i hv
      simp only [Out.err.injEq] at h
      subst h
      have h3 := List.find?_some h1
      exact .version hs (List.mem_of_find?_eq_some h1) (by simpa using h3) h2 hv
  · simp at h
  · rename_i h1
    simp only [Out.err.injEq] at h
    subst h
    refine .noFont hs fun f hf => ?_
    unfold FontTable.font at h1
    rw [List.find?_eq_none] at h1
    simpa using h1 f hf

theorem charSpacingFonts_fault {d : Dms} {rect spans} {s : Span} {e} (hs : s ∈ spans)
    (h : s.charSpacingFonts d.fontDefinition = .err e) : TextFault d rect spans e := by
  unfold Span.charSpacingFonts at h
  split at h
  · simp at h
  · simp only [Out.bind_eq_err] at h
    rcases h with h | ⟨_, _, h⟩
    · exact font_fault hs h
    · simp at h

theorem between_fault {d : Dms} {rect spans} {s p : Span} {e} (hs : s ∈ spans) (hp : p ∈ spans)
    (h : s.charSpacingBetween p d.fontDefinition = .err e) : TextFault d rect spans e := by
  unfold Span.charSpacingBetween at h
  split at h
  · simp at h
  · simp only [Out.bind_eq_err] at h
    rcases h with h | ⟨_, _, h | ⟨_, _, h⟩⟩
    · exact charSpacingFonts_fault hp h
    · exact charSpacingFonts_fault hs h
    · simp at h

theorem character_fault {f : Font} {c : Char} (h : f.character c = none) :
    ∀ e ∈ f.characters, e.number.toNat ≠ c.toNat := by
  intro e he
  unfold Font.character at h
  split at h
  · rw [List.find?_eq_none] at h
    simpa using h e he
  · have := e.number.toNat_lt; omega

theorem width_fault {d : Dms} {rect spans} {s : Span} {e} (hs : s ∈ spans)
    (h : s.width d.fontDefinition = .err e) : TextFault d rect spans e := by
  unfold Span.width at h
  simp only [Out.bind_eq_err, mapErr_eq_err] at h
  rcases h with h | ⟨f, hf, h | ⟨_, _, e', h, rfl⟩⟩
  · exact font_fault hs h
  · exact charSpacingFonts_fault hs h
  · obtain ⟨pre, ch, post, es, h1, _, h2, rfl, _⟩ := (C27_err_iff ..).1 h
    exact .character hs (font_ok.1 hf) (by rw [h1]; simp) (character_fault h2)

theorem offsetHorizLoop_fault {d : Dms} {rect spans rs} {ss : List Span} : ∀ {ps b a e}, (∀ s ∈ ss, s ∈ spans) →
    (∀ p, ps = some p → p ∈ spans) → offsetHorizLoop d.fontDefinition rs ss ps b a = .err e →
    TextFault d rect spans e := by
  induction ss with
  | nil => intro ps b a e _ _ h; simp [offsetHorizLoop] at h
  | cons s ss ih =>
    have first : ∀ {b a e}, (∀ x ∈ s :: ss, x ∈ spans) →
        offsetHorizLoop d.fontDefinition rs (s :: ss) none b a = .err e → TextFault d rect spans e := by
      intro b a e hm h
      have hs := hm s (List.mem_cons_self ..)
      have hr : ∀ x ∈ ss, x ∈ spans := fun x hx => hm x (List.mem_cons_of_mem _ hx)
      rw [offsetHorizLoop_first] at h
      simp only [Out.bind_eq_err] at h
      rcases h with h | ⟨w, _, h⟩
      · exact width_fault hs h
      · split at h
        · simp only [Out.bind_eq_err, Out.ofRes_ne_err, false_or] at h
          obtain ⟨_, _, h⟩ := h
          exact ih hr (by rintro p ⟨⟩; exact hs) h
        · simp only [Out.bind_eq_err, Out.ofRes_ne_err, false_or] at h
          obtain ⟨_, _, h⟩ := h
          exact ih hr (by rintro p ⟨⟩; exact hs) h
    intro ps b a e hm hp h
    cases ps with
    | none => exact first hm h
    | some p =>
      rw [offsetHorizLoop_next] at h
      simp only [Out.bind_eq_err] at h
      rcases h with h | ⟨w, _, h⟩
      · exact between_fault (hm s (List.mem_cons_self ..)) (hp p rfl) h
      · split at h
        · simp only [Out.bind_eq_err, Out.ofRes_ne_err, false_or] at h
          obtain ⟨_, _, h⟩ := h
          exact first hm h
        · simp only [Out.bind_eq_err, Out.ofRes_ne_err, false_or] at h
          obtain ⟨_, _, h⟩ := h
          exact first hm h

theorem offsetHoriz_fault {d : Dms} {rect spans} {s : Span} {e} (hs : s ∈ spans) (hr : s.state.textRectangle = rect)
    (h : offsetHoriz d spans s = .err e) : TextFault d rect spans e := by
  unfold offsetHoriz at h
  dsimp only at h
  rw [matchesSpan_filter] at h
  simp only [Out.bind_eq_err, Out.ofRes_ne_err, false_or] at h
  rcases h with h | ⟨⟨b, a⟩, h1, t, h2, h3⟩
  · exact offsetHorizLoop_fault (fun x hx => (List.mem_filter.1 hx).1) (by simp) h
  · dsimp only at h2 h3
    simp only [Out.ofRes_eq_ok, chk16_ok] at h2
    split at h3
    · simp at h3
    · rename_i ht
      simp only [Out.err.injEq] at h3
      subst h3
      obtain ⟨x, y, hh, e1, e2⟩ := offsetHorizLoop_ok h1
      refine .tooWide hs (hsum_lineWidth hh) ?_
      rw [← hr]
      omega

theorem spanX_fault {d : Dms} {rect spans} {s : Span} {e} (hs : s ∈ spans) (hr : s.state.textRectangle = rect)
    (h : spanX d spans s = .err e) : TextFault d rect spans e := by
  unfold spanX spanXLeft spanXCenter spanXRight at h
  split at h
  · simp only [Out.bind_eq_err, Out.ofRes_ne_err, false_or, and_false, exists_false, or_false] at h
    obtain ⟨_, _, h⟩ := h
    exact offsetHoriz_fault hs hr h
  · simp only [Out.bind_eq_err, Out.ofRes_ne_err, false_or, and_false, exists_false, or_false] at h
    obtain ⟨_, _, h⟩ := h
    exact offsetHoriz_fault hs hr h
  · simp only [Out.bind_eq_err, Out.ofRes_ne_err, false_or, and_false, exists_false, or_false] at h
    obtain ⟨_, _, h⟩ := h
    exact offsetHoriz_fault hs hr h
  · simp at h

theorem textLines_fault {d : Dms} {rect spans} {ss : List Span} : ∀ {ls e}, (∀ s ∈ ss, s ∈ spans) →
    textLines d.fontDefinition ss ls = .err e → TextFault d rect spans e := by
  induction ss with
  | nil => intro ls e _ h; simp [textLines] at h
  | cons s ss ih =>
    intro ls e hm h
    have hs := hm s (List.mem_cons_self ..)
    have hr : ∀ x ∈ ss, x ∈ spans := fun x hx => hm x (List.mem_cons_of_mem _ hx)
    unfold textLines Span.height Span.fontSpacing at h
    simp only [Out.bind_eq_err] at h
    rcases h with (h | ⟨_, _, h⟩) | ⟨_, _, (h | ⟨_, _, h⟩) | ⟨_, _, h⟩⟩
    · exact font_fault hs h
    · simp at h
    · exact font_fault hs h
    · simp at h
    · split at h
      · exact ih hr h
      · exact ih hr h

theorem offsetVert_fault {d : Dms} {rect spans} {s : Span} {e} (hs : s ∈ spans) (hr : s.state.textRectangle = rect)
    (h : offsetVert d spans s = .err e) : TextFault d rect spans e ∨ (e = .textTooBig ∧ Gaps spans) := by
  have h0 := h
  unfold offsetVert at h
  dsimp only at h
  rw [matchesLine_filter] at h
  simp only [Out.bind_eq_err, Out.ofRes_ne_err, false_or] at h
  rcases h with h | ⟨ls, h1, ⟨a, b⟩, h2, t, h3, h4⟩
  · exact .inl (textLines_fault (fun x hx => (List.mem_filter.1 hx).1) h)
  · dsimp only at h3 h4
    simp only [Out.ofRes_eq_ok, chk16_ok] at h2 h3
    split at h4
    · simp at h4
    · rename_i ht
      simp only [Out.err.injEq] at h4
      subst h4
      by_cases hd : ∃ n, Dense 0 (samePage spans s) n
      · obtain ⟨n, hd⟩ := hd
        left
        refine .tooHigh hs hd ?_
        have hf : ∀ x ∈ samePage spans s, ∃ f, FontOf d.fontDefinition x f := fun x hx => by
          obtain ⟨f, hf, _⟩ := textLines_own h1 hx; exact ⟨f, hf⟩
        rw [textLines_spec hd hf, Out.ok.injEq] at h1
        subst h1
        obtain ⟨v1, v2, v3⟩ := vSum_zero (full := decide (d.vmsCfg.charHeightPixels = 0)) (t := d.fontDefinition)
          (ss := samePage spans s) ((dense_lt hd).2 s (mem_samePage hs))
        obtain ⟨e1, e2⟩ := offsetVertLoop_ok h2
        unfold Dms.charHeight at e1 e2
        rw [v1] at e1
        rw [v2] at e2
        rw [← hr]
        omega
      · exact .inr ⟨rfl, s, hs, fun n hn => hd ⟨n, hn⟩⟩

theorem spanY_fault {d : Dms} {rect spans} {s : Span} {e} (hs : s ∈ spans) (hr : s.state.textRectangle = rect)
    (h : spanY d spans s = .err e) : TextFault d rect spans e ∨ (e = .textTooBig ∧ Gaps spans) := by
  unfold spanY at h
  simp only [Out.bind_eq_err, Out.ofRes_ne_err, and_false, exists_false, or_false] at h
  rcases h with h | ⟨_, _, h⟩
  · unfold baseline baselineTop baselineMiddle baselineBottom at h
    split at h
    · simp only [Out.bind_eq_err, Out.ofRes_ne_err, false_or, and_false, exists_false, or_false] at h
      obtain ⟨_, _, h⟩ := h
      exact offsetVert_fault hs hr h
    · simp only [Out.bind_eq_err, Out.ofRes_ne_err, false_or, and_false, exists_false, or_false] at h
      obtain ⟨_, _, h⟩ := h
      exact offsetVert_fault hs hr h
    · simp only [Out.bind_eq_err, Out.ofRes_ne_err, false_or, and_false, exists_false, or_false] at h
      obtain ⟨_, _, h⟩ := h
      exact offsetVert_fault hs hr h
    · simp at h
  · unfold Span.height at h
    simp only [Out.bind_eq_err] at h
    rcases h with h | ⟨_, _, h⟩
    · exact .inl (font_fault hs h)
    · simp at h

theorem renderTextLoop_fault {f : Font} {x y cs cf} {str : Str} : ∀ {page xx e},
    f.renderTextLoop x y cs cf page xx str = .err e → ∃ c ∈ str, f.character c = none ∧ e = .invalidChar c := by
  induction str with
  | nil => intro page xx e h; simp [Font.renderTextLoop] at h
  | cons c str ih =>
    intro page xx e h
    rw [Font.renderTextLoop] at h
    split at h
    · rename_i hc
      simp only [Out.err.injEq] at h
      exact ⟨c, List.mem_cons_self .., hc, h.symm⟩
    · simp only [Out.bind_eq_err, Out.ofRes_ne_err, false_or] at h
      obtain ⟨_, _, h⟩ := h
      obtain ⟨c', h1, h2⟩ := ih h
      exact ⟨c', List.mem_cons_of_mem _ h1, h2⟩

theorem renderSpansLoop_fault {d : Dms} {rect spans} {ss : List Span} : ∀ {page e}, (∀ s ∈ ss, s ∈ spans) →
    (∀ s ∈ spans, s.state.textRectangle = rect) → renderSpansLoop d spans ss page = .err e →
    TextFault d rect spans e ∨ (e = .textTooBig ∧ Gaps spans) := by
  induction ss with
  | nil => intro page e _ _ h; simp [renderSpansLoop] at h
  | cons s ss ih =>
    intro page e hm hr h
    have hs := hm s (List.mem_cons_self ..)
    unfold renderSpansLoop at h
    simp only [Out.bind_eq_err] at h
    rcases h with h | ⟨_, _, h | ⟨_, _, h | ⟨f, hf, h | ⟨_, _, h⟩⟩⟩⟩
    · exact .inl (spanX_fault hs (hr s hs) h)
    · exact spanY_fault hs (hr s hs) h
    · exact .inl (font_fault hs h)
    · unfold Span.renderText Font.renderText at h
      rw [mapErr_eq_err] at h
      obtain ⟨e', h, rfl⟩ := h
      obtain ⟨c, h1, h2, rfl⟩ := renderTextLoop_fault h
      exact .inl (.character hs (font_ok.1 hf) h1 (character_fault h2))
    · exact ih (fun x hx => hm x (List.mem_cons_of_mem _ hx)) hr h

theorem renderTextSpans_fault {d : Dms} {rect spans page e} (hr : ∀ s ∈ spans, s.state.textRectangle = rect)
    (h : renderTextSpans d spans page = .err e) :
    TextFault d rect spans e ∨ (e = .textTooBig ∧ Gaps spans) := by
  unfold renderTextSpans at h
  split at h
  · rename_i hj
    simp only [Out.err.injEq] at h
    subst h
    obtain ⟨rfl, i, x, y, h1, h2, h3⟩ := (C47_adjacent ..).1 hj
    exact .inl (.conflict h1 h2 h3)
  · exact renderSpansLoop_fault (fun _ h => h) hr h

/-! ### faults depend on the pieces of the spans only -/

theorem getElem?_pieces {ss ss' : List Span} (h : ss.map pieceOf = ss'.map pieceOf) {i : Nat} {s : Span}
    (hs : ss[i]? = some s) : ∃ s', ss'[i]? = some s' ∧ pieceOf s' = pieceOf s := by
  have : (ss'.map pieceOf)[i]? = some (pieceOf s) := by rw [← h, List.getElem?_map, hs]; rfl
  rw [List.getElem?_map, Option.map_eq_some_iff] at this
  exact this

theorem textFault_pieces {d rect ss ss' e} (h : ss.map pieceOf = ss'.map pieceOf) (hf : TextFault d rect ss e) :
    TextFault d rect ss' e := by
  cases hf with
  | @noFont s hs hn =>
    obtain ⟨s', hs', e⟩ := mem_pieces h.symm hs
    obtain ⟨a, _⟩ := textAttr_eq (pieceOf_eq e).1
    rw [← a] at hn ⊢
    exact .noFont hs' hn
  | version hs h1 h2 h3 h4 =>
    obtain ⟨s', hs', e⟩ := mem_pieces h.symm hs
    obtain ⟨a, b, _⟩ := textAttr_eq (pieceOf_eq e).1
    exact .version hs' h1 (h2.trans a.symm) (b.trans h3) h4
  | character hs h1 h2 h3 =>
    obtain ⟨s', hs', e⟩ := mem_pieces h.symm hs
    exact .character hs' (fontOf_pieces e.symm h1) (by rw [(pieceOf_eq e).2.2.2]; exact h2) h3
  | conflict h1 h2 h3 =>
    obtain ⟨a', ha, ea⟩ := getElem?_pieces h h1
    obtain ⟨b', hb, eb⟩ := getElem?_pieces h h2
    refine .conflict ha hb ?_
    obtain ⟨a1, _, a2, _⟩ := pieceOf_eq ea
    obtain ⟨_, _, a3, a4, _⟩ := textAttr_eq a1
    obtain ⟨b1, _, b2, _⟩ := pieceOf_eq eb
    obtain ⟨_, _, b3, b4, _⟩ := textAttr_eq b1
    unfold Backwards at *
    rw [a2, a3, a4, b2, b3, b4]
    exact h3
  | tooWide hs h1 h2 =>
    obtain ⟨s', hs', e⟩ := mem_pieces h.symm hs
    exact .tooWide hs' (lineWidth_pieces h1 rfl (sameLine_pieces h e.symm)) h2
  | tooHigh hs h1 h2 =>
    obtain ⟨s', hs', e⟩ := mem_pieces h.symm hs
    have hp := samePage_pieces h e.symm
    exact .tooHigh hs' (dense_pieces h1 hp) (by rw [← linesHeight_pieces hp]; exact h2)

theorem gaps_pieces {ss ss' : List Span} (h : ss.map pieceOf = ss'.map pieceOf) (hg : Gaps ss) : Gaps ss' := by
  obtain ⟨s, hs, hn⟩ := hg
  obtain ⟨s', hs', e⟩ := mem_pieces h.symm hs
  exact ⟨s', hs', fun n hd => hn n (dense_pieces hd (samePage_pieces h.symm e))⟩

/-! ### values -/

theorem knownTag_iff (x : Str) : KnownTag x ↔ ∃ k pre r, x = pre ++ r ∧ pre.map asciiLower = Kind.name k ∧ Kind.Ok r k := by
  have el : asciiLower = Char.toLower := funext asciiLower_eq_toLower
  have mem : ∀ k, Kind.name k ∈ tagNames := by intro k; cases k <;> decide
  have nfe : ∀ {pre r : Str} {k}, pre.map asciiLower = Kind.name k → Kind.Ok r k → ¬ NameIn [c!"fe"] (pre ++ r) := by
    rintro pre r k hp hk ⟨n, r', e, hn⟩
    simp only [List.mem_singleton] at hn
    rw [← el] at hn
    rcases n with _ | ⟨a, _ | ⟨b, _ | ⟨c, n⟩⟩⟩ <;>
      simp only [List.map_cons, List.map_nil, List.cons.injEq, and_true, reduceCtorEq, and_false] at hn
    rcases pre with _ | ⟨p, _ | ⟨q, pre⟩⟩
    · cases k <;> simp [Kind.name] at hp
    · simp only [List.cons_append, List.nil_append, List.cons.injEq] at e
      obtain ⟨rfl, rfl⟩ := e
      simp only [List.map_cons, hn.1, List.map_nil] at hp
      cases k <;> simp [Kind.name] at hp
      exact (hk b rfl).2.2 hn.2
    · simp only [List.cons_append, List.nil_append, List.cons.injEq] at e
      obtain ⟨rfl, rfl, e⟩ := e
      simp only [List.map_cons, hn.1, hn.2] at hp
      cases k <;> simp [Kind.name] at hp
  constructor
  · rintro ⟨⟨n, r, rfl, hn⟩, hfe⟩
    rw [← el] at hn
    have hk : ∃ k, n.map asciiLower = Kind.name k := by
      have all : ∀ m ∈ tagNames, ∃ k ∈ [Kind.nl, .np, .fo, .jl, .jp, .pt, .pb, .cf, .cr, .tr, .cb, .sc, .hc, .fl, .mv,
          .ms, .f, .g, .scEnd, .flEnd, .msEnd], m = Kind.name k := by decide
      obtain ⟨k, _, h⟩ := all _ hn
      exact ⟨k, h⟩
    obtain ⟨k, hk⟩ := hk
    by_cases hok : Kind.Ok r k
    · exact ⟨k, n, r, rfl, hk, hok⟩
    · cases k
      case f =>
        match r, hok with
        | [], hok => exact absurd (fun c h => by simp at h) hok
        | c :: r, hok =>
          by_cases ho : asciiLower c = 'o'
          · exact ⟨.fo, n ++ [c], r, by simp, by rw [List.map_append, hk]; simp [Kind.name, ho], trivial⟩
          by_cases hl : asciiLower c = 'l'
          · exact ⟨.fl, n ++ [c], r, by simp, by rw [List.map_append, hk]; simp [Kind.name, hl], trivial⟩
          by_cases he : asciiLower c = 'e'
          · exact absurd ⟨n ++ [c], r, by simp, by rw [← el, List.map_append, hk]; simp [Kind.name, he]⟩ hfe
          exact absurd (fun c' h => by simp at h; subst h; exact ⟨ho, hl, he⟩) hok
      all_goals exact absurd trivial hok
  · rintro ⟨k, pre, r, rfl, hp, hk⟩
    exact ⟨⟨pre, r, rfl, by rw [← el, hp]; exact mem k⟩, nfe hp hk⟩

theorem orTagValue_fault {tag r e} (h : orTagValue tag r = .ok (.error e)) : e = .unsupportedTagValue tag := by
  unfold orTagValue at h
  rcases r with (_ | v) | p
  · simp [Res.map'] at h; exact h.symm
  · simp [Res.map'] at h
  · simp [Res.map'] at h

theorem tryFrom_fault {s e} (h : tryFrom s = .ok (.error e)) : WrongItem s e := by
  have h0 := h
  unfold tryFrom at h
  split at h
  · simp at h
  · rename_i h1
    split at h
    · rename_i h2
      obtain ⟨x, rfl⟩ : ∃ x, s = '[' :: (x ++ [']']) := by
        cases s with
        | nil => simp at h2
        | cons a s =>
          obtain ⟨ha, hl⟩ := h2
          simp only [List.head?_cons, Option.some.injEq] at ha
          subst ha
          rw [List.getLast?_cons] at hl
          rcases s.eq_nil_or_concat with rfl | ⟨x, b, rfl⟩
          · simp at hl
          · simp at hl
            exact ⟨x, by rw [hl]; simp⟩
      have ex : ('[' :: (x ++ [']'])).drop 1 = x ++ [']'] := rfl
      rw [ex, List.dropLast_concat] at h
      rcases parseTag_cases x with ⟨k, pre, r, rfl, hp, hk⟩ | ⟨h3, h4⟩
      · rw [parseTag_kind k pre r hp hk] at h
        rw [orTagValue_fault h]
        refine .parameters ((knownTag_iff _).2 ⟨k, pre, r, rfl, hp, hk⟩) fun v hv => ?_
        rw [← C84_item, h0] at hv
        simp at hv
      · rw [h3] at h
        simp only [Res.ok.injEq, Except.error.injEq] at h
        subst h
        exact .name fun hk => h4 ((knownTag_iff _).1 hk)
    · rename_i h2
      split at h
      · rename_i h3
        simp only [Res.ok.injEq, Except.error.injEq] at h
        subst h
        refine .bracket ?_ (fun e => h1 (.inl e)) fun e => h1 (.inr e)
        rcases h3 with h3 | h3
        · exact .inl ⟨h3, fun hl => h2 ⟨h3, hl⟩⟩
        · exact .inr h3
      · rename_i h3
        split at h
        · rename_i h4
          simp only [Res.ok.injEq, Except.error.injEq] at h
          subst h
          rw [List.any_eq_true] at h4
          obtain ⟨c, hc, hv⟩ := h4
          refine .character (fun e => h3 (.inl e)) (fun e => h3 (.inr e)) hc ?_
          simp [validChar] at hv
          omega
        · simp at h

theorem checkUnsupported_fault {d : Dms} {ss e} (h : checkUnsupported d ss = .err e) : ItemFault d ss e := by
  induction ss with
  | nil => simp [checkUnsupported] at h
  | cons s ss ih =>
    unfold checkUnsupported at h
    simp only [Out.bind_eq_err, Out.ofRes_ne_err, false_or, Out.ofRes_eq_ok] at h
    obtain ⟨x, hx, h | ⟨v, hv, h⟩⟩ := h
    · cases x with
      | ok v => simp [ofExcept] at h
      | error e' => simp only [ofExcept, Out.err.injEq] at h; subst h; exact .bad (tryFrom_fault hx)
    · cases x with
      | error e' => simp [ofExcept] at hv
      | ok v' =>
        simp only [ofExcept, Out.ok.injEq] at hv
        subst hv
        split at h
        · rename_i t ht
          split at h
          · rename_i hs
            simp only [Out.err.injEq] at h
            subst h
            exact .tag ((C84_item _ _).1 hx) ht (by simpa using hs)
          · rename_i hs
            split at h
            · simp at h
            · rename_i hnp
              refine .later ((C84_item _ _).1 hx) ?_ ?_ (ih h)
              · rintro rfl; simp [Value.tag] at ht; exact hnp ht.symm
              · intro t' ht'
                rw [ht] at ht'
                cases ht'
                simpa using hs
        · rename_i ht
          refine .later ((C84_item _ _).1 hx) ?_ ?_ (ih h)
          · rintro rfl; simp [Value.tag] at ht
          · intro t' ht'; rw [ht] at ht'; cases ht'

theorem lookupGraphic_fault {d : Dms} {n pos gid e} (h : lookupGraphic d n gid = .err e)
    (hid : ∀ id, gid = some id → ∃ x y, pos = some (x, y, some id)) : ValueFault d (.graphic n pos) e := by
  unfold lookupGraphic at h
  split at h
  · simp at h
  · rename_i g id hg
    split at h
    · simp at h
    · rename_i hv
      simp only [Out.err.injEq] at h
      subst h
      obtain ⟨x, y, rfl⟩ := hid id rfl
      have h2 := List.find?_some hg
      exact .graphicId (List.mem_of_find?_eq_some hg) (by simpa using h2) hv
  · rename_i hg
    simp only [Out.err.injEq] at h
    subst h
    refine .noGraphic fun g hm => ?_
    unfold GraphicTable.graphic at hg
    rw [List.find?_eq_none] at hg
    simpa using hg g hm

theorem renderRect_fault {page : Raster} {r clr v e} (hW : page.width < 65535) (hH : page.height < 65535)
    (hd : ¬ (page.width = 0 ∧ page.height = 0)) (h : renderRect page r clr v = .err e) :
    ¬ InsideRect page.width page.height r ∧ e = .unsupportedTagValue v.display := by
  have h' := h
  unfold renderRect at h'
  split at h'
  · simp at h'
  · rename_i h0
    rw [if_neg (by omega)] at h'
    simp only [Out.bind_eq_err, Out.ofRes_ne_err, false_or, Out.ofRes_eq_ok] at h'
    obtain ⟨q, hq, h'⟩ := h'
    have eW : (UInt16.ofNat page.width).toNat = page.width := by
      rw [UInt16.toNat_ofNat']; omega
    have eH : (UInt16.ofNat page.height).toNat = page.height := by
      rw [UInt16.toNat_ofNat']; omega
    obtain ⟨f1, f2⟩ := intersection_fits hq
    rw [extend_x, extend_width, eW] at f1
    rw [extend_y, extend_height, eH] at f2
    have k := C49_fill_partial page r clr v hW hH hd (fun e => h0 (.inl e)) (fun e => h0 (.inr e)) f1 f2
    by_cases hi : InsideRect page.width page.height r
    · obtain ⟨p', k1, _⟩ := k.1 hi
      rw [k1] at h; cases h
    · have k2 := k.2 hi
      rw [k2] at h
      cases h
      exact ⟨hi, rfl⟩

theorem renderGraphicsLoop_fault {d : Dms} (hd : SizeOk d) {ss vs} (ht : Section ss vs) (hs : ∀ t ∈ ss, Item t) :
    ∀ {ctx : ColorCtx} {page : Raster} {e}, ctx.colorScheme = d.multiCfg.colorScheme →
      page.width = d.vmsCfg.signWidthPixels.toNat → page.height = d.vmsCfg.signHeightPixels.toNat →
      renderGraphicsLoop d ss ctx page = .err e → ∃ v ∈ vs, ValueFault d v e := by
  induction ht with
  | nil => intro ctx page e _ _ _ h; simp [renderGraphicsLoop] at h
  | np hp => intro ctx page e _ _ _ h; rw [renderGraphicsLoop, hp] at h; simp [ofExcept] at h
  | tr hp => intro ctx page e _ _ _ h; rw [renderGraphicsLoop, hp] at h; simp [ofExcept] at h
  | @cons s v ss vs hp hne hnr _ ih =>
    intro ctx page e hc hw hh h
    have ih : ∀ {ctx : ColorCtx} {page : Raster} {e}, ctx.colorScheme = d.multiCfg.colorScheme →
        page.width = d.vmsCfg.signWidthPixels.toNat → page.height = d.vmsCfg.signHeightPixels.toNat →
        renderGraphicsLoop d ss ctx page = .err e → ∃ u ∈ v :: vs, ValueFault d u e := by
      intro ctx page e a b c h
      obtain ⟨u, hu, hf⟩ := ih (fun t h => hs t (List.mem_cons_of_mem _ h)) a b c h
      exact ⟨u, List.mem_cons_of_mem _ hu, hf⟩
    have own : ValueFault d v e → ∃ u ∈ v :: vs, ValueFault d u e := fun hf => ⟨v, List.mem_cons_self .., hf⟩
    have hr := C04_in_range s v (hs s (List.mem_cons_self ..)) hp
    have hw' := hd.width
    have hh' := hd.height
    have color : ∀ {c : Option Color}, (∀ n pos, v ≠ .graphic n pos) → tagColor v = c →
        (∃ k, c = some k ∧ ¬ Admits ctx.colorScheme k) → ValueFault d v (.unsupportedTagValue v.display) := by
      rintro c hg htc ⟨k, rfl, hk⟩
      refine .value hg fun hv => ?_
      rw [hc] at hk
      exact hk (hv.1 k htc)
    rw [renderGraphicsLoop, hp] at h
    simp only [Out.ofRes_ok, Out.ok_bind, ofExcept] at h
    cases v
    case colorBackground c =>
      dsimp only at h
      cases e1 : ctx.setBackground c (.colorBackground c) with
      | ok ctx' =>
        rw [e1] at h
        exact ih (by rw [setBackground_bg e1]; exact hc) hw hh h
      | error er =>
        rw [e1] at h
        simp only [Out.bind_eq_err] at h
        obtain ⟨k, rfl⟩ := setBackground_rejects e1
        simp at h
        subst h
        exact own (color (by simp) rfl k)
    case colorForeground c =>
      dsimp only at h
      cases e1 : ctx.setForeground c (.colorForeground c) with
      | ok ctx' =>
        rw [e1] at h
        exact ih (by rw [setForeground_fg e1]; exact hc) hw hh h
      | error er =>
        rw [e1] at h
        obtain ⟨k, rfl⟩ := setForeground_rejects e1
        simp at h
        subst h
        exact own (color (by simp) rfl k)
    case colorRectangle r c =>
      dsimp only at h
      cases e1 : ctx.setForeground (some c) (.colorRectangle r c) with
      | error er =>
        rw [e1] at h
        obtain ⟨k, rfl⟩ := setForeground_rejects e1
        simp at h
        subst h
        exact own (color (by simp) rfl k)
      | ok ctx' =>
        rw [e1] at h
        simp only [Out.ok_bind, Out.bind_eq_err] at h
        rcases h with h | ⟨mid, h2, h⟩
        · obtain ⟨k1, rfl⟩ := renderRect_fault (by omega) (by omega) (by rw [hw, hh]; exact hd.size) h
          rw [hw, hh] at k1
          exact own (.value (by simp) fun hv => k1 hv.2)
        · have hp := renderRect_painted h2
          exact ih hc (hp.width.trans hw) (hp.height.trans hh) h
    case graphic n pos =>
      have go : ∀ {gid x y}, 1 ≤ x → 1 ≤ y → corner pos = (x - 1, y - 1) →
          (∀ x y id, pos = some (x, y, some id) → gid = some id) →
          (∀ id, gid = some id → ∃ x y, pos = some (x, y, some id)) →
          (do
            let g ← lookupGraphic d n gid
            let raster ← (g.renderGraphic page x y ctx).mapErr GraphicError.toSyntax
            renderGraphicsLoop d ss ctx raster) = .err e →
          ∃ u ∈ Value.graphic n pos :: vs, ValueFault d u e := by
        intro gid x y hx hy hcor hid hid' h
        simp only [Out.bind_eq_err, mapErr_eq_err, mapErr_eq_ok] at h
        rcases h with h | ⟨g, h1, ⟨e', h2, rfl⟩ | ⟨mid, h2, h3⟩⟩
        · exact own (lookupGraphic_fault h hid')
        · obtain ⟨⟨g1, g2⟩, g3⟩ := lookupGraphic_of h1
          obtain ⟨rfl, hb⟩ := (C37_too_big_iff g page x y hx hy ctx e').1 h2
          refine own (.graphicBig ⟨g1, g2, fun x y id e => g3 id (hid x y id e)⟩ ?_)
          rw [hcor, ← hw, ← hh]
          exact hb
        · have hp := renderGraphic_painted h2
          exact ih hc (hp.width.trans hw) (hp.height.trans hh) h3
      cases pos with
      | none => exact go (gid := none) (x := 1) (y := 1) (Nat.le_refl 1) (Nat.le_refl 1) rfl (by simp) (by simp) h
      | some q =>
        obtain ⟨x, y, gid⟩ := q
        obtain ⟨h1, h2⟩ := hr.2 x y gid rfl
        exact go (gid := gid) h1 h2 rfl (by simp) (by rintro id rfl; exact ⟨x, y, rfl⟩) h
    case newPage => exact absurd rfl hne
    case textRectangle r => exact absurd rfl (hnr r)
    all_goals first
      | (exfalso; simp at h; done)
      | exact ih hc hw hh h

theorem rtrStep_fault {d : Dms} (hd : SizeOk d) {po st v st' e}
    (hc : st.rs.colorCtx.colorScheme = d.multiCfg.colorScheme)
    (h : rtrStep d (RenderState.new d) po st v = .ok (.fail e, st')) : ValueFault d v e := by
  unfold rtrStep at h
  split at h <;> dsimp only at h
  · rename_i c
    cases e1 : st.rs.colorCtx.setForeground c (.colorForeground c) with
    | ok ctx' => rw [e1] at h; simp at h
    | error er =>
      rw [e1] at h
      obtain ⟨⟨k, rfl, hk⟩, rfl⟩ := setForeground_rejects e1
      simp at h
      obtain ⟨rfl, _⟩ := h
      refine .value (by simp) fun hv => ?_
      rw [hc] at hk
      exact hk (hv.1 k rfl)
  · simp at h
  · simp at h
  · simp at h; obtain ⟨rfl, _⟩ := h; exact .value (by simp) fun hv => hv.2.1 rfl
  · simp at h; obtain ⟨rfl, _⟩ := h; exact .value (by simp) fun hv => hv.2.2 rfl
  · simp at h
  · simp at h; obtain ⟨rfl, _⟩ := h; exact .value (by simp) fun hv => hv.2 rfl
  · split at h <;> simp at h
  · rename_i ls
    split at h
    · rename_i hb
      simp at h; obtain ⟨rfl, _⟩ := h
      refine .value (by simp) fun hv => ?_
      cases ls with
      | none => simp [badLineSpacing] at hb
      | some n =>
        rcases hv.2 with k | k <;> simp [badLineSpacing, Dms.charHeight, k] at hb
    · simp only [Res.bind_eq_ok] at h
      obtain ⟨_, _, h⟩ := h
      simp at h
  · simp at h
  · rename_i sc
    split at h
    · rename_i hb
      simp at h; obtain ⟨rfl, _⟩ := h
      refine .value (by simp) fun hv => ?_
      rcases hv.2 with k | k <;> simp [Dms.charWidth, k] at hb
    · simp at h
  · simp at h
  · rename_i r
    simp only [Res.bind_eq_ok] at h
    obtain ⟨o, ho, h⟩ := h
    cases o with
    | some r' => simp at h
    | none =>
      simp at h; obtain ⟨rfl, _⟩ := h
      refine .value (by simp) fun hv => ?_
      rw [show (RenderState.new d).textRectangle = ⟨1, 1, d.vmsCfg.signWidthPixels, d.vmsCfg.signHeightPixels⟩ from rfl] at ho
      have h' := ho
      unfold updateTextRectangle at h'
      simp only [Res.bind_eq_ok] at h'
      obtain ⟨i, hi, _⟩ := h'
      obtain ⟨f1, f2⟩ := intersection_fits hi
      rw [extend_x, extend_width] at f1
      rw [extend_y, extend_height] at f2
      rw [(updateTextRectangle_eq hd.width hd.height hd.size f1 f2).1 hv.2] at ho
      cases ho
  · simp only [Res.bind_eq_ok] at h
    obtain ⟨_, _, h⟩ := h
    simp at h
  · rename_i k
    cases e1 : charFromU32 k.toNat with
    | none =>
      rw [e1] at h
      simp at h; obtain ⟨rfl, _⟩ := h
      refine .value (by simp) fun hv => ?_
      have hk : k.toNat < 0xD800 ∨ 0xE000 ≤ k.toNat := hv.2
      unfold charFromU32 at e1
      have := k.toNat_lt
      rw [if_pos (by omega)] at e1
      cases e1
    | some c =>
      rw [e1] at h
      simp only [Res.bind_eq_ok] at h
      obtain ⟨_, _, h⟩ := h
      simp at h
  · simp at h

theorem rtrLoop_fault {d : Dms} (hd : SizeOk d) {po} {ss : List Str} {vs rest b} (ht : TakePage ss vs rest b) :
    ∀ {st st' : Rtr} {e rest'}, SignState d (RenderState.new d) st.rs →
      rtrLoop d (RenderState.new d) po ss st = .ok (.error e, st', rest') → ∃ v ∈ vs, ValueFault d v e := by
  induction ht with
  | nil => intro st st' e rest' _ h; simp [rtrLoop] at h
  | np hp => intro st st' e rest' _ h; rw [rtrLoop, hp] at h; simp [rtrStep] at h
  | @cons s v ss vs rest b hp hne ht ih =>
    intro st st' e rest' hs h
    unfold rtrLoop at h
    rw [hp] at h
    simp only at h
    split at h
    · simp at h
    · rename_i st1 h1
      obtain ⟨_, _, a3⟩ := rtrStep_attr hs h1
      obtain ⟨u, hu, hf⟩ := ih a3 h
      exact ⟨u, List.mem_cons_of_mem _ hu, hf⟩
    · simp at h
    · rename_i e' st1 h1
      simp only [Res.ok.injEq, Prod.mk.injEq, Except.error.injEq] at h
      obtain ⟨rfl, _⟩ := h
      exact ⟨v, List.mem_cons_self .., rtrStep_fault hd hs.scheme h1⟩

/-! ### pages -/

/-- the faults of a text rectangle -/
theorem renderTextRectangle_fault {d ms pg page e pg'} (hd : SizeOk d) (h : Drawing d ms pg page)
    (hon : pg.pageState = .on false) {vs rest b} (ht : TakePage pg.values vs rest b)
    (hr : renderTextRectangle d pg page = .ok (.error e, pg')) :
    (∃ v ∈ vs, ValueFault d v e) ∨
    TextFault d pg.renderState.textRectangle (layoutOf d (textAttr pg.renderState)
      pg.renderState.lineSpacing pg.renderState.textRectangle (sections vs).1) e ∨
    (e = .textTooBig ∧ ¬ Tidy (signAttr d) (textAttr pg.renderState) true true (sections vs).1 ∧
      Gaps (layoutOf d (textAttr pg.renderState)
        pg.renderState.lineSpacing pg.renderState.textRectangle (sections vs).1)) := by
  obtain ⟨hp, hw, hh⟩ := drawing_ok h
  obtain ⟨z1, z2⟩ := drawing_zero h hon
  have hsign := drawing_sign h
  have hsec := takePage_section ht
  unfold renderTextRectangle at hr
  rw [hp.default] at hr
  simp only [Res.bind_eq_ok] at hr
  obtain ⟨⟨x, st, values⟩, hl, hr⟩ := hr
  dsimp only at hr
  cases x with
  | error e' =>
    simp only [Res.pure_eq, Res.ok.injEq, Prod.mk.injEq, Except.error.injEq] at hr
    obtain ⟨rfl, _⟩ := hr
    exact .inl (rtrLoop_fault hd ht (st := ⟨pg.renderState, _, [], true⟩) hsign hl)
  | ok _ =>
    right
    obtain ⟨vs', i1, ⟨new, i2, i3⟩, i4⟩ := rtrLoop_section (st := ⟨pg.renderState, _, [], true⟩) hsign hl
    obtain rfl := section_unique i1 hsec
    have h0 : SpansTidy pg.renderState [] true true :=
      ⟨List.Pairwise.nil, fun p => ⟨0, .nil⟩, by show Dense 0 [] pg.renderState.lineNumber; rw [z1]; exact .nil,
        by simp, by simp, by simp⟩
    simp only [List.nil_append] at i2
    subst i2
    have ep : st.spans.map pieceOf = (layoutOf d (textAttr pg.renderState) pg.renderState.lineSpacing
        pg.renderState.textRectangle (sections vs).1).map pieceOf := by
      rw [i3, layoutOf, map_spanOf, z1]
    obtain ⟨_, _, _, hrect, _⟩ := rtrLoop_ok hl
    have hsame : ∀ s ∈ st.spans, s.state.textRectangle = pg.renderState.textRectangle := by
      intro s hs
      rcases hrect s hs with hx | hx
      · simp at hx
      · exact hx
    simp only at hr
    split at hr
    · simp at hr
    · rename_i e' hts
      simp only [Res.pure_eq, Res.ok.injEq, Prod.mk.injEq, Except.error.injEq] at hr
      obtain ⟨rfl, _⟩ := hr
      rcases renderTextSpans_fault hsame hts with hf | ⟨rfl, hg⟩
      · exact .inl (textFault_pieces ep hf)
      · refine .inr ⟨rfl, fun htidy => ?_, gaps_pieces ep hg⟩
        obtain ⟨s, hs, hn⟩ := hg
        obtain ⟨n, hd⟩ := (i4 true h0 htidy).2 s hs
        exact hn n hd
    · simp at hr

theorem onPageLoop_fault {d ms} (hd : SizeOk d) {fuel n pg page e pg'}
    (h : onPageLoop d fuel n pg page = .ok (.error e, pg'))
    (hn : n ≤ maxTextRectangles) (hs : pg.pageState = .on false) (hdr : Drawing d ms pg page)
    {vs rest b} (ht : TakePage pg.values vs rest b) :
    (∃ v ∈ vs, ValueFault d v e) ∨
    (maxTextRectangles ≤ n + (sections vs).2.length ∧ e = .other "Too many text rectangles") ∨
    SomeSection d (fun t sp rect ws => TextFault d rect (layoutOf d t sp rect ws) e)
      (textAttr pg.renderState) pg.renderState.lineSpacing pg.renderState.textRectangle (sections vs).1 (sections vs).2 ∨
    (e = .textTooBig ∧ SomeSection d (fun t sp rect ws => ¬ Tidy (signAttr d) t true true ws ∧
        Gaps (layoutOf d t sp rect ws))
      (textAttr pg.renderState) pg.renderState.lineSpacing pg.renderState.textRectangle (sections vs).1 (sections vs).2) := by
  induction fuel generalizing n pg page vs with
  | zero => simp [onPageLoop] at h
  | succ fuel ih =>
    rw [onPageLoop, if_pos hs] at h
    obtain ⟨hp, hw, hh⟩ := drawing_ok hdr
    have hsign := drawing_sign hdr
    split at h
    · simp at h
    · rename_i e' hgr
      simp only [Res.ok.injEq, Prod.mk.injEq, Except.error.injEq] at h
      obtain ⟨rfl, _⟩ := h
      obtain ⟨v, hv, hf⟩ := renderGraphicsLoop_fault hd (takePage_section ht) hp.items hsign.scheme hw hh hgr
      exact .inl ⟨v, sections_mem v hv, hf⟩
    · rename_i mid hgr
      have hd1 := Drawing.graphics hdr hgr
      simp only [Res.bind_eq_ok] at h
      obtain ⟨⟨x, pg1⟩, h1, h2⟩ := h
      cases x with
      | error e' =>
        simp only [Res.pure_eq, Res.ok.injEq, Prod.mk.injEq, Except.error.injEq] at h2
        obtain ⟨rfl, _⟩ := h2
        rcases renderTextRectangle_fault hd hd1 hs ht h1 with k | k | ⟨k1, k2⟩
        · exact .inl k
        · exact .inr (.inr (.inl (.here k)))
        · exact .inr (.inr (.inr ⟨k1, .here k2⟩))
      | ok page1 =>
        have hd2 := Drawing.text hd1 h1
        obtain ⟨st, values, hl, hpg1, hts⟩ := renderTextRectangle_ok h1
        rw [hp.default] at hl
        obtain ⟨hsec, e1, e2, e3⟩ := rtrLoop_end (st := ⟨pg.renderState, _, [], true⟩) hsign hl ht
        simp only at h2
        split at h2
        · simp only [Res.pure_eq, Res.ok.injEq, Prod.mk.injEq, Except.error.injEq] at h2
          exact .inr (.inl ⟨by omega, h2.1.symm⟩)
        · rename_i hlt
          generalize he : (sections vs).2 = more at e3 ⊢
          cases more with
          | nil =>
            exfalso
            dsimp only at e3
            cases fuel with
            | zero => simp [onPageLoop] at h2
            | succ f =>
              rw [onPageLoop, if_neg (by rw [hpg1]; dsimp only; rw [e3.1]; exact pageEnd_ne b _)] at h2
              simp at h2
          | cons q more =>
            obtain ⟨r, ws1⟩ := q
            obtain ⟨e4, e5, ws, e6, e7⟩ := e3
            have hsub : ∀ v ∈ ws, v ∈ vs := by
              rcases (rtrLoop_ok hl).1 vs rest b ht with ⟨_, ws', us, r, _, k1, _, k2, _⟩ | ⟨_, k, _⟩
              · obtain ⟨rfl, _⟩ := takePage_unique e6 k2
                intro v h; rw [k1]; simp [h]
              · rw [e4] at k; exact absurd k.symm (pageEnd_ne b _)
            have key := ih h2 (by omega) (by rw [hpg1]; exact e4) hd2 (vs := ws) (by rw [hpg1]; exact e6)
            rw [e7, hpg1] at key
            dsimp only at key
            rw [e1, e2, e5] at key
            rcases key with ⟨v, hv, hf⟩ | ⟨k1, k2⟩ | k | ⟨k1, k2⟩
            · exact .inl ⟨v, hsub v hv, hf⟩
            · exact .inr (.inl ⟨by simp only [List.length_cons]; omega, k2⟩)
            · exact .inr (.inr (.inl (.later k)))
            · exact .inr (.inr (.inr ⟨k1, .later k2⟩))

end Ntcip
