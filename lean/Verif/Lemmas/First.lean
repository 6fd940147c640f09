import Verif.Lemmas.CountedPieces
import Verif.Spec.First
import Verif.Lemmas.Fault
import Verif.Lemmas.Place
/-
Lemmas on the first fault of a page.
-/
namespace Ntcip
open Spec

/-- all checks give no error, or the error is that of the first one -/
def Verdict {ε : Type} (cs : List (ε → Prop)) : Option ε → Prop
  | none => ∀ c ∈ cs, ∀ e, ¬ c e
  | some e => First cs e

theorem verdict_nil {ε : Type} : Verdict ([] : List (ε → Prop)) none := by simp [Verdict]

theorem verdict_single {ε : Type} {c : ε → Prop} {r} (h0 : r = none → ∀ e, ¬ c e) (h1 : ∀ e, r = some e → c e) : Verdict [c] r := by
  cases r with
  | none => intro c' hc; rw [List.mem_singleton.1 hc]; exact h0 rfl
  | some e => exact .here (h1 e rfl)

theorem verdict_stop {ε : Type} {cs cs' : List (ε → Prop)} {e} (h : Verdict cs (some e)) : Verdict (cs ++ cs') (some e) := by
  induction cs with
  | nil => cases h
  | cons c cs ih =>
    cases h with
    | here h => exact .here h
    | later h1 h2 => exact .later h1 (ih h2)

theorem verdict_append {ε : Type} {cs cs' : List (ε → Prop)} {r} (h : Verdict cs none) (h' : Verdict cs' r) : Verdict (cs ++ cs') r := by
  induction cs with
  | nil => exact h'
  | cons c cs ih =>
    have ih := ih fun c hc => h c (List.mem_cons_of_mem _ hc)
    have hc := h c (List.mem_cons_self ..)
    cases r with
    | none =>
      intro c' hm
      rcases List.mem_cons.1 hm with rfl | hm
      · exact hc
      · exact ih c' hm
    | some e => exact .later hc ih

theorem verdict_cons {ε : Type} {c : ε → Prop} {cs : List (ε → Prop)} {r} (h : ∀ e, ¬ c e) (h' : Verdict cs r) : Verdict (c :: cs) r :=
  verdict_append (cs := [c]) (verdict_single (r := none) (fun _ => h) (by simp)) h'

theorem verdict_here {ε : Type} {c : ε → Prop} {cs : List (ε → Prop)} {e} (h : c e) : Verdict (c :: cs) (some e) := First.here h

theorem verdict_unique {ε : Type} {cs : List (ε → Prop)} (hf : ∀ c ∈ cs, ∀ e e', c e → c e' → e = e') {r r'} (h : Verdict cs r)
    (h' : Verdict cs r') : r = r' := by
  have none_some : ∀ {cs : List (ε → Prop)} {e}, Verdict cs none → Verdict cs (some e) → False := by
    intro cs e h h'
    induction cs with
    | nil => cases h'
    | cons c cs ih =>
      cases h' with
      | here h' => exact h c (List.mem_cons_self ..) e h'
      | later _ h' => exact ih (fun c hc => h c (List.mem_cons_of_mem _ hc)) h'
  cases r with
  | none =>
    cases r' with
    | none => rfl
    | some e => exact (none_some h h').elim
  | some e =>
    cases r' with
    | none => exact (none_some h' h).elim
    | some e' =>
      induction cs with
      | nil => cases h
      | cons c cs ih =>
        cases h with
        | here h =>
          cases h' with
          | here h' => rw [hf c (List.mem_cons_self ..) e e' h h']
          | later h' _ => exact absurd h (h' e)
        | later h1 h =>
          cases h' with
          | here h' => exact absurd h' (h1 e')
          | later _ h' => exact ih (fun c hc => hf c (List.mem_cons_of_mem _ hc)) h h'

/-- how a function ended, if it did not panic -/
def Outcome {α : Type} (x : Out SyntaxError α) : Option SyntaxError → Prop
  | none => ∃ y, x = .ok y
  | some e => x = .err e

theorem outcome_bind {α β : Type} {x : Out SyntaxError α} {f : α → Out SyntaxError β} {r} (h : Outcome (x >>= f) r) :
    (∃ e, r = some e ∧ x = .err e) ∨ ∃ y, x = .ok y ∧ Outcome (f y) r := by
  cases r with
  | none =>
    obtain ⟨z, h⟩ := h
    simp only [Out.bind_eq_ok] at h
    obtain ⟨y, h1, h2⟩ := h
    exact .inr ⟨y, h1, z, h2⟩
  | some e =>
    simp only [Outcome, Out.bind_eq_err] at h
    rcases h with h | ⟨y, h1, h2⟩
    · exact .inl ⟨e, rfl, h⟩
    · exact .inr ⟨y, h1, h2⟩

/-! ### fonts and characters -/

theorem font_first {d : Dms} {s : Span} {e} (h : s.state.font d.fontDefinition = .err e) : SpanFontFault d s e := by
  unfold RenderState.font at h
  split at h
  · rename_i f v h1 h2
    split at h
    · simp at h
    · rename_i hv
      simp only [Out.err.injEq] at h
      subst h
      exact .version h1 h2 hv
  · simp at h
  · rename_i h1
    simp only [Out.err.injEq] at h
    subst h
    refine .missing fun f hf => ?_
    unfold FontTable.font at h1
    rw [List.find?_eq_none] at h1
    simpa using h1 f hf

theorem fontOf_noFault {d : Dms} {s : Span} {f} (h : FontOf d.fontDefinition s f) (e) : ¬ SpanFontFault d s e := by
  intro hf
  cases hf with
  | missing hm =>
    have h1 := h.1
    unfold FontTable.font at h1
    have h2 := List.find?_some h1
    exact hm f (List.mem_of_find?_eq_some h1) (by simpa using h2)
  | version h1 h2 h3 =>
    rw [h.1] at h1
    cases h1
    exact h3 (h.2 _ h2)

theorem character_entry {f : Font} {c : Char} {e} (h : f.character c = some e) :
    e ∈ f.characters ∧ e.number.toNat = c.toNat := by
  unfold Font.character at h
  split at h
  · have h1 := List.find?_some h
    refine ⟨List.mem_of_find?_eq_some h, ?_⟩
    simpa using h1
  · cases h

theorem defined_entry {f : Font} {str : Str} {es} (h : Defined f str es) :
    ∀ a ∈ str, ∃ e ∈ f.characters, e.number.toNat = a.toNat := by
  intro a ha
  obtain ⟨e, he⟩ : ∃ e, f.character a = some e := by
    unfold Defined at h
    have : f.character a ∈ str.map f.character := List.mem_map_of_mem ha
    rw [h, List.mem_map] at this
    obtain ⟨e, _, he⟩ := this
    exact ⟨e, he.symm⟩
  exact ⟨e, character_entry he⟩

/-- the first character that is missing -/
theorem first_missing {f : Font} {str : Str} {c : Char} (hc : c ∈ str) (h : ∀ e ∈ f.characters, e.number.toNat ≠ c.toNat) :
    ∃ pre c' post, str = pre ++ c' :: post ∧ (∀ a ∈ pre, ∃ e ∈ f.characters, e.number.toNat = a.toNat) ∧
      ∀ e ∈ f.characters, e.number.toNat ≠ c'.toNat := by
  induction str with
  | nil => simp at hc
  | cons b str ih =>
    by_cases hb : ∃ e ∈ f.characters, e.number.toNat = b.toNat
    · rcases List.mem_cons.1 hc with rfl | hc
      · obtain ⟨e, he, hn⟩ := hb
        exact absurd hn (h e he)
      · obtain ⟨pre, c', post, rfl, h1, h2⟩ := ih hc
        refine ⟨b :: pre, c', post, rfl, ?_, h2⟩
        intro a ha
        rcases List.mem_cons.1 ha with rfl | ha
        · exact hb
        · exact h1 a ha
    · exact ⟨[], b, str, rfl, by simp, fun e he hn => hb ⟨e, he, hn⟩⟩

theorem glyph_noFault {d : Dms} {s : Span} {f es} (h : FontOf d.fontDefinition s f) (hd : Defined f s.str es) (e) :
    ¬ GlyphFault d s e := by
  intro hf
  cases hf with
  | font hf => exact fontOf_noFault h e hf
  | @character f' pre c post h1 h2 h3 h4 =>
    have : f' = f := Option.some.inj (h1.1.symm.trans h.1)
    subst this
    obtain ⟨x, hx, hn⟩ := defined_entry hd c (by rw [h2]; simp)
    exact h4 x hx hn

theorem charSpacingFonts_first {d : Dms} {s : Span} {e} (h : s.charSpacingFonts d.fontDefinition = .err e) :
    SpanFontFault d s e := by
  unfold Span.charSpacingFonts at h
  split at h
  · simp at h
  · simp only [Out.bind_eq_err] at h
    rcases h with h | ⟨_, _, h⟩
    · exact font_first h
    · simp at h

theorem between_first {d : Dms} {s p : Span} {e} (hp : ∀ e, ¬ SpanFontFault d p e)
    (h : s.charSpacingBetween p d.fontDefinition = .err e) : SpanFontFault d s e := by
  unfold Span.charSpacingBetween at h
  split at h
  · simp at h
  · simp only [Out.bind_eq_err] at h
    rcases h with h | ⟨_, _, h | ⟨_, _, h⟩⟩
    · exact absurd (charSpacingFonts_first h) (hp e)
    · exact charSpacingFonts_first h
    · simp at h

theorem width_first {d : Dms} {s : Span} {e} (h : s.width d.fontDefinition = .err e) : GlyphFault d s e := by
  unfold Span.width at h
  simp only [Out.bind_eq_err, mapErr_eq_err] at h
  rcases h with h | ⟨f, hf, h | ⟨_, _, e', h, rfl⟩⟩
  · exact .font (font_first h)
  · exact .font (charSpacingFonts_first h)
  · obtain ⟨pre, ch, post, es, h1, h3, h2, rfl, _⟩ := (C27_err_iff ..).1 h
    exact .character (font_ok.1 hf) h1 (defined_entry h3) (character_fault h2)

theorem width_fine {d : Dms} {s : Span} {w} (h : s.width d.fontDefinition = .ok w) (e) : ¬ GlyphFault d s e := by
  obtain ⟨⟨f, es, h1, h2, _⟩, _⟩ := width_ok.1 h
  exact glyph_noFault h1 h2 e

/-! ### lines -/

theorem offsetHorizLoop_first_fault {d : Dms} {rs} {ss : List Span} : ∀ {ps b a r},
    (∀ p, ps = some p → ∀ e, ¬ SpanFontFault d p e) → Outcome (offsetHorizLoop d.fontDefinition rs ss ps b a) r →
    Verdict (ss.map (GlyphFault d)) r := by
  induction ss with
  | nil =>
    intro ps b a r _ h
    cases r with
    | none => exact verdict_nil
    | some e => simp [Outcome, offsetHorizLoop] at h
  | cons s ss ih =>
    have first : ∀ {b a r}, Outcome (offsetHorizLoop d.fontDefinition rs (s :: ss) none b a) r →
        Verdict ((s :: ss).map (GlyphFault d)) r := by
      intro b a r h
      rw [offsetHorizLoop_first] at h
      rcases outcome_bind h with ⟨e, rfl, hk⟩ | ⟨w, hw, h⟩
      · exact verdict_here (width_first hk)
      · have hs := width_fine hw
        refine verdict_cons hs ?_
        have hp : ∀ p, some s = some p → ∀ e, ¬ SpanFontFault d p e := by
          rintro p ⟨⟩ e hf; exact hs e (.font hf)
        split at h
        · rcases outcome_bind h with ⟨e, _, h⟩ | ⟨_, _, h⟩
          · simp at h
          · exact ih hp h
        · rcases outcome_bind h with ⟨e, _, h⟩ | ⟨_, _, h⟩
          · simp at h
          · exact ih hp h
    intro ps b a r hp h
    cases ps with
    | none => exact first h
    | some p =>
      rw [offsetHorizLoop_next] at h
      rcases outcome_bind h with ⟨e, rfl, hk⟩ | ⟨w, _, h⟩
      · exact verdict_here (.font (between_first (hp p rfl) hk))
      · split at h
        · rcases outcome_bind h with ⟨e, _, h⟩ | ⟨_, _, h⟩
          · simp at h
          · exact first h
        · rcases outcome_bind h with ⟨e, _, h⟩ | ⟨_, _, h⟩
          · simp at h
          · exact first h

/-- the checks of the line of a text -/
def lineChecks (d : Dms) (rect : Rectangle) (spans : List Span) (s : Span) : List Check :=
  (sameLine spans s).map (GlyphFault d) ++ [WideFault d rect spans s]

theorem offsetHoriz_first {d : Dms} {rect spans} {s : Span} {r} (hr : s.state.textRectangle = rect)
    (h : Outcome (offsetHoriz d spans s) r) : Verdict (lineChecks d rect spans s) r := by
  unfold offsetHoriz at h
  dsimp only at h
  rw [matchesSpan_filter] at h
  rcases outcome_bind h with ⟨e, rfl, hk⟩ | ⟨⟨b, a⟩, h1, h⟩
  · exact verdict_stop (offsetHorizLoop_first_fault (ps := none) (by simp) (r := some e) hk)
  · obtain ⟨x, y, hh, e1, e2⟩ := offsetHorizLoop_ok h1
    have hlw := hsum_lineWidth hh
    refine verdict_append (offsetHorizLoop_first_fault (ps := none) (by simp) (r := none) ⟨_, h1⟩) ?_
    dsimp only at h
    rcases outcome_bind h with ⟨e, _, h⟩ | ⟨t, h2, h⟩
    · simp at h
    · simp only [Out.ofRes_eq_ok, chk16_ok] at h2
      split at h
      · rename_i ht
        have : r = none := by
          cases r with
          | none => rfl
          | some e => simp [Outcome] at h
        subst this
        refine verdict_single (fun _ e => ?_) (by simp)
        rintro ⟨_, n, hn, hlt⟩
        have := lineWidth_unique hn hlw
        rw [← hr] at hlt
        omega
      · rename_i ht
        cases r with
        | none => obtain ⟨_, h⟩ := h; simp at h
        | some e =>
          simp only [Outcome, Out.err.injEq] at h
          subst h
          refine verdict_here ⟨rfl, _, hlw, ?_⟩
          rw [← hr]; omega

theorem spanX_first {d : Dms} {rect spans} {s : Span} {r} (hr : s.state.textRectangle = rect)
    (h : Outcome (spanX d spans s) r) : Verdict (lineChecks d rect spans s) r := by
  have go : ∀ {f : Nat × Nat → Out SyntaxError Nat}, (∀ p e, f p ≠ .err e) → Outcome (offsetHoriz d spans s >>= f) r →
      Verdict (lineChecks d rect spans s) r := by
    intro f hf h
    rcases outcome_bind h with ⟨e, rfl, hk⟩ | ⟨y, h1, h2⟩
    · exact offsetHoriz_first (r := some e) hr hk
    · have : r = none := by
        cases r with
        | none => rfl
        | some e => exact absurd h2 (hf y e)
      subst this
      exact offsetHoriz_first hr ⟨_, h1⟩
  unfold spanX spanXLeft spanXCenter spanXRight at h
  split at h
  · rcases outcome_bind h with ⟨e, _, h⟩ | ⟨t, h2, h⟩
    · simp at h
    · exact go (by intro p e; simp [Out.bind_eq_err]) h
  · rcases outcome_bind h with ⟨e, _, h⟩ | ⟨t, h2, h⟩
    · simp at h
    · exact go (by intro p e; simp [Out.bind_eq_err]) h
  · rcases outcome_bind h with ⟨e, _, h⟩ | ⟨t, h2, h⟩
    · simp at h
    · exact go (by intro p e; simp [Out.bind_eq_err]) h
  · cases r with
    | none => obtain ⟨_, h⟩ := h; simp at h
    | some e => simp [Outcome] at h

theorem textLines_first {d : Dms} {ss : List Span} : ∀ {ls r}, Outcome (textLines d.fontDefinition ss ls) r →
    Verdict (ss.map (SpanFontFault d)) r := by
  induction ss with
  | nil =>
    intro ls r h
    cases r with
    | none => exact verdict_nil
    | some e => simp [Outcome, textLines] at h
  | cons s ss ih =>
    intro ls r h
    unfold textLines Span.height Span.fontSpacing at h
    rcases outcome_bind h with ⟨e, rfl, hk⟩ | ⟨x, hx, h⟩
    · simp only [Out.bind_eq_err] at hk
      rcases hk with h | ⟨_, _, h⟩
      · exact verdict_here (font_first h)
      · simp at h
    · simp only [Out.bind_eq_ok] at hx
      obtain ⟨f, hf, _⟩ := hx
      have hno := fontOf_noFault (font_ok.1 hf)
      rcases outcome_bind h with ⟨e, rfl, hk⟩ | ⟨y, hy, h⟩
      · simp only [Out.bind_eq_err] at hk
        rcases hk with h | ⟨_, _, h⟩
        · exact verdict_here (font_first h)
        · simp at h
      · refine verdict_cons hno ?_
        split at h
        · exact ih h
        · exact ih h

/-- the checks of the lines above and below a text -/
def heightChecks (d : Dms) (rect : Rectangle) (spans : List Span) (s : Span) : List Check :=
  (samePage spans s).map (SpanFontFault d) ++ [HighFault d rect spans s]

theorem offsetVert_first {d : Dms} {rect spans} {s : Span} {r} (hs : s ∈ spans) (hr : s.state.textRectangle = rect)
    (h : Outcome (offsetVert d spans s) r) :
    Verdict (heightChecks d rect spans s) r := by
  unfold offsetVert at h
  dsimp only at h
  rw [matchesLine_filter] at h
  rcases outcome_bind h with ⟨e, rfl, hk⟩ | ⟨ls, h1, h⟩
  · exact verdict_stop (textLines_first (r := some e) hk)
  · have hfst := textLines_first (r := none) ⟨_, h1⟩
    rcases outcome_bind h with ⟨e, _, h⟩ | ⟨⟨a, b⟩, h2, h⟩
    · simp at h
    rcases outcome_bind h with ⟨e, _, h⟩ | ⟨t, h3, h4⟩
    · simp at h
    dsimp only at h3 h4
    simp only [Out.ofRes_eq_ok, chk16_ok] at h2 h3
    have total := (offsetLines_counted hs h1 h2).2
    split at h4
    · rename_i ht
      have : r = none := by
        cases r with
        | none => rfl
        | some e => simp [Outcome] at h4
      subst this
      refine verdict_append hfst (verdict_single (fun _ e => ?_) (by simp))
      rintro ⟨_, hlt⟩
      rw [← hr] at hlt
      omega
    · rename_i ht
      cases r with
      | none => obtain ⟨_, h4⟩ := h4; simp at h4
      | some e =>
        simp only [Outcome, Out.err.injEq] at h4
        subst h4
        refine verdict_append hfst (verdict_here ⟨rfl, ?_⟩)
        rw [← hr]; omega

theorem spanY_first {d : Dms} {rect spans} {s : Span} {r} (hs : s ∈ spans) (hr : s.state.textRectangle = rect)
    (hf : ∀ e, ¬ SpanFontFault d s e) (h : Outcome (spanY d spans s) r) :
    Verdict (heightChecks d rect spans s) r := by
  have go : ∀ {r} {f : Nat × Nat → Out SyntaxError Nat}, (∀ p e, f p ≠ .err e) →
      Outcome (offsetVert d spans s >>= f) r →
      Verdict (heightChecks d rect spans s) r := by
    intro r f hf h
    rcases outcome_bind h with ⟨e, rfl, hk⟩ | ⟨y, h1, h2⟩
    · exact offsetVert_first (r := some e) hs hr hk
    · have : r = none := by
        cases r with
        | none => rfl
        | some e => exact absurd h2 (hf y e)
      subst this
      exact offsetVert_first hs hr ⟨_, h1⟩
  have base : ∀ {r}, Outcome (baseline d spans s) r →
      Verdict (heightChecks d rect spans s) r := by
    intro r h
    unfold baseline baselineTop baselineMiddle baselineBottom at h
    split at h
    · rcases outcome_bind h with ⟨e, _, h⟩ | ⟨t, h2, h⟩
      · simp at h
      · exact go (by intro p e; simp [Out.bind_eq_err]) h
    · rcases outcome_bind h with ⟨e, _, h⟩ | ⟨t, h2, h⟩
      · simp at h
      · exact go (by intro p e; simp [Out.bind_eq_err]) h
    · rcases outcome_bind h with ⟨e, _, h⟩ | ⟨t, h2, h⟩
      · simp at h
      · exact go (by intro p e; simp [Out.bind_eq_err]) h
    · cases r with
      | none => obtain ⟨_, h⟩ := h; simp at h
      | some e => simp [Outcome] at h
  unfold spanY at h
  rcases outcome_bind h with ⟨e, rfl, hk⟩ | ⟨b, hb, h⟩
  · exact base (r := some e) hk
  · have : r = none := by
      cases r with
      | none => rfl
      | some e =>
        exfalso
        simp only [Outcome, Out.bind_eq_err, Out.ofRes_ne_err, and_false, exists_false, or_false] at h
        unfold Span.height at h
        simp only [Out.bind_eq_err] at h
        rcases h with h | ⟨_, _, h⟩
        · exact hf e (font_first h)
        · simp at h
    subst this
    exact base ⟨_, hb⟩

theorem spanChecks_eq (d rect spans s) : spanChecks d rect spans s = lineChecks d rect spans s ++
    heightChecks d rect spans s := by
  unfold spanChecks lineChecks heightChecks
  simp

theorem renderSpansLoop_first {d : Dms} {rect spans} {ss : List Span} : ∀ {page r}, (∀ s ∈ ss, s ∈ spans) →
    (∀ s ∈ spans, s.state.textRectangle = rect) → Outcome (renderSpansLoop d spans ss page) r →
    Verdict (ss.flatMap (spanChecks d rect spans)) r := by
  induction ss with
  | nil =>
    intro page r _ _ h
    cases r with
    | none => exact verdict_nil
    | some e => simp [Outcome, renderSpansLoop] at h
  | cons s ss ih =>
    intro page r hm hr h
    have hs := hm s (List.mem_cons_self ..)
    rw [List.flatMap_cons, spanChecks_eq]
    unfold renderSpansLoop at h
    rcases outcome_bind h with ⟨e, rfl, hk⟩ | ⟨x, hx, h⟩
    · exact verdict_stop (verdict_stop (spanX_first (r := some e) (hr s hs) hk))
    have v1 := spanX_first (r := none) (hr s hs) ⟨_, hx⟩
    have hg : ∀ e, ¬ GlyphFault d s e := v1 (GlyphFault d s) (by
      unfold lineChecks
      exact List.mem_append_left _ (List.mem_map_of_mem (mem_sameLine hs)))
    rcases outcome_bind h with ⟨e, rfl, hk⟩ | ⟨y, hy, h⟩
    · exact verdict_stop (verdict_append v1 (spanY_first (r := some e) hs (hr s hs) (fun e h => hg e (.font h)) hk))
    have v2 := spanY_first (r := none) hs (hr s hs) (fun e h => hg e (.font h)) ⟨_, hy⟩
    rcases outcome_bind h with ⟨e, rfl, hk⟩ | ⟨f, hf, h⟩
    · exact absurd (.font (font_first hk)) (hg e)
    rcases outcome_bind h with ⟨e, rfl, hk⟩ | ⟨page', _, h⟩
    · exfalso
      unfold Span.renderText Font.renderText at hk
      rw [mapErr_eq_err] at hk
      obtain ⟨e', hk, rfl⟩ := hk
      obtain ⟨c, h1, h2, rfl⟩ := renderTextLoop_fault hk
      obtain ⟨pre, c', post, k1, k2, k3⟩ := first_missing h1 (character_fault h2)
      exact hg _ (.character (font_ok.1 hf) k1 k2 k3)
    · exact verdict_append (verdict_append v1 v2) (ih (fun x hx => hm x (List.mem_cons_of_mem _ hx)) hr h)

theorem renderTextSpans_first {d : Dms} {rect spans page r} (hr : ∀ s ∈ spans, s.state.textRectangle = rect)
    (h : Outcome (renderTextSpans d spans page) r) :
    Verdict (textChecks d rect spans) r := by
  unfold renderTextSpans at h
  split at h
  · rename_i hj
    cases r with
    | none => obtain ⟨_, h⟩ := h; simp at h
    | some e =>
      simp only [Outcome, Out.err.injEq] at h
      subst h
      obtain ⟨rfl, k⟩ := (C47_adjacent ..).1 hj
      exact verdict_here ⟨rfl, k⟩
  · rename_i hj
    have hno : ∀ e, ¬ ConflictFault spans e := by
      rintro e ⟨rfl, k⟩
      rw [(C47_adjacent spans _).2 ⟨rfl, k⟩] at hj
      cases hj
    exact verdict_cons hno (renderSpansLoop_first (fun _ h => h) hr h)

/-! ### checks depend on the pieces of the spans only -/

theorem map_of_pieces {β : Type} {f : Span → β} (hf : ∀ s s', pieceOf s = pieceOf s' → f s = f s') {ss : List Span} :
    ∀ {ss' : List Span}, ss.map pieceOf = ss'.map pieceOf → ss.map f = ss'.map f := by
  induction ss with
  | nil => intro ss' h; simp only [List.map_nil, List.nil_eq, List.map_eq_nil_iff] at h; subst h; rfl
  | cons s ss ih =>
    intro ss' h
    cases ss' with
    | nil => simp at h
    | cons s' ss' =>
      simp only [List.map_cons, List.cons.injEq] at h
      rw [List.map_cons, List.map_cons, hf s s' h.1, ih h.2]

theorem fontFault_imp {d : Dms} {s s' : Span} (h : pieceOf s = pieceOf s') {e} (hf : SpanFontFault d s e) : SpanFontFault d s' e := by
  obtain ⟨a, b, _⟩ := textAttr_eq (pieceOf_eq h).1
  cases hf with
  | missing hm => rw [a] at hm ⊢; exact .missing hm
  | version h1 h2 h3 => exact .version (by rw [← a]; exact h1) (by rw [← b]; exact h2) h3

theorem fontFault_pieces {d : Dms} {s s' : Span} (h : pieceOf s = pieceOf s') : SpanFontFault d s = SpanFontFault d s' :=
  funext fun _ => propext ⟨fontFault_imp h, fontFault_imp h.symm⟩

theorem glyphFault_imp {d : Dms} {s s' : Span} (h : pieceOf s = pieceOf s') {e} (hf : GlyphFault d s e) :
    GlyphFault d s' e := by
  cases hf with
  | font hf => exact .font (fontFault_imp h hf)
  | character h1 h2 h3 h4 => exact .character (fontOf_pieces h h1) (by rw [← (pieceOf_eq h).2.2.2]; exact h2) h3 h4

theorem glyphFault_pieces {d : Dms} {s s' : Span} (h : pieceOf s = pieceOf s') : GlyphFault d s = GlyphFault d s' :=
  funext fun _ => propext ⟨glyphFault_imp h, glyphFault_imp h.symm⟩

theorem conflictFault_imp {ss ss' : List Span} (h : ss.map pieceOf = ss'.map pieceOf) {e} (hc : ConflictFault ss e) :
    ConflictFault ss' e := by
  obtain ⟨rfl, i, a, b, h1, h2, h3⟩ := hc
  obtain ⟨a', ha, ea⟩ := getElem?_pieces h h1
  obtain ⟨b', hb, eb⟩ := getElem?_pieces h h2
  refine ⟨rfl, i, a', b', ha, hb, ?_⟩
  obtain ⟨a1, _, a2, _⟩ := pieceOf_eq ea
  obtain ⟨_, _, a3, a4, _⟩ := textAttr_eq a1
  obtain ⟨b1, _, b2, _⟩ := pieceOf_eq eb
  obtain ⟨_, _, b3, b4, _⟩ := textAttr_eq b1
  unfold Backwards at *
  rw [a2, a3, a4, b2, b3, b4]
  exact h3

theorem wideFault_imp {d rect ss ss' s s'} (h : ss.map pieceOf = ss'.map pieceOf) (hs : pieceOf s = pieceOf s') {e}
    (hw : WideFault d rect ss s e) : WideFault d rect ss' s' e := by
  obtain ⟨rfl, n, h1, h2⟩ := hw
  exact ⟨rfl, n, lineWidth_pieces h1 rfl (sameLine_pieces h hs), h2⟩

theorem highFault_imp {d rect ss ss' s s'} (h : ss.map pieceOf = ss'.map pieceOf) (hs : pieceOf s = pieceOf s') {e}
    (hw : HighFault d rect ss s e) : HighFault d rect ss' s' e := by
  obtain ⟨rfl, h1⟩ := hw
  exact ⟨rfl, by rw [← totalHeight_pieces h hs]; exact h1⟩

theorem spanChecks_pieces {d rect ss ss' s s'} (h : ss.map pieceOf = ss'.map pieceOf) (hs : pieceOf s = pieceOf s') :
    spanChecks d rect ss s = spanChecks d rect ss' s' := by
  unfold spanChecks
  rw [map_of_pieces (fun _ _ => glyphFault_pieces) (sameLine_pieces h hs),
    map_of_pieces (fun _ _ => fontFault_pieces) (samePage_pieces h hs)]
  have e1 : WideFault d rect ss s = WideFault d rect ss' s' :=
    funext fun _ => propext ⟨wideFault_imp h hs, wideFault_imp h.symm hs.symm⟩
  have e2 : HighFault d rect ss s = HighFault d rect ss' s' :=
    funext fun _ => propext ⟨highFault_imp h hs, highFault_imp h.symm hs.symm⟩
  rw [e1, e2]

theorem textChecks_pieces {d rect ss ss'} (h : ss.map pieceOf = ss'.map pieceOf) :
    textChecks d rect ss = textChecks d rect ss' := by
  unfold textChecks
  have e1 : ConflictFault ss = ConflictFault ss' :=
    funext fun _ => propext ⟨conflictFault_imp h, conflictFault_imp h.symm⟩
  rw [e1, List.flatMap_def, List.flatMap_def]
  congr 2
  have : ss.map (spanChecks d rect ss) = ss.map (spanChecks d rect ss') :=
    List.map_congr_left fun s _ => spanChecks_pieces h rfl
  rw [this]
  exact map_of_pieces (fun _ _ e => spanChecks_pieces rfl e) h

/-! ### colors and graphics -/

theorem lookupGraphic_first {d : Dms} {n pos gid e} (h : lookupGraphic d n gid = .err e)
    (hid : ∀ id, gid = some id → ∃ x y, pos = some (x, y, some id)) : PaintFault d (.graphic n pos) e := by
  unfold lookupGraphic at h
  split at h
  · simp at h
  · rename_i g id hg
    split at h
    · simp at h
    · rename_i hv
      simp only [Out.err.injEq] at h
      subst h
      obtain ⟨x, y, rfl⟩ := hid id rfl
      exact .version hg hv
  · rename_i hg
    simp only [Out.err.injEq] at h
    subst h
    refine .missing fun g hm => ?_
    unfold GraphicTable.graphic at hg
    rw [List.find?_eq_none] at hg
    simpa using hg g hm

theorem lookupGraphic_some {d : Dms} {n gid g} (h : lookupGraphic d n gid = .ok g) :
    GraphicTable.graphic d.graphicDefinition n = some g ∧ ∀ id, gid = some id → id = g.versionId := by
  unfold lookupGraphic at h
  split at h
  · rename_i g' hg
    cases h
    exact ⟨hg, by simp⟩
  · rename_i g' id hg
    split at h
    · rename_i hv
      cases h
      exact ⟨hg, by rintro id ⟨⟩; exact hv⟩
    · simp at h
  · simp at h

theorem graphic_noFault {d : Dms} {n pos g} (h : GraphicTable.graphic d.graphicDefinition n = some g)
    (hv : ∀ x y id, pos = some (x, y, some id) → id = g.versionId)
    (hw : (corner pos).1 + g.width.toNat ≤ d.vmsCfg.signWidthPixels.toNat)
    (hh : (corner pos).2 + g.height.toNat ≤ d.vmsCfg.signHeightPixels.toNat) (e) : ¬ PaintFault d (.graphic n pos) e := by
  intro hf
  cases hf with
  | value h1 _ => cases h1
  | missing hm =>
    unfold GraphicTable.graphic at h
    have h2 := List.find?_some h
    exact hm g (List.mem_of_find?_eq_some h) (by simpa using h2)
  | version h1 h2 =>
    rw [h] at h1
    cases h1
    exact h2 (hv _ _ _ rfl)
  | big h1 _ h2 =>
    rw [h] at h1
    cases h1
    omega

theorem other_noPaint {d : Dms} {v : Value} (h1 : isPaint v = false) (h2 : ∀ n pos, v ≠ .graphic n pos) (e) :
    ¬ PaintFault d v e := by
  intro hf
  cases hf with
  | value h _ => rw [h1] at h; cases h
  | missing _ => exact h2 _ _ rfl
  | version _ _ => exact h2 _ _ rfl
  | big _ _ _ => exact h2 _ _ rfl

theorem paint_noFault {d : Dms} {v : Value} (h1 : isPaint v = true) (h : ValueOk d v) (e) : ¬ PaintFault d v e := by
  intro hf
  cases hf with
  | value _ hn => exact hn h
  | missing _ => cases h1
  | version _ _ => cases h1
  | big _ _ _ => cases h1

theorem renderGraphicsLoop_first {d : Dms} (hd : SizeOk d) {ss vs} (ht : Section ss vs) (hs : ∀ t ∈ ss, Item t) :
    ∀ {ctx : ColorCtx} {page : Raster} {r}, ctx.colorScheme = d.multiCfg.colorScheme →
      page.width = d.vmsCfg.signWidthPixels.toNat → page.height = d.vmsCfg.signHeightPixels.toNat →
      Outcome (renderGraphicsLoop d ss ctx page) r → Verdict (vs.map (PaintFault d)) r := by
  have done : ∀ {page : Raster} {r}, Outcome (.ok page : Out SyntaxError Raster) r →
      Verdict (([] : List Value).map (PaintFault d)) r := by
    intro page r h
    cases r with
    | none => exact verdict_nil
    | some e => cases h
  induction ht with
  | nil => intro ctx page r _ _ _ h; exact done h
  | np hp => intro ctx page r _ _ _ h; rw [renderGraphicsLoop, hp] at h; exact done h
  | tr hp => intro ctx page r _ _ _ h; rw [renderGraphicsLoop, hp] at h; exact done h
  | @cons s v ss vs hp hne hnr _ ih =>
    intro ctx page r hc hw hh h
    have ih := fun {ctx} {page : Raster} {r} => ih (fun t h => hs t (List.mem_cons_of_mem _ h))
      (ctx := ctx) (page := page) (r := r)
    have hr := C04_in_range s v (hs s (List.mem_cons_self ..)) hp
    have hw' := hd.width
    have hh' := hd.height
    rw [List.map_cons]
    have bad : ∀ {c : Option Color}, isPaint v = true → tagColor v = c →
        (∃ k, c = some k ∧ ¬ Admits ctx.colorScheme k) → PaintFault d v (.unsupportedTagValue v.display) := by
      rintro c hg htc ⟨k, rfl, hk⟩
      refine .value hg fun hv => ?_
      rw [hc] at hk
      exact hk (hv.1 k htc)
    have good : ∀ {c : Option Color}, tagColor v = c → (∀ k, c = some k → Admits ctx.colorScheme k) →
        ColorOk d.multiCfg.colorScheme v := by
      intro c htc h k hk
      rw [← hc]
      exact h k (by rw [← htc]; exact hk)
    rw [renderGraphicsLoop, hp] at h
    simp only [Out.ofRes_ok, Out.ok_bind, ofExcept] at h
    cases v
    case colorBackground c =>
      dsimp only at h
      cases e1 : ctx.setBackground c (.colorBackground c) with
      | ok ctx' =>
        rw [e1] at h
        exact verdict_cons (paint_noFault rfl ⟨good rfl (setBackground_admits e1).1, rfl⟩)
          (ih (by rw [setBackground_bg e1]; exact hc) hw hh h)
      | error er =>
        rw [e1] at h
        rcases outcome_bind h with ⟨e, rfl, hk⟩ | ⟨y, hk, _⟩
        · obtain ⟨k, rfl⟩ := setBackground_rejects e1
          cases hk
          exact verdict_here (bad rfl rfl k)
        · cases hk
    case colorForeground c =>
      dsimp only at h
      cases e1 : ctx.setForeground c (.colorForeground c) with
      | ok ctx' =>
        rw [e1] at h
        exact verdict_cons (paint_noFault rfl ⟨good rfl (setForeground_admits e1).1, rfl⟩)
          (ih (by rw [setForeground_fg e1]; exact hc) hw hh h)
      | error er =>
        rw [e1] at h
        rcases outcome_bind h with ⟨e, rfl, hk⟩ | ⟨y, hk, _⟩
        · obtain ⟨k, rfl⟩ := setForeground_rejects e1
          cases hk
          exact verdict_here (bad rfl rfl k)
        · cases hk
    case colorRectangle r c =>
      dsimp only at h
      cases e1 : ctx.setForeground (some c) (.colorRectangle r c) with
      | error er =>
        rw [e1] at h
        rcases outcome_bind h with ⟨e, rfl, hk⟩ | ⟨y, hk, _⟩
        · obtain ⟨k, rfl⟩ := setForeground_rejects e1
          cases hk
          exact verdict_here (bad rfl rfl k)
        · cases hk
      | ok ctx' =>
        rw [e1] at h
        simp only [Out.ok_bind] at h
        rcases outcome_bind h with ⟨e, rfl, hk⟩ | ⟨mid, h2, h⟩
        · obtain ⟨k1, rfl⟩ := renderRect_fault (by omega) (by omega) (by rw [hw, hh]; exact hd.size) hk
          rw [hw, hh] at k1
          exact verdict_here (.value rfl fun hv => k1 hv.2)
        · have hp := renderRect_painted h2
          have := renderRect_inside (by omega) (by omega) (by rw [hw, hh]; exact hd.size) h2
          rw [hw, hh] at this
          exact verdict_cons (paint_noFault rfl ⟨good rfl (setForeground_admits e1).1, this⟩)
            (ih hc (hp.width.trans hw) (hp.height.trans hh) h)
    case graphic n pos =>
      have go : ∀ {gid x y}, 1 ≤ x → 1 ≤ y → corner pos = (x - 1, y - 1) →
          (∀ x y id, pos = some (x, y, some id) → gid = some id) →
          (∀ id, gid = some id → ∃ x y, pos = some (x, y, some id)) →
          Outcome (do
            let g ← lookupGraphic d n gid
            let raster ← (g.renderGraphic page x y ctx).mapErr GraphicError.toSyntax
            renderGraphicsLoop d ss ctx raster) r →
          Verdict (PaintFault d (.graphic n pos) :: vs.map (PaintFault d)) r := by
        intro gid x y hx hy hcor hid hid' h
        rcases outcome_bind h with ⟨e, rfl, hk⟩ | ⟨g, h1, h⟩
        · exact verdict_here (lookupGraphic_first hk hid')
        obtain ⟨g1, g3⟩ := lookupGraphic_some h1
        have g3 : ∀ x y id, pos = some (x, y, some id) → id = g.versionId := fun x y id e => g3 id (hid x y id e)
        rcases outcome_bind h with ⟨e, rfl, hk⟩ | ⟨mid, h2, h⟩
        · rw [mapErr_eq_err] at hk
          obtain ⟨e', h2, rfl⟩ := hk
          obtain ⟨rfl, hb⟩ := (C37_too_big_iff g page x y hx hy ctx e').1 h2
          refine verdict_here (.big g1 g3 ?_)
          rw [hcor, ← hw, ← hh]
          exact hb
        · rw [mapErr_eq_ok] at h2
          have hp := renderGraphic_painted h2
          have hb : ¬ (page.width < x - 1 + g.width.toNat ∨ page.height < y - 1 + g.height.toNat) := by
            intro hb
            rw [(C37_too_big_iff g page x y hx hy ctx .tooBig).2 ⟨rfl, hb⟩] at h2
            cases h2
          refine verdict_cons (graphic_noFault g1 g3 ?_ ?_) (ih hc (hp.width.trans hw) (hp.height.trans hh) h)
          · rw [hcor]; dsimp only; omega
          · rw [hcor]; dsimp only; omega
      cases pos with
      | none => exact go (gid := none) (x := 1) (y := 1) (Nat.le_refl 1) (Nat.le_refl 1) rfl (by simp) (by simp) h
      | some q =>
        obtain ⟨x, y, gid⟩ := q
        obtain ⟨h1, h2⟩ := hr.2 x y gid rfl
        exact go (gid := gid) h1 h2 rfl (by simp) (by rintro id rfl; exact ⟨x, y, rfl⟩) h
    case newPage => exact absurd rfl hne
    case textRectangle r => exact absurd rfl (hnr r)
    all_goals first
      | (exfalso; cases r <;> simp [Outcome] at h; done)
      | exact verdict_cons (other_noPaint rfl (by simp)) (ih hc hw hh h)

/-! ### layout tags -/

theorem rtrStep_layout {d : Dms} (hd : SizeOk d) {po st v st' e}
    (hc : st.rs.colorCtx.colorScheme = d.multiCfg.colorScheme)
    (h : rtrStep d (RenderState.new d) po st v = .ok (.fail e, st')) : LayoutFault d v e := by
  have hf := rtrStep_fault hd hc h
  have hl : isLayout v = true := by
    unfold rtrStep at h
    split at h <;> dsimp only at h <;> first | rfl | (exfalso; simp at h; done)
  cases hf with
  | value _ hn => exact ⟨hl, hn, rfl⟩
  | noGraphic _ => cases hl
  | graphicId _ _ _ => cases hl
  | graphicBig _ _ => cases hl

theorem rtrStep_noFault {d : Dms} {po st v st'} (hnr : ∀ r, v ≠ .textRectangle r)
    (hc : st.rs.colorCtx.colorScheme = d.multiCfg.colorScheme)
    (h : rtrStep d (RenderState.new d) po st v = .ok (.cont, st')) (e) : ¬ LayoutFault d v e := by
  intro hx
  obtain ⟨h1, h2, h3⟩ := hx
  clear h3
  apply h2
  clear h2
  have hn := rtrStep_needs h
  cases v <;> try (cases h1; done)
  case colorForeground c =>
    refine ⟨?_, rfl⟩
    unfold rtrStep at h
    dsimp only at h
    cases e1 : st.rs.colorCtx.setForeground c (.colorForeground c) with
    | error er => rw [e1] at h; simp at h
    | ok ctx =>
      intro k hk
      rw [← hc]
      exact (setForeground_admits e1).1 k hk
  case textRectangle r => exact absurd rfl (hnr r)
  case justificationLine j => exact ⟨(fun k hk => by cases hk), (by cases j <;> first | exact hn | rfl)⟩
  case justificationPage j => exact ⟨(fun k hk => by cases hk), (by cases j <;> first | exact hn | rfl)⟩
  case newLine j => exact ⟨(fun k hk => by cases hk), (by cases j <;> first | exact hn | rfl)⟩
  all_goals exact ⟨(fun k hk => by cases hk), hn⟩

theorem updateTextRectangle_textRect' {d : Dms} (hd : SizeOk d) {r r'}
    (h : updateTextRectangle d (RenderState.new d).textRectangle r = .ok (some r')) :
    TextRect d d.vmsCfg.signWidthPixels.toNat d.vmsCfg.signHeightPixels.toNat r := by
  rw [show (RenderState.new d).textRectangle = ⟨1, 1, d.vmsCfg.signWidthPixels, d.vmsCfg.signHeightPixels⟩ from rfl] at h
  have h' := h
  unfold updateTextRectangle at h'
  simp only [Res.bind_eq_ok] at h'
  obtain ⟨i, hi, _⟩ := h'
  obtain ⟨f1, f2⟩ := intersection_fits hi
  rw [extend_x, extend_width] at f1
  rw [extend_y, extend_height] at f2
  apply Classical.byContradiction
  intro hn
  rw [(updateTextRectangle_eq hd.width hd.height hd.size f1 f2).2 hn] at h
  cases h

/-- the error of a result -/
def errOf {α : Type} : Except SyntaxError α → Option SyntaxError
  | .ok _ => none
  | .error e => some e

/-- the rectangle of the `[tr]` tag after the first text rectangle -/
def nextTagRect (more : List (Rectangle × List Value)) : Option Rectangle := more.head?.map (·.1)

theorem rtrLoop_first {d : Dms} (hd : SizeOk d) {po} {ss : List Str} {vs rest b} (ht : TakePage ss vs rest b) :
    ∀ {st st' : Rtr} {x rest'}, SignState d (RenderState.new d) st.rs →
      rtrLoop d (RenderState.new d) po ss st = .ok (x, st', rest') →
      Verdict ((sections vs).1.map (LayoutFault d) ++
          (nextTagRect (sections vs).2).toList.map (fun r => LayoutFault d (.textRectangle r)))
        (errOf x) := by
  induction ht with
  | nil =>
    intro st st' x rest' _ h
    simp only [rtrLoop, Res.ok.injEq, Prod.mk.injEq] at h
    obtain ⟨rfl, _⟩ := h
    exact verdict_nil
  | np hp =>
    intro st st' x rest' _ h
    rw [rtrLoop, hp] at h
    simp [rtrStep] at h
    obtain ⟨rfl, _⟩ := h
    exact verdict_nil
  | @cons s v ss vs rest b hp hne ht ih =>
    intro st st' x rest' hs h
    unfold rtrLoop at h
    rw [hp] at h
    simp only at h
    by_cases htr : ∃ r, v = .textRectangle r
    · obtain ⟨r, rfl⟩ := htr
      simp only [sections, nextTagRect, List.map_nil, List.nil_append, List.head?_cons, Option.map_some, Option.toList_some,
        List.map_cons]
      split at h
      · simp at h
      · rename_i st1 h1
        exact absurd rfl ((rtrStep_cont h1).notRect r)
      · rename_i st1 h1
        simp only [Res.ok.injEq, Prod.mk.injEq] at h
        obtain ⟨rfl, _⟩ := h
        refine verdict_single (fun _ e => ?_) (by simp [errOf])
        rintro ⟨_, h2, _⟩
        apply h2
        refine ⟨(fun k hk => by cases hk), ?_⟩
        unfold rtrStep at h1
        simp only [Res.bind_eq_ok] at h1
        obtain ⟨o, ho, h1⟩ := h1
        cases o with
        | none => simp at h1
        | some r' => exact updateTextRectangle_textRect' hd ho
      · rename_i e' st1 h1
        simp only [Res.ok.injEq, Prod.mk.injEq] at h
        obtain ⟨rfl, _⟩ := h
        exact verdict_here (rtrStep_layout hd hs.scheme h1)
    · have hnr : ∀ r, v ≠ .textRectangle r := fun r e => htr ⟨r, e⟩
      rw [sections_cons hnr]
      simp only [List.map_cons, List.cons_append]
      split at h
      · simp at h
      · rename_i st1 h1
        obtain ⟨_, _, a3⟩ := rtrStep_attr hs h1
        exact verdict_cons (rtrStep_noFault hnr hs.scheme h1) (ih a3 h)
      · rename_i st1 h1
        rcases rtrStep_brk h1 with ⟨rfl, _⟩ | ⟨r, r', rfl, _⟩
        · exact absurd rfl hne
        · exact absurd rfl (hnr r)
      · rename_i e' st1 h1
        simp only [Res.ok.injEq, Prod.mk.injEq] at h
        obtain ⟨rfl, _⟩ := h
        exact verdict_here (rtrStep_layout hd hs.scheme h1)

/-! ### pages -/

/-- the checks of a text rectangle, after those of colors and graphics -/
theorem renderTextRectangle_first {d ms pg page x pg'} (hd : SizeOk d) (h : Drawing d ms pg page)
    (hon : pg.pageState = .on false) {vs rest b} (ht : TakePage pg.values vs rest b)
    (hr : renderTextRectangle d pg page = .ok (x, pg')) :
    let spans := layoutOf d (textAttr pg.renderState) pg.renderState.lineSpacing pg.renderState.textRectangle (sections vs).1
    Verdict ((sections vs).1.map (LayoutFault d) ++
        ((nextTagRect (sections vs).2).toList.map (fun r => LayoutFault d (.textRectangle r)) ++
          textChecks d pg.renderState.textRectangle spans)) (errOf x) := by
  intro spans
  obtain ⟨hp, hw, hh⟩ := drawing_ok h
  obtain ⟨z1, z2⟩ := drawing_zero h hon
  have hsign := drawing_sign h
  have hsec := takePage_section ht
  unfold renderTextRectangle at hr
  rw [hp.default] at hr
  simp only [Res.bind_eq_ok] at hr
  obtain ⟨⟨y, st, values⟩, hl, hr⟩ := hr
  dsimp only at hr
  have hv := rtrLoop_first hd ht (st := ⟨pg.renderState, _, [], true⟩) hsign hl
  rw [← List.append_assoc]
  cases y with
  | error e' =>
    simp only [Res.pure_eq, Res.ok.injEq, Prod.mk.injEq] at hr
    obtain ⟨rfl, _⟩ := hr
    exact verdict_stop hv
  | ok _ =>
    obtain ⟨vs', i1, ⟨new, i2, i3⟩, i4⟩ := rtrLoop_section (st := ⟨pg.renderState, _, [], true⟩) hsign hl
    obtain rfl := section_unique i1 hsec
    simp only [List.nil_append] at i2
    subst i2
    have ep : st.spans.map pieceOf = spans.map pieceOf := by
      show _ = (layoutOf d (textAttr pg.renderState) pg.renderState.lineSpacing
        pg.renderState.textRectangle (sections vs).1).map pieceOf
      rw [i3, layoutOf, map_spanOf, z1]
    obtain ⟨_, _, _, hrect, _⟩ := rtrLoop_ok hl
    have hsame : ∀ s ∈ st.spans, s.state.textRectangle = pg.renderState.textRectangle := by
      intro s hs
      rcases hrect s hs with hx | hx
      · simp at hx
      · exact hx
    have fin : ∀ {r}, Outcome (renderTextSpans d st.spans page) r → errOf x = r →
        Verdict (((sections vs).1.map (LayoutFault d) ++
        (nextTagRect (sections vs).2).toList.map (fun r => LayoutFault d (.textRectangle r))) ++
          textChecks d pg.renderState.textRectangle spans) (errOf x) := by
      rintro r ho hx
      rw [hx]
      have k := renderTextSpans_first hsame ho
      rw [textChecks_pieces ep] at k
      exact verdict_append hv k
    simp only at hr
    split at hr
    · simp at hr
    · rename_i e' hts
      simp only [Res.pure_eq, Res.ok.injEq, Prod.mk.injEq] at hr
      obtain ⟨rfl, _⟩ := hr
      exact fin (r := some e') hts rfl
    · rename_i p' hts
      simp only [Res.pure_eq, Res.ok.injEq, Prod.mk.injEq] at hr
      obtain ⟨rfl, _⟩ := hr
      exact fin (r := none) ⟨_, hts⟩ rfl

theorem rectsChecks_eq (d n t sp rect ws more) : rectsChecks d n t sp rect ws more =
    rectChecks d t sp rect ws (nextTagRect more) ++ CountFault n :: (match more with
      | [] => []
      | (r, us) :: more => rectsChecks d (n + 1) (ws.foldl (TextAttr.apply (signAttr d)) t) (ws.foldl spacingAfter sp)
          (opened d r) us more) := by
  cases more with
  | nil => rw [rectsChecks]; rfl
  | cons q more => obtain ⟨r, us⟩ := q; rw [rectsChecks]; rfl

theorem onPageLoop_first {d ms} (hd : SizeOk d) {fuel n pg page x pg'}
    (h : onPageLoop d fuel n pg page = .ok (x, pg'))
    (hn : n ≤ maxTextRectangles) (hfuel : maxTextRectangles + 1 ≤ fuel + n)
    (hs : pg.pageState = .on false) (hdr : Drawing d ms pg page)
    {vs rest b} (ht : TakePage pg.values vs rest b) :
    Verdict (rectsChecks d (n + 1) (textAttr pg.renderState) pg.renderState.lineSpacing pg.renderState.textRectangle
      (sections vs).1 (sections vs).2) (errOf x) := by
  induction fuel generalizing n pg page vs with
  | zero => omega
  | succ fuel ih =>
    rw [onPageLoop, if_pos hs] at h
    obtain ⟨hp, hw, hh⟩ := drawing_ok hdr
    have hsign := drawing_sign hdr
    rw [rectsChecks_eq, rectChecks]
    have gr := fun {r} => renderGraphicsLoop_first (r := r) hd (takePage_section ht) hp.items hsign.scheme hw hh
    split at h
    · simp at h
    · rename_i e' hgr
      simp only [Res.ok.injEq, Prod.mk.injEq] at h
      obtain ⟨rfl, _⟩ := h
      exact verdict_stop (verdict_stop (gr (r := some e') hgr))
    · rename_i mid hgr
      have gr := gr (r := none) ⟨_, hgr⟩
      have hd1 := Drawing.graphics hdr hgr
      simp only [Res.bind_eq_ok] at h
      obtain ⟨⟨y, pg1⟩, h1, h2⟩ := h
      have hv := renderTextRectangle_first hd hd1 hs ht h1
      dsimp only at hv
      cases y with
      | error e' =>
        simp only [Res.pure_eq, Res.ok.injEq, Prod.mk.injEq] at h2
        obtain ⟨rfl, _⟩ := h2
        exact verdict_stop (verdict_append gr hv)
      | ok page1 =>
        have hv : Verdict _ none := hv
        have hd2 := Drawing.text hd1 h1
        obtain ⟨st, values, hl, hpg1, hts⟩ := renderTextRectangle_ok h1
        rw [hp.default] at hl
        obtain ⟨hsec, e1, e2, e3⟩ := rtrLoop_end (st := ⟨pg.renderState, _, [], true⟩) hsign hl ht
        simp only at h2
        split at h2
        · rename_i hlt
          simp only [Res.pure_eq, Res.ok.injEq, Prod.mk.injEq] at h2
          obtain ⟨rfl, _⟩ := h2
          exact verdict_append (verdict_append gr hv) (verdict_here ⟨hlt, rfl⟩)
        · rename_i hlt
          have hcount : ∀ e, ¬ CountFault (n + 1) e := fun e hc => hlt hc.1
          generalize he : (sections vs).2 = more at e3 hv ⊢
          cases more with
          | nil =>
            dsimp only at e3
            have : errOf x = none := by
              cases fuel with
              | zero =>
                simp only [onPageLoop, Res.ok.injEq, Prod.mk.injEq] at h2
                obtain ⟨rfl, _⟩ := h2; rfl
              | succ f =>
                rw [onPageLoop, if_neg (by rw [hpg1]; dsimp only; rw [e3.1]; exact pageEnd_ne b _)] at h2
                simp only [Res.ok.injEq, Prod.mk.injEq] at h2
                obtain ⟨rfl, _⟩ := h2; rfl
            rw [this]
            exact verdict_append (verdict_append gr hv) (verdict_cons hcount verdict_nil)
          | cons q more =>
            obtain ⟨r, ws1⟩ := q
            obtain ⟨e4, e5, ws, e6, e7⟩ := e3
            have key := ih h2 (by omega) (by omega) (by rw [hpg1]; exact e4) hd2 (vs := ws) (by rw [hpg1]; exact e6)
            rw [e7, hpg1] at key
            dsimp only at key
            rw [e1, e2, e5] at key
            exact verdict_append (verdict_append gr hv) (verdict_cons hcount key)

/-! ### each check gives one error only -/

theorem fontFault_one {d s e e'} (h : SpanFontFault d s e) (h' : SpanFontFault d s e') : e = e' := by
  cases h with
  | missing hm =>
    cases h' with
    | missing _ => rfl
    | version h1 _ _ =>
      unfold FontTable.font at h1
      have h2 := List.find?_some h1
      exact absurd (by simpa using h2) (hm _ (List.mem_of_find?_eq_some h1))
  | version h1 _ _ =>
    cases h' with
    | missing hm =>
      unfold FontTable.font at h1
      have h2 := List.find?_some h1
      exact absurd (by simpa using h2) (hm _ (List.mem_of_find?_eq_some h1))
    | version _ _ _ => rfl

theorem glyphFault_one {d s e e'} (h : GlyphFault d s e) (h' : GlyphFault d s e') : e = e' := by
  cases h with
  | font h =>
    cases h' with
    | font h' => exact fontFault_one h h'
    | character h1 _ _ _ => exact absurd h (fontOf_noFault h1 _)
  | @character f pre c post h1 h2 h3 h4 =>
    cases h' with
    | font h' => exact absurd h' (fontOf_noFault h1 _)
    | @character f' pre' c' post' k1 k2 k3 k4 =>
      have : f' = f := Option.some.inj (k1.1.symm.trans h1.1)
      subst this
      have key : ∀ {pre pre' : Str} {c c' : Char} {post post'},
          (∀ a ∈ pre, ∃ e ∈ f'.characters, e.number.toNat = a.toNat) → (∀ e ∈ f'.characters, e.number.toNat ≠ c.toNat) →
          (∀ a ∈ pre', ∃ e ∈ f'.characters, e.number.toNat = a.toNat) →
          (∀ e ∈ f'.characters, e.number.toNat ≠ c'.toNat) → pre ++ c :: post = pre' ++ c' :: post' → c = c' := by
        intro pre
        induction pre with
        | nil =>
          intro pre' c c' post post' _ h4 k3 _ e
          cases pre' with
          | nil => simp at e; exact e.1
          | cons a pre' =>
            simp only [List.nil_append, List.cons_append, List.cons.injEq] at e
            obtain ⟨x, hx, hn⟩ := k3 a (List.mem_cons_self ..)
            exact absurd (hn.trans (by rw [e.1])) (h4 x hx)
        | cons a pre ih =>
          intro pre' c c' post post' h3 h4 k3 k4 e
          cases pre' with
          | nil =>
            simp only [List.nil_append, List.cons_append, List.cons.injEq] at e
            obtain ⟨x, hx, hn⟩ := h3 a (List.mem_cons_self ..)
            exact absurd (hn.trans (by rw [e.1])) (k4 x hx)
          | cons a' pre' =>
            simp only [List.cons_append, List.cons.injEq] at e
            exact ih (fun a h => h3 a (List.mem_cons_of_mem _ h)) h4 (fun a h => k3 a (List.mem_cons_of_mem _ h)) k4 e.2
      rw [key h3 h4 k3 k4 (h2.symm.trans k2)]

theorem paintFault_one {d v e e'} (h : PaintFault d v e) (h' : PaintFault d v e') : e = e' := by
  have find : ∀ {n g}, GraphicTable.graphic d.graphicDefinition n = some g →
      ¬ ∀ g ∈ d.graphicDefinition, g.number ≠ n := by
    intro n g h1 hm
    unfold GraphicTable.graphic at h1
    have h2 := List.find?_some h1
    exact hm _ (List.mem_of_find?_eq_some h1) (by simpa using h2)
  cases h with
  | value h1 _ =>
    cases h' with
    | value _ _ => rfl
    | missing _ => cases h1
    | version _ _ => cases h1
    | big _ _ _ => cases h1
  | missing hm =>
    cases h' with
    | value h1 _ => cases h1
    | missing _ => rfl
    | version h1 _ => exact absurd hm (find h1)
    | big h1 _ _ => exact absurd hm (find h1)
  | version h1 h2 =>
    cases h' with
    | value h1 _ => cases h1
    | missing hm => exact absurd hm (find h1)
    | version _ _ => rfl
    | big k1 k2 _ =>
      rw [h1] at k1
      cases k1
      exact absurd (k2 _ _ _ rfl) h2
  | big h1 h2 _ =>
    cases h' with
    | value h1 _ => cases h1
    | missing hm => exact absurd hm (find h1)
    | version k1 k2 =>
      rw [h1] at k1
      cases k1
      exact absurd (h2 _ _ _ rfl) k2
    | big _ _ _ => rfl

theorem textChecks_one {d rect spans} : ∀ c ∈ textChecks d rect spans, ∀ e e', c e → c e' → e = e' := by
  intro c hc e e' h h'
  unfold textChecks at hc
  rcases List.mem_cons.1 hc with rfl | hc
  · rw [h.1, h'.1]
  · obtain ⟨s, _, hc⟩ := List.mem_flatMap.1 hc
    unfold spanChecks at hc
    rcases List.mem_append.1 hc with hc | hc
    · obtain ⟨x, _, rfl⟩ := List.mem_map.1 hc
      exact glyphFault_one h h'
    · rcases List.mem_cons.1 hc with rfl | hc
      · rw [h.1, h'.1]
      · rcases List.mem_append.1 hc with hc | hc
        · obtain ⟨x, _, rfl⟩ := List.mem_map.1 hc
          exact fontFault_one h h'
        · rw [List.mem_singleton.1 hc] at h h'
          rw [h.1, h'.1]

theorem rectsChecks_one {d n t sp rect ws more} : ∀ c ∈ rectsChecks d n t sp rect ws more, ∀ e e', c e → c e' → e = e' := by
  have rc : ∀ {t sp rect ws next}, ∀ c ∈ rectChecks d t sp rect ws next, ∀ e e', c e → c e' → e = e' := by
    intro t sp rect ws next c hc e e' h h'
    unfold rectChecks at hc
    rcases List.mem_append.1 hc with hc | hc
    · obtain ⟨x, _, rfl⟩ := List.mem_map.1 hc
      exact paintFault_one h h'
    · rcases List.mem_append.1 hc with hc | hc
      · obtain ⟨x, _, rfl⟩ := List.mem_map.1 hc
        rw [h.2.2, h'.2.2]
      · rcases List.mem_append.1 hc with hc | hc
        · obtain ⟨x, _, rfl⟩ := List.mem_map.1 hc
          rw [h.2.2, h'.2.2]
        · exact textChecks_one c hc e e' h h'
  induction more generalizing n t sp rect ws with
  | nil =>
    intro c hc e e' h h'
    rw [rectsChecks] at hc
    rcases List.mem_append.1 hc with hc | hc
    · exact rc c hc e e' h h'
    · rw [List.mem_singleton.1 hc] at h h'
      rw [h.2, h'.2]
  | cons q more ih =>
    obtain ⟨r, us⟩ := q
    intro c hc e e' h h'
    rw [rectsChecks] at hc
    rcases List.mem_append.1 hc with hc | hc
    · exact rc c hc e e' h h'
    · rcases List.mem_cons.1 hc with rfl | hc
      · rw [h.2, h'.2]
      · exact ih c hc e e' h h'

theorem pageChecks_one {d t vs} : ∀ c ∈ pageChecks d t vs, ∀ e e', c e → c e' → e = e' := by
  intro c hc e e' h h'
  unfold pageChecks at hc
  rcases List.mem_append.1 hc with hc | hc
  · obtain ⟨x, _, rfl⟩ := List.mem_map.1 hc
    cases h <;> cases h' <;> rfl
  · exact rectsChecks_one c hc e e' h h'

/-! ### items -/

theorem wrongItem_error {s e} (h : WrongItem s e) : tryFrom s = .ok (.error e) ∨ ∃ p, tryFrom s = .panic p := by
  cases h with
  | bracket h h1 h2 =>
    left
    unfold tryFrom
    rw [if_neg (by rintro (h | h); exact h1 h; exact h2 h)]
    rcases h with ⟨k1, k2⟩ | k
    · rw [if_neg (fun k => k2 k.2), if_pos (.inl k1)]
    · rw [if_neg (fun h => by rw [k] at h; simp at h), if_pos (.inr k)]
  | @name x hk =>
    left
    unfold tryFrom
    rw [if_neg (by rintro (h | h) <;> cases x <;> simp at h), if_pos ⟨rfl, by rw [List.getLast?_cons]; simp⟩]
    have ex : ('[' :: (x ++ [']'])).drop 1 = x ++ [']'] := rfl
    rw [ex, List.dropLast_concat]
    rcases parseTag_cases x with ⟨k, pre, r, rfl, hp, hk'⟩ | ⟨h3, h4⟩
    · exact absurd ((knownTag_iff _).2 ⟨k, pre, r, rfl, hp, hk'⟩) hk
    · rw [h3]
  | @parameters x hk hv =>
    cases ht : tryFrom ('[' :: (x ++ [']'])) with
    | panic p => exact .inr ⟨p, rfl⟩
    | ok y =>
      cases y with
      | ok v => exact absurd ((C84_item _ _).1 ht) (hv v)
      | error e' =>
        left
        have h' := tryFrom_fault ht
        generalize hs : '[' :: (x ++ [']']) = s at h'
        cases h' with
        | bracket k _ _ =>
          subst hs
          rcases k with ⟨_, k⟩ | k
          · rw [List.getLast?_cons] at k; simp at k
          · simp at k
        | @name x' k =>
          simp only [List.cons.injEq, List.append_cancel_right_eq, true_and] at hs
          subst hs
          exact absurd hk k
        | @parameters x' k _ =>
          simp only [List.cons.injEq, List.append_cancel_right_eq, true_and] at hs
          subst hs
          rfl
        | character k _ _ _ => subst hs; simp at k
  | @character _ c h1 h2 hc hv =>
    left
    unfold tryFrom
    rw [if_neg (by rintro (rfl | rfl); exact h1 rfl; exact h2 rfl), if_neg (fun k => h1 k.1),
      if_neg (by rintro (k | k); exact h1 k; exact h2 k), if_pos]
    rw [List.any_eq_true]
    refine ⟨c, hc, ?_⟩
    simp [validChar]
    omega

theorem wrongItem_one {s e e'} (h : WrongItem s e) (h' : WrongItem s e') (hp : ∀ p, tryFrom s ≠ .panic p) : e = e' := by
  rcases wrongItem_error h with h | ⟨p, h⟩
  · rcases wrongItem_error h' with h' | ⟨p, h'⟩
    · rw [h] at h'; simpa using h'
    · exact absurd h' (hp p)
  · exact absurd h (hp p)

/-- the items of a page: the check of the library, as long as it does not panic -/
theorem checkUnsupported_first {d : Dms} {ss r} (h : Outcome (checkUnsupported d ss) r) :
    (∀ e, ItemFault d ss e ↔ r = some e) := by
  induction ss generalizing r with
  | nil =>
    cases r with
    | none => intro e; simp only [reduceCtorEq, iff_false]; intro hf; cases hf
    | some e => cases h
  | cons s ss ih =>
    unfold checkUnsupported at h
    rcases outcome_bind h with ⟨e, rfl, hk⟩ | ⟨x, hx, h⟩
    · simp at hk
    simp only [Out.ofRes_eq_ok] at hx
    have wrong : ∀ {e}, WrongItem s e → x = .error e := by
      intro e hw
      rcases wrongItem_error hw with k | ⟨p, k⟩
      · rw [hx] at k; simpa using k
      · rw [hx] at k; cases k
    rcases outcome_bind h with ⟨e, rfl, hk⟩ | ⟨v, hv, h⟩
    · cases x with
      | ok v => simp [ofExcept] at hk
      | error e0 =>
        simp only [ofExcept, Out.err.injEq] at hk
        subst hk
        intro e'
        have nd : ∀ v, ¬ Denotes s v := by
          intro v hd
          rw [← C84_item, hx] at hd
          simp at hd
        constructor
        · intro hf
          cases hf with
          | bad hw => rw [wrong hw |> Except.error.inj]
          | tag hd _ _ => exact absurd hd (nd _)
          | later hd _ _ _ => exact absurd hd (nd _)
        · intro he
          cases he
          exact .bad (tryFrom_fault hx)
    · cases x with
      | error e0 => simp [ofExcept] at hv
      | ok v' =>
        simp only [ofExcept, Out.ok.injEq] at hv
        subst hv
        have hd := (C84_item _ _).1 hx
        have same : ∀ {v}, Denotes s v → v = v' := by
          intro v hd'
          rw [← C84_item, hx] at hd'
          simpa using hd'.symm
        have step : ∀ {r}, (∀ t, v'.tag = some t → d.multiCfg.supportedMultiTags t = true) → v' ≠ .newPage →
            (∀ e, ItemFault d ss e ↔ r = some e) → ∀ e, ItemFault d (s :: ss) e ↔ r = some e := by
          intro r hs hne ih e
          rw [← ih]
          constructor
          · intro hf
            cases hf with
            | bad hw => cases wrong hw
            | tag hd' ht hsup =>
              obtain rfl := same hd'
              rw [hs _ ht] at hsup; cases hsup
            | later _ _ _ hf => exact hf
          · intro hf; exact .later hd hne hs hf
        split at h
        · rename_i t ht
          split at h
          · rename_i hsup
            have hsup : d.multiCfg.supportedMultiTags t = false := by simpa using hsup
            cases r with
            | none => obtain ⟨_, h⟩ := h; cases h
            | some e0 =>
              simp only [Outcome, Out.err.injEq] at h
              subst h
              intro e
              constructor
              · intro hf
                cases hf with
                | bad hw => cases wrong hw
                | tag hd' _ _ => rw [same hd']
                | later hd' _ hs _ =>
                  obtain rfl := same hd'
                  rw [hs _ ht] at hsup; cases hsup
              · intro he; cases he; exact .tag hd ht hsup
          · rename_i hsup
            have hsup : ∀ t', v'.tag = some t' → d.multiCfg.supportedMultiTags t' = true := by
              intro t' ht'
              rw [ht] at ht'
              cases ht'
              simpa using hsup
            split at h
            · rename_i hnp
              subst hnp
              have : r = none := by
                cases r with
                | none => rfl
                | some e => cases h
              subst this
              have hnp : v' = .newPage := tag_np ht
              intro e
              simp only [reduceCtorEq, iff_false]
              intro hf
              cases hf with
              | bad hw => cases wrong hw
              | tag hd' ht' hs' =>
                obtain rfl := same hd'
                rw [hsup _ ht'] at hs'; cases hs'
              | later hd' hne _ _ => exact hne ((same hd').trans hnp)
            · rename_i hnp
              refine step hsup ?_ (ih h)
              rintro rfl; simp [Value.tag] at ht; exact hnp ht.symm
        · rename_i ht
          refine step (by intro t' ht'; rw [ht] at ht'; cases ht') ?_ (ih h)
          rintro rfl; simp [Value.tag] at ht

/-- the first background color that is not of the color scheme -/
theorem updatePageStateLoop_first {d : Dms} {ds : RenderState} {ss vs rest b} (ht : TakePage ss vs rest b)
    (rs : RenderState) (hc : rs.colorCtx.colorScheme = d.multiCfg.colorScheme) (x) (rs')
    (h : updatePageStateLoop ds ss rs = .ok (x, rs')) : Verdict (vs.map (BackgroundFault d)) (errOf x) := by
  induction ht generalizing rs with
  | nil =>
    simp only [updatePageStateLoop, Res.ok.injEq, Prod.mk.injEq] at h
    obtain ⟨rfl, _⟩ := h
    exact verdict_nil
  | np hv =>
    rw [updatePageStateLoop] at h
    simp only [hv, Res.ok.injEq, Prod.mk.injEq] at h
    obtain ⟨rfl, _⟩ := h
    exact verdict_nil
  | @cons s v ss vs rest b hv hne ht ih =>
    rw [updatePageStateLoop] at h
    simp only [hv] at h
    rw [List.map_cons]
    split at h
    · rename_i c
      split at h
      · rename_i ctx e1
        refine verdict_cons (fun e hf => ?_) (ih _ (by dsimp only; rw [setBackground_bg e1]; exact hc) h)
        cases hf with
        | cb hn => exact hn fun k hk => by rw [← hc]; exact (setBackground_admits e1).1 k hk
      · rename_i er e1
        simp only [Res.ok.injEq, Prod.mk.injEq] at h
        obtain ⟨rfl, _⟩ := h
        obtain ⟨⟨k, hk, h1⟩, rfl⟩ := setBackground_rejects e1
        exact verdict_here (.cb fun hok => h1 (by rw [hc]; exact hok k hk))
    · rename_i c
      split at h
      · rename_i ctx e1
        refine verdict_cons (fun e hf => ?_) (ih _ (by dsimp only; rw [setBackground_bg e1]; exact hc) h)
        cases hf with
        | pb hn => exact hn fun k hk => by rw [← hc]; exact (setBackground_admits e1).1 k hk
      · rename_i er e1
        simp only [Res.ok.injEq, Prod.mk.injEq] at h
        obtain ⟨rfl, _⟩ := h
        obtain ⟨⟨k, hk, h1⟩, rfl⟩ := setBackground_rejects e1
        exact verdict_here (.pb fun hok => h1 (by rw [hc]; exact hok k hk))
    · exact absurd rfl hne
    · exact verdict_cons (fun e hf => by cases hf) (ih _ (by dsimp only; exact hc) h)
    · rename_i n1 n2 n3 n4
      exact verdict_cons (fun e hf => by cases hf <;> simp at n1 n2) (ih _ hc h)

end Ntcip
