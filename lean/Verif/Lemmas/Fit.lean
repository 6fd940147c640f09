import Verif.Lemmas.States
/-
Lines of text: heights and positions.
-/
namespace Ntcip
open Spec

theorem ofFont_eq {t s f} (h : FontOf t s f) (v : Font → UInt8) : ofFont t v s = (v f).toNat := by
  unfold ofFont; rw [h.1]

/-- line `i` as described by the specification -/
def specLine (t : FontTable) (ss : List Span) (i : Nat) : TextLine :=
  ⟨lineHeight t ss i, fontLineSpacing t ss i, tagLineSpacing ss i⟩

theorem largest_append (a b : List Nat) : largest (a ++ b) = max (largest a) (largest b) := by
  induction a with
  | nil => simp [largest]
  | cons x a ih =>
    simp only [largest, List.cons_append, List.foldr_cons] at ih ⊢
    rw [ih]; omega

theorem largest_mem {a : Nat} {l : List Nat} (h : a ∈ l) : a ≤ largest l := by
  induction l with
  | nil => simp at h
  | cons x l ih =>
    simp only [largest, List.foldr_cons] at ih ⊢
    rcases List.mem_cons.1 h with rfl | h
    · omega
    · have := ih h; omega

theorem largest_le {l : List Nat} {n : Nat} (h : ∀ a ∈ l, a ≤ n) : largest l ≤ n := by
  induction l with
  | nil => simp [largest]
  | cons x l ih =>
    simp only [largest, List.foldr_cons] at ih ⊢
    have := h x (List.mem_cons_self ..)
    have := ih fun a ha => h a (List.mem_cons_of_mem _ ha)
    omega

theorem onLine_append (a b : List Span) (i : Nat) : onLine (a ++ b) i = onLine a i ++ onLine b i := by
  simp [onLine]

theorem specLine_other {t done s i} (h : s.state.lineNumber ≠ i) :
    specLine t (done ++ [s]) i = specLine t done i := by
  have : onLine [s] i = [] := by simp [onLine, h]
  simp only [specLine, lineHeight, fontLineSpacing, tagLineSpacing, onLine_append, this, List.append_nil]

theorem specLine_same {t done s f} (h : FontOf t s f) :
    specLine t (done ++ [s]) s.state.lineNumber =
      (specLine t done s.state.lineNumber).combine (spanLine s f) := by
  have : onLine [s] s.state.lineNumber = [s] := by simp [onLine]
  simp only [specLine, lineHeight, fontLineSpacing, tagLineSpacing, onLine_append, this, List.map_append,
    largest_append, TextLine.combine, spanLine, List.map_cons, List.map_nil, ofFont_eq h,
    List.findSome?_append, Span.lineSpacing]
  congr 1
  · simp [largest]
  · simp [largest]
  · cases (onLine done s.state.lineNumber).findSome? _ <;> simp

theorem specLine_fresh {t done s f} (h : FontOf t s f)
    (hn : ∀ x ∈ done, x.state.lineNumber ≠ s.state.lineNumber) :
    specLine t (done ++ [s]) s.state.lineNumber = spanLine s f := by
  have : onLine [s] s.state.lineNumber = [s] := by simp [onLine]
  have h0 : onLine done s.state.lineNumber = [] := by
    unfold onLine; rw [List.filter_eq_nil_iff]; simpa using hn
  simp only [specLine, lineHeight, fontLineSpacing, tagLineSpacing, onLine_append, this, h0, List.nil_append,
    List.map_cons, List.map_nil, ofFont_eq h, Span.lineSpacing, spanLine]
  congr 1
  · simp [largest]
  · simp [largest]
  · cases h2 : s.state.lineSpacing <;> simp [h2]

theorem textLines_dense {t k ss n} (hd : Dense k ss n) (hf : ∀ s ∈ ss, ∃ f, FontOf t s f) :
    ∀ done : List Span, (∀ x ∈ done, x.state.lineNumber < k) →
      textLines t ss ((List.range k).map (specLine t done)) =
        .ok ((List.range n).map (specLine t (done ++ ss))) := by
  induction hd with
  | nil => intro done _; simp [textLines]
  | @old k s ss n hl _ ih =>
    intro done hdone
    obtain ⟨f, hfs⟩ := hf s (List.mem_cons_self ..)
    rw [textLines_cons_ok]
    refine ⟨f, hfs, ?_⟩
    rw [if_neg (by simp; omega)]
    have e : combineAt ((List.range k).map (specLine t done)) s.state.lineNumber (spanLine s f) =
        (List.range k).map (specLine t (done ++ [s])) := by
      apply List.ext_getElem?
      intro i
      rw [combineAt_get]
      simp only [List.getElem?_map]
      by_cases hi : i < k
      · rw [List.getElem?_range hi]
        simp only [Option.map_some]
        split
        · rename_i e; subst e; rw [specLine_same hfs]
        · rename_i e; rw [specLine_other (fun h => e h.symm)]
      · rw [List.getElem?_eq_none (by simp; omega)]; simp
    rw [e]
    have := ih (fun s hs => hf s (List.mem_cons_of_mem _ hs)) (done ++ [s]) (by
      intro x hx
      rcases List.mem_append.1 hx with hx | hx
      · exact hdone x hx
      · simp only [List.mem_singleton] at hx; subst hx; exact hl)
    simpa using this
  | @new k s ss n hl _ ih =>
    intro done hdone
    obtain ⟨f, hfs⟩ := hf s (List.mem_cons_self ..)
    rw [textLines_cons_ok]
    refine ⟨f, hfs, ?_⟩
    rw [if_pos (by simp; omega)]
    have e : (List.range k).map (specLine t done) ++ [spanLine s f] =
        (List.range (k + 1)).map (specLine t (done ++ [s])) := by
      rw [List.range_succ, List.map_append]
      congr 1
      · apply List.map_congr_left
        intro i hi
        rw [List.mem_range] at hi
        rw [specLine_other (by omega)]
      · simp only [List.map_cons, List.map_nil]
        rw [← hl, specLine_fresh hfs (fun x hx => by have := hdone x hx; omega)]
    rw [e]
    have := ih (fun s hs => hf s (List.mem_cons_of_mem _ hs)) (done ++ [s]) (by
      intro x hx
      rcases List.mem_append.1 hx with hx | hx
      · have := hdone x hx; omega
      · simp only [List.mem_singleton] at hx; subst hx; omega)
    simpa using this

theorem textLines_spec {t ss n} (hd : Dense 0 ss n) (hf : ∀ s ∈ ss, ∃ f, FontOf t s f) :
    textLines t ss [] = .ok ((List.range n).map (specLine t ss)) := by
  have := textLines_dense hd hf [] (by simp)
  simpa using this

theorem dense_lt {k ss n} (hd : Dense k ss n) : k ≤ n ∧ ∀ s ∈ ss, s.state.lineNumber < n := by
  induction hd with
  | nil => simp
  | old h _ ih =>
    refine ⟨ih.1, fun s hs => ?_⟩
    rcases List.mem_cons.1 hs with rfl | hs
    · omega
    · exact ih.2 s hs
  | new h _ ih =>
    refine ⟨by omega, fun s hs => ?_⟩
    rcases List.mem_cons.1 hs with rfl | hs
    · omega
    · exact ih.2 s hs

theorem lineGap_spec (full : Bool) (t : FontTable) (ss : List Span) (i : Nat) :
    lineGap full (some (specLine t ss i)) (specLine t ss (i + 1)) = lineSpace full t ss i := by
  unfold lineGap lineSpace
  dsimp only
  split
  · unfold TextLine.spacing specLine
    dsimp only
    cases h : tagLineSpacing ss (i + 1)
    · simp only [Option.getD_none]; omega
    · rfl
  · rfl

/-- previous line of line `i` -/
def prevLine (t : FontTable) (ss : List Span) : Nat → Option TextLine
  | 0 => none
  | i + 1 => some (specLine t ss i)

/-- heights of the lines before line `i` -/
def heightTo (full : Bool) (t : FontTable) (ss : List Span) : Nat → Nat
  | 0 => 0
  | i + 1 => linesHeight full t ss i

theorem heightTo_succ (full t ss i) : heightTo full t ss (i + 1) =
    heightTo full t ss i + lineGap full (prevLine t ss i) (specLine t ss i) + lineHeight t ss i := by
  cases i with
  | zero => simp [heightTo, linesHeight, prevLine, lineGap]
  | succ i => simp only [heightTo, prevLine, lineGap_spec, linesHeight]

theorem vSum {full t ss sln} (m : Nat) : ∀ ln,
    vAbove full sln ((List.range' ln m).map (specLine t ss)) ln (prevLine t ss ln) =
      heightTo full t ss (max ln (min (sln + 1) (ln + m))) - heightTo full t ss ln ∧
    vBelow full sln ((List.range' ln m).map (specLine t ss)) ln (prevLine t ss ln) =
      heightTo full t ss (ln + m) - heightTo full t ss (max ln (min (sln + 1) (ln + m))) ∧
    heightTo full t ss ln ≤ heightTo full t ss (max ln (min (sln + 1) (ln + m))) ∧
    heightTo full t ss (max ln (min (sln + 1) (ln + m))) ≤ heightTo full t ss (ln + m) := by
  induction m with
  | zero =>
    intro ln
    have : max ln (min (sln + 1) (ln + 0)) = ln := by omega
    rw [this]
    simp [vAbove, vBelow]
  | succ m ih =>
    intro ln
    obtain ⟨h1, h2, h3, h4⟩ := ih (ln + 1)
    have e := heightTo_succ full t ss ln
    simp only [List.range'_succ, List.map_cons, vAbove, vBelow]
    have hp : (some (specLine t ss ln)) = prevLine t ss (ln + 1) := rfl
    rw [hp, h1, h2]
    have hh : (specLine t ss ln).height = lineHeight t ss ln := rfl
    rw [hh]
    have ea : ln + 1 + m = ln + (m + 1) := by omega
    rw [ea] at h3 h4 ⊢
    by_cases hc : ln ≤ sln
    · have em : max (ln + 1) (min (sln + 1) (ln + (m + 1))) = max ln (min (sln + 1) (ln + (m + 1))) := by omega
      rw [em] at h3 h4 ⊢
      simp only [hc, if_true]
      omega
    · have em : max (ln + 1) (min (sln + 1) (ln + (m + 1))) = ln + 1 := by omega
      have em2 : max ln (min (sln + 1) (ln + (m + 1))) = ln := by omega
      rw [em] at h3 h4 ⊢
      rw [em2]
      simp only [hc, if_false]
      omega

theorem vSum_zero {full t ss sln n} (h : sln < n) :
    vAbove full sln ((List.range n).map (specLine t ss)) 0 none = linesHeight full t ss sln ∧
    vBelow full sln ((List.range n).map (specLine t ss)) 0 none =
      linesHeight full t ss (n - 1) - linesHeight full t ss sln ∧
    linesHeight full t ss sln ≤ linesHeight full t ss (n - 1) := by
  obtain ⟨h1, h2, h3, h4⟩ := vSum (full := full) (t := t) (ss := ss) (sln := sln) n 0
  rw [← List.range_eq_range'] at h1 h2
  have em : max 0 (min (sln + 1) (0 + n)) = sln + 1 := by omega
  rw [em] at h1 h2 h4
  have en : 0 + n = (n - 1) + 1 := by omega
  rw [en] at h2 h4
  simp only [prevLine, heightTo, Nat.sub_zero] at h1 h2 h4
  exact ⟨h1, h2, h4⟩

/-- vertical offsets: height of the lines up to the one of the span, and of the lines below it -/
theorem offsetVert_of {d spans s n} (hd : Dense 0 (samePage spans s) n) (hs : s ∈ spans)
    (hf : ∀ s ∈ spans, ∃ f, FontOf d.fontDefinition s f)
    (hlt : linesHeight (decide (d.vmsCfg.charHeightPixels = 0)) d.fontDefinition (samePage spans s) (n - 1) < 65536) :
    offsetVert d spans s =
      if linesHeight (decide (d.vmsCfg.charHeightPixels = 0)) d.fontDefinition (samePage spans s) (n - 1) ≤
          s.state.textRectangle.height.toNat then
        .ok (linesHeight (decide (d.vmsCfg.charHeightPixels = 0)) d.fontDefinition (samePage spans s) s.state.lineNumber,
          linesHeight (decide (d.vmsCfg.charHeightPixels = 0)) d.fontDefinition (samePage spans s) (n - 1) -
          linesHeight (decide (d.vmsCfg.charHeightPixels = 0)) d.fontDefinition (samePage spans s) s.state.lineNumber)
      else .err .textTooBig := by
  have hln := (dense_lt hd).2 s (mem_samePage hs)
  obtain ⟨v1, v2, v3⟩ := vSum_zero (full := decide (d.vmsCfg.charHeightPixels = 0)) (t := d.fontDefinition)
    (ss := samePage spans s) hln
  unfold offsetVert
  dsimp only
  rw [matchesLine_filter, textLines_spec hd (fun x hx => by
    unfold samePage at hx; exact hf x (List.mem_filter.1 hx).1)]
  simp only [Out.ok_bind]
  rw [offsetVertLoop_of (by rw [v1, v2]; omega)]
  rw [v1, v2]
  simp only [Out.ofRes_ok, Out.ok_bind, Nat.zero_add]
  rw [Nat.add_sub_cancel' v3, chk16_ok.2 ⟨rfl, hlt⟩]
  rfl

/-! ### drawing succeeds or fails -/

theorem sub16_eq {a b : Nat} (h : b ≤ a) : sub16 a b = .ok (a - b) := sub16_ok.2 ⟨h, rfl⟩
theorem chk16_eq {a : Nat} (h : a < 65536) : chk16 a = .ok a := chk16_ok.2 ⟨rfl, h⟩

theorem spanX_of {d spans s b a} (h : offsetHoriz d spans s = .ok (b, a))
    (hr : RectIn s.state.textRectangle 65535 65535)
    (hj : s.state.justLine ≠ .other ∧ s.state.justLine ≠ .full) : ∃ x, spanX d spans s = .ok x := by
  have h1 := hr.x
  have h2 := hr.right
  obtain ⟨_, hle⟩ := offsetHoriz_ok h
  unfold spanX
  cases e : s.state.justLine
  · exact absurd e hj.1
  · dsimp only
    unfold spanXLeft
    rw [sub16_eq h1, h]
    simp only [Out.ofRes_ok, Out.ok_bind]
    rw [chk16_eq (by omega)]
    exact ⟨_, rfl⟩
  · dsimp only
    unfold spanXCenter; simp only [cellWidth_eq]
    rw [sub16_eq h1, h]
    simp only [Out.ofRes_ok, Out.ok_bind]
    rw [sub16_eq (by omega)]
    simp only [Out.ofRes_ok, Out.ok_bind]
    rw [sub16_eq (by omega)]
    simp only [Out.ofRes_ok, Out.ok_bind]
    rw [chk16_eq (by omega)]
    simp only [Out.ofRes_ok, Out.ok_bind]
    rw [chk16_eq (by omega)]
    simp only [Out.ofRes_ok, Out.ok_bind]
    rw [chk16_eq]
    · exact ⟨_, rfl⟩
    · have := Nat.div_mul_le_self (s.state.textRectangle.x.toNat - 1 +
        (s.state.textRectangle.width.toNat - b - a) / 2 + b) (signCellWidth d)
      omega
  · dsimp only
    unfold spanXRight
    rw [sub16_eq h1, h]
    simp only [Out.ofRes_ok, Out.ok_bind]
    rw [chk16_eq (by omega)]
    simp only [Out.ofRes_ok, Out.ok_bind]
    rw [sub16_eq (by omega)]
    exact ⟨_, rfl⟩
  · exact absurd e hj.2

theorem spanX_err {d spans s e} (h : offsetHoriz d spans s = .err e)
    (hr : RectIn s.state.textRectangle 65535 65535)
    (hj : s.state.justLine ≠ .other ∧ s.state.justLine ≠ .full) : spanX d spans s = .err e := by
  have h1 := hr.x
  unfold spanX
  cases e : s.state.justLine
  · exact absurd e hj.1
  · dsimp only
    unfold spanXLeft
    rw [sub16_eq h1, h]
    simp only [Out.ofRes_ok, Out.ok_bind, Out.err_bind]
  · dsimp only
    unfold spanXCenter; simp only [cellWidth_eq]
    rw [sub16_eq h1, h]
    simp only [Out.ofRes_ok, Out.ok_bind, Out.err_bind]
  · dsimp only
    unfold spanXRight
    rw [sub16_eq h1, h]
    simp only [Out.ofRes_ok, Out.ok_bind, Out.err_bind]
  · exact absurd e hj.2

theorem spanY_of {d spans s a b} (h : offsetVert d spans s = .ok (a, b)) (hs : s ∈ spans)
    (hr : RectIn s.state.textRectangle 65535 65535) (hj : s.state.justPage ≠ .other)
    (ha : (s.state.textRectangle.y.toNat - 1) % (signCellHeight d) = 0)
    (hm : s.state.justPage = .middle → CellFonts d (samePage spans s)) :
    ∃ y, spanY d spans s = .ok y := by
  have h1 := hr.y
  have h2 := hr.bottom
  obtain ⟨ls, _, _, _, hle⟩ := offsetVert_ok h
  obtain ⟨f, hf, hown⟩ := offsetVert_own h hs
  have hh : s.height d.fontDefinition = .ok f.height.toNat := height_ok.2 ⟨f, hf, rfl⟩
  unfold spanY baseline
  rw [hh]
  cases e : s.state.justPage
  · exact absurd e hj
  · dsimp only
    unfold baselineTop
    rw [sub16_eq h1, h]
    simp only [Out.ofRes_ok, Out.ok_bind]
    rw [chk16_eq (by omega)]
    simp only [Out.ofRes_ok, Out.ok_bind]
    rw [sub16_eq (by omega)]
    exact ⟨_, rfl⟩
  · have hmod := offsetVert_mod h (hm e)
    have hge := trunc_ge (x := s.state.textRectangle.y.toNat - 1 +
        (s.state.textRectangle.height.toNat - a - b) / 2 + a)
      (l := s.state.textRectangle.y.toNat - 1 + a) (c := (signCellHeight d)) (by omega)
      (by rw [Nat.add_mod, ha, hmod]; simp) (cellHeight_pos d)
    have hle := Nat.div_mul_le_self (s.state.textRectangle.y.toNat - 1 +
        (s.state.textRectangle.height.toNat - a - b) / 2 + a) (signCellHeight d)
    dsimp only
    unfold baselineMiddle; simp only [cellHeight_eq]
    rw [sub16_eq h1, h]
    simp only [Out.ofRes_ok, Out.ok_bind]
    rw [sub16_eq (by omega)]
    simp only [Out.ofRes_ok, Out.ok_bind]
    rw [sub16_eq (by omega)]
    simp only [Out.ofRes_ok, Out.ok_bind]
    rw [chk16_eq (by omega)]
    simp only [Out.ofRes_ok, Out.ok_bind]
    rw [chk16_eq (by omega)]
    simp only [Out.ofRes_ok, Out.ok_bind]
    rw [chk16_eq (by omega)]
    simp only [Out.ofRes_ok, Out.ok_bind]
    rw [sub16_eq (by omega)]
    exact ⟨_, rfl⟩
  · dsimp only
    unfold baselineBottom
    rw [sub16_eq h1, h]
    simp only [Out.ofRes_ok, Out.ok_bind]
    rw [chk16_eq (by omega)]
    simp only [Out.ofRes_ok, Out.ok_bind]
    rw [sub16_eq (by omega)]
    simp only [Out.ofRes_ok, Out.ok_bind]
    rw [sub16_eq (by omega)]
    exact ⟨_, rfl⟩

theorem spanY_err {d spans s e} (h : offsetVert d spans s = .err e)
    (hr : RectIn s.state.textRectangle 65535 65535) (hj : s.state.justPage ≠ .other) :
    spanY d spans s = .err e := by
  have h1 := hr.y
  unfold spanY baseline
  cases e : s.state.justPage
  · exact absurd e hj
  · dsimp only
    unfold baselineTop
    rw [sub16_eq h1, h]
    simp only [Out.ofRes_ok, Out.ok_bind, Out.err_bind]
  · dsimp only
    unfold baselineMiddle; simp only [cellHeight_eq]
    rw [sub16_eq h1, h]
    simp only [Out.ofRes_ok, Out.ok_bind, Out.err_bind]
  · dsimp only
    unfold baselineBottom
    rw [sub16_eq h1, h]
    simp only [Out.ofRes_ok, Out.ok_bind, Out.err_bind]

/-- Spans for one text rectangle which can be laid out: fonts and characters are defined, text has no NUL,
justifications are supported, the rectangle is part of the page -/
structure Spec.Sound (d : Dms) (spans : List Span) (rect : Rectangle) : Prop where
  same : ∀ s ∈ spans, s.state.textRectangle = rect
  aligned : Aligned d rect
  fonts : ∀ s ∈ spans, ∃ f es, FontOf d.fontDefinition s f ∧ FontOk f ∧ Defined f s.str es
  chars : ∀ s ∈ spans, ∀ ch ∈ s.str, ch.toNat ≠ 0
  justLine : ∀ s ∈ spans, s.state.justLine ≠ .other ∧ s.state.justLine ≠ .full
  justPage : ∀ s ∈ spans, s.state.justPage ≠ .other
  middle : (∃ s ∈ spans, s.state.justPage = .middle) → CellFonts d spans

theorem cellFonts_samePage {d spans s} (h : CellFonts d spans) : CellFonts d (samePage spans s) := by
  rcases h with h | h
  · exact .inl h
  · refine .inr fun s' hs' => h s' ?_
    unfold samePage at hs'; exact (List.mem_filter.1 hs').1

theorem renderText_of {d spans s rect page x y} (hw : Sound d spans rect) (hs : s ∈ spans)
    (hi : RectIn rect page.width page.height) (hx : spanX d spans s = .ok x) (hy : spanY d spans s = .ok y) :
    ∃ f r, s.state.font d.fontDefinition = .ok f ∧ s.renderText page f x y = .ok r ∧
      r.width = page.width ∧ r.height = page.height := by
  obtain ⟨f, es, hf, fok, hd⟩ := hw.fonts s hs
  have e := hw.same s hs
  obtain ⟨w, ⟨f1, es1, hf1, hd1, rfl⟩, x1, x2, x3⟩ := spanX_inside hx hs (by rw [e]; exact hw.aligned.x)
  obtain ⟨f2, hf2, y1, y2, y3⟩ := spanY_inside hy hs (by rw [e]; exact hw.aligned.y)
    (fun hj => cellFonts_samePage (hw.middle ⟨s, hs, hj⟩))
  obtain rfl := fontOf_unique hf hf1
  obtain rfl := fontOf_unique hf hf2
  have hcs : s.charSpacingFont f = charSpacing s f := by
    unfold Span.charSpacingFont charSpacing
    split <;> rename_i h <;> simp [h]
  have h1 := hi.right
  have h2 := hi.bottom
  rw [e] at x3 y3
  obtain ⟨r', hr', hc⟩ := renderText_defined f fok x y (charSpacing s f) s.state.colorCtx.foregroundRgb
    s.str (hw.chars s hs) es1 hd1 page (by omega) (by omega)
  refine ⟨f, r', font_ok.2 hf, ?_, hc.width, hc.height⟩
  unfold Span.renderText
  rw [hcs, hr']; rfl

theorem renderSpansLoop_of {d spans rect page} (hw : Sound d spans rect)
    (hi : RectIn rect page.width page.height) (hb : RectIn rect 65535 65535) (ss : List Span)
    (hsub : ∀ s ∈ ss, s ∈ spans)
    (H : ∀ s ∈ ss, (∃ p, offsetHoriz d spans s = .ok p) ∨ offsetHoriz d spans s = .err .textTooBig)
    (V : ∀ s ∈ ss, (∃ p, offsetVert d spans s = .ok p) ∨ offsetVert d spans s = .err .textTooBig) :
    ((∀ s ∈ ss, (∃ p, offsetHoriz d spans s = .ok p) ∧ (∃ p, offsetVert d spans s = .ok p)) ∧
      ∃ r, renderSpansLoop d spans ss page = .ok r) ∨
    ((∃ s ∈ ss, offsetHoriz d spans s = .err .textTooBig ∨ offsetVert d spans s = .err .textTooBig) ∧
      renderSpansLoop d spans ss page = .err .textTooBig) := by
  induction ss generalizing page with
  | nil => exact .inl ⟨by simp, page, rfl⟩
  | cons s ss ih =>
    have hs := hsub s (List.mem_cons_self ..)
    have e := hw.same s hs
    have hb' : RectIn s.state.textRectangle 65535 65535 := by rw [e]; exact hb
    rw [renderSpansLoop]
    rcases H s (List.mem_cons_self ..) with ⟨⟨b, a⟩, ho⟩ | ho
    · obtain ⟨x, hx⟩ := spanX_of ho hb' (hw.justLine s hs)
      rw [hx, Out.ok_bind]
      rcases V s (List.mem_cons_self ..) with ⟨⟨b2, a2⟩, hv⟩ | hv
      · obtain ⟨y, hy⟩ := spanY_of hv hs hb' (hw.justPage s hs) (by rw [e]; exact hw.aligned.y)
          (fun hj => cellFonts_samePage (hw.middle ⟨s, hs, hj⟩))
        obtain ⟨f, r, hf, hr, r1, r2⟩ := renderText_of hw hs hi hx hy
        rw [hy, Out.ok_bind, hf, Out.ok_bind, hr, Out.ok_bind]
        rcases ih (page := r) (by rw [r1, r2]; exact hi) (fun s hs => hsub s (List.mem_cons_of_mem _ hs))
          (fun s hs => H s (List.mem_cons_of_mem _ hs)) (fun s hs => V s (List.mem_cons_of_mem _ hs)) with
          ⟨h1, h2⟩ | ⟨⟨s', h1, h1'⟩, h2⟩
        · refine .inl ⟨fun s' hs' => ?_, h2⟩
          rcases List.mem_cons.1 hs' with rfl | hs'
          · exact ⟨⟨_, ho⟩, ⟨_, hv⟩⟩
          · exact h1 s' hs'
        · exact .inr ⟨⟨s', List.mem_cons_of_mem _ h1, h1'⟩, h2⟩
      · refine .inr ⟨⟨s, List.mem_cons_self .., .inr hv⟩, ?_⟩
        rw [spanY_err hv hb' (hw.justPage s hs)]; rfl
    · refine .inr ⟨⟨s, List.mem_cons_self .., .inl ho⟩, ?_⟩
      rw [spanX_err ho hb' (hw.justLine s hs)]; rfl

end Ntcip
