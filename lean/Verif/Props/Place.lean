import Verif.Lemmas.Place
import Verif.Lemmas.Section
import Verif.Props.Layout
import Verif.Props.Pages
/-
Properties C62–C64: where text is drawn.
-/
namespace Ntcip
open Spec Tests

/-! ### helpers -/

theorem renderSpansLoop_at {d spans ss page r} (h : renderSpansLoop d spans ss page = .ok r) :
    ∀ s ∈ ss, ∃ x y, spanX d spans s = .ok x ∧ spanY d spans s = .ok y := by
  induction ss generalizing page with
  | nil => simp
  | cons s ss ih =>
    simp only [renderSpansLoop, Out.bind_eq_ok] at h
    obtain ⟨x, hx, y, hy, f, hff, r1, hr1, h⟩ := h
    intro s' hs'
    rcases List.mem_cons.1 hs' with rfl | hs'
    · exact ⟨x, y, hx, hy⟩
    · exact ih h s' hs'

theorem drawing_sign {d ms pg page} (h : Drawing d ms pg page) :
    SignState d (RenderState.new d) pg.renderState := by
  have hI : ∀ (ctx : ColorCtx) c v ctx', (ctx.fgDefault = signForeground d ∧
      ctx.bgDefault = signBackground d ∧ ctx.colorScheme = d.multiCfg.colorScheme) →
      ctx.setForeground c v = .ok ctx' → (ctx'.fgDefault = signForeground d ∧
      ctx'.bgDefault = signBackground d ∧ ctx'.colorScheme = d.multiCfg.colorScheme) := by
    intro ctx c v ctx' hi hs
    rw [setForeground_fg hs]; exact hi
  have hB : ∀ (ctx : ColorCtx) c v ctx', (ctx.fgDefault = signForeground d ∧
      ctx.bgDefault = signBackground d ∧ ctx.colorScheme = d.multiCfg.colorScheme) →
      ctx.setBackground c v = .ok ctx' → (ctx'.fgDefault = signForeground d ∧
      ctx'.bgDefault = signBackground d ∧ ctx'.colorScheme = d.multiCfg.colorScheme) := by
    intro ctx c v ctx' hi hs
    rw [setBackground_bg hs]; exact hi
  suffices key : pg.renderState.colorCtx.fgDefault = signForeground d ∧
      pg.renderState.colorCtx.bgDefault = signBackground d ∧
      pg.renderState.colorCtx.colorScheme = d.multiCfg.colorScheme by
    exact ⟨rfl, key.1, key.2.1, key.2.2⟩
  induction h with
  | start hs hu =>
    have h1 := (steps_ind hs (fun pg => pg.renderState.colorCtx.fgDefault = signForeground d ∧
      pg.renderState.colorCtx.bgDefault = signBackground d ∧
      pg.renderState.colorCtx.colorScheme = d.multiCfg.colorScheme) (fun _ _ => True)
      (fun pg x pg' h0 hn => ⟨(next_inv _ hI hB hn).2 h0, trivial⟩) ⟨foregroundDefault_eq d, backgroundDefault_eq d, rfl⟩).1
    unfold updatePageState at hu
    exact updatePageStateLoop_inv (fun ctx => ctx.fgDefault = signForeground d ∧
      ctx.bgDefault = signBackground d ∧ ctx.colorScheme = d.multiCfg.colorScheme) hB hu h1
  | graphics _ _ ih => exact ih
  | text _ ht ih => exact (renderTextRectangle_inv _ hI ht).2 ih

theorem rtrLoop_zero {d ds po} {ss : List Str} {st st' rest'}
    (h : rtrLoop d ds po ss st = .ok (.ok (), st', rest')) (h0 : st.pageState ≠ .on false)
    (h1 : st'.pageState = .on false) : st'.rs.lineNumber = 0 ∧ st'.rs.spanNumber = 0 := by
  induction ss generalizing st with
  | nil =>
    simp only [rtrLoop, Res.ok.injEq, Prod.mk.injEq, true_and] at h
    obtain ⟨rfl, rfl⟩ := h
    exact absurd h1 h0
  | cons s ss ih =>
    unfold rtrLoop at h
    split at h
    · simp at h
    · simp at h
    · split at h
      · simp at h
      · rename_i h2
        exact ih h (by rw [(rtrStep_cont h2).pageState]; exact h0)
      · rename_i h2
        simp only [Res.ok.injEq, Prod.mk.injEq, true_and] at h
        obtain ⟨rfl, rfl⟩ := h
        rcases rtrStep_brk h2 with ⟨rfl, rfl⟩ | ⟨r, r', rfl, hu, rfl⟩
        · exfalso; revert h1; cases po <;> simp [PageState.newPage]
        · exact ⟨rfl, rfl⟩
      · simp at h

/-- text of a rectangle starts on line 0 -/
theorem drawing_zero {d ms pg page} (h : Drawing d ms pg page) (h1 : pg.pageState = .on false) :
    pg.renderState.lineNumber = 0 ∧ pg.renderState.spanNumber = 0 := by
  induction h with
  | start hs hu =>
    have hp := steps_state hs (pagesOk_new d ms)
    rw [hp.default] at hu
    exact (updatePageState_state hp.state hu).2.2
  | graphics _ _ ih => exact ih h1
  | text _ ht _ =>
    obtain ⟨st, values, hl, rfl, _⟩ := renderTextRectangle_ok ht
    refine rtrLoop_zero hl ?_ h1
    unfold PageState.doneState; split <;> simp

/-- What is known about the spans of a text rectangle: they are the texts of its values with their
attributes; for tidy values they are in order -/
theorem drawn_section {d ms pg pg' page page'} (h : Drawing d ms pg page) (hon : pg.pageState = .on false)
    (hr : renderTextRectangle d pg page = .ok (.ok page', pg')) :
    ∃ vs, Section pg.values vs ∧
      pg'.spans.map pieceOf = pieces (signAttr d) (textAttr pg.renderState) pg.renderState.lineSpacing 0 true vs ∧
      (Tidy (signAttr d) (textAttr pg.renderState) true true vs → Ordered pg'.spans ∧ AllDense pg'.spans) := by
  obtain ⟨hp, _, _⟩ := drawing_ok h
  obtain ⟨z1, z2⟩ := drawing_zero h hon
  obtain ⟨st, values, hl, rfl, _⟩ := renderTextRectangle_ok hr
  rw [hp.default] at hl
  obtain ⟨vs, i1, ⟨new, i2, i3⟩, i4⟩ := rtrLoop_section (st := ⟨pg.renderState, _, [], true⟩) (drawing_sign h) hl
  refine ⟨vs, i1, ?_, fun ht => i4 true ⟨?_, ?_, ?_, by simp, by simp, by simp⟩ ht⟩
  · simp only [List.nil_append] at i2
    show st.spans.map pieceOf = _
    rw [i2, i3]
    simp only [z1]
  · exact List.Pairwise.nil
  · exact fun p => ⟨0, .nil⟩
  · show Dense 0 [] pg.renderState.lineNumber
    rw [z1]; exact .nil

theorem section_unique {ss vs vs'} (h : Section ss vs) (h' : Section ss vs') : vs = vs' := by
  induction h generalizing vs' with
  | nil => cases h'; rfl
  | np hs =>
    cases h' with
    | np _ => rfl
    | tr _ => rfl
    | cons hv hne => rw [hs] at hv; simp at hv; exact absurd hv.symm hne
  | tr hs =>
    cases h' with
    | np _ => rfl
    | tr _ => rfl
    | cons hv _ hne => rw [hs] at hv; simp at hv; exact absurd hv.symm (hne _)
  | cons hs hne hnr _ ih =>
    cases h' with
    | np hv => rw [hs] at hv; simp at hv; exact absurd hv hne
    | tr hv => rw [hs] at hv; simp at hv; exact absurd hv (hnr _)
    | cons hv _ _ ht =>
      rw [hs] at hv
      simp only [Res.ok.injEq, Except.ok.injEq] at hv
      rw [hv, ih ht]

theorem rtrLoop_spanColors {d po} (I : ColorCtx → Prop)
    (hI : ∀ ctx c v ctx', I ctx → ctx.setForeground c v = .ok ctx' → I ctx') {ss : List Str} {st st' rest'}
    (h : rtrLoop d (RenderState.new d) po ss st = .ok (.ok (), st', rest')) (h0 : I st.rs.colorCtx)
    (h1 : ∀ s ∈ st.spans, I s.state.colorCtx) : ∀ s ∈ st'.spans, I s.state.colorCtx := by
  induction ss generalizing st with
  | nil =>
    simp only [rtrLoop, Res.ok.injEq, Prod.mk.injEq, true_and] at h
    obtain ⟨rfl, rfl⟩ := h
    exact h1
  | cons s ss ih =>
    unfold rtrLoop at h
    split at h
    · simp at h
    · simp at h
    · split at h
      · simp at h
      · rename_i h2
        refine ih h ((rtrStep_cont h2).colors I hI h0) ?_
        obtain ⟨-, -, -, -, new, hnew, hstate, -⟩ := rtrStep_spans h2
        rw [hnew]
        intro x hx
        rcases List.mem_append.1 hx with hx | hx
        · exact h1 x hx
        · rw [hstate x hx]; exact h0
      · rename_i h2
        simp only [Res.ok.injEq, Prod.mk.injEq, true_and] at h
        obtain ⟨rfl, rfl⟩ := h
        rcases rtrStep_brk h2 with ⟨rfl, rfl⟩ | ⟨r, r', rfl, hu, rfl⟩
        · exact h1
        · exact h1
      · simp at h

/-- how a foreground color looks on a sign -/
def Spec.foregroundRgb (d : Dms) (c : Color) : Rgb :=
  (colorValue d.multiCfg.colorScheme (signForeground d) (signBackground d) c).getD (signForeground d)

theorem drawn_colors {d ms pg pg' page page'} (h : Drawing d ms pg page)
    (hr : renderTextRectangle d pg page = .ok (.ok page', pg')) :
    ∀ s ∈ pg'.spans, s.state.colorCtx.foregroundRgb = Spec.foregroundRgb d (pieceOf s).attr.foreground := by
  obtain ⟨hp, _, _⟩ := drawing_ok h
  obtain ⟨_, c1, c2, c3⟩ := drawing_sign h
  obtain ⟨st, values, hl, rfl, _⟩ := renderTextRectangle_ok hr
  rw [hp.default] at hl
  have := rtrLoop_spanColors (fun ctx => ctx.fgDefault = signForeground d ∧
      ctx.bgDefault = signBackground d ∧ ctx.colorScheme = d.multiCfg.colorScheme)
      (fun ctx c v ctx' hi hs => by rw [setForeground_fg hs]; exact hi) hl ⟨c1, c2, c3⟩ (by simp)
  intro s hs
  obtain ⟨e1, e2, e3⟩ := this s hs
  show _ = Spec.foregroundRgb d s.state.colorCtx.fgCurrent
  unfold ColorCtx.foregroundRgb Spec.foregroundRgb
  rw [rgb_congr (b := signCtx d) e3 e1 e2, e1, rgb_eq]
  show _ = (colorValue (signCtx d).colorScheme (signCtx d).fgDefault (signCtx d).bgDefault _).getD _
  split <;> simp [*]

/-! ### C62 texts of a line -/

theorem cellEdge_mono {c x y : Nat} (h : x ≤ y) : cellEdge c x ≤ cellEdge c y := by
  rw [← cellEdge_eq, ← cellEdge_eq]
  exact Nat.mul_le_mul_right _ (Nat.div_le_div_right h)

theorem cellEdge_add {c x w : Nat} (h : w % c = 0) : cellEdge c (x + w) = cellEdge c x + w := by
  unfold cellEdge
  have : (x + w) % c = x % c := by rw [Nat.add_mod, h, Nat.add_zero, Nat.mod_mod]
  rw [this]
  have := Nat.mod_le x c
  omega

theorem sameLine_congr {spans a b} (h1 : a.state.justPage = b.state.justPage)
    (h2 : a.state.lineNumber = b.state.lineNumber) (h3 : a.state.justLine = b.state.justLine) :
    sameLine spans a = sameLine spans b := by
  unfold sameLine; rw [h1, h2, h3]

/-- spans of a line with one justification: the second one starts after the end of the first one -/
theorem atX_order {d spans l1 a l2 b l3 xa xb w} (ho : Ordered spans)
    (e : spans = l1 ++ a :: (l2 ++ b :: l3)) (h1 : a.state.justPage = b.state.justPage)
    (h2 : a.state.lineNumber = b.state.lineNumber) (h3 : a.state.justLine = b.state.justLine)
    (hrect : a.state.textRectangle = b.state.textRectangle)
    (ha : AtX d spans a xa) (hb : AtX d spans b xb) (hw : SpanWidth d.fontDefinition a w)
    (hc : a.state.justLine = .center → w % (signCellWidth d) = 0) :
    xa + w ≤ xb ∧ ((∀ s ∈ l2, ¬ (s.state.justPage = a.state.justPage ∧ s.state.lineNumber = a.state.lineNumber ∧
      s.state.justLine = a.state.justLine)) → (a.state.justLine = .center → d.vmsCfg.charWidthPixels = 0) →
      ∃ g, Gap d.fontDefinition a b g ∧ xb = xa + w + g) := by
  obtain ⟨prea, posta, na, total, ea, ba, la, _, rfl⟩ := ha
  obtain ⟨preb, postb, nb, total', eb, bb, lb, _, rfl⟩ := hb
  have hsl := sameLine_congr (spans := spans) h1 h2 h3
  rw [← hsl] at eb lb
  obtain rfl := lineWidth_unique la lb
  have hord := ordered_sameLine (s := a) ho
  -- the split of the line at both spans
  have key : sameLine spans a = sameLine l1 a ++ a :: (sameLine l2 a ++ b :: sameLine l3 a) := by
    rw [e]
    unfold sameLine
    rw [List.filter_append, List.filter_cons_of_pos (by simp), List.filter_append,
      List.filter_cons_of_pos (by simp [h1, h2, h3])]
  have p1 := split_unique ea key hord
  have p2 : preb = sameLine l1 a ++ a :: sameLine l2 a :=
    split_unique (post' := sameLine l3 a) eb (by rw [key]; simp) hord
  subst p1 p2
  obtain ⟨v, hv, lv⟩ := ba
  obtain rfl := spanWidth_unique hw hv
  obtain ⟨v', hv', lv'⟩ := bb
  rw [List.append_assoc, List.cons_append] at lv'
  obtain ⟨n1, n2, k1, k2, k3⟩ := lineWidth_split lv'
  obtain rfl := lineWidth_unique lv k1
  -- what comes after `a` up to the end of `b`
  have hgap : ∃ g, nb = na + w + g ∧ (sameLine l2 a = [] → Gap d.fontDefinition a b g) := by
    cases hl2 : sameLine l2 a with
    | nil =>
      rw [hl2] at k2
      cases k2 with
      | @next _ _ _ g _ _ hg hw2 hn =>
        cases hn
        obtain rfl := spanWidth_unique hw2 hv'
        exact ⟨g, by omega, fun _ => hg⟩
    | cons z zs =>
      rw [hl2] at k2
      have : v' ≤ n2 := by
        have : ∀ {l : List Span} {p n}, LineWidth d.fontDefinition p (l ++ [b]) n → v' ≤ n := by
          intro l
          induction l with
          | nil =>
            intro p n hl
            cases hl with
            | first hw2 hn => obtain rfl := spanWidth_unique hw2 hv'; omega
            | next hg hw2 hn => obtain rfl := spanWidth_unique hw2 hv'; omega
          | cons y ys ih =>
            intro p n hl
            cases hl with
            | first hw2 hn => have := ih hn; omega
            | next hg hw2 hn => have := ih hn; omega
        exact this k2
      exact ⟨n2 - v', by omega, by simp⟩
  obtain ⟨g, rfl, hg⟩ := hgap
  rw [← hrect, ← h3]
  constructor
  · split
    · rename_i hj
      rw [← cellEdge_add (hc hj)]
      exact cellEdge_mono (by omega)
    · omega
  · intro hno hcell
    refine ⟨g, hg ?_, ?_⟩
    · unfold sameLine
      rw [List.filter_eq_nil_iff]
      intro s hs
      simpa using hno s hs
    · split
      · rename_i hj
        have : (signCellWidth d) = 1 := by unfold signCellWidth; rw [hcell hj]; rfl
        rw [this]; unfold cellEdge; omega
      · omega

/-! ### C63 lines -/

theorem linesHeight_mono {full t ss i k} :
    linesHeight full t ss i + (if k = 0 then 0 else lineHeight t ss (i + k)) ≤ linesHeight full t ss (i + k) := by
  induction k with
  | zero => simp
  | succ k ih =>
    rw [if_neg (by omega), ← Nat.add_assoc]
    show _ ≤ linesHeight full t ss (i + k) + lineSpace full t ss (i + k) + lineHeight t ss (i + k + 1)
    split at ih <;> omega

theorem lineHeight_font {t ss s f} (hs : s ∈ ss) (hf : FontOf t s f) :
    f.height.toNat ≤ lineHeight t ss s.state.lineNumber := by
  unfold lineHeight
  refine largest_mem (List.mem_map.2 ⟨s, ?_, ofFont_eq hf _⟩)
  unfold onLine; rw [List.mem_filter]; exact ⟨hs, by simp⟩

theorem samePage_congr {spans a b} (h1 : a.state.justPage = b.state.justPage) :
    samePage spans a = samePage spans b := by
  unfold samePage; rw [h1]

/-- lines with one page justification: the lower one starts below the end of the upper one -/
theorem atY_order {d spans a b ya yb fa fb} (hb : b ∈ spans)
    (h1 : a.state.justPage = b.state.justPage) (h2 : a.state.lineNumber < b.state.lineNumber)
    (hrect : a.state.textRectangle = b.state.textRectangle)
    (hya : AtY d spans a ya) (hyb : AtY d spans b yb) (hfa : FontOf d.fontDefinition a fa)
    (hfb : FontOf d.fontDefinition b fb)
    (hc : a.state.justPage = .middle → fb.height.toNat % (signCellHeight d) = 0) :
    ya + fa.height.toNat ≤ yb ∧
    ((a.state.justPage = .middle → d.vmsCfg.charHeightPixels = 0) → b.state.lineNumber = a.state.lineNumber + 1 →
      yb + fb.height.toNat = ya + fa.height.toNat +
        lineSpace (decide (d.vmsCfg.charHeightPixels = 0)) d.fontDefinition (samePage spans a) a.state.lineNumber +
        lineHeight d.fontDefinition (samePage spans a) b.state.lineNumber) := by
  obtain ⟨f, m, total, hf, hd, rfl, _, e⟩ := hya
  obtain ⟨f', m', total', hf', hd', rfl, _, e'⟩ := hyb
  obtain rfl := fontOf_unique hf hfa
  obtain rfl := fontOf_unique hf' hfb
  have hsp := samePage_congr (spans := spans) h1
  rw [← hsp] at hd' e'
  rw [← hrect, ← h1] at e'
  obtain rfl := dense_unique hd hd'
  have hmem : b ∈ samePage spans a := by
    unfold samePage; rw [List.mem_filter]; exact ⟨hb, by simp [h1]⟩
  have hlh := lineHeight_font hmem hf'
  have hmono := linesHeight_mono (full := decide (d.vmsCfg.charHeightPixels = 0)) (t := d.fontDefinition)
    (ss := samePage spans a) (i := a.state.lineNumber) (k := b.state.lineNumber - a.state.lineNumber)
  rw [if_neg (by omega), show a.state.lineNumber + (b.state.lineNumber - a.state.lineNumber) = b.state.lineNumber by omega] at hmono
  dsimp only at e e'
  constructor
  · split at e
    · rename_i hj
      rw [if_pos hj] at e'
      have k1 := cellEdge_add (x := linesTop a.state.textRectangle a.state.justPage
          (linesHeight (decide (d.vmsCfg.charHeightPixels = 0)) d.fontDefinition (samePage spans a) (m - 1)) +
        linesHeight (decide (d.vmsCfg.charHeightPixels = 0)) d.fontDefinition (samePage spans a) a.state.lineNumber) (hc hj)
      have k2 := cellEdge_mono (c := (signCellHeight d)) (x := linesTop a.state.textRectangle a.state.justPage
          (linesHeight (decide (d.vmsCfg.charHeightPixels = 0)) d.fontDefinition (samePage spans a) (m - 1)) +
        linesHeight (decide (d.vmsCfg.charHeightPixels = 0)) d.fontDefinition (samePage spans a) a.state.lineNumber + f'.height.toNat)
        (y := linesTop a.state.textRectangle a.state.justPage
          (linesHeight (decide (d.vmsCfg.charHeightPixels = 0)) d.fontDefinition (samePage spans a) (m - 1)) +
        linesHeight (decide (d.vmsCfg.charHeightPixels = 0)) d.fontDefinition (samePage spans a) b.state.lineNumber) (by omega)
      omega
    · rename_i hj
      rw [if_neg hj] at e'
      omega
  · intro hcell hnext
    have hstep : linesHeight (decide (d.vmsCfg.charHeightPixels = 0)) d.fontDefinition (samePage spans a) b.state.lineNumber =
        linesHeight (decide (d.vmsCfg.charHeightPixels = 0)) d.fontDefinition (samePage spans a) a.state.lineNumber +
        lineSpace (decide (d.vmsCfg.charHeightPixels = 0)) d.fontDefinition (samePage spans a) a.state.lineNumber +
        lineHeight d.fontDefinition (samePage spans a) b.state.lineNumber := by
      rw [hnext]; rfl
    split at e
    · rename_i hj
      rw [if_pos hj] at e'
      have : (signCellHeight d) = 1 := by unfold signCellHeight; rw [hcell hj]; rfl
      rw [this] at e e'
      unfold cellEdge at e e'
      omega
    · rename_i hj
      rw [if_neg hj] at e'
      omega

/-! ### messages -/

/-- While the message `ms` is rendered, the text of a rectangle has been drawn: on `page`, which gives `page'`;
`pg` and `pg'` are the states of the iterator before and after.  The values of the rectangle are tidy. -/
structure Spec.TidyDrawn (d : Dms) (ms : Str) (pg : Pages) (page : Raster) (pg' : Pages) (page' : Raster) : Prop where
  start : Drawing d ms pg page
  on : pg.pageState = .on false
  drawn : renderTextRectangle d pg page = .ok (.ok page', pg')
  tidy : ∃ vs, Section pg.values vs ∧ Tidy (signAttr d) (textAttr pg.renderState) true true vs

theorem tidyDrawn_spans {d ms pg page pg' page'} (h : TidyDrawn d ms pg page pg' page') :
    Ordered pg'.spans ∧ AllDense pg'.spans ∧
    (∀ s ∈ pg'.spans, s.state.textRectangle = pg.renderState.textRectangle) ∧
    (∀ s ∈ pg'.spans, ∃ x y, spanX d pg'.spans s = .ok x ∧ spanY d pg'.spans s = .ok y) ∧
    renderSpansLoop d pg'.spans pg'.spans page = .ok page' := by
  obtain ⟨vs, h1, _, h2⟩ := drawn_section h.start h.on h.drawn
  obtain ⟨vs', h1', ht⟩ := h.tidy
  obtain rfl := section_unique h1 h1'
  obtain ⟨ho, hd⟩ := h2 ht
  obtain ⟨hs, hall⟩ := drawn_spans h.start h.drawn
  unfold renderTextSpans at hs
  split at hs
  · simp at hs
  · exact ⟨ho, hd, fun s hs => (hall s hs).2, renderSpansLoop_at hs, hs⟩

/-- **C62** two texts on one line with the same justification are drawn side by side, in the order of the message:
the second one starts at or after the end of the first one, and texts next to each other are apart by the
spacing of their fonts or of the `[sc]` tag.  The full claim is about all messages and all pairs of texts on a line;
here the values of the text rectangle are `Tidy` and the justification is the same, see `C62_false`.  Centered texts
on a sign with character cells: widths of texts must be multiples of the cell width (`hc`). -/
theorem C62_side_by_side_partial (d : Dms) (ms : Str) (pg pg' : Pages) (page page' : Raster)
    (h : TidyDrawn d ms pg page pg' page') (l1 l2 l3 : List Span) (a b : Span)
    (e : pg'.spans = l1 ++ a :: (l2 ++ b :: l3)) (hp : a.state.justPage = b.state.justPage)
    (hn : a.state.lineNumber = b.state.lineNumber) (hj : a.state.justLine = b.state.justLine)
    (w : Nat) (hw : SpanWidth d.fontDefinition a w)
    (hc : a.state.justLine = .center → w % (signCellWidth d) = 0) :
    ∃ xa xb, spanX d pg'.spans a = .ok xa ∧ spanX d pg'.spans b = .ok xb ∧ xa + w ≤ xb ∧
      ((∀ s ∈ l2, ¬ (s.state.justPage = a.state.justPage ∧ s.state.lineNumber = a.state.lineNumber ∧
        s.state.justLine = a.state.justLine)) → (a.state.justLine = .center → d.vmsCfg.charWidthPixels = 0) →
        ∃ g, Gap d.fontDefinition a b g ∧ xb = xa + w + g) := by
  obtain ⟨ho, _, hr, hat, _⟩ := tidyDrawn_spans h
  have ha : a ∈ pg'.spans := by rw [e]; simp
  have hb : b ∈ pg'.spans := by rw [e]; simp
  obtain ⟨xa, _, hxa, _⟩ := hat a ha
  obtain ⟨xb, _, hxb, _⟩ := hat b hb
  exact ⟨xa, xb, hxa, hxb, atX_order ho e hp hn hj (by rw [hr a ha, hr b hb]) (spanX_at ho ha hxa)
    (spanX_at ho hb hxb) hw hc⟩

/-- **C63** of two texts on different lines, with the same page justification, the one on the later line is
drawn below the other one; the lower edges of lines following each other are apart by the line spacing and the
height of the lower line.  The full claim is about all messages and all pairs of lines; here the values of
the text rectangle are `Tidy` and the page justification is the same, see `C63_false`.  Text in the vertical middle on
a sign with character cells: heights of fonts must be multiples of the cell height (`hc`). -/
theorem C63_stacked_partial (d : Dms) (ms : Str) (pg pg' : Pages) (page page' : Raster)
    (h : TidyDrawn d ms pg page pg' page') (a b : Span) (ha : a ∈ pg'.spans) (hb : b ∈ pg'.spans)
    (hp : a.state.justPage = b.state.justPage) (hn : a.state.lineNumber < b.state.lineNumber)
    (fa fb : Font) (hfa : FontOf d.fontDefinition a fa) (hfb : FontOf d.fontDefinition b fb)
    (hc : a.state.justPage = .middle → fb.height.toNat % (signCellHeight d) = 0) :
    ∃ ya yb, spanY d pg'.spans a = .ok ya ∧ spanY d pg'.spans b = .ok yb ∧ ya + fa.height.toNat ≤ yb ∧
    ((a.state.justPage = .middle → d.vmsCfg.charHeightPixels = 0) → b.state.lineNumber = a.state.lineNumber + 1 →
      yb + fb.height.toNat = ya + fa.height.toNat +
        lineSpace (decide (d.vmsCfg.charHeightPixels = 0)) d.fontDefinition (samePage pg'.spans a) a.state.lineNumber +
        lineHeight d.fontDefinition (samePage pg'.spans a) b.state.lineNumber) := by
  obtain ⟨_, hd, hr, hat, _⟩ := tidyDrawn_spans h
  obtain ⟨_, ya, _, hya⟩ := hat a ha
  obtain ⟨_, yb, _, hyb⟩ := hat b hb
  exact ⟨ya, yb, hya, hyb, atY_order hb hp hn (by rw [hr a ha, hr b hb]) (spanY_at (hd a ha) ha hya)
    (spanY_at (hd b hb) hb hyb) hfa hfb hc⟩

/-- **C64** the text of a text rectangle: the spans drawn are the texts of the message up to the next `[np]` or `[tr]`
tag, each with the font, justification, spacing, color and line number that the tags before it set; every
span lights exactly the pixels of its characters, at the position of its line (`AtX`, `AtY`), in its color, later
spans over earlier ones; all other pixels of the page are unchanged.  For signs with valid fonts (and default font
other than 0).  Here the values are `Tidy`; for the places of other texts see `C64_places` (Props/Picture). -/
theorem C64_tidy (d : Dms) (hd : FontsOk d.fontDefinition) (h0 : 1 ≤ d.multiCfg.defaultFont.toNat)
    (ms : Str) (pg pg' : Pages) (page page' : Raster) (h : TidyDrawn d ms pg page pg' page') :
    (∃ vs, Section pg.values vs ∧ pg'.spans.map pieceOf =
      pieces (signAttr d) (textAttr pg.renderState) pg.renderState.lineSpacing 0 true vs) ∧
    TextOn d pg'.spans pg'.spans page page' ∧
    (∀ s ∈ pg'.spans, s.state.textRectangle = pg.renderState.textRectangle ∧
      s.state.colorCtx.foregroundRgb = Spec.foregroundRgb d (pieceOf s).attr.foreground) := by
  obtain ⟨vs, h1, h2, _⟩ := drawn_section h.start h.on h.drawn
  obtain ⟨ho, hdense, hr, _, hs⟩ := tidyDrawn_spans h
  obtain ⟨r1, r2⟩ := C43_rectangle_inside d ms pg page h.start
  obtain ⟨_, hall⟩ := drawn_spans h.start h.drawn
  refine ⟨⟨vs, h1, h2⟩, ?_, fun s hs => ⟨hr s hs, drawn_colors h.start h.drawn s hs⟩⟩
  refine renderSpansLoop_exact ho hdense hs (fun s h => h) ?_ (fun s hs => (hall s hs).1.2) hr r2 r1
  intro s hs f hf
  obtain ⟨f1, f2⟩ := font_number hf
  refine hd.fonts f f1 ?_
  have := (hall s hs).1.1.font h0
  rw [f2]; omega

/-- the texts of a rectangle are known without the condition `Tidy` -/
theorem C64_pieces (d : Dms) (ms : Str) (pg pg' : Pages) (page page' : Raster) (h : Drawing d ms pg page)
    (hon : pg.pageState = .on false) (hr : renderTextRectangle d pg page = .ok (.ok page', pg')) :
    ∃ vs, Section pg.values vs ∧ pg'.spans.map pieceOf =
      pieces (signAttr d) (textAttr pg.renderState) pg.renderState.lineSpacing 0 true vs := by
  obtain ⟨vs, h1, h2, _⟩ := drawn_section h hon hr
  exact ⟨vs, h1, h2⟩

/-! ### cases -/

instance (dflt a : TextAttr) (fresh blank : Bool) (v : Value) : Decidable (InOrder dflt a fresh blank v) := by
  cases v <;> unfold InOrder <;> infer_instance

instance tidyDecidable (dflt : TextAttr) : (a : TextAttr) → (fresh blank : Bool) → (vs : List Value) →
    Decidable (Tidy dflt a fresh blank vs)
  | _, _, _, [] => .isTrue trivial
  | a, fresh, blank, v :: vs =>
    have := tidyDecidable dflt (TextAttr.apply dflt a v) (freshAfter dflt a fresh v) (blankAfter blank v) vs
    inferInstanceAs (Decidable (_ ∧ _))

def Tests.sectionValues : List Str → Option (List Value)
  | [] => some []
  | s :: ss => match tryFrom s with
    | .ok (.ok .newPage) => some []
    | .ok (.ok (.textRectangle _)) => some []
    | .ok (.ok v) => (sectionValues ss).map (v :: ·)
    | _ => none

theorem sectionValues_section {ss vs} (h : sectionValues ss = some vs) : Section ss vs := by
  induction ss generalizing vs with
  | nil => simp [sectionValues] at h; subst h; exact .nil
  | cons s ss ih =>
    unfold sectionValues at h
    split at h
    · rename_i hs; simp at h; subst h; exact .np hs
    · rename_i r hs; simp at h; subst h; exact .tr hs
    · rename_i v hn hr hs
      simp only [Option.map_eq_some_iff] at h
      obtain ⟨vs', h1, rfl⟩ := h
      exact .cons hs (fun e => hn (e ▸ rfl)) (fun r e => hr r (e ▸ rfl)) (ih h1)
    · simp at h

/-- the spans of the first text rectangle of a message, if its values are tidy and text is drawn -/
def Tests.firstText (d : Dms) (ms : Str) : Option (List Span) :=
  let pg := Pages.new d ms
  match updatePageState pg.defaultState pg.renderState pg.values with
  | .ok (.ok (), rs) =>
    let pg := { pg with renderState := rs, pageState := .on false }
    match renderTextRectangle d pg (buildRaster rs) with
    | .ok (.ok _, pg') => match sectionValues pg.values with
      | some vs => if Tidy (signAttr d) (textAttr rs) true true vs then some pg'.spans else none
      | none => none
    | _ => none
  | _ => none

theorem firstText_drawn {d ms spans} (h : firstText d ms = some spans) :
    ∃ pg page pg' page', TidyDrawn d ms pg page pg' page' ∧ pg'.spans = spans := by
  unfold firstText at h
  dsimp only at h
  split at h
  · rename_i rs hu
    split at h
    · rename_i page' pg' hr
      split at h
      · rename_i vs hv
        split at h
        · rename_i ht
          simp only [Option.some.injEq] at h
          exact ⟨_, _, pg', page', ⟨Drawing.start .nil hu, rfl, hr, vs, sectionValues_section hv, ht⟩, h⟩
        · simp at h
      · simp at h
    · simp at h
  · simp at h

/-- texts, positions and lines of the first text rectangle -/
def Tests.firstPlaces (d : Dms) (ms : Str) : Option (List (Str × Nat × Nat × Nat)) :=
  (firstText d ms).map fun spans => spans.map fun s =>
    match spanX d spans s, spanY d spans s with
    | .ok x, .ok y => (s.str, x, y, s.state.lineNumber)
    | _, _ => ([], 0, 0, 0)

-- tidy values, with text side by side, at both edges, and on two lines
example : firstPlaces fullDms c!"A[sc4]B[jl4]C[nl3][jl2]D" = some
    [(c!"A", 0, 0, 0), (c!"B", 9, 0, 0), (c!"C", 55, 0, 0), (c!"D", 0, 11, 1)] := by decide +kernel
-- centered, and in the vertical middle
example : firstPlaces fullDms c!"[jp3][jl3]A[cf255,0,0]B[nl]C" = some
    [(c!"A", 24, 6, 0), (c!"B", 31, 6, 0), (c!"C", 27, 16, 1)] := by decide +kernel
-- a blank line takes space
example : firstPlaces fullDms c!"[nl]A" = some [(c!"", 0, 0, 0), (c!"A", 0, 10, 1)] := by decide +kernel
-- hexadecimal characters are texts as well; the next rectangle is not part of this one
example : firstPlaces fullDms c!"[hc41]B[tr1,11,60,20]C" = some [(c!"A", 0, 0, 0), (c!"B", 7, 0, 0)] := by
  decide +kernel

/-- number of pixels lit on the page of a message with one page -/
def Tests.litCount (d : Dms) (ms : Str) : Option Nat :=
  match render d ms with
  | .ok [p] => some (((gridPoints p.raster.width p.raster.height).filter fun (x, y) => p.raster.px x y ≠ (0, 0, 0)).length)
  | _ => none

/-- **C62 fails** (1) a tag that does not change the line justification makes texts overlap: the second text of
`A[jl2]A` is drawn over the first one, unlike that of `AA`; (2) text at the left and text at the right of one line overlap,
although each fits: `AAAAAA[jl4]AAAAAA` on a sign for 8 characters is not rejected, and has fewer pixels than 12
characters. -/
theorem C62_false : litCount fullDms c!"A" = some 20 ∧ litCount fullDms c!"AA" = some 40 ∧
    litCount fullDms c!"A[jl2]A" = some 20 ∧
    litCount fullDms c!"AAAAAA" = some 120 ∧
    litCount fullDms c!"AAAAAA[jl4]AAAAAA" = some 222 := by decide +kernel

/-- **C63 fails** (1) lines after a change of the page justification without text before the `[nl]` tag overlap;
(2) lines at the top and lines at the bottom of the page overlap, although each fit. -/
theorem C63_false : litCount fullDms c!"A[jp4]A[nl]A" = some 60 ∧
    litCount fullDms c!"A[jp4][nl]A[nl]A" = some 40 ∧
    litCount fullDms c!"A[nl]A[jp4]A[nl]A" = some 70 := by decide +kernel

end Ntcip
