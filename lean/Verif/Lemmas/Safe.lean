import Verif.Lemmas.States
import Verif.Lemmas.Fit
import Verif.Lemmas.Graphics
/-
Absence of panics while rendering.
-/
namespace Ntcip
open Spec

/-- no panic -/
def NP {ε α : Type} (o : Out ε α) : Prop := ∀ p, o ≠ .panic p

theorem np_bind {ε α β : Type} {o : Out ε α} {f : α → Out ε β} (h : NP o) (hf : ∀ a, o = .ok a → NP (f a)) :
    NP (o >>= f) := by
  intro p e
  rcases Out.bind_eq_panic.1 e with h1 | ⟨a, h1, h2⟩
  · exact h p h1
  · exact hf a h1 p h2

theorem np_ok {ε α : Type} (a : α) : NP (.ok a : Out ε α) := fun _ h => by cases h
theorem np_err {ε α : Type} (e : ε) : NP (.err e : Out ε α) := fun _ h => by cases h
theorem np_mapErr {ε δ α : Type} {o : Out ε α} (f : ε → δ) (h : NP o) : NP (o.mapErr f) := by
  cases o with
  | ok a => exact np_ok a
  | err e => exact np_err _
  | panic p => exact absurd rfl (h p)
theorem np_res {ε α : Type} {r : Res α} (h : ∃ a, r = .ok a) : NP (.ofRes r : Out ε α) := by
  obtain ⟨a, rfl⟩ := h; exact np_ok a
theorem np_except {ε α : Type} (x : Except ε α) : NP (ofExcept x) := by
  cases x
  · exact np_err _
  · exact np_ok _
theorem np_cases {ε α : Type} {o : Out ε α} (h : NP o) : (∃ a, o = .ok a) ∨ ∃ e, o = .err e := by
  cases o with
  | ok a => exact .inl ⟨a, rfl⟩
  | err e => exact .inr ⟨e, rfl⟩
  | panic p => exact absurd rfl (h p)

theorem chk16_some {n : Nat} (h : n < 65536) : ∃ m, chk16 n = .ok m := ⟨n, chk16_ok.2 ⟨rfl, h⟩⟩

/-- no size of the font is larger than `M` -/
structure Spec.FontSmall (M : Nat) (f : Font) : Prop where
  height : f.height.toNat ≤ M
  charSpacing : f.charSpacing.toNat ≤ M
  lineSpacing : f.lineSpacing.toNat ≤ M
  chars : ∀ c ∈ f.characters, c.width.toNat ≤ M

/-- no size or spacing of the span is larger than `M` -/
structure SpanSmall (M : Nat) (t : FontTable) (s : Span) : Prop where
  font : ∀ f, FontOf t s f → FontSmall M f
  charSpacing : ∀ c, s.state.charSpacing = some c → c.toNat ≤ M
  lineSpacing : ∀ c, s.state.lineSpacing = some c → c.toNat ≤ M

theorem spacing_le {M t s f} (h : SpanSmall M t s) (hf : s.state.charSpacing = none → FontOf t s f) :
    charSpacing s f ≤ M := by
  unfold charSpacing
  cases hc : s.state.charSpacing with
  | none => exact (h.font f (hf hc)).charSpacing
  | some c => exact h.charSpacing c hc

theorem mul_succ_le (M n : Nat) : 2 * M * (n + 1) = 2 * M * n + 2 * M := by rw [Nat.mul_add, Nat.mul_one]

theorem textWidthLoop_np {M} (f : Font) (hf : FontSmall M f) (cs : Nat) (hc : cs ≤ M) (text : Str) :
    ∀ w, w + 2 * M * text.length < 65536 → NP (f.textWidthLoop cs w text) ∧
      ∀ w', f.textWidthLoop cs w text = .ok w' → w' ≤ w + 2 * M * text.length ∧
        (w = 0 → w' + M ≤ 2 * M * max 1 text.length) := by
  induction text with
  | nil =>
    intro w hw
    refine ⟨np_ok _, fun w' h => ?_⟩
    simp only [Font.textWidthLoop, Out.ok.injEq] at h
    subst h; simp; omega
  | cons ch rest ih =>
    intro w hw
    simp only [List.length_cons, mul_succ_le, Nat.max_eq_right (Nat.le_add_left 1 rest.length)] at hw ⊢
    rw [Font.textWidthLoop]
    cases hch : f.character ch with
    | none => exact ⟨np_err _, fun _ h => by cases h⟩
    | some c =>
      have h8 : c.width.toNat ≤ M := hf.chars c (by
        unfold Font.character at hch
        split at hch
        · exact List.mem_of_find?_eq_some hch
        · cases hch)
      simp only
      have e1 : (if w > 0 then chk16 (w + cs) else .ok w) = .ok (if w > 0 then w + cs else w) := by
        split
        · exact chk16_eq (by omega)
        · rfl
      have e2 : chk16 ((if w > 0 then w + cs else w) + c.width.toNat) =
          .ok ((if w > 0 then w + cs else w) + c.width.toNat) := chk16_eq (by split <;> omega)
      rw [e1, Out.ofRes_ok, Out.ok_bind, e2, Out.ofRes_ok, Out.ok_bind]
      obtain ⟨i1, i2⟩ := ih ((if w > 0 then w + cs else w) + c.width.toNat) (by split <;> omega)
      refine ⟨i1, fun w' h => ?_⟩
      obtain ⟨j1, -⟩ := i2 w' h
      constructor
      · split at j1 <;> omega
      · intro h0; subst h0; simp at j1; omega

theorem font_np (rs : RenderState) (t : FontTable) : NP (rs.font t) := by
  unfold RenderState.font
  split
  · split
    · exact np_ok _
    · exact np_err _
  · exact np_ok _
  · exact np_err _

theorem csFonts_np (s : Span) (t : FontTable) : NP (s.charSpacingFonts t) := by
  unfold Span.charSpacingFonts
  split
  · exact np_ok _
  · exact np_bind (font_np _ _) fun _ _ => np_ok _

theorem csFonts_le {M} {s : Span} {t : FontTable} (hs : SpanSmall M t s) {n} (h : s.charSpacingFonts t = .ok n) :
    n ≤ M := by
  obtain ⟨f, hf, rfl⟩ := charSpacingFonts_ok.1 h
  exact spacing_le hs hf

theorem ofNat_le {M n : Nat} (h : n ≤ M) : (UInt16.ofNat n).toNat ≤ M := by
  rw [UInt16.toNat_ofNat']; exact Nat.le_trans (Nat.mod_le _ _) h

theorem width_np {M} (s : Span) (t : FontTable) (hs : SpanSmall M t s) (hl : 2 * M * s.str.length < 65536) :
    NP (s.width t) ∧ ∀ w, s.width t = .ok w → w + M ≤ 2 * M * max 1 s.str.length := by
  unfold Span.width
  constructor
  · refine np_bind (font_np _ _) fun f hf => np_bind (csFonts_np s t) fun cs hcs => np_mapErr _ ?_
    exact (textWidthLoop_np f (hs.font f (font_ok.1 hf)) _ (ofNat_le (csFonts_le hs hcs)) s.str 0 (by omega)).1
  · intro w h
    simp only [Out.bind_eq_ok, mapErr_eq_ok] at h
    obtain ⟨f, hf, cs, hcs, h⟩ := h
    exact ((textWidthLoop_np f (hs.font f (font_ok.1 hf)) _ (ofNat_le (csFonts_le hs hcs)) s.str 0 (by omega)).2
      w h).2 rfl

theorem between_np (s p : Span) (t : FontTable) : NP (s.charSpacingBetween p t) := by
  unfold Span.charSpacingBetween
  split
  · exact np_ok _
  · exact np_bind (csFonts_np _ _) fun _ _ => np_bind (csFonts_np _ _) fun _ _ => np_ok _

theorem between_le {M} {s p : Span} {t : FontTable} (hs : SpanSmall M t s) (hp : SpanSmall M t p) {g}
    (h : s.charSpacingBetween p t = .ok g) : g ≤ M := by
  have h := between_ok.1 h
  unfold Gap at h
  split at h
  · rename_i c hc; rw [h]; exact hs.charSpacing c hc
  · obtain ⟨fp, fs, h1, h2, rfl⟩ := h
    have := spacing_le hp h1
    have := spacing_le hs (fun _ => h2)
    omega

theorem spansWeight_cons (s : Span) (ss : List Span) :
    spansWeight (s :: ss) = max 1 s.str.length + spansWeight ss := by simp [spansWeight]

theorem spansWeight_filter (p : Span → Bool) (ss : List Span) : spansWeight (ss.filter p) ≤ spansWeight ss := by
  induction ss with
  | nil => simp
  | cons s ss ih =>
    rw [List.filter_cons, spansWeight_cons]
    split
    · rw [spansWeight_cons]; omega
    · omega

theorem length_le_weight (ss : List Span) : ss.length ≤ spansWeight ss := by
  induction ss with
  | nil => simp
  | cons s ss ih => rw [spansWeight_cons, List.length_cons]; omega

theorem offsetHorizLoop_np {M} (t : FontTable) (rs : RenderState) (ss : List Span)
    (hs : ∀ s ∈ ss, SpanSmall M t s) :
    ∀ ps b a, (∀ p, ps = some p → SpanSmall M t p) → b + a + 2 * M * spansWeight ss < 65536 →
      NP (offsetHorizLoop t rs ss ps b a) ∧
      ∀ b' a', offsetHorizLoop t rs ss ps b a = .ok (b', a') → b' + a' ≤ b + a + 2 * M * spansWeight ss := by
  induction ss with
  | nil =>
    intro ps b a _ _
    refine ⟨np_ok _, fun b' a' h => ?_⟩
    simp only [offsetHorizLoop, Out.ok.injEq, Prod.mk.injEq] at h
    omega
  | cons s ss ih =>
    have ih := ih (fun s h => hs s (List.mem_cons_of_mem _ h))
    have hm := hs s (List.mem_cons_self ..)
    rw [spansWeight_cons, Nat.mul_add]
    have hl : 2 * M * s.str.length ≤ 2 * M * max 1 s.str.length := Nat.mul_le_mul_left _ (Nat.le_max_right ..)
    have h1 : 2 * M * 1 ≤ 2 * M * max 1 s.str.length := Nat.mul_le_mul_left _ (Nat.le_max_left ..)
    have first : ∀ b a, b + a + (2 * M * max 1 s.str.length + 2 * M * spansWeight ss) < 65536 + M →
        2 * M * max 1 s.str.length < 65536 →
        NP (offsetHorizLoop t rs (s :: ss) none b a) ∧
        ∀ b' a', offsetHorizLoop t rs (s :: ss) none b a = .ok (b', a') →
          b' + a' + M ≤ b + a + (2 * M * max 1 s.str.length + 2 * M * spansWeight ss) := by
      intro b a hb hlt
      rw [offsetHorizLoop_first]
      obtain ⟨w1, w2⟩ := width_np s t hm (by omega)
      rcases np_cases w1 with ⟨w, e⟩ | ⟨er, e⟩
      · have := w2 w e
        rw [e, Out.ok_bind]
        split
        · rw [chk16_eq (by omega), Out.ofRes_ok, Out.ok_bind]
          obtain ⟨i1, i2⟩ := ih (some s) (b + w) a (by simpa using hm) (by omega)
          exact ⟨i1, fun b' a' h => by have := i2 b' a' h; omega⟩
        · rw [chk16_eq (by omega), Out.ofRes_ok, Out.ok_bind]
          obtain ⟨i1, i2⟩ := ih (some s) b (a + w) (by simpa using hm) (by omega)
          exact ⟨i1, fun b' a' h => by have := i2 b' a' h; omega⟩
      · rw [e]; exact ⟨np_err _, fun _ _ h => by cases h⟩
    intro ps b a hps hb
    cases ps with
    | none =>
      obtain ⟨i1, i2⟩ := first b a (by omega) (by omega)
      exact ⟨i1, fun b' a' h => by have := i2 b' a' h; omega⟩
    | some p =>
      rw [offsetHorizLoop_next]
      rcases np_cases (between_np s p t) with ⟨g, e⟩ | ⟨er, e⟩
      · have := between_le hm (hps p rfl) e
        rw [e, Out.ok_bind]
        split
        · rw [chk16_eq (by omega), Out.ofRes_ok, Out.ok_bind]
          obtain ⟨i1, i2⟩ := first (b + g) a (by omega) (by omega)
          exact ⟨i1, fun b' a' h => by have := i2 b' a' h; omega⟩
        · rw [chk16_eq (by omega), Out.ofRes_ok, Out.ok_bind]
          obtain ⟨i1, i2⟩ := first b (a + g) (by omega) (by omega)
          exact ⟨i1, fun b' a' h => by have := i2 b' a' h; omega⟩
      · rw [e]; exact ⟨np_err _, fun _ _ h => by cases h⟩

theorem offsetHoriz_np {M} (d : Dms) (spans : List Span) (s : Span)
    (hs : ∀ s ∈ spans, SpanSmall M d.fontDefinition s) (hw : 2 * M * spansWeight spans < 65536) :
    NP (offsetHoriz d spans s) := by
  unfold offsetHoriz
  dsimp only
  have hf := Nat.mul_le_mul_left (2 * M) (spansWeight_filter (fun x => s.state.matchesSpan x.state) spans)
  obtain ⟨i1, i2⟩ := offsetHorizLoop_np (M := M) d.fontDefinition s.state
    (spans.filter fun x => s.state.matchesSpan x.state) (fun s h => hs s (List.mem_filter.1 h).1) none 0 0
    (by simp) (by omega)
  refine np_bind i1 fun ⟨b, a⟩ e => ?_
  have := i2 b a e
  dsimp only
  rw [chk16_eq (by omega), Out.ofRes_ok, Out.ok_bind]
  split
  · exact np_ok _
  · exact np_err _

theorem textLines_np (t : FontTable) (ss : List Span) : ∀ ls, NP (textLines t ss ls) := by
  induction ss with
  | nil => intro ls; exact np_ok _
  | cons s ss ih =>
    intro ls
    rw [textLines]
    refine np_bind (np_bind (font_np _ _) fun _ _ => np_ok _) fun h _ =>
      np_bind (np_bind (font_np _ _) fun _ _ => np_ok _) fun fs _ => ?_
    split
    · exact ih _
    · exact ih _

/-- a text line none of whose sizes is larger than `M` -/
structure LineOk (M : Nat) (l : TextLine) : Prop where
  height : l.height ≤ M
  font : l.fontSpacing ≤ M
  line : ∀ n, l.lineSpacing = some n → n ≤ M

theorem lineGap_le {M full prev l} (hl : LineOk M l) (hp : ∀ p, prev = some p → LineOk M p) :
    lineGap full prev l ≤ M := by
  unfold lineGap
  split
  · rename_i p
    have := (hp p rfl).font
    have := hl.font
    split
    · unfold TextLine.spacing
      split
      · rename_i n h; exact hl.line n h
      · omega
    · omega
  · omega

theorem v_le {M full sln ls} (h : ∀ l ∈ ls, LineOk M l) : ∀ ln prev, (∀ p, prev = some p → LineOk M p) →
    vAbove full sln ls ln prev + vBelow full sln ls ln prev ≤ 2 * M * ls.length := by
  induction ls with
  | nil => intros; simp [vAbove, vBelow]
  | cons l ls ih =>
    intro ln prev hp
    have hl := h l (List.mem_cons_self ..)
    have i := ih (fun l hl => h l (List.mem_cons_of_mem _ hl)) (ln + 1) (some l) (by simpa using hl)
    have g := lineGap_le (full := full) hl hp
    have := hl.height
    simp only [vAbove, vBelow, List.length_cons, mul_succ_le]
    split <;> omega

theorem offsetVert_np {M} (d : Dms) (spans : List Span) (s : Span)
    (hsm : ∀ s ∈ spans, SpanSmall M d.fontDefinition s) (hw : 2 * M * spansWeight spans < 65536) :
    NP (offsetVert d spans s) := by
  unfold offsetVert Dms.charHeight
  dsimp only
  refine np_bind (textLines_np _ _ _) fun ls e => ?_
  have hall : ∀ l ∈ ls, LineOk M l := by
    refine textLines_all e (LineOk M) (fun s hs f hf => ?_) (fun a b ha hb => ⟨?_, ?_, ?_⟩) (by simp)
    · have hs := hsm s (List.mem_filter.1 hs).1
      have hf := hs.font f hf
      refine ⟨hf.height, hf.lineSpacing, fun n hn => ?_⟩
      simp only [spanLine, Span.lineSpacing, Option.map_eq_some_iff] at hn
      obtain ⟨c, hc, rfl⟩ := hn
      exact hs.lineSpacing c hc
    · have := ha.height; have := hb.height; simp only [TextLine.combine]; omega
    · have := ha.font; have := hb.font; simp only [TextLine.combine]; omega
    · intro n hn
      simp only [TextLine.combine] at hn
      split at hn
      · rename_i x hx; simp only [Option.some.injEq] at hn; subst hn; exact ha.line _ hx
      · exact hb.line n hn
  have hlen := textLines_length e
  simp only [List.length_nil, Nat.zero_add] at hlen
  have h1 := length_le_weight (spans.filter fun x => s.state.matchesLine x.state)
  have h2 := spansWeight_filter (fun x => s.state.matchesLine x.state) spans
  have h3 : 2 * M * ls.length ≤ 2 * M * spansWeight spans := Nat.mul_le_mul_left _ (by omega)
  have hv := v_le (full := decide (d.vmsCfg.charHeightPixels = 0)) (sln := s.state.lineNumber) hall 0 none (by simp)
  rw [offsetVertLoop_of (by omega), Out.ofRes_ok, Out.ok_bind]
  dsimp only
  rw [chk16_eq (by omega), Out.ofRes_ok, Out.ok_bind]
  split
  · exact np_ok _
  · exact np_err _

/-- fonts, justifications and text rectangles for which spans can be placed -/
structure SpansOk (M : Nat) (d : Dms) (spans : List Span) (W H : Nat) : Prop where
  weight : 2 * M * spansWeight spans < 65536
  small : ∀ s ∈ spans, SpanSmall M d.fontDefinition s
  fonts : ∀ s ∈ spans, ∀ f, FontOf d.fontDefinition s f → FontOk f
  chars : ∀ s ∈ spans, ∀ ch ∈ s.str, ch.toNat ≠ 0
  rectIn : ∀ s ∈ spans, RectIn s.state.textRectangle W H
  aligned : ∀ s ∈ spans, Aligned d s.state.textRectangle
  justLine : ∀ s ∈ spans, s.state.justLine ≠ .other ∧ s.state.justLine ≠ .full
  justPage : ∀ s ∈ spans, s.state.justPage ≠ .other
  middle : (∃ s ∈ spans, s.state.justPage = .middle) → CellFonts d spans

theorem renderSpansLoop_np {M d spans page} (hw : SpansOk M d spans page.width page.height)
    (hW : page.width ≤ 65535) (hH : page.height ≤ 65535) (ss : List Span)
    (hsub : ∀ s ∈ ss, s ∈ spans) : NP (renderSpansLoop d spans ss page) := by
  induction ss generalizing page with
  | nil => exact np_ok _
  | cons s ss ih =>
    have hs := hsub s (List.mem_cons_self ..)
    have hr := hw.rectIn s hs
    have ha := hw.aligned s hs
    have hb : RectIn s.state.textRectangle 65535 65535 :=
      ⟨hr.x, hr.y, Nat.le_trans hr.right hW, Nat.le_trans hr.bottom hH⟩
    have hm : s.state.justPage = .middle → CellFonts d (samePage spans s) := fun hj => cellFonts_samePage (hw.middle ⟨s, hs, hj⟩)
    rw [renderSpansLoop]
    refine np_bind ?_ fun x hx => np_bind ?_ fun y hy => np_bind (font_np _ _) fun f hf => ?_
    · rcases np_cases (offsetHoriz_np d spans s hw.small hw.weight) with ⟨⟨b, a⟩, e⟩ | ⟨er, e⟩
      · obtain ⟨x, hx⟩ := spanX_of e hb (hw.justLine s hs)
        rw [hx]; exact np_ok _
      · rw [spanX_err e hb (hw.justLine s hs)]; exact np_err _
    · rcases np_cases (offsetVert_np d spans s hw.small hw.weight) with ⟨⟨b, a⟩, e⟩ | ⟨er, e⟩
      · obtain ⟨x, hx⟩ := spanY_of e hs hb (hw.justPage s hs) ha.y hm
        rw [hx]; exact np_ok _
      · rw [spanY_err e hb (hw.justPage s hs)]; exact np_err _
    · obtain ⟨w, ⟨f1, es, hf1, hd, rfl⟩, x1, x2, x3⟩ := spanX_inside hx hs ha.x
      obtain ⟨f2, hf2, y1, y2, y3⟩ := spanY_inside hy hs ha.y hm
      have hf' := font_ok.1 hf
      obtain rfl := fontOf_unique hf' hf1
      obtain rfl := fontOf_unique hf' hf2
      have hcs : s.charSpacingFont f = charSpacing s f := by
        unfold Span.charSpacingFont charSpacing
        split <;> rename_i h <;> simp [h]
      have h1 := hr.right
      have h2 := hr.bottom
      obtain ⟨r', hr', hc⟩ := renderText_defined f (hw.fonts s hs f hf') x y (charSpacing s f)
        s.state.colorCtx.foregroundRgb s.str (hw.chars s hs) es hd page (by omega) (by omega)
      unfold Span.renderText
      rw [hcs, hr', Out.mapErr_ok, Out.ok_bind]
      exact ih (by rw [hc.width, hc.height]; exact hw) (by rw [hc.width]; exact hW) (by rw [hc.height]; exact hH)
        (fun s hs => hsub s (List.mem_cons_of_mem _ hs))

theorem renderTextSpans_np {M d spans page} (hw : SpansOk M d spans page.width page.height)
    (hW : page.width ≤ 65535) (hH : page.height ≤ 65535) : NP (renderTextSpans d spans page) := by
  unfold renderTextSpans
  split
  · exact np_err _
  · exact renderSpansLoop_np hw hW hH _ fun _ h => h

/-! ### graphics -/

/-- right and bottom edge can be computed in 16 bits -/
def Spec.RectFits (r : Rectangle) : Prop :=
  r.x.toNat + r.width.toNat ≤ 65535 ∧ r.y.toNat + r.height.toNat ≤ 65535

/-- rectangles of a value fit -/
def Spec.ValueFits : Value → Prop
  | .colorRectangle r _ => RectFits r
  | .textRectangle r => RectFits r
  | _ => True

/-- values for which the renderer has no implementation -/
def Spec.unimplemented : Value → Bool
  | .field .. => true
  | .flash .. => true
  | .flashEnd => true
  | .manufacturerSpecific .. => true
  | .manufacturerSpecificEnd .. => true
  | .movingText .. => true
  | _ => false

/-- an item of the message which can be rendered: no panic of the parser, its rectangle fits -/
structure ItemOk (t : Str) : Prop where
  item : Item t
  parse : ∃ x, tryFrom t = .ok x
  fits : ∀ v, tryFrom t = .ok (.ok v) → ValueFits v

theorem extend_some {r : Rectangle} {W H : UInt16} (hW : W.toNat < 65535) (hH : H.toNat < 65535)
    (hr : RectFits r) :
    ∃ i, (r.extendWidthHeight ⟨1, 1, W, H⟩).intersection .checked ⟨1, 1, W, H⟩ = .ok i := by
  have ew := extend_width r ⟨1, 1, W, H⟩
  have eh := extend_height r ⟨1, 1, W, H⟩
  have ex := extend_x r ⟨1, 1, W, H⟩
  have ey := extend_y r ⟨1, 1, W, H⟩
  dsimp only at ew eh
  obtain ⟨r1, r2⟩ := hr
  have l1 := r.x.toNat_lt
  have l2 := r.y.toNat_lt
  have hx : r.x.toNat + extWidth r W.toNat < 65536 := by unfold extWidth; split <;> omega
  have hy : r.y.toNat + extHeight r H.toNat < 65536 := by unfold extHeight; split <;> omega
  generalize r.extendWidthHeight ⟨1, 1, W, H⟩ = q at *
  have e1 : (1:UInt16).toNat = 1 := rfl
  unfold Rectangle.intersection
  simp only [addU16_checked, e1]
  rw [if_pos (by rw [ex, ew]; exact hx), if_pos (by omega), if_pos (by rw [ey, eh]; exact hy), if_pos (by omega)]
  simp only [Res.ok_bind]
  split
  · exact ⟨_, rfl⟩
  · exact ⟨_, rfl⟩

theorem renderRect_np {raster rect clr value} (ho : OriginOk rect) (hf : RectFits rect)
    (hW : raster.width < 65535) (hH : raster.height < 65535) : NP (renderRect raster rect clr value) := by
  unfold renderRect
  rw [if_neg, if_neg (by omega)]
  · have e1 : (UInt16.ofNat raster.width).toNat < 65535 := by simp; omega
    have e2 : (UInt16.ofNat raster.height).toNat < 65535 := by simp; omega
    obtain ⟨i, hi⟩ := extend_some e1 e2 hf
    dsimp only
    rw [hi, Out.ofRes_ok, Out.ok_bind]
    split
    · exact np_ok _
    · exact np_err _
  · obtain ⟨h1, h2⟩ := ho
    rintro (h | h)
    · rw [h] at h1; simp at h1
    · rw [h] at h2; simp at h2

theorem lookupGraphic_np (d : Dms) (gn gid) : NP (lookupGraphic d gn gid) ∧
    ∀ g, lookupGraphic d gn gid = .ok g → g ∈ d.graphicDefinition ∧ g.number = gn := by
  constructor
  · unfold lookupGraphic
    split
    · exact np_ok _
    · split
      · exact np_ok _
      · exact np_err _
    · exact np_err _
  · intro g h
    refine ⟨lookupGraphic_mem h, ?_⟩
    unfold lookupGraphic GraphicTable.graphic at h
    split at h
    · rename_i g' hg; simp only [Out.ok.injEq] at h; subst h
      simpa using List.find?_some hg
    · rename_i g' gid hg; split at h
      · simp only [Out.ok.injEq] at h; subst h; simpa using List.find?_some hg
      · simp at h
    · simp at h

theorem renderGraphic_np {g : Graphic} {W H page x y ctx} (hg : GraphicOk W H g) (hx : 1 ≤ x) (hy : 1 ≤ y) :
    NP (g.renderGraphic page x y ctx) := by
  classical
  unfold Graphic.renderGraphic
  rw [if_neg (by omega)]
  split
  · exact np_err _
  · rename_i hb
    have hv := valid_pixel W H g hg
    obtain ⟨r, h1, -⟩ := renderLoop_ok g ctx (x - 1) (y - 1)
      (fun x y => if h : ∃ c, PixelValue g.gtype g.bitmap (y * g.width.toNat + x) c then
        (if g.transparentColor = some h.choose then none else Spec.shown g.gtype ctx h.choose) else none)
      (gridPoints g.width.toNat g.height.toNat) page
      (by
        intro x y hxy
        have hxy := (mem_gridPoints _ _ _ _).1 hxy
        have he := hv x y hxy.1 hxy.2
        rw [dif_pos he]
        exact pixelFn_ok g x y ctx _ he.choose_spec)
      (by
        intro x y hxy
        have hxy := (mem_gridPoints _ _ _ _).1 hxy
        omega)
    rw [h1]; exact np_ok _

/-- what the sign must fulfil -/
structure Spec.SignOk (d : Dms) : Prop where
  width : d.vmsCfg.signWidthPixels.toNat < 65535
  height : d.vmsCfg.signHeightPixels.toNat < 65535
  font : 1 ≤ d.multiCfg.defaultFont.toNat
  justPage : d.multiCfg.defaultJustificationPage ≠ .other
  justLine : d.multiCfg.defaultJustificationLine ≠ .other ∧ d.multiCfg.defaultJustificationLine ≠ .full
  fonts : ∀ f ∈ d.fontDefinition, f.number.toNat ≠ 0 → FontOk f
  graphics : ∀ g ∈ d.graphicDefinition, g.number.toNat ≠ 0 →
    GraphicOk d.vmsCfg.signWidthPixels.toNat d.vmsCfg.signHeightPixels.toNat g

theorem renderGraphicsLoop_np {d : Dms} (hd : SignOk d) {ss vs rest b} (ht : TakePage ss vs rest b)
    (hs : ∀ t ∈ ss, ItemOk t) (hu : ∀ v ∈ vs, unimplemented v = false) :
    ∀ ctx (raster : Raster), raster.width < 65535 → raster.height < 65535 →
      NP (renderGraphicsLoop d ss ctx raster) := by
  induction ht with
  | nil => intros; exact np_ok _
  | np hp =>
    intro ctx raster _ _
    rw [renderGraphicsLoop, hp]
    exact np_ok _
  | @cons s v ss vs rest b hp hne _ ih =>
    intro ctx raster hW hH
    have hi := hs s (List.mem_cons_self ..)
    have hr := C04_in_range s v hi.item hp
    have hfit := hi.fits v hp
    have hun := hu v (List.mem_cons_self ..)
    have ih := ih (fun t h => hs t (List.mem_cons_of_mem _ h)) (fun v h => hu v (List.mem_cons_of_mem _ h))
    rw [renderGraphicsLoop, hp]
    simp only [Out.ofRes_ok, Out.ok_bind, ofExcept]
    cases v <;> simp only [unimplemented, Bool.true_eq_false] at hun
    case colorBackground c => exact np_bind (np_except _) fun _ _ => ih _ _ hW hH
    case colorForeground c => exact np_bind (np_except _) fun _ _ => ih _ _ hW hH
    case colorRectangle r c =>
      refine np_bind (np_except _) fun _ _ => np_bind (renderRect_np hr hfit hW hH) fun r1 h1 => ?_
      have hp := renderRect_painted h1
      exact ih _ _ (by rw [hp.width]; exact hW) (by rw [hp.height]; exact hH)
    case graphic n p =>
      have gr : ∀ {gid x y}, 1 ≤ x → 1 ≤ y → NP (do
          let g ← lookupGraphic d n gid
          let raster ← (g.renderGraphic raster x y ctx).mapErr GraphicError.toSyntax
          renderGraphicsLoop d ss ctx raster) := by
        intro gid x y hx hy
        refine np_bind (lookupGraphic_np _ _ _).1 fun g hg => ?_
        obtain ⟨g1, g2⟩ := (lookupGraphic_np _ _ _).2 g hg
        have hok := hd.graphics g g1 (by rw [g2]; have := hr.1; omega)
        refine np_bind (np_mapErr _ (renderGraphic_np hok hx hy)) fun r1 h1 => ?_
        have hp := renderGraphic_painted (mapErr_eq_ok.1 h1)
        exact ih _ _ (by rw [hp.width]; exact hW) (by rw [hp.height]; exact hH)
      cases p with
      | none => exact gr (Nat.le_refl 1) (Nat.le_refl 1)
      | some q =>
        obtain ⟨x, y, gid⟩ := q
        obtain ⟨h1, h2⟩ := hr.2 x y gid rfl
        exact gr h1 h2
    case newPage => exact absurd rfl hne
    case textRectangle => exact np_ok _
    all_goals exact ih _ _ hW hH

/-! ### text rectangles -/

theorem rtrStep_some {d : Dms} (hd : SignOk d) {po st t v} (ht : ItemOk t) (hv : tryFrom t = .ok (.ok v))
    (h1 : st.rs.lineNumber < 255) (h2 : st.rs.spanNumber < 255) :
    ∃ r, rtrStep d (RenderState.new d) po st v = .ok r := by
  have hr := C04_in_range t v ht.item hv
  have hfit := ht.fits v hv
  have c1 : chk8 (st.rs.lineNumber + 1) = .ok (st.rs.lineNumber + 1) := chk8_ok.2 ⟨rfl, by omega⟩
  have c2 : chk8 (st.rs.spanNumber + 1) = .ok (st.rs.spanNumber + 1) := chk8_ok.2 ⟨rfl, by omega⟩
  unfold rtrStep
  split <;> dsimp only
  · split <;> exact ⟨_, rfl⟩
  · exact ⟨_, rfl⟩
  · exact ⟨_, rfl⟩
  · exact ⟨_, rfl⟩
  · exact ⟨_, rfl⟩
  · exact ⟨_, rfl⟩
  · exact ⟨_, rfl⟩
  · split <;> exact ⟨_, rfl⟩
  · split
    · exact ⟨_, rfl⟩
    · rw [c1]; exact ⟨_, rfl⟩
  · exact ⟨_, rfl⟩
  · split <;> exact ⟨_, rfl⟩
  · exact ⟨_, rfl⟩
  · rename_i r
    have hu : ∃ o, updateTextRectangle d (RenderState.new d).textRectangle r = .ok o := by
      obtain ⟨i, hi⟩ := extend_some (r := r) (W := d.vmsCfg.signWidthPixels) (H := d.vmsCfg.signHeightPixels) hd.width hd.height hfit
      unfold updateTextRectangle
      show ∃ o, ((r.extendWidthHeight ⟨1, 1, d.vmsCfg.signWidthPixels, d.vmsCfg.signHeightPixels⟩).intersection .checked
        ⟨1, 1, d.vmsCfg.signWidthPixels, d.vmsCfg.signHeightPixels⟩ >>= _) = .ok o
      rw [hi, Res.ok_bind]
      split
      · exact ⟨_, rfl⟩
      · rw [sub16_eq (by rw [extend_x]; exact hr.1), Res.ok_bind]
        split
        · exact ⟨_, rfl⟩
        · rw [sub16_eq (by rw [extend_y]; exact hr.2), Res.ok_bind]
          split <;> exact ⟨_, rfl⟩
    obtain ⟨o, ho⟩ := hu
    rw [ho]
    cases o <;> exact ⟨_, rfl⟩
  · rw [c2]; exact ⟨_, rfl⟩
  · split
    · rw [c2]; exact ⟨_, rfl⟩
    · exact ⟨_, rfl⟩
  · exact ⟨_, rfl⟩

theorem rtrLoop_some {d : Dms} (hd : SignOk d) {po ss} (hs : ∀ t ∈ ss, ItemOk t) : ∀ {st : Rtr},
    st.rs.lineNumber + ss.flatten.length ≤ 255 → st.rs.spanNumber + ss.flatten.length ≤ 255 →
    ∃ x st' rest, rtrLoop d (RenderState.new d) po ss st = .ok (x, st', rest) ∧
      st'.rs.lineNumber + rest.flatten.length ≤ st.rs.lineNumber + ss.flatten.length ∧
      st'.rs.spanNumber + rest.flatten.length ≤ st.rs.spanNumber + ss.flatten.length := by
  induction ss with
  | nil => intro st _ _; exact ⟨_, _, _, rfl, Nat.le_refl _, Nat.le_refl _⟩
  | cons t ss ih =>
    intro st hl hn
    have hi := hs t (List.mem_cons_self ..)
    have h1 := item_length hi.item
    simp only [List.flatten_cons, List.length_append] at hl hn ⊢
    obtain ⟨x, hx⟩ := hi.parse
    rw [rtrLoop, hx]
    cases x with
    | error e => exact ⟨_, _, _, rfl, by omega, by omega⟩
    | ok v =>
      obtain ⟨⟨c, st1⟩, h2⟩ := rtrStep_some hd (po := po) (st := st) hi hx (by omega) (by omega)
      have k := rtrStep_ok hi.item hx h2
      have k1 := k.lines
      have k2 := k.spanNumbers
      simp only [h2]
      cases c with
      | cont =>
        obtain ⟨x, st', rest, e1, e2, e3⟩ := ih (fun t h => hs t (List.mem_cons_of_mem _ h)) (st := st1)
          (by omega) (by omega)
        exact ⟨x, st', rest, e1, by omega, by omega⟩
      | brk => exact ⟨_, _, _, rfl, by omega, by omega⟩
      | fail e => exact ⟨_, _, _, rfl, by omega, by omega⟩

/-- heights of the fonts are multiples of the height of the character cells -/
def Spec.SignCells (d : Dms) : Prop :=
  d.vmsCfg.charHeightPixels = 0 ∨ ∀ f ∈ d.fontDefinition, f.number.toNat ≠ 0 → f.height.toNat % (signCellHeight d) = 0

/-- no text in the vertical middle -/
structure NoMiddle (d : Dms) (ss : List Str) : Prop where
  default : d.multiCfg.defaultJustificationPage ≠ .middle
  items : ∀ t ∈ ss, tryFrom t ≠ .ok (.ok (.justificationPage (some .middle)))

theorem rtrStep_middle {d : Dms} {po st v c st'} (hm : d.multiCfg.defaultJustificationPage ≠ .middle)
    (hv : v ≠ .justificationPage (some .middle)) (hs : st.rs.justPage ≠ .middle)
    (h : rtrStep d (RenderState.new d) po st v = .ok (c, st')) : st'.rs.justPage ≠ .middle := by
  unfold rtrStep at h
  split at h <;> dsimp only at h
  · split at h <;> simp only [Res.ok.injEq, Prod.mk.injEq] at h <;> obtain ⟨_, rfl⟩ := h <;> exact hs
  · simp only [Res.ok.injEq, Prod.mk.injEq] at h; obtain ⟨_, rfl⟩ := h; exact hs
  · simp only [Res.ok.injEq, Prod.mk.injEq] at h; obtain ⟨_, rfl⟩ := h; exact hs
  · simp only [Res.ok.injEq, Prod.mk.injEq] at h; obtain ⟨_, rfl⟩ := h; exact hs
  · simp only [Res.ok.injEq, Prod.mk.injEq] at h; obtain ⟨_, rfl⟩ := h; exact hs
  · simp only [Res.ok.injEq, Prod.mk.injEq] at h; obtain ⟨_, rfl⟩ := h; exact hs
  · simp only [Res.ok.injEq, Prod.mk.injEq] at h; obtain ⟨_, rfl⟩ := h; exact hs
  · rename_i jp _
    split at h <;> simp only [Res.ok.injEq, Prod.mk.injEq] at h <;> obtain ⟨_, rfl⟩ := h
    · dsimp only
      cases jp with
      | none => exact hm
      | some j => rintro rfl; exact hv rfl
    · exact hs
  · split at h
    · simp only [Res.ok.injEq, Prod.mk.injEq] at h; obtain ⟨_, rfl⟩ := h; exact hs
    · simp only [Res.bind_eq_ok, Res.pure_eq, Res.ok.injEq, Prod.mk.injEq] at h
      obtain ⟨_, _, _, rfl⟩ := h; exact hs
  · simp only [Res.ok.injEq, Prod.mk.injEq] at h; obtain ⟨_, rfl⟩ := h; exact hs
  · split at h <;> simp only [Res.ok.injEq, Prod.mk.injEq] at h <;> obtain ⟨_, rfl⟩ := h <;> exact hs
  · simp only [Res.ok.injEq, Prod.mk.injEq] at h; obtain ⟨_, rfl⟩ := h; exact hs
  · simp only [Res.bind_eq_ok] at h
    obtain ⟨o, _, h⟩ := h
    cases o <;> simp only [Res.pure_eq, Res.ok.injEq, Prod.mk.injEq] at h <;> obtain ⟨_, rfl⟩ := h <;> exact hs
  · simp only [Res.bind_eq_ok, Res.pure_eq, Res.ok.injEq, Prod.mk.injEq] at h
    obtain ⟨_, _, _, rfl⟩ := h; exact hs
  · split at h
    · simp only [Res.bind_eq_ok, Res.pure_eq, Res.ok.injEq, Prod.mk.injEq] at h
      obtain ⟨_, _, _, rfl⟩ := h; exact hs
    · simp only [Res.ok.injEq, Prod.mk.injEq] at h; obtain ⟨_, rfl⟩ := h; exact hs
  · simp only [Res.ok.injEq, Prod.mk.injEq] at h; obtain ⟨_, rfl⟩ := h; exact hs

theorem rtrLoop_middle {d : Dms} {po ss st x st' rest} (hi : ∀ t ∈ ss, Item t) (hm : NoMiddle d ss)
    (h : rtrLoop d (RenderState.new d) po ss st = .ok (x, st', rest)) (hs : st.rs.justPage ≠ .middle)
    (hsp : ∀ s ∈ st.spans, s.state.justPage ≠ .middle) :
    st'.rs.justPage ≠ .middle ∧ ∀ s ∈ st'.spans, s.state.justPage ≠ .middle := by
  induction ss generalizing st with
  | nil =>
    simp only [rtrLoop, Res.ok.injEq, Prod.mk.injEq] at h
    obtain ⟨_, rfl, rfl⟩ := h
    exact ⟨hs, hsp⟩
  | cons t ss ih =>
    have hm' : NoMiddle d ss := ⟨hm.default, fun t h => hm.items t (List.mem_cons_of_mem _ h)⟩
    have hi' := fun t h => hi t (List.mem_cons_of_mem _ h)
    have one : ∀ {v c st1}, tryFrom t = .ok (.ok v) → rtrStep d (RenderState.new d) po st v = .ok (c, st1) →
        st1.rs.justPage ≠ .middle ∧ ∀ s ∈ st1.spans, s.state.justPage ≠ .middle := by
      intro v c st1 hv h1
      refine ⟨rtrStep_middle hm.default (fun e => hm.items t (List.mem_cons_self ..) (by rw [hv, e])) hs h1, ?_⟩
      intro s hsm
      rcases (rtrStep_ok (hi t (List.mem_cons_self ..)) hv h1).spans with e | ⟨str, e, _⟩
      · rw [e] at hsm; exact hsp s hsm
      · rw [e] at hsm
        rcases List.mem_append.1 hsm with hsm | hsm
        · exact hsp s hsm
        · simp only [List.mem_singleton] at hsm; subst hsm; exact hs
    unfold rtrLoop at h
    split at h
    · simp at h
    · simp only [Res.ok.injEq, Prod.mk.injEq] at h
      obtain ⟨_, rfl, rfl⟩ := h
      exact ⟨hs, hsp⟩
    · rename_i v hv
      split at h
      · simp at h
      · rename_i st1 h1
        exact ih hi' hm' h (one hv h1).1 (one hv h1).2
      · rename_i st1 h1
        simp only [Res.ok.injEq, Prod.mk.injEq] at h
        obtain ⟨_, rfl, rfl⟩ := h
        exact one hv h1
      · rename_i st1 h1
        simp only [Res.ok.injEq, Prod.mk.injEq] at h
        obtain ⟨_, rfl, rfl⟩ := h
        exact one hv h1

/-- there is no text in the middle, or font heights are multiples of cell heights -/
def MiddleOk (d : Dms) (pg : Pages) : Prop :=
  SignCells d ∨ (NoMiddle d pg.values ∧ pg.renderState.justPage ≠ .middle)

theorem renderTextRectangle_middle {d pg raster x pg'} (hp : PagesOk d pg) (hm : MiddleOk d pg)
    (h : renderTextRectangle d pg raster = .ok (x, pg')) : MiddleOk d pg' := by
  rcases hm with hm | ⟨hm, hj⟩
  · exact .inl hm
  · have hsuf := renderTextRectangle_suffix h
    unfold renderTextRectangle at h
    simp only [Res.bind_eq_ok] at h
    obtain ⟨⟨y, st, values⟩, h1, h2⟩ := h
    have key : pg' = ⟨pg.defaultState, st.rs, st.pageState, values, st.spans⟩ := by
      cases y with
      | error e => simp only [Res.pure_eq, Res.ok.injEq, Prod.mk.injEq] at h2; exact h2.2.symm
      | ok u =>
        simp only at h2
        split at h2
        · simp at h2
        · simp only [Res.pure_eq, Res.ok.injEq, Prod.mk.injEq] at h2; exact h2.2.symm
        · simp only [Res.pure_eq, Res.ok.injEq, Prod.mk.injEq] at h2; exact h2.2.symm
    subst key
    rw [hp.default] at h1
    exact .inr ⟨⟨hm.default, fun t ht => hm.items t (hsuf.subset ht)⟩,
      (rtrLoop_middle hp.items hm h1 hj (by simp)).1⟩

theorem onPageLoop_middle {d fuel n pg raster x pg'} (hp : PagesOk d pg) (hm : MiddleOk d pg)
    (h : onPageLoop d fuel n pg raster = .ok (x, pg')) : MiddleOk d pg' := by
  induction fuel generalizing n pg raster with
  | zero =>
    simp only [onPageLoop, Res.ok.injEq, Prod.mk.injEq] at h
    obtain ⟨_, rfl⟩ := h; exact hm
  | succ fuel ih =>
    rw [onPageLoop] at h
    split at h
    · split at h
      · simp at h
      · simp only [Res.ok.injEq, Prod.mk.injEq] at h
        obtain ⟨_, rfl⟩ := h; exact hm
      · simp only [Res.bind_eq_ok] at h
        obtain ⟨⟨y, pg1⟩, h1, h2⟩ := h
        have k1 := renderTextRectangle_state hp h1
        have k2 := renderTextRectangle_middle hp hm h1
        cases y with
        | error e =>
          simp only [Res.pure_eq, Res.ok.injEq, Prod.mk.injEq] at h2
          obtain ⟨_, rfl⟩ := h2; exact k2
        | ok r =>
          simp only at h2
          split at h2
          · simp only [Res.pure_eq, Res.ok.injEq, Prod.mk.injEq] at h2
            obtain ⟨_, rfl⟩ := h2; exact k2
          · exact ih k1 k2 h2
    · simp only [Res.ok.injEq, Prod.mk.injEq] at h
      obtain ⟨_, rfl⟩ := h; exact hm

theorem updatePageState_middle {d : Dms} {rs : RenderState} {values x rs'}
    (h : updatePageState (RenderState.new d) rs values = .ok (x, rs')) : rs'.justPage = rs.justPage := by
  unfold updatePageState at h
  obtain ⟨c, a, b, rfl⟩ := updatePageStateLoop_keep h
  rfl

theorem renderOnPage_middle {d pg x pg'} (hp : PagesOk d pg) (hm : MiddleOk d pg)
    (h : renderOnPage d pg = .ok (x, pg')) : MiddleOk d pg' := by
  unfold renderOnPage at h
  split at h
  · simp at h
  · simp only [Res.ok.injEq, Prod.mk.injEq] at h
    obtain ⟨_, rfl⟩ := h; exact hm
  · simp only [Res.bind_eq_ok] at h
    obtain ⟨⟨y, rs⟩, h1, h2⟩ := h
    rw [hp.default] at h1
    have k := (updatePageState_state hp.state h1).1
    have km : ∀ ps, MiddleOk d ⟨pg.defaultState, rs, ps, pg.values, pg.spans⟩ := by
      intro ps
      rcases hm with hm | ⟨hm, hj⟩
      · exact .inl hm
      · exact .inr ⟨hm, by rw [updatePageState_middle h1]; exact hj⟩
    cases y with
    | error e =>
      simp only [Res.pure_eq, Res.ok.injEq, Prod.mk.injEq] at h2
      obtain ⟨_, rfl⟩ := h2; exact km _
    | ok u =>
      simp only [Res.bind_eq_ok] at h2
      obtain ⟨⟨y, pg1⟩, h3, h4⟩ := h2
      have k2 := onPageLoop_middle (pg := ⟨pg.defaultState, rs, .on false, pg.values, pg.spans⟩)
        ⟨hp.default, k, hp.items⟩ (km _) h3
      cases y <;> simp only [Res.pure_eq, Res.ok.injEq, Prod.mk.injEq] at h4 <;> obtain ⟨_, rfl⟩ := h4 <;>
        exact k2

theorem next_middle {d pg x pg'} (hp : PagesOk d pg) (hm : MiddleOk d pg)
    (h : Pages.next d pg = .ok (some x, pg')) : MiddleOk d pg' := by
  rcases next_cases h with ⟨_, h1⟩ | ⟨_, _, _, rfl⟩
  · exact renderOnPage_middle hp hm h1
  · exact hm

/-- What holds along the pages of a message which can be rendered -/
structure PagesSafe (M : Nat) (d : Dms) (pg : Pages) : Prop where
  ok : PagesOk d pg
  items : ∀ t ∈ pg.values, ItemOk t
  spacing : 99 ≤ M
  fonts : ∀ f ∈ d.fontDefinition, f.number.toNat ≠ 0 → FontSmall M f
  sizes : 2 * M * pg.values.flatten.length < 65536
  short : pg.values.flatten.length ≤ 255
  middle : MiddleOk d pg

theorem suffix_flatten {a b : List Str} (h : a <:+ b) : a.flatten.length ≤ b.flatten.length := by
  obtain ⟨c, rfl⟩ := h
  simp

theorem PagesSafe.suffix {M d pg pg'} (h : PagesSafe M d pg) (ho : PagesOk d pg') (hm : MiddleOk d pg')
    (hs : pg'.values <:+ pg.values) : PagesSafe M d pg' :=
  ⟨ho, fun t ht => h.items t (hs.subset ht), h.spacing, h.fonts,
    Nat.lt_of_le_of_lt (Nat.mul_le_mul_left _ (suffix_flatten hs)) h.sizes,
    Nat.le_trans (suffix_flatten hs) h.short, hm⟩

theorem renderTextRectangle_some {M d pg raster} (hd : SignOk d) (hp : PagesSafe M d pg)
    (hl : pg.renderState.lineNumber + pg.values.flatten.length ≤ 255)
    (hn : pg.renderState.spanNumber + pg.values.flatten.length ≤ 255)
    (hW : raster.width = d.vmsCfg.signWidthPixels.toNat) (hH : raster.height = d.vmsCfg.signHeightPixels.toNat) :
    ∃ x pg', renderTextRectangle d pg raster = .ok (x, pg') ∧
      pg'.renderState.lineNumber + pg'.values.flatten.length ≤ 255 ∧
      pg'.renderState.spanNumber + pg'.values.flatten.length ≤ 255 := by
  have e := hp.ok.default
  obtain ⟨x, st, rest, h1, h2, h3⟩ := rtrLoop_some hd (po := decide (pg.renderState.pageOffTimeDs > 0)) hp.items
    (st := { rs := pg.renderState, pageState := .doneState (decide (pg.renderState.pageOffTimeDs > 0)),
             spans := [], lineBlank := true }) hl hn
  obtain ⟨k1, k2, k3⟩ := rtrLoop_state hp.ok.items h1 hp.ok.state
  have k2 := k2 (by simp)
  have k4 : 2 * M * spansWeight st.spans < 65536 := by
    have e0 : spansWeight ([] : List Span) = 0 := rfl
    have := hp.sizes
    have : 2 * M * spansWeight st.spans ≤ 2 * M * pg.values.flatten.length :=
      Nat.mul_le_mul_left _ (by dsimp only at k3; omega)
    omega
  have fonts : ∀ s ∈ st.spans, ∀ f, FontOf d.fontDefinition s f → f ∈ d.fontDefinition ∧ f.number.toNat ≠ 0 := by
    intro s hs f hf
    have h1 := (k2 s hs).1.font hd.font
    have h2 := hf.1
    unfold FontTable.font at h2
    refine ⟨List.mem_of_find?_eq_some h2, ?_⟩
    have : f.number = s.state.fontNum := by simpa using List.find?_some h2
    rw [this]; omega
  have hw : SpansOk M d st.spans raster.width raster.height := by
    have h99 := hp.spacing
    refine ⟨k4, fun s hs => ⟨fun f hf => ?_, fun c hc => ?_, fun c hc => ?_⟩, fun s hs f hf => ?_, fun s hs => (k2 s hs).2, fun s hs => ?_, fun s hs => (k2 s hs).1.aligned,
      fun s hs => (k2 s hs).1.justLine hd.justLine, fun s hs => (k2 s hs).1.justPage hd.justPage, ?_⟩
    · obtain ⟨f1, f2⟩ := fonts s hs f hf
      exact hp.fonts f f1 f2
    · have := (k2 s hs).1.charSpacing c hc; omega
    · have := (k2 s hs).1.lineSpacing c hc; omega
    · obtain ⟨f1, f2⟩ := fonts s hs f hf
      exact hd.fonts f f1 f2
    · rw [hW, hH]; exact (k2 s hs).1.rectIn
    · rintro ⟨s, hs, hj⟩
      rcases hp.middle with h | ⟨hm, h⟩
      · rcases h with h | h
        · exact .inl h
        · refine .inr fun s hs f hf => ?_
          obtain ⟨f1, f2⟩ := fonts s hs f hf
          exact h f f1 f2
      · exact absurd hj ((rtrLoop_middle hp.ok.items hm h1 h (by simp)).2 s hs)
  have hnp := renderTextSpans_np hw (by have := hd.width; omega) (by have := hd.height; omega)
  unfold renderTextRectangle
  dsimp only at h2 h3 ⊢
  rw [e, h1, Res.ok_bind]
  dsimp only
  cases x with
  | error er => exact ⟨_, _, rfl, by dsimp only; omega, by dsimp only; omega⟩
  | ok u =>
    dsimp only
    rcases np_cases hnp with ⟨r, hr⟩ | ⟨er, hr⟩
    · rw [hr]; exact ⟨_, _, rfl, by dsimp only; omega, by dsimp only; omega⟩
    · rw [hr]; exact ⟨_, _, rfl, by dsimp only; omega, by dsimp only; omega⟩

theorem renderTextRectangle_page {d pg raster r pg'}
    (h : renderTextRectangle d pg raster = .ok (.ok r, pg')) (hs : pg'.pageState = .on false)
    {vs rest b} (ht : TakePage pg.values vs rest b) :
    r.width = raster.width ∧ r.height = raster.height ∧
      ∃ us ws, vs = us ++ ws ∧ TakePage pg'.values ws rest b := by
  unfold renderTextRectangle at h
  simp only [Res.bind_eq_ok] at h
  obtain ⟨⟨y, st, values⟩, h1, h2⟩ := h
  cases y with
  | error e => simp at h2
  | ok u =>
    simp only at h2
    split at h2
    · simp at h2
    · simp at h2
    · rename_i r' hr
      simp only [Res.pure_eq, Res.ok.injEq, Prod.mk.injEq, Except.ok.injEq] at h2
      obtain ⟨rfl, rfl⟩ := h2
      have hp := renderTextSpans_painted hr
      refine ⟨hp.width, hp.height, ?_⟩
      rcases (rtrLoop_ok h1).1 vs rest b ht with ⟨_, ws, us, r, r', rfl, _, h5, _⟩ | ⟨_, h5, _⟩
      · exact ⟨us ++ [.textRectangle r], ws, by simp, h5⟩
      · dsimp only at hs
        rw [hs] at h5
        cases b
        · simp only [Bool.false_eq_true, if_false] at h5
          unfold PageState.doneState at h5
          split at h5 <;> simp at h5
        · simp only [if_true] at h5
          unfold PageState.newPage at h5
          split at h5 <;> simp at h5

theorem onPageLoop_some {M d} (hd : SignOk d) : ∀ fuel n pg raster, PagesSafe M d pg →
    pg.renderState.lineNumber + pg.values.flatten.length ≤ 255 →
    pg.renderState.spanNumber + pg.values.flatten.length ≤ 255 →
    raster.width = d.vmsCfg.signWidthPixels.toNat → raster.height = d.vmsCfg.signHeightPixels.toNat →
    ∀ vs rest b, TakePage pg.values vs rest b → (∀ v ∈ vs, unimplemented v = false) →
    ∃ r, onPageLoop d fuel n pg raster = .ok r := by
  intro fuel
  induction fuel with
  | zero => intros; exact ⟨_, rfl⟩
  | succ fuel ih =>
    intro n pg raster hp hl hn hW hH vs rest b ht hu
    have w1 := hd.width
    have w2 := hd.height
    rw [onPageLoop]
    split
    · rcases np_cases (renderGraphicsLoop_np hd ht hp.items hu pg.renderState.colorCtx raster (by omega)
        (by omega)) with ⟨r1, h1⟩ | ⟨e, h1⟩
      · have hpa := renderGraphicsLoop_painted (palette_true d) trivial h1
        rw [h1]
        dsimp only
        obtain ⟨x, pg', h2, h3, h4⟩ := renderTextRectangle_some hd hp hl hn (hpa.width.trans hW)
          (hpa.height.trans hH)
        rw [h2, Res.ok_bind]
        dsimp only
        cases x with
        | error e => exact ⟨_, rfl⟩
        | ok r2 =>
          dsimp only
          split
          · exact ⟨_, rfl⟩
          · have hp' := hp.suffix (renderTextRectangle_state hp.ok h2) (renderTextRectangle_middle hp.ok hp.middle h2)
              (renderTextRectangle_suffix h2)
            by_cases hs : pg'.pageState = .on false
            · obtain ⟨s1, s2, us, ws, rfl, h5⟩ := renderTextRectangle_page h2 hs ht
              exact ih _ _ _ hp' h3 h4 (s1.trans (hpa.width.trans hW)) (s2.trans (hpa.height.trans hH)) ws rest b
                h5 (fun v hv => hu v (List.mem_append_right _ hv))
            · cases fuel with
              | zero => exact ⟨_, rfl⟩
              | succ f => rw [onPageLoop, if_neg hs]; exact ⟨_, rfl⟩
      · rw [h1]; exact ⟨_, rfl⟩
    · exact ⟨_, rfl⟩

/-- values without implementation are of tags which the sign does not support -/
def Spec.Supportable (d : Dms) (v : Value) : Prop :=
  unimplemented v = true → ∃ t, v.tag = some t ∧ d.multiCfg.supportedMultiTags t = false

theorem checkUnsupported_np {d ss} (hs : ∀ t ∈ ss, ItemOk t) : NP (checkUnsupported d ss) := by
  induction ss with
  | nil => exact np_ok _
  | cons t ss ih =>
    have ih := ih (fun t h => hs t (List.mem_cons_of_mem _ h))
    rw [checkUnsupported]
    refine np_bind (np_res (hs t (List.mem_cons_self ..)).parse) fun x _ => np_bind (np_except _) fun v _ => ?_
    split
    · split
      · exact np_err _
      · split
        · exact np_ok _
        · exact ih
    · exact ih

theorem updatePageStateLoop_some {ds : RenderState} {ss} (hs : ∀ t ∈ ss, ItemOk t) : ∀ rs,
    ∃ x, updatePageStateLoop ds ss rs = .ok x := by
  induction ss with
  | nil => intro rs; exact ⟨_, rfl⟩
  | cons t ss ih =>
    intro rs
    have ih := ih (fun t h => hs t (List.mem_cons_of_mem _ h))
    obtain ⟨x, hx⟩ := (hs t (List.mem_cons_self ..)).parse
    rw [updatePageStateLoop, hx]
    cases x with
    | error e => exact ⟨_, rfl⟩
    | ok v =>
      simp only
      split
      · split
        · exact ih _
        · exact ⟨_, rfl⟩
      · split
        · exact ih _
        · exact ⟨_, rfl⟩
      · exact ⟨_, rfl⟩
      · exact ih _
      · exact ih _

theorem takePage_mem {ss vs rest b} (h : TakePage ss vs rest b) : ∀ v ∈ vs, ∃ t ∈ ss, tryFrom t = .ok (.ok v) := by
  induction h with
  | nil => simp
  | np => simp
  | cons hp _ _ ih =>
    intro v hv
    rcases List.mem_cons.1 hv with rfl | hv
    · exact ⟨_, List.mem_cons_self .., hp⟩
    · obtain ⟨t, h1, h2⟩ := ih v hv
      exact ⟨t, List.mem_cons_of_mem _ h1, h2⟩

theorem renderOnPage_some {M d pg} (hd : SignOk d) (hp : PagesSafe M d pg)
    (hu : ∀ t ∈ pg.values, ∀ v, tryFrom t = .ok (.ok v) → Supportable d v) :
    ∃ x, renderOnPage d pg = .ok x := by
  unfold renderOnPage
  rcases np_cases (checkUnsupported_np (d := d) hp.items) with ⟨⟨⟩, h1⟩ | ⟨e, h1⟩
  · rw [h1]
    dsimp only
    obtain ⟨⟨x, rs⟩, h2⟩ : ∃ x, updatePageState pg.defaultState pg.renderState pg.values = .ok x :=
      updatePageStateLoop_some hp.items _
    rw [h2, Res.ok_bind]
    dsimp only
    rw [hp.ok.default] at h2
    obtain ⟨k1, k2, k3, k4⟩ := updatePageState_state hp.ok.state h2
    cases x with
    | error e => exact ⟨_, rfl⟩
    | ok u =>
      dsimp only
      obtain ⟨vs, rest, b, ht, hsup, -⟩ := checkUnsupported_ok h1
      have hsh := hp.short
      obtain ⟨⟨x, pg'⟩, h3⟩ := onPageLoop_some hd (maxTextRectangles + 2) 0
        { pg with renderState := rs, pageState := .on false } (buildRaster rs)
        ⟨⟨hp.ok.default, k1, hp.ok.items⟩, hp.items, hp.spacing, hp.fonts, hp.sizes, hp.short,
          (by rcases hp.middle with h | ⟨h, hj⟩
              · exact .inl h
              · exact .inr ⟨h, by dsimp only; rw [updatePageState_middle h2]; exact hj⟩)⟩ (by dsimp only; omega) (by dsimp only; omega)
        (by show rs.textRectangle.width.toNat = _; rw [k2]; rfl)
        (by show rs.textRectangle.height.toNat = _; rw [k2]; rfl) vs rest b ht (fun v hv => by
          obtain ⟨t, t1, t2⟩ := takePage_mem ht v hv
          by_cases hh : unimplemented v = true
          · obtain ⟨tg, g1, g2⟩ := hu t t1 v t2 hh
            rw [hsup v hv tg g1] at g2; simp at g2
          · simpa using hh)
      rw [h3, Res.ok_bind]
      cases x <;> exact ⟨_, rfl⟩
  · rw [h1]; exact ⟨_, rfl⟩

theorem next_some {M d pg} (hd : SignOk d) (hp : PagesSafe M d pg)
    (hu : ∀ t ∈ pg.values, ∀ v, tryFrom t = .ok (.ok v) → Supportable d v) :
    ∃ x, Pages.next d pg = .ok x := by
  unfold Pages.next
  split
  · obtain ⟨x, hx⟩ := renderOnPage_some hd hp hu
    rw [hx]; exact ⟨_, rfl⟩
  · exact ⟨_, rfl⟩
  · exact ⟨_, rfl⟩

theorem run_some {M d} (hd : SignOk d) : ∀ n pg, PagesSafe M d pg →
    (∀ t ∈ pg.values, ∀ v, tryFrom t = .ok (.ok v) → Supportable d v) → ∃ x, Pages.run d n pg = .ok x := by
  intro n
  induction n with
  | zero => intros; exact ⟨_, rfl⟩
  | succ n ih =>
    intro pg hp hu
    obtain ⟨⟨x, pg'⟩, h1⟩ := next_some hd hp hu
    rw [Pages.run, h1, Res.ok_bind]
    cases x with
    | none => exact ⟨_, rfl⟩
    | some x =>
      dsimp only
      have hs := next_suffix h1
      obtain ⟨⟨xs, pg''⟩, h2⟩ := ih pg' (hp.suffix (next_state hp.ok h1) (next_middle hp.ok hp.middle h1) hs) (fun t ht => hu t (hs.subset ht))
      rw [h2]; exact ⟨_, rfl⟩

end Ntcip
