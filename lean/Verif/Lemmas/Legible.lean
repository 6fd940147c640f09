import Verif.Spec.Legible
import Verif.Lemmas.Wording
import Verif.Lemmas.Cells
import Verif.Props.Room
/-
Lemmas for C111: texts are read off the pixels that they light.
-/
namespace Ntcip
open Spec

variable {d : Dms} {t : FontTable}

theorem sameWidths_refl (t : FontTable) (a : Str) : SameWidths t a a := by
  intro f _ es es' h h'
  rw [defined_unique h h']

theorem retyped_reduced {v v'} (h : Retyped t v v') : Reduced [] v v' := by
  cases h with
  | same => exact .same
  | text _ => exact .text fun f hf => by simp at hf

theorem retyped_all {vs vs'} (h : Pairwise2 (Retyped t) vs vs') : Pairwise2 (Reduced []) vs vs' := by
  induction h with
  | nil => exact .nil
  | cons h _ ih => exact .cons (retyped_reduced h) ih

/-! ### the same places -/

/-- spans of the same state, with texts of the same widths -/
def SpanAlike (t : FontTable) (s s' : Span) : Prop := s.state = s'.state ∧ SameWidths t s.str s'.str

theorem spanWidth_alike {s s' w w'} (h : SpanAlike t s s') (hw : SpanWidth t s w) (hw' : SpanWidth t s' w') : w = w' := by
  obtain ⟨f, es, h1, h2, rfl⟩ := hw
  obtain ⟨f', es', h1', h2', rfl⟩ := hw'
  obtain ⟨st, str⟩ := s
  obtain ⟨st', str'⟩ := s'
  obtain ⟨e, hs⟩ := h
  dsimp only at e
  subst e
  obtain rfl : f = f' := fontOf_unique (s := ⟨st, str⟩) h1 h1'
  rw [hs f (fontOf_mem h1) es es' h2 h2']
  rfl

theorem gap_alike {p p' s s' : Span} {g g'} (hp : p.state = p'.state) (hs : s.state = s'.state) (h : Gap t p s g)
    (h' : Gap t p' s' g') : g = g' := by
  obtain ⟨st, str⟩ := s
  obtain ⟨st', str'⟩ := s'
  obtain ⟨pt, ptr⟩ := p
  obtain ⟨pt', ptr'⟩ := p'
  dsimp only at hp hs
  subst hp
  subst hs
  exact gap_unique (p := ⟨pt, ptr⟩) (s := ⟨st, str⟩) h h'

theorem lineWidth_alike {ss ss'} (h : Pairwise2 (SpanAlike t) ss ss') : ∀ {p p' n n'},
    p.map Span.state = p'.map Span.state → LineWidth t p ss n → LineWidth t p' ss' n' → n = n' := by
  induction h with
  | nil => intro p p' n n' _ h h'; cases h; cases h'; rfl
  | cons hs _ ih =>
    intro p p' n n' hp h h'
    cases h with
    | first h1 h2 =>
      cases h' with
      | first h1' h2' => rw [spanWidth_alike hs h1 h1', ih (p := some _) (p' := some _) (congrArg some hs.1) h2 h2']
      | next _ _ _ => cases hp
    | next h0 h1 h2 =>
      cases h' with
      | first _ _ => cases hp
      | next h0' h1' h2' =>
        rw [gap_alike (Option.some.inj hp) hs.1 h0 h0', spanWidth_alike hs h1 h1', ih (p := some _) (p' := some _) (congrArg some hs.1) h2 h2']

theorem beforeAt_alike {own ss ss'} (h : Pairwise2 (SpanAlike t) ss ss') : ∀ {p p' n n'},
    p.map Span.state = p'.map Span.state → BeforeAt t own p ss n → BeforeAt t own p' ss' n' → n = n' := by
  induction h with
  | nil => intro p p' n n' _ h h'; cases h; cases h'; rfl
  | cons hs _ ih =>
    intro p p' n n' hp h h'
    cases h with
    | first h1 h2 =>
      cases h' with
      | first h1' h2' => rw [spanWidth_alike hs h1 h1', ih (p := some _) (p' := some _) (congrArg some hs.1) h2 h2', hs.1]
      | next _ _ _ => cases hp
    | next h0 h1 h2 =>
      cases h' with
      | first _ _ => cases hp
      | next h0' h1' h2' =>
        rw [gap_alike (Option.some.inj hp) hs.1 h0 h0', spanWidth_alike hs h1 h1', ih (p := some _) (p' := some _) (congrArg some hs.1) h2 h2', hs.1]

theorem sameLine_alike {ss ss' s s'} (h : Pairwise2 (SpanAlike t) ss ss') (hs : SpanAlike t s s') :
    Pairwise2 (SpanAlike t) (sameLine ss s) (sameLine ss' s') := by
  unfold sameLine
  induction h with
  | nil => exact .nil
  | cons hu _ ih =>
    rw [List.filter_cons, List.filter_cons, ← hu.1, ← hs.1]
    rw [← hs.1] at ih
    split
    · exact .cons hu ih
    · exact ih

theorem exactX_alike {ss ss' s s' x x'} (h : Pairwise2 (SpanAlike d.fontDefinition) ss ss') (hs : SpanAlike d.fontDefinition s s')
    (hx : ExactX d ss s x) (hx' : ExactX d ss' s' x') : x = x' := by
  obtain ⟨n, total, h1, h2, _, h3⟩ := hx
  obtain ⟨n', total', h1', h2', _, h3'⟩ := hx'
  have hl := sameLine_alike h hs
  rw [← hs.1] at h1' h3'
  rw [h3, h3', beforeAt_alike hl rfl h1 h1', lineWidth_alike hl rfl h2 h2']

/-! ### characters at their places -/

/-- where a character of a text begins -/
def charStart (cs : Nat) (es : List CharacterEntry) (n : Nat) : Nat :=
  advance cs ((es.take n).map (·.width.toNat)) + (if 0 < ((es.take n).map (·.width.toNat)).sum then cs else 0)

theorem charStart_lt {cs es m n} (hm : m < n) (hn : n ≤ es.length) :
    charStart cs es m + (es[m]'(by omega)).width.toNat ≤ charStart cs es n := by
  have h1 : (es.take (m + 1)).map (·.width.toNat) = (es.take m).map (·.width.toNat) ++ [(es[m]'(by omega)).width.toNat] := by
    rw [List.take_succ_eq_append_getElem (by omega), List.map_append]; rfl
  have hsub : (es.take (m + 1)).Sublist (es.take n) := by
    have : es.take (m + 1) = (es.take n).take (m + 1) := by rw [List.take_take]; congr 1; omega
    rw [this]
    exact List.take_sublist _ _
  have h2 := advance_sublist cs (hsub.map (·.width.toNat))
  rw [h1, advance_snoc] at h2
  unfold charStart
  omega

/-- a lit pixel at the place of a character is one of this character -/
theorem textLit_at {es : List CharacterEntry} {cs h x y n row col} (hn : n < es.length) (hcol : col < es[n].width.toNat)
    (hl : TextLit es cs h x y (x + charStart cs es n + col) (y + row)) :
    bit es[n].bitmap (row * es[n].width.toNat + col) = true := by
  obtain ⟨before, e, after, row', col', he, h1, h2, h3, h4, h5⟩ := hl
  obtain rfl : row = row' := by omega
  have hlen : before.length < es.length := by rw [he]; simp
  have ht : es.take before.length = before := by rw [he]; simp
  have hg : es[before.length] = e := by simp [he]
  have hs : charStart cs es before.length = advance cs (before.map (·.width.toNat)) +
      (if 0 < (before.map (·.width.toNat)).sum then cs else 0) := by unfold charStart; rw [ht]
  replace h4 : x + charStart cs es n + col = x + charStart cs es before.length + col' := by rw [hs]; omega
  rw [← hg] at h2 h3
  rcases Nat.lt_trichotomy before.length n with hlt | heq | hlt
  · have := charStart_lt (cs := cs) (es := es) hlt (by omega)
    omega
  · subst heq
    obtain rfl : col = col' := by omega
    exact h3
  · have := charStart_lt (cs := cs) (es := es) hlt (by omega)
    omega

theorem textLit_of {es : List CharacterEntry} {cs h x y n row col} (hn : n < es.length) (hrow : row < h) (hcol : col < es[n].width.toNat)
    (hb : bit es[n].bitmap (row * es[n].width.toNat + col) = true) :
    TextLit es cs h x y (x + charStart cs es n + col) (y + row) := by
  refine ⟨es.take n, es[n], es.drop (n + 1), row, col, by simp, hrow, hcol, hb, ?_, rfl⟩
  unfold charStart
  omega

theorem charStart_widths {cs es es' n} (h : es.map (fun e : CharacterEntry => e.width.toNat) = es'.map (·.width.toNat)) :
    charStart cs es n = charStart cs es' n := by
  unfold charStart
  rw [List.map_take, List.map_take, h]

/-- texts of the same widths that light the same pixels, in a legible font, are the same -/
theorem text_legible {f : Font} (hf : Legible f) {a b : Str} {es es'} (ha : Defined f a es) (hb : Defined f b es')
    (na : ∀ ch ∈ a, ch.toNat ≠ 0) (nb : ∀ ch ∈ b, ch.toNat ≠ 0)
    (hw : es.map (·.width.toNat) = es'.map (·.width.toNat)) {cs x y}
    (hl : ∀ i j, TextLit es cs f.height.toNat x y i j ↔ TextLit es' cs f.height.toNat x y i j) : a = b := by
  have la : a.length = es.length := by have := congrArg List.length ha; simpa using this
  have lb : b.length = es'.length := by have := congrArg List.length hb; simpa using this
  have le : es.length = es'.length := by have := congrArg List.length hw; simpa using this
  refine List.ext_getElem (by omega) fun n h1 h2 => ?_
  have ca : f.character a[n] = some es[n] := by
    have := congrArg (·[n]?) ha
    simpa [h1, show n < es.length by omega] using this
  have cb : f.character b[n] = some (es'[n]'(by omega)) := by
    have := congrArg (·[n]?) hb
    simpa [h2, show n < es'.length by omega] using this
  obtain ⟨ma, ea⟩ := character_mem ca
  obtain ⟨mb, eb⟩ := character_mem cb
  have hwn : es[n].width.toNat = (es'[n]'(by omega)).width.toNat := by
    have := congrArg (·[n]?) hw
    simpa [show n < es.length by omega, show n < es'.length by omega] using this
  have := hf _ ma _ mb (by rw [ea]; exact na _ (List.getElem_mem h1)) (by rw [eb]; exact nb _ (List.getElem_mem h2)) hwn ?_
  · rw [ea, eb] at this
    exact Char.toNat_inj.1 this
  · intro row col hrow hcol
    have hcol' : col < (es'[n]'(by omega)).width.toNat := by rw [← hwn]; exact hcol
    rw [Bool.eq_iff_iff]
    constructor
    · intro hbit
      have := (hl _ _).1 (textLit_of (cs := cs) (x := x) (y := y) (by omega) hrow hcol hbit)
      rw [charStart_widths hw] at this
      have := textLit_at (by omega) hcol' this
      rwa [← hwn] at this
    · intro hbit
      rw [hwn] at hbit
      have := (hl _ _).2 (textLit_of (cs := cs) (x := x) (y := y) (by omega) hrow hcol' hbit)
      rw [← charStart_widths hw] at this
      exact textLit_at (by omega) hcol this

/-! ### all texts of a page -/

theorem last_lit {t : FontTable} {ps : List (Span × Nat × Nat)} {i j} (h : ∃ p ∈ ps, LightsAt t p.1 p.2.1 p.2.2 i j) :
    ∃ l1 p l2, ps = l1 ++ p :: l2 ∧ LightsAt t p.1 p.2.1 p.2.2 i j ∧ ∀ q ∈ l2, ¬ LightsAt t q.1 q.2.1 q.2.2 i j := by
  induction ps with
  | nil => obtain ⟨p, hp, _⟩ := h; cases hp
  | cons p ps ih =>
    by_cases hr : ∃ p ∈ ps, LightsAt t p.1 p.2.1 p.2.2 i j
    · obtain ⟨l1, q, l2, rfl, h1, h2⟩ := ih hr
      exact ⟨p :: l1, q, l2, rfl, h1, h2⟩
    · obtain ⟨q, hq, hl⟩ := h
      rcases List.mem_cons.1 hq with rfl | hq
      · exact ⟨[], q, ps, rfl, hl, fun z hz hlz => hr ⟨z, hz, hlz⟩⟩
      · exact absurd ⟨q, hq, hl⟩ hr

theorem lit_iff {ps : List (Span × Nat × Nat)} {a b : Raster} {c i j} (h : TextAt t ps a b) (ha : a.px i j = c)
    (hc : ∀ p ∈ ps, p.1.state.colorCtx.foregroundRgb ≠ c) :
    (∃ p ∈ ps, LightsAt t p.1 p.2.1 p.2.2 i j) ↔ b.px i j ≠ c := by
  constructor
  · intro hl
    obtain ⟨l1, p, l2, e, h1, h2⟩ := last_lit hl
    rw [h.lit l1 p l2 i j e h1 h2]
    exact hc p (by rw [e]; simp)
  · intro hb
    refine Classical.byContradiction fun hn => hb ?_
    rw [h.unlit i j fun p hp hl => hn ⟨p, hp, hl⟩, ha]

theorem pieces_alike {rect vs vs'} (h : Pairwise2 (Retyped t) vs vs') : ∀ z sp n b,
    Pairwise2 (SpanAlike t) ((pieces (signAttr d) z sp n b vs).map (spanOf d rect))
      ((pieces (signAttr d) z sp n b vs').map (spanOf d rect)) := by
  have refl : ∀ l : List Span, Pairwise2 (SpanAlike t) l l := by
    intro l
    induction l with
    | nil => exact .nil
    | cons a l ih => exact .cons ⟨rfl, sameWidths_refl t _⟩ ih
  induction h with
  | nil => intro z sp n b; exact .nil
  | cons hr _ ih =>
    intro z sp n b
    simp only [pieces, List.map_append]
    cases hr with
    | same => exact (refl _).append (ih _ _ _ _)
    | text hn =>
      refine Pairwise2.append ?_ (ih _ _ _ _)
      exact .cons ⟨rfl, hn⟩ .nil

theorem pieces_strs {vs vs'} (h : Pairwise2 (Retyped t) vs vs') : ∀ {dflt z sp n b},
    (pieces dflt z sp n b vs).map Piece.str = (pieces dflt z sp n b vs').map Piece.str → vs = vs' := by
  induction h with
  | nil => intros; rfl
  | cons hr _ ih =>
    intro dflt z sp n b he
    simp only [pieces, List.map_append] at he
    cases hr with
    | same => rw [ih (List.append_cancel_left he)]
    | text _ =>
      simp only [piece, List.map_cons, List.map_nil, List.cons_append, List.nil_append, List.cons.injEq] at he
      rw [he.1, ih he.2]

theorem lightsAt_textLit {s : Span} {f es x y i j} (hf : FontOf t s f) (he : Defined f s.str es) :
    LightsAt t s x y i j ↔ TextLit es (charSpacing s f) f.height.toNat x y i j := by
  constructor
  · rintro ⟨f', es', h1, h2, h3⟩
    obtain rfl := fontOf_unique hf h1
    obtain rfl := defined_unique he h2
    exact h3
  · intro h
    exact ⟨f, es, hf, he, h⟩

theorem textDrawn_legible {z sp rect vs vs' a a' b b'} (h : TextDrawn d z sp rect vs a b)
    (h' : TextDrawn d z sp rect vs' a' b') (hr : Pairwise2 (Retyped d.fontDefinition) vs vs')
    (ht : Tidy (signAttr d) z true true vs) (hroom : Roomy d rect (layoutOf d z sp rect vs)) {c : Rgb}
    (ha : ∀ i j, a.px i j = c) (ha' : ∀ i j, a'.px i j = c)
    (hc : ∀ x ∈ pieces (signAttr d) z sp 0 true vs, foregroundRgb d x.attr.foreground ≠ c)
    (hb : ∀ i j, b.px i j = b'.px i j) (hleg : ∀ f ∈ d.fontDefinition, Legible f) : vs = vs' := by
  obtain ⟨ps, p1, ⟨p2, p3⟩, p4, p6, p5, p7, _⟩ := h
  obtain ⟨qs, q1, ⟨q2, q3⟩, q4, q6, q5, _⟩ := h'
  obtain ⟨ho, hat⟩ := p7 ht
  have e : (layoutOf d z sp rect vs).map pieceOf = (ps.map Prod.fst).map pieceOf := by
    rw [p1, layoutOf, map_spanOf]
  have hap := roomy_apart ho hat (fun p hp => (p4 _ (List.mem_map_of_mem hp)).1) (roomy_pieces e hroom)
  have hred := retyped_all hr
  rw [numbers_reworded hred, ← p2] at q2
  have ly : layoutOf d z sp rect vs = ps.map fun p => spanOf d rect (pieceOf p.1) := by
    unfold layoutOf; rw [← p1, List.map_map, List.map_map]; rfl
  have ly' : layoutOf d z sp rect vs' = qs.map fun p => spanOf d rect (pieceOf p.1) := by
    unfold layoutOf; rw [← q1, List.map_map, List.map_map]; rfl
  have hlay := pieces_alike (d := d) (rect := rect) hr z sp 0 true
  change Pairwise2 _ (layoutOf d z sp rect vs) (layoutOf d z sp rect vs') at hlay
  have hlen : ps.length = qs.length := by
    have := pairwise2_length hlay
    rwa [ly, ly', List.length_map, List.length_map] at this
  have hpc : ∀ k (h1 : k < ps.length) (h2 : k < qs.length),
      (spanOf d rect (pieceOf ps[k].1)).state = (spanOf d rect (pieceOf qs[k].1)).state ∧
      SameWidths d.fontDefinition ps[k].1.str qs[k].1.str := by
    intro k h1 h2
    rw [ly, ly'] at hlay
    have := (pairwise2_at hlay k (by simpa using h1) (by simpa using h2))
    simp only [List.getElem_map] at this
    exact this
  have hnum : ∀ k (h1 : k < ps.length) (h2 : k < qs.length), ps[k].1.state.spanNumber = qs[k].1.state.spanNumber := by
    intro k h1 h2
    have := congrArg (·[k]?) q2
    simpa [h1, h2] using this.symm
  have hal : Pairwise2 (SpanAlike d.fontDefinition) ((ps.map Prod.fst).map (canonSpan d rect))
      ((qs.map Prod.fst).map (canonSpan d rect)) := by
    refine pairwise2_get (by simpa using hlen) fun k h1 h2 => ?_
    simp only [List.length_map] at h1 h2
    simp only [List.getElem_map]
    refine ⟨?_, (hpc k h1 h2).2⟩
    simp only [canonSpan]
    rw [(hpc k h1 h2).1, hnum k h1 h2]
  have hcan : Pairwise2 (SpanNarrower []) ((ps.map Prod.fst).map (canonSpan d rect))
      ((qs.map Prod.fst).map (canonSpan d rect)) := by
    refine pairwise2_get (by simpa using hlen) fun k h1 h2 => ⟨?_, .inr fun f hf => by simp at hf⟩
    exact (pairwise2_at hal k h1 h2).1
  -- places, fonts and colors
  have place : ∀ k (h1 : k < ps.length) (h2 : k < qs.length), ps[k].2.1 = qs[k].2.1 ∧ ps[k].2.2 = qs[k].2.2 := by
    intro k h1 h2
    have mp : ps[k] ∈ ps := List.getElem_mem h1
    have mq : qs[k] ∈ qs := List.getElem_mem h2
    obtain ⟨px, py⟩ := p3 _ mp
    obtain ⟨qx, qy⟩ := q3 _ mq
    have rp := (p4 _ (List.mem_map_of_mem mp)).1
    have rq := (q4 _ (List.mem_map_of_mem mq)).1
    have hst : SpanNarrower [] (canonSpan d rect ps[k].1) (canonSpan d rect qs[k].1) := by
      have := pairwise2_at hcan k (by simpa using h1) (by simpa using h2)
      simpa using this
    have hsa : SpanAlike d.fontDefinition (canonSpan d rect ps[k].1) (canonSpan d rect qs[k].1) := by
      have := pairwise2_at hal k (by simpa using h1) (by simpa using h2)
      simpa using this
    have px' := exactX_same (canonSpans_key d rect (ps.map Prod.fst)).symm (canonSpan_key d rect ps[k].1).symm rp px
    have py' := exactY_same (canonSpans_key d rect (ps.map Prod.fst)).symm (canonSpan_key d rect ps[k].1).symm rp py
    have qx' := exactX_same (canonSpans_key d rect (qs.map Prod.fst)).symm (canonSpan_key d rect qs[k].1).symm rq qx
    have qy' := exactY_same (canonSpans_key d rect (qs.map Prod.fst)).symm (canonSpan_key d rect qs[k].1).symm rq qy
    exact ⟨exactX_alike hal hsa px' qx', exactY_unique (exactY_narrow hcan hst py') qy'⟩
  have font : ∀ k (h1 : k < ps.length) (h2 : k < qs.length) f,
      (FontOf d.fontDefinition qs[k].1 f ↔ FontOf d.fontDefinition ps[k].1 f) ∧ charSpacing ps[k].1 f = charSpacing qs[k].1 f := by
    intro k h1 h2 f
    have hst := (hpc k h1 h2).1
    have e1 : ps[k].1.state.fontNum = qs[k].1.state.fontNum := by
      have := congrArg RenderState.fontNum hst; exact this
    have e2 : ps[k].1.state.fontVersionId = qs[k].1.state.fontVersionId := by
      have := congrArg RenderState.fontVersionId hst; exact this
    have e3 : ps[k].1.state.charSpacing = qs[k].1.state.charSpacing := by
      have := congrArg RenderState.charSpacing hst; exact this
    unfold FontOf charSpacing
    rw [e1, e2, e3]
    exact ⟨Iff.rfl, rfl⟩
  have cp : ∀ p ∈ ps, p.1.state.colorCtx.foregroundRgb ≠ c := by
    intro p hp
    rw [(p4 _ (List.mem_map_of_mem hp)).2.1]
    refine hc _ ?_
    rw [← p1]
    exact List.mem_map_of_mem (List.mem_map_of_mem hp)
  have cq : ∀ q ∈ qs, q.1.state.colorCtx.foregroundRgb ≠ c := by
    intro q hq
    obtain ⟨k, h2, rfl⟩ := List.getElem_of_mem hq
    have h1 : k < ps.length := by omega
    rw [(q4 _ (List.mem_map_of_mem hq)).2.1]
    have e1 : (pieceOf ps[k].1).attr.foreground = (pieceOf qs[k].1).attr.foreground := by
      have := congrArg (fun s : RenderState => s.colorCtx.fgCurrent) (hpc k h1 h2).1
      exact this
    rw [← e1]
    refine hc _ ?_
    rw [← p1]
    exact List.mem_map_of_mem (List.mem_map_of_mem (List.getElem_mem h1))
  have hlit : ∀ i j, (∃ p ∈ ps, LightsAt d.fontDefinition p.1 p.2.1 p.2.2 i j) ↔
      ∃ q ∈ qs, LightsAt d.fontDefinition q.1 q.2.1 q.2.2 i j := by
    intro i j
    rw [lit_iff p5 (ha i j) cp, lit_iff q5 (ha' i j) cq, hb]
  -- widths and fonts of both texts
  have info : ∀ k (h1 : k < ps.length) (h2 : k < qs.length), ∃ f es es', FontOf d.fontDefinition ps[k].1 f ∧
      FontOf d.fontDefinition qs[k].1 f ∧ Defined f ps[k].1.str es ∧ Defined f qs[k].1.str es' ∧
      es.map (·.width.toNat) = es'.map (·.width.toNat) ∧ ∃ w, SpanWidth d.fontDefinition ps[k].1 w ∧
      SpanWidth d.fontDefinition qs[k].1 w := by
    intro k h1 h2
    obtain ⟨f, w, f1, ⟨f', es, g1, g2, g3⟩, _⟩ := p6 _ (List.getElem_mem h1)
    obtain ⟨f'', w', f1', ⟨f''', es', g1', g2', g3'⟩, _⟩ := q6 _ (List.getElem_mem h2)
    obtain rfl := fontOf_unique f1 g1
    obtain rfl := fontOf_unique f1' g1'
    have := ((font k h1 h2 _).1).1 f1'
    obtain rfl := fontOf_unique f1 this
    have hw := (hpc k h1 h2).2 f (fontOf_mem f1) es es' g2 g2'
    refine ⟨f, es, es', f1, f1', g2, g2', hw, w, ⟨f, es, f1, g2, g3⟩, ⟨f, es', f1', g2', ?_⟩⟩
    rw [g3, (font k h1 h2 f).2, hw]
  -- boxes of different texts
  have apart : ∀ k m (h1 : k < ps.length) (h2 : m < ps.length), k ≠ m → BoxesApart d.fontDefinition ps[k] ps[m] := by
    intro k m h1 h2 hne
    rcases Nat.lt_or_gt_of_ne hne with hlt | hlt
    · exact List.pairwise_iff_getElem.1 hap k m h1 h2 hlt
    · have := List.pairwise_iff_getElem.1 hap m k h2 h1 hlt
      intro w w' f f' a1 a2 a3 a4
      have := this w' w f' f a2 a1 a4 a3
      unfold Beside at this ⊢
      exact this.imp Or.symm Or.symm
  have same : ∀ k (h1 : k < ps.length) (h2 : k < qs.length) i j,
      LightsAt d.fontDefinition ps[k].1 ps[k].2.1 ps[k].2.2 i j ↔
      LightsAt d.fontDefinition qs[k].1 qs[k].2.1 qs[k].2.2 i j := by
    intro k h1 h2 i j
    have box : ∀ m (h3 : m < ps.length) (h4 : m < qs.length),
        (LightsAt d.fontDefinition ps[m].1 ps[m].2.1 ps[m].2.2 i j ∨
          LightsAt d.fontDefinition qs[m].1 qs[m].2.1 qs[m].2.2 i j) →
        ∃ w f, SpanWidth d.fontDefinition ps[m].1 w ∧ FontOf d.fontDefinition ps[m].1 f ∧ ps[m].2.1 ≤ i ∧
          i < ps[m].2.1 + w ∧ ps[m].2.2 ≤ j ∧ j < ps[m].2.2 + f.height.toNat := by
      intro m h3 h4 hl
      obtain ⟨f, es, es', f1, f2, _, _, _, w, w1, w2⟩ := info m h3 h4
      refine ⟨w, f, w1, f1, ?_⟩
      rcases hl with hl | hl
      · exact lightsAt_inside hl f1 w1
      · rw [(place m h3 h4).1, (place m h3 h4).2]
        exact lightsAt_inside hl f2 w2
    have only : ∀ m (h3 : m < ps.length) (h4 : m < qs.length),
        (LightsAt d.fontDefinition ps[k].1 ps[k].2.1 ps[k].2.2 i j ∨
          LightsAt d.fontDefinition qs[k].1 qs[k].2.1 qs[k].2.2 i j) →
        (LightsAt d.fontDefinition ps[m].1 ps[m].2.1 ps[m].2.2 i j ∨
          LightsAt d.fontDefinition qs[m].1 qs[m].2.1 qs[m].2.2 i j) → m = k := by
      intro m h3 h4 hk hm
      refine Classical.byContradiction fun hne => ?_
      obtain ⟨w, f, a1, a2, a3, a4, a5, a6⟩ := box k h1 h2 hk
      obtain ⟨w', f', b1, b2, b3, b4, b5, b6⟩ := box m h3 h4 hm
      rcases apart k m h1 h3 (Ne.symm hne) w w' f f' a1 b1 a2 b2 with (h | h) | (h | h) <;> simp only at h <;> omega
    constructor
    · intro hl
      obtain ⟨q, hq, hlq⟩ := (hlit i j).1 ⟨_, List.getElem_mem h1, hl⟩
      obtain ⟨m, h4, rfl⟩ := List.getElem_of_mem hq
      obtain rfl := only m (by omega) h4 (.inl hl) (.inr hlq)
      exact hlq
    · intro hl
      obtain ⟨p, hp, hlp⟩ := (hlit i j).2 ⟨_, List.getElem_mem h2, hl⟩
      obtain ⟨m, h3, rfl⟩ := List.getElem_of_mem hp
      obtain rfl := only m h3 (by omega) (.inr hl) (.inl hlp)
      exact hlp
  -- so the texts are the same
  refine pieces_strs hr (dflt := signAttr d) (z := z) (sp := sp) (n := 0) (b := true) ?_
  rw [← p1, ← q1]
  refine List.ext_getElem (by simpa using hlen) fun k h1 h2 => ?_
  simp only [List.length_map] at h1 h2
  simp only [List.getElem_map, pieceOf]
  obtain ⟨f, es, es', f1, f2, e1, e2, hw, _⟩ := info k h1 h2
  refine text_legible (hleg f (fontOf_mem f1)) e1 e2 (p4 _ (List.mem_map_of_mem (List.getElem_mem h1))).2.2
    (q4 _ (List.mem_map_of_mem (List.getElem_mem h2))).2.2 hw (cs := charSpacing ps[k].1 f) (x := ps[k].2.1)
    (y := ps[k].2.2) fun i j => ?_
  rw [← lightsAt_textLit f1 e1, same k h1 h2, lightsAt_textLit f2 e2, (font k h1 h2 f).2, (place k h1 h2).1, (place k h1 h2).2]

end Ntcip
