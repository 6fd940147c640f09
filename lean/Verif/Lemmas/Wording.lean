import Verif.Spec.Wording
import Verif.Props.Narrow
/-
Pixels of pages with the same tags and other texts.
-/
namespace Ntcip
open Spec

theorem reworded_reduced {v v'} (h : Reworded v v') : Reduced [] v v' := by
  cases h with
  | same => exact .same
  | text => exact .text fun f hf => by simp at hf

theorem reworded_all {vs vs'} (h : Pairwise2 Reworded vs vs') : Pairwise2 (Reduced []) vs vs' := by
  induction h with
  | nil => exact .nil
  | cons h _ ih => exact .cons (reworded_reduced h) ih

theorem pairwise2_get {α β : Type} {R : α → β → Prop} {as : List α} : ∀ {bs : List β} (_ : as.length = bs.length),
    (∀ k (h1 : k < as.length) (h2 : k < bs.length), R as[k] bs[k]) → Pairwise2 R as bs := by
  induction as with
  | nil => intro bs hl _; cases bs with
    | nil => exact .nil
    | cons b bs => simp at hl
  | cons a as ih =>
    intro bs hl h
    cases bs with
    | nil => simp at hl
    | cons b bs =>
      refine .cons (h 0 (by simp) (by simp)) (ih (by simpa using hl) fun k h1 h2 => ?_)
      exact h (k + 1) (by simpa using h1) (by simpa using h2)

theorem pairwise2_length {α β : Type} {R : α → β → Prop} {as : List α} {bs : List β} (h : Pairwise2 R as bs) :
    as.length = bs.length := by
  induction h with
  | nil => rfl
  | cons _ _ ih => simp [ih]

theorem pairwise2_at {α β : Type} {R : α → β → Prop} {as : List α} {bs : List β} (h : Pairwise2 R as bs) :
    ∀ k (h1 : k < as.length) (h2 : k < bs.length), R as[k] bs[k] := by
  induction h with
  | nil => intro k h1; simp at h1
  | cons h _ ih =>
    intro k h1 h2
    cases k with
    | zero => exact h
    | succ k => exact ih k (by simpa using h1) (by simpa using h2)

theorem numbers_reworded {dflt : TextAttr} {ft vs vs'} (h : Pairwise2 (Reduced ft) vs vs') : ∀ a n b,
    numbers dflt a n b vs' = numbers dflt a n b vs := by
  induction h with
  | nil => intro a n b; rfl
  | cons hr _ ih =>
    intro a n b
    unfold numbers
    rw [ih]
    rcases reduced_or hr with rfl | ⟨x, y, rfl, rfl, _⟩ <;> rfl

/-- a span with the piece, number and rectangle of `s` -/
def canonSpan (d : Dms) (rect : Rectangle) (s : Span) : Span :=
  let u := spanOf d rect (pieceOf s)
  { u with state := { u.state with spanNumber := s.state.spanNumber } }

theorem canonSpan_key (d : Dms) (rect : Rectangle) (s : Span) : placeKey (canonSpan d rect s) = placeKey s := rfl

theorem canonSpans_key (d : Dms) (rect : Rectangle) (ss : List Span) :
    (ss.map (canonSpan d rect)).map placeKey = ss.map placeKey := by
  rw [List.map_map]; rfl

theorem exactY_pieces {d : Dms} {ss ss' : List Span} {s s' : Span} {y} (hp : ss.map pieceOf = ss'.map pieceOf)
    (hs : pieceOf s = pieceOf s') (hr : s.state.textRectangle = s'.state.textRectangle) (hy : ExactY d ss s y) :
    ExactY d ss' s' y := by
  obtain ⟨f, h1, h2, h3⟩ := hy
  obtain ⟨a1, _, a2, _⟩ := pieceOf_eq hs
  obtain ⟨_, _, j, _⟩ := textAttr_eq a1
  rw [totalHeight_pieces hp hs] at h2 h3
  rw [hr] at h2 h3
  rw [countedHeight_pieces hp hs, j, a2] at h3
  exact ⟨f, fontOf_pieces hs h1, h2, h3⟩

theorem exactY_narrow {d : Dms} {t ss ss' s s' y} (h : Pairwise2 (SpanNarrower t) ss ss') (hs : SpanNarrower t s s')
    (hy : ExactY d ss s y) : ExactY d ss' s' y := by
  obtain ⟨f, h1, h2, h3⟩ := hy
  refine ⟨f, ?_, ?_, ?_⟩
  · unfold FontOf at h1 ⊢; rw [← hs.1]; exact h1
  · rw [totalHeight_narrow h hs, ← hs.1]; exact h2
  · rw [totalHeight_narrow h hs, countedHeight_narrow h hs, ← hs.1]; exact h3

/-- a text without changes on its line is at the same place -/
theorem exactX_unchanged {d : Dms} {t ss ss' s x} (h : Pairwise2 (SpanNarrower t) ss ss')
    (hsame : ∀ k (h1 : k < ss.length) (h2 : k < ss'.length), ss[k] ∈ sameLine ss s → ss[k].str = ss'[k].str)
    (hx : ExactX d ss s x) : ExactX d ss' s x := by
  have e : sameLine ss' s = sameLine ss s := by
    clear hx
    unfold sameLine at hsame ⊢
    induction h with
    | nil => rfl
    | @cons u u' us us' hu hus ih =>
      have hl : u.state = u'.state := hu.1
      have ih' := ih fun k h1 h2 hm => by
        have := hsame (k + 1) (by simpa using h1) (by simpa using h2)
        simp only [List.getElem_cons_succ] at this
        refine this ?_
        rw [List.filter_cons]
        split
        · exact List.mem_cons_of_mem _ hm
        · exact hm
      rw [List.filter_cons, List.filter_cons, ih', ← hl]
      split
      · rename_i hc
        have := hsame 0 (by simp) (by simp) (by
          rw [List.filter_cons, if_pos hc]; exact List.mem_cons_self ..)
        simp only [List.getElem_cons_zero] at this
        obtain ⟨st, str⟩ := u
        obtain ⟨st', str'⟩ := u'
        simp only at this hl
        rw [hl, this]
      · rfl
  unfold ExactX at hx ⊢
  rw [e]
  exact hx

open Classical in
theorem textPx_pairs {t : FontTable} {ps qs : List (Span × Nat × Nat)} {i j} (h : Pairwise2 (fun p q =>
    (LightsAt t p.1 p.2.1 p.2.2 i j ↔ LightsAt t q.1 q.2.1 q.2.2 i j) ∧
    (LightsAt t p.1 p.2.1 p.2.2 i j → p.1.state.colorCtx.foregroundRgb = q.1.state.colorCtx.foregroundRgb)) ps qs) :
    ∀ c, textPx t ps i j c = textPx t qs i j c := by
  induction h with
  | nil => intro c; rfl
  | @cons p q ps qs hpq _ ih =>
    intro c
    unfold textPx at ih ⊢
    rw [List.foldl_cons, List.foldl_cons, ih]
    congr 1
    by_cases hp : LightsAt t p.1 p.2.1 p.2.2 i j
    · rw [if_pos hp, if_pos (hpq.1.1 hp), hpq.2 hp]
    · rw [if_neg hp, if_neg fun hq => hp (hpq.1.2 hq)]

/-- a lit pixel of a text is inside of its width and height -/
theorem lightsAt_inside {t : FontTable} {s : Span} {x y i j w f} (h : LightsAt t s x y i j) (hf : FontOf t s f)
    (hw : SpanWidth t s w) : x ≤ i ∧ i < x + w ∧ y ≤ j ∧ j < y + f.height.toNat := by
  obtain ⟨f', es, h1, h2, before, e, after, row, col, rfl, k1, k2, k3, rfl, rfl⟩ := h
  obtain rfl := fontOf_unique hf h1
  have hs : SpanWidth t s _ := ⟨f, _, h1, h2, rfl⟩
  rw [spanWidth_unique hw hs]
  have hsub : (before ++ [e]).Sublist (before ++ e :: after) :=
    List.Sublist.append (List.Sublist.refl _) (List.Sublist.cons_cons _ (List.nil_sublist _))
  have := advance_sublist (charSpacing s f) (hsub.map (·.width.toNat))
  rw [List.map_append, List.map_cons, List.map_nil, advance_snoc] at this
  refine ⟨by omega, ?_, by omega, by omega⟩
  split at this <;> split <;> omega

theorem textDrawn_reworded {d : Dms} {t sp rect vs vs' a a' b b'} {i j : Nat} (h : TextDrawn d t sp rect vs a b)
    (h' : TextDrawn d t sp rect vs' a' b') (hr : Pairwise2 (Reduced []) vs vs')
    (hn : ¬ NewWords d t sp rect vs vs' i j) (ha : a.px i j = a'.px i j) : b.px i j = b'.px i j := by
  obtain ⟨ps, p1, ⟨p2, p3⟩, p4, p6, p5, _⟩ := h
  obtain ⟨qs, q1, ⟨q2, q3⟩, q4, q6, q5, _⟩ := h'
  rw [numbers_reworded hr, ← p2] at q2
  -- the layouts
  have ly : layoutOf d t sp rect vs = ps.map fun p => spanOf d rect (pieceOf p.1) := by
    unfold layoutOf; rw [← p1, List.map_map, List.map_map]; rfl
  have ly' : layoutOf d t sp rect vs' = qs.map fun p => spanOf d rect (pieceOf p.1) := by
    unfold layoutOf; rw [← q1, List.map_map, List.map_map]; rfl
  have hlay := pieces_narrow (d := d) (rect := rect) hr t sp 0 true
  change Pairwise2 _ (layoutOf d t sp rect vs) (layoutOf d t sp rect vs') at hlay
  have hlen : ps.length = qs.length := by
    have := pairwise2_length hlay
    rwa [ly, ly', List.length_map, List.length_map] at this
  have hpc : ∀ k (h1 : k < ps.length) (h2 : k < qs.length),
      (spanOf d rect (pieceOf ps[k].1)).state = (spanOf d rect (pieceOf qs[k].1)).state := by
    intro k h1 h2
    rw [ly, ly'] at hlay
    have := (pairwise2_at hlay k (by simpa using h1) (by simpa using h2)).1
    simpa using this
  have hnum : ∀ k (h1 : k < ps.length) (h2 : k < qs.length), ps[k].1.state.spanNumber = qs[k].1.state.spanNumber := by
    intro k h1 h2
    have := congrArg (·[k]?) q2
    simpa [h1, h2] using this.symm
  -- the drawn spans, with equal states
  have hcan : Pairwise2 (SpanNarrower []) ((ps.map Prod.fst).map (canonSpan d rect)) ((qs.map Prod.fst).map (canonSpan d rect)) := by
    refine pairwise2_get (by simpa using hlen) fun k h1 h2 => ⟨?_, .inr fun f hf => by simp at hf⟩
    simp only [List.length_map] at h1 h2
    simp only [List.getElem_map, canonSpan]
    rw [hpc k h1 h2, hnum k h1 h2]
  rw [textAt_iff] at p5 q5
  rw [p5, q5]
  show textPx _ ps i j (a.px i j) = textPx _ qs i j (a'.px i j)
  rw [ha]
  refine textPx_pairs (pairwise2_get hlen fun k h1 h2 => ?_) _
  have mp : ps[k] ∈ ps := List.getElem_mem h1
  have mq : qs[k] ∈ qs := List.getElem_mem h2
  obtain ⟨px, py⟩ := p3 _ mp
  obtain ⟨qx, qy⟩ := q3 _ mq
  have rp := (p4 _ (List.mem_map_of_mem mp)).1
  have rq := (q4 _ (List.mem_map_of_mem mq)).1
  have hst : SpanNarrower [] (canonSpan d rect ps[k].1) (canonSpan d rect qs[k].1) := by
    have := pairwise2_at hcan k (by simpa using h1) (by simpa using h2)
    simpa using this
  have px' := exactX_same (canonSpans_key d rect (ps.map Prod.fst)).symm (canonSpan_key d rect ps[k].1).symm rp px
  have py' := exactY_same (canonSpans_key d rect (ps.map Prod.fst)).symm (canonSpan_key d rect ps[k].1).symm rp py
  have qx' := exactX_same (canonSpans_key d rect (qs.map Prod.fst)).symm (canonSpan_key d rect qs[k].1).symm rq qx
  have qy' := exactY_same (canonSpans_key d rect (qs.map Prod.fst)).symm (canonSpan_key d rect qs[k].1).symm rq qy
  have ey : ps[k].2.2 = qs[k].2.2 := exactY_unique (exactY_narrow hcan hst py') qy'
  by_cases hc : ∃ (m : Nat) (m1 : m < ps.length) (m2 : m < qs.length),
      spanOf d rect (pieceOf ps[k].1) ∈ sameLine (layoutOf d t sp rect vs) (spanOf d rect (pieceOf ps[m].1)) ∧
      ps[m].1.str ≠ qs[m].1.str
  · obtain ⟨m, m1, m2, hm, hne⟩ := hc
    have hfont : ∀ f, FontOf d.fontDefinition qs[k].1 f ↔ FontOf d.fontDefinition ps[k].1 f := by
      intro f
      have e1 : ps[k].1.state.fontNum = qs[k].1.state.fontNum := by
        have := congrArg RenderState.fontNum hst.1; exact this
      have e2 : ps[k].1.state.fontVersionId = qs[k].1.state.fontVersionId := by
        have := congrArg RenderState.fontVersionId hst.1; exact this
      unfold FontOf
      rw [e1, e2]
    have py2 : ExactY d (layoutOf d t sp rect vs) (spanOf d rect (pieceOf ps[k].1)) ps[k].2.2 := by
      refine exactY_pieces ?_ (rfl : pieceOf ps[k].1 = _) rp py
      rw [ly, List.map_map, List.map_map]; rfl
    have off : ∀ f, FontOf d.fontDefinition ps[k].1 f → ¬ ((rect.x.toNat - 1 ≤ i ∧ i < rect.x.toNat - 1 + rect.width.toNat) ∧
        ps[k].2.2 ≤ j ∧ j < ps[k].2.2 + f.height.toNat) := by
      rintro f hf ⟨k1, k2, k3⟩
      refine hn ⟨k1, m, spanOf d rect (pieceOf ps[m].1), spanOf d rect (pieceOf qs[m].1), ?_, ?_, hne, _, hm, ps[k].2.2, f, py2, hf, k2, k3⟩
      · rw [ly]; simp [m1]
      · rw [ly']; simp [m2]
    have np : ¬ LightsAt d.fontDefinition ps[k].1 ps[k].2.1 ps[k].2.2 i j := by
      intro hl
      obtain ⟨f, w, f1, f2, f3, f4, _⟩ := p6 _ mp
      obtain ⟨l1, l2, l3, l4⟩ := lightsAt_inside hl f1 f2
      exact off f f1 ⟨⟨by omega, by omega⟩, l3, l4⟩
    have nq : ¬ LightsAt d.fontDefinition qs[k].1 qs[k].2.1 qs[k].2.2 i j := by
      intro hl
      obtain ⟨f, w, f1, f2, f3, f4, _⟩ := q6 _ mq
      obtain ⟨l1, l2, l3, l4⟩ := lightsAt_inside hl f1 f2
      exact off f ((hfont f).1 f1) ⟨⟨by omega, by omega⟩, by omega, by omega⟩
    exact ⟨⟨fun h => absurd h np, fun h => absurd h nq⟩, fun h => absurd h np⟩
  · have hown : ps[k].1.str = qs[k].1.str := Classical.byContradiction fun hne => hc ⟨k, h1, h2, by
      unfold sameLine
      rw [List.mem_filter, ly]
      exact ⟨List.mem_map_of_mem mp, by simp⟩, hne⟩
    have hcs : canonSpan d rect ps[k].1 = canonSpan d rect qs[k].1 := by
      have h3 := hst.1
      unfold canonSpan at h3 ⊢
      simp only at h3 ⊢
      rw [h3]
      simp only [spanOf, pieceOf]
      rw [hown]
    have ex : ps[k].2.1 = qs[k].2.1 := by
      refine exactX_unique (exactX_unchanged hcan (fun m m1 m2 hm => ?_) px') (hcs ▸ qx')
      simp only [List.length_map] at m1 m2
      simp only [List.getElem_map] at hm ⊢
      refine Classical.byContradiction fun hne => hc ⟨m, m1, m2, ?_, hne⟩
      unfold sameLine at hm ⊢
      rw [List.mem_filter] at hm ⊢
      refine ⟨by rw [ly]; exact List.mem_map_of_mem mp, ?_⟩
      have := hm.2
      simp only [decide_eq_true_eq] at this ⊢
      exact ⟨this.1.symm, this.2.1.symm, this.2.2.symm⟩
    have epc : pieceOf ps[k].1 = pieceOf qs[k].1 := by
      have := congrArg (fun s => (placeKey s).1) hcs; exact this
    rw [ex, ey]
    refine ⟨⟨lightsAt_pieces epc, lightsAt_pieces epc.symm⟩, fun _ => ?_⟩
    rw [(p4 _ (List.mem_map_of_mem mp)).2.1, (q4 _ (List.mem_map_of_mem mq)).2.1, epc]

theorem layered_reworded {d : Dms} {W H : Nat} {vs vs'} (h : Pairwise2 (Reduced []) vs vs') :
    ∀ {p i j o}, Layered d W H p vs i j o → Layered d W H p vs' i j o := by
  induction h with
  | nil => exact fun h => h
  | cons hr _ ih =>
    intro p i j o h
    cases h with
    | cons h1 h2 =>
      rcases reduced_or hr with rfl | ⟨x, y, rfl, rfl, _⟩
      · exact .cons h1 (ih h2)
      · cases h1 with
        | other _ _ => exact .cons (.other (by simp) (by simp)) (ih h2)

theorem graphicsOn_reworded {d : Dms} (hu : UniqueNumbers (fun g : Graphic => g.number.toNat) d.graphicDefinition)
    {p vs vs' a a' b b'} {i j : Nat} (hr : Pairwise2 (Reduced []) vs vs') (hv : ∀ pos, Value.graphic 0 pos ∉ vs)
    (h : GraphicsOn d p vs a b) (h' : GraphicsOn d p vs' a' b') (hw : a.width = a'.width) (hh : a.height = a'.height)
    (ha : a.px i j = a'.px i j) : b.px i j = b'.px i j := by
  have hv' : ∀ pos, Value.graphic 0 pos ∉ vs' := by
    intro pos hm
    obtain ⟨v, hm', hr'⟩ := hr.mem_right hm
    cases hr'
    exact hv pos hm'
  obtain ⟨o, ho, e⟩ := h.px i j
  obtain ⟨o', ho', e'⟩ := h'.px i j
  rw [hw, hh] at ho
  rw [e, e', layered_unique hu hv' (layered_reworded hr ho) ho', ha]

/-- outside of the text rectangle, or without other values, texts do not make a difference -/
theorem textDrawn_elsewhere {d : Dms} (hc : CellHeights d) {t sp rect vs vs' a a' b b'} {i j : Nat}
    (h : TextDrawn d t sp rect vs a b) (h' : TextDrawn d t sp rect vs' a' b') (hr : Pairwise2 (Reduced []) vs vs')
    (hn : ¬ NewIn rect vs vs' i j) (ha : a.px i j = a'.px i j) : b.px i j = b'.px i j := by
  by_cases hv : vs = vs'
  · subst hv
    refine textDrawn_reworded h h' hr ?_ ha
    rintro ⟨_, k, s, s', h1, h2, h3, _⟩
    rw [h1] at h2
    cases h2
    exact h3 rfl
  · have same : ∀ {vs a b}, TextDrawn d t sp rect vs a b → b.px i j = a.px i j := by
      rintro vs a b ⟨ps, _, _, _, _, _, _, k⟩
      refine Classical.byContradiction fun hne => hn ?_
      obtain ⟨⟨k1, k2, k3, k4⟩, _⟩ := (k fun _ => cellFonts_all hc _).px i j hne
      exact ⟨hv, ⟨k1, k2⟩, k3, k4⟩
    rw [same h, same h', ha]

theorem composed_reworded {d : Dms} (hu : UniqueNumbers (fun g : Graphic => g.number.toNat) d.graphicDefinition)
    {i j : Nat} {N : TextAttr → Option UInt8 → Rectangle → List Value → List Value → Prop}
    (hN : ∀ {t sp rect vs vs' a a' b b'}, TextDrawn d t sp rect vs a b → TextDrawn d t sp rect vs' a' b' →
      Pairwise2 (Reduced []) vs vs' → ¬ N t sp rect vs vs' → a.px i j = a'.px i j → b.px i j = b'.px i j) {bg t sp rect vs more a b} (h : Composed d bg t sp rect vs more a b) : ∀ {vs' more' a' b'},
    Composed d bg t sp rect vs' more' a' b' → Pairwise2 (Reduced []) vs vs' → SectionsNarrower [] more more' →
    (∀ pos, Value.graphic 0 pos ∉ vs) → (∀ w ∈ more, ∀ pos, Value.graphic 0 pos ∉ w.2) →
    ¬ Somewhere d N t sp rect vs vs' more more' → a.width = a'.width → a.height = a'.height →
    a.px i j = a'.px i j → b.px i j = b'.px i j := by
  induction h with
  | last h1 h2 =>
    intro vs' more' a' b' h' hr hm hv _ hn hw hh ha
    cases hm
    cases h' with
    | last h1' h2' =>
      exact hN h2 h2' hr (fun h => hn (.here h)) (graphicsOn_reworded hu hr hv h1 h1' hw hh ha)
  | @next t sp rect vs r ws rest a g u b h1 h2 h3 ih =>
    intro vs' more' a' b' h' hr hm hv hv2 hn hw hh ha
    cases hm with
    | @cons _ y _ more' hm1 hm2 =>
      obtain ⟨r', ws'⟩ := y
      obtain ⟨e, hm1⟩ := hm1
      simp only at e hm1
      subst e
      cases h' with
      | next h1' h2' h3' =>
        have hg := graphicsOn_reworded hu hr hv h1 h1' hw hh ha
        have hx := hN h2 h2' hr (fun h => hn (.here h)) hg
        rw [foldl_reduced hr, spacing_reduced hr] at h3'
        have size : ∀ {t sp rect vs a b}, TextDrawn d t sp rect vs a b → b.width = a.width ∧ b.height = a.height := by
          rintro t sp rect vs a b ⟨ps, _, _, _, _, h, _⟩
          exact ⟨h.width, h.height⟩
        exact ih h3' hm1 hm2 (hv2 _ (List.mem_cons_self ..)) (fun w hw => hv2 w (List.mem_cons_of_mem _ hw))
          (fun h => hn (.later h))
          (by rw [(size h2).1, (size h2').1, h1.width, h1'.width, hw])
          (by rw [(size h2).2, (size h2').2, h1.height, h1'.height, hh]) hx

end Ntcip
