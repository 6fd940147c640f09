import Verif.Spec.Places
import Verif.Lemmas.Wording
/-
Places of the texts of a line when other texts of the line are changed.
-/
namespace Ntcip
open Spec

theorem gap_states {t p p' s s' g g'} (hp : p.state = p'.state) (hs : s.state = s'.state) (h : Gap t p s g)
    (h' : Gap t p' s' g') : g = g' := by
  refine gap_unique h ?_
  unfold Gap FontOf charSpacing at h' ⊢
  rw [hp, hs]; exact h'

/-- the same state, and the same text if `c` -/
def SameIf (c : Span → Prop) (s s' : Span) : Prop := s.state = s'.state ∧ (c s → s.str = s'.str)

theorem spanWidth_sameIf {t c s s' w w'} (h : SameIf c s s') (hc : c s) (hw : SpanWidth t s w) (hw' : SpanWidth t s' w') :
    w = w' := by
  have : s = s' := by
    obtain ⟨a, b⟩ := s
    obtain ⟨a', b'⟩ := s'
    obtain ⟨h1, h2⟩ := h
    simp only at h1 h2
    rw [h1, h2 hc]
  subst this
  exact spanWidth_unique hw hw'

theorem before_left {t own ss ss'} (h : Pairwise2 (SameIf fun s => s.state.spanNumber < own) ss ss') :
    ∀ {p p' : Option Span} {n n'}, p.map Span.state = p'.map Span.state →
    BeforeAt t own p ss n → BeforeAt t own p' ss' n' → n = n' := by
  induction h with
  | nil => intro p p' n n' _ h h'; cases h; cases h'; rfl
  | @cons s s' ss ss' hs _ ih =>
    intro p p' n n' hp h h'
    have key : ∀ {w w'}, SpanWidth t s w → SpanWidth t s' w' →
        (if s.state.spanNumber < own then w else 0) = if s'.state.spanNumber < own then w' else 0 := by
      intro w w' hw hw'
      rw [← hs.1]
      split
      · rename_i hc; exact spanWidth_sameIf hs hc hw hw'
      · rfl
    cases h with
    | first hw hb =>
      cases h' with
      | first hw' hb' => rw [key hw hw', ih (by simp [hs.1]) hb hb']
      | next hg hw' hb' => simp at hp
    | next hg hw hb =>
      cases h' with
      | first hw' hb' => simp at hp
      | next hg' hw' hb' =>
        rw [key hw hw', ih (by simp [hs.1]) hb hb', gap_states (by simpa using hp) hs.1 hg hg', hs.1]

theorem before_right {t own ss ss'} (h : Pairwise2 (SameIf fun s => own ≤ s.state.spanNumber) ss ss') :
    ∀ {p p' : Option Span} {n n' a a'}, p.map Span.state = p'.map Span.state →
    BeforeAt t own p ss n → LineWidth t p ss a → BeforeAt t own p' ss' n' → LineWidth t p' ss' a' → a + n' = a' + n := by
  induction h with
  | nil => intro p p' n n' a a' _ h l h' l'; cases h; cases h'; cases l; cases l'; rfl
  | @cons s s' ss ss' hs _ ih =>
    intro p p' n n' a a' hp h l h' l'
    have key : ∀ {w w'}, SpanWidth t s w → SpanWidth t s' w' →
        w + (if s'.state.spanNumber < own then w' else 0) = w' + if s.state.spanNumber < own then w else 0 := by
      intro w w' hw hw'
      rw [← hs.1]
      split
      · omega
      · rw [spanWidth_sameIf hs (by show own ≤ _; omega) hw hw']
    cases h with
    | first hw hb =>
      cases h' with
      | first hw' hb' =>
        cases l with
        | first lw lb =>
          cases l' with
          | first lw' lb' =>
            have := key lw lw'
            have := ih (by simp [hs.1]) hb lb hb' lb'
            rw [spanWidth_unique hw lw, spanWidth_unique hw' lw']
            omega
      | next hg hw' hb' => simp at hp
    | next hg hw hb =>
      cases h' with
      | first hw' hb' => simp at hp
      | next hg' hw' hb' =>
        cases l with
        | next lg lw lb =>
          cases l' with
          | next lg' lw' lb' =>
            have e1 := key lw lw'
            have e2 := ih (by simp [hs.1]) hb lb hb' lb'
            have e3 := gap_states (by simpa using hp) hs.1 hg hg'
            have e4 := gap_unique hg lg
            have e5 := gap_unique hg' lg'
            rw [spanWidth_unique hw lw, spanWidth_unique hw' lw', ← e4, ← e5, ← e3, hs.1]
            rw [hs.1] at e1
            omega

theorem pairwise2_filter {α β : Type} {R Q : α → β → Prop} {p : α → Bool} {q : β → Bool} {as : List α} {bs : List β}
    (h : Pairwise2 R as bs) (hp : ∀ a b, R a b → p a = q b)
    (hq : ∀ k (h1 : k < as.length) (h2 : k < bs.length), p as[k] = true → R as[k] bs[k] → Q as[k] bs[k]) :
    Pairwise2 Q (as.filter p) (bs.filter q) := by
  induction h with
  | nil => exact .nil
  | @cons a b as bs hab _ ih =>
    have ih' := ih fun k h1 h2 => hq (k + 1) (by simpa using h1) (by simpa using h2)
    rw [List.filter_cons, List.filter_cons, ← hp a b hab]
    split
    · rename_i hc
      exact .cons (hq 0 (by simp) (by simp) hc hab) ih'
    · exact ih'

theorem sameLine_sameIf {c : Span → Prop} {ss ss' : List Span} {s s' : Span} (hs : s.state = s'.state)
    (h : Pairwise2 (fun a b : Span => a.state = b.state) ss ss')
    (hc : ∀ k (h1 : k < ss.length) (h2 : k < ss'.length), ss[k] ∈ sameLine ss s → c ss[k] → ss[k].str = ss'[k].str) :
    Pairwise2 (SameIf c) (sameLine ss s) (sameLine ss' s') := by
  unfold sameLine
  refine pairwise2_filter h (fun a b hab => by rw [hab, hs]) fun k h1 h2 hp hk => ⟨hk, fun hx => hc k h1 h2 ?_ hx⟩
  unfold sameLine
  rw [List.mem_filter]
  exact ⟨List.getElem_mem h1, hp⟩

/-- a text which is not moved by another one is at the same place -/
theorem exactX_unmoved {d : Dms} {ss ss' : List Span} {s s' : Span} {x x'} (hs : s.state = s'.state)
    (h : Pairwise2 (fun a b : Span => a.state = b.state) ss ss')
    (hc : ∀ k (h1 : k < ss.length) (h2 : k < ss'.length), ss[k] ∈ sameLine ss s → Moves ss[k] s → ss[k].str = ss'[k].str)
    (hx : ExactX d ss s x) (hx' : ExactX d ss' s' x') : x = x' := by
  obtain ⟨n, a, h1, h2, h3, h4⟩ := hx
  obtain ⟨n', a', h1', h2', h3', h4'⟩ := hx'
  rw [← hs] at h1' h3' h4'
  have hl := sameLine_sameIf (c := fun u => Moves u s) hs h hc
  rw [h4, h4']
  unfold Moves at hl
  cases hj : s.state.justLine with
  | center =>
    simp only [hj] at hl
    have e1 : sameLine ss s = sameLine ss' s' := by
      clear h1 h1' h2 h2' hc
      revert hl
      generalize sameLine ss s = l
      generalize sameLine ss' s' = l'
      intro hl
      induction hl with
      | nil => rfl
      | @cons a b as bs hab _ ih =>
        obtain ⟨a1, a2⟩ := a
        obtain ⟨b1, b2⟩ := b
        obtain ⟨k1, k2⟩ := hab
        simp only at k1 k2
        rw [k1, k2 trivial, ih]
    rw [← e1] at h1' h2'
    rw [beforeAt_unique h1 h1', lineWidth_unique h2 h2']
  | right =>
    simp only [hj] at hl
    have := before_right hl rfl h1 h2 h1' h2'
    simp only [reduceCtorEq, if_false, lineLeft]
    omega
  | _ =>
    simp only [hj] at hl
    have := before_left hl rfl h1 h1'
    simp only [reduceCtorEq, if_false, lineLeft]
    omega

theorem zipWith_map_self {α β γ δ : Type} (g : β → γ → δ) (a : α → β) (b : α → γ) (l : List α) :
    List.zipWith g (l.map a) (l.map b) = l.map fun x => g (a x) (b x) := by
  induction l with
  | nil => rfl
  | cons x l ih => simp [ih]

theorem textDrawn_places {d : Dms} {t sp rect vs vs' a a' b b'} {i j : Nat} (h : TextDrawn d t sp rect vs a b)
    (h' : TextDrawn d t sp rect vs' a' b') (hr : Pairwise2 (Reduced []) vs vs')
    (hn : ¬ NewPlaces d t sp rect vs vs' i j) (ha : a.px i j = a'.px i j) : b.px i j = b'.px i j := by
  obtain ⟨ps, p1, ⟨p2, p3⟩, p4, p6, p5, _⟩ := h
  obtain ⟨qs, q1, ⟨q2, q3⟩, q4, q6, q5, _⟩ := h'
  -- the layouts
  have ly : numberedLayout d t sp rect vs = (ps.map Prod.fst).map (canonSpan d rect) := by
    unfold numberedLayout layoutOf
    rw [← p1, ← p2, List.map_map, zipWith_map_self]
    rfl
  have ly' : numberedLayout d t sp rect vs' = (qs.map Prod.fst).map (canonSpan d rect) := by
    unfold numberedLayout layoutOf
    rw [← q1, ← q2, List.map_map, zipWith_map_self]
    rfl
  rw [numbers_reworded hr, ← p2] at q2
  have hlen : ps.length = qs.length := by simpa using (congrArg List.length q2).symm
  have hlay := pieces_narrow (d := d) (rect := rect) hr t sp 0 true
  change Pairwise2 _ (layoutOf d t sp rect vs) (layoutOf d t sp rect vs') at hlay
  have hpc : ∀ k (h1 : k < ps.length) (h2 : k < qs.length),
      (spanOf d rect (pieceOf ps[k].1)).state = (spanOf d rect (pieceOf qs[k].1)).state := by
    intro k h1 h2
    unfold layoutOf at hlay
    rw [← p1, ← q1] at hlay
    have := (pairwise2_at hlay k (by simpa using h1) (by simpa using h2)).1
    simpa using this
  have hnum : ∀ k (h1 : k < ps.length) (h2 : k < qs.length), ps[k].1.state.spanNumber = qs[k].1.state.spanNumber := by
    intro k h1 h2
    have := congrArg (·[k]?) q2
    simpa [h1, h2] using this.symm
  have hcan : Pairwise2 (SpanNarrower []) ((ps.map Prod.fst).map (canonSpan d rect)) ((qs.map Prod.fst).map (canonSpan d rect)) := by
    refine pairwise2_get (by simpa using hlen) fun k h1 h2 => ⟨?_, .inr fun f hf => by simp at hf⟩
    simp only [List.length_map] at h1 h2
    simp only [List.getElem_map, canonSpan]
    rw [hpc k h1 h2, hnum k h1 h2]
  have hcan' : Pairwise2 (fun a b : Span => a.state = b.state) ((ps.map Prod.fst).map (canonSpan d rect))
      ((qs.map Prod.fst).map (canonSpan d rect)) :=
    pairwise2_get (pairwise2_length hcan) fun k h1 h2 => (pairwise2_at hcan k h1 h2).1
  rw [textAt_iff] at p5 q5
  rw [p5, q5]
  show textPx _ ps i j (a.px i j) = textPx _ qs i j (a'.px i j)
  rw [ha]
  refine textPx_pairs (pairwise2_get hlen fun k h1 h2 => ?_) _
  have mp : ps[k] ∈ ps := List.getElem_mem h1
  have mq : qs[k] ∈ qs := List.getElem_mem h2
  obtain ⟨px, py⟩ := p3 _ mp
  obtain ⟨qx, qy⟩ := q3 _ mq
  have rp := (p4 _ (List.mem_map_of_mem mp)).1
  have rq := (q4 _ (List.mem_map_of_mem mq)).1
  have hst : SpanNarrower [] (canonSpan d rect ps[k].1) (canonSpan d rect qs[k].1) := by
    have := pairwise2_at hcan k (by simpa using h1) (by simpa using h2)
    simpa using this
  have px' := exactX_same (canonSpans_key d rect (ps.map Prod.fst)).symm (canonSpan_key d rect ps[k].1).symm rp px
  have py' := exactY_same (canonSpans_key d rect (ps.map Prod.fst)).symm (canonSpan_key d rect ps[k].1).symm rp py
  have qx' := exactX_same (canonSpans_key d rect (qs.map Prod.fst)).symm (canonSpan_key d rect qs[k].1).symm rq qx
  have qy' := exactY_same (canonSpans_key d rect (qs.map Prod.fst)).symm (canonSpan_key d rect qs[k].1).symm rq qy
  have ey : ps[k].2.2 = qs[k].2.2 := exactY_unique (exactY_narrow hcan hst py') qy'
  by_cases hc : ∃ (m : Nat) (m1 : m < ps.length) (m2 : m < qs.length), ps[m].1.str ≠ qs[m].1.str ∧
      canonSpan d rect ps[m].1 ∈ sameLine ((ps.map Prod.fst).map (canonSpan d rect)) (canonSpan d rect ps[k].1) ∧
      (m = k ∨ Moves (canonSpan d rect ps[m].1) (canonSpan d rect ps[k].1))
  · obtain ⟨m, m1, m2, hne, hm⟩ := hc
    have off : ¬ (LitBy d ((ps.map Prod.fst).map (canonSpan d rect)) (canonSpan d rect ps[k].1) i j ∨
        LitBy d ((qs.map Prod.fst).map (canonSpan d rect)) (canonSpan d rect qs[k].1) i j) := by
      intro hl
      refine hn ⟨k, canonSpan d rect ps[k].1, canonSpan d rect qs[k].1, ?_, ?_, by rw [ly, ly']; exact hl, m,
        canonSpan d rect ps[m].1, canonSpan d rect qs[m].1, ?_, ?_, hne, by rw [ly]; exact hm⟩
      · rw [ly]; simp [h1]
      · rw [ly']; simp [h2]
      · rw [ly]; simp [m1]
      · rw [ly']; simp [m2]
    have np : ¬ LightsAt d.fontDefinition ps[k].1 ps[k].2.1 ps[k].2.2 i j :=
      fun hl => off (.inl ⟨_, _, px', py', lightsAt_pieces rfl hl⟩)
    have nq : ¬ LightsAt d.fontDefinition qs[k].1 qs[k].2.1 qs[k].2.2 i j :=
      fun hl => off (.inr ⟨_, _, qx', qy', lightsAt_pieces rfl hl⟩)
    exact ⟨⟨fun h => absurd h np, fun h => absurd h nq⟩, fun h => absurd h np⟩
  · have hown : ps[k].1.str = qs[k].1.str := Classical.byContradiction fun hne => hc ⟨k, h1, h2, hne, by
      unfold sameLine
      rw [List.mem_filter]
      exact ⟨List.mem_map_of_mem (List.mem_map_of_mem mp), by simp⟩, .inl rfl⟩
    have hcs : canonSpan d rect ps[k].1 = canonSpan d rect qs[k].1 := by
      have h3 := hst.1
      unfold canonSpan at h3 ⊢
      simp only at h3 ⊢
      rw [h3]
      simp only [spanOf, pieceOf]
      rw [hown]
    have ex : ps[k].2.1 = qs[k].2.1 := by
      refine exactX_unmoved hst.1 hcan' (fun m m1 m2 hm hx => ?_) px' qx'
      simp only [List.length_map] at m1 m2
      simp only [List.getElem_map] at hm hx ⊢
      exact Classical.byContradiction fun hne => hc ⟨m, m1, m2, hne, hm, .inr hx⟩
    have epc : pieceOf ps[k].1 = pieceOf qs[k].1 := by
      have := congrArg (fun s => (placeKey s).1) hcs; exact this
    rw [ex, ey]
    refine ⟨⟨lightsAt_pieces epc, lightsAt_pieces epc.symm⟩, fun _ => ?_⟩
    rw [(p4 _ (List.mem_map_of_mem mp)).2.1, (q4 _ (List.mem_map_of_mem mq)).2.1, epc]

end Ntcip
