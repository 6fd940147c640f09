import Verif.Spec.Pad
import Verif.Lemmas.Places
import Verif.Lemmas.Join
/-
Lemmas for C137: blanks at the free ends of lines are not seen.
-/
namespace Ntcip
open Spec

theorem textLit_after {f : Font} {es bs : List CharacterEntry} {cs x y i j} (hb : ∀ e ∈ bs, BlankGlyph f e) :
    TextLit (es ++ bs) cs f.height.toNat x y i j ↔ TextLit es cs f.height.toNat x y i j := by
  constructor
  · rintro ⟨before, e, after, row, col, h1, h2, h3, h4, h5⟩
    rcases List.append_eq_append_iff.1 h1 with ⟨l, e1, e2⟩ | ⟨l, e1, e2⟩
    · exfalso
      have := hb e (by rw [e2]; simp) row col h2 h3
      rw [h4] at this; cases this
    · cases l with
      | nil =>
        exfalso
        rw [List.nil_append] at e2
        have := hb e (by rw [← e2]; simp) row col h2 h3
        rw [h4] at this; cases this
      | cons u l =>
        rw [List.cons_append, List.cons.injEq] at e2
        obtain ⟨rfl, e2⟩ := e2
        exact ⟨before, e, l, row, col, e1, h2, h3, h4, h5⟩
  · rintro ⟨before, e, after, row, col, h1, h2, h3, h4, h5⟩
    exact ⟨before, e, after ++ bs, row, col, by rw [h1]; simp, h2, h3, h4, h5⟩

theorem textLit_before {f : Font} {es bs : List CharacterEntry} {cs x x' y i j} (hb : ∀ e ∈ bs, BlankGlyph f e)
    (hw : ∀ e ∈ bs ++ es, 0 < e.width.toNat)
    (hx : x + advance cs (es.map (·.width.toNat)) = x' + advance cs ((bs ++ es).map (·.width.toNat))) :
    TextLit (bs ++ es) cs f.height.toNat x' y i j ↔ TextLit es cs f.height.toNat x y i j := by
  by_cases hbn : bs = []
  · subst hbn
    rw [List.nil_append] at hx ⊢
    rw [show x' = x by omega]
  have sum : ∀ {l : List CharacterEntry}, l ≠ [] → (∀ e ∈ l, 0 < e.width.toNat) → 0 < (l.map (·.width.toNat)).sum := by
    intro l hl h
    cases l with
    | nil => exact absurd rfl hl
    | cons a l => have := h a (List.mem_cons_self ..); simp only [List.map_cons, List.sum_cons]; omega
  have hbs : 0 < (bs.map (·.width.toNat)).sum := sum hbn fun e he => hw e (List.mem_append_left _ he)
  have adv : ∀ {l : List CharacterEntry}, l ≠ [] → (∀ e ∈ l, e ∈ es) → advance cs ((bs ++ l).map (·.width.toNat)) =
      advance cs (bs.map (·.width.toNat)) + cs + advance cs (l.map (·.width.toNat)) := by
    intro l hl h
    rw [List.map_append]
    refine advance_join _ _ _ hbs (by simpa using hl) ?_
    intro v hv
    obtain ⟨e, he, rfl⟩ := List.mem_map.1 hv
    exact hw e (List.mem_append_right _ (h e he))
  have place : ∀ {before : List CharacterEntry}, es ≠ [] → (∀ e ∈ before, e ∈ es) →
      x' + advance cs ((bs ++ before).map (·.width.toNat)) + (if 0 < ((bs ++ before).map (·.width.toNat)).sum then cs else 0) =
      x + advance cs (before.map (·.width.toNat)) + (if 0 < (before.map (·.width.toNat)).sum then cs else 0) := by
    intro before hes hm
    have h1 := adv hes fun _ h => h
    have h2 : 0 < ((bs ++ before).map (·.width.toNat)).sum := by rw [List.map_append, List.sum_append]; omega
    rw [if_pos h2]
    by_cases hn : before = []
    · subst hn
      simp only [List.append_nil, List.map_nil, advance_nil, List.sum_nil, Nat.lt_irrefl, if_false]
      omega
    · rw [adv hn hm, if_pos (sum hn fun e he => hw e (List.mem_append_right _ (hm e he)))]
      omega
  constructor
  · rintro ⟨before, e, after, row, col, h1, h2, h3, h4, h5, h6⟩
    rcases List.append_eq_append_iff.1 h1 with ⟨l, e1, e2⟩ | ⟨l, e1, e2⟩
    · subst e1
      refine ⟨l, e, after, row, col, e2, h2, h3, h4, ?_, h6⟩
      rw [h5, place (by rw [e2]; simp) (fun u hu => by rw [e2]; simp [hu])]
    · cases l with
      | nil =>
        rw [List.append_nil] at e1
        subst e1
        rw [List.nil_append] at e2
        refine ⟨[], e, after, row, col, e2.symm, h2, h3, h4, ?_, h6⟩
        have := place (before := []) (by rw [← e2]; simp) (by simp)
        rw [List.append_nil] at this
        rw [h5, this]
      | cons u l =>
        rw [List.cons_append, List.cons.injEq] at e2
        obtain ⟨rfl, e2⟩ := e2
        have := hb e (by rw [e1]; simp) row col h2 h3
        rw [h4] at this; cases this
  · rintro ⟨before, e, after, row, col, h1, h2, h3, h4, h5, h6⟩
    refine ⟨bs ++ before, e, after, row, col, by rw [h1]; simp, h2, h3, h4, ?_, h6⟩
    rw [h5, place (by rw [h1]; simp) (fun u hu => by rw [h1]; simp [hu])]

/-- texts at the right end at the same place, if only one of them changes, and texts before it -/
theorem before_own {t own} {A A' B B' : List Span} {s s' : Span} (hA : Pairwise2 (SameIf fun s => own ≤ s.state.spanNumber) A A')
    (hB : Pairwise2 (SameIf fun s => own ≤ s.state.spanNumber) B B') (hs : s.state = s'.state) (ho : s.state.spanNumber = own) :
    ∀ {p p' : Option Span} {n n' a a' w w'}, p.map Span.state = p'.map Span.state →
    BeforeAt t own p (A ++ s :: B) n → LineWidth t p (A ++ s :: B) a → BeforeAt t own p' (A' ++ s' :: B') n' →
    LineWidth t p' (A' ++ s' :: B') a' → SpanWidth t s w → SpanWidth t s' w' → a' + n + w = a + n' + w' := by
  have head : ∀ {u u' : Span} {ss ss'} {p p' : Option Span} {n n' a a'}, u.state = u'.state → p.map Span.state = p'.map Span.state →
      BeforeAt t own p (u :: ss) n → LineWidth t p (u :: ss) a → BeforeAt t own p' (u' :: ss') n' →
      LineWidth t p' (u' :: ss') a' → ∃ g c w w' m m' b b', SpanWidth t u w ∧ SpanWidth t u' w' ∧
        BeforeAt t own (some u) ss m ∧ LineWidth t (some u) ss b ∧ BeforeAt t own (some u') ss' m' ∧
        LineWidth t (some u') ss' b' ∧ a = g + w + b ∧ a' = g + w' + b' ∧
        n = c + (if u.state.spanNumber < own then w else 0) + m ∧ n' = c + (if u'.state.spanNumber < own then w' else 0) + m' := by
    intro u u' ss ss' p p' n n' a a' hs hp h l h' l'
    cases h with
    | first hw hb =>
      cases h' with
      | first hw' hb' =>
        cases l with
        | first lw lb =>
          cases l' with
          | first lw' lb' =>
            refine ⟨0, 0, _, _, _, _, _, _, lw, lw', hb, lb, hb', lb', by omega, by omega, ?_, ?_⟩
            · rw [spanWidth_unique hw lw]; omega
            · rw [spanWidth_unique hw' lw']; omega
      | next hg hw' hb' => simp at hp
    | @next _ _ _ g1 _ _ hg hw hb =>
      cases h' with
      | first hw' hb' => simp at hp
      | next hg' hw' hb' =>
        cases l with
        | next lg lw lb =>
          cases l' with
          | next lg' lw' lb' =>
            have e3 := gap_states (by simpa using hp) hs hg hg'
            have e4 := gap_unique hg lg
            have e5 := gap_unique hg' lg'
            refine ⟨_, if u.state.spanNumber ≤ own then g1 else 0, _, _, _, _, _, _, lw, lw', hb, lb, hb', lb', rfl, ?_, ?_, ?_⟩
            · rw [← e5, ← e4, e3]
            · rw [spanWidth_unique hw lw]
            · rw [spanWidth_unique hw' lw', e3, hs]
  induction hA with
  | nil =>
    intro p p' n n' a a' w w' hp h l h' l' hw hw'
    obtain ⟨g, c, v, v', m, m', b, b', k1, k2, k3, k4, k5, k6, rfl, rfl, rfl, rfl⟩ := head hs hp h l h' l'
    have := before_right hB (by simp [hs]) k3 k4 k5 k6
    rw [if_neg (by omega), if_neg (by rw [← hs]; omega), spanWidth_unique hw k1, spanWidth_unique hw' k2]
    omega
  | @cons u u' A A' hu _ ih =>
    intro p p' n n' a a' w w' hp h l h' l' hw hw'
    obtain ⟨g, c, v, v', m, m', b, b', k1, k2, k3, k4, k5, k6, rfl, rfl, rfl, rfl⟩ := head hu.1 hp h l h' l'
    have := ih (by simp [hu.1]) k3 k4 k5 k6 hw hw'
    rw [← hu.1]
    split
    · omega
    · rename_i hc
      have := spanWidth_sameIf hu (by show own ≤ _; omega) k1 k2
      omega

theorem sameLine_own {c : Span → Prop} {X X' Y Y' : List Span} {s s' : Span} (hs : s.state = s'.state)
    (hX : Pairwise2 (fun a b : Span => a.state = b.state ∧ (a ∈ sameLine (X ++ s :: Y) s → c a → a.str = b.str)) X X')
    (hY : Pairwise2 (fun a b : Span => a.state = b.state ∧ (a ∈ sameLine (X ++ s :: Y) s → c a → a.str = b.str)) Y Y') :
    ∃ A A' B B', sameLine (X ++ s :: Y) s = A ++ s :: B ∧ sameLine (X' ++ s' :: Y') s' = A' ++ s' :: B' ∧
      Pairwise2 (SameIf c) A A' ∧ Pairwise2 (SameIf c) B B' := by
  have key : ∀ {Z Z' : List Span}, (∀ a ∈ Z, a ∈ X ++ s :: Y) →
      Pairwise2 (fun a b : Span => a.state = b.state ∧ (a ∈ sameLine (X ++ s :: Y) s → c a → a.str = b.str)) Z Z' →
      Pairwise2 (SameIf c) (sameLine Z s) (sameLine Z' s') := by
    intro Z Z' hm h
    unfold sameLine
    refine pairwise2_filter h (fun a b hab => by rw [hab.1, hs]) fun k h1 h2 hp hk => ⟨hk.1, hk.2 ?_⟩
    unfold sameLine
    rw [List.mem_filter]
    exact ⟨hm _ (List.getElem_mem h1), hp⟩
  refine ⟨sameLine X s, sameLine X' s', sameLine Y s, sameLine Y' s', ?_, ?_, key (fun a ha => by simp [ha]) hX,
    key (fun a ha => by simp [ha]) hY⟩
  · unfold sameLine; rw [List.filter_append, List.filter_cons_of_pos (by simp)]
  · unfold sameLine; rw [List.filter_append, List.filter_cons_of_pos (by simp)]

/-- text at the right ends at the same place, if no text after it changes -/
theorem exactX_right {d : Dms} {ss ss' : List Span} {k : Nat} (h1 : k < ss.length) (h2 : k < ss'.length)
    (h : Pairwise2 (fun a b : Span => a.state = b.state) ss ss') (hj : ss[k].state.justLine = .right)
    (hc : ∀ m (m1 : m < ss.length) (m2 : m < ss'.length), m ≠ k → ss[m] ∈ sameLine ss ss[k] →
      ss[k].state.spanNumber ≤ ss[m].state.spanNumber → ss[m].str = ss'[m].str) {x x' w w'}
    (hx : ExactX d ss ss[k] x) (hx' : ExactX d ss' ss'[k] x') (hw : SpanWidth d.fontDefinition ss[k] w)
    (hw' : SpanWidth d.fontDefinition ss'[k] w') : x + w = x' + w' := by
  have hs : ss[k].state = ss'[k].state := pairwise2_at h k h1 h2
  have hlen := pairwise2_length h
  have e : ss = ss.take k ++ ss[k] :: ss.drop (k + 1) := by
    rw [List.getElem_cons_drop, List.take_append_drop]
  have e' : ss' = ss'.take k ++ ss'[k] :: ss'.drop (k + 1) := by
    rw [List.getElem_cons_drop, List.take_append_drop]
  obtain ⟨A, A', B, B', l1, l2, hA, hB⟩ := sameLine_own (c := fun u => ss[k].state.spanNumber ≤ u.state.spanNumber)
    (X := ss.take k) (X' := ss'.take k) (Y := ss.drop (k + 1)) (Y' := ss'.drop (k + 1)) hs
    (by
      rw [← e]
      refine pairwise2_get (by simp [hlen]) fun m m1 m2 => ?_
      simp only [List.length_take, List.getElem_take] at m1 m2 ⊢
      exact ⟨pairwise2_at h m (by omega) (by omega), hc m (by omega) (by omega) (by omega)⟩)
    (by
      rw [← e]
      refine pairwise2_get (by simp [hlen]) fun m m1 m2 => ?_
      simp only [List.length_drop, List.getElem_drop] at m1 m2 ⊢
      exact ⟨pairwise2_at h _ (by omega) (by omega), hc _ (by omega) (by omega) (by omega)⟩)
  rw [← e] at l1
  rw [← e'] at l2
  obtain ⟨n, a, q1, q2, q3, q4⟩ := hx
  obtain ⟨n', a', q1', q2', q3', q4'⟩ := hx'
  rw [l1] at q1 q2
  rw [l2] at q1' q2'
  rw [← hs] at q1' q3' q4'
  have := before_own hA hB hs rfl (p := none) (p' := none) rfl q1 q2 q1' q2' hw hw'
  rw [q4, q4', hj]
  rw [hs] at q3
  simp only [reduceCtorEq, if_false, lineLeft]
  rw [← hs] at q3
  omega

theorem blank_entries {t s b f bs} (hb : BlankText t s b) (hf : FontOf t s f) (hd : Defined f b bs) : ∀ e ∈ bs, BlankGlyph f e := by
  intro e he
  have : some e ∈ b.map f.character := by rw [hd]; exact List.mem_map_of_mem he
  obtain ⟨ch, h1, h2⟩ := List.mem_map.1 this
  exact hb f hf ch h1 e h2

theorem lightsAt_after {t s s' b x y i j w'} (hs : s.state = s'.state) (he : s'.str = s.str ++ b) (hb : BlankText t s b)
    (hw' : SpanWidth t s' w') : LightsAt t s x y i j ↔ LightsAt t s' x y i j := by
  have hfont : ∀ f, FontOf t s f ↔ FontOf t s' f := fun f => by unfold FontOf; rw [hs]
  have hsp : ∀ f, charSpacing s f = charSpacing s' f := fun f => by unfold charSpacing; rw [hs]
  obtain ⟨f, es, hf', hd, _⟩ := hw'
  rw [he] at hd
  obtain ⟨e1, e2, rfl, d1, d2⟩ := defined_append.1 hd
  have hf := (hfont f).2 hf'
  have key := textLit_after (es := e1) (cs := charSpacing s f) (x := x) (y := y) (i := i) (j := j) (blank_entries hb hf d2)
  constructor
  · rintro ⟨g, es, k1, k2, k3⟩
    obtain rfl := fontOf_unique k1 hf
    obtain rfl := defined_unique k2 d1
    exact ⟨g, _, hf', by rw [he]; exact hd, by rw [← hsp]; exact key.2 k3⟩
  · rintro ⟨g, es, k1, k2, k3⟩
    obtain rfl := fontOf_unique k1 hf'
    rw [he] at k2
    obtain rfl := defined_unique k2 hd
    exact ⟨g, _, hf, d1, key.1 (by rw [hsp]; exact k3)⟩

theorem lightsAt_before {t s s' b x x' y i j w w'} (ht : WideChars t) (hs : s.state = s'.state) (he : s'.str = b ++ s.str)
    (hb : BlankText t s b) (h0 : ∀ ch ∈ s'.str, ch.toNat ≠ 0) (hw : SpanWidth t s w) (hw' : SpanWidth t s' w')
    (hx : x + w = x' + w') : LightsAt t s x y i j ↔ LightsAt t s' x' y i j := by
  have hfont : ∀ f, FontOf t s f ↔ FontOf t s' f := fun f => by unfold FontOf; rw [hs]
  have hsp : ∀ f, charSpacing s f = charSpacing s' f := fun f => by unfold charSpacing; rw [hs]
  obtain ⟨f, es, hf', hd, rfl⟩ := hw'
  have hd0 := hd
  rw [he] at hd
  obtain ⟨e1, e2, rfl, d1, d2⟩ := defined_append.1 hd
  have hf := (hfont f).2 hf'
  obtain ⟨g, es, k1, k2, rfl⟩ := hw
  obtain rfl := fontOf_unique k1 hf
  obtain rfl := defined_unique k2 d2
  rw [← hsp] at hx
  have hpos : ∀ e ∈ e1 ++ es, 0 < e.width.toNat := fun e hm =>
    defined_wide ht (fontOf_mem hf) hd0 h0 _ (List.mem_map_of_mem hm)
  have key := textLit_before (y := y) (i := i) (j := j) (blank_entries hb hf d1) hpos hx
  constructor
  · rintro ⟨g', es', z1, z2, k3⟩
    obtain rfl := fontOf_unique z1 hf
    obtain rfl := defined_unique z2 d2
    exact ⟨g', _, hf', hd0, by rw [← hsp]; exact key.2 k3⟩
  · rintro ⟨g', es', z1, z2, k3⟩
    obtain rfl := fontOf_unique z1 hf'
    obtain rfl := defined_unique z2 hd0
    exact ⟨g', _, hf, d2, key.1 (by rw [hsp]; exact k3)⟩

theorem textDrawn_pad {d : Dms} (hwide : WideChars d.fontDefinition) {t sp rect vs vs' a a' b b'} {i j : Nat} (h : TextDrawn d t sp rect vs a b)
    (h' : TextDrawn d t sp rect vs' a' b') (hr : Pairwise2 (Reduced []) vs vs')
    (hn : ¬ SeenPlaces d t sp rect vs vs' i j) (ha : a.px i j = a'.px i j) : b.px i j = b'.px i j := by
  obtain ⟨ps, p1, ⟨p2, p3⟩, p4, p6, p5, _⟩ := h
  obtain ⟨qs, q1, ⟨q2, q3⟩, q4, q6, q5, _⟩ := h'
  -- the layouts
  have ly : numberedLayout d t sp rect vs = (ps.map Prod.fst).map (canonSpan d rect) := by
    unfold numberedLayout layoutOf
    rw [← p1, ← p2, List.map_map, zipWith_map_self]
    rfl
  have ly' : numberedLayout d t sp rect vs' = (qs.map Prod.fst).map (canonSpan d rect) := by
    unfold numberedLayout layoutOf
    rw [← q1, ← q2, List.map_map, zipWith_map_self]
    rfl
  rw [numbers_reworded hr, ← p2] at q2
  have hlen : ps.length = qs.length := by simpa using (congrArg List.length q2).symm
  have hlay := pieces_narrow (d := d) (rect := rect) hr t sp 0 true
  change Pairwise2 _ (layoutOf d t sp rect vs) (layoutOf d t sp rect vs') at hlay
  have hpc : ∀ k (h1 : k < ps.length) (h2 : k < qs.length),
      (spanOf d rect (pieceOf ps[k].1)).state = (spanOf d rect (pieceOf qs[k].1)).state := by
    intro k h1 h2
    unfold layoutOf at hlay
    rw [← p1, ← q1] at hlay
    have := (pairwise2_at hlay k (by simpa using h1) (by simpa using h2)).1
    simpa using this
  have hnum : ∀ k (h1 : k < ps.length) (h2 : k < qs.length), ps[k].1.state.spanNumber = qs[k].1.state.spanNumber := by
    intro k h1 h2
    have := congrArg (·[k]?) q2
    simpa [h1, h2] using this.symm
  have hcan : Pairwise2 (SpanNarrower []) ((ps.map Prod.fst).map (canonSpan d rect)) ((qs.map Prod.fst).map (canonSpan d rect)) := by
    refine pairwise2_get (by simpa using hlen) fun k h1 h2 => ⟨?_, .inr fun f hf => by simp at hf⟩
    simp only [List.length_map] at h1 h2
    simp only [List.getElem_map, canonSpan]
    rw [hpc k h1 h2, hnum k h1 h2]
  have hcan' : Pairwise2 (fun a b : Span => a.state = b.state) ((ps.map Prod.fst).map (canonSpan d rect))
      ((qs.map Prod.fst).map (canonSpan d rect)) :=
    pairwise2_get (pairwise2_length hcan) fun k h1 h2 => (pairwise2_at hcan k h1 h2).1
  rw [textAt_iff] at p5 q5
  rw [p5, q5]
  show textPx _ ps i j (a.px i j) = textPx _ qs i j (a'.px i j)
  rw [ha]
  refine textPx_pairs (pairwise2_get hlen fun k h1 h2 => ?_) _
  have mp : ps[k] ∈ ps := List.getElem_mem h1
  have mq : qs[k] ∈ qs := List.getElem_mem h2
  obtain ⟨px, py⟩ := p3 _ mp
  obtain ⟨qx, qy⟩ := q3 _ mq
  have rp := (p4 _ (List.mem_map_of_mem mp)).1
  have rq := (q4 _ (List.mem_map_of_mem mq)).1
  have hst : SpanNarrower [] (canonSpan d rect ps[k].1) (canonSpan d rect qs[k].1) := by
    have := pairwise2_at hcan k (by simpa using h1) (by simpa using h2)
    simpa using this
  have px' := exactX_same (canonSpans_key d rect (ps.map Prod.fst)).symm (canonSpan_key d rect ps[k].1).symm rp px
  have py' := exactY_same (canonSpans_key d rect (ps.map Prod.fst)).symm (canonSpan_key d rect ps[k].1).symm rp py
  have qx' := exactX_same (canonSpans_key d rect (qs.map Prod.fst)).symm (canonSpan_key d rect qs[k].1).symm rq qx
  have qy' := exactY_same (canonSpans_key d rect (qs.map Prod.fst)).symm (canonSpan_key d rect qs[k].1).symm rq qy
  have ey : ps[k].2.2 = qs[k].2.2 := exactY_unique (exactY_narrow hcan hst py') qy'
  by_cases hc : ∃ (m : Nat) (m1 : m < ps.length) (m2 : m < qs.length), ps[m].1.str ≠ qs[m].1.str ∧
      canonSpan d rect ps[m].1 ∈ sameLine ((ps.map Prod.fst).map (canonSpan d rect)) (canonSpan d rect ps[k].1) ∧
      (if m = k then ¬ AddsBlanks d.fontDefinition (canonSpan d rect ps[m].1) (canonSpan d rect qs[m].1)
        else Moves (canonSpan d rect ps[m].1) (canonSpan d rect ps[k].1))
  · obtain ⟨m, m1, m2, hne, hm⟩ := hc
    have off : ¬ (LitBy d ((ps.map Prod.fst).map (canonSpan d rect)) (canonSpan d rect ps[k].1) i j ∨
        LitBy d ((qs.map Prod.fst).map (canonSpan d rect)) (canonSpan d rect qs[k].1) i j) := by
      intro hl
      refine hn ⟨k, canonSpan d rect ps[k].1, canonSpan d rect qs[k].1, ?_, ?_, by rw [ly, ly']; exact hl, m,
        canonSpan d rect ps[m].1, canonSpan d rect qs[m].1, ?_, ?_, hne, by rw [ly]; exact hm⟩
      · rw [ly]; simp [h1]
      · rw [ly']; simp [h2]
      · rw [ly]; simp [m1]
      · rw [ly']; simp [m2]
    have np : ¬ LightsAt d.fontDefinition ps[k].1 ps[k].2.1 ps[k].2.2 i j :=
      fun hl => off (.inl ⟨_, _, px', py', lightsAt_pieces rfl hl⟩)
    have nq : ¬ LightsAt d.fontDefinition qs[k].1 qs[k].2.1 qs[k].2.2 i j :=
      fun hl => off (.inr ⟨_, _, qx', qy', lightsAt_pieces rfl hl⟩)
    exact ⟨⟨fun h => absurd h np, fun h => absurd h nq⟩, fun h => absurd h np⟩
  · have hself : canonSpan d rect ps[k].1 ∈ sameLine ((ps.map Prod.fst).map (canonSpan d rect)) (canonSpan d rect ps[k].1) := by
      unfold sameLine
      rw [List.mem_filter]
      exact ⟨List.mem_map_of_mem (List.mem_map_of_mem mp), by simp⟩
    have hother : ∀ m (m1 : m < ps.length) (m2 : m < qs.length), m ≠ k →
        canonSpan d rect ps[m].1 ∈ sameLine ((ps.map Prod.fst).map (canonSpan d rect)) (canonSpan d rect ps[k].1) →
        Moves (canonSpan d rect ps[m].1) (canonSpan d rect ps[k].1) → ps[m].1.str = qs[m].1.str := fun m m1 m2 hk hm hx =>
      Classical.byContradiction fun hne => hc ⟨m, m1, m2, hne, hm, by rw [if_neg hk]; exact hx⟩
    have hcol : ps[k].1.state.colorCtx.foregroundRgb = qs[k].1.state.colorCtx.foregroundRgb := by
      rw [(p4 _ (List.mem_map_of_mem mp)).2.1, (q4 _ (List.mem_map_of_mem mq)).2.1]
      have h3 := congrArg (fun st : RenderState => st.colorCtx.fgCurrent) hst.1
      exact congrArg (foregroundRgb d) h3
    obtain ⟨_, w, _, hw, _⟩ := p6 _ mp
    obtain ⟨_, w', _, hw', _⟩ := q6 _ mq
    have cw : SpanWidth d.fontDefinition (canonSpan d rect ps[k].1) w := hw
    have cw' : SpanWidth d.fontDefinition (canonSpan d rect qs[k].1) w' := hw'
    rw [ey]
    refine ⟨?_, fun _ => hcol⟩
    suffices hl : LightsAt d.fontDefinition (canonSpan d rect ps[k].1) ps[k].2.1 qs[k].2.2 i j ↔
        LightsAt d.fontDefinition (canonSpan d rect qs[k].1) qs[k].2.1 qs[k].2.2 i j from
      ⟨fun h => lightsAt_pieces rfl (hl.1 (lightsAt_pieces rfl h)), fun h => lightsAt_pieces rfl (hl.2 (lightsAt_pieces rfl h))⟩
    by_cases hown : ps[k].1.str = qs[k].1.str
    · have hcs : canonSpan d rect ps[k].1 = canonSpan d rect qs[k].1 := by
        have h3 := hst.1
        unfold canonSpan at h3 ⊢
        simp only at h3 ⊢
        rw [h3]
        simp only [spanOf, pieceOf]
        rw [hown]
      have ex : ps[k].2.1 = qs[k].2.1 := by
        refine exactX_unmoved hst.1 hcan' (fun m m1 m2 hm hx => ?_) px' qx'
        simp only [List.length_map] at m1 m2
        simp only [List.getElem_map] at hm hx ⊢
        by_cases hk : m = k
        · subst hk; exact hown
        · exact hother m m1 m2 hk hm hx
      rw [ex, hcs]
    · have hb : AddsBlanks d.fontDefinition (canonSpan d rect ps[k].1) (canonSpan d rect qs[k].1) :=
        Classical.byContradiction fun hne => hc ⟨k, h1, h2, hown, hself, by rw [if_pos rfl]; exact hne⟩
      have hnp := (p4 _ (List.mem_map_of_mem mp)).2.2
      have hnq := (q4 _ (List.mem_map_of_mem mq)).2.2
      cases hj : (canonSpan d rect ps[k].1).state.justLine with
      | center => unfold AddsBlanks at hb; rw [hj] at hb; exact hb.elim
      | right =>
        unfold AddsBlanks at hb
        rw [hj] at hb
        obtain ⟨b, he, hb⟩ := hb
        have ex : ps[k].2.1 + w = qs[k].2.1 + w' := by
          have hk1 : k < ((ps.map Prod.fst).map (canonSpan d rect)).length := by simpa using h1
          have hk2 : k < ((qs.map Prod.fst).map (canonSpan d rect)).length := by simpa using h2
          have g1 : ((ps.map Prod.fst).map (canonSpan d rect))[k] = canonSpan d rect ps[k].1 := by simp
          have g2 : ((qs.map Prod.fst).map (canonSpan d rect))[k] = canonSpan d rect qs[k].1 := by simp
          refine exactX_right hk1 hk2 hcan' (by rw [g1]; exact hj) ?_ (by rw [g1]; exact px') (by rw [g2]; exact qx')
            (by rw [g1]; exact cw) (by rw [g2]; exact cw')
          intro m m1 m2 hk hm hle
          rw [g1] at hm hle
          simp only [List.length_map] at m1 m2
          simp only [List.getElem_map] at hm hle ⊢
          exact hother m m1 m2 hk hm (by unfold Moves; rw [hj]; exact hle)
        rcases he with he | he
        · exact lightsAt_before hwide hst.1 he hb hnq cw cw' ex
        · exact (lightsAt_before hwide hst.1.symm he (by unfold BlankText FontOf at hb ⊢; rw [← hst.1]; exact hb) hnp cw' cw
            ex.symm).symm
      | _ =>
        unfold AddsBlanks at hb
        rw [hj] at hb
        obtain ⟨b, he, hb⟩ := hb
        have ex : ps[k].2.1 = qs[k].2.1 := by
          refine exactX_unmoved hst.1 hcan' (fun m m1 m2 hm hx => ?_) px' qx'
          simp only [List.length_map] at m1 m2
          simp only [List.getElem_map] at hm hx ⊢
          by_cases hk : m = k
          · subst hk
            unfold Moves at hx
            rw [hj] at hx
            exact absurd hx (Nat.lt_irrefl _)
          · exact hother m m1 m2 hk hm hx
        rw [ex]
        rcases he with he | he
        · exact lightsAt_after hst.1 he hb cw'
        · exact (lightsAt_after hst.1.symm he (by unfold BlankText FontOf at hb ⊢; rw [← hst.1]; exact hb) cw).symm

end Ntcip
