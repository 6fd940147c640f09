import Verif.Lemmas.Stack
import Verif.Lemmas.Justify
import Verif.Lemmas.Onward
import Verif.Spec.Before
/-
Lemmas for C127: text put before text at the bottom, or at the right.
-/
namespace Ntcip
open Spec

theorem tidy_puts {dflt : TextAttr} {us : List Value} (hu : ∀ u ∈ us, PutsNothing u) (ws : List Value) : ∀ {a},
    Tidy dflt a true true (us ++ ws) ↔ Tidy dflt a true true us ∧ Tidy dflt (us.foldl (TextAttr.apply dflt) a) true true ws := by
  induction us with
  | nil => intro a; exact ⟨fun h => ⟨trivial, h⟩, fun h => h.2⟩
  | cons u us ih =>
    intro a
    have hi := fun {a} => @ih (fun v hv => hu v (List.mem_cons_of_mem _ hv)) a
    have hp := hu u (List.mem_cons_self ..)
    have hf : freshAfter dflt a true u = true := by
      cases u <;> first | exact hp.elim | rfl | (simp [freshAfter])
    have hb : blankAfter true u = true := by
      cases u <;> first | exact hp.elim | rfl
    simp only [List.cons_append, Tidy, hf, hb, List.foldl_cons, hi, and_assoc]

theorem atY_bottom {d : Dms} {W : List Span} {s : Span} {y : Nat} {f : Font} (hall : ∀ w ∈ W, w.state.justPage = s.state.justPage)
    (hj : s.state.justPage = .bottom) (hf : FontOf d.fontDefinition s f) (h : AtY d W s y) : ∃ m, Dense 0 W m ∧
      linesHeight (decide (d.vmsCfg.charHeightPixels = 0)) d.fontDefinition W (m - 1) ≤ s.state.textRectangle.height.toNat ∧
      y + f.height.toNat = s.state.textRectangle.y.toNat - 1 + (s.state.textRectangle.height.toNat -
        linesHeight (decide (d.vmsCfg.charHeightPixels = 0)) d.fontDefinition W (m - 1)) +
      linesHeight (decide (d.vmsCfg.charHeightPixels = 0)) d.fontDefinition W s.state.lineNumber := by
  obtain ⟨f', m, total, h1, h2, h3, h4, h5⟩ := h
  obtain rfl := fontOf_unique hf h1
  have e : samePage W s = W := List.filter_eq_self.2 fun w hw => by simpa using hall w hw
  rw [e] at h2 h3 h5
  subst h3
  simp only [hj, linesTop] at h5
  rw [if_neg (by decide)] at h5
  exact ⟨m, h2, h4, h5⟩

theorem dense_lowered {k : Nat} {Q P : List Span} (h : Pairwise2 (LoweredS k) Q P) : ∀ {a n m}, Dense (a + k) Q n →
    Dense a P m → n = m + k := by
  induction h with
  | nil => intro a n m h1 h2; cases h1; cases h2; rfl
  | @cons q p Q P h _ ih =>
    intro a n m h1 h2
    have := h.2.1
    cases h1 with
    | old k1 k2 =>
      cases h2 with
      | old l1 l2 => exact ih k2 l2
      | new l1 l2 => omega
    | new k1 k2 =>
      cases h2 with
      | old l1 l2 => omega
      | new l1 l2 => exact ih (a := a + 1) (by rw [show a + 1 + k = a + k + 1 by omega]; exact k2) l2

theorem textDrawn_above {d : Dms} {t sp rect us A s ws} {a b b' : Raster} (hu : ∀ u ∈ us, PutsNothing u)
    (ht : Tidy (signAttr d) t true true (us ++ (A ++ .newLine s :: ws)))
    (hj : (us.foldl (TextAttr.apply (signAttr d)) t).justPage = .bottom)
    (hA : ∀ j, Value.justificationPage j ∉ A) (hw : ∀ j, Value.justificationPage j ∉ ws)
    (hst : A.foldl (TextAttr.apply (signAttr d)) (us.foldl (TextAttr.apply (signAttr d)) t) =
      us.foldl (TextAttr.apply (signAttr d)) t)
    (h : TextDrawn d t sp rect (us ++ ws) a b) (h' : TextDrawn d t sp rect (us ++ (A ++ .newLine s :: ws)) a b') (i j : Nat)
    (hne : b'.px i j ≠ b.px i j) :
    LitAbove d (layoutOf d t sp rect (us ++ ws)) (layoutOf d t sp rect (us ++ (A ++ .newLine s :: ws))) i j := by
  obtain ⟨rs, r1, ⟨r2, r3⟩, r4, r6, r5, r7, _⟩ := h
  obtain ⟨qs, q1, ⟨q2, q3⟩, q4, q6, q5, q7, _⟩ := h'
  have ly := layoutOf_pieces (rect := rect) r1
  have ly' := layoutOf_pieces (rect := rect) q1
  have r0 := r1
  have q0 := q1
  obtain ⟨_, qat⟩ := q7 ht
  rw [tidy_puts hu] at ht
  obtain ⟨tA, fr, tB⟩ := tidy_append (.newLine s :: ws) A ht.2
  have tB2 : Tidy (signAttr d) (us.foldl (TextAttr.apply (signAttr d)) t) true true ws := by
    have := tB.2
    rw [hst] at this
    exact this
  obtain ⟨_, rat⟩ := r7 ((tidy_puts hu ws).2 ⟨ht.1, tB2⟩)
  rw [(pieces_puts hu _ t sp).1] at q1 r1
  rw [(pieces_puts hu _ t sp).2] at q2 r2
  generalize us.foldl (TextAttr.apply (signAttr d)) t = t0 at *
  -- the numbers
  obtain ⟨n', hn⟩ := numbers_split (signAttr d) (.newLine s :: ws) A t0 0 true
  rw [hn] at q2
  -- split the texts
  have q00 := q1
  rw [pieces_append] at q1
  obtain ⟨A', C', e1, e2, e3⟩ := List.map_eq_append_iff.1 q1
  obtain ⟨qA, qC, rfl, rfl, rfl⟩ := List.map_eq_append_iff.1 e1
  unfold pieces at e3
  obtain ⟨N', B', e4, e5, e6⟩ := List.map_eq_append_iff.1 e3
  obtain ⟨qN, qB, rfl, rfl, rfl⟩ := List.map_eq_append_iff.1 e4
  have hle := lineEnd_lines (dflt := signAttr d) A hA t0 0
  rw [Nat.zero_add] at hle
  rw [hst] at e5 e6
  have hlowP : Pairwise2 (LoweredP (newLines A + 1)) ((qB.map Prod.fst).map pieceOf) ((rs.map Prod.fst).map pieceOf) := by
    rw [e6, r1, hle]
    have := pieces_lowered (dflt := signAttr d) (newLines A + 1) ws hw
      (a := t0) (s := s) (s' := sp) (l := 0) (b := true) (fun h => absurd rfl h)
    rw [Nat.zero_add] at this
    exact this
  have hlenB : qB.length = rs.length := by
    simpa using pairwise2_length hlowP
  have hnumB : (qB.map Prod.fst).map (·.state.spanNumber) = (rs.map Prod.fst).map (·.state.spanNumber) := by
    have h := q2
    rw [hst] at h
    rw [numbers] at h
    rw [← List.append_assoc] at h
    rw [List.map_append, List.map_append, List.map_append, List.map_append, ← List.append_assoc] at h
    have hl : ((qB.map Prod.fst).map (·.state.spanNumber)).length =
        (numbers (signAttr d) (TextAttr.apply (signAttr d) t0 (.newLine s))
          (numberAfter (signAttr d) t0 n' (.newLine s)) (blankAfter (A.foldl blankAfter true) (.newLine s)) ws).length := by
      show _ = (numbers (signAttr d) t0 0 true ws).length
      rw [← r2]
      simp [hlenB]
    rw [List.append_inj_right' h hl, r2]
    rfl
  have hlow : Pairwise2 (LoweredS (newLines A + 1)) (qB.map Prod.fst) (rs.map Prod.fst) := by
    refine pairwise2_get (by simpa using hlenB) fun k h1 h2 => ?_
    have hp := pairwise2_at hlowP k (by simpa using h1) (by simpa using h2)
    have hn : (qB.map Prod.fst)[k].state.spanNumber = (rs.map Prod.fst)[k].state.spanNumber := by
      have := congrArg (·[k]?) hnumB
      simp only [List.length_map] at h1 h2
      simpa [h1, h2] using this
    simp only [List.getElem_map] at hp hn ⊢
    obtain ⟨g1, g2, g3, g4⟩ := hp
    refine ⟨?_, g3, g4⟩
    show (Piece.mk _ _ _ _, _) = (Piece.mk _ _ _ _, _)
    rw [Prod.mk.injEq, Piece.mk.injEq]
    exact ⟨⟨g1, rfl, rfl, g2⟩, hn⟩
  -- lines and justification of all texts
  have hF : ∀ f ∈ qA.map Prod.fst ++ qN.map Prod.fst, f.state.lineNumber < newLines A + 1 := by
    intro f hf
    rcases List.mem_append.1 hf with hf | hf
    · have hm : pieceOf f ∈ pieces (signAttr d) t0 sp 0 true A := e2 ▸ List.mem_map_of_mem hf
      have := (pieces_between A hA _ hm).2.1
      rw [Nat.zero_add] at this
      exact Nat.lt_succ_of_le this
    · have hm : pieceOf f ∈ _ := e5 ▸ List.mem_map_of_mem hf
      have := (piece_line hm).2
      rw [hle] at this
      have : f.state.lineNumber = newLines A := this
      omega
  have hallP : ∀ p ∈ pieces (signAttr d) t0 sp 0 true (A ++ .newLine s :: ws), p.attr.justPage = t0.justPage :=
    fun p hp => (pieces_between _ (by
      intro j hm
      rcases List.mem_append.1 hm with hm | hm
      · exact hA j hm
      · rcases List.mem_cons.1 hm with hm | hm
        · cases hm
        · exact hw j hm) p hp).2.2
  have hallQ : ∀ w ∈ (qA ++ (qN ++ qB)).map Prod.fst, w.state.justPage = .bottom :=
    fun w hm => (hallP (pieceOf w) (q00 ▸ List.mem_map_of_mem hm)).trans hj
  have hallR : ∀ w ∈ rs.map Prod.fst, w.state.justPage = .bottom := by
    intro w hm
    have : pieceOf w ∈ _ := r1 ▸ List.mem_map_of_mem hm
    have := (pieces_between ws hw _ this).2.2
    rw [hj] at this
    exact this
  have hsameB : ∀ k (h1 : k < qB.length) (h2 : k < rs.length), LoweredS (newLines A + 1) qB[k].1 rs[k].1 ∧ qB[k].2 = rs[k].2 := by
    intro k h1 h2
    have hk : LoweredS (newLines A + 1) qB[k].1 rs[k].1 := by
      have := pairwise2_at hlow k (by simpa using h1) (by simpa using h2)
      simpa using this
    have mq : qB[k] ∈ qB := List.getElem_mem h1
    have mq' : qB[k] ∈ qA ++ (qN ++ qB) := List.mem_append_right _ (List.mem_append_right _ mq)
    have mr : rs[k] ∈ rs := List.getElem_mem h2
    have rq := (q4 _ (List.mem_map_of_mem mq')).1
    have rr := (r4 _ (List.mem_map_of_mem mr)).1
    obtain ⟨qx, _⟩ := q3 _ mq'
    obtain ⟨rx, _⟩ := r3 _ mr
    obtain ⟨_, qy⟩ := qat _ mq'
    obtain ⟨_, ry⟩ := rat _ mr
    refine ⟨hk, Prod.ext ?_ ?_⟩
    · have e : sameLine ((qA ++ (qN ++ qB)).map Prod.fst) qB[k].1 = sameLine (qB.map Prod.fst) qB[k].1 := by
        rw [List.map_append, List.map_append, ← List.append_assoc, sameLine_append]
        have : sameLine (qA.map Prod.fst ++ qN.map Prod.fst) qB[k].1 = [] := by
          refine List.filter_eq_nil_iff.2 fun f hf => ?_
          have := hF f hf
          have := hk.2.1
          simp only [decide_eq_true_eq]
          rintro ⟨_, h, _⟩
          omega
        rw [this, List.nil_append]
      have qx' : ExactX d (qB.map Prod.fst) qB[k].1 qB[k].2.1 := by
        unfold ExactX at qx ⊢
        rwa [e] at qx
      exact exactX_unique (exactX_lowered hlow hk (by rw [rq, rr]) (by rw [rq, rr]) qx') rx
    · obtain ⟨f, hfq⟩ : ∃ f, FontOf d.fontDefinition qB[k].1 f := by
        obtain ⟨f, _, _, hf, _⟩ := qy; exact ⟨f, hf⟩
      have jq := hallQ _ (List.mem_map_of_mem mq')
      have jr := hallR _ (List.mem_map_of_mem mr)
      obtain ⟨m, d1, b1, y1⟩ := atY_bottom (fun w hm => (hallQ w hm).trans jq.symm) jq hfq qy
      obtain ⟨m', d2, b2, y2⟩ := atY_bottom (fun w hm => (hallR w hm).trans jr.symm) jr (fontOf_lowered hk hfq) ry
      have hl := fun n => linesHeight_lowered (full := decide (d.vmsCfg.charHeightPixels = 0)) (t := d.fontDefinition)
        (F := qA.map Prod.fst ++ qN.map Prod.fst) hF hlow n
      simp only [List.append_assoc, ← List.map_append] at hl
      -- the number of lines
      have hm : m = m' + (newLines A + 1) := by
        rw [List.map_append, List.map_append, ← List.append_assoc] at d1
        obtain ⟨c, c1, c2⟩ := dense_split _ d1
        have hc : c = newLines A + 1 := by
          have hle : c ≤ newLines A + 1 := by
            refine Classical.byContradiction fun hc => ?_
            obtain ⟨f, f1, f2⟩ := dense_full c1 (newLines A + 1) (by omega) (by omega)
            have := hF f f1
            omega
          have hge : newLines A + 1 ≤ c := by
            -- the texts after begin on their first line
            cases rs with
            | nil => simp at h2
            | cons r rs =>
              cases qB with
              | nil => simp at h1
              | cons q qB =>
                rw [List.map_cons, List.map_cons] at hlow
                cases hlow with
                | cons hqr _ =>
                  have := hqr.2.1
                  rw [List.map_cons] at c2
                  have : q.1.state.lineNumber ≤ c := by
                    cases c2 with
                    | old k1 _ => omega
                    | new k1 _ => omega
                  omega
          omega
        subst hc
        rw [← Nat.zero_add (newLines A + 1)] at c2
        exact dense_lowered hlow c2 d2
      have hm0 : 1 ≤ m' := by
        have := (dense_lt d2).2 _ (List.mem_map_of_mem mr)
        omega
      have l1 := hl rs[k].1.state.lineNumber
      have l2 := hl (m' - 1)
      rw [show m' - 1 + (newLines A + 1) = m - 1 by omega] at l2
      rw [rq, hk.2.1, l1, l2] at y1
      rw [rq, l2] at b1
      rw [rr] at y2 b2
      omega
  have hpxB : ∀ i j c, textPx d.fontDefinition qB i j c = textPx d.fontDefinition rs i j c := by
    intro i j
    refine textPx_pairs (pairwise2_get hlenB fun k h1 h2 => ?_)
    obtain ⟨k1, k2⟩ := hsameB k h1 h2
    have mq : qB[k] ∈ qB := List.getElem_mem h1
    have mq' : qB[k] ∈ qA ++ (qN ++ qB) := List.mem_append_right _ (List.mem_append_right _ mq)
    have mr : rs[k] ∈ rs := List.getElem_mem h2
    rw [k2]
    refine ⟨lightsAt_lowered k1, fun _ => ?_⟩
    rw [(q4 _ (List.mem_map_of_mem mq')).2.1, (r4 _ (List.mem_map_of_mem mr)).2.1]
    congr 1
    exact congrArg TextAttr.foreground (lowered_attr k1).1
  rw [textAt_iff] at q5 r5
  have hlit : ∃ q ∈ qA ++ qN, LightsAt d.fontDefinition q.1 q.2.1 q.2.2 i j := by
    refine Classical.byContradiction fun hno => hne ?_
    rw [q5, r5]
    show textPx _ (qA ++ (qN ++ qB)) i j (a.px i j) = textPx _ rs i j (a.px i j)
    rw [← List.append_assoc, textPx_append, textPx_unlit (fun q hq hl => hno ⟨q, hq, hl⟩), hpxB]
  obtain ⟨q, hq, f, es, l1, l2, l3⟩ := hlit
  have mq : q ∈ qA ++ (qN ++ qB) := by
    rw [← List.append_assoc]; exact List.mem_append_left _ hq
  have rq := (q4 _ (List.mem_map_of_mem mq)).1
  obtain ⟨qx, qy⟩ := qat _ mq
  have hpc : pieceOf q.1 = pieceOf (spanOf d rect (pieceOf q.1)) := (pieceOf_spanOf d rect _).symm
  have hlp : ((qA ++ (qN ++ qB)).map Prod.fst).map pieceOf =
      (layoutOf d t sp rect (us ++ (A ++ .newLine s :: ws))).map pieceOf := by
    rw [q0, layoutOf, map_spanOf]
  have qy' : AtY d (layoutOf d t sp rect (us ++ (A ++ .newLine s :: ws))) (spanOf d rect (pieceOf q.1)) q.2.2 := atY_pieces hlp hpc rq qy
  have qx' : AtX d (layoutOf d t sp rect (us ++ (A ++ .newLine s :: ws))) (spanOf d rect (pieceOf q.1)) q.2.1 := by
    refine atX_pieces hlp hpc rq (fun u hu e => ?_) qx
    rw [ly'] at hu
    obtain ⟨p, _, rfl⟩ := List.mem_map.1 hu
    rw [pieceOf_spanOf, pieceOf_spanOf] at e
    rw [e]
  refine ⟨spanOf d rect (pieceOf q.1), ?_, ⟨q.2.1, q.2.2, f, es, qx', qy', fontOf_pieces hpc l1, l2, ?_⟩, ?_⟩
  · rw [ly', ly, ← List.append_assoc, List.map_append, List.length_append, List.length_map, List.length_map, hlenB,
      List.length_map, Nat.add_sub_cancel]
    rw [show (qA ++ qN).length = ((qA ++ qN).map fun p => spanOf d rect (pieceOf p.1)).length by simp, List.take_left]
    exact List.mem_map_of_mem hq
  · rw [← charSpacing_pieces hpc]; exact l3
  · intro o ho y hy
    rw [ly] at ho
    obtain ⟨p, hp, rfl⟩ := List.mem_map.1 ho
    obtain ⟨k, hk, rfl⟩ := List.mem_iff_getElem.1 hp
    have hk' : k < qB.length := by rw [hlenB]; exact hk
    obtain ⟨k1, k2⟩ := hsameB k hk' hk
    have mo : qB[k] ∈ qA ++ (qN ++ qB) := List.mem_append_right _ (List.mem_append_right _ (List.getElem_mem hk'))
    obtain ⟨_, oy⟩ := qat _ mo
    have ro := (q4 _ (List.mem_map_of_mem mo)).1
    have hlo : (layoutOf d t sp rect (us ++ ws)).map pieceOf = (rs.map Prod.fst).map pieceOf := by
      rw [r0, layoutOf, map_spanOf]
    have ey : y = qB[k].2.2 := by
      refine atY_unique (atY_pieces hlo (pieceOf_spanOf d rect _) ?_ hy) (s := rs[k].1) ?_
      · exact (r4 _ (List.mem_map_of_mem hp)).1.symm
      · rw [k2]; exact (rat _ hp).2
    obtain ⟨g, hg⟩ : ∃ g, FontOf d.fontDefinition qB[k].1 g := by
      obtain ⟨g, _, _, hg, _⟩ := oy; exact ⟨g, hg⟩
    have hline : q.1.state.lineNumber < qB[k].1.state.lineNumber := by
      have h1 := hF q.1 (by rw [← List.map_append]; exact List.mem_map_of_mem hq)
      have h2 := k1.2.1
      omega
    have jq := hallQ _ (List.mem_map_of_mem mq)
    have jo := hallQ _ (List.mem_map_of_mem mo)
    have := (atY_order (List.mem_map_of_mem mo) (jq.trans jo.symm) hline (rq.trans ro.symm) qy oy l1 hg
      fun hmid => by rw [jq] at hmid; cases hmid).1
    rw [ey]
    have := (lightsAt_inside ⟨f, es, l1, l2, l3⟩ l1 ⟨f, es, l1, l2, rfl⟩).2.2.2
    omega

/-! ### text at the right -/

theorem pieces_types {dflt : TextAttr} (ws : List Value) (hw : ∀ w ∈ ws, TypesOnLine w) : ∀ {a sp l b},
    (∀ p ∈ pieces dflt a sp l b ws, p.attr.justPage = a.justPage ∧ p.attr.justLine = a.justLine ∧ p.line = l ∧
      p.attr.fontNum = a.fontNum) ∧
    (∀ b', pieces dflt a sp l b' ws = pieces dflt a sp l b ws) ∧ lineEnd dflt a l ws = l ∧ ws.foldl spacingAfter sp = sp := by
  induction ws with
  | nil => intro a sp l b; exact ⟨by simp [pieces], fun _ => rfl, rfl, rfl⟩
  | cons w ws ih =>
    intro a sp l b
    have hp := hw w (List.mem_cons_self ..)
    have hi := fun {a sp l b} => @ih (fun v hv => hw v (List.mem_cons_of_mem _ hv)) a sp l b
    have hs : spacingAfter sp w = sp := by cases w <;> first | exact hp.elim | rfl
    have hl : lineAfter dflt a l w = l := by cases w <;> first | exact hp.elim | rfl
    have ha : (TextAttr.apply dflt a w).justPage = a.justPage ∧ (TextAttr.apply dflt a w).justLine = a.justLine ∧
        (TextAttr.apply dflt a w).fontNum = a.fontNum := by
      cases w <;> first | exact hp.elim | exact ⟨rfl, rfl, rfl⟩
    have hpc : ∀ b', piece a sp l b' w = piece a sp l b w := by
      intro b'
      cases w <;> first | exact hp.elim | rfl
    refine ⟨?_, ?_, ?_, ?_⟩
    · intro p hm
      unfold pieces at hm
      rw [hs, hl] at hm
      rcases List.mem_append.1 hm with hm | hm
      · cases w <;> first | exact hp.elim | (simp only [piece, List.mem_singleton] at hm; subst hm; exact ⟨rfl, rfl, rfl, rfl⟩) |
          (simp [piece] at hm)
      · obtain ⟨h1, h2, h3, h4⟩ := hi.1 p hm
        exact ⟨h1.trans ha.1, h2.trans ha.2.1, h3, h4.trans ha.2.2⟩
    · intro b'
      unfold pieces
      rw [hs, hl, hpc b', (hi (b := blankAfter b w)).2.1 (blankAfter b' w)]
    · show lineEnd dflt _ (lineAfter dflt a l w) ws = l
      rw [hl]
      exact (hi (sp := sp) (b := b)).2.2.1
    · rw [List.foldl_cons, hs]
      exact (hi (a := a) (l := l) (b := b)).2.2.2

/-- on a line of one font the heights of the texts do not matter -/
theorem atY_line {d : Dms} {W : List Span} {s : Span} {y : Nat} {f : Font} (hs : s ∈ W)
    (hall : ∀ w ∈ W, w.state.justPage = s.state.justPage ∧ w.state.lineNumber = 0 ∧ w.state.fontNum = s.state.fontNum)
    (hf : FontOf d.fontDefinition s f) (h : AtY d W s y) :
    y + f.height.toNat =
      let b := linesTop s.state.textRectangle s.state.justPage f.height.toNat + f.height.toNat
      if s.state.justPage = .middle then cellEdge (signCellHeight d) b else b := by
  obtain ⟨f', m, total, h1, h2, h3, h4, h5⟩ := h
  obtain rfl := fontOf_unique hf h1
  have e : samePage W s = W := samePage_all fun w hw => (hall w hw).1
  rw [e] at h2 h3 h5
  have hm : m ≤ 1 := by
    refine Classical.byContradiction fun hc => ?_
    obtain ⟨w, w1, w2⟩ := dense_full h2 1 (by omega) (by omega)
    have := (hall w w1).2.1
    omega
  have hh : lineHeight d.fontDefinition W 0 = f.height.toNat := by
    refine Nat.le_antisymm ?_ ?_
    · refine largest_le fun a ha => ?_
      obtain ⟨w, w1, rfl⟩ := List.mem_map.1 ha
      have := (hall w (List.mem_filter.1 w1).1).2.2
      unfold ofFont
      rw [this, hf.1]
      exact Nat.le_refl _
    · have := lineHeight_font hs hf
      rwa [(hall s hs).2.1] at this
  rw [show m - 1 = 0 by omega] at h3
  rw [(hall s hs).2.1] at h5
  simp only [linesHeight, hh] at h3 h5
  rw [h3] at h5
  exact h5

theorem sameLine_all {W : List Span} {s : Span} (h : ∀ w ∈ W, w.state.justPage = s.state.justPage ∧
    w.state.lineNumber = s.state.lineNumber ∧ w.state.justLine = s.state.justLine) : sameLine W s = W :=
  List.filter_eq_self.2 fun w hw => by simpa using h w hw

/-- at the right, the place depends on the text itself and the texts after it -/
theorem atX_right {d : Dms} {pre post pre' post' : List Span} {s s' : Span} {x x' : Nat}
    (ho : Ordered (pre ++ s :: post)) (ho' : Ordered (pre' ++ s' :: post'))
    (h1 : ∀ w ∈ pre ++ s :: post, w.state.justPage = s.state.justPage ∧
      w.state.lineNumber = s.state.lineNumber ∧ w.state.justLine = s.state.justLine)
    (h2 : ∀ w ∈ pre' ++ s' :: post', w.state.justPage = s'.state.justPage ∧
      w.state.lineNumber = s'.state.lineNumber ∧ w.state.justLine = s'.state.justLine)
    (hj : s.state.justLine = .right) (hs : pieceOf s = pieceOf s') (hp : post.map pieceOf = post'.map pieceOf)
    (hr : s.state.textRectangle = s'.state.textRectangle)
    (hx : AtX d (pre ++ s :: post) s x) (hx' : AtX d (pre' ++ s' :: post') s' x') : x = x' := by
  obtain ⟨u, v, n, total, e1, ⟨w, k1, k2⟩, k3, k4, k5⟩ := hx
  obtain ⟨u', v', n', total', e1', ⟨w', k1', k2'⟩, k3', k4', k5'⟩ := hx'
  have hj' : s'.state.justLine = .right := by
    rw [← hj]; exact ((textAttr_eq (pieceOf_eq hs).1).2.2.2.1).symm
  have p1 := ordered_sameLine (s := s) ho
  have p2 := ordered_sameLine (s := s') ho'
  rw [sameLine_all h1] at e1 k3 p1
  rw [sameLine_all h2] at e1' k3' p2
  obtain rfl := split_unique rfl e1 p1
  obtain rfl := split_unique rfl e1' p2
  obtain ⟨a, b, a1, a2, rfl⟩ := lineWidth_split k3
  obtain ⟨a', b', a1', a2', rfl⟩ := lineWidth_split k3'
  obtain rfl := lineWidth_unique k2 a1
  obtain rfl := lineWidth_unique k2' a1'
  obtain rfl := lineWidth_unique (lineWidth_pieces a2 (p' := some s') (by simp [hs]) hp) a2'
  obtain rfl := spanWidth_unique (spanWidth_pieces hs k1) k1'
  rw [hj, if_neg (by decide)] at k5
  rw [hj', if_neg (by decide)] at k5'
  simp only [lineLeft] at k5 k5'
  rw [hr] at k4 k5
  omega

theorem tidy_types {dflt : TextAttr} (ws : List Value) (hw : ∀ w ∈ ws, TypesOnLine w) : ∀ {a fr b}, Tidy dflt a fr b ws := by
  induction ws with
  | nil => intro a fr b; trivial
  | cons w ws ih =>
    intro a fr b
    refine ⟨?_, ih fun v hv => hw v (List.mem_cons_of_mem _ hv)⟩
    have hp := hw w (List.mem_cons_self ..)
    cases w <;> first | exact hp.elim | trivial

theorem textDrawn_left {d : Dms} {t sp rect us A ws} {a b b' : Raster} (hu : ∀ u ∈ us, PutsNothing u)
    (ht : Tidy (signAttr d) t true true us)
    (hj : (us.foldl (TextAttr.apply (signAttr d)) t).justLine = .right)
    (hA : ∀ v ∈ A, TypesOnLine v) (hw : ∀ v ∈ ws, TypesOnLine v)
    (hst : A.foldl (TextAttr.apply (signAttr d)) (us.foldl (TextAttr.apply (signAttr d)) t) =
      us.foldl (TextAttr.apply (signAttr d)) t)
    (h : TextDrawn d t sp rect (us ++ ws) a b) (h' : TextDrawn d t sp rect (us ++ (A ++ ws)) a b') (i j : Nat)
    (hne : b'.px i j ≠ b.px i j) :
    LitLeft d (layoutOf d t sp rect (us ++ ws)) (layoutOf d t sp rect (us ++ (A ++ ws))) i j := by
  obtain ⟨rs, r1, ⟨r2, r3⟩, r4, r6, r5, r7, _⟩ := h
  obtain ⟨qs, q1, ⟨q2, q3⟩, q4, q6, q5, q7, _⟩ := h'
  have ly := layoutOf_pieces (rect := rect) r1
  have ly' := layoutOf_pieces (rect := rect) q1
  have r0 := r1
  have q0 := q1
  obtain ⟨qo, qat⟩ := q7 ((tidy_puts hu _).2 ⟨ht, tidy_types _ fun v hv => (List.mem_append.1 hv).elim (hA v) (hw v)⟩)
  obtain ⟨ro, rat⟩ := r7 ((tidy_puts hu _).2 ⟨ht, tidy_types _ hw⟩)
  rw [(pieces_puts hu _ t sp).1] at q1 r1
  generalize us.foldl (TextAttr.apply (signAttr d)) t = t0 at *
  have q00 := q1
  -- split the texts
  rw [pieces_append] at q1
  obtain ⟨A', C', e1, e2, e3⟩ := List.map_eq_append_iff.1 q1
  obtain ⟨qA, qB, rfl, rfl, rfl⟩ := List.map_eq_append_iff.1 e1
  have hBR : (qB.map Prod.fst).map pieceOf = (rs.map Prod.fst).map pieceOf := by
    rw [e3, r1, hst, (pieces_types A hA (b := true) (sp := sp)).2.2.1,
      (pieces_types A hA (dflt := signAttr d) (a := t0) (l := 0) (b := true)).2.2.2, (pieces_types ws hw).2.1]
  have hlenB : qB.length = rs.length := by simpa using congrArg List.length hBR
  have hallQ : ∀ w ∈ (qA ++ qB).map Prod.fst, w.state.justPage = t0.justPage ∧ w.state.justLine = .right ∧
      w.state.lineNumber = 0 ∧ w.state.fontNum = t0.fontNum := by
    intro w hm
    have := (pieces_types (A ++ ws) (fun v hv => (List.mem_append.1 hv).elim (hA v) (hw v))).1 (pieceOf w)
      (q00 ▸ List.mem_map_of_mem hm)
    rw [hj] at this
    exact this
  have hallR : ∀ w ∈ rs.map Prod.fst, w.state.justPage = t0.justPage ∧ w.state.justLine = .right ∧
      w.state.lineNumber = 0 ∧ w.state.fontNum = t0.fontNum := by
    intro w hm
    have := (pieces_types ws hw).1 (pieceOf w) (r1 ▸ List.mem_map_of_mem hm)
    rw [hj] at this
    exact this
  have hsameB : ∀ k (h1 : k < qB.length) (h2 : k < rs.length), pieceOf qB[k].1 = pieceOf rs[k].1 ∧ qB[k].2 = rs[k].2 := by
    intro k h1 h2
    have hk : pieceOf qB[k].1 = pieceOf rs[k].1 := by
      have := congrArg (·[k]?) hBR
      simpa [h1, h2] using this
    have mq : qB[k] ∈ qB := List.getElem_mem h1
    have mq' : qB[k] ∈ qA ++ qB := List.mem_append_right _ mq
    have mr : rs[k] ∈ rs := List.getElem_mem h2
    have rq := (q4 _ (List.mem_map_of_mem mq')).1
    have rr := (r4 _ (List.mem_map_of_mem mr)).1
    obtain ⟨qx, qy⟩ := qat _ mq'
    obtain ⟨rx, ry⟩ := rat _ mr
    have jq := hallQ _ (List.mem_map_of_mem mq')
    have jr := hallR _ (List.mem_map_of_mem mr)
    refine ⟨hk, Prod.ext ?_ ?_⟩
    · have sq : (qA ++ qB).map Prod.fst = (qA ++ qB.take k).map Prod.fst ++ qB[k].1 :: (qB.drop (k + 1)).map Prod.fst := by
        rw [← List.map_cons, ← List.map_append, List.append_assoc, ← List.drop_eq_getElem_cons h1, List.take_append_drop]
      have sr : rs.map Prod.fst = (rs.take k).map Prod.fst ++ rs[k].1 :: (rs.drop (k + 1)).map Prod.fst := by
        rw [← List.map_cons, ← List.map_append, ← List.drop_eq_getElem_cons h2, List.take_append_drop]
      rw [sq] at qo qx
      rw [sr] at ro rx
      refine atX_right qo ro ?_ ?_ jq.2.1 hk ?_ (rq.trans rr.symm) qx rx
      · rw [← sq]
        intro w hm
        have hw := hallQ w hm
        exact ⟨hw.1.trans jq.1.symm, hw.2.2.1.trans jq.2.2.1.symm, hw.2.1.trans jq.2.1.symm⟩
      · rw [← sr]
        intro w hm
        have hw := hallR w hm
        exact ⟨hw.1.trans jr.1.symm, hw.2.2.1.trans jr.2.2.1.symm, hw.2.1.trans jr.2.1.symm⟩
      · rw [List.map_drop, List.map_drop, List.map_drop, List.map_drop, hBR]
    · obtain ⟨f, hfq⟩ : ∃ f, FontOf d.fontDefinition qB[k].1 f := by
        obtain ⟨f, _, _, hf, _⟩ := qy; exact ⟨f, hf⟩
      have y1 := atY_line (List.mem_map_of_mem mq') (fun w hm => by
        have hw := hallQ w hm
        exact ⟨hw.1.trans jq.1.symm, hw.2.2.1, hw.2.2.2.trans jq.2.2.2.symm⟩) hfq qy
      have y2 := atY_line (List.mem_map_of_mem mr) (fun w hm => by
        have hw := hallR w hm
        exact ⟨hw.1.trans jr.1.symm, hw.2.2.1, hw.2.2.2.trans jr.2.2.2.symm⟩) (fontOf_pieces hk hfq) ry
      rw [rq, jq.1] at y1
      rw [rr, jr.1] at y2
      exact Nat.add_right_cancel (y1.trans y2.symm)
  have hpxB : ∀ i j c, textPx d.fontDefinition qB i j c = textPx d.fontDefinition rs i j c := by
    intro i j
    refine textPx_pairs (pairwise2_get hlenB fun k h1 h2 => ?_)
    obtain ⟨k1, k2⟩ := hsameB k h1 h2
    have mq' : qB[k] ∈ qA ++ qB := List.mem_append_right _ (List.getElem_mem h1)
    have mr : rs[k] ∈ rs := List.getElem_mem h2
    rw [k2]
    refine ⟨⟨lightsAt_pieces k1, lightsAt_pieces k1.symm⟩, fun _ => ?_⟩
    rw [(q4 _ (List.mem_map_of_mem mq')).2.1, (r4 _ (List.mem_map_of_mem mr)).2.1, k1]
  rw [textAt_iff] at q5 r5
  have hlit : ∃ q ∈ qA, LightsAt d.fontDefinition q.1 q.2.1 q.2.2 i j := by
    refine Classical.byContradiction fun hno => hne ?_
    rw [q5, r5]
    show textPx _ (qA ++ qB) i j (a.px i j) = textPx _ rs i j (a.px i j)
    rw [textPx_append, textPx_unlit (fun q hq hl => hno ⟨q, hq, hl⟩), hpxB]
  obtain ⟨q, hq, f, es, l1, l2, l3⟩ := hlit
  have mq : q ∈ qA ++ qB := List.mem_append_left _ hq
  have rq := (q4 _ (List.mem_map_of_mem mq)).1
  obtain ⟨qx, qy⟩ := qat _ mq
  have hpc : pieceOf q.1 = pieceOf (spanOf d rect (pieceOf q.1)) := (pieceOf_spanOf d rect _).symm
  have hlp : ((qA ++ qB).map Prod.fst).map pieceOf = (layoutOf d t sp rect (us ++ (A ++ ws))).map pieceOf := by
    rw [q0, layoutOf, map_spanOf]
  have qy' : AtY d (layoutOf d t sp rect (us ++ (A ++ ws))) (spanOf d rect (pieceOf q.1)) q.2.2 := atY_pieces hlp hpc rq qy
  have qx' : AtX d (layoutOf d t sp rect (us ++ (A ++ ws))) (spanOf d rect (pieceOf q.1)) q.2.1 := by
    refine atX_pieces hlp hpc rq (fun u hu e => ?_) qx
    rw [ly'] at hu
    obtain ⟨p, _, rfl⟩ := List.mem_map.1 hu
    rw [pieceOf_spanOf, pieceOf_spanOf] at e
    rw [e]
  refine ⟨spanOf d rect (pieceOf q.1), ?_, ⟨q.2.1, q.2.2, f, es, qx', qy', fontOf_pieces hpc l1, l2, ?_⟩, ?_⟩
  · rw [ly', ly, List.map_append, List.length_append, List.length_map, List.length_map, hlenB,
      List.length_map, Nat.add_sub_cancel]
    rw [show qA.length = (qA.map fun p => spanOf d rect (pieceOf p.1)).length by simp, List.take_left]
    exact List.mem_map_of_mem hq
  · rw [← charSpacing_pieces hpc]; exact l3
  · intro o ho x hx
    have hro : o.state.textRectangle = rect := by
      obtain ⟨p, _, rfl⟩ := List.mem_map.1 ho
      rfl
    have hlo : (layoutOf d t sp rect (us ++ ws)).map pieceOf = (rs.map Prod.fst).map pieceOf := by
      rw [r0, layoutOf, map_spanOf]
    obtain ⟨u, hu', hpu, hxu⟩ := atX_back hlo (fun u hu => by
      obtain ⟨p, hp, rfl⟩ := List.mem_map.1 hu
      rw [hro]
      exact (r4 _ (List.mem_map_of_mem hp)).1) hx
    obtain ⟨p, hp, rfl⟩ := List.mem_map.1 hu'
    obtain ⟨k, hk, rfl⟩ := List.mem_iff_getElem.1 hp
    have hk' : k < qB.length := by rw [hlenB]; exact hk
    obtain ⟨k1, k2⟩ := hsameB k hk' hk
    have ex : x = qB[k].2.1 := by
      rw [k2]; exact atX_unique ro hxu (rat _ hp).1
    have mo : qB[k] ∈ qA ++ qB := List.mem_append_right _ (List.getElem_mem hk')
    obtain ⟨ox, _⟩ := qat _ mo
    have jq := hallQ _ (List.mem_map_of_mem mq)
    have jo := hallQ _ (List.mem_map_of_mem mo)
    obtain ⟨l1', l2', hsA⟩ := List.append_of_mem (List.mem_map_of_mem (f := Prod.fst) hq)
    obtain ⟨m1, m2, hsB⟩ := List.append_of_mem (List.mem_map_of_mem (f := Prod.fst) (List.getElem_mem hk'))
    have := (atX_order qo (l1 := l1') (a := q.1) (l2 := l2' ++ m1) (b := qB[k].1) (l3 := m2)
      (by rw [List.map_append, hsA, hsB]; simp) (jq.1.trans jo.1.symm) (jq.2.2.1.trans jo.2.2.1.symm) (jq.2.1.trans jo.2.1.symm)
      (rq.trans (q4 _ (List.mem_map_of_mem mo)).1.symm) qx ox ⟨f, es, l1, l2, rfl⟩
      (fun hc => by rw [jq.2.1] at hc; cases hc)).1
    have := (lightsAt_inside ⟨f, es, l1, l2, l3⟩ l1 ⟨f, es, l1, l2, rfl⟩).2.1
    omega

end Ntcip
