import Verif.Lemmas.Onward
/-
A longer text at the end of a text rectangle.
-/
namespace Ntcip
open Spec

theorem dense_bareSpan {ss : List Span} : ∀ {k n ss'}, ss.map bareSpan = ss'.map bareSpan → Dense k ss n → Dense k ss' n := by
  induction ss with
  | nil => intro k n ss' h hd; rw [List.map_nil, List.nil_eq, List.map_eq_nil_iff] at h; subst h; exact hd
  | cons s ss ih =>
    intro k n ss' h hd
    cases ss' with
    | nil => simp at h
    | cons s' ss' =>
      simp only [List.map_cons, List.cons.injEq] at h
      have hl : s.state = s'.state := show (bareSpan s).state = (bareSpan s').state by rw [h.1]
      cases hd with
      | old h1 h2 => exact .old (by rw [← hl]; exact h1) (ih h.2 h2)
      | new h1 h2 => exact .new (by rw [← hl]; exact h1) (ih h.2 h2)

/-- the texts do not matter for rows -/
theorem atY_bareSpan {d : Dms} {ss ss' : List Span} {s s' : Span} {y : Nat} (hl : ss.map bareSpan = ss'.map bareSpan)
    (hs : s.state = s'.state) (h : AtY d ss s y) : AtY d ss' s' y := by
  obtain ⟨f, m, total, h1, h2, h3, h4, h5⟩ := h
  have e : (samePage ss s).map bareSpan = (samePage ss' s').map bareSpan := by
    rw [← samePage_bare, ← samePage_bare, hl]
    unfold samePage bareSpan
    rw [hs]
  have eh : ∀ full t n, linesHeight full t (samePage ss s) n = linesHeight full t (samePage ss' s') n := by
    intro full t n
    rw [← linesHeight_bare full t (samePage ss s), e, linesHeight_bare]
  refine ⟨f, m, total, ?_, dense_bareSpan e h2, ?_, ?_, ?_⟩
  · unfold FontOf at h1 ⊢; rw [← hs]; exact h1
  · rw [← eh]; exact h3
  · rw [← hs]; exact h4
  · rw [← eh, ← hs]; exact h5

/-- the width before a text does not depend on it -/
theorem before_typed {t : FontTable} {pre pre' : List Span} {z z' : Span} {n n' : Nat} (hp : pre'.map pieceOf = pre.map pieceOf)
    (hz : pieceOf { z' with str := z.str } = pieceOf z) (h : Before t pre z n) (h' : Before t pre' z' n') : n = n' := by
  obtain ⟨w, h1, h2⟩ := h
  obtain ⟨w', h1', h2'⟩ := h'
  rcases List.eq_nil_or_concat pre with rfl | ⟨pre0, c, rfl⟩
  · rw [List.map_nil, List.map_eq_nil_iff] at hp
    subst hp
    generalize hk : n + w = k at h2
    generalize hk' : n' + w' = k' at h2'
    rw [List.nil_append] at h2 h2'
    cases h2 with
    | @first _ _ a b k1 k2 =>
    cases h2' with
    | @first _ _ a' b' k1' k2' =>
      cases k2
      cases k2'
      have := spanWidth_unique h1 k1
      have := spanWidth_unique h1' k1'
      omega
  · rw [List.concat_eq_append] at hp h2
    rw [List.map_append, List.map_cons, List.map_nil] at hp
    obtain ⟨pre0', r, rfl, e2, e3⟩ := List.map_eq_append_iff.1 hp
    obtain ⟨c', r', rfl, e4, e5⟩ := List.map_eq_cons_iff.1 e3
    rw [List.map_eq_nil_iff] at e5
    subst e5
    rw [List.append_assoc] at h2 h2'
    obtain ⟨n1, n2, k1, k2, k3⟩ := lineWidth_split h2
    obtain ⟨n1', n2', k1', k2', k3'⟩ := lineWidth_split h2'
    have e1 : n1 = n1' := lineWidth_unique k1 (lineWidth_pieces k1' rfl (by simp [e2, e4]))
    cases k2 with
    | @next _ _ _ g a b g1 g2 g3 =>
    cases k2' with
    | @next _ _ _ g' a' b' g1' g2' g3' =>
      cases g3
      cases g3'
      have := spanWidth_unique h1 g2
      have := spanWidth_unique h1' g2'
      have hg : Gap t c' { z' with str := z.str } g' := g1'
      have := gap_unique g1 (gap_pieces e4 hz hg)
      omega

open Classical in
theorem textPx_one {t : FontTable} {p : Span × Nat × Nat} {i j c} (hl : LightsAt t p.1 p.2.1 p.2.2 i j) :
    textPx t [p] i j c = p.1.state.colorCtx.foregroundRgb := by
  show (if _ then _ else _) = _
  rw [if_pos hl]

/-- a longer text lights the same pixels, and others to the right -/
theorem lightsAt_typed {t : FontTable} {z z' : Span} {more : Str} (hz : pieceOf { z' with str := z.str } = pieceOf z)
    (hs : z'.str = z.str ++ more) {x y i j} (h : LightsAt t z' x y i j) :
    LightsAt t z x y i j ∨ ∀ w, SpanWidth t z w → x + w ≤ i := by
  obtain ⟨f, es, h1, h2, before, e, after, row, col, e1, k1, k2, k3, e2, e3⟩ := h
  rw [hs] at h2
  obtain ⟨es1, es2, rfl, d1, d2⟩ := defined_append.1 h2
  have hf : FontOf t z f := fontOf_pieces hz (show FontOf t { z' with str := z.str } f from h1)
  have hcs : charSpacing z f = charSpacing z' f := (charSpacing_pieces hz (f := f)).symm
  rcases List.append_eq_append_iff.1 e1 with ⟨a', r1, r2⟩ | ⟨c', r1, r2⟩
  · right
    intro w hw
    obtain ⟨g, es', w1, w2, rfl⟩ := hw
    obtain rfl := fontOf_unique hf w1
    obtain rfl := defined_unique d1 w2
    rw [e2, r1, List.map_append, hcs]
    have := advance_append_le (charSpacing z' f) (es1.map (·.width.toNat)) (a'.map (·.width.toNat))
    omega
  · cases c' with
    | nil =>
      right
      intro w hw
      obtain ⟨g, es', w1, w2, rfl⟩ := hw
      obtain rfl := fontOf_unique hf w1
      obtain rfl := defined_unique d1 w2
      rw [List.append_nil] at r1
      rw [e2, r1, hcs]
      omega
    | cons c c' =>
      left
      rw [List.cons_append, List.cons.injEq] at r2
      obtain ⟨rfl, r2⟩ := r2
      exact ⟨f, es1, hf, d1, before, e, c', row, col, r1, k1, k2, k3, by rw [hcs]; exact e2, e3⟩

theorem lightsAt_longer {t : FontTable} {z z' : Span} {more : Str} (hz : pieceOf { z' with str := z.str } = pieceOf z)
    (hs : z'.str = z.str ++ more) {x y i j f es} (hf : FontOf t z' f) (hd : Defined f z'.str es) (h : LightsAt t z x y i j) :
    LightsAt t z' x y i j := by
  obtain ⟨g, es1, h1, h2, before, e, after, row, col, e1, k1, k2, k3, e2, e3⟩ := h
  have hf' : FontOf t z f := fontOf_pieces hz (show FontOf t { z' with str := z.str } f from hf)
  obtain rfl := fontOf_unique hf' h1
  have hcs : charSpacing z f = charSpacing z' f := (charSpacing_pieces hz (f := f)).symm
  refine ⟨f, es, hf, hd, ?_⟩
  rw [hs] at hd
  obtain ⟨es1', es2, rfl, d1, d2⟩ := defined_append.1 hd
  obtain rfl := defined_unique h2 d1
  exact ⟨before, e, after ++ es2, row, col, by rw [e1]; simp, k1, k2, k3, by rw [← hcs]; exact e2, e3⟩

theorem tidy_typed {dflt : TextAttr} {x y : Str} (us : List Value) : ∀ {a fr b}, Tidy dflt a fr b (us ++ [.text x]) →
    Tidy dflt a fr b (us ++ [.text y]) := by
  induction us with
  | nil => intro a fr b _; exact ⟨trivial, trivial⟩
  | cons u us ih => intro a fr b h; exact ⟨h.1, ih h.2⟩

theorem textDrawn_typed {d : Dms} {t sp rect us} {x more : Str} {a b b' : Raster}
    (ht : Tidy (signAttr d) t true true (us ++ [.text x]))
    (hb : (us.foldl (TextAttr.apply (signAttr d)) t).justLine ≠ .center ∧ (us.foldl (TextAttr.apply (signAttr d)) t).justLine ≠ .right)
    (h : TextDrawn d t sp rect (us ++ [.text x]) a b) (h' : TextDrawn d t sp rect (us ++ [.text (x ++ more)]) a b')
    (i j : Nat) (hne : b'.px i j ≠ b.px i j) :
    LitTyped d (layoutOf d t sp rect (us ++ [.text x])) (layoutOf d t sp rect (us ++ [.text (x ++ more)])) i j := by
  obtain ⟨ps, p1, ⟨p2, -⟩, p4, -, p5, p7, -⟩ := h
  obtain ⟨qs, q1, ⟨q2, -⟩, q4, -, q5, q7, -⟩ := h'
  obtain ⟨po, pat⟩ := p7 ht
  obtain ⟨qo, qat⟩ := q7 (tidy_typed us ht)
  have ly := layoutOf_pieces (rect := rect) p1
  have ly' := layoutOf_pieces (rect := rect) q1
  have hnum : numbers (signAttr d) t 0 true (us ++ [.text (x ++ more)]) = numbers (signAttr d) t 0 true (us ++ [.text x]) := by
    have : ∀ us a n b, numbers (signAttr d) a n b (us ++ [.text (x ++ more)]) = numbers (signAttr d) a n b (us ++ [.text x]) := by
      intro us
      induction us with
      | nil => intro a n b; rfl
      | cons u us ih => intro a n b; show _ ++ numbers _ _ _ _ (us ++ _) = _ ++ numbers _ _ _ _ (us ++ _); rw [ih]
    exact this ..
  rw [hnum, ← p2] at q2
  rw [pieces_append] at p1 q1
  -- split the texts
  obtain ⟨A, B, e1, e2, e3⟩ := List.map_eq_append_iff.1 p1
  obtain ⟨pA, pB, rfl, rfl, rfl⟩ := List.map_eq_append_iff.1 e1
  obtain ⟨zs, rB, e4, ez, e5⟩ := List.map_eq_cons_iff.1 e3
  obtain rfl := List.map_eq_nil_iff.1 e5
  obtain ⟨z, rB', rfl, rfl, e5⟩ := List.map_eq_cons_iff.1 e4
  obtain rfl := List.map_eq_nil_iff.1 e5
  obtain ⟨A', B', f1, f2, f3⟩ := List.map_eq_append_iff.1 q1
  obtain ⟨qA, qB, rfl, rfl, rfl⟩ := List.map_eq_append_iff.1 f1
  obtain ⟨zs', rB', f4, fz, f5⟩ := List.map_eq_cons_iff.1 f3
  obtain rfl := List.map_eq_nil_iff.1 f5
  obtain ⟨z', rB'', rfl, rfl, f5⟩ := List.map_eq_cons_iff.1 f4
  obtain rfl := List.map_eq_nil_iff.1 f5
  clear e4 f4 e1 f1 e3 f3
  have hstr : z.1.str = x := congrArg Piece.str ez
  have hstr' : z'.1.str = z.1.str ++ more := by rw [hstr]; exact congrArg Piece.str fz
  have hz : pieceOf { z'.1 with str := z.1.str } = pieceOf z.1 := by
    rw [ez, hstr]
    have : pieceOf { z'.1 with str := x } = { pieceOf z'.1 with str := x } := rfl
    rw [this, fz]
  have hlen : qA.length = pA.length := by
    have := congrArg List.length (f2.trans e2.symm)
    simpa using this
  rw [List.map_append, List.map_append, List.map_append, List.map_append] at q2
  have hnA : (qA.map Prod.fst).map (·.state.spanNumber) = (pA.map Prod.fst).map (·.state.spanNumber) :=
    List.append_inj_left q2 (by simp [hlen])
  have hnz : z'.1.state.spanNumber = z.1.state.spanNumber := by
    have := List.append_inj_right q2 (by simp [hlen])
    simpa using this
  have hkey : (qA.map Prod.fst).map placeKey = (pA.map Prod.fst).map placeKey := by
    have e4 := f2.trans e2.symm
    have z : ∀ l : List Span, l.map placeKey = (l.map pieceOf).zip (l.map (·.state.spanNumber)) := by
      intro l
      induction l with
      | nil => rfl
      | cons a l ih => simp only [List.map_cons, List.zip_cons_cons, ih]; rfl
    rw [z, z, e4, hnA]
  rw [List.map_append, List.map_cons, List.map_nil] at po pat qo qat
  -- all texts are at the left of the last one
  have hjz : z.1.state.justLine ≠ .center ∧ z.1.state.justLine ≠ .right := by
    have : z.1.state.justLine = (pieceOf z.1).attr.justLine := rfl
    rw [this, ez]; exact hb
  have hjz' : z'.1.state.justLine ≠ .center ∧ z'.1.state.justLine ≠ .right := by
    have : z'.1.state.justLine = (pieceOf z'.1).attr.justLine := rfl
    rw [this, fz]; exact hb
  have gr : ∀ {z : Span} (_ : z.state.justLine ≠ .center ∧ z.state.justLine ≠ .right) (s : Span),
      ∀ b ∈ [z], GoesRight (pieceOf s) (pieceOf b) := by
    intro z hz s b hb _ _ h3
    rw [List.mem_singleton] at hb
    subst hb
    rw [h3]
    exact hz
  have mz : z ∈ pA ++ [z] := List.mem_append_right _ (List.mem_singleton_self _)
  have mz' : z' ∈ qA ++ [z'] := List.mem_append_right _ (List.mem_singleton_self _)
  have rz := (p4 _ (List.mem_map_of_mem mz)).1
  have rz' := (q4 _ (List.mem_map_of_mem mz')).1
  -- the list of the longer message with the shorter text
  have hbare : (qA.map Prod.fst ++ [z'.1]).map bareSpan = (qA.map Prod.fst ++ [{ z'.1 with str := z.1.str }]).map bareSpan := by
    rw [List.map_append, List.map_append]; rfl
  have hpc : (qA.map Prod.fst ++ [{ z'.1 with str := z.1.str }]).map pieceOf = (pA.map Prod.fst ++ [z.1]).map pieceOf := by
    rw [List.map_append, List.map_append, f2, e2, List.map_cons, List.map_cons, hz]
  have hsame : ∀ k (h1 : k < qA.length) (h2 : k < pA.length), pieceOf qA[k].1 = pieceOf pA[k].1 ∧ qA[k].2 = pA[k].2 := by
    intro k h1 h2
    have hk : placeKey qA[k].1 = placeKey pA[k].1 := by
      have := congrArg (·[k]?) hkey
      simpa [h1, h2] using this
    have hk1 : pieceOf qA[k].1 = pieceOf pA[k].1 := congrArg Prod.fst hk
    have mq : qA[k] ∈ qA := List.getElem_mem h1
    have mp : pA[k] ∈ pA := List.getElem_mem h2
    have rq := (q4 _ (List.mem_map_of_mem (List.mem_append_left [z'] mq))).1
    have rp := (p4 _ (List.mem_map_of_mem (List.mem_append_left [z] mp))).1
    obtain ⟨qx, qy⟩ := qat _ (List.mem_append_left [z'] mq)
    obtain ⟨px, py⟩ := pat _ (List.mem_append_left [z] mp)
    have ax := atX_onward qo (List.mem_map_of_mem mq) (gr hjz' _) qx
    have bx := atX_onward po (List.mem_map_of_mem mp) (gr hjz _) px
    have ex := atX_keys (List.pairwise_append.1 po).1 (List.mem_map_of_mem mp) hkey hk (rq.trans rp.symm) ax bx
    have ey := atY_pieces hpc hk1 (rq.trans rp.symm) (atY_bareSpan hbare rfl qy)
    exact ⟨hk1, Prod.ext ex (atY_unique ey py)⟩
  obtain ⟨zx, zy⟩ := pat _ mz
  obtain ⟨zx', zy'⟩ := qat _ mz'
  have hzat : z'.2 = z.2 := by
    have ey := atY_pieces hpc hz (s := { z'.1 with str := z.1.str }) (rz'.trans rz.symm) (atY_bareSpan hbare rfl zy')
    refine Prod.ext ?_ (atY_unique ey zy)
    obtain ⟨pre, post, n, total, h1, h2, h3, h4, h5⟩ := zx
    obtain ⟨pre', post', n', total', h1', h2', h3', h4', h5'⟩ := zx'
    have s1 : sameLine (pA.map Prod.fst ++ [z.1]) z.1 = sameLine (pA.map Prod.fst) z.1 ++ z.1 :: [] := by
      rw [sameLine_append, sameLine_self]; rfl
    have s2 : sameLine (qA.map Prod.fst ++ [z'.1]) z'.1 = sameLine (qA.map Prod.fst) z'.1 ++ z'.1 :: [] := by
      rw [sameLine_append, sameLine_self]; rfl
    obtain rfl := split_unique h1 s1 (ordered_sameLine po)
    obtain rfl := split_unique h1' s2 (ordered_sameLine qo)
    have hpre : (sameLine (qA.map Prod.fst) z'.1).map pieceOf = (sameLine (pA.map Prod.fst) z.1).map pieceOf :=
      sameLine_pieces (s := { z'.1 with str := z.1.str }) (placeKey_pieces hkey) hz
    have hn := before_typed hpre hz h2 h2'
    have hl : ∀ {s : Span}, s.state.justLine ≠ .center ∧ s.state.justLine ≠ .right → ∀ t,
        lineLeft s.state.textRectangle s.state.justLine t = s.state.textRectangle.x.toNat - 1 := by
      intro s hj t
      unfold lineLeft
      revert hj
      cases s.state.justLine <;> simp
    rw [h5, h5', if_neg hjz.1, if_neg hjz'.1, hl hjz, hl hjz', rz, rz', hn]
  have hpx : textPx d.fontDefinition qA i j (a.px i j) = textPx d.fontDefinition pA i j (a.px i j) := by
    refine textPx_pairs (pairwise2_get hlen fun k h1 h2 => ?_) _
    obtain ⟨k1, k2⟩ := hsame k h1 h2
    have mq : qA[k] ∈ qA := List.getElem_mem h1
    have mp : pA[k] ∈ pA := List.getElem_mem h2
    rw [k2]
    refine ⟨⟨lightsAt_pieces k1, lightsAt_pieces k1.symm⟩, fun _ => ?_⟩
    rw [(q4 _ (List.mem_map_of_mem (List.mem_append_left [z'] mq))).2.1, (p4 _ (List.mem_map_of_mem (List.mem_append_left [z] mp))).2.1, k1]
  rw [textAt_iff] at p5 q5
  have hcol : z'.1.state.colorCtx.foregroundRgb = z.1.state.colorCtx.foregroundRgb := by
    rw [(q4 _ (List.mem_map_of_mem mz')).2.1, (p4 _ (List.mem_map_of_mem mz)).2.1, ez, fz]
  -- both texts have all their characters
  have hdef : ∃ f es, FontOf d.fontDefinition z'.1 f ∧ Defined f z'.1.str es := by
    obtain ⟨_, _, _, _, _, ⟨_, ⟨f, es, g1, g2, _⟩, _⟩, _⟩ := zx'
    exact ⟨f, es, g1, g2⟩
  have hlit : LightsAt d.fontDefinition z'.1 z'.2.1 z'.2.2 i j ∧ ¬ LightsAt d.fontDefinition z.1 z.2.1 z.2.2 i j := by
    refine Classical.byContradiction fun hno => hne ?_
    rw [p5, q5]
    show textPx _ (qA ++ [z']) i j (a.px i j) = textPx _ (pA ++ [z]) i j (a.px i j)
    rw [textPx_append, textPx_append, hpx]
    obtain ⟨f, es, g1, g2⟩ := hdef
    by_cases hl : LightsAt d.fontDefinition z.1 z.2.1 z.2.2 i j
    · have hl' : LightsAt d.fontDefinition z'.1 z'.2.1 z'.2.2 i j := by
        rw [hzat]; exact lightsAt_longer hz hstr' g1 g2 hl
      rw [textPx_one hl, textPx_one hl', hcol]
    · have hl' : ¬ LightsAt d.fontDefinition z'.1 z'.2.1 z'.2.2 i j := fun k => hno ⟨k, hl⟩
      rw [textPx_unlit (ps := [z']) (by simpa using hl'), textPx_unlit (ps := [z]) (by simpa using hl)]
  have hbeyond := (lightsAt_typed hz hstr' (by rw [← hzat]; exact hlit.1)).resolve_left hlit.2
  have hix : z.2.1 ≤ i := by
    obtain ⟨f, es, g1, g2⟩ := hdef
    have := (lightsAt_inside hlit.1 g1 ⟨f, es, g1, g2, rfl⟩).1
    rw [hzat] at this
    exact this
  have hpcl : pieceOf z'.1 = pieceOf (spanOf d rect (pieceOf z'.1)) := (pieceOf_spanOf d rect _).symm
  have hlp : (qA.map Prod.fst ++ [z'.1]).map pieceOf = (layoutOf d t sp rect (us ++ [.text (x ++ more)])).map pieceOf := by
    rw [ly', List.map_map, List.map_append, List.map_append, List.map_map]
    rfl
  obtain ⟨f, es, g1, g2, g3⟩ := hlit.1
  refine ⟨spanOf d rect (pieceOf z'.1), by rw [ly', List.map_append]; simp, ⟨z'.2.1, z'.2.2, f, es, ?_,
    atY_pieces hlp hpcl rz' zy', fontOf_pieces hpcl g1, g2, by rw [← charSpacing_pieces hpcl]; exact g3⟩, ?_⟩
  · refine atX_pieces hlp hpcl rz' (fun u hu e => ?_) zx'
    rw [ly'] at hu
    obtain ⟨p, _, rfl⟩ := List.mem_map.1 hu
    rw [pieceOf_spanOf, pieceOf_spanOf] at e
    rw [e]
  · intro o ho hj1 hj2 hj3 xo w hx hw'
    have hlo : (layoutOf d t sp rect (us ++ [.text x])).map pieceOf = (pA.map Prod.fst ++ [z.1]).map pieceOf := by
      rw [layoutOf, map_spanOf, pieces_append, List.map_append, e2, List.map_cons, ez]; rfl
    have ro : o.state.textRectangle = rect := by
      obtain ⟨p, _, rfl⟩ := List.mem_map.1 ho
      rfl
    obtain ⟨u, hu, hpu, hxu⟩ := atX_back hlo (fun u hu => by
      rw [ro]
      exact (p4 _ (by rw [List.map_append]; exact hu)).1) hx
    rcases List.mem_append.1 hu with hu | hu
    · obtain ⟨l1', l2', hsA⟩ := List.append_of_mem hu
      obtain ⟨_, _, j1, j2, _⟩ := textAttr_eq (pieceOf_eq hpu).1
      have j3 := (pieceOf_eq hpu).2.2.1
      obtain ⟨_, _, k1, k2, _⟩ := textAttr_eq (pieceOf_eq hz).1
      have k3 := (pieceOf_eq hz).2.2.1
      have c1 : u.state.justPage = z.1.state.justPage := (j1.trans hj1).trans k1
      have c2 : u.state.lineNumber = z.1.state.lineNumber := (j3.trans hj2).trans k3
      have c3 : u.state.justLine = z.1.state.justLine := (j2.trans hj3).trans k2
      have := (atX_order po (l1 := l1') (a := u) (l2 := l2') (b := z.1) (l3 := [])
        (by rw [hsA]; simp) c1 c2 c3
        (by rw [rz]; exact (p4 _ (by rw [List.map_append]; exact List.mem_append_left _ hu)).1) hxu zx (spanWidth_pieces hpu.symm hw')
        (fun hc => absurd (c3.symm.trans hc) hjz.1)).1
      omega
    · rw [List.mem_singleton] at hu
      subst hu
      have := atX_unique po hxu zx
      rw [this]
      exact hbeyond w (spanWidth_pieces hpu.symm hw')

end Ntcip
