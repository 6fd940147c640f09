import Verif.Spec.Onward
import Verif.Lemmas.Added
/-
Text typed on at the end of a line: the places of the texts before.
-/
namespace Ntcip
open Spec

/-! ### lines and justifications -/

/-- at the same place the line justification does not go back -/
theorem tidy_just {dflt : TextAttr} (us : List Value) : ∀ {a b} (l : Nat), Tidy dflt a false b us →
    (us.foldl (TextAttr.apply dflt) a).justPage = a.justPage → lineEnd dflt a l us = l →
    a.justLine.toNat ≤ (us.foldl (TextAttr.apply dflt) a).justLine.toNat := by
  induction us with
  | nil => intro a b l _ _ _; exact Nat.le_refl _
  | cons u us ih =>
    intro a b l h hj hl
    rw [List.foldl_cons] at hj ⊢
    cases u with
    | newLine ls =>
      have := tidy_end us (l + 1) h.2
      simp only [lineEnd, lineAfter] at hl
      rw [hl] at this
      rcases this with h1 | ⟨_, h1⟩
      · have : (TextAttr.apply dflt a (.newLine ls)).justPage = a.justPage := rfl
        rw [hj, this] at h1; omega
      · omega
    | justificationPage j =>
      by_cases e : j.getD dflt.justPage = a.justPage
      · have h2 := h.2
        simp only [freshAfter, if_pos e] at h2
        simp only [lineEnd, lineAfter, if_pos e] at hl
        exact ih l h2 (by rw [hj]; exact e.symm) hl
      · exfalso
        have hlt := h.1.resolve_left e
        have := tidy_end us (lineAfter dflt a l (.justificationPage j)) h.2
        have e2 : (TextAttr.apply dflt a (.justificationPage j)).justPage = j.getD dflt.justPage := rfl
        rw [hj, e2] at this
        rcases this with h1 | ⟨h1, _⟩
        · omega
        · exact e h1
    | justificationLine j =>
      have hlt := h.1.resolve_left (by simp)
      exact Nat.le_trans (Nat.le_of_lt hlt) (ih l h.2 hj hl)
    | font f => cases f <;> exact ih l h.2 hj hl
    | _ => exact ih l h.2 hj hl

/-- the texts on the last line are not to the right of its end -/
theorem pieces_just {dflt : TextAttr} (us : List Value) : ∀ {a fr b} (sp) (l : Nat), Tidy dflt a fr b us →
    ∀ p ∈ pieces dflt a sp l b us, p.attr.justPage = (us.foldl (TextAttr.apply dflt) a).justPage →
      p.line = lineEnd dflt a l us → p.attr.justLine.toNat ≤ (us.foldl (TextAttr.apply dflt) a).justLine.toNat := by
  induction us with
  | nil => intro a fr b sp l _ p hp; simp [pieces] at hp
  | cons u us ih =>
    intro a fr b sp l h p hp hj hl
    rcases List.mem_append.1 hp with hp | hp
    · cases u with
      | text t =>
        simp only [piece, List.mem_singleton] at hp; subst hp
        exact tidy_just us l h.2 hj.symm hl.symm
      | hexadecimalCharacter t =>
        simp only [piece, List.mem_singleton] at hp; subst hp
        exact tidy_just us l h.2 hj.symm hl.symm
      | newLine ls =>
        simp only [piece] at hp
        split at hp
        · simp only [List.mem_singleton] at hp; subst hp
          exfalso
          have := tidy_end us (l + 1) h.2
          simp only [lineEnd, lineAfter] at hl
          rcases this with h1 | ⟨_, h1⟩
          · have e : a.justPage = _ := hj
            have e2 : (TextAttr.apply dflt a (.newLine ls)).justPage = a.justPage := rfl
            rw [e2, e, List.foldl_cons] at h1; omega
          · omega
        · simp at hp
      | _ => simp [piece] at hp
    · exact ih _ _ h.2 p hp hj hl

/-- the texts of the values of a line: on this line, with its font and spacing -/
theorem rowPieces {dflt : TextAttr} (ws : List Value) (hw : ∀ w ∈ ws, AddsOnLine w) : ∀ {a b} (sp) (l : Nat),
    Tidy dflt a false b ws → ∀ q ∈ pieces dflt a sp l b ws,
      q.attr.justPage = a.justPage ∧ q.line = l ∧ q.spacing = sp ∧ q.attr.fontNum = a.fontNum ∧
      a.justLine.toNat ≤ q.attr.justLine.toNat := by
  induction ws with
  | nil => intro a b sp l _ q hq; simp [pieces] at hq
  | cons w ws ih =>
    intro a b sp l h q hq
    have ih := fun {a b} => ih (fun v hv => hw v (List.mem_cons_of_mem _ hv)) (a := a) (b := b)
    have hw := hw w (List.mem_cons_self ..)
    rcases List.mem_append.1 hq with hq | hq
    · have : q.attr = a ∧ q.line = l ∧ q.spacing = sp := by
        cases w <;> first
          | exact hw.elim
          | (simp only [piece, List.mem_singleton] at hq; subst hq; exact ⟨rfl, rfl, rfl⟩)
          | simp [piece] at hq
      rw [this.1, this.2.1, this.2.2]
      exact ⟨rfl, rfl, rfl, rfl, Nat.le_refl _⟩
    · cases w with
      | justificationLine j =>
        have hlt := h.1.resolve_left (by simp)
        obtain ⟨h1, h2, h3, h4, h5⟩ := ih sp l h.2 q hq
        exact ⟨h1, h2, h3, h4, Nat.le_trans (Nat.le_of_lt hlt) h5⟩
      | _ => first | exact hw.elim | exact ih sp l h.2 q hq

/-- the text goes on to the right of those before: of those at the same place, only if they are at the left -/
def GoesRight (p q : Piece) : Prop :=
  p.attr.justPage = q.attr.justPage → p.line = q.line → p.attr.justLine = q.attr.justLine →
    p.attr.justLine ≠ .center ∧ p.attr.justLine ≠ .right

/-- two texts on one line, with one font and spacing -/
def Twin (p q : Piece) : Prop :=
  p.attr.justPage = q.attr.justPage ∧ p.line = q.line ∧ p.spacing = q.spacing ∧ p.attr.fontNum = q.attr.fontNum

theorem justLine_toNat_inj {a b : JustificationLine} (h : a.toNat = b.toNat) : a = b := by
  cases a <;> cases b <;> first | rfl | exact absurd h (by decide)

theorem goes_on {dflt a : TextAttr} {fr b} {us ws : List Value} (sp) (l : Nat) (hw : ∀ w ∈ ws, AddsOnLine w)
    (he : EndsInText us) (ht : Tidy dflt a fr b (us ++ ws)) (hb : GoesOn (us.foldl (TextAttr.apply dflt) a) ws) :
    ∀ q ∈ pieces dflt (us.foldl (TextAttr.apply dflt) a) (us.foldl spacingAfter sp) (lineEnd dflt a l us) (us.foldl blankAfter b) ws,
      (∀ p ∈ pieces dflt a sp l b us, GoesRight p q) ∧ ∃ p ∈ pieces dflt a sp l b us, Twin p q := by
  intro q hq
  obtain ⟨us0, v, rfl, hv⟩ := he
  have ht1 := (tidy_append _ _ ht).1
  have htw' : Tidy dflt ((us0 ++ [v]).foldl (TextAttr.apply dflt) a) false ((us0 ++ [v]).foldl blankAfter b) ws := by
    rw [List.append_assoc] at ht
    obtain ⟨_, fr', h2⟩ := tidy_append _ us0 ht
    have h3 := h2.2
    rw [List.foldl_append, List.foldl_append]
    rcases hv with ⟨t, rfl⟩ | ⟨t, rfl⟩ <;> exact h3
  obtain ⟨k1, k2, k3, k4, k5⟩ := rowPieces ws hw (us0 ++ [v] |>.foldl spacingAfter sp) (lineEnd dflt a l (us0 ++ [v])) htw' q hq
  constructor
  · intro p hp h1 h2 h3
    have hle := pieces_just (us0 ++ [v]) sp l ht1 p hp (h1.trans k1) (h2.trans k2)
    rw [h3] at hle
    have e := justLine_toNat_inj (Nat.le_antisymm hle k5)
    rw [h3, e]
    cases ws with
    | nil => simp [pieces] at hq
    | cons w ws =>
      have hww := hw w (List.mem_cons_self ..)
      cases w with
      | justificationLine j =>
        exfalso
        have hlt := htw'.1.resolve_left (by simp)
        have hq' : q ∈ pieces dflt (TextAttr.apply dflt ((us0 ++ [v]).foldl (TextAttr.apply dflt) a) (.justificationLine j)) _ _ _ ws := hq
        have := (rowPieces ws (fun v hv => hw v (List.mem_cons_of_mem _ hv)) _ _ htw'.2 q hq').2.2.2.2
        have e2 : (TextAttr.apply dflt ((us0 ++ [v]).foldl (TextAttr.apply dflt) a) (.justificationLine j)).justLine =
            j.getD dflt.justLine := rfl
        rw [e2, e] at this
        omega
      | _ => first | exact hww.elim | exact hb
  · rw [pieces_append]
    rw [List.foldl_append] at k1 k4
    rw [List.foldl_append] at k3
    have hle : lineEnd dflt a l (us0 ++ [v]) = lineEnd dflt a l us0 := by
      have : ∀ us a l, lineEnd dflt a l (us ++ [v]) = lineEnd dflt a l us := by
        intro us
        induction us with
        | nil => intro a l; rcases hv with ⟨t, rfl⟩ | ⟨t, rfl⟩ <;> rfl
        | cons u us ih => intro a l; exact ih _ _
      exact this _ _ _
    rw [hle] at k2
    rcases hv with ⟨t, rfl⟩ | ⟨t, rfl⟩
    · exact ⟨_, List.mem_append_right _ (List.mem_append_left _ (List.mem_singleton_self _)), k1.symm, k2.symm, k3.symm, k4.symm⟩
    · exact ⟨_, List.mem_append_right _ (List.mem_append_left _ (List.mem_singleton_self _)), k1.symm, k2.symm, k3.symm, k4.symm⟩

/-! ### places -/

/-- texts to the right do not move a text -/
theorem atX_onward {d : Dms} {A B : List Span} {s : Span} {x : Nat} (ho : Ordered (A ++ B)) (hs : s ∈ A)
    (h : ∀ b ∈ B, GoesRight (pieceOf s) (pieceOf b)) (hx : AtX d (A ++ B) s x) : AtX d A s x := by
  obtain ⟨pre, post, n, total, h1, h2, h3, h4, h5⟩ := hx
  by_cases hB : sameLine B s = []
  · rw [sameLine_append, hB, List.append_nil] at h1 h3
    exact ⟨pre, post, n, total, h1, h2, h3, h4, h5⟩
  · obtain ⟨b, hb⟩ := List.exists_mem_of_ne_nil _ hB
    have hb := List.mem_filter.1 hb
    simp only [decide_eq_true_eq] at hb
    have hj : s.state.justLine ≠ .center ∧ s.state.justLine ≠ .right :=
      h b hb.1 hb.2.1.symm hb.2.2.1.symm hb.2.2.2.symm
    have hm : s ∈ sameLine A s := List.mem_filter.2 ⟨hs, by simp⟩
    obtain ⟨pre', post', e⟩ := List.append_of_mem hm
    have e2 : sameLine (A ++ B) s = pre' ++ s :: (post' ++ sameLine B s) := by
      rw [sameLine_append, e, List.append_assoc, List.cons_append]
    obtain rfl := split_unique h1 e2 (ordered_sameLine ho)
    obtain ⟨total', h6, h7⟩ : ∃ total', LineWidth d.fontDefinition none (sameLine A s) total' ∧ total' ≤ total := by
      rw [sameLine_append] at h3
      obtain ⟨init, z, ez⟩ : ∃ init z, sameLine A s = init ++ [z] :=
        ⟨_, _, (List.dropLast_concat_getLast (List.ne_nil_of_mem hm)).symm⟩
      rw [ez, List.append_assoc] at h3
      obtain ⟨n1, n2, k1, _, k3⟩ := lineWidth_split h3
      exact ⟨n1, by rw [ez]; exact k1, by omega⟩
    refine ⟨pre, post', n, total', e, h2, h6, by omega, ?_⟩
    have hl : ∀ t, lineLeft s.state.textRectangle s.state.justLine t = s.state.textRectangle.x.toNat - 1 := by
      intro t
      unfold lineLeft
      revert hj
      cases s.state.justLine <;> simp
    rw [if_neg hj.1, hl] at h5 ⊢
    exact h5

theorem largest_twins {A B : List Nat} (h : ∀ b ∈ B, b ∈ A) : largest (A ++ B) = largest A := by
  rw [largest_append]
  have : largest B ≤ largest A := largest_le fun b hb => largest_mem (h b hb)
  omega

/-- texts with twins on the same line do not change heights -/
theorem linesHeight_twins {full : Bool} {t : FontTable} {A B : List Span}
    (h : ∀ b ∈ B, ∃ a ∈ A, Twin (pieceOf a) (pieceOf b)) (n : Nat) : linesHeight full t (A ++ B) n = linesHeight full t A n := by
  have hof : ∀ (v : Font → UInt8) i, largest ((onLine (A ++ B) i).map (ofFont t v)) = largest ((onLine A i).map (ofFont t v)) := by
    intro v i
    rw [onLine_append, List.map_append]
    refine largest_twins fun x hx => ?_
    obtain ⟨b, hb, rfl⟩ := List.mem_map.1 hx
    have hb := List.mem_filter.1 hb
    obtain ⟨a, ha, h1, h2, h3, h4⟩ := h b hb.1
    have h2 : a.state.lineNumber = b.state.lineNumber := h2
    have h4 : a.state.fontNum = b.state.fontNum := h4
    have hbi : b.state.lineNumber = i := by simpa using hb.2
    have : ofFont t v b = ofFont t v a := by unfold ofFont; rw [h4]
    rw [this]
    exact List.mem_map_of_mem (List.mem_filter.2 ⟨ha, by simp [h2, hbi]⟩)
  have htag : ∀ i, tagLineSpacing (A ++ B) i = tagLineSpacing A i := by
    intro i
    unfold tagLineSpacing
    rw [onLine_append, List.findSome?_append]
    cases hA : (onLine A i).findSome? fun s => s.state.lineSpacing.map UInt8.toNat with
    | some x => rfl
    | none =>
      rw [Option.none_or]
      rw [List.findSome?_eq_none_iff] at hA ⊢
      intro b hb
      have hb := List.mem_filter.1 hb
      obtain ⟨a, ha, h1, h2, h3, h4⟩ := h b hb.1
      have h2 : a.state.lineNumber = b.state.lineNumber := h2
      have h3 : a.state.lineSpacing = b.state.lineSpacing := h3
      have hbi : b.state.lineNumber = i := by simpa using hb.2
      rw [← h3]
      exact hA a (List.mem_filter.2 ⟨ha, by simp [h2, hbi]⟩)
  induction n with
  | zero => exact hof _ 0
  | succ n ih =>
    show _ + _ + _ = _ + _ + _
    rw [ih]
    unfold lineHeight lineSpace fontLineSpacing
    rw [hof, hof, hof, htag]

theorem dense_onward {B : List Span} {k n} (h : Dense k B n) (hB : ∀ b ∈ B, b.state.lineNumber < k) : n = k := by
  induction h with
  | nil => rfl
  | old _ _ ih => exact ih fun b hb => hB b (List.mem_cons_of_mem _ hb)
  | new h _ => have := hB _ (List.mem_cons_self ..); omega

theorem atY_onward {d : Dms} {A B : List Span} {s : Span} {y : Nat} (h : ∀ b ∈ B, ∃ a ∈ A, Twin (pieceOf a) (pieceOf b))
    (hy : AtY d (A ++ B) s y) : AtY d A s y := by
  obtain ⟨f, m, total, h1, h2, h3, h4, h5⟩ := hy
  have e : samePage (A ++ B) s = samePage A s ++ samePage B s := List.filter_append ..
  rw [e] at h2 h3 h5
  have ht : ∀ b ∈ samePage B s, ∃ a ∈ samePage A s, Twin (pieceOf a) (pieceOf b) := by
    intro b hb
    have hb := List.mem_filter.1 hb
    obtain ⟨a, ha, k⟩ := h b hb.1
    have k1 : a.state.justPage = b.state.justPage := k.1
    have hbj : b.state.justPage = s.state.justPage := by simpa using hb.2
    exact ⟨a, List.mem_filter.2 ⟨ha, by simp [k1, hbj]⟩, k⟩
  rw [linesHeight_twins ht] at h3 h5
  obtain ⟨m', k1, k2⟩ := dense_split _ h2
  obtain rfl : m = m' := by
    refine dense_onward k2 fun b hb => ?_
    obtain ⟨a, ha, _, k, _⟩ := ht b hb
    have k : a.state.lineNumber = b.state.lineNumber := k
    have := (dense_lt k1).2 a ha
    omega
  exact ⟨f, m, total, h1, k1, h3, h4, h5⟩

/-- a place in one list of texts is a place in another one with the same pieces -/
theorem atX_back {d : Dms} {ss ss' : List Span} {s : Span} {x : Nat} (hl : ss.map pieceOf = ss'.map pieceOf)
    (hr : ∀ u ∈ ss', u.state.textRectangle = s.state.textRectangle) (h : AtX d ss s x) :
    ∃ u ∈ ss', pieceOf u = pieceOf s ∧ AtX d ss' u x := by
  obtain ⟨pre, post, n, total, h1, h2, h3, h4, h5⟩ := h
  have e := sameLine_pieces hl (rfl : pieceOf s = pieceOf s)
  rw [h1, List.map_append, List.map_cons] at e
  obtain ⟨pre', r, e1, e2, e3⟩ := List.map_eq_append_iff.1 e.symm
  obtain ⟨u, post', rfl, e4, e5⟩ := List.map_eq_cons_iff.1 e3
  have hu : u ∈ ss' := (List.mem_filter.1 (show u ∈ sameLine ss' s by rw [e1]; simp)).1
  obtain ⟨_, _, j1, j2, _⟩ := textAttr_eq (pieceOf_eq e4).1
  have j3 := (pieceOf_eq e4).2.2.1
  refine ⟨u, hu, e4, pre', post', n, total, by rw [sameLine_congr j1 j3 j2]; exact e1, before_pieces e2.symm e4.symm h2,
    lineWidth_pieces h3 rfl (by rw [sameLine_congr (spans := ss') j1 j3 j2]; exact sameLine_pieces hl rfl), by rw [hr u hu]; exact h4, ?_⟩
  rw [hr u hu, j2]
  exact h5

theorem atX_keys {d : Dms} {ss ss' : List Span} {s s' : Span} {x x' : Nat} (ho : Ordered ss') (hs' : s' ∈ ss')
    (h : ss.map placeKey = ss'.map placeKey) (hs : placeKey s = placeKey s')
    (ht : s.state.textRectangle = s'.state.textRectangle) (hx : AtX d ss s x) (hx' : AtX d ss' s' x') : x = x' := by
  obtain ⟨pre, post, n, total, h1, h2, h3, h4, h5⟩ := hx
  have hp : pieceOf s = pieceOf s' := congrArg Prod.fst hs
  obtain ⟨_, _, _, j, _⟩ := textAttr_eq (pieceOf_eq hp).1
  have e := sameLine_placeKey h hp
  rw [h1, List.map_append, List.map_cons] at e
  obtain ⟨pre', r, e1, e2, e3⟩ := List.map_eq_append_iff.1 e.symm
  obtain ⟨u, post', rfl, e4, e5⟩ := List.map_eq_cons_iff.1 e3
  have hpw := ordered_sameLine (s := s') ho
  have hsm : s' ∈ sameLine ss' s' := List.mem_filter.2 ⟨hs', by simp⟩
  have hn : u.state.spanNumber = s'.state.spanNumber := congrArg Prod.snd (e4.trans hs)
  obtain rfl : u = s' := by
    rw [e1] at hpw hsm
    rw [List.pairwise_append, List.pairwise_cons] at hpw
    rcases List.mem_append.1 hsm with hm | hm
    · have := hpw.2.2 _ hm u (List.mem_cons_self ..); omega
    · rcases List.mem_cons.1 hm with hm | hm
      · exact hm.symm
      · have := hpw.2.1.1 _ hm; omega
  refine atX_unique ho ⟨pre', post', n, total, e1, before_pieces (placeKey_pieces e2.symm) hp h2,
    lineWidth_pieces h3 rfl (sameLine_pieces (placeKey_pieces h) hp), by rw [← ht]; exact h4, ?_⟩ hx'
  rw [← ht, ← j]
  exact h5

/-! ### text drawn -/

theorem textDrawn_onward {d : Dms} {t sp rect us ws} {a b b' : Raster} (ht : Tidy (signAttr d) t true true (us ++ ws))
    (hw : ∀ w ∈ ws, AddsOnLine w) (he : EndsInText us) (hb : GoesOn (us.foldl (TextAttr.apply (signAttr d)) t) ws)
    (h : TextDrawn d t sp rect us a b) (h' : TextDrawn d t sp rect (us ++ ws) a b') (i j : Nat) (hne : b'.px i j ≠ b.px i j) :
    LitRight d (layoutOf d t sp rect us) (layoutOf d t sp rect (us ++ ws)) i j := by
  obtain ⟨ps, p1, ⟨p2, p3⟩, p4, p6, p5, p7, _⟩ := h
  obtain ⟨qs, q1, ⟨q2, q3⟩, q4, q6, q5, q7, _⟩ := h'
  obtain ⟨po, pat⟩ := p7 (tidy_append ws us ht).1
  obtain ⟨qo, qat⟩ := q7 ht
  have hap := goes_on sp 0 hw he ht hb
  have ly := layoutOf_pieces (rect := rect) p1
  have ly' := layoutOf_pieces (rect := rect) q1
  -- split the texts
  rw [pieces_append] at q1
  obtain ⟨A', B', e1, e2, e3⟩ := List.map_eq_append_iff.1 q1
  obtain ⟨qA, qB, rfl, rfl, rfl⟩ := List.map_eq_append_iff.1 e1
  obtain ⟨more, hm⟩ := numbers_append (signAttr d) ws us t 0 true
  rw [hm] at q2
  have hlen : qA.length = ps.length := by
    have := congrArg List.length (e2.trans p1.symm)
    simpa using this
  have hnum : (qA.map Prod.fst).map (·.state.spanNumber) = (ps.map Prod.fst).map (·.state.spanNumber) := by
    rw [List.map_append, List.map_append] at q2
    have := List.append_inj_left q2 (by rw [← p2]; simp [hlen])
    rw [this, p2]
  have hkey : (qA.map Prod.fst).map placeKey = (ps.map Prod.fst).map placeKey := by
    have e4 := e2.trans p1.symm
    have z : ∀ l : List Span, l.map placeKey = (l.map pieceOf).zip (l.map (·.state.spanNumber)) := by
      intro l
      induction l with
      | nil => rfl
      | cons a l ih => simp only [List.map_cons, List.zip_cons_cons, ih]; rfl
    rw [z, z, e4, hnum]
  have hright : ∀ a ∈ qA.map Prod.fst, ∀ b ∈ qB.map Prod.fst, GoesRight (pieceOf a) (pieceOf b) := by
    intro a ha b hb'
    exact (hap _ (e3 ▸ List.mem_map_of_mem hb')).1 _ (e2 ▸ List.mem_map_of_mem ha)
  have htwin : ∀ b ∈ qB.map Prod.fst, ∃ a ∈ qA.map Prod.fst, Twin (pieceOf a) (pieceOf b) := by
    intro b hb'
    obtain ⟨p, hp, h⟩ := (hap _ (e3 ▸ List.mem_map_of_mem hb')).2
    rw [← e2] at hp
    obtain ⟨a, ha, rfl⟩ := List.mem_map.1 hp
    exact ⟨a, ha, h⟩
  rw [List.map_append] at qo
  rw [List.map_append] at qat q3
  -- the texts before are at the same places
  have hsame : ∀ k (h1 : k < qA.length) (h2 : k < ps.length), pieceOf qA[k].1 = pieceOf ps[k].1 ∧ qA[k].2 = ps[k].2 := by
    intro k h1 h2
    have hk : placeKey qA[k].1 = placeKey ps[k].1 := by
      have := congrArg (·[k]?) hkey
      simpa [h1, h2] using this
    have hk1 : pieceOf qA[k].1 = pieceOf ps[k].1 := congrArg Prod.fst hk
    have mq : qA[k] ∈ qA := List.getElem_mem h1
    have mp : ps[k] ∈ ps := List.getElem_mem h2
    have rq := (q4 _ (List.mem_map_of_mem (List.mem_append_left qB mq))).1
    have rp := (p4 _ (List.mem_map_of_mem mp)).1
    obtain ⟨qx, qy⟩ := qat _ (List.mem_append_left qB mq)
    obtain ⟨px, py⟩ := pat _ mp
    have ax := atX_onward qo (List.mem_map_of_mem mq) (hright _ (List.mem_map_of_mem mq)) qx
    have ex : qA[k].2.1 = ps[k].2.1 := by
      exact atX_keys po (List.mem_map_of_mem mp) hkey hk (rq.trans rp.symm) ax px
    have ey := atY_pieces (placeKey_pieces hkey) hk1 (rq.trans rp.symm) (atY_onward htwin qy)
    exact ⟨hk1, Prod.ext ex (atY_unique ey py)⟩
  have hpx : textPx d.fontDefinition qA i j (a.px i j) = textPx d.fontDefinition ps i j (a.px i j) := by
    refine textPx_pairs (pairwise2_get hlen fun k h1 h2 => ?_) _
    obtain ⟨k1, k2⟩ := hsame k h1 h2
    have mq : qA[k] ∈ qA := List.getElem_mem h1
    have mp : ps[k] ∈ ps := List.getElem_mem h2
    rw [k2]
    refine ⟨⟨lightsAt_pieces k1, lightsAt_pieces k1.symm⟩, fun _ => ?_⟩
    rw [(q4 _ (List.mem_map_of_mem (List.mem_append_left qB mq))).2.1, (p4 _ (List.mem_map_of_mem mp)).2.1, k1]
  rw [textAt_iff] at p5 q5
  have hlit : ∃ q ∈ qB, LightsAt d.fontDefinition q.1 q.2.1 q.2.2 i j := by
    refine Classical.byContradiction fun hno => hne ?_
    rw [p5, q5]
    show textPx _ (qA ++ qB) i j (a.px i j) = textPx _ ps i j (a.px i j)
    rw [textPx_append, textPx_unlit (fun q hq hl => hno ⟨q, hq, hl⟩), hpx]
  obtain ⟨q, hq, f, es, l1, l2, l3⟩ := hlit
  have mq : q ∈ qA ++ qB := List.mem_append_right _ hq
  have rq := (q4 _ (List.mem_map_of_mem mq)).1
  obtain ⟨qx, qy⟩ := qat _ mq
  have hpc : pieceOf q.1 = pieceOf (spanOf d rect (pieceOf q.1)) := (pieceOf_spanOf d rect _).symm
  have hlp : (qA.map Prod.fst ++ qB.map Prod.fst).map pieceOf = (layoutOf d t sp rect (us ++ ws)).map pieceOf := by
    rw [ly', List.map_map, ← List.map_append, List.map_map]
    exact List.map_congr_left fun p _ => (pieceOf_spanOf d rect _).symm
  have qy' : AtY d (layoutOf d t sp rect (us ++ ws)) (spanOf d rect (pieceOf q.1)) q.2.2 := atY_pieces hlp hpc rq qy
  have qx' : AtX d (layoutOf d t sp rect (us ++ ws)) (spanOf d rect (pieceOf q.1)) q.2.1 := by
    refine atX_pieces hlp hpc rq (fun u hu e => ?_) qx
    rw [ly'] at hu
    obtain ⟨p, _, rfl⟩ := List.mem_map.1 hu
    rw [pieceOf_spanOf, pieceOf_spanOf] at e
    rw [e]
  have hsplit : layoutOf d t sp rect (us ++ ws) = layoutOf d t sp rect us ++ qB.map fun p => spanOf d rect (pieceOf p.1) := by
    rw [ly', ly, List.map_append]
    congr 1
    refine List.ext_getElem (by simpa using hlen) fun k h1 h2 => ?_
    simp only [List.length_map] at h1 h2
    simp only [List.getElem_map]
    rw [(hsame k h1 h2).1]
  refine ⟨spanOf d rect (pieceOf q.1), ?_, ⟨q.2.1, q.2.2, f, es, qx', qy', fontOf_pieces hpc l1, l2, ?_⟩, ?_⟩
  · rw [hsplit, List.drop_left]
    exact List.mem_map_of_mem hq
  · rw [← charSpacing_pieces hpc]; exact l3
  · intro o ho hj1 hj2 hj3 x w hx hw'
    have hlo : (layoutOf d t sp rect us).map pieceOf = (qA.map Prod.fst).map pieceOf := by
      rw [e2, layoutOf, map_spanOf]
    have ro : o.state.textRectangle = rect := by
      obtain ⟨p, _, rfl⟩ := List.mem_map.1 ho
      rfl
    obtain ⟨u, hu, hpu, hxu⟩ := atX_back hlo (fun u hu => by
      obtain ⟨p, hp, rfl⟩ := List.mem_map.1 hu
      rw [ro]
      exact (q4 _ (List.mem_map_of_mem (List.mem_append_left qB hp))).1) hx
    obtain ⟨p, hp, rfl⟩ := List.mem_map.1 hu
    have hxp := (qat _ (List.mem_append_left qB hp)).1
    have oA : Ordered (qA.map Prod.fst) := (List.pairwise_append.1 qo).1
    have hxx := atX_unique oA hxu (atX_onward qo hu (hright _ hu) hxp)
    obtain ⟨_, _, j1, j2, _⟩ := textAttr_eq (pieceOf_eq hpu).1
    have j3 := (pieceOf_eq hpu).2.2.1
    have c1 : p.1.state.justPage = q.1.state.justPage := j1.trans hj1
    have c2 : p.1.state.lineNumber = q.1.state.lineNumber := j3.trans hj2
    have c3 : p.1.state.justLine = q.1.state.justLine := j2.trans hj3
    have hj := hright _ hu _ (List.mem_map_of_mem hq) c1 c2 c3
    obtain ⟨l1', l2', hsA⟩ := List.append_of_mem hu
    obtain ⟨m1, m2, hsB⟩ := List.append_of_mem (List.mem_map_of_mem (f := Prod.fst) hq)
    have := (atX_order qo (l1 := l1') (a := p.1) (l2 := l2' ++ m1) (b := q.1) (l3 := m2)
      (by rw [hsA, hsB]; simp) c1 c2 c3
      ((q4 _ (List.mem_map_of_mem (List.mem_append_left qB hp))).1.trans rq.symm) hxp qx (spanWidth_pieces hpu.symm hw')
      (fun hc => absurd hc hj.1)).1
    have := (lightsAt_inside ⟨f, es, l1, l2, l3⟩ l1 ⟨f, es, l1, l2, rfl⟩).1
    omega

end Ntcip
