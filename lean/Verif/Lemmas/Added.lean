import Verif.Spec.Added
import Verif.Lemmas.Look
import Verif.Props.Room
/-
Text added at the end of a text rectangle: the places of the texts before.
-/
namespace Ntcip
open Spec

/-- the line after the values -/
def lineEnd (dflt : TextAttr) : TextAttr → Nat → List Value → Nat
  | _, l, [] => l
  | a, l, v :: vs => lineEnd dflt (TextAttr.apply dflt a v) (lineAfter dflt a l v) vs

theorem pieces_append (dflt : TextAttr) (ws us : List Value) : ∀ a sp l b,
    pieces dflt a sp l b (us ++ ws) = pieces dflt a sp l b us ++
      pieces dflt (us.foldl (TextAttr.apply dflt) a) (us.foldl spacingAfter sp) (lineEnd dflt a l us) (us.foldl blankAfter b) ws := by
  induction us with
  | nil => intro a sp l b; rfl
  | cons u us ih =>
    intro a sp l b
    show piece a sp l b u ++ pieces dflt _ _ _ _ (us ++ ws) = (piece a sp l b u ++ _) ++ _
    rw [ih, List.append_assoc]
    rfl

theorem numbers_append (dflt : TextAttr) (ws us : List Value) : ∀ a n b,
    ∃ more, numbers dflt a n b (us ++ ws) = numbers dflt a n b us ++ more := by
  induction us with
  | nil => intro a n b; exact ⟨numbers dflt a n b ws, rfl⟩
  | cons u us ih =>
    intro a n b
    obtain ⟨more, h⟩ := ih (TextAttr.apply dflt a u) (numberAfter dflt a n u) (blankAfter b u)
    refine ⟨more, ?_⟩
    show _ ++ numbers dflt _ _ _ (us ++ ws) = (_ ++ _) ++ _
    rw [h, List.append_assoc]

/-- a place is above another one: in order of the page justifications, then of the lines -/
def Above (j : JustificationPage) (l : Nat) (j' : JustificationPage) (l' : Nat) : Prop :=
  j.toNat < j'.toNat ∨ (j = j' ∧ l < l')

theorem above_of_le {j l j' l' j'' l''} (h : Above j l j' (l' + 1)) (h' : Above j' l' j'' l'') : Above j l j'' l'' := by
  rcases h with h | ⟨rfl, h⟩ <;> rcases h' with h' | ⟨rfl, h'⟩
  · exact .inl (by omega)
  · exact .inl h
  · exact .inl h'
  · exact .inr ⟨rfl, by omega⟩

/-- a value in order does not go back -/
theorem inOrder_above {dflt a : TextAttr} {fresh blank : Bool} {v : Value} (h : InOrder dflt a fresh blank v) (l : Nat) :
    Above a.justPage l (TextAttr.apply dflt a v).justPage (lineAfter dflt a l v + 1) := by
  cases v with
  | newLine ls => exact .inr ⟨rfl, by simp only [lineAfter]; omega⟩
  | justificationPage j =>
    unfold InOrder at h
    simp only [lineAfter]
    have e : (TextAttr.apply dflt a (.justificationPage j)).justPage = j.getD dflt.justPage := rfl
    rw [e]
    by_cases hj : j.getD dflt.justPage = a.justPage
    · rw [if_pos hj]; exact .inr ⟨hj.symm, by omega⟩
    · exact .inl (h.resolve_left hj)
  | font f => cases f <;> exact .inr ⟨rfl, by simp [lineAfter]⟩
  | _ => exact .inr ⟨rfl, by simp [lineAfter]⟩

theorem tidy_end {dflt : TextAttr} (us : List Value) : ∀ {a fr b} (l : Nat), Tidy dflt a fr b us →
    Above a.justPage l (us.foldl (TextAttr.apply dflt) a).justPage (lineEnd dflt a l us + 1) := by
  induction us with
  | nil => intro a fr b l _; exact .inr ⟨rfl, by simp [lineEnd]⟩
  | cons u us ih =>
    intro a fr b l h
    have h1 := inOrder_above h.1 l
    have h2 := ih (lineAfter dflt a l u) h.2
    rcases h1 with h1 | ⟨e, h1⟩ <;> rcases h2 with h2 | ⟨e', h2⟩
    · exact .inl (by simp only [List.foldl_cons]; omega)
    · exact .inl (by simp only [List.foldl_cons]; rw [← e']; exact h1)
    · exact .inl (by simp only [List.foldl_cons]; rw [e]; exact h2)
    · exact .inr ⟨by simp only [List.foldl_cons]; rw [← e']; exact e, by simp only [lineEnd]; omega⟩

/-- from text to a blank line is down -/
theorem tidy_blank {dflt : TextAttr} (us : List Value) : ∀ {a fr} (l : Nat), Tidy dflt a fr false us →
    us.foldl blankAfter false = true →
    Above a.justPage l (us.foldl (TextAttr.apply dflt) a).justPage (lineEnd dflt a l us) := by
  induction us with
  | nil => intro a fr l _ h; simp at h
  | cons u us ih =>
    intro a fr l h hb
    by_cases hu : ∃ ls, u = .newLine ls
    · obtain ⟨ls, rfl⟩ := hu
      have := tidy_end us (l + 1) h.2
      rcases this with h1 | ⟨h1, h2⟩
      · exact .inl h1
      · exact .inr ⟨h1, by simp only [lineEnd, lineAfter]; omega⟩
    · have hb1 : blankAfter false u = false := by
        cases u <;> first | rfl | (exact absurd ⟨_, rfl⟩ hu)
      have h2 := h.2
      rw [hb1] at h2
      rw [List.foldl_cons, hb1] at hb
      exact above_of_le (inOrder_above h.1 l) (ih (lineAfter dflt a l u) h2 hb)

/-- the texts of the values are above the place after them, unless on its line -/
theorem pieces_above {dflt : TextAttr} (us : List Value) : ∀ {a fr b} (sp) (l : Nat), Tidy dflt a fr b us →
    ∀ p ∈ pieces dflt a sp l b us,
      Above p.attr.justPage p.line (us.foldl (TextAttr.apply dflt) a).justPage (lineEnd dflt a l us + 1) ∧
      (us.foldl blankAfter b = true → Above p.attr.justPage p.line (us.foldl (TextAttr.apply dflt) a).justPage (lineEnd dflt a l us)) := by
  induction us with
  | nil => intro a fr b sp l _ p hp; simp [pieces] at hp
  | cons u us ih =>
    intro a fr b sp l h p hp
    rcases List.mem_append.1 hp with hp | hp
    · have hp2 : p.attr = a ∧ p.line = l := by
        cases u with
        | text t => simp only [piece, List.mem_singleton] at hp; subst hp; exact ⟨rfl, rfl⟩
        | hexadecimalCharacter t => simp only [piece, List.mem_singleton] at hp; subst hp; exact ⟨rfl, rfl⟩
        | newLine ls =>
          simp only [piece] at hp
          split at hp
          · simp only [List.mem_singleton] at hp; subst hp; exact ⟨rfl, rfl⟩
          · simp at hp
        | _ => simp [piece] at hp
      rw [hp2.1, hp2.2]
      refine ⟨tidy_end (u :: us) l h, fun hb => ?_⟩
      cases u with
      | text t => exact tidy_blank us l h.2 hb
      | hexadecimalCharacter t => exact tidy_blank us l h.2 hb
      | newLine ls =>
        rcases tidy_end us (l + 1) h.2 with h1 | ⟨h1, h2⟩
        · exact .inl h1
        · exact .inr ⟨h1, by simp only [lineEnd, lineAfter]; omega⟩
      | _ => simp [piece] at hp
    · exact ih _ _ h.2 p hp

/-- the texts of the values are not above the place before them -/
theorem pieces_below {dflt : TextAttr} (us : List Value) : ∀ {a fr b} (sp) (l : Nat), Tidy dflt a fr b us →
    ∀ p ∈ pieces dflt a sp l b us, Above a.justPage l p.attr.justPage (p.line + 1) := by
  induction us with
  | nil => intro a fr b sp l _ p hp; simp [pieces] at hp
  | cons u us ih =>
    intro a fr b sp l h p hp
    rcases List.mem_append.1 hp with hp | hp
    · have hp2 : p.attr = a ∧ p.line = l := by
        cases u with
        | text t => simp only [piece, List.mem_singleton] at hp; subst hp; exact ⟨rfl, rfl⟩
        | hexadecimalCharacter t => simp only [piece, List.mem_singleton] at hp; subst hp; exact ⟨rfl, rfl⟩
        | newLine ls =>
          simp only [piece] at hp
          split at hp
          · simp only [List.mem_singleton] at hp; subst hp; exact ⟨rfl, rfl⟩
          · simp at hp
        | _ => simp [piece] at hp
      rw [hp2.1, hp2.2]
      exact .inr ⟨rfl, by omega⟩
    · have h1 := inOrder_above h.1 l
      have h2 := ih _ (lineAfter dflt a l u) h.2 p hp
      rcases h1 with h1 | ⟨e, h1⟩ <;> rcases h2 with h2 | ⟨e', h2⟩
      · exact .inl (by omega)
      · exact .inl (by rw [← e']; exact h1)
      · exact .inl (by rw [e]; exact h2)
      · exact .inr ⟨e.trans e', by omega⟩

theorem tidy_append {dflt : TextAttr} (ws us : List Value) : ∀ {a fr b}, Tidy dflt a fr b (us ++ ws) →
    Tidy dflt a fr b us ∧ ∃ fr', Tidy dflt (us.foldl (TextAttr.apply dflt) a) fr' (us.foldl blankAfter b) ws := by
  induction us with
  | nil => intro a fr b h; exact ⟨trivial, fr, h⟩
  | cons u us ih =>
    intro a fr b h
    obtain ⟨h1, h2⟩ := ih h.2
    exact ⟨⟨h.1, h1⟩, h2⟩

/-- added texts are apart from those before: with another page justification, or on a line below at the top -/
def SetApart (p q : Piece) : Prop :=
  p.attr.justPage ≠ q.attr.justPage ∨ ((p.attr.justPage ≠ .middle ∧ p.attr.justPage ≠ .bottom) ∧ p.line < q.line)

theorem added_apart {dflt a : TextAttr} {fr b} {us ws : List Value} (sp) (l : Nat) (ht : Tidy dflt a fr b (us ++ ws))
    (hb : BeginsBelow dflt (us.foldl (TextAttr.apply dflt) a) ws) :
    ∀ p ∈ pieces dflt a sp l b us,
      ∀ q ∈ pieces dflt (us.foldl (TextAttr.apply dflt) a) (us.foldl spacingAfter sp) (lineEnd dflt a l us) (us.foldl blankAfter b) ws,
      SetApart p q := by
  intro p hp q hq
  obtain ⟨t1, fr', t2⟩ := tidy_append ws us ht
  obtain ⟨h1, h2⟩ := pieces_above us sp l t1 p hp
  cases ws with
  | nil => exact hb.elim
  | cons w ws =>
    cases w with
    | newLine ls =>
      have habove : Above p.attr.justPage p.line q.attr.justPage q.line := by
        rcases List.mem_append.1 hq with hq | hq
        · simp only [piece] at hq
          split at hq
          · rename_i hbl
            simp only [List.mem_singleton] at hq
            subst hq
            exact h2 hbl
          · simp at hq
        · have h3 := pieces_below ws ls _ t2.2 q hq
          rcases h1 with h1 | ⟨e, h1⟩ <;> rcases h3 with h3 | ⟨e', h3⟩
          · exact .inl (Nat.lt_trans h1 h3)
          · exact .inl (by rw [← e']; exact h1)
          · exact .inl (by rw [e]; exact h3)
          · exact .inr ⟨e.trans e', by simp only [lineAfter] at h3; omega⟩
      by_cases hj : p.attr.justPage = q.attr.justPage
      · right
        rcases habove with h | ⟨_, h⟩
        · rw [hj] at h; exact absurd h (Nat.lt_irrefl _)
        · refine ⟨?_, h⟩
          have hle : p.attr.justPage.toNat ≤ (us.foldl (TextAttr.apply dflt) a).justPage.toNat := by
            rcases h1 with h1 | ⟨e, _⟩
            · exact Nat.le_of_lt h1
            · rw [e]; exact Nat.le_refl _
          have hb : (us.foldl (TextAttr.apply dflt) a).justPage ≠ .middle ∧ (us.foldl (TextAttr.apply dflt) a).justPage ≠ .bottom := hb
          revert hle hb
          generalize (us.foldl (TextAttr.apply dflt) a).justPage = j'
          generalize p.attr.justPage = j
          cases j <;> cases j' <;> simp [JustificationPage.toNat]
      · exact .inl hj
    | justificationPage j =>
      have hb : j.getD dflt.justPage ≠ (us.foldl (TextAttr.apply dflt) a).justPage := hb
      have hlt := t2.1.resolve_left hb
      have h3 := pieces_below ws (us.foldl spacingAfter sp) _ t2.2 q hq
      have e : (TextAttr.apply dflt (us.foldl (TextAttr.apply dflt) a) (.justificationPage j)).justPage = j.getD dflt.justPage := rfl
      left
      intro hj
      have hle : p.attr.justPage.toNat ≤ (us.foldl (TextAttr.apply dflt) a).justPage.toNat := by
        rcases h1 with h1 | ⟨e, _⟩
        · exact Nat.le_of_lt h1
        · rw [e]; exact Nat.le_refl _
      rw [hj] at hle
      rw [e] at h3
      rcases h3 with h3 | ⟨e', _⟩
      · omega
      · rw [e'] at hlt; omega
    | _ => exact hb.elim

/-! ### places -/

theorem dense_split {B : List Span} (A : List Span) : ∀ {k n}, Dense k (A ++ B) n → ∃ m, Dense k A m ∧ Dense m B n := by
  induction A with
  | nil => intro k n h; exact ⟨k, .nil, h⟩
  | cons a A ih =>
    intro k n h
    cases h with
    | old h1 h2 => obtain ⟨m, h3, h4⟩ := ih h2; exact ⟨m, .old h1 h3, h4⟩
    | new h1 h2 => obtain ⟨m, h3, h4⟩ := ih h2; exact ⟨m, .new h1 h3, h4⟩

theorem dense_full {A : List Span} {k n : Nat} (h : Dense k A n) : ∀ l, k ≤ l → l < n → ∃ a ∈ A, a.state.lineNumber = l := by
  induction h with
  | nil => intro l h1 h2; omega
  | old _ _ ih =>
    intro l h1 h2
    obtain ⟨a, h3, h4⟩ := ih l h1 h2
    exact ⟨a, List.mem_cons_of_mem _ h3, h4⟩
  | @new k s ss n h _ ih =>
    intro l h1 h2
    by_cases hl : l = k
    · exact ⟨_, List.mem_cons_self .., by rw [h, hl]⟩
    · obtain ⟨a, h3, h4⟩ := ih l (by omega) h2
      exact ⟨a, List.mem_cons_of_mem _ h3, h4⟩

theorem linesHeight_append {full : Bool} {t : FontTable} {A B : List Span} {m : Nat} (hB : ∀ b ∈ B, m ≤ b.state.lineNumber)
    (n : Nat) (hn : n < m) : linesHeight full t (A ++ B) n = linesHeight full t A n := by
  have ho : ∀ i, i < m → onLine (A ++ B) i = onLine A i := by
    intro i hi
    unfold onLine
    have : B.filter (fun s => decide (s.state.lineNumber = i)) = [] := by
      refine List.filter_eq_nil_iff.2 fun b hb => ?_
      have := hB b hb
      simp only [decide_eq_true_eq]
      omega
    rw [List.filter_append, this, List.append_nil]
  induction n with
  | zero => unfold linesHeight lineHeight; rw [ho 0 hn]
  | succ n ih =>
    have h1 : ∀ i, i < m → lineHeight t (A ++ B) i = lineHeight t A i := fun i hi => by unfold lineHeight; rw [ho i hi]
    have h2 : lineSpace full t (A ++ B) n = lineSpace full t A n := by
      unfold lineSpace tagLineSpacing fontLineSpacing
      rw [ho n (by omega), ho (n + 1) hn]
    show _ + _ + _ = _ + _ + _
    rw [ih (by omega), h1 _ hn, h2]

def ApartS (s b : Span) : Prop := SetApart (pieceOf s) (pieceOf b)

theorem sameLine_apart {A B : List Span} {s : Span} (h : ∀ b ∈ B, ApartS s b) : sameLine (A ++ B) s = sameLine A s := by
  rw [sameLine_append]
  have : sameLine B s = [] := by
    unfold sameLine
    refine List.filter_eq_nil_iff.2 fun b hb => ?_
    have hb := h b hb
    simp only [decide_eq_true_eq]
    rintro ⟨h1, h2, _⟩
    rcases hb with hb | ⟨_, hb⟩
    · exact hb h1.symm
    · have : s.state.lineNumber < b.state.lineNumber := hb
      omega
  rw [this, List.append_nil]

/-- texts apart do not move a text -/
theorem atY_apart {d : Dms} {A B : List Span} {s : Span} {y : Nat} (hs : s ∈ A) (h : ∀ a ∈ A, ∀ b ∈ B, ApartS a b)
    (hy : AtY d (A ++ B) s y) : AtY d A s y := by
  obtain ⟨f, m, total, h1, h2, h3, h4, h5⟩ := hy
  have e : samePage (A ++ B) s = samePage A s ++ samePage B s := List.filter_append ..
  by_cases hn : samePage B s = []
  · rw [e, hn, List.append_nil] at h2 h3 h5
    exact ⟨f, m, total, h1, h2, h3, h4, h5⟩
  · obtain ⟨b, hb⟩ := List.exists_mem_of_ne_nil _ hn
    have hb := List.mem_filter.1 hb
    have hbj : b.state.justPage = s.state.justPage := by simpa using hb.2
    have hj : s.state.justPage ≠ .middle ∧ s.state.justPage ≠ .bottom := by
      rcases h s hs b hb.1 with k | ⟨k, _⟩
      · exact absurd hbj.symm k
      · exact k
    rw [e] at h2 h3 h5
    obtain ⟨m', k1, k2⟩ := dense_split _ h2
    have hmem : s ∈ samePage A s := List.mem_filter.2 ⟨hs, by simp⟩
    have hlt := (dense_lt k1).2 s hmem
    have hB : ∀ b ∈ samePage B s, m' ≤ b.state.lineNumber := by
      intro b hb
      obtain ⟨a, ha, e⟩ := dense_full k1 (m' - 1) (by omega) (by omega)
      have hb := List.mem_filter.1 hb
      have ha := List.mem_filter.1 ha
      have hbj : b.state.justPage = s.state.justPage := by simpa using hb.2
      have haj : a.state.justPage = s.state.justPage := by simpa using ha.2
      rcases h a ha.1 b hb.1 with k | ⟨_, k⟩
      · exact absurd (haj.trans hbj.symm) k
      · have : a.state.lineNumber < b.state.lineNumber := k
        omega
    have hle : ∀ n, n < m' → linesHeight (decide (d.vmsCfg.charHeightPixels = 0)) d.fontDefinition (samePage A s) n =
        linesHeight (decide (d.vmsCfg.charHeightPixels = 0)) d.fontDefinition (samePage A s ++ samePage B s) n :=
      fun n hn => (linesHeight_append hB n hn).symm
    have hmm := (dense_lt k2).1
    have hmono := linesHeight_mono (full := decide (d.vmsCfg.charHeightPixels = 0)) (t := d.fontDefinition)
      (ss := samePage A s ++ samePage B s) (i := m' - 1) (k := m - m')
    rw [show m' - 1 + (m - m') = m - 1 by omega] at hmono
    refine ⟨f, m', _, h1, k1, rfl, ?_, ?_⟩
    · rw [hle _ (by omega)]
      rw [h3] at h4
      split at hmono <;> omega
    · rw [hle _ hlt]
      simp only at h5 ⊢
      rw [if_neg hj.1] at h5 ⊢
      have : ∀ t, linesTop s.state.textRectangle s.state.justPage t = s.state.textRectangle.y.toNat - 1 := by
        intro t
        unfold linesTop
        revert hj
        cases s.state.justPage <;> simp
      rw [this] at h5 ⊢
      exact h5

theorem exactX_apart {d : Dms} {A B : List Span} {s : Span} {x : Nat} (h : ∀ b ∈ B, ApartS s b)
    (hx : ExactX d (A ++ B) s x) : ExactX d A s x := by
  unfold ExactX at hx ⊢
  rwa [sameLine_apart h] at hx

theorem atX_pieces {d : Dms} {ss ss' : List Span} {s s' : Span} {x : Nat} (hl : ss.map pieceOf = ss'.map pieceOf)
    (hs : pieceOf s = pieceOf s') (ht : s.state.textRectangle = s'.state.textRectangle)
    (hu : ∀ u ∈ ss', pieceOf u = pieceOf s' → u = s') (h : AtX d ss s x) : AtX d ss' s' x := by
  obtain ⟨pre, post, n, total, h1, h2, h3, h4, h5⟩ := h
  obtain ⟨_, _, _, j, _⟩ := textAttr_eq (pieceOf_eq hs).1
  have e := sameLine_pieces hl hs
  rw [h1, List.map_append, List.map_cons] at e
  obtain ⟨pre', r, e1, e2, e3⟩ := List.map_eq_append_iff.1 e.symm
  obtain ⟨u, post', rfl, e4, e5⟩ := List.map_eq_cons_iff.1 e3
  have hus : u = s' := hu u (List.mem_filter.1 (show u ∈ sameLine ss' s' by rw [e1]; simp)).1 (e4.trans hs)
  subst hus
  refine ⟨pre', post', n, total, e1, before_pieces e2.symm hs h2, lineWidth_pieces h3 rfl (sameLine_pieces hl hs), by rw [← ht]; exact h4, ?_⟩
  rw [← ht, ← j]
  exact h5

/-! ### text drawn -/

open Classical in
theorem textPx_unlit {t : FontTable} {ps : List (Span × Nat × Nat)} {i j : Nat} (h : ∀ p ∈ ps, ¬ LightsAt t p.1 p.2.1 p.2.2 i j) :
    ∀ c, textPx t ps i j c = c := by
  induction ps with
  | nil => intro c; rfl
  | cons p ps ih =>
    intro c
    show textPx t ps i j _ = c
    rw [ih (fun q hq => h q (List.mem_cons_of_mem _ hq))]
    exact if_neg (h p (List.mem_cons_self ..))

theorem layoutOf_pieces {d : Dms} {t sp rect ws} {ps : List (Span × Nat × Nat)}
    (h : (ps.map Prod.fst).map pieceOf = pieces (signAttr d) t sp 0 true ws) :
    layoutOf d t sp rect ws = ps.map fun p => spanOf d rect (pieceOf p.1) := by
  unfold layoutOf
  rw [← h, List.map_map, List.map_map]
  rfl

theorem textDrawn_added {d : Dms} {t sp rect us ws} {a b b' : Raster} (ht : Tidy (signAttr d) t true true (us ++ ws))
    (hb : BeginsBelow (signAttr d) (us.foldl (TextAttr.apply (signAttr d)) t) ws)
    (h : TextDrawn d t sp rect us a b) (h' : TextDrawn d t sp rect (us ++ ws) a b') (i j : Nat) (hne : b'.px i j ≠ b.px i j) :
    LitBelow d (layoutOf d t sp rect us) (layoutOf d t sp rect (us ++ ws)) i j := by
  obtain ⟨ps, p1, ⟨p2, p3⟩, p4, p6, p5, p7, _⟩ := h
  obtain ⟨qs, q1, ⟨q2, q3⟩, q4, q6, q5, q7, _⟩ := h'
  obtain ⟨po, pat⟩ := p7 (tidy_append ws us ht).1
  obtain ⟨qo, qat⟩ := q7 ht
  have hap := added_apart sp 0 ht hb
  have ly := layoutOf_pieces (rect := rect) p1
  have ly' := layoutOf_pieces (rect := rect) q1
  -- split the texts
  rw [pieces_append] at q1
  obtain ⟨A', B', e1, e2, e3⟩ := List.map_eq_append_iff.1 q1
  obtain ⟨qA, qB, rfl, rfl, rfl⟩ := List.map_eq_append_iff.1 e1
  obtain ⟨more, hm⟩ := numbers_append (signAttr d) ws us t 0 true
  rw [hm] at q2
  have hlen : qA.length = ps.length := by
    have := congrArg List.length (e2.trans p1.symm)
    simpa using this
  have hnum : (qA.map Prod.fst).map (·.state.spanNumber) = (ps.map Prod.fst).map (·.state.spanNumber) := by
    rw [List.map_append, List.map_append] at q2
    have := List.append_inj_left q2 (by rw [← p2]; simp [hlen])
    rw [this, p2]
  have hkey : (qA.map Prod.fst).map placeKey = (ps.map Prod.fst).map placeKey := by
    have e4 := e2.trans p1.symm
    have z : ∀ l : List Span, l.map placeKey = (l.map pieceOf).zip (l.map (·.state.spanNumber)) := by
      intro l
      induction l with
      | nil => rfl
      | cons a l ih => simp only [List.map_cons, List.zip_cons_cons, ih]; rfl
    rw [z, z, e4, hnum]
  have hapS : ∀ a ∈ qA.map Prod.fst, ∀ b ∈ qB.map Prod.fst, ApartS a b := by
    intro a ha b hb'
    exact hap _ (e2 ▸ List.mem_map_of_mem ha) _ (e3 ▸ List.mem_map_of_mem hb')
  rw [List.map_append] at qat q3
  -- the texts before are at the same places
  have hsame : ∀ k (h1 : k < qA.length) (h2 : k < ps.length), pieceOf qA[k].1 = pieceOf ps[k].1 ∧ qA[k].2 = ps[k].2 := by
    intro k h1 h2
    have hk : placeKey qA[k].1 = placeKey ps[k].1 := by
      have := congrArg (·[k]?) hkey
      simpa [h1, h2] using this
    have hk1 : pieceOf qA[k].1 = pieceOf ps[k].1 := congrArg Prod.fst hk
    have mq : qA[k] ∈ qA := List.getElem_mem h1
    have mp : ps[k] ∈ ps := List.getElem_mem h2
    have rq := (q4 _ (List.mem_map_of_mem (List.mem_append_left qB mq))).1
    have rp := (p4 _ (List.mem_map_of_mem mp)).1
    obtain ⟨qx, _⟩ := q3 _ (List.mem_append_left qB mq)
    obtain ⟨px, _⟩ := p3 _ mp
    obtain ⟨_, qy⟩ := qat _ (List.mem_append_left qB mq)
    obtain ⟨_, py⟩ := pat _ mp
    have ex := exactX_same hkey hk (rq.trans rp.symm) (exactX_apart (hapS _ (List.mem_map_of_mem mq)) qx)
    have ey := atY_pieces (placeKey_pieces hkey) hk1 (rq.trans rp.symm) (atY_apart (List.mem_map_of_mem mq) hapS qy)
    exact ⟨hk1, Prod.ext (exactX_unique ex px) (atY_unique ey py)⟩
  have hpx : textPx d.fontDefinition qA i j (a.px i j) = textPx d.fontDefinition ps i j (a.px i j) := by
    refine textPx_pairs (pairwise2_get hlen fun k h1 h2 => ?_) _
    obtain ⟨k1, k2⟩ := hsame k h1 h2
    have mq : qA[k] ∈ qA := List.getElem_mem h1
    have mp : ps[k] ∈ ps := List.getElem_mem h2
    rw [k2]
    refine ⟨⟨lightsAt_pieces k1, lightsAt_pieces k1.symm⟩, fun _ => ?_⟩
    rw [(q4 _ (List.mem_map_of_mem (List.mem_append_left qB mq))).2.1, (p4 _ (List.mem_map_of_mem mp)).2.1, k1]
  rw [textAt_iff] at p5 q5
  have hlit : ∃ q ∈ qB, LightsAt d.fontDefinition q.1 q.2.1 q.2.2 i j := by
    refine Classical.byContradiction fun hno => hne ?_
    rw [p5, q5]
    show textPx _ (qA ++ qB) i j (a.px i j) = textPx _ ps i j (a.px i j)
    rw [textPx_append, textPx_unlit (fun q hq hl => hno ⟨q, hq, hl⟩), hpx]
  obtain ⟨q, hq, f, es, l1, l2, l3⟩ := hlit
  have mq : q ∈ qA ++ qB := List.mem_append_right _ hq
  have rq := (q4 _ (List.mem_map_of_mem mq)).1
  obtain ⟨qx, qy⟩ := qat _ mq
  have hpc : pieceOf q.1 = pieceOf (spanOf d rect (pieceOf q.1)) := (pieceOf_spanOf d rect _).symm
  have hlp : (qA.map Prod.fst ++ qB.map Prod.fst).map pieceOf = (layoutOf d t sp rect (us ++ ws)).map pieceOf := by
    rw [ly', List.map_map, ← List.map_append, List.map_map]
    exact List.map_congr_left fun p _ => (pieceOf_spanOf d rect _).symm
  have qy' : AtY d (layoutOf d t sp rect (us ++ ws)) (spanOf d rect (pieceOf q.1)) q.2.2 := atY_pieces hlp hpc rq qy
  have qx' : AtX d (layoutOf d t sp rect (us ++ ws)) (spanOf d rect (pieceOf q.1)) q.2.1 := by
    refine atX_pieces hlp hpc rq (fun u hu e => ?_) qx
    rw [ly'] at hu
    obtain ⟨p, _, rfl⟩ := List.mem_map.1 hu
    rw [pieceOf_spanOf, pieceOf_spanOf] at e
    rw [e]
  have hsplit : layoutOf d t sp rect (us ++ ws) = layoutOf d t sp rect us ++ qB.map fun p => spanOf d rect (pieceOf p.1) := by
    rw [ly', ly, List.map_append]
    congr 1
    refine List.ext_getElem (by simpa using hlen) fun k h1 h2 => ?_
    simp only [List.length_map] at h1 h2
    simp only [List.getElem_map]
    rw [(hsame k h1 h2).1]
  refine ⟨spanOf d rect (pieceOf q.1), ?_, ⟨q.2.1, q.2.2, f, es, qx', qy', fontOf_pieces hpc l1, l2, ?_⟩, ?_⟩
  · rw [hsplit, List.drop_left]
    exact List.mem_map_of_mem hq
  · rw [← charSpacing_pieces hpc]; exact l3
  · intro o ho hj y g hy hg
    have hj2 : (pieceOf o).attr.justPage = (pieceOf (spanOf d rect (pieceOf q.1))).attr.justPage := hj
    have ho2 := ho
    rw [ly] at ho
    obtain ⟨p, hp, rfl⟩ := List.mem_map.1 ho
    -- the corresponding text of the longer message
    obtain ⟨k, hk, rfl⟩ := List.mem_iff_getElem.1 hp
    have hk' : k < qA.length := by rw [hlen]; exact hk
    obtain ⟨k1, k2⟩ := hsame k hk' hk
    have mo : qA[k] ∈ qA := List.getElem_mem hk'
    obtain ⟨_, oy⟩ := qat _ (List.mem_append_left qB mo)
    have ro := (q4 _ (List.mem_map_of_mem (List.mem_append_left qB mo))).1
    have hlo : (layoutOf d t sp rect us).map pieceOf = (ps.map Prod.fst).map pieceOf := by
      rw [p1, layoutOf, map_spanOf]
    have ey : y = qA[k].2.2 := by
      refine atY_unique (atY_pieces hlo (pieceOf_spanOf d rect _) ?_ hy) (s := ps[k].1) ?_
      · exact (p4 _ (List.mem_map_of_mem hp)).1.symm
      · rw [k2]; exact (pat _ hp).2
    have hap1 : ApartS qA[k].1 q.1 := hapS _ (List.mem_map_of_mem mo) _ (List.mem_map_of_mem hq)
    have hjj : qA[k].1.state.justPage = q.1.state.justPage := by
      have e1 : (pieceOf qA[k].1).attr.justPage = (pieceOf ps[k].1).attr.justPage := by rw [k1]
      rw [pieceOf_spanOf, pieceOf_spanOf] at hj2
      exact e1.trans hj2
    rcases hap1 with h | ⟨h1, h2⟩
    · exact absurd hjj h
    · have hfo : FontOf d.fontDefinition qA[k].1 g := by
        refine fontOf_pieces (k1.trans (pieceOf_spanOf d rect _).symm).symm hg
      have := (atY_order (by rw [← List.map_append]; exact List.mem_map_of_mem mq) hjj h2 (ro.trans rq.symm) oy qy hfo l1
        fun hmid => absurd hmid h1.1).1
      rw [ey]
      have := (lightsAt_inside ⟨f, es, l1, l2, l3⟩ l1 ⟨f, es, l1, l2, rfl⟩).2.2.1
      omega

end Ntcip
