import Verif.Spec.Justify
import Verif.Lemmas.Paint
/-
Lemmas on text which is moved as a whole by its justification.
-/
namespace Ntcip
open Spec

/-- the span with other justifications -/
def rejust (f : JustificationPage → JustificationPage) (g : JustificationLine → JustificationLine) (s : Span) : Span :=
  { s with state := { s.state with justPage := f s.state.justPage, justLine := g s.state.justLine } }

variable {f : JustificationPage → JustificationPage} {g : JustificationLine → JustificationLine}

/-! ### what does not depend on justifications -/

theorem beforeAt_rejust {t own} {p : Option Span} {ss n} (h : BeforeAt t own p ss n) :
    BeforeAt t own (p.map (rejust f g)) (ss.map (rejust f g)) n := by
  induction h with
  | nil => exact .nil
  | first hw _ ih => exact .first (s := rejust f g _) hw ih
  | next hg hw _ ih => exact .next (p := rejust f g _) (s := rejust f g _) hg hw ih

theorem lineWidth_rejust {t} {p : Option Span} {ss n} (h : LineWidth t p ss n) :
    LineWidth t (p.map (rejust f g)) (ss.map (rejust f g)) n := by
  induction h with
  | nil => exact .nil
  | first hw _ ih => exact .first (s := rejust f g _) hw ih
  | next hg hw _ ih => exact .next (p := rejust f g _) (s := rejust f g _) hg hw ih

theorem counted_rejust (ss : List Span) : ∀ k, counted k (ss.map (rejust f g)) = (counted k ss).map (rejust f g) ∧
    lineCount k (ss.map (rejust f g)) = lineCount k ss := by
  induction ss with
  | nil => intro k; exact ⟨rfl, rfl⟩
  | cons s ss ih =>
    intro k
    have e : (rejust f g s).state.lineNumber = s.state.lineNumber := rfl
    simp only [List.map_cons, counted, lineCount, e]
    split
    · rw [(ih k).1, (ih k).2]; exact ⟨rfl, rfl⟩
    · rw [(ih (k + 1)).1, (ih (k + 1)).2]; exact ⟨rfl, rfl⟩

theorem onLine_rejust (ss : List Span) (i : Nat) : onLine (ss.map (rejust f g)) i = (onLine ss i).map (rejust f g) := by
  unfold onLine
  rw [List.filter_map]
  rfl

theorem linesHeight_rejust (full : Bool) (t : FontTable) (ss : List Span) (n : Nat) :
    linesHeight full t (ss.map (rejust f g)) n = linesHeight full t ss n := by
  have h1 : ∀ i, lineHeight t (ss.map (rejust f g)) i = lineHeight t ss i := by
    intro i; unfold lineHeight; rw [onLine_rejust, List.map_map]; rfl
  have h2 : ∀ i, lineSpace full t (ss.map (rejust f g)) i = lineSpace full t ss i := by
    intro i
    unfold lineSpace tagLineSpacing fontLineSpacing
    simp only [onLine_rejust, List.map_map, List.findSome?_map]
    rfl
  induction n with
  | zero => exact h1 0
  | succ n ih => unfold linesHeight; rw [ih, h1, h2]

theorem samePage_all {spans : List Span} {s : Span} (h : ∀ x ∈ spans, x.state.justPage = s.state.justPage) :
    samePage spans s = spans := List.filter_eq_self.2 fun x hx => by simpa using h x hx

theorem sameLine_rejust {spans : List Span} {s : Span} (hs : s ∈ spans)
    (hf : ∀ x ∈ spans, ∀ y ∈ spans, f x.state.justPage = f y.state.justPage → x.state.justPage = y.state.justPage)
    (hg : ∀ x ∈ spans, ∀ y ∈ spans, g x.state.justLine = g y.state.justLine → x.state.justLine = y.state.justLine) :
    sameLine (spans.map (rejust f g)) (rejust f g s) = (sameLine spans s).map (rejust f g) := by
  unfold sameLine
  rw [List.filter_map]
  congr 1
  refine List.filter_congr fun x hx => ?_
  have e1 : (f x.state.justPage = f s.state.justPage) = (x.state.justPage = s.state.justPage) :=
    propext ⟨hf x hx s hs, fun h => by rw [h]⟩
  have e2 : (g x.state.justLine = g s.state.justLine) = (x.state.justLine = s.state.justLine) :=
    propext ⟨hg x hx s hs, fun h => by rw [h]⟩
  simp only [Function.comp, rejust, e1, e2]

/-! ### text at another place -/

theorem textColor_rejust (t : FontTable) (ps : List (Span × Nat × Nat)) (i j : Nat) :
    textColor t (ps.map fun p => (rejust f g p.1, p.2)) i j = textColor t ps i j := by
  classical
  have e : ∀ c, textPx t (ps.map fun p => (rejust f g p.1, p.2)) i j c = textPx t ps i j c := by
    intro c
    unfold textPx
    rw [List.foldl_map]
    rfl
  unfold textColor
  rw [e]
  have : (∃ p ∈ ps.map (fun p => (rejust f g p.1, p.2)), LightsAt t p.1 p.2.1 p.2.2 i j) =
      ∃ p ∈ ps, LightsAt t p.1 p.2.1 p.2.2 i j := by
    refine propext ⟨?_, ?_⟩
    · rintro ⟨p, hp, hl⟩
      obtain ⟨q, hq, rfl⟩ := List.mem_map.1 hp
      exact ⟨q, hq, hl⟩
    · rintro ⟨q, hq, hl⟩
      exact ⟨_, List.mem_map_of_mem hq, hl⟩
  simp only [this]

theorem lightsAt_moved {t : FontTable} {s : Span} {x y x0 y0 i j : Nat} :
    LightsAt t s (x0 + x) (y0 + y) i j ↔ (x0 ≤ i ∧ y0 ≤ j) ∧ LightsAt t s x y (i - x0) (j - y0) := by
  constructor
  · rintro ⟨f, es, h1, h2, before, e, after, row, col, k1, k2, k3, k4, k5, k6⟩
    exact ⟨⟨by omega, by omega⟩, f, es, h1, h2, before, e, after, row, col, k1, k2, k3, k4, by omega, by omega⟩
  · rintro ⟨⟨l1, l2⟩, f, es, h1, h2, before, e, after, row, col, k1, k2, k3, k4, k5, k6⟩
    exact ⟨f, es, h1, h2, before, e, after, row, col, k1, k2, k3, k4, by omega, by omega⟩

theorem textColor_moved (t : FontTable) (ps : List (Span × Nat × Nat)) (x0 y0 i j : Nat) :
    textColor t (ps.map fun p => (p.1, x0 + p.2.1, y0 + p.2.2)) i j =
      if x0 ≤ i ∧ y0 ≤ j then textColor t ps (i - x0) (j - y0) else none := by
  classical
  have hl : (∃ p ∈ ps.map (fun p => (p.1, x0 + p.2.1, y0 + p.2.2)), LightsAt t p.1 p.2.1 p.2.2 i j) =
      ((x0 ≤ i ∧ y0 ≤ j) ∧ ∃ p ∈ ps, LightsAt t p.1 p.2.1 p.2.2 (i - x0) (j - y0)) := by
    refine propext ⟨?_, ?_⟩
    · rintro ⟨p, hp, hl⟩
      obtain ⟨q, hq, rfl⟩ := List.mem_map.1 hp
      have := lightsAt_moved.1 hl
      exact ⟨this.1, q, hq, this.2⟩
    · rintro ⟨h, q, hq, hl⟩
      exact ⟨_, List.mem_map_of_mem hq, lightsAt_moved.2 ⟨h, hl⟩⟩
  unfold textColor
  simp only [hl]
  by_cases h : x0 ≤ i ∧ y0 ≤ j
  · simp only [h, true_and, and_self, if_true]
    split
    · congr 1
      unfold textPx
      rw [List.foldl_map]
      congr 1
      funext c p
      have : LightsAt t p.1 (x0 + p.2.1) (y0 + p.2.2) i j = LightsAt t p.1 p.2.1 p.2.2 (i - x0) (j - y0) := by
        rw [lightsAt_moved]; simp [h]
      simp only [this]
    · rfl
  · rw [if_neg h, if_neg (fun k => h k.1)]

theorem textColor_same {d : Dms} {t : FontTable} {ps ps' : List (Span × Nat × Nat)} {i j : Nat}
    (h : ps.map (fun p => (pieceOf p.1, p.2)) = ps'.map (fun p => (pieceOf p.1, p.2)))
    (h1 : ∀ p ∈ ps, p.1.state.colorCtx.foregroundRgb = foregroundRgb d (pieceOf p.1).attr.foreground)
    (h2 : ∀ p ∈ ps', p.1.state.colorCtx.foregroundRgb = foregroundRgb d (pieceOf p.1).attr.foreground) :
    textColor t ps i j = textColor t ps' i j := by
  classical
  have hl : ∀ {ps ps' : List (Span × Nat × Nat)},
      ps.map (fun p => (pieceOf p.1, p.2)) = ps'.map (fun p => (pieceOf p.1, p.2)) →
      (∃ p ∈ ps, LightsAt t p.1 p.2.1 p.2.2 i j) → ∃ p ∈ ps', LightsAt t p.1 p.2.1 p.2.2 i j := by
    rintro ps ps' h ⟨p, hp, hl⟩
    have : (pieceOf p.1, p.2) ∈ ps'.map (fun p => (pieceOf p.1, p.2)) := by
      rw [← h]; exact List.mem_map_of_mem (f := fun p : Span × Nat × Nat => (pieceOf p.1, p.2)) hp
    obtain ⟨q, hq, e⟩ := List.mem_map.1 this
    simp only [Prod.mk.injEq] at e
    exact ⟨q, hq, by rw [e.2]; exact lightsAt_pieces e.1.symm hl⟩
  unfold textColor
  have e : (∃ p ∈ ps, LightsAt t p.1 p.2.1 p.2.2 i j) = ∃ p ∈ ps', LightsAt t p.1 p.2.1 p.2.2 i j :=
    propext ⟨hl h, hl h.symm⟩
  simp only [e, textPx_same (d := d) h h1 h2]

/-! ### texts of values -/

theorem pieces_puts {dflt : TextAttr} {us : List Value} (h : ∀ u ∈ us, PutsNothing u) (ws : List Value) : ∀ a sp,
    pieces dflt a sp 0 true (us ++ ws) = pieces dflt (us.foldl (TextAttr.apply dflt) a) sp 0 true ws ∧
    numbers dflt a 0 true (us ++ ws) = numbers dflt (us.foldl (TextAttr.apply dflt) a) 0 true ws := by
  induction us with
  | nil => intro a sp; exact ⟨rfl, rfl⟩
  | cons u us ih =>
    intro a sp
    have hu := h u (List.mem_cons_self ..)
    have key := ih (fun v hv => h v (List.mem_cons_of_mem _ hv)) (TextAttr.apply dflt a u) sp
    rw [List.cons_append, pieces, numbers, List.foldl_cons, ← key.1, ← key.2]
    cases u <;> first | exact hu.elim | exact ⟨rfl, rfl⟩ | simp [piece, lineAfter, numberAfter, spacingAfter, blankAfter]

/-- the piece with another page justification -/
def Piece.onPage (P : JustificationPage) (p : Piece) : Piece := { p with attr := { p.attr with justPage := P } }

theorem pieces_page {dflt : TextAttr} (P : JustificationPage) {ws : List Value}
    (h : ∀ w ∈ ws, ∀ j, w ≠ .justificationPage j) : ∀ a sp l n b,
    pieces dflt { a with justPage := P } sp l b ws = (pieces dflt a sp l b ws).map (Piece.onPage P) ∧
    numbers dflt { a with justPage := P } n b ws = numbers dflt a n b ws ∧
    ∀ p ∈ pieces dflt a sp l b ws, p.attr.justPage = a.justPage := by
  induction ws with
  | nil => intro a sp l n b; exact ⟨rfl, rfl, by simp [pieces]⟩
  | cons w ws ih =>
    intro a sp l n b
    have key := ih (fun v hv => h v (List.mem_cons_of_mem _ hv)) (TextAttr.apply dflt a w) (spacingAfter sp w)
      (lineAfter dflt a l w) (numberAfter dflt a n w) (blankAfter b w)
    have hj := h w (List.mem_cons_self ..)
    have e1 : TextAttr.apply dflt { a with justPage := P } w = { TextAttr.apply dflt a w with justPage := P } := by
      cases w <;> first | exact absurd rfl (hj _) | rfl | (rename_i o; cases o <;> rfl)
    have e2 : lineAfter dflt { a with justPage := P } l w = lineAfter dflt a l w := by
      cases w <;> first | exact absurd rfl (hj _) | rfl
    have e3 : numberAfter dflt { a with justPage := P } n w = numberAfter dflt a n w := by
      cases w <;> first | exact absurd rfl (hj _) | rfl
    have e4 : piece { a with justPage := P } sp l b w = (piece a sp l b w).map (Piece.onPage P) := by
      cases w <;> first | rfl | (simp only [piece]; split <;> rfl)
    have e5 : (TextAttr.apply dflt a w).justPage = a.justPage := by
      cases w <;> first | exact absurd rfl (hj _) | rfl | (rename_i o; cases o <;> rfl)
    have e6 : ∀ p ∈ piece a sp l b w, p.attr = a := by
      cases w <;> simp [piece] <;> split <;> simp
    have e7 : (piece { a with justPage := P } none 0 b w).map (fun _ => n) = (piece a none 0 b w).map (fun _ => n) := by
      cases w <;> first | rfl | (simp only [piece]; split <;> rfl)
    simp only [pieces, numbers, List.map_append, e1, e2, e3, e4, e7, key.1, key.2.1]
    refine ⟨trivial, trivial, fun p hp => ?_⟩
    rcases List.mem_append.1 hp with hp | hp
    · rw [e6 p hp]
    · rw [key.2.2 p hp, e5]

/-! ### moved up or down -/

theorem blockHeight_pieces {d : Dms} {ss ss' : List Span} (h : ss.map pieceOf = ss'.map pieceOf) :
    blockHeight d ss = blockHeight d ss' := by
  obtain ⟨h1, h2⟩ := counted_pieces 0 h
  unfold blockHeight
  rw [h2, linesHeight_pieces h1]

theorem linesHeight_upTo (full : Bool) (t : FontTable) (ss : List Span) {m n : Nat} (h : m ≤ n) :
    linesHeight full t ss m ≤ linesHeight full t ss n := by
  induction n with
  | zero => obtain rfl : m = 0 := by omega
            exact Nat.le_refl _
  | succ n ih =>
    by_cases e : m = n + 1
    · subst e; exact Nat.le_refl _
    · have := ih (by omega)
      rw [linesHeight]
      omega

/-- lower edge of the line of the span, from the top of all lines -/
def lineLower (d : Dms) (spans : List Span) (s : Span) : Nat :=
  linesHeight (decide (d.vmsCfg.charHeightPixels = 0)) d.fontDefinition (counted 0 spans)
    (min s.state.lineNumber (lineCount 0 spans - 1))

theorem lineLower_le (d : Dms) (spans : List Span) (s : Span) : lineLower d spans s ≤ blockHeight d spans :=
  linesHeight_upTo _ _ _ (Nat.min_le_right _ _)

theorem exactY_block {d : Dms} {spans : List Span} {s : Span} {P : JustificationPage} {rect : Rectangle} {y : Nat}
    (hall : ∀ x ∈ spans, x.state.justPage = P) (hs : s ∈ spans) (hr : s.state.textRectangle = rect)
    (hc : P = .middle → CellHeights d) (h : ExactY d spans s y) :
    ∃ f, FontOf d.fontDefinition s f ∧ y + f.height.toNat = blockTop d rect P (blockHeight d spans) + lineLower d spans s ∧
      f.height.toNat ≤ lineLower d spans s ∧ blockHeight d spans ≤ rect.height.toNat := by
  obtain ⟨f, h1, h2, h3⟩ := h
  have hp : samePage spans s = spans := samePage_all fun x hx => by rw [hall x hx, hall s hs]
  have ho := countedHeight_own hs h1
  have e1 : countedHeight d spans s s.state.lineNumber = lineLower d spans s := by
    unfold countedHeight lineLower; rw [hp]
  have e2 : totalHeight d spans s = blockHeight d spans := by
    unfold totalHeight countedHeight blockHeight; rw [hp, Nat.min_self]
  rw [e2, hr] at h2
  rw [e1] at ho
  refine ⟨f, h1, ?_, ho, h2⟩
  rw [e1, e2, hr, hall s hs] at h3
  rw [h3]
  unfold blockTop
  by_cases hm : P = .middle
  · simp only [if_pos hm]
    refine cellEdge_add ?_
    rcases hc hm with hc | hc
    · have : signCellHeight d = 1 := by unfold signCellHeight; rw [hc]; rfl
      rw [this]; omega
    · by_cases h0 : d.vmsCfg.charHeightPixels = 0
      · have : signCellHeight d = 1 := by unfold signCellHeight; rw [h0]; rfl
        rw [this]; omega
      · unfold lineLower
        rw [decide_eq_false h0]
        exact linesHeight_mod hc _ _
  · simp only [if_neg hm]

/-- texts with one page justification, as colors moved from the upper edge -/
theorem textAt_block {d : Dms} {P : JustificationPage} {rect : Rectangle} {ps : List (Span × Nat × Nat)} {a b : Raster}
    (hall : ∀ p ∈ ps, p.1.state.justPage = P) (hr : ∀ p ∈ ps, p.1.state.textRectangle = rect)
    (hc : P = .middle → CellHeights d) (hy : ∀ p ∈ ps, ExactY d (ps.map Prod.fst) p.1 p.2.2)
    (hw : ∀ p ∈ ps, Within d.fontDefinition rect p) (h : TextAt d.fontDefinition ps a b) :
    Over (textColor d.fontDefinition (ps.map fun p => (p.1, p.2.1 - (rect.x.toNat - 1),
        p.2.2 - blockTop d rect P (blockHeight d (ps.map Prod.fst)))))
      (rect.x.toNat - 1) (blockTop d rect P (blockHeight d (ps.map Prod.fst))) a b ∧
    ∀ i j, textColor d.fontDefinition (ps.map fun p => (p.1, p.2.1 - (rect.x.toNat - 1),
        p.2.2 - blockTop d rect P (blockHeight d (ps.map Prod.fst)))) i j ≠ none →
      i < rect.width.toNat ∧ j < blockHeight d (ps.map Prod.fst) := by
  have hall' : ∀ x ∈ ps.map Prod.fst, x.state.justPage = P := by
    intro x hx
    obtain ⟨p, hp, rfl⟩ := List.mem_map.1 hx
    exact hall p hp
  have key := fun p hp => exactY_block hall' (List.mem_map_of_mem (f := Prod.fst) hp) (hr p hp) hc (hy p hp)
  refine ⟨⟨h.width, h.height, fun i j => ?_⟩, fun i j hne => ?_⟩
  · rw [textAt_iff] at h
    rw [← textColor_moved, List.map_map]
    have e : ps.map ((fun p : Span × Nat × Nat => (p.1, rect.x.toNat - 1 + p.2.1,
          blockTop d rect P (blockHeight d (ps.map Prod.fst)) + p.2.2)) ∘
        fun p => (p.1, p.2.1 - (rect.x.toNat - 1), p.2.2 - blockTop d rect P (blockHeight d (ps.map Prod.fst)))) = ps := by
      refine (List.map_congr_left fun p hp => ?_).trans (List.map_id ps)
      obtain ⟨f, k1, k2, k3, _⟩ := key p hp
      obtain ⟨_, _, _, _, l1, _⟩ := hw p hp
      refine Prod.ext rfl (Prod.ext ?_ ?_)
      · show rect.x.toNat - 1 + (p.2.1 - (rect.x.toNat - 1)) = p.2.1
        omega
      · show _ + (p.2.2 - _) = p.2.2
        omega
    rw [e, h]
    exact textPx_color _
  · unfold textColor at hne
    split at hne
    · rename_i hl
      obtain ⟨q, hq, hl⟩ := hl
      obtain ⟨p, hp, rfl⟩ := List.mem_map.1 hq
      obtain ⟨f, k1, k2, k3, _⟩ := key p hp
      obtain ⟨f', w, l1, l2, l3, l4, _⟩ := hw p hp
      obtain rfl := fontOf_unique k1 l1
      have := lightsAt_inside hl k1 l2
      have := lineLower_le d (ps.map Prod.fst) p.1
      simp only at *
      omega
    · exact absurd rfl hne

theorem rejust_pieces {P : JustificationPage} {s : Span} :
    pieceOf (rejust (fun _ => P) id s) = Piece.onPage P (pieceOf s) := rfl

/-- text with another page justification is the same text at another upper edge -/
theorem textDrawn_vertical {d : Dms} {t sp rect us tail a b b'} {P P' : JustificationPage} (hu : ∀ u ∈ us, PutsNothing u)
    (ht : ∀ w ∈ tail, ∀ j, w ≠ .justificationPage j) (hc : P = .middle ∨ P' = .middle → CellHeights d)
    (h : TextDrawn d t sp rect (us ++ .justificationPage (some P) :: tail) a b)
    (h' : TextDrawn d t sp rect (us ++ .justificationPage (some P') :: tail) a b') :
    ∃ T n, n = blockHeight d (layoutOf d t sp rect (us ++ .justificationPage (some P) :: tail)) ∧ n ≤ rect.height.toNat ∧
      (∀ i j, T i j ≠ none → i < rect.width.toNat ∧ j < n) ∧
      Over T (rect.x.toNat - 1) (blockTop d rect P n) a b ∧ Over T (rect.x.toNat - 1) (blockTop d rect P' n) a b' := by
  have hu' : ∀ Q, ∀ u ∈ us ++ [Value.justificationPage (some Q)], PutsNothing u := by
    intro Q u hm
    rcases List.mem_append.1 hm with hm | hm
    · exact hu u hm
    · rw [List.mem_singleton] at hm; subst hm; trivial
  have hat : ∀ Q, (us ++ [Value.justificationPage (some Q)]).foldl (TextAttr.apply (signAttr d)) t =
      { us.foldl (TextAttr.apply (signAttr d)) t with justPage := Q } := by
    intro Q; rw [List.foldl_append]; rfl
  have hap : ∀ Q, us ++ Value.justificationPage (some Q) :: tail = (us ++ [Value.justificationPage (some Q)]) ++ tail := by
    intro Q; rw [List.append_assoc]; rfl
  obtain ⟨ps, p1, ⟨p2, p3⟩, p4, p6, p5, _⟩ := h
  obtain ⟨qs, q1, ⟨q2, q3⟩, q4, q6, q5, _⟩ := h'
  have ep : ∀ Q, pieces (signAttr d) t sp 0 true (us ++ .justificationPage (some Q) :: tail) =
      (pieces (signAttr d) (us.foldl (TextAttr.apply (signAttr d)) t) sp 0 true tail).map (Piece.onPage Q) := by
    intro Q
    rw [hap, (pieces_puts (hu' Q) tail t sp).1, hat, (pieces_page Q ht _ sp 0 0 true).1]
  have en : ∀ Q, numbers (signAttr d) t 0 true (us ++ .justificationPage (some Q) :: tail) =
      numbers (signAttr d) (us.foldl (TextAttr.apply (signAttr d)) t) 0 true tail := by
    intro Q
    rw [hap, (pieces_puts (hu' Q) tail t sp).2, hat, (pieces_page Q ht _ sp 0 0 true).2.1]
  have onAll : ∀ {Q} {rs : List (Span × Nat × Nat)}, (rs.map Prod.fst).map pieceOf =
      (pieces (signAttr d) (us.foldl (TextAttr.apply (signAttr d)) t) sp 0 true tail).map (Piece.onPage Q) →
      ∀ p ∈ rs, p.1.state.justPage = Q := by
    intro Q rs e p hp
    have : pieceOf p.1 ∈ (rs.map Prod.fst).map pieceOf := List.mem_map_of_mem (List.mem_map_of_mem hp)
    rw [e] at this
    obtain ⟨x, _, hx⟩ := List.mem_map.1 this
    have := congrArg (fun p : Piece => p.attr.justPage) hx
    exact this.symm
  have p1' := p1
  rw [ep] at p1 q1
  rw [en] at p2 q2
  have hjp := onAll p1
  have hjq := onAll q1
  have hpr := fun p hp => (p4 _ (List.mem_map_of_mem (f := Prod.fst) (a := p) hp)).1
  have hqr := fun p hp => (q4 _ (List.mem_map_of_mem (f := Prod.fst) (a := p) hp)).1
  have hkey : ((ps.map Prod.fst).map (rejust (fun _ => P') id)).map placeKey = (qs.map Prod.fst).map placeKey := by
    refine map_pair ?_ ?_
    · rw [q1, List.map_map]
      have : (pieceOf ∘ rejust (fun _ => P') id) = (Piece.onPage P' ∘ pieceOf) := funext fun s => rejust_pieces
      rw [this, ← List.map_map, p1, List.map_map]
      rfl
    · rw [q2, ← p2, List.map_map]
      rfl
  have hblock : blockHeight d (qs.map Prod.fst) = blockHeight d (ps.map Prod.fst) := by
    rw [← blockHeight_pieces (placeKey_pieces hkey)]
    unfold blockHeight
    rw [(counted_rejust _ 0).1, (counted_rejust _ 0).2, linesHeight_rejust]
  have hlow : ∀ s s' : Span, s'.state.lineNumber = s.state.lineNumber →
      lineLower d (qs.map Prod.fst) s' = lineLower d (ps.map Prod.fst) s := by
    intro s s' e
    obtain ⟨k1, k2⟩ := counted_pieces 0 (placeKey_pieces hkey)
    unfold lineLower
    rw [← k2, ← linesHeight_pieces k1, (counted_rejust _ 0).1, (counted_rejust _ 0).2, linesHeight_rejust, e]
  have hlen : ps.length = qs.length := by simpa using congrArg List.length hkey
  have hlay : blockHeight d (layoutOf d t sp rect (us ++ .justificationPage (some P) :: tail)) =
      blockHeight d (ps.map Prod.fst) := by
    refine blockHeight_pieces ?_
    rw [layoutOf_pieces p1', List.map_map, List.map_map]
    rfl
  have A := textAt_block (d := d) hjp hpr (fun e => hc (.inl e)) (fun p hp => (p3 p hp).2) p6 p5
  have B := textAt_block (d := d) hjq hqr (fun e => hc (.inr e)) (fun p hp => (q3 p hp).2) q6 q5
  rw [hblock] at B
  have hT : textColor d.fontDefinition (qs.map fun p => (p.1, p.2.1 - (rect.x.toNat - 1),
        p.2.2 - blockTop d rect P' (blockHeight d (ps.map Prod.fst)))) =
      textColor d.fontDefinition (ps.map fun p => (p.1, p.2.1 - (rect.x.toNat - 1),
        p.2.2 - blockTop d rect P (blockHeight d (ps.map Prod.fst)))) := by
    funext i j
    rw [← textColor_rejust (f := fun _ => P') (g := id) _ (ps.map _), List.map_map]
    refine (textColor_same (d := d) ?_ ?_ ?_).symm
    · refine List.ext_getElem (by simpa using hlen) fun k k1 k2 => ?_
      simp only [List.length_map] at k1 k2
      simp only [List.getElem_map, Function.comp]
      have mp : ps[k] ∈ ps := List.getElem_mem k1
      have mq : qs[k] ∈ qs := List.getElem_mem k2
      have e : placeKey (rejust (fun _ => P') id ps[k].1) = placeKey qs[k].1 := by
        have := congrArg (·[k]?) hkey
        simpa [k1, k2] using this
      have er : (rejust (fun _ => P') id ps[k].1).state.textRectangle = qs[k].1.state.textRectangle :=
        (hpr _ mp).trans (hqr _ mq).symm
      have ex : ps[k].2.1 = qs[k].2.1 := by
        refine exactX_unique (exactX_same hkey e er ?_) (q3 _ mq).1
        obtain ⟨n, total, h1, h2, h3, h4⟩ := (p3 _ mp).1
        have hs := sameLine_rejust (f := fun _ => P') (g := id) (List.mem_map_of_mem (f := Prod.fst) mp)
          (fun x hx y hy _ => by
            obtain ⟨u, hu, rfl⟩ := List.mem_map.1 hx
            obtain ⟨v, hv, rfl⟩ := List.mem_map.1 hy
            rw [hjp u hu, hjp v hv]) (fun x _ y _ h => h)
        refine ⟨n, total, ?_, ?_, h3, h4⟩
        · rw [hs]; exact beforeAt_rejust (p := none) h1
        · rw [hs]; exact lineWidth_rejust (p := none) h2
      have ep := (Prod.mk.inj e).1
      have jps : ∀ x ∈ ps.map Prod.fst, x.state.justPage = P := by
        intro x hx
        obtain ⟨u, hu, rfl⟩ := List.mem_map.1 hx
        exact hjp u hu
      have jqs : ∀ x ∈ qs.map Prod.fst, x.state.justPage = P' := by
        intro x hx
        obtain ⟨u, hu, rfl⟩ := List.mem_map.1 hx
        exact hjq u hu
      obtain ⟨f1, a1, a2, a3, _⟩ := exactY_block jps (List.mem_map_of_mem (f := Prod.fst) mp) (hpr _ mp)
        (fun e => hc (.inl e)) (p3 _ mp).2
      obtain ⟨f2, b1, b2, b3, _⟩ := exactY_block jqs (List.mem_map_of_mem (f := Prod.fst) mq) (hqr _ mq)
        (fun e => hc (.inr e)) (q3 _ mq).2
      have ef : f1 = f2 := fontOf_unique (fontOf_pieces ep (a1 : FontOf d.fontDefinition (rejust _ id ps[k].1) f1)) b1
      subst ef
      rw [hblock, hlow ps[k].1 qs[k].1 (pieceOf_eq ep).2.2.1.symm] at b2
      refine Prod.ext ep (Prod.ext ?_ ?_)
      · show ps[k].2.1 - _ = qs[k].2.1 - _
        rw [ex]
      · show ps[k].2.2 - _ = qs[k].2.2 - _
        omega
    · intro p hp
      obtain ⟨q, hq, rfl⟩ := List.mem_map.1 hp
      exact (p4 _ (List.mem_map_of_mem (f := Prod.fst) hq)).2.1
    · intro p hp
      obtain ⟨q, hq, rfl⟩ := List.mem_map.1 hp
      exact (q4 _ (List.mem_map_of_mem (f := Prod.fst) hq)).2.1
  rw [hT] at B
  refine ⟨_, _, hlay.symm, ?_, A.2, A.1, B.1⟩
  cases hps : ps with
  | nil => exact Nat.zero_le _
  | cons p rest =>
    have mp : p ∈ ps := by rw [hps]; exact List.mem_cons_self ..
    have jps : ∀ x ∈ ps.map Prod.fst, x.state.justPage = P := by
      intro x hx
      obtain ⟨u, hu, rfl⟩ := List.mem_map.1 hx
      exact hjp u hu
    obtain ⟨_, _, _, _, k⟩ := exactY_block jps (List.mem_map_of_mem (f := Prod.fst) mp) (hpr _ mp)
      (fun e => hc (.inl e)) (p3 _ mp).2
    rw [← hps]
    exact k

/-! ### moved to the left or right -/

/-- the piece with another line justification -/
def Piece.toLine (L : JustificationLine) (p : Piece) : Piece := { p with attr := { p.attr with justLine := L } }

theorem pieces_line {dflt : TextAttr} (L : JustificationLine) {ws : List Value} (h : ∀ w ∈ ws, StaysOnLine w) : ∀ a sp l n b,
    pieces dflt { a with justLine := L } sp l b ws = (pieces dflt a sp l b ws).map (Piece.toLine L) ∧
    numbers dflt { a with justLine := L } n b ws = numbers dflt a n b ws ∧
    ∀ p ∈ pieces dflt a sp l b ws, p.attr.justPage = a.justPage ∧ p.line = l := by
  induction ws with
  | nil => intro a sp l n b; exact ⟨rfl, rfl, by simp [pieces]⟩
  | cons w ws ih =>
    intro a sp l n b
    have hj := h w (List.mem_cons_self ..)
    have key := ih (fun v hv => h v (List.mem_cons_of_mem _ hv)) (TextAttr.apply dflt a w) (spacingAfter sp w)
      l (numberAfter dflt a n w) (blankAfter b w)
    have e0 : lineAfter dflt a l w = l := by
      cases w <;> first | exact hj.elim | rfl
    have e1 : TextAttr.apply dflt { a with justLine := L } w = { TextAttr.apply dflt a w with justLine := L } := by
      cases w <;> first | exact hj.elim | rfl | (rename_i o; cases o <;> rfl)
    have e2 : lineAfter dflt { a with justLine := L } l w = l := by
      cases w <;> first | exact hj.elim | rfl
    have e3 : numberAfter dflt { a with justLine := L } n w = numberAfter dflt a n w := by
      cases w <;> first | exact hj.elim | rfl
    have e4 : piece { a with justLine := L } sp l b w = (piece a sp l b w).map (Piece.toLine L) := by
      cases w <;> first | exact hj.elim | rfl
    have e5 : (TextAttr.apply dflt a w).justPage = a.justPage := by
      cases w <;> first | exact hj.elim | rfl | (rename_i o; cases o <;> rfl)
    have e6 : ∀ p ∈ piece a sp l b w, p.attr = a ∧ p.line = l := by
      cases w <;> first | exact hj.elim | simp [piece]
    have e7 : (piece { a with justLine := L } none 0 b w).map (fun _ => n) = (piece a none 0 b w).map (fun _ => n) := by
      cases w <;> first | exact hj.elim | rfl
    simp only [pieces, numbers, List.map_append, e0, e1, e2, e3, e4, e7, key.1, key.2.1]
    refine ⟨trivial, trivial, fun p hp => ?_⟩
    rcases List.mem_append.1 hp with hp | hp
    · rw [(e6 p hp).1]; exact ⟨rfl, (e6 p hp).2⟩
    · rw [(key.2.2 p hp).1, e5]; exact ⟨rfl, (key.2.2 p hp).2⟩

theorem exactY_rejust {d : Dms} {spans : List Span} {s : Span} {y : Nat} (h : ExactY d spans s y) :
    ExactY d (spans.map (rejust id g)) (rejust id g s) y := by
  have hp : samePage (spans.map (rejust id g)) (rejust id g s) = (samePage spans s).map (rejust id g) := by
    unfold samePage
    rw [List.filter_map]
    rfl
  have e1 : ∀ n, countedHeight d (spans.map (rejust id g)) (rejust id g s) n = countedHeight d spans s n := by
    intro n
    unfold countedHeight
    rw [hp, (counted_rejust _ 0).1, (counted_rejust _ 0).2, linesHeight_rejust]
  have e2 : totalHeight d (spans.map (rejust id g)) (rejust id g s) = totalHeight d spans s := by
    unfold totalHeight
    rw [hp, (counted_rejust _ 0).2, e1]
  obtain ⟨f, h1, h2, h3⟩ := h
  refine ⟨f, h1, by rw [e2]; exact h2, ?_⟩
  rw [e1, e2]
  exact h3

theorem exactX_line {d : Dms} {spans : List Span} {s : Span} {L : JustificationLine} {rect : Rectangle} {w x : Nat}
    (hall : ∀ a ∈ spans, ∀ b ∈ spans, a.state.justPage = b.state.justPage ∧ a.state.lineNumber = b.state.lineNumber)
    (hl : ∀ x ∈ spans, x.state.justLine = L) (hs : s ∈ spans) (hr : s.state.textRectangle = rect)
    (hc : L = .center → d.vmsCfg.charWidthPixels = 0) (hw : LineWidth d.fontDefinition none spans w)
    (h : ExactX d spans s x) : ∃ n, BeforeAt d.fontDefinition s.state.spanNumber none spans n ∧
      x = lineLeft rect L w + n := by
  obtain ⟨n, total, h1, h2, h3, h4⟩ := h
  have hsl : sameLine spans s = spans := by
    refine List.filter_eq_self.2 fun y hy => ?_
    have := hall y hy s hs
    simp [this, hl y hy, hl s hs]
  rw [hsl] at h1 h2
  obtain rfl := lineWidth_unique hw h2
  refine ⟨n, h1, ?_⟩
  rw [h4, hl s hs, hr]
  split
  · rename_i e
    have : signCellWidth d = 1 := by unfold signCellWidth; rw [hc e]; rfl
    rw [this]
    unfold cellEdge
    omega
  · rfl

theorem beforeAt_width {t own prev ss n m} (h : BeforeAt t own prev ss n) (h' : LineWidth t prev ss m) : n ≤ m := by
  induction h generalizing m with
  | nil => exact Nat.zero_le _
  | first hw _ ih =>
    cases h' with
    | first hw' hl' =>
      have := spanWidth_unique hw hw'
      have := ih hl'
      split <;> omega
  | next hg hw _ ih =>
    cases h' with
    | next hg' hw' hl' =>
      have := spanWidth_unique hw hw'
      have := gap_unique hg hg'
      have := ih hl'
      split <;> split <;> omega

theorem beforeAt_end {t own prev ss n} {s : Span} {m w} (h : BeforeAt t own prev ss n) (hs : s ∈ ss)
    (ho : s.state.spanNumber = own) (hw : SpanWidth t s w) (h' : LineWidth t prev ss m) : n + w ≤ m := by
  induction h generalizing m with
  | nil => cases hs
  | first k1 k2 ih =>
    cases h' with
    | first hw' hl' =>
      have := spanWidth_unique k1 hw'
      rcases List.mem_cons.1 hs with rfl | hs
      · have := spanWidth_unique k1 hw
        have := beforeAt_width k2 hl'
        rw [if_neg (by omega)]
        omega
      · have := ih hs hl'
        split <;> omega
  | next k0 k1 k2 ih =>
    cases h' with
    | next hg' hw' hl' =>
      have := spanWidth_unique k1 hw'
      have := gap_unique k0 hg'
      rcases List.mem_cons.1 hs with rfl | hs
      · have := spanWidth_unique k1 hw
        have := beforeAt_width k2 hl'
        rw [if_neg (c := s.state.spanNumber < own) (by omega)]
        split <;> omega
      · have := ih hs hl'
        split <;> split <;> omega

/-- texts of one line, as colors moved from the left edge -/
theorem textAt_line {d : Dms} {L : JustificationLine} {rect : Rectangle} {ps : List (Span × Nat × Nat)} {a b : Raster} {w : Nat}
    (hall : ∀ a ∈ ps.map Prod.fst, ∀ b ∈ ps.map Prod.fst,
      a.state.justPage = b.state.justPage ∧ a.state.lineNumber = b.state.lineNumber)
    (hl : ∀ x ∈ ps.map Prod.fst, x.state.justLine = L) (hr : ∀ p ∈ ps, p.1.state.textRectangle = rect)
    (hc : L = .center → d.vmsCfg.charWidthPixels = 0) (hw : LineWidth d.fontDefinition none (ps.map Prod.fst) w)
    (hx : ∀ p ∈ ps, ExactX d (ps.map Prod.fst) p.1 p.2.1) (h : TextAt d.fontDefinition ps a b) :
    Over (textColor d.fontDefinition (ps.map fun p => (p.1, p.2.1 - lineLeft rect L w, p.2.2))) (lineLeft rect L w) 0 a b ∧
    ∀ i j, textColor d.fontDefinition (ps.map fun p => (p.1, p.2.1 - lineLeft rect L w, p.2.2)) i j ≠ none → i < w := by
  have key := fun p hp => exactX_line hall hl (List.mem_map_of_mem (f := Prod.fst) hp) (hr p hp) hc hw (hx p hp)
  refine ⟨⟨h.width, h.height, fun i j => ?_⟩, fun i j hne => ?_⟩
  · rw [textAt_iff] at h
    rw [← textColor_moved, List.map_map]
    have e : ps.map ((fun p : Span × Nat × Nat => (p.1, lineLeft rect L w + p.2.1, 0 + p.2.2)) ∘
        fun p => (p.1, p.2.1 - lineLeft rect L w, p.2.2)) = ps := by
      refine (List.map_congr_left fun p hp => ?_).trans (List.map_id ps)
      obtain ⟨n, _, k⟩ := key p hp
      refine Prod.ext rfl (Prod.ext ?_ ?_)
      · show lineLeft rect L w + (p.2.1 - lineLeft rect L w) = p.2.1
        omega
      · show 0 + p.2.2 = p.2.2
        omega
    rw [e, h]
    exact textPx_color _
  · unfold textColor at hne
    split at hne
    · rename_i hl'
      obtain ⟨q, hq, hl'⟩ := hl'
      obtain ⟨p, hp, rfl⟩ := List.mem_map.1 hq
      obtain ⟨n, k1, k2⟩ := key p hp
      have hl2 := hl'
      obtain ⟨f, es, m1, m2, _⟩ := hl2
      have hsw : SpanWidth d.fontDefinition p.1 _ := ⟨f, es, m1, m2, rfl⟩
      have := lightsAt_inside hl' m1 hsw
      have := beforeAt_end k1 (List.mem_map_of_mem (f := Prod.fst) hp) rfl hsw hw
      simp only at *
      omega
    · exact absurd rfl hne

/-- text of one line with another line justification is the same text at another left edge -/
theorem textDrawn_horizontal {d : Dms} {t sp rect us tail a b b'} {L L' : JustificationLine} (hu : ∀ u ∈ us, PutsNothing u)
    (ht : ∀ w ∈ tail, StaysOnLine w) (hc : L = .center ∨ L' = .center → d.vmsCfg.charWidthPixels = 0)
    (h : TextDrawn d t sp rect (us ++ .justificationLine (some L) :: tail) a b)
    (h' : TextDrawn d t sp rect (us ++ .justificationLine (some L') :: tail) a b') :
    ∃ T n, LineWidth d.fontDefinition none (layoutOf d t sp rect (us ++ .justificationLine (some L) :: tail)) n ∧
      n ≤ rect.width.toNat ∧ (∀ i j, T i j ≠ none → i < n) ∧
      Over T (lineLeft rect L n) 0 a b ∧ Over T (lineLeft rect L' n) 0 a b' := by
  have hu' : ∀ Q, ∀ u ∈ us ++ [Value.justificationLine (some Q)], PutsNothing u := by
    intro Q u hm
    rcases List.mem_append.1 hm with hm | hm
    · exact hu u hm
    · rw [List.mem_singleton] at hm; subst hm; trivial
  have hat : ∀ Q, (us ++ [Value.justificationLine (some Q)]).foldl (TextAttr.apply (signAttr d)) t =
      { us.foldl (TextAttr.apply (signAttr d)) t with justLine := Q } := by
    intro Q; rw [List.foldl_append]; rfl
  have hap : ∀ Q, us ++ Value.justificationLine (some Q) :: tail = (us ++ [Value.justificationLine (some Q)]) ++ tail := by
    intro Q; rw [List.append_assoc]; rfl
  obtain ⟨ps, p1, ⟨p2, p3⟩, p4, _, p5, _⟩ := h
  obtain ⟨qs, q1, ⟨q2, q3⟩, q4, _, q5, _⟩ := h'
  have ep : ∀ Q, pieces (signAttr d) t sp 0 true (us ++ .justificationLine (some Q) :: tail) =
      (pieces (signAttr d) (us.foldl (TextAttr.apply (signAttr d)) t) sp 0 true tail).map (Piece.toLine Q) := by
    intro Q
    rw [hap, (pieces_puts (hu' Q) tail t sp).1, hat, (pieces_line Q ht _ sp 0 0 true).1]
  have en : ∀ Q, numbers (signAttr d) t 0 true (us ++ .justificationLine (some Q) :: tail) =
      numbers (signAttr d) (us.foldl (TextAttr.apply (signAttr d)) t) 0 true tail := by
    intro Q
    rw [hap, (pieces_puts (hu' Q) tail t sp).2, hat, (pieces_line Q ht _ sp 0 0 true).2.1]
  have onAll : ∀ {Q} {rs : List (Span × Nat × Nat)}, (rs.map Prod.fst).map pieceOf =
      (pieces (signAttr d) (us.foldl (TextAttr.apply (signAttr d)) t) sp 0 true tail).map (Piece.toLine Q) →
      ∀ s ∈ rs.map Prod.fst, s.state.justLine = Q ∧
        s.state.justPage = (us.foldl (TextAttr.apply (signAttr d)) t).justPage ∧ s.state.lineNumber = 0 := by
    intro Q rs e s hs
    have : pieceOf s ∈ (rs.map Prod.fst).map pieceOf := List.mem_map_of_mem hs
    rw [e] at this
    obtain ⟨x, hm, hx⟩ := List.mem_map.1 this
    have k := (pieces_line Q ht _ sp 0 0 true).2.2 x hm
    exact ⟨(congrArg (fun p : Piece => p.attr.justLine) hx).symm,
      (congrArg (fun p : Piece => p.attr.justPage) hx).symm.trans k.1, (congrArg Piece.line hx).symm.trans k.2⟩
  have p1' := p1
  rw [ep] at p1 q1
  rw [en] at p2 q2
  have hjp := onAll p1
  have hjq := onAll q1
  have hpr := fun p hp => (p4 _ (List.mem_map_of_mem (f := Prod.fst) (a := p) hp)).1
  have hqr := fun p hp => (q4 _ (List.mem_map_of_mem (f := Prod.fst) (a := p) hp)).1
  have hkey : ((ps.map Prod.fst).map (rejust id (fun _ => L'))).map placeKey = (qs.map Prod.fst).map placeKey := by
    refine map_pair ?_ ?_
    · rw [q1, List.map_map]
      have : (pieceOf ∘ rejust id (fun _ => L')) = (Piece.toLine L' ∘ pieceOf) := rfl
      rw [this, ← List.map_map, p1, List.map_map]
      rfl
    · rw [q2, ← p2, List.map_map]
      rfl
  have hlen : ps.length = qs.length := by simpa using congrArg List.length hkey
  have hone : ∀ a ∈ ps.map Prod.fst, ∀ b ∈ ps.map Prod.fst,
      a.state.justPage = b.state.justPage ∧ a.state.lineNumber = b.state.lineNumber := fun a ha b hb =>
    ⟨(hjp a ha).2.1.trans (hjp b hb).2.1.symm, (hjp a ha).2.2.trans (hjp b hb).2.2.symm⟩
  have hone' : ∀ a ∈ qs.map Prod.fst, ∀ b ∈ qs.map Prod.fst,
      a.state.justPage = b.state.justPage ∧ a.state.lineNumber = b.state.lineNumber := fun a ha b hb =>
    ⟨(hjq a ha).2.1.trans (hjq b hb).2.1.symm, (hjq a ha).2.2.trans (hjq b hb).2.2.symm⟩
  obtain ⟨w, hw, hle⟩ : ∃ w, LineWidth d.fontDefinition none (ps.map Prod.fst) w ∧ w ≤ rect.width.toNat := by
    cases hps : ps with
    | nil => exact ⟨0, .nil, Nat.zero_le _⟩
    | cons p rest =>
      have mp : p ∈ ps := by rw [hps]; exact List.mem_cons_self ..
      obtain ⟨n, total, h1, h2, h3, h4⟩ := (p3 p mp).1
      have hsl : sameLine (ps.map Prod.fst) p.1 = ps.map Prod.fst := by
        refine List.filter_eq_self.2 fun y hy => ?_
        have m2 := List.mem_map_of_mem (f := Prod.fst) mp
        have := hone y hy p.1 m2
        simp [this, (hjp y hy).1, (hjp _ m2).1]
      rw [hsl] at h2
      rw [hpr p mp] at h3
      rw [← hps]
      exact ⟨total, h2, h3⟩
  have hw' : LineWidth d.fontDefinition none (qs.map Prod.fst) w :=
    lineWidth_pieces (lineWidth_rejust (f := id) (g := fun _ => L') (p := none) hw) rfl (placeKey_pieces hkey)
  have A := textAt_line hone (fun x hx => (hjp x hx).1) hpr (fun e => hc (.inl e)) hw (fun p hp => (p3 p hp).1) p5
  have B := textAt_line hone' (fun x hx => (hjq x hx).1) hqr (fun e => hc (.inr e)) hw' (fun p hp => (q3 p hp).1) q5
  have hT : textColor d.fontDefinition (qs.map fun p => (p.1, p.2.1 - lineLeft rect L' w, p.2.2)) =
      textColor d.fontDefinition (ps.map fun p => (p.1, p.2.1 - lineLeft rect L w, p.2.2)) := by
    funext i j
    rw [← textColor_rejust (f := id) (g := fun _ => L') _ (ps.map _), List.map_map]
    refine (textColor_same (d := d) ?_ ?_ ?_).symm
    · refine List.ext_getElem (by simpa using hlen) fun k k1 k2 => ?_
      simp only [List.length_map] at k1 k2
      simp only [List.getElem_map, Function.comp]
      have mp : ps[k] ∈ ps := List.getElem_mem k1
      have mq : qs[k] ∈ qs := List.getElem_mem k2
      have e : placeKey (rejust id (fun _ => L') ps[k].1) = placeKey qs[k].1 := by
        have := congrArg (·[k]?) hkey
        simpa [k1, k2] using this
      have er : (rejust id (fun _ => L') ps[k].1).state.textRectangle = qs[k].1.state.textRectangle :=
        (hpr _ mp).trans (hqr _ mq).symm
      have ey : ps[k].2.2 = qs[k].2.2 := exactY_unique (exactY_same hkey e er (exactY_rejust (p3 _ mp).2)) (q3 _ mq).2
      obtain ⟨n1, a1, a2⟩ := exactX_line hone (fun x hx => (hjp x hx).1) (List.mem_map_of_mem (f := Prod.fst) mp)
        (hpr _ mp) (fun e => hc (.inl e)) hw (p3 _ mp).1
      obtain ⟨n2, b1, b2⟩ := exactX_line hone' (fun x hx => (hjq x hx).1) (List.mem_map_of_mem (f := Prod.fst) mq)
        (hqr _ mq) (fun e => hc (.inr e)) hw' (q3 _ mq).1
      have en : n1 = n2 := by
        have k := beforeAt_placeKey (beforeAt_rejust (f := id) (g := fun _ => L') (p := none) a1) rfl hkey
        rw [← (Prod.mk.inj e).2] at b1
        exact beforeAt_unique k b1
      refine Prod.ext (Prod.mk.inj e).1 (Prod.ext ?_ ey)
      show ps[k].2.1 - _ = qs[k].2.1 - _
      omega
    · intro p hp
      obtain ⟨q, hq, rfl⟩ := List.mem_map.1 hp
      exact (p4 _ (List.mem_map_of_mem (f := Prod.fst) hq)).2.1
    · intro p hp
      obtain ⟨q, hq, rfl⟩ := List.mem_map.1 hp
      exact (q4 _ (List.mem_map_of_mem (f := Prod.fst) hq)).2.1
  rw [hT] at B
  refine ⟨_, w, ?_, hle, A.2, A.1, B.1⟩
  refine lineWidth_pieces hw rfl ?_
  rw [layoutOf_pieces p1', List.map_map, List.map_map]
  rfl

end Ntcip
