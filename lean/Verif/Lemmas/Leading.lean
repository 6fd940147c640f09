import Verif.Spec.Leading
import Verif.Lemmas.Push
import Verif.Props.Place

/-! Lemmas for `C139`: another spacing of a line. -/

namespace Ntcip

open Spec

/-- the span with another line spacing, if it is on a line -/
def respan (l : Nat) (s : Option UInt8) (x : Span) : Span :=
  if x.state.lineNumber = l then ⟨{ x.state with lineSpacing := s }, x.str⟩ else x

/-- the same for the texts of a layout -/
def repiece (l : Nat) (s : Option UInt8) (p : Piece) : Piece := if p.line = l then { p with spacing := s } else p

theorem respan_piece {l s x} : pieceOf (respan l s x) = repiece l s (pieceOf x) := by
  unfold respan repiece
  show pieceOf (if _ then _ else _) = if x.state.lineNumber = l then _ else _
  split <;> rfl

theorem respan_unlined {l s x} : unlined (respan l s x) = unlined x := by
  unfold respan; split <;> rfl

theorem respan_state {l s x} : (respan l s x).state.lineNumber = x.state.lineNumber ∧
    (respan l s x).state.justPage = x.state.justPage ∧ (respan l s x).state.justLine = x.state.justLine ∧
    (respan l s x).state.textRectangle = x.state.textRectangle ∧ (respan l s x).state.spanNumber = x.state.spanNumber ∧
    (respan l s x).state.fontNum = x.state.fontNum ∧ (respan l s x).state.colorCtx = x.state.colorCtx := by
  unfold respan; split <;> exact ⟨rfl, rfl, rfl, rfl, rfl, rfl, rfl⟩

theorem onLine_respan {l s} (W : List Span) (i : Nat) : onLine (W.map (respan l s)) i = (onLine W i).map (respan l s) := by
  unfold onLine
  rw [List.filter_map]
  congr 1
  refine List.filter_congr fun x _ => ?_
  simp only [Function.comp, respan_state.1]

theorem ofFont_respan {l s t v} (W : List Span) : (W.map (respan l s)).map (ofFont t v) = W.map (ofFont t v) := by
  rw [List.map_map]
  refine List.map_congr_left fun x _ => ?_
  simp only [Function.comp, ofFont, respan_state.2.2.2.2.2.1]

theorem fontLineSpacing_respan {t l s} {W : List Span} (i : Nat) :
    fontLineSpacing t (W.map (respan l s)) i = fontLineSpacing t W i := by
  unfold fontLineSpacing; rw [onLine_respan, ofFont_respan]

/-- the heights of lines with another spacing -/
theorem linesHeight_respace {t : FontTable} {W : List Span} {l : Nat} {s' : Option UInt8} : ∀ i,
    (i ≤ l → linesHeight true t (W.map (respan (l + 1) s')) i = linesHeight true t W i) ∧
    (l < i → linesHeight true t (W.map (respan (l + 1) s')) i + lineSpace true t W l =
      linesHeight true t W i + lineSpace true t (W.map (respan (l + 1) s')) l) := by
  have h1 : ∀ i, lineHeight t (W.map (respan (l + 1) s')) i = lineHeight t W i := fun i => by
    unfold lineHeight; rw [onLine_respan, ofFont_respan]
  have h3 : ∀ i, i ≠ l + 1 → tagLineSpacing (W.map (respan (l + 1) s')) i = tagLineSpacing W i := fun i hi => by
    unfold tagLineSpacing
    rw [onLine_respan]
    congr 1
    refine (List.map_congr_left fun x hx => ?_).trans (List.map_id _)
    have := (List.mem_filter.1 hx).2
    simp only [decide_eq_true_eq] at this
    unfold respan
    rw [if_neg (by omega)]
    rfl
  have h4 : ∀ i, i ≠ l → lineSpace true t (W.map (respan (l + 1) s')) i = lineSpace true t W i := fun i hi => by
    simp only [lineSpace, if_true, fontLineSpacing_respan, h3 (i + 1) (by omega)]
  intro i
  induction i with
  | zero => exact ⟨fun _ => h1 0, fun h => by omega⟩
  | succ i ih =>
    refine ⟨fun h => ?_, fun h => ?_⟩
    · simp only [linesHeight, h1, h4 i (by omega), ih.1 (by omega)]
    · by_cases e : i = l
      · subst e
        simp only [linesHeight, h1, ih.1 (Nat.le_refl _)]
        omega
      · have := ih.2 (by omega)
        simp only [linesHeight, h1, h4 i e]
        omega

theorem dense_respan {l s W k n} (h : Dense k W n) : Dense k (W.map (respan l s)) n := by
  induction h with
  | nil => exact .nil
  | old h _ ih => exact .old (by rw [respan_state.1]; exact h) ih
  | new h _ ih => exact .new (by rw [respan_state.1]; exact h) ih

theorem exactX_respan {d : Dms} {l s W p x} (h : ExactX d W p x) : ExactX d (W.map (respan l s)) (respan l s p) x := by
  obtain ⟨n, total, h1, h2, h3, h4⟩ := h
  have e : sameLine (W.map (respan l s)) (respan l s p) = (sameLine W p).map (respan l s) := by
    unfold sameLine
    rw [List.filter_map]
    congr 1
    refine List.filter_congr fun x _ => ?_
    simp only [Function.comp, respan_state.1, respan_state.2.1, respan_state.2.2.1]
  have e2 : ((sameLine W p).map (respan l s)).map unlined = (sameLine W p).map unlined := by
    rw [List.map_map]
    exact List.map_congr_left fun x _ => respan_unlined
  unfold ExactX
  rw [e, respan_state.2.2.1, respan_state.2.2.2.1, respan_state.2.2.2.2.1]
  exact ⟨n, total, beforeAt_lined (p := none) (by rw [e2]; exact beforeAt_unlined h1),
    lineWidth_lined (p := none) (by rw [e2]; exact lineWidth_unlined h2), h3, h4⟩

theorem tag_line {W : List Span} {l : Nat} {s : Option UInt8} (hne : onLine W l ≠ [])
    (hs : ∀ w ∈ onLine W l, w.state.lineSpacing = s) : tagLineSpacing W l = s.map UInt8.toNat := by
  unfold tagLineSpacing
  revert hne hs
  cases s with
  | none =>
    intro _ h
    exact List.findSome?_eq_none_iff.2 fun w hw => by rw [h w hw]; rfl
  | some s =>
    cases onLine W l with
    | nil => intro h; exact absurd rfl h
    | cons x xs => intro _ h; simp [List.findSome?, h x (List.mem_cons_self ..)]

theorem lineSpace_pieces {full t} {ss ss' : List Span} (h : ss.map pieceOf = ss'.map pieceOf) (i : Nat) :
    lineSpace full t ss i = lineSpace full t ss' i := by
  have h2 : ∀ i, fontLineSpacing t ss i = fontLineSpacing t ss' i := fun i => by
    unfold fontLineSpacing; rw [ofFont_pieces (onLine_pieces i h)]
  simp only [lineSpace, h2, tagLineSpacing_pieces _ h]

theorem heights_mono {full t} {W : List Span} {i j : Nat} (h : i ≤ j) : linesHeight full t W i ≤ linesHeight full t W j := by
  induction h with
  | refl => exact Nat.le_refl _
  | step _ ih =>
    refine Nat.le_trans ih ?_
    simp only [linesHeight]
    omega

theorem heights_below {t} {W : List Span} (l k : Nat) :
    linesHeight true t W l + lineSpace true t W l + lineHeight t W (l + 1 + k) ≤ linesHeight true t W (l + 1 + k) := by
  have h1 : linesHeight true t W (l + 1) = linesHeight true t W l + lineSpace true t W l + lineHeight t W (l + 1) := rfl
  cases k with
  | zero => rw [Nat.add_zero]; omega
  | succ k =>
    have h2 := heights_mono (full := true) (t := t) (W := W) (i := l + 1) (j := l + 1 + k) (by omega)
    show _ ≤ linesHeight true t W (l + 1 + k) + lineSpace true t W (l + 1 + k) + lineHeight t W (l + 1 + k + 1)
    rw [show l + 1 + (k + 1) = l + 1 + k + 1 by omega]
    omega

/-- texts from a row on, as colors from that row -/
theorem over_rows {t : FontTable} {part : List (Span × Nat × Nat)} {y : Nat} (h : ∀ p ∈ part, y ≤ p.2.2) (a : Raster) :
    Over (textColor t (part.map fun p => (p.1, p.2.1, p.2.2 - y))) 0 y a
      ⟨a.width, a.height, fun i j => textPx t part i j (a.px i j)⟩ := by
  refine ⟨rfl, rfl, fun i j => ?_⟩
  rw [← textColor_moved, List.map_map]
  have e : part.map ((fun p : Span × Nat × Nat => (p.1, 0 + p.2.1, y + p.2.2)) ∘ fun p => (p.1, p.2.1, p.2.2 - y)) = part := by
    refine (List.map_congr_left fun p hp => ?_).trans (List.map_id part)
    have := h p hp
    refine Prod.ext rfl (Prod.ext ?_ ?_)
    · show 0 + p.2.1 = p.2.1
      omega
    · show y + (p.2.2 - y) = p.2.2
      omega
  rw [e]
  exact textPx_color _

theorem rows_end {t : FontTable} {part : List (Span × Nat × Nat)} {y m : Nat}
    (h : ∀ p ∈ part, ∀ f, FontOf t p.1 f → p.2.2 - y + f.height.toNat ≤ m) (i j : Nat)
    (hne : textColor t (part.map fun p => (p.1, p.2.1, p.2.2 - y)) i j ≠ none) : j < m := by
  unfold textColor at hne
  split at hne
  · rename_i hl
    obtain ⟨q, hq, hl⟩ := hl
    obtain ⟨p, hp, rfl⟩ := List.mem_map.1 hq
    have hl2 := hl
    obtain ⟨f, es, m1, m2, _⟩ := hl2
    have hsw : SpanWidth t p.1 _ := ⟨f, es, m1, m2, rfl⟩
    have := lightsAt_inside hl m1 hsw
    have := h p hp f m1
    simp only at *
    omega
  · exact absurd rfl hne

theorem lightsAt_respan {t : FontTable} {l s p x y i j} : LightsAt t (respan l s p) x y i j ↔ LightsAt t p x y i j := by
  unfold respan; split <;> exact Iff.rfl

theorem textColor_respan {t : FontTable} {l s} (ps : List (Span × Nat × Nat)) (i j : Nat) :
    textColor t (ps.map fun p => (respan l s p.1, p.2)) i j = textColor t ps i j := by
  classical
  have hl : (∃ p ∈ ps.map (fun p => (respan l s p.1, p.2)), LightsAt t p.1 p.2.1 p.2.2 i j) =
      ∃ p ∈ ps, LightsAt t p.1 p.2.1 p.2.2 i j := by
    refine propext ⟨?_, ?_⟩
    · rintro ⟨p, hp, hl⟩
      obtain ⟨q, hq, rfl⟩ := List.mem_map.1 hp
      exact ⟨q, hq, lightsAt_respan.1 hl⟩
    · rintro ⟨q, hq, hl⟩
      exact ⟨_, List.mem_map_of_mem hq, lightsAt_respan.2 hl⟩
  unfold textColor
  simp only [hl]
  split
  · congr 1
    unfold textPx
    rw [List.foldl_map]
    congr 1
    funext c p
    have : LightsAt t (respan l s p.1) p.2.1 p.2.2 i j = LightsAt t p.1 p.2.1 p.2.2 i j := propext lightsAt_respan
    simp only [this, respan_state.2.2.2.2.2.2]
  · rfl

/-- the texts of the same values with another spacing of the line -/
theorem pieces_respan {dflt : TextAttr} {s s' : Option UInt8} (ws : List Value) : (∀ j, Value.justificationPage j ∉ ws) →
    ∀ {a l b}, pieces dflt a s' l b ws = (pieces dflt a s l b ws).map (repiece l s') := by
  induction ws with
  | nil => intro _ a l b; rfl
  | cons v ws ih =>
    intro hj a l b
    have hj' : ∀ j, Value.justificationPage j ∉ ws := fun j hm => hj j (List.mem_cons_of_mem _ hm)
    cases v with
    | justificationPage j => exact absurd (List.mem_cons_self ..) (hj j)
    | newLine ls =>
      unfold pieces
      rw [List.map_append]
      congr 1
      · unfold piece
        simp only
        split
        · simp [repiece]
        · rfl
      · refine ((List.map_congr_left fun p hp => ?_).trans (List.map_id _)).symm
        have := (pieces_between ws hj' p hp).1
        unfold repiece
        rw [if_neg (by simp only [lineAfter] at this; omega)]
        rfl
    | text x =>
      unfold pieces
      rw [List.map_append]
      exact congr (congrArg _ (by simp [piece, repiece])) (ih hj')
    | hexadecimalCharacter x =>
      unfold pieces
      rw [List.map_append]
      exact congr (congrArg _ (by simp [piece, repiece])) (ih hj')
    | _ =>
      unfold pieces
      rw [List.map_append]
      exact congr (congrArg _ (by simp [piece])) (ih hj')

theorem numbers_respan {dflt : TextAttr} {s s' : Option UInt8} {ws : List Value} (us : List Value) : ∀ {a n b},
    numbers dflt a n b (us ++ .newLine s :: ws) = numbers dflt a n b (us ++ .newLine s' :: ws) := by
  induction us with
  | nil => intro a n b; rfl
  | cons u us ih =>
    intro a n b
    show _ ++ numbers dflt _ _ _ (us ++ _) = _ ++ numbers dflt _ _ _ (us ++ _)
    rw [ih]

theorem pieces_text {dflt : TextAttr} {x : Str} {ws : List Value} (h : .text x ∈ ws) : ∀ {a sp l b},
    pieces dflt a sp l b ws ≠ [] := by
  induction ws with
  | nil => cases h
  | cons v ws ih =>
    intro a sp l b e
    unfold pieces at e
    obtain ⟨e1, e2⟩ := List.append_eq_nil_iff.1 e
    rcases List.mem_cons.1 h with rfl | h
    · simp [piece] at e1
    · exact ih h e2

/-- texts of one page, in the two blocks above and below a new line -/
theorem block_parts {d : Dms} {t sp rect vs us ws a b} {s : Option UInt8} (hfull : d.vmsCfg.charHeightPixels = 0)
    (hv : ∀ v ∈ vs, PutsNothing v) (hu : ∀ j, Value.justificationPage j ∉ us) (hw : ∀ j, Value.justificationPage j ∉ ws)
    (ht : Tidy (signAttr d) t true true (vs ++ (us ++ .newLine s :: ws))) {J : JustificationPage}
    (hJ : (vs.foldl (TextAttr.apply (signAttr d)) t).justPage = J)
    (h : TextDrawn d t sp rect (vs ++ (us ++ .newLine s :: ws)) a b) {KB KT : List Piece}
    (hK : pieces (signAttr d) t sp 0 true (vs ++ (us ++ .newLine s :: ws)) = KB ++ KT) (hKT : KT ≠ []) :
    ∃ (pB pT : List (Span × Nat × Nat)) (m : Nat),
      (pB.map Prod.fst).map pieceOf = KB ∧ (pT.map Prod.fst).map pieceOf = KT ∧ pT ≠ [] ∧
      ((pB ++ pT).map Prod.fst).map (·.state.spanNumber) = numbers (signAttr d) t 0 true (vs ++ (us ++ .newLine s :: ws)) ∧
      Dense 0 ((pB ++ pT).map Prod.fst) m ∧
      linesHeight true d.fontDefinition ((pB ++ pT).map Prod.fst) (m - 1) ≤ rect.height.toNat ∧
      (∀ p ∈ pB ++ pT, p.1.state.textRectangle = rect ∧
        p.1.state.colorCtx.foregroundRgb = foregroundRgb d (pieceOf p.1).attr.foreground ∧
        ExactX d ((pB ++ pT).map Prod.fst) p.1 p.2.1 ∧
        ∃ f, FontOf d.fontDefinition p.1 f ∧ p.2.2 + f.height.toNat =
          linesTop rect J (linesHeight true d.fontDefinition ((pB ++ pT).map Prod.fst) (m - 1)) +
          linesHeight true d.fontDefinition ((pB ++ pT).map Prod.fst) p.1.state.lineNumber) ∧
      b = ⟨a.width, a.height, fun i j => textPx d.fontDefinition (pB ++ pT) i j (a.px i j)⟩ := by
  obtain ⟨ps, p1, ⟨p2, p3⟩, p4, _, p5, p6, _⟩ := h
  obtain ⟨_, pat⟩ := p6 ht
  have hone : ∀ x ∈ ps.map Prod.fst, x.state.justPage = J := by
    intro x hx
    have hm : pieceOf x ∈ (ps.map Prod.fst).map pieceOf := List.mem_map_of_mem hx
    rw [p1, (pieces_puts hv _ t sp).1] at hm
    have := (pieces_between _ (by
      intro j hm
      rcases List.mem_append.1 hm with hm | hm
      · exact hu j hm
      · rcases List.mem_cons.1 hm with hm | hm
        · cases hm
        · exact hw j hm) _ hm).2.2
    rw [hJ] at this
    exact this
  have hfd : decide (d.vmsCfg.charHeightPixels = 0) = true := decide_eq_true hfull
  have hcell : signCellHeight d = 1 := by unfold signCellHeight; rw [hfull]; rfl
  rw [hK, List.map_map] at p1
  obtain ⟨pB, pT, rfl, e1, e2⟩ := List.map_eq_append_iff.1 p1
  have hpT : pT ≠ [] := by rintro rfl; exact hKT e2.symm
  obtain ⟨p0, m0⟩ := List.exists_mem_of_ne_nil pT hpT
  have m0' : p0 ∈ pB ++ pT := List.mem_append_right _ m0
  have hsame : ∀ p ∈ pB ++ pT, samePage ((pB ++ pT).map Prod.fst) p.1 = (pB ++ pT).map Prod.fst := by
    intro p hp
    refine List.filter_eq_self.2 fun w hw => ?_
    simp only [decide_eq_true_eq]
    exact (hone w hw).trans (hone p.1 (List.mem_map_of_mem hp)).symm
  obtain ⟨_, m, total, _, k2, k3, k4, _⟩ := (pat p0 m0').2
  rw [hsame p0 m0'] at k2 k3
  rw [hfd] at k3
  rw [(p4 _ (List.mem_map_of_mem m0')).1, k3] at k4
  refine ⟨pB, pT, m, by rw [List.map_map]; exact e1, by rw [List.map_map]; exact e2, hpT, p2, k2, k4, fun p hp => ?_, textAt_iff.1 p5⟩
  have q4 := p4 _ (List.mem_map_of_mem (f := Prod.fst) hp)
  refine ⟨q4.1, q4.2.1, (p3 p hp).1, ?_⟩
  obtain ⟨f, m', total', l1, l2, l3, l4, l5⟩ := (pat p hp).2
  rw [hsame p hp] at l2 l3 l5
  obtain rfl := dense_unique k2 l2
  rw [hfd] at l3 l5
  rw [hone p.1 (List.mem_map_of_mem hp), q4.1, l3, hcell] at l5
  refine ⟨f, l1, ?_⟩
  rw [l5]
  unfold cellEdge
  simp only [Nat.mod_one, Nat.sub_zero, ite_self]

/-- another spacing of a new line -/
theorem tidy_spacing {dflt : TextAttr} {s s' : Option UInt8} {ws : List Value} (us : List Value) : ∀ {a n b},
    Tidy dflt a n b (us ++ .newLine s :: ws) → Tidy dflt a n b (us ++ .newLine s' :: ws) := by
  induction us with
  | nil => exact fun h => h
  | cons u us ih => exact fun h => ⟨h.1, ih h.2⟩

theorem textDrawn_leading {d : Dms} {t sp rect vs us ws a b b'} {s s' : Option UInt8} (hfull : d.vmsCfg.charHeightPixels = 0)
    (hv : ∀ v ∈ vs, PutsNothing v) (hu : ∀ j, Value.justificationPage j ∉ us) (hw : ∀ j, Value.justificationPage j ∉ ws)
    (hx : ∃ x, Value.text x ∈ ws)
    (ht : Tidy (signAttr d) t true true (vs ++ (us ++ .newLine s :: ws)))
    {J : JustificationPage}
    (hJ : (vs.foldl (TextAttr.apply (signAttr d)) t).justPage = J)
    (h : TextDrawn d t sp rect (vs ++ (us ++ .newLine s :: ws)) a b)
    (h' : TextDrawn d t sp rect (vs ++ (us ++ .newLine s' :: ws)) a b') :
    ∃ B T h g g' n n',
      h = linesHeight true d.fontDefinition (layoutOf d t sp rect (vs ++ (us ++ .newLine s :: ws))) (newLines us) ∧
      g = gapOf d.fontDefinition s (newLines us) (layoutOf d t sp rect (vs ++ (us ++ .newLine s :: ws))) ∧
      g' = gapOf d.fontDefinition s' (newLines us) (layoutOf d t sp rect (vs ++ (us ++ .newLine s' :: ws))) ∧
      n = blockHeight d (layoutOf d t sp rect (vs ++ (us ++ .newLine s :: ws))) ∧
      n' = blockHeight d (layoutOf d t sp rect (vs ++ (us ++ .newLine s' :: ws))) ∧
      n ≤ rect.height.toNat ∧ n' ≤ rect.height.toNat ∧ n' + g = n + g' ∧
      (∀ i j, B i j ≠ none → j < h) ∧ (∀ i j, T i j ≠ none → h + g + j < n) ∧
      InTwoBlocks B T (linesTop rect J n) h g a b ∧ InTwoBlocks B T (linesTop rect J n') h g' a b' := by
  have ht' : Tidy (signAttr d) t true true (vs ++ (us ++ .newLine s' :: ws)) := by
    rw [← List.append_assoc] at ht ⊢
    exact tidy_spacing _ ht
  have hle := lineEnd_lines (dflt := signAttr d) us hu (vs.foldl (TextAttr.apply (signAttr d)) t) 0
  rw [Nat.zero_add] at hle
  -- the texts above and below
  obtain ⟨KB, hKB, kB⟩ : ∃ KB, (∀ r : Option UInt8, pieces (signAttr d) t sp 0 true (vs ++ (us ++ .newLine r :: ws)) = KB ++
      pieces (signAttr d) (us.foldl (TextAttr.apply (signAttr d)) (vs.foldl (TextAttr.apply (signAttr d)) t)) r (newLines us + 1)
        true ws) ∧ ∀ p ∈ KB, p.line ≤ newLines us := by
    refine ⟨pieces (signAttr d) (vs.foldl (TextAttr.apply (signAttr d)) t) sp 0 true us ++
      piece (us.foldl (TextAttr.apply (signAttr d)) (vs.foldl (TextAttr.apply (signAttr d)) t)) (us.foldl spacingAfter sp)
        (newLines us) (us.foldl blankAfter true) (.newLine none), fun r => ?_, fun p hp => ?_⟩
    · rw [(pieces_puts hv _ t sp).1, pieces_append, hle, List.append_assoc]
      rfl
    · rcases List.mem_append.1 hp with hp | hp
      · have := (pieces_between us hu p hp).2.1
        omega
      · have := (piece_line hp).2
        omega
  have hKT : ∀ r : Option UInt8, pieces (signAttr d) (us.foldl (TextAttr.apply (signAttr d)) (vs.foldl (TextAttr.apply (signAttr d)) t)) r
      (newLines us + 1) true ws ≠ [] := fun r => by
    obtain ⟨x, hx⟩ := hx
    exact pieces_text hx
  have kT : ∀ r : Option UInt8, ∀ p ∈ pieces (signAttr d) (us.foldl (TextAttr.apply (signAttr d))
      (vs.foldl (TextAttr.apply (signAttr d)) t)) r (newLines us + 1) true ws, newLines us + 1 ≤ p.line :=
    fun r p hp => (pieces_between ws hw p hp).1
  obtain ⟨pB, pT, m, a1, a2, a3, a4, a5, a6, a7, a8⟩ := block_parts hfull hv hu hw ht hJ h (hKB _) (hKT _)
  obtain ⟨qB, qT, m', b1, b2, b3, b4, b5, b6, b7, b8⟩ := block_parts hfull hv hu hw ht' hJ h' (hKB _) (hKT _)
  have lB : ∀ {P : List (Span × Nat × Nat)}, (P.map Prod.fst).map pieceOf = KB → ∀ p ∈ P, p.1.state.lineNumber ≤ newLines us :=
    fun e p hp => kB (pieceOf p.1) (e ▸ List.mem_map_of_mem (List.mem_map_of_mem hp))
  have lT : ∀ {r} {P : List (Span × Nat × Nat)}, (P.map Prod.fst).map pieceOf = pieces (signAttr d) (us.foldl
      (TextAttr.apply (signAttr d)) (vs.foldl (TextAttr.apply (signAttr d)) t)) r (newLines us + 1) true ws →
      ∀ p ∈ P, newLines us + 1 ≤ p.1.state.lineNumber :=
    fun e p hp => kT _ (pieceOf p.1) (e ▸ List.mem_map_of_mem (List.mem_map_of_mem hp))
  have hre : ∀ r : Option UInt8, (((pB ++ pT).map Prod.fst).map (respan (newLines us + 1) r)).map pieceOf = KB ++
      pieces (signAttr d) (us.foldl (TextAttr.apply (signAttr d)) (vs.foldl (TextAttr.apply (signAttr d)) t)) r (newLines us + 1)
        true ws := by
    intro r
    have e : ∀ L : List Span, (L.map (respan (newLines us + 1) r)).map pieceOf =
        (L.map pieceOf).map (repiece (newLines us + 1) r) := by
      intro L
      rw [List.map_map, List.map_map]
      exact List.map_congr_left fun x _ => respan_piece
    rw [e, List.map_append, List.map_append, List.map_append, a1, a2, ← pieces_respan ws hw]
    congr 1
    refine (List.map_congr_left fun p hp => ?_).trans (List.map_id _)
    have := kB p hp
    unfold repiece
    rw [if_neg (by omega)]
    rfl
  have hkey : (((pB ++ pT).map Prod.fst).map (respan (newLines us + 1) s')).map placeKey =
      ((qB ++ qT).map Prod.fst).map placeKey := by
    refine map_pair ?_ ?_
    · rw [hre, List.map_append, List.map_append, b1, b2]
    · rw [b4, ← List.append_assoc, numbers_respan (s' := s), List.append_assoc, ← a4, List.map_map]
      exact List.map_congr_left fun x _ => respan_state.2.2.2.2.1
  -- the heights of the lines
  have hm : m = m' := dense_unique (dense_pieces (dense_respan a5) (placeKey_pieces hkey)) b5
  subst hm
  obtain ⟨p0, m0⟩ := List.exists_mem_of_ne_nil pT a3
  have hLm : newLines us + 1 < m := by
    have h1 := lT a2 p0 m0
    have h2 := (dense_lt a5).2 p0.1 (List.mem_map_of_mem (List.mem_append_right _ m0))
    omega
  have hne : onLine ((pB ++ pT).map Prod.fst) (newLines us + 1) ≠ [] := by
    obtain ⟨x, x1, x2⟩ := dense_full a5 (newLines us + 1) (Nat.zero_le _) hLm
    have : x ∈ onLine ((pB ++ pT).map Prod.fst) (newLines us + 1) := List.mem_filter.2 ⟨x1, by simpa using x2⟩
    intro e
    rw [e] at this
    cases this
  have hs : ∀ w ∈ onLine ((pB ++ pT).map Prod.fst) (newLines us + 1), w.state.lineSpacing = s := by
    intro w hw'
    obtain ⟨x1, x2⟩ := List.mem_filter.1 hw'
    simp only [decide_eq_true_eq] at x2
    have hm : pieceOf w ∈ ((pB ++ pT).map Prod.fst).map pieceOf := List.mem_map_of_mem x1
    rw [List.map_append, List.map_append, a1, a2, pieces_respan (s := s) (s' := s) ws hw] at hm
    rcases List.mem_append.1 hm with hm | hm
    · have := kB _ hm
      have e : (pieceOf w).line = w.state.lineNumber := rfl
      omega
    · obtain ⟨p, _, e⟩ := List.mem_map.1 hm
      have e1 : (repiece (newLines us + 1) s p).line = p.line := by unfold repiece; split <;> rfl
      have e2 : p.line = newLines us + 1 := by
        rw [← e1, e]; exact x2
      unfold repiece at e
      rw [if_pos e2] at e
      exact (congrArg Piece.spacing e).symm
  have htag := tag_line hne hs
  have htag' : tagLineSpacing ((qB ++ qT).map Prod.fst) (newLines us + 1) = s'.map UInt8.toNat := by
    rw [← tagLineSpacing_pieces _ (placeKey_pieces hkey)]
    refine tag_line ?_ ?_
    · rw [onLine_respan]
      simpa using hne
    · intro w hw
      rw [onLine_respan] at hw
      obtain ⟨x, hx, rfl⟩ := List.mem_map.1 hw
      have := (List.mem_filter.1 hx).2
      simp only [decide_eq_true_eq] at this
      unfold respan
      rw [if_pos this]
  have hH := fun i => linesHeight_respace (t := d.fontDefinition) (W := (pB ++ pT).map Prod.fst) (l := newLines us) (s' := s') i
  have hH' := fun i => linesHeight_pieces (full := true) (t := d.fontDefinition) (placeKey_pieces hkey) i
  simp only [hH', lineSpace_pieces (full := true) (t := d.fontDefinition) (placeKey_pieces hkey)] at hH
  have htot := (hH (m - 1)).2 (by omega)
  have blk : ∀ {r : Option UInt8} {P Q : List (Span × Nat × Nat)}, (P.map Prod.fst).map pieceOf = KB →
      (Q.map Prod.fst).map pieceOf = pieces (signAttr d) (us.foldl
      (TextAttr.apply (signAttr d)) (vs.foldl (TextAttr.apply (signAttr d)) t)) r (newLines us + 1) true ws →
      (layoutOf d t sp rect (vs ++ (us ++ .newLine r :: ws))).map pieceOf = ((P ++ Q).map Prod.fst).map pieceOf := by
    intro r P Q e1 e2
    unfold layoutOf
    rw [map_spanOf, hKB, List.map_append, List.map_append, e1, e2]
  have bl1 : blockHeight d (layoutOf d t sp rect (vs ++ (us ++ .newLine s :: ws))) =
      linesHeight true d.fontDefinition ((pB ++ pT).map Prod.fst) (m - 1) := by
    rw [blockHeight_pieces (blk a1 a2)]
    unfold blockHeight
    rw [(counted_of_dense a5).1, (counted_of_dense a5).2, decide_eq_true hfull]
  have bl2 : blockHeight d (layoutOf d t sp rect (vs ++ (us ++ .newLine s' :: ws))) =
      linesHeight true d.fontDefinition ((qB ++ qT).map Prod.fst) (m - 1) := by
    rw [blockHeight_pieces (blk b1 b2)]
    unfold blockHeight
    rw [(counted_of_dense b5).1, (counted_of_dense b5).2, decide_eq_true hfull]
  have gp : ∀ {r : Option UInt8} {L Q : List Span}, L.map pieceOf = Q.map pieceOf →
      tagLineSpacing Q (newLines us + 1) = r.map UInt8.toNat →
      lineSpace true d.fontDefinition Q (newLines us) = gapOf d.fontDefinition r (newLines us) L := by
    intro r L Q e e2
    have h2 : ∀ i, fontLineSpacing d.fontDefinition L i = fontLineSpacing d.fontDefinition Q i := fun i => by
      unfold fontLineSpacing; rw [ofFont_pieces (onLine_pieces i e)]
    simp only [lineSpace, gapOf, if_true, e2, h2]
  have blh : linesHeight true d.fontDefinition (layoutOf d t sp rect (vs ++ (us ++ .newLine s :: ws))) (newLines us) =
      linesHeight true d.fontDefinition ((pB ++ pT).map Prod.fst) (newLines us) := linesHeight_pieces (blk a1 a2) _
  -- where the texts are
  have pos : ∀ p ∈ pB ++ pT, ∀ q ∈ qB ++ qT, placeKey (respan (newLines us + 1) s' p.1) = placeKey q.1 →
      p.2.1 = q.2.1 ∧ ∃ f, FontOf d.fontDefinition p.1 f ∧ f.height.toNat ≤
        lineHeight d.fontDefinition ((pB ++ pT).map Prod.fst) p.1.state.lineNumber ∧ p.1.state.lineNumber < m ∧
        p.2.2 + f.height.toNat = linesTop rect J (linesHeight true d.fontDefinition ((pB ++ pT).map Prod.fst) (m - 1)) +
          linesHeight true d.fontDefinition ((pB ++ pT).map Prod.fst) p.1.state.lineNumber ∧
        q.2.2 + f.height.toNat = linesTop rect J (linesHeight true d.fontDefinition ((qB ++ qT).map Prod.fst) (m - 1)) +
          linesHeight true d.fontDefinition ((qB ++ qT).map Prod.fst) p.1.state.lineNumber := by
    intro p hp q hq e
    obtain ⟨r1, _, x1, f, f1, f2⟩ := a7 p hp
    obtain ⟨r1', _, x1', f', f1', f2'⟩ := b7 q hq
    have hf : FontOf d.fontDefinition (respan (newLines us + 1) s' p.1) f := by
      unfold respan; split <;> exact f1
    obtain rfl := fontOf_unique f1' (fontOf_pieces (Prod.mk.inj e).1 hf)
    have hl : q.1.state.lineNumber = p.1.state.lineNumber := by
      rw [← (pieceOf_eq (Prod.mk.inj e).1).2.2.1, respan_state.1]
    rw [hl] at f2'
    have mp := List.mem_map_of_mem (f := Prod.fst) hp
    refine ⟨exactX_unique (exactX_same hkey e (respan_state.2.2.2.1.trans (r1.trans r1'.symm)) (exactX_respan x1)) x1',
      f', f1, lineHeight_font mp f1, (dense_lt a5).2 _ mp, f2, f2'⟩
  have hlen : pB.length = qB.length := by
    have := congrArg List.length (a1.trans b1.symm)
    simpa using this
  have hk2 := hkey
  simp only [List.map_append] at hk2
  have hkB := List.append_inj_left hk2 (by simpa using hlen)
  have hkT := List.append_inj_right hk2 (by simpa using hlen)
  have mB : ∀ p ∈ pB, p ∈ pB ++ pT := fun p hp => List.mem_append_left _ hp
  have mB' : ∀ p ∈ qB, p ∈ qB ++ qT := fun p hp => List.mem_append_left _ hp
  have mT : ∀ p ∈ pT, p ∈ pB ++ pT := fun p hp => List.mem_append_right _ hp
  have mT' : ∀ p ∈ qT, p ∈ qB ++ qT := fun p hp => List.mem_append_right _ hp
  have partner : ∀ {P Q : List (Span × Nat × Nat)}, ((P.map Prod.fst).map (respan (newLines us + 1) s')).map placeKey =
      (Q.map Prod.fst).map placeKey → ∀ q ∈ Q, ∃ p ∈ P, placeKey (respan (newLines us + 1) s' p.1) = placeKey q.1 := by
    intro P Q e q hq
    have : placeKey q.1 ∈ (Q.map Prod.fst).map placeKey := List.mem_map_of_mem (List.mem_map_of_mem hq)
    rw [← e, List.map_map, List.map_map] at this
    obtain ⟨p, hp, e⟩ := List.mem_map.1 this
    exact ⟨p, hp, e⟩
  have partner' : ∀ {P Q : List (Span × Nat × Nat)}, ((P.map Prod.fst).map (respan (newLines us + 1) s')).map placeKey =
      (Q.map Prod.fst).map placeKey → ∀ p ∈ P, ∃ q ∈ Q, placeKey (respan (newLines us + 1) s' p.1) = placeKey q.1 := by
    intro P Q e p hp
    have : placeKey (respan (newLines us + 1) s' p.1) ∈
        ((P.map Prod.fst).map (respan (newLines us + 1) s')).map placeKey :=
      List.mem_map_of_mem (List.mem_map_of_mem (List.mem_map_of_mem hp))
    rw [e, List.map_map] at this
    obtain ⟨q, hq, e⟩ := List.mem_map.1 this
    exact ⟨q, hq, e.symm⟩
  have same : ∀ (P Q : List (Span × Nat × Nat)) (z z' : Nat), (∀ p ∈ P, p ∈ pB ++ pT) → (∀ q ∈ Q, q ∈ qB ++ qT) →
      ((P.map Prod.fst).map (respan (newLines us + 1) s')).map placeKey = (Q.map Prod.fst).map placeKey →
      (∀ p ∈ P, ∀ q ∈ Q, placeKey (respan (newLines us + 1) s' p.1) = placeKey q.1 → p.2.2 - z = q.2.2 - z') →
      textColor d.fontDefinition (P.map fun p => (p.1, p.2.1, p.2.2 - z)) =
        textColor d.fontDefinition (Q.map fun p => (p.1, p.2.1, p.2.2 - z')) := by
    intro P Q z z' hP hQ e hx
    funext i j
    rw [← textColor_respan (l := newLines us + 1) (s := s') (P.map _), List.map_map]
    refine textColor_same (d := d) ?_ ?_ ?_
    · have hlen : P.length = Q.length := by simpa using congrArg List.length e
      refine List.ext_getElem (by simpa using hlen) fun k k1 k2 => ?_
      simp only [List.length_map] at k1 k2
      simp only [List.getElem_map, Function.comp]
      have mp : P[k] ∈ P := List.getElem_mem k1
      have mq : Q[k] ∈ Q := List.getElem_mem k2
      have e : placeKey (respan (newLines us + 1) s' P[k].1) = placeKey Q[k].1 := by
        have := congrArg (·[k]?) e
        simpa [k1, k2] using this
      exact Prod.ext (Prod.mk.inj e).1 (Prod.ext (pos _ (hP _ mp) _ (hQ _ mq) e).1 (hx _ mp _ mq e))
    · intro p hp
      obtain ⟨q, hq, rfl⟩ := List.mem_map.1 hp
      have := (a7 _ (hP _ hq)).2.1
      simp only [Function.comp, respan_state.2.2.2.2.2.2, this]
      congr 1
      unfold respan; split <;> rfl
    · intro p hp
      obtain ⟨q, hq, rfl⟩ := List.mem_map.1 hp
      exact (b7 _ (hQ _ hq)).2.1
  have posB : ∀ p ∈ pB, ∀ q ∈ qB, placeKey (respan (newLines us + 1) s' p.1) = placeKey q.1 →
      linesTop rect J (linesHeight true d.fontDefinition ((pB ++ pT).map Prod.fst) (m - 1)) ≤ p.2.2 ∧
      linesTop rect J (linesHeight true d.fontDefinition ((qB ++ qT).map Prod.fst) (m - 1)) ≤ q.2.2 ∧
      p.2.2 - linesTop rect J (linesHeight true d.fontDefinition ((pB ++ pT).map Prod.fst) (m - 1)) =
        q.2.2 - linesTop rect J (linesHeight true d.fontDefinition ((qB ++ qT).map Prod.fst) (m - 1)) := by
    intro p hp q hq e
    obtain ⟨_, f, _, f2, _, f4, f5⟩ := pos p (mB p hp) q (mB' q hq) e
    have := lB a1 p hp
    have := (hH p.1.state.lineNumber).1 (by omega)
    have := lineHeight_le (full := true) (t := d.fontDefinition) (ss := (pB ++ pT).map Prod.fst) _ _ (Nat.le_refl p.1.state.lineNumber)
    omega
  have posT : ∀ p ∈ pT, ∀ q ∈ qT, placeKey (respan (newLines us + 1) s' p.1) = placeKey q.1 →
      linesTop rect J (linesHeight true d.fontDefinition ((pB ++ pT).map Prod.fst) (m - 1)) +
        linesHeight true d.fontDefinition ((pB ++ pT).map Prod.fst) (newLines us) + lineSpace true d.fontDefinition ((pB ++ pT).map Prod.fst) (newLines us) ≤ p.2.2 ∧
      linesTop rect J (linesHeight true d.fontDefinition ((qB ++ qT).map Prod.fst) (m - 1)) +
        linesHeight true d.fontDefinition ((pB ++ pT).map Prod.fst) (newLines us) + lineSpace true d.fontDefinition ((qB ++ qT).map Prod.fst) (newLines us) ≤ q.2.2 ∧
      p.2.2 - (linesTop rect J (linesHeight true d.fontDefinition ((pB ++ pT).map Prod.fst) (m - 1)) +
        linesHeight true d.fontDefinition ((pB ++ pT).map Prod.fst) (newLines us) + lineSpace true d.fontDefinition ((pB ++ pT).map Prod.fst) (newLines us)) =
      q.2.2 - (linesTop rect J (linesHeight true d.fontDefinition ((qB ++ qT).map Prod.fst) (m - 1)) +
        linesHeight true d.fontDefinition ((pB ++ pT).map Prod.fst) (newLines us) + lineSpace true d.fontDefinition ((qB ++ qT).map Prod.fst) (newLines us)) := by
    intro p hp q hq e
    obtain ⟨_, f, _, f2, _, f4, f5⟩ := pos p (mT p hp) q (mT' q hq) e
    have hl := lT a2 p hp
    have := (hH p.1.state.lineNumber).2 (by omega)
    have := heights_below (t := d.fontDefinition) (W := (pB ++ pT).map Prod.fst) (newLines us) (p.1.state.lineNumber - (newLines us + 1))
    rw [show newLines us + 1 + (p.1.state.lineNumber - (newLines us + 1)) = p.1.state.lineNumber by omega] at this
    omega
  have sameB := same pB qB _ _ mB mB' hkB fun p hp q hq e => (posB p hp q hq e).2.2
  have sameT := same pT qT _ _ mT mT' hkT fun p hp q hq e => (posT p hp q hq e).2.2
  have leB : ∀ p ∈ pB, linesTop rect J (linesHeight true d.fontDefinition ((pB ++ pT).map Prod.fst) (m - 1)) ≤ p.2.2 := by
    intro p hp
    obtain ⟨q, hq, e⟩ := partner' hkB p hp
    exact (posB p hp q hq e).1
  have leB' : ∀ q ∈ qB, linesTop rect J (linesHeight true d.fontDefinition ((qB ++ qT).map Prod.fst) (m - 1)) ≤ q.2.2 := by
    intro q hq
    obtain ⟨p, hp, e⟩ := partner hkB q hq
    exact (posB p hp q hq e).2.1
  have leT : ∀ p ∈ pT, linesTop rect J (linesHeight true d.fontDefinition ((pB ++ pT).map Prod.fst) (m - 1)) +
        linesHeight true d.fontDefinition ((pB ++ pT).map Prod.fst) (newLines us) + lineSpace true d.fontDefinition ((pB ++ pT).map Prod.fst) (newLines us) ≤ p.2.2 := by
    intro p hp
    obtain ⟨q, hq, e⟩ := partner' hkT p hp
    exact (posT p hp q hq e).1
  have leT' : ∀ q ∈ qT, linesTop rect J (linesHeight true d.fontDefinition ((qB ++ qT).map Prod.fst) (m - 1)) +
        linesHeight true d.fontDefinition ((pB ++ pT).map Prod.fst) (newLines us) + lineSpace true d.fontDefinition ((qB ++ qT).map Prod.fst) (newLines us) ≤ q.2.2 := by
    intro q hq
    obtain ⟨p, hp, e⟩ := partner hkT q hq
    exact (posT p hp q hq e).2.1
  refine ⟨textColor d.fontDefinition (pB.map fun p => (p.1, p.2.1, p.2.2 -
      linesTop rect J (linesHeight true d.fontDefinition ((pB ++ pT).map Prod.fst) (m - 1)))),
    textColor d.fontDefinition (pT.map fun p => (p.1, p.2.1, p.2.2 -
      (linesTop rect J (linesHeight true d.fontDefinition ((pB ++ pT).map Prod.fst) (m - 1)) +
        linesHeight true d.fontDefinition ((pB ++ pT).map Prod.fst) (newLines us) + lineSpace true d.fontDefinition ((pB ++ pT).map Prod.fst) (newLines us)))),
    linesHeight true d.fontDefinition ((pB ++ pT).map Prod.fst) (newLines us),
    lineSpace true d.fontDefinition ((pB ++ pT).map Prod.fst) (newLines us),
    lineSpace true d.fontDefinition ((qB ++ qT).map Prod.fst) (newLines us),
    linesHeight true d.fontDefinition ((pB ++ pT).map Prod.fst) (m - 1),
    linesHeight true d.fontDefinition ((qB ++ qT).map Prod.fst) (m - 1), blh.symm, gp (blk a1 a2) htag, gp (blk b1 b2) htag', bl1.symm, bl2.symm, a6, b6, htot, ?_, ?_,
    ⟨_, over_rows leB a, ?_⟩, ⟨_, by rw [sameB]; exact over_rows leB' a, ?_⟩⟩
  · refine rows_end fun p hp f hf => ?_
    obtain ⟨q, hq, e⟩ := partner' hkB p hp
    obtain ⟨_, f', f1, f2, _, f4, _⟩ := pos p (mB p hp) q (mB' q hq) e
    obtain rfl := fontOf_unique hf f1
    have := leB p hp
    have := heights_mono (full := true) (t := d.fontDefinition) (W := (pB ++ pT).map Prod.fst) (lB a1 p hp)
    omega
  · intro i j hne
    have hb := rows_end (m := linesHeight true d.fontDefinition ((pB ++ pT).map Prod.fst) (m - 1) -
      (linesHeight true d.fontDefinition ((pB ++ pT).map Prod.fst) (newLines us) + lineSpace true d.fontDefinition ((pB ++ pT).map Prod.fst) (newLines us))) (fun p hp f hf => ?_) i j hne
    · omega
    · obtain ⟨q, hq, e⟩ := partner' hkT p hp
      obtain ⟨_, f', f1, f2, f3, f4, _⟩ := pos p (mT p hp) q (mT' q hq) e
      obtain rfl := fontOf_unique hf f1
      have := leT p hp
      have := heights_mono (full := true) (t := d.fontDefinition) (W := (pB ++ pT).map Prod.fst)
        (show p.1.state.lineNumber ≤ m - 1 by omega)
      omega
  · have := over_rows (t := d.fontDefinition) leT ⟨a.width, a.height, fun i j => textPx d.fontDefinition pB i j (a.px i j)⟩
    rw [a8]
    refine ⟨this.1, this.2.1, fun i j => ?_⟩
    rw [← this.2.2 i j]
    exact textPx_append ..
  · have := over_rows (t := d.fontDefinition) leT' ⟨a.width, a.height, fun i j => textPx d.fontDefinition qB i j (a.px i j)⟩
    rw [b8, sameT]
    refine ⟨this.1, this.2.1, fun i j => ?_⟩
    rw [← this.2.2 i j]
    exact textPx_append ..

end Ntcip
