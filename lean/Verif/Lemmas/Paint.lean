import Verif.Lemmas.Picture
import Verif.Lemmas.Added
import Verif.Props.Place
import Verif.Props.Wording
/-
Lemmas on texts and drawings as paint: which pixels they cover does not depend on what is below them.
-/
namespace Ntcip
open Spec

/-! ### texts are inside of their text rectangle -/

theorem counted_mem {s : Span} (ss : List Span) : ∀ k, s ∈ ss →
    ∃ m, Span.onLineNumber s m ∈ counted k ss ∧ m ≤ s.state.lineNumber ∧ m < lineCount k ss := by
  induction ss with
  | nil => intro k h; cases h
  | cons u ss ih =>
    intro k h
    rcases List.mem_cons.1 h with rfl | h
    · unfold counted lineCount
      split
      · rename_i hk
        refine ⟨s.state.lineNumber, List.mem_cons_self .., Nat.le_refl _, ?_⟩
        have := lineCount_le ss k
        omega
      · refine ⟨k, List.mem_cons_self .., by omega, ?_⟩
        have := lineCount_le ss (k + 1)
        omega
    · unfold counted lineCount
      split
      · obtain ⟨m, h1, h2, h3⟩ := ih k h
        exact ⟨m, List.mem_cons_of_mem _ h1, h2, h3⟩
      · obtain ⟨m, h1, h2, h3⟩ := ih (k + 1) h
        exact ⟨m, List.mem_cons_of_mem _ h1, h2, h3⟩

theorem lineHeight_le {full t ss} (n : Nat) : ∀ k ≤ n, lineHeight t ss k ≤ linesHeight full t ss n := by
  induction n with
  | zero => intro k hk; obtain rfl : k = 0 := by omega
            exact Nat.le_refl _
  | succ n ih =>
    intro k hk
    unfold linesHeight
    by_cases h : k = n + 1
    · subst h; omega
    · have := ih k (by omega); omega

theorem countedHeight_own {d : Dms} {spans : List Span} {s : Span} {f : Font} (hs : s ∈ spans)
    (hf : FontOf d.fontDefinition s f) : f.height.toNat ≤ countedHeight d spans s s.state.lineNumber := by
  obtain ⟨m, h1, h2, h3⟩ := counted_mem (s := s) (samePage spans s) 0 (by unfold samePage; simp [hs])
  have h4 : f.height.toNat ≤ lineHeight d.fontDefinition (counted 0 (samePage spans s)) m := by
    have := lineHeight_font (t := d.fontDefinition) h1 (f := f) hf
    exact this
  unfold countedHeight
  exact Nat.le_trans h4 (lineHeight_le _ _ (by omega))

theorem largest_mod {c : Nat} {l : List Nat} (h : ∀ a ∈ l, a % c = 0) : largest l % c = 0 := by
  induction l with
  | nil => exact Nat.zero_mod c
  | cons a l ih =>
    have := ih fun b hb => h b (List.mem_cons_of_mem _ hb)
    have ha := h a (List.mem_cons_self ..)
    show max a (largest l) % c = 0
    rcases Nat.le_total a (largest l) with k | k
    · rw [Nat.max_eq_right k]; exact this
    · rw [Nat.max_eq_left k]; exact ha

theorem linesHeight_mod {t : FontTable} {c : Nat} (h : ∀ f ∈ t, f.height.toNat % c = 0) (ss : List Span) (n : Nat) :
    linesHeight false t ss n % c = 0 := by
  have one : ∀ k, lineHeight t ss k % c = 0 := by
    intro k
    refine largest_mod fun a ha => ?_
    obtain ⟨s, _, rfl⟩ := List.mem_map.1 ha
    unfold ofFont
    split
    · rename_i f hf
      exact h f (List.mem_of_find?_eq_some hf)
    · exact Nat.zero_mod c
  induction n with
  | zero => exact one 0
  | succ n ih =>
    unfold linesHeight
    simp only [lineSpace, Bool.false_eq_true, if_false, Nat.add_zero]
    rw [Nat.add_mod, ih, one]
    simp

theorem cellEdge_ge {x l c : Nat} (h : l ≤ x) (hl : l % c = 0) (hc : 0 < c) : l ≤ cellEdge c x := by
  have := trunc_ge h hl hc
  unfold cellEdge
  have e := Nat.div_add_mod x c
  rw [Nat.mul_comm] at e
  omega

/-- texts do not begin above their text rectangle -/
theorem exactY_top {d : Dms} (hc : CellHeights d) {spans : List Span} {s : Span} {y : Nat} (hs : s ∈ spans)
    (ha : (s.state.textRectangle.y.toNat - 1) % (signCellHeight d) = 0) (h : ExactY d spans s y) :
    s.state.textRectangle.y.toNat - 1 ≤ y := by
  obtain ⟨f, h1, h2, h3⟩ := h
  have ho := countedHeight_own hs h1
  simp only at h3
  have htop : s.state.textRectangle.y.toNat - 1 ≤
      linesTop s.state.textRectangle s.state.justPage (totalHeight d spans s) := by
    unfold linesTop
    split <;> omega
  split at h3
  · have hm : countedHeight d spans s s.state.lineNumber % signCellHeight d = 0 := by
      rcases hc with hc | hc
      · have : signCellHeight d = 1 := by unfold signCellHeight; rw [hc]; rfl
        rw [this]; omega
      · by_cases h0 : d.vmsCfg.charHeightPixels = 0
        · have : signCellHeight d = 1 := by unfold signCellHeight; rw [h0]; rfl
          rw [this]; omega
        · unfold countedHeight
          rw [decide_eq_false h0]
          exact linesHeight_mod hc _ _
    have := cellEdge_ge (x := linesTop s.state.textRectangle s.state.justPage (totalHeight d spans s) +
      countedHeight d spans s s.state.lineNumber) (l := s.state.textRectangle.y.toNat - 1 +
      countedHeight d spans s s.state.lineNumber) (c := signCellHeight d) (by omega)
      (by rw [Nat.add_mod, ha, hm]; simp) (cellHeight_pos d)
    omega
  · omega

/-! ### paint -/

open Classical in
/-- the color which the texts give to the pixel -/
noncomputable def textColor (t : FontTable) (ps : List (Span × Nat × Nat)) (i j : Nat) : Option Rgb :=
  if ∃ p ∈ ps, LightsAt t p.1 p.2.1 p.2.2 i j then some (textPx t ps i j (0, 0, 0)) else none

theorem textPx_lit {t : FontTable} {i j : Nat} (ps : List (Span × Nat × Nat)) :
    (∃ p ∈ ps, LightsAt t p.1 p.2.1 p.2.2 i j) → ∀ c c', textPx t ps i j c = textPx t ps i j c' := by
  induction ps with
  | nil => rintro ⟨p, hp, _⟩; cases hp
  | cons q ps ih =>
    intro h c c'
    by_cases hl : ∃ p ∈ ps, LightsAt t p.1 p.2.1 p.2.2 i j
    · exact ih hl _ _
    · obtain ⟨p, hp, hl'⟩ := h
      rcases List.mem_cons.1 hp with rfl | hp
      · unfold textPx
        simp only [List.foldl_cons, if_pos hl']
      · exact absurd ⟨p, hp, hl'⟩ hl

theorem textPx_color {t : FontTable} {ps : List (Span × Nat × Nat)} {i j : Nat} (c : Rgb) :
    textPx t ps i j c = (textColor t ps i j).getD c := by
  unfold textColor
  split
  · rename_i h; exact textPx_lit ps h c _
  · rename_i h
    exact textPx_unlit (fun p hp hl => h ⟨p, hp, hl⟩) c

/-- the texts of the same values on two pictures cover the same pixels in the same colors, all inside of the text
rectangle -/
theorem textDrawn_paint {d : Dms} {t sp rect vs a b a' b'} (h : TextDrawn d t sp rect vs a b)
    (h' : TextDrawn d t sp rect vs a' b') : ∃ f : Nat → Nat → Option Rgb,
    (∀ i j, b.px i j = (f i j).getD (a.px i j)) ∧ (∀ i j, b'.px i j = (f i j).getD (a'.px i j)) ∧
    (CellHeights d → (rect.y.toNat - 1) % (signCellHeight d) = 0 → ∀ i j, f i j ≠ none →
      rect.x.toNat - 1 ≤ i ∧ i < rect.x.toNat - 1 + rect.width.toNat ∧
      rect.y.toNat - 1 ≤ j ∧ j < rect.y.toNat - 1 + rect.height.toNat) := by
  obtain ⟨ps, p1, ⟨p2, p3⟩, p4, p6, p5, _⟩ := h
  obtain ⟨qs, q1, ⟨q2, q3⟩, q4, _, q5, _⟩ := h'
  have hk : (ps.map Prod.fst).map placeKey = (qs.map Prod.fst).map placeKey :=
    map_pair (p1.trans q1.symm) (p2.trans q2.symm)
  have hlen : ps.length = qs.length := by simpa using congrArg List.length hk
  have hsame : ps.map (fun p => (pieceOf p.1, p.2)) = qs.map (fun p => (pieceOf p.1, p.2)) := by
    refine List.ext_getElem (by simpa using hlen) fun k k1 k2 => ?_
    simp only [List.length_map] at k1 k2
    simp only [List.getElem_map]
    have mp : ps[k] ∈ ps := List.getElem_mem k1
    have mq : qs[k] ∈ qs := List.getElem_mem k2
    have e : placeKey ps[k].1 = placeKey qs[k].1 := by
      have := congrArg (·[k]?) hk
      simpa [k1, k2] using this
    have er : ps[k].1.state.textRectangle = qs[k].1.state.textRectangle := by
      rw [(p4 _ (List.mem_map_of_mem mp)).1, (q4 _ (List.mem_map_of_mem mq)).1]
    have ex := exactX_unique (exactX_same hk e er (p3 _ mp).1) (q3 _ mq).1
    have ey := exactY_unique (exactY_same hk e er (p3 _ mp).2) (q3 _ mq).2
    simp only [placeKey, Prod.mk.injEq] at e
    exact Prod.ext e.1 (Prod.ext ex ey)
  rw [textAt_iff] at p5 q5
  refine ⟨textColor d.fontDefinition ps, fun i j => ?_, fun i j => ?_, ?_⟩
  · rw [p5]; exact textPx_color _
  · rw [q5, ← textPx_color]
    exact (textPx_same (d := d) hsame (fun p hp => (p4 _ (List.mem_map_of_mem hp)).2.1)
      (fun p hp => (q4 _ (List.mem_map_of_mem hp)).2.1)).symm
  · intro hc ha i j hne
    unfold textColor at hne
    split at hne
    · rename_i hl
      obtain ⟨p, hp, hl⟩ := hl
      obtain ⟨f, w, k1, k2, k3, k4, k5⟩ := p6 p hp
      have hin := lightsAt_inside hl k1 k2
      have hr := (p4 _ (List.mem_map_of_mem hp)).1
      have htop := exactY_top hc (List.mem_map_of_mem (f := Prod.fst) hp) (by rw [hr]; exact ha) (p3 p hp).2
      rw [hr] at htop
      omega
    · exact absurd rfl hne

theorem or_getD {α : Type} (x y : Option α) (c : α) : (x.or y).getD c = x.getD (y.getD c) := by
  cases x <;> rfl

theorem graphicsOn_paint {d : Dms} (hu : UniqueNumbers (fun g : Graphic => g.number.toNat) d.graphicDefinition) {p vs a b a' b'}
    (hz : ∀ pos, Value.graphic 0 pos ∉ vs) (hw : a'.width = a.width) (hh : a'.height = a.height)
    (h : GraphicsOn d p vs a b) (h' : GraphicsOn d p vs a' b') : ∃ f : Nat → Nat → Option Rgb,
    (∀ i j, b.px i j = (f i j).getD (a.px i j)) ∧ (∀ i j, b'.px i j = (f i j).getD (a'.px i j)) := by
  have h1 := fun i j => (Classical.choose_spec (h.px i j)).1
  refine ⟨fun i j => Classical.choose (h.px i j), fun i j => (Classical.choose_spec (h.px i j)).2, fun i j => ?_⟩
  obtain ⟨o, k1, k2⟩ := h'.px i j
  rw [hw, hh] at k1
  rw [k2, layered_unique hu hz k1 (h1 i j)]

/-- the same values on two pictures cover the same pixels in the same colors -/
theorem composed_paint {d : Dms} (hu : UniqueNumbers (fun g : Graphic => g.number.toNat) d.graphicDefinition)
    {bg t sp rect vs rest a b} (h : Composed d bg t sp rect vs rest a b) :
    (∀ pos, Value.graphic 0 pos ∉ vs) → (∀ w ∈ rest, ∀ pos, Value.graphic 0 pos ∉ w.2) →
    ∀ {a' b'}, a'.width = a.width → a'.height = a.height → Composed d bg t sp rect vs rest a' b' →
    ∃ f : Nat → Nat → Option Rgb, (∀ i j, b.px i j = (f i j).getD (a.px i j)) ∧
      (∀ i j, b'.px i j = (f i j).getD (a'.px i j)) := by
  induction h with
  | last h1 h2 =>
    intro hv _ a' b' hw hh h'
    cases h' with
    | last h1' h2' =>
      obtain ⟨f, f1, f2⟩ := graphicsOn_paint hu hv hw hh h1 h1'
      obtain ⟨g, g1, g2, _⟩ := textDrawn_paint h2 h2'
      refine ⟨fun i j => (g i j).or (f i j), fun i j => ?_, fun i j => ?_⟩
      · rw [g1, f1, or_getD]
      · rw [g2, f2, or_getD]
  | next h1 h2 h3 ih =>
    intro hv hr a' b' hw hh h'
    cases h' with
    | next h1' h2' h3' =>
      obtain ⟨f, f1, f2⟩ := graphicsOn_paint hu hv hw hh h1 h1'
      obtain ⟨g, g1, g2, _⟩ := textDrawn_paint h2 h2'
      obtain ⟨_, _, _, _, _, A, _⟩ := h2
      obtain ⟨_, _, _, _, _, A', _⟩ := h2'
      obtain ⟨k, k1, k2⟩ := ih (hr _ (List.mem_cons_self ..)) (fun w hw => hr w (List.mem_cons_of_mem _ hw))
        (by rw [A.width, A'.width, h1.width, h1'.width, hw]) (by rw [A.height, A'.height, h1.height, h1'.height, hh]) h3'
      refine ⟨fun i j => (k i j).or ((g i j).or (f i j)), fun i j => ?_, fun i j => ?_⟩
      · rw [k1, g1, f1, or_getD, or_getD]
      · rw [k2, g2, f2, or_getD, or_getD]

end Ntcip
