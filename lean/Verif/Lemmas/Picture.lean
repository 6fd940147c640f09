import Verif.Lemmas.CountedPieces
import Verif.Lemmas.Look
/-
The exact places of texts, and with them the pixels of a page, are determined by the values.
-/
namespace Ntcip
open Spec

/-- what the place of a text depends on, but for its rectangle -/
def placeKey (s : Span) : Piece × Nat := (pieceOf s, s.state.spanNumber)

theorem map_pair {α β γ : Type} {f : α → β} {g : α → γ} {l : List α} : ∀ {l' : List α}, l.map f = l'.map f →
    l.map g = l'.map g → l.map (fun a => (f a, g a)) = l'.map (fun a => (f a, g a)) := by
  induction l with
  | nil => intro l' h _; simp only [List.map_nil, List.nil_eq, List.map_eq_nil_iff] at h; subst h; rfl
  | cons a l ih =>
    intro l' h1 h2
    cases l' with
    | nil => simp at h1
    | cons a' l' =>
      simp only [List.map_cons, List.cons.injEq] at h1 h2 ⊢
      exact ⟨by rw [h1.1, h2.1], ih h1.2 h2.2⟩

theorem placeKey_pieces {ss ss' : List Span} (h : ss.map placeKey = ss'.map placeKey) :
    ss.map pieceOf = ss'.map pieceOf := by
  have := congrArg (List.map Prod.fst) h
  simpa [List.map_map, Function.comp_def, placeKey] using this

theorem filter_placeKey {ss : List Span} : ∀ {ss' : List Span} {P P' : Span → Bool},
    ss.map placeKey = ss'.map placeKey → (∀ s s', placeKey s = placeKey s' → P s = P' s') →
    (ss.filter P).map placeKey = (ss'.filter P').map placeKey := by
  induction ss with
  | nil => intro ss' P P' h _; simp only [List.map_nil, List.nil_eq, List.map_eq_nil_iff] at h; subst h; rfl
  | cons s ss ih =>
    intro ss' P P' h hp
    cases ss' with
    | nil => simp at h
    | cons s' ss' =>
      simp only [List.map_cons, List.cons.injEq] at h
      have e := hp s s' h.1
      have := ih h.2 hp
      rw [List.filter_cons, List.filter_cons, e]
      split <;> simp [*]

theorem sameLine_placeKey {ss ss' : List Span} {s s' : Span} (h : ss.map placeKey = ss'.map placeKey)
    (hs : pieceOf s = pieceOf s') : (sameLine ss s).map placeKey = (sameLine ss' s').map placeKey := by
  refine filter_placeKey h fun x x' hx => ?_
  simp only [placeKey, Prod.mk.injEq] at hx
  obtain ⟨a1, _, a2, _⟩ := pieceOf_eq hx.1
  obtain ⟨_, _, a3, a4, _⟩ := textAttr_eq a1
  obtain ⟨b1, _, b2, _⟩ := pieceOf_eq hs
  obtain ⟨_, _, b3, b4, _⟩ := textAttr_eq b1
  rw [a2, a3, a4, b2, b3, b4]

theorem beforeAt_placeKey {t own p ss n} (h : BeforeAt t own p ss n) : ∀ {p' ss'}, p.map pieceOf = p'.map pieceOf →
    ss.map placeKey = ss'.map placeKey → BeforeAt t own p' ss' n := by
  induction h with
  | nil =>
    intro p' ss' _ h2
    simp only [List.map_nil, List.nil_eq, List.map_eq_nil_iff] at h2
    subst h2; exact .nil
  | first hw hl ih =>
    intro p' ss' h1 h2
    cases p' with
    | some _ => simp at h1
    | none =>
      cases ss' with
      | nil => simp at h2
      | cons s' ss' =>
        simp only [List.map_cons, List.cons.injEq, placeKey, Prod.mk.injEq] at h2
        rw [h2.1.2]
        exact .first (spanWidth_pieces h2.1.1 hw) (ih (by simp [h2.1.1]) h2.2)
  | next hg hw hl ih =>
    intro p' ss' h1 h2
    cases p' with
    | none => simp at h1
    | some p' =>
      cases ss' with
      | nil => simp at h2
      | cons s' ss' =>
        simp only [List.map_cons, List.cons.injEq, placeKey, Prod.mk.injEq] at h2
        simp only [Option.map_some, Option.some.injEq] at h1
        rw [h2.1.2]
        exact .next (gap_pieces h1 h2.1.1 hg) (spanWidth_pieces h2.1.1 hw) (ih (by simp [h2.1.1]) h2.2)

theorem beforeAt_unique {t own p ss n m} (h : BeforeAt t own p ss n) (h' : BeforeAt t own p ss m) : n = m := by
  induction h generalizing m with
  | nil => cases h'; rfl
  | first hw hl ih =>
    cases h' with
    | first hw' hl' => rw [spanWidth_unique hw hw', ih hl']
  | next hg hw hl ih =>
    cases h' with
    | next hg' hw' hl' => rw [gap_unique hg hg', spanWidth_unique hw hw', ih hl']

theorem exactX_same {d : Dms} {ss ss' : List Span} {s s' : Span} {x} (h : ss.map placeKey = ss'.map placeKey)
    (hs : placeKey s = placeKey s') (hr : s.state.textRectangle = s'.state.textRectangle) (hx : ExactX d ss s x) :
    ExactX d ss' s' x := by
  simp only [placeKey, Prod.mk.injEq] at hs
  obtain ⟨n, total, h1, h2, h3, h4⟩ := hx
  have hk := sameLine_placeKey h hs.1
  obtain ⟨_, _, _, j, _⟩ := textAttr_eq (pieceOf_eq hs.1).1
  refine ⟨n, total, ?_, lineWidth_pieces h2 rfl (placeKey_pieces hk), by rw [← hr]; exact h3, ?_⟩
  · rw [← hs.2]; exact beforeAt_placeKey h1 rfl hk
  · rw [← hr, ← j]; exact h4

theorem exactX_unique {d : Dms} {ss : List Span} {s : Span} {x x'} (h : ExactX d ss s x) (h' : ExactX d ss s x') :
    x = x' := by
  obtain ⟨n, total, h1, h2, _, h4⟩ := h
  obtain ⟨n', total', h1', h2', _, h4'⟩ := h'
  rw [h4, h4', beforeAt_unique h1 h1', lineWidth_unique h2 h2']

theorem exactY_same {d : Dms} {ss ss' : List Span} {s s' : Span} {y} (h : ss.map placeKey = ss'.map placeKey)
    (hs : placeKey s = placeKey s') (hr : s.state.textRectangle = s'.state.textRectangle) (hy : ExactY d ss s y) :
    ExactY d ss' s' y := by
  simp only [placeKey, Prod.mk.injEq] at hs
  obtain ⟨f, h1, h2, h3⟩ := hy
  have hp := placeKey_pieces h
  obtain ⟨a1, _, a2, _⟩ := pieceOf_eq hs.1
  obtain ⟨_, _, j, _⟩ := textAttr_eq a1
  rw [totalHeight_pieces hp hs.1] at h2 h3
  rw [hr] at h2 h3
  rw [countedHeight_pieces hp hs.1, j, a2] at h3
  exact ⟨f, fontOf_pieces hs.1 h1, h2, h3⟩

theorem exactY_unique {d : Dms} {ss : List Span} {s : Span} {y y'} (h : ExactY d ss s y) (h' : ExactY d ss s y') :
    y = y' := by
  obtain ⟨f, h1, _, h3⟩ := h
  obtain ⟨f', h1', _, h3'⟩ := h'
  obtain rfl := fontOf_unique h1 h1'
  have := h3.trans h3'.symm
  omega

open Classical in
/-- pixels of texts, by what they show and where -/
theorem textPx_same {d : Dms} {t : FontTable} {ps : List (Span × Nat × Nat)} : ∀ {ps' : List (Span × Nat × Nat)} {i j c},
    ps.map (fun p => (pieceOf p.1, p.2)) = ps'.map (fun p => (pieceOf p.1, p.2)) →
    (∀ p ∈ ps, p.1.state.colorCtx.foregroundRgb = foregroundRgb d (pieceOf p.1).attr.foreground) →
    (∀ p ∈ ps', p.1.state.colorCtx.foregroundRgb = foregroundRgb d (pieceOf p.1).attr.foreground) →
    textPx t ps i j c = textPx t ps' i j c := by
  induction ps with
  | nil => intro ps' i j c h _ _; simp only [List.map_nil, List.nil_eq, List.map_eq_nil_iff] at h; subst h; rfl
  | cons p ps ih =>
    intro ps' i j c h h1 h2
    cases ps' with
    | nil => simp at h
    | cons p' ps' =>
      simp only [List.map_cons, List.cons.injEq, Prod.mk.injEq] at h
      obtain ⟨⟨e1, e2⟩, h⟩ := h
      unfold textPx
      simp only [List.foldl_cons]
      have := ih (i := i) (j := j) (c := if LightsAt t p.1 p.2.1 p.2.2 i j then p.1.state.colorCtx.foregroundRgb else c) h
        (fun q hq => h1 q (List.mem_cons_of_mem _ hq)) (fun q hq => h2 q (List.mem_cons_of_mem _ hq))
      unfold textPx at this
      rw [this, h1 p (List.mem_cons_self ..), h2 p' (List.mem_cons_self ..), e1, e2]
      have e : ∀ x y, LightsAt t p.1 x y i j = LightsAt t p'.1 x y i j := fun x y =>
        propext ⟨lightsAt_pieces e1, lightsAt_pieces e1.symm⟩
      simp only [e]

theorem textDrawn_unique {d : Dms} {t sp rect vs a b b'} (h : TextDrawn d t sp rect vs a b)
    (h' : TextDrawn d t sp rect vs a b') : b = b' := by
  obtain ⟨ps, p1, ⟨p2, p3⟩, p4, _, p5, _⟩ := h
  obtain ⟨qs, q1, ⟨q2, q3⟩, q4, _, q5, _⟩ := h'
  have hk : (ps.map Prod.fst).map placeKey = (qs.map Prod.fst).map placeKey :=
    map_pair (p1.trans q1.symm) (p2.trans q2.symm)
  have hlen : ps.length = qs.length := by simpa using congrArg List.length hk
  have hsame : ps.map (fun p => (pieceOf p.1, p.2)) = qs.map (fun p => (pieceOf p.1, p.2)) := by
    refine List.ext_getElem (by simpa using hlen) fun k k1 k2 => ?_
    simp only [List.length_map] at k1 k2
    simp only [List.getElem_map]
    have mp : ps[k] ∈ ps := List.getElem_mem k1
    have mq : qs[k] ∈ qs := List.getElem_mem k2
    have e : placeKey ps[k].1 = placeKey qs[k].1 := by
      have := congrArg (·[k]?) hk
      simpa [k1, k2] using this
    have er : ps[k].1.state.textRectangle = qs[k].1.state.textRectangle := by
      rw [(p4 _ (List.mem_map_of_mem mp)).1, (q4 _ (List.mem_map_of_mem mq)).1]
    have ex := exactX_unique (exactX_same hk e er (p3 _ mp).1) (q3 _ mq).1
    have ey := exactY_unique (exactY_same hk e er (p3 _ mp).2) (q3 _ mq).2
    simp only [placeKey, Prod.mk.injEq] at e
    exact Prod.ext e.1 (Prod.ext ex ey)
  rw [textAt_iff] at p5 q5
  rw [p5, q5]
  congr 1
  funext i j
  exact textPx_same (d := d) hsame (fun p hp => (p4 _ (List.mem_map_of_mem hp)).2.1)
    (fun p hp => (q4 _ (List.mem_map_of_mem hp)).2.1)

theorem composed_unique {d : Dms} (hu : UniqueNumbers (fun g : Graphic => g.number.toNat) d.graphicDefinition)
    {bg t sp rect vs rest a b} (h : Composed d bg t sp rect vs rest a b) :
    (∀ pos, Value.graphic 0 pos ∉ vs) → (∀ w ∈ rest, ∀ pos, Value.graphic 0 pos ∉ w.2) →
    ∀ {b'}, Composed d bg t sp rect vs rest a b' → b = b' := by
  have gr : ∀ {p vs a g g'}, (∀ pos, Value.graphic 0 pos ∉ vs) → GraphicsOn d p vs a g → GraphicsOn d p vs a g' →
      g = g' := by
    intro p vs a g g' hv h h'
    obtain ⟨h1, h2, h3⟩ := graphicsOn_unique hu hv h h'
    exact raster_ext h1 h2 h3
  induction h with
  | last h1 h2 =>
    intro hv _ b' h'
    cases h' with
    | last h1' h2' =>
      obtain rfl := gr hv h1 h1'
      exact textDrawn_unique h2 h2'
  | next h1 h2 h3 ih =>
    intro hv hr b' h'
    cases h' with
    | next h1' h2' h3' =>
      obtain rfl := gr hv h1 h1'
      obtain rfl := textDrawn_unique h2 h2'
      exact ih (hr _ (List.mem_cons_self ..)) (fun w hw => hr w (List.mem_cons_of_mem _ hw)) h3'

end Ntcip
