import Verif.Lemmas.Narrow
import Verif.Lemmas.Paint
import Verif.Spec.Resize
/-
Lemmas for C129: the checks of a page of which text rectangles are larger.
-/
namespace Ntcip
open Spec

/-- the span in another text rectangle -/
def movedSpan (rect : Rectangle) (s : Span) : Span := { s with state := { s.state with textRectangle := rect } }

theorem spanOf_moved (d : Dms) (rect rect' : Rectangle) (p : Piece) : spanOf d rect' p = movedSpan rect' (spanOf d rect p) := rfl

theorem layoutOf_moved (d : Dms) (t sp) (rect rect' : Rectangle) (vs) :
    layoutOf d t sp rect' vs = (layoutOf d t sp rect vs).map (movedSpan rect') := by
  unfold layoutOf
  rw [List.map_map]
  rfl

theorem samePage_moved (q : Rectangle) (ss : List Span) (s : Span) :
    samePage (ss.map (movedSpan q)) (movedSpan q s) = (samePage ss s).map (movedSpan q) := by
  unfold samePage; rw [List.filter_map]; rfl

theorem sameLine_moved (q : Rectangle) (ss : List Span) (s : Span) :
    sameLine (ss.map (movedSpan q)) (movedSpan q s) = (sameLine ss s).map (movedSpan q) := by
  unfold sameLine; rw [List.filter_map]; rfl

theorem counted_moved (q : Rectangle) (ss : List Span) : ∀ k,
    counted k (ss.map (movedSpan q)) = (counted k ss).map (movedSpan q) ∧
    lineCount k (ss.map (movedSpan q)) = lineCount k ss := by
  induction ss with
  | nil => intro k; exact ⟨rfl, rfl⟩
  | cons s ss ih =>
    intro k
    simp only [List.map_cons, counted, lineCount]
    have e : (movedSpan q s).state.lineNumber = s.state.lineNumber := rfl
    rw [e]
    split
    · rw [(ih k).1, (ih k).2]; exact ⟨rfl, rfl⟩
    · rw [(ih (k + 1)).1, (ih (k + 1)).2]; exact ⟨rfl, rfl⟩

theorem linesHeight_moved (q : Rectangle) (full t) (ss : List Span) (n : Nat) :
    linesHeight full t (ss.map (movedSpan q)) n = linesHeight full t ss n := by
  have ho : ∀ i, onLine (ss.map (movedSpan q)) i = (onLine ss i).map (movedSpan q) := by
    intro i; unfold onLine; rw [List.filter_map]; rfl
  have h1 : ∀ i, lineHeight t (ss.map (movedSpan q)) i = lineHeight t ss i := by
    intro i; unfold lineHeight; rw [ho, List.map_map]; rfl
  have h2 : ∀ i, fontLineSpacing t (ss.map (movedSpan q)) i = fontLineSpacing t ss i := by
    intro i; unfold fontLineSpacing; rw [ho, List.map_map]; rfl
  have h3 : ∀ i, tagLineSpacing (ss.map (movedSpan q)) i = tagLineSpacing ss i := by
    intro i; unfold tagLineSpacing; rw [ho, List.findSome?_map]; rfl
  have h4 : ∀ i, lineSpace full t (ss.map (movedSpan q)) i = lineSpace full t ss i := by
    intro i; unfold lineSpace; rw [h3, h2, h2]
  induction n with
  | zero => exact h1 0
  | succ n ih => simp only [linesHeight, ih, h4, h1]

theorem countedHeight_moved (d : Dms) (q : Rectangle) (ss : List Span) (s : Span) (n : Nat) :
    countedHeight d (ss.map (movedSpan q)) (movedSpan q s) n = countedHeight d ss s n := by
  unfold countedHeight
  rw [samePage_moved, (counted_moved q _ 0).1, (counted_moved q _ 0).2, linesHeight_moved]

theorem totalHeight_moved (d : Dms) (q : Rectangle) (ss : List Span) (s : Span) :
    totalHeight d (ss.map (movedSpan q)) (movedSpan q s) = totalHeight d ss s := by
  unfold totalHeight
  rw [countedHeight_moved, samePage_moved, (counted_moved q _ 0).2]

theorem fontOf_moved (q : Rectangle) {t s f} : FontOf t (movedSpan q s) f ↔ FontOf t s f := Iff.rfl

theorem lineWidth_moved (q : Rectangle) {t} : ∀ {p ss n}, LineWidth t (Option.map (movedSpan q) p) (ss.map (movedSpan q)) n →
    LineWidth t p ss n := by
  intro p ss
  induction ss generalizing p with
  | nil => intro n h; cases p <;> (cases h; exact .nil)
  | cons s ss ih =>
    intro n h
    cases p with
    | none =>
      cases h with
      | first hw h => exact .first hw (ih (p := some s) h)
    | some p =>
      cases h with
      | next hg hw h => exact .next hg hw (ih (p := some s) h)

/-- the rectangle is as large, or larger, for the checks of texts -/
structure RoomFor (d : Dms) (r r' : Rectangle) : Prop where
  width : r.width.toNat ≤ r'.width.toNat
  height : r.height.toNat ≤ r'.height.toNat
  cells : d.vmsCfg.charHeightPixels.toNat ≤ 1 ∨ r.y.toNat ≤ r'.y.toNat

theorem roomFor_self (d : Dms) (r : Rectangle) : RoomFor d r r := ⟨Nat.le_refl _, Nat.le_refl _, .inr (Nat.le_refl _)⟩

theorem spanStops_moved {d : Dms} {rect rect' ss s} (hs : s ∈ ss) (h : RoomFor d rect rect')
    (hk : Silent (spanStops d rect ss s)) :
    Silent (spanStops d rect' (ss.map (movedSpan rect')) (movedSpan rect' s)) := by
  unfold spanStops spanChecks at hk ⊢
  rw [sameLine_moved, samePage_moved]
  simp only [List.map_append, List.map_cons, List.map_map, List.map_nil, List.append_assoc, List.cons_append, silent_append,
    silent_cons, silent_map, Function.comp_apply] at hk ⊢
  obtain ⟨k1, k2, k3, k4, _, k5, _⟩ := hk
  refine ⟨fun b hb z => errors_not fun e => ?_, fun z => errors_not fun e => ?_, fun b hb z => errors_not fun e => ?_,
    fun z => errors_not fun e => ?_, silent_nil, fun z => ?_, silent_nil⟩
  · intro hg
    refine errors_silent (k1 b hb) e ?_
    cases hg with
    | font hg =>
      cases hg with
      | missing hm => exact .font (.missing hm)
      | version h1 h2 h3 => exact .font (.version h1 h2 h3)
    | character h1 h2 h3 h4 => exact .character h1 h2 h3 h4
  · rintro ⟨rfl, n, hn, hlt⟩
    rw [sameLine_moved] at hn
    have := h.width
    exact errors_silent k2 .textTooBig ⟨rfl, n, lineWidth_moved rect' (p := none) hn, by omega⟩
  · intro hg
    refine errors_silent (k3 b hb) e ?_
    cases hg with
    | missing hm => exact .missing hm
    | version h1 h2 h3 => exact .version h1 h2 h3
  · rintro ⟨rfl, hh⟩
    rw [totalHeight_moved] at hh
    have := h.height
    exact errors_silent k4 .textTooBig ⟨rfl, by omega⟩
  · cases z with
    | error e => exact id
    | panic =>
      rintro ⟨h1, f, h2, h3⟩
      rw [totalHeight_moved, countedHeight_moved] at h3
      have h1' : s.state.justPage = .middle := h1
      have hown := countedHeight_own hs ((fontOf_moved rect').1 h2)
      have h3' : cellEdge (signCellHeight d) (linesTop rect' .middle (totalHeight d ss s) +
        countedHeight d ss s s.state.lineNumber) < f.height.toNat := h3
      rcases h.cells with hc | hc
      · have e : signCellHeight d = 1 := by unfold signCellHeight; omega
        rw [e] at h3'
        unfold cellEdge at h3'
        rw [Nat.mod_one] at h3'
        omega
      · refine k5 .panic ⟨h1', f, h2, Nat.lt_of_le_of_lt (cellEdge_mono ?_) h3'⟩
        have := h.height
        simp only [linesTop]
        omega

theorem textStops_moved {d : Dms} {rect rect' ss} (h : RoomFor d rect rect') (hk : Silent (textStops d rect ss)) :
    Silent (textStops d rect' (ss.map (movedSpan rect'))) := by
  unfold textStops at hk ⊢
  rw [silent_cons, silent_flatMap] at hk ⊢
  refine ⟨fun z => errors_not fun e => ?_, fun b hb => ?_⟩
  · rintro ⟨rfl, i, a', b', h1, h2, h3⟩
    rw [List.getElem?_map] at h1 h2
    obtain ⟨a, k1, rfl⟩ := Option.map_eq_some_iff.1 h1
    obtain ⟨b, k2, rfl⟩ := Option.map_eq_some_iff.1 h2
    exact errors_silent hk.1 .tagConflict ⟨rfl, i, a, b, k1, k2, h3⟩
  · obtain ⟨a, ha, rfl⟩ := List.mem_map.1 hb
    exact spanStops_moved ha h (hk.2 a ha)

/-! ### the text rectangles of a page -/

/-- the text rectangles of two pages: the same values, in rectangles as large or larger -/
def SectionsGrown (d : Dms) : List (Rectangle × List Value) → List (Rectangle × List Value) → Prop :=
  Pairwise2 fun x y => (x.1 = y.1 ∨ AsLarge d x.1 y.1) ∧ x.2 = y.2

theorem grown_or {d v v'} (h : Grown d v v') : v' = v ∨ ∃ r r', v = .textRectangle r ∧ v' = .textRectangle r' ∧ AsLarge d r r' := by
  cases h with
  | same => exact .inl rfl
  | rect h => exact .inr ⟨_, _, rfl, rfl, h⟩

theorem sections_grown {d vs vs'} (h : Pairwise2 (Grown d) vs vs') :
    (sections vs).1 = (sections vs').1 ∧ SectionsGrown d (sections vs).2 (sections vs').2 := by
  induction h with
  | nil => exact ⟨rfl, .nil⟩
  | @cons v v' vs vs' hr _ ih =>
    rcases grown_or hr with rfl | ⟨r, r', rfl, rfl, hl⟩
    · by_cases hv : ∃ r, v' = .textRectangle r
      · obtain ⟨r, rfl⟩ := hv
        exact ⟨rfl, .cons ⟨.inl rfl, ih.1⟩ ih.2⟩
      · have hv1 : ∀ r, v' ≠ .textRectangle r := fun r h => hv ⟨r, h⟩
        rw [sections_cons hv1, sections_cons hv1, ih.1]
        exact ⟨rfl, ih.2⟩
    · exact ⟨rfl, .cons ⟨.inr hl, ih.1⟩ ih.2⟩

theorem nextStop_large {d : Dms} {r r'} (h : AsLarge d r r') : ∀ z, ¬ nextStop d r' z := by
  intro z
  unfold nextStop
  cases z with
  | error e =>
    rintro ⟨_, _, hk, _⟩
    exact hk ⟨fun c hc => (by cases hc), h.valid⟩
  | panic => exact fun hk => hk h.fits

theorem roomFor_opened {d : Dms} {r r'} (h : r = r' ∨ AsLarge d r r') : RoomFor d (opened d r) (opened d r') := by
  rcases h with rfl | h
  · exact roomFor_self _ _
  · exact ⟨h.width, h.height, h.cells⟩

theorem rectsStops_grown {d : Dms} {more more'} (hm : SectionsGrown d more more') :
    ∀ {n t sp rect rect' ws}, RoomFor d rect rect' →
    Silent (rectsStops d n t sp rect ws more) → Silent (rectsStops d n t sp rect' ws more') := by
  induction hm with
  | nil =>
    intro n t sp rect rect' ws h hk
    unfold rectsStops rectStops at hk ⊢
    simp only [silent_append] at hk ⊢
    rw [layoutOf_moved d t sp rect rect']
    exact ⟨⟨hk.1.1, hk.1.2.1, hk.1.2.2.1, textStops_moved h hk.1.2.2.2⟩, hk.2⟩
  | @cons x y more more' hr _ ih =>
    intro n t sp rect rect' ws h hk
    obtain ⟨r, us⟩ := x
    obtain ⟨r', us'⟩ := y
    obtain ⟨hl, rfl⟩ : (r = r' ∨ AsLarge d r r') ∧ us = us' := hr
    unfold rectsStops rectStops at hk ⊢
    simp only [silent_append, silent_cons] at hk ⊢
    rw [layoutOf_moved d t sp rect rect']
    refine ⟨⟨hk.1.1, hk.1.2.1, ?_, textStops_moved h hk.1.2.2.2⟩, hk.2.1, ih (roomFor_opened hl) hk.2.2⟩
    rcases hl with rfl | hl
    · exact hk.1.2.2.1
    · intro c hc
      simp only [Option.toList, List.map_cons, List.map_nil, List.mem_singleton] at hc
      subst hc
      exact nextStop_large hl

theorem pageStops_grown {d : Dms} {t vs vs'} (h : Pairwise2 (Grown d) vs vs')
    (hk : Silent (pageStops d t vs)) : Silent (pageStops d t vs') := by
  unfold pageStops at hk ⊢
  rw [silent_append] at hk ⊢
  refine ⟨?_, ?_⟩
  · have hk := hk.1
    rw [silent_map] at hk ⊢
    intro v hv
    obtain ⟨a, ha, hr⟩ := h.mem_right hv
    rcases grown_or hr with rfl | ⟨x, y, rfl, rfl, _⟩
    · exact hk _ ha
    · intro z
      exact errors_not fun e h => by cases h
  · rw [← (sections_grown h).1]
    exact rectsStops_grown (sections_grown h).2 (roomFor_self _ _) hk.2

theorem foldl_grown {d : Dms} {vs vs'} (h : Pairwise2 (Grown d) vs vs') : ∀ t,
    vs'.foldl (TextAttr.apply (signAttr d)) t = vs.foldl (TextAttr.apply (signAttr d)) t := by
  induction h with
  | nil => intro t; rfl
  | cons hr _ ih =>
    intro t
    rw [List.foldl_cons, List.foldl_cons, ih]
    rcases grown_or hr with rfl | ⟨x, y, rfl, rfl, _⟩ <;> rfl

end Ntcip
