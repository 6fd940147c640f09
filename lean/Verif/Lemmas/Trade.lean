import Verif.Spec.Trade
import Verif.Lemmas.Paint
import Verif.Props.Times
import Verif.Props.Added
/-
Lemmas on text rectangles which can be exchanged, or left out.
-/
namespace Ntcip
open Spec

variable {d : Dms}

theorem mem_two {α : Type} {q a b : α} : q ∈ [a, b] ↔ q = a ∨ q = b := by simp

/-- text rectangles in a row, and what can be in their place: the two in the other order, or (if `k`) one of two which are
the same -/
inductive Rewrite (d : Dms) (t : TextAttr) (sp : Option UInt8) : Bool → List (Rectangle × List Value) →
    List (Rectangle × List Value) → Prop
  | swap {r A r' B} : Sep d r r' → Keeps d t sp A → Keeps d t sp B →
      Rewrite d t sp false [(r, A), (r', B)] [(r', B), (r, A)]
  | again {r A} : Keeps d t sp A → Rewrite d t sp true [(r, A), (r, A)] [(r, A)]

/-- the values of text rectangles -/
def flat (segs : List (Rectangle × List Value)) : List Value := segs.flatMap fun q => .textRectangle q.1 :: q.2

/-- rewritten in a message, with the attributes in effect before -/
inductive TradeV (d : Dms) (k : Bool) : TextAttr → Option UInt8 → List Value → List Value → Prop
  | here {t sp x y post} : Rewrite d t sp k x y → EndsRect post → TradeV d k t sp (flat x ++ post) (flat y ++ post)
  | cons {t sp v a b} : TradeV d k (TextAttr.apply (signAttr d) t v) (if v = .newPage then none else spacingAfter sp v) a b →
      TradeV d k t sp (v :: a) (v :: b)

/-- rewritten on a page -/
inductive TradeW (d : Dms) (k : Bool) : TextAttr → Option UInt8 → List Value → List Value → Prop
  | here {t sp x y post} : Rewrite d t sp k x y → EndsRect post → TradeW d k t sp (flat x ++ post) (flat y ++ post)
  | cons {t sp v a b} : TradeW d k (TextAttr.apply (signAttr d) t v) (spacingAfter sp v) a b →
      TradeW d k t sp (v :: a) (v :: b)

/-- rewritten on one of the pages -/
inductive TradeP (d : Dms) (k : Bool) : TextAttr → Option UInt8 → List (List Value) → List (List Value) → Prop
  | here {t sp p p' ps} : TradeW d k t sp p p' → TradeP d k t sp (p :: ps) (p' :: ps)
  | later {t sp p ps ps'} : TradeP d k (p.foldl (TextAttr.apply (signAttr d)) t) none ps ps' →
      TradeP d k t sp (p :: ps) (p :: ps')

/-- rewritten in the text rectangles of a page, after the values `ws` -/
inductive TradeS (d : Dms) (k : Bool) : TextAttr → Option UInt8 → List Value → List (Rectangle × List Value) →
    List (Rectangle × List Value) → Prop
  | here {t sp ws x y more} :
      Rewrite d (ws.foldl (TextAttr.apply (signAttr d)) t) (ws.foldl spacingAfter sp) k x y →
      TradeS d k t sp ws (x ++ more) (y ++ more)
  | later {t sp ws r a more more'} :
      TradeS d k (ws.foldl (TextAttr.apply (signAttr d)) t) (ws.foldl spacingAfter sp) a more more' →
      TradeS d k t sp ws ((r, a) :: more) ((r, a) :: more')

theorem tradeV_at {k x y} (pre : List Value) : ∀ {t sp post},
    Rewrite d (pre.foldl (TextAttr.apply (signAttr d)) t)
      (pre.foldl (fun sp v => if v = .newPage then none else spacingAfter sp v) sp) k x y → EndsRect post →
    TradeV d k t sp (pre ++ (flat x ++ post)) (pre ++ (flat y ++ post)) := by
  induction pre with
  | nil => intro t sp post h hp; exact .here h hp
  | cons v pre ih => intro t sp post h hp; exact .cons (ih h hp)

/-- the text rectangles of a rewriting have texts only -/
theorem rewrite_adds {t sp k x y} (h : Rewrite d t sp k x y) :
    (∀ q ∈ x, ∀ v ∈ q.2, AddsText v) ∧ (∀ q ∈ y, ∀ v ∈ q.2, AddsText v) ∧
    (∀ q ∈ x, Keeps d t sp q.2) ∧ (∀ q ∈ y, Keeps d t sp q.2) ∧ (∀ q, q ∈ x ↔ q ∈ y) ∧ x ≠ [] ∧ y ≠ [] := by
  cases h with
  | swap h1 h2 h3 =>
    refine ⟨?_, ?_, ?_, ?_, ?_, by simp, by simp⟩
    · intro q hq; rcases mem_two.1 hq with rfl | rfl
      · exact h2.1
      · exact h3.1
    · intro q hq; rcases mem_two.1 hq with rfl | rfl
      · exact h3.1
      · exact h2.1
    · intro q hq; rcases mem_two.1 hq with rfl | rfl
      · exact h2
      · exact h3
    · intro q hq; rcases mem_two.1 hq with rfl | rfl
      · exact h3
      · exact h2
    · intro q; simp only [List.mem_cons, List.not_mem_nil, or_false]; exact Or.comm
  | again h =>
    refine ⟨?_, ?_, ?_, ?_, ?_, by simp, by simp⟩
    · intro q hq; rcases mem_two.1 hq with rfl | rfl <;> exact h.1
    · intro q hq; rw [List.mem_singleton.1 hq]; exact h.1
    · intro q hq; rcases mem_two.1 hq with rfl | rfl <;> exact h
    · intro q hq; rw [List.mem_singleton.1 hq]; exact h
    · intro q; simp

theorem flat_plain {x : List (Rectangle × List Value)} (h : ∀ q ∈ x, ∀ v ∈ q.2, AddsText v) {v : Value} (hv : v ∈ flat x) :
    (∃ q ∈ x, v = .textRectangle q.1) ∨ AddsText v := by
  unfold flat at hv
  obtain ⟨q, hq, hv⟩ := List.mem_flatMap.1 hv
  rcases List.mem_cons.1 hv with rfl | hv
  · exact .inl ⟨q, hq, rfl⟩
  · exact .inr (h q hq v hv)

theorem flat_noPage {x : List (Rectangle × List Value)} (h : ∀ q ∈ x, ∀ v ∈ q.2, AddsText v) {v : Value} (hv : v ∈ flat x) :
    v ≠ .newPage := by
  rintro rfl
  rcases flat_plain h hv with ⟨q, _, e⟩ | h
  · cases e
  · exact h

theorem splitPages_front {post q qs} (h : splitPages post = q :: qs) (xs : List Value) (hx : ∀ v ∈ xs, v ≠ .newPage) :
    splitPages (xs ++ post) = (xs ++ q) :: qs := by
  induction xs with
  | nil => exact h
  | cons v xs ih =>
    obtain ⟨p, ps, e1, e2⟩ := splitPages_cons (v := v) (vs := xs ++ post) (hx v (List.mem_cons_self ..))
    rw [ih fun w hw => hx w (List.mem_cons_of_mem _ hw)] at e1
    obtain ⟨rfl, rfl⟩ := List.cons.inj e1
    exact e2

theorem endsRect_page {post q qs} (h : splitPages post = q :: qs) (he : EndsRect post) : EndsRect q := by
  cases post with
  | nil => simp only [splitPages, List.cons.injEq] at h; rw [← h.1]; trivial
  | cons v post =>
    by_cases hv : v = .newPage
    · subst hv
      simp only [splitPages, if_true, List.cons.injEq] at h
      rw [← h.1]; trivial
    · obtain ⟨p, ps, _, e⟩ := splitPages_cons (vs := post) hv
      rw [e, List.cons.injEq] at h
      rw [← h.1]
      cases v <;> first | exact he | exact absurd rfl hv

theorem splitPages_trade {k t sp a b} (h : TradeV d k t sp a b) : TradeP d k t sp (splitPages a) (splitPages b) := by
  induction h with
  | @here t sp x y post h he =>
    obtain ⟨q, qs, e⟩ : ∃ q qs, splitPages post = q :: qs := by
      cases e : splitPages post with
      | nil => exact absurd e (splitPages_ne _)
      | cons q qs => exact ⟨q, qs, rfl⟩
    obtain ⟨h1, h2, _⟩ := rewrite_adds h
    rw [splitPages_front e _ fun v hv => flat_noPage h1 hv, splitPages_front e _ fun v hv => flat_noPage h2 hv]
    exact .here (.here h (endsRect_page e he))
  | @cons t sp v a b h ih =>
    by_cases hv : v = .newPage
    · subst hv
      simp only [splitPages, if_true]
      exact .later ih
    · obtain ⟨p, ps, e1, e2⟩ := splitPages_cons (vs := a) hv
      obtain ⟨p', ps', e3, e4⟩ := splitPages_cons (vs := b) hv
      rw [e2, e4]
      rw [e1, e3, if_neg hv] at ih
      cases ih with
      | here h => exact .here (.cons h)
      | later h => exact .later h

theorem sections_flat {x : List (Rectangle × List Value)} (h : ∀ q ∈ x, ∀ v ∈ q.2, AddsText v) {post} (he : (sections post).1 = []) :
    sections (flat x ++ post) = ([], x ++ (sections post).2) := by
  have front : ∀ (ws : List Value) (tail : List Value), (∀ v ∈ ws, AddsText v) →
      sections (ws ++ tail) = (ws ++ (sections tail).1, (sections tail).2) := by
    intro ws tail hw
    induction ws with
    | nil => rfl
    | cons w ws ih =>
      rw [List.cons_append, sections_cons (addsText_plain (hw w (List.mem_cons_self ..))).2.1,
        ih fun v hv => hw v (List.mem_cons_of_mem _ hv)]
      rfl
  induction x with
  | nil => rw [show flat [] ++ post = post from rfl, List.nil_append, ← he]
  | cons q x ih =>
    have ih := ih fun p hp => h p (List.mem_cons_of_mem _ hp)
    show sections (.textRectangle q.1 :: (q.2 ++ flat x) ++ post) = _
    rw [List.cons_append, List.append_assoc]
    simp only [sections]
    rw [front q.2 _ (h q (List.mem_cons_self ..)), ih]
    simp

theorem sections_ends {post : List Value} (h : EndsRect post) (hn : ∀ v ∈ post, v ≠ .newPage) : (sections post).1 = [] := by
  cases post with
  | nil => rfl
  | cons v post => cases v <;> first | rfl | exact absurd rfl (hn _ (List.mem_cons_self ..)) | exact h.elim

theorem sections_trade {k t sp a b} (h : TradeW d k t sp a b) (hn : ∀ v ∈ a, v ≠ .newPage) :
    (sections b).1 = (sections a).1 ∧ TradeS d k t sp (sections a).1 (sections a).2 (sections b).2 := by
  induction h with
  | @here t sp x y post h he =>
    obtain ⟨h1, h2, _⟩ := rewrite_adds h
    have e := sections_ends he fun v hv => hn v (List.mem_append_right _ hv)
    rw [sections_flat h1 e, sections_flat h2 e]
    exact ⟨rfl, .here h⟩
  | @cons t sp v a b _ ih =>
    obtain ⟨e, ih⟩ := ih fun v hv => hn v (List.mem_cons_of_mem _ hv)
    by_cases hr : ∃ r, v = .textRectangle r
    · obtain ⟨r, rfl⟩ := hr
      simp only [sections, e]
      exact ⟨trivial, .later ih⟩
    · rw [sections_cons (fun r e => hr ⟨r, e⟩), sections_cons (fun r e => hr ⟨r, e⟩), e]
      refine ⟨rfl, ?_⟩
      generalize (sections a).1 = a1, (sections a).2 = a2, (sections b).2 = b2 at ih
      cases ih with
      | here h => exact .here h
      | later h => exact .later h

/-! ### checks -/

theorem rectStops_next {t sp rect ws r} : Silent (rectStops d t sp rect ws (some r)) ↔
    Silent (rectStops d t sp rect ws none) ∧ ∀ z, ¬ nextStop d r z := by
  unfold rectStops
  simp only [silent_append, Option.toList_some, Option.toList_none, List.map_cons, List.map_nil, silent_cons]
  constructor
  · rintro ⟨h1, h2, ⟨h3, h4⟩, h5⟩; exact ⟨⟨h1, h2, h4, h5⟩, h3⟩
  · rintro ⟨⟨h1, h2, h4, h5⟩, h3⟩; exact ⟨h1, h2, ⟨h3, h4⟩, h5⟩

theorem count_silent {n : Nat} : (∀ z, ¬ errors (CountFault n) z) ↔ n ≤ 50 := by
  constructor
  · intro h
    refine Classical.byContradiction fun hn => h (.error _) ⟨by omega, rfl⟩
  · intro h z hz
    cases z with
    | panic => exact hz
    | error e => exact absurd hz.1 (by omega)

/-- the checks of text rectangles, one by one -/
def RectsQuiet (d : Dms) : TextAttr → Option UInt8 → Rectangle → List Value → List (Rectangle × List Value) → Prop
  | t, sp, rect, ws, [] => Silent (rectStops d t sp rect ws none)
  | t, sp, rect, ws, (r, us) :: more => Silent (rectStops d t sp rect ws none) ∧ (∀ z, ¬ nextStop d r z) ∧
      RectsQuiet d (ws.foldl (TextAttr.apply (signAttr d)) t) (ws.foldl spacingAfter sp) (opened d r) us more

theorem rectsStops_silent {more} : ∀ {n t sp rect ws}, Silent (rectsStops d n t sp rect ws more) ↔
    RectsQuiet d t sp rect ws more ∧ n + more.length ≤ 50 := by
  induction more with
  | nil =>
    intro n t sp rect ws
    unfold rectsStops RectsQuiet
    rw [silent_append, silent_cons, count_silent]
    simp [Silent]
  | cons q more ih =>
    intro n t sp rect ws
    obtain ⟨r, us⟩ := q
    unfold rectsStops RectsQuiet
    rw [silent_append, silent_cons, count_silent, ih, rectStops_next]
    simp only [List.length_cons]
    constructor
    · rintro ⟨⟨h1, h2⟩, h3, h4, h5⟩; exact ⟨⟨h1, h2, h4⟩, by omega⟩
    · rintro ⟨⟨h1, h2, h4⟩, h5⟩; exact ⟨⟨h1, h2⟩, by omega, h4, by omega⟩

/-- the checks of text rectangles which keep the attributes -/
theorem rectsQuiet_keeps {x : List (Rectangle × List Value)} : ∀ {t sp rect ws more},
    (∀ q ∈ x, Keeps d (ws.foldl (TextAttr.apply (signAttr d)) t) (ws.foldl spacingAfter sp) q.2) →
    (RectsQuiet d t sp rect ws (x ++ more) ↔ RectsQuiet d t sp rect ws more ∧
      ∀ q ∈ x, (∀ z, ¬ nextStop d q.1 z) ∧ Silent (rectStops d (ws.foldl (TextAttr.apply (signAttr d)) t)
        (ws.foldl spacingAfter sp) (opened d q.1) q.2 none)) := by
  induction x with
  | nil => intro t sp rect ws more _; simp
  | cons q x ih =>
    intro t sp rect ws more hk
    obtain ⟨r, us⟩ := q
    have hq := hk _ (List.mem_cons_self ..)
    have hx := fun q hq => hk q (List.mem_cons_of_mem _ hq)
    have h1 : ∀ q ∈ x, Keeps d (us.foldl (TextAttr.apply (signAttr d)) (ws.foldl (TextAttr.apply (signAttr d)) t))
        (us.foldl spacingAfter (ws.foldl spacingAfter sp)) q.2 := by
      rw [hq.2.1, hq.2.2]; exact hx
    have e := ih (rect := opened d r) (more := more) h1
    rw [hq.2.1, hq.2.2] at e
    rw [List.cons_append]
    show (_ ∧ _ ∧ RectsQuiet d _ _ _ us (x ++ more)) ↔ _
    rw [e]
    have e2 : RectsQuiet d (ws.foldl (TextAttr.apply (signAttr d)) t) (ws.foldl spacingAfter sp) (opened d r) us more ∧
        Silent (rectStops d t sp rect ws none) ↔
        RectsQuiet d t sp rect ws more ∧ Silent (rectStops d (ws.foldl (TextAttr.apply (signAttr d)) t)
          (ws.foldl spacingAfter sp) (opened d r) us none) := by
      cases more with
      | nil => unfold RectsQuiet; exact and_comm
      | cons p more =>
        obtain ⟨r', vs⟩ := p
        unfold RectsQuiet
        rw [hq.2.1, hq.2.2]
        constructor
        · rintro ⟨⟨h1, h2, h3⟩, h4⟩; exact ⟨⟨h4, h2, h3⟩, h1⟩
        · rintro ⟨⟨h4, h2, h3⟩, h1⟩; exact ⟨⟨h1, h2, h3⟩, h4⟩
    simp only [List.forall_mem_cons]
    constructor
    · rintro ⟨h1, h2, h3, h4⟩
      have := e2.1 ⟨h3, h1⟩
      exact ⟨this.1, ⟨h2, this.2⟩, h4⟩
    · rintro ⟨h1, ⟨h2, h3⟩, h4⟩
      have := e2.2 ⟨h1, h3⟩
      exact ⟨this.2, h2, this.1, h4⟩

theorem trade_rectsQuiet {k t sp ws more more'} (h : TradeS d k t sp ws more more') : ∀ {rect},
    RectsQuiet d t sp rect ws more ↔ RectsQuiet d t sp rect ws more' := by
  induction h with
  | here h =>
    intro rect
    obtain ⟨_, _, h3, h4, h5, _⟩ := rewrite_adds h
    rw [rectsQuiet_keeps h3, rectsQuiet_keeps h4]
    refine and_congr Iff.rfl ⟨fun h q hq => h q ((h5 q).2 hq), fun h q hq => h q ((h5 q).1 hq)⟩
  | later _ ih =>
    intro rect
    unfold RectsQuiet
    rw [ih]

theorem trade_length {t sp ws more more'} (h : TradeS d false t sp ws more more') : more'.length = more.length := by
  generalize hk : false = k at h
  induction h with
  | here h =>
    subst hk
    cases h
    simp
  | later _ ih => simp [ih]

/-- the text rectangles of a page that is shown are on the sign -/
theorem rectsQuiet_rects {more} : ∀ {t sp rect ws}, RectsQuiet d t sp rect ws more →
    ∀ q ∈ more, TextRect d d.vmsCfg.signWidthPixels.toNat d.vmsCfg.signHeightPixels.toNat q.1 := by
  induction more with
  | nil => intro t sp rect ws _ q hq; cases hq
  | cons p more ih =>
    intro t sp rect ws h q hq
    obtain ⟨r, us⟩ := p
    obtain ⟨_, h2, h3⟩ := h
    rcases List.mem_cons.1 hq with rfl | hq
    · have hfit : RectFits r := Classical.byContradiction fun hn => h2 .panic hn
      have hv : ValueOk d (.textRectangle r) := Classical.byContradiction fun hn =>
        h2 (.error _) ⟨fun hn' => hn' hfit, rfl, hn, rfl⟩
      exact hv.2
    · exact ih h3 q hq

/-! ### pictures -/

theorem layered_adds {W H : Nat} {ws : List Value} (h : ∀ v ∈ ws, AddsText v) {i j} : ∀ {p o},
    Layered d W H p ws i j o → o = none := by
  induction ws with
  | nil => intro p o h; cases h; rfl
  | cons w ws ih =>
    intro p o hl
    obtain ⟨_, _, n1, n2, _⟩ := addsText_plain (h w (List.mem_cons_self ..))
    cases hl with
    | cons k1 k2 =>
      rw [ih (fun v hv => h v (List.mem_cons_of_mem _ hv)) k2]
      cases k1 with
      | other _ _ => rfl
      | rect _ => exact absurd rfl (n1 _ _)
      | offRect _ => rfl
      | graphic _ _ _ => exact absurd rfl (n2 _ _)
      | offGraphic _ _ => rfl

theorem graphicsOn_adds {ws : List Value} (h : ∀ v ∈ ws, AddsText v) {p a g} (hg : GraphicsOn d p ws a g) : g = a := by
  refine raster_ext hg.width hg.height fun i j => ?_
  obtain ⟨o, h1, h2⟩ := hg.px i j
  rw [h2, layered_adds h h1]
  rfl

/-- the text rectangles that follow -/
def Tail (d : Dms) (bg : Color) (t : TextAttr) (sp : Option UInt8) : List (Rectangle × List Value) → Raster → Raster → Prop
  | [], u, b => b = u
  | (r, us) :: more, u, b => Composed d bg t sp (opened d r) us more u b

theorem composed_tail {bg t sp rect ws more a b} (h : Composed d bg t sp rect ws more a b) :
    ∃ g u, GraphicsOn d ⟨t.foreground, bg⟩ ws a g ∧ TextDrawn d t sp rect ws g u ∧
      Tail d bg (ws.foldl (TextAttr.apply (signAttr d)) t) (ws.foldl spacingAfter sp) more u b := by
  cases h with
  | last h1 h2 => exact ⟨_, _, h1, h2, rfl⟩
  | next h1 h2 h3 => exact ⟨_, _, h1, h2, h3⟩

theorem tail_unique (hu : UniqueNumbers (fun g : Graphic => g.number.toNat) d.graphicDefinition) {bg t sp more u b b'}
    (hz : ∀ w ∈ more, ∀ pos, Value.graphic 0 pos ∉ w.2) (h : Tail d bg t sp more u b) (h' : Tail d bg t sp more u b') :
    b = b' := by
  cases more with
  | nil => exact h.trans h'.symm
  | cons q more =>
    obtain ⟨r, us⟩ := q
    exact composed_unique hu h (hz _ (List.mem_cons_self ..)) (fun w hw => hz w (List.mem_cons_of_mem _ hw)) h'

theorem textDrawn_size {t sp rect ws a b} (h : TextDrawn d t sp rect ws a b) : b.width = a.width ∧ b.height = a.height := by
  obtain ⟨_, _, _, _, _, A, _⟩ := h
  exact ⟨A.width, A.height⟩

/-- a pixel in the opened text rectangle is a pixel of it -/
theorem opened_pixel (hd : SizeOk d) {r : Rectangle}
    (h : TextRect d d.vmsCfg.signWidthPixels.toNat d.vmsCfg.signHeightPixels.toNat r) {i j}
    (hi : (opened d r).x.toNat - 1 ≤ i ∧ i < (opened d r).x.toNat - 1 + (opened d r).width.toNat ∧
      (opened d r).y.toNat - 1 ≤ j ∧ j < (opened d r).y.toNat - 1 + (opened d r).height.toNat) :
    PixelIn d.vmsCfg.signWidthPixels.toNat d.vmsCfg.signHeightPixels.toNat r i j := by
  have h1 := h.x
  have h2 := h.y
  have h3 := h.right
  have h4 := h.bottom
  have w := hd.width
  have w' := hd.height
  have e1 : (opened d r).width.toNat = extWidth r d.vmsCfg.signWidthPixels.toNat := by
    show (UInt16.ofNat _).toNat = _
    rw [UInt16.toNat_ofNat']
    exact Nat.mod_eq_of_lt (by omega)
  have e2 : (opened d r).height.toNat = extHeight r d.vmsCfg.signHeightPixels.toNat := by
    show (UInt16.ofNat _).toNat = _
    rw [UInt16.toNat_ofNat']
    exact Nat.mod_eq_of_lt (by omega)
  rw [e1, e2] at hi
  have x : (opened d r).x = r.x := rfl
  have y : (opened d r).y = r.y := rfl
  rw [x, y] at hi
  unfold PixelIn
  omega

theorem trade_composed (hd : SizeOk d) (hu : UniqueNumbers (fun g : Graphic => g.number.toNat) d.graphicDefinition)
    {k} (hc : k = false → CellHeights d) {t sp ws more more'} (h : TradeS d k t sp ws more more') :
    (∀ q ∈ more, TextRect d d.vmsCfg.signWidthPixels.toNat d.vmsCfg.signHeightPixels.toNat q.1) →
    (∀ pos, Value.graphic 0 pos ∉ ws) → (∀ w ∈ more, ∀ pos, Value.graphic 0 pos ∉ w.2) →
    ∀ {bg rect a b b'}, Composed d bg t sp rect ws more a b → Composed d bg t sp rect ws more' a b' → b = b' := by
  induction h with
  | @here t sp ws x y more h =>
    intro hr hz hz' bg rect a b b' hb hb'
    obtain ⟨g, u, a1, a2, a3⟩ := composed_tail hb
    obtain ⟨g', u', c1, c2, c3⟩ := composed_tail hb'
    obtain ⟨e1, e2, e3⟩ := graphicsOn_unique hu hz a1 c1
    obtain rfl := raster_ext e1 e2 e3
    obtain rfl := textDrawn_unique a2 c2
    cases h with
    | @swap r A r' B hsep hA hB =>
      obtain ⟨g1, u1, k1, k2, k3⟩ := composed_tail a3
      obtain rfl := graphicsOn_adds hA.1 k1
      rw [hA.2.1, hA.2.2] at k3
      obtain ⟨g2, u2, l1, l2, l3⟩ := composed_tail k3
      obtain rfl := graphicsOn_adds hB.1 l1
      rw [hB.2.1, hB.2.2] at l3
      obtain ⟨g1', v1, m1, m2, m3⟩ := composed_tail c3
      obtain rfl := graphicsOn_adds hB.1 m1
      rw [hB.2.1, hB.2.2] at m3
      obtain ⟨g2', v2, n1, n2, n3⟩ := composed_tail m3
      obtain rfl := graphicsOn_adds hA.1 n1
      rw [hA.2.1, hA.2.2] at n3
      have hr1 := hr (r, A) (by simp)
      have hr2 := hr (r', B) (by simp)
      obtain ⟨f, f1, f2, f3⟩ := textDrawn_paint k2 n2
      obtain ⟨q, q1, q2, q3⟩ := textDrawn_paint l2 m2
      have f3 := f3 (hc rfl) hr1.top_aligned
      have q3 := q3 (hc rfl) hr2.top_aligned
      obtain rfl : u2 = v2 := by
        refine raster_ext ?_ ?_ fun i j => ?_
        · rw [(textDrawn_size l2).1, (textDrawn_size k2).1, (textDrawn_size n2).1, (textDrawn_size m2).1]
        · rw [(textDrawn_size l2).2, (textDrawn_size k2).2, (textDrawn_size n2).2, (textDrawn_size m2).2]
        · rw [q1, f1, f2, q2]
          cases hf : f i j with
          | none => rfl
          | some c =>
            cases hq : q i j with
            | none => rfl
            | some c' =>
              exact absurd ⟨opened_pixel hd hr1 (f3 i j (by rw [hf]; simp)), opened_pixel hd hr2 (q3 i j (by rw [hq]; simp))⟩
                (hsep i j)
      exact tail_unique (more := more) hu (fun w hw => hz' w (by simp [hw])) l3 n3
    | @again r A hA =>
      obtain ⟨g1, u1, k1, k2, k3⟩ := composed_tail a3
      obtain rfl := graphicsOn_adds hA.1 k1
      rw [hA.2.1, hA.2.2] at k3
      obtain ⟨g2, u2, l1, l2, l3⟩ := composed_tail k3
      obtain rfl := graphicsOn_adds hA.1 l1
      rw [hA.2.1, hA.2.2] at l3
      obtain ⟨g1', v1, m1, m2, m3⟩ := composed_tail c3
      obtain rfl := graphicsOn_adds hA.1 m1
      rw [hA.2.1, hA.2.2] at m3
      obtain rfl := textDrawn_unique k2 m2
      obtain ⟨f, f1, f2, _⟩ := textDrawn_paint k2 l2
      obtain rfl : u2 = g2 := by
        refine raster_ext (textDrawn_size l2).1 (textDrawn_size l2).2 fun i j => ?_
        rw [f2, f1]
        cases f i j <;> rfl
      exact tail_unique (more := more) hu (fun w hw => hz' w (by simp [hw])) l3 m3
  | later _ ih =>
    intro hr hz hz' bg rect a b b' hb hb'
    obtain ⟨g, u, a1, a2, a3⟩ := composed_tail hb
    obtain ⟨g', u', c1, c2, c3⟩ := composed_tail hb'
    obtain ⟨e1, e2, e3⟩ := graphicsOn_unique hu hz a1 c1
    obtain rfl := raster_ext e1 e2 e3
    obtain rfl := textDrawn_unique a2 c2
    exact ih (fun q hq => hr q (List.mem_cons_of_mem _ hq)) (hz' _ (List.mem_cons_self ..))
      (fun w hw => hz' w (List.mem_cons_of_mem _ hw)) a3 c3

theorem flat_attr {x : List (Rectangle × List Value)} {t sp} (h : ∀ q ∈ x, Keeps d t sp q.2) :
    (flat x).foldl (TextAttr.apply (signAttr d)) t = t := by
  induction x with
  | nil => rfl
  | cons q x ih =>
    show ((.textRectangle q.1 :: q.2) ++ flat x).foldl (TextAttr.apply (signAttr d)) t = t
    rw [List.foldl_append, List.foldl_cons]
    show (flat x).foldl _ (q.2.foldl (TextAttr.apply (signAttr d)) t) = t
    rw [(h q (List.mem_cons_self ..)).2.1]
    exact ih fun p hp => h p (List.mem_cons_of_mem _ hp)

theorem flat_page {x : List (Rectangle × List Value)} (h : ∀ q ∈ x, ∀ v ∈ q.2, AddsText v) :
    (∀ a c, pageTimes a c (flat x) = c) ∧ ∀ a c, background a c (flat x) = c := by
  have key : ∀ vs : List Value, (∀ v ∈ vs, (∃ r, v = .textRectangle r) ∨ AddsText v) →
      (∀ a c, pageTimes a c vs = c) ∧ ∀ a c, background a c vs = c := by
    intro vs hv
    induction vs with
    | nil => exact ⟨fun _ _ => rfl, fun _ _ => rfl⟩
    | cons v vs ih =>
      obtain ⟨i1, i2⟩ := ih fun w hw => hv w (List.mem_cons_of_mem _ hw)
      have hv := hv v (List.mem_cons_self ..)
      constructor
      · intro a c
        have := i1 a c
        cases v <;> first | exact this | (rcases hv with ⟨r, e⟩ | hv <;> first | (cases e; done) | exact hv.elim)
      · intro a c
        have := i2 a c
        cases v <;> first | exact this | (rcases hv with ⟨r, e⟩ | hv <;> first | (cases e; done) | exact hv.elim)
  refine key _ fun v hv => ?_
  rcases flat_plain h hv with ⟨q, _, e⟩ | h
  · exact .inl ⟨_, e⟩
  · exact .inr h

theorem trade_attr {k t sp a b} (h : TradeW d k t sp a b) :
    a.foldl (TextAttr.apply (signAttr d)) t = b.foldl (TextAttr.apply (signAttr d)) t := by
  induction h with
  | here h _ =>
    obtain ⟨_, _, h3, h4, _⟩ := rewrite_adds h
    rw [List.foldl_append, List.foldl_append, flat_attr h3, flat_attr h4]
  | cons _ ih => exact ih

theorem trade_page {k t sp a b} (h : TradeW d k t sp a b) :
    (∀ z c, pageTimes z c a = pageTimes z c b) ∧ ∀ z c, background z c a = background z c b := by
  induction h with
  | @here t sp x y post h _ =>
    obtain ⟨h1, h2, _⟩ := rewrite_adds h
    constructor
    · intro z c
      have e1 := (flat_page h1).1 z c
      have e2 := (flat_page h2).1 z c
      unfold pageTimes at e1 e2 ⊢
      rw [List.foldl_append, List.foldl_append, e1, e2]
    · intro z c
      have e1 := (flat_page h1).2 z c
      have e2 := (flat_page h2).2 z c
      unfold background at e1 e2 ⊢
      rw [List.foldl_append, List.foldl_append, e1, e2]
  | cons _ ih => exact ⟨fun z c => ih.1 z _, fun z c => ih.2 z _⟩

theorem trade_mem {k t sp a b} (h : TradeV d k t sp a b) (v : Value) : v ∈ a ↔ v ∈ b := by
  induction h with
  | here h _ =>
    obtain ⟨_, _, _, _, h5, _⟩ := rewrite_adds h
    simp only [List.mem_append, flat, List.mem_flatMap, h5]
  | cons _ ih => simp only [List.mem_cons, ih]

theorem trade_again_last {t sp ws more more'} (h : TradeS d true t sp ws more more') : ∀ rect,
    lastRect d rect more = lastRect d rect more' := by
  generalize hk : true = k at h
  induction h with
  | here h =>
    subst hk
    cases h
    intro rect; rfl
  | later _ ih => intro rect; exact ih _

theorem trade_count {k t sp ws more more'} (h : TradeS d k t sp ws more more') : more'.length ≤ more.length := by
  induction h with
  | here h => cases h <;> simp
  | later _ ih => simpa using ih

theorem tradeW_mem {k t sp a b} (h : TradeW d k t sp a b) (v : Value) : v ∈ a ↔ v ∈ b := by
  induction h with
  | here h _ =>
    obtain ⟨_, _, _, _, h5, _⟩ := rewrite_adds h
    simp only [List.mem_append, flat, List.mem_flatMap, h5]
  | cons _ ih => simp only [List.mem_cons, ih]

theorem pageStops_count {t p} (h : Silent (pageStops d t p)) : rectCount p ≤ 49 := by
  unfold pageStops at h
  rw [silent_append, rectsStops_silent] at h
  unfold rectCount
  omega

theorem trade_pageStops {k t p p'} (h : TradeW d k t none p p') (hn : ∀ v ∈ p, v ≠ .newPage) :
    Silent (pageStops d t p) ↔ Silent (pageStops d t p') ∧ rectCount p ≤ 49 := by
  obtain ⟨e, hs⟩ := sections_trade h hn
  have hc := trade_count hs
  unfold pageStops rectCount
  rw [silent_append, silent_append, silent_map, silent_map, rectsStops_silent, rectsStops_silent, e, trade_rectsQuiet hs]
  constructor
  · rintro ⟨h1, h2, h3⟩
    exact ⟨⟨fun v hv => h1 v ((tradeW_mem h v).2 hv), h2, by omega⟩, by omega⟩
  · rintro ⟨⟨h1, h2, h3⟩, h4⟩
    exact ⟨fun v hv => h1 v ((tradeW_mem h v).1 hv), h2, by omega⟩

theorem pagesQuiet_count {ps} : ∀ {t}, PagesQuiet d t ps → ∀ p ∈ ps, rectCount p ≤ 49 := by
  induction ps with
  | nil => intro t _ p hp; cases hp
  | cons q ps ih =>
    intro t h p hp
    rcases List.mem_cons.1 hp with rfl | hp
    · exact pageStops_count h.1
    · exact ih h.2 p hp

theorem trade_pagesQuiet {ps ps'} {k t sp} (h : TradeP d k t sp ps ps') (hsp : sp = none)
    (hn : ∀ p ∈ ps, ∀ v ∈ p, v ≠ .newPage) :
    PagesQuiet d t ps ↔ PagesQuiet d t ps' ∧ ∀ p ∈ ps, rectCount p ≤ 49 := by
  induction h with
  | @here t sp p p' ps h =>
    subst hsp
    rw [PagesQuiet, PagesQuiet, trade_pageStops h (hn _ (List.mem_cons_self ..)), trade_attr h, List.forall_mem_cons]
    constructor
    · rintro ⟨⟨h1, h2⟩, h3⟩; exact ⟨⟨h1, h3⟩, h2, pagesQuiet_count h3⟩
    · rintro ⟨⟨h1, h3⟩, h2, _⟩; exact ⟨⟨h1, h2⟩, h3⟩
  | later _ ih =>
    rw [PagesQuiet, PagesQuiet, ih rfl fun p hp => hn p (List.mem_cons_of_mem _ hp), List.forall_mem_cons]
    constructor
    · rintro ⟨h1, h2, h3⟩; exact ⟨⟨h1, h2⟩, pageStops_count h1, h3⟩
    · rintro ⟨⟨h1, h2⟩, _, h3⟩; exact ⟨h1, h2, h3⟩

theorem splitPages_plain {vs : List Value} : ∀ p ∈ splitPages vs, ∀ v ∈ p, v ≠ .newPage := by
  induction vs with
  | nil => intro p hp v hv; simp only [splitPages, List.mem_singleton] at hp; subst hp; cases hv
  | cons w vs ih =>
    intro p hp v hv
    by_cases hw : w = .newPage
    · subst hw
      simp only [splitPages, if_true] at hp
      rcases List.mem_cons.1 hp with rfl | hp
      · cases hv
      · exact ih p hp v hv
    · obtain ⟨q, qs, e1, e2⟩ := splitPages_cons (vs := vs) hw
      rw [e2] at hp
      rw [e1] at ih
      rcases List.mem_cons.1 hp with rfl | hp
      · rcases List.mem_cons.1 hv with rfl | hv
        · exact hw
        · exact ih q (List.mem_cons_self ..) v hv
      · exact ih p (List.mem_cons_of_mem _ hp) v hv

theorem trade_pictured (hd : SizeOk d) (hu : UniqueNumbers (fun g : Graphic => g.number.toNat) d.graphicDefinition)
    {ps ps'} {k t sp} (hc : k = false → CellHeights d) (h : TradeP d k t sp ps ps') (hsp : sp = none)
    (hn : ∀ p ∈ ps, ∀ v ∈ p, v ≠ .newPage ∧ InRange v) : PagesQuiet d t ps → ∀ {c xs ys}, Pictured d t c xs ps →
    Pictured d t c ys ps' → onPictures ys = onPictures xs ∧ durations ys = durations xs ∧ (k = true → ys = xs) := by
  induction h with
  | @here t sp p p' ps h =>
    subst hsp
    intro hq c xs ys hx hy
    have hn1 := hn p (List.mem_cons_self ..)
    obtain ⟨raster, more, x1, x2, x3⟩ := hx
    obtain ⟨raster', more', y1, y2, y3⟩ := hy
    obtain ⟨e, hs⟩ := sections_trade h fun v hv => (hn1 v hv).1
    have hquiet : RectsQuiet d t none (signRect d) (sections p).1 (sections p).2 := by
      have := hq.1
      unfold pageStops at this
      rw [silent_append, rectsStops_silent] at this
      exact this.2.1
    have hz := sections_all (P := fun v => ∀ pos, v ≠ .graphic 0 pos) (vs := p) (by
      rintro v hm pos rfl
      have := (hn1 _ hm).2
      simp [InRange] at this)
    rw [e] at y1
    simp only [← (trade_page h).1, ← (trade_page h).2] at y1 y2 y3
    obtain rfl := trade_composed hd hu hc hs (rectsQuiet_rects hquiet) (fun pos hm => hz.1 _ hm pos rfl)
      (fun w hw pos hm => hz.2 w hw _ hm pos rfl) x1 y1
    rw [← trade_attr h] at y3
    obtain rfl := pictured_unique hu (fun vs hv v hw => (hn vs (List.mem_cons_of_mem _ hv) v hw).2) x3 y3
    rw [x2, y2]
    refine ⟨?_, ?_, ?_⟩
    · simp only [onPictures]
      split <;> simp [onPictures]
    · simp only [durations]
      split <;> simp [durations]
    · rintro rfl
      rw [trade_again_last hs]
  | later _ ih =>
    intro hq c xs ys hx hy
    obtain ⟨raster, more, x1, x2, x3⟩ := hx
    obtain ⟨raster', more', y1, y2, y3⟩ := hy
    obtain ⟨i1, i2, i3⟩ := ih rfl (fun p hp => hn p (List.mem_cons_of_mem _ hp)) hq.2 x3 y3
    rename_i p ps ps' _
    have hz := sections_all (P := fun v => ∀ pos, v ≠ .graphic 0 pos) (vs := p) (by
      rintro v hm pos rfl
      have := (hn _ (List.mem_cons_self ..) _ hm).2
      simp [InRange] at this)
    obtain rfl := composed_unique hu x1 (fun pos hm => hz.1 _ hm pos rfl) (fun w hw pos hm => hz.2 w hw _ hm pos rfl) y1
    rw [x2, y2]
    refine ⟨?_, ?_, ?_⟩
    · simp only [onPictures]
      split <;> simp [onPictures, i1]
    · simp only [durations]
      split <;> simp [durations, i2]
    · intro hk
      rw [i3 hk]

end Ntcip
