import Verif.Spec.Cover
import Verif.Lemmas.Trade
import Verif.Props.Hidden
import Verif.Props.Narrow
import Verif.Props.Sequel
/-
Lemmas on pages, a text rectangle of which covers the whole sign
-/
namespace Ntcip
open Spec

variable {d : Dms}

/-! ### nothing is drawn off the sign -/

/-- the pixel is not on the sign -/
def OffSign (d : Dms) (i j : Nat) : Prop := ¬ (i < d.vmsCfg.signWidthPixels.toNat ∧ j < d.vmsCfg.signHeightPixels.toNat)

theorem graphicOf_unique (hu : UniqueNumbers (fun g : Graphic => g.number.toNat) d.graphicDefinition) {n pos g g'}
    (h0 : n ≠ 0) (h : GraphicOf d n pos g) (h' : GraphicOf d n pos g') : g = g' := by
  obtain ⟨a, b, _⟩ := h
  obtain ⟨a', b', _⟩ := h'
  obtain ⟨k, hk⟩ := List.getElem?_of_mem a
  obtain ⟨k', hk'⟩ := List.getElem?_of_mem a'
  have hne : g.number.toNat ≠ 0 := by
    rw [b]
    intro hz
    exact h0 (UInt8.toNat_inj.mp hz)
  have := hu k k' g g' hk hk' hne (by dsimp only; rw [b, b'])
  subst this
  rw [hk] at hk'
  simpa using hk'

theorem layered_off {i j} (ho : OffSign d i j) {vs : List Value} (hq : ∀ v ∈ vs, isDrawing v = true → ValueOk d v)
    (hu : UniqueNumbers (fun g : Graphic => g.number.toNat) d.graphicDefinition)
    (hz : ∀ pos, Value.graphic 0 pos ∉ vs) : ∀ {p o},
    Layered d d.vmsCfg.signWidthPixels.toNat d.vmsCfg.signHeightPixels.toNat p vs i j o → o = none := by
  induction vs with
  | nil => intro p o h; cases h; rfl
  | cons v vs ih =>
    intro p o h
    cases h with
    | cons h1 h2 =>
      rw [ih (fun v hv => hq v (List.mem_cons_of_mem _ hv)) (fun pos hm => hz pos (List.mem_cons_of_mem _ hm)) h2]
      have hv := hq v (List.mem_cons_self ..)
      cases h1 with
      | other _ _ => rfl
      | offRect _ => rfl
      | offGraphic _ _ => rfl
      | @rect r c _ _ hp =>
        have hi : InsideRect _ _ r := (hv rfl).2
        have := hi.right
        have := hi.bottom
        have := hi.x
        have := hi.y
        unfold PixelIn at hp
        exact absurd ⟨by omega, by omega⟩ ho
      | @graphic n pos g c _ _ hg hb hc =>
        obtain ⟨_, g', h1, h2, h3⟩ := hv rfl
        have hn : n ≠ 0 := by rintro rfl; exact hz pos (List.mem_cons_self ..)
        obtain rfl := graphicOf_unique hu hn hg h1
        unfold InBox at hb
        exact absurd ⟨by omega, by omega⟩ ho

theorem graphicsOn_off {i j} (ho : OffSign d i j) {vs : List Value} (hq : ∀ v ∈ vs, isDrawing v = true → ValueOk d v)
    (hu : UniqueNumbers (fun g : Graphic => g.number.toNat) d.graphicDefinition)
    (hz : ∀ pos, Value.graphic 0 pos ∉ vs) {p a b} (hw : a.width = d.vmsCfg.signWidthPixels.toNat)
    (hh : a.height = d.vmsCfg.signHeightPixels.toNat) (h : GraphicsOn d p vs a b) : b.px i j = a.px i j := by
  obtain ⟨o, h1, h2⟩ := h.px i j
  rw [hw, hh] at h1
  rw [h2, layered_off ho hq hu hz h1]
  rfl

/-- the rectangle is on the sign -/
def OnSign (d : Dms) (rect : Rectangle) : Prop :=
  rect.x.toNat - 1 + rect.width.toNat ≤ d.vmsCfg.signWidthPixels.toNat ∧
  rect.y.toNat - 1 + rect.height.toNat ≤ d.vmsCfg.signHeightPixels.toNat

theorem opened_onSign (hd : SizeOk d) {r : Rectangle}
    (h : TextRect d d.vmsCfg.signWidthPixels.toNat d.vmsCfg.signHeightPixels.toNat r) : OnSign d (opened d r) := by
  have h3 := h.right
  have h4 := h.bottom
  have w := hd.width
  have w' := hd.height
  have e1 : (opened d r).width.toNat = extWidth r d.vmsCfg.signWidthPixels.toNat := by
    show (UInt16.ofNat _).toNat = _
    rw [UInt16.toNat_ofNat']
    exact Nat.mod_eq_of_lt (by omega)
  have e2 : (opened d r).height.toNat = extHeight r d.vmsCfg.signHeightPixels.toNat := by
    show (UInt16.ofNat _).toNat = _
    rw [UInt16.toNat_ofNat']
    exact Nat.mod_eq_of_lt (by omega)
  unfold OnSign
  rw [e1, e2]
  exact ⟨h3, h4⟩

theorem textDrawn_offSign {i j} (ho : OffSign d i j) {t sp rect vs a b} (hr : OnSign d rect) (h : TextDrawn d t sp rect vs a b) :
    b.px i j = a.px i j := by
  obtain ⟨ps, _, _, _, p6, p5, _⟩ := h
  rw [textAt_iff] at p5
  rw [p5]
  refine textPx_unlit (fun p hp hl => ?_) _
  obtain ⟨f, w, k1, k2, k3, k4, k5⟩ := p6 p hp
  have hin := lightsAt_inside hl k1 k2
  have := hr.1
  have := hr.2
  exact ho ⟨by omega, by omega⟩

/-- the drawings can be drawn, and there is no graphic 0 -/
def Sane (d : Dms) (vs : List Value) : Prop :=
  (∀ v ∈ vs, isDrawing v = true → ValueOk d v) ∧ ∀ pos, Value.graphic 0 pos ∉ vs

theorem composed_off (hd : SizeOk d) (hu : UniqueNumbers (fun g : Graphic => g.number.toNat) d.graphicDefinition)
    {i j} (ho : OffSign d i j) {bg t sp rect vs rest a b} (h : Composed d bg t sp rect vs rest a b) :
    a.width = d.vmsCfg.signWidthPixels.toNat → a.height = d.vmsCfg.signHeightPixels.toNat → OnSign d rect →
    (∀ q ∈ rest, TextRect d d.vmsCfg.signWidthPixels.toNat d.vmsCfg.signHeightPixels.toNat q.1) →
    Sane d vs → (∀ q ∈ rest, Sane d q.2) → b.px i j = a.px i j := by
  induction h with
  | last h1 h2 =>
    intro hw hh hr _ hs _
    rw [textDrawn_offSign ho hr h2, graphicsOn_off ho hs.1 hu hs.2 hw hh h1]
  | next h1 h2 _ ih =>
    intro hw hh hr hm hs hq
    rw [ih (by rw [(textDrawn_size h2).1, h1.width, hw]) (by rw [(textDrawn_size h2).2, h1.height, hh])
      (opened_onSign hd (hm _ (List.mem_cons_self ..))) (fun q hq => hm q (List.mem_cons_of_mem _ hq))
      (hq _ (List.mem_cons_self ..)) (fun q h => hq q (List.mem_cons_of_mem _ h)),
      textDrawn_offSign ho hr h2, graphicsOn_off ho hs.1 hu hs.2 hw hh h1]

/-! ### the page up to a text rectangle -/

theorem sections_upto (u : List Value) (r : Rectangle) (w : List Value) : sections (u ++ .textRectangle r :: w) =
    ((sections u).1, (sections u).2 ++ (r, (sections w).1) :: (sections w).2) := by
  induction u with
  | nil => rfl
  | cons v u ih =>
    by_cases hv : ∃ q, v = .textRectangle q
    · obtain ⟨q, rfl⟩ := hv
      rw [List.cons_append]
      show ([], (q, (sections (u ++ _)).1) :: (sections (u ++ _)).2) = _
      rw [ih]
      rfl
    · have hv' : ∀ q, v ≠ .textRectangle q := fun q e => hv ⟨q, e⟩
      rw [List.cons_append, sections_cons hv', sections_cons hv', ih]

theorem composed_split {bg r us m2} (m1 : List (Rectangle × List Value)) : ∀ {ws t sp rect a b},
    Composed d bg t sp rect ws (m1 ++ (r, us) :: m2) a b →
    ∃ m, Composed d bg t sp rect ws m1 a m ∧
      Composed d bg ((ws ++ m1.flatMap Prod.snd).foldl (TextAttr.apply (signAttr d)) t)
        ((ws ++ m1.flatMap Prod.snd).foldl spacingAfter sp) (opened d r) us m2 m b := by
  induction m1 with
  | nil =>
    intro ws t sp rect a b h
    cases h with
    | next h1 h2 h3 =>
      refine ⟨_, .last h1 h2, ?_⟩
      simpa using h3
  | cons q m1 ih =>
    intro ws t sp rect a b h
    obtain ⟨r', vs⟩ := q
    cases h with
    | next h1 h2 h3 =>
      obtain ⟨m, k1, k2⟩ := ih h3
      refine ⟨m, .next h1 h2 k1, ?_⟩
      rw [← List.foldl_append, ← List.foldl_append] at k2
      exact k2

theorem sections_run {α : Type} {f : α → Value → α} (hf : ∀ a r, f a (.textRectangle r) = a) (u : List Value) : ∀ a,
    ((sections u).1 ++ (sections u).2.flatMap Prod.snd).foldl f a = u.foldl f a := by
  induction u with
  | nil => intro a; rfl
  | cons v u ih =>
    intro a
    by_cases hv : ∃ q, v = .textRectangle q
    · obtain ⟨q, rfl⟩ := hv
      show ([] ++ ((sections u).1 ++ (sections u).2.flatMap Prod.snd)).foldl f a = _
      rw [List.nil_append, ih, List.foldl_cons, hf]
    · have hv' : ∀ q, v ≠ .textRectangle q := fun q e => hv ⟨q, e⟩
      rw [sections_cons hv', List.cons_append, List.foldl_cons, ih, List.foldl_cons]

theorem composed_upto {bg r} {u w : List Value} {t sp rect a b}
    (h : Composed d bg t sp rect (sections (u ++ .textRectangle r :: w)).1 (sections (u ++ .textRectangle r :: w)).2 a b) :
    ∃ m, Composed d bg t sp rect (sections u).1 (sections u).2 a m ∧
      Composed d bg (u.foldl (TextAttr.apply (signAttr d)) t) (u.foldl spacingAfter sp) (opened d r)
        (sections w).1 (sections w).2 m b := by
  rw [sections_upto] at h
  obtain ⟨m, h1, h2⟩ := composed_split _ h
  rw [sections_run (fun _ _ => rfl), sections_run (fun _ _ => rfl)] at h2
  exact ⟨m, h1, h2⟩

/-- the pixel is painted by one of the drawings -/
def CoverIn (d : Dms) (vs : List Value) : Prop :=
  ∀ i j, i < d.vmsCfg.signWidthPixels.toNat → j < d.vmsCfg.signHeightPixels.toNat → ∃ y ∈ vs, Hides d y i j

/-- what is drawn before does not matter -/
theorem composed_cover (hu : UniqueNumbers (fun g : Graphic => g.number.toNat) d.graphicDefinition)
    {bg t sp rect vs rest a b a' b'} (hc : CoverIn d vs)
    (hw : a.width = d.vmsCfg.signWidthPixels.toNat) (hh : a.height = d.vmsCfg.signHeightPixels.toNat)
    (hw' : a'.width = d.vmsCfg.signWidthPixels.toNat) (hh' : a'.height = d.vmsCfg.signHeightPixels.toNat)
    (ho : ∀ i j, OffSign d i j → a.px i j = a'.px i j) (hs : Sane d vs) (hz : ∀ w ∈ rest, ∀ pos, Value.graphic 0 pos ∉ w.2)
    (h : Composed d bg t sp rect vs rest a b) (h' : Composed d bg t sp rect vs rest a' b') : b = b' := by
  obtain ⟨g, u, a1, a2, a3⟩ := composed_tail h
  obtain ⟨g', u', c1, c2, c3⟩ := composed_tail h'
  obtain rfl : g = g' := by
    refine raster_ext (by rw [a1.width, c1.width, hw, hw']) (by rw [a1.height, c1.height, hh, hh']) fun i j => ?_
    by_cases hij : OffSign d i j
    · rw [graphicsOn_off hij hs.1 hu hs.2 hw hh a1, graphicsOn_off hij hs.1 hu hs.2 hw' hh' c1, ho i j hij]
    · have hij := Classical.not_not.1 hij
      obtain ⟨y, hy, hy'⟩ := hc i j hij.1 hij.2
      obtain ⟨o, k1, k2⟩ := a1.px i j
      obtain ⟨o', l1, l2⟩ := c1.px i j
      rw [hw, hh] at k1
      rw [hw', hh'] at l1
      obtain rfl := layered_unique hu hs.2 k1 l1
      have := layered_hidden hy hy' k1
      cases o with
      | none => exact absurd rfl this
      | some c => rw [k2, l2]; rfl
  obtain rfl := textDrawn_unique a2 c2
  exact tail_unique hu hz a3 c3

/-- only drawings hide pixels -/
theorem hides_drawing {y : Value} {i j} (h : Hides d y i j) : isDrawing y = true := by
  cases y <;> first | rfl | exact absurd rfl (h ⟨.legacy 0, .legacy 0⟩ none (.other (fun _ _ => nofun) fun _ _ => nofun))

theorem inSection_page {y : Value} (hy : isDrawing y = true) {S : List Value} (h : InSection y S) : ∀ {p ps},
    splitPages S = p :: ps → y ∈ (sections p).1 := by
  have hn : y ≠ .newPage := by rintro rfl; cases hy
  have hr : ∀ r, y ≠ .textRectangle r := by rintro r rfl; cases hy
  induction h with
  | here =>
    intro p ps e
    obtain ⟨q, qs, e1, e2⟩ := splitPages_cons (vs := _) hn
    rw [e2] at e
    cases e
    rw [sections_cons hr]
    exact List.mem_cons_self ..
  | later h1 h2 _ ih =>
    intro p ps e
    obtain ⟨q, qs, e1, e2⟩ := splitPages_cons (vs := _) h1
    rw [e2] at e
    cases e
    rw [sections_cons h2]
    exact List.mem_cons_of_mem _ (ih e1)

theorem covers_page {S p : List Value} {ps} (h : CoversSign d S) (e : splitPages S = p :: ps) : CoverIn d (sections p).1 := by
  intro i j hi hj
  obtain ⟨y, h1, h2⟩ := h i j hi hj
  exact ⟨y, inSection_page (hides_drawing h2) h1 e, h2⟩

/-! ### the pages before -/

/-- the values up to the page on which they end, and those of that page -/
theorem upto_page (A : List Value) : ∃ (P : List (List Value)) (a : List Value), (∀ v ∈ a, v ≠ .newPage) ∧
    (∀ Z, splitPages (A ++ Z) = P ++ splitPages (a ++ Z)) ∧
    (∀ Z, (∀ v ∈ Z, v ≠ .newPage) → spacingSince (A ++ Z) = (a ++ Z).foldl spacingAfter none) ∧
    (∀ {α : Type} {f : α → Value → α}, (∀ x, f x .newPage = x) → ∀ x, a.foldl f (P.flatten.foldl f x) = A.foldl f x) := by
  have plain : ∀ Z : List Value, (∀ v ∈ Z, v ≠ .newPage) → ∀ sp,
      Z.foldl (fun sp v => if v = .newPage then none else spacingAfter sp v) sp = Z.foldl spacingAfter sp := by
    intro Z
    induction Z with
    | nil => intro _ sp; rfl
    | cons v Z ih =>
      intro hZ sp
      rw [List.foldl_cons, List.foldl_cons, if_neg (hZ v (List.mem_cons_self ..)),
        ih fun w hw => hZ w (List.mem_cons_of_mem _ hw)]
  have key : ∀ B : List Value, ∃ (P : List (List Value)) (a : List Value), (∀ v ∈ a, v ≠ .newPage) ∧
    (∀ Z, splitPages (B.reverse ++ Z) = P ++ splitPages (a ++ Z)) ∧
    (∀ Z, (∀ v ∈ Z, v ≠ .newPage) → spacingSince (B.reverse ++ Z) = (a ++ Z).foldl spacingAfter none) ∧
    (∀ {α : Type} {f : α → Value → α}, (∀ x, f x .newPage = x) → ∀ x,
      a.foldl f (P.flatten.foldl f x) = B.reverse.foldl f x) := by
    intro B
    induction B with
    | nil => exact ⟨[], [], nofun, fun _ => rfl, fun Z hZ => plain Z hZ none, fun _ _ => rfl⟩
    | cons v B ih =>
      obtain ⟨P, a, h1, h2, h3, h4⟩ := ih
      by_cases hv : v = .newPage
      · subst hv
        refine ⟨splitPages B.reverse, [], nofun, fun Z => ?_, fun Z hZ => ?_, fun hf x => ?_⟩
        · simp only [List.reverse_cons, List.append_assoc, List.singleton_append, List.nil_append]
          exact splitPages_sequel _ _
        · unfold spacingSince
          simp only [List.reverse_cons, List.append_assoc, List.singleton_append, List.nil_append, List.foldl_append,
            List.foldl_cons, if_true]
          exact plain Z hZ none
        · rw [List.reverse_cons, List.foldl_append, splitPages_fold hf]
          simp [hf]
      · refine ⟨P, a ++ [v], ?_, fun Z => ?_, fun Z hZ => ?_, fun hf x => ?_⟩
        · intro w hw
          rcases List.mem_append.1 hw with hw | hw
          · exact h1 w hw
          · rw [List.mem_singleton.1 hw]; exact hv
        · rw [List.reverse_cons, List.append_assoc, h2, List.append_assoc]
        · rw [List.reverse_cons, List.append_assoc, List.append_assoc]
          refine h3 _ fun w hw => ?_
          rcases List.mem_append.1 hw with hw | hw
          · rw [List.mem_singleton.1 hw]; exact hv
          · exact hZ w hw
        · rw [List.reverse_cons, List.foldl_append, List.foldl_append, h4 hf]
  have := key A.reverse
  rwa [List.reverse_reverse] at this

theorem pictured_split {ps} : ∀ {qs t p zs}, Pictured d t p zs (ps ++ qs) → ∃ xs ys, zs = xs ++ ys ∧ Pictured d t p xs ps ∧
    Pictured d (ps.flatten.foldl (TextAttr.apply (signAttr d)) t)
      (pageTimes (signPage d).1 p.1 ps.flatten, background (signPage d).2 p.2 ps.flatten) ys qs := by
  induction ps with
  | nil => intro qs t p zs h; exact ⟨[], zs, rfl, rfl, h⟩
  | cons q ps ih =>
    intro qs t p zs h
    obtain ⟨raster, more, h1, rfl, h3⟩ := h
    obtain ⟨xs, ys, rfl, k1, k2⟩ := ih h3
    refine ⟨_, ys, ?_, ⟨raster, xs, h1, rfl, k1⟩, ?_⟩
    · simp only [List.cons_append, List.append_assoc]
    · rw [List.flatten_cons]
      unfold pageTimes background at k2 ⊢
      rw [List.foldl_append, List.foldl_append, List.foldl_append]
      exact k2

end Ntcip
