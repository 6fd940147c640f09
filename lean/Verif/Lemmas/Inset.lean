import Verif.Spec.Inset
import Verif.Lemmas.Wording
import Verif.Lemmas.Quiet
import Verif.Lemmas.Larger
import Verif.Lemmas.Move
/-
A message of a small sign on a larger one.
-/
namespace Ntcip
open Spec

variable {d : Dms} {W H : UInt16} {c : SignCfg}

/-! ### values -/

theorem explicit_apply (dflt a : TextAttr) (v : Value) : TextAttr.apply dflt a (explicit d v) = TextAttr.apply dflt a v := by
  cases v <;> rfl

theorem explicit_fold (dflt : TextAttr) (vs : List Value) : ∀ a,
    (vs.map (explicit d)).foldl (TextAttr.apply dflt) a = vs.foldl (TextAttr.apply dflt) a := by
  induction vs with
  | nil => intro a; rfl
  | cons v vs ih => intro a; rw [List.map_cons, List.foldl_cons, List.foldl_cons, explicit_apply, ih]

theorem explicit_spacing (vs : List Value) : ∀ a, (vs.map (explicit d)).foldl spacingAfter a = vs.foldl spacingAfter a := by
  induction vs with
  | nil => intro a; rfl
  | cons v vs ih =>
    intro a
    rw [List.map_cons, List.foldl_cons, List.foldl_cons, ih]
    cases v <;> rfl

theorem explicit_times (dflt : UInt8 × UInt8) (vs : List Value) : ∀ a,
    pageTimes dflt a (vs.map (explicit d)) = pageTimes dflt a vs := by
  unfold pageTimes
  induction vs with
  | nil => intro a; rfl
  | cons v vs ih =>
    intro a
    rw [List.map_cons, List.foldl_cons, List.foldl_cons, ih]
    cases v <;> rfl

theorem explicit_background (dflt : Color) (vs : List Value) : ∀ a,
    background dflt a (vs.map (explicit d)) = background dflt a vs := by
  unfold background
  induction vs with
  | nil => intro a; rfl
  | cons v vs ih =>
    intro a
    rw [List.map_cons, List.foldl_cons, List.foldl_cons, ih]
    cases v <;> rfl

theorem explicit_pieces (dflt : TextAttr) (vs : List Value) : ∀ a sp n b,
    pieces dflt a sp n b (vs.map (explicit d)) = pieces dflt a sp n b vs := by
  induction vs with
  | nil => intro a sp n b; rfl
  | cons v vs ih =>
    intro a sp n b
    rw [List.map_cons]
    unfold pieces
    rw [ih]
    cases v <;> rfl

theorem explicit_numbers (dflt : TextAttr) (vs : List Value) : ∀ a n b,
    numbers dflt a n b (vs.map (explicit d)) = numbers dflt a n b vs := by
  induction vs with
  | nil => intro a n b; rfl
  | cons v vs ih =>
    intro a n b
    rw [List.map_cons]
    unfold numbers
    rw [ih]
    cases v <;> rfl

theorem explicit_tidy (dflt : TextAttr) (vs : List Value) : ∀ a n b,
    Tidy dflt a n b (vs.map (explicit d)) ↔ Tidy dflt a n b vs := by
  induction vs with
  | nil => intro a n b; exact Iff.rfl
  | cons v vs ih =>
    intro a n b
    rw [List.map_cons]
    unfold Tidy
    rw [ih]
    cases v <;> rfl

theorem explicit_tag (v : Value) : (explicit d v).tag = v.tag := by cases v <;> rfl

/-- the sections, with sizes -/
def explicitSections (d : Dms) (more : List (Rectangle × List Value)) : List (Rectangle × List Value) :=
  more.map fun x => (opened d x.1, x.2.map (explicit d))

theorem sections_explicit (vs : List Value) :
    sections (vs.map (explicit d)) = ((sections vs).1.map (explicit d), explicitSections d (sections vs).2) := by
  induction vs with
  | nil => rfl
  | cons v vs ih =>
    rw [List.map_cons]
    cases v <;> simp [sections, explicit, ih, explicitSections]

theorem splitPages_framed (vs : List Value) : splitPages (framed d vs) =
    (splitPages vs).map fun p => .textRectangle (signRect d) :: p.map (explicit d) := by
  have ne : ∀ v : Value, v ≠ .newPage → explicit d v ≠ .newPage := by
    intro v hv
    cases v <;> simp [explicit] at hv ⊢
  suffices key : ∀ vs : List Value, ∃ p ps, splitPages vs = p :: ps ∧ splitPages (vs.flatMap fun v =>
      if v = .newPage then [.newPage, .textRectangle (signRect d)] else [explicit d v]) =
      p.map (explicit d) :: ps.map fun p => .textRectangle (signRect d) :: p.map (explicit d) by
    obtain ⟨p, ps, e1, e2⟩ := key vs
    unfold framed
    simp only [splitPages]
    rw [if_neg (by simp), e2, e1]
    rfl
  intro vs
  induction vs with
  | nil => exact ⟨[], [], rfl, rfl⟩
  | cons v vs ih =>
    obtain ⟨p, ps, e1, e2⟩ := ih
    by_cases hv : v = .newPage
    · subst hv
      refine ⟨[], p :: ps, by simp only [splitPages, if_true, e1], ?_⟩
      simp only [List.flatMap_cons, if_true, List.cons_append, List.nil_append, splitPages]
      rw [if_neg (by simp), e2]
      rfl
    · refine ⟨v :: p, ps, by simp only [splitPages]; rw [if_neg hv, e1], ?_⟩
      rw [List.flatMap_cons, if_neg hv]
      simp only [List.cons_append, List.nil_append, splitPages]
      rw [if_neg (ne v hv), e2]
      rfl

/-! ### rectangles -/

theorem opened_width {r : Rectangle} (h : extWidth r d.vmsCfg.signWidthPixels.toNat ≤ 65535) :
    (opened d r).width.toNat = extWidth r d.vmsCfg.signWidthPixels.toNat := by
  unfold opened
  simp only [UInt16.toNat_ofNat']
  omega

theorem opened_height {r : Rectangle} (h : extHeight r d.vmsCfg.signHeightPixels.toNat ≤ 65535) :
    (opened d r).height.toNat = extHeight r d.vmsCfg.signHeightPixels.toNat := by
  unfold opened
  simp only [UInt16.toNat_ofNat']
  omega

/-- a rectangle that is on the small sign, with its size there -/
theorem inside_opened {r : Rectangle} (h : InsideRect d.vmsCfg.signWidthPixels.toNat d.vmsCfg.signHeightPixels.toNat r)
    (hd : SizeOk d) : ∀ W H, extWidth (opened d r) W = extWidth r d.vmsCfg.signWidthPixels.toNat ∧
      extHeight (opened d r) H = extHeight r d.vmsCfg.signHeightPixels.toNat := by
  intro W H
  have h1 := h.right
  have h2 := h.bottom
  have h3 := hd.width
  have h4 := hd.height
  have e1 := opened_width (d := d) (r := r) (by omega)
  have e2 := opened_height (d := d) (r := r) (by omega)
  have h5 := h.width
  have h6 := h.height
  exact ⟨by rw [extWidth_set (by omega), e1], by rw [extHeight_set (by omega), e2]⟩

theorem inside_larger {r : Rectangle} (h : InsideRect d.vmsCfg.signWidthPixels.toNat d.vmsCfg.signHeightPixels.toNat r)
    (hd : SizeOk d) {W H : Nat} (hw : d.vmsCfg.signWidthPixels.toNat ≤ W) (hh : d.vmsCfg.signHeightPixels.toNat ≤ H) :
    InsideRect W H (opened d r) := by
  obtain ⟨e1, e2⟩ := inside_opened h hd W H
  obtain ⟨h1, h2, h3, h4, h5, h6⟩ := h
  refine ⟨h1, h2, by rw [e1]; exact h3, by rw [e2]; exact h4, ?_, ?_⟩
  · rw [e1]
    have : (opened d r).x = r.x := rfl
    rw [this]; omega
  · rw [e2]
    have : (opened d r).y = r.y := rfl
    rw [this]; omega

theorem textRect_inside {r : Rectangle} {w h : Nat} (k : TextRect d w h r) : InsideRect w h r :=
  ⟨k.x, k.y, k.width, k.height, k.right, k.bottom⟩

theorem textRect_larger {r : Rectangle} (h : TextRect d d.vmsCfg.signWidthPixels.toNat d.vmsCfg.signHeightPixels.toNat r)
    (hd : SizeOk d) (hw : d.vmsCfg.signWidthPixels.toNat ≤ W.toNat) (hh : d.vmsCfg.signHeightPixels.toNat ≤ H.toNat) :
    TextRect (resized d W H c) W.toNat H.toNat (opened d r) := by
  obtain ⟨e1, e2⟩ := inside_opened (textRect_inside h) hd W.toNat H.toNat
  obtain ⟨k1, k2, k3, k4, k5, k6⟩ := inside_larger (textRect_inside h) hd hw hh
  exact ⟨k1, k2, k3, k4, k5, k6, h.left_aligned, by rw [e1]; exact h.width_aligned, h.top_aligned,
    by rw [e2]; exact h.height_aligned⟩

theorem opened_opened {r : Rectangle} (h : InsideRect d.vmsCfg.signWidthPixels.toNat d.vmsCfg.signHeightPixels.toNat r)
    (hd : SizeOk d) : opened (resized d W H c) (opened d r) = opened d r := by
  obtain ⟨e1, e2⟩ := inside_opened h hd W.toNat H.toNat
  have : opened (resized d W H c) (opened d r) =
      ⟨r.x, r.y, .ofNat (extWidth (opened d r) W.toNat), .ofNat (extHeight (opened d r) H.toNat)⟩ := rfl
  rw [this, e1, e2]
  rfl

theorem rectFits_opened {r : Rectangle} (h : InsideRect d.vmsCfg.signWidthPixels.toNat d.vmsCfg.signHeightPixels.toNat r)
    (hd : SizeOk d) : RectFits (opened d r) := by
  have e1 := opened_width (d := d) (r := r) (by have := h.right; have := hd.width; omega)
  have e2 := opened_height (d := d) (r := r) (by have := h.bottom; have := hd.height; omega)
  have h1 := h.right
  have h2 := h.bottom
  have h3 := hd.width
  have h4 := hd.height
  have h5 := h.x
  have h6 := h.y
  refine ⟨?_, ?_⟩
  · rw [e1, show (opened d r).x = r.x from rfl]; omega
  · rw [e2, show (opened d r).y = r.y from rfl]; omega

theorem pixelIn_opened {r : Rectangle} (h : InsideRect d.vmsCfg.signWidthPixels.toNat d.vmsCfg.signHeightPixels.toNat r)
    (hd : SizeOk d) (W H i j : Nat) :
    PixelIn W H (opened d r) i j ↔ PixelIn d.vmsCfg.signWidthPixels.toNat d.vmsCfg.signHeightPixels.toNat r i j := by
  obtain ⟨e1, e2⟩ := inside_opened h hd W H
  unfold PixelIn
  rw [e1, e2]
  exact Iff.rfl

theorem pixelIn_sign {r : Rectangle} {w h i j : Nat} (k : InsideRect w h r) (hp : PixelIn w h r i j) : i < w ∧ j < h := by
  obtain ⟨h1, h2, h3, h4⟩ := hp
  have := k.right
  have := k.bottom
  have := k.x
  have := k.y
  omega

/-! ### graphics -/

/-- a color rectangle or graphic is inside of the sign -/
def FitsIn (d : Dms) : Value → Prop
  | .colorRectangle r _ => InsideRect d.vmsCfg.signWidthPixels.toNat d.vmsCfg.signHeightPixels.toNat r
  | .graphic n pos => ∀ g, GraphicOf d n pos g → (corner pos).1 + g.width.toNat ≤ d.vmsCfg.signWidthPixels.toNat ∧
      (corner pos).2 + g.height.toNat ≤ d.vmsCfg.signHeightPixels.toNat
  | _ => True

theorem graphic_found (hu : UniqueNumbers (fun g : Graphic => g.number.toNat) d.graphicDefinition) {n pos g}
    (h : GraphicOf d n pos g) (hn : n ≠ 0) : GraphicTable.graphic d.graphicDefinition n = some g := by
  obtain ⟨h1, h2, _⟩ := h
  have hne : g.number.toNat ≠ 0 := by
    intro e
    apply hn
    rw [← h2]
    exact UInt8.toNat_inj.1 e
  cases hf : GraphicTable.graphic d.graphicDefinition n with
  | none =>
    unfold GraphicTable.graphic at hf
    have := List.find?_eq_none.1 hf g h1
    simp [h2] at this
  | some g' =>
    unfold GraphicTable.graphic at hf
    have m := List.mem_of_find?_eq_some hf
    have e : g'.number = n := by simpa using List.find?_some hf
    obtain ⟨i, hi⟩ := List.getElem?_of_mem h1
    obtain ⟨j, hj⟩ := List.getElem?_of_mem m
    have := hu i j g g' hi hj hne (by show g.number.toNat = g'.number.toNat; rw [h2, e])
    subst this
    rw [hi] at hj
    exact hj.symm

theorem paint_fits (hu : UniqueNumbers (fun g : Graphic => g.number.toNat) d.graphicDefinition) {v : Value}
    (h0 : ∀ pos, v ≠ .graphic 0 pos) (h : ∀ z, ¬ paintStop d v z) : FitsIn d v := by
  have hp : ¬ PaintPanic d v := h .panic
  have hf : ∀ e, ¬ PaintFault d v e := fun e he => h (.error e) ⟨hp, he⟩
  cases v
  case colorRectangle r k =>
    refine Classical.byContradiction fun hn => ?_
    exact hf _ (.value rfl fun hv => hn hv.2)
  case graphic n pos =>
    intro g hg
    have hn : n ≠ 0 := fun e => h0 pos (by rw [e])
    have e := graphic_found hu hg hn
    refine Classical.byContradiction fun hno => ?_
    exact hf _ (.big e hg.2.2 (by omega))
  all_goals trivial

theorem layered_inset (hd : SizeOk d) {p vs i j o}
    (h : Layered d d.vmsCfg.signWidthPixels.toNat d.vmsCfg.signHeightPixels.toNat p vs i j o) :
    (∀ v ∈ vs, FitsIn d v) → Layered (resized d W H c) W.toNat H.toNat p (vs.map (explicit d)) i j o := by
  induction h with
  | nil => intro _; exact .nil
  | @cons p v vs i j o u hl _ ih =>
    intro hf
    have ih := ih fun w hw => hf w (List.mem_cons_of_mem _ hw)
    have hv := hf v (List.mem_cons_self ..)
    rw [List.map_cons]
    have hcol : Colors.apply d p v = Colors.apply (resized d W H c) p (explicit d v) := by cases v <;> rfl
    rw [hcol] at ih
    refine .cons ?_ ih
    cases hl with
    | rect h => exact .rect ((pixelIn_opened hv hd _ _ _ _).2 h)
    | offRect h => exact .offRect fun h' => h ((pixelIn_opened hv hd _ _ _ _).1 h')
    | graphic h1 h2 h3 => exact .graphic (d := resized d W H c) h1 h2 h3
    | offGraphic h1 h2 => exact .offGraphic (d := resized d W H c) h1 h2
    | other h1 h2 =>
      refine .other ?_ ?_
      · intro r k; cases v <;> simp [explicit] at h1 ⊢
      · intro n pos; cases v <;> simp [explicit] at h2 ⊢

theorem layered_outside (hd : SizeOk d) {p} {vs : List Value} {i j o}
    (ho : ¬ (i < d.vmsCfg.signWidthPixels.toNat ∧ j < d.vmsCfg.signHeightPixels.toNat))
    (hf : ∀ v ∈ vs, FitsIn d v) (h : Layered (resized d W H c) W.toNat H.toNat p (vs.map (explicit d)) i j o) : o = none := by
  induction vs generalizing p o with
  | nil => cases h; rfl
  | cons v vs ih =>
    have hv := hf v (List.mem_cons_self ..)
    rw [List.map_cons] at h
    cases h with
    | @cons _ _ _ _ _ o u hl hr =>
      rw [ih (fun w hw => hf w (List.mem_cons_of_mem _ hw)) hr, Option.none_or]
      generalize hw : explicit d v = w at hl
      cases hl with
      | @rect r k _ _ hp =>
        obtain ⟨r', rfl, rfl⟩ : ∃ r', v = .colorRectangle r' k ∧ r = opened d r' := by
          cases v <;> simp [explicit] at hw
          exact ⟨_, by rw [hw.2], hw.1.symm⟩
        exact absurd (pixelIn_sign hv ((pixelIn_opened hv hd _ _ _ _).1 hp)) ho
      | offRect _ => rfl
      | @graphic n pos g k _ _ h1 h2 h3 =>
        obtain rfl : v = .graphic n pos := by
          cases v <;> simp [explicit] at hw
          rw [hw.1, hw.2]
        have := hv g h1
        obtain ⟨k1, k2, k3, k4⟩ := h2
        exact absurd ⟨by omega, by omega⟩ ho
      | offGraphic _ _ => rfl
      | other _ _ => rfl

end Ntcip
