import Verif.Lemmas.Inset
import Verif.Props.Sequel
/-
C101: a message of a small sign on a part of a larger one.
-/
namespace Ntcip
open Spec Tests

variable {d : Dms} {W H : UInt16} {c : SignCfg}

/-! ### checks -/

theorem valueOk_inset {v : Value} (hd : SizeOk d) (hw : d.vmsCfg.signWidthPixels.toNat ≤ W.toNat)
    (hh : d.vmsCfg.signHeightPixels.toNat ≤ H.toNat) (h : ValueOk d v) : ValueOk (resized d W H c) (explicit d v) := by
  cases v
  case colorRectangle r k => exact ⟨h.1, inside_larger h.2 hd hw hh⟩
  case textRectangle r => exact ⟨h.1, textRect_larger h.2 hd hw hh⟩
  case graphic n pos =>
    obtain ⟨h1, g, h2, h3, h4⟩ := h
    exact ⟨h1, g, h2, Nat.le_trans h3 hw, Nat.le_trans h4 hh⟩
  case justificationLine j => cases j <;> exact h
  case justificationPage j => cases j <;> exact h
  case newLine n => cases n <;> exact h
  all_goals exact h

theorem textStops_inset (rect : Rectangle) (spans : List Span) :
    textStops (resized d W H c) rect spans = textStops d rect spans := by
  have h1 : SpanFontFault (resized d W H c) = SpanFontFault d := by
    funext s e
    refine propext ⟨fun h => ?_, fun h => ?_⟩
    · cases h with
      | missing h => exact .missing h
      | version h1 h2 h3 => exact .version h1 h2 h3
    · cases h with
      | missing h => exact .missing (d := resized d W H c) h
      | version h1 h2 h3 => exact .version (d := resized d W H c) h1 h2 h3
  have h2 : GlyphFault (resized d W H c) = GlyphFault d := by
    funext s e
    refine propext ⟨fun h => ?_, fun h => ?_⟩
    · cases h with
      | font h => rw [h1] at h; exact .font h
      | character h1 h2 h3 h4 => exact .character h1 h2 h3 h4
    · cases h with
      | font h => rw [← h1] at h; exact .font h
      | character h1 h2 h3 h4 => exact .character (d := resized d W H c) h1 h2 h3 h4
  have h3 : spanStops (resized d W H c) rect spans = spanStops d rect spans := by
    funext s
    unfold spanStops spanChecks
    rw [h1, h2]
    rfl
  unfold textStops
  rw [h3]

theorem background_inset {v : Value} (h : ∀ z, ¬ errors (BackgroundFault d v) z) :
    ∀ z, ¬ errors (BackgroundFault (resized d W H c) (explicit d v)) z := by
  rintro (e | _) hz
  · apply h (.error e)
    generalize hw : explicit d v = w at hz
    cases (hz : BackgroundFault _ w e) with
    | cb hz =>
      cases v <;> simp [explicit] at hw
      subst hw
      exact .cb hz
    | pb hz =>
      cases v <;> simp [explicit] at hw
      subst hw
      exact .pb hz
  · exact hz

theorem paint_inset {v : Value} (hd : SizeOk d) (hw : d.vmsCfg.signWidthPixels.toNat ≤ W.toNat)
    (hh : d.vmsCfg.signHeightPixels.toNat ≤ H.toNat) (hf : FitsIn d v) (h : ∀ z, ¬ paintStop d v z) :
    ∀ z, ¬ paintStop (resized d W H c) (explicit d v) z := by
  have hp : ¬ PaintPanic d v := h .panic
  have hq : ∀ e, ¬ PaintFault d v e := fun e he => h (.error e) ⟨hp, he⟩
  have hiso : isPaint (explicit d v) = isPaint v := by cases v <;> rfl
  rintro (e | _) hz
  · have hz := (hz : _ ∧ PaintFault _ _ e).2
    generalize hx : explicit d v = w at hz
    cases hz with
    | value h1 h2 =>
      rw [← hx] at h1 h2
      rw [hiso] at h1
      refine h2 (valueOk_inset hd hw hh ?_)
      exact Classical.byContradiction fun hn => hq _ (.value h1 hn)
    | missing h1 =>
      cases v <;> simp [explicit] at hx
      obtain ⟨rfl, rfl⟩ := hx
      exact hq _ (.missing h1)
    | version h1 h2 =>
      cases v <;> simp [explicit] at hx
      obtain ⟨rfl, rfl⟩ := hx
      exact hq _ (.version h1 h2)
    | big h1 h2 h3 =>
      cases v <;> simp [explicit] at hx
      obtain ⟨rfl, rfl⟩ := hx
      exact hq _ (.big h1 h2 (h3.imp (Nat.lt_of_le_of_lt hw) (Nat.lt_of_le_of_lt hh)))
  · rcases (hz : PaintPanic _ _) with hz | ⟨r, k, e, _, h2⟩
    · refine hp (.inl ?_)
      cases v <;> first | exact hz | cases hz
    · cases v <;> simp [explicit] at e
      obtain ⟨rfl, rfl⟩ := e
      exact h2 (rectFits_opened hf hd)

theorem layout_inset {v : Value} (hd : SizeOk d) (hw : d.vmsCfg.signWidthPixels.toNat ≤ W.toNat)
    (hh : d.vmsCfg.signHeightPixels.toNat ≤ H.toNat) (h : ∀ z, ¬ errors (LayoutFault d v) z) :
    ∀ z, ¬ errors (LayoutFault (resized d W H c) (explicit d v)) z := by
  have hiso : isLayout (explicit d v) = isLayout v := by cases v <;> rfl
  rintro (e | _) hz
  · obtain ⟨h1, h2, _⟩ := (hz : LayoutFault _ _ e)
    rw [hiso] at h1
    refine h2 (valueOk_inset hd hw hh ?_)
    exact Classical.byContradiction fun hn => h (.error _) ⟨h1, hn, rfl⟩
  · exact hz

/-- the rectangle of a silent text rectangle tag -/
theorem next_ok {r : Rectangle} (h : ∀ z, ¬ nextStop d r z) :
    RectFits r ∧ TextRect d d.vmsCfg.signWidthPixels.toNat d.vmsCfg.signHeightPixels.toNat r := by
  have hp : RectFits r := Classical.byContradiction fun hn => h .panic hn
  refine ⟨hp, ?_⟩
  exact (Classical.byContradiction fun hn => h (.error _) ⟨fun hn' => hn' hp, rfl, hn, rfl⟩ :
    ValueOk d (.textRectangle r)).2

theorem next_inset {r : Rectangle} (hf : RectFits r)
    (h : TextRect d d.vmsCfg.signWidthPixels.toNat d.vmsCfg.signHeightPixels.toNat r) : ∀ z, ¬ nextStop d r z := by
  rintro (e | _) hz
  · exact (hz : _ ∧ LayoutFault _ _ e).2.2.1 ⟨fun c hc => by simp [tagColor] at hc, h⟩
  · exact hz hf

/-- all rectangles and graphics of the sections are on the sign -/
def GoodSections (d : Dms) (ws : List Value) (more : List (Rectangle × List Value)) : Prop :=
  (∀ v ∈ ws, FitsIn d v) ∧ ∀ x ∈ more,
    InsideRect d.vmsCfg.signWidthPixels.toNat d.vmsCfg.signHeightPixels.toNat x.1 ∧ ∀ v ∈ x.2, FitsIn d v

theorem good_of_silent (hu : UniqueNumbers (fun g : Graphic => g.number.toNat) d.graphicDefinition) : ∀ {more n t sp rect ws},
    Silent (rectsStops d n t sp rect ws more) → (∀ v ∈ ws, ∀ pos, v ≠ .graphic 0 pos) →
    (∀ x ∈ more, ∀ v ∈ x.2, ∀ pos, v ≠ .graphic 0 pos) → GoodSections d ws more := by
  intro more
  induction more with
  | nil =>
    intro n t sp rect ws h h0 _
    unfold rectsStops rectStops at h
    simp only [silent_append, silent_map] at h
    exact ⟨fun v hv => paint_fits hu (h0 v hv) (h.1.1 v hv), by simp⟩
  | cons x more ih =>
    intro n t sp rect ws h h0 h1
    obtain ⟨r, us⟩ := x
    unfold rectsStops rectStops at h
    simp only [silent_append, silent_map, silent_cons] at h
    obtain ⟨⟨k1, k2, k3, k4⟩, k5, k6⟩ := h
    obtain ⟨i1, i2⟩ := ih k6 (h1 _ (List.mem_cons_self ..)) fun x hx => h1 x (List.mem_cons_of_mem _ hx)
    refine ⟨fun v hv => paint_fits hu (h0 v hv) (k1 v hv), fun x hx => ?_⟩
    rcases List.mem_cons.1 hx with rfl | hx
    · exact ⟨textRect_inside (next_ok (k3 r (by simp))).2, i1⟩
    · exact i2 x hx

theorem rectStops_inset {t sp rect ws next} (hd : SizeOk d) (hw : d.vmsCfg.signWidthPixels.toNat ≤ W.toNat)
    (hh : d.vmsCfg.signHeightPixels.toNat ≤ H.toNat) (hf : ∀ v ∈ ws, FitsIn d v)
    (h : Silent (rectStops d t sp rect ws next)) :
    Silent (rectStops (resized d W H c) t sp rect (ws.map (explicit d)) (next.map (opened d))) := by
  unfold rectStops at h ⊢
  simp only [silent_append, silent_map] at h ⊢
  obtain ⟨h1, h2, h3, h4⟩ := h
  refine ⟨?_, ?_, ?_, ?_⟩
  · intro v hv
    obtain ⟨u, hu, rfl⟩ := List.mem_map.1 hv
    exact paint_inset hd hw hh (hf u hu) (h1 u hu)
  · intro v hv
    obtain ⟨u, hu, rfl⟩ := List.mem_map.1 hv
    exact layout_inset hd hw hh (h2 u hu)
  · intro r hr
    cases next with
    | none => simp at hr
    | some r' =>
      simp only [Option.map_some, Option.toList_some, List.mem_singleton] at hr
      subst hr
      have := next_ok (h3 r' (by simp))
      exact next_inset (rectFits_opened (textRect_inside this.2) hd) (textRect_larger this.2 hd hw hh)
  · have e : layoutOf (resized d W H c) t sp rect (ws.map (explicit d)) = layoutOf d t sp rect ws := by
      unfold layoutOf
      rw [show signAttr (resized d W H c) = signAttr d from rfl, explicit_pieces]
      rfl
    rw [e, textStops_inset]
    exact h4

theorem silent_inset (hd : SizeOk d) (hw : d.vmsCfg.signWidthPixels.toNat ≤ W.toNat)
    (hh : d.vmsCfg.signHeightPixels.toNat ≤ H.toNat) : ∀ {more n t sp rect ws},
    Silent (rectsStops d n t sp rect ws more) → GoodSections d ws more → n + more.length ≤ 49 →
    Silent (rectsStops (resized d W H c) (n + 1) t sp rect (ws.map (explicit d)) (explicitSections d more)) := by
  have hcount : ∀ m, m ≤ 50 → ∀ z, ¬ errors (CountFault m) z := by
    rintro m hm (e | _) hz
    · have := (hz : CountFault m e).1
      omega
    · exact hz
  intro more
  induction more with
  | nil =>
    intro n t sp rect ws h hg hn
    unfold explicitSections
    simp only [List.map_nil]
    unfold rectsStops at h ⊢
    rw [silent_append] at h ⊢
    refine ⟨rectStops_inset hd hw hh hg.1 h.1, ?_⟩
    rw [silent_cons]
    exact ⟨hcount _ (by simp at hn; omega), by simp [Silent]⟩
  | cons x more ih =>
    intro n t sp rect ws h hg hn
    obtain ⟨r, us⟩ := x
    obtain ⟨i1, i2⟩ := hg.2 _ (List.mem_cons_self ..)
    unfold explicitSections
    simp only [List.map_cons]
    unfold rectsStops at h ⊢
    rw [silent_append, silent_cons] at h ⊢
    rw [List.length_cons] at hn
    refine ⟨rectStops_inset hd hw hh hg.1 h.1, hcount _ (by omega), ?_⟩
    rw [explicit_spacing, show signAttr (resized d W H c) = signAttr d from rfl, explicit_fold, opened_opened i1 hd]
    exact ih h.2.2 ⟨i2, fun x hx => hg.2 x (List.mem_cons_of_mem _ hx)⟩ (by omega)

/-! ### pixels -/

theorem textDrawn_explicit {t sp rect vs a b} (h : TextDrawn (resized d W H c) t sp rect (vs.map (explicit d)) a b) :
    TextDrawn d t sp rect vs a b := by
  unfold TextDrawn at h ⊢
  rw [show signAttr (resized d W H c) = signAttr d from rfl, explicit_pieces, explicit_numbers, explicit_tidy] at h
  exact h

theorem pairwise2_same (vs : List Value) : Pairwise2 (Reduced []) vs vs := by
  induction vs with
  | nil => exact .nil
  | cons v vs ih => exact .cons .same ih

theorem textDrawn_same {t sp rect vs a a' b b'} {i j : Nat} (h : TextDrawn d t sp rect vs a b)
    (h' : TextDrawn d t sp rect vs a' b') (ha : a'.px i j = a.px i j) : b'.px i j = b.px i j := by
  refine (textDrawn_reworded h h' (pairwise2_same vs) ?_ ha.symm).symm
  rintro ⟨_, k, s, s', h1, h2, h3, _⟩
  rw [h1] at h2
  cases h2
  exact h3 rfl

theorem textDrawn_off {t sp rect vs a b} {i j : Nat} (hc : CellHeights d) (h : TextDrawn d t sp rect vs a b) {w h' : Nat}
    (hr : rect.x.toNat - 1 + rect.width.toNat ≤ w ∧ rect.y.toNat - 1 + rect.height.toNat ≤ h') (ho : ¬ (i < w ∧ j < h')) :
    b.px i j = a.px i j := by
  obtain ⟨ps, _, _, _, _, _, _, k⟩ := h
  refine Classical.byContradiction fun hne => ?_
  obtain ⟨⟨k1, k2, k3, k4⟩, _⟩ := (k fun _ => cellFonts_all hc _).px i j hne
  omega

theorem composed_inset (hd : SizeOk d) (hc : CellHeights d)
    (hu : UniqueNumbers (fun g : Graphic => g.number.toNat) d.graphicDefinition) {bg t sp rect ws more a b}
    (h : Composed d bg t sp rect ws more a b) : ∀ {a' b'} {col : Rgb},
    Composed (resized d W H c) bg t sp rect (ws.map (explicit d)) (explicitSections d more) a' b' →
    GoodSections d ws more → (∀ v ∈ ws, ∀ pos, v ≠ .graphic 0 pos) → (∀ x ∈ more, ∀ v ∈ x.2, ∀ pos, v ≠ .graphic 0 pos) →
    rect.x.toNat - 1 + rect.width.toNat ≤ d.vmsCfg.signWidthPixels.toNat ∧
      rect.y.toNat - 1 + rect.height.toNat ≤ d.vmsCfg.signHeightPixels.toNat →
    a.width = d.vmsCfg.signWidthPixels.toNat → a.height = d.vmsCfg.signHeightPixels.toNat →
    InCorner W.toNat H.toNat col a a' → InCorner W.toNat H.toNat col b b' := by
  -- graphics and texts of one section
  have one : ∀ {t : TextAttr} {sp rect ws a a' g g' u u'} {col : Rgb}, GraphicsOn d ⟨t.foreground, bg⟩ ws a g →
      TextDrawn d t sp rect ws g u → GraphicsOn (resized d W H c) ⟨t.foreground, bg⟩ (ws.map (explicit d)) a' g' →
      TextDrawn (resized d W H c) t sp rect (ws.map (explicit d)) g' u' → (∀ v ∈ ws, FitsIn d v) →
      (∀ v ∈ ws, ∀ pos, v ≠ .graphic 0 pos) →
      rect.x.toNat - 1 + rect.width.toNat ≤ d.vmsCfg.signWidthPixels.toNat ∧
        rect.y.toNat - 1 + rect.height.toNat ≤ d.vmsCfg.signHeightPixels.toNat →
      a.width = d.vmsCfg.signWidthPixels.toNat → a.height = d.vmsCfg.signHeightPixels.toNat →
      InCorner W.toNat H.toNat col a a' →
      InCorner W.toNat H.toNat col u u' ∧ u.width = a.width ∧ u.height = a.height := by
    intro t sp rect ws a a' g g' u u' col h1 h2 h3 h4 hf h0 hr hw hh hi
    have h4 := textDrawn_explicit h4
    have s1 := h1.width
    have s2 := h1.height
    have s3 := h3.width
    have s4 := h3.height
    have s5 : u.width = g.width ∧ u.height = g.height := by
      obtain ⟨ps, _, _, _, _, k, _⟩ := h2
      exact ⟨k.width, k.height⟩
    have s6 : u'.width = g'.width ∧ u'.height = g'.height := by
      obtain ⟨ps, _, _, _, _, k, _⟩ := h4
      exact ⟨k.width, k.height⟩
    refine ⟨⟨by rw [s6.1, s3, hi.width], by rw [s6.2, s4, hi.height], ?_, ?_⟩, by rw [s5.1, s1], by rw [s5.2, s2]⟩
    · intro i j hi1 hj1
      refine textDrawn_same h2 h4 ?_
      obtain ⟨o, ho, e⟩ := h1.px i j
      obtain ⟨o', ho', e'⟩ := h3.px i j
      rw [hi.width, hi.height] at ho'
      rw [hw, hh] at ho
      have h0' : ∀ pos, Value.graphic 0 pos ∉ ws.map (explicit d) := by
        intro pos hm
        obtain ⟨v, hv, e⟩ := List.mem_map.1 hm
        cases v <;> simp [explicit] at e
        obtain ⟨rfl, rfl⟩ := e
        exact h0 _ hv _ rfl
      have := layered_unique (d := resized d W H c) hu h0' (layered_inset hd ho hf) ho'
      rw [e, e', ← this, hi.inside i j (by omega) (by omega)]
    · intro i j ho
      have ho : ¬ (i < d.vmsCfg.signWidthPixels.toNat ∧ j < d.vmsCfg.signHeightPixels.toNat) := by
        rw [s5.1, s5.2, s1, s2, hw, hh] at ho; exact ho
      rw [textDrawn_off hc h4 hr ho]
      obtain ⟨o', ho', e'⟩ := h3.px i j
      rw [hi.width, hi.height] at ho'
      rw [e', layered_outside hd ho hf ho', Option.getD_none]
      exact hi.outside i j (by rw [hw, hh]; exact ho)
  induction h with
  | last h1 h2 =>
    intro a' b' col h' hg h0 _ hr hw hh hi
    cases h' with
    | last h3 h4 => exact (one h1 h2 h3 h4 hg.1 h0 hr hw hh hi).1
  | @next t sp rect ws r us rest a g u b h1 h2 _ ih =>
    intro a' b' col h' hg h0 h0' hr hw hh hi
    obtain ⟨i1, i2⟩ := hg.2 _ (List.mem_cons_self ..)
    unfold explicitSections at h'
    simp only [List.map_cons] at h'
    cases h' with
    | next h3 h4 h5 =>
      have i1 : InsideRect d.vmsCfg.signWidthPixels.toNat d.vmsCfg.signHeightPixels.toNat r := i1
      obtain ⟨k1, k2, k3⟩ := one h1 h2 h3 h4 hg.1 h0 hr hw hh hi
      rw [explicit_spacing, show signAttr (resized d W H c) = signAttr d from rfl, explicit_fold, opened_opened i1 hd] at h5
      refine ih h5 ⟨i2, fun x hx => hg.2 x (List.mem_cons_of_mem _ hx)⟩ (h0' _ (List.mem_cons_self ..))
        (fun x hx => h0' x (List.mem_cons_of_mem _ hx)) ?_ (by rw [k2, hw]) (by rw [k3, hh]) k1
      have e1 := opened_width (d := d) (r := r) (by have := i1.right; have := hd.width; omega)
      have e2 := opened_height (d := d) (r := r) (by have := i1.bottom; have := hd.height; omega)
      rw [e1, e2]
      have := i1.right
      have := i1.bottom
      have := i1.x
      have := i1.y
      rw [show (opened d r).x = r.x from rfl, show (opened d r).y = r.y from rfl]
      constructor <;> omega

/-! ### pages -/

theorem opened_signRect (h1 : 1 ≤ d.vmsCfg.signWidthPixels.toNat) (h2 : 1 ≤ d.vmsCfg.signHeightPixels.toNat) :
    opened (resized d W H c) (signRect d) = signRect d := by
  unfold opened
  rw [extWidth_set (show 0 < (signRect d).width.toNat from h1), extHeight_set (show 0 < (signRect d).height.toNat from h2)]
  simp

/-- without values, nothing changes -/
theorem noValues {p t sp rect a g u} (hg : GraphicsOn d p [] a g) (ht : TextDrawn d t sp rect [] g u) :
    u.width = a.width ∧ u.height = a.height ∧ ∀ i j, u.px i j = a.px i j := by
  obtain ⟨ps, h1, _, _, _, h2, _, h3⟩ := ht
  have hn : ps.map Prod.fst = [] := List.map_eq_nil_iff.1 h1
  refine ⟨by rw [h2.width, hg.width], by rw [h2.height, hg.height], fun i j => ?_⟩
  have e1 : g.px i j = a.px i j := by
    obtain ⟨o, ho, e⟩ := hg.px i j
    cases ho
    exact e
  rw [← e1]
  refine Classical.byContradiction fun hne => ?_
  obtain ⟨_, s, hs, _⟩ := (h3 fun ⟨s, hs, _⟩ => by rw [hn] at hs; cases hs).px i j hne
  rw [hn] at hs
  cases hs

theorem lastRect_inset (hd : SizeOk d) : ∀ {more rect},
    (∀ x ∈ more, InsideRect d.vmsCfg.signWidthPixels.toNat d.vmsCfg.signHeightPixels.toNat x.1) →
    lastRect (resized d W H c) rect (explicitSections d more) = lastRect d rect more := by
  intro more
  induction more with
  | nil => intro rect _; rfl
  | cons x more ih =>
    intro rect h
    obtain ⟨r, us⟩ := x
    unfold explicitSections
    simp only [List.map_cons, lastRect]
    rw [opened_opened (h _ (List.mem_cons_self ..)) hd]
    exact ih fun x hx => h x (List.mem_cons_of_mem _ hx)

/-- a page with the text rectangle of the small sign, and the sections of it -/
theorem sections_framedPage (p : List Value) : sections (.textRectangle (signRect d) :: p.map (explicit d)) =
    ([], (signRect d, (sections p).1.map (explicit d)) :: explicitSections d (sections p).2) := by
  simp [sections, sections_explicit]

theorem pageStops_inset {t p} (hd : SizeOk d) (hw : d.vmsCfg.signWidthPixels.toNat ≤ W.toNat)
    (hh : d.vmsCfg.signHeightPixels.toNat ≤ H.toNat) (h1 : 1 ≤ d.vmsCfg.signWidthPixels.toNat)
    (h2 : 1 ≤ d.vmsCfg.signHeightPixels.toNat)
    (hr : TextRect (resized d W H c) W.toNat H.toNat (signRect d))
    (h : Silent (pageStops d t p)) (hg : GoodSections d (sections p).1 (sections p).2) (hn : (sections p).2.length ≤ 48) :
    Silent (pageStops (resized d W H c) t (.textRectangle (signRect d) :: p.map (explicit d))) := by
  unfold pageStops at h ⊢
  rw [silent_append, silent_map] at h ⊢
  refine ⟨?_, ?_⟩
  · intro v hv
    rcases List.mem_cons.1 hv with rfl | hv
    · rintro (e | _) hz
      · cases (hz : BackgroundFault _ _ e)
      · exact hz
    · obtain ⟨u, hu, rfl⟩ := List.mem_map.1 hv
      exact background_inset (h.1 u hu)
  · rw [sections_framedPage]
    unfold rectsStops
    rw [silent_append, silent_cons]
    refine ⟨?_, ?_, ?_⟩
    · unfold rectStops
      simp only [List.map_nil, List.nil_append, silent_append, silent_map]
      refine ⟨?_, ?_⟩
      · intro r hm
        simp only [Option.toList_some, List.mem_singleton] at hm
        subst hm
        refine next_inset ⟨?_, ?_⟩ hr
        · have := hd.width; show 1 + d.vmsCfg.signWidthPixels.toNat ≤ _; omega
        · have := hd.height; show 1 + d.vmsCfg.signHeightPixels.toNat ≤ _; omega
      · unfold layoutOf textStops
        simp only [pieces, List.map_nil, List.flatMap_nil, silent_cons]
        refine ⟨?_, by simp [Silent]⟩
        rintro (e | _) hz
        · obtain ⟨_, i, a, b, hz, _⟩ := (hz : ConflictFault _ e)
          simp at hz
        · exact hz
    · rintro (e | _) hz
      · have := (hz : CountFault _ e).1
        omega
      · exact hz
    · rw [opened_signRect h1 h2]
      exact silent_inset hd hw hh h.2 hg (by omega)

/-! ### the property -/

theorem graphic_zero {ss : List Str} {vs : List Value} (hv : Parses ss vs) (hi : ∀ s ∈ ss, Item s) :
    ∀ v ∈ vs, ∀ pos, v ≠ .graphic 0 pos := by
  rintro v hm pos rfl
  have := (parses_inRange hv hi _ hm).1
  simp at this

theorem inset_pages (hd : SizeOk d) (hc : CellHeights d)
    (hu : UniqueNumbers (fun g : Graphic => g.number.toNat) d.graphicDefinition)
    (h1 : 1 ≤ d.vmsCfg.signWidthPixels.toNat) (h2 : 1 ≤ d.vmsCfg.signHeightPixels.toNat) : ∀ {ps t p xs ys}, PagesQuiet d t ps → Pictured d t p xs ps →
    (∀ q ∈ ps, ∀ v ∈ q, ∀ pos, v ≠ .graphic 0 pos) →
    Pictured (resized d W H c) t p ys (ps.map fun q => .textRectangle (signRect d) :: q.map (explicit d)) →
    Inset d W.toNat H.toNat p.2 ps xs ys := by
  intro ps
  induction ps with
  | nil =>
    intro t p xs ys _ hx _ hy
    unfold Pictured at hx
    rw [List.map_nil] at hy
    unfold Pictured at hy
    subst hx
    subst hy
    exact .nil
  | cons q ps ih =>
    intro t p xs ys hq hx h0 hy
    obtain ⟨q1, q2⟩ := hq
    rw [List.map_cons] at hy
    unfold Pictured at hx hy
    obtain ⟨a, more, x1, rfl, x3⟩ := hx
    obtain ⟨b, more', y1, rfl, y3⟩ := hy
    have e1 : ∀ cur, pageTimes (signPage (resized d W H c)).1 cur (.textRectangle (signRect d) :: q.map (explicit d)) =
        pageTimes (signPage d).1 cur q := by
      intro cur
      rw [← explicit_times (d := d) _ q]
      rfl
    have e2 : ∀ cur, background (signPage (resized d W H c)).2 cur (.textRectangle (signRect d) :: q.map (explicit d)) =
        background (signPage d).2 cur q := by
      intro cur
      rw [← explicit_background (d := d) _ q]
      rfl
    have e3 : (Value.textRectangle (signRect d) :: q.map (explicit d)).foldl (TextAttr.apply (signAttr (resized d W H c))) t =
        q.foldl (TextAttr.apply (signAttr d)) t := by
      rw [← explicit_fold (d := d) _ q]
      rfl
    rw [e2, sections_framedPage] at y1
    rw [e1, e2, e3] at y3
    rw [e1, e2, sections_framedPage]
    have hz := sections_all (P := fun v => ∀ pos, v ≠ .graphic 0 pos) (h0 q (List.mem_cons_self ..))
    have hg : GoodSections d (sections q).1 (sections q).2 :=
      good_of_silent hu (silent_append.1 q1).2 hz.1 hz.2
    have el : lastRect (resized d W H c) (signRect (resized d W H c))
        ((signRect d, (sections q).1.map (explicit d)) :: explicitSections d (sections q).2) =
        lastRect d (signRect d) (sections q).2 := by
      rw [show lastRect (resized d W H c) (signRect (resized d W H c))
        ((signRect d, (sections q).1.map (explicit d)) :: explicitSections d (sections q).2) =
        lastRect (resized d W H c) (opened (resized d W H c) (signRect d)) (explicitSections d (sections q).2) from rfl,
        opened_signRect h1 h2]
      exact lastRect_inset hd fun x hx => (hg.2 x hx).1
    rw [el]
    refine .page rfl ?_ ?_ (ih q2 x3 (fun q hq => h0 q (List.mem_cons_of_mem _ hq)) y3)
    · -- nothing comes before the text rectangle
      cases y1 with
      | next g1 t1 c1 =>
        rw [opened_signRect h1 h2] at c1
        refine composed_inset hd hc hu x1 c1 hg hz.1 hz.2 ?_ rfl rfl ?_
        · constructor
          · show (1 : UInt16).toNat - 1 + _ ≤ _; simp
          · show (1 : UInt16).toNat - 1 + _ ≤ _; simp
        · obtain ⟨n1, n2, n3⟩ := noValues g1 t1
          exact ⟨n1, n2, fun i j _ _ => (n3 i j).trans rfl, fun i j _ => (n3 i j).trans rfl⟩
    · intro o ho
      split at ho
      · rw [List.mem_singleton] at ho
        rw [ho]
      · simp at ho

/-- **C101** let a message be shown on a sign whose fonts fit into its lines, and let each of its pages have at most 48
text rectangles.  On a larger sign which differs in its size only, the message that has, for the sign of before, a text
rectangle at the beginning of each page (the sizes being given where they were left open) is shown too: each page is in
the upper left corner, with the background color elsewhere, for the same time. -/
theorem C101_inset (d : Dms) (hd : SizeOk d) (hok : SignOk d) (hf : FontsOk d.fontDefinition) (Wg Hg : Nat)
    (hg : GraphicsOk Wg Hg d.graphicDefinition) (hc : CellHeights d) (W H : UInt16) (c : SignCfg) (hW : W.toNat < 65535)
    (hH : H.toNat < 65535) (hr : TextRect (resized d W H c) W.toNat H.toNat (signRect d))
    (h1 : 1 ≤ d.vmsCfg.signWidthPixels.toNat) (h2 : 1 ≤ d.vmsCfg.signHeightPixels.toNat)
    (ht : d.multiCfg.supportedMultiTags .tr = true) (ms ms' : Str) (hs : SizesOk d ms) (hs' : SizesOk d ms')
    (vs : List Value) (hv : Parses (slices ms) vs) (hv' : Parses (slices ms') (framed d vs))
    (hn : ∀ p ∈ splitPages vs, (sections p).2.length ≤ 48) (xs) (hx : ShownAs d ms xs) :
    ∃ ys, ShownAs (resized d W H c) ms' ys ∧ Inset d W.toNat H.toNat (signPage d).2 (splitPages vs) xs ys := by
  obtain ⟨⟨x1, x2⟩, x3⟩ := (shown_iff d hd hok hf Wg Hg hg ms hs hv xs).1 hx
  have hw : d.vmsCfg.signWidthPixels.toNat ≤ W.toNat := by
    have := hr.right
    rw [extWidth_set (show 0 < (signRect d).width.toNat from h1)] at this
    exact Nat.le_trans (Nat.le_add_left _ _) this
  have hh : d.vmsCfg.signHeightPixels.toNat ≤ H.toNat := by
    have := hr.bottom
    rw [extHeight_set (show 0 < (signRect d).height.toNat from h2)] at this
    exact Nat.le_trans (Nat.le_add_left _ _) this
  have hd' : SizeOk (resized d W H c) := ⟨hW, hH, fun h => by
    have : W.toNat = 0 := h.1
    omega⟩
  have hok' : SignOk (resized d W H c) := ⟨hW, hH, hok.font, hok.justPage, hok.justLine, hok.fonts, fun g hm h0 => by
    obtain ⟨k1, k2, k3, k4⟩ := hok.graphics g hm h0
    exact ⟨⟨k1.1, Nat.le_trans k1.2 hh⟩, ⟨k2.1, Nat.le_trans k2.2 hw⟩, k3, k4⟩⟩
  have h0 := graphic_zero hv (slices_items ms)
  have h0' : ∀ q ∈ splitPages vs, ∀ v ∈ q, ∀ pos, v ≠ .graphic 0 pos := fun q hq v hm => h0 v (splitPages_mem q hq v hm)
  -- the tags
  have ht' : TagsOk (resized d W H c) (framed d vs) := by
    intro v hm t e
    unfold framed at hm
    rcases List.mem_cons.1 hm with rfl | hm
    · cases e
      exact ht
    · obtain ⟨u, hu, hm⟩ := List.mem_flatMap.1 hm
      split at hm
      · rename_i hnp
        subst hnp
        rcases List.mem_cons.1 hm with rfl | hm
        · exact x1 _ hu t e
        · rw [List.mem_singleton] at hm
          subst hm
          cases e
          exact ht
      · rw [List.mem_singleton] at hm
        subst hm
        rw [explicit_tag] at e
        exact x1 _ hu t e
  -- the pages
  have hq : ∀ ps t, PagesQuiet d t ps → (∀ p ∈ ps, (sections p).2.length ≤ 48) →
      (∀ q ∈ ps, ∀ v ∈ q, ∀ pos, v ≠ .graphic 0 pos) →
      PagesQuiet (resized d W H c) t (ps.map fun p => .textRectangle (signRect d) :: p.map (explicit d)) := by
    intro ps
    induction ps with
    | nil => intro t _ _ _; trivial
    | cons p ps ih =>
      intro t h hn h0
      have hz := sections_all (P := fun v => ∀ pos, v ≠ .graphic 0 pos) (h0 p (List.mem_cons_self ..))
      refine ⟨pageStops_inset hd hw hh h1 h2 hr h.1 (good_of_silent hg.numbers (silent_append.1 h.1).2 hz.1 hz.2)
        (hn p (List.mem_cons_self ..)), ?_⟩
      have e : (Value.textRectangle (signRect d) :: p.map (explicit d)).foldl
          (TextAttr.apply (signAttr (resized d W H c))) t = p.foldl (TextAttr.apply (signAttr d)) t := by
        rw [← explicit_fold (d := d) _ p]
        rfl
      rw [e]
      exact ih _ h.2 (fun q hq => hn q (List.mem_cons_of_mem _ hq)) fun q hq => h0 q (List.mem_cons_of_mem _ hq)
  have hq' : TagsOk (resized d W H c) (framed d vs) ∧
      PagesQuiet (resized d W H c) (signAttr (resized d W H c)) (splitPages (framed d vs)) := by
    refine ⟨ht', ?_⟩
    rw [splitPages_framed]
    exact hq _ _ x2 hn h0'
  obtain ⟨ys, hy⟩ := quiet_shown (resized d W H c) hd' hok' ms' hs' hv' hq'
  refine ⟨ys, hy, ?_⟩
  have hp := ((shown_iff (resized d W H c) hd' hok' hf Wg Hg hg ms' hs' hv' ys).1 hy).2
  rw [splitPages_framed] at hp
  exact inset_pages hd hc hg.numbers h1 h2 x2 x3 h0' hp

/-! ### cases -/
/-- a sign of 100×50 pixels, otherwise like `fullDms` with its 60×30 pixels -/
def largeDms : Dms := resized fullDms 100 50 fullDms.signCfg

/-- a message with a text rectangle and a color rectangle whose sizes are left open, and the one for the larger sign -/
def insetMessage : Str := c!"[pb10,20,30]A[tr31,12,0,0][cr50,25,0,0,255,0,0]B[np][pb][jl4]C"
def framedMessage : Str :=
  c!"[tr1,1,60,30][pb10,20,30]A[tr31,12,30,19][cr50,25,11,6,255,0,0]B[np][tr1,1,60,30][pb][jl4]C"

def insetValues : List Value :=
  [.pageBackground (some (.rgb 10 20 30)), .text c!"A", .textRectangle ⟨31, 12, 0, 0⟩,
    .colorRectangle ⟨50, 25, 0, 0⟩ (.rgb 255 0 0), .text c!"B", .newPage, .pageBackground none,
    .justificationLine (some .right), .text c!"C"]

-- the hypotheses of C101_inset, and what it tells
example : ∃ xs ys, Spec.Yields fullDms insetMessage xs ∧ xs.length = 2 ∧ Spec.Yields largeDms framedMessage ys ∧
    Inset fullDms 100 50 (signPage fullDms).2 [insetValues.take 5, insetValues.drop 6] xs ys := by
  obtain ⟨xs, hx, hn, hl⟩ := summary_noError (d := fullDms) (ms := insetMessage) (l := [(true, 60, 30, 30),
    (true, 60, 30, 30)]) (by decide +kernel)
  have hs : Parses (slices insetMessage) insetValues := by
    rw [show slices insetMessage = [c!"[pb10,20,30]", c!"A", c!"[tr31,12,0,0]", c!"[cr50,25,0,0,255,0,0]", c!"B", c!"[np]",
      c!"[pb]", c!"[jl4]", c!"C"] by decide +kernel]
    exact .cons (by decide +kernel) (.cons (by decide +kernel) (.cons (by decide +kernel) (.cons (by decide +kernel)
      (.cons (by decide +kernel) (.cons (by decide +kernel) (.cons (by decide +kernel) (.cons (by decide +kernel)
      (.cons (by decide +kernel) .nil))))))))
  have hs' : Parses (slices framedMessage) (framed fullDms insetValues) := by
    rw [show slices framedMessage = [c!"[tr1,1,60,30]", c!"[pb10,20,30]", c!"A", c!"[tr31,12,30,19]", c!"[cr50,25,11,6,255,0,0]",
      c!"B", c!"[np]", c!"[tr1,1,60,30]", c!"[pb]", c!"[jl4]", c!"C"] by decide +kernel,
      show framed fullDms insetValues = [.textRectangle ⟨1, 1, 60, 30⟩, .pageBackground (some (.rgb 10 20 30)), .text c!"A",
        .textRectangle ⟨31, 12, 30, 19⟩, .colorRectangle ⟨50, 25, 11, 6⟩ (.rgb 255 0 0), .text c!"B", .newPage,
        .textRectangle ⟨1, 1, 60, 30⟩, .pageBackground none, .justificationLine (some .right), .text c!"C"] by decide +kernel]
    exact .cons (by decide +kernel) (.cons (by decide +kernel) (.cons (by decide +kernel) (.cons (by decide +kernel)
      (.cons (by decide +kernel) (.cons (by decide +kernel) (.cons (by decide +kernel) (.cons (by decide +kernel)
      (.cons (by decide +kernel) (.cons (by decide +kernel) (.cons (by decide +kernel) .nil))))))))))
  have hv1 := C22_built_sign_valid .checked _ _ fullDms_built
  obtain ⟨ys, ⟨hy, _⟩, hi⟩ := C101_inset fullDms ⟨by decide +kernel, by decide +kernel, by decide +kernel⟩
    ⟨by decide +kernel, by decide +kernel, by decide +kernel, by decide, ⟨by decide, by decide⟩, hv1.2.2.2.2.1.fonts,
      hv1.2.2.2.2.2.1.graphics⟩ hv1.2.2.2.2.1 _ _ hv1.2.2.2.2.2.1 (.inl rfl) 100 50 fullDms.signCfg (by decide) (by decide)
    ⟨by decide, by decide, by decide, by decide, by decide, by decide, by decide, by decide, by decide, by decide⟩
    (by decide) (by decide) (by decide +kernel) insetMessage framedMessage (sizesOk_short _ _ (by decide +kernel))
    (sizesOk_short _ _ (by decide +kernel)) insetValues hs hs' (by decide +kernel) xs ⟨hx, hn⟩
  rw [show splitPages insetValues = [insetValues.take 5, insetValues.drop 6] by decide +kernel] at hi
  exact ⟨xs, ys, hx, hl, hy, hi⟩

-- pixels of "A", the color rectangle, and the background; the last two are outside of the small sign
example : pixels fullDms insetMessage [(0, 2), (59, 29), (20, 20)] =
    [(255, 255, 255), (255, 0, 0), (10, 20, 30)] := by decide +kernel
example : pixels largeDms framedMessage [(0, 2), (59, 29), (20, 20), (60, 10), (10, 30)] =
    [(255, 255, 255), (255, 0, 0), (10, 20, 30), (10, 20, 30), (10, 20, 30)] := by decide +kernel

end Ntcip
