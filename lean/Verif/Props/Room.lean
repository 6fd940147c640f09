import Verif.Spec.Room
import Verif.Lemmas.Wording
/-
C98: texts with enough room do not overlap, and all their pixels are seen.
-/
namespace Ntcip
open Spec Tests

theorem atX_inside {d : Dms} {spans s x w} (h : AtX d spans s x) (hw : SpanWidth d.fontDefinition s w) :
    ∃ total, LineWidth d.fontDefinition none (sameLine spans s) total ∧
      (lineColumns d s.state.textRectangle s.state.justLine total).1 ≤ x ∧
      x + w ≤ (lineColumns d s.state.textRectangle s.state.justLine total).2 := by
  obtain ⟨pre, post, n, total, h1, ⟨w', hw', h2⟩, h3, _, rfl⟩ := h
  obtain rfl := spanWidth_unique hw hw'
  have hle : n + w ≤ total := by
    have h4 := h3
    rw [h1] at h4
    obtain ⟨n1, n2, k1, _, rfl⟩ := lineWidth_split h4
    rw [lineWidth_unique h2 k1]; omega
  refine ⟨total, h3, ?_, ?_⟩
  · unfold lineColumns
    simp only
    split
    · exact cellEdge_mono (by omega)
    · omega
  · unfold lineColumns
    simp only
    split
    · have : ∀ c y, cellEdge c y ≤ y := fun c y => Nat.sub_le _ _
      have := this (signCellWidth d) (lineLeft s.state.textRectangle s.state.justLine total + n)
      omega
    · omega

theorem atY_inside {d : Dms} {spans s y f} (hs : s ∈ spans) (h : AtY d spans s y) (hf : FontOf d.fontDefinition s f)
    (hc : s.state.justPage = .middle → f.height.toNat % signCellHeight d = 0) :
    ∃ m, Dense 0 (samePage spans s) m ∧
      let total := linesHeight (decide (d.vmsCfg.charHeightPixels = 0)) d.fontDefinition (samePage spans s) (m - 1)
      (linesRows d s.state.textRectangle s.state.justPage total).1 ≤ y ∧
      y + f.height.toNat ≤ (linesRows d s.state.textRectangle s.state.justPage total).2 := by
  obtain ⟨f', m, total, hf', hd, rfl, _, e⟩ := h
  obtain rfl := fontOf_unique hf hf'
  have hmem : s ∈ samePage spans s := by
    unfold samePage; rw [List.mem_filter]; exact ⟨hs, by simp⟩
  have hlt := (dense_lt hd).2 s hmem
  have h1 := lineHeight_font hmem hf
  have h2 : lineHeight d.fontDefinition (samePage spans s) s.state.lineNumber ≤
      linesHeight (decide (d.vmsCfg.charHeightPixels = 0)) d.fontDefinition (samePage spans s) s.state.lineNumber := by
    cases s.state.lineNumber with
    | zero => exact Nat.le_refl _
    | succ n => show _ ≤ _ + _ + _; omega
  have h3 := linesHeight_mono (full := decide (d.vmsCfg.charHeightPixels = 0)) (t := d.fontDefinition)
    (ss := samePage spans s) (i := s.state.lineNumber) (k := m - 1 - s.state.lineNumber)
  rw [show s.state.lineNumber + (m - 1 - s.state.lineNumber) = m - 1 by omega] at h3
  refine ⟨m, hd, ?_⟩
  intro total
  unfold linesRows
  simp only
  by_cases hj : s.state.justPage = .middle
  · rw [if_pos hj] at e ⊢
    have k1 := cellEdge_add (c := signCellHeight d) (x := linesTop s.state.textRectangle s.state.justPage total) (hc hj)
    have k2 := cellEdge_mono (c := signCellHeight d)
      (x := linesTop s.state.textRectangle s.state.justPage total + f.height.toNat)
      (y := linesTop s.state.textRectangle s.state.justPage total +
        linesHeight (decide (d.vmsCfg.charHeightPixels = 0)) d.fontDefinition (samePage spans s) s.state.lineNumber) (by omega)
    have k3 : ∀ c y, cellEdge c y ≤ y := fun c y => Nat.sub_le _ _
    have k4 := k3 (signCellHeight d) (linesTop s.state.textRectangle s.state.justPage total +
        linesHeight (decide (d.vmsCfg.charHeightPixels = 0)) d.fontDefinition (samePage spans s) s.state.lineNumber)
    simp only [total] at k1 k2 k4 ⊢
    split at h3 <;> exact ⟨by omega, by omega⟩
  · rw [if_neg hj] at e ⊢
    simp only [total]
    split at h3 <;> exact ⟨by omega, by omega⟩

theorem roomy_pieces {d : Dms} {r : Rectangle} {ss ss' : List Span} (h : ss.map pieceOf = ss'.map pieceOf)
    (hr : Roomy d r ss) : Roomy d r ss' := by
  have mem : ∀ s' ∈ ss', ∃ s ∈ ss, pieceOf s = pieceOf s' := by
    intro s' hs
    have : pieceOf s' ∈ ss.map pieceOf := h ▸ List.mem_map_of_mem hs
    obtain ⟨s, h1, h2⟩ := List.mem_map.1 this
    exact ⟨s, h1, h2⟩
  have keys : ∀ {s s' : Span}, pieceOf s = pieceOf s' → s.state.justPage = s'.state.justPage ∧
      s.state.justLine = s'.state.justLine ∧ s.state.lineNumber = s'.state.lineNumber := by
    intro s s' e
    obtain ⟨b1, _, b2, _⟩ := pieceOf_eq e
    obtain ⟨_, _, b3, b4, _⟩ := textAttr_eq b1
    exact ⟨b3, b4, b2⟩
  refine ⟨fun a' ha b' hb h1 h2 h3 ta tb h4 h5 => ?_, fun a' ha b' hb h1 m n h2 h3 => ?_, fun a' ha h1 w hw => ?_,
    fun a' ha h1 f hf => ?_⟩
  · obtain ⟨a, ha, ea⟩ := mem a' ha
    obtain ⟨b, hb, eb⟩ := mem b' hb
    obtain ⟨a1, a2, a3⟩ := keys ea
    obtain ⟨b1, b2, b3⟩ := keys eb
    rw [← a2, ← b2]
    exact hr.line a ha b hb (by rw [a1, b1, h1]) (by rw [a3, b3, h2]) (by rw [a2, b2]; exact h3) ta tb
      (lineWidth_pieces h4 rfl (sameLine_pieces h ea).symm) (lineWidth_pieces h5 rfl (sameLine_pieces h eb).symm)
  · obtain ⟨a, ha, ea⟩ := mem a' ha
    obtain ⟨b, hb, eb⟩ := mem b' hb
    obtain ⟨a1, _⟩ := keys ea
    obtain ⟨b1, _⟩ := keys eb
    simp only
    rw [← a1, ← b1, ← linesHeight_pieces (samePage_pieces h ea), ← linesHeight_pieces (samePage_pieces h eb)]
    exact hr.page a ha b hb (by rw [a1, b1]; exact h1) m n (dense_pieces h2 (samePage_pieces h ea).symm)
      (dense_pieces h3 (samePage_pieces h eb).symm)
  · obtain ⟨a, ha, ea⟩ := mem a' ha
    exact hr.wide a ha (by rw [(keys ea).2.1]; exact h1) w (spanWidth_pieces ea.symm hw)
  · obtain ⟨a, ha, ea⟩ := mem a' ha
    exact hr.high a ha (by rw [(keys ea).1]; exact h1) f (fontOf_pieces ea.symm hf)

/-- placed texts with room do not overlap -/
theorem roomy_apart {d : Dms} {rect : Rectangle} {ps : List (Span × Nat × Nat)} (ho : Ordered (ps.map Prod.fst))
    (hat : ∀ p ∈ ps, AtX d (ps.map Prod.fst) p.1 p.2.1 ∧ AtY d (ps.map Prod.fst) p.1 p.2.2)
    (hrect : ∀ p ∈ ps, p.1.state.textRectangle = rect) (hr : Roomy d rect (ps.map Prod.fst)) :
    ps.Pairwise (BoxesApart d.fontDefinition) := by
  rw [List.pairwise_iff_forall_sublist]
  intro p q hsub w w' f f' hw hw' hf hf'
  obtain ⟨l1, l2, l3, e⟩ : ∃ l1 l2 l3, ps = l1 ++ p :: (l2 ++ q :: l3) := by
    have h1 := List.Sublist.subset hsub
    obtain ⟨r1, r2, rfl, k1, k2⟩ := List.cons_sublist_iff.1 hsub
    obtain ⟨x1, x2, rfl⟩ := List.append_of_mem k1
    obtain ⟨y1, y2, rfl⟩ := List.append_of_mem (List.singleton_sublist.1 k2)
    exact ⟨x1, x2 ++ y1, y2, by simp⟩
  have mp : p ∈ ps := by rw [e]; simp
  have mq : q ∈ ps := by rw [e]; simp
  have sp : p.1 ∈ ps.map Prod.fst := List.mem_map_of_mem mp
  have sq : q.1 ∈ ps.map Prod.fst := List.mem_map_of_mem mq
  obtain ⟨px, py⟩ := hat p mp
  obtain ⟨qx, qy⟩ := hat q mq
  have rp := hrect p mp
  have rq := hrect q mq
  by_cases hjp : p.1.state.justPage = q.1.state.justPage
  · rcases Nat.lt_trichotomy p.1.state.lineNumber q.1.state.lineNumber with hl | hl | hl
    · refine .inr (.inl ?_)
      exact (atY_order sq hjp hl (by rw [rp, rq]) py qy hf hf' fun hj => hr.high _ sq (hjp ▸ hj) _ hf').1
    · refine .inl ?_
      by_cases hjl : p.1.state.justLine = q.1.state.justLine
      · refine .inl ?_
        have e' : ps.map Prod.fst = l1.map Prod.fst ++ p.1 :: (l2.map Prod.fst ++ q.1 :: l3.map Prod.fst) := by
          rw [e]; simp
        exact (atX_order ho e' hjp hl hjl (by rw [rp, rq]) px qx hw fun hj => hr.wide _ sp hj _ hw).1
      · obtain ⟨ta, h1, h2, h3⟩ := atX_inside px hw
        obtain ⟨tb, k1, k2, k3⟩ := atX_inside qx hw'
        rw [rp] at h2 h3
        rw [rq] at k2 k3
        rcases hr.line _ sp _ sq hjp hl hjl ta tb h1 k1 with h | h
        · left; show _ ≤ _; omega
        · right; show _ ≤ _; omega
    · refine .inr (.inr ?_)
      exact (atY_order sp hjp.symm hl (by rw [rp, rq]) qy py hf' hf fun hj => hr.high _ sp (hjp ▸ hj) _ hf).1
  · obtain ⟨m, h1, h2, h3⟩ := atY_inside sp py hf fun hj => hr.high _ sp hj _ hf
    obtain ⟨n, k1, k2, k3⟩ := atY_inside sq qy hf' fun hj => hr.high _ sq hj _ hf'
    rw [rp] at h2 h3
    rw [rq] at k2 k3
    refine .inr ?_
    rcases hr.page _ sp _ sq hjp m n h1 k1 with h | h
    · left; show _ ≤ _; simp only at h; omega
    · right; show _ ≤ _; simp only at h; omega

/-- the text of a rectangle with room: every pixel of every text has its color -/
theorem textDrawn_roomy {d : Dms} {t sp rect ws a b} (h : TextDrawn d t sp rect ws a b)
    (ht : Tidy (signAttr d) t true true ws) (hr : Roomy d rect (layoutOf d t sp rect ws)) :
    ∃ ps : List (Span × Nat × Nat), let spans := ps.map Prod.fst
      spans.map pieceOf = pieces (signAttr d) t sp 0 true ws ∧
      (∀ p ∈ ps, AtX d spans p.1 p.2.1 ∧ AtY d spans p.1 p.2.2) ∧ ps.Pairwise (BoxesApart d.fontDefinition) ∧
      ∀ p ∈ ps, ∀ i j, LightsAt d.fontDefinition p.1 p.2.1 p.2.2 i j →
        b.px i j = foregroundRgb d (pieceOf p.1).attr.foreground := by
  obtain ⟨ps, h1, _, h2, h3, h4, h5, _⟩ := h
  obtain ⟨ho, hat⟩ := h5 ht
  have e : (layoutOf d t sp rect ws).map pieceOf = (ps.map Prod.fst).map pieceOf := by
    rw [h1, layoutOf, map_spanOf]
  have hap := roomy_apart ho hat (fun p hp => (h2 _ (List.mem_map_of_mem hp)).1) (roomy_pieces e hr)
  refine ⟨ps, h1, hat, hap, fun p hp i j hl => ?_⟩
  rw [← (h2 _ (List.mem_map_of_mem hp)).2.1]
  obtain ⟨l1, l2, rfl⟩ := List.append_of_mem hp
  refine h4.lit l1 p l2 i j rfl hl fun q hq hlq => ?_
  have hpq : BoxesApart d.fontDefinition p q :=
    (List.pairwise_cons.1 (List.pairwise_append.1 hap).2.1).1 q hq
  obtain ⟨f, w, f1, w1, _⟩ := h3 p hp
  obtain ⟨f', w', f1', w1', _⟩ := h3 q (List.mem_append_right _ (List.mem_cons_of_mem _ hq))
  obtain ⟨a1, a2, a3, a4⟩ := lightsAt_inside hl f1 w1
  obtain ⟨b1, b2, b3, b4⟩ := lightsAt_inside hlq f1' w1'
  rcases hpq w w' f f' w1 w1' f1 f1' with (h | h) | (h | h) <;> simp only at h <;> omega

theorem composed_keep {d : Dms} (hc : CellHeights d) {i j : Nat} {bg t sp rect vs more a b}
    (h : Composed d bg t sp rect vs more a b) : a.width = d.vmsCfg.signWidthPixels.toNat →
    a.height = d.vmsCfg.signHeightPixels.toNat →
    (∀ p o, Layered d d.vmsCfg.signWidthPixels.toNat d.vmsCfg.signHeightPixels.toNat p vs i j o → o = none) →
    ¬ ((rect.x.toNat - 1 ≤ i ∧ i < rect.x.toNat - 1 + rect.width.toNat) ∧
      rect.y.toNat - 1 ≤ j ∧ j < rect.y.toNat - 1 + rect.height.toNat) → Uncovered d i j more → b.px i j = a.px i j := by
  have text : ∀ {t sp rect vs a b}, TextDrawn d t sp rect vs a b →
      ¬ ((rect.x.toNat - 1 ≤ i ∧ i < rect.x.toNat - 1 + rect.width.toNat) ∧
      rect.y.toNat - 1 ≤ j ∧ j < rect.y.toNat - 1 + rect.height.toNat) →
      b.px i j = a.px i j ∧ b.width = a.width ∧ b.height = a.height := by
    rintro t sp rect vs a b ⟨ps, _, _, _, _, k1, _, k⟩ hn
    refine ⟨Classical.byContradiction fun hne => hn ?_, k1.width, k1.height⟩
    obtain ⟨⟨k1, k2, k3, k4⟩, _⟩ := (k fun _ => cellFonts_all hc _).px i j hne
    exact ⟨⟨k1, k2⟩, k3, k4⟩
  have graph : ∀ {p vs a b}, GraphicsOn d p vs a b → a.width = d.vmsCfg.signWidthPixels.toNat →
      a.height = d.vmsCfg.signHeightPixels.toNat →
      (∀ p o, Layered d d.vmsCfg.signWidthPixels.toNat d.vmsCfg.signHeightPixels.toNat p vs i j o → o = none) →
      b.px i j = a.px i j ∧ b.width = a.width ∧ b.height = a.height := by
    intro p vs a b h hw hh hl
    obtain ⟨o, k1, k2⟩ := h.px i j
    rw [hw, hh] at k1
    rw [hl _ _ k1] at k2
    exact ⟨k2, h.width, h.height⟩
  induction h with
  | last h1 h2 =>
    intro hw hh hl hn _
    rw [(text h2 hn).1, (graph h1 hw hh hl).1]
  | @next t sp rect vs r us more a g u b h1 h2 _ ih =>
    intro hw hh hl hn hm
    obtain ⟨e1, e2, e3⟩ := text h2 hn
    obtain ⟨e4, e5, e6⟩ := graph h1 hw hh hl
    obtain ⟨k1, k2⟩ := hm (r, us) (List.mem_cons_self ..)
    rw [ih (by rw [e2, e5, hw]) (by rw [e3, e6, hh]) k1 k2 (fun w hw => hm w (List.mem_cons_of_mem _ hw)), e1, e4]

theorem composed_section {d : Dms} (hc : CellHeights d) {bg t sp rect vs more t' sp' rect' ws' more'}
    (hs : SectionAt d t sp rect vs more t' sp' rect' ws' more') : ∀ {a b}, Composed d bg t sp rect vs more a b →
    a.width = d.vmsCfg.signWidthPixels.toNat → a.height = d.vmsCfg.signHeightPixels.toNat →
    ∃ g u, TextDrawn d t' sp' rect' ws' g u ∧ ∀ i j, Uncovered d i j more' → b.px i j = u.px i j := by
  have size : ∀ {t sp rect vs a b}, TextDrawn d t sp rect vs a b → b.width = a.width ∧ b.height = a.height := by
    rintro t sp rect vs a b ⟨ps, _, _, _, _, h, _⟩
    exact ⟨h.width, h.height⟩
  induction hs with
  | here =>
    intro a b h hw hh
    cases h with
    | last h1 h2 => exact ⟨_, _, h2, fun _ _ _ => rfl⟩
    | next h1 h2 h3 =>
      refine ⟨_, _, h2, fun i j hm => ?_⟩
      obtain ⟨k1, k2⟩ := hm _ (List.mem_cons_self ..)
      exact composed_keep hc h3 (by rw [(size h2).1, h1.width, hw]) (by rw [(size h2).2, h1.height, hh]) k1 k2
        (fun w hw => hm w (List.mem_cons_of_mem _ hw))
  | later _ ih =>
    intro a b h hw hh
    cases h with
    | next h1 h2 h3 =>
      exact ih h3 (by rw [(size h2).1, h1.width, hw]) (by rw [(size h2).2, h1.height, hh])

/-- **C98** on a page of a message, the texts of a text rectangle whose values are in order and which have room (`Roomy`)
do not overlap, and each pixel that a text lights is shown in the color of the text, unless it is in a text rectangle
after it, or in a color rectangle or graphic after the next `[tr]` tag. -/
theorem C98_visible (d : Dms) (hf : FontsOk d.fontDefinition) (hc : CellHeights d)
    (h0 : 1 ≤ d.multiCfg.defaultFont.toNat) (W H : Nat)
    (hg : GraphicsOk W H d.graphicDefinition) (ms : Str) (xs pg page pg')
    (h : Steps d (Pages.new d ms) xs pg) (hn : NoError xs) (hon : isOn pg.pageState = true)
    (hx : Pages.next d pg = .ok (some (.ok page), pg')) :
    ∃ us vs b, Consumed (slices ms) pg.values us ∧ TakePage pg.values vs pg'.values b ∧
      ∀ t sp rect ws more, SectionAt d (us.foldl (TextAttr.apply (signAttr d)) (signAttr d)) none (signRect d)
        (sections vs).1 (sections vs).2 t sp rect ws more → Tidy (signAttr d) t true true ws →
      Roomy d rect (layoutOf d t sp rect ws) →
      ∃ ps : List (Span × Nat × Nat), let spans := ps.map Prod.fst
        spans.map pieceOf = pieces (signAttr d) t sp 0 true ws ∧
        (∀ p ∈ ps, AtX d spans p.1 p.2.1 ∧ AtY d spans p.1 p.2.2) ∧ ps.Pairwise (BoxesApart d.fontDefinition) ∧
        ∀ p ∈ ps, ∀ i j, LightsAt d.fontDefinition p.1 p.2.1 p.2.2 i j → Uncovered d i j more →
          page.raster.px i j = foregroundRgb d (pieceOf p.1).attr.foreground := by
  obtain ⟨us, vs, b, h1, h2, h3⟩ := C66_page d hf h0 W H hg ms xs pg page pg' h hn hon hx
  refine ⟨us, vs, b, h1, h2, fun t sp rect ws more hs ht hr => ?_⟩
  obtain ⟨g, u, k1, k2⟩ := composed_section hc hs h3 rfl rfl
  obtain ⟨ps, l1, l2, l3, l4⟩ := textDrawn_roomy k1 ht hr
  exact ⟨ps, l1, l2, l3, fun p hp i j hl hm => by rw [k2 i j hm]; exact l4 p hp i j hl⟩

/-- **C98 (room)** on a sign without character cells there is room, if the justifications are those of the standard and,
on each line, left and right text fit beside each other, and left or right text two times beside centered text; and the
lines at the top and bottom of the rectangle fit above each other, and those at the top or bottom two times with those in
the middle. -/
theorem C98_room (d : Dms) (hw : d.vmsCfg.charWidthPixels = 0) (hh : d.vmsCfg.charHeightPixels = 0) (r : Rectangle)
    (spans : List Span)
    (hjl : ∀ s ∈ spans, s.state.justLine = .left ∨ s.state.justLine = .center ∨ s.state.justLine = .right)
    (hjp : ∀ s ∈ spans, s.state.justPage = .top ∨ s.state.justPage = .middle ∨ s.state.justPage = .bottom)
    (hl : ∀ a ∈ spans, ∀ b ∈ spans, a.state.justPage = b.state.justPage → a.state.lineNumber = b.state.lineNumber →
      ∀ ta tb, LineWidth d.fontDefinition none (sameLine spans a) ta → LineWidth d.fontDefinition none (sameLine spans b) tb →
      (a.state.justLine = .left → b.state.justLine = .right → ta + tb ≤ r.width.toNat) ∧
      (a.state.justLine ≠ .center → b.state.justLine = .center → 2 * ta + tb ≤ r.width.toNat))
    (hp : ∀ a ∈ spans, ∀ b ∈ spans, ∀ m n, Dense 0 (samePage spans a) m → Dense 0 (samePage spans b) n →
      let height s k := linesHeight true d.fontDefinition (samePage spans s) (k - 1)
      (a.state.justPage = .top → b.state.justPage = .bottom → height a m + height b n ≤ r.height.toNat) ∧
      (a.state.justPage ≠ .middle → b.state.justPage = .middle → 2 * height a m + height b n ≤ r.height.toNat)) :
    Roomy d r spans := by
  have cw : signCellWidth d = 1 := by unfold signCellWidth; rw [hw]; rfl
  have ch : signCellHeight d = 1 := by unfold signCellHeight; rw [hh]; rfl
  have edge : ∀ x, cellEdge 1 x = x := fun x => by unfold cellEdge; omega
  refine ⟨fun a ha b hb h1 h2 h3 ta tb k1 k2 => ?_, fun a ha b hb h1 m n k1 k2 => ?_,
    fun a _ _ w _ => by rw [cw]; omega, fun a _ _ f _ => by rw [ch]; omega⟩
  · have g1 := hl a ha b hb h1 h2 ta tb k1 k2
    have g2 := hl b hb a ha h1.symm h2.symm tb ta k2 k1
    unfold Beside lineColumns
    simp only [cw, edge, ite_self]
    rcases hjl a ha with ea | ea | ea <;> rcases hjl b hb with eb | eb | eb <;> rw [ea, eb] at h3 g1 g2 ⊢ <;>
      simp [lineLeft] at h3 g1 g2 ⊢ <;> omega
  · rw [show (decide (d.vmsCfg.charHeightPixels = 0)) = true by simp [hh]]
    have g1 := hp a ha b hb m n k1 k2
    have g2 := hp b hb a ha n m k2 k1
    unfold Beside linesRows
    simp only [ch, edge, ite_self]
    rcases hjp a ha with ea | ea | ea <;> rcases hjp b hb with eb | eb | eb <;> rw [ea, eb] at h1 g1 g2 ⊢ <;>
      simp [linesTop] at h1 g1 g2 ⊢ <;> omega

/-! ### an example: left and right text -/

def sideTexts : List Value := [.justificationLine (some .left), .text c!"AB", .justificationLine (some .right), .text c!"C"]

def sideSpans : List Span := layoutOf fullDms (signAttr fullDms) none (signRect fullDms) sideTexts

example : sideSpans.map (fun s => (s.state.justLine, s.str)) = [(.left, c!"AB"), (.right, c!"C")] := by decide +kernel

theorem sideSpans_roomy : Roomy fullDms (signRect fullDms) sideSpans := by
  have one : ∀ s ∈ sideSpans, (sameLine sideSpans s).length = 1 := by decide +kernel
  have small : ∀ s ∈ sideSpans, (match s.width fullDms.fontDefinition with | .ok w => decide (w ≤ 30) | _ => false) = true := by
    decide +kernel
  have same : ∀ a ∈ sideSpans, ∀ b ∈ sideSpans, a.state.justPage = b.state.justPage := by decide +kernel
  have noc : ∀ a ∈ sideSpans, a.state.justLine ≠ .center := by decide +kernel
  have key : ∀ s ∈ sideSpans, ∀ n, LineWidth fullDms.fontDefinition none (sameLine sideSpans s) n → n ≤ 30 := by
    intro s hs n h
    obtain ⟨u, hu⟩ := List.length_eq_one_iff.1 (one s hs)
    rw [hu] at h
    have hm : u ∈ sideSpans := by
      have : u ∈ sameLine sideSpans s := by rw [hu]; exact List.mem_singleton.2 rfl
      exact (List.mem_filter.1 this).1
    have hsm := small u hm
    split at hsm
    · rename_i w hw
      cases h with
      | first h1 h2 =>
        cases h2
        rw [spanWidth_unique h1 (width_ok.1 hw).1]
        simpa using hsm
    · simp at hsm
  refine C98_room fullDms rfl rfl _ _ (by decide +kernel) (by decide +kernel) ?_ ?_
  · intro a ha b hb _ _ ta tb h1 h2
    have k1 := key a ha ta h1
    have k2 := key b hb tb h2
    have e : (signRect fullDms).width.toNat = 60 := by decide +kernel
    exact ⟨fun _ _ => by omega, fun _ h => absurd h (noc b hb)⟩
  · intro a ha b hb m n _ _
    have := same a ha b hb
    exact ⟨(fun h1 h2 => by rw [h1, h2] at this; cases this), fun h1 h2 => absurd (this.trans h2) h1⟩

-- what C98 tells of the message: both texts are seen completely
example : ∃ page pg', Pages.next fullDms (Pages.new fullDms c!"[jl2]AB[jl4]C") = .ok (some (.ok page), pg') ∧
    ∃ ps : List (Span × Nat × Nat), ps.map (·.1.str) = [c!"AB", c!"C"] ∧ ∀ p ∈ ps, ∀ i j,
      LightsAt fullDms.fontDefinition p.1 p.2.1 p.2.2 i j → page.raster.px i j = foregroundRgb fullDms (signAttr fullDms).foreground := by
  have hv := C22_built_sign_valid .checked _ _ fullDms_built
  have hs : slices c!"[jl2]AB[jl4]C" = [c!"[jl2]", c!"AB", c!"[jl4]", c!"C"] := by decide +kernel
  have ht : TakePage (slices c!"[jl2]AB[jl4]C") sideTexts [] false := by
    rw [hs]
    exact .cons (by decide +kernel) (by decide) (.cons (by decide +kernel) (by decide) (.cons (by decide +kernel) (by decide)
      (.cons (by decide +kernel) (by decide) .nil)))
  have hp : (match Pages.next fullDms (Pages.new fullDms c!"[jl2]AB[jl4]C") with
    | .ok (some (.ok _), _) => true
    | _ => false) = true := by decide +kernel
  split at hp
  · rename_i page pg' hx
    refine ⟨page, pg', hx, ?_⟩
    obtain ⟨us, vs, b, h1, h2, h3⟩ := C98_visible fullDms hv.2.2.2.2.1 (.inl rfl) (by decide) _ _ hv.2.2.2.2.2.1
      c!"[jl2]AB[jl4]C" [] _ page pg' .nil (by simp [NoError]) rfl hx
    obtain ⟨pre, e, hpre⟩ := h1
    have e0 : pre = [] := by
      have : (Pages.new fullDms c!"[jl2]AB[jl4]C").values = slices c!"[jl2]AB[jl4]C" := rfl
      rw [this] at e
      exact List.self_eq_append_left.1 e
    subst e0
    cases hpre
    obtain ⟨rfl, _⟩ := takePage_unique h2 ht
    have tidy : Tidy (signAttr fullDms) (signAttr fullDms) true true (sections sideTexts).1 := by
      simp only [sideTexts, sections, Tidy, InOrder]
      decide +kernel
    obtain ⟨ps, k1, k2, k3, k4⟩ := h3 _ _ _ _ _ .here tidy sideSpans_roomy
    refine ⟨ps, ?_, fun p hpm i j hl => ?_⟩
    · have := congrArg (List.map Piece.str) k1
      rw [List.map_map, List.map_map] at this
      exact this
    · have := k4 p hpm i j hl (fun w hw => by simp [sideTexts, sections] at hw)
      rw [this]
      have hmem : pieceOf p.1 ∈ pieces (signAttr fullDms) (signAttr fullDms) none 0 true sideTexts := by
        have := List.mem_map_of_mem (f := pieceOf) (List.mem_map_of_mem (f := Prod.fst) hpm)
        exact k1 ▸ this
      have all : ∀ q ∈ pieces (signAttr fullDms) (signAttr fullDms) none 0 true sideTexts,
          q.attr.foreground = (signAttr fullDms).foreground := by decide +kernel
      rw [all _ hmem]
  · simp at hp

end Ntcip
