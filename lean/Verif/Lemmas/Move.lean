import Verif.Spec.Move
import Verif.Lemmas.Larger
import Verif.Lemmas.Place
/-
Lemmas about messages whose rectangles and graphics are moved.
-/
namespace Ntcip
open Spec

/-! ### places of texts -/

theorem edge_moved {l l' k c : Nat} (hc : 0 < c) (h : l % c = 0) (h' : l' % c = 0) :
    (l' + k) / c * c + l = (l + k) / c * c + l' := by
  obtain ⟨m, rfl⟩ := Nat.dvd_of_mod_eq_zero h
  obtain ⟨m', rfl⟩ := Nat.dvd_of_mod_eq_zero h'
  rw [Nat.mul_add_div hc, Nat.mul_add_div hc, Nat.add_mul, Nat.add_mul, Nat.mul_comm m' c, Nat.mul_comm m c]
  omega

section Places
variable {d : Dms} {spans : List Span} {s : Span} {R : Rectangle}
  (hw : R.width = s.state.textRectangle.width) (hh : R.height = s.state.textRectangle.height)
  (ha : Aligned d s.state.textRectangle) (ha' : Aligned d R) (hr : RectIn R 65535 65535)
include hw hh ha ha' hr

omit hh in
theorem spanX_moved {x} (h : spanX d spans s = .ok x) :
    ∃ x', spanX d (spans.map (Span.within R)) (s.within R) = .ok x' ∧
      x' + s.state.textRectangle.x.toNat = x + R.x.toNat := by
  have hx1 := hr.x
  have hr1 := hr.right
  have er : (s.within R).state.textRectangle = R := rfl
  have hle : s.state.textRectangle.width.toNat ≤ R.width.toNat := by rw [hw]; exact Nat.le_refl _
  have a1 := ha.x
  have a1' := ha'.x
  have ej : (s.within R).state.justLine = s.state.justLine := rfl
  have ecw : d.cellWidth = signCellWidth d := rfl
  unfold spanX at h ⊢
  rw [ej]
  split at h <;> rename_i eq <;> try (rw [eq]; dsimp only)
  · unfold spanXLeft at h ⊢
    simp only [Out.bind_eq_ok, Out.ofRes_eq_ok, chk16_ok, sub16_ok] at h
    obtain ⟨l, ⟨hl, rfl⟩, ⟨b, a⟩, h1, rfl, h2⟩ := h
    have h3 := (offsetHoriz_ok h1).2
    have h1' := offsetHoriz_within (d' := d) rfl h1 hle
    rw [er, sub16_eq hx1, h1']
    simp only [Out.ofRes_ok, Out.ok_bind]
    dsimp only at *
    rw [hw] at hr1
    rw [chk16_eq (by omega)]
    exact ⟨_, rfl, by omega⟩
  · unfold spanXCenter at h ⊢
    simp only [Out.bind_eq_ok, Out.ofRes_eq_ok, chk16_ok, sub16_ok] at h
    obtain ⟨l, ⟨hl, rfl⟩, ⟨b, a⟩, h1, t1, ⟨h2, rfl⟩, t2, ⟨h3, rfl⟩, t3, ⟨rfl, h6⟩, t4, ⟨rfl, h7⟩, rfl, h8⟩ := h
    have h4 := (offsetHoriz_ok h1).2
    have h1' := offsetHoriz_within (d' := d) rfl h1 hle
    rw [er, sub16_eq hx1, h1', hw]
    simp only [Out.ofRes_ok, Out.ok_bind]
    dsimp only at *
    rw [hw] at hr1
    have key := edge_moved (k := (s.state.textRectangle.width.toNat - b - a) / 2 + b) (cellWidth_pos d) a1 a1'
    have hdm := Nat.div_mul_le_self (R.x.toNat - 1 + (s.state.textRectangle.width.toNat - b - a) / 2 + b) d.cellWidth
    rw [sub16_eq (by omega)]
    simp only [Out.ofRes_ok, Out.ok_bind]
    rw [sub16_eq (by omega)]
    simp only [Out.ofRes_ok, Out.ok_bind]
    rw [chk16_eq (by omega)]
    simp only [Out.ofRes_ok, Out.ok_bind]
    rw [chk16_eq (by omega)]
    simp only [Out.ofRes_ok, Out.ok_bind]
    rw [chk16_eq (by omega)]
    refine ⟨_, rfl, ?_⟩
    simp only [← Nat.add_assoc] at key
    rw [ecw]
    omega
  · unfold spanXRight at h ⊢
    simp only [Out.bind_eq_ok, Out.ofRes_eq_ok, chk16_ok, sub16_ok] at h
    obtain ⟨l, ⟨hl, rfl⟩, ⟨b, a⟩, h1, t, ⟨rfl, h2⟩, h3, rfl⟩ := h
    have h4 := (offsetHoriz_ok h1).2
    have h1' := offsetHoriz_within (d' := d) rfl h1 hle
    rw [er, sub16_eq hx1, h1', hw]
    simp only [Out.ofRes_ok, Out.ok_bind]
    dsimp only at *
    rw [hw] at hr1
    rw [chk16_eq (by omega)]
    simp only [Out.ofRes_ok, Out.ok_bind]
    rw [sub16_eq (by omega)]
    exact ⟨_, rfl, by omega⟩
  · cases h

omit hw in
theorem baseline_moved {y} (h : baseline d spans s = .ok y) :
    ∃ y', baseline d (spans.map (Span.within R)) (s.within R) = .ok y' ∧
      y' + s.state.textRectangle.y.toNat = y + R.y.toNat := by
  have hx1 := hr.y
  have hr1 := hr.bottom
  have er : (s.within R).state.textRectangle = R := rfl
  have hle : s.state.textRectangle.height.toNat ≤ R.height.toNat := by rw [hh]; exact Nat.le_refl _
  have a1 := ha.y
  have a1' := ha'.y
  have ej : (s.within R).state.justPage = s.state.justPage := rfl
  have ecw : d.cellHeight = signCellHeight d := rfl
  unfold baseline at h ⊢
  rw [ej]
  split at h <;> rename_i eq <;> try (rw [eq]; dsimp only)
  · unfold baselineTop at h ⊢
    simp only [Out.bind_eq_ok, Out.ofRes_eq_ok, chk16_ok, sub16_ok] at h
    obtain ⟨l, ⟨hl, rfl⟩, ⟨b, a⟩, h1, rfl, h2⟩ := h
    obtain ⟨-, -, -, -, h4⟩ := offsetVert_ok h1
    have h1' := offsetVert_within (d' := d) rfl rfl h1 hle
    rw [er, sub16_eq hx1, h1']
    simp only [Out.ofRes_ok, Out.ok_bind]
    dsimp only at *
    rw [hh] at hr1
    rw [chk16_eq (by omega)]
    exact ⟨_, rfl, by omega⟩
  · unfold baselineMiddle at h ⊢
    simp only [Out.bind_eq_ok, Out.ofRes_eq_ok, chk16_ok, sub16_ok] at h
    obtain ⟨l, ⟨hl, rfl⟩, ⟨b, a⟩, h1, t1, ⟨h2, rfl⟩, t2, ⟨h3, rfl⟩, t3, ⟨rfl, h6⟩, t4, ⟨rfl, h7⟩, rfl, h8⟩ := h
    obtain ⟨-, -, -, -, h4⟩ := offsetVert_ok h1
    have h1' := offsetVert_within (d' := d) rfl rfl h1 hle
    rw [er, sub16_eq hx1, h1', hh]
    simp only [Out.ofRes_ok, Out.ok_bind]
    dsimp only at *
    rw [hh] at hr1
    have key := edge_moved (k := (s.state.textRectangle.height.toNat - b - a) / 2 + b) (cellHeight_pos d) a1 a1'
    have hdm := Nat.div_mul_le_self (R.y.toNat - 1 + (s.state.textRectangle.height.toNat - b - a) / 2 + b) d.cellHeight
    rw [sub16_eq (by omega)]
    simp only [Out.ofRes_ok, Out.ok_bind]
    rw [sub16_eq (by omega)]
    simp only [Out.ofRes_ok, Out.ok_bind]
    rw [chk16_eq (by omega)]
    simp only [Out.ofRes_ok, Out.ok_bind]
    rw [chk16_eq (by omega)]
    simp only [Out.ofRes_ok, Out.ok_bind]
    rw [chk16_eq (by omega)]
    refine ⟨_, rfl, ?_⟩
    simp only [← Nat.add_assoc] at key
    rw [ecw]
    omega
  · unfold baselineBottom at h ⊢
    simp only [Out.bind_eq_ok, Out.ofRes_eq_ok, chk16_ok, sub16_ok] at h
    obtain ⟨l, ⟨hl, rfl⟩, ⟨b, a⟩, h1, t, ⟨rfl, h2⟩, h3, rfl⟩ := h
    obtain ⟨-, -, -, -, h4⟩ := offsetVert_ok h1
    have h1' := offsetVert_within (d' := d) rfl rfl h1 hle
    rw [er, sub16_eq hx1, h1', hh]
    simp only [Out.ofRes_ok, Out.ok_bind]
    dsimp only at *
    rw [hh] at hr1
    rw [chk16_eq (by omega)]
    simp only [Out.ofRes_ok, Out.ok_bind]
    rw [sub16_eq (by omega)]
    exact ⟨_, rfl, by omega⟩
  · cases h

omit hw in
theorem spanY_moved {y} (hs : s ∈ spans) (hc : CellHeights d) (h : spanY d spans s = .ok y) :
    ∃ y', spanY d (spans.map (Span.within R)) (s.within R) = .ok y' ∧
      y' + s.state.textRectangle.y.toNat = y + R.y.toNat := by
  obtain ⟨_, _, k1, k2, _⟩ := spanY_inside h hs ha.y (fun _ => cellFonts_all hc _)
  unfold spanY at h
  simp only [Out.bind_eq_ok, Out.ofRes_eq_ok, sub16_ok, height_ok] at h
  obtain ⟨bl, h, hgt, ⟨f, hff, rfl⟩, hb, rfl⟩ := h
  obtain ⟨y', h1, h2⟩ := baseline_moved hh ha ha' hr h
  have := hr.y
  refine ⟨y' - f.height.toNat, ?_, by omega⟩
  unfold spanY
  rw [h1, height_within, height_ok.2 ⟨f, hff, rfl⟩]
  simp only [Out.ok_bind]
  rw [sub16_eq (by omega)]; rfl

end Places

theorem textLit_moved {m : Shift} {es cs h x y x' y' i j i' j'} (hx : x' + m.x = x + m.x') (hy : y' + m.y = y + m.y')
    (hi : i' + m.x = i + m.x') (hj : j' + m.y = j + m.y') : TextLit es cs h x' y' i' j' ↔ TextLit es cs h x y i j := by
  constructor
  all_goals
    rintro ⟨before, e, after, row, col, h1, h2, h3, h4, h5, h6⟩
    exact ⟨before, e, after, row, col, h1, h2, h3, h4, by omega, by omega⟩

theorem renderSpansLoop_moved {d : Dms} (hd : DrawOk d) (hc : CellHeights d) {m : Shift} {R R' : Rectangle} (hm : MovedRect m R R')
    (ha : Aligned d R) (hi : RectIn R d.vmsCfg.signWidthPixels.toNat d.vmsCfg.signHeightPixels.toNat)
    (ha' : Aligned d R') (hi' : RectIn R' d.vmsCfg.signWidthPixels.toNat d.vmsCfg.signHeightPixels.toNat)
    {spans : List Span} (hf : ∀ s ∈ spans, ∀ f, FontOf d.fontDefinition s f → FontOk f)
    (hn : ∀ s ∈ spans, ∀ ch ∈ s.str, ch.toNat ≠ 0) (hr : ∀ s ∈ spans, s.state.textRectangle = R)
    {ss : List Span} (hsub : ∀ s ∈ ss, s ∈ spans) {p q p' : Raster}
    (h : renderSpansLoop d spans ss p = .ok q) (hp : MovedRaster m p p')
    (h1 : p.width = d.vmsCfg.signWidthPixels.toNat) (h2 : p.height = d.vmsCfg.signHeightPixels.toNat) :
    ∃ q', renderSpansLoop d (spans.map (Span.within R')) (ss.map (Span.within R')) p' = .ok q' ∧
      MovedRaster m q q' := by
  induction ss generalizing p p' with
  | nil =>
    simp only [renderSpansLoop, Out.ok.injEq] at h
    subst h
    exact ⟨p', rfl, hp⟩
  | cons s ss ih =>
    have hs := hsub s (List.mem_cons_self ..)
    have e := hr s hs
    rw [renderSpansLoop] at h
    simp only [Out.bind_eq_ok] at h
    obtain ⟨x, hx, y, hy, f, hfo, mid, hmid, h⟩ := h
    have w16 := hd.width
    have h16 := hd.height
    have hi16 : RectIn R' 65535 65535 := ⟨hi'.x, hi'.y, by have := hi'.right; omega, by have := hi'.bottom; omega⟩
    have hw : R'.width = s.state.textRectangle.width := by rw [e]; exact hm.width
    have hh : R'.height = s.state.textRectangle.height := by rw [e]; exact hm.height
    rw [← e] at ha
    obtain ⟨x', hx', ex⟩ := spanX_moved hw ha ha' hi16 hx
    obtain ⟨y', hy', ey⟩ := spanY_moved hh ha ha' hi16 hs hc hy
    obtain ⟨w, ⟨f2, es, hf2, hdef, rfl⟩, x0, x1, x2⟩ := spanX_inside hx hs ha.x
    obtain ⟨f1, hf1, y0, y1, y2⟩ := spanY_inside hy hs ha.y (fun _ => cellFonts_all hc _)
    have hfo' := font_ok.1 hfo
    obtain rfl : f = f2 := fontOf_unique hfo' hf2
    obtain rfl : f = f1 := fontOf_unique hfo' hf1
    have hcs : ∀ s : Span, s.charSpacingFont f = charSpacing s f := by
      intro s
      unfold Span.charSpacingFont charSpacing
      split <;> rename_i h <;> simp [h]
    have k1 := hi.right
    have k2 := hi.bottom
    have k1' := hi'.right
    have k2' := hi'.bottom
    have mx := hm.x
    have my := hm.y
    rw [e] at x0 x1 x2 y0 y1 y2 ex ey
    have ew := hm.width
    have eh := hm.height
    rw [ew] at k1'
    rw [eh] at k2'
    have hx1 := hi'.x
    have hy1 := hi'.y
    obtain ⟨r, hr1, r1, r2, r3⟩ := renderText_exact f (hf s hs f hfo') x y (charSpacing s f)
      s.state.colorCtx.foregroundRgb s.str (hn s hs) es hdef p (by omega) (by omega)
    obtain ⟨r', hr1', r1', r2', r3'⟩ := renderText_exact f (hf s hs f hfo') x' y' (charSpacing (s.within R') f)
      s.state.colorCtx.foregroundRgb s.str (hn s hs) es hdef p'
        (by rw [hp.width]; show x' + advance (charSpacing s f) _ ≤ _; omega) (by rw [hp.height]; omega)
    unfold Span.renderText at hmid
    rw [hcs, hr1] at hmid
    simp only [Out.mapErr_ok, Out.ok.injEq] at hmid
    subst hmid
    have hpx : MovedRaster m r r' := by
      refine ⟨by rw [r1', r1, hp.width], by rw [r2', r2, hp.height], fun i j i' j' ei ej => ?_⟩
      have hlit := textLit_moved (es := es) (cs := charSpacing s f) (h := f.height.toNat) (m := m)
        (x := x) (y := y) (x' := x') (y' := y') (by omega) (by omega) ei ej
      by_cases hl : TextLit es (charSpacing s f) f.height.toNat x y i j
      · rw [(r3 i j).1 hl, (r3' i' j').1 (hlit.2 hl)]
      · rw [(r3 i j).2 hl, (r3' i' j').2 (fun h => hl (hlit.1 h))]
        exact hp.px i j i' j' ei ej
    obtain ⟨q', i1, i2⟩ := ih (fun s h => hsub s (List.mem_cons_of_mem _ h)) h hpx (r1.trans h1) (r2.trans h2)
    refine ⟨q', ?_, i2⟩
    have hfo'' : (s.within R').state.font d.fontDefinition = .ok f := hfo
    rw [List.map_cons, renderSpansLoop, hx', hy', hfo'']
    simp only [Out.ok_bind]
    unfold Span.renderText
    rw [hcs]
    rw [show (s.within R').str = s.str from rfl,
      show (s.within R').state.colorCtx = s.state.colorCtx from rfl, hr1', Out.mapErr_ok, Out.ok_bind]
    exact i1

/-! ### values -/

/-- the slices of a message, and of the same message moved -/
inductive MovedSlices (d : Dms) (m : Shift) : Bool → List Str → List Str → Prop
  | nil {b} : MovedSlices d m b [] []
  | page {b s s' ss ss'} : tryFrom s = .ok (.ok .newPage) → tryFrom s' = .ok (.ok .newPage) →
      MovedSlices d m false ss ss' → MovedSlices d m b (s :: ss) (s' :: ss')
  | rect {b s s' ss ss' r r'} : tryFrom s = .ok (.ok (.textRectangle r)) → tryFrom s' = .ok (.ok (.textRectangle r')) →
      MovedValue d m (.textRectangle r) (.textRectangle r') →
      MovedSlices d m true ss ss' → MovedSlices d m b (s :: ss) (s' :: ss')
  | other {b s s' ss ss' v v'} : tryFrom s = .ok (.ok v) → tryFrom s' = .ok (.ok v') → MovedValue d m v v' →
      v ≠ .newPage → (∀ r, v ≠ .textRectangle r) → (Writes v → b = true) →
      MovedSlices d m b ss ss' → MovedSlices d m b (s :: ss) (s' :: ss')

theorem movedSlices_of {d m} {vs vs' : List Value} (h : All2 (MovedValue d m) vs vs') : ∀ {b ss ss'}, Boxed b vs →
    ss.map tryFrom = vs.map (fun v => .ok (.ok v)) → ss'.map tryFrom = vs'.map (fun v => .ok (.ok v)) →
    MovedSlices d m b ss ss' := by
  induction h with
  | nil =>
    intro b ss ss' _ h1 h2
    simp only [List.map_nil, List.map_eq_nil_iff] at h1 h2
    subst h1 h2
    exact .nil
  | @cons v v' vs vs' hv _ ih =>
    intro b ss ss' hb h1 h2
    cases ss with
    | nil => simp at h1
    | cons s ss =>
      cases ss' with
      | nil => simp at h2
      | cons s' ss' =>
        simp only [List.map_cons, List.cons.injEq] at h1 h2
        by_cases hp : v = .newPage
        · subst hp
          cases hv
          exact .page h1.1 h2.1 (ih hb h1.2 h2.2)
        · by_cases hr : ∃ r, v = .textRectangle r
          · obtain ⟨r, rfl⟩ := hr
            have hv' := hv
            cases hv with
            | same h => exact h.elim
            | text a b c e => exact .rect h1.1 h2.1 hv' (ih hb h1.2 h2.2)
          · have hb' : (Writes v → b = true) ∧ Boxed b vs := by
              unfold Boxed at hb
              split at hb
              · rename_i e; cases e
              · rename_i e; cases e; exact absurd rfl hp
              · rename_i e; cases e; exact absurd ⟨_, rfl⟩ hr
              · rename_i e; cases e; exact hb
            exact .other h1.1 h2.1 hv hp (fun r e => hr ⟨r, e⟩) hb'.1 (ih hb'.2 h1.2 h2.2)

theorem movedValue_tag {d m v v'} (h : MovedValue d m v v') : v'.tag = v.tag := by
  cases h <;> rfl

theorem checkUnsupported_cons {d : Dms} {s : Str} {v : Value} (h : tryFrom s = .ok (.ok v)) (ss : List Str) :
    checkUnsupported d (s :: ss) = .ok () ↔ (∀ t, v.tag = some t → d.multiCfg.supportedMultiTags t = true) ∧
      (v.tag = some .np ∨ checkUnsupported d ss = .ok ()) := by
  rw [checkUnsupported, h]
  simp only [Out.ofRes_ok, Out.ok_bind, ofExcept]
  cases v.tag with
  | none => simp
  | some t =>
    cases hs : d.multiCfg.supportedMultiTags t
    · simp [hs]
    · by_cases ht : t = .np
      · simp [ht, ← hs]
      · simp [ht, hs]

theorem checkUnsupported_moved {d m b ss ss'} (h : MovedSlices d m b ss ss') (hk : checkUnsupported d ss = .ok ()) :
    checkUnsupported d ss' = .ok () := by
  induction h with
  | nil => rfl
  | page h1 h2 _ ih =>
    rw [checkUnsupported_cons h1] at hk
    rw [checkUnsupported_cons h2]
    exact ⟨hk.1, hk.2.imp id ih⟩
  | rect h1 h2 _ _ ih =>
    rw [checkUnsupported_cons h1] at hk
    rw [checkUnsupported_cons h2]
    exact ⟨hk.1, hk.2.imp id ih⟩
  | other h1 h2 h3 _ _ _ _ ih =>
    rw [checkUnsupported_cons h1] at hk
    rw [checkUnsupported_cons h2, movedValue_tag h3]
    exact ⟨hk.1, hk.2.imp id ih⟩

theorem updatePageStateLoop_moved {d m b ss ss'} {ds : RenderState} (h : MovedSlices d m b ss ss') (rs : RenderState) :
    updatePageStateLoop ds ss' rs = updatePageStateLoop ds ss rs := by
  induction h generalizing rs with
  | nil => rfl
  | page h1 h2 _ ih => unfold updatePageStateLoop; rw [h1, h2]
  | rect h1 h2 _ _ ih => unfold updatePageStateLoop; rw [h1, h2]; exact ih rs
  | other h1 h2 h3 _ _ _ _ ih =>
    unfold updatePageStateLoop
    rw [h1, h2]
    cases h3 with
    | same _ => simp only [ih]
    | text => exact ih rs
    | color => exact ih rs
    | graphic => exact ih rs

/-! ### color rectangles and graphics -/

theorem extWidth_set {r : Rectangle} {W} (h : 0 < r.width.toNat) : extWidth r W = r.width.toNat := by
  unfold extWidth; rw [if_neg (by omega)]

theorem extHeight_set {r : Rectangle} {W} (h : 0 < r.height.toNat) : extHeight r W = r.height.toNat := by
  unfold extHeight; rw [if_neg (by omega)]

theorem renderRect_moved {d : Dms} (hd : DrawOk d) {m : Shift} {r r' : Rectangle} (hm : MovedRect m r r')
    (h1 : 0 < r.width.toNat) (h2 : 0 < r.height.toNat)
    (hi : InsideRect d.vmsCfg.signWidthPixels.toNat d.vmsCfg.signHeightPixels.toNat r') {clr v v'} {p q p' : Raster}
    (h : renderRect p r clr v = .ok q) (hp : MovedRaster m p p')
    (w1 : p.width = d.vmsCfg.signWidthPixels.toNat) (w2 : p.height = d.vmsCfg.signHeightPixels.toNat) :
    ∃ q', renderRect p' r' clr v' = .ok q' ∧ MovedRaster m q q' := by
  have dw := hd.width
  have dh := hd.height
  have hsz := hd.size
  have hin := renderRect_inside (by omega) (by omega) (by rw [w1, w2]; exact hd.size) h
  have e1 := hp.width
  have e2 := hp.height
  have g1 : 0 < r'.width.toNat := by rw [hm.width]; exact h1
  have g2 : 0 < r'.height.toNat := by rw [hm.height]; exact h2
  have mx := hm.x
  have my := hm.y
  have mw : r'.width.toNat = r.width.toNat := by rw [hm.width]
  have mh : r'.height.toNat = r.height.toNat := by rw [hm.height]
  have a1 := hin.x
  have a2 := hin.y
  have a3 := hin.right
  have a4 := hin.bottom
  have b1 := hi.x
  have b2 := hi.y
  have b3 := hi.right
  have b4 := hi.bottom
  rw [extWidth_set (by assumption)] at a3 b3
  rw [extHeight_set (by assumption)] at a4 b4
  obtain ⟨q1, k1, k2, k3, k4⟩ := (C49_fill_partial p r clr v (by omega) (by omega) (by omega)
    (by rintro e; rw [e] at a1; simp at a1) (by rintro e; rw [e] at a2; simp at a2)
    (by rw [extWidth_set h1]; omega) (by rw [extHeight_set h2]; omega)).1 hin
  rw [h] at k1
  cases k1
  obtain ⟨q', l1, l2, l3, l4⟩ := (C49_fill_partial p' r' clr v' (by omega) (by omega) (by omega)
    (by rintro e; rw [e] at b1; simp at b1) (by rintro e; rw [e] at b2; simp at b2)
    (by rw [extWidth_set g1]; omega) (by rw [extHeight_set g2]; omega)).1 (by rw [e1, e2, w1, w2]; exact hi)
  refine ⟨q', l1, by rw [l2, k2, e1], by rw [l3, k3, e2], fun i j i' j' ei ej => ?_⟩
  have hiff : PixelIn p'.width p'.height r' i' j' ↔ PixelIn p.width p.height r i j := by
    unfold PixelIn
    rw [extWidth_set h1, extHeight_set h2, extWidth_set g1, extHeight_set g2]
    omega
  by_cases hin : PixelIn p.width p.height r i j
  · rw [(k4 i j).1 hin, (l4 i' j').1 (hiff.2 hin)]
  · rw [(k4 i j).2 hin, (l4 i' j').2 (fun h => hin (hiff.1 h))]
    exact hp.px i j i' j' ei ej

theorem renderGraphic_moved {W H : Nat} {m : Shift} {g : Graphic} (hg : GraphicOk W H g) {ctx : ColorCtx}
    {x y x' y' : Nat} (hx : x' + m.x = x + m.x') (hy : y' + m.y = y + m.y') (x1 : 1 ≤ x) (y1 : 1 ≤ y) (x1' : 1 ≤ x')
    (y1' : 1 ≤ y') {p q p' : Raster} (h : g.renderGraphic p x y ctx = .ok q) (hp : MovedRaster m p p')
    (hw : x' - 1 + g.width.toNat ≤ p.width) (hh : y' - 1 + g.height.toNat ≤ p.height) :
    ∃ q', g.renderGraphic p' x' y' ctx = .ok q' ∧ MovedRaster m q q' := by
  have hb : ¬ (p.width < x - 1 + g.width.toNat ∨ p.height < y - 1 + g.height.toNat) := by
    intro hb
    rw [(C37_too_big_iff g p x y x1 y1 ctx .tooBig).2 ⟨rfl, hb⟩] at h
    cases h
  have e1 := hp.width
  have e2 := hp.height
  obtain ⟨q1, k1, k2, k3, k4, k5⟩ := C37_placement _ _ g hg p x y x1 y1 ctx (by omega) (by omega)
  rw [h] at k1
  cases k1
  obtain ⟨q', l1, l2, l3, l4, l5⟩ := C37_placement _ _ g hg p' x' y' x1' y1' ctx (by omega) (by omega)
  refine ⟨q', l1, by rw [l2, k2, e1], by rw [l3, k3, e2], fun i j i' j' ei ej => ?_⟩
  by_cases hin : x - 1 ≤ i ∧ i < x - 1 + g.width.toNat ∧ y - 1 ≤ j ∧ j < y - 1 + g.height.toNat
  · obtain ⟨xx, rfl⟩ := Nat.le.dest hin.1
    obtain ⟨yy, rfl⟩ := Nat.le.dest hin.2.2.1
    obtain rfl : i' = x' - 1 + xx := by omega
    obtain rfl : j' = y' - 1 + yy := by omega
    obtain ⟨c, hcv⟩ := valid_pixel _ _ g hg xx yy (by omega) (by omega)
    obtain ⟨c1, c2⟩ := k5 xx yy c (by omega) (by omega) hcv
    obtain ⟨d1, d2⟩ := l5 xx yy c (by omega) (by omega) hcv
    have hpx := hp.px _ _ _ _ ei ej
    by_cases ht : g.transparentColor = some c
    · rw [c1 ht, d1 ht, hpx]
    · rw [c2 ht, d2 ht, hpx]
  · rw [k4 i j hin, l4 i' j' (by omega)]
    exact hp.px i j i' j' ei ej

theorem setForeground_other {ctx ctx' : ColorCtx} {c : Option Color} {v v' : Value}
    (h : ctx.setForeground c v = .ok ctx') : ctx.setForeground c v' = .ok ctx' := by
  unfold ColorCtx.setForeground at h ⊢
  split at h <;> first | exact h | (split at h <;> first | exact h | cases h) | cases h

theorem renderGraphicsLoop_moved {d : Dms} (hd : DrawOk d) {m b} {ss ss' : List Str} (hm : MovedSlices d m b ss ss')
    (hs : ∀ t ∈ ss, Item t) (hs' : ∀ t ∈ ss', Item t) {ctx : ColorCtx} {p q p' : Raster}
    (h : renderGraphicsLoop d ss ctx p = .ok q) (hp : MovedRaster m p p')
    (w1 : p.width = d.vmsCfg.signWidthPixels.toNat) (w2 : p.height = d.vmsCfg.signHeightPixels.toNat) :
    ∃ q', renderGraphicsLoop d ss' ctx p' = .ok q' ∧ MovedRaster m q q' := by
  induction hm generalizing ctx p p' with
  | nil =>
    simp only [renderGraphicsLoop, Out.ok.injEq] at h
    subst h
    exact ⟨p', rfl, hp⟩
  | page h1 h2 _ ih =>
    rw [renderGraphicsLoop, h1] at h
    rw [renderGraphicsLoop, h2]
    simp only [Out.ofRes_ok, Out.ok_bind, ofExcept, Out.ok.injEq] at h ⊢
    subst h
    exact ⟨p', rfl, hp⟩
  | rect h1 h2 _ _ ih =>
    rw [renderGraphicsLoop, h1] at h
    rw [renderGraphicsLoop, h2]
    simp only [Out.ofRes_ok, Out.ok_bind, ofExcept, Out.ok.injEq] at h ⊢
    subst h
    exact ⟨p', rfl, hp⟩
  | @other b s s' ss ss' v v' h1 h2 h3 np ntr _ _ ih =>
    have ih := fun {ctx} {p p' : Raster} => ih (fun t h => hs t (List.mem_cons_of_mem _ h))
      (fun t h => hs' t (List.mem_cons_of_mem _ h)) (ctx := ctx) (p := p) (p' := p')
    have hrange := C04_in_range s v (hs s (List.mem_cons_self ..)) h1
    have hrange' := C04_in_range s' v' (hs' s' (List.mem_cons_self ..)) h2
    rw [renderGraphicsLoop, h1] at h
    rw [renderGraphicsLoop, h2]
    simp only [Out.ofRes_ok, Out.ok_bind, ofExcept] at h ⊢
    cases h3 with
    | text => exact absurd rfl (ntr _)
    | @color r r' c hr k1 k2 k3 =>
      simp only [Out.bind_eq_ok] at h
      obtain ⟨ctx', e1, mid, e2, e3⟩ := h
      have e1' := setForeground_other (v' := .colorRectangle r' c) (ofExcept_eq_ok.1 e1)
      dsimp only
      simp only [e1', Out.ok_bind]
      obtain ⟨q', l1, l2⟩ := renderRect_moved hd hr k1 k2 k3 (v' := .colorRectangle r' c) e2 hp w1 w2
      have hpm := renderRect_painted e2
      rw [l1, Out.ok_bind]
      exact ih e3 l2 (hpm.width.trans w1) (hpm.height.trans w2)
    | @graphic n x y x' y' gid k1 k2 k3 =>
      simp only [Out.bind_eq_ok, mapErr_eq_ok] at h
      obtain ⟨g, e1, mid, e2, e3⟩ := h
      have hn0 : n.toNat ≠ 0 := by have := hrange.1; omega
      obtain ⟨⟨g1, g2⟩, _⟩ := lookupGraphic_of e1
      obtain ⟨b1, b2⟩ := hrange.2 x y gid rfl
      obtain ⟨b1', b2'⟩ := hrange'.2 x' y' gid rfl
      obtain ⟨c1, c2⟩ := k3 g g1 g2
      have hpm := renderGraphic_painted e2
      obtain ⟨q', l1, l2⟩ := renderGraphic_moved (hd.graphics.graphics g g1 (by rw [g2]; exact hn0)) k1 k2 b1 b2 b1' b2' e2 hp
        (by rw [w1]; exact c1) (by rw [w2]; exact c2)
      dsimp only
      rw [e1]
      simp only [Out.ok_bind]
      rw [l1, Out.mapErr_ok, Out.ok_bind]
      exact ih e3 l2 (hpm.width.trans w1) (hpm.height.trans w2)
    | same hf =>
      cases v
      case colorBackground c =>
        simp only [Out.bind_eq_ok] at h
        obtain ⟨ctx', k1, k2⟩ := h
        simp only [k1, Out.ok_bind]
        exact ih k2 hp w1 w2
      case colorForeground c =>
        simp only [Out.bind_eq_ok] at h
        obtain ⟨ctx', k1, k2⟩ := h
        simp only [k1, Out.ok_bind]
        exact ih k2 hp w1 w2
      case colorRectangle r c => exact hf.elim
      case graphic n pos => exact hf.elim
      case textRectangle r => exact hf.elim
      case newPage => exact absurd rfl np
      all_goals first
        | (exfalso; simp at h; done)
        | exact ih h hp w1 w2

/-! ### text rectangles -/

theorem rtrStep_moved {d : Dms} {ds : RenderState} {R : Rectangle} {po st v c st1}
    (h : rtrStep d ds po st v = .ok (c, st1)) (hc : ∀ e, c ≠ .fail e) (hv : ∀ r, v ≠ .textRectangle r) :
    rtrStep d ds po (st.within R R) v = .ok (c, st1.within R R) ∧
      st1.rs.textRectangle = st.rs.textRectangle ∧ (¬ Writes v → st1.spans = st.spans) ∧
      (c = .cont → st1.pageState = st.pageState) ∧
      (c = .brk → v = .newPage ∧ st1.pageState = .newPage po) := by
  have fin : ∀ {a : Ctl × Rtr}, (.ok a : Res (Ctl × Rtr)) = .ok (c, st1) →
      a.2.rs.textRectangle = st.rs.textRectangle → (¬ Writes v → a.2.spans = st.spans) →
      (a.1 = .cont → a.2.pageState = st.pageState) → (a.1 = .brk → v = .newPage ∧ a.2.pageState = .newPage po) →
      (.ok (a.1, a.2.within R R) : Res (Ctl × Rtr)) = .ok (c, st1.within R R) ∧
        st1.rs.textRectangle = st.rs.textRectangle ∧ (¬ Writes v → st1.spans = st.spans) ∧
        (c = .cont → st1.pageState = st.pageState) ∧
        (c = .brk → v = .newPage ∧ st1.pageState = .newPage po) := by
    intro a ha hr hw hp hb
    simp only [Res.ok.injEq] at ha
    subst ha
    exact ⟨rfl, hr, hw, hp, hb⟩
  have nofail : ∀ {e s}, (.ok (.fail e, s) : Res (Ctl × Rtr)) = .ok (c, st1) → False := by
    intro e s he
    simp only [Res.ok.injEq, Prod.mk.injEq] at he
    exact hc _ he.1.symm
  unfold rtrStep at h ⊢
  split at h <;> dsimp only at h ⊢
  · rename_i clr
    rw [show (st.within R R).rs.colorCtx = st.rs.colorCtx from rfl]
    split at h
    · exact fin h rfl (fun _ => rfl) (fun _ => rfl) (fun e => by cases e)
    · exact (nofail h).elim
  · exact fin h rfl (fun _ => rfl) (fun _ => rfl) (fun e => by cases e)
  · exact fin h rfl (fun _ => rfl) (fun _ => rfl) (fun e => by cases e)
  · exact (nofail h).elim
  · exact (nofail h).elim
  · exact fin h rfl (fun _ => rfl) (fun _ => rfl) (fun e => by cases e)
  · exact (nofail h).elim
  · rename_i jp _
    rw [show (st.within R R).rs.justPage = st.rs.justPage from rfl]
    split at h
    · rename_i e; rw [if_pos e]; exact fin h rfl (fun _ => rfl) (fun _ => rfl) (fun e => by cases e)
    · rename_i e; rw [if_neg e]; exact fin h rfl (fun _ => rfl) (fun _ => rfl) (fun e => by cases e)
  · rename_i ls
    split at h
    · exact (nofail h).elim
    · rename_i e
      rw [if_neg e, show (st.within R R).rs.lineNumber = st.rs.lineNumber from rfl,
        show (st.within R R).lineBlank = st.lineBlank from rfl]
      cases hk : chk8 (st.rs.lineNumber + 1) with
      | panic p => rw [hk] at h; cases h
      | ok ln =>
        rw [hk] at h
        simp only [Res.ok_bind, Res.pure_eq] at h ⊢
        have := fin h rfl (fun h => absurd trivial h) (fun _ => rfl) (fun e => by cases e)
        refine ⟨Eq.mp ?_ this.1, this.2⟩
        cases st.lineBlank
        · rfl
        · simp only [Rtr.within, if_true, List.map_append]; rfl
  · exact fin h rfl (fun _ => rfl) (fun e => by cases e) (fun _ => ⟨rfl, rfl⟩)
  · split at h
    · exact (nofail h).elim
    · rename_i e; rw [if_neg e]; exact fin h rfl (fun _ => rfl) (fun _ => rfl) (fun e => by cases e)
  · exact fin h rfl (fun _ => rfl) (fun _ => rfl) (fun e => by cases e)
  · exact absurd rfl (hv _)
  · rename_i t
    rw [show (st.within R R).rs.spanNumber = st.rs.spanNumber from rfl]
    cases hk : chk8 (st.rs.spanNumber + 1) with
    | panic p => rw [hk] at h; cases h
    | ok ln =>
      rw [hk] at h
      simp only [Res.ok_bind, Res.pure_eq] at h ⊢
      have := fin h rfl (fun h => absurd trivial h) (fun _ => rfl) (fun e => by cases e)
      refine ⟨Eq.mp ?_ this.1, this.2⟩
      simp only [Rtr.within, List.map_append]; rfl
  · rename_i hc'
    split at h
    · rw [show (st.within R R).rs.spanNumber = st.rs.spanNumber from rfl]
      cases hk : chk8 (st.rs.spanNumber + 1) with
      | panic p => rw [hk] at h; cases h
      | ok ln =>
        rw [hk] at h
        simp only [Res.ok_bind, Res.pure_eq] at h ⊢
        have := fin h rfl (fun h => absurd trivial h) (fun _ => rfl) (fun e => by cases e)
        refine ⟨Eq.mp ?_ this.1, this.2⟩
        simp only [Rtr.within, List.map_append]; rfl
    · exact (nofail h).elim
  · exact fin h rfl (fun _ => rfl) (fun _ => rfl) (fun e => by cases e)

theorem extend_set {r full : Rectangle} (h1 : 0 < r.width.toNat) (h2 : 0 < r.height.toNat) :
    r.extendWidthHeight full = r := by
  have a : 0 < r.width := UInt16.lt_iff_toNat_lt.2 h1
  have b : 0 < r.height := UInt16.lt_iff_toNat_lt.2 h2
  unfold Rectangle.extendWidthHeight
  simp [a, b]

theorem updateTextRectangle_set {d : Dms} (hd : DrawOk d) {r : Rectangle} (h1 : 0 < r.width.toNat)
    (h2 : 0 < r.height.toNat)
    (ht : TextRect d d.vmsCfg.signWidthPixels.toNat d.vmsCfg.signHeightPixels.toNat r) :
    updateTextRectangle d (RenderState.new d).textRectangle r = .ok (some r) := by
  have a1 := ht.right
  have a2 := ht.bottom
  have b1 := ht.x
  have b2 := ht.y
  have dw := hd.width
  have dh := hd.height
  have e := (updateTextRectangle_eq (d := d) dw dh hd.size (by omega) (by omega)).1 ht
  rw [extend_set h1 h2] at e
  exact e

def SameSize (r r' : Rectangle) : Prop := r'.width = r.width ∧ r'.height = r.height

theorem rtrLoop_moved {d : Dms} (hd : DrawOk d) {m b} {ss ss' : List Str} (hm : MovedSlices d m b ss ss')
    {R : Rectangle} {po} {st st1 : Rtr} {rest} (hR : SameSize st.rs.textRectangle R)
    (h : rtrLoop d (RenderState.new d) po ss st = .ok (.ok (), st1, rest)) (hp : st.pageState ≠ .on false) :
    ∃ R1 rest' b1, rtrLoop d (RenderState.new d) po ss' (st.within R R) = .ok (.ok (), st1.within R R1, rest') ∧
      MovedSlices d m b1 rest rest' ∧ (b = false → st.spans = [] → st1.spans = []) ∧
      (b1 = true → MovedRect m st1.rs.textRectangle R1) ∧ (st1.pageState ≠ .on false → b1 = false) ∧
      SameSize st1.rs.textRectangle R1 := by
  induction hm generalizing st with
  | nil =>
    simp only [rtrLoop, Res.ok.injEq, Prod.mk.injEq, true_and] at h
    obtain ⟨rfl, rfl⟩ := h
    exact ⟨R, [], false, rfl, .nil, fun _ h => h, fun e => (by cases e), fun _ => rfl, hR⟩
  | page h1 h2 hrest ih =>
    rw [rtrLoop, h1] at h
    rw [rtrLoop, h2]
    simp only [rtrStep, Res.ok.injEq, Prod.mk.injEq, true_and] at h ⊢
    obtain ⟨rfl, rfl⟩ := h
    exact ⟨R, _, false, ⟨rfl, rfl⟩, hrest, fun _ h => h, fun e => (by cases e), fun _ => rfl, hR⟩
  | @rect b s s' ss ss' r r' h1 h2 h3 hrest ih =>
    rw [rtrLoop, h1] at h
    rw [rtrLoop, h2]
    cases h3 with
    | same h => exact h.elim
    | text hr k1 k2 k3 =>
      have g1 : 0 < r'.width.toNat := by rw [hr.width]; exact k1
      have g2 : 0 < r'.height.toNat := by rw [hr.height]; exact k2
      simp only [rtrStep, updateTextRectangle_set hd g1 g2 k3, Res.ok_bind, Res.pure_eq] at h ⊢
      cases hu : updateTextRectangle d (RenderState.new d).textRectangle r with
      | panic e => rw [hu] at h; simp at h
      | ok o =>
        cases o with
        | none => rw [hu] at h; simp at h
        | some r1 =>
          have := updateTextRectangle_set hd k1 k2 (updateTextRectangle_textRect hd hu)
          rw [hu] at this
          simp only [Res.ok.injEq, Option.some.injEq] at this
          subst this
          rw [hu] at h
          simp only [Res.ok_bind, Res.ok.injEq, Prod.mk.injEq, true_and] at h
          obtain ⟨rfl, rfl⟩ := h
          exact ⟨r', _, true, rfl, hrest, fun _ h => h, fun _ => hr, fun h => absurd rfl h, hr.width, hr.height⟩
  | @other b s s' ss ss' v v' h1 h2 h3 np ntr hw hrest ih =>
    rw [rtrLoop, h1] at h
    rw [rtrLoop, h2]
    dsimp only at h ⊢
    have key : ∀ {c st2}, rtrStep d (RenderState.new d) po st v = .ok (c, st2) → (∀ e, c ≠ .fail e) →
        rtrStep d (RenderState.new d) po (st.within R R) v' = .ok (c, st2.within R R) ∧
        (¬ Writes v → st2.spans = st.spans) ∧ (c = .cont → st2.pageState = st.pageState) ∧ c ≠ .brk ∧
        st2.rs.textRectangle = st.rs.textRectangle := by
      intro c st2 hs hc
      obtain ⟨k1, k2, k3, k4, k5⟩ := rtrStep_moved (R := R) hs hc ntr
      refine ⟨?_, k3, k4, fun e => np (k5 e).1, k2⟩
      cases h3 with
      | same _ => exact k1
      | text => exact absurd rfl (ntr _)
      | color => exact k1
      | graphic => exact k1
    split at h
    · cases h
    · rename_i st2 hs
      obtain ⟨k1, k2, k3, _, k4⟩ := key hs (by simp)
      rw [k1]
      obtain ⟨R1, rest', b1, i1, i2, i3, i4⟩ := ih (by rw [k4]; exact hR) h (by rw [k3 rfl]; exact hp)
      refine ⟨R1, rest', b1, i1, i2, fun hb hsp => i3 hb ?_, i4⟩
      rw [k2 (fun hwr => by have := hw hwr; rw [hb] at this; cases this)]
      exact hsp
    · rename_i st2 hs
      exact absurd rfl (key hs (by simp)).2.2.2.1
    · simp at h

/-- the iterators of both messages: the same but for the text rectangle and what is moved -/
structure MovedRun (d : Dms) (m : Shift) (b : Bool) (pg pg' : Pages) : Prop where
  ok : PagesOk d pg
  ok' : PagesOk d pg'
  state : pg'.renderState = pg.renderState.within pg'.renderState.textRectangle
  pageState : pg'.pageState = pg.pageState
  values : MovedSlices d m b pg.values pg'.values
  rect : b = true → MovedRect m pg.renderState.textRectangle pg'.renderState.textRectangle
  size : SameSize pg.renderState.textRectangle pg'.renderState.textRectangle

theorem renderTextRectangle_moved {d : Dms} (hd : DrawOk d) (hf : FontsOk d.fontDefinition)
    (h0 : 1 ≤ d.multiCfg.defaultFont.toNat) (hc : CellHeights d) {m b} {pg pg' pg1 : Pages} {p q p' : Raster}
    (hb : MovedRun d m b pg pg') (h : renderTextRectangle d pg p = .ok (.ok q, pg1)) (hp : MovedRaster m p p')
    (w1 : p.width = d.vmsCfg.signWidthPixels.toNat) (w2 : p.height = d.vmsCfg.signHeightPixels.toNat) :
    ∃ q' pg1' b1, renderTextRectangle d pg' p' = .ok (.ok q', pg1') ∧ MovedRun d m b1 pg1 pg1' ∧
      (pg1.pageState ≠ .on false → b1 = false) ∧ MovedRaster m q q' := by
  have hok1 := renderTextRectangle_state hb.ok h
  obtain ⟨st, values, hr, rfl, hs⟩ := renderTextRectangle_ok h
  rw [hb.ok.default] at hr
  obtain ⟨R1, rest', b1, k1, k2, k3, k4, k5, k6⟩ := rtrLoop_moved hd (R := pg'.renderState.textRectangle) hb.values
    hb.size hr
    (by cases decide (pg.renderState.pageOffTimeDs > 0) <;> simp [PageState.doneState])
  obtain ⟨_, _, _, hrect, _⟩ := rtrLoop_ok hr
  obtain ⟨_, hst, _⟩ := rtrLoop_state hb.ok.items hr hb.ok.state
  have hall : ∀ s ∈ st.spans, StateOk d s.state ∧ ∀ ch ∈ s.str, ch.toNat ≠ 0 := hst (by simp)
  have hsame : ∀ s ∈ st.spans, s.state.textRectangle = pg.renderState.textRectangle := by
    intro s hs
    rcases hrect s hs with hx | hx
    · simp at hx
    · exact hx
  have hspans : ∃ q', renderTextSpans d (st.spans.map (Span.within pg'.renderState.textRectangle)) p' = .ok q' ∧
      MovedRaster m q q' := by
    unfold renderTextSpans at hs ⊢
    rw [checkJustification, checkJustLoop_within, ← checkJustification]
    split at hs
    · cases hs
    · rename_i hcheck
      cases b with
      | false =>
        rw [k3 rfl rfl] at hs ⊢
        simp only [renderSpansLoop, Out.ok.injEq] at hs
        subst hs
        exact ⟨p', rfl, hp⟩
      | true =>
        exact renderSpansLoop_moved hd hc (hb.rect rfl) hb.ok.state.aligned hb.ok.state.rectIn hb.ok'.state.aligned
          hb.ok'.state.rectIn (spans := st.spans) (fun s hsm f hff => by
            obtain ⟨f1, f2⟩ := font_number hff
            refine hf.fonts f f1 ?_
            have := (hall s hsm).1.font h0
            rw [f2]; omega)
          (fun s hsm => (hall s hsm).2) hsame (fun _ h => h) hs hp w1 w2
  obtain ⟨q', s1, s2⟩ := hspans
  have key : renderTextRectangle d pg' p' = .ok (.ok q', ⟨pg'.defaultState, st.rs.within R1, st.pageState, rest',
      st.spans.map (Span.within pg'.renderState.textRectangle)⟩) := by
    unfold renderTextRectangle
    have hpo : pg'.renderState.pageOffTimeDs = pg.renderState.pageOffTimeDs := by rw [hb.state]; rfl
    have hrs : (⟨pg'.renderState, .doneState (decide (pg.renderState.pageOffTimeDs > 0)), [], true⟩ : Rtr) =
        Rtr.within pg'.renderState.textRectangle pg'.renderState.textRectangle
          ⟨pg.renderState, .doneState (decide (pg.renderState.pageOffTimeDs > 0)), [], true⟩ := by
      simp only [Rtr.within, ← hb.state, List.map_nil]
    dsimp only
    rw [hb.ok'.default, hpo, hrs, k1]
    simp only [Res.ok_bind, Rtr.within, s1, Res.pure_eq]
  have hok1' := renderTextRectangle_state hb.ok' key
  exact ⟨q', _, b1, key, ⟨hok1, hok1', rfl, rfl, k2, k4, k6⟩, k5, s2⟩

theorem onPageLoop_moved {d : Dms} (hd : DrawOk d) (hf : FontsOk d.fontDefinition)
    (h0 : 1 ≤ d.multiCfg.defaultFont.toNat) (hc : CellHeights d) {m b} {fuel n} (hfuel : maxTextRectangles + 1 ≤ fuel + n)
    (hn : n ≤ maxTextRectangles)
    {pg pg' pg1 : Pages} {p q p' : Raster}
    (hb : MovedRun d m b pg pg') (hbs : pg.pageState ≠ .on false → b = false) (h : onPageLoop d fuel n pg p = .ok (.ok q, pg1)) (hp : MovedRaster m p p')
    (w1 : p.width = d.vmsCfg.signWidthPixels.toNat) (w2 : p.height = d.vmsCfg.signHeightPixels.toNat) :
    ∃ q' pg1', onPageLoop d fuel n pg' p' = .ok (.ok q', pg1') ∧ MovedRun d m false pg1 pg1' ∧
      MovedRaster m q q' := by
  induction fuel generalizing n b pg pg' p p' with
  | zero => omega
  | succ fuel ih =>
    rw [onPageLoop] at h ⊢
    by_cases hps : pg.pageState = .on false
    · rw [if_pos hps] at h
      rw [if_pos (hb.pageState.trans hps)]
      cases hg : renderGraphicsLoop d pg.values pg.renderState.colorCtx p with
      | panic e => rw [hg] at h; simp at h
      | err e => rw [hg] at h; simp at h
      | ok mid =>
        rw [hg] at h
        have hpm := renderGraphicsLoop_painted (palette_true d) trivial hg
        obtain ⟨mid', g1, g2⟩ := renderGraphicsLoop_moved hd hb.values hb.ok.items hb.ok'.items hg hp w1 w2
        have hctx : pg'.renderState.colorCtx = pg.renderState.colorCtx := by rw [hb.state]; rfl
        rw [hctx, g1]
        simp only [Res.bind_eq_ok] at h ⊢
        obtain ⟨⟨e, pg2⟩, ht, h⟩ := h
        cases e with
        | error e => simp at h
        | ok m2 =>
          obtain ⟨m2', pg2', b1, t1, t2, tb, t3⟩ := renderTextRectangle_moved hd hf h0 hc hb ht g2
            (hpm.width.trans w1) (hpm.height.trans w2)
          obtain ⟨st, values, _, _, hr⟩ := renderTextRectangle_ok ht
          have hpt := renderTextSpans_painted hr
          dsimp only at h
          by_cases hm : n + 1 > maxTextRectangles
          · rw [if_pos hm] at h; simp at h
          · rw [if_neg hm] at h
            obtain ⟨q', pg3', j1, j2, j3⟩ := ih (by omega) (by omega) t2 tb h t3 (hpt.width.trans (hpm.width.trans w1))
              (hpt.height.trans (hpm.height.trans w2))
            refine ⟨q', pg3', ⟨(.ok m2', pg2'), t1, ?_⟩, j2, j3⟩
            dsimp only
            rw [if_neg hm]
            exact j1
    · rw [if_neg hps] at h
      rw [if_neg (by rw [hb.pageState]; exact hps)]
      simp only [Res.ok.injEq, Prod.mk.injEq, Except.ok.injEq] at h
      obtain ⟨rfl, rfl⟩ := h
      obtain rfl := hbs hps
      exact ⟨p', pg', rfl, hb, hp⟩

theorem renderOnPage_moved {d : Dms} (hd : DrawOk d) (hf : FontsOk d.fontDefinition)
    (h0 : 1 ≤ d.multiCfg.defaultFont.toNat) (hc : CellHeights d) {m} {pg pg' pg1 : Pages} {p : Page}
    (hb : MovedRun d m false pg pg') (h : renderOnPage d pg = .ok (.ok p, pg1)) :
    ∃ p' pg1', renderOnPage d pg' = .ok (.ok p', pg1') ∧ p'.durationDs = p.durationDs ∧ MovedRun d m false pg1 pg1' ∧
      MovedRaster m p.raster p'.raster := by
  have v1 := hb.values
  unfold renderOnPage at h ⊢
  cases hk : checkUnsupported d pg.values with
  | panic e => rw [hk] at h; cases h
  | err e => rw [hk] at h; simp at h
  | ok u =>
    rw [hk] at h
    rw [checkUnsupported_moved v1 hk]
    simp only [Res.bind_eq_ok] at h ⊢
    obtain ⟨⟨x, rs⟩, hu, h⟩ := h
    cases x with
    | error e => simp at h
    | ok u =>
      rw [hb.ok.default] at hu
      obtain ⟨s1, s2, _⟩ := updatePageState_state hb.ok.state hu
      have hu' : updatePageState pg'.defaultState pg'.renderState pg'.values = .ok (.ok (), rs) := by
        unfold updatePageState at hu ⊢
        rw [hb.ok'.default, updatePageStateLoop_moved v1, hb.state]
        exact hu
      have hb1 : MovedRun d m false { pg with renderState := rs, pageState := .on false }
          { pg' with renderState := rs, pageState := .on false } := by
        refine ⟨⟨hb.ok.default, s1, hb.ok.items⟩, ⟨hb.ok'.default, s1, hb.ok'.items⟩, rfl, rfl, v1,
          fun e => (by cases e), rfl, rfl⟩
      simp only [Res.bind_eq_ok] at h
      obtain ⟨⟨y, pg2⟩, ho, h⟩ := h
      cases y with
      | error e => simp at h
      | ok q =>
        simp only [Res.pure_eq, Res.ok.injEq, Prod.mk.injEq, Except.ok.injEq] at h
        obtain ⟨rfl, rfl⟩ := h
        obtain ⟨q', pg2', o1, o2, o4⟩ := onPageLoop_moved hd hf h0 hc (by omega) (by omega) hb1 (fun _ => rfl) ho
          (p' := buildRaster rs) ⟨rfl, rfl, fun _ _ _ _ _ _ => rfl⟩
          (by show (buildRaster rs).width = _; simp only [buildRaster, Raster.withColor, s2]; rfl)
          (by show (buildRaster rs).height = _; simp only [buildRaster, Raster.withColor, s2]; rfl)
        refine ⟨⟨q', pg2'.renderState.pageOnTimeDs.toNat⟩, pg2', ⟨_, hu', ?_⟩, ?_, o2, o4⟩
        · dsimp only
          simp only [Res.bind_eq_ok]
          exact ⟨_, o1, rfl⟩
        · show pg2'.renderState.pageOnTimeDs.toNat = pg2.renderState.pageOnTimeDs.toNat
          rw [o2.state]; rfl

theorem next_moved {d : Dms} (hd : DrawOk d) (hf : FontsOk d.fontDefinition)
    (h0 : 1 ≤ d.multiCfg.defaultFont.toNat) (hc : CellHeights d) {m} {pg pg' pg1 : Pages} {p : Page}
    (hb : MovedRun d m false pg pg') (h : Pages.next d pg = .ok (some (.ok p), pg1)) :
    ∃ p' pg1', Pages.next d pg' = .ok (some (.ok p'), pg1') ∧ p'.durationDs = p.durationDs ∧ MovedRun d m false pg1 pg1' ∧
      MovedRaster m p.raster p'.raster := by
  rcases next_cases h with ⟨hon, h1⟩ | ⟨hoff, ⟨b, hps'⟩, hp, rfl⟩
  · obtain ⟨p', pg1', k1, k2⟩ := renderOnPage_moved hd hf h0 hc hb h1
    refine ⟨p', pg1', ?_, k2⟩
    unfold Pages.next
    rw [hb.pageState]
    cases hq : pg.pageState with
    | on b => simp only [k1, Res.ok_bind, Res.pure_eq]
    | off b => rw [hq] at hon; simp [isOn] at hon
    | done => rw [hq] at hon; simp [isOn] at hon
  · simp only [Except.ok.injEq] at hp
    subst hp
    have h' : Pages.next d pg' = .ok (some (.ok (renderOffPage pg').1), (renderOffPage pg').2) := by
      unfold Pages.next
      rw [hb.pageState, hps']
    refine ⟨_, _, h', ?_, ⟨next_state hb.ok h, next_state hb.ok' h', hb.state, ?_, hb.values, hb.rect, hb.size⟩, ?_⟩
    · show pg'.renderState.pageOffTimeDs.toNat = pg.renderState.pageOffTimeDs.toNat
      rw [hb.state]; rfl
    · show pg'.pageState.nextState = pg.pageState.nextState
      rw [hb.pageState]
    · refine ⟨by show pg'.renderState.textRectangle.width.toNat = _; rw [hb.size.1]; rfl,
        by show pg'.renderState.textRectangle.height.toNat = _; rw [hb.size.2]; rfl, fun _ _ _ _ _ _ => ?_⟩
      show pg'.renderState.colorCtx.backgroundRgb = pg.renderState.colorCtx.backgroundRgb
      rw [hb.state]; rfl

theorem steps_moved {d : Dms} (hd : DrawOk d) (hf : FontsOk d.fontDefinition)
    (h0 : 1 ≤ d.multiCfg.defaultFont.toNat) (hc : CellHeights d) {m} {pg pg1 : Pages} {xs}
    (h : Steps d pg xs pg1) (hn : NoError xs) : ∀ {pg'}, MovedRun d m false pg pg' →
    ∃ xs' pg1', Steps d pg' xs' pg1' ∧ MovedRun d m false pg1 pg1' ∧ All2 (MovedPage m) xs xs' := by
  induction h with
  | nil => intro pg' hb; exact ⟨[], pg', .nil, hb, .nil⟩
  | @cons pg pg1 pg2 x xs hx _ ih =>
    intro pg' hb
    obtain ⟨p, hp⟩ := hn (isOn pg.pageState, x) (List.mem_cons_self ..)
    dsimp only at hp
    subst hp
    obtain ⟨p', pg1', k1, k2, k3, k5⟩ := next_moved hd hf h0 hc hb hx
    obtain ⟨xs', pg2', i1, i2, i3⟩ := ih (fun y hy => hn y (List.mem_cons_of_mem _ hy)) k3
    exact ⟨_, pg2', .cons k1 i1, i2, .cons ⟨by rw [hb.pageState], p, p', rfl, rfl, k2, k5⟩ i3⟩

end Ntcip
