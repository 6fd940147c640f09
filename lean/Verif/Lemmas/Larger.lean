import Verif.Lemmas.Accept
import Verif.Lemmas.Local
/-
A message rendered on a sign and on a larger sign.
-/
namespace Ntcip.Spec

/-- `d'` is a sign like `d`, but larger: fonts, graphics, colors, defaults and character cells are the same,
width and height are not smaller and multiples of those of the character cells -/
structure Larger (d d' : Dms) : Prop where
  multi : d'.multiCfg = d.multiCfg
  fonts : d'.fontDefinition = d.fontDefinition
  graphics : d'.graphicDefinition = d.graphicDefinition
  charWidth : d'.vmsCfg.charWidthPixels = d.vmsCfg.charWidthPixels
  charHeight : d'.vmsCfg.charHeightPixels = d.vmsCfg.charHeightPixels
  foreground : d'.vmsCfg.monoForeground = d.vmsCfg.monoForeground
  background : d'.vmsCfg.monoBackground = d.vmsCfg.monoBackground
  width : d.vmsCfg.signWidthPixels.toNat ≤ d'.vmsCfg.signWidthPixels.toNat
  height : d.vmsCfg.signHeightPixels.toNat ≤ d'.vmsCfg.signHeightPixels.toNat
  widthCells : d'.vmsCfg.signWidthPixels.toNat % signCellWidth d = 0
  heightCells : d'.vmsCfg.signHeightPixels.toNat % signCellHeight d = 0
  width16 : d'.vmsCfg.signWidthPixels.toNat < 65535
  height16 : d'.vmsCfg.signHeightPixels.toNat < 65535

/-- is it an ON page, and how long is it shown? (`none`: an error) -/
def timed (x : Bool × Except SyntaxError Page) : Bool × Option Nat :=
  (x.1, match x.2 with
    | .ok p => some p.durationDs
    | .error _ => none)

end Ntcip.Spec

namespace Ntcip
open Spec

/-- a rectangle with the same corner that is not smaller -/
structure Wider (R R' : Rectangle) : Prop where
  x : R'.x = R.x
  y : R'.y = R.y
  width : R.width.toNat ≤ R'.width.toNat
  height : R.height.toNat ≤ R'.height.toNat

/-- the state with another text rectangle -/
def RenderState.within (R : Rectangle) (rs : RenderState) : RenderState := { rs with textRectangle := R }

/-- the span in another text rectangle -/
def Span.within (R : Rectangle) (s : Span) : Span := { s with state := s.state.within R }

section Offsets
variable (R : Rectangle) (t : FontTable)

theorem width_within (s : Span) : (s.within R).width t = s.width t := by
  simp only [Span.within, RenderState.within, Span.width, Span.charSpacingFonts, RenderState.font]

theorem between_within (s p : Span) : (s.within R).charSpacingBetween (p.within R) t = s.charSpacingBetween p t := by
  simp only [Span.within, RenderState.within, Span.charSpacingBetween, Span.charSpacingFonts, RenderState.font]

theorem height_within (s : Span) : (s.within R).height t = s.height t := by
  simp only [Span.within, RenderState.within, Span.height, RenderState.font]

theorem fontSpacing_within (s : Span) : (s.within R).fontSpacing t = s.fontSpacing t := by
  simp only [Span.within, RenderState.within, Span.fontSpacing, RenderState.font]

theorem offsetHorizLoop_within (rs : RenderState) (l : List Span) (p : Option Span) (b a : Nat) :
    offsetHorizLoop t (rs.within R) (l.map (Span.within R)) (p.map (Span.within R)) b a =
      offsetHorizLoop t rs l p b a := by
  induction l generalizing p b a with
  | nil => rfl
  | cons s l ih =>
    have ih' := ih (some s)
    rw [Option.map_some] at ih'
    cases p with
    | none =>
      simp only [List.map_cons, Option.map_none, offsetHorizLoop, width_within, ih']
      rfl
    | some p =>
      simp only [List.map_cons, Option.map_some, offsetHorizLoop, width_within, between_within, ih']
      rfl

theorem textLines_within (l : List Span) (ls : List TextLine) :
    textLines t (l.map (Span.within R)) ls = textLines t l ls := by
  induction l generalizing ls with
  | nil => rfl
  | cons s l ih =>
    rw [List.map_cons, textLines, textLines, height_within, fontSpacing_within]
    simp only [ih]
    rfl

theorem filter_within (p q : Span → Bool) (h : ∀ s, p (s.within R) = q s) (l : List Span) :
    (l.map (Span.within R)).filter p = (l.filter q).map (Span.within R) := by
  induction l with
  | nil => rfl
  | cons s l ih =>
    rw [List.map_cons, List.filter_cons, List.filter_cons, h, ih]
    split <;> rfl

end Offsets

theorem offsetHoriz_within {d d' : Dms} (hf : d'.fontDefinition = d.fontDefinition) {spans s q} {R : Rectangle}
    (h : offsetHoriz d spans s = .ok q) (hw : s.state.textRectangle.width.toNat ≤ R.width.toNat) :
    offsetHoriz d' (spans.map (Span.within R)) (s.within R) = .ok q := by
  unfold offsetHoriz at h ⊢
  simp only [Out.bind_eq_ok, Out.ofRes_eq_ok] at h ⊢
  obtain ⟨⟨b, a⟩, h1, t, h2, h3⟩ := h
  refine ⟨(b, a), ?_, t, h2, ?_⟩
  · rw [hf, filter_within R (q := fun x => s.state.matchesSpan x.state) (h := fun _ => rfl)]
    exact (offsetHorizLoop_within R d.fontDefinition s.state _ none 0 0).trans h1
  · split at h3
    · rw [if_pos (by show t ≤ R.width.toNat; omega)]
      exact h3
    · cases h3

theorem offsetVert_within {d d' : Dms} (hf : d'.fontDefinition = d.fontDefinition)
    (hc : d'.vmsCfg.charHeightPixels = d.vmsCfg.charHeightPixels) {spans s q} {R : Rectangle}
    (h : offsetVert d spans s = .ok q) (hw : s.state.textRectangle.height.toNat ≤ R.height.toNat) :
    offsetVert d' (spans.map (Span.within R)) (s.within R) = .ok q := by
  unfold offsetVert at h ⊢
  simp only [Out.bind_eq_ok, Out.ofRes_eq_ok, Dms.charHeight] at h ⊢
  obtain ⟨ls, h1, ⟨a, b⟩, h2, t, h3, h4⟩ := h
  refine ⟨ls, ?_, (a, b), ?_, t, h3, ?_⟩
  · rw [hf, filter_within R (q := fun x => s.state.matchesLine x.state) (h := fun _ => rfl)]
    exact (textLines_within R d.fontDefinition _ []).trans h1
  · simp only [hc]; exact h2
  · split at h4
    · rw [if_pos (by show t ≤ R.height.toNat; omega)]
      exact h4
    · cases h4

theorem spanX_offset {d spans s x} (h : spanX d spans s = .ok x) :
    (∃ q, offsetHoriz d spans s = .ok q) ∧ s.state.justLine ≠ .other ∧ s.state.justLine ≠ .full := by
  unfold spanX at h
  split at h
  · rename_i e
    unfold spanXLeft at h
    simp only [Out.bind_eq_ok] at h
    obtain ⟨_, _, q, hq, _⟩ := h
    exact ⟨⟨q, hq⟩, by rw [e]; simp, by rw [e]; simp⟩
  · rename_i e
    unfold spanXCenter at h
    simp only [Out.bind_eq_ok] at h
    obtain ⟨_, _, q, hq, _⟩ := h
    exact ⟨⟨q, hq⟩, by rw [e]; simp, by rw [e]; simp⟩
  · rename_i e
    unfold spanXRight at h
    simp only [Out.bind_eq_ok] at h
    obtain ⟨_, _, q, hq, _⟩ := h
    exact ⟨⟨q, hq⟩, by rw [e]; simp, by rw [e]; simp⟩
  · cases h

/-- a span that can be placed in its rectangle can be placed in a larger one -/
theorem spanY_within {d d' : Dms} (hf : d'.fontDefinition = d.fontDefinition)
    (hc : d'.vmsCfg.charHeightPixels = d.vmsCfg.charHeightPixels) {spans s y} {R : Rectangle}
    (h : spanY d spans s = .ok y) (hw : Wider s.state.textRectangle R)
    (hr : R.y.toNat - 1 + R.height.toNat ≤ 65535) :
    ∃ y' f, spanY d' (spans.map (Span.within R)) (s.within R) = .ok y' ∧ FontOf d.fontDefinition s f ∧
      y' + f.height.toNat ≤ R.y.toNat - 1 + R.height.toNat := by
  have hh := hw.height
  have hy := hw.y
  have ecell : d'.cellHeight = d.cellHeight := by simp only [Dms.cellHeight, Dms.charHeight, hc]
  have er : (s.within R).state.textRectangle = R := rfl
  unfold spanY at h
  simp only [Out.bind_eq_ok, Out.ofRes_eq_ok, sub16_ok, height_ok] at h
  obtain ⟨bl, h, hgt, ⟨f, hff, rfl⟩, hb, rfl⟩ := h
  -- enough: a baseline that is not higher
  suffices key : ∃ bl', baseline d' (spans.map (Span.within R)) (s.within R) = .ok bl' ∧ bl ≤ bl' ∧
      bl' ≤ R.y.toNat - 1 + R.height.toNat by
    obtain ⟨bl', k1, k2, k3⟩ := key
    refine ⟨bl' - f.height.toNat, f, ?_, hff, by omega⟩
    unfold spanY
    rw [k1, hf, height_within, height_ok.2 ⟨f, hff, rfl⟩]
    simp only [Out.ok_bind]
    rw [sub16_eq (by omega)]; rfl
  unfold baseline at h
  split at h
  · rename_i ej
    unfold baselineTop at h
    simp only [Out.bind_eq_ok, Out.ofRes_eq_ok, chk16_ok, sub16_ok] at h
    obtain ⟨l, ⟨hl, rfl⟩, ⟨a, b⟩, h1, rfl, h2⟩ := h
    obtain ⟨-, -, -, -, h4⟩ := offsetVert_ok h1
    have h1' := offsetVert_within hf hc h1 hh
    refine ⟨s.state.textRectangle.y.toNat - 1 + a, ?_, Nat.le_refl _, by dsimp only at *; rw [hy]; omega⟩
    unfold baseline
    rw [show (s.within R).state.justPage = .top from ej]
    dsimp only
    unfold baselineTop
    rw [er, hy, sub16_eq hl, h1']
    simp only [Out.ofRes_ok, Out.ok_bind]
    rw [chk16_eq h2]; rfl
  · rename_i ej
    unfold baselineMiddle at h
    simp only [Out.bind_eq_ok, Out.ofRes_eq_ok, chk16_ok, sub16_ok] at h
    obtain ⟨l, ⟨hl, rfl⟩, ⟨a, b⟩, h1, t1, ⟨h2, rfl⟩, t2, ⟨h3, rfl⟩, t3, ⟨rfl, h6⟩, t4, ⟨rfl, h7⟩, rfl, h8⟩ := h
    obtain ⟨-, -, -, -, h4⟩ := offsetVert_ok h1
    have h1' := offsetVert_within hf hc h1 hh
    dsimp only at *
    rw [hy] at hr
    have hle := Nat.div_mul_le_self (s.state.textRectangle.y.toNat - 1 +
        (R.height.toNat - a - b) / 2 + a) d.cellHeight
    refine ⟨(s.state.textRectangle.y.toNat - 1 + (R.height.toNat - a - b) / 2 + a) / d.cellHeight * d.cellHeight,
      ?_, ?_, by rw [hy]; omega⟩
    · unfold baseline
      rw [show (s.within R).state.justPage = .middle from ej]
      dsimp only
      unfold baselineMiddle
      rw [er, hy, sub16_eq hl, h1', ecell]
      simp only [Out.ofRes_ok, Out.ok_bind]
      rw [sub16_eq (by omega)]
      simp only [Out.ofRes_ok, Out.ok_bind]
      rw [sub16_eq (by omega)]
      simp only [Out.ofRes_ok, Out.ok_bind]
      rw [chk16_eq (by omega)]
      simp only [Out.ofRes_ok, Out.ok_bind]
      rw [chk16_eq (by omega)]
      simp only [Out.ofRes_ok, Out.ok_bind]
      rw [chk16_eq (by omega)]; rfl
    · exact Nat.mul_le_mul_right _ (Nat.div_le_div_right (by omega))
  · rename_i ej
    unfold baselineBottom at h
    simp only [Out.bind_eq_ok, Out.ofRes_eq_ok, chk16_ok, sub16_ok] at h
    obtain ⟨l, ⟨hl, rfl⟩, ⟨a, b⟩, h1, t, ⟨rfl, h2⟩, h3, rfl⟩ := h
    obtain ⟨-, -, -, -, h4⟩ := offsetVert_ok h1
    have h1' := offsetVert_within hf hc h1 hh
    dsimp only at *
    rw [hy] at hr
    refine ⟨s.state.textRectangle.y.toNat - 1 + R.height.toNat - b, ?_, by omega, by rw [hy]; omega⟩
    unfold baseline
    rw [show (s.within R).state.justPage = .bottom from ej]
    dsimp only
    unfold baselineBottom
    rw [er, hy, sub16_eq hl, h1']
    simp only [Out.ofRes_ok, Out.ok_bind]
    rw [chk16_eq (by omega)]
    simp only [Out.ofRes_ok, Out.ok_bind]
    rw [sub16_eq (by omega)]; rfl
  · cases h

theorem checkJustLoop_within (R : Rectangle) (l : List Span) (jp jl n) :
    checkJustLoop jp jl n (l.map (Span.within R)) = checkJustLoop jp jl n l := by
  induction l generalizing jp jl n with
  | nil => rfl
  | cons s l ih =>
    simp only [List.map_cons, checkJustLoop, ih]
    rfl

theorem renderSpansLoop_within {d d' : Dms} (hl : Larger d d') {R R' : Rectangle} (hw : Wider R R')
    (ha : Aligned d R) (hi : RectIn R' d'.vmsCfg.signWidthPixels.toNat d'.vmsCfg.signHeightPixels.toNat)
    {spans : List Span} (hf : ∀ s ∈ spans, ∀ f, FontOf d.fontDefinition s f → FontOk f)
    (hn : ∀ s ∈ spans, ∀ ch ∈ s.str, ch.toNat ≠ 0) (hr : ∀ s ∈ spans, s.state.textRectangle = R)
    {ss : List Span} (hsub : ∀ s ∈ ss, s ∈ spans) {p q p' : Raster}
    (h : renderSpansLoop d spans ss p = .ok q)
    (h1 : p'.width = d'.vmsCfg.signWidthPixels.toNat) (h2 : p'.height = d'.vmsCfg.signHeightPixels.toNat) :
    ∃ q', renderSpansLoop d' (spans.map (Span.within R')) (ss.map (Span.within R')) p' = .ok q' ∧
      q'.width = p'.width ∧ q'.height = p'.height := by
  induction ss generalizing p p' with
  | nil => exact ⟨p', rfl, rfl, rfl⟩
  | cons s ss ih =>
    have hs := hsub s (List.mem_cons_self ..)
    rw [renderSpansLoop] at h
    simp only [Out.bind_eq_ok] at h
    obtain ⟨x, hx, y, hy, f, hfo, mid, hmid, h⟩ := h
    have w16 := hl.width16
    have h16 := hl.height16
    have hi' : RectIn R' 65535 65535 := ⟨hi.x, hi.y, by have := hi.right; omega, by have := hi.bottom; omega⟩
    rw [← hr s hs] at hw
    have ecell : signCellWidth d' = signCellWidth d := by simp only [signCellWidth, hl.charWidth]
    obtain ⟨⟨⟨b, a⟩, hq⟩, hj⟩ := spanX_offset hx
    have hq' := offsetHoriz_within hl.fonts hq hw.width
    obtain ⟨x', hx'⟩ := spanX_of hq' hi' hj
    obtain ⟨y', f1, hy', hf1, hyb⟩ := spanY_within hl.fonts hl.charHeight hy hw hi'.bottom
    obtain ⟨w, ⟨f2, es, hf2, hdef, rfl⟩, _, _, hxb⟩ := spanX_inside hx' (List.mem_map_of_mem hs)
      (by rw [ecell]; show (R'.x.toNat - 1) % _ = 0; rw [hw.x, hr s hs]; exact ha.x)
    have hfo' := font_ok.1 hfo
    rw [hl.fonts] at hf2
    obtain rfl : f = f2 := fontOf_unique hfo' hf2
    obtain rfl : f = f1 := fontOf_unique hfo' hf1
    have hcs : (s.within R').charSpacingFont f = charSpacing (s.within R') f := by
      unfold Span.charSpacingFont charSpacing
      split <;> rename_i h <;> simp [h]
    have k1 := hi.right
    have k2 := hi.bottom
    rw [show (s.within R').state.textRectangle = R' from rfl] at hxb
    obtain ⟨r', hr', hc⟩ := renderText_defined f (hf s hs f hfo') x' y' (charSpacing (s.within R') f)
      s.state.colorCtx.foregroundRgb s.str (hn s hs) es hdef p' (by omega) (by omega)
    obtain ⟨q', i1, i2, i3⟩ := ih (fun s h => hsub s (List.mem_cons_of_mem _ h)) h (p' := r')
      (hc.width.trans h1) (hc.height.trans h2)
    refine ⟨q', ?_, i2.trans hc.width, i3.trans hc.height⟩
    have hfo'' : (s.within R').state.font d'.fontDefinition = .ok f := by
      rw [hl.fonts]; exact hfo
    rw [List.map_cons, renderSpansLoop, hx', hy', hfo'']
    simp only [Out.ok_bind]
    unfold Span.renderText
    rw [hcs]
    rw [show (s.within R').str = s.str from rfl,
      show (s.within R').state.colorCtx = s.state.colorCtx from rfl, hr', Out.mapErr_ok, Out.ok_bind]
    exact i1

theorem new_within {d d' : Dms} (hl : Larger d d') :
    RenderState.new d' = (RenderState.new d).within (RenderState.new d').textRectangle := by
  simp only [RenderState.new, RenderState.within, Dms.colorCtx, Dms.foregroundDefaultRgb,
    Dms.backgroundDefaultRgb, hl.multi, hl.foreground, hl.background]

theorem extWidth_mod {r : Rectangle} {W W' c : Nat} (h2 : (r.x.toNat - 1) % c = 0)
    (h3 : extWidth r W % c = 0) (h4 : W' % c = 0) : extWidth r W' % c = 0 := by
  unfold extWidth at *
  split
  · exact Nat.mod_eq_zero_of_dvd (Nat.dvd_sub (Nat.dvd_of_mod_eq_zero h4) (Nat.dvd_of_mod_eq_zero h2))
  · rename_i h; rw [if_neg h] at h3; exact h3

theorem extHeight_mod {r : Rectangle} {W W' c : Nat} (h2 : (r.y.toNat - 1) % c = 0)
    (h3 : extHeight r W % c = 0) (h4 : W' % c = 0) : extHeight r W' % c = 0 := by
  unfold extHeight at *
  split
  · exact Nat.mod_eq_zero_of_dvd (Nat.dvd_sub (Nat.dvd_of_mod_eq_zero h4) (Nat.dvd_of_mod_eq_zero h2))
  · rename_i h; rw [if_neg h] at h3; exact h3

theorem insideRect_larger {W W' H H' : Nat} {r : Rectangle} (hw : W ≤ W') (hh : H ≤ H') (h : InsideRect W H r) :
    InsideRect W' H' r := by
  obtain ⟨h1, h2, h3, h4, h5, h6⟩ := h
  unfold extWidth at h3 h5
  unfold extHeight at h4 h6
  refine ⟨h1, h2, ?_, ?_, ?_, ?_⟩ <;> first | unfold extWidth | unfold extHeight
  all_goals (repeat' split at *) <;> omega

theorem updateTextRectangle_within {d d' : Dms} (hd : DrawOk d) (hl : Larger d d') {r r1 : Rectangle}
    (h : updateTextRectangle d (RenderState.new d).textRectangle r = .ok (some r1)) :
    ∃ r1', updateTextRectangle d' (RenderState.new d').textRectangle r = .ok (some r1') ∧ Wider r1 r1' := by
  have ht := updateTextRectangle_textRect hd h
  have hw := hl.width
  have hh := hl.height
  have hw16 := hl.width16
  have hh16 := hl.height16
  have cw : signCellWidth d' = signCellWidth d := by simp only [signCellWidth, hl.charWidth]
  have ch : signCellHeight d' = signCellHeight d := by simp only [signCellHeight, hl.charHeight]
  have hi := insideRect_larger hw hh (r := r) ⟨ht.x, ht.y, ht.width, ht.height, ht.right, ht.bottom⟩
  have ht' : TextRect d' d'.vmsCfg.signWidthPixels.toNat d'.vmsCfg.signHeightPixels.toNat r :=
    ⟨hi.x, hi.y, hi.width, hi.height, hi.right, hi.bottom, by rw [cw]; exact ht.left_aligned,
      by rw [cw]; exact extWidth_mod ht.left_aligned ht.width_aligned hl.widthCells,
      by rw [ch]; exact ht.top_aligned,
      by rw [ch]; exact extHeight_mod ht.top_aligned ht.height_aligned hl.heightCells⟩
  have a1 := ht.right
  have a2 := ht.bottom
  have b1 := hi.right
  have b2 := hi.bottom
  have c1 := ht.x
  have c2 := ht.y
  have dw := hd.width
  have dh := hd.height
  have e := (updateTextRectangle_eq (d := d) dw dh hd.size (by omega) (by omega)).1 ht
  have e' := (updateTextRectangle_eq (d := d') hw16 hh16 (by have := hd.size; omega) (by omega) (by omega)).1 ht'
  rw [show (RenderState.new d).textRectangle = ⟨1, 1, d.vmsCfg.signWidthPixels, d.vmsCfg.signHeightPixels⟩ from rfl,
    e] at h
  simp only [Res.ok.injEq, Option.some.injEq] at h
  refine ⟨_, e', ?_⟩
  subst h
  refine ⟨UInt16.toNat_inj.1 (by rw [extend_x, extend_x]), UInt16.toNat_inj.1 (by rw [extend_y, extend_y]), ?_, ?_⟩
  · rw [extend_width, extend_width]
    unfold extWidth
    dsimp only
    split <;> omega
  · rw [extend_height, extend_height]
    unfold extHeight
    dsimp only
    split <;> omega

/-- the variables of the loop, with another text rectangle; `R` is that of the spans -/
def Rtr.within (R R1 : Rectangle) (st : Rtr) : Rtr :=
  ⟨st.rs.within R1, st.pageState, st.spans.map (Span.within R), st.lineBlank⟩

theorem rtrStep_within {d d' : Dms} (hd : DrawOk d) (hl : Larger d d') {R : Rectangle} {po st v c st1}
    (h : rtrStep d (RenderState.new d) po st v = .ok (c, st1)) (hc : ∀ e, c ≠ .fail e)
    (hw : Wider st.rs.textRectangle R) :
    ∃ R1, rtrStep d' (RenderState.new d') po (st.within R R) v = .ok (c, st1.within R R1) ∧
      Wider st1.rs.textRectangle R1 ∧ (c = .cont → R1 = R) := by
  have ecw : d'.charWidth = d.charWidth := hl.charWidth
  have ech : d'.charHeight = d.charHeight := hl.charHeight
  have ebad : ∀ ls, badLineSpacing d' ls = badLineSpacing d ls := fun ls => by
    unfold badLineSpacing; cases ls <;> simp only [ech]
  have hupd := fun r r1 => updateTextRectangle_within hd hl (r := r) (r1 := r1)
  have enew := new_within hl
  generalize hds : RenderState.new d = ds at *
  generalize hds' : RenderState.new d' = ds' at *
  have e1 : ds'.fontNum = ds.fontNum := by rw [enew]; rfl
  have e2 : ds'.fontVersionId = ds.fontVersionId := by rw [enew]; rfl
  have e3 : ds'.justLine = ds.justLine := by rw [enew]; rfl
  have e4 : ds'.justPage = ds.justPage := by rw [enew]; rfl
  have fin : ∀ {a : Ctl × Rtr}, (.ok a : Res (Ctl × Rtr)) = .ok (c, st1) →
      a.2.rs.textRectangle = st.rs.textRectangle →
      ∃ R1, (.ok (a.1, a.2.within R R) : Res (Ctl × Rtr)) = .ok (c, st1.within R R1) ∧
        Wider st1.rs.textRectangle R1 ∧ (c = .cont → R1 = R) := by
    intro a ha hr
    simp only [Res.ok.injEq] at ha
    subst ha
    exact ⟨R, rfl, by dsimp only at hr; rw [hr]; exact hw, fun _ => rfl⟩
  have nofail : ∀ {e s}, (.ok (.fail e, s) : Res (Ctl × Rtr)) = .ok (c, st1) → False := by
    intro e s he
    simp only [Res.ok.injEq, Prod.mk.injEq] at he
    exact hc _ he.1.symm
  unfold rtrStep at h ⊢
  rw [e1, e2, e3, e4]
  split at h <;> dsimp only at h ⊢
  · rename_i clr
    rw [show (st.within R R).rs.colorCtx = st.rs.colorCtx from rfl]
    split at h
    · exact fin h rfl
    · exact (nofail h).elim
  · exact fin h rfl
  · exact fin h rfl
  · exact (nofail h).elim
  · exact (nofail h).elim
  · exact fin h rfl
  · exact (nofail h).elim
  · rename_i jp _
    rw [show (st.within R R).rs.justPage = st.rs.justPage from rfl]
    split at h
    · rename_i e; rw [if_pos e]; exact fin h rfl
    · rename_i e; rw [if_neg e]; exact fin h rfl
  · rename_i ls
    rw [ebad]
    split at h
    · exact (nofail h).elim
    · rename_i e
      rw [if_neg e, show (st.within R R).rs.lineNumber = st.rs.lineNumber from rfl,
        show (st.within R R).lineBlank = st.lineBlank from rfl]
      cases hk : chk8 (st.rs.lineNumber + 1) with
      | panic p => rw [hk] at h; cases h
      | ok ln =>
        rw [hk] at h
        simp only [Res.ok_bind, Res.pure_eq] at h ⊢
        have := fin h rfl
        refine Eq.mp ?_ this
        cases st.lineBlank
        · rfl
        · simp only [Rtr.within, if_true, List.map_append]; rfl
  · exact fin h rfl
  · rw [ecw]
    split at h
    · exact (nofail h).elim
    · rename_i e; rw [if_neg e]; exact fin h rfl
  · exact fin h rfl
  · rename_i r
    simp only [Res.bind_eq_ok] at h
    obtain ⟨o, ho, h⟩ := h
    cases o with
    | none => exact (nofail h).elim
    | some r1 =>
      obtain ⟨r1', k1, k2⟩ := hupd r r1 ho
      simp only [Res.pure_eq, Res.ok.injEq, Prod.mk.injEq] at h
      obtain ⟨rfl, rfl⟩ := h
      refine ⟨r1', ?_, k2, fun e => by cases e⟩
      rw [k1]
      rfl
  · rename_i t
    rw [show (st.within R R).rs.spanNumber = st.rs.spanNumber from rfl]
    cases hk : chk8 (st.rs.spanNumber + 1) with
    | panic p => rw [hk] at h; cases h
    | ok ln =>
      rw [hk] at h
      simp only [Res.ok_bind, Res.pure_eq] at h ⊢
      have := fin h rfl
      refine Eq.mp ?_ this
      simp only [Rtr.within, List.map_append]; rfl
  · rename_i hc'
    split at h
    · rw [show (st.within R R).rs.spanNumber = st.rs.spanNumber from rfl]
      cases hk : chk8 (st.rs.spanNumber + 1) with
      | panic p => rw [hk] at h; cases h
      | ok ln =>
        rw [hk] at h
        simp only [Res.ok_bind, Res.pure_eq] at h ⊢
        have := fin h rfl
        refine Eq.mp ?_ this
        simp only [Rtr.within, List.map_append]; rfl
    · exact (nofail h).elim
  · exact fin h rfl

theorem rtrLoop_within {d d' : Dms} (hd : DrawOk d) (hl : Larger d d') {R : Rectangle} {po} {ss : List Str}
    {st st1 : Rtr} {rest} (h : rtrLoop d (RenderState.new d) po ss st = .ok (.ok (), st1, rest))
    (hw : Wider st.rs.textRectangle R) :
    ∃ R1, rtrLoop d' (RenderState.new d') po ss (st.within R R) = .ok (.ok (), st1.within R R1, rest) ∧
      Wider st1.rs.textRectangle R1 := by
  induction ss generalizing st with
  | nil =>
    simp only [rtrLoop, Res.ok.injEq, Prod.mk.injEq, true_and] at h
    obtain ⟨rfl, rfl⟩ := h
    exact ⟨R, rfl, hw⟩
  | cons s ss ih =>
    unfold rtrLoop at h ⊢
    split at h
    · cases h
    · simp at h
    · rename_i v hv
      split at h
      · cases h
      · rename_i st2 hs
        obtain ⟨R1, k1, k2, k3⟩ := rtrStep_within hd hl hs (by simp) hw
        obtain rfl := k3 rfl
        rw [k1]
        exact ih h k2
      · rename_i st2 hs
        obtain ⟨R1, k1, k2, _⟩ := rtrStep_within hd hl hs (by simp) hw
        simp only [Res.ok.injEq, Prod.mk.injEq, true_and] at h
        obtain ⟨rfl, rfl⟩ := h
        exact ⟨R1, by rw [k1], k2⟩
      · simp at h

theorem renderGraphicsLoop_within {d d' : Dms} (hd : DrawOk d) (hl : Larger d d') {ss : List Str}
    (hs : ∀ t ∈ ss, Item t) {ctx : ColorCtx} {p q p' : Raster} (h : renderGraphicsLoop d ss ctx p = .ok q)
    (w1 : p.width = d.vmsCfg.signWidthPixels.toNat) (w2 : p.height = d.vmsCfg.signHeightPixels.toNat)
    (h1 : p'.width = d'.vmsCfg.signWidthPixels.toNat) (h2 : p'.height = d'.vmsCfg.signHeightPixels.toNat) :
    ∃ q', renderGraphicsLoop d' ss ctx p' = .ok q' ∧ q'.width = p'.width ∧ q'.height = p'.height := by
  have dw := hd.width
  have dh := hd.height
  have lw := hl.width
  have lh := hl.height
  have lw16 := hl.width16
  have lh16 := hl.height16
  have elook : ∀ n gid, lookupGraphic d' n gid = lookupGraphic d n gid := fun n gid => by
    unfold lookupGraphic; rw [hl.graphics]
  induction ss generalizing ctx p p' with
  | nil => exact ⟨p', rfl, rfl, rfl⟩
  | cons s ss ih =>
    have ih := fun {ctx} {p p' : Raster} => ih (fun t h => hs t (List.mem_cons_of_mem _ h))
      (ctx := ctx) (p := p) (p' := p')
    rw [renderGraphicsLoop] at h ⊢
    simp only [Out.bind_eq_ok] at h
    obtain ⟨r, hr, v, hv, h⟩ := h
    cases r with
    | error e => cases hv
    | ok w =>
      simp only [ofExcept, Out.ok.injEq] at hv
      subst hv
      have hrange := C04_in_range s w (hs s (List.mem_cons_self ..)) (by simpa using hr)
      rw [hr]
      simp only [Out.ok_bind, ofExcept]
      cases w
      case colorBackground c =>
        simp only [Out.bind_eq_ok] at h
        obtain ⟨ctx', k1, k2⟩ := h
        simp only [ofExcept] at k1
        simp only [k1, Out.ok_bind]
        exact ih k2 w1 w2 h1 h2
      case colorForeground c =>
        simp only [Out.bind_eq_ok] at h
        obtain ⟨ctx', k1, k2⟩ := h
        simp only [ofExcept] at k1
        simp only [k1, Out.ok_bind]
        exact ih k2 w1 w2 h1 h2
      case colorRectangle r c =>
        simp only [Out.bind_eq_ok] at h
        obtain ⟨ctx', k1, mid, k2, k3⟩ := h
        simp only [ofExcept] at k1
        simp only [k1, Out.ok_bind]
        have hp := renderRect_painted k2
        have hin := renderRect_inside (by omega) (by omega) (by rw [w1, w2]; exact hd.size) k2
        have hin' := insideRect_larger (W' := p'.width) (H' := p'.height) (by omega) (by omega) hin
        have c1 := hin'.x
        have c2 := hin'.y
        have c3 := hin'.right
        have c4 := hin'.bottom
        have hsz := hd.size
        obtain ⟨m', m1, m2, m3, _⟩ := (C49_fill_partial p' r ctx'.foregroundRgb (.colorRectangle r c)
          (by omega) (by omega) (by omega)
          (by rintro e; rw [e] at c1; simp at c1) (by rintro e; rw [e] at c2; simp at c2)
          (by omega) (by omega)).1 hin'
        rw [m1, Out.ok_bind]
        obtain ⟨q', i1, i2, i3⟩ := ih k3 (hp.width.trans w1) (hp.height.trans w2) (m2.trans h1) (m3.trans h2)
        exact ⟨q', i1, i2.trans m2, i3.trans m3⟩
      case graphic n pos =>
        have hn0 : n.toNat ≠ 0 := by have := hrange.1; omega
        have go : ∀ {gid x y}, 1 ≤ x → 1 ≤ y →
            (do
              let g ← lookupGraphic d n gid
              let raster ← (g.renderGraphic p x y ctx).mapErr GraphicError.toSyntax
              renderGraphicsLoop d ss ctx raster) = .ok q →
            ∃ page', (do
              let g ← lookupGraphic d' n gid
              let raster ← (g.renderGraphic p' x y ctx).mapErr GraphicError.toSyntax
              renderGraphicsLoop d' ss ctx raster) = .ok page' ∧ page'.width = p'.width ∧ page'.height = p'.height := by
          intro gid x y hx hy h
          simp only [Out.bind_eq_ok, mapErr_eq_ok] at h
          obtain ⟨g, k1, mid, k2, k3⟩ := h
          obtain ⟨⟨g1, g2⟩, _⟩ := lookupGraphic_of k1
          have hp := renderGraphic_painted k2
          have hb : ¬ (p.width < x - 1 + g.width.toNat ∨ p.height < y - 1 + g.height.toNat) := by
            intro hb
            rw [(C37_too_big_iff g p x y hx hy ctx .tooBig).2 ⟨rfl, hb⟩] at k2
            cases k2
          rw [elook, k1, Out.ok_bind]
          obtain ⟨m', m1, m2, m3, _⟩ := C37_placement _ _ g (hd.graphics.graphics g g1 (by rw [g2]; exact hn0))
            p' x y hx hy ctx (by omega) (by omega)
          rw [m1]
          obtain ⟨q', i1, i2, i3⟩ := ih k3 (hp.width.trans w1) (hp.height.trans w2) (m2.trans h1) (m3.trans h2)
          exact ⟨q', i1, i2.trans m2, i3.trans m3⟩
        cases pos with
        | none => exact go (gid := none) (x := 1) (y := 1) (Nat.le_refl 1) (Nat.le_refl 1) h
        | some q =>
          obtain ⟨x, y, gid⟩ := q
          obtain ⟨b1, b2⟩ := hrange.2 x y gid rfl
          exact go (gid := gid) b1 b2 h
      case newPage => exact ⟨p', rfl, rfl, rfl⟩
      case textRectangle r => exact ⟨p', rfl, rfl, rfl⟩
      all_goals first
        | (exfalso; simp at h; done)
        | exact ih h w1 w2 h1 h2

/-- the iterators of both signs: the same but for the text rectangle -/
structure Both (d d' : Dms) (pg pg' : Pages) : Prop where
  ok : PagesOk d pg
  ok' : PagesOk d' pg'
  state : pg'.renderState = pg.renderState.within pg'.renderState.textRectangle
  rect : Wider pg.renderState.textRectangle pg'.renderState.textRectangle
  pageState : pg'.pageState = pg.pageState
  values : pg'.values = pg.values

theorem renderTextRectangle_within {d d' : Dms} (hd : DrawOk d) (hf : FontsOk d.fontDefinition)
    (h0 : 1 ≤ d.multiCfg.defaultFont.toNat) (hl : Larger d d') {pg pg' pg1 : Pages} {p q p' : Raster}
    (hb : Both d d' pg pg') (h : renderTextRectangle d pg p = .ok (.ok q, pg1))
    (h1 : p'.width = d'.vmsCfg.signWidthPixels.toNat) (h2 : p'.height = d'.vmsCfg.signHeightPixels.toNat) :
    ∃ q' pg1', renderTextRectangle d' pg' p' = .ok (.ok q', pg1') ∧ Both d d' pg1 pg1' ∧
      q'.width = p'.width ∧ q'.height = p'.height := by
  have hok1 := renderTextRectangle_state hb.ok h
  obtain ⟨st, values, hr, rfl, hs⟩ := renderTextRectangle_ok h
  rw [hb.ok.default] at hr
  obtain ⟨R1, k1, k2⟩ := rtrLoop_within hd hl hr hb.rect
  obtain ⟨_, _, _, hrect, _⟩ := rtrLoop_ok hr
  obtain ⟨_, hst, _⟩ := rtrLoop_state hb.ok.items hr hb.ok.state
  have hall : ∀ s ∈ st.spans, StateOk d s.state ∧ ∀ ch ∈ s.str, ch.toNat ≠ 0 := hst (by simp)
  have hsame : ∀ s ∈ st.spans, s.state.textRectangle = pg.renderState.textRectangle := by
    intro s hs
    rcases hrect s hs with hx | hx
    · simp at hx
    · exact hx
  unfold renderTextSpans at hs
  split at hs
  · cases hs
  · rename_i hcheck
    obtain ⟨q', i1, i2, i3⟩ := renderSpansLoop_within hl hb.rect hb.ok.state.aligned hb.ok'.state.rectIn
      (spans := st.spans) (fun s hsm f hff => by
        obtain ⟨f1, f2⟩ := font_number hff
        refine hf.fonts f f1 ?_
        have := (hall s hsm).1.font h0
        rw [f2]; omega)
      (fun s hsm => (hall s hsm).2) hsame (fun _ h => h) hs h1 h2
    have key : renderTextRectangle d' pg' p' = .ok (.ok q', ⟨pg'.defaultState, st.rs.within R1, st.pageState, values,
        st.spans.map (Span.within pg'.renderState.textRectangle)⟩) := by
      unfold renderTextRectangle
      have hpo : pg'.renderState.pageOffTimeDs = pg.renderState.pageOffTimeDs := by rw [hb.state]; rfl
      have hrs : (⟨pg'.renderState, .doneState (decide (pg.renderState.pageOffTimeDs > 0)), [], true⟩ : Rtr) =
          Rtr.within pg'.renderState.textRectangle pg'.renderState.textRectangle
            ⟨pg.renderState, .doneState (decide (pg.renderState.pageOffTimeDs > 0)), [], true⟩ := by
        simp only [Rtr.within, ← hb.state, List.map_nil]
      dsimp only
      rw [hb.ok'.default, hpo, hb.values, hrs, k1]
      simp only [Res.ok_bind, Rtr.within]
      unfold renderTextSpans
      rw [checkJustification, checkJustLoop_within, ← checkJustification, hcheck]
      simp only [i1, Res.pure_eq]
    have hok1' := renderTextRectangle_state hb.ok' key
    exact ⟨q', _, key, ⟨hok1, hok1', rfl, k2, rfl, rfl⟩, i2, i3⟩

theorem onPageLoop_within {d d' : Dms} (hd : DrawOk d) (hf : FontsOk d.fontDefinition)
    (h0 : 1 ≤ d.multiCfg.defaultFont.toNat) (hl : Larger d d') {fuel n} {pg pg' pg1 : Pages} {p q p' : Raster}
    (hb : Both d d' pg pg') (h : onPageLoop d fuel n pg p = .ok (.ok q, pg1))
    (w1 : p.width = d.vmsCfg.signWidthPixels.toNat) (w2 : p.height = d.vmsCfg.signHeightPixels.toNat)
    (h1 : p'.width = d'.vmsCfg.signWidthPixels.toNat) (h2 : p'.height = d'.vmsCfg.signHeightPixels.toNat) :
    ∃ q' pg1', onPageLoop d' fuel n pg' p' = .ok (.ok q', pg1') ∧ Both d d' pg1 pg1' := by
  induction fuel generalizing n pg pg' p p' with
  | zero =>
    simp only [onPageLoop, Res.ok.injEq, Prod.mk.injEq, Except.ok.injEq] at h
    obtain ⟨_, rfl⟩ := h
    exact ⟨p', pg', rfl, hb⟩
  | succ fuel ih =>
    rw [onPageLoop] at h ⊢
    by_cases hp : pg.pageState = .on false
    · rw [if_pos hp] at h
      rw [if_pos (hb.pageState.trans hp)]
      cases hg : renderGraphicsLoop d pg.values pg.renderState.colorCtx p with
      | panic e => rw [hg] at h; simp at h
      | err e => rw [hg] at h; simp at h
      | ok m =>
        rw [hg] at h
        have hpm := renderGraphicsLoop_painted (palette_true d) trivial hg
        obtain ⟨m', g1, g2, g3⟩ := renderGraphicsLoop_within hd hl hb.ok.items hg w1 w2 h1 h2
        have hctx : pg'.renderState.colorCtx = pg.renderState.colorCtx := by rw [hb.state]; rfl
        rw [hb.values, hctx, g1]
        simp only [Res.bind_eq_ok] at h ⊢
        obtain ⟨⟨e, pg2⟩, ht, h⟩ := h
        cases e with
        | error e => simp at h
        | ok m2 =>
          obtain ⟨m2', pg2', t1, t2, t3, t4⟩ := renderTextRectangle_within hd hf h0 hl hb ht
            (g2.trans h1) (g3.trans h2)
          obtain ⟨st, values, _, _, hr⟩ := renderTextRectangle_ok ht
          have hpt := renderTextSpans_painted hr
          dsimp only at h
          by_cases hm : n + 1 > maxTextRectangles
          · rw [if_pos hm] at h; simp at h
          · rw [if_neg hm] at h
            obtain ⟨q', pg3', j1, j2⟩ := ih t2 h (hpt.width.trans (hpm.width.trans w1))
              (hpt.height.trans (hpm.height.trans w2)) (t3.trans (g2.trans h1)) (t4.trans (g3.trans h2))
            refine ⟨q', pg3', ⟨(.ok m2', pg2'), t1, ?_⟩, j2⟩
            dsimp only
            rw [if_neg hm]
            exact j1
    · rw [if_neg hp] at h
      rw [if_neg (by rw [hb.pageState]; exact hp)]
      simp only [Res.ok.injEq, Prod.mk.injEq, Except.ok.injEq] at h
      obtain ⟨_, rfl⟩ := h
      exact ⟨p', pg', rfl, hb⟩

theorem checkUnsupported_within {d d' : Dms} (hm : d'.multiCfg = d.multiCfg) (ss : List Str) :
    checkUnsupported d' ss = checkUnsupported d ss := by
  induction ss with
  | nil => rfl
  | cons s ss ih => unfold checkUnsupported; simp only [ih, hm]

theorem updatePageStateLoop_within {ds ds' : RenderState} {R : Rectangle} (hd : ds' = ds.within ds'.textRectangle)
    {ss : List Str} {rs rs1 : RenderState} {x} (h : updatePageStateLoop ds ss rs = .ok (x, rs1)) :
    updatePageStateLoop ds' ss (rs.within R) = .ok (x, rs1.within R) := by
  have e1 : ds'.pageOnTimeDs = ds.pageOnTimeDs := by rw [hd]; rfl
  have e2 : ds'.pageOffTimeDs = ds.pageOffTimeDs := by rw [hd]; rfl
  have fin : ∀ {a : Except SyntaxError Unit × RenderState}, (.ok a : Res _) = .ok (x, rs1) →
      (.ok (a.1, a.2.within R) : Res (Except SyntaxError Unit × RenderState)) = .ok (x, rs1.within R) := by
    intro a ha
    simp only [Res.ok.injEq] at ha
    subst ha; rfl
  induction ss generalizing rs with
  | nil => rw [updatePageStateLoop] at h ⊢; exact fin h
  | cons s ss ih =>
    unfold updatePageStateLoop at h ⊢
    rw [show (rs.within R).colorCtx = rs.colorCtx from rfl, e1, e2]
    split at h
    · cases h
    · exact fin h
    · split at h
      · split at h
        · exact ih h
        · exact fin h
      · split at h
        · exact ih h
        · exact fin h
      · exact fin h
      · exact ih h
      · have := ih h
        simpa using this

theorem renderOnPage_within {d d' : Dms} (hd : DrawOk d) (hf : FontsOk d.fontDefinition)
    (h0 : 1 ≤ d.multiCfg.defaultFont.toNat) (hl : Larger d d') {pg pg' pg1 : Pages} {p : Page}
    (hb : Both d d' pg pg') (h : renderOnPage d pg = .ok (.ok p, pg1)) :
    ∃ p' pg1', renderOnPage d' pg' = .ok (.ok p', pg1') ∧ p'.durationDs = p.durationDs ∧ Both d d' pg1 pg1' := by
  unfold renderOnPage at h ⊢
  rw [checkUnsupported_within hl.multi, hb.values]
  cases hc : checkUnsupported d pg.values with
  | panic e => rw [hc] at h; cases h
  | err e => rw [hc] at h; simp at h
  | ok u =>
    rw [hc] at h
    simp only [Res.bind_eq_ok] at h ⊢
    obtain ⟨⟨x, rs⟩, hu, h⟩ := h
    cases x with
    | error e => simp at h
    | ok u =>
      rw [hb.ok.default] at hu
      obtain ⟨s1, s2, _⟩ := updatePageState_state hb.ok.state hu
      have hu' : updatePageState pg'.defaultState pg'.renderState pg.values =
          .ok (.ok (), rs.within (RenderState.new d').textRectangle) := by
        unfold updatePageState at hu ⊢
        rw [hb.ok'.default]
        have := updatePageStateLoop_within (R := (RenderState.new d').textRectangle) (new_within hl) hu
        rw [hb.state]
        exact this
      have hb1 : Both d d' { pg with renderState := rs, pageState := .on false }
          { pg' with renderState := rs.within (RenderState.new d').textRectangle, pageState := .on false } := by
        refine ⟨⟨hb.ok.default, s1, hb.ok.items⟩, ⟨hb.ok'.default, ?_, hb.ok'.items⟩, rfl, ?_, rfl, hb.values⟩
        · rw [hb.ok'.default, ← hb.values] at hu'
          exact (updatePageState_state hb.ok'.state hu').1
        · show Wider rs.textRectangle (RenderState.new d').textRectangle
          rw [s2]
          exact ⟨rfl, rfl, hl.width, hl.height⟩
      simp only [Res.bind_eq_ok] at h
      obtain ⟨⟨y, pg2⟩, ho, h⟩ := h
      cases y with
      | error e => simp at h
      | ok q =>
        simp only [Res.pure_eq, Res.ok.injEq, Prod.mk.injEq, Except.ok.injEq] at h
        obtain ⟨rfl, rfl⟩ := h
        obtain ⟨q', pg2', o1, o2⟩ := onPageLoop_within hd hf h0 hl hb1 ho
          (p' := buildRaster (rs.within (RenderState.new d').textRectangle))
          (by show (buildRaster rs).width = _; simp only [buildRaster, Raster.withColor, s2]; rfl)
          (by show (buildRaster rs).height = _; simp only [buildRaster, Raster.withColor, s2]; rfl) rfl rfl
        refine ⟨⟨q', pg2'.renderState.pageOnTimeDs.toNat⟩, pg2', ⟨_, hu', ?_⟩, ?_, o2⟩
        · dsimp only
          simp only [Res.bind_eq_ok]
          rw [hb.values] at o1
          exact ⟨_, o1, rfl⟩
        · show pg2'.renderState.pageOnTimeDs.toNat = pg2.renderState.pageOnTimeDs.toNat
          rw [o2.state]; rfl

theorem next_within {d d' : Dms} (hd : DrawOk d) (hf : FontsOk d.fontDefinition)
    (h0 : 1 ≤ d.multiCfg.defaultFont.toNat) (hl : Larger d d') {pg pg' pg1 : Pages} {p : Page}
    (hb : Both d d' pg pg') (h : Pages.next d pg = .ok (some (.ok p), pg1)) :
    ∃ p' pg1', Pages.next d' pg' = .ok (some (.ok p'), pg1') ∧ p'.durationDs = p.durationDs ∧ Both d d' pg1 pg1' := by
  rcases next_cases h with ⟨hon, h1⟩ | ⟨hoff, ⟨b, hps⟩, hp, rfl⟩
  · obtain ⟨p', pg1', k1, k2, k3⟩ := renderOnPage_within hd hf h0 hl hb h1
    refine ⟨p', pg1', ?_, k2, k3⟩
    unfold Pages.next
    rw [hb.pageState]
    cases hq : pg.pageState with
    | on b => simp only [k1, Res.ok_bind, Res.pure_eq]
    | off b => rw [hq] at hon; simp [isOn] at hon
    | done => rw [hq] at hon; simp [isOn] at hon
  · simp only [Except.ok.injEq] at hp
    subst hp
    have h' : Pages.next d' pg' = .ok (some (.ok (renderOffPage pg').1), (renderOffPage pg').2) := by
      unfold Pages.next
      rw [hb.pageState, hps]
    refine ⟨_, _, h', ?_, next_state hb.ok h, next_state hb.ok' h', hb.state, hb.rect, ?_, hb.values⟩
    · show pg'.renderState.pageOffTimeDs.toNat = pg.renderState.pageOffTimeDs.toNat
      rw [hb.state]; rfl
    · show pg'.pageState.nextState = pg.pageState.nextState
      rw [hb.pageState]

theorem steps_within {d d' : Dms} (hd : DrawOk d) (hf : FontsOk d.fontDefinition)
    (h0 : 1 ≤ d.multiCfg.defaultFont.toNat) (hl : Larger d d') {pg pg1 : Pages} {xs}
    (h : Steps d pg xs pg1) (hn : NoError xs) : ∀ {pg'}, Both d d' pg pg' →
    ∃ xs' pg1', Steps d' pg' xs' pg1' ∧ Both d d' pg1 pg1' ∧ NoError xs' ∧ xs'.map timed = xs.map timed := by
  induction h with
  | nil => intro pg' hb; exact ⟨[], pg', .nil, hb, by simp [NoError], rfl⟩
  | @cons pg pg1 pg2 x xs hx _ ih =>
    intro pg' hb
    obtain ⟨p, hp⟩ := hn (isOn pg.pageState, x) (List.mem_cons_self ..)
    dsimp only at hp
    subst hp
    obtain ⟨p', pg1', k1, k2, k3⟩ := next_within hd hf h0 hl hb hx
    obtain ⟨xs', pg2', i1, i2, i3, i4⟩ := ih (fun y hy => hn y (List.mem_cons_of_mem _ hy)) k3
    refine ⟨_, pg2', .cons k1 i1, i2, fun y hy => ?_, ?_⟩
    · rcases List.mem_cons.1 hy with rfl | hy
      · exact ⟨p', rfl⟩
      · exact i3 y hy
    · rw [List.map_cons, List.map_cons, i4]
      simp only [timed, hb.pageState, k2]

theorem both_new {d d' : Dms} (hl : Larger d d') (ms : Str) : Both d d' (Pages.new d ms) (Pages.new d' ms) :=
  ⟨pagesOk_new d ms, pagesOk_new d' ms, new_within hl, ⟨rfl, rfl, hl.width, hl.height⟩, rfl, rfl⟩

end Ntcip
