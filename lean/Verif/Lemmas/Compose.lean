import Verif.Spec.Compose
import Verif.Lemmas.Safe
import Verif.Lemmas.Counted
/-
Lemmas on the composition of a page.
-/
namespace Ntcip
open Spec

/-- a color context that shows the colors `p` on the sign -/
structure HasColors (d : Dms) (ctx : ColorCtx) (p : Colors) : Prop where
  fg : ctx.fgDefault = signForeground d
  bg : ctx.bgDefault = signBackground d
  scheme : ctx.colorScheme = d.multiCfg.colorScheme
  fgCur : ctx.fgCurrent = p.fg
  bgCur : ctx.bgCurrent = p.bg

theorem hasColors_eq {d ctx p} (h : HasColors d ctx p) : ctx = p.ctx d := by
  obtain ⟨s, f1, f2, b1, b2⟩ := ctx
  obtain ⟨h1, h2, h3, h4, h5⟩ := h
  dsimp only at h1 h2 h3 h4 h5
  subst h1 h2 h3 h4 h5
  rfl

theorem setForeground_rgb {d : Dms} {ctx p c v ctx'} (h : HasColors d ctx p)
    (hs : ctx.setForeground (some c) v = .ok ctx') : ctx'.foregroundRgb = foregroundRgb d c := by
  have e := setForeground_fg hs
  have e1 : ctx'.fgCurrent = c := by rw [e]; rfl
  have e2 : ctx'.rgb c = (signCtx d).rgb c :=
    rgb_congr (by rw [e]; exact h.scheme) (by rw [e]; exact h.fg) (by rw [e]; exact h.bg) c
  unfold ColorCtx.foregroundRgb foregroundRgb
  rw [e1, e2, rgb_eq]
  have : ctx'.fgDefault = signForeground d := by rw [e]; exact h.fg
  rw [this]
  show _ = (colorValue (signCtx d).colorScheme (signCtx d).fgDefault (signCtx d).bgDefault c).getD _
  split <;> simp [*]

/-- painting a color rectangle -/
theorem renderRect_layer {page page' : Raster} {r clr v} (h : renderRect page r clr v = .ok page') :
    page'.width = page.width ∧ page'.height = page.height ∧
    ∀ i j, (PixelIn page.width page.height r i j → page'.px i j = clr) ∧
      (¬ PixelIn page.width page.height r i j → page'.px i j = page.px i j) := by
  unfold renderRect at h
  split at h
  · simp at h
  · rename_i h0
    split at h
    · simp at h
    · rename_i h1
      simp only [Out.bind_eq_ok, Out.ofRes_eq_ok] at h
      obtain ⟨q, _, h⟩ := h
      split at h
      · simp only [Out.pure_eq, Out.ok.injEq] at h
        subst h
        have eW : (UInt16.ofNat page.width).toNat = page.width := by
          rw [UInt16.toNat_ofNat']; omega
        have eH : (UInt16.ofNat page.height).toNat = page.height := by
          rw [UInt16.toNat_ofNat']; omega
        have ew := extend_width r ⟨1, 1, .ofNat page.width, .ofNat page.height⟩
        have eh := extend_height r ⟨1, 1, .ofNat page.width, .ofNat page.height⟩
        dsimp only at ew eh
        rw [eW] at ew
        rw [eH] at eh
        have hx : 1 ≤ r.x.toNat := by
          have : r.x ≠ 0 := fun e => h0 (.inl e)
          have : r.x.toNat ≠ 0 := fun e => this (UInt16.toNat_inj.1 (by simpa using e))
          omega
        have hy : 1 ≤ r.y.toNat := by
          have : r.y ≠ 0 := fun e => h0 (.inr e)
          have : r.y.toNat ≠ 0 := fun e => this (UInt16.toNat_inj.1 (by simpa using e))
          omega
        refine ⟨rfl, rfl, fun i j => ?_⟩
        simp only [Raster.copyColor, ew, eh, extend_x, extend_y]
        unfold PixelIn
        constructor
        · intro hp; rw [if_pos (by omega)]
        · intro hp; rw [if_neg (by omega)]
      · simp at h

/-- drawing a graphic -/
theorem renderGraphic_layer {d : Dms} {g : Graphic} {page page' : Raster} {W' H' x y : Nat} {ctx : ColorCtx} {p : Colors}
    {n pos} (hc : HasColors d ctx p) (hok : GraphicOk W' H' g) (hof : GraphicOf d n pos g) (hx : 1 ≤ x) (hy : 1 ≤ y)
    (hpos : corner pos = (x - 1, y - 1)) (h : g.renderGraphic page x y ctx = .ok page') :
    page'.width = page.width ∧ page'.height = page.height ∧
    ∀ i j, ∃ o, Layer d page.width page.height p (.graphic n pos) i j o ∧ page'.px i j = o.getD (page.px i j) := by
  have hb : ¬ (x - 1 + g.width.toNat > page.width ∨ y - 1 + g.height.toNat > page.height) := by
    intro hb
    unfold Graphic.renderGraphic at h
    rw [if_neg (by omega), if_pos hb] at h
    simp at h
  obtain ⟨r, h1, h2, h3, h4, h5⟩ := C37_placement W' H' g hok page x y hx hy ctx (by omega) (by omega)
  rw [h, Out.ok.injEq] at h1
  subst h1
  refine ⟨h2, h3, fun i j => ?_⟩
  by_cases hin : InBox g (corner pos) i j
  · have hin' := hin
    rw [hpos] at hin'
    obtain ⟨a1, a2, a3, a4⟩ := hin'
    dsimp only at a1 a2 a3 a4
    obtain ⟨c, hv⟩ := valid_pixel W' H' g hok (i - (x - 1)) (j - (y - 1)) (by omega) (by omega)
    have k := h5 _ _ c (by omega) (by omega) hv
    rw [show x - 1 + (i - (x - 1)) = i by omega, show y - 1 + (j - (y - 1)) = j by omega] at k
    refine ⟨_, Layer.graphic hof hin (c := c) (by rw [hpos]; exact hv), ?_⟩
    split
    · rename_i ht; rw [k.1 ht]; rfl
    · rename_i ht; rw [k.2 ht, hasColors_eq hc]
  · refine ⟨none, Layer.offGraphic hof hin, ?_⟩
    rw [h4 i j]; rfl
    rw [hpos] at hin
    exact hin

theorem hasColors_set {d ctx p c v ctx'} (h : HasColors d ctx p) :
    (ctx.setForeground c v = .ok ctx' → HasColors d ctx' (p.apply d (.colorForeground c))) ∧
    (ctx.setBackground c v = .ok ctx' → HasColors d ctx' (p.apply d (.colorBackground c))) := by
  constructor
  · intro hs
    rw [setForeground_fg hs]
    exact ⟨h.fg, h.bg, h.scheme, by simp [Colors.apply, h.fg], h.bgCur⟩
  · intro hs
    rw [setBackground_bg hs]
    exact ⟨h.fg, h.bg, h.scheme, h.fgCur, by simp [Colors.apply, h.bg]⟩

theorem lookupGraphic_of {d : Dms} {n gid g} (h : lookupGraphic d n gid = .ok g) :
    (g ∈ d.graphicDefinition ∧ g.number = n) ∧ ∀ id, gid = some id → id = g.versionId := by
  refine ⟨(lookupGraphic_np d n gid).2 g h, ?_⟩
  unfold lookupGraphic at h
  split at h
  · simp
  · rename_i id _
    split at h
    · simp only [Out.ok.injEq] at h; subst h; rename_i e; simp [e]
    · simp at h
  · simp at h

theorem renderGraphicsLoop_on {d : Dms} (hg : ∀ g ∈ d.graphicDefinition, g.number.toNat ≠ 0 →
      ∃ W H, GraphicOk W H g) {ss vs} (ht : Section ss vs) (hs : ∀ t ∈ ss, Item t) :
    ∀ {ctx p} {page page' : Raster}, HasColors d ctx p → renderGraphicsLoop d ss ctx page = .ok page' →
      GraphicsOn d p vs page page' := by
  induction ht with
  | nil =>
    intro ctx p page page' _ h
    simp only [renderGraphicsLoop, Out.ok.injEq] at h
    subst h
    exact ⟨rfl, rfl, fun i j => ⟨none, .nil, rfl⟩⟩
  | np hp =>
    intro ctx p page page' _ h
    rw [renderGraphicsLoop, hp] at h
    simp only [Out.ofRes_ok, Out.ok_bind, ofExcept, Out.ok.injEq] at h
    subst h
    exact ⟨rfl, rfl, fun i j => ⟨none, .nil, rfl⟩⟩
  | tr hp =>
    intro ctx p page page' _ h
    rw [renderGraphicsLoop, hp] at h
    simp only [Out.ofRes_ok, Out.ok_bind, ofExcept, Out.ok.injEq] at h
    subst h
    exact ⟨rfl, rfl, fun i j => ⟨none, .nil, rfl⟩⟩
  | @cons s v ss vs hp hne hnr _ ih =>
    intro ctx p page page' hc h
    have ih := fun {ctx p} {page page' : Raster} => ih (fun t h => hs t (List.mem_cons_of_mem _ h)) (ctx := ctx) (p := p)
      (page := page) (page' := page')
    have hr := C04_in_range s v (hs s (List.mem_cons_self ..)) hp
    rw [renderGraphicsLoop, hp] at h
    simp only [Out.ofRes_ok, Out.ok_bind, ofExcept] at h
    -- values that paint nothing
    have skip : ∀ {ctx'}, HasColors d ctx' (p.apply d v) → (∀ r c, v ≠ .colorRectangle r c) →
        (∀ n pos, v ≠ .graphic n pos) → renderGraphicsLoop d ss ctx' page = .ok page' →
        GraphicsOn d p (v :: vs) page page' := by
      intro ctx' hc' n1 n2 h'
      obtain ⟨k1, k2, k3⟩ := ih hc' h'
      refine ⟨k1, k2, fun i j => ?_⟩
      obtain ⟨o, l, e⟩ := k3 i j
      exact ⟨_, .cons (.other n1 n2) l, by rw [e]; simp⟩
    -- values that paint
    have draw : ∀ {mid : Raster}, p.apply d v = p → mid.width = page.width → mid.height = page.height →
        (∀ i j, ∃ o, Layer d page.width page.height p v i j o ∧ mid.px i j = o.getD (page.px i j)) →
        renderGraphicsLoop d ss ctx mid = .ok page' → GraphicsOn d p (v :: vs) page page' := by
      intro mid ep w1 w2 hl h'
      obtain ⟨k1, k2, k3⟩ := ih hc h'
      refine ⟨k1.trans w1, k2.trans w2, fun i j => ?_⟩
      obtain ⟨o, l, e⟩ := k3 i j
      obtain ⟨o', l', e'⟩ := hl i j
      rw [w1, w2] at l
      refine ⟨_, .cons l' (by rw [ep]; exact l), ?_⟩
      rw [e, e']
      cases o <;> simp
    cases v
    case colorBackground c =>
      simp only [Out.bind_eq_ok] at h
      obtain ⟨ctx', h1, h2⟩ := h
      exact skip ((hasColors_set hc).2 (ofExcept_eq_ok.1 h1)) (by simp) (by simp) h2
    case colorForeground c =>
      simp only [Out.bind_eq_ok] at h
      obtain ⟨ctx', h1, h2⟩ := h
      exact skip ((hasColors_set hc).1 (ofExcept_eq_ok.1 h1)) (by simp) (by simp) h2
    case colorRectangle r c =>
      simp only [Out.bind_eq_ok] at h
      obtain ⟨ctx', h1, mid, h2, h3⟩ := h
      obtain ⟨w1, w2, w3⟩ := renderRect_layer h2
      refine draw rfl w1 w2 (fun i j => ?_) h3
      by_cases hin : PixelIn page.width page.height r i j
      · refine ⟨_, .rect hin, ?_⟩
        rw [(w3 i j).1 hin, setForeground_rgb hc (ofExcept_eq_ok.1 h1)]; rfl
      · exact ⟨_, .offRect hin, by rw [(w3 i j).2 hin]; rfl⟩
    case graphic n pos =>
      have go : ∀ {gid x y}, 1 ≤ x → 1 ≤ y → corner pos = (x - 1, y - 1) →
          (∀ x y id, pos = some (x, y, some id) → gid = some id) →
          (do
            let g ← lookupGraphic d n gid
            let raster ← (g.renderGraphic page x y ctx).mapErr GraphicError.toSyntax
            renderGraphicsLoop d ss ctx raster) = .ok page' →
          GraphicsOn d p (.graphic n pos :: vs) page page' := by
        intro gid x y hx hy hcor hid h
        simp only [Out.bind_eq_ok, mapErr_eq_ok] at h
        obtain ⟨g, h1, mid, h2, h3⟩ := h
        obtain ⟨⟨g1, g2⟩, g3⟩ := lookupGraphic_of h1
        obtain ⟨W', H', hok⟩ := hg g g1 (by rw [g2]; have := hr.1; omega)
        obtain ⟨w1, w2, w3⟩ := renderGraphic_layer (n := n) (pos := pos) hc hok
          ⟨g1, g2, fun x y id e => g3 id (hid x y id e)⟩ hx hy hcor h2
        exact draw rfl w1 w2 w3 h3
      cases pos with
      | none => exact go (gid := none) (x := 1) (y := 1) (Nat.le_refl 1) (Nat.le_refl 1) rfl (by simp) h
      | some q =>
        obtain ⟨x, y, gid⟩ := q
        obtain ⟨h1, h2⟩ := hr.2 x y gid rfl
        exact go (gid := gid) h1 h2 rfl (by simp) h
    case newPage => exact absurd rfl hne
    case textRectangle r => exact absurd rfl (hnr r)
    all_goals first
      | (exfalso; simp at h; done)
      | exact skip hc (by simp) (by simp) h

theorem sections_cons {v : Value} {vs : List Value} (h : ∀ r, v ≠ .textRectangle r) :
    sections (v :: vs) = (v :: (sections vs).1, (sections vs).2) := by
  cases v <;> first | rfl | exact absurd rfl (h _)

theorem updateTextRectangle_extends {d full r r'} (h : updateTextRectangle d full r = .ok (some r')) :
    r' = r.extendWidthHeight full := by
  unfold updateTextRectangle at h
  simp only [Res.bind_eq_ok] at h
  obtain ⟨i, _, h⟩ := h
  split at h
  · simp at h
  · simp only [Res.bind_eq_ok] at h
    obtain ⟨x, _, h⟩ := h
    split at h
    · simp at h
    · simp only [Res.bind_eq_ok] at h
      obtain ⟨y, _, h⟩ := h
      split at h
      · simp at h
      · simpa [eq_comm] using h

/-- What is known after the text of a rectangle, on a page with the values `vs` -/
def TextEnd (d : Dms) (po : Bool) (st st' : Rtr) (rest' rest : List Str) (b : Bool) (vs : List Value) : Prop :=
  textAttr st'.rs = (sections vs).1.foldl (TextAttr.apply (signAttr d)) (textAttr st.rs) ∧
  st'.rs.lineSpacing = (sections vs).1.foldl spacingAfter st.rs.lineSpacing ∧
  match (sections vs).2 with
  | [] => st'.pageState = (if b then .newPage po else st.pageState) ∧ st'.rs.textRectangle = st.rs.textRectangle
  | (r, ws1) :: more => st'.pageState = .on false ∧ st'.rs.textRectangle = opened d r ∧
      ∃ ws, TakePage rest' ws rest b ∧ sections ws = (ws1, more)

theorem rtrLoop_end {d po} {ss : List Str} {st st' rest'} (hd : SignState d (RenderState.new d) st.rs)
    (h : rtrLoop d (RenderState.new d) po ss st = .ok (.ok (), st', rest')) {vs rest b}
    (ht : TakePage ss vs rest b) :
    Section ss (sections vs).1 ∧ TextEnd d po st st' rest' rest b vs := by
  induction ss generalizing st vs with
  | nil =>
    simp only [rtrLoop, Res.ok.injEq, Prod.mk.injEq, true_and] at h
    obtain ⟨rfl, rfl⟩ := h
    cases ht
    exact ⟨.nil, rfl, rfl, rfl, rfl⟩
  | cons s ss ih =>
    unfold rtrLoop at h
    split at h
    · simp at h
    · simp at h
    · rename_i v hv
      split at h
      · simp at h
      · rename_i st1 h1
        have hk := rtrStep_cont h1
        have hss := rtrStep_spans h1
        obtain ⟨a1, _, a3⟩ := rtrStep_attr hd h1
        cases ht with
        | np hp => rw [hv] at hp; simp at hp; exact absurd hp hk.notPage
        | cons hp hne ht =>
          rw [hv] at hp
          simp only [Res.ok.injEq, Except.ok.injEq] at hp
          subst hp
          obtain ⟨i1, i2, i3, i4⟩ := ih a3 h ht
          unfold TextEnd
          rw [sections_cons hk.notRect]
          refine ⟨.cons hv hne hk.notRect i1, ?_, ?_, ?_⟩
          · rw [i2, a1]; rfl
          · rw [i3, hss.spacing]; rfl
          · rw [hk.pageState, hk.rect] at i4; exact i4
      · rename_i st1 h1
        simp only [Res.ok.injEq, Prod.mk.injEq, true_and] at h
        obtain ⟨rfl, rfl⟩ := h
        rcases rtrStep_brk h1 with ⟨rfl, rfl⟩ | ⟨r, r', rfl, hu, rfl⟩
        · cases ht with
          | np hp => exact ⟨.np hp, rfl, rfl, rfl, rfl⟩
          | cons hp hne ht => rw [hv] at hp; simp at hp; exact absurd hp.symm hne
        · cases ht with
          | np hp => rw [hv] at hp; simp at hp
          | cons hp hne ht =>
            rw [hv] at hp
            simp only [Res.ok.injEq, Except.ok.injEq] at hp
            subst hp
            refine ⟨.tr hv, rfl, rfl, rfl, (updateTextRectangle_extends hu).trans (extend_opened d r), _, ht, rfl⟩
      · simp at h

/-- the numbers of the texts of a rectangle -/
theorem drawn_numbers {d ms pg pg' page page'} (h : Drawing d ms pg page) (hon : pg.pageState = .on false)
    (hr : renderTextRectangle d pg page = .ok (.ok page', pg')) {vs} (hs : Section pg.values vs) :
    pg'.spans.map (·.state.spanNumber) = numbers (signAttr d) (textAttr pg.renderState) 0 true vs := by
  obtain ⟨hp, _, _⟩ := drawing_ok h
  obtain ⟨z1, z2⟩ := drawing_zero h hon
  obtain ⟨st, values, hl, rfl, _⟩ := renderTextRectangle_ok hr
  rw [hp.default] at hl
  obtain ⟨vs', i1, new, i2, i3⟩ := rtrLoop_numbers (st := ⟨pg.renderState, _, [], true⟩) (drawing_sign h) hl
  obtain rfl := section_unique i1 hs
  simp only [List.nil_append] at i2
  show st.spans.map _ = _
  rw [i2, i3]
  simp only [z2]

/-- the text of a rectangle -/
theorem textDrawn {d ms pg pg' page page'} (hd : FontsOk d.fontDefinition) (h0 : 1 ≤ d.multiCfg.defaultFont.toNat)
    (h : Drawing d ms pg page) (hon : pg.pageState = .on false)
    (hr : renderTextRectangle d pg page = .ok (.ok page', pg')) {vs} (hs : Section pg.values vs) :
    TextDrawn d (textAttr pg.renderState) pg.renderState.lineSpacing pg.renderState.textRectangle vs page page' := by
  obtain ⟨vs', h1, h2, _⟩ := drawn_section h hon hr
  obtain rfl := section_unique h1 hs
  obtain ⟨hts, hall⟩ := drawn_spans h hr
  have hc := drawn_colors h hr
  obtain ⟨r1, r2⟩ := C43_rectangle_inside d ms pg page h
  unfold renderTextSpans at hts
  split at hts
  · simp at hts
  · have hfo : ∀ s ∈ pg'.spans, ∀ f, FontOf d.fontDefinition s f → FontOk f := by
      intro s hs f hf
      obtain ⟨f1, f2⟩ := font_number hf
      refine hd.fonts f f1 ?_
      have := (hall s hs).1.1.font h0
      rw [f2]; omega
    obtain ⟨ps, e1, e2, e3⟩ := renderSpansLoop_placed hts (fun s h => h) hfo (fun s hs => (hall s hs).1.2)
      (fun s hs => (hall s hs).2) r2 r1
    have hnum : (ps.map Prod.fst).map (·.state.spanNumber) =
        numbers (signAttr d) (textAttr pg.renderState) 0 true vs' := by
      rw [e1]
      exact drawn_numbers h hon hr hs
    refine ⟨ps, by rw [e1]; exact h2, ⟨hnum, fun p hp => ?_⟩, fun s hs => ?_, fun p hp => (e2 p hp).1, e3,
      fun ht => ⟨by rw [e1]; exact (tidyDrawn_spans ⟨h, hon, hr, _, hs, ht⟩).1, fun p hp => ?_⟩, fun hm => ?_⟩
    · rw [e1]
      obtain ⟨_, hx, hy⟩ := e2 p hp
      exact ⟨spanX_exact hx, spanY_exact (by rw [← e1]; exact List.mem_map.2 ⟨p, hp, rfl⟩) hy⟩
    · rw [e1] at hs
      exact ⟨(hall s hs).2, hc s hs, (hall s hs).1.2⟩
    · obtain ⟨ho, hdense, _⟩ := tidyDrawn_spans ⟨h, hon, hr, _, hs, ht⟩
      rw [e1]
      have hm : p.1 ∈ pg'.spans := by rw [← e1]; exact List.mem_map.2 ⟨p, hp, rfl⟩
      obtain ⟨_, hx, hy⟩ := e2 p hp
      exact ⟨spanX_at ho hm hx, spanY_at (hdense _ hm) hm hy⟩
    · rw [e1] at hm ⊢
      have := C43_text_partial d hd h0 ms pg pg' page page' h hr hm
      have e : (fun c => ∃ s ∈ pg'.spans, c = s.state.colorCtx.foregroundRgb) =
          fun c => ∃ s ∈ pg'.spans, c = foregroundRgb d (pieceOf s).attr.foreground := by
        funext c
        refine propext ⟨?_, ?_⟩
        · rintro ⟨s, hs, rfl⟩; exact ⟨s, hs, hc s hs⟩
        · rintro ⟨s, hs, rfl⟩; exact ⟨s, hs, (hc s hs).symm⟩
      rw [← e]; exact this

theorem onPageLoop_composed {d ms} (hf : FontsOk d.fontDefinition) (h0 : 1 ≤ d.multiCfg.defaultFont.toNat)
    (hg : ∀ g ∈ d.graphicDefinition, g.number.toNat ≠ 0 → ∃ W H, GraphicOk W H g) {fuel n pg page page' pg'}
    (h : onPageLoop d fuel n pg page = .ok (.ok page', pg')) (hfuel : maxTextRectangles + 1 ≤ fuel + n)
    (hn : n ≤ maxTextRectangles) (hs : pg.pageState = .on false) (hd : Drawing d ms pg page)
    {vs rest b} (ht : TakePage pg.values vs rest b) :
    Composed d pg.renderState.colorCtx.bgCurrent (textAttr pg.renderState) pg.renderState.lineSpacing
      pg.renderState.textRectangle (sections vs).1 (sections vs).2 page page' ∧
    pg'.renderState.textRectangle = lastRect d pg.renderState.textRectangle (sections vs).2 := by
  induction fuel generalizing n pg page vs with
  | zero => omega
  | succ fuel ih =>
    rw [onPageLoop, if_pos hs] at h
    split at h
    · simp at h
    · simp at h
    · rename_i mid hgr
      have hd1 := Drawing.graphics hd hgr
      simp only [Res.bind_eq_ok] at h
      obtain ⟨⟨x, pg1⟩, h1, h2⟩ := h
      cases x with
      | error e => simp at h2
      | ok page1 =>
        have hd2 := Drawing.text hd1 h1
        obtain ⟨hp, _, _⟩ := drawing_ok hd
        have hsign := drawing_sign hd
        obtain ⟨st, values, hl, hpg1, hts⟩ := renderTextRectangle_ok h1
        rw [hp.default] at hl
        have hbg := (rtrLoop_attr hsign hl).2.1
        obtain ⟨hsec, e1, e2, e3⟩ := rtrLoop_end (st := ⟨pg.renderState, _, [], true⟩) hsign hl ht
        have hitems : ∀ t ∈ pg.values, Item t := hp.items
        have hG := renderGraphicsLoop_on hg hsec hitems
          (p := ⟨(textAttr pg.renderState).foreground, pg.renderState.colorCtx.bgCurrent⟩)
          ⟨hsign.fg, hsign.bg, hsign.scheme, rfl, rfl⟩ hgr
        have hT := textDrawn hf h0 hd1 hs h1 hsec
        simp only at h2
        split at h2
        · simp at h2
        · rename_i hlt
          generalize he : (sections vs).2 = more at e3 ⊢
          cases more with
          | nil =>
            dsimp only at e3
            cases fuel with
            | zero => omega
            | succ f =>
              rw [onPageLoop, if_neg (by rw [hpg1]; dsimp only; rw [e3.1]; exact pageEnd_ne b _)] at h2
              simp only [Res.ok.injEq, Prod.mk.injEq, Except.ok.injEq] at h2
              obtain ⟨rfl, rfl⟩ := h2
              exact ⟨.last hG hT, by rw [hpg1]; exact e3.2⟩
          | cons q more =>
            obtain ⟨r, ws1⟩ := q
            obtain ⟨e4, e5, ws, e6, e7⟩ := e3
            have := ih h2 (by omega) (by omega) (by rw [hpg1]; exact e4) hd2 (vs := ws) (by rw [hpg1]; exact e6)
            rw [e7, hpg1] at this
            dsimp only at this
            rw [e1, e2, e5, hbg] at this
            exact ⟨.next hG hT this.1, this.2⟩

end Ntcip
