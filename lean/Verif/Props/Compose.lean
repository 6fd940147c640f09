import Verif.Lemmas.Compose
import Verif.Lemmas.Tables
/-
Property C66: a page is composed of background, graphics and text, in this order.
-/
namespace Ntcip
open Spec Tests

theorem steps_sign {d ms xs pg} (h : Steps d (Pages.new d ms) xs pg) : SignState d (RenderState.new d) pg.renderState := by
  have hI : ∀ (ctx : ColorCtx) c v ctx', (ctx.fgDefault = signForeground d ∧
      ctx.bgDefault = signBackground d ∧ ctx.colorScheme = d.multiCfg.colorScheme) →
      ctx.setForeground c v = .ok ctx' → (ctx'.fgDefault = signForeground d ∧
      ctx'.bgDefault = signBackground d ∧ ctx'.colorScheme = d.multiCfg.colorScheme) := by
    intro ctx c v ctx' hi hs
    rw [setForeground_fg hs]; exact hi
  have hB : ∀ (ctx : ColorCtx) c v ctx', (ctx.fgDefault = signForeground d ∧
      ctx.bgDefault = signBackground d ∧ ctx.colorScheme = d.multiCfg.colorScheme) →
      ctx.setBackground c v = .ok ctx' → (ctx'.fgDefault = signForeground d ∧
      ctx'.bgDefault = signBackground d ∧ ctx'.colorScheme = d.multiCfg.colorScheme) := by
    intro ctx c v ctx' hi hs
    rw [setBackground_bg hs]; exact hi
  have h1 := (steps_ind h (fun pg => pg.renderState.colorCtx.fgDefault = signForeground d ∧
      pg.renderState.colorCtx.bgDefault = signBackground d ∧
      pg.renderState.colorCtx.colorScheme = d.multiCfg.colorScheme) (fun _ _ => True)
      (fun pg x pg' h0 hn => ⟨(next_inv _ hI hB hn).2 h0, trivial⟩) ⟨foregroundDefault_eq d, backgroundDefault_eq d, rfl⟩).1
  exact ⟨rfl, h1.1, h1.2.1, h1.2.2⟩

/-- a page, and the text rectangle after it -/
theorem onPage_composed {d : Dms} (hf : FontsOk d.fontDefinition) (h0 : 1 ≤ d.multiCfg.defaultFont.toNat) {W H : Nat}
    (hg : GraphicsOk W H d.graphicDefinition) {ms : Str} {xs pg page pg'}
    (h : Steps d (Pages.new d ms) xs pg) (hn : NoError xs) (hon : isOn pg.pageState = true)
    (hx : Pages.next d pg = .ok (some (.ok page), pg')) :
    ∃ us vs b, Consumed (slices ms) pg.values us ∧ TakePage pg.values vs pg'.values b ∧
      let bg := background (signPage d).2 (signPage d).2 (us ++ vs)
      Composed d bg (us.foldl (TextAttr.apply (signAttr d)) (signAttr d)) none (signRect d) (sections vs).1 (sections vs).2
        (.withColor d.vmsCfg.signWidthPixels.toNat d.vmsCfg.signHeightPixels.toNat (backgroundRgb d bg)) page.raster ∧
      pg'.renderState.textRectangle = lastRect d (signRect d) (sections vs).2 := by
  obtain ⟨us, hc, ha, hb, _⟩ := C53_carry d ms xs pg h hn
  have hp := steps_state h (pagesOk_new d ms)
  have hr : renderOnPage d pg = .ok (.ok page, pg') := by
    unfold Pages.next at hx
    cases hs : pg.pageState with
    | on _ =>
      rw [hs] at hx
      simp only [Res.bind_eq_ok, Res.pure_eq, Res.ok.injEq, Prod.mk.injEq, Option.some.injEq] at hx
      obtain ⟨⟨x, y⟩, hx, rfl, rfl⟩ := hx
      exact hx
    | off _ => rw [hs] at hon; simp [isOn] at hon
    | done => rw [hs] at hon; simp [isOn] at hon
  obtain ⟨vs, rest, b, hO⟩ := renderOnPage_ok hr
  have hsign : SignState d pg.defaultState pg.renderState := by
    rw [hp.default]; exact steps_sign h
  refine ⟨us, vs, b, hc, by rw [hO.values]; exact hO.take, ?_⟩
  unfold renderOnPage at hr
  split at hr
  · simp at hr
  · simp at hr
  · simp only [Res.bind_eq_ok] at hr
    obtain ⟨⟨x, rs⟩, h1, h2⟩ := hr
    cases x with
    | error e => simp at h2
    | ok u =>
      simp only [Res.bind_eq_ok] at h2
      obtain ⟨⟨y, pg1⟩, h2, h3⟩ := h2
      cases y with
      | error e => simp at h3
      | ok raster =>
        simp only [Res.pure_eq, Res.ok.injEq, Prod.mk.injEq, Except.ok.injEq] at h3
        obtain ⟨rfl, rfl⟩ := h3
        have hdr : Drawing d ms _ _ := Drawing.start h h1
        have h1' := h1
        unfold updatePageState at h1'
        obtain ⟨b1, b2, b3⟩ := updatePageStateLoop_bg (d := d)
          (by exact ⟨hsign.ds, hsign.fg, hsign.bg, hsign.scheme⟩) h1' hO.take
        obtain ⟨vs1, rest1, b1', ht1, ut, ue, ui⟩ := updatePageStateLoop_ok h1'
        have := onPageLoop_composed hf h0 (fun g hm hz => ⟨W, H, hg.graphics g hm hz⟩) h2 (by decide) (by decide) rfl hdr
          hO.take
        dsimp only at this b1 b2 ⊢
        have eb : rs.colorCtx.bgCurrent = background (signPage d).2 (signPage d).2 (us ++ vs) := by
          rw [b1, hb]
          simp only [background, List.foldl_append]
          rfl
        have e1 : rs.lineSpacing = none := by rw [ue]; simp [hp.default, RenderState.new]
        have e2 : rs.textRectangle = (signRect d) := by rw [ue]; rw [hp.default]; rfl
        have e3 : textAttr rs = us.foldl (TextAttr.apply (signAttr d)) (signAttr d) := by rw [b2, ← ha]; rfl
        have e4 : buildRaster rs = .withColor d.vmsCfg.signWidthPixels.toNat d.vmsCfg.signHeightPixels.toNat (backgroundRgb d rs.colorCtx.bgCurrent) := by
          unfold buildRaster
          rw [e2, backgroundRgb_sign b3]
        rw [e1, e2, e3, e4, eb] at this
        exact this

/-- **C66** what a page shows.  When `next` gives an ON page, the values of the page are `vs`: its raster has the size
of the sign, starts filled with the last background color set on this page or before, and for each text rectangle (first
the whole sign) the color rectangles and graphics of its values are painted in message order, and then its text is drawn
over them.  Attributes of text and foreground color are those set by the values before, on this page or earlier pages.
Each text is drawn once, at its place (`TextDrawn`); C91 shows that this describes one page only. -/
theorem C66_page (d : Dms) (hf : FontsOk d.fontDefinition) (h0 : 1 ≤ d.multiCfg.defaultFont.toNat) (W H : Nat)
    (hg : GraphicsOk W H d.graphicDefinition) (ms : Str) (xs pg page pg')
    (h : Steps d (Pages.new d ms) xs pg) (hn : NoError xs) (hon : isOn pg.pageState = true)
    (hx : Pages.next d pg = .ok (some (.ok page), pg')) :
    ∃ us vs b, Consumed (slices ms) pg.values us ∧ TakePage pg.values vs pg'.values b ∧
      let bg := background (signPage d).2 (signPage d).2 (us ++ vs)
      Composed d bg (us.foldl (TextAttr.apply (signAttr d)) (signAttr d)) none (signRect d) (sections vs).1 (sections vs).2
        (.withColor d.vmsCfg.signWidthPixels.toNat d.vmsCfg.signHeightPixels.toNat (backgroundRgb d bg)) page.raster := by
  obtain ⟨us, vs, b, h1, h2, h3, _⟩ := onPage_composed hf h0 hg h hn hon hx
  exact ⟨us, vs, b, h1, h2, h3⟩

/-- graphic numbers being unique, a value paints a pixel in one way -/
theorem layer_unique {d W H p v i j o o'} (hu : UniqueNumbers (fun g : Graphic => g.number.toNat) d.graphicDefinition)
    (hv : ∀ pos, v ≠ .graphic 0 pos)
    (h : Layer d W H p v i j o) (h' : Layer d W H p v i j o') : o = o' := by
  have key : ∀ {n pos g g'}, n ≠ 0 → GraphicOf d n pos g → GraphicOf d n pos g' → g = g' := by
    rintro n pos g g' h0 ⟨a, b, _⟩ ⟨a', b', _⟩
    obtain ⟨k, hk⟩ := List.getElem?_of_mem a
    obtain ⟨k', hk'⟩ := List.getElem?_of_mem a'
    have hne : g.number.toNat ≠ 0 := by
      rw [b]
      intro hz
      exact h0 (UInt8.toNat_inj.mp hz)
    have := hu k k' g g' hk hk' hne (by dsimp only; rw [b, b'])
    subst this
    rw [hk] at hk'
    simpa using hk'
  cases h with
  | rect h =>
    cases h' with
    | rect => rfl
    | offRect h' => exact absurd h h'
    | other h1 => exact absurd rfl (h1 _ _)
  | offRect h =>
    cases h' with
    | rect h' => exact absurd h' h
    | offRect => rfl
    | other h1 => exact absurd rfl (h1 _ _)
  | graphic h1 h2 h3 =>
    cases h' with
    | graphic h1' h2' h3' =>
      obtain rfl := key (fun e => hv _ (by rw [e])) h1 h1'
      rw [pixelValue_unique h3 h3']
    | offGraphic h1' h2' =>
      obtain rfl := key (fun e => hv _ (by rw [e])) h1 h1'
      exact absurd h2 h2'
    | other _ h1 => exact absurd rfl (h1 _ _)
  | offGraphic h1 h2 =>
    cases h' with
    | graphic h1' h2' =>
      obtain rfl := key (fun e => hv _ (by rw [e])) h1 h1'
      exact absurd h2' h2
    | offGraphic => rfl
    | other _ h1 => exact absurd rfl (h1 _ _)
  | other h1 h2 =>
    cases h' with
    | rect => exact absurd rfl (h1 _ _)
    | offRect => exact absurd rfl (h1 _ _)
    | graphic => exact absurd rfl (h2 _ _)
    | offGraphic => exact absurd rfl (h2 _ _)
    | other => rfl

/-- The graphics layer is determined by the values: there is one raster `b` for `a`. -/
theorem layered_unique {d W H p vs i j o o'} (hu : UniqueNumbers (fun g : Graphic => g.number.toNat) d.graphicDefinition)
    (hv : ∀ pos, Value.graphic 0 pos ∉ vs)
    (h : Layered d W H p vs i j o) (h' : Layered d W H p vs i j o') : o = o' := by
  induction h generalizing o' with
  | nil => cases h'; rfl
  | @cons p v vs i j o u h1 h2 ih =>
    cases h' with
    | cons h1' h2' =>
      rw [ih (fun pos hm => hv pos (by simp [hm])) h2',
        layer_unique hu (fun pos e => hv pos (by simp [e])) h1 h1']

theorem graphicsOn_unique {d p vs a b b'} (hu : UniqueNumbers (fun g : Graphic => g.number.toNat) d.graphicDefinition)
    (hv : ∀ pos, Value.graphic 0 pos ∉ vs) (h : GraphicsOn d p vs a b) (h' : GraphicsOn d p vs a b') :
    b.width = b'.width ∧ b.height = b'.height ∧ ∀ i j, b.px i j = b'.px i j := by
  refine ⟨by rw [h.width, h'.width], by rw [h.height, h'.height], fun i j => ?_⟩
  obtain ⟨o, ho, e⟩ := h.px i j
  obtain ⟨o', ho', e'⟩ := h'.px i j
  rw [e, e', layered_unique hu hv ho ho']

/-- values without text, and without text rectangles -/
def Spec.NoText (vs : List Value) : Prop :=
  ∀ v ∈ vs, (∀ s, v ≠ .text s) ∧ (∀ c, v ≠ .hexadecimalCharacter c) ∧ (∀ s, v ≠ .newLine s) ∧ (∀ r, v ≠ .textRectangle r)

theorem noText_sections {vs} (h : NoText vs) : sections vs = (vs, []) := by
  induction vs with
  | nil => rfl
  | cons v vs ih =>
    rw [sections_cons (h v (by simp)).2.2.2, ih (fun u hu => h u (by simp [hu]))]

theorem noText_pieces {vs dflt a sp line blank} (h : NoText vs) : pieces dflt a sp line blank vs = [] := by
  induction vs generalizing a sp line blank with
  | nil => rfl
  | cons v vs ih =>
    obtain ⟨h1, h2, h3, _⟩ := h v (by simp)
    rw [pieces, ih (fun u hu => h u (by simp [hu])), List.append_nil]
    cases v <;> first | rfl | exact absurd rfl (h1 _) | exact absurd rfl (h2 _) | exact absurd rfl (h3 _)

/-- **C66 (without text)** an ON page without any text: each pixel has the color painted last by the color rectangles
and graphics, and the background color where nothing is painted. -/
theorem C66_graphics (d : Dms) (hf : FontsOk d.fontDefinition) (h0 : 1 ≤ d.multiCfg.defaultFont.toNat) (W H : Nat)
    (hg : GraphicsOk W H d.graphicDefinition) (ms : Str) (xs pg page pg')
    (h : Steps d (Pages.new d ms) xs pg) (hn : NoError xs) (hon : isOn pg.pageState = true)
    (hx : Pages.next d pg = .ok (some (.ok page), pg')) :
    ∃ us vs b, Consumed (slices ms) pg.values us ∧ TakePage pg.values vs pg'.values b ∧
      let bg := background (signPage d).2 (signPage d).2 (us ++ vs)
      let fg := (us.foldl (TextAttr.apply (signAttr d)) (signAttr d)).foreground
      (NoText vs → ∀ i j, ∃ o, Layered d d.vmsCfg.signWidthPixels.toNat d.vmsCfg.signHeightPixels.toNat ⟨fg, bg⟩ vs i j o ∧
        page.raster.px i j = o.getD (backgroundRgb d bg)) := by
  obtain ⟨us, vs, b, h1, h2, h3⟩ := C66_page d hf h0 W H hg ms xs pg page pg' h hn hon hx
  refine ⟨us, vs, b, h1, h2, fun hno i j => ?_⟩
  dsimp only at h3
  rw [noText_sections hno] at h3
  cases h3 with
  | last hG hT =>
    obtain ⟨ps, e, _, _, _, hT, _⟩ := hT
    rw [noText_pieces hno, List.map_eq_nil_iff, List.map_eq_nil_iff] at e
    subst e
    obtain ⟨o, ho, e⟩ := hG.px i j
    refine ⟨o, ho, ?_⟩
    exact (hT.unlit i j (by simp)).trans e

/-- a sign with graphics -/
def Tests.graphDms : Dms := { fullDms with graphicDefinition := testGraphics }

-- the hypotheses of C66
example : FontsOk graphDms.fontDefinition := (C20_accepts_iff _).mp (by decide +kernel)
example : GraphicsOk 60 30 graphDms.graphicDefinition := (C21_accepts_iff _ 60 30).mp (by decide +kernel)

/-- colors of pixels of the first page -/
def Tests.pixels (d : Dms) (ms : Str) (at_ : List (Nat × Nat)) : List Rgb :=
  match Pages.next d (Pages.new d ms) with
  | .ok (some (.ok p), _) => at_.map fun (x, y) => p.raster.px x y
  | _ => []

-- background, color rectangle over it, graphic over the rectangle (its pixel at (2, 3) is transparent), text over all,
-- wherever the tags are
example : pixels graphDms c!"A[cr1,1,10,10,255,0,0][g7,3,3][pb0,0,255]"
    [(20, 20), (9, 9), (2, 2), (3, 2), (2, 3), (0, 1)] =
    [(0, 0, 255), (255, 0, 0), (255, 255, 255), (255, 0, 255), (255, 0, 0), (255, 255, 255)] := by decide +kernel
-- a later text rectangle covers the text
example : pixels graphDms c!"A[tr1,1,60,30][cr1,1,10,10,255,0,0][g7,3,3][pb0,0,255]"
    [(20, 20), (9, 9), (2, 2), (3, 2), (2, 3), (0, 1)] =
    [(0, 0, 255), (255, 0, 0), (255, 255, 255), (255, 0, 255), (255, 0, 0), (255, 0, 0)] := by decide +kernel
-- without text
example : pixels graphDms c!"[cr1,1,10,10,255,0,0][g7,3,3]" [(20, 20), (9, 9), (2, 2), (3, 2), (2, 3)] =
    [(0, 0, 0), (255, 0, 0), (255, 255, 255), (255, 0, 255), (255, 0, 0)] := by decide +kernel

end Ntcip
