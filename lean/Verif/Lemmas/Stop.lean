import Verif.Spec.Stop
import Verif.Lemmas.First
/-
Lemmas on the first error or panic of a page.
-/
namespace Ntcip
open Spec

/-- how a function ended, other than with a result -/
def stopOf {α : Type} : Out SyntaxError α → Option Stop
  | .ok _ => none
  | .err e => some (.error e)
  | .panic _ => some .panic

/-- the same of a function that gives a state too -/
def stopIn {α β : Type} : Res (Except SyntaxError α × β) → Option Stop
  | .ok (.ok _, _) => none
  | .ok (.error e, _) => some (.error e)
  | .panic _ => some .panic

theorem verdict_errors {cs : List Check} {r} (h : Verdict cs r) : Verdict (cs.map errors) (r.map .error) := by
  cases r with
  | none =>
    intro c hc z
    obtain ⟨c', h1, rfl⟩ := List.mem_map.1 hc
    cases z with
    | error e => exact h c' h1 e
    | panic => exact id
  | some e =>
    show First _ _
    have h' : First cs e := h
    clear h
    induction h' with
    | here h => exact .here h
    | later h1 _ ih =>
      refine .later (fun z => ?_) ih
      cases z with
      | error e => exact h1 e
      | panic => exact id

theorem errors_none {c : Check} (h : ∀ e, ¬ c e) : ∀ z, ¬ errors c z := by
  intro z
  cases z with
  | error e => exact h e
  | panic => exact id

theorem onlyPanics_none {p : Prop} (h : ¬ p) : ∀ z, ¬ onlyPanics p z := by
  intro z
  cases z with
  | error e => exact id
  | panic => exact h

theorem panicsOr_none {p : Prop} {c : Check} (hp : ¬ p) (h : ∀ e, ¬ c e) : ∀ z, ¬ panicsOr p c z := by
  intro z
  cases z with
  | error e => exact fun k => h e k.2
  | panic => exact hp

/-! ### texts -/

/-- like `SpansOk`, without the condition for text in the middle -/
structure SpansFit (M : Nat) (d : Dms) (spans : List Span) (W H : Nat) : Prop where
  weight : 2 * M * spansWeight spans < 65536
  small : ∀ s ∈ spans, SpanSmall M d.fontDefinition s
  fonts : ∀ s ∈ spans, ∀ f, FontOf d.fontDefinition s f → FontOk f
  chars : ∀ s ∈ spans, ∀ ch ∈ s.str, ch.toNat ≠ 0
  rectIn : ∀ s ∈ spans, RectIn s.state.textRectangle W H
  aligned : ∀ s ∈ spans, Aligned d s.state.textRectangle
  justLine : ∀ s ∈ spans, s.state.justLine ≠ .other ∧ s.state.justLine ≠ .full
  justPage : ∀ s ∈ spans, s.state.justPage ≠ .other

theorem spanY_above {d spans s y} (hs : s ∈ spans) (h : spanY d spans s = .ok y) :
    ¬ AboveSign d s.state.textRectangle spans s := by
  rintro ⟨hj, f, hf, hlt⟩
  obtain ⟨f', hf', _, e⟩ := spanY_exact hs h
  obtain rfl := fontOf_unique hf hf'
  simp only [hj, if_true] at e
  omega

theorem spanY_panic {d spans s p} (hn : NP (offsetVert d spans s)) (hs : s ∈ spans)
    (hr : RectIn s.state.textRectangle 65535 65535) (hj : s.state.justPage ≠ .other)
    (h : spanY d spans s = .panic p) :
    (∃ q, offsetVert d spans s = .ok q) ∧ AboveSign d s.state.textRectangle spans s := by
  rcases np_cases hn with ⟨⟨a, b⟩, e⟩ | ⟨er, e⟩
  · refine ⟨⟨_, e⟩, ?_⟩
    have h1 := hr.y
    have h2 := hr.bottom
    obtain ⟨ls, _, _, _, hle⟩ := offsetVert_ok e
    obtain ⟨f, hf, hown⟩ := offsetVert_own e hs
    obtain ⟨e1, e2, e3⟩ := offsetVert_counted hs e
    have hh : s.height d.fontDefinition = .ok f.height.toNat := height_ok.2 ⟨f, hf, rfl⟩
    by_cases hm : s.state.justPage = .middle
    · refine ⟨hm, f, hf, ?_⟩
      apply Classical.byContradiction
      intro hlt
      have hle' := Nat.div_mul_le_self (s.state.textRectangle.y.toNat - 1 +
        (s.state.textRectangle.height.toNat - a - b) / 2 + a) (signCellHeight d)
      rw [← e1, ← e2, ← cellEdge_eq] at hlt
      simp only [linesTop] at hlt
      rw [← Nat.sub_sub] at hlt
      unfold spanY baseline at h
      rw [hh, hm] at h
      dsimp only at h
      unfold baselineMiddle at h
      simp only [cellHeight_eq] at h
      rw [sub16_eq h1, e] at h
      simp only [Out.ofRes_ok, Out.ok_bind] at h
      rw [sub16_eq (by omega)] at h
      simp only [Out.ofRes_ok, Out.ok_bind] at h
      rw [sub16_eq (by omega)] at h
      simp only [Out.ofRes_ok, Out.ok_bind] at h
      rw [chk16_eq (by omega)] at h
      simp only [Out.ofRes_ok, Out.ok_bind] at h
      rw [chk16_eq (by omega)] at h
      simp only [Out.ofRes_ok, Out.ok_bind] at h
      rw [chk16_eq (by omega)] at h
      simp only [Out.ofRes_ok, Out.ok_bind] at h
      rw [sub16_eq (by omega)] at h
      cases h
    · exfalso
      unfold spanY baseline at h
      rw [hh] at h
      cases ej : s.state.justPage
      · exact hj ej
      · rw [ej] at h
        dsimp only at h
        unfold baselineTop at h
        rw [sub16_eq h1, e] at h
        simp only [Out.ofRes_ok, Out.ok_bind] at h
        rw [chk16_eq (by omega)] at h
        simp only [Out.ofRes_ok, Out.ok_bind] at h
        rw [sub16_eq (by omega)] at h
        cases h
      · exact hm ej
      · rw [ej] at h
        dsimp only at h
        unfold baselineBottom at h
        rw [sub16_eq h1, e] at h
        simp only [Out.ofRes_ok, Out.ok_bind] at h
        rw [chk16_eq (by omega)] at h
        simp only [Out.ofRes_ok, Out.ok_bind] at h
        rw [sub16_eq (by omega)] at h
        simp only [Out.ofRes_ok, Out.ok_bind] at h
        rw [sub16_eq (by omega)] at h
        cases h
  · rw [spanY_err e hr hj] at h
    cases h

theorem spanStops_eq (d rect spans s) : spanStops d rect spans s = (lineChecks d rect spans s).map errors ++
    ((heightChecks d rect spans s).map errors ++ [onlyPanics (AboveSign d rect spans s)]) := by
  unfold spanStops
  rw [spanChecks_eq]
  simp

theorem renderSpansLoop_stop {M} {d : Dms} {rect : Rectangle} {spans ss : List Span} : ∀ {page : Raster},
    SpansFit M d spans page.width page.height → page.width ≤ 65535 → page.height ≤ 65535 → (∀ s ∈ ss, s ∈ spans) →
    (∀ s ∈ spans, s.state.textRectangle = rect) →
    Verdict (ss.flatMap (spanStops d rect spans)) (stopOf (renderSpansLoop d spans ss page)) := by
  induction ss with
  | nil => intro page _ _ _ _ _; exact verdict_nil
  | cons s ss ih =>
    intro page hw hW hH hsub hrect
    have hs := hsub s (List.mem_cons_self ..)
    have hr := hw.rectIn s hs
    have ha := hw.aligned s hs
    have hb : RectIn s.state.textRectangle 65535 65535 :=
      ⟨hr.x, hr.y, Nat.le_trans hr.right hW, Nat.le_trans hr.bottom hH⟩
    rw [List.flatMap_cons, spanStops_eq, renderSpansLoop]
    cases hx : spanX d spans s with
    | panic p =>
      exfalso
      rcases np_cases (offsetHoriz_np d spans s hw.small hw.weight) with ⟨⟨b, a⟩, e⟩ | ⟨er, e⟩
      · obtain ⟨x, hx'⟩ := spanX_of e hb (hw.justLine s hs)
        rw [hx'] at hx; cases hx
      · rw [spanX_err e hb (hw.justLine s hs)] at hx; cases hx
    | err e => exact verdict_stop (verdict_stop (verdict_errors (spanX_first (r := some e) (hrect s hs) hx)))
    | ok x =>
      have v1 := spanX_first (r := none) (hrect s hs) ⟨_, hx⟩
      have hg : ∀ e, ¬ GlyphFault d s e := v1 (GlyphFault d s) (by
        unfold lineChecks
        exact List.mem_append_left _ (List.mem_map_of_mem (mem_sameLine hs)))
      have w1 := verdict_errors v1
      rw [Out.ok_bind]
      cases hy : spanY d spans s with
      | err e =>
        exact verdict_stop (verdict_append w1 (verdict_stop (verdict_errors (spanY_first (r := some e) hs (hrect s hs)
          (fun e h => hg e (.font h)) hy))))
      | panic p =>
        obtain ⟨⟨q, hq⟩, habove⟩ := spanY_panic (offsetVert_np d spans s hw.small hw.weight) hs hb (hw.justPage s hs) hy
        rw [hrect s hs] at habove
        have v2 := verdict_errors (offsetVert_first (r := none) hs (hrect s hs) ⟨_, hq⟩)
        exact verdict_stop (verdict_append w1 (verdict_append v2 (verdict_here (e := Stop.panic) habove)))
      | ok y =>
        have v2 := verdict_errors (spanY_first (r := none) hs (hrect s hs) (fun e h => hg e (.font h)) ⟨_, hy⟩)
        have hab := spanY_above hs hy
        rw [hrect s hs] at hab
        have v3 : Verdict [onlyPanics (AboveSign d rect spans s)] none :=
          verdict_single (fun _ => onlyPanics_none hab) (by simp)
        refine verdict_append (verdict_append w1 (verdict_append v2 v3)) ?_
        rw [Out.ok_bind]
        cases hf : s.state.font d.fontDefinition with
        | panic p => exact absurd hf (font_np _ _ p)
        | err e => exact absurd (.font (font_first hf)) (hg e)
        | ok f =>
          rw [Out.ok_bind]
          obtain ⟨w, ⟨f1, es, hf1, hd, rfl⟩, x1, x2, x3⟩ := spanX_inside hx hs ha.x
          obtain ⟨f2, hf2, y3⟩ := spanY_bottom hy
          have hf' := font_ok.1 hf
          obtain rfl := fontOf_unique hf' hf1
          obtain rfl := fontOf_unique hf' hf2
          have hcs : s.charSpacingFont f = charSpacing s f := by
            unfold Span.charSpacingFont charSpacing
            split <;> rename_i h <;> simp [h]
          have h1 := hr.right
          have h2 := hr.bottom
          obtain ⟨r', hr', hc⟩ := renderText_defined f (hw.fonts s hs f hf') x y (charSpacing s f)
            s.state.colorCtx.foregroundRgb s.str (hw.chars s hs) es hd page (by omega) (by omega)
          unfold Span.renderText
          rw [hcs, hr', Out.mapErr_ok, Out.ok_bind]
          exact ih (by rw [hc.width, hc.height]; exact hw) (by rw [hc.width]; exact hW) (by rw [hc.height]; exact hH)
            (fun s hs => hsub s (List.mem_cons_of_mem _ hs)) hrect

theorem renderTextSpans_stop {M} {d : Dms} {rect : Rectangle} {spans : List Span} {page : Raster}
    (hw : SpansFit M d spans page.width page.height) (hW : page.width ≤ 65535) (hH : page.height ≤ 65535)
    (hrect : ∀ s ∈ spans, s.state.textRectangle = rect) :
    Verdict (textStops d rect spans) (stopOf (renderTextSpans d spans page)) := by
  unfold renderTextSpans
  split
  · rename_i e hj
    obtain ⟨rfl, k⟩ := (C47_adjacent ..).1 hj
    exact verdict_here (e := Stop.error .tagConflict) ⟨rfl, k⟩
  · rename_i hj
    have hno : ∀ e, ¬ ConflictFault spans e := by
      rintro e ⟨rfl, k⟩
      rw [(C47_adjacent spans _).2 ⟨rfl, k⟩] at hj
      cases hj
    exact verdict_cons (errors_none hno) (renderSpansLoop_stop hw hW hH (fun _ h => h) hrect)

theorem aboveSign_pieces {d rect ss ss' s s'} (h : ss.map pieceOf = ss'.map pieceOf) (hs : pieceOf s = pieceOf s') :
    AboveSign d rect ss s → AboveSign d rect ss' s' := by
  rintro ⟨h1, f, h2, h3⟩
  obtain ⟨a1, _, a2, _⟩ := pieceOf_eq hs
  obtain ⟨_, _, a4, _⟩ := textAttr_eq a1
  refine ⟨by rw [← a4]; exact h1, f, fontOf_pieces hs h2, ?_⟩
  rw [← totalHeight_pieces h hs, ← countedHeight_pieces h hs, ← a2]
  exact h3

theorem spanStops_pieces {d rect ss ss' s s'} (h : ss.map pieceOf = ss'.map pieceOf) (hs : pieceOf s = pieceOf s') :
    spanStops d rect ss s = spanStops d rect ss' s' := by
  unfold spanStops
  rw [spanChecks_pieces h hs, propext ⟨aboveSign_pieces h hs, aboveSign_pieces h.symm hs.symm⟩]

theorem textStops_pieces {d rect ss ss'} (h : ss.map pieceOf = ss'.map pieceOf) :
    textStops d rect ss = textStops d rect ss' := by
  unfold textStops
  have e1 : ConflictFault ss = ConflictFault ss' :=
    funext fun _ => propext ⟨conflictFault_imp h, conflictFault_imp h.symm⟩
  rw [e1, List.flatMap_def, List.flatMap_def]
  congr 2
  have : ss.map (spanStops d rect ss) = ss.map (spanStops d rect ss') :=
    List.map_congr_left fun s _ => spanStops_pieces h rfl
  rw [this]
  exact map_of_pieces (fun _ _ e => spanStops_pieces rfl e) h

/-! ### colors and graphics -/

theorem intersection_fits_iff {r : Rectangle} {W H : UInt16} {i}
    (h : (r.extendWidthHeight ⟨1, 1, W, H⟩).intersection .checked ⟨1, 1, W, H⟩ = .ok i) : RectFits r := by
  obtain ⟨f1, f2⟩ := intersection_fits h
  rw [extend_x, extend_width] at f1
  rw [extend_y, extend_height] at f2
  unfold extWidth at f1
  unfold extHeight at f2
  constructor
  · have := r.x.toNat_lt
    split at f1 <;> omega
  · have := r.y.toNat_lt
    split at f2 <;> omega

theorem renderRect_fits {raster : Raster} {rect clr value} (hW : raster.width < 65535) (hH : raster.height < 65535)
    (hn : NP (renderRect raster rect clr value)) : RectFits rect := by
  unfold renderRect at hn
  split at hn
  · exact absurd rfl (hn _)
  rw [if_neg (by omega)] at hn
  dsimp only at hn
  cases hi : (rect.extendWidthHeight ⟨1, 1, UInt16.ofNat raster.width, UInt16.ofNat raster.height⟩).intersection .checked
    ⟨1, 1, UInt16.ofNat raster.width, UInt16.ofNat raster.height⟩ with
  | panic p => rw [hi] at hn; exact absurd rfl (hn p)
  | ok i => exact intersection_fits_iff hi

theorem paintStop_none {d : Dms} {v : Value} (hu : unimplemented v = false) (hr : ∀ r c, v = .colorRectangle r c → RectFits r)
    (h : ∀ e, ¬ PaintFault d v e) : ∀ z, ¬ paintStop d v z := by
  refine panicsOr_none ?_ h
  rintro (k | ⟨r, c, k, _, k2⟩)
  · rw [hu] at k; cases k
  · exact k2 (hr r c k)

theorem paintStop_error {d : Dms} {v : Value} {e} (hu : unimplemented v = false)
    (hr : ∀ r c, v = .colorRectangle r c → ColorOk d.multiCfg.colorScheme v → RectFits r) (h : PaintFault d v e) :
    paintStop d v (.error e) := by
  refine ⟨?_, h⟩
  rintro (k | ⟨r, c, k, k1, k2⟩)
  · rw [hu] at k; cases k
  · exact k2 (hr r c k k1)

theorem renderGraphicsLoop_stop {d : Dms} (hd : SizeOk d) (hok : SignOk d) {ss vs} (ht : Section ss vs)
    (hs : ∀ t ∈ ss, Item t) :
    ∀ {ctx : ColorCtx} {page : Raster}, ctx.colorScheme = d.multiCfg.colorScheme →
      page.width = d.vmsCfg.signWidthPixels.toNat → page.height = d.vmsCfg.signHeightPixels.toNat →
      Verdict (vs.map (paintStop d)) (stopOf (renderGraphicsLoop d ss ctx page)) := by
  induction ht with
  | nil => intro ctx page _ _ _; exact verdict_nil
  | np hp => intro ctx page _ _ _; rw [renderGraphicsLoop, hp]; exact verdict_nil
  | tr hp => intro ctx page _ _ _; rw [renderGraphicsLoop, hp]; exact verdict_nil
  | @cons s v ss vs hp hne hnr _ ih =>
    intro ctx page hc hw hh
    have ih := fun {ctx} {page : Raster} => ih (fun t h => hs t (List.mem_cons_of_mem _ h))
      (ctx := ctx) (page := page)
    have hr := C04_in_range s v (hs s (List.mem_cons_self ..)) hp
    have hw' := hd.width
    have hh' := hd.height
    rw [List.map_cons]
    have bad : ∀ {c : Option Color}, isPaint v = true → tagColor v = c →
        (∃ k, c = some k ∧ ¬ Admits ctx.colorScheme k) →
        ¬ ColorOk d.multiCfg.colorScheme v ∧ PaintFault d v (.unsupportedTagValue v.display) := by
      rintro c hg htc ⟨k, rfl, hk⟩
      rw [hc] at hk
      exact ⟨fun hv => hk (hv k htc), .value hg fun hv => hk (hv.1 k htc)⟩
    have good : ∀ {c : Option Color}, tagColor v = c → (∀ k, c = some k → Admits ctx.colorScheme k) →
        ColorOk d.multiCfg.colorScheme v := by
      intro c htc h k hk
      rw [← hc]
      exact h k (by rw [← htc]; exact hk)
    rw [renderGraphicsLoop, hp]
    simp only [Out.ofRes_ok, Out.ok_bind, ofExcept]
    cases v
    case colorBackground c =>
      dsimp only
      cases e1 : ctx.setBackground c (.colorBackground c) with
      | ok ctx' =>
        exact verdict_cons (paintStop_none rfl (by simp) (paint_noFault rfl ⟨good rfl (setBackground_admits e1).1, rfl⟩))
          (ih (by rw [setBackground_bg e1]; exact hc) hw hh)
      | error er =>
        obtain ⟨k, rfl⟩ := setBackground_rejects e1
        exact verdict_here (e := Stop.error _) (paintStop_error rfl (by simp) (bad rfl rfl k).2)
    case colorForeground c =>
      dsimp only
      cases e1 : ctx.setForeground c (.colorForeground c) with
      | ok ctx' =>
        exact verdict_cons (paintStop_none rfl (by simp) (paint_noFault rfl ⟨good rfl (setForeground_admits e1).1, rfl⟩))
          (ih (by rw [setForeground_fg e1]; exact hc) hw hh)
      | error er =>
        obtain ⟨k, rfl⟩ := setForeground_rejects e1
        exact verdict_here (e := Stop.error _) (paintStop_error rfl (by simp) (bad rfl rfl k).2)
    case colorRectangle r c =>
      dsimp only
      cases e1 : ctx.setForeground (some c) (.colorRectangle r c) with
      | error er =>
        obtain ⟨k, rfl⟩ := setForeground_rejects e1
        refine verdict_here (e := Stop.error _) (paintStop_error rfl ?_ (bad rfl rfl k).2)
        intro r' c' _ hcol
        exact absurd hcol (bad rfl rfl k).1
      | ok ctx' =>
        have hcol := good rfl (setForeground_admits e1).1
        simp only [Out.ok_bind]
        cases h2 : renderRect page r ctx'.foregroundRgb (.colorRectangle r c) with
        | panic p =>
          refine verdict_here (e := Stop.panic) (.inr ⟨r, c, rfl, hcol, fun hfit => ?_⟩)
          exact renderRect_np hr hfit (by omega) (by omega) p h2
        | err e =>
          have hfit := renderRect_fits (raster := page) (by omega) (by omega) (fun p => by rw [h2]; simp)
          obtain ⟨k1, rfl⟩ := renderRect_fault (by omega) (by omega) (by rw [hw, hh]; exact hd.size) h2
          rw [hw, hh] at k1
          refine verdict_here (e := Stop.error _) (paintStop_error rfl ?_ (.value rfl fun hv => k1 hv.2))
          rintro r' c' k _; cases k; exact hfit
        | ok mid =>
          have hfit := renderRect_fits (raster := page) (by omega) (by omega) (fun p => by rw [h2]; simp)
          have hp := renderRect_painted h2
          have := renderRect_inside (by omega) (by omega) (by rw [hw, hh]; exact hd.size) h2
          rw [hw, hh] at this
          refine verdict_cons (paintStop_none rfl ?_ (paint_noFault rfl ⟨hcol, this⟩))
            (ih hc (hp.width.trans hw) (hp.height.trans hh))
          rintro r' c' k; cases k; exact hfit
    case graphic n pos =>
      have go : ∀ {gid x y}, 1 ≤ x → 1 ≤ y → corner pos = (x - 1, y - 1) →
          (∀ x y id, pos = some (x, y, some id) → gid = some id) →
          (∀ id, gid = some id → ∃ x y, pos = some (x, y, some id)) →
          Verdict (paintStop d (.graphic n pos) :: vs.map (paintStop d)) (stopOf (do
            let g ← lookupGraphic d n gid
            let raster ← (g.renderGraphic page x y ctx).mapErr GraphicError.toSyntax
            renderGraphicsLoop d ss ctx raster)) := by
        intro gid x y hx hy hcor hid hid'
        cases h1 : lookupGraphic d n gid with
        | panic p => exact absurd h1 ((lookupGraphic_np _ _ _).1 p)
        | err e =>
          exact verdict_here (e := Stop.error _) (paintStop_error rfl (by simp) (lookupGraphic_first h1 hid'))
        | ok g =>
          obtain ⟨g1, g2⟩ := (lookupGraphic_np _ _ _).2 g h1
          have hgok := hok.graphics g g1 (by rw [g2]; have := hr.1; omega)
          obtain ⟨g1, g3⟩ := lookupGraphic_some h1
          have g3 : ∀ x y id, pos = some (x, y, some id) → id = g.versionId := fun x y id e => g3 id (hid x y id e)
          rw [Out.ok_bind]
          cases h2 : g.renderGraphic page x y ctx with
          | panic p => exact absurd h2 (renderGraphic_np hgok hx hy p)
          | err e' =>
            obtain ⟨rfl, hb⟩ := (C37_too_big_iff g page x y hx hy ctx e').1 h2
            refine verdict_here (e := Stop.error _) (paintStop_error rfl (by simp) (.big g1 g3 ?_))
            rw [hcor, ← hw, ← hh]
            exact hb
          | ok mid =>
            have hp := renderGraphic_painted h2
            have hb : ¬ (page.width < x - 1 + g.width.toNat ∨ page.height < y - 1 + g.height.toNat) := by
              intro hb
              rw [(C37_too_big_iff g page x y hx hy ctx .tooBig).2 ⟨rfl, hb⟩] at h2
              cases h2
            refine verdict_cons (paintStop_none rfl (by simp) (graphic_noFault g1 g3 ?_ ?_))
              (ih hc (hp.width.trans hw) (hp.height.trans hh))
            · rw [hcor]; dsimp only; omega
            · rw [hcor]; dsimp only; omega
      cases pos with
      | none => exact go (gid := none) (x := 1) (y := 1) (Nat.le_refl 1) (Nat.le_refl 1) rfl (by simp) (by simp)
      | some q =>
        obtain ⟨x, y, gid⟩ := q
        obtain ⟨h1, h2⟩ := hr.2 x y gid rfl
        exact go (gid := gid) h1 h2 rfl (by simp) (by rintro id rfl; exact ⟨x, y, rfl⟩)
    case newPage => exact absurd rfl hne
    case textRectangle r => exact absurd rfl (hnr r)
    all_goals first
      | exact verdict_here (e := Stop.panic) (.inl rfl)
      | exact verdict_cons (paintStop_none rfl (by simp) (other_noPaint rfl (by simp))) (ih hc hw hh)

/-! ### layout tags -/

theorem rtrStep_panic {d : Dms} (hok : SignOk d) {po st t v p} (hi : Item t) (hv : tryFrom t = .ok (.ok v))
    (h1 : st.rs.lineNumber < 255) (h2 : st.rs.spanNumber < 255)
    (h : rtrStep d (RenderState.new d) po st v = .panic p) : ∃ r, v = .textRectangle r ∧ ¬ RectFits r := by
  apply Classical.byContradiction
  intro hn
  by_cases hc : ∃ r c, v = .colorRectangle r c
  · obtain ⟨r, c, rfl⟩ := hc
    simp [rtrStep] at h
  · have hf : ValueFits v := by
      cases v <;> try exact trivial
      case colorRectangle r c => exact (hc ⟨r, c, rfl⟩).elim
      case textRectangle r => exact Classical.byContradiction fun k => hn ⟨r, rfl, k⟩
    obtain ⟨x, hx⟩ := rtrStep_some hok (po := po) (st := st) (t := t) (v := v) ⟨hi, ⟨_, hv⟩, fun v' hv' => by
      rw [hv] at hv'; cases hv'; exact hf⟩ hv h1 h2
    rw [hx] at h
    cases h

theorem rtrStep_fits {d : Dms} {po st r x} (h : rtrStep d (RenderState.new d) po st (.textRectangle r) = .ok x) :
    RectFits r := by
  unfold rtrStep at h
  simp only [Res.bind_eq_ok] at h
  obtain ⟨o, ho, _⟩ := h
  unfold updateTextRectangle at ho
  simp only [Res.bind_eq_ok] at ho
  obtain ⟨i, hi, _⟩ := ho
  exact intersection_fits_iff (W := d.vmsCfg.signWidthPixels) (H := d.vmsCfg.signHeightPixels) hi

theorem rtrLoop_stop {d : Dms} (hd : SizeOk d) (hok : SignOk d) {po} {ss : List Str} {vs rest b}
    (ht : TakePage ss vs rest b) (hi : ∀ t ∈ ss, Item t) :
    ∀ {st : Rtr}, SignState d (RenderState.new d) st.rs → st.rs.lineNumber + ss.flatten.length ≤ 255 →
      st.rs.spanNumber + ss.flatten.length ≤ 255 →
      Verdict ((sections vs).1.map (fun v => errors (LayoutFault d v)) ++
          (nextTagRect (sections vs).2).toList.map (nextStop d))
        (stopIn (rtrLoop d (RenderState.new d) po ss st)) := by
  induction ht with
  | nil => intro st _ _ _; exact verdict_nil
  | np hp => intro st _ _ _; rw [rtrLoop, hp]; exact verdict_nil
  | @cons s v ss vs rest b hp hne ht ih =>
    intro st hs hl hn
    have his := hi s (List.mem_cons_self ..)
    have hlen := item_length his
    simp only [List.flatten_cons, List.length_append] at hl hn
    unfold rtrLoop
    rw [hp]
    simp only
    by_cases htr : ∃ r, v = .textRectangle r
    · obtain ⟨r, rfl⟩ := htr
      simp only [sections, nextTagRect, List.map_nil, List.nil_append, List.head?_cons, Option.map_some, Option.toList_some,
        List.map_cons]
      split
      · rename_i p h1
        obtain ⟨r', k1, k2⟩ := rtrStep_panic hok his hp (by omega) (by omega) h1
        cases k1
        exact verdict_here (e := Stop.panic) k2
      · rename_i st1 h1
        exact absurd rfl ((rtrStep_cont h1).notRect r)
      · rename_i st1 h1
        have hfit := rtrStep_fits h1
        refine verdict_single (fun _ => panicsOr_none (fun k => k hfit) fun e => ?_) (by simp [stopIn])
        rintro ⟨_, h2, _⟩
        apply h2
        refine ⟨(fun k hk => by cases hk), ?_⟩
        unfold rtrStep at h1
        simp only [Res.bind_eq_ok] at h1
        obtain ⟨o, ho, h1⟩ := h1
        cases o with
        | none => simp at h1
        | some r' => exact updateTextRectangle_textRect' hd ho
      · rename_i e' st1 h1
        exact verdict_here (e := Stop.error _) ⟨fun k => k (rtrStep_fits h1), rtrStep_layout hd hs.scheme h1⟩
    · have hnr : ∀ r, v ≠ .textRectangle r := fun r e => htr ⟨r, e⟩
      rw [sections_cons hnr]
      simp only [List.map_cons, List.cons_append]
      split
      · rename_i p h1
        obtain ⟨r', k1, _⟩ := rtrStep_panic hok his hp (by omega) (by omega) h1
        exact absurd k1 (hnr r')
      · rename_i st1 h1
        have k := rtrStep_ok his hp h1
        have k1 := k.lines
        have k2 := k.spanNumbers
        obtain ⟨_, _, a3⟩ := rtrStep_attr hs h1
        exact verdict_cons (errors_none (rtrStep_noFault hnr hs.scheme h1))
          (ih (fun t h => hi t (List.mem_cons_of_mem _ h)) a3 (by omega) (by omega))
      · rename_i st1 h1
        rcases rtrStep_brk h1 with ⟨rfl, _⟩ | ⟨r, r', rfl, _⟩
        · exact absurd rfl hne
        · exact absurd rfl (hnr r)
      · rename_i e' st1 h1
        exact verdict_here (e := Stop.error _) (rtrStep_layout hd hs.scheme h1)

/-! ### pages -/

/-- What holds along the pages of a message: items and sizes -/
structure PagesFit (M : Nat) (d : Dms) (pg : Pages) : Prop where
  spacing : 99 ≤ M
  fonts : ∀ f ∈ d.fontDefinition, f.number.toNat ≠ 0 → FontSmall M f
  sizes : 2 * M * pg.values.flatten.length < 65536
  short : pg.values.flatten.length ≤ 255

theorem PagesFit.suffix {M d pg pg'} (h : PagesFit M d pg) (hs : pg'.values <:+ pg.values) : PagesFit M d pg' :=
  ⟨h.spacing, h.fonts, Nat.lt_of_le_of_lt (Nat.mul_le_mul_left _ (suffix_flatten hs)) h.sizes,
    Nat.le_trans (suffix_flatten hs) h.short⟩

theorem rtrLoop_spansFit {M d ms pg page} (hok : SignOk d) (h : Drawing d ms pg page) (hp : PagesFit M d pg)
    {po ps x st rest} (hl : rtrLoop d (RenderState.new d) po pg.values ⟨pg.renderState, ps, [], true⟩ = .ok (x, st, rest)) :
    SpansFit M d st.spans page.width page.height := by
  obtain ⟨hpo, hW, hH⟩ := drawing_ok h
  obtain ⟨k1, k2, k3⟩ := rtrLoop_state hpo.items hl hpo.state
  have k2 := k2 (by simp)
  have k4 : 2 * M * spansWeight st.spans < 65536 := by
    have e0 : spansWeight ([] : List Span) = 0 := rfl
    have := hp.sizes
    have : 2 * M * spansWeight st.spans ≤ 2 * M * pg.values.flatten.length :=
      Nat.mul_le_mul_left _ (by dsimp only at k3; omega)
    omega
  have fonts : ∀ s ∈ st.spans, ∀ f, FontOf d.fontDefinition s f → f ∈ d.fontDefinition ∧ f.number.toNat ≠ 0 := by
    intro s hs f hf
    have h1 := (k2 s hs).1.font hok.font
    have h2 := hf.1
    unfold FontTable.font at h2
    refine ⟨List.mem_of_find?_eq_some h2, ?_⟩
    have : f.number = s.state.fontNum := by simpa using List.find?_some h2
    rw [this]; omega
  have h99 := hp.spacing
  refine ⟨k4, fun s hs => ⟨fun f hf => ?_, fun c hc => ?_, fun c hc => ?_⟩, fun s hs f hf => ?_,
    fun s hs => (k2 s hs).2, fun s hs => ?_, fun s hs => (k2 s hs).1.aligned,
    fun s hs => (k2 s hs).1.justLine hok.justLine, fun s hs => (k2 s hs).1.justPage hok.justPage⟩
  · obtain ⟨f1, f2⟩ := fonts s hs f hf
    exact hp.fonts f f1 f2
  · have := (k2 s hs).1.charSpacing c hc; omega
  · have := (k2 s hs).1.lineSpacing c hc; omega
  · obtain ⟨f1, f2⟩ := fonts s hs f hf
    exact hok.fonts f f1 f2
  · rw [hW, hH]; exact (k2 s hs).1.rectIn

theorem renderTextRectangle_stop {M d ms pg page} (hd : SizeOk d) (hok : SignOk d) (h : Drawing d ms pg page)
    (hp : PagesFit M d pg) (hon : pg.pageState = .on false) {vs rest b} (ht : TakePage pg.values vs rest b) :
    let spans := layoutOf d (textAttr pg.renderState) pg.renderState.lineSpacing pg.renderState.textRectangle (sections vs).1
    Verdict ((sections vs).1.map (fun v => errors (LayoutFault d v)) ++
        ((nextTagRect (sections vs).2).toList.map (nextStop d) ++
          textStops d pg.renderState.textRectangle spans)) (stopIn (renderTextRectangle d pg page)) := by
  intro spans
  obtain ⟨hpo, hw, hh⟩ := drawing_ok h
  obtain ⟨z1, z2⟩ := drawing_zero h hon
  have hsign := drawing_sign h
  have hsec := takePage_section ht
  have hsh := hp.short
  unfold renderTextRectangle
  rw [hpo.default]
  have hv := rtrLoop_stop hd hok (po := decide (pg.renderState.pageOffTimeDs > 0)) ht hpo.items
    (st := ⟨pg.renderState, .doneState (decide (pg.renderState.pageOffTimeDs > 0)), [], true⟩) hsign
    (by dsimp only; omega) (by dsimp only; omega)
  rw [← List.append_assoc]
  dsimp only
  cases hl : rtrLoop d (RenderState.new d) (decide (pg.renderState.pageOffTimeDs > 0)) pg.values
      ⟨pg.renderState, .doneState (decide (pg.renderState.pageOffTimeDs > 0)), [], true⟩ with
  | panic p => rw [hl] at hv; exact verdict_stop hv
  | ok q =>
    obtain ⟨y, st, values⟩ := q
    rw [hl] at hv
    rw [Res.ok_bind]
    dsimp only
    cases y with
    | error e' => exact verdict_stop hv
    | ok u =>
      have hfit := rtrLoop_spansFit hok h hp hl
      obtain ⟨vs', i1, ⟨new, i2, i3⟩, i4⟩ := rtrLoop_section (st := ⟨pg.renderState, _, [], true⟩) hsign hl
      obtain rfl := section_unique i1 hsec
      simp only [List.nil_append] at i2
      subst i2
      have ep : st.spans.map pieceOf = spans.map pieceOf := by
        show _ = (layoutOf d (textAttr pg.renderState) pg.renderState.lineSpacing
          pg.renderState.textRectangle (sections vs).1).map pieceOf
        rw [i3, layoutOf, map_spanOf, z1]
      obtain ⟨_, _, _, hrect, _⟩ := rtrLoop_ok hl
      have hsame : ∀ s ∈ st.spans, s.state.textRectangle = pg.renderState.textRectangle := by
        intro s hs
        rcases hrect s hs with hx | hx
        · simp at hx
        · exact hx
      have k := renderTextSpans_stop hfit (by have := hd.width; omega) (by have := hd.height; omega) hsame
      rw [textStops_pieces ep] at k
      have key := verdict_append hv k
      dsimp only
      cases hts : renderTextSpans d st.spans page <;> rw [hts] at key <;> exact key

theorem rectsStops_eq (d n t sp rect ws more) : rectsStops d n t sp rect ws more =
    rectStops d t sp rect ws (nextTagRect more) ++ errors (CountFault n) :: (match more with
      | [] => []
      | (r, us) :: more => rectsStops d (n + 1) (ws.foldl (TextAttr.apply (signAttr d)) t) (ws.foldl spacingAfter sp)
          (opened d r) us more) := by
  cases more with
  | nil => rw [rectsStops]; rfl
  | cons q more => obtain ⟨r, us⟩ := q; rw [rectsStops]; rfl

theorem onPageLoop_stop {M d ms} (hd : SizeOk d) (hok : SignOk d) {fuel n pg page}
    (hn : n ≤ maxTextRectangles) (hfuel : maxTextRectangles + 1 ≤ fuel + n)
    (hs : pg.pageState = .on false) (hdr : Drawing d ms pg page) (hpf : PagesFit M d pg)
    {vs rest b} (ht : TakePage pg.values vs rest b) :
    Verdict (rectsStops d (n + 1) (textAttr pg.renderState) pg.renderState.lineSpacing pg.renderState.textRectangle
      (sections vs).1 (sections vs).2) (stopIn (onPageLoop d fuel n pg page)) := by
  induction fuel generalizing n pg page vs with
  | zero => omega
  | succ fuel ih =>
    rw [onPageLoop, if_pos hs]
    obtain ⟨hp, hw, hh⟩ := drawing_ok hdr
    have hsign := drawing_sign hdr
    rw [rectsStops_eq, rectStops]
    have gr := renderGraphicsLoop_stop hd hok (takePage_section ht) hp.items (ctx := pg.renderState.colorCtx) hsign.scheme hw hh
    cases hgr : renderGraphicsLoop d pg.values pg.renderState.colorCtx page with
    | panic p => rw [hgr] at gr; exact verdict_stop (verdict_stop gr)
    | err e' => rw [hgr] at gr; exact verdict_stop (verdict_stop gr)
    | ok mid =>
      rw [hgr] at gr
      have hd1 := Drawing.graphics hdr hgr
      have hv := renderTextRectangle_stop hd hok hd1 hpf hs ht
      dsimp only at hv ⊢
      cases h1 : renderTextRectangle d pg mid with
      | panic p => rw [h1] at hv; exact verdict_stop (verdict_append gr hv)
      | ok q =>
        obtain ⟨y, pg1⟩ := q
        rw [h1] at hv
        rw [Res.ok_bind]
        dsimp only
        cases y with
        | error e' => exact verdict_stop (verdict_append gr hv)
        | ok page1 =>
          have hv : Verdict _ none := hv
          have hd2 := Drawing.text hd1 h1
          have hpf1 := hpf.suffix (renderTextRectangle_suffix h1)
          obtain ⟨st, values, hl, hpg1, hts⟩ := renderTextRectangle_ok h1
          rw [hp.default] at hl
          obtain ⟨hsec, e1, e2, e3⟩ := rtrLoop_end (st := ⟨pg.renderState, _, [], true⟩) hsign hl ht
          simp only
          by_cases hlt : n + 1 > maxTextRectangles
          · rw [if_pos hlt]
            exact verdict_append (verdict_append gr hv) (verdict_here (e := Stop.error _) ⟨hlt, rfl⟩)
          · rw [if_neg hlt]
            have hcount : ∀ z, ¬ errors (CountFault (n + 1)) z := errors_none fun e hc => hlt hc.1
            generalize he : (sections vs).2 = more at e3 hv ⊢
            cases more with
            | nil =>
              dsimp only at e3
              have : stopIn (onPageLoop d fuel (n + 1) pg1 page1) = none := by
                cases fuel with
                | zero => rfl
                | succ f =>
                  rw [onPageLoop, if_neg (by rw [hpg1]; dsimp only; rw [e3.1]; exact pageEnd_ne b _)]
                  rfl
              rw [this]
              exact verdict_append (verdict_append gr hv) (verdict_cons hcount verdict_nil)
            | cons q more =>
              obtain ⟨r, ws1⟩ := q
              obtain ⟨e4, e5, ws, e6, e7⟩ := e3
              have key := ih (n := n + 1) (pg := pg1) (page := page1) (by omega) (by omega) (by rw [hpg1]; exact e4) hd2
                hpf1 (vs := ws) (by rw [hpg1]; exact e6)
              rw [e7, hpg1] at key
              dsimp only at key
              rw [e1, e2, e5] at key
              rw [← hpg1] at key
              exact verdict_append (verdict_append gr hv) (verdict_cons hcount key)

/-! ### at most one error or panic -/

theorem errors_one {c : Check} (h : ∀ e e', c e → c e' → e = e') {z z'} (h1 : errors c z) (h2 : errors c z') : z = z' := by
  cases z with
  | panic => cases h1
  | error e =>
    cases z' with
    | panic => cases h2
    | error e' => rw [h e e' h1 h2]

theorem onlyPanics_one {p : Prop} {z z'} (h1 : onlyPanics p z) (h2 : onlyPanics p z') : z = z' := by
  cases z <;> cases z' <;> first | rfl | cases h1 | cases h2

theorem panicsOr_one {p : Prop} {c : Check} (h : ∀ e e', c e → c e' → e = e') {z z'} (h1 : panicsOr p c z)
    (h2 : panicsOr p c z') : z = z' := by
  cases z with
  | panic =>
    cases z' with
    | panic => rfl
    | error e' => exact absurd h1 h2.1
  | error e =>
    cases z' with
    | panic => exact absurd h2 h1.1
    | error e' => rw [h e e' h1.2 h2.2]

theorem textStops_one {d rect spans} : ∀ c ∈ textStops d rect spans, ∀ z z', c z → c z' → z = z' := by
  intro c hc z z' h h'
  have one := textChecks_one (d := d) (rect := rect) (spans := spans)
  unfold textStops at hc
  rcases List.mem_cons.1 hc with rfl | hc
  · exact errors_one (one _ (List.mem_cons_self ..)) h h'
  · obtain ⟨s, hs, hc⟩ := List.mem_flatMap.1 hc
    unfold spanStops at hc
    rcases List.mem_append.1 hc with hc | hc
    · obtain ⟨c', hc', rfl⟩ := List.mem_map.1 hc
      exact errors_one (one c' (List.mem_cons_of_mem _ (List.mem_flatMap.2 ⟨s, hs, hc'⟩))) h h'
    · rw [List.mem_singleton.1 hc] at h h'
      exact onlyPanics_one h h'

theorem rectsStops_one {d n t sp rect ws more} : ∀ c ∈ rectsStops d n t sp rect ws more, ∀ z z', c z → c z' → z = z' := by
  have rc : ∀ {t sp rect ws next}, ∀ c ∈ rectStops d t sp rect ws next, ∀ z z', c z → c z' → z = z' := by
    intro t sp rect ws next c hc z z' h h'
    unfold rectStops at hc
    rcases List.mem_append.1 hc with hc | hc
    · obtain ⟨x, _, rfl⟩ := List.mem_map.1 hc
      exact panicsOr_one (fun _ _ => paintFault_one) h h'
    · rcases List.mem_append.1 hc with hc | hc
      · obtain ⟨x, _, rfl⟩ := List.mem_map.1 hc
        exact errors_one (fun e e' h h' => by rw [h.2.2, h'.2.2]) h h'
      · rcases List.mem_append.1 hc with hc | hc
        · obtain ⟨x, _, rfl⟩ := List.mem_map.1 hc
          exact panicsOr_one (fun e e' h h' => by rw [h.2.2, h'.2.2]) h h'
        · exact textStops_one c hc z z' h h'
  have cf : ∀ {n z z'}, errors (CountFault n) z → errors (CountFault n) z' → z = z' := by
    intro n z z' h h'
    exact errors_one (fun e e' h h' => by rw [h.2, h'.2]) h h'
  induction more generalizing n t sp rect ws with
  | nil =>
    intro c hc z z' h h'
    rw [rectsStops] at hc
    rcases List.mem_append.1 hc with hc | hc
    · exact rc c hc z z' h h'
    · rw [List.mem_singleton.1 hc] at h h'
      exact cf h h'
  | cons q more ih =>
    obtain ⟨r, us⟩ := q
    intro c hc z z' h h'
    rw [rectsStops] at hc
    rcases List.mem_append.1 hc with hc | hc
    · exact rc c hc z z' h h'
    · rcases List.mem_cons.1 hc with rfl | hc
      · exact cf h h'
      · exact ih c hc z z' h h'

theorem pageStops_one {d t vs} : ∀ c ∈ pageStops d t vs, ∀ z z', c z → c z' → z = z' := by
  intro c hc z z' h h'
  unfold pageStops at hc
  rcases List.mem_append.1 hc with hc | hc
  · obtain ⟨x, _, rfl⟩ := List.mem_map.1 hc
    exact errors_one (fun e e' h h' => by cases h <;> cases h' <;> rfl) h h'
  · exact rectsStops_one c hc z z' h h'

/-! ### items -/

theorem panicItem_iff {s : Str} (hi : Item s) : (∃ p, tryFrom s = .panic p) ↔ PanicItem s := C03_item_panics_iff s hi

/-- the items of a page: the check of the library -/
theorem checkUnsupported_stop {d : Dms} {ss : List Str} (hi : ∀ s ∈ ss, Item s) :
    ∀ z, ItemStop d ss z ↔ stopOf (checkUnsupported d ss) = some z := by
  induction ss with
  | nil => intro z; simp only [checkUnsupported, stopOf, reduceCtorEq, iff_false]; intro hf; cases hf
  | cons s ss ih =>
    have ih := ih fun s h => hi s (List.mem_cons_of_mem _ h)
    have his := hi s (List.mem_cons_self ..)
    have hpi := panicItem_iff his
    unfold checkUnsupported
    intro z
    cases hx : tryFrom s with
    | panic p =>
      have hp := hpi.1 ⟨p, hx⟩
      simp only [Out.ofRes_panic, Out.panic_bind, stopOf, Option.some.injEq]
      constructor
      · intro hf
        cases hf with
        | panic _ => rfl
        | bad hn _ => exact absurd hp hn
        | tag hd _ _ => rw [← C84_item, hx] at hd; cases hd
        | later hd _ _ _ => rw [← C84_item, hx] at hd; cases hd
      · rintro rfl; exact .panic hp
    | ok x =>
      have hn : ¬ PanicItem s := fun hp => by
        obtain ⟨p, h⟩ := hpi.2 hp
        rw [hx] at h; cases h
      have wrong : ∀ {e}, WrongItem s e → x = .error e := by
        intro e hw
        rcases wrongItem_error hw with k | ⟨p, k⟩
        · rw [hx] at k; simpa using k
        · rw [hx] at k; cases k
      simp only [Out.ofRes_ok, Out.ok_bind]
      cases x with
      | error e0 =>
        simp only [ofExcept, Out.err_bind, stopOf, Option.some.injEq]
        constructor
        · intro hf
          cases hf with
          | panic hp => exact absurd hp hn
          | bad _ hw => rw [wrong hw |> Except.error.inj]
          | tag hd _ _ => rw [← C84_item, hx] at hd; cases hd
          | later hd _ _ _ => rw [← C84_item, hx] at hd; cases hd
        · rintro rfl; exact .bad hn (tryFrom_fault hx)
      | ok v' =>
        simp only [ofExcept, Out.ok_bind]
        have hd := (C84_item _ _).1 hx
        have same : ∀ {v}, Denotes s v → v = v' := by
          intro v hd'
          rw [← C84_item, hx] at hd'
          simpa using hd'.symm
        have step : (∀ t, v'.tag = some t → d.multiCfg.supportedMultiTags t = true) → v' ≠ .newPage →
            (ItemStop d (s :: ss) z ↔ ItemStop d ss z) := by
          intro hs hne
          constructor
          · intro hf
            cases hf with
            | panic hp => exact absurd hp hn
            | bad _ hw => cases wrong hw
            | tag hd' ht hsup =>
              obtain rfl := same hd'
              rw [hs _ ht] at hsup; cases hsup
            | later _ _ _ hf => exact hf
          · intro hf; exact .later hd hne hs hf
        split
        · rename_i t ht
          split
          · rename_i hsup
            have hsup : d.multiCfg.supportedMultiTags t = false := by simpa using hsup
            simp only [stopOf, Option.some.injEq]
            constructor
            · intro hf
              cases hf with
              | panic hp => exact absurd hp hn
              | bad _ hw => cases wrong hw
              | tag hd' _ _ => rw [same hd']
              | later hd' _ hs _ =>
                obtain rfl := same hd'
                rw [hs _ ht] at hsup; cases hsup
            · rintro rfl; exact .tag hd ht hsup
          · rename_i hsup
            have hsup : ∀ t', v'.tag = some t' → d.multiCfg.supportedMultiTags t' = true := by
              intro t' ht'
              rw [ht] at ht'
              cases ht'
              simpa using hsup
            split
            · rename_i hnp
              subst hnp
              have hnp : v' = .newPage := tag_np ht
              simp only [stopOf, reduceCtorEq, iff_false]
              intro hf
              cases hf with
              | panic hp => exact absurd hp hn
              | bad _ hw => cases wrong hw
              | tag hd' ht' hs' =>
                obtain rfl := same hd'
                rw [hsup _ ht'] at hs'; cases hs'
              | later hd' hne _ _ => exact hne ((same hd').trans hnp)
            · rename_i hnp
              rw [step hsup (by rintro rfl; simp [Value.tag] at ht; exact hnp ht.symm)]
              exact ih z
        · rename_i ht
          rw [step (by intro t' ht'; rw [ht] at ht'; cases ht') (by rintro rfl; simp [Value.tag] at ht)]
          exact ih z

theorem updatePageStateLoop_takes {ds : RenderState} {ss vs rest b} (ht : TakePage ss vs rest b) : ∀ rs,
    ∃ x, updatePageStateLoop ds ss rs = .ok x := by
  induction ht with
  | nil => intro rs; exact ⟨_, rfl⟩
  | np hv => intro rs; rw [updatePageStateLoop, hv]; exact ⟨_, rfl⟩
  | cons hv hne _ ih =>
    intro rs
    rw [updatePageStateLoop, hv]
    simp only
    split
    · split
      · exact ih _
      · exact ⟨_, rfl⟩
    · split
      · exact ih _
      · exact ⟨_, rfl⟩
    · exact ⟨_, rfl⟩
    · exact ih _
    · exact ih _

theorem itemStop_take {d : Dms} {ss vs rest b z} (ht : TakePage ss vs rest b)
    (hs : ∀ v ∈ vs, ∀ t, v.tag = some t → d.multiCfg.supportedMultiTags t = true)
    (hnp : b = true → d.multiCfg.supportedMultiTags .np = true) (hi : ∀ s ∈ ss, Item s) (hf : ItemStop d ss z) : False := by
  have wrong : ∀ {s v e}, tryFrom s = .ok (.ok v) → ¬ WrongItem s e := by
    intro s v e hv hw
    rcases wrongItem_error hw with k | ⟨p, k⟩
    · rw [hv] at k; simp at k
    · rw [hv] at k; cases k
  have pan : ∀ {s v}, Item s → tryFrom s = .ok (.ok v) → ¬ PanicItem s := by
    intro s v hi hv hp
    obtain ⟨p, h⟩ := (panicItem_iff hi).2 hp
    rw [hv] at h; cases h
  induction ht with
  | nil => cases hf
  | np hv =>
    cases hf with
    | panic hp => exact pan (hi _ (List.mem_cons_self ..)) hv hp
    | bad _ hw => exact wrong hv hw
    | tag hd' ht' hsup =>
      rw [← C84_item, hv] at hd'
      cases hd'
      rw [show Value.newPage.tag = some .np from rfl] at ht'
      cases ht'
      rw [hnp rfl] at hsup; cases hsup
    | later hd' hne _ _ =>
      rw [← C84_item, hv] at hd'
      cases hd'
      exact hne rfl
  | @cons s v ss vs rest b hv hne ht ih =>
    have ih := ih (fun v h => hs v (List.mem_cons_of_mem _ h)) hnp (fun s h => hi s (List.mem_cons_of_mem _ h))
    cases hf with
    | panic hp => exact pan (hi _ (List.mem_cons_self ..)) hv hp
    | bad _ hw => exact wrong hv hw
    | tag hd' ht' hsup =>
      rw [← C84_item, hv] at hd'
      cases hd'
      rw [hs v (List.mem_cons_self ..) _ ht'] at hsup; cases hsup
    | later _ _ _ hf => exact ih hf

theorem page_stop {M} {d : Dms} (hd : SizeOk d) (hok : SignOk d) {ms : Str} {xs pg} (h : Steps d (Pages.new d ms) xs pg)
    (hpf : PagesFit M d pg) : ∀ z, PageStop d (textAttr pg.renderState) pg.values z ↔ stopIn (renderOnPage d pg) = some z := by
  have hp := steps_state h (pagesOk_new d ms)
  have hsign := steps_sign h
  have hi := checkUnsupported_stop (d := d) hp.items
  unfold renderOnPage
  cases hc : checkUnsupported d pg.values with
  | panic p =>
    intro z
    rw [hc] at hi
    constructor
    · rintro (hf | ⟨vs, rest, b, ht, hs, hnp, _⟩)
      · exact (hi z).1 hf
      · exact (itemStop_take ht hs hnp hp.items ((hi .panic).2 rfl)).elim
    · intro he; exact .inl ((hi z).2 he)
  | err e' =>
    intro z
    rw [hc] at hi
    constructor
    · rintro (hf | ⟨vs, rest, b, ht, hs, hnp, _⟩)
      · exact (hi z).1 hf
      · exact (itemStop_take ht hs hnp hp.items ((hi (.error e')).2 rfl)).elim
    · intro he; exact .inl ((hi z).2 he)
  | ok u =>
    rw [hc] at hi
    obtain ⟨vs, rest, b, ht, hsup, hnp⟩ := checkUnsupported_ok hc
    have fin : ∀ {r}, Verdict (pageStops d (textAttr pg.renderState) vs) r →
        ∀ z, PageStop d (textAttr pg.renderState) pg.values z ↔ r = some z := by
      intro r hv z
      constructor
      · rintro (hf | ⟨vs', rest', b', ht', _, _, hf⟩)
        · rw [hi] at hf; cases hf
        · obtain ⟨rfl, _⟩ := takePage_unique ht ht'
          exact verdict_unique pageStops_one hv (r' := some z) hf
      · intro he
        rw [he] at hv
        exact .inr ⟨vs, rest, b, ht, hsup, hnp, hv⟩
    dsimp only
    obtain ⟨⟨y, rs⟩, h1⟩ : ∃ x, updatePageState pg.defaultState pg.renderState pg.values = .ok x :=
      updatePageStateLoop_takes ht _
    rw [h1, Res.ok_bind]
    have hbg := verdict_errors (updatePageStateLoop_first (d := d) ht _ (by dsimp only; exact hsign.scheme) _ _ h1)
    rw [List.map_map] at hbg
    dsimp only
    cases y with
    | error e' => exact fin (r := some (.error e')) (verdict_stop hbg)
    | ok u =>
      have hdr : Drawing d ms _ _ := Drawing.start h h1
      have start : rs.lineSpacing = none ∧ rs.textRectangle = (signRect d) ∧
          textAttr rs = textAttr pg.renderState := by
        unfold updatePageState at h1
        obtain ⟨_, b2, _⟩ := updatePageStateLoop_bg (d := d) (ds := pg.defaultState)
          (by rw [hp.default]; exact ⟨hsign.ds, hsign.fg, hsign.bg, hsign.scheme⟩) h1 ht
        obtain ⟨_, _, _, _, _, ue, _⟩ := updatePageStateLoop_ok h1
        refine ⟨by rw [ue]; simp [hp.default, RenderState.new], by rw [ue]; rw [hp.default]; rfl, by rw [b2]; rfl⟩
      obtain ⟨e1, e2, e3⟩ := start
      have key := onPageLoop_stop (n := 0) (fuel := maxTextRectangles + 2) hd hok (by decide) (by decide) rfl hdr
        (hpf.suffix (List.suffix_refl _)) ht
      dsimp only at key ⊢
      rw [e1, e2, e3] at key
      generalize onPageLoop d _ _ _ _ = w at key ⊢
      cases w with
      | panic p => exact fin (verdict_append hbg key)
      | ok q =>
        obtain ⟨r, pg'⟩ := q
        cases r <;> exact fin (verdict_append hbg key)

end Ntcip
