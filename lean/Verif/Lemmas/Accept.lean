import Verif.Spec.Accept
import Verif.Lemmas.Compose
import Verif.Props.PageColor
import Verif.Props.Version
/-
Lemmas on the pages that are accepted.
-/
namespace Ntcip
open Spec

/-! ### what fits depends on the pieces of the spans only -/

theorem pieceOf_spanOf (d : Dms) (rect : Rectangle) (p : Piece) : pieceOf (spanOf d rect p) = p := rfl

theorem map_spanOf (d : Dms) (rect : Rectangle) (ps : List Piece) : (ps.map (spanOf d rect)).map pieceOf = ps := by
  rw [List.map_map]
  conv => rhs; rw [← List.map_id ps]
  exact List.map_congr_left fun p _ => pieceOf_spanOf d rect p

theorem pieceOf_eq {s s' : Span} (h : pieceOf s = pieceOf s') :
    textAttr s.state = textAttr s'.state ∧ s.state.lineSpacing = s'.state.lineSpacing ∧
    s.state.lineNumber = s'.state.lineNumber ∧ s.str = s'.str := by
  simpa [pieceOf] using h

theorem textAttr_eq {a b : RenderState} (h : textAttr a = textAttr b) :
    a.fontNum = b.fontNum ∧ a.fontVersionId = b.fontVersionId ∧ a.justPage = b.justPage ∧
    a.justLine = b.justLine ∧ a.charSpacing = b.charSpacing := by
  simp only [textAttr, TextAttr.mk.injEq] at h
  exact ⟨h.1, h.2.1, h.2.2.1, h.2.2.2.1, h.2.2.2.2.1⟩

theorem fontOf_pieces {t s s' f} (h : pieceOf s = pieceOf s') (hf : FontOf t s f) : FontOf t s' f := by
  obtain ⟨h1, _⟩ := pieceOf_eq h
  obtain ⟨a, b, _⟩ := textAttr_eq h1
  unfold FontOf at *
  rw [← a, ← b]; exact hf

theorem charSpacing_pieces {s s' f} (h : pieceOf s = pieceOf s') : charSpacing s f = charSpacing s' f := by
  obtain ⟨h1, _⟩ := pieceOf_eq h
  obtain ⟨_, _, _, _, a⟩ := textAttr_eq h1
  unfold charSpacing
  rw [a]

theorem spanWidth_pieces {t s s' w} (h : pieceOf s = pieceOf s') (hw : SpanWidth t s w) : SpanWidth t s' w := by
  obtain ⟨f, es, h1, h2, h3⟩ := hw
  exact ⟨f, es, fontOf_pieces h h1, by rw [← (pieceOf_eq h).2.2.2]; exact h2, by rw [← charSpacing_pieces h]; exact h3⟩

theorem gap_pieces {t p p' s s' g} (hp : pieceOf p = pieceOf p') (h : pieceOf s = pieceOf s') (hg : Gap t p s g) :
    Gap t p' s' g := by
  obtain ⟨_, _, _, _, a⟩ := textAttr_eq (pieceOf_eq h).1
  obtain ⟨_, _, _, _, b⟩ := textAttr_eq (pieceOf_eq hp).1
  unfold Gap at *
  rw [← a]
  split
  · rename_i e; rw [e] at hg; exact hg
  · rename_i e
    rw [e] at hg
    obtain ⟨fp, fs, h1, h2, h3⟩ := hg
    exact ⟨fp, fs, fun k => fontOf_pieces hp (h1 (by rw [b]; exact k)), fontOf_pieces h h2, by
      rw [← charSpacing_pieces h, ← charSpacing_pieces hp]; exact h3⟩

theorem lineWidth_pieces {t ss n} : ∀ {p p' ss'}, LineWidth t p ss n → p.map pieceOf = p'.map pieceOf →
    ss.map pieceOf = ss'.map pieceOf → LineWidth t p' ss' n := by
  intro p p' ss' h
  induction h generalizing p' ss' with
  | nil =>
    intro _ h2
    simp only [List.map_nil, List.nil_eq, List.map_eq_nil_iff] at h2
    subst h2; exact .nil
  | first hw hl ih =>
    intro h1 h2
    cases p' with
    | some _ => simp at h1
    | none =>
      cases ss' with
      | nil => simp at h2
      | cons s' ss' =>
        simp only [List.map_cons, List.cons.injEq] at h2
        exact .first (spanWidth_pieces h2.1 hw) (ih (by simp [h2.1]) h2.2)
  | next hg hw hl ih =>
    intro h1 h2
    cases p' with
    | none => simp at h1
    | some p' =>
      cases ss' with
      | nil => simp at h2
      | cons s' ss' =>
        simp only [List.map_cons, List.cons.injEq] at h2
        simp only [Option.map_some, Option.some.injEq] at h1
        exact .next (gap_pieces h1 h2.1 hg) (spanWidth_pieces h2.1 hw) (ih (by simp [h2.1]) h2.2)

theorem filter_pieces {ss : List Span} : ∀ {ss' : List Span} {P P' : Span → Bool},
    ss.map pieceOf = ss'.map pieceOf → (∀ s s', pieceOf s = pieceOf s' → P s = P' s') →
    (ss.filter P).map pieceOf = (ss'.filter P').map pieceOf := by
  induction ss with
  | nil => intro ss' P P' h _; simp only [List.map_nil, List.nil_eq, List.map_eq_nil_iff] at h; subst h; rfl
  | cons s ss ih =>
    intro ss' P P' h hp
    cases ss' with
    | nil => simp at h
    | cons s' ss' =>
      simp only [List.map_cons, List.cons.injEq] at h
      have e := hp s s' h.1
      have := ih h.2 hp
      rw [List.filter_cons, List.filter_cons, e]
      split <;> simp [*]

theorem sameLine_pieces {ss ss' s s'} (h : ss.map pieceOf = ss'.map pieceOf) (hs : pieceOf s = pieceOf s') :
    (sameLine ss s).map pieceOf = (sameLine ss' s').map pieceOf := by
  refine filter_pieces h fun x x' hx => ?_
  obtain ⟨a1, _, a2, _⟩ := pieceOf_eq hx
  obtain ⟨_, _, a3, a4, _⟩ := textAttr_eq a1
  obtain ⟨b1, _, b2, _⟩ := pieceOf_eq hs
  obtain ⟨_, _, b3, b4, _⟩ := textAttr_eq b1
  rw [a2, a3, a4, b2, b3, b4]

theorem samePage_pieces {ss ss' s s'} (h : ss.map pieceOf = ss'.map pieceOf) (hs : pieceOf s = pieceOf s') :
    (samePage ss s).map pieceOf = (samePage ss' s').map pieceOf := by
  refine filter_pieces h fun x x' hx => ?_
  obtain ⟨_, _, a3, _⟩ := textAttr_eq (pieceOf_eq hx).1
  obtain ⟨_, _, b3, _⟩ := textAttr_eq (pieceOf_eq hs).1
  rw [a3, b3]

theorem onLine_pieces {ss ss' : List Span} (i : Nat) (h : ss.map pieceOf = ss'.map pieceOf) :
    (onLine ss i).map pieceOf = (onLine ss' i).map pieceOf :=
  filter_pieces h fun x x' hx => by rw [(pieceOf_eq hx).2.2.1]

theorem ofFont_pieces {t : FontTable} {v} {ss : List Span} : ∀ {ss' : List Span}, ss.map pieceOf = ss'.map pieceOf →
    ss.map (ofFont t v) = ss'.map (ofFont t v) := by
  induction ss with
  | nil => intro ss' h; simp only [List.map_nil, List.nil_eq, List.map_eq_nil_iff] at h; subst h; rfl
  | cons s ss ih =>
    intro ss' h
    cases ss' with
    | nil => simp at h
    | cons s' ss' =>
      simp only [List.map_cons, List.cons.injEq] at h
      obtain ⟨a, _⟩ := textAttr_eq (pieceOf_eq h.1).1
      simp only [List.map_cons, ih h.2, ofFont, a]

theorem tagLineSpacing_pieces {ss ss' : List Span} (i : Nat) (h : ss.map pieceOf = ss'.map pieceOf) :
    tagLineSpacing ss i = tagLineSpacing ss' i := by
  have key : ∀ l : List Span, (l.findSome? fun s => s.state.lineSpacing.map UInt8.toNat) =
      (l.map pieceOf).findSome? fun p => p.spacing.map UInt8.toNat := by
    intro l
    induction l with
    | nil => rfl
    | cons a l ih => simp only [List.findSome?_cons, List.map_cons, ih]; rfl
  unfold tagLineSpacing
  rw [key, key, onLine_pieces i h]

theorem linesHeight_pieces {full t} {ss ss' : List Span} (h : ss.map pieceOf = ss'.map pieceOf) (n : Nat) :
    linesHeight full t ss n = linesHeight full t ss' n := by
  have h1 : ∀ i, lineHeight t ss i = lineHeight t ss' i := fun i => by
    unfold lineHeight; rw [ofFont_pieces (onLine_pieces i h)]
  have h2 : ∀ i, fontLineSpacing t ss i = fontLineSpacing t ss' i := fun i => by
    unfold fontLineSpacing; rw [ofFont_pieces (onLine_pieces i h)]
  induction n with
  | zero => exact h1 0
  | succ n ih => simp only [linesHeight, lineSpace, ih, h1, h2, tagLineSpacing_pieces _ h]

theorem dense_pieces {k ss n} (h : Dense k ss n) : ∀ {ss' : List Span}, ss.map pieceOf = ss'.map pieceOf → Dense k ss' n := by
  induction h with
  | nil => intro ss' h; simp only [List.map_nil, List.nil_eq, List.map_eq_nil_iff] at h; subst h; exact .nil
  | old hl _ ih =>
    intro ss' h
    cases ss' with
    | nil => simp at h
    | cons s' ss' =>
      simp only [List.map_cons, List.cons.injEq] at h
      exact .old (by rw [← (pieceOf_eq h.1).2.2.1]; exact hl) (ih h.2)
  | new hl _ ih =>
    intro ss' h
    cases ss' with
    | nil => simp at h
    | cons s' ss' =>
      simp only [List.map_cons, List.cons.injEq] at h
      exact .new (by rw [← (pieceOf_eq h.1).2.2.1]; exact hl) (ih h.2)

theorem fitsWidth_pieces {d ss ss' W s s'} (h : ss.map pieceOf = ss'.map pieceOf) (hs : pieceOf s = pieceOf s')
    (hf : FitsWidth d ss W s) : FitsWidth d ss' W s' := by
  obtain ⟨n, h1, h2⟩ := hf
  exact ⟨n, lineWidth_pieces h1 rfl (sameLine_pieces h hs), h2⟩

theorem fitsHeight_pieces {d ss ss' H s s'} (h : ss.map pieceOf = ss'.map pieceOf) (hs : pieceOf s = pieceOf s')
    (hf : FitsHeight d ss H s) : FitsHeight d ss' H s' := by
  obtain ⟨n, h1, h2⟩ := hf
  have := samePage_pieces h hs
  exact ⟨n, dense_pieces h1 this, by rw [← linesHeight_pieces this]; exact h2⟩

theorem mem_pieces {ss ss' : List Span} (h : ss.map pieceOf = ss'.map pieceOf) {s' : Span} (hs : s' ∈ ss') :
    ∃ s ∈ ss, pieceOf s = pieceOf s' := by
  have : pieceOf s' ∈ ss.map pieceOf := by rw [h]; exact List.mem_map_of_mem hs
  exact List.mem_map.1 this

theorem textsFit_pieces {d rect ss ss'} (h : ss.map pieceOf = ss'.map pieceOf) (hs : TextsFit d rect ss) :
    TextsFit d rect ss' := by
  intro s' hs'
  obtain ⟨s, hm, e⟩ := mem_pieces h hs'
  obtain ⟨⟨f, es, h1, h2⟩, h3, h4⟩ := hs s hm
  exact ⟨⟨f, es, fontOf_pieces e h1, by rw [← (pieceOf_eq e).2.2.2]; exact h2⟩, fitsWidth_pieces h e h3,
    fitsHeight_pieces h e h4⟩

theorem cellFonts_all {d : Dms} (h : CellHeights d) (spans : List Span) : CellFonts d spans := by
  rcases h with h | h
  · exact .inl h
  · exact .inr fun s _ f hf => h f (List.mem_of_find?_eq_some hf.1)

theorem cellFonts_pieces {d ss ss'} (h : ss.map pieceOf = ss'.map pieceOf) (hs : CellFonts d ss) : CellFonts d ss' := by
  rcases hs with hs | hs
  · exact .inl hs
  · refine .inr fun s' hs' => ?_
    obtain ⟨s, hm, e⟩ := mem_pieces h hs'
    have := ofFont_pieces (t := d.fontDefinition) (v := (·.height)) (ss := [s]) (ss' := [s']) (by simp [e])
    intro f hf
    exact hs s hm f (fontOf_pieces e.symm hf)

/-! ### tidy text is in order -/

/-- no span goes back with respect to one before it -/
def Forward (spans : List Span) : Prop := spans.Pairwise fun a b => ¬ Backwards a b

theorem forward_check {spans} (h : Forward spans) : checkJustification spans = .ok () := by
  rcases checkJustification_cases spans with ⟨h1, _⟩ | ⟨_, i, x, y, hx, hy, hb⟩
  · exact h1
  · exfalso
    obtain ⟨hi, rfl⟩ := List.getElem?_eq_some_iff.1 hx
    obtain ⟨hj, rfl⟩ := List.getElem?_eq_some_iff.1 hy
    exact List.pairwise_iff_getElem.1 h i (i + 1) hi hj (by omega) hb

theorem forward_short {l : List Span} (h : l.length ≤ 1) : Forward l := by
  cases l with
  | nil => exact .nil
  | cons a l =>
    cases l with
    | nil => exact List.pairwise_singleton ..
    | cons b l => simp at h

theorem piece_length (a sp line blank) (v : Value) : (piece a sp line blank v).length ≤ 1 := by
  unfold piece
  split
  · exact Nat.le_refl 1
  · exact Nat.le_refl 1
  · split
    · exact Nat.le_refl 1
    · exact Nat.zero_le 1
  · exact Nat.zero_le 1

theorem rtrLoop_forward {d po} {ss : List Str} {st st' rest' vs} (hd : SignState d (RenderState.new d) st.rs)
    (h : rtrLoop d (RenderState.new d) po ss st = .ok (.ok (), st', rest')) (hsec : Section ss vs) :
    ∀ fresh, SpansTidy st.rs st.spans fresh st.lineBlank → Forward st.spans →
      Tidy (signAttr d) (textAttr st.rs) fresh st.lineBlank vs → Forward st'.spans := by
  induction ss generalizing st vs with
  | nil =>
    simp only [rtrLoop, Res.ok.injEq, Prod.mk.injEq, true_and] at h
    obtain ⟨rfl, rfl⟩ := h
    exact fun _ _ h _ => h
  | cons s ss ih =>
    unfold rtrLoop at h
    split at h
    · simp at h
    · simp at h
    · rename_i v hv
      split at h
      · simp at h
      · rename_i st1 h1
        have hk := rtrStep_section.1 h1
        have hss := rtrStep_spans h1
        obtain ⟨a1, _, a3⟩ := rtrStep_attr hd h1
        intro fresh h0 hf ht
        cases hsec with
        | np hp => rw [hv] at hp; simp at hp; exact absurd hp hk.1
        | tr hp => rw [hv] at hp; simp at hp; exact absurd hp (hk.2 _)
        | @cons _ v' _ vs hp _ _ hsec =>
          rw [hv] at hp
          simp only [Res.ok.injEq, Except.ok.injEq] at hp
          subst hp
          simp only [Tidy] at ht
          refine ih a3 h hsec _ (tidy_step h0 hss a1 ht.1) ?_ (by rw [a1, hss.blank]; exact ht.2)
          obtain ⟨new, b1, b2, b3⟩ := hss.spans
          rw [b1]
          refine List.pairwise_append.2 ⟨hf, ?_, fun a ha b hb => ?_⟩
          · have e := congrArg List.length b3
            rw [List.length_map] at e
            have := piece_length (textAttr st.rs) st.rs.lineSpacing st.rs.lineNumber st.lineBlank v
            rw [← e] at this
            exact forward_short this
          · rw [Backwards, b2 b hb]
            have p1 := h0.page a ha
            have p2 := h0.line a ha
            rintro (hb | ⟨e1, e2, hb⟩)
            · omega
            · have := (p2 e1.symm e2.symm).2.1; omega
      · rename_i st1 h1
        obtain ⟨hk, hsp⟩ := rtrStep_section.2 h1
        simp only [Res.ok.injEq, Prod.mk.injEq, true_and] at h
        obtain ⟨rfl, rfl⟩ := h
        rw [hsp]
        exact fun _ _ h _ => h
      · simp at h

/-! ### acceptable values are accepted -/

theorem updatePageStateLoop_accept {ds : RenderState} {ss vs rest b} (ht : TakePage ss vs rest b) (rs : RenderState)
    (hc : ∀ v ∈ vs, ColorOk rs.colorCtx.colorScheme v) : ∃ rs', updatePageStateLoop ds ss rs = .ok (.ok (), rs') := by
  obtain ⟨x, rs', h⟩ := updatePageStateLoop_total (ds := ds) ht rs
  have := (updatePageStateLoop_color ht rs x rs' h).2
  cases x with
  | ok _ => exact ⟨rs', h⟩
  | error e =>
    obtain ⟨v, hv, hn, _⟩ := this
    exact absurd (hc v hv) hn

theorem lookupGraphic_accept {d : Dms} {n pos g} (hu : UniqueNumbers (fun g : Graphic => g.number.toNat) d.graphicDefinition)
    (h0 : n.toNat ≠ 0) (hg : GraphicOf d n pos g) (gid : Option UInt16)
    (hid : ∀ id, gid = some id → id = g.versionId) : lookupGraphic d n gid = .ok g := by
  obtain ⟨g1, g2, _⟩ := hg
  have hf : GraphicTable.graphic d.graphicDefinition n = some g := by
    cases e : GraphicTable.graphic d.graphicDefinition n with
    | none =>
      unfold GraphicTable.graphic at e
      rw [List.find?_eq_none] at e
      exact absurd g2 (by simpa using e g g1)
    | some g' =>
      have h1 := List.mem_of_find?_eq_some e
      have h2 := List.find?_some e
      obtain ⟨k, hk⟩ := List.getElem?_of_mem g1
      obtain ⟨k', hk'⟩ := List.getElem?_of_mem h1
      have e2 : g'.number = n := by simpa using h2
      have := hu k k' g g' hk hk' (by dsimp only; rw [g2]; exact h0) (by dsimp only; rw [g2, e2])
      subst this
      rw [hk] at hk'
      simp only [Option.some.injEq] at hk'
      rw [hk']
  unfold lookupGraphic
  rw [hf]
  cases gid with
  | none => rfl
  | some id => simp [hid id rfl]

theorem renderGraphicsLoop_accept {d : Dms} (hd : DrawOk d) {ss vs} (ht : Section ss vs) (hs : ∀ t ∈ ss, Item t)
    (hv : ∀ v ∈ vs, ValueOk d v) : ∀ {ctx : ColorCtx} {page : Raster}, ctx.colorScheme = d.multiCfg.colorScheme →
      page.width = d.vmsCfg.signWidthPixels.toNat → page.height = d.vmsCfg.signHeightPixels.toNat →
      ∃ page', renderGraphicsLoop d ss ctx page = .ok page' ∧ page'.width = page.width ∧ page'.height = page.height := by
  induction ht with
  | nil => intro ctx page _ _ _; exact ⟨page, rfl, rfl, rfl⟩
  | np hp => intro ctx page _ _ _; exact ⟨page, by rw [renderGraphicsLoop, hp]; rfl, rfl, rfl⟩
  | tr hp => intro ctx page _ _ _; exact ⟨page, by rw [renderGraphicsLoop, hp]; rfl, rfl, rfl⟩
  | @cons s v ss vs hp hne hnr _ ih =>
    intro ctx page hc hw hh
    have ih := fun {ctx} {page : Raster} => ih (fun t h => hs t (List.mem_cons_of_mem _ h))
      (fun v h => hv v (List.mem_cons_of_mem _ h)) (ctx := ctx) (page := page)
    have hr := C04_in_range s v (hs s (List.mem_cons_self ..)) hp
    obtain ⟨hcol, hval⟩ := hv v (List.mem_cons_self ..)
    have fgok : ∀ {c w}, (∀ k, c = some k → Admits d.multiCfg.colorScheme k) →
        ∃ ctx' : ColorCtx, ctx.setForeground c w = .ok ctx' ∧ ctx'.colorScheme = d.multiCfg.colorScheme := by
      intro c w hk
      cases e : ctx.setForeground c w with
      | ok ctx' => exact ⟨ctx', rfl, by rw [setForeground_fg e]; exact hc⟩
      | error er =>
        obtain ⟨⟨k, h1, h2⟩, _⟩ := setForeground_rejects e
        rw [hc] at h2
        exact absurd (hk k h1) h2
    have bgok : ∀ {c w}, (∀ k, c = some k → Admits d.multiCfg.colorScheme k) →
        ∃ ctx' : ColorCtx, ctx.setBackground c w = .ok ctx' ∧ ctx'.colorScheme = d.multiCfg.colorScheme := by
      intro c w hk
      cases e : ctx.setBackground c w with
      | ok ctx' => exact ⟨ctx', rfl, by rw [setBackground_bg e]; exact hc⟩
      | error er =>
        obtain ⟨⟨k, h1, h2⟩, _⟩ := setBackground_rejects e
        rw [hc] at h2
        exact absurd (hk k h1) h2
    rw [renderGraphicsLoop, hp]
    simp only [Out.ofRes_ok, Out.ok_bind, ofExcept]
    cases v
    case colorBackground c =>
      obtain ⟨ctx', e1, e2⟩ := bgok (c := c) (w := .colorBackground c) (fun k hk => hcol k (by rw [tagColor]; exact hk))
      simp only [e1, Out.ok_bind]
      exact ih e2 hw hh
    case colorForeground c =>
      obtain ⟨ctx', e1, e2⟩ := fgok (c := c) (w := .colorForeground c) (fun k hk => hcol k (by rw [tagColor]; exact hk))
      simp only [e1, Out.ok_bind]
      exact ih e2 hw hh
    case colorRectangle r c =>
      obtain ⟨ctx', e1, e2⟩ := fgok (c := some c) (w := .colorRectangle r c) (fun k hk => hcol k (by rw [tagColor]; exact hk))
      simp only [e1, Out.ok_bind]
      dsimp only at hval
      have hw' := hd.width
      have hh' := hd.height
      have h1 := hval.x
      have h2 := hval.y
      have h3 := hval.right
      have h4 := hval.bottom
      rw [← hw, ← hh] at hval
      obtain ⟨p', k1, k2, k3, _⟩ := (C49_fill_partial page r ctx'.foregroundRgb (.colorRectangle r c)
        (by omega) (by omega) (by rw [hw, hh]; exact hd.size)
        (by rintro e; rw [e] at h1; simp at h1) (by rintro e; rw [e] at h2; simp at h2)
        (by rw [hw]; omega) (by rw [hh]; omega)).1 hval
      rw [k1, Out.ok_bind]
      obtain ⟨p2, q1, q2, q3⟩ := ih (ctx := ctx) (page := p') hc (k2.trans hw) (k3.trans hh)
      exact ⟨p2, q1, q2.trans k2, q3.trans k3⟩
    case graphic n pos =>
      obtain ⟨g, hg, b1, b2⟩ := hval
      have hn0 : n.toNat ≠ 0 := by have := hr.1; omega
      have go : ∀ {gid x y}, 1 ≤ x → 1 ≤ y → corner pos = (x - 1, y - 1) →
          (∀ id, gid = some id → id = g.versionId) →
          ∃ page', (do
            let g ← lookupGraphic d n gid
            let raster ← (g.renderGraphic page x y ctx).mapErr GraphicError.toSyntax
            renderGraphicsLoop d ss ctx raster) = .ok page' ∧ page'.width = page.width ∧ page'.height = page.height := by
        intro gid x y hx hy hcor hid
        rw [lookupGraphic_accept hd.graphics.numbers hn0 hg gid hid, Out.ok_bind]
        rw [hcor] at b1 b2
        obtain ⟨p', k1, k2, k3, _⟩ := C37_placement _ _ g (hd.graphics.graphics g hg.1 (by rw [hg.2.1]; exact hn0))
          page x y hx hy ctx (by rw [hw]; exact b1) (by rw [hh]; exact b2)
        rw [k1]
        obtain ⟨p2, q1, q2, q3⟩ := ih (ctx := ctx) (page := p') hc (k2.trans hw) (k3.trans hh)
        exact ⟨p2, q1, q2.trans k2, q3.trans k3⟩
      cases pos with
      | none => exact go (gid := none) (x := 1) (y := 1) (Nat.le_refl 1) (Nat.le_refl 1) rfl (by simp)
      | some q =>
        obtain ⟨x, y, gid⟩ := q
        obtain ⟨h1, h2⟩ := hr.2 x y gid rfl
        exact go (gid := gid) h1 h2 rfl (fun id e => hg.2.2 x y id (by rw [e]))
    case newPage => exact absurd rfl hne
    case textRectangle r => exact absurd rfl (hnr r)
    all_goals first
      | (exfalso; simp [unimplemented] at hval; done)
      | exact ih hc hw hh

/-- a value other than `[np]` and `[tr]` is accepted -/
theorem rtrStep_accept {d : Dms} {po st v} (hv : ValueOk d v) (hne : v ≠ .newPage) (hnr : ∀ r, v ≠ .textRectangle r)
    (hc : st.rs.colorCtx.colorScheme = d.multiCfg.colorScheme)
    (h1 : st.rs.lineNumber < 255) (h2 : st.rs.spanNumber < 255) :
    ∃ st', rtrStep d (RenderState.new d) po st v = .ok (.cont, st') ∧
      st'.rs.lineNumber ≤ st.rs.lineNumber + 1 ∧ st'.rs.spanNumber ≤ st.rs.spanNumber + 1 ∧
      st'.rs.colorCtx.colorScheme = d.multiCfg.colorScheme := by
  have c1 : chk8 (st.rs.lineNumber + 1) = .ok (st.rs.lineNumber + 1) := chk8_ok.2 ⟨rfl, by omega⟩
  have c2 : chk8 (st.rs.spanNumber + 1) = .ok (st.rs.spanNumber + 1) := chk8_ok.2 ⟨rfl, by omega⟩
  obtain ⟨hcol, hval⟩ := hv
  have lo : ∀ n : Nat, n ≤ n + 1 := fun n => Nat.le_succ n
  have z : ∀ n : Nat, 0 ≤ n := fun n => Nat.zero_le n
  unfold rtrStep
  split <;> dsimp only at *
  · rename_i c
    cases e : st.rs.colorCtx.setForeground c (.colorForeground c) with
    | ok ctx' => exact ⟨_, rfl, lo _, lo _, by dsimp only; rw [setForeground_fg e]; exact hc⟩
    | error er =>
      obtain ⟨⟨k, h1, h2⟩, _⟩ := setForeground_rejects e
      rw [hc] at h2
      exact absurd (hcol k (by rw [tagColor]; exact h1)) h2
  · exact ⟨_, rfl, lo _, lo _, hc⟩
  · exact ⟨_, rfl, lo _, lo _, hc⟩
  · exact absurd rfl hval.1
  · exact absurd rfl hval.2
  · exact ⟨_, rfl, lo _, z _, hc⟩
  · exact absurd rfl hval
  · split
    · exact ⟨_, rfl, z _, z _, hc⟩
    · exact ⟨_, rfl, lo _, lo _, hc⟩
  · rename_i ls
    rw [if_neg, c1]
    · exact ⟨_, rfl, Nat.le_refl _, z _, hc⟩
    · cases ls with
      | none => simp [badLineSpacing]
      | some n =>
        rcases hval with e | e <;> simp [badLineSpacing, e]
  · exact absurd rfl hne
  · rename_i sc
    rw [if_neg]
    · exact ⟨_, rfl, lo _, lo _, hc⟩
    · rcases hval with e | e <;> simp [e]
  · exact ⟨_, rfl, lo _, lo _, hc⟩
  · exact absurd rfl (hnr _)
  · rw [c2]; exact ⟨_, rfl, lo _, Nat.le_refl _, hc⟩
  · rename_i k
    have : charFromU32 k.toNat = some (Char.ofNat k.toNat) := by
      unfold charFromU32
      have := k.toNat_lt
      rw [if_pos (by omega)]
    rw [this, c2]
    exact ⟨_, rfl, lo _, Nat.le_refl _, hc⟩
  · exact ⟨_, rfl, lo _, lo _, hc⟩

/-- the text of a rectangle of an acceptable page is read -/
theorem rtrLoop_accept {d : Dms} (hd : DrawOk d) {po} {ss : List Str} {vs rest b} (ht : TakePage ss vs rest b)
    (hv : ∀ v ∈ vs, ValueOk d v) : ∀ {st : Rtr}, st.rs.colorCtx.colorScheme = d.multiCfg.colorScheme →
      st.rs.lineNumber + vs.length ≤ 255 → st.rs.spanNumber + vs.length ≤ 255 →
      ∃ st' rest', rtrLoop d (RenderState.new d) po ss st = .ok (.ok (), st', rest') := by
  induction ht with
  | nil => intros; exact ⟨_, _, rfl⟩
  | np hp => intros; exact ⟨_, _, by rw [rtrLoop, hp]; rfl⟩
  | @cons s v ss vs rest b hp hne ht ih =>
    intro st hc hl hn
    simp only [List.length_cons] at hl hn
    have hv1 := hv v (List.mem_cons_self ..)
    by_cases htr : ∃ r, v = .textRectangle r
    · obtain ⟨r, rfl⟩ := htr
      obtain ⟨_, ht'⟩ := hv1
      dsimp only at ht'
      have h1 := ht'.x
      have h2 := ht'.y
      have h3 := ht'.right
      have h4 := ht'.bottom
      have hw' := hd.width
      have hh' := hd.height
      have := (updateTextRectangle_eq (d := d) (r := r) (W := d.vmsCfg.signWidthPixels) (H := d.vmsCfg.signHeightPixels) hw' hh' hd.size
        (by omega) (by omega)).1 ht'
      have e : ∃ st', rtrStep d (RenderState.new d) po st (.textRectangle r) = .ok (.brk, st') := by
        simp only [rtrStep]
        rw [show (RenderState.new d).textRectangle = ⟨1, 1, d.vmsCfg.signWidthPixels, d.vmsCfg.signHeightPixels⟩ from rfl, this]
        exact ⟨_, rfl⟩
      obtain ⟨st', e⟩ := e
      exact ⟨st', ss, by rw [rtrLoop, hp]; simp only [e]⟩
    · obtain ⟨st1, e1, e2, e3, e4⟩ := rtrStep_accept (po := po) hv1 hne (fun r e => htr ⟨r, e⟩) hc (st := st)
        (by omega) (by omega)
      obtain ⟨st', rest', h⟩ := ih (fun v h => hv v (List.mem_cons_of_mem _ h)) (st := st1) e4 (by omega) (by omega)
      exact ⟨st', rest', by rw [rtrLoop, hp]; simp only [e1]; exact h⟩

/-- the section of values of a page -/
theorem takePage_section {ss vs rest b} (ht : TakePage ss vs rest b) : Section ss (sections vs).1 := by
  induction ht with
  | nil => exact .nil
  | np hp => exact .np hp
  | @cons s v ss vs rest b hp hne ht ih =>
    by_cases htr : ∃ r, v = .textRectangle r
    · obtain ⟨r, rfl⟩ := htr; exact .tr hp
    · have hnr : ∀ r, v ≠ .textRectangle r := fun r e => htr ⟨r, e⟩
      rw [sections_cons hnr]
      exact .cons hp hne hnr ih

theorem sections_mem {vs : List Value} : ∀ v ∈ (sections vs).1, v ∈ vs := by
  induction vs with
  | nil => intro v h; exact h
  | cons w vs ih =>
    intro v hv
    by_cases htr : ∃ r, w = .textRectangle r
    · obtain ⟨r, rfl⟩ := htr; simp [sections] at hv
    · rw [sections_cons (fun r e => htr ⟨r, e⟩)] at hv
      rcases List.mem_cons.1 hv with rfl | hv
      · exact List.mem_cons_self ..
      · exact List.mem_cons_of_mem _ (ih v hv)

theorem renderTextRectangle_accept {d ms pg page} (hd : AcceptOk d) (h : Drawing d ms pg page)
    (hon : pg.pageState = .on false) {vs rest b} (ht : TakePage pg.values vs rest b)
    (hv : ∀ v ∈ vs, ValueOk d v) (hlen : vs.length ≤ 255)
    (htidy : Tidy (signAttr d) (textAttr pg.renderState) true true (sections vs).1)
    (hmid : (∃ s ∈ layoutOf d (textAttr pg.renderState) pg.renderState.lineSpacing pg.renderState.textRectangle
        (sections vs).1, s.state.justPage = .middle) →
      CellFonts d (layoutOf d (textAttr pg.renderState) pg.renderState.lineSpacing pg.renderState.textRectangle
        (sections vs).1))
    (hfit : TextsFit d pg.renderState.textRectangle (layoutOf d (textAttr pg.renderState)
      pg.renderState.lineSpacing pg.renderState.textRectangle (sections vs).1)) :
    ∃ page' pg', renderTextRectangle d pg page = .ok (.ok page', pg') := by
  obtain ⟨hp, hw, hh⟩ := drawing_ok h
  obtain ⟨z1, z2⟩ := drawing_zero h hon
  have hsign := drawing_sign h
  have hsec := takePage_section ht
  obtain ⟨st, values, hl⟩ := rtrLoop_accept hd.toDrawOk (po := decide (pg.renderState.pageOffTimeDs > 0)) ht hv
    (st := ⟨pg.renderState, .doneState (decide (pg.renderState.pageOffTimeDs > 0)), [], true⟩)
    hsign.scheme (by dsimp only; omega) (by dsimp only; omega)
  obtain ⟨vs', i1, ⟨new, i2, i3⟩, i4⟩ := rtrLoop_section (st := ⟨pg.renderState, _, [], true⟩) hsign hl
  obtain rfl := section_unique i1 hsec
  have h0 : SpansTidy pg.renderState [] true true :=
    ⟨List.Pairwise.nil, fun p => ⟨0, .nil⟩, by show Dense 0 [] pg.renderState.lineNumber; rw [z1]; exact .nil,
      by simp, by simp, by simp⟩
  have hfwd := rtrLoop_forward (st := ⟨pg.renderState, _, [], true⟩) hsign hl hsec true h0 List.Pairwise.nil htidy
  simp only [List.nil_append] at i2
  subst i2
  have e : (layoutOf d (textAttr pg.renderState) pg.renderState.lineSpacing pg.renderState.textRectangle
      (sections vs).1).map pieceOf = st.spans.map pieceOf := by
    rw [i3, layoutOf, map_spanOf, z1]
  have hfit' := textsFit_pieces e hfit
  obtain ⟨_, _, _, hrect, _⟩ := rtrLoop_ok hl
  obtain ⟨_, hst, _⟩ := rtrLoop_state hp.items hl hp.state
  have hall : ∀ s ∈ st.spans, StateOk d s.state ∧ ∀ ch ∈ s.str, ch.toNat ≠ 0 := hst (by simp)
  have hsame : ∀ s ∈ st.spans, s.state.textRectangle = pg.renderState.textRectangle := by
    intro s hs
    rcases hrect s hs with hx | hx
    · simp at hx
    · exact hx
  have hsound : Sound d st.spans pg.renderState.textRectangle := by
    refine ⟨hsame, hp.state.aligned, fun s hs => ?_, fun s hs => (hall s hs).2,
      fun s hs => (hall s hs).1.justLine hd.justLine, fun s hs => (hall s hs).1.justPage hd.justPage, fun hm => ?_⟩
    · obtain ⟨⟨f, es, h1, h2⟩, _⟩ := hfit' s hs
      refine ⟨f, es, h1, ?_, h2⟩
      obtain ⟨f1, f2⟩ := font_number h1
      refine hd.fonts.fonts f f1 ?_
      have := (hall s hs).1.font hd.font
      rw [f2]; omega
    · refine cellFonts_pieces e (hmid ?_)
      obtain ⟨s, hs, hj⟩ := hm
      obtain ⟨s', hs', e'⟩ := mem_pieces e hs
      obtain ⟨_, _, a, _⟩ := textAttr_eq (pieceOf_eq e').1
      exact ⟨s', hs', by rw [a]; exact hj⟩
  have hw' := hd.width
  have hh' := hd.height
  obtain ⟨page', hpage⟩ := C45_fits_partial d st.spans pg.renderState.textRectangle page hsound
    (by rw [hw, hh]; exact hp.state.rectIn) (by omega) (by omega) (forward_check hfwd)
    (fun s hs => (hfit' s hs).2.1) (fun s hs => (hfit' s hs).2.2)
  refine ⟨page', ⟨pg.defaultState, st.rs, st.pageState, values, st.spans⟩, ?_⟩
  unfold renderTextRectangle
  rw [hp.default]
  simp only [hl, Res.ok_bind, hpage, Res.pure_eq]

/-! ### acceptable pages are accepted -/

theorem allSections_first {d P t sp rect vs more} (h : AllSections d P t sp rect vs more) : P t sp rect vs := by
  cases h with
  | last h => exact h
  | next h _ => exact h

theorem allSections_imp {d} {P Q : TextAttr → Option UInt8 → Rectangle → List Value → Prop} {t sp rect vs more}
    (hi : ∀ t sp rect vs, P t sp rect vs → Q t sp rect vs) (h : AllSections d P t sp rect vs more) :
    AllSections d Q t sp rect vs more := by
  induction h with
  | last h => exact .last (hi _ _ _ _ h)
  | next h _ ih => exact .next (hi _ _ _ _ h) ih

theorem onPageLoop_accept {d ms} (hd : AcceptOk d) {fuel n pg page} (hfuel : maxTextRectangles + 1 ≤ fuel + n)
    (hs : pg.pageState = .on false) (h : Drawing d ms pg page)
    {vs rest b} (ht : TakePage pg.values vs rest b) (hv : ∀ v ∈ vs, ValueOk d v) (hlen : vs.length ≤ 255)
    (hn : n + (sections vs).2.length < maxTextRectangles)
    (htidy : AllSections d (fun t sp rect ws => Tidy (signAttr d) t true true ws ∧
      ((∃ s ∈ layoutOf d t sp rect ws, s.state.justPage = .middle) → CellFonts d (layoutOf d t sp rect ws)))
      (textAttr pg.renderState) pg.renderState.lineSpacing pg.renderState.textRectangle (sections vs).1 (sections vs).2)
    (hfit : AllSections d (fun t sp rect ws => TextsFit d rect (layoutOf d t sp rect ws))
      (textAttr pg.renderState) pg.renderState.lineSpacing pg.renderState.textRectangle (sections vs).1 (sections vs).2) :
    ∃ page' pg', onPageLoop d fuel n pg page = .ok (.ok page', pg') := by
  induction fuel generalizing n pg page vs with
  | zero => omega
  | succ fuel ih =>
    rw [onPageLoop, if_pos hs]
    obtain ⟨hp, hw, hh⟩ := drawing_ok h
    have hsign := drawing_sign h
    obtain ⟨mid, g1, g2, g3⟩ := renderGraphicsLoop_accept hd.toDrawOk (takePage_section ht) hp.items
      (fun v h => hv v (sections_mem v h)) (ctx := pg.renderState.colorCtx) (page := page) hsign.scheme hw hh
    have hd1 := Drawing.graphics h g1
    have t1 := allSections_first htidy
    have f1 := allSections_first hfit
    obtain ⟨page1, pg1, hr⟩ := renderTextRectangle_accept hd hd1 hs ht hv hlen t1.1 t1.2 f1
    rw [g1]
    simp only [hr, Res.ok_bind]
    rw [if_neg (by omega)]
    have hd2 := Drawing.text hd1 hr
    obtain ⟨st, values, hl, hpg1, _⟩ := renderTextRectangle_ok hr
    rw [hp.default] at hl
    obtain ⟨_, e1, e2, e3⟩ := rtrLoop_end (st := ⟨pg.renderState, _, [], true⟩) hsign hl ht
    generalize he : (sections vs).2 = more at e3 hn htidy hfit
    cases more with
    | nil =>
      dsimp only at e3
      cases fuel with
      | zero => omega
      | succ f =>
        rw [onPageLoop, if_neg (by rw [hpg1]; dsimp only; rw [e3.1]; exact pageEnd_ne b _)]
        exact ⟨_, _, rfl⟩
    | cons q more =>
      obtain ⟨r, ws1⟩ := q
      obtain ⟨e4, e5, ws, e6, e7⟩ := e3
      have hsuf : ∃ us r, vs = us ++ .textRectangle r :: ws := by
        rcases (rtrLoop_ok hl).1 vs rest b ht with ⟨_, ws', us, r, _, k1, _, k2, _⟩ | ⟨_, k, _⟩
        · obtain ⟨rfl, _⟩ := takePage_unique e6 k2
          exact ⟨us, r, k1⟩
        · rw [e4] at k; exact absurd k.symm (pageEnd_ne b _)
      obtain ⟨us, r0, hus⟩ := hsuf
      have hsub : ∀ v ∈ ws, v ∈ vs := fun v h => by rw [hus]; simp [h]
      have hlen' : ws.length ≤ vs.length := by rw [hus]; simp; omega
      simp only [List.length_cons] at hn
      cases htidy with
      | next _ htidy =>
        cases hfit with
        | next _ hfit =>
          refine ih (by omega) (by rw [hpg1]; exact e4) hd2 (vs := ws) (by rw [hpg1]; exact e6)
            (fun v h => hv v (hsub v h)) (by omega) (by rw [e7]; dsimp only; omega) ?_ ?_
          · rw [e7, hpg1]; dsimp only; rw [e1, e2, e5]; exact htidy
          · rw [e7, hpg1]; dsimp only; rw [e1, e2, e5]; exact hfit

/-! ### accepted pages are acceptable -/

/-- what drawing graphics requires of a value -/
def GraphicsNeed (d : Dms) : Value → Prop
  | .colorRectangle r _ => InsideRect d.vmsCfg.signWidthPixels.toNat d.vmsCfg.signHeightPixels.toNat r
  | .graphic n pos => ∃ g, GraphicOf d n pos g ∧ (corner pos).1 + g.width.toNat ≤ d.vmsCfg.signWidthPixels.toNat ∧
      (corner pos).2 + g.height.toNat ≤ d.vmsCfg.signHeightPixels.toNat
  | v => unimplemented v = false

/-- what reading text requires of a value -/
def TextNeed (d : Dms) : Value → Prop
  | .justificationLine (some j) => j ≠ .other ∧ j ≠ .full
  | .justificationPage (some j) => j ≠ .other
  | .newLine (some n) => d.vmsCfg.charHeightPixels = 0 ∨ n = 0
  | .spacingCharacter n => d.vmsCfg.charWidthPixels = 0 ∨ n = 0
  | .hexadecimalCharacter c => c.toNat < 0xD800 ∨ 0xE000 ≤ c.toNat
  | .textRectangle r => TextRect d d.vmsCfg.signWidthPixels.toNat d.vmsCfg.signHeightPixels.toNat r
  | _ => True

theorem valueOk_of {d v} (h1 : ColorOk d.multiCfg.colorScheme v) (h2 : GraphicsNeed d v) (h3 : TextNeed d v) :
    ValueOk d v := by
  refine ⟨h1, ?_⟩
  cases v
  case justificationLine j => cases j <;> first | exact h3 | rfl
  case justificationPage j => cases j <;> first | exact h3 | rfl
  case newLine j => cases j <;> first | exact h3 | rfl
  all_goals first | exact h2 | exact h3

/-- the intersection is computed without overflow -/
theorem intersection_fits {r : Rectangle} {W H : UInt16} {i}
    (h : r.intersection .checked ⟨1, 1, W, H⟩ = .ok i) :
    r.x.toNat + r.width.toNat < 65536 ∧ r.y.toNat + r.height.toNat < 65536 := by
  unfold Rectangle.intersection at h
  simp only [addU16_checked] at h
  simp only [Res.bind_eq_ok] at h
  obtain ⟨a, ha, b, hb, c, hc, e, he, h⟩ := h
  clear h
  constructor
  · split at ha
    · rename_i l; exact l
    · cases ha
  · split at hc
    · rename_i l; exact l
    · cases hc

theorem renderRect_inside {page page' : Raster} {r clr v} (hW : page.width < 65535) (hH : page.height < 65535)
    (hd : ¬ (page.width = 0 ∧ page.height = 0)) (h : renderRect page r clr v = .ok page') :
    InsideRect page.width page.height r := by
  have h' := h
  unfold renderRect at h'
  split at h'
  · simp at h'
  · rename_i h0
    rw [if_neg (by omega)] at h'
    simp only [Out.bind_eq_ok, Out.ofRes_eq_ok] at h'
    obtain ⟨q, hq, _⟩ := h'
    have eW : (UInt16.ofNat page.width).toNat = page.width := by
      rw [UInt16.toNat_ofNat']; omega
    have eH : (UInt16.ofNat page.height).toNat = page.height := by
      rw [UInt16.toNat_ofNat']; omega
    obtain ⟨f1, f2⟩ := intersection_fits hq
    rw [extend_x, extend_width, eW] at f1
    rw [extend_y, extend_height, eH] at f2
    apply Classical.byContradiction
    intro hn
    rw [(C49_fill_partial page r clr v hW hH hd (fun e => h0 (.inl e)) (fun e => h0 (.inr e)) f1 f2).2 hn] at h
    cases h

theorem updateTextRectangle_textRect {d : Dms} (hd : DrawOk d) {r r'}
    (h : updateTextRectangle d (RenderState.new d).textRectangle r = .ok (some r')) :
    TextRect d d.vmsCfg.signWidthPixels.toNat d.vmsCfg.signHeightPixels.toNat r := by
  rw [show (RenderState.new d).textRectangle = ⟨1, 1, d.vmsCfg.signWidthPixels, d.vmsCfg.signHeightPixels⟩ from rfl] at h
  have h' := h
  unfold updateTextRectangle at h'
  simp only [Res.bind_eq_ok] at h'
  obtain ⟨i, hi, _⟩ := h'
  obtain ⟨f1, f2⟩ := intersection_fits hi
  rw [extend_x, extend_width] at f1
  rw [extend_y, extend_height] at f2
  apply Classical.byContradiction
  intro hn
  rw [(updateTextRectangle_eq hd.width hd.height hd.size f1 f2).2 hn] at h
  cases h

theorem renderGraphicsLoop_needs {d : Dms} (hd : DrawOk d) {ss vs} (ht : Section ss vs) (hs : ∀ t ∈ ss, Item t) :
    ∀ {ctx : ColorCtx} {page page' : Raster}, page.width = d.vmsCfg.signWidthPixels.toNat → page.height = d.vmsCfg.signHeightPixels.toNat →
      renderGraphicsLoop d ss ctx page = .ok page' → ∀ v ∈ vs, GraphicsNeed d v := by
  induction ht with
  | nil => intros; simp at *
  | np hp => intros; simp at *
  | tr hp => intros; simp at *
  | @cons s v ss vs hp hne hnr _ ih =>
    intro ctx page page' hw hh h
    have ih := fun {ctx} {page page' : Raster} => ih (fun t h => hs t (List.mem_cons_of_mem _ h))
      (ctx := ctx) (page := page) (page' := page')
    have hr := C04_in_range s v (hs s (List.mem_cons_self ..)) hp
    have hw' := hd.width
    have hh' := hd.height
    rw [renderGraphicsLoop, hp] at h
    simp only [Out.ofRes_ok, Out.ok_bind, ofExcept] at h
    have both : ∀ {ctx'} {mid : Raster}, mid.width = page.width → mid.height = page.height →
        renderGraphicsLoop d ss ctx' mid = .ok page' → GraphicsNeed d v → ∀ u ∈ v :: vs, GraphicsNeed d u := by
      intro ctx' mid m1 m2 m3 m4 u hu
      rcases List.mem_cons.1 hu with rfl | hu
      · exact m4
      · exact ih (m1.trans hw) (m2.trans hh) m3 u hu
    cases v
    case colorBackground c =>
      simp only [Out.bind_eq_ok] at h
      obtain ⟨ctx', _, h2⟩ := h
      exact both rfl rfl h2 rfl
    case colorForeground c =>
      simp only [Out.bind_eq_ok] at h
      obtain ⟨ctx', _, h2⟩ := h
      exact both rfl rfl h2 rfl
    case colorRectangle r c =>
      simp only [Out.bind_eq_ok] at h
      obtain ⟨ctx', _, mid, h2, h3⟩ := h
      have hp := renderRect_painted h2
      refine both hp.width hp.height h3 ?_
      have := renderRect_inside (by omega) (by omega) (by rw [hw, hh]; exact hd.size) h2
      rw [hw, hh] at this
      exact this
    case graphic n pos =>
      have go : ∀ {gid x y}, 1 ≤ x → 1 ≤ y → corner pos = (x - 1, y - 1) →
          (∀ x y id, pos = some (x, y, some id) → gid = some id) →
          (do
            let g ← lookupGraphic d n gid
            let raster ← (g.renderGraphic page x y ctx).mapErr GraphicError.toSyntax
            renderGraphicsLoop d ss ctx raster) = .ok page' →
          ∀ u ∈ Value.graphic n pos :: vs, GraphicsNeed d u := by
        intro gid x y hx hy hcor hid h
        simp only [Out.bind_eq_ok, mapErr_eq_ok] at h
        obtain ⟨g, h1, mid, h2, h3⟩ := h
        obtain ⟨⟨g1, g2⟩, g3⟩ := lookupGraphic_of h1
        have hp := renderGraphic_painted h2
        refine both hp.width hp.height h3 ⟨g, ⟨g1, g2, fun x y id e => g3 id (hid x y id e)⟩, ?_⟩
        have hb : ¬ (page.width < x - 1 + g.width.toNat ∨ page.height < y - 1 + g.height.toNat) := by
          intro hb
          rw [(C37_too_big_iff g page x y hx hy ctx .tooBig).2 ⟨rfl, hb⟩] at h2
          cases h2
        rw [hcor]
        dsimp only
        omega
      cases pos with
      | none => exact go (gid := none) (x := 1) (y := 1) (Nat.le_refl 1) (Nat.le_refl 1) rfl (by simp) h
      | some q =>
        obtain ⟨x, y, gid⟩ := q
        obtain ⟨h1, h2⟩ := hr.2 x y gid rfl
        exact go (gid := gid) h1 h2 rfl (by simp) h
    case newPage => exact absurd rfl hne
    case textRectangle r => exact absurd rfl (hnr r)
    all_goals first
      | (exfalso; simp at h; done)
      | exact both rfl rfl h rfl

theorem rtrStep_needs {d : Dms} {po st v st'} (h : rtrStep d (RenderState.new d) po st v = .ok (.cont, st')) :
    TextNeed d v := by
  unfold rtrStep at h
  split at h <;> dsimp only at h
  · trivial
  · trivial
  · trivial
  · simp at h
  · simp at h
  · rename_i jl n1 n2
    cases jl with
    | none => trivial
    | some j => exact ⟨fun e => n1 (by rw [e]), fun e => n2 (by rw [e])⟩
  · simp at h
  · rename_i jp n1
    cases jp with
    | none => trivial
    | some j => exact fun e => n1 (by rw [e])
  · rename_i ls
    cases ls with
    | none => trivial
    | some n =>
      split at h
      · simp at h
      · rename_i hb
        simp only [badLineSpacing, Bool.and_eq_true, decide_eq_true_eq, not_and] at hb
        show d.vmsCfg.charHeightPixels = 0 ∨ n = 0
        by_cases h0 : d.vmsCfg.charHeightPixels = 0
        · exact .inl h0
        · right
          have h1 := hb (by rw [gt_iff_lt, UInt8.lt_iff_toNat_lt]; have : d.vmsCfg.charHeightPixels.toNat ≠ 0 := fun e => h0 (UInt8.toNat_inj.1 e); simp [Dms.charHeight, Dms.charWidth]; omega)
          rw [gt_iff_lt, UInt8.lt_iff_toNat_lt] at h1
          apply UInt8.toNat_inj.1
          simp at h1 ⊢
          exact h1
  · simp at h
  · rename_i sc
    split at h
    · simp at h
    · rename_i hb
      show d.vmsCfg.charWidthPixels = 0 ∨ sc = 0
      by_cases h0 : d.vmsCfg.charWidthPixels = 0
      · exact .inl h0
      · right
        simp only [not_and] at hb
        have h1 := hb (by rw [gt_iff_lt, UInt8.lt_iff_toNat_lt]; have : d.vmsCfg.charWidthPixels.toNat ≠ 0 := fun e => h0 (UInt8.toNat_inj.1 e); simp [Dms.charHeight, Dms.charWidth]; omega)
        rw [gt_iff_lt, UInt8.lt_iff_toNat_lt] at h1
        apply UInt8.toNat_inj.1
        simp at h1 ⊢
        exact h1
  · trivial
  · simp only [Res.bind_eq_ok] at h
    obtain ⟨o, _, h⟩ := h
    cases o <;> simp at h
  · trivial
  · rename_i k
    show k.toNat < 0xD800 ∨ 0xE000 ≤ k.toNat
    cases e : charFromU32 k.toNat with
    | none => rw [e] at h; simp at h
    | some c =>
      unfold charFromU32 at e
      split at e
      · omega
      · cases e
  · rename_i n0 n1 n2 n3 n4 n5 n6 n7 n8 n9 n10 n11 n12 n13 n14
    cases v
    case justificationLine j => exact absurd rfl (n5 j)
    case justificationPage j => exact absurd rfl (n7 j)
    case newLine j => exact absurd rfl (n8 j)
    case spacingCharacter j => exact absurd rfl (n10 j)
    case hexadecimalCharacter j => exact absurd rfl (n14 j)
    case textRectangle j => exact absurd rfl (n12 j)
    all_goals trivial

theorem rtrLoop_needs {d po} {ss : List Str} {st st' rest' vs}
    (h : rtrLoop d (RenderState.new d) po ss st = .ok (.ok (), st', rest')) (hsec : Section ss vs) :
    ∀ v ∈ vs, TextNeed d v := by
  induction ss generalizing st vs with
  | nil => cases hsec; simp
  | cons s ss ih =>
    cases hsec with
    | np _ => simp
    | tr _ => simp
    | @cons _ v _ vs hv hne hnr hsec =>
      unfold rtrLoop at h
      rw [hv] at h
      simp only at h
      split at h
      · simp at h
      · rename_i st1 h1
        intro u hu
        rcases List.mem_cons.1 hu with rfl | hu
        · exact rtrStep_needs h1
        · exact ih h hsec u hu
      · rename_i st1 h1
        rcases (rtrStep_section.2 h1).1 with rfl | ⟨r, rfl⟩
        · exact absurd rfl hne
        · exact absurd rfl (hnr r)
      · simp at h

theorem textDrawn_fits {d t sp rect vs a b} (h : TextDrawn d t sp rect vs a b)
    (ht : Tidy (signAttr d) t true true vs) : TextsFit d rect (layoutOf d t sp rect vs) := by
  obtain ⟨ps, h1, _, h2, h3, _, h5, _⟩ := h
  have e : (ps.map Prod.fst).map pieceOf = (layoutOf d t sp rect vs).map pieceOf := by
    rw [h1, layoutOf, map_spanOf]
  refine textsFit_pieces e fun s hs => ?_
  obtain ⟨p, hp, rfl⟩ := List.mem_map.1 hs
  obtain ⟨f, w, hf, ⟨f', es, hf', hdef, _⟩, _⟩ := h3 p hp
  obtain ⟨⟨_, _, _, total, _, _, x1, x2, _⟩, ⟨_, m, tot, _, y1, y2, y3, _⟩⟩ := (h5 ht).2 p hp
  have er := (h2 p.1 hs).1
  exact ⟨⟨f', es, hf', hdef⟩, ⟨total, x1, by rw [← er]; exact x2⟩, ⟨m, y1, by rw [← y2, ← er]; exact y3⟩⟩

theorem onPageLoop_needs {d ms} (hd : AcceptOk d) {fuel n pg page page' pg'}
    (h : onPageLoop d fuel n pg page = .ok (.ok page', pg')) (hfuel : maxTextRectangles + 1 ≤ fuel + n)
    (hn : n ≤ maxTextRectangles) (hs : pg.pageState = .on false) (hdr : Drawing d ms pg page)
    {vs rest b} (ht : TakePage pg.values vs rest b)
    (htidy : AllSections d (fun t _ _ ws => Tidy (signAttr d) t true true ws)
      (textAttr pg.renderState) pg.renderState.lineSpacing pg.renderState.textRectangle (sections vs).1 (sections vs).2) :
    (∀ v ∈ vs, GraphicsNeed d v ∧ TextNeed d v) ∧ n + (sections vs).2.length < maxTextRectangles ∧
    AllSections d (fun t sp rect ws => TextsFit d rect (layoutOf d t sp rect ws))
      (textAttr pg.renderState) pg.renderState.lineSpacing pg.renderState.textRectangle (sections vs).1 (sections vs).2 := by
  induction fuel generalizing n pg page vs with
  | zero => omega
  | succ fuel ih =>
    rw [onPageLoop, if_pos hs] at h
    split at h
    · simp at h
    · simp at h
    · rename_i mid hgr
      have hd1 := Drawing.graphics hdr hgr
      simp only [Res.bind_eq_ok] at h
      obtain ⟨⟨x, pg1⟩, h1, h2⟩ := h
      cases x with
      | error e => simp at h2
      | ok page1 =>
        have hd2 := Drawing.text hd1 h1
        obtain ⟨hp, hw, hh⟩ := drawing_ok hdr
        have hsign := drawing_sign hdr
        obtain ⟨st, values, hl, hpg1, hts⟩ := renderTextRectangle_ok h1
        rw [hp.default] at hl
        obtain ⟨hsec, e1, e2, e3⟩ := rtrLoop_end (st := ⟨pg.renderState, _, [], true⟩) hsign hl ht
        have hG := renderGraphicsLoop_needs hd.toDrawOk hsec hp.items hw hh hgr
        have hT := rtrLoop_needs hl hsec
        have hX := textDrawn_fits (textDrawn hd.fonts hd.font hd1 hs h1 hsec) (allSections_first htidy)
        simp only at h2
        split at h2
        · simp at h2
        · rename_i hlt
          generalize he : (sections vs).2 = more at e3 htidy ⊢
          cases more with
          | nil =>
            refine ⟨fun v hv => ?_, by simp; omega, .last hX⟩
            rw [← sections_whole he] at hv
            exact ⟨hG v hv, hT v hv⟩
          | cons q more =>
            obtain ⟨r, ws1⟩ := q
            obtain ⟨e4, e5, ws, e6, e7⟩ := e3
            have hsuf : ∃ r', vs = (sections vs).1 ++ .textRectangle r' :: ws ∧
                TextRect d d.vmsCfg.signWidthPixels.toNat d.vmsCfg.signHeightPixels.toNat r' := by
              obtain ⟨vs', k3, k4⟩ := sections_split he
              rcases (rtrLoop_ok hl).1 vs rest b ht with ⟨_, ws', us, r', r'', k1, k0, k2, k5, _⟩ | ⟨_, k, _⟩
              · obtain ⟨rfl, _⟩ := takePage_unique e6 k2
                have hu : (sections vs).1 = us := by
                  rw [k1]
                  clear k1 k3
                  induction us with
                  | nil => rfl
                  | cons u us ih =>
                    rw [List.cons_append, sections_cons (k0 u (List.mem_cons_self ..)),
                      ih (fun v h => k0 v (List.mem_cons_of_mem _ h))]
                rw [hu]
                exact ⟨r', k1, updateTextRectangle_textRect hd.toDrawOk k5⟩
              · rw [e4] at k; exact absurd k.symm (pageEnd_ne b _)
            obtain ⟨r', hus, htr⟩ := hsuf
            cases htidy with
            | next _ htidy =>
              obtain ⟨i1, i2, i3⟩ := ih h2 (by omega) (by omega) (by rw [hpg1]; exact e4) hd2 (vs := ws)
                (by rw [hpg1]; exact e6) (by rw [e7, hpg1]; dsimp only; rw [e1, e2, e5]; exact htidy)
              rw [e7, hpg1] at i3
              dsimp only at i3
              rw [e1, e2, e5] at i3
              rw [e7] at i2
              refine ⟨fun v hv => ?_, by simp only [List.length_cons]; dsimp only at i2; omega, .next hX i3⟩
              rw [hus] at hv
              rcases List.mem_append.1 hv with hv | hv
              · exact ⟨hG v hv, hT v hv⟩
              · rcases List.mem_cons.1 hv with rfl | hv
                · exact ⟨rfl, htr⟩
                · exact i1 v hv

end Ntcip
