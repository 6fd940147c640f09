import Verif.Lemmas.PageErr
import Verif.Lemmas.PageRun
/-
The renderer only looks at the fonts, graphics and tags a message uses, and at few settings.
-/
namespace Ntcip

/-- signs with the same configuration, as far as the renderer looks at it after its start -/
structure SameCfg (d d' : Dms) : Prop where
  charW : d'.vmsCfg.charWidthPixels = d.vmsCfg.charWidthPixels
  charH : d'.vmsCfg.charHeightPixels = d.vmsCfg.charHeightPixels

/-- signs supporting the same of the tags `U` -/
def SameTags (U : Tag → Prop) (d d' : Dms) : Prop :=
  ∀ t, U t → d'.multiCfg.supportedMultiTags t = d.multiCfg.supportedMultiTags t

/-- the tables give the same fonts for the numbers `S` -/
def SameFonts (S : UInt8 → Prop) (F F' : FontTable) : Prop :=
  ∀ n, S n → FontTable.font F n = FontTable.font F' n

section Fonts
variable {S : UInt8 → Prop} {F F' : FontTable}

theorem font_same (h : SameFonts S F F') {s : RenderState} (hs : S s.fontNum) : s.font F = s.font F' := by
  unfold RenderState.font
  rw [h _ hs]

theorem charSpacingFonts_same (h : SameFonts S F F') {s : Span} (hs : S s.state.fontNum) :
    s.charSpacingFonts F = s.charSpacingFonts F' := by
  unfold Span.charSpacingFonts
  rw [font_same h hs]

theorem width_same (h : SameFonts S F F') {s : Span} (hs : S s.state.fontNum) :
    s.width F = s.width F' := by
  unfold Span.width
  rw [font_same h hs, charSpacingFonts_same h hs]

theorem between_same (h : SameFonts S F F') {s p : Span} (hs : S s.state.fontNum)
    (hp : S p.state.fontNum) : s.charSpacingBetween p F = s.charSpacingBetween p F' := by
  unfold Span.charSpacingBetween
  rw [charSpacingFonts_same h hs, charSpacingFonts_same h hp]

theorem height_same (h : SameFonts S F F') {s : Span} (hs : S s.state.fontNum) :
    s.height F = s.height F' := by
  unfold Span.height
  rw [font_same h hs]

theorem fontSpacing_same (h : SameFonts S F F') {s : Span} (hs : S s.state.fontNum) :
    s.fontSpacing F = s.fontSpacing F' := by
  unfold Span.fontSpacing
  rw [font_same h hs]

theorem offsetHorizLoop_same (h : SameFonts S F F') {rs : RenderState} {l : List Span}
    (hl : ∀ s ∈ l, S s.state.fontNum) {p : Option Span} (hp : ∀ s, p = some s → S s.state.fontNum)
    (b a : Nat) : offsetHorizLoop F rs l p b a = offsetHorizLoop F' rs l p b a := by
  induction l generalizing p b a with
  | nil => rfl
  | cons s l ih =>
    have hs := hl s (by simp)
    have ih' := fun b a => ih (p := some s) (fun x hx => hl x (by simp [hx]))
      (fun x hx => by cases hx; exact hs) b a
    unfold offsetHorizLoop
    rw [width_same h hs]
    simp only [ih']
    cases p with
    | none => rfl
    | some p => simp only [between_same h hs (hp p rfl)]

theorem textLines_same (h : SameFonts S F F') {l : List Span} (hl : ∀ s ∈ l, S s.state.fontNum)
    (ls : List TextLine) : textLines F l ls = textLines F' l ls := by
  induction l generalizing ls with
  | nil => rfl
  | cons s l ih =>
    have hs := hl s (by simp)
    have ih' := ih (fun x hx => hl x (by simp [hx]))
    unfold textLines
    rw [height_same h hs, fontSpacing_same h hs]
    simp only [ih']

variable {d d' : Dms} (hc : SameCfg d d')
include hc

omit hc in
theorem offsetHoriz_same (h : SameFonts S d.fontDefinition d'.fontDefinition) {l : List Span}
    (hl : ∀ s ∈ l, S s.state.fontNum) (s : Span) :
    offsetHoriz d l s = offsetHoriz d' l s := by
  unfold offsetHoriz
  dsimp only
  rw [offsetHorizLoop_same h (fun x hx => hl x (List.mem_filter.1 hx).1) (by simp)]

theorem offsetVert_same (h : SameFonts S d.fontDefinition d'.fontDefinition) {l : List Span}
    (hl : ∀ s ∈ l, S s.state.fontNum) (s : Span) :
    offsetVert d l s = offsetVert d' l s := by
  unfold offsetVert
  simp only [Dms.charHeight, hc.charH]
  rw [textLines_same h (fun x hx => hl x (List.mem_filter.1 hx).1)]

theorem spanX_same (h : SameFonts S d.fontDefinition d'.fontDefinition) {l : List Span}
    (hl : ∀ s ∈ l, S s.state.fontNum) (s : Span) :
    spanX d l s = spanX d' l s := by
  unfold spanX spanXLeft spanXCenter spanXRight
  simp only [offsetHoriz_same h hl s, Dms.cellWidth, Dms.charWidth, hc.charW]

theorem spanY_same (h : SameFonts S d.fontDefinition d'.fontDefinition) {l : List Span}
    (hl : ∀ s ∈ l, S s.state.fontNum) (s : Span) (hs : S s.state.fontNum) :
    spanY d l s = spanY d' l s := by
  unfold spanY baseline baselineTop baselineMiddle baselineBottom
  simp only [offsetVert_same hc h hl s, height_same h hs, Dms.cellHeight, Dms.charHeight, hc.charH]

theorem renderSpansLoop_same (h : SameFonts S d.fontDefinition d'.fontDefinition) {l : List Span}
    (hl : ∀ s ∈ l, S s.state.fontNum) {k : List Span} (hk : ∀ s ∈ k, S s.state.fontNum) (r : Raster) :
    renderSpansLoop d l k r = renderSpansLoop d' l k r := by
  induction k generalizing r with
  | nil => rfl
  | cons s k ih =>
    have hs := hk s (by simp)
    unfold renderSpansLoop
    rw [spanX_same hc h hl s, spanY_same hc h hl s hs,
      font_same h hs]
    simp only [ih fun x hx => hk x (by simp [hx])]

theorem renderTextSpans_same (h : SameFonts S d.fontDefinition d'.fontDefinition) {l : List Span}
    (hl : ∀ s ∈ l, S s.state.fontNum) (r : Raster) :
    renderTextSpans d l r = renderTextSpans d' l r := by
  unfold renderTextSpans
  rw [renderSpansLoop_same hc h hl hl]

end Fonts

/-- a graphic item of a message only names graphics of `T` -/
def GraphicsOf (T : UInt8 → Prop) (ss : List Str) : Prop :=
  ∀ s ∈ ss, ∀ n pos, tryFrom s = .ok (.ok (.graphic n pos)) → T n

/-- a font item of a message only names fonts of `S` -/
def FontsOf (S : UInt8 → Prop) (ss : List Str) : Prop :=
  ∀ s ∈ ss, ∀ n vid, tryFrom s = .ok (.ok (.font (some (n, vid)))) → S n

theorem renderGraphicsLoop_same {d d' : Dms} {T : UInt8 → Prop}
    (h : ∀ n, T n → GraphicTable.graphic d.graphicDefinition n = GraphicTable.graphic d'.graphicDefinition n)
    {ss : List Str} (hs : GraphicsOf T ss) (ctx : ColorCtx) (r : Raster) :
    renderGraphicsLoop d ss ctx r = renderGraphicsLoop d' ss ctx r := by
  induction ss generalizing ctx r with
  | nil => rfl
  | cons s ss ih =>
    have ih' := ih (fun x hx => hs x (by simp [hx]))
    unfold renderGraphicsLoop
    cases hv : tryFrom s with
    | panic p => rfl
    | ok e =>
      cases e with
      | error e => rfl
      | ok v =>
        have hl : ∀ n pos gid, v = .graphic n pos →
            lookupGraphic d n gid = lookupGraphic d' n gid := by
          rintro n pos gid rfl
          unfold lookupGraphic
          rw [h n (hs s (by simp) n pos hv)]
        simp only [Out.ofRes_ok, Out.ok_bind, ofExcept, ih']
        cases v <;> try rfl
        rename_i n pos
        rcases pos with _ | ⟨x, y, gid⟩
        · simp only [hl n none none rfl]
        · simp only [hl n (some (x, y, gid)) gid rfl]

section Rtr
variable {d d' : Dms}

theorem updateTextRectangle_same (hc : SameCfg d d') (full rect : Rectangle) :
    updateTextRectangle d' full rect = updateTextRectangle d full rect := by
  unfold updateTextRectangle
  simp only [Dms.cellWidth, Dms.cellHeight, Dms.charWidth, Dms.charHeight, hc.charW, hc.charH]

theorem badLineSpacing_same (hc : SameCfg d d') (ls : Option UInt8) :
    badLineSpacing d' ls = badLineSpacing d ls := by
  unfold badLineSpacing
  simp only [Dms.charHeight, hc.charH]

theorem rtrStep_same (hc : SameCfg d d') (ds : RenderState) (po : Bool) (st : Rtr) (v : Value) :
    rtrStep d' ds po st v = rtrStep d ds po st v := by
  unfold rtrStep
  simp only [updateTextRectangle_same hc, badLineSpacing_same hc, Dms.charWidth, hc.charW]

theorem rtrLoop_same (hc : SameCfg d d') (ds : RenderState) (po : Bool) (ss : List Str) (st : Rtr) :
    rtrLoop d' ds po ss st = rtrLoop d ds po ss st := by
  induction ss generalizing st with
  | nil => rfl
  | cons s ss ih =>
    unfold rtrLoop
    simp only [rtrStep_same hc, ih]

/-- the items of a message only have tags of `U` -/
def TagsOf (U : Tag → Prop) (ss : List Str) : Prop :=
  ∀ s ∈ ss, ∀ v t, tryFrom s = .ok (.ok v) → v.tag = some t → U t

theorem checkUnsupported_same {U : Tag → Prop} (hc : SameTags U d d') {ss : List Str} (hs : TagsOf U ss) :
    checkUnsupported d' ss = checkUnsupported d ss := by
  induction ss with
  | nil => rfl
  | cons s ss ih =>
    unfold checkUnsupported
    rw [ih fun x hx => hs x (List.mem_cons_of_mem _ hx)]
    cases hv : tryFrom s with
    | panic p => rfl
    | ok e => cases e with
      | error e => rfl
      | ok v =>
        simp only [Out.ofRes_ok, Out.ok_bind, ofExcept]
        cases ht : v.tag with
        | none => rfl
        | some t => simp only [hc t (hs s (List.mem_cons_self ..) v t hv ht)]

/-- the fonts of state and spans are those of `S` -/
def FontIn (S : UInt8 → Prop) (st : Rtr) : Prop :=
  S st.rs.fontNum ∧ ∀ s ∈ st.spans, S s.state.fontNum

theorem rtrStep_fontIn {S : UInt8 → Prop} {ds : RenderState} {po : Bool} {st st' : Rtr} {v : Value}
    {c : Ctl} (hd : S ds.fontNum) (hv : ∀ n vid, v = .font (some (n, vid)) → S n)
    (hst : FontIn S st) (h : rtrStep d ds po st v = .ok (c, st')) : FontIn S st' := by
  obtain ⟨h1, h2⟩ := hst
  unfold rtrStep at h
  split at h <;> dsimp only at h
  all_goals try (simp only [Res.ok.injEq, Prod.mk.injEq] at h; obtain ⟨-, rfl⟩ := h; exact ⟨h1, h2⟩)
  · split at h <;> (simp only [Res.ok.injEq, Prod.mk.injEq] at h; obtain ⟨-, rfl⟩ := h; exact ⟨h1, h2⟩)
  · simp only [Res.ok.injEq, Prod.mk.injEq] at h; obtain ⟨-, rfl⟩ := h; exact ⟨hd, h2⟩
  · simp only [Res.ok.injEq, Prod.mk.injEq] at h; obtain ⟨-, rfl⟩ := h; exact ⟨hv _ _ rfl, h2⟩
  · split at h <;> (simp only [Res.ok.injEq, Prod.mk.injEq] at h; obtain ⟨-, rfl⟩ := h; exact ⟨h1, h2⟩)
  · split at h
    · simp only [Res.ok.injEq, Prod.mk.injEq] at h; obtain ⟨-, rfl⟩ := h; exact ⟨h1, h2⟩
    · simp only [Res.bind_eq_ok, Res.pure_eq, Res.ok.injEq, Prod.mk.injEq] at h
      obtain ⟨_, _, -, rfl⟩ := h
      refine ⟨h1, ?_⟩
      dsimp only
      split
      · intro s hs
        rcases List.mem_append.1 hs with hs | hs
        · exact h2 s hs
        · rw [List.mem_singleton.1 hs]; exact h1
      · exact h2
  · split at h <;> (simp only [Res.ok.injEq, Prod.mk.injEq] at h; obtain ⟨-, rfl⟩ := h; exact ⟨h1, h2⟩)
  · simp only [Res.bind_eq_ok] at h
    obtain ⟨o, _, h⟩ := h
    split at h <;> (simp only [Res.pure_eq, Res.ok.injEq, Prod.mk.injEq] at h; obtain ⟨-, rfl⟩ := h
                    exact ⟨h1, h2⟩)
  · simp only [Res.bind_eq_ok, Res.pure_eq, Res.ok.injEq, Prod.mk.injEq] at h
    obtain ⟨_, _, -, rfl⟩ := h
    refine ⟨h1, fun s hs => ?_⟩
    rcases List.mem_append.1 hs with hs | hs
    · exact h2 s hs
    · rw [List.mem_singleton.1 hs]; exact h1
  · split at h
    · simp only [Res.bind_eq_ok, Res.pure_eq, Res.ok.injEq, Prod.mk.injEq] at h
      obtain ⟨_, _, -, rfl⟩ := h
      refine ⟨h1, fun s hs => ?_⟩
      rcases List.mem_append.1 hs with hs | hs
      · exact h2 s hs
      · rw [List.mem_singleton.1 hs]; exact h1
    · simp only [Res.ok.injEq, Prod.mk.injEq] at h; obtain ⟨-, rfl⟩ := h; exact ⟨h1, h2⟩

theorem rtrLoop_fontIn {S : UInt8 → Prop} {ds : RenderState} {po : Bool} {ss rest : List Str}
    {st st' : Rtr} {x : Except SyntaxError Unit} (hd : S ds.fontNum) (hss : FontsOf S ss)
    (hst : FontIn S st) (h : rtrLoop d ds po ss st = .ok (x, st', rest)) : FontIn S st' := by
  induction ss generalizing st with
  | nil => simp only [rtrLoop, Res.ok.injEq, Prod.mk.injEq] at h; rw [← h.2.1]; exact hst
  | cons s ss ih =>
    unfold rtrLoop at h
    cases hv : tryFrom s with
    | panic p => simp [hv] at h
    | ok e =>
      cases e with
      | error e =>
        simp only [hv, Res.ok.injEq, Prod.mk.injEq] at h
        rw [← h.2.1]; exact hst
      | ok v =>
        simp only [hv] at h
        cases hr : rtrStep d ds po st v with
        | panic p => simp [hr] at h
        | ok q =>
          obtain ⟨c, st1⟩ := q
          have h1 : FontIn S st1 := rtrStep_fontIn hd
            (fun n vid e => hss s (by simp) n vid (by rw [hv, e])) hst hr
          rw [hr] at h
          cases c with
          | cont => exact ih (fun x hx => hss x (by simp [hx])) h1 h
          | brk => simp only [Res.ok.injEq, Prod.mk.injEq] at h; rw [← h.2.1]; exact h1
          | fail e => simp only [Res.ok.injEq, Prod.mk.injEq] at h; rw [← h.2.1]; exact h1

/-- what is used by the rest of a message -/
structure Uses (S T : UInt8 → Prop) (U : Tag → Prop) (pg : Pages) : Prop where
  dflt : S pg.defaultState.fontNum
  cur : S pg.renderState.fontNum
  fonts : FontsOf S pg.values
  graphics : GraphicsOf T pg.values
  tags : TagsOf U pg.values

theorem Uses.suffix {S T : UInt8 → Prop} {U : Tag → Prop} {pg pg' : Pages} (h : Uses S T U pg)
    (hd : pg'.defaultState = pg.defaultState) (hf : S pg'.renderState.fontNum)
    (hs : pg'.values <:+ pg.values) : Uses S T U pg' :=
  ⟨hd ▸ h.dflt, hf, fun s m => h.fonts s (hs.subset m), fun s m => h.graphics s (hs.subset m),
    fun s m => h.tags s (hs.subset m)⟩

theorem renderTextRectangle_same (hc : SameCfg d d') {S T : UInt8 → Prop} {U : Tag → Prop} (hF : SameFonts S d.fontDefinition d'.fontDefinition)
    {pg : Pages} (hu : Uses S T U pg) (r : Raster) :
    renderTextRectangle d pg r = renderTextRectangle d' pg r ∧
    ∀ x pg', renderTextRectangle d pg r = .ok (x, pg') → Uses S T U pg' := by
  have hst : FontIn S ⟨pg.renderState, .doneState (decide (pg.renderState.pageOffTimeDs > 0)), [], true⟩ :=
    ⟨hu.cur, by simp⟩
  unfold renderTextRectangle
  simp only [rtrLoop_same hc]
  cases hr : rtrLoop d pg.defaultState (decide (pg.renderState.pageOffTimeDs > 0)) pg.values
      ⟨pg.renderState, .doneState (decide (pg.renderState.pageOffTimeDs > 0)), [], true⟩ with
  | panic p => simp
  | ok q =>
    obtain ⟨e, st, vals⟩ := q
    have h1 := rtrLoop_fontIn hu.dflt hu.fonts hst hr
    have h2 := rtrLoop_suffix hr
    simp only [Res.ok_bind]
    rw [← renderTextSpans_same hc hF h1.2]
    refine ⟨rfl, ?_⟩
    have key : Uses S T U { pg with renderState := st.rs, pageState := st.pageState, spans := st.spans,
                                    values := vals } := hu.suffix rfl h1.1 h2
    intro x pg' h
    cases e with
    | error e =>
      simp only [Res.pure_eq, Res.ok.injEq, Prod.mk.injEq] at h
      rw [← h.2]; exact key
    | ok u =>
      simp only at h
      split at h
      · simp at h
      · simp only [Res.pure_eq, Res.ok.injEq, Prod.mk.injEq] at h
        rw [← h.2]; exact key
      · simp only [Res.pure_eq, Res.ok.injEq, Prod.mk.injEq] at h
        rw [← h.2]; exact key

theorem onPageLoop_same (hc : SameCfg d d') {S T : UInt8 → Prop} {U : Tag → Prop} (hF : SameFonts S d.fontDefinition d'.fontDefinition)
    (hG : ∀ n, T n → GraphicTable.graphic d.graphicDefinition n = GraphicTable.graphic d'.graphicDefinition n)
    {fuel n : Nat} {pg : Pages} (hu : Uses S T U pg) (r : Raster) :
    onPageLoop d fuel n pg r = onPageLoop d' fuel n pg r ∧
    ∀ x pg', onPageLoop d fuel n pg r = .ok (x, pg') → Uses S T U pg' := by
  induction fuel generalizing n pg r with
  | zero =>
    refine ⟨rfl, fun x pg' h => ?_⟩
    simp only [onPageLoop, Res.ok.injEq, Prod.mk.injEq] at h
    rw [← h.2]; exact hu
  | succ fuel ih =>
    unfold onPageLoop
    rw [← renderGraphicsLoop_same hG hu.graphics]
    by_cases hp : pg.pageState = .on false
    · simp only [if_pos hp]
      cases hr : renderGraphicsLoop d pg.values pg.renderState.colorCtx r with
      | panic p => simp
      | err e =>
        refine ⟨by simp only, fun x pg' h => ?_⟩
        simp only [Res.ok.injEq, Prod.mk.injEq] at h
        rw [← h.2]; exact hu
      | ok r1 =>
        have ht := renderTextRectangle_same hc hF hu r1
        simp only
        rw [← ht.1]
        cases hq : renderTextRectangle d pg r1 with
        | panic p => simp
        | ok q =>
          obtain ⟨e, pg1⟩ := q
          have hu1 := ht.2 _ _ hq
          simp only [Res.ok_bind]
          cases e with
          | error e =>
            refine ⟨by simp only, fun x pg' h => ?_⟩
            simp only [Res.pure_eq, Res.ok.injEq, Prod.mk.injEq] at h
            rw [← h.2]; exact hu1
          | ok r2 =>
            simp only
            by_cases hm : n + 1 > maxTextRectangles
            · simp only [if_pos hm]
              refine ⟨trivial, fun x pg' h => ?_⟩
              simp only [Res.pure_eq, Res.ok.injEq, Prod.mk.injEq] at h
              rw [← h.2]; exact hu1
            · simp only [if_neg hm]
              exact ih hu1 r2
    · simp only [if_neg hp]
      refine ⟨trivial, fun x pg' h => ?_⟩
      simp only [Res.ok.injEq, Prod.mk.injEq] at h
      rw [← h.2]; exact hu

theorem updatePageStateLoop_fontNum {ds : RenderState} {ss : List Str} {rs rs' : RenderState}
    {x : Except SyntaxError Unit} (h : updatePageStateLoop ds ss rs = .ok (x, rs')) :
    rs'.fontNum = rs.fontNum := by
  induction ss generalizing rs with
  | nil => simp only [updatePageStateLoop, Res.ok.injEq, Prod.mk.injEq] at h; rw [← h.2]
  | cons s ss ih =>
    unfold updatePageStateLoop at h
    split at h
    · simp at h
    · simp only [Res.ok.injEq, Prod.mk.injEq] at h; rw [← h.2]
    · split at h
      · split at h
        · have := ih h; exact this
        · simp only [Res.ok.injEq, Prod.mk.injEq] at h; rw [← h.2]
      · split at h
        · have := ih h; exact this
        · simp only [Res.ok.injEq, Prod.mk.injEq] at h; rw [← h.2]
      · simp only [Res.ok.injEq, Prod.mk.injEq] at h; rw [← h.2]
      · have := ih h; exact this
      · exact ih h

theorem renderOnPage_same (hc : SameCfg d d') {S T : UInt8 → Prop} {U : Tag → Prop} (hT : SameTags U d d')
    (hF : SameFonts S d.fontDefinition d'.fontDefinition)
    (hG : ∀ n, T n → GraphicTable.graphic d.graphicDefinition n = GraphicTable.graphic d'.graphicDefinition n)
    {pg : Pages} (hu : Uses S T U pg) :
    renderOnPage d pg = renderOnPage d' pg ∧
    ∀ x pg', renderOnPage d pg = .ok (x, pg') → Uses S T U pg' := by
  unfold renderOnPage
  rw [checkUnsupported_same hT hu.tags]
  cases hcu : checkUnsupported d pg.values with
  | panic p => simp
  | err e =>
    refine ⟨by simp only, fun x pg' h => ?_⟩
    simp only [Res.ok.injEq, Prod.mk.injEq] at h
    rw [← h.2]; exact hu
  | ok u =>
    simp only
    cases hp : updatePageState pg.defaultState pg.renderState pg.values with
    | panic p => simp
    | ok q =>
      obtain ⟨e, rs⟩ := q
      have hn : S rs.fontNum := by
        rw [updatePageState] at hp
        rw [updatePageStateLoop_fontNum hp]
        exact hu.cur
      simp only [Res.ok_bind]
      cases e with
      | error e =>
        refine ⟨by simp only, fun x pg' h => ?_⟩
        simp only [Res.pure_eq, Res.ok.injEq, Prod.mk.injEq] at h
        rw [← h.2]; exact hu.suffix rfl hn List.suffix_rfl
      | ok u =>
        simp only
        have hu1 : Uses S T U { pg with renderState := rs, pageState := .on false } :=
          hu.suffix rfl hn List.suffix_rfl
        have ho := onPageLoop_same (fuel := maxTextRectangles + 2) (n := 0) hc hF hG hu1
          (buildRaster rs)
        rw [← ho.1]
        refine ⟨rfl, fun x pg' h => ?_⟩
        simp only [Res.bind_eq_ok] at h
        obtain ⟨⟨e, pg1⟩, h1, h2⟩ := h
        have hu2 := ho.2 _ _ h1
        cases e with
        | error e => simp only [Res.pure_eq, Res.ok.injEq, Prod.mk.injEq] at h2; rw [← h2.2]; exact hu2
        | ok r => simp only [Res.pure_eq, Res.ok.injEq, Prod.mk.injEq] at h2; rw [← h2.2]; exact hu2

theorem next_same (hc : SameCfg d d') {S T : UInt8 → Prop} {U : Tag → Prop} (hT : SameTags U d d')
    (hF : SameFonts S d.fontDefinition d'.fontDefinition)
    (hG : ∀ n, T n → GraphicTable.graphic d.graphicDefinition n = GraphicTable.graphic d'.graphicDefinition n)
    {pg : Pages} (hu : Uses S T U pg) :
    Pages.next d pg = Pages.next d' pg ∧
    ∀ x pg', Pages.next d pg = .ok (x, pg') → Uses S T U pg' := by
  unfold Pages.next
  have ho := renderOnPage_same hc hT hF hG hu
  rw [← ho.1]
  refine ⟨rfl, fun x pg' h => ?_⟩
  split at h
  · simp only [Res.bind_eq_ok, Res.pure_eq, Res.ok.injEq, Prod.mk.injEq] at h
    obtain ⟨⟨e, pg1⟩, h1, -, rfl⟩ := h
    exact ho.2 _ _ h1
  · simp only [renderOffPage, Res.ok.injEq, Prod.mk.injEq] at h
    rw [← h.2]; exact ⟨hu.dflt, hu.cur, hu.fonts, hu.graphics, hu.tags⟩
  · simp only [Res.ok.injEq, Prod.mk.injEq] at h
    rw [← h.2]; exact hu

theorem run_same (hc : SameCfg d d') {S T : UInt8 → Prop} {U : Tag → Prop} (hT : SameTags U d d')
    (hF : SameFonts S d.fontDefinition d'.fontDefinition)
    (hG : ∀ n, T n → GraphicTable.graphic d.graphicDefinition n = GraphicTable.graphic d'.graphicDefinition n)
    (k : Nat) {pg : Pages} (hu : Uses S T U pg) :
    Pages.run d k pg = Pages.run d' k pg := by
  induction k generalizing pg with
  | zero => rfl
  | succ k ih =>
    unfold Pages.run
    have hn := next_same hc hT hF hG hu
    rw [← hn.1]
    cases hq : Pages.next d pg with
    | panic p => simp
    | ok q =>
      obtain ⟨x, pg1⟩ := q
      simp only [Res.ok_bind]
      cases x with
      | none => simp only
      | some x => rw [ih (hn.2 _ _ hq)]

end Rtr
end Ntcip
