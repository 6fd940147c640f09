import Verif.Lemmas.PageErr
import Verif.Tests.Render
/-
C39 – C42, C50 – C53: the sequence of pages of a message.
-/
namespace Ntcip
open Spec Tests

/-! ### evaluation of concrete messages -/

/-- labelled run, for examples -/
def runLabelled (d : Dms) : Nat → Pages → Option (List (Bool × Except SyntaxError Page) × Pages)
  | 0, _ => none
  | n + 1, pg => match Pages.next d pg with
    | .panic _ => none
    | .ok (none, _) => some ([], pg)
    | .ok (some x, pg1) => (runLabelled d n pg1).map fun r => ((isOn pg.pageState, x) :: r.1, r.2)

theorem runLabelled_steps {d n pg xs pg'} (h : runLabelled d n pg = some (xs, pg')) :
    Steps d pg xs pg' ∧ Pages.next d pg' = .ok (none, pg') := by
  induction n generalizing pg xs with
  | zero => simp [runLabelled] at h
  | succ n ih =>
    unfold runLabelled at h
    split at h
    · simp at h
    · rename_i pg1 hn
      simp only [Option.some.injEq, Prod.mk.injEq] at h
      obtain ⟨rfl, rfl⟩ := h
      obtain ⟨_, rfl⟩ := next_none hn
      exact ⟨.nil, hn⟩
    · rename_i x pg1 hn
      simp only [Option.map_eq_some_iff, Prod.exists, Prod.mk.injEq] at h
      obtain ⟨ys, pg2, h1, rfl, rfl⟩ := h
      obtain ⟨i1, i2⟩ := ih h1
      exact ⟨.cons hn i1, i2⟩

/-- kind, size and duration of the items; `none` for an error -/
def summary (d : Dms) (ms : Str) : Option (List (Bool × Option (Nat × Nat × Nat))) :=
  (runLabelled d 20 (Pages.new d ms)).map fun r => r.1.map fun x => (x.1, match x.2 with
    | .ok p => some (p.raster.width, p.raster.height, p.durationDs)
    | .error _ => none)

theorem summary_yields {d ms l} (h : summary d ms = some l) :
    ∃ xs, Yields d ms xs ∧ l = xs.map fun x => (x.1, match x.2 with
      | .ok p => some (p.raster.width, p.raster.height, p.durationDs)
      | .error _ => none) := by
  unfold summary at h
  simp only [Option.map_eq_some_iff, Prod.exists] at h
  obtain ⟨xs, pg', h1, rfl⟩ := h
  exact ⟨xs, ⟨pg', runLabelled_steps h1⟩, rfl⟩

/-! ### C39 page size -/

/-- **C39 (ON pages)** every ON page has the pixel size of the sign. -/
theorem C39_on_page_size_partial (d : Dms) (ms : Str) (xs pg') (h : Steps d (Pages.new d ms) xs pg')
    (p : Page) (hp : (true, Except.ok p) ∈ xs) :
    p.raster.width = d.vmsCfg.signWidthPixels.toNat ∧ p.raster.height = d.vmsCfg.signHeightPixels.toNat := by
  have := (steps_ind h (fun pg => pg.defaultState = RenderState.new d)
    (fun b x => ∀ p, b = true → x = .ok p →
      p.raster.width = d.vmsCfg.signWidthPixels.toNat ∧ p.raster.height = d.vmsCfg.signHeightPixels.toNat)
    (by
      intro pg x pg' hd hn
      have hi := (next_inv (fun _ => True) (fun _ _ _ _ _ _ => trivial)
        (fun _ _ _ _ _ _ => trivial) hn).1
      refine ⟨hi.trans hd, ?_⟩
      rintro p hb rfl
      rcases next_cases hn with ⟨_, h1⟩ | ⟨hoff, _⟩
      · obtain ⟨vs, rest, b, ho⟩ := renderOnPage_ok h1
        rw [ho.width, ho.height, hd]
        exact ⟨rfl, rfl⟩
      · rw [hoff] at hb; simp at hb) rfl).2
  exact this _ hp p rfl rfl

/-- **C39 (OFF pages, no `[tr]`)** in a message without errors and without `[tr]` tags every page,
ON or OFF, has the pixel size of the sign.  Missing for the full claim: OFF pages after a `[tr]` tag
(`C39_off_page_false`). -/
theorem C39_no_tr_partial (d : Dms) (ms : Str) (xs pg') (h : Steps d (Pages.new d ms) xs pg')
    (hn : NoError xs) (htr : ∀ s ∈ slices ms, ∀ r, tryFrom s ≠ .ok (.ok (.textRectangle r)))
    (b : Bool) (p : Page) (hp : (b, Except.ok p) ∈ xs) :
    p.raster.width = d.vmsCfg.signWidthPixels.toNat ∧ p.raster.height = d.vmsCfg.signHeightPixels.toNat := by
  have key : ∀ {pg xs pg'}, Steps d pg xs pg' → pg.defaultState = RenderState.new d →
      (∀ s ∈ pg.values, ∀ r, tryFrom s ≠ .ok (.ok (.textRectangle r))) →
      pg.renderState.textRectangle = ⟨1, 1, d.vmsCfg.signWidthPixels, d.vmsCfg.signHeightPixels⟩ → NoError xs →
      ∀ b p, (b, Except.ok p) ∈ xs →
        p.raster.width = d.vmsCfg.signWidthPixels.toNat ∧ p.raster.height = d.vmsCfg.signHeightPixels.toNat := by
    intro pg xs pg' h
    induction h with
    | nil => simp
    | @cons pg pg1 pg' x xs hx hs ih =>
      intro hd htr hr hn b p hp
      have hd1 : pg1.defaultState = RenderState.new d :=
        (next_inv (fun _ => True) (fun _ _ _ _ _ _ => trivial)
          (fun _ _ _ _ _ _ => trivial) hx).1.trans hd
      have hn1 : NoError xs := fun y hy => hn y (List.mem_cons_of_mem _ hy)
      obtain ⟨q, rfl⟩ : ∃ p, x = .ok p := hn _ (List.mem_cons_self ..)
      rcases next_cases hx with ⟨hon, h1⟩ | ⟨hoff, ⟨b', hb⟩, hq, rfl⟩
      · obtain ⟨vs, rest, b1, ho⟩ := renderOnPage_ok h1
        obtain ⟨t1, t2⟩ := takePage_no_tr ho.take htr
        rcases List.mem_cons.1 hp with hp | hp
        · simp only [Prod.mk.injEq, Except.ok.injEq] at hp
          obtain ⟨_, rfl⟩ := hp
          rw [ho.width, ho.height, hd]; exact ⟨rfl, rfl⟩
        · exact ih hd1 (by rw [ho.values]; exact t2)
            (by rw [ho.rect (countTr_zero t1), hd]; rfl) hn1 b p hp
      · rcases List.mem_cons.1 hp with hp | hp
        · simp only [Prod.mk.injEq, Except.ok.injEq] at hp hq
          obtain ⟨_, rfl⟩ := hp
          rw [hq]
          simp [renderOffPage, buildRaster, Raster.withColor, hr]
        · exact ih hd1 htr hr hn1 b p hp
  exact key h rfl (by simpa [Pages.new] using htr) rfl hn b p hp

/-- **C39 is false for OFF pages**: they have the size of the last text rectangle. -/
theorem C39_off_page_false :
    ∃ xs p, Yields fullDms c!"[pt10o5][tr1,1,5,7]" xs ∧ (false, Except.ok p) ∈ xs ∧
      p.raster.width = 5 ∧ p.raster.height = 7 ∧
      fullDms.vmsCfg.signWidthPixels.toNat = 60 ∧ fullDms.vmsCfg.signHeightPixels.toNat = 30 := by
  have h : summary fullDms c!"[pt10o5][tr1,1,5,7]" =
      some [(true, some (60, 30, 10)), (false, some (5, 7, 5))] := by decide +kernel
  obtain ⟨xs, hy, hl⟩ := summary_yields h
  match xs, hl with
  | [(_, .ok p), (_, .ok q)], hl =>
    simp at hl
    refine ⟨_, q, hy, ?_, hl.2.2.1.symm, hl.2.2.2.1.symm, rfl, rfl⟩
    simp [← hl.2.1]
  | [], hl => simp at hl
  | [_], hl => simp at hl
  | [(_, .error _), _], hl => simp at hl
  | [(_, .ok _), (_, .error _)], hl => simp at hl
  | _ :: _ :: _ :: _, hl => simp at hl

/-! ### C40, C41 page times and page count -/

/-- the items expected from a state, for the values `vs` that remain -/
def Spec.scheduleFrom (d : Dms) (pg : Pages) (vs : List Value) : List (Bool × Nat × Color) :=
  let rs := pg.renderState
  let cur := ((rs.pageOnTimeDs, rs.pageOffTimeDs), rs.colorCtx.bgCurrent)
  match pg.pageState with
  | .on _ => schedule (signPage d) cur (splitPages vs)
  | .off true => (false, cur.1.2.toNat, cur.2) :: schedule (signPage d) cur (splitPages vs)
  | .off false => [(false, cur.1.2.toNat, cur.2)]
  | .done => []

/-- The items are pages of the given kind and duration, where OFF pages are blank in the given
color -/
def Spec.Shows (d : Dms) :
    List (Bool × Except SyntaxError Page) → List (Bool × Nat × Color) → Prop
  | [], [] => True
  | (b, .ok p) :: xs, (b', t, c) :: ts =>
    b = b' ∧ p.durationDs = t ∧
    (b = false → ∀ i j, p.raster.px i j = Spec.backgroundRgb d c) ∧ Shows d xs ts
  | _, _ => False

theorem u8_pos_iff (v : UInt8) : v > 0 ↔ v.toNat > 0 := by
  rw [u8_ne_zero]; omega

theorem rgb_congr {a b : ColorCtx} (h1 : a.colorScheme = b.colorScheme)
    (h2 : a.fgDefault = b.fgDefault) (h3 : a.bgDefault = b.bgDefault) (c : Color) :
    a.rgb c = b.rgb c := by
  unfold ColorCtx.rgb ColorCtx.rgbMonochrome1 ColorCtx.rgbMonochrome8
  rw [h1, h2, h3]

theorem backgroundRgb_sign {d ds rs} (h : SignState d ds rs) :
    rs.colorCtx.backgroundRgb = Spec.backgroundRgb d rs.colorCtx.bgCurrent := by
  unfold ColorCtx.backgroundRgb Spec.backgroundRgb
  rw [rgb_congr (b := signCtx d) h.scheme h.fg h.bg, h.bg, rgb_eq]
  show _ = (colorValue (signCtx d).colorScheme (signCtx d).fgDefault (signCtx d).bgDefault _).getD _
  split <;> simp [*]

theorem steps_schedule {d pg xs pg'} (h : Steps d pg xs pg')
    (hd : SignState d pg.defaultState pg.renderState)
    (hv : pg.pageState = .done ∨ pg.pageState = .off false → pg.values = [])
    (hn : NoError xs) (hend : pg'.pageState = .done) :
    ∃ vs, Parses pg.values vs ∧ Shows d xs (scheduleFrom d pg vs) := by
  induction h with
  | nil =>
    rw [hv (.inl hend)]
    exact ⟨[], .nil, by simp [scheduleFrom, hend, Shows]⟩
  | @cons pg pg1 pg' x xs hx hs ih =>
    have hn1 : NoError xs := fun y hy => hn y (List.mem_cons_of_mem _ hy)
    obtain ⟨p, rfl⟩ : ∃ p, x = .ok p := hn _ (List.mem_cons_self ..)
    rcases next_cases hx with ⟨hon, h1⟩ | ⟨hoff, ⟨b, hb⟩, hp, rfl⟩
    · obtain ⟨vs, rest, b, ho⟩ := renderOnPage_ok h1
      have hv1 := onPage_rest ho
      obtain ⟨hd1, -, hbg⟩ := ho.attr hd
      obtain ⟨ws, hw, ht⟩ := ih hd1 hv1 hn1 hend
      rw [ho.values] at hw
      obtain ⟨us, hu, hsp⟩ := takePage_split ho.take ws hw
      refine ⟨us, hu, ?_⟩
      have e0 : scheduleFrom d pg us = schedule (signPage d)
          ((pg.renderState.pageOnTimeDs, pg.renderState.pageOffTimeDs),
            pg.renderState.colorCtx.bgCurrent) (splitPages us) := by
        unfold scheduleFrom
        cases hps : pg.pageState <;> simp_all [isOn]
      have et := ho.times
      rw [hd.ds] at et
      have et' : pageTimes (signPage d).1
          (pg.renderState.pageOnTimeDs, pg.renderState.pageOffTimeDs) vs =
          (pg1.renderState.pageOnTimeDs, pg1.renderState.pageOffTimeDs) := et.symm
      have ec : background (signPage d).2 pg.renderState.colorCtx.bgCurrent vs =
          pg1.renderState.colorCtx.bgCurrent := hbg.symm
      rw [e0, hsp]
      simp only [schedule, et', ec, Shows]
      refine ⟨hon, ho.duration, by simp [hon], ?_⟩
      have es := ho.state
      unfold scheduleFrom at ht
      rw [es] at ht
      by_cases hz : pg1.renderState.pageOffTimeDs > 0
      · rw [if_pos ((u8_pos_iff _).1 hz)]
        cases b
        · simpa [hz, PageState.doneState, schedule] using ht
        · simpa [hz, PageState.newPage] using ht
      · rw [if_neg (fun h => hz ((u8_pos_iff _).2 h))]
        cases b
        · simpa [hz, PageState.doneState, schedule] using ht
        · simpa [hz, PageState.newPage] using ht
    · have hv1 : (renderOffPage pg).2.pageState = .done ∨
          (renderOffPage pg).2.pageState = .off false → (renderOffPage pg).2.values = [] := by
        intro hh
        cases b with
        | true => simp [renderOffPage, hb, PageState.nextState] at hh
        | false => exact hv (.inr hb)
      obtain ⟨ws, hw, ht⟩ := ih (by exact ⟨hd.ds, hd.fg, hd.bg, hd.scheme⟩) hv1 hn1 hend
      refine ⟨ws, hw, ?_⟩
      simp only [Except.ok.injEq] at hp
      have hpx : ∀ i j, p.raster.px i j =
          Spec.backgroundRgb d pg.renderState.colorCtx.bgCurrent := by
        intro i j; rw [hp, ← backgroundRgb_sign hd]; rfl
      cases b with
      | true =>
        simp only [scheduleFrom, hb, Shows]
        refine ⟨by simp [isOn], by rw [hp]; rfl, fun _ => hpx, ?_⟩
        simpa [scheduleFrom, renderOffPage, hb, PageState.nextState] using ht
      | false =>
        simp only [scheduleFrom, hb, Shows]
        refine ⟨by simp [isOn], by rw [hp]; rfl, fun _ => hpx, ?_⟩
        simpa [scheduleFrom, renderOffPage, hb, PageState.nextState] using ht

/-- **C40** when no item is an error, every item of the message is valid and the pages are, page by
page, an ON page for the on-time in effect, and, when the off-time in effect is not zero, an OFF page
for this time, blank in the background color in effect.  In effect are the last `[pt]` tag and the
last background tag up to the end of the page, or the defaults of the sign. -/
theorem C40_page_times (d : Dms) (ms : Str) (xs) (h : Yields d ms xs) (hn : NoError xs) :
    ∃ vs, Parses (slices ms) vs ∧ Shows d xs (schedule (signPage d) (signPage d) (splitPages vs)) := by
  obtain ⟨pg', hs, he⟩ := h
  obtain ⟨vs, h1, h2⟩ := steps_schedule hs (signState_new d ms) (by simp [Pages.new]) hn (next_none he).1
  refine ⟨vs, h1, ?_⟩
  have e : (.ofRgb d.backgroundDefaultRgb : Color) = .ofRgb (signBackground d) := by
    rw [backgroundDefault_eq]
  have e2 : scheduleFrom d (Pages.new d ms) vs = schedule (signPage d)
      ((d.multiCfg.defaultPageOnTime, d.multiCfg.defaultPageOffTime), .ofRgb d.backgroundDefaultRgb)
      (splitPages vs) := rfl
  rw [e2, e] at h2
  exact h2

theorem splitPages_length (vs : List Value) :
    (splitPages vs).length = vs.countP (fun v => decide (v = .newPage)) + 1 := by
  induction vs with
  | nil => rfl
  | cons v vs ih =>
    unfold splitPages
    split
    · rename_i hv; simp [hv, ih]
    · rename_i hv
      have := splitPages_ne_nil vs
      split
      · rename_i p ps he
        rw [he] at ih
        simp [hv] at ih ⊢; exact ih
      · rename_i he; exact absurd he this

theorem schedule_on (dflt cur : PageAttr) (ps : List (List Value)) :
    (schedule dflt cur ps).countP (fun x => x.1) = ps.length := by
  induction ps generalizing cur with
  | nil => rfl
  | cons p ps ih =>
    simp only [schedule, List.countP_cons, List.countP_append, ih, List.length_cons]
    split <;> simp

theorem shows_on {d xs ts} (h : Shows d xs ts) :
    xs.countP (fun x => x.1) = ts.countP (fun x => x.1) := by
  induction xs generalizing ts with
  | nil => cases ts <;> simp_all [Shows]
  | cons x xs ih =>
    cases ts with
    | nil => obtain ⟨b, _ | _⟩ := x <;> simp [Shows] at h
    | cons t ts =>
      obtain ⟨b, _ | p⟩ := x
      · simp [Shows] at h
      · simp only [Shows] at h
        obtain ⟨rfl, _, _, h⟩ := h
        simp [List.countP_cons, ih h]

/-- **C41** when no item is an error, the number of ON pages is the number of `[np]` tags plus 1. -/
theorem C41_page_count (d : Dms) (ms : Str) (xs) (h : Yields d ms xs) (hn : NoError xs) :
    ∃ vs, Parses (slices ms) vs ∧
      xs.countP (fun x => x.1) = vs.countP (fun v => decide (v = .newPage)) + 1 := by
  obtain ⟨vs, h1, h2⟩ := C40_page_times d ms xs h hn
  exact ⟨vs, h1, by rw [shows_on h2, schedule_on, splitPages_length]⟩

-- two pages with times 20/10 and 20/0 (the off-time of the second is the default, 0): 3 items
example : summary fullDms c!"[pt20o10]1[np][pt20o]2" =
    some [(true, some (60, 30, 20)), (false, some (60, 30, 10)), (true, some (60, 30, 20))] := by
  decide +kernel

/-! ### C42 unsupported tags -/

/-- an item that must not be rendered: not valid, or with a tag the sign does not support -/
def Spec.BadItem (d : Dms) (s : Str) : Prop :=
  (∃ e, tryFrom s = .ok (.error e)) ∨
  ∃ v t, tryFrom s = .ok (.ok v) ∧ v.tag = some t ∧ d.multiCfg.supportedMultiTags t = false

theorem checkUnsupported_bad {d : Dms} {pre vs s post} (hp : Parses pre vs)
    (hnp : Value.newPage ∉ vs) (hb : BadItem d s) :
    ∃ e, checkUnsupported d (pre ++ s :: post) = .err e := by
  induction hp with
  | nil =>
    rcases hb with ⟨e, he⟩ | ⟨v, t, hv, ht, hu⟩
    · exact ⟨e, by simp [checkUnsupported, he, ofExcept]⟩
    · exact ⟨.unsupportedTag v.display, by simp [checkUnsupported, hv, ofExcept, ht, hu]⟩
  | @cons s' v ss vs hv _ ih =>
    simp only [List.mem_cons, not_or] at hnp
    obtain ⟨e, he⟩ := ih hnp.2
    rw [List.cons_append, checkUnsupported]
    simp only [hv, Out.ofRes_ok, Out.ok_bind, ofExcept]
    split
    · rename_i t ht
      split
      · exact ⟨_, rfl⟩
      · rw [if_neg]
        · exact ⟨e, he⟩
        · rintro rfl; exact hnp.1 (tag_np ht).symm
    · exact ⟨e, he⟩

theorem takePage_good {d : Dms} {ss vs rest b} (h : TakePage ss vs rest b)
    (hs : ∀ v ∈ vs, ∀ t, v.tag = some t → d.multiCfg.supportedMultiTags t = true)
    (hnp : b = true → d.multiCfg.supportedMultiTags .np = true)
    (hr : ∀ s ∈ rest, ¬ BadItem d s) : ∀ s ∈ ss, ¬ BadItem d s := by
  induction h with
  | nil => simp
  | np hv =>
    intro s hs'
    rcases List.mem_cons.1 hs' with rfl | hs'
    · rintro (⟨e, he⟩ | ⟨v, t, h1, h2, h3⟩)
      · rw [hv] at he; simp at he
      · rw [hv] at h1; simp only [Res.ok.injEq, Except.ok.injEq] at h1
        subst h1
        simp only [Value.tag, Option.some.injEq] at h2
        subst h2
        rw [hnp rfl] at h3; simp at h3
    · exact hr s hs'
  | cons hv hne _ ih =>
    intro s hs'
    rcases List.mem_cons.1 hs' with rfl | hs'
    · rintro (⟨e, he⟩ | ⟨v, t, h1, h2, h3⟩)
      · rw [hv] at he; simp at he
      · rw [hv] at h1; simp only [Res.ok.injEq, Except.ok.injEq] at h1
        subst h1
        rw [hs _ (List.mem_cons_self ..) t h2] at h3; simp at h3
    · exact ih (fun v hv => hs v (List.mem_cons_of_mem _ hv)) hnp hr s hs'

/-- **C42** when the page to be rendered contains a bad item (any item up to and including its
`[np]`), `next` gives an error and no page. -/
theorem C42_rejected (d : Dms) (pg : Pages) (hon : isOn pg.pageState = true) (pre : List Str)
    (vs : List Value) (s : Str) (post : List Str) (hv : pg.values = pre ++ s :: post)
    (hp : Parses pre vs) (hnp : Value.newPage ∉ vs) (hb : BadItem d s) :
    ∃ e, Pages.next d pg = .ok (some (.error e), pg) := by
  obtain ⟨e, he⟩ := checkUnsupported_bad (post := post) hp hnp hb
  refine ⟨e, ?_⟩
  unfold Pages.next
  cases hs : pg.pageState with
  | on b => simp [renderOnPage, hv, he]
  | off b => simp [hs, isOn] at hon
  | done => simp [hs, isOn] at hon

/-- **C42 (message)** when a message is rendered without error, none of its items is bad. -/
theorem C42_message (d : Dms) (ms : Str) (xs) (h : Yields d ms xs) (hn : NoError xs) :
    ∀ s ∈ slices ms, ¬ BadItem d s := by
  have key : ∀ {pg xs pg'}, Steps d pg xs pg' →
      (pg.pageState = .done ∨ pg.pageState = .off false → pg.values = []) →
      pg'.pageState = .done → NoError xs → ∀ s ∈ pg.values, ¬ BadItem d s := by
    intro pg xs pg' h
    induction h with
    | nil => intro hv he _; rw [hv (.inl he)]; simp
    | @cons pg pg1 pg' x xs hx hs ih =>
      intro hv he hn
      have hn1 : NoError xs := fun y hy => hn y (List.mem_cons_of_mem _ hy)
      obtain ⟨q, rfl⟩ : ∃ p, x = .ok p := hn _ (List.mem_cons_self ..)
      rcases next_cases hx with ⟨hon, h1⟩ | ⟨hoff, ⟨b', hb⟩, hq, rfl⟩
      · obtain ⟨vs, rest, b, ho⟩ := renderOnPage_ok h1
        have h2 := ih (onPage_rest ho) he hn1
        rw [ho.values] at h2
        exact takePage_good ho.take ho.supported ho.npSupported h2
      · refine ih ?_ he hn1
        intro hh
        cases b' with
        | true => simp [renderOffPage, hb, PageState.nextState] at hh
        | false => exact hv (.inr hb)
  obtain ⟨pg', hs, he⟩ := h
  exact key hs (by simp [Pages.new]) (next_none he).1 hn

-- a sign without support for flashing: the tag before [np] makes the first page an error
example : BadItem fullDms c!"[flt1o2]" ∧ Parses [c!"A"] [.text c!"A"] ∧
    slices c!"A[flt1o2][np]" = [c!"A"] ++ c!"[flt1o2]" :: [c!"[np]"] := by
  refine ⟨.inr ⟨.flash .onOff (some 1) (some 2), .fl, ?_, ?_, ?_⟩, .cons ?_ .nil, ?_⟩ <;>
    decide +kernel

/-- names of tags, as in the NTCIP 1203 list of MULTI tags -/
def Spec.tagText : Tag → Str
  | .cb => c!"cb" | .cf => c!"cf" | .fl => c!"fl" | .fo => c!"fo" | .g => c!"g" | .hc => c!"hc"
  | .jl => c!"jl" | .jp => c!"jp" | .ms => c!"ms" | .mv => c!"mv" | .nl => c!"nl" | .np => c!"np"
  | .pt => c!"pt" | .sc => c!"sc" | .f1 => c!"f1" | .f2 => c!"f2" | .f3 => c!"f3" | .f4 => c!"f4"
  | .f5 => c!"f5" | .f6 => c!"f6" | .f7 => c!"f7" | .f8 => c!"f8" | .f9 => c!"f9" | .f10 => c!"f10"
  | .f11 => c!"f11" | .f12 => c!"f12" | .f13 => c!"f13" | .tr => c!"tr" | .cr => c!"cr" | .pb => c!"pb"

/-- the text is a tag with this name, which for fields ends at `,` or `]` -/
def Spec.TagNamed (t : Tag) (s : Str) : Prop :=
  ∃ rest, (s = c!"[" ++ tagText t ++ rest ∨ s = c!"[/" ++ tagText t ++ rest) ∧
    ((tagText t).head? = some 'f' → t ≠ .fl → t ≠ .fo → rest.head? = some ',' ∨ rest.head? = some ']')

/-- **C42 (tags)** the tag of a value looked up in the set of supported tags is the one with its name -/
theorem C42_tag_name (v : Value) (t : Tag) (h : v.tag = some t) : TagNamed t v.display := by
  cases v
  case field i w =>
    have key : ∀ t : Tag, ∀ n : Nat, c!"f" ++ dec n = tagText t → dec i.toNat = dec n → TagNamed t (Value.field i w).display := by
      intro t n hn hi
      cases w with
      | none => exact ⟨c!"]", .inl (by simp only [Value.display]; rw [hi, ← hn]; rfl), fun _ _ _ => .inr rfl⟩
      | some w =>
        exact ⟨c!"," ++ dec w.toNat ++ c!"]", .inl (by simp only [Value.display]; rw [hi, ← hn]; simp), fun _ _ _ => .inl rfl⟩
    have hall : ∀ n, n < 256 → (match (Value.field (.ofNat n) none).tag with
        | some t => decide (c!"f" ++ dec n = tagText t) | none => true) = true := by decide +kernel
    have h1 := hall i.toNat i.toNat_lt
    have e : (Value.field (.ofNat i.toNat) none).tag = some t := by rw [UInt8.ofNat_toNat]; exact h
    rw [e] at h1
    exact key t i.toNat (of_decide_eq_true h1) rfl
  all_goals
    simp only [Value.tag, Option.some.injEq, reduceCtorEq] at h
  all_goals
    subst h
    first
      | exact ⟨_, .inl rfl, by simp [tagText]⟩
      | exact ⟨_, .inr rfl, by simp [tagText]⟩
      | (rename_i o; cases o <;> exact ⟨_, .inl rfl, by simp [tagText]⟩)
      | skip
  case flash o a b => cases o <;> cases a <;> cases b <;> exact ⟨_, .inl rfl, by simp [tagText]⟩
  case font f => rcases f with _ | ⟨n, _ | c⟩ <;> exact ⟨_, .inl rfl, by simp [tagText]⟩
  case graphic n p => rcases p with _ | ⟨x, y, _ | c⟩ <;> exact ⟨_, .inl rfl, by simp [tagText]⟩
  case manufacturerSpecificEnd n o => cases o <;> exact ⟨_, .inr rfl, by simp [tagText]⟩
  case pageTime a b => cases a <;> cases b <;> exact ⟨_, .inl rfl, by simp [tagText]⟩

/-- **C42 (no tag)** only text and fields without a name have no tag to be looked up -/
theorem C42_no_tag (v : Value) (h : v.tag = none) :
    (∃ t, v = .text t) ∨ ∃ i w, v = .field i w ∧ ¬ (1 ≤ i.toNat ∧ i.toNat ≤ 13) := by
  cases v
  case text t => exact .inl ⟨t, rfl⟩
  case field i w =>
    refine .inr ⟨i, w, rfl, fun hi => ?_⟩
    have hall : ∀ n, n < 256 → 1 ≤ n → n ≤ 13 → (Value.field (.ofNat n) none).tag ≠ none := by decide +kernel
    have := hall i.toNat i.toNat_lt hi.1 hi.2
    rw [UInt8.ofNat_toNat] at this
    exact this h
  all_goals simp [Value.tag] at h

-- a closing tag and a field with two digits
example : (Value.spacingCharacterEnd).tag = some .sc ∧ Value.spacingCharacterEnd.display = c!"[/sc]" ∧
    (Value.field 13 (some 4)).tag = some .f13 ∧ (Value.field 13 (some 4)).display = c!"[f13,4]" := by decide +kernel

/-! ### C50 the iterator ends -/

/-- bound for the number of pages that can still follow -/
def Spec.budget (pg : Pages) : Nat :=
  match pg.pageState with
  | .on _ => 2 * (pg.values.length + 1)
  | .off true => 2 * (pg.values.length + 1) + 1
  | .off false => 1
  | .done => 0

/-- **C50 (until the first error)** a run without errors has at most two items for each item of the
message, and two more: the iterator ends or gives an error after that many items.
Missing for the full claim: after an error the iterator may go on forever (`C50_false`). -/
theorem C50_ends_partial (d : Dms) (ms : Str) (xs pg') (h : Steps d (Pages.new d ms) xs pg')
    (hn : NoError xs) : xs.length ≤ 2 * ((slices ms).length + 1) := by
  have key : ∀ {pg xs pg'}, Steps d pg xs pg' → NoError xs → xs.length + budget pg' ≤ budget pg := by
    intro pg xs pg' h
    induction h with
    | nil => simp
    | @cons pg pg1 pg' x xs hx hs ih =>
      intro hn
      have hn1 : NoError xs := fun y hy => hn y (List.mem_cons_of_mem _ hy)
      have h0 := ih hn1
      obtain ⟨q, rfl⟩ : ∃ p, x = .ok p := hn _ (List.mem_cons_self ..)
      have : budget pg1 + 1 ≤ budget pg := by
        rcases next_cases hx with ⟨hon, h1⟩ | ⟨hoff, ⟨b', hb⟩, hq, rfl⟩
        · obtain ⟨vs, rest, b, ho⟩ := renderOnPage_ok h1
          have e0 : budget pg = 2 * (pg.values.length + 1) := by
            unfold budget; cases hps : pg.pageState <;> simp_all [isOn]
          have hl := takePage_length ho.take
          have hv := ho.values
          have es := ho.state
          rw [e0]
          unfold budget
          rw [es, hv]
          cases b
          · simp only [PageState.doneState, Bool.false_eq_true, if_false]
            split <;> rename_i hh <;> split at hh <;> simp_all <;> omega
          · simp only [PageState.newPage, if_true] at *
            split <;> rename_i hh <;> split at hh <;> simp_all <;> omega
        · cases b' <;> simp [budget, renderOffPage, hb, PageState.nextState]
      simp only [List.length_cons]
      omega
  have := key h hn
  have e : budget (Pages.new d ms) = 2 * ((slices ms).length + 1) := rfl
  omega

theorem steps_snoc {d pg xs pg1 x pg2} (h : Steps d pg xs pg1)
    (hx : Pages.next d pg1 = .ok (some x, pg2)) :
    Steps d pg (xs ++ [(isOn pg1.pageState, x)]) pg2 := by
  induction h with
  | nil => exact .cons hx .nil
  | cons hy _ ih => exact .cons hy (ih hx)

/-- **C41 (end)** when calling `next` never panics and never gives an error, the iterator ends. -/
theorem C41_ends (d : Dms) (ms : Str)
    (h : ∀ xs pg', Steps d (Pages.new d ms) xs pg' →
      NoError xs ∧ ∀ p, Pages.next d pg' ≠ .panic p) :
    ∃ xs, Yields d ms xs := by
  apply Classical.byContradiction
  intro hne
  have long : ∀ n, ∃ xs pg', Steps d (Pages.new d ms) xs pg' ∧ xs.length = n := by
    intro n
    induction n with
    | zero => exact ⟨[], _, .nil, rfl⟩
    | succ n ih =>
      obtain ⟨xs, pg', hs, hl⟩ := ih
      cases hx : Pages.next d pg' with
      | panic p => exact absurd hx ((h _ _ hs).2 p)
      | ok r =>
        obtain ⟨o, pg2⟩ := r
        cases o with
        | none =>
          obtain ⟨_, rfl⟩ := next_none hx
          exact absurd ⟨xs, _, hs, hx⟩ hne
        | some x => exact ⟨_, _, steps_snoc hs hx, by simp [hl]⟩
  obtain ⟨xs, pg', hs, hl⟩ := long (2 * ((slices ms).length + 1) + 1)
  have := C50_ends_partial d ms xs pg' hs (h _ _ hs).1
  omega

/-- **C50 is false**: when the first page contains a bad item, every call of `next` gives an error
again; the iterator never ends. -/
theorem C50_error_forever (d : Dms) (pg : Pages) (hon : isOn pg.pageState = true) (pre : List Str)
    (vs : List Value) (s : Str) (post : List Str) (hv : pg.values = pre ++ s :: post)
    (hp : Parses pre vs) (hnp : Value.newPage ∉ vs) (hb : BadItem d s) (n : Nat) :
    ∃ xs, xs.length = n ∧ Steps d pg xs pg ∧ ∀ x ∈ xs, ∃ e, x.2 = .error e := by
  obtain ⟨e, he⟩ := C42_rejected d pg hon pre vs s post hv hp hnp hb
  induction n with
  | zero => exact ⟨[], rfl, .nil, by simp⟩
  | succ n ih =>
    obtain ⟨xs, h1, h2, h3⟩ := ih
    refine ⟨_ :: xs, by simp [h1], .cons he h2, ?_⟩
    intro x hx
    rcases List.mem_cons.1 hx with rfl | hx
    · exact ⟨e, rfl⟩
    · exact h3 x hx

/-- concrete witness: `[x]` gives errors without end, on every sign -/
theorem C50_false (d : Dms) (n : Nat) :
    ∃ xs pg', xs.length = n ∧ Steps d (Pages.new d c!"[x]") xs pg' := by
  obtain ⟨xs, h1, h2, _⟩ := C50_error_forever d (Pages.new d c!"[x]") rfl [] [] c!"[x]" []
    (show slices c!"[x]" = [] ++ c!"[x]" :: [] by decide +kernel) .nil (by simp)
    (.inl ⟨.unsupportedTag c!"x", by decide +kernel⟩) n
  exact ⟨xs, _, h1, h2⟩

/-! ### C51 text rectangle limit -/

/-- **C51 (50 or more)** a page with 50 or more `[tr]` tags is not rendered. -/
theorem C51_rejected (d : Dms) (pg : Pages) (hon : isOn pg.pageState = true) (vs rest b)
    (ht : TakePage pg.values vs rest b) (hc : 50 ≤ countTr vs) (p : Page) (pg' : Pages) :
    Pages.next d pg ≠ .ok (some (.ok p), pg') := by
  intro h
  rcases next_cases h with ⟨_, h1⟩ | ⟨hoff, _⟩
  · obtain ⟨vs', rest', b', ho⟩ := renderOnPage_ok h1
    obtain ⟨rfl, rfl, rfl⟩ := takePage_unique ht ho.take
    have := ho.trs
    simp only [maxTextRectangles] at this
    omega
  · rw [hoff] at hon; simp at hon

/-- **C51 (49 or less)** a page with at most 49 `[tr]` tags is not rejected for their number. -/
theorem C51_accepted (d : Dms) (pg : Pages) (hon : isOn pg.pageState = true) (vs rest b)
    (ht : TakePage pg.values vs rest b) (hc : countTr vs ≤ 49) (pg' : Pages) :
    Pages.next d pg ≠ .ok (some (.error tooMany), pg') := by
  intro h
  rcases next_cases h with ⟨_, h1⟩ | ⟨hoff, _⟩
  · obtain ⟨vs', rest', b', ht', hm⟩ := renderOnPage_many h1
    obtain ⟨rfl, rfl, rfl⟩ := takePage_unique ht ht'
    simp only [maxTextRectangles] at hm
    omega
  · rw [hoff] at hon; simp at hon

/-- **C51 (message)** the error for the number of text rectangles appears in a run only when the
message has at least 50 `[tr]` tags. -/
theorem C51_message (d : Dms) (ms : Str) (xs pg') (h : Steps d (Pages.new d ms) xs pg')
    (x : Bool × Except SyntaxError Page) (hx : x ∈ xs) (he : x.2 = .error tooMany) :
    50 ≤ (slices ms).countP isTr := by
  have key : ∀ {pg xs pg'}, Steps d pg xs pg' → x ∈ xs → 50 ≤ pg.values.countP isTr := by
    intro pg xs pg' h
    induction h with
    | nil => simp
    | @cons pg pg1 pg' y xs hy hs ih =>
      intro hx
      rcases List.mem_cons.1 hx with rfl | hx
      · subst he
        rcases next_cases hy with ⟨_, h1⟩ | ⟨_, _, h2, _⟩
        · obtain ⟨vs, rest, b, ht, hm⟩ := renderOnPage_many h1
          have := takePage_countTr ht
          simp only [maxTextRectangles] at hm
          omega
        · simp at h2
      · exact Nat.le_trans (ih hx) (next_countTr hy)
  exact key h hx

-- 49 text rectangles are accepted, 50 are not
example : (slices (List.replicate 49 c!"[tr1,1,5,7]").flatten).length = 49 ∧
    summary fullDms (List.replicate 49 c!"[tr1,1,5,7]").flatten = some [(true, some (60, 30, 30))] ∧
    (Pages.next fullDms (Pages.new fullDms (List.replicate 50 c!"[tr1,1,5,7]").flatten)).map'
      (fun r => r.1.map fun x => match x with | .error e => e == tooMany | .ok _ => false) =
        .ok (some true) := by
  decide +kernel

/-! ### C52 monochrome signs -/

theorem rgb_mono1 {ctx : ColorCtx} (hs : ctx.colorScheme = .monochrome1Bit) {c x}
    (h : ctx.rgb c = some x) : x = ctx.fgDefault ∨ x = ctx.bgDefault := by
  unfold ColorCtx.rgb at h
  rw [hs] at h
  cases c with
  | legacy v =>
    simp only [ColorCtx.rgbMonochrome1] at h
    split at h
    · simp at h; exact .inr h.symm
    · split at h
      · simp at h; exact .inl h.symm
      · simp at h
  | rgb r g b => simp at h

theorem palette_mono (d : Dms) (hg : ∀ g ∈ d.graphicDefinition, g.gtype ≠ .color24Bit) (fg bg : Rgb) :
    Palette d (fun ctx => ctx.colorScheme = .monochrome1Bit ∧ ctx.fgDefault = fg ∧ ctx.bgDefault = bg)
      (fun c => c = fg ∨ c = bg) where
  fg := by
    rintro ctx c v ctx' ⟨h1, h2, h3⟩ h
    rw [setForeground_fg h]; exact ⟨h1, h2, h3⟩
  bg := by
    rintro ctx c v ctx' ⟨h1, h2, h3⟩ h
    rw [setBackground_bg h]; exact ⟨h1, h2, h3⟩
  paint := by
    rintro ctx ⟨h1, rfl, rfl⟩
    unfold ColorCtx.foregroundRgb
    split
    · rename_i h; exact rgb_mono1 h1 h
    · exact .inl rfl
  back := by
    rintro ctx ⟨h1, rfl, rfl⟩
    unfold ColorCtx.backgroundRgb
    split
    · rename_i h; exact rgb_mono1 h1 h
    · exact .inr rfl
  graphic := by
    rintro ctx g x y c ⟨h1, rfl, rfl⟩ hm h
    unfold Graphic.pixelFn at h
    split at h
    · simp only [Graphic.pixel1, Res.bind_eq_ok] at h
      obtain ⟨b, _, h⟩ := h
      split at h
      · simp at h
      · split at h
        · simp at h
        · split at h
          · simp only [Res.pure_eq, Res.ok.injEq] at h; exact rgb_mono1 h1 h
          · simp only [Res.pure_eq, Res.ok.injEq] at h; exact rgb_mono1 h1 h
    · simp only [Graphic.pixel8, Res.bind_eq_ok] at h
      obtain ⟨b, _, h⟩ := h
      split at h
      · simp at h
      · simp only [Res.pure_eq, Res.ok.injEq] at h; exact rgb_mono1 h1 h
    · simp only [Graphic.pixel8, Res.bind_eq_ok] at h
      obtain ⟨b, _, h⟩ := h
      split at h
      · simp at h
      · simp only [Res.pure_eq, Res.ok.injEq] at h; exact rgb_mono1 h1 h
    · rename_i h24; exact absurd h24 (hg g hm)

/-- **C52** on a monochrome 1-bit sign without 24-bit graphics every pixel of every page, ON or OFF,
has the foreground or background color of the sign. -/
theorem C52_two_colors (d : Dms) (ms : Str) (hs : d.multiCfg.colorScheme = .monochrome1Bit)
    (hg : ∀ g ∈ d.graphicDefinition, g.gtype ≠ .color24Bit) (xs pg')
    (h : Steps d (Pages.new d ms) xs pg') (b : Bool) (p : Page) (hp : (b, Except.ok p) ∈ xs)
    (i j : Nat) :
    p.raster.px i j = d.vmsCfg.monoForeground ∨ p.raster.px i j = d.vmsCfg.monoBackground := by
  have hpal := palette_mono d hg d.vmsCfg.monoForeground d.vmsCfg.monoBackground
  have := (steps_ind h (fun pg => pg.renderState.colorCtx.colorScheme = .monochrome1Bit ∧
      pg.renderState.colorCtx.fgDefault = d.vmsCfg.monoForeground ∧
      pg.renderState.colorCtx.bgDefault = d.vmsCfg.monoBackground)
    (fun _ x => ∀ p, x = .ok p → ∀ i j, p.raster.px i j = d.vmsCfg.monoForeground ∨
      p.raster.px i j = d.vmsCfg.monoBackground)
    (by
      intro pg x pg' hi hn
      refine ⟨(next_inv _ hpal.fg hpal.bg hn).2 hi, ?_⟩
      rintro p rfl i j
      rcases next_cases hn with ⟨_, h1⟩ | ⟨_, _, hp, _⟩
      · obtain ⟨vs, rest, b, ho⟩ := renderOnPage_ok h1
        exact (ho.colors _ _ hpal hi).2 i j
      · simp only [Except.ok.injEq] at hp
        subst hp
        exact hpal.back _ hi)
    (by
      refine ⟨hs, ?_, ?_⟩
      · show d.foregroundDefaultRgb = _
        simp [Dms.foregroundDefaultRgb, hs]
      · show d.backgroundDefaultRgb = _
        simp [Dms.backgroundDefaultRgb, hs])).2
  exact this _ hp p rfl i j

-- the test sign of `render_char` is monochrome and shows two pages here
example : charDms.multiCfg.colorScheme = .monochrome1Bit ∧ charDms.graphicDefinition = [] ∧
    summary charDms c!"A[np]B" = some [(true, some (100, 21, 30)), (true, some (100, 21, 30))] := by
  decide +kernel

/-! ### C53 what carries over to the next page -/

/-- the values of the items already rendered -/
def Spec.Consumed (ss rest : List Str) (us : List Value) : Prop :=
  ∃ pre, ss = pre ++ rest ∧ Parses pre us

theorem takePage_consumed {ss vs rest b} (h : TakePage ss vs rest b) :
    Consumed ss rest (if b then vs ++ [.newPage] else vs) := by
  induction h with
  | nil => exact ⟨[], rfl, .nil⟩
  | np hv => exact ⟨[_], rfl, .cons hv .nil⟩
  | @cons s v ss vs rest b hv _ _ ih =>
    obtain ⟨pre, rfl, hp⟩ := ih
    refine ⟨s :: pre, rfl, ?_⟩
    cases b <;> exact .cons hv hp

theorem parses_append {a b us vs} (h : Parses a us) (h' : Parses b vs) :
    Parses (a ++ b) (us ++ vs) := by
  induction h with
  | nil => exact h'
  | cons hv _ ih => exact .cons hv ih

theorem consumed_trans {a b c us vs} (h : Consumed a b us) (h' : Consumed b c vs) :
    Consumed a c (us ++ vs) := by
  obtain ⟨p, rfl, h1⟩ := h
  obtain ⟨q, rfl, h2⟩ := h'
  exact ⟨p ++ q, by simp, parses_append h1 h2⟩

/-- **C53 (carry-over)** after any number of pages without error, the text attributes (font,
justification, character spacing, foreground color), the background color and the page times are the
effect of all values rendered so far, without any reset at page ends. -/
theorem C53_carry (d : Dms) (ms : Str) (xs pg') (h : Steps d (Pages.new d ms) xs pg')
    (hn : NoError xs) :
    ∃ us, Consumed (slices ms) pg'.values us ∧
      textAttr pg'.renderState = us.foldl (TextAttr.apply (signAttr d)) (signAttr d) ∧
      pg'.renderState.colorCtx.bgCurrent = background (signPage d).2 (signPage d).2 us ∧
      (pg'.renderState.pageOnTimeDs, pg'.renderState.pageOffTimeDs) =
        pageTimes (signPage d).1 (signPage d).1 us := by
  have key : ∀ {pg xs pg'}, Steps d pg xs pg' → SignState d pg.defaultState pg.renderState →
      NoError xs → ∃ us, Consumed pg.values pg'.values us ∧
        textAttr pg'.renderState = us.foldl (TextAttr.apply (signAttr d)) (textAttr pg.renderState) ∧
        pg'.renderState.colorCtx.bgCurrent =
          background (signPage d).2 pg.renderState.colorCtx.bgCurrent us ∧
        (pg'.renderState.pageOnTimeDs, pg'.renderState.pageOffTimeDs) = pageTimes (signPage d).1
          (pg.renderState.pageOnTimeDs, pg.renderState.pageOffTimeDs) us := by
    intro pg xs pg' h
    induction h with
    | nil => exact fun _ _ => ⟨[], ⟨[], rfl, .nil⟩, rfl, rfl, rfl⟩
    | @cons pg pg1 pg' x xs hx hs ih =>
      intro hd hn
      have hn1 : NoError xs := fun y hy => hn y (List.mem_cons_of_mem _ hy)
      obtain ⟨p, rfl⟩ : ∃ p, x = .ok p := hn _ (List.mem_cons_self ..)
      rcases next_cases hx with ⟨hon, h1⟩ | ⟨hoff, ⟨b, hb⟩, hp, rfl⟩
      · obtain ⟨vs, rest, b, ho⟩ := renderOnPage_ok h1
        obtain ⟨hd1, ha, hbg⟩ := ho.attr hd
        have et := ho.times
        rw [hd.ds] at et
        obtain ⟨us, i1, i2, i3, i4⟩ := ih hd1 hn1
        rw [ho.values] at i1
        refine ⟨_, consumed_trans (takePage_consumed ho.take) i1, ?_, ?_, ?_⟩
        · rw [i2, ha, List.foldl_append]
          congr 1
          cases b <;> simp [TextAttr.apply]
        · rw [i3, hbg]
          unfold background
          rw [List.foldl_append]
          congr 1
          cases b <;> simp [signPage]
        · rw [i4, et]
          unfold pageTimes
          rw [List.foldl_append]
          congr 1
          cases b <;> simp [signPage, RenderState.new]
      · exact ih (by exact ⟨hd.ds, hd.fg, hd.bg, hd.scheme⟩) hn1
  have k := key h (signState_new d ms) hn
  rw [pagesNew_attr, pagesNew_background] at k
  exact k

theorem onPageLoop_spans (d : Dms) (fuel n : Nat) (pg : Pages) (spans : List Span) (raster : Raster) :
    (onPageLoop d fuel n ⟨pg.defaultState, pg.renderState, .on false, pg.values, spans⟩ raster).map'
      (fun r => (r.1, r.2.renderState)) =
    (onPageLoop d fuel n ⟨pg.defaultState, pg.renderState, .on false, pg.values, pg.spans⟩ raster).map'
      (fun r => (r.1, r.2.renderState)) := by
  cases fuel with
  | zero => rfl
  | succ f =>
    rw [onPageLoop, onPageLoop, if_pos rfl, if_pos rfl]
    dsimp only
    cases renderGraphicsLoop d pg.values pg.renderState.colorCtx raster <;> rfl

/-- **C53 (reset)** what an ON page looks like does not depend on the text rectangle, line spacing,
line and span number and spans left by the pages before. -/
theorem C53_reset (d : Dms) (pg : Pages) (hon : isOn pg.pageState = true) (rect : Rectangle)
    (ls : Option UInt8) (ln sn : Nat) (spans : List Span) :
    (Pages.next d { pg with spans := spans, renderState := { pg.renderState with
        textRectangle := rect, lineSpacing := ls, lineNumber := ln, spanNumber := sn } }).map'
      Prod.fst = (Pages.next d pg).map' Prod.fst := by
  have e : ∀ rs : RenderState, updatePageState pg.defaultState
      { rs with textRectangle := rect, lineSpacing := ls, lineNumber := ln, spanNumber := sn }
      pg.values = updatePageState pg.defaultState rs pg.values := fun rs => rfl
  unfold Pages.next
  cases hs : pg.pageState with
  | off b => simp [hs, isOn] at hon
  | done => simp [hs, isOn] at hon
  | on b =>
    simp only [renderOnPage, e]
    cases checkUnsupported d pg.values with
    | panic p => rfl
    | err e => rfl
    | ok u =>
      cases updatePageState pg.defaultState pg.renderState pg.values with
      | panic p => rfl
      | ok x =>
        obtain ⟨y, rs⟩ := x
        cases y with
        | error e => rfl
        | ok u =>
          simp only [Res.ok_bind]
          have := onPageLoop_spans d (maxTextRectangles + 2) 0
            ⟨pg.defaultState, rs, .on false, pg.values, pg.spans⟩ spans (buildRaster rs)
          dsimp only at this ⊢
          generalize h1 : onPageLoop d (maxTextRectangles + 2) 0
            ⟨pg.defaultState, rs, .on false, pg.values, spans⟩ (buildRaster rs) = r1 at this ⊢
          generalize h2 : onPageLoop d (maxTextRectangles + 2) 0
            ⟨pg.defaultState, rs, .on false, pg.values, pg.spans⟩ (buildRaster rs) = r2 at this ⊢
          clear h1 h2
          cases r1 with
          | panic p => cases r2 <;> simp [Res.map'] at this; subst this; rfl
          | ok x1 =>
            cases r2 with
            | panic p => simp [Res.map'] at this
            | ok x2 =>
              obtain ⟨y1, p1⟩ := x1
              obtain ⟨y2, p2⟩ := x2
              simp only [Res.map', Res.ok.injEq, Prod.mk.injEq] at this
              obtain ⟨rfl, e2⟩ := this
              cases y1 <;> simp [Res.map', e2]

-- a page with [fo2] and [tr]: the font stays, the text rectangle does not matter
example : (Pages.next fullDms (Pages.new fullDms c!"[tr1,1,5,7][pt5o][np]A")).map' (fun r =>
    (r.2.renderState.textRectangle, r.2.renderState.pageOnTimeDs, isOn r.2.pageState)) =
    .ok (⟨1, 1, 5, 7⟩, 5, true) := by decide +kernel

end Ntcip
