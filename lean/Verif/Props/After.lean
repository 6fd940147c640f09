import Verif.Lemmas.After
import Verif.Props.Account
import Verif.Props.Endless
/-
Properties C94 and C95: everything that is given for a message, also after errors.
-/
namespace Ntcip
open Spec Tests

/-- a page, after anything that was given before -/
theorem onPage_state {d : Dms} (hf : FontsOk d.fontDefinition) (h0 : 1 ≤ d.multiCfg.defaultFont.toNat) {W H : Nat}
    (hg : GraphicsOk W H d.graphicDefinition) {ms : Str} {xs pg page pg'}
    (h : Steps d (Pages.new d ms) xs pg) (hon : isOn pg.pageState = true)
    (hx : Pages.next d pg = .ok (some (.ok page), pg')) {vs rest b} (hO : OnPage d pg page pg' vs rest b) :
    let p' := attrAfter d (pageAttrOf pg.renderState) vs
    Composed d p'.2 (textAttr pg.renderState) none (signRect d) (sections vs).1 (sections vs).2
      (plain d d.vmsCfg.signWidthPixels.toNat d.vmsCfg.signHeightPixels.toNat p'.2) page.raster ∧
    pg'.renderState.textRectangle = lastRect d (signRect d) (sections vs).2 := by
  have hp := steps_state h (pagesOk_new d ms)
  have hr := (next_on hon).1 hx
  have hsign : SignState d pg.defaultState pg.renderState := by
    rw [hp.default]; exact steps_sign h
  unfold renderOnPage at hr
  split at hr
  · simp at hr
  · simp at hr
  · simp only [Res.bind_eq_ok] at hr
    obtain ⟨⟨x, rs⟩, h1, h2⟩ := hr
    cases x with
    | error e => simp at h2
    | ok u =>
      simp only [Res.bind_eq_ok] at h2
      obtain ⟨⟨y, pg1⟩, h2, h3⟩ := h2
      cases y with
      | error e => simp at h3
      | ok raster =>
        simp only [Res.pure_eq, Res.ok.injEq, Prod.mk.injEq, Except.ok.injEq] at h3
        obtain ⟨rfl, rfl⟩ := h3
        have hdr : Drawing d ms _ _ := Drawing.start h h1
        have h1' := h1
        unfold updatePageState at h1'
        obtain ⟨b1, b2, b3⟩ := updatePageStateLoop_bg (d := d)
          (by exact ⟨hsign.ds, hsign.fg, hsign.bg, hsign.scheme⟩) h1' hO.take
        obtain ⟨vs1, rest1, b1', ht1, ut, ue, ui⟩ := updatePageStateLoop_ok h1'
        have := onPageLoop_composed hf h0 (fun g hm hz => ⟨W, H, hg.graphics g hm hz⟩) h2 (by decide) (by decide) rfl hdr
          hO.take
        dsimp only at this b1 b2 ⊢
        have e1 : rs.lineSpacing = none := by rw [ue]; simp [hp.default, RenderState.new]
        have e2 : rs.textRectangle = (signRect d) := by rw [ue]; rw [hp.default]; rfl
        have e3 : textAttr rs = textAttr pg.renderState := by rw [b2]; rfl
        have e4 : buildRaster rs = plain d d.vmsCfg.signWidthPixels.toNat d.vmsCfg.signHeightPixels.toNat
            rs.colorCtx.bgCurrent := by
          unfold buildRaster plain
          rw [e2, backgroundRgb_sign b3]
        rw [e1, e2, e3, e4, b1] at this
        exact this

/-- the OFF page after a page, if there is one -/
theorem end_steps {d : Dms} {ms : Str} {xs0 pg} (h0 : Steps d (Pages.new d ms) xs0 pg) {b : Bool}
    (hs : pg.pageState = (if b then PageState.newPage else PageState.doneState)
      (decide (pg.renderState.pageOffTimeDs > 0))) :
    ∃ pg2, Steps d pg (offPage d (pageAttrOf pg.renderState) pg.renderState.textRectangle) pg2 ∧
      pg2.renderState = pg.renderState ∧ pg2.values = pg.values ∧
      (b = true → isOn pg2.pageState = true) ∧ (b = false → pg2.pageState = .done) := by
  have hsign := steps_sign h0
  unfold offPage
  by_cases hz : pg.renderState.pageOffTimeDs > 0
  · rw [decide_eq_true hz] at hs
    rw [if_pos (show (pageAttrOf pg.renderState).1.2.toNat > 0 from (u8_pos_iff _).1 hz)]
    have hx1 : Pages.next d pg = .ok (some (.ok (renderOffPage pg).1), (renderOffPage pg).2) := by
      unfold Pages.next
      cases b <;> rw [hs] <;> rfl
    have hoff : isOn pg.pageState = false := by cases b <;> rw [hs] <;> rfl
    have e : (renderOffPage pg).1 = ⟨plain d pg.renderState.textRectangle.width.toNat
        pg.renderState.textRectangle.height.toNat (pageAttrOf pg.renderState).2, (pageAttrOf pg.renderState).1.2.toNat⟩ := by
      simp only [renderOffPage, buildRaster, plain, pageAttrOf, backgroundRgb_sign hsign]
    have hst := Steps.cons hx1 .nil
    rw [hoff, e] at hst
    refine ⟨_, hst, rfl, rfl, ?_, ?_⟩
    · rintro rfl; simp [renderOffPage, hs, PageState.newPage, PageState.nextState, isOn]
    · rintro rfl; simp [renderOffPage, hs, PageState.doneState, PageState.nextState]
  · rw [decide_eq_false hz] at hs
    rw [if_neg (show ¬ (pageAttrOf pg.renderState).1.2.toNat > 0 from fun h => hz ((u8_pos_iff _).2 h))]
    refine ⟨pg, .nil, rfl, rfl, ?_, ?_⟩
    · rintro rfl; rw [hs]; rfl
    · rintro rfl; rw [hs]; rfl

/-- a run to the end begins with any other run -/
theorem steps_split {d : Dms} {pg xs q ys r} (h : Steps d pg xs q) (hq : q.pageState = .done)
    (h' : Steps d pg ys r) : ∃ zs, xs = ys ++ zs ∧ Steps d r zs q := by
  induction h' generalizing xs with
  | nil => exact ⟨xs, rfl, h⟩
  | cons hx _ ih =>
    cases h with
    | nil =>
      have hn : Pages.next d q = .ok (none, q) := by unfold Pages.next; rw [hq]
      rw [hn] at hx; cases hx
    | cons hx' h =>
      rw [hx] at hx'; cases hx'
      obtain ⟨zs, rfl, k⟩ := ih h
      exact ⟨zs, rfl, k⟩

theorem done_nil {d : Dms} {pg xs q} (h : Steps d pg xs q) (hd : pg.pageState = .done) : xs = [] := by
  cases h with
  | nil => rfl
  | cons hx _ =>
    have hn : Pages.next d pg = .ok (none, pg) := by unfold Pages.next; rw [hd]
    rw [hn] at hx; cases hx

/-- nothing is given when a page follows itself -/
theorem given_no_again {d : Dms} {t p ss xs} (h : Given d t p ss xs) : ∀ e, ¬ FirstAfter d t ss (e, .page t 0) := by
  induction h with
  | shown hno _ _ _ _ _ => exact fun e he => hno e (firstAfter_fault he)
  | page hf _ _ ih =>
    intro e he
    have := firstAfter_same hf he
    simp only [Resume.page.injEq] at this
    obtain ⟨rfl, rfl⟩ := this
    exact ih e he
  | next hf _ _ _ _ => exact fun e he => by have := firstAfter_same hf he; cases this
  | stop hf _ => exact fun e he => by have := firstAfter_same hf he; cases this

theorem given_of_steps {d : Dms} (hd : SizeOk d) (hf : FontsOk d.fontDefinition) (h0 : 1 ≤ d.multiCfg.defaultFont.toNat)
    {W H : Nat} (hg : GraphicsOk W H d.graphicDefinition) {ms : Str} (n : Nat) : ∀ {pg xs q xs0}, xs.length < n →
    Steps d pg xs q → q.pageState = .done → Steps d (Pages.new d ms) xs0 pg → isOn pg.pageState = true →
    Given d (textAttr pg.renderState) (pageAttrOf pg.renderState) pg.values xs := by
  induction n with
  | zero => intro pg xs q xs0 hl; omega
  | succ n ih =>
    intro pg xs q xs0 hl hs hq hs0 hon
    cases hs with
    | nil => rw [hq] at hon; cases hon
    | @cons _ pg1 _ x xs hx hs =>
      have hs1 := steps_snoc hs0 hx
      simp only [List.length_cons] at hl
      rw [hon]
      -- after the OFF page
      have fin : ∀ {b : Bool} {rest}, pg1.pageState = (if b then PageState.newPage else PageState.doneState)
          (decide (pg1.renderState.pageOffTimeDs > 0)) → pg1.values = rest → ∃ more,
          xs = offPage d (pageAttrOf pg1.renderState) pg1.renderState.textRectangle ++ more ∧
          (b = true → Given d (textAttr pg1.renderState) (pageAttrOf pg1.renderState) rest more) ∧
          (b = false → more = []) := by
        intro b rest hst hv
        obtain ⟨pg2, k1, k2, k3, k4, k5⟩ := end_steps hs1 hst
        obtain ⟨zs, e1, e2⟩ := steps_split hs hq k1
        refine ⟨zs, e1, fun hb => ?_, fun hb => done_nil e2 (k5 hb)⟩
        have := ih (by rw [e1, List.length_append] at hl; omega) e2 hq (steps_append hs1 k1) (k4 hb)
        rw [k2, k3, hv] at this
        exact this
      cases x with
      | ok page =>
        have hno : ∀ e, ¬ FirstFault d (textAttr pg.renderState) pg.values e := fun e he =>
          nomatch (page_first hd hs0 hon hx e).1 he
        obtain ⟨vs, rest, b, hO⟩ := renderOnPage_ok ((next_on hon).1 hx)
        obtain ⟨c1, c2⟩ := onPage_state hf h0 hg hs0 hon hx hO
        have hdef := (steps_state hs0 (pagesOk_new d ms)).default
        obtain ⟨_, a1, a2⟩ := hO.attr (by rw [hdef]; exact steps_sign hs0)
        obtain ⟨more, f1, f2, f3⟩ := fin hO.state hO.values
        have ht := hO.times
        rw [hdef] at ht
        have ep : pageAttrOf pg1.renderState = attrAfter d (pageAttrOf pg.renderState) vs := Prod.ext ht a2
        rw [f1, ep, c2]
        have edur : page = ⟨page.raster, (attrAfter d (pageAttrOf pg.renderState) vs).1.1.toNat⟩ := by
          rw [← ep]
          obtain ⟨raster, dur⟩ := page
          rw [Page.mk.injEq]
          exact ⟨rfl, hO.duration⟩
        rw [edur]
        refine .shown hno hO.take c1 (fun hb => ?_) f3
        have := f2 hb
        rw [a1, ep] at this
        exact this
      | error e =>
        obtain ⟨o, o1, o2, o3⟩ := page_after hd hs0 hon hx
        obtain ⟨e', r, rfl⟩ : ∃ e r, o = some (e, r) := by
          cases o with
          | none => cases o1
          | some y => exact ⟨_, _, rfl⟩
        have o1 : some e' = some e := o1
        cases o1
        have hfa := (o2 _).2 rfl
        rcases o3 _ _ rfl with ⟨rfl, k1, k2, k3⟩ | ⟨vs, rest, b, ht, hl1, hp1⟩
        · have hG := ih (by omega) hs hq hs1 k1
          rw [k2, k3] at hG
          exact absurd hfa (given_no_again hG e)
        · cases r with
          | page t k =>
            obtain ⟨l1, l2, l3⟩ := hl1
            have hG := ih (by omega) hs hq hs1 l1
            rw [l2, l3, hp1] at hG
            exact .page hfa ht hG
          | next t rect =>
            obtain ⟨l1, l2, l3, l4⟩ := hl1
            obtain ⟨more, f1, f2, f3⟩ := fin l1 l2
            rw [f1, hp1, l4]
            refine .next hfa ht (fun hb => ?_) f3
            have := f2 hb
            rw [l3, hp1] at this
            exact this
          | stop rect =>
            obtain ⟨l1, l2⟩ := hl1
            obtain ⟨more, f1, _, f3⟩ := fin (b := false) l1 rfl
            rw [f1, f3 rfl, List.append_nil, hp1, l2]
            exact .stop hfa ht

theorem takePage_inRange {ss : List Str} {vs rest b} (h : TakePage ss vs rest b) (hi : ∀ s ∈ ss, Item s) :
    ∀ v ∈ vs, InRange v := by
  induction h with
  | nil => simp
  | np _ => simp
  | cons hv _ _ ih =>
    intro v hm
    rcases List.mem_cons.1 hm with rfl | hm
    · exact C04_in_range _ _ (hi _ (List.mem_cons_self ..)) hv
    · exact ih (fun s hs => hi s (List.mem_cons_of_mem _ hs)) v hm

theorem steps_of_given {d : Dms} (hd : SizeOk d) (hf : FontsOk d.fontDefinition) (h0 : 1 ≤ d.multiCfg.defaultFont.toNat)
    {W H : Nat} (hg : GraphicsOk W H d.graphicDefinition) {ms : Str} (hp : NeverPanics d ms) {t p ss xs}
    (h : Given d t p ss xs) : ∀ {pg xs0}, Steps d (Pages.new d ms) xs0 pg → isOn pg.pageState = true →
    textAttr pg.renderState = t → pageAttrOf pg.renderState = p → pg.values = ss →
    ∃ q, Steps d pg xs q ∧ q.pageState = .done := by
  have start : ∀ {pg xs0}, Steps d (Pages.new d ms) xs0 pg → isOn pg.pageState = true → ∃ x pg1,
      Pages.next d pg = .ok (some x, pg1) := fun hs hon => next_gives hon fun p hpp => hp _ p (steps_run hs hpp)
  -- the error of the page, and the state after it
  have err : ∀ {pg xs0 e r}, Steps d (Pages.new d ms) xs0 pg → isOn pg.pageState = true →
      FirstAfter d (textAttr pg.renderState) pg.values (e, r) → ∃ pg1, Pages.next d pg = .ok (some (.error e), pg1) ∧
        ((r = .page (textAttr pg.renderState) 0 ∧ isOn pg1.pageState = true ∧ pg1.values = pg.values ∧
          textAttr pg1.renderState = textAttr pg.renderState) ∨
        ∃ vs rest b, TakePage pg.values vs rest b ∧ LeftAt pg.values rest b pg1 r ∧
          pageAttrOf pg1.renderState = attrAfter d (pageAttrOf pg.renderState) vs) := by
    intro pg xs0 e r hs hon hfa
    obtain ⟨x, pg1, hx⟩ := start hs hon
    obtain ⟨o, o1, o2, o3⟩ := page_after hd hs hon hx
    have := (o2 _).1 hfa
    subst this
    cases x with
    | ok _ => cases o1
    | error e' =>
      have o1 : some e = some e' := o1
      cases o1
      exact ⟨pg1, hx, o3 _ _ rfl⟩
  -- after the OFF page
  have fin : ∀ {pg1 xs1} {b : Bool} {more}, Steps d (Pages.new d ms) xs1 pg1 →
      pg1.pageState = (if b then PageState.newPage else PageState.doneState)
          (decide (pg1.renderState.pageOffTimeDs > 0)) →
      (b = true → ∀ {pg2 xs2}, Steps d (Pages.new d ms) xs2 pg2 → isOn pg2.pageState = true →
        textAttr pg2.renderState = textAttr pg1.renderState → pageAttrOf pg2.renderState = pageAttrOf pg1.renderState →
        pg2.values = pg1.values → ∃ q, Steps d pg2 more q ∧ q.pageState = .done) → (b = false → more = []) →
      ∃ q, Steps d pg1 (offPage d (pageAttrOf pg1.renderState) pg1.renderState.textRectangle ++ more) q ∧
        q.pageState = .done := by
    intro pg1 xs1 b more hs1 hst ih hb
    obtain ⟨pg2, k1, k2, k3, k4, k5⟩ := end_steps hs1 hst
    cases b with
    | true =>
      obtain ⟨q, q1, q2⟩ := ih rfl (steps_append hs1 k1) (k4 rfl) (by rw [k2]) (by rw [k2]) k3
      exact ⟨q, steps_append k1 q1, q2⟩
    | false =>
      rw [hb rfl, List.append_nil]
      exact ⟨pg2, k1, k5 rfl⟩
  induction h with
  | @shown t p ss vs rest b raster more hno ht hc hG hend ih =>
    intro pg xs0 hs hon e1 e2 e3
    subst e1 e2 e3
    obtain ⟨x, pg1, hx⟩ := start hs hon
    cases x with
    | error e => exact absurd ((page_first hd hs hon hx e).2 rfl) (hno e)
    | ok page =>
      obtain ⟨vs', rest', b', hO⟩ := renderOnPage_ok ((next_on hon).1 hx)
      obtain ⟨rfl, rfl, rfl⟩ := takePage_unique ht hO.take
      obtain ⟨c1, c2⟩ := onPage_state hf h0 hg hs hon hx hO
      have hst := steps_state hs (pagesOk_new d ms)
      have hdef := hst.default
      obtain ⟨_, a1, a2⟩ := hO.attr (by rw [hdef]; exact steps_sign hs)
      have htm := hO.times
      rw [hdef] at htm
      have ep : pageAttrOf pg1.renderState = attrAfter d (pageAttrOf pg.renderState) vs := Prod.ext htm a2
      have hin : ∀ v ∈ vs, InRange v := takePage_inRange ht hst.items
      have hz := sections_all (P := fun v => ∀ pos, v ≠ .graphic 0 pos) (vs := vs) (by
        rintro v hm pos rfl
        have := hin _ hm
        simp [InRange] at this)
      have er : raster = page.raster :=
        composed_unique hg.numbers hc (fun pos hm => hz.1 _ hm pos rfl) (fun w hw pos hm => hz.2 w hw _ hm pos rfl) c1
      have edur : page = ⟨raster, (attrAfter d (pageAttrOf pg.renderState) vs).1.1.toNat⟩ := by
        rw [← ep, er]
        obtain ⟨raster, dur⟩ := page
        rw [Page.mk.injEq]
        exact ⟨rfl, hO.duration⟩
      obtain ⟨q, q1, q2⟩ := fin (more := more) (steps_snoc hs hx) hO.state
        (fun hb pg2 xs2 g1 g2 g3 g4 g5 => ih hb g1 g2 (by rw [g3, a1]) (by rw [g4, ep]) (by rw [g5, hO.values])) hend
      rw [ep, c2] at q1
      have := Steps.cons hx q1
      rw [hon, edur] at this
      exact ⟨q, this, q2⟩
  | @page t p ss vs rest b e t' k more hfa ht hG ih =>
    intro pg xs0 hs hon e1 e2 e3
    subst e1 e2 e3
    obtain ⟨pg1, hx, hl⟩ := err hs hon hfa
    rcases hl with ⟨hr, _⟩ | ⟨vs', rest', b', ht', ⟨l1, l2, l3⟩, hp1⟩
    · cases hr
      exact absurd hfa (given_no_again hG e)
    · obtain ⟨rfl, rfl, rfl⟩ := takePage_unique ht ht'
      obtain ⟨q, q1, q2⟩ := ih (steps_snoc hs hx) l1 l3 hp1 l2
      have := Steps.cons hx q1
      rw [hon] at this
      exact ⟨q, this, q2⟩
  | @next t p ss vs rest b e t' rect more hfa ht hG hend ih =>
    intro pg xs0 hs hon e1 e2 e3
    subst e1 e2 e3
    obtain ⟨pg1, hx, hl⟩ := err hs hon hfa
    rcases hl with ⟨hr, _⟩ | ⟨vs', rest', b', ht', ⟨l1, l2, l3, l4⟩, hp1⟩
    · cases hr
    · obtain ⟨rfl, rfl, rfl⟩ := takePage_unique ht ht'
      obtain ⟨q, q1, q2⟩ := fin (more := more) (steps_snoc hs hx) l1
        (fun hb pg2 xs2 g1 g2 g3 g4 g5 => ih hb g1 g2 (by rw [g3, l3]) (by rw [g4, hp1]) (by rw [g5, l2])) hend
      rw [hp1, l4] at q1
      have := Steps.cons hx q1
      rw [hon] at this
      exact ⟨q, this, q2⟩
  | @stop t p ss vs rest b e rect hfa ht =>
    intro pg xs0 hs hon e1 e2 e3
    subst e1 e2 e3
    obtain ⟨pg1, hx, hl⟩ := err hs hon hfa
    rcases hl with ⟨hr, _⟩ | ⟨vs', rest', b', ht', ⟨l1, l2⟩, hp1⟩
    · cases hr
    · obtain ⟨rfl, rfl, rfl⟩ := takePage_unique ht ht'
      obtain ⟨q, q1, q2⟩ := fin (b := false) (more := []) (steps_snoc hs hx) l1 (fun hb => nomatch hb) (fun _ => rfl)
      rw [hp1, l2, List.append_nil] at q1
      have := Steps.cons hx q1
      rw [hon] at this
      exact ⟨q, this, q2⟩

theorem pageAttr_new (d : Dms) (ms : Str) : pageAttrOf (Pages.new d ms).renderState = signPage d :=
  Prod.ext rfl (pagesNew_background d ms)

/-- **C94** everything that is given for a message on which rendering does not panic: the iterator gives `xs` and ends,
exactly when `xs` is what its pages and their faults call for (`Given`).  Pages without fault are shown; for any other
page the error of its first fault is given, and the kind of this fault decides what follows. -/
theorem C94_given (d : Dms) (hd : SizeOk d) (hf : FontsOk d.fontDefinition) (h0 : 1 ≤ d.multiCfg.defaultFont.toNat)
    (W H : Nat) (hg : GraphicsOk W H d.graphicDefinition) (ms : Str) (hp : NeverPanics d ms)
    (xs : List (Bool × Except SyntaxError Page)) :
    Spec.Yields d ms xs ↔ Given d (signAttr d) (signPage d) (slices ms) xs := by
  constructor
  · rintro ⟨q, hs, he⟩
    have := given_of_steps hd hf h0 hg _ (Nat.lt_succ_self _) hs (next_none he).1 (.nil (pg := Pages.new d ms)) rfl
    rw [pagesNew_attr, pageAttr_new] at this
    exact this
  · intro h
    obtain ⟨q, k1, k2⟩ := steps_of_given hd hf h0 hg hp h (.nil (pg := Pages.new d ms)) rfl (pagesNew_attr d ms)
      (pageAttr_new d ms) rfl
    exact ⟨q, k1, by unfold Pages.next; rw [k2]⟩

/-- **C94 (built signs)** on a sign made by the builder, for messages with the conditions of C44 -/
theorem C94_built (p : Profile) (b : DmsBuilder) (d : Dms) (h : b.build p = .ok d)
    (hw : d.vmsCfg.signWidthPixels.toNat < 65535) (hh : d.vmsCfg.signHeightPixels.toNat < 65535)
    (hz : ¬ (d.vmsCfg.signWidthPixels.toNat = 0 ∧ d.vmsCfg.signHeightPixels.toNat = 0))
    (hf : 1 ≤ d.multiCfg.defaultFont.toNat)
    (hjp : d.multiCfg.defaultJustificationPage ≠ .other)
    (hjl : d.multiCfg.defaultJustificationLine ≠ .other ∧ d.multiCfg.defaultJustificationLine ≠ .full)
    (ms : Str) (ha : ∀ c ∈ ms, c.toNat < 128) (hl : ms.length ≤ 128)
    (hfit : ∀ v ∈ validValues ms, ValueFits v) (himp : ∀ v ∈ validValues ms, Supportable d v)
    (hmid : SignCells d ∨ (d.multiCfg.defaultJustificationPage ≠ .middle ∧
      .justificationPage (some .middle) ∉ validValues ms)) (xs : List (Bool × Except SyntaxError Page)) :
    Spec.Yields d ms xs ↔ Given d (signAttr d) (signPage d) (slices ms) xs := by
  have hv := C22_built_sign_valid p b d h
  refine C94_given d ⟨hw, hh, hz⟩ hv.2.2.2.2.1 hf _ _ hv.2.2.2.2.2.1 ms ?_ xs
  intro n q hq
  obtain ⟨pages, pg, k⟩ := C44_built_partial p b d h hw hh hf hjp hjl ms ha hl hfit himp hmid n
  rw [hq] at k; cases k

/-! ### pages of their own -/

theorem first_skip {ε : Type} {cs ds : List (ε → Prop)} {e} (h : ∀ c ∈ cs, ∀ e, ¬ c e) (hf : First (cs ++ ds) e) :
    First ds e := by
  induction cs with
  | nil => exact hf
  | cons c cs ih =>
    cases hf with
    | here hc => exact absurd hc (h c (List.mem_cons_self ..) e)
    | later _ hf => exact ih (fun c hc => h c (List.mem_cons_of_mem _ hc)) hf

theorem first_unlast {ε : Type} {cs : List (ε → Prop)} {c : ε → Prop} {e} (h : ∀ e, ¬ c e) (hf : First (cs ++ [c]) e) :
    First cs e := by
  induction cs with
  | nil =>
    cases hf with
    | here hc => exact absurd hc (h e)
    | later _ hf => cases hf
  | cons c cs ih =>
    cases hf with
    | here hc => exact .here hc
    | later h1 hf => exact .later h1 (ih hf)

/-- a value the sign supports and can show, no text rectangle -/
def Spec.Harmless (d : Dms) (v : Value) : Prop :=
  supports d v = true ∧ (∀ r, v ≠ .textRectangle r) ∧
    ∀ e, ¬ BackgroundFault d v e ∧ ¬ PaintFault d v e ∧ ¬ LayoutFault d v e

theorem sections_harmless {vs : List Value} (h : ∀ v ∈ vs, ∀ r, v ≠ .textRectangle r) : sections vs = (vs, []) := by
  induction vs with
  | nil => rfl
  | cons v vs ih =>
    rw [sections_cons (h v (List.mem_cons_self ..)), ih fun v hv => h v (List.mem_cons_of_mem _ hv)]

/-- the first fault of a page of harmless values is one of its texts; the next page follows -/
theorem harmless_after {d : Dms} {t ss vs rest b} (ht : TakePage ss vs rest b) (hv : ∀ v ∈ vs, Harmless d v)
    (hnp : b = true → d.multiCfg.supportedMultiTags .np = true) :
    (∀ x, FirstAfter d t ss x → First (textChecks d (signRect d) (layoutOf d t none (signRect d) vs)) x.1 ∧
      x.2 = .next (vs.foldl (TextAttr.apply (signAttr d)) t) (signRect d)) ∧
    ∀ e, First (textChecks d (signRect d) (layoutOf d t none (signRect d) vs)) e → FirstFault d t ss e := by
  have hsec := sections_harmless fun v hm => (hv v hm).2.1
  have hsup : ∀ v ∈ vs, ∀ t, v.tag = some t → d.multiCfg.supportedMultiTags t = true := by
    intro v hm t htag
    have := (hv v hm).1
    unfold supports at this
    rw [htag] at this
    exact this
  have hbg : ∀ c ∈ vs.map (BackgroundFault d), ∀ e, ¬ c e := by
    intro c hc e
    obtain ⟨v, hm, rfl⟩ := List.mem_map.1 hc
    exact ((hv v hm).2.2 e).1
  have hpt : ∀ c ∈ vs.map (PaintFault d), ∀ e, ¬ c e := by
    intro c hc e
    obtain ⟨v, hm, rfl⟩ := List.mem_map.1 hc
    exact ((hv v hm).2.2 e).2.1
  have hly : ∀ c ∈ vs.map (LayoutFault d), ∀ e, ¬ c e := by
    intro c hc e
    obtain ⟨v, hm, rfl⟩ := List.mem_map.1 hc
    exact ((hv v hm).2.2 e).2.2
  have hct : ∀ e, ¬ CountFault 1 e := fun e h => by have := h.1; omega
  have tag : ∀ {r : Resume} {cs : List Check}, (∀ c ∈ cs, ∀ e, ¬ c e) → ∀ c ∈ cs.map (followed r), ∀ x, ¬ c x := by
    intro r cs h c hc x hx
    obtain ⟨c0, hm, rfl⟩ := List.mem_map.1 hc
    exact h c0 hm _ hx.1
  constructor
  · rintro x (⟨hf, _⟩ | ⟨vs', rest', b', ht', _, _, hf⟩)
    · exact (itemFault_take ht hsup hnp hf).elim
    · obtain ⟨rfl, -, -⟩ := takePage_unique ht ht'
      rw [hsec] at hf
      have hf := first_skip (by
        rw [show vs.map (fun v => followed (.page t 0) (BackgroundFault d v)) =
          (vs.map (BackgroundFault d)).map (followed (.page t 0)) by simp [Function.comp_def]]
        exact tag hbg) hf
      rw [rectsAfter_eq] at hf
      have hf := first_skip (tag hpt) hf
      have hf := first_unlast (fun x hx => hct _ hx.1) hf
      have hf := first_skip (by
        intro c hc
        simp only [tagsAfter, List.map_nil, List.take_nil, List.append_nil] at hc
        rw [show vs.map (fun v => followed (.stop (signRect d)) (LayoutFault d v)) =
          (vs.map (LayoutFault d)).map (followed (.stop (signRect d))) by simp [Function.comp_def]] at hc
        exact tag hly c hc) hf
      obtain ⟨c, hc, hx⟩ := first_mem hf
      obtain ⟨c0, _, rfl⟩ := List.mem_map.1 hc
      exact ⟨tagged_first (tagged_map _ _) hf, hx.2⟩
  · intro e hf
    refine .inr ⟨vs, rest, b, ht, hsup, hnp, ?_⟩
    unfold pageChecks
    rw [hsec, rectsChecks_eq, rectChecks]
    have k : Verdict (textChecks d (signRect d) (layoutOf d t none (signRect d) vs)) (some e) := hf
    exact verdict_append (r := some e) hbg (verdict_stop (verdict_append (r := some e) hpt (verdict_append (r := some e) hly k)))

theorem given_severally {d : Dms} {t p ss xs} (h : Given d t p ss xs) : ∀ {V}, Parses ss V → (∀ v ∈ V, Harmless d v) →
    Severally d t p xs (splitPages V) := by
  -- the pages after this one
  have next : ∀ {ss V vs rest b}, Parses ss V → (∀ v ∈ V, Harmless d v) → TakePage ss vs rest b →
      (∀ v ∈ vs, Harmless d v) ∧ (b = true → d.multiCfg.supportedMultiTags .np = true) ∧ sections vs = (vs, []) ∧
      ∃ W, Parses rest W ∧ (∀ v ∈ W, Harmless d v) ∧ splitPages V = vs :: (if b then splitPages W else []) := by
    intro ss V vs rest b hp hv ht
    rcases takePage_parses ht hp with ⟨rfl, rfl⟩ | ⟨rfl, W, rfl, hW⟩
    · have hr : rest = [] := takePage_end ht
      subst hr
      refine ⟨hv, by simp, sections_harmless fun v hm => (hv v hm).2.1, [], .nil, by simp, ?_⟩
      obtain ⟨us, hu, hsp⟩ := takePage_split ht [] .nil
      obtain rfl := parses_unique hu hp
      exact hsp
    · refine ⟨fun v hm => hv v (List.mem_append_left _ hm), fun _ => ?_,
        sections_harmless fun v hm => (hv v (List.mem_append_left _ hm)).2.1, W, hW,
        fun v hm => hv v (List.mem_append_right _ (List.mem_cons_of_mem _ hm)), ?_⟩
      · exact (hv .newPage (List.mem_append_right _ (List.mem_cons_self ..))).1
      · obtain ⟨us, hu, hsp⟩ := takePage_split ht W hW
        obtain rfl := parses_unique hu hp
        exact hsp
  induction h with
  | @shown t p ss vs rest b raster more hno ht hc hG hend ih =>
    intro V hp hv
    obtain ⟨h1, h2, h3, W, h4, h5, h6⟩ := next hp hv ht
    rw [h6, Severally]
    rw [h3] at hc ⊢
    refine ⟨_, more, rfl, .inr ⟨raster, rfl, fun e he => hno e ((harmless_after ht h1 h2).2 e he), hc⟩, ?_⟩
    cases b with
    | true => exact ih rfl h4 h5
    | false => exact hend rfl
  | page hfa ht _ _ =>
    intro V hp hv
    obtain ⟨h1, h2, _⟩ := next hp hv ht
    have := ((harmless_after ht h1 h2).1 _ hfa).2
    cases this
  | @next t p ss vs rest b e t' rect more hfa ht hG hend ih =>
    intro V hp hv
    obtain ⟨h1, h2, h3, W, h4, h5, h6⟩ := next hp hv ht
    obtain ⟨k1, k2⟩ := (harmless_after ht h1 h2).1 _ hfa
    cases k2
    rw [h6, Severally]
    refine ⟨_, more, rfl, .inl ⟨e, rfl, k1⟩, ?_⟩
    cases b with
    | true => exact ih rfl h4 h5
    | false => exact hend rfl
  | stop hfa ht =>
    intro V hp hv
    obtain ⟨h1, h2, _⟩ := next hp hv ht
    have := ((harmless_after ht h1 h2).1 _ hfa).2
    cases this

/-- **C95 (pages of their own)** in a message without text rectangles, all of whose tags the sign supports and can show,
every page is given at its place, or the first error of its texts: faults of texts do not affect other pages.  With other
faults, or with text rectangles, this is not so, see C95_later_pages_lost and C94. -/
theorem C95_pages_partial (d : Dms) (hd : SizeOk d) (hf : FontsOk d.fontDefinition) (h0 : 1 ≤ d.multiCfg.defaultFont.toNat)
    (W H : Nat) (hg : GraphicsOk W H d.graphicDefinition) (ms : Str) (hp : NeverPanics d ms) (vs : List Value)
    (hv : Parses (slices ms) vs) (hs : ∀ v ∈ vs, Harmless d v) :
    ∃ xs, Spec.Yields d ms xs ∧ Severally d (signAttr d) (signPage d) xs (splitPages vs) := by
  obtain ⟨xs, hy⟩ := C50_shown_ends_partial d hd ms (fun xs pg' h p hpp => hp _ p (steps_run h hpp)) (by
    have : ∀ {ss vs}, Parses ss vs → (∀ v ∈ vs, Harmless d v) →
        ∀ s ∈ ss, ∃ v, Denotes s v ∧ supports d v = true ∧ ¬ Unshowable d v := by
      intro ss vs h
      induction h with
      | nil => simp
      | cons h1 _ ih =>
        intro hs s hm
        rcases List.mem_cons.1 hm with rfl | hm
        · obtain ⟨k1, _, k2⟩ := hs _ (List.mem_cons_self ..)
          refine ⟨_, (C84_item _ _).1 h1, k1, ?_⟩
          rintro ⟨e, he | he⟩
          · exact (k2 e).1 he
          · exact (k2 e).2.1 he
        · exact ih (fun v hv => hs v (List.mem_cons_of_mem _ hv)) s hm
    exact this hv hs)
  exact ⟨xs, hy, given_severally ((C94_given d hd hf h0 W H hg ms hp xs).1 hy) hv hs⟩

/-- **C95 (fails)** a tag for the layout of text which the sign can not show, on the first of two pages: its error is all
that is given, the second page is lost -/
theorem C95_later_page_lost : ∃ vs e, Parses (slices c!"[jl5]A[np]B") vs ∧ splitPages vs =
      [[.justificationLine (some .full), .text c!"A"], [.text c!"B"]] ∧
    Spec.Yields fullDms c!"[jl5]A[np]B" [(true, .error e)] := by
  have h : summary fullDms c!"[jl5]A[np]B" = some [(true, none)] := by decide +kernel
  obtain ⟨xs, hy, hx⟩ := summary_yields h
  refine ⟨[.justificationLine (some .full), .text c!"A", .newPage, .text c!"B"], ?_⟩
  cases xs with
  | nil => cases hx
  | cons x xs =>
    cases xs with
    | cons _ _ => simp at hx
    | nil =>
      obtain ⟨b, x⟩ := x
      simp only [List.map_cons, List.map_nil, List.cons.injEq, Prod.mk.injEq, and_true] at hx
      obtain ⟨rfl, hx⟩ := hx
      cases x with
      | ok p => cases hx
      | error e =>
        refine ⟨e, ?_, by decide, hy⟩
        rw [show slices c!"[jl5]A[np]B" = [c!"[jl5]", c!"A", c!"[np]", c!"B"] by decide +kernel]
        exact .cons (by decide +kernel) (.cons (by decide +kernel) (.cons (by decide +kernel)
          (.cons (by decide +kernel) .nil)))

/-! ### cases -/

-- a fault of texts: the error is followed by the OFF page and the next page
example : summary fullDms c!"[pt10o5]A[jl4]~[np]B" =
    some [(true, none), (false, some (60, 30, 5)), (true, some (60, 30, 10)), (false, some (60, 30, 5))] := by decide +kernel
-- with more text rectangles: the rest of the page follows as a page, without OFF page in between
example : summary fullDms c!"[pt10o5]~[tr1,1,30,10]A[tr5,5,9,9]B[np]B" =
    some [(true, none), (true, some (60, 30, 10)), (false, some (9, 9, 5)), (true, some (60, 30, 10)),
      (false, some (60, 30, 5))] := by decide +kernel
-- a wrong text rectangle: the rest of the page follows; a wrong tag: nothing but the OFF page, with the size of the
-- text rectangle
example : summary fullDms c!"[pt10o5][tr1,1,61,10]A[np][tr5,5,9,9][hcD800]" =
    some [(true, none), (true, some (60, 30, 10)), (false, some (60, 30, 5)), (true, none), (false, some (9, 9, 5))] := by
  decide +kernel
-- attributes of text before the error are kept for what follows: the second page is red
example : (runLabelled fullDms 5 (Pages.new fullDms c!"[cf255,0,0][jl4]~[np]A")).map (fun r => r.1.map fun x =>
    match x.2 with
    | .ok p => (List.range 60).any fun i => (List.range 30).any fun j => p.raster.px i j = ⟨255, 0, 0⟩
    | .error _ => false) = some [false, true] := by decide +kernel
-- the hypotheses of C95_pages_partial
example : NeverPanics fullDms c!"A[jl4]~[np]B" ∧ Parses (slices c!"A[jl4]~[np]B")
      [.text c!"A", .justificationLine (some .right), .text c!"~", .newPage, .text c!"B"] ∧
    ∀ v ∈ [Value.text c!"A", .justificationLine (some .right), .text c!"~", .newPage, .text c!"B"],
      Harmless fullDms v := by
  refine ⟨?_, ?_, ?_⟩
  · intro n q hq
    obtain ⟨pages, pg, k⟩ := C44_built_partial .checked _ fullDms fullDms_built (by decide +kernel) (by decide +kernel)
      (by decide +kernel) (by decide) ⟨by decide, by decide⟩ c!"A[jl4]~[np]B" (by decide +kernel) (by decide +kernel)
      (by decide +kernel) (by decide +kernel) (.inl (.inl (by decide +kernel))) n
    rw [hq] at k; cases k
  · rw [show slices c!"A[jl4]~[np]B" = [c!"A", c!"[jl4]", c!"~", c!"[np]", c!"B"] by decide +kernel]
    exact .cons (by decide +kernel) (.cons (by decide +kernel) (.cons (by decide +kernel)
      (.cons (by decide +kernel) (.cons (by decide +kernel) .nil))))
  · have hj : ValueOk fullDms (.justificationLine (some .right)) := by
      refine ⟨fun k hk => ?_, ?_⟩
      · cases hk
      · decide
    have key : ∀ v, supports fullDms v = true → (∀ r, v ≠ .textRectangle r) → isPaint v = false → isLayout v = false →
        (∀ c, v ≠ .pageBackground c) → (∀ n p, v ≠ .graphic n p) → Harmless fullDms v := by
      intro v h1 h2 h3 h4 h5 h6
      refine ⟨h1, h2, fun e => ⟨fun h => ?_, fun h => ?_, fun h => ?_⟩⟩
      · cases h with
        | cb _ => cases h3
        | pb _ => exact h5 _ rfl
      · cases h with
        | value h _ => rw [h3] at h; cases h
        | missing _ => exact h6 _ _ rfl
        | version _ _ => exact h6 _ _ rfl
        | big _ _ _ => exact h6 _ _ rfl
      · rw [h.1] at h4; cases h4
    intro v hm
    simp only [List.mem_cons, List.not_mem_nil, or_false] at hm
    rcases hm with rfl | rfl | rfl | rfl | rfl
    · exact key _ (by decide +kernel) (by simp) rfl rfl (by simp) (by simp)
    · refine ⟨by decide +kernel, by simp, fun e => ⟨fun h => (nomatch h), fun h => ?_, fun h => h.2.1 hj⟩⟩
      cases h with
      | value h _ => cases h
    · exact key _ (by decide +kernel) (by simp) rfl rfl (by simp) (by simp)
    · exact key _ (by decide +kernel) (by simp) rfl rfl (by simp) (by simp)
    · exact key _ (by decide +kernel) (by simp) rfl rfl (by simp) (by simp)

end Ntcip
