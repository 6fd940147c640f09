import Verif.Spec.OffSign
import Verif.Lemmas.Synonym
import Verif.Props.Release
import Verif.Spec.Fault
import Verif.Props.Grammar
/-
In release builds, rectangles off the sign are rejected, whatever their values.
-/
namespace Ntcip
open Spec

section
variable {d : Dms}

theorem OffItem.cases {s s' : Str} (h : OffItem d s s') :
    (∃ p, tryFrom s = .panic p ∧ tryFrom s' = .panic p) ∨ (∃ e, tryFrom s = .ok (.error e) ∧ tryFrom s' = .ok (.error e)) ∨
      ∃ v w, tryFrom s = .ok (.ok v) ∧ tryFrom s' = .ok (.ok w) ∧ OffSign d v w := by
  rcases h with h | h
  · cases hs : tryFrom s with
    | panic p => left; exact ⟨p, rfl, by rw [h, hs]⟩
    | ok e =>
      cases e with
      | error e => right; left; exact ⟨e, rfl, by rw [h, hs]⟩
      | ok v => right; right; exact ⟨v, v, rfl, by rw [h, hs], .refl v⟩
  · exact .inr (.inr h)

theorem ofExcept_ok {ε α : Type} (a : α) : ofExcept (.ok a : Except ε α) = .ok a := rfl

/-- items of two messages, one by one -/
abbrev OffItems (d : Dms) (ss ss' : List Str) : Prop := All2 (OffItem d) ss ss'

/-- a read rectangle begins at 1 or later -/
theorem rect_origin {s : Str} {r : Rectangle} {c : Color} (h : tryFrom s = .ok (.ok (.colorRectangle r c))) :
    r.x ≠ 0 ∧ r.y ≠ 0 := by
  rw [C84_item] at h
  cases h with
  | @tag n _ _ h =>
    generalize n.map Char.toLower = m at h
    cases h with
    | colorRectangle hr _ =>
      cases hr with
      | mk hp _ _ =>
        cases hp with
        | mk _ _ hx hy => exact ⟨hx, hy⟩

theorem release_renderRect_size {r : Raster} {rect : Rectangle} {c : Rgb} {v : Value} {r' : Raster} (hr : OfSize d r)
    (h : Release.renderRect r rect c v = .ok r') : OfSize d r' := by
  unfold Release.renderRect at h
  split at h
  · cases h
  · simp only [Out.bind_eq_ok] at h
    obtain ⟨i, _, h⟩ := h
    split at h
    · cases h; exact hr
    · cases h

/-- the raster has the size of the sign -/
theorem OfSize.painted {P : Rgb → Prop} {r r' : Raster} (hr : OfSize d r) (h : Painted P r r') : OfSize d r' :=
  ⟨h.width.trans hr.1, h.height.trans hr.2⟩

theorem release_graphics_off (hd : SizeOk d) {ss ss' : List Str} (hs : OffItems d ss ss') {c : ColorCtx} {r : Raster}
    (hr : OfSize d r) :
    Out.RelE (OffError d) (SameR d) (Release.renderGraphicsLoop d ss c r) (Release.renderGraphicsLoop d ss' c r) := by
  induction hs generalizing c r with
  | nil => exact ⟨rfl, hr⟩
  | cons h1 _ ih =>
    rename_i s s' ss ss' hs
    unfold Release.renderGraphicsLoop
    rcases OffItem.cases h1 with ⟨p, e1, e2⟩ | ⟨e, e1, e2⟩ | ⟨v, w, e1, e2, hvw⟩ <;> rw [e1, e2]
    · exact rfl
    · exact OffError.refl _
    · simp only [Out.ofRes_ok, Out.ok_bind, ofExcept_ok]
      cases hvw with
      | text _ _ => exact ⟨rfl, hr⟩
      | @fill rc rc' clr k k' =>
        have key : ∀ {t : Str} {q : Rectangle}, tryFrom t = .ok (.ok (.colorRectangle q clr)) →
            ¬ InsideRect d.vmsCfg.signWidthPixels.toNat d.vmsCfg.signHeightPixels.toNat q → ∀ (x : Rgb),
            Release.renderRect r q x (.colorRectangle q clr) =
              .err (.unsupportedTagValue (Value.colorRectangle q clr).display) := by
          intro t q ht hq x
          obtain ⟨o1, o2⟩ := rect_origin ht
          obtain ⟨z1, z2⟩ := hr
          refine (C82_color_rectangles r q x _ (by rw [z1]; exact hd.width) (by rw [z2]; exact hd.height)
            (by rw [z1, z2]; exact hd.size) o1 o2).2 ?_
          rwa [z1, z2]
        unfold ColorCtx.setForeground
        dsimp only
        cases c.rgb clr with
        | some x =>
          simp only [ofExcept_ok, Out.ok_bind, key e1 k, key e2 k', Out.err_bind]
          exact OffError.value (.fill k k')
        | none => exact OffError.value (.fill k k')
      | refl =>
        cases v with
        | colorBackground clr =>
          dsimp only
          cases c.setBackground clr (.colorBackground clr) with
          | ok c' => exact ih hr
          | error e => exact OffError.refl _
        | colorForeground clr =>
          dsimp only
          cases c.setForeground clr (.colorForeground clr) with
          | ok c' => exact ih hr
          | error e => exact OffError.refl _
        | colorRectangle q clr =>
          dsimp only
          cases c.setForeground (some clr) (.colorRectangle q clr) with
          | error e => exact OffError.refl _
          | ok c' =>
            simp only [ofExcept_ok, Out.ok_bind]
            cases hx : Release.renderRect r q c'.foregroundRgb (.colorRectangle q clr) with
            | ok r' => exact ih (release_renderRect_size hr hx)
            | err e => exact OffError.refl _
            | panic p => exact rfl
        | graphic gn at_ =>
          rcases at_ with _ | ⟨x, y, gid⟩
          · dsimp only
            cases hl : lookupGraphic d gn none with
            | ok g =>
              simp only [Out.ok_bind]
              cases hx : g.renderGraphic r 1 1 c with
              | ok r' => exact ih (hr.painted (renderGraphic_painted hx))
              | err e => exact OffError.refl _
              | panic p => exact rfl
            | err e => exact OffError.refl _
            | panic p => exact rfl
          · dsimp only
            cases hl : lookupGraphic d gn gid with
            | ok g =>
              simp only [Out.ok_bind]
              cases hx : g.renderGraphic r x.toNat y.toNat c with
              | ok r' => exact ih (hr.painted (renderGraphic_painted hx))
              | err e => exact OffError.refl _
              | panic p => exact rfl
            | err e => exact OffError.refl _
            | panic p => exact rfl
        | newPage => exact ⟨rfl, hr⟩
        | textRectangle _ => exact ⟨rfl, hr⟩
        | field _ _ => exact rfl
        | flash _ _ _ => exact rfl
        | flashEnd => exact rfl
        | manufacturerSpecific _ _ => exact rfl
        | manufacturerSpecificEnd _ _ => exact rfl
        | movingText _ _ _ _ _ _ => exact rfl
        | _ => exact ih hr

/-- results of `rtrLoop` -/
def OffL (d : Dms) (p q : Except SyntaxError Unit × Rtr × List Str) : Prop :=
  Except.RelE (OffError d) (fun _ _ => True) p.1 q.1 ∧ q.2.1 = p.2.1 ∧ OffItems d p.2.2 q.2.2

theorem release_rtrLoop_off (hd : SizeOk d) (po : Bool) {ss ss' : List Str} (hs : OffItems d ss ss') (st : Rtr) :
    Res.Rel (OffL d) (Release.rtrLoop d (.new d) po ss st) (Release.rtrLoop d (.new d) po ss' st) := by
  induction hs generalizing st with
  | nil => exact ⟨trivial, rfl, .nil⟩
  | cons h1 htl ih =>
    unfold Release.rtrLoop
    rcases OffItem.cases h1 with ⟨p, e1, e2⟩ | ⟨e, e1, e2⟩ | ⟨v, w, e1, e2, hvw⟩ <;> rw [e1, e2]
    · exact rfl
    · exact ⟨.refl _, rfl, htl⟩
    · dsimp only
      cases hvw with
      | text k k' =>
        obtain ⟨s1, x1⟩ := (C82_text_rectangles d po st _ hd.width hd.height hd.size).2 k
        obtain ⟨s2, x2⟩ := (C82_text_rectangles d po st _ hd.width hd.height hd.size).2 k'
        have g1 : ∀ {r s1 e}, Release.rtrStep d (.new d) po st (.textRectangle r) = .ok (.fail e, s1) →
            s1 = { st with pageState := .on false } := by
          intro r s1 e h
          unfold Release.rtrStep at h
          dsimp only at h
          cases hu : Release.updateTextRectangle d (RenderState.new d).textRectangle r with
          | panic p => rw [hu] at h; cases h
          | ok o =>
            rw [hu] at h
            cases o with
            | some q => cases h
            | none => cases h; rfl
        rw [x1, x2, g1 x1, g1 x2]
        exact ⟨.value (.text k k'), rfl, htl⟩
      | fill k k' => exact ih _
      | refl =>
        cases Release.rtrStep d (.new d) po st v with
        | panic p => exact rfl
        | ok p =>
          obtain ⟨c, st1⟩ := p
          cases c with
          | cont => exact ih _
          | brk => exact ⟨trivial, rfl, htl⟩
          | fail e => exact ⟨.refl _, rfl, htl⟩

/-- iterators that differ in such rectangles to come -/
structure OffP (d : Dms) (pg pg' : Pages) : Prop where
  eq : pg' = { pg with values := pg'.values }
  dflt : pg.defaultState = .new d
  values : OffItems d pg.values pg'.values

/-- results with a state of the iterator -/
def OffE {α : Type} (R : α → α → Prop) (d : Dms) (p q : Except SyntaxError α × Pages) : Prop :=
  Except.RelE (OffError d) R p.1 q.1 ∧ OffP d p.2 q.2

theorem release_spansLoop_painted {spans l : List Span} {r r' : Raster} (h : Release.renderSpansLoop d spans l r = .ok r')
    (hr : OfSize d r) : OfSize d r' := by
  induction l generalizing r with
  | nil => cases h; exact hr
  | cons s l ih =>
    unfold Release.renderSpansLoop at h
    simp only [Out.bind_eq_ok] at h
    obtain ⟨x, _, y, _, f, _, r1, h1, h⟩ := h
    exact ih h (hr.painted (span_renderText_painted h1))

theorem release_textSpans_size {spans : List Span} {r r' : Raster} (h : Release.renderTextSpans d spans r = .ok r')
    (hr : OfSize d r) : OfSize d r' := by
  unfold Release.renderTextSpans at h
  split at h
  · cases h
  · exact release_spansLoop_painted h hr

theorem release_rectangle_off (hd : SizeOk d) {pg pg' : Pages} (hp : OffP d pg pg') {r : Raster} (hr : OfSize d r) :
    Res.Rel (OffE (SameR d) d) (Release.renderTextRectangle d pg r) (Release.renderTextRectangle d pg' r) := by
  obtain ⟨ds, rs, ps, vs, sp⟩ := pg
  obtain ⟨ds', rs', ps', vs', sp'⟩ := pg'
  obtain ⟨he, hds, hv⟩ := hp
  cases he
  dsimp only at hds hv
  subst hds
  unfold Release.renderTextRectangle
  dsimp only
  refine Res.Rel.bind (release_rtrLoop_off hd _ hv _) fun p q hpq => ?_
  obtain ⟨e, st, us⟩ := p
  obtain ⟨e', st', us'⟩ := q
  obtain ⟨k1, k2, k3⟩ := hpq
  dsimp only at k1 k2 k3
  subst k2
  cases e <;> cases e' <;> simp only [Except.RelE] at k1
  · exact ⟨k1, rfl, rfl, k3⟩
  · dsimp only
    cases hx : Release.renderTextSpans d st'.spans r with
    | ok r' => exact ⟨⟨rfl, release_textSpans_size hx hr⟩, rfl, rfl, k3⟩
    | err e => exact ⟨.refl _, rfl, rfl, k3⟩
    | panic p => exact rfl

theorem release_onPageLoop_off (hd : SizeOk d) (fuel n : Nat) {pg pg' : Pages} (hp : OffP d pg pg') {r : Raster} (hr : OfSize d r) :
    Res.Rel (OffE (SameR d) d) (Release.onPageLoop d fuel n pg r) (Release.onPageLoop d fuel n pg' r) := by
  induction fuel generalizing n pg pg' r with
  | zero => exact ⟨⟨rfl, hr⟩, hp⟩
  | succ fuel ih =>
    unfold Release.onPageLoop
    have hst : pg'.pageState = pg.pageState := by rw [hp.eq]
    have hrs : pg'.renderState = pg.renderState := by rw [hp.eq]
    rw [hst, hrs]
    split
    · have hg := release_graphics_off hd hp.values (c := pg.renderState.colorCtx) hr
      cases h3 : Release.renderGraphicsLoop d pg.values pg.renderState.colorCtx r <;>
        cases h4 : Release.renderGraphicsLoop d pg'.values pg.renderState.colorCtx r <;>
        rw [h3, h4] at hg <;> simp only [Out.RelE] at hg
      · obtain ⟨rfl, hs⟩ := hg
        refine Res.Rel.bind (release_rectangle_off hd hp hs) fun p q hpq => ?_
        obtain ⟨e, p⟩ := p
        obtain ⟨e', q⟩ := q
        obtain ⟨k1, k2⟩ := hpq
        cases e <;> cases e' <;> simp only [Except.RelE] at k1
        · exact ⟨k1, k2⟩
        · obtain ⟨rfl, hs⟩ := k1
          dsimp only
          split
          · exact ⟨.refl _, k2⟩
          · exact ih _ k2 hs
      · exact ⟨hg, hp⟩
      · exact hg
    · exact ⟨⟨rfl, hr⟩, hp⟩

theorem checkUnsupported_off {ss ss' : List Str} (hs : OffItems d ss ss') :
    Out.RelE (OffError d) (fun _ _ => True) (checkUnsupported d ss) (checkUnsupported d ss') := by
  induction hs with
  | nil => exact trivial
  | cons h1 _ ih =>
    rename_i _ _ rs1 rs2 _
    rcases OffItem.cases h1 with ⟨p, e1, e2⟩ | ⟨e, e1, e2⟩ | ⟨v, w, e1, e2, hvw⟩
    · unfold checkUnsupported; rw [e1, e2]; exact rfl
    · unfold checkUnsupported; rw [e1, e2]; exact .refl _
    · rw [checkUnsupported_value e1, checkUnsupported_value e2]
      have he : w.tag = v.tag := by cases hvw <;> rfl
      rw [he]
      split
      · split
        · exact .tag hvw
        · split
          · exact trivial
          · exact ih
      · exact ih

theorem updatePageStateLoop_off {ds : RenderState} {ss ss' : List Str} (hs : OffItems d ss ss') (rs : RenderState) :
    updatePageStateLoop ds ss' rs = updatePageStateLoop ds ss rs := by
  induction hs generalizing rs with
  | nil => rfl
  | cons h1 _ ih =>
    rcases OffItem.cases h1 with ⟨p, e1, e2⟩ | ⟨e, e1, e2⟩ | ⟨v, w, e1, e2, hvw⟩
    · unfold updatePageStateLoop; rw [e1, e2]
    · unfold updatePageStateLoop; rw [e1, e2]
    · rw [updatePageStateLoop_value e1, updatePageStateLoop_value e2]
      cases hvw with
      | text _ _ => exact ih _
      | fill _ _ => exact ih _
      | refl =>
        unfold pageBody
        split
        · split
          · exact ih _
          · rfl
        · split
          · exact ih _
          · rfl
        · rfl
        · exact ih _
        · exact ih _

theorem release_page_off (hd : SizeOk d) {pg pg' : Pages} (hp : OffP d pg pg') :
    Res.Rel (OffE (fun p q => q = p) d) (Release.renderOnPage d pg) (Release.renderOnPage d pg') := by
  obtain ⟨ds, rs, ps, vs, sp⟩ := pg
  obtain ⟨ds', rs', ps', vs', sp'⟩ := pg'
  obtain ⟨he, hds, hv⟩ := hp
  cases he
  dsimp only at hds hv
  subst hds
  unfold Release.renderOnPage
  dsimp only
  have hc := checkUnsupported_off hv
  cases h1 : checkUnsupported d vs <;> cases h2 : checkUnsupported d vs' <;> rw [h1, h2] at hc <;>
    simp only [Out.RelE] at hc
  · dsimp only
    have e : updatePageState (.new d) rs vs' = updatePageState (.new d) rs vs := updatePageStateLoop_off hv _
    rw [e]
    cases hu : updatePageState (.new d) rs vs with
    | panic p => exact rfl
    | ok p =>
      obtain ⟨x, rs1⟩ := p
      simp only [Res.ok_bind]
      cases x with
      | error e => exact ⟨.refl _, rfl, rfl, hv⟩
      | ok u =>
        have hs : OfSize d (buildRaster rs1) := by
          obtain ⟨_, _, _, _, _, k, _⟩ := updatePageStateLoop_ok hu
          unfold buildRaster
          rw [k]
          exact ⟨rfl, rfl⟩
        dsimp only
        refine Res.Rel.bind (release_onPageLoop_off hd _ _ (pg := ⟨.new d, rs1, .on false, vs, sp⟩)
          (pg' := ⟨.new d, rs1, .on false, vs', sp⟩) ⟨rfl, rfl, hv⟩ hs) fun p q hpq => ?_
        obtain ⟨e, p⟩ := p
        obtain ⟨e', q⟩ := q
        obtain ⟨k1, k2⟩ := hpq
        cases e <;> cases e' <;> simp only [Except.RelE] at k1
        · exact ⟨k1, k2⟩
        · obtain ⟨rfl, _⟩ := k1
          refine ⟨?_, k2⟩
          have hrs : q.renderState = p.renderState := by
            have he := k2.eq
            dsimp only at he
            rw [he]
          show (⟨_, q.renderState.pageOnTimeDs.toNat⟩ : Page) = _
          rw [hrs]
  · exact ⟨hc, rfl, rfl, hv⟩
  · exact hc

theorem release_next_off (hd : SizeOk d) {pg pg' : Pages} (hp : OffP d pg pg') :
    Res.Rel (fun p q => Option.Rel (OffResult d) p.1 q.1 ∧ OffP d p.2 q.2) (Release.next d pg) (Release.next d pg') := by
  have h := release_page_off hd hp
  have hst : pg'.pageState = pg.pageState := by rw [hp.eq]
  unfold Release.next
  rw [hst]
  split
  · refine Res.Rel.bind h fun p q hpq => ?_
    obtain ⟨e, p⟩ := p
    obtain ⟨e', q⟩ := q
    refine ⟨?_, hpq.2⟩
    have := hpq.1
    cases e <;> cases e' <;> exact this
  · obtain ⟨ds, rs, ps, vs, sp⟩ := pg
    obtain ⟨ds', rs', ps', vs', sp'⟩ := pg'
    obtain ⟨he, hds, hv⟩ := hp
    cases he
    exact ⟨rfl, rfl, hds, hv⟩
  · exact ⟨trivial, hp⟩

theorem release_run_off (hd : SizeOk d) (k : Nat) {pg pg' : Pages} (hp : OffP d pg pg') :
    Res.Rel (fun p q => All2 (OffResult d) p.1 q.1) (Release.run d k pg) (Release.run d k pg') := by
  induction k generalizing pg pg' with
  | zero => exact All2.nil
  | succ k ih =>
    unfold Release.run
    refine Res.Rel.bind (release_next_off hd hp) fun p q hpq => ?_
    obtain ⟨x, p⟩ := p
    obtain ⟨x', q⟩ := q
    obtain ⟨k1, k2⟩ := hpq
    cases x <;> cases x' <;> simp only [Option.Rel] at k1
    · exact All2.nil
    · dsimp only
      refine Res.Rel.bind (ih k2) fun a b hab => ?_
      exact All2.cons k1 hab

end
end Ntcip
