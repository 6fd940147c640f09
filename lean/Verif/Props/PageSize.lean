import Verif.Props.Place
import Verif.Lemmas.Compose
/-
C39: the sizes of all pages.
-/
namespace Ntcip
open Spec Tests

/-- size of the last text rectangle of a page; `cur` if there is none -/
def Spec.lastSize (W H : Nat) : Nat × Nat → List Value → Nat × Nat
  | cur, [] => cur
  | _, .textRectangle r :: vs => lastSize W H (extWidth r W, extHeight r H) vs
  | cur, _ :: vs => lastSize W H cur vs

/-- sizes of the pages: ON pages (`true`) have the size of the sign; OFF pages (`false`), which there are when the
off-time is not zero, the size of the last text rectangle of their page -/
def Spec.pageSizes (d : Dms) : UInt8 × UInt8 → List (List Value) → List (Bool × Nat × Nat)
  | _, [] => []
  | cur, p :: ps =>
    let t := pageTimes (signPage d).1 cur p
    let W := d.vmsCfg.signWidthPixels.toNat
    let H := d.vmsCfg.signHeightPixels.toNat
    (true, W, H) :: ((if t.2.toNat > 0 then [(false, lastSize W H (W, H) p)] else []) ++ pageSizes d t ps)

/-- the pages have these sizes -/
def Spec.Sized : List (Bool × Except SyntaxError Page) → List (Bool × Nat × Nat) → Prop
  | [], [] => True
  | (b, .ok p) :: xs, (b', w, h) :: ts => b = b' ∧ p.raster.width = w ∧ p.raster.height = h ∧ Sized xs ts
  | _, _ => False

/-- width and height -/
def rectSize (r : Rectangle) : Nat × Nat := (r.width.toNat, r.height.toNat)

theorem rectSize_opened (d : Dms) (r : Rectangle) : rectSize (opened d r) =
    (extWidth r d.vmsCfg.signWidthPixels.toNat, extHeight r d.vmsCfg.signHeightPixels.toNat) := by
  rw [← extend_opened, rectSize, extend_width, extend_height]

theorem lastSize_cons {W H : Nat} {cur : Nat × Nat} {v : Value} {vs : List Value} (h : ∀ r, v ≠ .textRectangle r) :
    lastSize W H cur (v :: vs) = lastSize W H cur vs := by
  cases v <;> first | rfl | exact absurd rfl (h _)

theorem rectSize_last (d : Dms) (rect : Rectangle) (vs : List Value) :
    rectSize (lastRect d rect (sections vs).2) =
      lastSize d.vmsCfg.signWidthPixels.toNat d.vmsCfg.signHeightPixels.toNat (rectSize rect) vs := by
  induction vs generalizing rect with
  | nil => rfl
  | cons v vs ih =>
    by_cases h : ∃ r, v = .textRectangle r
    · obtain ⟨r, rfl⟩ := h
      show rectSize (lastRect d (opened d r) (sections vs).2) = _
      rw [ih, rectSize_opened]
      rfl
    · have h' : ∀ r, v ≠ .textRectangle r := fun r e => h ⟨r, e⟩
      rw [sections_cons h', lastSize_cons h']
      exact ih rect

theorem onPageLoop_rect {d : Dms} {fuel n pg page page' pg'}
    (h : onPageLoop d fuel n pg page = .ok (.ok page', pg')) (hfuel : maxTextRectangles + 1 ≤ fuel + n)
    (hn : n ≤ maxTextRectangles) (hs : pg.pageState = .on false) (hd : pg.defaultState = RenderState.new d)
    (hsign : SignState d (RenderState.new d) pg.renderState)
    {vs rest b} (ht : TakePage pg.values vs rest b) :
    pg'.renderState.textRectangle = lastRect d pg.renderState.textRectangle (sections vs).2 := by
  induction fuel generalizing n pg page vs with
  | zero => omega
  | succ fuel ih =>
    rw [onPageLoop, if_pos hs] at h
    split at h
    · simp at h
    · simp at h
    · simp only [Res.bind_eq_ok] at h
      obtain ⟨⟨x, pg1⟩, h1, h2⟩ := h
      cases x with
      | error e => simp at h2
      | ok page1 =>
        obtain ⟨st, values, hl, hpg1, hts⟩ := renderTextRectangle_ok h1
        rw [hd] at hl
        have hs1 := (rtrLoop_attr hsign hl).2.2
        obtain ⟨-, e1, e2, e3⟩ := rtrLoop_end (st := ⟨pg.renderState, _, [], true⟩) hsign hl ht
        simp only at h2
        split at h2
        · simp at h2
        · generalize he : (sections vs).2 = more at e3 ⊢
          cases more with
          | nil =>
            dsimp only at e3
            cases fuel with
            | zero => omega
            | succ f =>
              rw [onPageLoop, if_neg (by rw [hpg1]; dsimp only; rw [e3.1]; exact pageEnd_ne b _)] at h2
              simp only [Res.ok.injEq, Prod.mk.injEq, Except.ok.injEq] at h2
              obtain ⟨rfl, rfl⟩ := h2
              rw [hpg1]; exact e3.2
          | cons q more =>
            obtain ⟨r, ws1⟩ := q
            obtain ⟨e4, e5, ws, e6, e7⟩ := e3
            have := ih h2 (by omega) (by omega) (by rw [hpg1]; exact e4) (by rw [hpg1]; exact hd)
              (by rw [hpg1]; exact hs1) (vs := ws) (by rw [hpg1]; exact e6)
            rw [e7, hpg1] at this
            dsimp only at this
            rw [e5] at this
            exact this

/-- the text rectangle after an ON page -/
theorem renderOnPage_rect {d pg page pg'} (hsign : SignState d pg.defaultState pg.renderState)
    (h : renderOnPage d pg = .ok (.ok page, pg')) {vs rest b} (ht : TakePage pg.values vs rest b) :
    pg'.renderState.textRectangle = lastRect d (signRect d) (sections vs).2 := by
  have hd := hsign.ds
  unfold renderOnPage at h
  split at h
  · simp at h
  · simp at h
  · simp only [Res.bind_eq_ok] at h
    obtain ⟨⟨x, rs⟩, h1, h2⟩ := h
    cases x with
    | error e => simp at h2
    | ok u =>
      simp only [Res.bind_eq_ok] at h2
      obtain ⟨⟨y, pg1⟩, h2, h3⟩ := h2
      cases y with
      | error e => simp at h3
      | ok raster =>
        simp only [Res.pure_eq, Res.ok.injEq, Prod.mk.injEq, Except.ok.injEq] at h3
        obtain ⟨rfl, rfl⟩ := h3
        unfold updatePageState at h1
        obtain ⟨b1, b2, b3⟩ := updatePageStateLoop_bg (d := d)
          (by exact ⟨hsign.ds, hsign.fg, hsign.bg, hsign.scheme⟩) h1 ht
        obtain ⟨vs1, rest1, b1', ht1, ut, ue, ui⟩ := updatePageStateLoop_ok h1
        have hsx : SignState d (RenderState.new d) rs := by rw [← hd]; exact b3
        have := onPageLoop_rect h2 (by decide) (by decide) rfl hd hsx ht
        dsimp only at this
        rw [this, ue, hd]
        rfl

/-- the sizes expected from a state, for the values `vs` that remain -/
def Spec.sizesFrom (d : Dms) (pg : Pages) (vs : List Value) : List (Bool × Nat × Nat) :=
  let rs := pg.renderState
  let cur := (rs.pageOnTimeDs, rs.pageOffTimeDs)
  let off := (false, rectSize rs.textRectangle)
  match pg.pageState with
  | .on _ => pageSizes d cur (splitPages vs)
  | .off true => off :: pageSizes d cur (splitPages vs)
  | .off false => [off]
  | .done => []

theorem steps_sizes {d pg xs pg'} (h : Steps d pg xs pg')
    (hd : SignState d pg.defaultState pg.renderState)
    (hv : pg.pageState = .done ∨ pg.pageState = .off false → pg.values = [])
    (hn : NoError xs) (hend : pg'.pageState = .done) :
    ∃ vs, Parses pg.values vs ∧ Sized xs (sizesFrom d pg vs) := by
  induction h with
  | nil =>
    rw [hv (.inl hend)]
    exact ⟨[], .nil, by simp [sizesFrom, hend, Sized]⟩
  | @cons pg pg1 pg' x xs hx hs ih =>
    have hn1 : NoError xs := fun y hy => hn y (List.mem_cons_of_mem _ hy)
    obtain ⟨p, rfl⟩ : ∃ p, x = .ok p := hn _ (List.mem_cons_self ..)
    rcases next_cases hx with ⟨hon, h1⟩ | ⟨hoff, ⟨b, hb⟩, hp, rfl⟩
    · obtain ⟨vs, rest, b, ho⟩ := renderOnPage_ok h1
      have hv1 := onPage_rest ho
      obtain ⟨hd1, -, hbg⟩ := ho.attr hd
      obtain ⟨ws, hw, ht⟩ := ih hd1 hv1 hn1 hend
      rw [ho.values] at hw
      obtain ⟨us, hu, hsp⟩ := takePage_split ho.take ws hw
      refine ⟨us, hu, ?_⟩
      have e0 : sizesFrom d pg us = pageSizes d (pg.renderState.pageOnTimeDs, pg.renderState.pageOffTimeDs)
          (splitPages us) := by
        unfold sizesFrom
        cases hps : pg.pageState <;> simp_all [isOn]
      have er := renderOnPage_rect hd h1 ho.take
      have el := rectSize_last d (signRect d) vs
      rw [← er] at el
      have el' : lastSize d.vmsCfg.signWidthPixels.toNat d.vmsCfg.signHeightPixels.toNat
          (d.vmsCfg.signWidthPixels.toNat, d.vmsCfg.signHeightPixels.toNat) vs = rectSize pg1.renderState.textRectangle :=
        el.symm
      have et := ho.times
      rw [hd.ds] at et
      have et' : pageTimes (signPage d).1
          (pg.renderState.pageOnTimeDs, pg.renderState.pageOffTimeDs) vs =
          (pg1.renderState.pageOnTimeDs, pg1.renderState.pageOffTimeDs) := et.symm
      rw [e0, hsp]
      simp only [pageSizes, et', el', Sized]
      refine ⟨hon, by rw [ho.width, hd.ds]; rfl, by rw [ho.height, hd.ds]; rfl, ?_⟩
      have es := ho.state
      unfold sizesFrom at ht
      rw [es] at ht
      by_cases hz : pg1.renderState.pageOffTimeDs > 0
      · rw [if_pos ((u8_pos_iff _).1 hz)]
        cases b
        · simpa [hz, PageState.doneState, pageSizes] using ht
        · simpa [hz, PageState.newPage] using ht
      · rw [if_neg (fun h => hz ((u8_pos_iff _).2 h))]
        cases b
        · simpa [hz, PageState.doneState, pageSizes] using ht
        · simpa [hz, PageState.newPage] using ht
    · have hv1 : (renderOffPage pg).2.pageState = .done ∨
          (renderOffPage pg).2.pageState = .off false → (renderOffPage pg).2.values = [] := by
        intro hh
        cases b with
        | true => simp [renderOffPage, hb, PageState.nextState] at hh
        | false => exact hv (.inr hb)
      obtain ⟨ws, hw, ht⟩ := ih (by exact ⟨hd.ds, hd.fg, hd.bg, hd.scheme⟩) hv1 hn1 hend
      refine ⟨ws, hw, ?_⟩
      simp only [Except.ok.injEq] at hp
      cases b with
      | true =>
        simp only [sizesFrom, hb, Sized]
        refine ⟨by simp [isOn], by rw [hp]; rfl, by rw [hp]; rfl, ?_⟩
        simpa [sizesFrom, renderOffPage, hb, PageState.nextState] using ht
      | false =>
        simp only [sizesFrom, hb, Sized]
        refine ⟨by simp [isOn], by rw [hp]; rfl, by rw [hp]; rfl, ?_⟩
        simpa [sizesFrom, renderOffPage, hb, PageState.nextState] using ht

/-- **C39 (exactly)** when no item is an error: every ON page has the pixel size of the sign, and every OFF page the
size of the last `[tr]` of its page, where width or height 0 stand for the rest of the sign; the size of the sign when
its page has no `[tr]`. -/
theorem C39_exact (d : Dms) (ms : Str) (xs) (h : Yields d ms xs) (hn : NoError xs) :
    ∃ vs, Parses (slices ms) vs ∧ Sized xs (pageSizes d (signPage d).1 (splitPages vs)) := by
  obtain ⟨pg', hs, he⟩ := h
  exact steps_sizes hs (signState_new d ms) (by simp [Pages.new]) hn (next_none he).1

/-- two pages; the second one keeps the off-time, and its OFF page has the size of its last rectangle -/
example : pageSizes fullDms (signPage fullDms).1
    (splitPages [.pageTime (some 10) (some 5), .textRectangle ⟨1, 1, 5, 7⟩, .newPage, .textRectangle ⟨1, 1, 5, 7⟩,
      .textRectangle ⟨11, 1, 0, 9⟩]) =
    [(true, 60, 30), (false, 5, 7), (true, 60, 30), (false, 50, 9)] := by decide +kernel

/-- … and the same in the pages of the message -/
example : summary fullDms c!"[pt10o5][tr1,1,5,7][np][tr1,1,5,7][tr11,1,0,9]" =
    some [(true, some (60, 30, 10)), (false, some (5, 7, 5)), (true, some (60, 30, 10)), (false, some (50, 9, 5))] := by
  decide +kernel

end Ntcip
