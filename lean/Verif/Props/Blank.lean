import Verif.Props.Compose
import Verif.Props.Normalize
import Verif.Props.Append
/-
Property C80: a blank message shows blank pages.
-/
namespace Ntcip
open Spec Tests

/-- the white space characters of all fonts have no lit pixel -/
def Spec.ClearSpaces (t : FontTable) : Prop :=
  ∀ f ∈ t, ∀ e ∈ f.characters, ∀ c : Char, e.number.toNat = c.toNat → IsSpace c →
    ∀ row col, row < f.height.toNat → col < e.width.toNat → bit e.bitmap (row * e.width.toNat + col) = false

/-- the blank raster of the sign in a background color -/
def Spec.blankRaster (d : Dms) (c : Color) : Raster :=
  ⟨d.vmsCfg.signWidthPixels.toNat, d.vmsCfg.signHeightPixels.toNat, fun _ _ => backgroundRgb d c⟩

/-- The items are pages of the given kind and duration, all blank in the given color; ON pages have the size of the
sign (for the size of OFF pages see C39) -/
def Spec.ShowsBlank (d : Dms) : List (Bool × Except SyntaxError Page) → List (Bool × Nat × Color) → Prop
  | [], [] => True
  | (b, .ok p) :: xs, (b', t, c) :: ts =>
    b = b' ∧ p.durationDs = t ∧ (∀ i j, p.raster.px i j = backgroundRgb d c) ∧
    (b = true → p.raster.width = d.vmsCfg.signWidthPixels.toNat ∧ p.raster.height = d.vmsCfg.signHeightPixels.toNat) ∧
    ShowsBlank d xs ts
  | _, _ => False

theorem graphicsOn_blank {d p vs a b} (h : GraphicsOn d p vs a b) (hv : ∀ v ∈ vs, ¬ Visible v) : b = a := by
  have key : ∀ {W H p i j o}, Layered d W H p vs i j o → o = none := by
    intro W H p i j o hl
    clear h
    induction hl with
    | nil => rfl
    | @cons p v vs i j o u h1 _ ih =>
      rw [ih (fun v hv' => hv v (by simp [hv']))]
      have := hv v (by simp)
      cases h1 <;> first | rfl | exact absurd trivial this
  obtain ⟨aw, ah, ap⟩ := a
  obtain ⟨bw, bh, bp⟩ := b
  obtain ⟨h1, h2, h3⟩ := h
  simp only at h1 h2 h3
  subst h1; subst h2
  congr 1
  funext i j
  obtain ⟨o, ho, e⟩ := h3 i j
  rw [e, key ho]; rfl

theorem pieces_blank {dflt vs} (hv : ∀ v ∈ vs, ¬ Visible v) :
    ∀ {a sp line blank}, ∀ p ∈ pieces dflt a sp line blank vs, ∀ c ∈ p.str, IsSpace c := by
  induction vs with
  | nil => simp [pieces]
  | cons v vs ih =>
    intro a sp line blank p hp c hc
    rw [pieces, List.mem_append] at hp
    rcases hp with hp | hp
    · have hn := hv v (by simp)
      cases v <;> simp only [piece, List.mem_singleton, List.not_mem_nil] at hp
      case text t =>
        subst hp
        by_cases hs : IsSpace c
        · exact hs
        · exact absurd ⟨c, hc, hs⟩ hn
      case hexadecimalCharacter => exact absurd trivial hn
      case newLine =>
        split at hp
        · rw [List.mem_singleton] at hp; subst hp; simp at hc
        · simp at hp
    · exact ih (fun v h => hv v (by simp [h])) p hp c hc

theorem lightsAt_blank {t : FontTable} (ht : ClearSpaces t) {s : Span} (hs : ∀ c ∈ s.str, IsSpace c) {x y i j} :
    ¬ LightsAt t s x y i j := by
  rintro ⟨f, es, hf, hd, before, e, after, row, col, rfl, hr, hc, hb, -⟩
  have he : some e ∈ s.str.map f.character := by rw [hd]; simp
  obtain ⟨c, hcs, hce⟩ := List.mem_map.1 he
  unfold Font.character at hce
  split at hce
  · have h1 := List.mem_of_find?_eq_some hce
    have h2 := List.find?_some hce
    rw [ht f (font_number hf).1 e h1 c (by simpa using h2) (hs c hcs) row col hr hc] at hb
    simp at hb
  · simp at hce

theorem textDrawn_blank {d t sp rect vs a b} (ht : ClearSpaces d.fontDefinition)
    (h : TextDrawn d t sp rect vs a b) (hv : ∀ v ∈ vs, ¬ Visible v) : b = a := by
  obtain ⟨ps, hp, -, -, -, hT, -⟩ := h
  obtain ⟨aw, ah, ap⟩ := a
  obtain ⟨bw, bh, bp⟩ := b
  obtain ⟨h1, h2, -, h3⟩ := hT
  simp only at h1 h2 h3
  subst h1; subst h2
  congr 1
  funext i j
  refine h3 i j fun p hps => lightsAt_blank ht ?_
  have : pieceOf p.1 ∈ pieces (signAttr d) t sp 0 true vs := by
    rw [← hp]; exact List.mem_map_of_mem (List.mem_map_of_mem hps)
  exact pieces_blank hv _ this

theorem composed_blank {d bg t sp rect vs rest a b} (ht : ClearSpaces d.fontDefinition)
    (h : Composed d bg t sp rect vs rest a b) (hv : ∀ v ∈ vs, ¬ Visible v)
    (hr : ∀ r ∈ rest, ∀ v ∈ r.2, ¬ Visible v) : b = a := by
  induction h with
  | last hg hT => exact (textDrawn_blank ht hT hv).trans (graphicsOn_blank hg hv)
  | next hg hT _ ih =>
    rw [ih (hr _ (List.mem_cons_self ..)) (fun r h => hr r (List.mem_cons_of_mem _ h))]
    exact (textDrawn_blank ht hT hv).trans (graphicsOn_blank hg hv)

theorem sections_all {vs : List Value} {P : Value → Prop} (h : ∀ v ∈ vs, P v) :
    (∀ v ∈ (sections vs).1, P v) ∧ ∀ r ∈ (sections vs).2, ∀ v ∈ r.2, P v := by
  induction vs with
  | nil => simp [sections]
  | cons v vs ih =>
    have hi := ih (fun v hv => h v (by simp [hv]))
    have hv := h v (by simp)
    by_cases hr : ∃ r, v = .textRectangle r
    · obtain ⟨r, rfl⟩ := hr
      refine ⟨by simp [sections], fun r hr => ?_⟩
      rcases List.mem_cons.1 hr with rfl | hr
      · exact hi.1
      · exact hi.2 r hr
    · rw [sections_cons (fun r e => hr ⟨r, e⟩)]
      exact ⟨fun w hw => (List.mem_cons.1 hw).elim (fun e => e ▸ hv) (hi.1 w), hi.2⟩

/-- a run whose ON pages are blank in the background color in effect -/
theorem steps_blank {d pg xs pg'} (h : Steps d pg xs pg')
    (Q : Pages → Prop) (hQ0 : Q pg)
    (hQ : ∀ pg page pg1, Q pg → Pages.next d pg = .ok (some (.ok page), pg1) → Q pg1 ∧
      (isOn pg.pageState = true → page.raster = blankRaster d pg1.renderState.colorCtx.bgCurrent))
    (hd : SignState d pg.defaultState pg.renderState)
    (hv : pg.pageState = .done ∨ pg.pageState = .off false → pg.values = [])
    (hn : NoError xs) (hend : pg'.pageState = .done) :
    ∃ vs, Parses pg.values vs ∧ ShowsBlank d xs (scheduleFrom d pg vs) := by
  induction h with
  | nil =>
    rw [hv (.inl hend)]
    exact ⟨[], .nil, by simp [scheduleFrom, hend, ShowsBlank]⟩
  | @cons pg pg1 pg' x xs hx hs ih =>
    have hn1 : NoError xs := fun y hy => hn y (List.mem_cons_of_mem _ hy)
    obtain ⟨p, rfl⟩ : ∃ p, x = .ok p := hn _ (List.mem_cons_self ..)
    obtain ⟨hq, hras⟩ := hQ pg p pg1 hQ0 hx
    rcases next_cases hx with ⟨hon, h1⟩ | ⟨hoff, ⟨b, hb⟩, hp, rfl⟩
    · have hras := hras hon
      obtain ⟨vs, rest, b, ho⟩ := renderOnPage_ok h1
      have hv1 := onPage_rest ho
      obtain ⟨hd1, -, hbg⟩ := ho.attr hd
      obtain ⟨ws, hw, ht⟩ := ih hq hd1 hv1 hn1 hend
      rw [ho.values] at hw
      obtain ⟨us, hu, hsp⟩ := takePage_split ho.take ws hw
      refine ⟨us, hu, ?_⟩
      have e0 : scheduleFrom d pg us = schedule (signPage d)
          ((pg.renderState.pageOnTimeDs, pg.renderState.pageOffTimeDs),
            pg.renderState.colorCtx.bgCurrent) (splitPages us) := by
        unfold scheduleFrom
        cases hps : pg.pageState <;> simp_all [isOn]
      have et := ho.times
      rw [hd.ds] at et
      have et' : pageTimes (signPage d).1
          (pg.renderState.pageOnTimeDs, pg.renderState.pageOffTimeDs) vs =
          (pg1.renderState.pageOnTimeDs, pg1.renderState.pageOffTimeDs) := et.symm
      have ec : background (signPage d).2 pg.renderState.colorCtx.bgCurrent vs =
          pg1.renderState.colorCtx.bgCurrent := hbg.symm
      rw [e0, hsp]
      simp only [schedule, et', ec, ShowsBlank]
      refine ⟨hon, ho.duration, fun i j => by rw [hras]; rfl, fun _ => by rw [hras]; exact ⟨rfl, rfl⟩, ?_⟩
      have es := ho.state
      unfold scheduleFrom at ht
      rw [es] at ht
      by_cases hz : pg1.renderState.pageOffTimeDs > 0
      · rw [if_pos ((u8_pos_iff _).1 hz)]
        cases b
        · simpa [hz, PageState.doneState, schedule] using ht
        · simpa [hz, PageState.newPage] using ht
      · rw [if_neg (fun h => hz ((u8_pos_iff _).2 h))]
        cases b
        · simpa [hz, PageState.doneState, schedule] using ht
        · simpa [hz, PageState.newPage] using ht
    · have hv1 : (renderOffPage pg).2.pageState = .done ∨
          (renderOffPage pg).2.pageState = .off false → (renderOffPage pg).2.values = [] := by
        intro hh
        cases b with
        | true => simp [renderOffPage, hb, PageState.nextState] at hh
        | false => exact hv (.inr hb)
      obtain ⟨ws, hw, ht⟩ := ih hq (by exact ⟨hd.ds, hd.fg, hd.bg, hd.scheme⟩) hv1 hn1 hend
      refine ⟨ws, hw, ?_⟩
      simp only [Except.ok.injEq] at hp
      have hpx : ∀ i j, p.raster.px i j =
          Spec.backgroundRgb d pg.renderState.colorCtx.bgCurrent := by
        intro i j; rw [hp, ← backgroundRgb_sign hd]; rfl
      cases b with
      | true =>
        simp only [scheduleFrom, hb, ShowsBlank]
        refine ⟨by simp [isOn], by rw [hp]; rfl, hpx, by simp [isOn], ?_⟩
        simpa [scheduleFrom, renderOffPage, hb, PageState.nextState] using ht
      | false =>
        simp only [scheduleFrom, hb, ShowsBlank]
        refine ⟨by simp [isOn], by rw [hp]; rfl, hpx, by simp [isOn], ?_⟩
        simpa [scheduleFrom, renderOffPage, hb, PageState.nextState] using ht

theorem consumed_blank {ms rest us} (h : Consumed (slices ms) rest us) (hb : isBlank ms = .ok true) :
    ∀ v ∈ us, ¬ Visible v := by
  obtain ⟨pre, e, hp⟩ := h
  have hb := (C12_blank_iff ms).1 hb
  unfold values at hb
  rw [e] at hb
  clear e
  induction hp with
  | nil => simp
  | @cons s v ss vs hv _ ih =>
    intro w hw
    rcases List.mem_cons.1 hw with rfl | hw
    · obtain ⟨v', e, hn⟩ := hb (tryFrom s) (by simp)
      rw [hv] at e
      simp only [Res.ok.injEq, Except.ok.injEq] at e
      subst e; exact hn
    · exact ih (fun x hx => hb x (List.mem_cons_of_mem _ hx)) w hw

theorem consumed_unique {ss rest us vs} (h : Consumed ss rest us) (h' : Consumed ss rest vs) : us = vs := by
  obtain ⟨p, e, h1⟩ := h
  obtain ⟨q, e', h2⟩ := h'
  rw [e] at e'
  obtain rfl := List.append_cancel_right e'
  exact parses_unique h1 h2

/-- **C80** a message that `is_blank` accepts, on a sign whose white space characters have no lit pixel: when it is shown
without error, all pages are blank.  They are the pages of its page time tags, in the background color of each page. -/
theorem C80_blank (d : Dms) (hf : FontsOk d.fontDefinition) (h0 : 1 ≤ d.multiCfg.defaultFont.toNat) (W H : Nat)
    (hg : GraphicsOk W H d.graphicDefinition) (hc : ClearSpaces d.fontDefinition) (ms : Str)
    (hb : isBlank ms = .ok true) (xs) (h : Yields d ms xs) (hn : NoError xs) :
    ∃ vs, Parses (slices ms) vs ∧ ShowsBlank d xs (schedule (signPage d) (signPage d) (splitPages vs)) := by
  obtain ⟨pg', hs, he⟩ := h
  obtain ⟨vs, h1, h2⟩ := steps_blank hs (fun pg => ∃ xs, Steps d (Pages.new d ms) xs pg ∧ NoError xs)
    ⟨[], .nil, by simp [NoError]⟩ (by
      rintro pg page pg1 ⟨ys, hs, hn⟩ hx
      have hs1 : Steps d (Pages.new d ms) (ys ++ [(isOn pg.pageState, .ok page)]) pg1 :=
        Spec.Steps.append hs (.cons hx .nil)
      have hn1 : NoError (ys ++ [(isOn pg.pageState, .ok page)]) := by
        intro y hy
        rcases List.mem_append.1 hy with hy | hy
        · exact hn y hy
        · rw [List.mem_singleton] at hy; exact ⟨page, by rw [hy]⟩
      refine ⟨⟨_, hs1, hn1⟩, fun hon => ?_⟩
      obtain ⟨us, vs, b, c1, c2, c3⟩ := C66_page d hf h0 W H hg ms ys pg page pg1 hs hn hon hx
      have hv : ∀ v ∈ vs, ¬ Visible v := fun v hv => consumed_blank
        (consumed_trans c1 (takePage_consumed c2)) hb v (by cases b <;> simp [hv])
      have hv' := sections_all hv
      have c4 := composed_blank hc c3 hv'.1 hv'.2
      rw [c4]
      obtain ⟨ws, c5, -, e, -⟩ := C53_carry d ms _ pg1 hs1 hn1
      have e1 := consumed_unique c5 (consumed_trans c1 (takePage_consumed c2))
      have e2 : background (signPage d).2 (signPage d).2 (us ++ vs) = pg1.renderState.colorCtx.bgCurrent := by
        rw [e, e1]
        cases b
        · rfl
        · simp [background]
      rw [e2]; rfl)
    (signState_new d ms) (by simp [Pages.new]) hn (next_none he).1
  refine ⟨vs, h1, ?_⟩
  have e : (.ofRgb d.backgroundDefaultRgb : Color) = .ofRgb (signBackground d) := by
    rw [backgroundDefault_eq]
  have e2 : scheduleFrom d (Pages.new d ms) vs = schedule (signPage d)
      ((d.multiCfg.defaultPageOnTime, d.multiCfg.defaultPageOffTime), .ofRgb d.backgroundDefaultRgb)
      (splitPages vs) := rfl
  rw [e2, e] at h2
  exact h2

theorem clearSpaces_of {t : FontTable} (h : (t.all fun f => f.characters.all fun e =>
    !((decide (9 ≤ e.number.toNat) && decide (e.number.toNat ≤ 13)) || decide (e.number.toNat = 32) ||
      decide (e.number.toNat = 0x85) || decide (e.number.toNat = 0xA0)) ||
    (List.range f.height.toNat).all fun row => (List.range e.width.toNat).all fun col =>
      !bit e.bitmap (row * e.width.toNat + col)) = true) : ClearSpaces t := by
  intro f hf e he c hc hs row col hr hw
  have h1 := List.all_eq_true.1 (List.all_eq_true.1 h f hf) e he
  rw [Bool.or_eq_true] at h1
  rcases h1 with h1 | h1
  · unfold IsSpace at hs
    rw [← hc] at hs
    simp at h1; omega
  · have := List.all_eq_true.1 (List.all_eq_true.1 h1 row (List.mem_range.2 hr)) col (List.mem_range.2 hw)
    simpa using this

-- the hypotheses of C80
example : FontsOk fullDms.fontDefinition := (C20_accepts_iff _).mp (by decide +kernel)
example : GraphicsOk 60 30 fullDms.graphicDefinition := (C21_accepts_iff _ 60 30).mp (by decide +kernel)
example : ClearSpaces fullDms.fontDefinition := clearSpaces_of (by decide +kernel)
example : isBlank c!"[pb255,0,0][pt10o5] [nl] [np][cb] [tr1,1,10,10][jl3] " = .ok true := by decide +kernel
example : summary fullDms c!"[pb255,0,0][pt10o5] [nl] [np][cb] [tr1,1,10,10][jl3] " =
    some [(true, some (60, 30, 10)), (false, some (60, 30, 5)), (true, some (60, 30, 10)), (false, some (10, 10, 5))] := by
  decide +kernel
example : pixels fullDms c!"[pb255,0,0][pt10o5] [nl] [np]" [(0, 0), (3, 4), (59, 29)] =
    [(255, 0, 0), (255, 0, 0), (255, 0, 0)] := by decide +kernel
-- not blank
example : isBlank c!"[pb255,0,0] A" = .ok false := by decide +kernel
example : isBlank c!"[hc20]" = .ok false := by decide +kernel

end Ntcip
