import Verif.Spec.Pages
import Verif.Lemmas.Graphics
/-
Lemmas on the state machine of `Pages`.
-/
namespace Ntcip
open Spec

/-- the values of the first page in a list of items, the items after it, and whether it ends with
`[np]` -/
inductive TakePage : List Str → List Value → List Str → Bool → Prop
  | nil : TakePage [] [] [] false
  | np {s ss} : tryFrom s = .ok (.ok .newPage) → TakePage (s :: ss) [] ss true
  | cons {s v ss vs rest b} : tryFrom s = .ok (.ok v) → v ≠ .newPage → TakePage ss vs rest b →
      TakePage (s :: ss) (v :: vs) rest b

theorem takePage_unique {ss vs rest b vs' rest' b'} (h : TakePage ss vs rest b)
    (h' : TakePage ss vs' rest' b') : vs = vs' ∧ rest = rest' ∧ b = b' := by
  induction h generalizing vs' rest' b' with
  | nil => cases h'; exact ⟨rfl, rfl, rfl⟩
  | np hs =>
    cases h' with
    | np => exact ⟨rfl, rfl, rfl⟩
    | cons hv hne _ => rw [hs] at hv; simp_all
  | cons hs hne _ ih =>
    cases h' with
    | np hv => rw [hs] at hv; simp_all
    | cons hv _ ht =>
      rw [hs] at hv
      obtain ⟨rfl, rfl, rfl⟩ := ih ht
      simp_all

theorem splitPages_ne_nil (vs : List Value) : splitPages vs ≠ [] := by
  cases vs with
  | nil => simp [splitPages]
  | cons v vs => unfold splitPages; split; simp; split <;> simp

theorem takePage_split {ss vs rest b} (h : TakePage ss vs rest b) (ws : List Value)
    (hr : Parses rest ws) :
    ∃ us, Parses ss us ∧ splitPages us = vs :: (if b then splitPages ws else []) := by
  induction h with
  | nil => cases hr; exact ⟨[], .nil, by simp [splitPages]⟩
  | np hs => exact ⟨_, .cons hs hr, by simp [splitPages]⟩
  | cons hs hne _ ih =>
    obtain ⟨us, hu, he⟩ := ih hr
    exact ⟨_, .cons hs hu, by simp only [splitPages]; rw [if_neg hne, he]⟩

/-! ### rasters -/

/-- same size, and every pixel has kept its color or got `c` -/
structure Painted (c : Rgb → Prop) (r r' : Raster) : Prop where
  width : r'.width = r.width
  height : r'.height = r.height
  px : ∀ i j, r'.px i j = r.px i j ∨ c (r'.px i j)

theorem Painted.refl {c} (r : Raster) : Painted c r r := ⟨rfl, rfl, fun _ _ => .inl rfl⟩

theorem Painted.trans {c r s t} (h : Painted c r s) (h' : Painted c s t) : Painted c r t :=
  ⟨h'.width.trans h.width, h'.height.trans h.height, fun i j => by
    rcases h'.px i j with e | e
    · rw [e]; exact h.px i j
    · exact .inr e⟩

theorem Painted.mono {c c' : Rgb → Prop} {r s} (h : Painted c r s) (hc : ∀ x, c x → c' x) :
    Painted c' r s := ⟨h.width, h.height, fun i j => (h.px i j).imp id (hc _)⟩

theorem setPx_painted {r r' : Raster} {x y : Nat} {c : Rgb} (h : r.setPx x y c = .ok r') :
    Painted (· = c) r r' := by
  unfold Raster.setPx at h
  split at h
  · simp only [Res.ok.injEq] at h; subst h
    refine ⟨rfl, rfl, fun i j => ?_⟩
    by_cases hh : i = x ∧ j = y
    · right; simp [hh]
    · left; simp [hh]
  · simp at h

theorem renderBits_painted {w h x y cf b n r xx yy r' xx' yy'}
    (hr : CharacterEntry.renderBits w h x y cf b n r xx yy = .ok (r', xx', yy')) :
    Painted (· = cf) r r' := by
  induction n generalizing r xx yy with
  | zero => simp only [CharacterEntry.renderBits, Res.ok.injEq, Prod.mk.injEq] at hr
            rw [hr.1]; exact .refl _
  | succ n ih =>
    have hstep : ∀ r1, Painted (· = cf) r r1 →
        (if xx + 1 ≥ w then
          if yy + 1 ≥ h then pure (r1, 0, yy + 1)
          else CharacterEntry.renderBits w h x y cf b n r1 0 (yy + 1)
        else CharacterEntry.renderBits w h x y cf b n r1 (xx + 1) yy) = Res.ok (r', xx', yy') →
        Painted (· = cf) r r' := by
      intro r1 h1 hh
      split at hh
      · split at hh
        · simp only [Res.pure_eq, Res.ok.injEq, Prod.mk.injEq] at hh; rw [← hh.1]; exact h1
        · exact h1.trans (ih hh)
      · exact h1.trans (ih hh)
    unfold CharacterEntry.renderBits at hr
    by_cases hb : CharacterEntry.bitAt b n = true
    · simp only [hb, if_true, Res.bind_eq_ok] at hr
      obtain ⟨r1, h1, h2⟩ := hr
      exact hstep r1 (setPx_painted h1) h2
    · simp only [hb, if_false, Res.pure_eq, Res.ok_bind, Bool.false_eq_true] at hr
      exact hstep r (.refl _) hr

theorem renderBytes_painted {w h x y cf bs r xx yy r'}
    (hr : CharacterEntry.renderBytes w h x y cf bs r xx yy = .ok r') : Painted (· = cf) r r' := by
  induction bs generalizing r xx yy with
  | nil => simp only [CharacterEntry.renderBytes, Res.ok.injEq] at hr; rw [hr]; exact .refl _
  | cons b bs ih =>
    simp only [CharacterEntry.renderBytes, Res.bind_eq_ok] at hr
    obtain ⟨⟨r1, x1, y1⟩, h1, h2⟩ := hr
    exact (renderBits_painted h1).trans (ih h2)

theorem renderTextLoop_painted {f : Font} {x y cs cf text page xx r}
    (hr : Font.renderTextLoop f x y cs cf page xx text = .ok r) : Painted (· = cf) page r := by
  induction text generalizing page xx with
  | nil => simp only [Font.renderTextLoop, Out.ok.injEq] at hr; rw [hr]; exact .refl _
  | cons ch rest ih =>
    unfold Font.renderTextLoop at hr
    split at hr
    · simp at hr
    · simp only [Out.bind_eq_ok, Out.ofRes_eq_ok] at hr
      obtain ⟨p1, h1, h2⟩ := hr
      exact (renderBytes_painted h1).trans (ih h2)

theorem mapErr_eq_ok {ε δ α : Type} {f : ε → δ} {o : Out ε α} {a : α} :
    o.mapErr f = .ok a ↔ o = .ok a := by cases o <;> simp

theorem mapErr_eq_panic {ε δ α : Type} {f : ε → δ} {o : Out ε α} {p : Panic} :
    o.mapErr f = .panic p ↔ o = .panic p := by cases o <;> simp

theorem mapErr_eq_err {ε δ α : Type} {f : ε → δ} {o : Out ε α} {e : δ} :
    o.mapErr f = .err e ↔ ∃ e', o = .err e' ∧ f e' = e := by cases o <;> simp

theorem span_renderText_painted {s : Span} {raster font x y r}
    (hr : s.renderText raster font x y = .ok r) :
    Painted (· = s.state.colorCtx.foregroundRgb) raster r := by
  unfold Span.renderText Font.renderText at hr
  rw [mapErr_eq_ok] at hr
  exact renderTextLoop_painted hr

theorem renderSpansLoop_painted {d : Dms} {all spans raster r}
    (hr : renderSpansLoop d all spans raster = .ok r) :
    Painted (fun c => ∃ s ∈ spans, c = s.state.colorCtx.foregroundRgb) raster r := by
  induction spans generalizing raster with
  | nil => simp only [renderSpansLoop, Out.ok.injEq] at hr; rw [hr]; exact .refl _
  | cons s rest ih =>
    simp only [renderSpansLoop, Out.bind_eq_ok] at hr
    obtain ⟨x, _, y, _, f, _, r1, h1, h2⟩ := hr
    refine .trans ((span_renderText_painted h1).mono ?_) ((ih h2).mono ?_)
    · rintro c rfl; exact ⟨s, by simp, rfl⟩
    · rintro c ⟨s, hs, rfl⟩; exact ⟨s, List.mem_cons_of_mem _ hs, rfl⟩

theorem renderTextSpans_painted {d : Dms} {spans raster r}
    (hr : renderTextSpans d spans raster = .ok r) :
    Painted (fun c => ∃ s ∈ spans, c = s.state.colorCtx.foregroundRgb) raster r := by
  unfold renderTextSpans at hr
  split at hr
  · simp at hr
  · exact renderSpansLoop_painted hr

theorem renderRect_painted {raster rect clr value r}
    (hr : renderRect raster rect clr value = .ok r) : Painted (· = clr) raster r := by
  unfold renderRect at hr
  split at hr
  · simp at hr
  · split at hr
    · simp at hr
    · simp only [Out.bind_eq_ok, Out.ofRes_eq_ok] at hr
      obtain ⟨i, _, h⟩ := hr
      split at h
      · simp only [Out.pure_eq, Out.ok.injEq] at h; subst h
        refine ⟨rfl, rfl, fun i j => ?_⟩
        simp only [Raster.copyColor]
        split
        · right; rfl
        · left; rfl
      · simp at h

theorem renderLoop_painted {g : Graphic} {ctx x y pts page r}
    (hr : Graphic.renderLoop g ctx x y pts page = .ok r) :
    Painted (fun c => ∃ xx yy, g.pixelFn xx yy ctx = .ok (some c)) page r := by
  induction pts generalizing page with
  | nil => simp only [Graphic.renderLoop, Res.ok.injEq] at hr; rw [hr]; exact .refl _
  | cons p rest ih =>
    obtain ⟨xx, yy⟩ := p
    rw [renderLoop_cons] at hr
    simp only [Res.bind_eq_ok] at hr
    obtain ⟨clr, hc, r1, h1, h2⟩ := hr
    cases clr with
    | some c =>
      refine .trans ((setPx_painted h1).mono ?_) (ih h2)
      rintro _ rfl; exact ⟨xx, yy, hc⟩
    | none =>
      simp only [Res.pure_eq, Res.ok.injEq] at h1
      subst h1; exact ih h2

theorem renderGraphic_painted {g : Graphic} {page x y ctx r}
    (hr : g.renderGraphic page x y ctx = .ok r) :
    Painted (fun c => ∃ xx yy, g.pixelFn xx yy ctx = .ok (some c)) page r := by
  unfold Graphic.renderGraphic at hr
  split at hr
  · simp at hr
  · split at hr
    · simp at hr
    · rw [Out.ofRes_eq_ok] at hr
      exact renderLoop_painted hr

/-- Color contexts with the invariant `I` paint with colors in `P` only -/
structure Palette (d : Dms) (I : ColorCtx → Prop) (P : Rgb → Prop) : Prop where
  fg : ∀ ctx c v ctx', I ctx → ctx.setForeground c v = .ok ctx' → I ctx'
  bg : ∀ ctx c v ctx', I ctx → ctx.setBackground c v = .ok ctx' → I ctx'
  paint : ∀ ctx, I ctx → P ctx.foregroundRgb
  back : ∀ ctx, I ctx → P ctx.backgroundRgb
  graphic : ∀ ctx g x y c, I ctx → g ∈ d.graphicDefinition → g.pixelFn x y ctx = .ok (some c) → P c

theorem palette_true (d : Dms) : Palette d (fun _ => True) (fun _ => True) :=
  ⟨fun _ _ _ _ _ _ => trivial, fun _ _ _ _ _ _ => trivial, fun _ _ => trivial, fun _ _ => trivial,
    fun _ _ _ _ _ _ _ _ => trivial⟩

theorem ofExcept_eq_ok {ε α : Type} {x : Except ε α} {a : α} : ofExcept x = .ok a ↔ x = .ok a := by
  cases x <;> simp [ofExcept]

theorem ofExcept_eq_err {ε α : Type} {x : Except ε α} {e : ε} : ofExcept x = .err e ↔ x = .error e := by
  cases x <;> simp [ofExcept]

theorem ofExcept_ne_panic {ε α : Type} {x : Except ε α} {p : Panic} : ofExcept x ≠ .panic p := by
  cases x <;> simp [ofExcept]

theorem lookupGraphic_mem {d : Dms} {gn gid g} (h : lookupGraphic d gn gid = .ok g) :
    g ∈ d.graphicDefinition := by
  unfold lookupGraphic GraphicTable.graphic at h
  split at h
  · rename_i g' hg; simp only [Out.ok.injEq] at h; subst h; exact List.mem_of_find?_eq_some hg
  · rename_i g' gid hg; split at h
    · simp only [Out.ok.injEq] at h; subst h; exact List.mem_of_find?_eq_some hg
    · simp at h
  · simp at h

theorem renderGraphicsLoop_painted {d : Dms} {I P} (hp : Palette d I P) {ss ctx raster r}
    (hi : I ctx) (hr : renderGraphicsLoop d ss ctx raster = .ok r) : Painted P raster r := by
  induction ss generalizing ctx raster with
  | nil => simp only [renderGraphicsLoop, Out.ok.injEq] at hr; rw [hr]; exact .refl _
  | cons s rest ih =>
    unfold renderGraphicsLoop at hr
    simp only [Out.bind_eq_ok, Out.ofRes_eq_ok, ofExcept_eq_ok] at hr
    obtain ⟨value, _, val, rfl, hr⟩ := hr
    split at hr
    · simp only [Out.bind_eq_ok, ofExcept_eq_ok] at hr
      obtain ⟨ctx', h1, h2⟩ := hr
      exact ih (hp.bg _ _ _ _ hi h1) h2
    · simp only [Out.bind_eq_ok, ofExcept_eq_ok] at hr
      obtain ⟨ctx', h1, h2⟩ := hr
      exact ih (hp.fg _ _ _ _ hi h1) h2
    · simp only [Out.bind_eq_ok, ofExcept_eq_ok] at hr
      obtain ⟨ctx', h1, r1, h2, h3⟩ := hr
      refine .trans ((renderRect_painted h2).mono ?_) (ih hi h3)
      rintro _ rfl
      exact hp.paint _ (hp.fg _ _ _ _ hi h1)
    · simp at hr
    · simp at hr
    · simp at hr
    · simp only [Out.bind_eq_ok, mapErr_eq_ok] at hr
      obtain ⟨g, h1, r1, h2, h3⟩ := hr
      refine .trans ((renderGraphic_painted h2).mono ?_) (ih hi h3)
      rintro c ⟨x, y, hc⟩
      exact hp.graphic _ _ _ _ _ hi (lookupGraphic_mem h1) hc
    · simp only [Out.bind_eq_ok, mapErr_eq_ok] at hr
      obtain ⟨g, h1, r1, h2, h3⟩ := hr
      refine .trans ((renderGraphic_painted h2).mono ?_) (ih hi h3)
      rintro c ⟨x, y, hc⟩
      exact hp.graphic _ _ _ _ _ hi (lookupGraphic_mem h1) hc
    · simp at hr
    · simp at hr
    · simp at hr
    · simp only [Out.ok.injEq] at hr; rw [hr]; exact .refl _
    · simp only [Out.ok.injEq] at hr; rw [hr]; exact .refl _
    · exact ih hi hr

/-! ### `update_page_state` -/

/-- `update_page_state` succeeds exactly on a valid page, sets the page times and changes nothing
else but the background color -/
theorem updatePageStateLoop_ok {ds : RenderState} {ss rs rs'}
    (h : updatePageStateLoop ds ss rs = .ok (.ok (), rs')) :
    ∃ vs rest b, TakePage ss vs rest b ∧
      (rs'.pageOnTimeDs, rs'.pageOffTimeDs) =
        pageTimes (ds.pageOnTimeDs, ds.pageOffTimeDs) (rs.pageOnTimeDs, rs.pageOffTimeDs) vs ∧
      rs' = { rs with colorCtx := rs'.colorCtx, pageOnTimeDs := rs'.pageOnTimeDs,
                      pageOffTimeDs := rs'.pageOffTimeDs } ∧
      ∀ (I : ColorCtx → Prop), (∀ ctx c v ctx', I ctx → ctx.setBackground c v = .ok ctx' → I ctx') →
        I rs.colorCtx → I rs'.colorCtx := by
  induction ss generalizing rs with
  | nil =>
    simp only [updatePageStateLoop, Res.ok.injEq, Prod.mk.injEq, true_and] at h
    subst h
    exact ⟨[], [], false, .nil, rfl, rfl, fun _ _ h => h⟩
  | cons s ss ih =>
    unfold updatePageStateLoop at h
    split at h
    · simp at h
    · simp at h
    · rename_i val hv
      split at h
      · split at h
        · rename_i ctx hc
          obtain ⟨vs, rest, b, h1, h2, h3, h4⟩ := ih h
          exact ⟨_, rest, b, .cons hv (by simp) h1, by simpa [pageTimes] using h2, h3,
            fun I hI h0 => h4 I hI (hI _ _ _ _ h0 hc)⟩
        · simp at h
      · split at h
        · rename_i ctx hc
          obtain ⟨vs, rest, b, h1, h2, h3, h4⟩ := ih h
          exact ⟨_, rest, b, .cons hv (by simp) h1, by simpa [pageTimes] using h2, h3,
            fun I hI h0 => h4 I hI (hI _ _ _ _ h0 hc)⟩
        · simp at h
      · simp only [Res.ok.injEq, Prod.mk.injEq, true_and] at h
        subst h
        exact ⟨[], ss, true, .np hv, rfl, rfl, fun _ _ h => h⟩
      · obtain ⟨vs, rest, b, h1, h2, h3, h4⟩ := ih h
        exact ⟨_, rest, b, .cons hv (by simp) h1, by simpa [pageTimes] using h2, h3, h4⟩
      · rename_i hne1 hne2 hne3 hne4
        obtain ⟨vs, rest, b, h1, h2, h3, h4⟩ := ih h
        refine ⟨_, rest, b, .cons hv hne3 h1, ?_, h3, h4⟩
        rw [h2]
        unfold pageTimes
        rw [List.foldl_cons]
        split
        · rename_i on off; exact absurd rfl (hne4 on off)
        · rfl

/-! ### `render_text_rectangle` -/

/-- what a round that goes on leaves as it was -/
structure Kept (v : Value) (st st' : Rtr) : Prop where
  notPage : v ≠ .newPage
  notRect : ∀ r, v ≠ .textRectangle r
  pageState : st'.pageState = st.pageState
  onTime : st'.rs.pageOnTimeDs = st.rs.pageOnTimeDs
  offTime : st'.rs.pageOffTimeDs = st.rs.pageOffTimeDs
  rect : st'.rs.textRectangle = st.rs.textRectangle
  spans : ∀ s ∈ st'.spans, s ∈ st.spans ∨ s.state = st.rs
  colors : ∀ (I : ColorCtx → Prop),
    (∀ ctx c v ctx', I ctx → ctx.setForeground c v = .ok ctx' → I ctx') →
    I st.rs.colorCtx → I st'.rs.colorCtx

theorem rtrStep_cont {d ds po st v st'} (h : rtrStep d ds po st v = .ok (.cont, st')) :
    Kept v st st' := by
  unfold rtrStep at h
  split at h <;> dsimp only at h
  · split at h
    · rename_i ctx hc
      simp only [Res.ok.injEq, Prod.mk.injEq, true_and] at h; subst h
      exact ⟨by simp, by simp, rfl, rfl, rfl, rfl, fun s hs => .inl hs,
        fun I hI h => hI _ _ _ _ h hc⟩
    · simp at h
  · simp only [Res.ok.injEq, Prod.mk.injEq, true_and] at h; subst h
    exact ⟨by simp, by simp, rfl, rfl, rfl, rfl, fun s hs => .inl hs, fun _ _ h => h⟩
  · simp only [Res.ok.injEq, Prod.mk.injEq, true_and] at h; subst h
    exact ⟨by simp, by simp, rfl, rfl, rfl, rfl, fun s hs => .inl hs, fun _ _ h => h⟩
  · simp at h
  · simp at h
  · simp only [Res.ok.injEq, Prod.mk.injEq, true_and] at h; subst h
    exact ⟨by simp, by simp, rfl, rfl, rfl, rfl, fun s hs => .inl hs, fun _ _ h => h⟩
  · simp at h
  · split at h
    · simp only [Res.ok.injEq, Prod.mk.injEq, true_and] at h; subst h
      exact ⟨by simp, by simp, rfl, rfl, rfl, rfl, fun s hs => .inl hs, fun _ _ h => h⟩
    · simp only [Res.ok.injEq, Prod.mk.injEq, true_and] at h; subst h
      exact ⟨by simp, by simp, rfl, rfl, rfl, rfl, fun s hs => .inl hs, fun _ _ h => h⟩
  · split at h
    · simp at h
    · simp only [Res.bind_eq_ok, Res.pure_eq, Res.ok.injEq, Prod.mk.injEq, true_and] at h
      obtain ⟨ln, _, rfl⟩ := h
      refine ⟨by simp, by simp, rfl, rfl, rfl, rfl, fun s hs => ?_, fun _ _ h => h⟩
      dsimp only at hs
      split at hs
      · simp only [List.mem_append, List.mem_singleton] at hs
        rcases hs with hs | rfl
        · exact .inl hs
        · exact .inr rfl
      · exact .inl hs
  · simp at h
  · split at h
    · simp at h
    · simp only [Res.ok.injEq, Prod.mk.injEq, true_and] at h; subst h
      exact ⟨by simp, by simp, rfl, rfl, rfl, rfl, fun s hs => .inl hs, fun _ _ h => h⟩
  · simp only [Res.ok.injEq, Prod.mk.injEq, true_and] at h; subst h
    exact ⟨by simp, by simp, rfl, rfl, rfl, rfl, fun s hs => .inl hs, fun _ _ h => h⟩
  · simp only [Res.bind_eq_ok] at h
    obtain ⟨o, _, h⟩ := h
    cases o <;> simp at h
  · simp only [Res.bind_eq_ok, Res.pure_eq, Res.ok.injEq, Prod.mk.injEq, true_and] at h
    obtain ⟨ln, _, rfl⟩ := h
    refine ⟨by simp, by simp, rfl, rfl, rfl, rfl, fun s hs => ?_, fun _ _ h => h⟩
    simp only [List.mem_append, List.mem_singleton] at hs
    rcases hs with hs | rfl
    · exact .inl hs
    · exact .inr rfl
  · split at h
    · simp only [Res.bind_eq_ok, Res.pure_eq, Res.ok.injEq, Prod.mk.injEq, true_and] at h
      obtain ⟨ln, _, rfl⟩ := h
      refine ⟨by simp, by simp, rfl, rfl, rfl, rfl, fun s hs => ?_, fun _ _ h => h⟩
      simp only [List.mem_append, List.mem_singleton] at hs
      rcases hs with hs | rfl
      · exact .inl hs
      · exact .inr rfl
    · simp at h
  · rename_i h1 h2 h3
    simp only [Res.ok.injEq, Prod.mk.injEq, true_and] at h; subst h
    exact ⟨by assumption, by assumption, rfl, rfl, rfl, rfl, fun s hs => .inl hs, fun _ _ h => h⟩

theorem rtrStep_brk {d ds po st v st'} (h : rtrStep d ds po st v = .ok (.brk, st')) :
    (v = .newPage ∧ st' = { st with pageState := .newPage po }) ∨
    (∃ r r', v = .textRectangle r ∧ updateTextRectangle d ds.textRectangle r = .ok (some r') ∧
      st' = { st with pageState := .on false, rs := { st.rs with textRectangle := r', lineNumber := 0,
                                                                  spanNumber := 0 } }) := by
  unfold rtrStep at h
  split at h <;> dsimp only at h
  · split at h <;> simp at h
  · simp at h
  · simp at h
  · simp at h
  · simp at h
  · simp at h
  · simp at h
  · split at h <;> simp at h
  · split at h <;> simp at h
  · simp only [Res.ok.injEq, Prod.mk.injEq, true_and] at h; exact .inl ⟨rfl, h.symm⟩
  · split at h <;> simp at h
  · simp at h
  · rename_i r
    simp only [Res.bind_eq_ok] at h
    obtain ⟨o, ho, h⟩ := h
    cases o with
    | none => simp at h
    | some r' =>
      simp only [Res.pure_eq, Res.ok.injEq, Prod.mk.injEq, true_and] at h
      exact .inr ⟨r, r', rfl, ho, h.symm⟩
  · simp at h
  · split at h <;> simp at h
  · simp at h

/-- what the loop of `render_text_rectangle` does on a valid page -/
theorem rtrLoop_ok {d ds po} {ss : List Str} {st st' rest'}
    (h : rtrLoop d ds po ss st = .ok (.ok (), st', rest')) :
    (∀ vs rest b, TakePage ss vs rest b →
      (st'.pageState = .on false ∧ ∃ ws us r r', vs = us ++ .textRectangle r :: ws ∧
          (∀ v ∈ us, ∀ r, v ≠ .textRectangle r) ∧
          TakePage rest' ws rest b ∧ updateTextRectangle d ds.textRectangle r = .ok (some r') ∧
          st'.rs.textRectangle = r') ∨
      (rest' = rest ∧ st'.pageState = (if b then .newPage po else st.pageState) ∧
        (∀ v ∈ vs, ∀ r, v ≠ .textRectangle r) ∧
        st'.rs.textRectangle = st.rs.textRectangle)) ∧
    st'.rs.pageOnTimeDs = st.rs.pageOnTimeDs ∧ st'.rs.pageOffTimeDs = st.rs.pageOffTimeDs ∧
    (∀ s ∈ st'.spans, s ∈ st.spans ∨ s.state.textRectangle = st.rs.textRectangle) ∧
    ∀ (I : ColorCtx → Prop),
      (∀ ctx c v ctx', I ctx → ctx.setForeground c v = .ok ctx' → I ctx') →
      I st.rs.colorCtx → I st'.rs.colorCtx ∧ ∀ s ∈ st'.spans, s ∈ st.spans ∨ I s.state.colorCtx := by
  induction ss generalizing st with
  | nil =>
    simp only [rtrLoop, Res.ok.injEq, Prod.mk.injEq, true_and] at h
    obtain ⟨rfl, rfl⟩ := h
    refine ⟨fun vs rest b ht => ?_, rfl, rfl, fun s hs => .inl hs, fun I _ hi => ⟨hi, fun s hs => .inl hs⟩⟩
    cases ht
    exact .inr ⟨rfl, rfl, by simp, rfl⟩
  | cons s ss ih =>
    unfold rtrLoop at h
    split at h
    · simp at h
    · simp at h
    · rename_i v hv
      split at h
      · simp at h
      · rename_i st1 h1
        have k := rtrStep_cont h1
        obtain ⟨i1, i2, i3, i4, i5⟩ := ih h
        refine ⟨fun vs rest b ht => ?_, i2.trans k.onTime, i3.trans k.offTime, fun s hs => ?_,
          fun I hI hi => ?_⟩
        · cases ht with
          | np hs => rw [hv] at hs; simp at hs; exact absurd hs k.notPage
          | cons hs hne ht =>
            rw [hv] at hs; simp only [Res.ok.injEq, Except.ok.injEq] at hs; subst hs
            rcases i1 _ _ _ ht with ⟨j1, ws, us, r, r', rfl, j2, j3, j4⟩ | ⟨j1, j2, j3, j4⟩
            · refine .inl ⟨j1, ws, v :: us, r, r', rfl, ?_, j3, j4⟩
              intro u hu; rcases List.mem_cons.1 hu with rfl | hu
              · exact k.notRect
              · exact j2 u hu
            · refine .inr ⟨j1, by rw [j2, k.pageState], ?_, j4.trans k.rect⟩
              intro u hu; rcases List.mem_cons.1 hu with rfl | hu
              · exact k.notRect
              · exact j3 u hu
        · rcases i4 s hs with h' | h'
          · rcases k.spans s h' with h'' | h''
            · exact .inl h''
            · rw [h'']; exact .inr rfl
          · exact .inr (h'.trans k.rect)
        · obtain ⟨j1, j2⟩ := i5 I hI (k.colors I hI hi)
          refine ⟨j1, fun s hs => ?_⟩
          rcases j2 s hs with h' | h'
          · rcases k.spans s h' with h'' | h''
            · exact .inl h''
            · rw [h'']; exact .inr hi
          · exact .inr h'
      · rename_i st1 h1
        simp only [Res.ok.injEq, Prod.mk.injEq, true_and] at h
        obtain ⟨rfl, rfl⟩ := h
        rcases rtrStep_brk h1 with ⟨rfl, rfl⟩ | ⟨r, r', rfl, hu, rfl⟩
        · refine ⟨fun vs rest b ht => ?_, rfl, rfl, fun s hs => .inl hs,
            fun I _ hi => ⟨hi, fun s hs => .inl hs⟩⟩
          cases ht with
          | np _ => exact .inr ⟨rfl, rfl, by simp, rfl⟩
          | cons hs hne _ => rw [hv] at hs; simp at hs; exact absurd hs.symm hne
        · refine ⟨fun vs rest b ht => ?_, rfl, rfl, fun s hs => .inl hs,
            fun I _ hi => ⟨hi, fun s hs => .inl hs⟩⟩
          cases ht with
          | np hs => rw [hv] at hs; simp at hs
          | cons hs hne ht =>
            rw [hv] at hs; simp only [Res.ok.injEq, Except.ok.injEq] at hs; subst hs
            exact .inl ⟨rfl, _, [], r, r', rfl, by simp, ht, hu, rfl⟩
      · simp at h

/-! ### ON pages -/

/-- the fuel of `onPageLoop` never runs out -/
theorem onPageLoop_fuel (d : Dms) (fuel n : Nat) (pg : Pages) (raster : Raster)
    (h : maxTextRectangles + 1 ≤ fuel + n) (hn : n ≤ maxTextRectangles) :
    onPageLoop d (fuel + 1) n pg raster = onPageLoop d (fuel + 2) n pg raster := by
  induction fuel generalizing n pg raster with
  | zero => omega
  | succ fuel ih =>
    rw [onPageLoop]
    conv => rhs; rw [onPageLoop]
    split
    · split
      · rfl
      · rfl
      · rename_i r1 _
        cases hr : renderTextRectangle d pg r1 with
        | panic p => rfl
        | ok x =>
          obtain ⟨r, pg1⟩ := x
          cases r with
          | error e => rfl
          | ok r2 =>
            simp only [Res.ok_bind]
            split
            · rfl
            · exact ih _ _ _ (by omega) (by omega)
    · rfl

theorem renderTextRectangle_ok {d pg raster r pg'}
    (h : renderTextRectangle d pg raster = .ok (.ok r, pg')) :
    ∃ st values, rtrLoop d pg.defaultState (decide (pg.renderState.pageOffTimeDs > 0)) pg.values
        { rs := pg.renderState,
          pageState := .doneState (decide (pg.renderState.pageOffTimeDs > 0)),
          spans := [], lineBlank := true } = .ok (.ok (), st, values) ∧
      pg' = { pg with renderState := st.rs, pageState := st.pageState, spans := st.spans,
                      values := values } ∧
      renderTextSpans d st.spans raster = .ok r := by
  unfold renderTextRectangle at h
  simp only [Res.bind_eq_ok] at h
  obtain ⟨⟨x, st, values⟩, h1, h2⟩ := h
  cases x with
  | error e => simp at h2
  | ok u =>
    refine ⟨st, values, h1, ?_⟩
    simp only at h2
    split at h2
    · simp at h2
    · simp at h2
    · rename_i r1 h3
      simp only [Res.pure_eq, Res.ok.injEq, Prod.mk.injEq, Except.ok.injEq] at h2
      obtain ⟨rfl, rfl⟩ := h2
      exact ⟨rfl, h3⟩

theorem pageEnd_ne (b po : Bool) :
    (if b = true then PageState.newPage po else PageState.doneState po) ≠ .on false := by
  cases b <;> cases po <;> decide

/-- number of `[tr]` tags -/
def countTr (vs : List Value) : Nat := vs.countP fun v => v matches .textRectangle _

theorem countTr_append (us ws : List Value) : countTr (us ++ ws) = countTr us + countTr ws := by
  simp [countTr]

theorem countTr_zero {us : List Value} (h : ∀ v ∈ us, ∀ r, v ≠ .textRectangle r) : countTr us = 0 := by
  simp only [countTr, List.countP_eq_zero]
  intro v hv
  have := h v hv
  split
  · rename_i r; exact absurd rfl (this r)
  · simp

theorem countTr_cons_tr (r : Rectangle) (ws : List Value) :
    countTr (.textRectangle r :: ws) = countTr ws + 1 := by simp [countTr]

/-- a page rendered without error: everything but pixels and justification -/
theorem onPageLoop_ok {d I P} (hp : Palette d I P) {fuel n pg raster r pg'}
    (h : onPageLoop d fuel n pg raster = .ok (.ok r, pg')) (hf : maxTextRectangles + 1 ≤ fuel + n)
    (hn : n ≤ maxTextRectangles) (hs : pg.pageState = .on false) (hi : I pg.renderState.colorCtx)
    {vs rest b} (ht : TakePage pg.values vs rest b) :
    Painted P raster r ∧ I pg'.renderState.colorCtx ∧
    pg'.defaultState = pg.defaultState ∧
    pg'.renderState.pageOnTimeDs = pg.renderState.pageOnTimeDs ∧
    pg'.renderState.pageOffTimeDs = pg.renderState.pageOffTimeDs ∧
    pg'.values = rest ∧
    pg'.pageState = (if b then PageState.newPage else PageState.doneState)
      (decide (pg.renderState.pageOffTimeDs > 0)) ∧
    n + countTr vs < maxTextRectangles ∧
    (countTr vs = 0 → pg'.renderState.textRectangle = pg.renderState.textRectangle) := by
  induction fuel generalizing n pg raster vs with
  | zero => omega
  | succ fuel ih =>
    rw [onPageLoop, if_pos hs] at h
    split at h
    · simp at h
    · simp at h
    · rename_i r1 hg
      have hg := renderGraphicsLoop_painted hp hi hg
      simp only [Res.bind_eq_ok] at h
      obtain ⟨⟨x, pg1⟩, h1, h2⟩ := h
      cases x with
      | error e => simp at h2
      | ok r2 =>
        obtain ⟨st, values, hl, rfl, hts⟩ := renderTextRectangle_ok h1
        obtain ⟨l1, l2, l3, l4, l5⟩ := rtrLoop_ok hl
        obtain ⟨c1, c2⟩ := l5 I (fun _ _ _ _ h h' => hp.fg _ _ _ _ h h') hi
        have hps : Painted P raster r2 := by
          refine hg.trans ((renderTextSpans_painted hts).mono ?_)
          rintro c ⟨s, hs, rfl⟩
          rcases c2 s hs with h | h
          · simp at h
          · exact hp.paint _ h
        simp only at h2
        split at h2
        · simp at h2
        · rename_i hlt
          rcases l1 _ _ _ ht with ⟨e1, ws, us, q, q', rfl, e2, e3, e4, e5⟩ | ⟨rfl, e1, e2, e3⟩
          · obtain ⟨g1, g2, g3, g4, g5, g6, g7, g8, g9⟩ :=
              ih h2 (by omega) (by omega) e1 c1 e3
            refine ⟨hps.trans g1, g2, g3, g4.trans l2, g5.trans l3, g6, ?_, ?_, ?_⟩
            · rw [g7]; dsimp only; rw [l3]
            · rw [countTr_append, countTr_cons_tr, countTr_zero e2]; omega
            · rw [countTr_append, countTr_cons_tr]; omega
          · have : onPageLoop d fuel (n + 1) { pg with renderState := st.rs, pageState := st.pageState, spans := st.spans, values := values } r2 = .ok (.ok r2, { pg with renderState := st.rs, pageState := st.pageState, spans := st.spans, values := values }) := by
              cases fuel with
              | zero => omega
              | succ f =>
                rw [onPageLoop, if_neg]
                rw [e1]; exact pageEnd_ne b _
            rw [this] at h2
            simp only [Res.ok.injEq, Prod.mk.injEq, Except.ok.injEq] at h2
            obtain ⟨rfl, rfl⟩ := h2
            refine ⟨hps, c1, rfl, l2, l3, rfl, ?_, ?_, fun _ => e3⟩
            · dsimp only; rw [e1]; cases b <;> rfl
            · rw [countTr_zero e2]; omega

theorem tag_field_ne_np (i : UInt8) (w : Option UInt8) : (Value.field i w).tag ≠ some .np := by
  have key : ∀ n : Fin 256, (Value.field (UInt8.ofNat n.val) none).tag ≠ some .np := by decide +kernel
  have := key ⟨i.toNat, i.toNat_lt⟩
  simp only [UInt8.ofNat_toNat] at this
  exact this

theorem tag_np {v : Value} (h : v.tag = some .np) : v = .newPage := by
  cases v
  case field i w => exact absurd h (tag_field_ne_np i w)
  all_goals first | rfl | cases h
theorem checkUnsupported_ok {d : Dms} {ss} (h : checkUnsupported d ss = .ok ()) :
    ∃ vs rest b, TakePage ss vs rest b ∧
      (∀ v ∈ vs, ∀ t, v.tag = some t → d.multiCfg.supportedMultiTags t = true) ∧
      (b = true → d.multiCfg.supportedMultiTags .np = true) := by
  induction ss with
  | nil => exact ⟨[], [], false, .nil, by simp, by simp⟩
  | cons s ss ih =>
    unfold checkUnsupported at h
    simp only [Out.bind_eq_ok, Out.ofRes_eq_ok, ofExcept_eq_ok] at h
    obtain ⟨x, hx, v, rfl, h⟩ := h
    split at h
    · rename_i t ht
      split at h
      · simp at h
      · rename_i hsup
        split at h
        · rename_i hnp; subst hnp
          have : v = .newPage := tag_np ht
          subst this
          exact ⟨[], ss, true, .np hx, by simp, fun _ => by simpa using hsup⟩
        · rename_i hnp
          obtain ⟨vs, rest, b, h1, h2, h3⟩ := ih h
          refine ⟨v :: vs, rest, b, .cons hx ?_ h1, ?_, h3⟩
          · rintro rfl; simp [Value.tag] at ht; exact hnp ht.symm
          · intro u hu t' ht'
            rcases List.mem_cons.1 hu with rfl | hu
            · rw [ht] at ht'; simp only [Option.some.injEq] at ht'; subst ht'; simpa using hsup
            · exact h2 u hu t' ht'
    · rename_i ht
      obtain ⟨vs, rest, b, h1, h2, h3⟩ := ih h
      refine ⟨v :: vs, rest, b, .cons hx ?_ h1, ?_, h3⟩
      · rintro rfl; simp [Value.tag] at ht
      · intro u hu t' ht'
        rcases List.mem_cons.1 hu with rfl | hu
        · rw [ht] at ht'; simp at ht'
        · exact h2 u hu t' ht'

theorem setForeground_fg {ctx ctx' : ColorCtx} {c v} (h : ctx.setForeground c v = .ok ctx') :
    ctx' = { ctx with fgCurrent := c.getD (.ofRgb ctx.fgDefault) } := by
  unfold ColorCtx.setForeground at h
  cases c with
  | none => simpa using h.symm
  | some c =>
    simp only at h
    split at h
    · simpa using h.symm
    · simp at h

theorem setBackground_bg {ctx ctx' : ColorCtx} {c v} (h : ctx.setBackground c v = .ok ctx') :
    ctx' = { ctx with bgCurrent := c.getD (.ofRgb ctx.bgDefault) } := by
  unfold ColorCtx.setBackground at h
  cases c with
  | none => simpa using h.symm
  | some c =>
    simp only at h
    split at h
    · simpa using h.symm
    · simp at h

/-- the default state is that of the sign, and the color context is one of the sign -/
structure SignState (d : Dms) (ds rs : RenderState) : Prop where
  ds : ds = RenderState.new d
  fg : rs.colorCtx.fgDefault = signForeground d
  bg : rs.colorCtx.bgDefault = signBackground d
  scheme : rs.colorCtx.colorScheme = d.multiCfg.colorScheme

theorem rtrStep_attr {d ds po st v st'} (hd : SignState d ds st.rs)
    (h : rtrStep d ds po st v = .ok (.cont, st')) :
    textAttr st'.rs = TextAttr.apply (signAttr d) (textAttr st.rs) v ∧
      st'.rs.colorCtx.bgCurrent = st.rs.colorCtx.bgCurrent ∧ SignState d ds st'.rs := by
  obtain ⟨rfl, hfg, hbg, hsc⟩ := hd
  unfold rtrStep at h
  split at h <;> dsimp only at h
  · split at h
    · rename_i ctx hc
      have e := setForeground_fg hc
      simp only [Res.ok.injEq, Prod.mk.injEq, true_and] at h; subst h; subst e
      refine ⟨?_, rfl, rfl, hfg, hbg, hsc⟩
      simp [textAttr, TextAttr.apply, signAttr, hfg]
    · simp at h
  · simp only [Res.ok.injEq, Prod.mk.injEq, true_and] at h; subst h
    exact ⟨rfl, rfl, rfl, hfg, hbg, hsc⟩
  · simp only [Res.ok.injEq, Prod.mk.injEq, true_and] at h; subst h
    exact ⟨rfl, rfl, rfl, hfg, hbg, hsc⟩
  · simp at h
  · simp at h
  · simp only [Res.ok.injEq, Prod.mk.injEq, true_and] at h; subst h
    exact ⟨rfl, rfl, rfl, hfg, hbg, hsc⟩
  · simp at h
  · rename_i jp _
    split at h
    · simp only [Res.ok.injEq, Prod.mk.injEq, true_and] at h; subst h
      exact ⟨rfl, rfl, rfl, hfg, hbg, hsc⟩
    · rename_i hj
      simp only [Res.ok.injEq, Prod.mk.injEq, true_and] at h; subst h
      refine ⟨?_, rfl, rfl, hfg, hbg, hsc⟩
      have : jp.getD (RenderState.new d).justPage = st.rs.justPage := by
        simpa using hj
      simp only [textAttr, TextAttr.apply, TextAttr.mk.injEq, true_and, and_true]
      exact this.symm
  · split at h
    · simp at h
    · simp only [Res.bind_eq_ok, Res.pure_eq, Res.ok.injEq, Prod.mk.injEq, true_and] at h
      obtain ⟨ln, _, rfl⟩ := h
      exact ⟨rfl, rfl, rfl, hfg, hbg, hsc⟩
  · simp at h
  · split at h
    · simp at h
    · simp only [Res.ok.injEq, Prod.mk.injEq, true_and] at h; subst h
      exact ⟨rfl, rfl, rfl, hfg, hbg, hsc⟩
  · simp only [Res.ok.injEq, Prod.mk.injEq, true_and] at h; subst h
    exact ⟨rfl, rfl, rfl, hfg, hbg, hsc⟩
  · simp only [Res.bind_eq_ok] at h
    obtain ⟨o, _, h⟩ := h
    cases o <;> simp at h
  · simp only [Res.bind_eq_ok, Res.pure_eq, Res.ok.injEq, Prod.mk.injEq, true_and] at h
    obtain ⟨ln, _, rfl⟩ := h
    exact ⟨rfl, rfl, rfl, hfg, hbg, hsc⟩
  · split at h
    · simp only [Res.bind_eq_ok, Res.pure_eq, Res.ok.injEq, Prod.mk.injEq, true_and] at h
      obtain ⟨ln, _, rfl⟩ := h
      exact ⟨rfl, rfl, rfl, hfg, hbg, hsc⟩
    · simp at h
  · simp only [Res.ok.injEq, Prod.mk.injEq, true_and] at h; subst h
    refine ⟨?_, rfl, rfl, hfg, hbg, hsc⟩
    unfold TextAttr.apply
    split <;> simp_all

theorem apply_not_text (dflt a : TextAttr) (r : Rectangle) :
    TextAttr.apply dflt a (.textRectangle r) = a := rfl

theorem rtrLoop_attr {d ds po} {ss : List Str} {st st' rest'} (hd : SignState d ds st.rs)
    (h : rtrLoop d ds po ss st = .ok (.ok (), st', rest')) :
    (∀ vs rest b, TakePage ss vs rest b →
      (st'.pageState = .on false ∧ ∃ ws us, vs = us ++ ws ∧ TakePage rest' ws rest b ∧
          textAttr st'.rs = us.foldl (TextAttr.apply (signAttr d)) (textAttr st.rs)) ∨
      (st'.pageState = (if b then .newPage po else st.pageState) ∧
          textAttr st'.rs = vs.foldl (TextAttr.apply (signAttr d)) (textAttr st.rs))) ∧
    st'.rs.colorCtx.bgCurrent = st.rs.colorCtx.bgCurrent ∧ SignState d ds st'.rs := by
  induction ss generalizing st with
  | nil =>
    simp only [rtrLoop, Res.ok.injEq, Prod.mk.injEq, true_and] at h
    obtain ⟨rfl, rfl⟩ := h
    refine ⟨fun vs rest b ht => ?_, rfl, hd⟩
    cases ht
    exact .inr ⟨rfl, rfl⟩
  | cons s ss ih =>
    unfold rtrLoop at h
    split at h
    · simp at h
    · simp at h
    · rename_i v hv
      split at h
      · simp at h
      · rename_i st1 h1
        have k := rtrStep_cont h1
        obtain ⟨a1, a2, a3⟩ := rtrStep_attr hd h1
        obtain ⟨i1, i2, i3⟩ := ih a3 h
        refine ⟨fun vs rest b ht => ?_, i2.trans a2, i3⟩
        cases ht with
        | np hs => rw [hv] at hs; simp at hs; exact absurd hs k.notPage
        | cons hs hne ht =>
          rw [hv] at hs; simp only [Res.ok.injEq, Except.ok.injEq] at hs; subst hs
          rcases i1 _ _ _ ht with ⟨j1, ws, us, rfl, j3, j4⟩ | ⟨j1, j4⟩
          · exact .inl ⟨j1, ws, v :: us, rfl, j3, by rw [j4, a1, List.foldl_cons]⟩
          · exact .inr ⟨by rw [j1, k.pageState], by rw [j4, a1, List.foldl_cons]⟩
      · rename_i st1 h1
        simp only [Res.ok.injEq, Prod.mk.injEq, true_and] at h
        obtain ⟨rfl, rfl⟩ := h
        rcases rtrStep_brk h1 with ⟨rfl, rfl⟩ | ⟨r, r', rfl, hu, rfl⟩
        · refine ⟨fun vs rest b ht => ?_, rfl, hd⟩
          cases ht with
          | np _ => exact .inr ⟨rfl, rfl⟩
          | cons hs hne _ => rw [hv] at hs; simp at hs; exact absurd hs.symm hne
        · refine ⟨fun vs rest b ht => ?_, rfl, hd.ds, hd.fg, hd.bg, hd.scheme⟩
          cases ht with
          | np hs => rw [hv] at hs; simp at hs
          | cons hs hne ht =>
            rw [hv] at hs; simp only [Res.ok.injEq, Except.ok.injEq] at hs; subst hs
            exact .inl ⟨rfl, _, [.textRectangle r], rfl, ht, rfl⟩
      · simp at h

theorem onPageLoop_attr {d fuel n pg raster r pg'}
    (h : onPageLoop d fuel n pg raster = .ok (.ok r, pg')) (hf : maxTextRectangles + 1 ≤ fuel + n)
    (hn : n ≤ maxTextRectangles) (hs : pg.pageState = .on false)
    (hd : SignState d pg.defaultState pg.renderState)
    {vs rest b} (ht : TakePage pg.values vs rest b) :
    textAttr pg'.renderState = vs.foldl (TextAttr.apply (signAttr d)) (textAttr pg.renderState) ∧
    pg'.renderState.colorCtx.bgCurrent = pg.renderState.colorCtx.bgCurrent ∧
    SignState d pg'.defaultState pg'.renderState := by
  induction fuel generalizing n pg raster vs with
  | zero => omega
  | succ fuel ih =>
    rw [onPageLoop, if_pos hs] at h
    split at h
    · simp at h
    · simp at h
    · rename_i r1 hg
      simp only [Res.bind_eq_ok] at h
      obtain ⟨⟨x, pg1⟩, h1, h2⟩ := h
      cases x with
      | error e => simp at h2
      | ok r2 =>
        obtain ⟨st, values, hl, rfl, hts⟩ := renderTextRectangle_ok h1
        obtain ⟨l1, l2, l3⟩ := rtrLoop_attr (d := d) hd hl
        simp only at h2
        split at h2
        · simp at h2
        · rename_i hlt
          rcases l1 _ _ _ ht with ⟨e1, ws, us, rfl, e3, e4⟩ | ⟨e1, e2⟩
          · obtain ⟨g1, g2, g3⟩ := ih h2 (by omega) (by omega) e1 l3 e3
            exact ⟨by rw [g1, List.foldl_append]; dsimp only; rw [e4], g2.trans l2, g3⟩
          · cases fuel with
            | zero => omega
            | succ f =>
              rw [onPageLoop, if_neg (by dsimp only; rw [e1]; exact pageEnd_ne b _)] at h2
              simp only [Res.ok.injEq, Prod.mk.injEq, Except.ok.injEq] at h2
              obtain ⟨rfl, rfl⟩ := h2
              exact ⟨e2, l2, l3⟩

theorem updatePageStateLoop_bg {d : Dms} {ds : RenderState} {ss rs rs' vs rest b}
    (hd : SignState d ds rs)
    (h : updatePageStateLoop ds ss rs = .ok (.ok (), rs')) (ht : TakePage ss vs rest b) :
    rs'.colorCtx.bgCurrent =
      background (.ofRgb (signBackground d)) rs.colorCtx.bgCurrent vs ∧
    textAttr rs' = textAttr rs ∧ SignState d ds rs' := by
  induction ht generalizing rs with
  | nil =>
    simp only [updatePageStateLoop, Res.ok.injEq, Prod.mk.injEq, true_and] at h
    subst h; exact ⟨rfl, rfl, hd⟩
  | np hv =>
    rw [updatePageStateLoop, hv] at h
    simp only [Res.ok.injEq, Prod.mk.injEq, true_and] at h
    subst h; exact ⟨rfl, rfl, hd⟩
  | @cons s v ss vs rest b hv hne ht ih =>
    rw [updatePageStateLoop, hv] at h
    simp only at h
    split at h
    · split at h
      · rename_i c ctx hc
        have e := setBackground_bg hc
        obtain ⟨i1, i2, i3⟩ := ih (rs := { rs with colorCtx := ctx })
          ⟨hd.ds, by rw [e]; exact hd.fg, by rw [e]; exact hd.bg, by rw [e]; exact hd.scheme⟩ h
        refine ⟨?_, ?_, i3⟩
        · rw [i1, e, hd.bg]; rfl
        · rw [i2, e]; rfl
      · simp at h
    · split at h
      · rename_i c ctx hc
        have e := setBackground_bg hc
        obtain ⟨i1, i2, i3⟩ := ih (rs := { rs with colorCtx := ctx })
          ⟨hd.ds, by rw [e]; exact hd.fg, by rw [e]; exact hd.bg, by rw [e]; exact hd.scheme⟩ h
        refine ⟨?_, ?_, i3⟩
        · rw [i1, e, hd.bg]; rfl
        · rw [i2, e]; rfl
      · simp at h
    · exact absurd rfl hne
    · rename_i on off
      exact ih (rs := { rs with pageOnTimeDs := on.getD ds.pageOnTimeDs, pageOffTimeDs := off.getD ds.pageOffTimeDs })
        ⟨hd.ds, hd.fg, hd.bg, hd.scheme⟩ h
    · rename_i n1 n2 n3 n4
      obtain ⟨i1, i2, i3⟩ := ih hd h
      refine ⟨?_, i2, i3⟩
      rw [i1]
      unfold background
      rw [List.foldl_cons]
      split <;> simp_all

/-- everything known of a page that is rendered without error -/
structure OnPage (d : Dms) (pg : Pages) (page : Page) (pg' : Pages) (vs : List Value)
    (rest : List Str) (b : Bool) : Prop where
  take : TakePage pg.values vs rest b
  supported : ∀ v ∈ vs, ∀ t, v.tag = some t → d.multiCfg.supportedMultiTags t = true
  npSupported : b = true → d.multiCfg.supportedMultiTags .np = true
  dflt : pg'.defaultState = pg.defaultState
  times : (pg'.renderState.pageOnTimeDs, pg'.renderState.pageOffTimeDs) =
    pageTimes (pg.defaultState.pageOnTimeDs, pg.defaultState.pageOffTimeDs)
      (pg.renderState.pageOnTimeDs, pg.renderState.pageOffTimeDs) vs
  values : pg'.values = rest
  state : pg'.pageState = (if b then PageState.newPage else PageState.doneState)
    (decide (pg'.renderState.pageOffTimeDs > 0))
  duration : page.durationDs = pg'.renderState.pageOnTimeDs.toNat
  width : page.raster.width = pg.defaultState.textRectangle.width.toNat
  height : page.raster.height = pg.defaultState.textRectangle.height.toNat
  trs : countTr vs < maxTextRectangles
  rect : countTr vs = 0 → pg'.renderState.textRectangle = pg.defaultState.textRectangle
  colors : ∀ I P, Palette d I P → I pg.renderState.colorCtx →
    I pg'.renderState.colorCtx ∧ ∀ i j, P (page.raster.px i j)
  attr : SignState d pg.defaultState pg.renderState →
    SignState d pg'.defaultState pg'.renderState ∧
    textAttr pg'.renderState = vs.foldl (TextAttr.apply (signAttr d)) (textAttr pg.renderState) ∧
    pg'.renderState.colorCtx.bgCurrent =
      background (.ofRgb (signBackground d)) pg.renderState.colorCtx.bgCurrent vs

theorem renderOnPage_ok {d pg page pg'} (h : renderOnPage d pg = .ok (.ok page, pg')) :
    ∃ vs rest b, OnPage d pg page pg' vs rest b := by
  unfold renderOnPage at h
  split at h
  · simp at h
  · simp at h
  · rename_i hc
    obtain ⟨vs, rest, b, ht, hsup, hnp⟩ := checkUnsupported_ok hc
    simp only [Res.bind_eq_ok] at h
    obtain ⟨⟨x, rs⟩, h1, h2⟩ := h
    cases x with
    | error e => simp at h2
    | ok u =>
      simp only [Res.bind_eq_ok] at h2
      obtain ⟨⟨y, pg1⟩, h2, h3⟩ := h2
      cases y with
      | error e => simp at h3
      | ok raster =>
        simp only [Res.pure_eq, Res.ok.injEq, Prod.mk.injEq, Except.ok.injEq] at h3
        obtain ⟨rfl, rfl⟩ := h3
        unfold updatePageState at h1
        obtain ⟨vs1, rest1, b1, ht1, ut, ue, ui⟩ := updatePageStateLoop_ok h1
        obtain ⟨rfl, rfl, rfl⟩ := takePage_unique ht ht1
        have hrect : rs.textRectangle = pg.defaultState.textRectangle := by rw [ue]
        have key := fun (I : ColorCtx → Prop) P (hp : Palette d I P)
            (hi : I rs.colorCtx) =>
          onPageLoop_ok hp h2 (by decide) (by decide) rfl hi ht
        obtain ⟨k1, k2, k3, k4, k5, k6, k7, k8, k9⟩ := key _ _ (palette_true d) trivial
        refine ⟨vs, rest, b, ht, hsup, hnp, k3, ?_, k6, ?_, rfl, ?_, ?_, by simpa using k8, ?_, ?_, ?_⟩
        · rw [k4, k5]; exact ut
        · rw [k7, k5]
        · rw [k1.width]; simp only [buildRaster, Raster.withColor]; rw [hrect]
        · rw [k1.height]; simp only [buildRaster, Raster.withColor]; rw [hrect]
        · intro h0; rw [k9 h0]; exact hrect
        · intro I P hp hi
          have hi' : I rs.colorCtx := ui I (fun _ _ _ _ h h' => hp.bg _ _ _ _ h h') hi
          obtain ⟨m1, m2, _⟩ := key I P hp hi'
          refine ⟨m2, fun i j => ?_⟩
          rcases m1.px i j with e | e
          · show P (raster.px i j)
            rw [e]; exact hp.back _ hi'
          · exact e
        · intro hd
          obtain ⟨b1, b2, b3⟩ := updatePageStateLoop_bg (d := d)
            (by exact ⟨hd.ds, hd.fg, hd.bg, hd.scheme⟩) h1 ht
          obtain ⟨a1, a2, a3⟩ := onPageLoop_attr h2 (by decide) (by decide) rfl b3 ht
          exact ⟨a3, by rw [a1]; dsimp only; rw [b2]; rfl, by rw [a2]; exact b1⟩

end Ntcip
