import Verif.Lemmas.PageRun
import Verif.Props.Color
/-
Colors of tags in rendering.
-/
namespace Ntcip
open Spec

/-- the color named by a tag -/
def Spec.tagColor : Value → Option Color
  | .colorBackground c => c
  | .colorForeground c => c
  | .pageBackground c => c
  | .colorRectangle _ c => some c
  | _ => none

/-- the scheme can show the color of the tag -/
def Spec.ColorOk (s : ColorScheme) (v : Value) : Prop := ∀ c, tagColor v = some c → Admits s c

theorem setForeground_admits {ctx ctx' : ColorCtx} {c v} (h : ctx.setForeground c v = .ok ctx') :
    (∀ k, c = some k → Admits ctx.colorScheme k) ∧ ctx'.colorScheme = ctx.colorScheme := by
  refine ⟨?_, by rw [setForeground_fg h]⟩
  rintro k rfl
  apply Classical.byContradiction
  intro hk
  rw [(C16_set_foreground ctx k v).2 hk] at h
  cases h

theorem setBackground_admits {ctx ctx' : ColorCtx} {c v} (h : ctx.setBackground c v = .ok ctx') :
    (∀ k, c = some k → Admits ctx.colorScheme k) ∧ ctx'.colorScheme = ctx.colorScheme := by
  refine ⟨?_, by rw [setBackground_bg h]⟩
  rintro k rfl
  apply Classical.byContradiction
  intro hk
  rw [(C16_set_background ctx k v).2 hk] at h
  cases h

theorem setForeground_rejects {ctx : ColorCtx} {c v e} (h : ctx.setForeground c v = .error e) :
    (∃ k, c = some k ∧ ¬ Admits ctx.colorScheme k) ∧ e = .unsupportedTagValue v.display := by
  cases c with
  | none => simp [ColorCtx.setForeground] at h
  | some k =>
    by_cases hk : Admits ctx.colorScheme k
    · rw [(C16_set_foreground ctx k v).1 hk] at h; cases h
    · rw [(C16_set_foreground ctx k v).2 hk] at h
      cases h
      exact ⟨⟨k, rfl, hk⟩, rfl⟩

theorem setBackground_rejects {ctx : ColorCtx} {c v e} (h : ctx.setBackground c v = .error e) :
    (∃ k, c = some k ∧ ¬ Admits ctx.colorScheme k) ∧ e = .unsupportedTagValue v.display := by
  cases c with
  | none => simp [ColorCtx.setBackground] at h
  | some k =>
    by_cases hk : Admits ctx.colorScheme k
    · rw [(C16_set_background ctx k v).1 hk] at h; cases h
    · rw [(C16_set_background ctx k v).2 hk] at h
      cases h
      exact ⟨⟨k, rfl, hk⟩, rfl⟩

/-- what an outcome of the page state pass says about the colors of the page -/
def BackgroundsSeen (s : ColorScheme) (vs : List Value) : Except SyntaxError Unit → Prop
  | .ok _ => ∀ v ∈ vs, (∀ c, v = .colorBackground c ∨ v = .pageBackground c → ∀ k, c = some k → Admits s k)
  | .error e => ∃ v ∈ vs, ¬ ColorOk s v ∧ e = .unsupportedTagValue v.display

/-- `update_page_state` on a valid page: background colors are accepted, or the first other one is the error -/
theorem updatePageStateLoop_color {ds : RenderState} {ss vs rest b} (ht : TakePage ss vs rest b) (rs : RenderState)
    (x) (rs') (h : updatePageStateLoop ds ss rs = .ok (x, rs')) :
    rs'.colorCtx.colorScheme = rs.colorCtx.colorScheme ∧
    BackgroundsSeen rs.colorCtx.colorScheme vs x := by
  induction ht generalizing rs with
  | nil =>
    simp only [updatePageStateLoop, Res.ok.injEq, Prod.mk.injEq] at h
    obtain ⟨rfl, rfl⟩ := h
    simp [BackgroundsSeen]
  | np hv =>
    rw [updatePageStateLoop] at h
    simp only [hv, Res.ok.injEq, Prod.mk.injEq] at h
    obtain ⟨rfl, rfl⟩ := h
    simp [BackgroundsSeen]
  | @cons s v ss vs rest b hv hne ht ih =>
    -- what remains after an accepted item
    have go : ∀ rs1, updatePageStateLoop ds ss rs1 = .ok (x, rs') →
        rs1.colorCtx.colorScheme = rs.colorCtx.colorScheme →
        (∀ c, v = .colorBackground c ∨ v = .pageBackground c → ∀ k, c = some k →
          Admits rs.colorCtx.colorScheme k) →
        rs'.colorCtx.colorScheme = rs.colorCtx.colorScheme ∧
        BackgroundsSeen rs.colorCtx.colorScheme (v :: vs) x := by
      intro rs1 h1 h2 h3
      have := ih rs1 h1
      rw [h2] at this
      refine ⟨this.1, ?_⟩
      cases x with
      | ok u =>
        intro w hw
        rcases List.mem_cons.1 hw with rfl | hw
        · exact h3
        · exact this.2 w hw
      | error e =>
        obtain ⟨w, hw, hc⟩ := this.2
        exact ⟨w, List.mem_cons_of_mem _ hw, hc⟩
    rw [updatePageStateLoop] at h
    simp only [hv] at h
    split at h
    · split at h
      · rename_i c ctx hc
        obtain ⟨h1, h2⟩ := setBackground_admits hc
        refine go _ h (by dsimp only; exact h2) ?_
        rintro c' (e | e) k hk
        · cases e; exact h1 k hk
        · cases e
      · rename_i c e hc
        obtain ⟨⟨k, hk, h1⟩, h2⟩ := setBackground_rejects hc
        simp only [Res.ok.injEq, Prod.mk.injEq] at h
        obtain ⟨rfl, rfl⟩ := h
        refine ⟨rfl, _, List.mem_cons_self .., ?_, h2⟩
        intro hall
        exact h1 (hall k (by rw [tagColor]; exact hk))
    · split at h
      · rename_i c ctx hc
        obtain ⟨h1, h2⟩ := setBackground_admits hc
        refine go _ h (by dsimp only; exact h2) ?_
        rintro c' (e | e) k hk
        · cases e
        · cases e; exact h1 k hk
      · rename_i c e hc
        obtain ⟨⟨k, hk, h1⟩, h2⟩ := setBackground_rejects hc
        simp only [Res.ok.injEq, Prod.mk.injEq] at h
        obtain ⟨rfl, rfl⟩ := h
        refine ⟨rfl, _, List.mem_cons_self .., ?_, h2⟩
        intro hall
        exact h1 (hall k (by rw [tagColor]; exact hk))
    · exact absurd rfl hne
    · exact go _ h rfl (by rintro c (e | e) <;> cases e)
    · rename_i n1 n2 n3 n4
      exact go _ h rfl (by
        rintro c (e | e)
        · exact absurd e (n1 c)
        · exact absurd e (n2 c))

/-- `render_graphics`: all colors up to the next text rectangle are accepted -/
theorem renderGraphicsLoop_color {d : Dms} {ss vs rest b} (ht : TakePage ss vs rest b) (ctx : ColorCtx)
    (raster r) (h : renderGraphicsLoop d ss ctx raster = .ok r) :
    ∀ us ws, vs = us ++ ws → (∀ v ∈ us, ∀ q, v ≠ .textRectangle q) →
      ∀ v ∈ us, (∀ c, v ≠ .pageBackground c) → ColorOk ctx.colorScheme v := by
  induction ht generalizing ctx raster with
  | nil => intro us ws e; simp only [List.nil_eq, List.append_eq_nil_iff] at e; rw [e.1]; simp
  | np hv => intro us ws e; simp only [List.nil_eq, List.append_eq_nil_iff] at e; rw [e.1]; simp
  | @cons s v ss vs rest b hv hne ht ih =>
    intro us ws e hus u hu hpb
    cases us with
    | nil => cases hu
    | cons u0 us =>
    simp only [List.cons_append, List.cons.injEq] at e
    obtain ⟨rfl, e⟩ := e
    have go : ∀ ctx1 r1, ctx1.colorScheme = ctx.colorScheme → renderGraphicsLoop d ss ctx1 r1 = .ok r →
        ((∀ c, v ≠ .pageBackground c) → ColorOk ctx.colorScheme v) → ColorOk ctx.colorScheme u := by
      intro ctx1 r1 h1 h2 h3
      rcases List.mem_cons.1 hu with rfl | hu
      · exact h3 hpb
      · have := ih ctx1 r1 h2 us ws e (fun w hw => hus w (List.mem_cons_of_mem _ hw)) u hu hpb
        rwa [h1] at this
    rw [renderGraphicsLoop] at h
    have e0 : (ofExcept (.ok v) : Out SyntaxError Value) = .ok v := rfl
    simp only [hv, Out.ofRes_ok, Out.ok_bind, e0] at h
    split at h
    · simp only [Out.bind_eq_ok, ofExcept_eq_ok] at h
      obtain ⟨ctx1, h1, h2⟩ := h
      obtain ⟨k1, k2⟩ := setBackground_admits h1
      exact go _ _ k2 h2 (fun _ c hc => k1 c hc)
    · simp only [Out.bind_eq_ok, ofExcept_eq_ok] at h
      obtain ⟨ctx1, h1, h2⟩ := h
      obtain ⟨k1, k2⟩ := setForeground_admits h1
      exact go _ _ k2 h2 (fun _ c hc => k1 c hc)
    · simp only [Out.bind_eq_ok, ofExcept_eq_ok] at h
      obtain ⟨ctx1, h1, r1, h2, h3⟩ := h
      obtain ⟨k1, k2⟩ := setForeground_admits h1
      exact go _ _ rfl h3 (fun _ c hc => k1 c hc)
    · simp at h
    · simp at h
    · simp at h
    · simp only [Out.bind_eq_ok] at h
      obtain ⟨g, h1, r1, h2, h3⟩ := h
      exact go _ _ rfl h3 (fun _ c hc => by simp [tagColor] at hc)
    · simp only [Out.bind_eq_ok] at h
      obtain ⟨g, h1, r1, h2, h3⟩ := h
      exact go _ _ rfl h3 (fun _ c hc => by simp [tagColor] at hc)
    · simp at h
    · simp at h
    · simp at h
    · exact absurd rfl hne
    · rename_i q; exact absurd rfl (hus _ (List.mem_cons_self ..) q)
    · rename_i n1 n2 n3 _ _ _ _ _ _ _ _ _ _
      refine go _ _ rfl h (fun hp c hc => ?_)
      unfold tagColor at hc
      split at hc
      · exact absurd rfl (n1 _)
      · exact absurd rfl (n2 _)
      · exact absurd rfl (hp _)
      · exact absurd rfl (n3 _ _)
      · cases hc

theorem onPageLoop_color {d fuel n pg raster r pg'}
    (h : onPageLoop d fuel n pg raster = .ok (.ok r, pg')) (hf : maxTextRectangles + 1 ≤ fuel + n)
    (hn : n ≤ maxTextRectangles) (hs : pg.pageState = .on false)
    {vs rest b} (ht : TakePage pg.values vs rest b) :
    ∀ v ∈ vs, (∀ c, v ≠ .pageBackground c) → ColorOk pg.renderState.colorCtx.colorScheme v := by
  induction fuel generalizing n pg raster vs with
  | zero => omega
  | succ fuel ih =>
    rw [onPageLoop, if_pos hs] at h
    split at h
    · simp at h
    · simp at h
    · rename_i r1 hg
      simp only [Res.bind_eq_ok] at h
      obtain ⟨⟨x, pg1⟩, h1, h2⟩ := h
      cases x with
      | error e => simp at h2
      | ok r2 =>
        obtain ⟨st, values, hl, rfl, hts⟩ := renderTextRectangle_ok h1
        obtain ⟨l1, l2, l3, l4, l5⟩ := rtrLoop_ok hl
        obtain ⟨c1, -⟩ := l5 (fun c => c.colorScheme = pg.renderState.colorCtx.colorScheme)
          (fun _ _ _ _ h h' => (setForeground_admits h').2.trans h) rfl
        simp only at h2
        split at h2
        · simp at h2
        · rename_i hlt
          rcases l1 _ _ _ ht with ⟨e1, ws, us, q, q', rfl, e2, e3, e4, e5⟩ | ⟨rfl, e1, e2, e3⟩
          · have := ih h2 (by omega) (by omega) e1 e3
            intro v hv hpb
            rcases List.mem_append.1 hv with hv | hv
            · exact renderGraphicsLoop_color ht _ _ _ hg us _ rfl e2 v hv hpb
            · rcases List.mem_cons.1 hv with rfl | hv
              · intro c hc; simp [tagColor] at hc
              · have := this v hv hpb
                dsimp only at this
                rwa [c1] at this
          · intro v hv hpb
            exact renderGraphicsLoop_color ht _ _ _ hg vs [] (by simp) e2 v hv hpb

/-- a page without error has only colors of the scheme -/
theorem renderOnPage_color {d pg page pg'} (h : renderOnPage d pg = .ok (.ok page, pg'))
    {vs rest b} (ht : TakePage pg.values vs rest b) :
    ∀ v ∈ vs, ColorOk pg.renderState.colorCtx.colorScheme v := by
  unfold renderOnPage at h
  split at h
  · simp at h
  · simp at h
  · simp only [Res.bind_eq_ok] at h
    obtain ⟨⟨x, rs⟩, h1, h2⟩ := h
    cases x with
    | error e => simp at h2
    | ok u =>
      simp only [Res.bind_eq_ok] at h2
      obtain ⟨⟨y, pg1⟩, h2, h3⟩ := h2
      cases y with
      | error e => simp at h3
      | ok raster =>
        unfold updatePageState at h1
        obtain ⟨u1, u2⟩ := updatePageStateLoop_color ht _ _ _ h1
        have k := onPageLoop_color h2 (by decide) (by decide) rfl ht
        dsimp only at u1 u2 k
        rw [u1] at k
        intro v hv c hc
        by_cases hp : ∃ c, v = .pageBackground c
        · obtain ⟨c', rfl⟩ := hp
          exact u2 _ hv _ (.inr rfl) c hc
        · exact k v hv (fun c' e => hp ⟨c', e⟩) c hc

/-- values which `render_graphics` passes by or which change its colors -/
def Spec.isPlain : Value → Bool
  | .colorRectangle .. => false
  | .field .. => false
  | .flash .. => false
  | .flashEnd => false
  | .graphic .. => false
  | .manufacturerSpecific .. => false
  | .manufacturerSpecificEnd .. => false
  | .movingText .. => false
  | .newPage => false
  | .textRectangle .. => false
  | _ => true

theorem renderGraphicsLoop_reject {d : Dms} {ss vs rest b} (ht : TakePage ss vs rest b) {pre v post}
    (hvs : vs = pre ++ v :: post) (hp : ∀ u ∈ pre, isPlain u = true) (hpb : ∀ c, v ≠ .pageBackground c)
    (ctx : ColorCtx) (hv : ¬ ColorOk ctx.colorScheme v) (raster) :
    ∃ w ∈ vs, ¬ ColorOk ctx.colorScheme w ∧
      renderGraphicsLoop d ss ctx raster = .err (.unsupportedTagValue w.display) := by
  induction ht generalizing pre ctx with
  | nil => cases pre <;> cases hvs
  | np _ => cases pre <;> cases hvs
  | @cons s u ss vs rest b hu hne ht ih =>
    obtain ⟨c, hc, hbad⟩ : ∃ c, tagColor v = some c ∧ ¬ Admits ctx.colorScheme c := by
      unfold ColorOk at hv
      simpa using hv
    cases pre with
    | nil =>
      simp only [List.nil_append, List.cons.injEq] at hvs
      obtain ⟨rfl, rfl⟩ := hvs
      refine ⟨u, List.mem_cons_self .., hv, ?_⟩
      rw [renderGraphicsLoop]
      simp only [hu, Out.ofRes_ok, Out.ok_bind, ofExcept]
      unfold tagColor at hc
      split at hc
      · subst hc
        simp only [(C16_set_background ctx c _).2 hbad]; rfl
      · subst hc
        simp only [(C16_set_foreground ctx c _).2 hbad]; rfl
      · rename_i c'; exact absurd rfl (hpb c')
      · cases hc
        simp only [(C16_set_foreground ctx c _).2 hbad]; rfl
      · cases hc
    | cons p pre =>
      simp only [List.cons_append, List.cons.injEq] at hvs
      obtain ⟨rfl, rfl⟩ := hvs
      have hp1 := hp u (List.mem_cons_self ..)
      have go : ∀ ctx1, ctx1.colorScheme = ctx.colorScheme → ∃ w ∈ u :: (pre ++ v :: post), ¬ ColorOk ctx.colorScheme w ∧
          renderGraphicsLoop d ss ctx1 raster = .err (.unsupportedTagValue w.display) := by
        intro ctx1 h1
        obtain ⟨w, hw, h2, h3⟩ := ih rfl (fun w hw => hp w (List.mem_cons_of_mem _ hw)) ctx1 (by rwa [h1])
        rw [h1] at h2
        exact ⟨w, List.mem_cons_of_mem _ hw, h2, h3⟩
      rw [renderGraphicsLoop]
      simp only [hu, Out.ofRes_ok, Out.ok_bind, ofExcept]
      cases u <;> simp only [isPlain, Bool.false_eq_true] at hp1 <;> dsimp only
      case colorBackground c1 =>
        cases hcc : ctx.setBackground c1 (.colorBackground c1) with
        | ok ctx1 =>
          simp only [Out.ok_bind]
          exact go ctx1 (setBackground_admits hcc).2
        | error e =>
          obtain ⟨⟨k, hk, h1⟩, rfl⟩ := setBackground_rejects hcc
          exact ⟨_, List.mem_cons_self .., fun hall => h1 (hall k hk), rfl⟩
      case colorForeground c1 =>
        cases hcc : ctx.setForeground c1 (.colorForeground c1) with
        | ok ctx1 =>
          simp only [Out.ok_bind]
          exact go ctx1 (setForeground_admits hcc).2
        | error e =>
          obtain ⟨⟨k, hk, h1⟩, rfl⟩ := setForeground_rejects hcc
          exact ⟨_, List.mem_cons_self .., fun hall => h1 (hall k hk), rfl⟩
      all_goals exact go ctx rfl

end Ntcip
