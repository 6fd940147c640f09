import Verif.Lemmas.PageColor
import Verif.Props.Pages
/-
C16 in rendering: colors a sign cannot show.
-/
namespace Ntcip
open Spec Tests

theorem updatePageStateLoop_total {ds : RenderState} {ss vs rest b} (ht : TakePage ss vs rest b) (rs) :
    ∃ x rs', updatePageStateLoop ds ss rs = .ok (x, rs') := by
  induction ht generalizing rs with
  | nil => exact ⟨_, _, rfl⟩
  | np hv => exact ⟨_, _, by rw [updatePageStateLoop]; simp only [hv]; rfl⟩
  | @cons s v ss vs rest b hv hne ht ih =>
    rw [updatePageStateLoop]
    simp only [hv]
    split
    · split
      · exact ih _
      · exact ⟨_, _, rfl⟩
    · split
      · exact ih _
      · exact ⟨_, _, rfl⟩
    · exact ⟨_, _, rfl⟩
    · exact ih _
    · exact ih _

theorem checkUnsupported_take {d : Dms} {ss vs rest b} (ht : TakePage ss vs rest b)
    (hsup : ∀ v ∈ vs, ∀ t, v.tag = some t → d.multiCfg.supportedMultiTags t = true)
    (hnp : b = true → d.multiCfg.supportedMultiTags .np = true) : checkUnsupported d ss = .ok () := by
  induction ht with
  | nil => rfl
  | np hv =>
    rw [checkUnsupported]
    simp [hv, ofExcept, Value.tag, hnp rfl]
  | @cons s v ss vs rest b hv hne ht ih =>
    rw [checkUnsupported]
    have := ih (fun v h => hsup v (List.mem_cons_of_mem _ h)) hnp
    have h1 := hsup v (List.mem_cons_self ..)
    cases htag : v.tag with
    | none => simp [hv, ofExcept, htag, this]
    | some t => simp [hv, ofExcept, htag, this, h1 t htag]

/-- **C16 (message)** when a message is rendered without error, the scheme of the sign can show
the color of every tag in it. -/
theorem C16_message (d : Dms) (ms : Str) (xs) (h : Yields d ms xs) (hn : NoError xs) :
    ∀ s ∈ slices ms, ∀ v, tryFrom s = .ok (.ok v) → ∀ c, tagColor v = some c →
      Admits d.multiCfg.colorScheme c := by
  have tp : ∀ {ss vs rest b}, TakePage ss vs rest b → ∀ {P : Value → Prop}, P .newPage →
      (∀ v ∈ vs, P v) → (∀ s ∈ rest, ∀ v, tryFrom s = .ok (.ok v) → P v) →
      ∀ s ∈ ss, ∀ v, tryFrom s = .ok (.ok v) → P v := by
    intro ss vs rest b h P hp hv hr
    induction h with
    | nil => simp
    | np hx =>
      intro s hs v hs'
      rcases List.mem_cons.1 hs with rfl | hs
      · rw [hx] at hs'; cases hs'; exact hp
      · exact hr s hs v hs'
    | cons hx _ _ ih =>
      intro s hs v hs'
      rcases List.mem_cons.1 hs with rfl | hs
      · rw [hx] at hs'; cases hs'; exact hv _ (List.mem_cons_self ..)
      · exact ih (fun v h => hv v (List.mem_cons_of_mem _ h)) hr s hs v hs'
  have key : ∀ {pg xs pg'}, Steps d pg xs pg' →
      (pg.pageState = .done ∨ pg.pageState = .off false → pg.values = []) →
      pg.renderState.colorCtx.colorScheme = d.multiCfg.colorScheme →
      pg'.pageState = .done → NoError xs → ∀ s ∈ pg.values, ∀ v, tryFrom s = .ok (.ok v) →
        ColorOk d.multiCfg.colorScheme v := by
    intro pg xs pg' h
    induction h with
    | nil => intro hv _ he _; rw [hv (.inl he)]; simp
    | @cons pg pg1 pg' x xs hx hs ih =>
      intro hv hsc he hn
      have hn1 : NoError xs := fun y hy => hn y (List.mem_cons_of_mem _ hy)
      have hsc1 : pg1.renderState.colorCtx.colorScheme = d.multiCfg.colorScheme :=
        (next_inv (fun c => c.colorScheme = d.multiCfg.colorScheme)
          (fun _ _ _ _ h h' => (setForeground_admits h').2.trans h)
          (fun _ _ _ _ h h' => (setBackground_admits h').2.trans h) hx).2 hsc
      obtain ⟨q, rfl⟩ : ∃ p, x = .ok p := hn _ (List.mem_cons_self ..)
      rcases next_cases hx with ⟨hon, h1⟩ | ⟨hoff, ⟨b', hb⟩, hq, rfl⟩
      · obtain ⟨vs, rest, b, ho⟩ := renderOnPage_ok h1
        have h2 := ih (onPage_rest ho) hsc1 he hn1
        rw [ho.values] at h2
        have h3 := renderOnPage_color h1 ho.take
        rw [hsc] at h3
        exact tp ho.take (fun c hc => by cases hc) h3 h2
      · refine ih ?_ hsc1 he hn1
        intro hh
        cases b' with
        | true => simp [renderOffPage, hb, PageState.nextState] at hh
        | false => exact hv (.inr hb)
  obtain ⟨pg', hs, he⟩ := h
  exact key hs (by simp [Pages.new]) (signState_new d ms).scheme (next_none he).1 hn

/-- **C16 (no page)** a page with a color the scheme cannot show is not rendered, wherever the tag is. -/
theorem C16_no_page (d : Dms) (pg : Pages) (hon : isOn pg.pageState = true) (vs rest b)
    (ht : TakePage pg.values vs rest b) (v : Value) (hv : v ∈ vs) (c : Color) (hc : tagColor v = some c)
    (hbad : ¬ Admits pg.renderState.colorCtx.colorScheme c) (page pg') :
    Pages.next d pg ≠ .ok (some (.ok page), pg') := by
  intro h
  rcases next_cases h with ⟨_, h1⟩ | ⟨hoff, _⟩
  · exact hbad (renderOnPage_color h1 ht v hv c hc)
  · rw [hon] at hoff; cases hoff

/-- **C16 (reported)** a page of valid, supported items that has a color the scheme cannot show before
the first text rectangle, graphic, color rectangle or unimplemented tag: the error is `UnsupportedTagValue`,
naming a tag of the page whose color the scheme cannot show. -/
theorem C16_reported (d : Dms) (pg : Pages) (hon : isOn pg.pageState = true) (vs rest b)
    (ht : TakePage pg.values vs rest b)
    (hsup : ∀ v ∈ vs, ∀ t, v.tag = some t → d.multiCfg.supportedMultiTags t = true)
    (hnp : b = true → d.multiCfg.supportedMultiTags .np = true)
    (pre : List Value) (v : Value) (post : List Value) (hvs : vs = pre ++ v :: post)
    (hpre : ∀ u ∈ pre, isPlain u = true) (c : Color) (hc : tagColor v = some c)
    (hbad : ¬ Admits pg.renderState.colorCtx.colorScheme c) :
    ∃ w ∈ vs, (∃ k, tagColor w = some k ∧ ¬ Admits pg.renderState.colorCtx.colorScheme k) ∧
      ∃ pg', Pages.next d pg = .ok (some (.error (.unsupportedTagValue w.display)), pg') := by
  have hbad' : ¬ ColorOk pg.renderState.colorCtx.colorScheme v := fun h => hbad (h c hc)
  have hex : ∀ {s w}, ¬ ColorOk s w → ∃ k, tagColor w = some k ∧ ¬ Admits s k := by
    intro s w h
    unfold ColorOk at h
    simpa using h
  have hcu : checkUnsupported d pg.values = .ok () := checkUnsupported_take ht hsup hnp
  obtain ⟨x, rs, hu⟩ := updatePageStateLoop_total (ds := pg.defaultState) ht
    { pg.renderState with
      textRectangle := pg.defaultState.textRectangle, lineSpacing := pg.defaultState.lineSpacing,
      lineNumber := 0, spanNumber := 0 }
  obtain ⟨u1, u2⟩ := updatePageStateLoop_color ht _ _ _ hu
  have hnext : ∀ {y pg'}, renderOnPage d pg = .ok (y, pg') → Pages.next d pg = .ok (some y, pg') := by
    intro y pg' h
    unfold Pages.next
    cases hs : pg.pageState with
    | on b => simp [h]
    | off b => simp [hs, isOn] at hon
    | done => simp [hs, isOn] at hon
  dsimp only at u1 u2
  cases x with
  | error e =>
    obtain ⟨w, hw, h1, rfl⟩ := u2
    refine ⟨w, hw, hex h1, { pg with renderState := rs }, hnext ?_⟩
    rw [renderOnPage]
    simp only [hcu, updatePageState, hu, Res.ok_bind]
    rfl
  | ok u =>
    have hpb : ∀ k, v ≠ .pageBackground k := by
      rintro k rfl
      exact hbad (u2 _ (by simp [hvs]) k (.inr rfl) c hc)
    obtain ⟨w, hw, h1, h2⟩ := renderGraphicsLoop_reject (d := d) ht hvs hpre hpb rs.colorCtx (by rw [u1]; exact hbad')
      (buildRaster rs)
    rw [u1] at h1
    refine ⟨w, hw, hex h1, { pg with renderState := rs, pageState := .on false }, hnext ?_⟩
    · rw [renderOnPage]
      simp only [hcu, updatePageState, hu, Res.ok_bind]
      rw [onPageLoop]
      simp only [if_true, h2, Res.ok_bind]
      rfl

/-- a sign of each scheme -/
def schemeDms (s : ColorScheme) : Dms := { fullDms with multiCfg := { fullDms.multiCfg with colorScheme := s } }

/-- the first result of rendering -/
def firstError (d : Dms) (ms : Str) : Option SyntaxError :=
  match Pages.next d (Pages.new d ms) with
  | .ok (some (.error e), _) => some e
  | _ => none

-- the same tags on the four kinds of sign
example :
    (firstError (schemeDms .color24Bit) c!"A[cf255,0,0]B", firstError (schemeDms .colorClassic) c!"A[cf255,0,0]B") =
      (none, some (.unsupportedTagValue c!"[cf255,0,0]")) ∧
    (firstError (schemeDms .colorClassic) c!"A[cf9]B", firstError (schemeDms .monochrome1Bit) c!"A[cf9]B") =
      (none, some (.unsupportedTagValue c!"[cf9]")) ∧
    (firstError (schemeDms .monochrome8Bit) c!"[pb200]", firstError (schemeDms .color24Bit) c!"[pb200]") =
      (none, some (.unsupportedTagValue c!"[pb200]")) ∧
    -- the page color is looked at before the others
    firstError (schemeDms .monochrome1Bit) c!"[cf7]A[pb8]" = some (.unsupportedTagValue c!"[pb8]") := by
  decide +kernel

-- the hypotheses of `C16_reported` and `C16_no_page`
example : ∃ vs rest, TakePage (Pages.new (schemeDms .monochrome1Bit) c!"A[cf9]B[np]C").values vs rest true ∧
    (∀ v ∈ vs, ∀ t, v.tag = some t → (schemeDms .monochrome1Bit).multiCfg.supportedMultiTags t = true) ∧
    (schemeDms .monochrome1Bit).multiCfg.supportedMultiTags .np = true ∧
    vs = [.text c!"A"] ++ .colorForeground (some (.legacy 9)) :: [.text c!"B"] ∧
    (∀ u ∈ [Value.text c!"A"], isPlain u = true) ∧ ¬ Admits .monochrome1Bit (.legacy 9) := by
  refine ⟨_, _, .cons (v := .text c!"A") ?_ ?_ (.cons (v := .colorForeground (some (.legacy 9))) ?_ ?_
    (.cons (v := .text c!"B") ?_ ?_ (.np ?_))), ?_, ?_, rfl, ?_, ?_⟩
  all_goals try decide +kernel
  simp [Admits]

end Ntcip
