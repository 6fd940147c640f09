import Verif.Lemmas.Look
import Verif.Props.Blank
/-
Lemmas on the pictures of a look.
-/
namespace Ntcip
open Spec

/-! ### the pages of a message are those of its look -/

/-- what the remaining pages look like -/
def DepictsFrom (d : Dms) (pg : Pages) (xs : List (Bool × Except SyntaxError Page)) (vs : List Value) : Prop :=
  let more := looks d (textAttr pg.renderState)
    ((pg.renderState.pageOnTimeDs, pg.renderState.pageOffTimeDs), pg.renderState.colorCtx.bgCurrent) (splitPages vs)
  match pg.pageState with
  | .on _ => Depicts d xs more
  | .off b => ∃ rest, xs = (false, .ok ⟨plain d pg.renderState.textRectangle.width.toNat
      pg.renderState.textRectangle.height.toNat pg.renderState.colorCtx.bgCurrent, pg.renderState.pageOffTimeDs.toNat⟩) ::
      rest ∧ if b then Depicts d rest more else rest = []
  | .done => xs = []

theorem tidyPage_nil {d : Dms} {t : TextAttr} : TidyPage d t [] :=
  .last ⟨trivial, by rintro ⟨s, hs, _⟩; simp [layoutOf, sections, pieces] at hs⟩

theorem pageAt_nil {d : Dms} {t t' : TextAttr} {ss' : List Str} (h : PageAt d t [] t' ss') : ss' = [] := by
  cases h with
  | first => rfl
  | later ht _ => cases ht

theorem steps_depict {d : Dms} (hf : FontsOk d.fontDefinition) (h0 : 1 ≤ d.multiCfg.defaultFont.toNat) {W H : Nat}
    (hg : GraphicsOk W H d.graphicDefinition) (hw : WideChars d.fontDefinition) {ms : Str} {pg xs pg'}
    (h : Steps d pg xs pg') (hend : pg'.pageState = .done) : ∀ {xs0}, Steps d (Pages.new d ms) xs0 pg →
    NoError xs0 → NoError xs → (pg.pageState = .done ∨ pg.pageState = .off false → pg.values = []) →
    (∀ t ss, PageAt d (textAttr pg.renderState) pg.values t ss → ∀ vs rest b, TakePage ss vs rest b → TidyPage d t vs) →
    ∃ vs, Parses pg.values vs ∧ DepictsFrom d pg xs vs := by
  induction h with
  | nil =>
    intro xs0 _ _ _ hv _
    rw [hv (.inl hend)]
    exact ⟨[], .nil, by simp [DepictsFrom, hend]⟩
  | @cons pg pg1 pg' x xs hx hs ih =>
    intro xs0 hs0 hn0 hn hv htidy
    have hn1 : NoError xs := fun y hy => hn y (List.mem_cons_of_mem _ hy)
    obtain ⟨p, rfl⟩ : ∃ p, x = .ok p := hn _ (List.mem_cons_self ..)
    have hsign : SignState d pg.defaultState pg.renderState := by
      rw [(steps_state hs0 (pagesOk_new d ms)).default]; exact steps_sign hs0
    have hs1 := steps_snoc hs0 hx
    have hn2 : NoError (xs0 ++ [(isOn pg.pageState, .ok p)]) := by
      intro y hy
      rcases List.mem_append.1 hy with hy | hy
      · exact hn0 y hy
      · rw [List.mem_singleton] at hy; exact ⟨p, by rw [hy]⟩
    rcases next_cases hx with ⟨hon, h1⟩ | ⟨hoff, ⟨b, hb⟩, hp, rfl⟩
    · obtain ⟨vs, rest, b, ho⟩ := renderOnPage_ok h1
      obtain ⟨us', vs', b', c1, c2, c3, c4⟩ := onPage_composed hf h0 hg hs0 hn0 hon hx
      rw [ho.values] at c2
      obtain ⟨rfl, -, rfl⟩ := takePage_unique c2 ho.take
      obtain ⟨us, k1, k2, k3, k4⟩ := C53_carry d ms _ pg hs0 hn0
      obtain rfl := consumed_unique c1 k1
      have hv1 := onPage_rest ho
      obtain ⟨hd1, ha, hbg⟩ := ho.attr hsign
      obtain ⟨ws, hwp, hD⟩ := ih hend hs1 hn2 hn1 hv1 (by
        intro t ss hat
        rw [ho.values, ha] at hat
        cases b' with
        | true => exact htidy t ss (.later ho.take hat)
        | false =>
          intro vs rest b ht
          obtain rfl := takePage_end ho.take
          obtain rfl := pageAt_nil hat
          cases ht
          exact tidyPage_nil)
      rw [ho.values] at hwp
      obtain ⟨us, hu, hsp⟩ := takePage_split ho.take ws hwp
      refine ⟨us, hu, ?_⟩
      have et := ho.times
      rw [hsign.ds] at et
      have et' : pageTimes (signPage d).1
          (pg.renderState.pageOnTimeDs, pg.renderState.pageOffTimeDs) vs' =
          (pg1.renderState.pageOnTimeDs, pg1.renderState.pageOffTimeDs) := et.symm
      have ec : background (signPage d).2 pg.renderState.colorCtx.bgCurrent vs' =
          pg1.renderState.colorCtx.bgCurrent := hbg.symm
      have hm : looks d (textAttr pg.renderState)
          ((pg.renderState.pageOnTimeDs, pg.renderState.pageOffTimeDs), pg.renderState.colorCtx.bgCurrent)
          (splitPages us) = ⟨(pg1.renderState.pageOnTimeDs, pg1.renderState.pageOffTimeDs),
            pg1.renderState.colorCtx.bgCurrent,
            partsOf d pg1.renderState.colorCtx.bgCurrent (textAttr pg.renderState) none (signRect d) (sections vs').1
              (sections vs').2⟩ ::
          looks d (textAttr pg1.renderState)
            ((pg1.renderState.pageOnTimeDs, pg1.renderState.pageOffTimeDs), pg1.renderState.colorCtx.bgCurrent)
            (if b' then splitPages ws else []) := by
        rw [hsp]
        simp only [looks, et', ec, ha]
      have e0 : DepictsFrom d pg ((isOn pg.pageState, .ok p) :: xs) us = Depicts d ((true, .ok p) :: xs)
          (looks d (textAttr pg.renderState)
          ((pg.renderState.pageOnTimeDs, pg.renderState.pageOffTimeDs), pg.renderState.colorCtx.bgCurrent)
          (splitPages us)) := by
        unfold DepictsFrom
        cases hps : pg.pageState <;> simp_all [isOn]
      rw [e0, hm]
      have hbg2 : background (signPage d).2 (signPage d).2 (us' ++ vs') = pg1.renderState.colorCtx.bgCurrent := by
        rw [← ec, k3]
        simp [background]
      have hparts : PartsOn d (partsOf d pg1.renderState.colorCtx.bgCurrent (textAttr pg.renderState) none (signRect d)
          (sections vs').1 (sections vs').2) (plain d d.vmsCfg.signWidthPixels.toNat d.vmsCfg.signHeightPixels.toNat
            pg1.renderState.colorCtx.bgCurrent) p.raster := by
        rw [hbg2, ← k2] at c3
        exact partsOn_of hw c3 (allSections_imp (fun _ _ _ _ h => h.1) (htidy _ _ .first _ _ _ ho.take))
      have hD' : ∃ rest, xs = (if pg1.renderState.pageOffTimeDs.toNat > 0 then
            [(false, .ok ⟨plain d pg1.renderState.textRectangle.width.toNat
              pg1.renderState.textRectangle.height.toNat pg1.renderState.colorCtx.bgCurrent,
              pg1.renderState.pageOffTimeDs.toNat⟩)] else []) ++ rest ∧
          Depicts d rest (looks d (textAttr pg1.renderState)
            ((pg1.renderState.pageOnTimeDs, pg1.renderState.pageOffTimeDs), pg1.renderState.colorCtx.bgCurrent)
            (if b' then splitPages ws else [])) := by
        have es := ho.state
        unfold DepictsFrom at hD
        rw [es] at hD
        by_cases hz : pg1.renderState.pageOffTimeDs > 0
        · rw [if_pos ((u8_pos_iff _).1 hz)]
          cases b'
          · simpa [hz, PageState.doneState, looks, Depicts] using hD
          · simpa [hz, PageState.newPage] using hD
        · rw [if_neg (fun h => hz ((u8_pos_iff _).2 h))]
          cases b'
          · simpa [hz, PageState.doneState, looks, Depicts] using hD
          · simpa [hz, PageState.newPage] using hD
      obtain ⟨rest', e1, e2⟩ := hD'
      refine ⟨p.raster, rest', hparts, ?_, e2⟩
      dsimp only
      rw [partsOf_last, ← c4, Option.getD_some, ← e1, ← ho.duration]
    · have hv1 : (renderOffPage pg).2.pageState = .done ∨
          (renderOffPage pg).2.pageState = .off false → (renderOffPage pg).2.values = [] := by
        intro hh
        cases b with
        | true => simp [renderOffPage, hb, PageState.nextState] at hh
        | false => exact hv (.inr hb)
      obtain ⟨ws, hwp, hD⟩ := ih hend hs1 hn2 hn1 hv1 htidy
      refine ⟨ws, hwp, ?_⟩
      simp only [Except.ok.injEq] at hp
      unfold DepictsFrom
      rw [hb]
      refine ⟨xs, ?_, ?_⟩
      · rw [hp]
        congr 1
        unfold renderOffPage plain
        rw [← backgroundRgb_sign hsign]
        rfl
      · unfold DepictsFrom at hD
        cases b with
        | true => simpa [renderOffPage, hb, PageState.nextState] using hD
        | false => simpa [renderOffPage, hb, PageState.nextState] using hD

/-! ### which looks can be shown -/

theorem nul_glue {d : Dms} {ps : List Piece} (h : ∀ p ∈ ps, ∀ ch ∈ p.str, ch.toNat ≠ 0) :
    ∀ p ∈ glue d ps, ∀ ch ∈ p.str, ch.toNat ≠ 0 := by
  induction ps with
  | nil => simp [glue]
  | cons p ps ih =>
    have ih := ih (fun p hp => h p (List.mem_cons_of_mem _ hp))
    have h0 := h p (List.mem_cons_self ..)
    rw [glue]
    split
    · intro q hq; rw [List.mem_singleton] at hq; subst hq; exact h0
    · rename_i g gs hg
      rw [hg] at ih
      split
      · intro q hq ch hch
        rcases List.mem_cons.1 hq with rfl | hq
        · rcases List.mem_append.1 hch with hch | hch
          · exact h0 ch hch
          · exact ih g (List.mem_cons_self ..) ch hch
        · exact ih q (List.mem_cons_of_mem _ hq) ch hch
      · intro q hq
        rcases List.mem_cons.1 hq with rfl | hq
        · exact h0
        · exact ih q hq

theorem spanOf_color {d : Dms} {rect : Rectangle} (p : Piece) :
    (spanOf d rect p).state.colorCtx.foregroundRgb = foregroundRgb d (pieceOf (spanOf d rect p)).attr.foreground := by
  unfold ColorCtx.foregroundRgb foregroundRgb
  rw [rgb_eq]
  show _ = (colorValue (signCtx d).colorScheme (signCtx d).fgDefault (signCtx d).bgDefault p.attr.foreground).getD _
  show (match colorValue (signCtx d).colorScheme (signCtx d).fgDefault (signCtx d).bgDefault p.attr.foreground with
    | some rgb => rgb | none => signForeground d) = _
  split <;> simp [*]

theorem textsFit_glue {d : Dms} (hw : WideChars d.fontDefinition) {rect : Rectangle} {ps : List Piece}
    (h : ∀ p ∈ ps, ∀ ch ∈ p.str, ch.toNat ≠ 0) : ∀ l,
    TextsFit d rect (l ++ ps.map (spanOf d rect)) ↔ TextsFit d rect (l ++ (glue d ps).map (spanOf d rect)) := by
  induction ps with
  | nil => intro l; rfl
  | cons p ps ih =>
    intro l
    have hn : ∀ p ∈ ps, ∀ ch ∈ p.str, ch.toNat ≠ 0 := fun p hp => h p (List.mem_cons_of_mem _ hp)
    have h0 := h p (List.mem_cons_self ..)
    have ih := ih hn (l ++ [spanOf d rect p])
    have hng := nul_glue (d := d) hn
    rw [List.map_cons, glue]
    rw [List.append_assoc, List.append_assoc] at ih
    refine ih.trans ?_
    split
    · rename_i hg; rw [hg]; rfl
    · rename_i g gs hg
      rw [hg] at hng
      rw [hg]
      split
      · rename_i hj
        obtain ⟨hJ, _⟩ := joins_of (d := d) (rect := rect) (a := spanOf d rect p) (b := spanOf d rect g) hj
          ⟨rfl, spanOf_color p, h0⟩ ⟨rfl, spanOf_color g, hng g (List.mem_cons_self ..)⟩
        have := textsFit_join hw hJ (rect := rect) (l := l) (r := gs.map (spanOf d rect))
        exact this
      · rfl

/-- the texts of the values have no NUL character -/
def TextsOk (vs : List Value) : Prop :=
  ∀ v ∈ vs, InRange v ∧ ∀ c : UInt16, v = .hexadecimalCharacter c → c.toNat < 0xD800 ∨ 0xE000 ≤ c.toNat

theorem hexText_nul {c : UInt16} (h : c.toNat < 0xD800 ∨ 0xE000 ≤ c.toNat) : ∀ ch ∈ hexText c, ch.toNat ≠ 0 := by
  intro ch hch
  unfold hexText at hch
  split at hch
  · simp at hch
  · rename_i hc
    rw [List.mem_singleton] at hch
    subst hch
    have hv : c.toNat.isValidChar := by
      have := c.toNat_lt
      rcases h with h | h
      · exact .inl h
      · exact .inr ⟨by omega, by omega⟩
    have : (Char.ofNat c.toNat).toNat = c.toNat := by simp [Char.ofNat, hv, Char.toNat, Char.ofNatAux]
    rw [this]
    exact fun e => hc (UInt16.toNat_inj.1 e)

theorem nul_pieces {dflt : TextAttr} {vs : List Value} (h : TextsOk vs) : ∀ {a sp line blank},
    ∀ p ∈ pieces dflt a sp line blank vs, ∀ ch ∈ p.str, ch.toNat ≠ 0 := by
  induction vs with
  | nil => intro a sp line blank p hp; simp [pieces] at hp
  | cons v vs ih =>
    intro a sp line blank p hp
    obtain ⟨h1, h2⟩ := h v (List.mem_cons_self ..)
    rw [pieces, List.mem_append] at hp
    rcases hp with hp | hp
    · cases v <;> simp only [piece, List.mem_singleton, List.not_mem_nil] at hp
      case text t =>
        subst hp
        intro ch hch
        rcases h1 with rfl | rfl | ⟨_, _, h⟩
        · simp at hch; subst hch; decide
        · simp at hch; subst hch; decide
        · have := h ch hch; omega
      case hexadecimalCharacter c => subst hp; exact hexText_nul (h2 c rfl)
      case newLine =>
        split at hp
        · rw [List.mem_singleton] at hp; subst hp; simp
        · simp at hp
    · exact ih (fun v hv => h v (List.mem_cons_of_mem _ hv)) p hp

/-- can the texts of the look be drawn? -/
def PartFits (d : Dms) (q : PartLook) : Prop := TextsFit d q.rect (q.texts.map (spanOf d q.rect))

theorem sections_fit {d : Dms} (hw : WideChars d.fontDefinition) {bg : Color} {rest : List (Rectangle × List Value)} :
    ∀ {t sp rect vs}, TextsOk vs → (∀ r ∈ rest, TextsOk r.2) →
    (AllSections d (fun t sp rect ws => TextsFit d rect (layoutOf d t sp rect ws)) t sp rect vs rest ↔
      ∀ q ∈ partsOf d bg t sp rect vs rest, PartFits d q) := by
  have one : ∀ {t sp rect vs}, TextsOk vs → (TextsFit d rect (layoutOf d t sp rect vs) ↔
      TextsFit d rect ((glue d (pieces (signAttr d) t sp 0 true vs)).map (spanOf d rect))) :=
    fun h => textsFit_glue hw (nul_pieces h) []
  induction rest with
  | nil =>
    intro t sp rect vs hv _
    constructor
    · intro h
      cases h with
      | last h =>
        intro q hq
        rw [partsOf, List.mem_singleton] at hq
        subst hq
        exact (one hv).1 h
    · intro h
      exact .last ((one hv).2 (h _ (List.mem_singleton.2 rfl)))
  | cons q rest ih =>
    obtain ⟨r, ws⟩ := q
    intro t sp rect vs hv hr
    have ih := @ih (vs.foldl (TextAttr.apply (signAttr d)) t) (vs.foldl spacingAfter sp) (opened d r) ws
      (hr _ (List.mem_cons_self ..)) (fun r h => hr r (List.mem_cons_of_mem _ h))
    constructor
    · intro h
      cases h with
      | next h h' =>
        intro q hq
        rw [partsOf] at hq
        rcases List.mem_cons.1 hq with rfl | hq
        · exact (one hv).1 h
        · exact ih.1 h' q hq
    · intro h
      rw [partsOf] at h
      exact .next ((one hv).2 (h _ (List.mem_cons_self ..))) (ih.2 fun q hq => h q (List.mem_cons_of_mem _ hq))

theorem partsOf_length {d : Dms} {bg : Color} {rest : List (Rectangle × List Value)} : ∀ {t sp rect vs},
    (partsOf d bg t sp rect vs rest).length = rest.length + 1 := by
  induction rest with
  | nil => intros; rfl
  | cons q rest ih => intros; rw [partsOf, List.length_cons, ih]; rfl

end Ntcip
