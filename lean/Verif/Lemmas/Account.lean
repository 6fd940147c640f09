import Verif.Lemmas.Depict
import Verif.Lemmas.Picture
import Verif.Spec.Account
/-
Lemmas on the pictures of all pages of a message.
-/
namespace Ntcip
open Spec

/-- the pictures of the remaining pages -/
def PicturedFrom (d : Dms) (pg : Pages) (xs : List (Bool × Except SyntaxError Page)) (vs : List Value) : Prop :=
  let more := fun ys => Pictured d (textAttr pg.renderState)
    ((pg.renderState.pageOnTimeDs, pg.renderState.pageOffTimeDs), pg.renderState.colorCtx.bgCurrent) ys (splitPages vs)
  match pg.pageState with
  | .on _ => more xs
  | .off b => ∃ rest, xs = (false, .ok ⟨plain d pg.renderState.textRectangle.width.toNat
      pg.renderState.textRectangle.height.toNat pg.renderState.colorCtx.bgCurrent, pg.renderState.pageOffTimeDs.toNat⟩) ::
      rest ∧ if b then more rest else rest = []
  | .done => xs = []

theorem steps_picture {d : Dms} (hf : FontsOk d.fontDefinition) (h0 : 1 ≤ d.multiCfg.defaultFont.toNat) {W H : Nat}
    (hg : GraphicsOk W H d.graphicDefinition) {ms : Str} {pg xs pg'}
    (h : Steps d pg xs pg') (hend : pg'.pageState = .done) : ∀ {xs0}, Steps d (Pages.new d ms) xs0 pg →
    NoError xs0 → NoError xs → (pg.pageState = .done ∨ pg.pageState = .off false → pg.values = []) →
    ∃ vs, Parses pg.values vs ∧ PicturedFrom d pg xs vs := by
  induction h with
  | nil =>
    intro xs0 _ _ _ hv
    rw [hv (.inl hend)]
    exact ⟨[], .nil, by simp [PicturedFrom, hend]⟩
  | @cons pg pg1 pg' x xs hx hs ih =>
    intro xs0 hs0 hn0 hn hv
    have hn1 : NoError xs := fun y hy => hn y (List.mem_cons_of_mem _ hy)
    obtain ⟨p, rfl⟩ : ∃ p, x = .ok p := hn _ (List.mem_cons_self ..)
    have hsign : SignState d pg.defaultState pg.renderState := by
      rw [(steps_state hs0 (pagesOk_new d ms)).default]; exact steps_sign hs0
    have hs1 := steps_snoc hs0 hx
    have hn2 : NoError (xs0 ++ [(isOn pg.pageState, .ok p)]) := by
      intro y hy
      rcases List.mem_append.1 hy with hy | hy
      · exact hn0 y hy
      · rw [List.mem_singleton] at hy; exact ⟨p, by rw [hy]⟩
    rcases next_cases hx with ⟨hon, h1⟩ | ⟨hoff, ⟨b, hb⟩, hp, rfl⟩
    · obtain ⟨vs, rest, b, ho⟩ := renderOnPage_ok h1
      obtain ⟨us', vs', b', c1, c2, c3, c4⟩ := onPage_composed hf h0 hg hs0 hn0 hon hx
      rw [ho.values] at c2
      obtain ⟨rfl, -, rfl⟩ := takePage_unique c2 ho.take
      obtain ⟨us, k1, k2, k3, k4⟩ := C53_carry d ms _ pg hs0 hn0
      obtain rfl := consumed_unique c1 k1
      have hv1 := onPage_rest ho
      obtain ⟨hd1, ha, hbg⟩ := ho.attr hsign
      obtain ⟨ws, hwp, hD⟩ := ih hend hs1 hn2 hn1 hv1
      rw [ho.values] at hwp
      obtain ⟨us, hu, hsp⟩ := takePage_split ho.take ws hwp
      refine ⟨us, hu, ?_⟩
      have et := ho.times
      rw [hsign.ds] at et
      have et' : pageTimes (signPage d).1
          (pg.renderState.pageOnTimeDs, pg.renderState.pageOffTimeDs) vs' =
          (pg1.renderState.pageOnTimeDs, pg1.renderState.pageOffTimeDs) := et.symm
      have ec : background (signPage d).2 pg.renderState.colorCtx.bgCurrent vs' =
          pg1.renderState.colorCtx.bgCurrent := hbg.symm
      have e0 : PicturedFrom d pg ((isOn pg.pageState, .ok p) :: xs) us = Pictured d (textAttr pg.renderState)
          ((pg.renderState.pageOnTimeDs, pg.renderState.pageOffTimeDs), pg.renderState.colorCtx.bgCurrent)
          ((true, .ok p) :: xs) (splitPages us) := by
        unfold PicturedFrom
        cases hps : pg.pageState <;> simp_all [isOn]
      rw [e0, hsp]
      have hbg2 : background (signPage d).2 (signPage d).2 (us' ++ vs') = pg1.renderState.colorCtx.bgCurrent := by
        rw [← ec, k3]
        simp [background]
      rw [hbg2, ← k2] at c3
      have hD' : ∃ rest, xs = (if pg1.renderState.pageOffTimeDs.toNat > 0 then
            [(false, .ok ⟨plain d pg1.renderState.textRectangle.width.toNat
              pg1.renderState.textRectangle.height.toNat pg1.renderState.colorCtx.bgCurrent,
              pg1.renderState.pageOffTimeDs.toNat⟩)] else []) ++ rest ∧
          Pictured d (textAttr pg1.renderState)
            ((pg1.renderState.pageOnTimeDs, pg1.renderState.pageOffTimeDs), pg1.renderState.colorCtx.bgCurrent) rest
            (if b' then splitPages ws else []) := by
        have es := ho.state
        unfold PicturedFrom at hD
        rw [es] at hD
        by_cases hz : pg1.renderState.pageOffTimeDs > 0
        · rw [if_pos ((u8_pos_iff _).1 hz)]
          cases b'
          · simpa [hz, PageState.doneState, Pictured] using hD
          · simpa [hz, PageState.newPage] using hD
        · rw [if_neg (fun h => hz ((u8_pos_iff _).2 h))]
          cases b'
          · simpa [hz, PageState.doneState, Pictured] using hD
          · simpa [hz, PageState.newPage] using hD
      obtain ⟨rest', e1, e2⟩ := hD'
      simp only [Pictured, et', ec]
      refine ⟨p.raster, rest', c3, ?_, by rw [← ha]; exact e2⟩
      rw [← c4, ← e1, ← ho.duration]
    · have hv1 : (renderOffPage pg).2.pageState = .done ∨
          (renderOffPage pg).2.pageState = .off false → (renderOffPage pg).2.values = [] := by
        intro hh
        cases b with
        | true => simp [renderOffPage, hb, PageState.nextState] at hh
        | false => exact hv (.inr hb)
      obtain ⟨ws, hwp, hD⟩ := ih hend hs1 hn2 hn1 hv1
      refine ⟨ws, hwp, ?_⟩
      simp only [Except.ok.injEq] at hp
      unfold PicturedFrom
      rw [hb]
      refine ⟨xs, ?_, ?_⟩
      · rw [hp]
        congr 1
        unfold renderOffPage plain
        rw [← backgroundRgb_sign hsign]
        rfl
      · unfold PicturedFrom at hD
        cases b with
        | true => simpa [renderOffPage, hb, PageState.nextState] using hD
        | false => simpa [renderOffPage, hb, PageState.nextState] using hD

end Ntcip
