import Verif.Props.Ends
import Verif.Props.First
import Verif.Lemmas.Account
/-
C50: exactly when the page iterator ends.
-/
namespace Ntcip
open Spec Tests

/-- The first fault of the page that begins at `ss` is found before any of its text is read: an item that is not valid or
not supported, a background color, or a color, color rectangle or graphic before the first text rectangle. -/
def Spec.EarlyFault (d : Dms) (ss : List Str) (e : SyntaxError) : Prop :=
  ItemFault d ss e ∨ ∃ vs rest b, TakePage ss vs rest b ∧
    (∀ v ∈ vs, ∀ t, v.tag = some t → d.multiCfg.supportedMultiTags t = true) ∧
    (b = true → d.multiCfg.supportedMultiTags .np = true) ∧
    First (vs.map (BackgroundFault d) ++ (sections vs).1.map (PaintFault d)) e

theorem earlyChecks_one {d : Dms} {vs ws : List Value} : ∀ c ∈ vs.map (BackgroundFault d) ++ ws.map (PaintFault d),
    ∀ e e', c e → c e' → e = e' := by
  intro c hc e e' h h'
  rcases List.mem_append.1 hc with hc | hc
  · obtain ⟨v, _, rfl⟩ := List.mem_map.1 hc
    cases h <;> cases h' <;> rfl
  · obtain ⟨v, _, rfl⟩ := List.mem_map.1 hc
    exact paintFault_one h h'

/-- a page with an early fault is there again; any other page is consumed -/
theorem page_early {d : Dms} (hd : SizeOk d) {ms : Str} {xs pg x pg'} (h : Steps d (Pages.new d ms) xs pg)
    (hon : isOn pg.pageState = true) (hx : Pages.next d pg = .ok (some x, pg')) :
    (∃ e, EarlyFault d pg.values e ∧ x = .error e ∧ pg'.values = pg.values ∧ isOn pg'.pageState = true) ∨
    ((∀ e, ¬ EarlyFault d pg.values e) ∧ budget pg' < budget pg) := by
  have hp := steps_state h (pagesOk_new d ms)
  have hsign := steps_sign h
  have hnb := next_budget hx
  rcases next_cases hx with ⟨_, hx⟩ | ⟨hoff, _⟩
  · unfold renderOnPage at hx
    split at hx
    · simp at hx
    · rename_i e' hc
      simp only [Res.ok.injEq, Prod.mk.injEq] at hx
      obtain ⟨rfl, rfl⟩ := hx
      have hi := checkUnsupported_first (r := some e') hc
      exact .inl ⟨e', .inl ((hi e').2 rfl), rfl, rfl, hon⟩
    · rename_i hc
      have hi := checkUnsupported_first (r := none) ⟨_, hc⟩
      obtain ⟨vs, rest, b, ht, hsup, hnp⟩ := checkUnsupported_ok hc
      have fin : ∀ {e}, First (vs.map (BackgroundFault d) ++ (sections vs).1.map (PaintFault d)) e →
          EarlyFault d pg.values e := fun hf => .inr ⟨vs, rest, b, ht, hsup, hnp, hf⟩
      simp only [Res.bind_eq_ok] at hx
      obtain ⟨⟨y, rs⟩, h1, h2⟩ := hx
      have hbg := updatePageStateLoop_first (d := d) ht _ (by dsimp only; exact hsign.scheme) _ _ h1
      cases y with
      | error e' =>
        simp only [Res.pure_eq, Res.ok.injEq, Prod.mk.injEq] at h2
        obtain ⟨rfl, rfl⟩ := h2
        exact .inl ⟨e', fin (verdict_stop hbg), rfl, rfl, hon⟩
      | ok u =>
        simp only [Res.bind_eq_ok] at h2
        obtain ⟨⟨z, pg1⟩, h2, h3⟩ := h2
        have hdr : Drawing d ms _ _ := Drawing.start h h1
        obtain ⟨hp1, hw, hh⟩ := drawing_ok hdr
        have hsign1 := drawing_sign hdr
        have gr := fun {r} => renderGraphicsLoop_first (r := r) hd (takePage_section ht) hp1.items hsign1.scheme hw hh
        rw [show maxTextRectangles + 2 = (maxTextRectangles + 1) + 1 from rfl, onPageLoop, if_pos rfl] at h2
        dsimp only at h2 gr
        split at h2
        · simp at h2
        · rename_i e' hgr
          simp only [Res.ok.injEq, Prod.mk.injEq] at h2
          obtain ⟨rfl, rfl⟩ := h2
          simp only [Res.pure_eq, Res.ok.injEq, Prod.mk.injEq] at h3
          obtain ⟨rfl, rfl⟩ := h3
          exact .inl ⟨e', fin (verdict_append hbg (gr (r := some e') hgr)), rfl, rfl, rfl⟩
        · rename_i mid hgr
          have hv := verdict_append hbg (gr (r := none) ⟨_, hgr⟩)
          refine .inr ⟨?_, ?_⟩
          · rintro e (hf | ⟨vs', rest', b', ht', _, _, hf⟩)
            · rw [hi] at hf; cases hf
            · obtain ⟨rfl, _⟩ := takePage_unique ht ht'
              have := verdict_unique earlyChecks_one hv (r' := some e) hf
              cases this
          · rcases hnb with hb | ⟨e, rfl, hs, hst⟩
            · exact hb
            · have hb : budget pg = 2 * (pg.values.length + 1) := by
                unfold budget; cases hps : pg.pageState <;> simp_all [isOn]
              simp only [Res.bind_eq_ok] at h2
              obtain ⟨⟨r1, pg2⟩, h4, h5⟩ := h2
              have hlt : budget pg2 < budget pg := by rw [hb]; have := renderTextRectangle_budget h4; exact this
              have : budget pg' ≤ budget pg2 := by
                have e1 : pg' = pg1 := by
                  cases z with
                  | ok raster => simp at h3
                  | error e' => simp at h3; exact h3.2.symm
                rw [e1]
                cases r1 with
                | error e' =>
                  simp only [Res.pure_eq, Res.ok.injEq, Prod.mk.injEq] at h5
                  rw [h5.2]; exact Nat.le_refl _
                | ok raster2 =>
                  simp only at h5
                  split at h5
                  · simp only [Res.pure_eq, Res.ok.injEq, Prod.mk.injEq] at h5
                    rw [h5.2]; exact Nat.le_refl _
                  · exact (onPageLoop_budget h5).1
              omega
  · rw [hoff] at hon; cases hon

/-- after an early fault the iterator never ends -/
theorem early_stays {d : Dms} (hd : SizeOk d) {ms : Str} {e} {pg ys pg'} (hs : Steps d pg ys pg') : ∀ {xs},
    Steps d (Pages.new d ms) xs pg → isOn pg.pageState = true → EarlyFault d pg.values e →
    isOn pg'.pageState = true ∧ ∀ y ∈ ys, y = (true, .error e) := by
  induction hs with
  | nil => intro xs _ hon _; exact ⟨hon, by simp⟩
  | cons hx hs ih =>
    intro xs h hon he
    rename_i pg x pg1 ys pg2
    rcases page_early hd h hon hx with ⟨e', he', rfl, e1, e2⟩ | ⟨hno, _⟩
    · have hpf := page_first hd h hon hx
      obtain rfl : e = e' := by
        have hup : ∀ {e}, EarlyFault d pg.values e → FirstFault d (textAttr pg.renderState) pg.values e := by
          rintro e (hf | ⟨vs, rest, b, ht, hsu, hnp, hf⟩)
          · exact .inl hf
          · refine .inr ⟨vs, rest, b, ht, hsu, hnp, ?_⟩
            have : Verdict (vs.map (BackgroundFault d) ++ (sections vs).1.map (PaintFault d)) (some e) := hf
            unfold pageChecks
            rw [rectsChecks_eq, rectChecks]
            rw [show ∀ (a b c f : List Check), a ++ (b ++ c ++ f) = (a ++ b) ++ (c ++ f) from
              fun a b c f => by simp only [List.append_assoc]]
            exact verdict_stop this
        have := (hpf e).1 (hup he)
        cases this
        rfl
      obtain ⟨k1, k2⟩ := ih (steps_snoc h hx) e2 (by rw [e1]; exact he)
      refine ⟨k1, fun y hy => ?_⟩
      rcases List.mem_cons.1 hy with rfl | hy
      · rw [hon]
      · exact k2 y hy
    · exact absurd he (hno e)

/-- a run to the end goes through every state -/
theorem steps_through {d : Dms} {pg xs q ys r} (h : Steps d pg xs q) (hq : Pages.next d q = .ok (none, q))
    (h' : Steps d pg ys r) : ∃ zs, Steps d r zs q := by
  induction h' generalizing xs with
  | nil => exact ⟨xs, h⟩
  | cons hx _ ih =>
    cases h with
    | nil => rw [hq] at hx; cases hx
    | cons hx' h => rw [hx] at hx'; cases hx'; exact ih h

/-- **C50 (exactly)** on a message on which rendering does not panic, the iterator ends exactly when no page that is
reached has an early fault. -/
theorem C50_ends_iff (d : Dms) (hd : SizeOk d) (ms : Str)
    (hp : ∀ xs pg', Steps d (Pages.new d ms) xs pg' → ∀ p, Pages.next d pg' ≠ .panic p) :
    (∃ xs, Spec.Yields d ms xs) ↔ ∀ xs pg, Steps d (Pages.new d ms) xs pg → isOn pg.pageState = true →
      ∀ e, ¬ EarlyFault d pg.values e := by
  constructor
  · rintro ⟨xs, q, hq, hend⟩ ys pg h hon e he
    obtain ⟨zs, hz⟩ := steps_through hq hend h
    have := (early_stays hd hz h hon he).1
    rw [(next_none hend).1] at this
    cases this
  · intro hn
    have key : ∀ n pg xs, budget pg = n → Steps d (Pages.new d ms) xs pg →
        ∃ ys q, Steps d pg ys q ∧ Pages.next d q = .ok (none, q) := by
      intro n
      induction n using Nat.strongRecOn with
      | ind n ih =>
        intro pg xs hb h
        cases hx : Pages.next d pg with
        | panic p => exact absurd hx (hp xs pg h p)
        | ok r =>
          obtain ⟨o, pg1⟩ := r
          cases o with
          | none =>
            obtain ⟨_, rfl⟩ := next_none hx
            exact ⟨[], _, .nil, hx⟩
          | some x =>
            have hlt : budget pg1 < budget pg := by
              rcases next_cases hx with ⟨hon, _⟩ | ⟨hoff, ⟨b', hb'⟩, _, rfl⟩
              · rcases page_early hd h hon hx with ⟨e, he, _⟩ | ⟨_, hlt⟩
                · exact absurd he (hn xs pg h hon e)
                · exact hlt
              · cases b' <;> simp [budget, renderOffPage, hb', PageState.nextState]
            obtain ⟨ys, q, k1, k2⟩ := ih _ (by omega) pg1 _ rfl (steps_snoc h hx)
            exact ⟨_, q, .cons hx k1, k2⟩
    obtain ⟨ys, q, k1, k2⟩ := key _ _ _ rfl .nil
    exact ⟨ys, q, k1, k2⟩

/-- **C50 (endless)** an early fault is given again and again, whatever was given before -/
theorem C50_forever (d : Dms) (hd : SizeOk d) (ms : Str) (xs pg) (h : Steps d (Pages.new d ms) xs pg)
    (hon : isOn pg.pageState = true) (e) (he : EarlyFault d pg.values e) (ys pg') (hs : Steps d pg ys pg') :
    Pages.next d pg' ≠ .ok (none, pg') ∧ ∀ y ∈ ys, y = (true, .error e) := by
  obtain ⟨k1, k2⟩ := early_stays hd hs h hon he
  refine ⟨fun hn => ?_, k2⟩
  rw [(next_none hn).1] at k1
  cases k1

theorem first_mem {ε : Type} {cs : List (ε → Prop)} {e} (h : First cs e) : ∃ c ∈ cs, c e := by
  induction h with
  | here h => exact ⟨_, List.mem_cons_self .., h⟩
  | later _ _ ih => obtain ⟨c, hc, h⟩ := ih; exact ⟨c, List.mem_cons_of_mem _ hc, h⟩

/-- the value has a color, or a graphic, which the sign can not show -/
def Spec.Unshowable (d : Dms) (v : Value) : Prop := ∃ e, BackgroundFault d v e ∨ PaintFault d v e

/-- **C50 (faults in texts)** the iterator ends, with or without errors, for every message of valid, supported items
of which the sign can show all colors, color rectangles and graphics, unless rendering panics: errors of text and its
layout are not repeated. -/
theorem C50_shown_ends_partial (d : Dms) (hd : SizeOk d) (ms : Str)
    (hp : ∀ xs pg', Steps d (Pages.new d ms) xs pg' → ∀ p, Pages.next d pg' ≠ .panic p)
    (h : ∀ s ∈ slices ms, ∃ v, Denotes s v ∧ supports d v = true ∧ ¬ Unshowable d v) : ∃ xs, Spec.Yields d ms xs := by
  rw [C50_ends_iff d hd ms hp]
  intro xs pg hs _ e he
  have hsub : ∀ s ∈ pg.values, s ∈ slices ms := by
    have : ∀ {p xs q}, Steps d p xs q → ∀ s ∈ q.values, s ∈ p.values := by
      intro p xs q hs
      induction hs with
      | nil => exact fun s hs => hs
      | cons hx _ ih => exact fun s hs => next_rest hx s (ih s hs)
    exact this hs
  have hit := (steps_state hs (pagesOk_new d ms)).items
  generalize pg.values = ss at he hsub hit
  have val : ∀ {s v}, s ∈ ss → tryFrom s = .ok (.ok v) → supports d v = true ∧ ¬ Unshowable d v := by
    intro s v hs hv
    obtain ⟨v', hd', h2⟩ := h s (hsub s hs)
    rw [← C84_item, hv] at hd'
    cases hd'
    exact h2
  rcases he with hf | ⟨vs, rest, b, ht, hsu, hnp, hf⟩
  · clear hit val
    induction hf with
    | bad hw =>
      obtain ⟨v', hd', _⟩ := h _ (hsub _ (List.mem_cons_self ..))
      rw [← C84_item] at hd'
      rcases wrongItem_error hw with k | ⟨p, k⟩
      · rw [hd'] at k; cases k
      · rw [hd'] at k; cases k
    | tag hd1 ht hsup =>
      obtain ⟨v', hd', h2, _⟩ := h _ (hsub _ (List.mem_cons_self ..))
      rw [← C84_item] at hd' hd1
      rw [hd'] at hd1; cases hd1
      unfold supports at h2
      rw [ht] at h2
      dsimp only at h2
      rw [hsup] at h2; cases h2
    | later _ _ _ _ ih => exact ih fun s hs => hsub s (List.mem_cons_of_mem _ hs)
  · obtain ⟨c, hc, hce⟩ := first_mem hf
    have all : ∀ v ∈ vs, ¬ Unshowable d v := by
      intro v hv
      clear hc hf hce hsu hnp
      induction ht with
      | nil => cases hv
      | np _ => cases hv
      | cons h1 _ _ ih =>
        rcases List.mem_cons.1 hv with rfl | hv
        · exact (val (List.mem_cons_self ..) h1).2
        · exact ih (fun s hs => hsub s (List.mem_cons_of_mem _ hs)) (fun s hs => hit s (List.mem_cons_of_mem _ hs))
            (fun hs => val (List.mem_cons_of_mem _ hs)) hv
    rcases List.mem_append.1 hc with hc | hc
    · obtain ⟨v, hv, rfl⟩ := List.mem_map.1 hc
      exact all v hv ⟨e, .inl hce⟩
    · obtain ⟨v, hv, rfl⟩ := List.mem_map.1 hc
      exact (sections_all (P := fun v => ¬ Unshowable d v) all).1 v hv ⟨e, .inr hce⟩

-- errors of text and layout: an undefined character, a text rectangle outside of the sign, a justification; the message
-- meets the conditions of C50_shown_ends_partial
example : (Pages.run fullDms 9 (Pages.new fullDms c!"[cf255,0,0]~[np][cr1,1,9,9,0,0,9]A[tr1,1,99,9]A[np][jl5]A")).map'
    (·.1.map Except.isOk) = .ok [false, false, true, false] := by decide +kernel
-- a color the sign does not have, in the second text rectangle of a page: it is early when the first one is drawn
example : (Pages.run fullDms 6 (Pages.new fullDms c!"A[tr1,1,60,30]B[cf77][np]A")).map' (·.1.map Except.isOk) =
    .ok [false, false, false, false, false, false] := by decide +kernel
-- the same color is not reached after an error of layout
example : (Pages.run fullDms 6 (Pages.new fullDms c!"[jl5]A[tr1,1,60,30]B[cf77][np]A")).map' (·.1.map Except.isOk) =
    .ok [false] := by decide +kernel

end Ntcip
