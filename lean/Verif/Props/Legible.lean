import Verif.Lemmas.Legible
import Verif.Props.Wording
import Verif.Props.Order
/-
C111: different texts look different.
-/
namespace Ntcip
open Spec Tests

variable {d : Dms}

theorem sections_plain {vs : List Value} (h : ∀ v ∈ vs, ∀ r, v ≠ .textRectangle r) : sections vs = (vs, []) := by
  induction vs with
  | nil => rfl
  | cons v vs ih =>
    rw [sections_cons (h v (List.mem_cons_self ..)), ih fun w hw => h w (List.mem_cons_of_mem _ hw)]

theorem layered_undrawn {W H p vs i j o} (h : Layered d W H p vs i j o) (hv : ∀ v ∈ vs, isDrawing v = false) : o = none := by
  induction h with
  | nil => rfl
  | cons h1 _ ih =>
    rw [ih fun w hw => hv w (List.mem_cons_of_mem _ hw), layer_none h1 (hv _ (List.mem_cons_self ..))]
    rfl

theorem graphicsOn_undrawn {p vs a b} (h : GraphicsOn d p vs a b) (hv : ∀ v ∈ vs, isDrawing v = false) (i j) :
    b.px i j = a.px i j := by
  obtain ⟨o, h1, h2⟩ := h.px i j
  rw [h2, layered_undrawn h1 hv]
  rfl

theorem retyped_plain {t : FontTable} {vs vs'} (h : Pairwise2 (Retyped t) vs vs')
    (hv : ∀ v ∈ vs, isDrawing v = false ∧ ∀ r, v ≠ .textRectangle r) :
    ∀ v ∈ vs', isDrawing v = false ∧ ∀ r, v ≠ .textRectangle r := by
  induction h with
  | nil => exact hv
  | cons h _ ih =>
    intro v hm
    rcases List.mem_cons.1 hm with rfl | hm
    · cases h with
      | same => exact hv _ (List.mem_cons_self ..)
      | text _ => exact ⟨rfl, by simp⟩
    · exact ih (fun w hw => hv w (List.mem_cons_of_mem _ hw)) v hm

theorem splitPages_retyped {t : FontTable} {vs vs'} (h : Pairwise2 (Retyped t) vs vs') :
    Pairwise2 (Pairwise2 (Retyped t)) (splitPages vs) (splitPages vs') := by
  induction h with
  | nil => exact .cons .nil .nil
  | @cons v v' vs vs' h _ ih =>
    by_cases hv : v = .newPage
    · subst hv
      cases h with
      | same => simp only [splitPages, if_true]; exact .cons .nil ih
    · have hv' : v' ≠ .newPage := by
        cases h with
        | same => exact hv
        | text _ => simp
      obtain ⟨p, ps, e1, e2⟩ := splitPages_cons (vs := vs) hv
      obtain ⟨p', ps', e3, e4⟩ := splitPages_cons (vs := vs') hv'
      rw [e2, e4]
      rw [e1, e3] at ih
      cases ih with
      | cons h1 h2 => exact .cons (.cons h h1) h2

theorem pictured_legible (hleg : ∀ f ∈ d.fontDefinition, Legible f) {ps ps'}
    (h : Pairwise2 (Pairwise2 (Retyped d.fontDefinition)) ps ps') : ∀ {t p xs}, Seen d t p ps →
    Pictured d t p xs ps → Pictured d t p xs ps' → ps = ps' := by
  induction h with
  | nil => intros; rfl
  | @cons vs vs' ps ps' hr _ ih =>
    intro t p xs hs h1 h2
    unfold Seen at hs
    obtain ⟨s1, s2, s3, s4, s5⟩ := hs
    unfold Pictured at h1 h2
    obtain ⟨r1, m1, k1, rfl, k2⟩ := h1
    obtain ⟨r2, m2, l1, e, l2⟩ := h2
    have hred := retyped_all hr
    rw [pageTimes_reduced hred, background_reduced hred, foldl_reduced hred] at l2
    have s1' := retyped_plain hr s1
    rw [sections_plain fun v hv => (s1 v hv).2] at k1 e
    rw [background_reduced hred, sections_plain fun v hv => (s1' v hv).2] at l1
    rw [pageTimes_reduced hred, background_reduced hred, sections_plain fun v hv => (s1' v hv).2] at e
    simp only [List.cons.injEq, List.append_cancel_left_eq, Prod.mk.injEq, Except.ok.injEq, Page.mk.injEq, true_and] at e
    obtain ⟨⟨rfl, _⟩, rfl⟩ := e
    have e1 : vs = vs' := by
      cases k1 with
      | last g1 t1 =>
        cases l1 with
        | last g2 t2 =>
          exact textDrawn_legible t1 t2 hr s2 s3 (c := backgroundRgb d _)
            (fun i j => graphicsOn_undrawn g1 (fun v hv => (s1 v hv).1) i j)
            (fun i j => graphicsOn_undrawn g2 (fun v hv => (s1' v hv).1) i j) s4 (fun _ _ => rfl) hleg
    rw [← e1, ih s5 k2 l2]

theorem splitPages_inj : ∀ {vs vs' : List Value}, splitPages vs = splitPages vs' → vs = vs' := by
  intro vs
  induction vs with
  | nil =>
    intro vs' h
    cases vs' with
    | nil => rfl
    | cons v vs' =>
      by_cases hv : v = .newPage
      · subst hv
        simp only [splitPages, if_true, List.cons.injEq, true_and] at h
        exact absurd h.symm (splitPages_ne_nil _)
      · obtain ⟨p, ps, _, e⟩ := splitPages_cons (vs := vs') hv
        rw [e] at h
        simp [splitPages] at h
  | cons v vs ih =>
    intro vs' h
    by_cases hv : v = .newPage
    · subst hv
      cases vs' with
      | nil =>
        simp only [splitPages, if_true, List.cons.injEq, true_and] at h
        exact absurd h (splitPages_ne_nil _)
      | cons v' vs' =>
        by_cases hv' : v' = .newPage
        · subst hv'
          simp only [splitPages, if_true, List.cons.injEq, true_and] at h
          rw [ih h]
        · obtain ⟨p, ps, _, e⟩ := splitPages_cons (vs := vs') hv'
          rw [e] at h
          simp [splitPages] at h
    · obtain ⟨p, ps, e1, e⟩ := splitPages_cons (vs := vs) hv
      rw [e] at h
      cases vs' with
      | nil => simp [splitPages] at h
      | cons v' vs' =>
        by_cases hv' : v' = .newPage
        · subst hv'
          simp [splitPages] at h
        · obtain ⟨p', ps', e2, e'⟩ := splitPages_cons (vs := vs') hv'
          rw [e'] at h
          simp only [List.cons.injEq] at h
          have := ih (vs' := vs') (by rw [e1, e2, h.1.2, h.2])
          rw [h.1.1, this]

/-- **C111** In fonts whose characters differ, different texts look different: when two messages have the same tags, and
texts of characters of the same widths, which are seen on the pages of the first one (in order, with room, in colors
other than the background, no drawings), and both are shown with the same pages, then they have the same texts. -/
theorem C111_legible (d : Dms) (hf : FontsOk d.fontDefinition) (h0 : 1 ≤ d.multiCfg.defaultFont.toNat) (W H : Nat)
    (hg : GraphicsOk W H d.graphicDefinition) (hleg : ∀ f ∈ d.fontDefinition, Legible f) (ms ms' : Str) (vs vs' : List Value)
    (hv : Parses (slices ms) vs) (hv' : Parses (slices ms') vs') (hr : Pairwise2 (Retyped d.fontDefinition) vs vs')
    (hs : Seen d (signAttr d) (signPage d) (splitPages vs)) (xs) (h : ShownAs d ms xs) (h' : ShownAs d ms' xs) : vs = vs' := by
  obtain ⟨us, hu, hp⟩ := C92_pictures d hf h0 W H hg ms xs h.1 h.2
  obtain rfl := parses_unique hv hu
  obtain ⟨us', hu', hp'⟩ := C92_pictures d hf h0 W H hg ms' xs h'.1 h'.2
  obtain rfl := parses_unique hv' hu'
  exact splitPages_inj (pictured_legible hleg (splitPages_retyped hr) hs hp hp')

/-- **C111 (built)** the same on a sign made by the builder -/
theorem C111_built (p : Profile) (b : DmsBuilder) (d : Dms) (h : b.build p = .ok d) (hf : 1 ≤ d.multiCfg.defaultFont.toNat)
    (hleg : ∀ f ∈ d.fontDefinition, Legible f) (ms ms' : Str) (vs vs' : List Value)
    (hv : Parses (slices ms) vs) (hv' : Parses (slices ms') vs') (hr : Pairwise2 (Retyped d.fontDefinition) vs vs')
    (hs : Seen d (signAttr d) (signPage d) (splitPages vs)) (xs) (h1 : ShownAs d ms xs) (h2 : ShownAs d ms' xs) : vs = vs' := by
  have hv1 := C22_built_sign_valid p b d h
  exact C111_legible d hv1.2.2.2.2.1 hf _ _ hv1.2.2.2.2.2.1 hleg ms ms' vs vs' hv hv' hr hs xs h1 h2

/-- texts of the same length have the same widths in fonts of one width -/
theorem C111_fixed {t : FontTable} (h : ∀ f ∈ t, ∃ w, ∀ e ∈ f.characters, e.number.toNat ≠ 0 → e.width.toNat = w)
    {a b : Str} (hl : a.length = b.length) (na : ∀ ch ∈ a, ch.toNat ≠ 0) (nb : ∀ ch ∈ b, ch.toNat ≠ 0) : SameWidths t a b := by
  intro f hf es es' h1 h2
  obtain ⟨w, hw⟩ := h f hf
  have all : ∀ {c : Str} {es : List CharacterEntry}, Defined f c es → (∀ ch ∈ c, ch.toNat ≠ 0) →
      es.map (·.width.toNat) = List.replicate c.length w := by
    intro c es hd hn
    have hlen : c.length = es.length := by have := congrArg List.length hd; simpa using this
    refine List.ext_getElem (by simp [hlen]) fun n k1 k2 => ?_
    simp only [List.length_map] at k1
    simp only [List.getElem_map, List.getElem_replicate]
    have k3 : n < c.length := by omega
    have hc : f.character c[n] = some es[n] := by
      have := congrArg (·[n]?) hd
      simpa [k1, k3] using this
    obtain ⟨m, e⟩ := character_mem hc
    exact hw _ m (by rw [e]; exact hn _ (List.getElem_mem k3))
  rw [all h1 na, all h2 nb, hl]

/-! ### an example -/

theorem sameWidths_of {t : FontTable} {a b : Str} (h : ∀ f ∈ t, a.map (fun c => (f.character c).map (·.width.toNat)) =
    b.map (fun c => (f.character c).map (·.width.toNat))) : SameWidths t a b := by
  intro f hf es es' h1 h2
  have k := h f hf
  have e : ∀ {c : Str} {es : List CharacterEntry}, Defined f c es →
      c.map (fun c => (f.character c).map (·.width.toNat)) = (es.map (·.width.toNat)).map some := by
    intro c es hd
    have := congrArg (List.map (Option.map fun e : CharacterEntry => e.width.toNat)) hd
    simpa [List.map_map, Function.comp_def] using this
  rw [e h1, e h2] at k
  exact (List.map_inj_right (fun a b h => by simpa using h)).1 k

/-- the pixels of a character -/
def glyphOf (f : Font) (e : CharacterEntry) : Nat × List (List Bool) :=
  (e.width.toNat, (List.range f.height.toNat).map fun row => (List.range e.width.toNat).map fun col =>
    bit e.bitmap (row * e.width.toNat + col))

theorem legible_of {f : Font} (h : (f.characters.all fun e => f.characters.all fun e' =>
    e.number.toNat == 0 || e'.number.toNat == 0 || e.number.toNat == e'.number.toNat ||
      glyphOf f e != glyphOf f e') = true) : Legible f := by
  intro e he e' he' n n' hw hb
  have := List.all_eq_true.1 (List.all_eq_true.1 h e he) e' he'
  have hg : glyphOf f e = glyphOf f e' := by
    unfold glyphOf
    rw [← hw]
    refine congrArg (Prod.mk _) (List.map_congr_left fun row hr => List.map_congr_left fun col hc => ?_)
    exact hb row col (List.mem_range.1 hr) (List.mem_range.1 hc)
  simp only [hg, bne_self_eq_false, Bool.or_false, Bool.or_eq_true, beq_iff_eq] at this
  omega

theorem fullDms_legible : ∀ f ∈ fullDms.fontDefinition, Legible f := by
  have h : (fullDms.fontDefinition.all fun f => f.characters.all fun e => f.characters.all fun e' =>
    e.number.toNat == 0 || e'.number.toNat == 0 || e.number.toNat == e'.number.toNat ||
      glyphOf f e != glyphOf f e') = true := by decide +kernel
  exact fun f hf => legible_of (List.all_eq_true.1 h f hf)

theorem sideTexts_seen : Seen fullDms (signAttr fullDms) (signPage fullDms) (splitPages sideTexts) := by
  rw [show splitPages sideTexts = [sideTexts] by decide +kernel]
  refine ⟨by simp [sideTexts, isDrawing], ?_, sideSpans_roomy, by decide +kernel, trivial⟩
  simp only [sideTexts, Tidy, InOrder]
  decide +kernel

-- messages that are both shown, but never with the same pages
example : (summary fullDms c!"[jl2]AB[jl4]C").isSome = true ∧ (summary fullDms c!"[jl2]BA[jl4]C").isSome = true ∧
    ¬ ∃ xs, ShownAs fullDms c!"[jl2]AB[jl4]C" xs ∧ ShownAs fullDms c!"[jl2]BA[jl4]C" xs := by
  refine ⟨by decide +kernel, by decide +kernel, fun ⟨xs, h1, h2⟩ => ?_⟩
  have hv := C22_built_sign_valid .checked _ _ fullDms_built
  have := C111_legible fullDms hv.2.2.2.2.1 (by decide) _ _ hv.2.2.2.2.2.1 fullDms_legible _ _ sideTexts
    [.justificationLine (some .left), .text c!"BA", .justificationLine (some .right), .text c!"C"] ?_ ?_ ?_ sideTexts_seen xs h1 h2
  · exact absurd this (by decide)
  · rw [show slices c!"[jl2]AB[jl4]C" = [c!"[jl2]", c!"AB", c!"[jl4]", c!"C"] by decide +kernel]
    exact .cons (by decide +kernel) (.cons (by decide +kernel) (.cons (by decide +kernel) (.cons (by decide +kernel) .nil)))
  · rw [show slices c!"[jl2]BA[jl4]C" = [c!"[jl2]", c!"BA", c!"[jl4]", c!"C"] by decide +kernel]
    exact .cons (by decide +kernel) (.cons (by decide +kernel) (.cons (by decide +kernel) (.cons (by decide +kernel) .nil)))
  · exact .cons .same (.cons (.text (sameWidths_of (by decide +kernel))) (.cons .same (.cons .same .nil)))

-- in the color of the background different texts look the same
example : pixels fullDms c!"[cf0,0,0]A" [(25, 10), (26, 10), (27, 10), (28, 10), (29, 10), (30, 10)] =
    pixels fullDms c!"[cf0,0,0]B" [(25, 10), (26, 10), (27, 10), (28, 10), (29, 10), (30, 10)] := by decide +kernel

end Ntcip
