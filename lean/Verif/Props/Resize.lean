import Verif.Lemmas.Resize
import Verif.Props.Stack
/-
C128: text stays where it is when only other edges of its text rectangle are moved.
-/
namespace Ntcip
open Spec Tests

/-! ### a text rectangle in a page -/

theorem sections_before {us : List Value} (h : ∀ w ∈ us, ∀ r, w ≠ .textRectangle r) (rest : List Value) :
    sections (us ++ rest) = (us ++ (sections rest).1, (sections rest).2) := by
  induction us with
  | nil => rfl
  | cons u us ih =>
    rw [List.cons_append, sections_cons (h u (List.mem_cons_self ..)), ih fun v hv => h v (List.mem_cons_of_mem _ hv)]
    rfl

theorem sections_amid {us rest : List Value} (h : ∀ w ∈ us, ∀ r, w ≠ .textRectangle r) (hr : (sections rest).1 = [])
    (r : Rectangle) (A : List Value) :
    sections (A ++ .textRectangle r :: (us ++ rest)) = ((sections A).1, (sections A).2 ++ (r, us) :: (sections rest).2) := by
  induction A with
  | nil =>
    show ([], (r, (sections (us ++ rest)).1) :: (sections (us ++ rest)).2) = _
    rw [sections_before h, hr, List.append_nil]
    rfl
  | cons u A ih =>
    by_cases hr' : ∃ r, u = .textRectangle r
    · obtain ⟨r', rfl⟩ := hr'
      show (([] : List Value), (r', (sections (A ++ _)).1) :: (sections (A ++ _)).2) = _
      rw [ih]
      rfl
    · have hr' : ∀ r, u ≠ .textRectangle r := fun r e => hr' ⟨r, e⟩
      rw [List.cons_append, sections_cons hr', sections_cons hr', ih]

theorem composed_amid {d : Dms} (hu : UniqueNumbers (fun g : Graphic => g.number.toNat) d.graphicDefinition)
    {us : List Value} {r r' : Rectangle} {more} {bg} (hus : ∀ pos, Value.graphic 0 pos ∉ us)
    (hm : ∀ w ∈ more, ∀ pos, Value.graphic 0 pos ∉ w.2) (rest) : ∀ {t sp rect v a b b'},
    Composed d bg t sp rect v (rest ++ (r, us) :: more) a b →
    (∀ pos, Value.graphic 0 pos ∉ v) → (∀ w ∈ rest, ∀ pos, Value.graphic 0 pos ∉ w.2) →
    Composed d bg t sp rect v (rest ++ (r', us) :: more) a b' →
    ∀ L, L = lastIn d t sp rect v rest →
    (∀ {sp a b b'}, TextDrawn d (L.after d) sp (opened d r) us a b →
      TextDrawn d (L.after d) sp (opened d r') us a b' → b = b') →
    b = b' := by
  have gr : ∀ {p vs a g g'}, (∀ pos, Value.graphic 0 pos ∉ vs) → GraphicsOn d p vs a g → GraphicsOn d p vs a g' →
      g = g' := by
    intro p vs a g g' hv h h'
    obtain ⟨h1, h2, h3⟩ := graphicsOn_unique hu hv h h'
    exact raster_ext h1 h2 h3
  induction rest with
  | nil =>
    intro t sp rect v a b b' hc hv _ hc' L hL hR
    subst hL
    cases hc with
    | next h1 h2 h3 =>
      cases hc' with
      | next h1' h2' h3' =>
        obtain rfl := gr hv h1 h1'
        obtain rfl := textDrawn_unique h2 h2'
        cases h3 with
        | last h4 h5 =>
          cases h3' with
          | last h4' h5' =>
            obtain rfl := gr hus h4 h4'
            exact hR h5 h5'
        | next h4 h5 h6 =>
          cases h3' with
          | next h4' h5' h6' =>
            obtain rfl := gr hus h4 h4'
            obtain rfl := hR h5 h5'
            exact composed_unique hu h6 (hm _ (List.mem_cons_self ..)) (fun w hw => hm w (List.mem_cons_of_mem _ hw)) h6'
  | cons x rest ih =>
    intro t sp rect v a b b' hc hv hr hc' L hL hR
    cases hc with
    | next h1 h2 h3 =>
      cases hc' with
      | next h1' h2' h3' =>
        obtain rfl := gr hv h1 h1'
        obtain rfl := textDrawn_unique h2 h2'
        exact ih h3 (hr _ (List.mem_cons_self ..)) (fun w hw => hr w (List.mem_cons_of_mem _ hw)) h3' L hL hR

theorem pageTimes_amid (a : UInt8 × UInt8) (r r' : Rectangle) (us ws : List Value) (c) :
    pageTimes a c (us ++ .textRectangle r :: ws) = pageTimes a c (us ++ .textRectangle r' :: ws) := by
  unfold pageTimes
  rw [List.foldl_append, List.foldl_append]
  rfl

theorem background_amid (a : Color) (r r' : Rectangle) (us ws : List Value) (c) :
    background a c (us ++ .textRectangle r :: ws) = background a c (us ++ .textRectangle r' :: ws) := by
  unfold background
  rw [List.foldl_append, List.foldl_append]
  rfl

theorem apply_amid (dflt : TextAttr) (r r' : Rectangle) (us ws : List Value) (t) :
    (us ++ .textRectangle r :: ws).foldl (TextAttr.apply dflt) t =
      (us ++ .textRectangle r' :: ws).foldl (TextAttr.apply dflt) t := by
  rw [List.foldl_append, List.foldl_append]
  rfl

theorem sameButBlank_self (xs) : Pairwise2 SameButBlank xs xs := by
  induction xs with
  | nil => exact .nil
  | cons x xs ih => exact .cons (.inl rfl) ih

theorem pictured_amid {d : Dms} (hu : UniqueNumbers (fun g : Graphic => g.number.toNat) d.graphicDefinition)
    {us rest : List Value} (h : ∀ w ∈ us, ∀ r, w ≠ .textRectangle r) (hr : (sections rest).1 = []) {r r' : Rectangle}
    (hi : ∀ v ∈ us ++ rest, InRange v) (more : List (List Value)) (hm : ∀ p ∈ more, ∀ v ∈ p, InRange v) (u : List Value)
    (init : List (List Value)) :
    ∀ {t p xs xs' vs}, splitPages vs = init ++ [u] → (∀ v ∈ vs, InRange v) →
    Pictured d t p xs (init ++ (u ++ .textRectangle r :: (us ++ rest)) :: more) →
    Pictured d t p xs' (init ++ (u ++ .textRectangle r' :: (us ++ rest)) :: more) →
    ∀ L, L = vs.foldl (LastText.add d) ⟨t, none, signRect d, []⟩ →
    (∀ {sp a b b'}, TextDrawn d (L.after d) sp (opened d r) us a b →
      TextDrawn d (L.after d) sp (opened d r') us a b' → b = b') →
    Pairwise2 SameButBlank xs xs' := by
  have zero : ∀ {vs : List Value}, (∀ v ∈ vs, InRange v) → ∀ v ∈ vs, ∀ pos, v ≠ .graphic 0 pos := by
    rintro vs hv v hm pos rfl
    have := hv _ hm
    simp [InRange] at this
  induction init with
  | nil =>
    intro t p xs xs' vs hs hv h1 h2 L hL hR
    obtain ⟨rfl, hnp⟩ := splitPages_lone hs
    rw [lastText_section d vs hnp] at hL
    rw [List.nil_append] at h1 h2
    unfold Pictured at h1 h2
    obtain ⟨x, m, k1, k2, k3⟩ := h1
    obtain ⟨x', m', l1, l2, l3⟩ := h2
    rw [apply_amid _ r' r, pageTimes_amid _ r' r, background_amid _ r' r] at l3
    rw [background_amid _ r' r] at l1
    rw [pageTimes_amid _ r' r, background_amid _ r' r] at l2
    obtain rfl := pictured_unique hu hm k3 l3
    rw [sections_amid h hr] at k1 l1
    have hz := sections_all (P := fun v => ∀ pos, v ≠ .graphic 0 pos) (zero hv)
    have hz' := sections_all (P := fun v => ∀ pos, v ≠ .graphic 0 pos) (vs := rest)
      (zero fun v hm => hi v (List.mem_append_right _ hm))
    have hzu := zero (vs := us) fun v hm => hi v (List.mem_append_left _ hm)
    obtain rfl := composed_amid hu (fun pos hm => hzu _ hm pos rfl) (fun w hw pos hm => hz'.2 w hw _ hm pos rfl) _ k1
      (fun pos hm => hz.1 _ hm pos rfl) (fun w hw pos hm => hz.2 w hw _ hm pos rfl) l1 L hL hR
    rw [k2, l2]
    refine .cons (.inl rfl) (Pairwise2.append ?_ (sameButBlank_self m))
    split
    · exact .cons (.inr ⟨_, _, rfl, rfl, rfl⟩) .nil
    · exact .nil
  | cons i init ih =>
    intro t p xs xs' vs hs hv h1 h2 L hL hR
    obtain ⟨vs', rfl, hs'⟩ := splitPages_first hs (by simp)
    rw [List.foldl_append, List.foldl_cons] at hL
    have e : LastText.add d (i.foldl (LastText.add d) ⟨t, none, signRect d, []⟩) .newPage =
        ⟨i.foldl (TextAttr.apply (signAttr d)) t, none, signRect d, []⟩ := by
      show (⟨LastText.after d _, _, _, _⟩ : LastText) = _
      rw [lastText_after]
      rfl
    rw [e] at hL
    rw [List.cons_append] at h1 h2
    unfold Pictured at h1 h2
    obtain ⟨x, m, k1, k2, k3⟩ := h1
    obtain ⟨x', m', l1, l2, l3⟩ := h2
    have hz := sections_all (P := fun v => ∀ pos, v ≠ .graphic 0 pos) (vs := i)
      (zero fun v hm => hv v (List.mem_append_left _ hm))
    obtain rfl := composed_unique hu k1 (fun pos hm => hz.1 _ hm pos rfl) (fun w hw pos hm => hz.2 w hw _ hm pos rfl) l1
    rw [k2, l2]
    refine .cons (.inl rfl) (Pairwise2.append (sameButBlank_self _) ?_)
    exact ih hs' (fun v hm => hv v (List.mem_append_right _ (List.mem_cons_of_mem _ hm))) k3 l3 L hL hR

theorem splitPages_amid (X : List Value) (h : Value.newPage ∉ X) (R : List Value) {r0 rs} (hR : splitPages R = r0 :: rs)
    (A : List Value) : ∃ init u, splitPages A = init ++ [u] ∧ splitPages (A ++ (X ++ R)) = init ++ (u ++ (X ++ r0)) :: rs := by
  induction A with
  | nil =>
    refine ⟨[], [], rfl, ?_⟩
    induction X with
    | nil => exact hR
    | cons x X ih =>
      have hx : x ≠ .newPage := fun e => h (e ▸ List.mem_cons_self ..)
      have := ih fun hm => h (List.mem_cons_of_mem _ hm)
      simp only [List.nil_append, List.cons_append] at this ⊢
      rw [splitPages, if_neg hx, this]
  | cons v A ih =>
    obtain ⟨init, u, e1, e2⟩ := ih
    rw [List.cons_append, splitPages, splitPages]
    by_cases hv : v = .newPage
    · rw [if_pos hv, if_pos hv, e1, e2]
      exact ⟨[] :: init, u, rfl, rfl⟩
    · rw [if_neg hv, if_neg hv, e1, e2]
      cases init with
      | nil => exact ⟨[], v :: u, rfl, rfl⟩
      | cons i init => exact ⟨(v :: i) :: init, u, rfl, rfl⟩

theorem rectEnds_sections {R : List Value} (h : RectEnds R) : ∃ r0 rs, splitPages R = r0 :: rs ∧ (sections r0).1 = [] := by
  cases R with
  | nil => exact ⟨[], [], rfl, rfl⟩
  | cons v R =>
    by_cases hv : v = .newPage
    · subst hv
      exact ⟨[], splitPages R, rfl, rfl⟩
    · obtain ⟨p, ps, e1, e2⟩ := splitPages_cons (vs := R) hv
      refine ⟨_, _, e2, ?_⟩
      cases v <;> first | exact h.elim | exact absurd rfl hv | rfl

/-- **C128** Text stays where it is when only other edges of its text rectangle are moved.  Take a message with a text
rectangle anywhere, and another rectangle, of which the edges are the same at which texts of the rectangle are placed: for
texts at the left the left edge, at the right the right one, at the top the upper one, at the bottom the lower one, and for
texts in the center or middle both.  When the text rectangle is replaced with the other one, and both messages are shown,
then they are shown with the same pages: every pixel and the times are the same.  Only the size of the blank page of an off
time may be another (it is the size of the page's last text rectangle). -/
theorem C128_resized (d : Dms) (hf : FontsOk d.fontDefinition) (h0 : 1 ≤ d.multiCfg.defaultFont.toNat) (W H : Nat)
    (hg : GraphicsOk W H d.graphicDefinition) (ms ms' : Str) (vs us rest : List Value) (r r' : Rectangle)
    (hv : Parses (slices ms) (vs ++ .textRectangle r :: (us ++ rest)))
    (hv' : Parses (slices ms') (vs ++ .textRectangle r' :: (us ++ rest)))
    (hu : ∀ u ∈ us, u ≠ .newPage ∧ ∀ q, u ≠ .textRectangle q) (hr : RectEnds rest)
    (hk : KeepsEdges d (vs.foldl (TextAttr.apply (signAttr d)) (signAttr d)) us (opened d r) (opened d r'))
    (xs xs') (hx : ShownAs d ms xs) (hx' : ShownAs d ms' xs') : Pairwise2 SameButBlank xs xs' := by
  obtain ⟨zs, hz, hpic⟩ := C92_pictures d hf h0 W H hg ms xs hx.1 hx.2
  obtain rfl := parses_unique hv hz
  obtain ⟨zs', hz', hpic'⟩ := C92_pictures d hf h0 W H hg ms' xs' hx'.1 hx'.2
  obtain rfl := parses_unique hv' hz'
  obtain ⟨r0, rs, e0, es⟩ := rectEnds_sections hr
  have hn : ∀ q, Value.newPage ∉ Value.textRectangle q :: us := by
    intro q hm
    rcases List.mem_cons.1 hm with hm | hm
    · cases hm
    · exact (hu _ hm).1 rfl
  obtain ⟨init, u, e1, e2⟩ := splitPages_amid (.textRectangle r :: us) (hn r) rest e0 vs
  obtain ⟨init', u', e1', e2'⟩ := splitPages_amid (.textRectangle r' :: us) (hn r') rest e0 vs
  obtain ⟨rfl, e⟩ := List.append_inj' (e1.symm.trans e1') rfl
  obtain rfl : u = u' := by simpa using e
  rw [show vs ++ Value.textRectangle r :: (us ++ rest) = vs ++ (.textRectangle r :: us ++ rest) from rfl, e2] at hpic
  rw [show vs ++ Value.textRectangle r' :: (us ++ rest) = vs ++ (.textRectangle r' :: us ++ rest) from rfl, e2'] at hpic'
  have hi := parses_inRange hv (slices_items ms)
  have hi0 : ∀ p ∈ r0 :: rs, ∀ v ∈ p, InRange v := by
    intro p hp v hm
    rw [← e0] at hp
    exact hi v (List.mem_append_right _ (List.mem_cons_of_mem _ (List.mem_append_right _ (splitPages_mem p hp v hm))))
  refine pictured_amid hg.numbers (fun w hw => (hu w hw).2) es ?_ rs (fun p hp => hi0 p (List.mem_cons_of_mem _ hp)) u init e1
    (fun v hm => hi v (List.mem_append_left _ hm)) hpic hpic' _ rfl ?_
  · intro v hm
    rcases List.mem_append.1 hm with hm | hm
    · exact hi v (List.mem_append_right _ (List.mem_cons_of_mem _ (List.mem_append_left _ hm)))
    · exact hi0 r0 (List.mem_cons_self ..) v hm
  · intro sp a b b' g1 g2
    rw [lastText_after] at g1 g2
    exact textDrawn_resized hk g1 g2

/-! ### cases -/

-- the hypotheses of C128: text at the lower right of a rectangle, of which the left and the upper edge are moved
example : ∃ xs xs', ShownAs fullDms c!"[pt10o5][tr3,1,20,12][jl4][jp4]A[np]C" xs ∧ ShownAs fullDms
  c!"[pt10o5][tr1,3,22,10][jl4][jp4]A[np]C" xs' ∧
    Pairwise2 SameButBlank xs xs' := by
  obtain ⟨xs, hx, hn, _⟩ := summary_noError (d := fullDms) (ms := c!"[pt10o5][tr3,1,20,12][jl4][jp4]A[np]C")
    (l := [(true, 60, 30, 10), (false, 20, 12, 5), (true, 60, 30, 10), (false, 60, 30, 5)]) (by decide +kernel)
  obtain ⟨xs', hx', hn', _⟩ := summary_noError (d := fullDms) (ms := c!"[pt10o5][tr1,3,22,10][jl4][jp4]A[np]C")
    (l := [(true, 60, 30, 10), (false, 22, 10, 5), (true, 60, 30, 10), (false, 60, 30, 5)]) (by decide +kernel)
  have hv := C22_built_sign_valid .checked _ _ fullDms_built
  refine ⟨xs, xs', ⟨hx, hn⟩, ⟨hx', hn'⟩, C128_resized fullDms hv.2.2.2.2.1 (by decide) _ _ hv.2.2.2.2.2.1
    c!"[pt10o5][tr3,1,20,12][jl4][jp4]A[np]C" c!"[pt10o5][tr1,3,22,10][jl4][jp4]A[np]C" [.pageTime (some 10) (some 5)]
    [.justificationLine (some .right), .justificationPage (some .bottom), .text c!"A"] [.newPage, .text c!"C"]
    ⟨3, 1, 20, 12⟩ ⟨1, 3, 22, 10⟩
    (by
      rw [show slices c!"[pt10o5][tr3,1,20,12][jl4][jp4]A[np]C" = [c!"[pt10o5]", c!"[tr3,1,20,12]", c!"[jl4]",
        c!"[jp4]", c!"A", c!"[np]", c!"C"] by decide +kernel]
      exact .cons (by decide +kernel) (.cons (by decide +kernel) (.cons (by decide +kernel)
        (.cons (by decide +kernel) (.cons (by decide +kernel) (.cons (by decide +kernel)
        (.cons (by decide +kernel) .nil)))))))
    (by
      rw [show slices c!"[pt10o5][tr1,3,22,10][jl4][jp4]A[np]C" = [c!"[pt10o5]", c!"[tr1,3,22,10]", c!"[jl4]",
        c!"[jp4]", c!"A", c!"[np]", c!"C"] by decide +kernel]
      exact .cons (by decide +kernel) (.cons (by decide +kernel) (.cons (by decide +kernel)
        (.cons (by decide +kernel) (.cons (by decide +kernel) (.cons (by decide +kernel)
        (.cons (by decide +kernel) .nil)))))))
    (by simp) trivial ?_ xs xs' ⟨hx, hn⟩ ⟨hx', hn'⟩⟩
  intro p hp
  simp only [pieces, piece, List.nil_append, List.append_nil, List.mem_singleton] at hp
  subst hp
  exact ⟨rfl, rfl⟩

/-- **C128 (why)** Text in the center moves when the right edge of its rectangle is moved, text in the middle when the lower
edge is, and text at the right when the right edge is. -/
theorem C128_moved :
    (∃ coords, pixels fullDms c!"[tr1,1,20,10][jl3]A" coords ≠ pixels fullDms c!"[tr1,1,30,10][jl3]A" coords) ∧
    (∃ coords, pixels fullDms c!"[tr1,1,20,10][jp3]A" coords ≠ pixels fullDms c!"[tr1,1,20,20][jp3]A" coords) ∧
    ∃ coords, pixels fullDms c!"[tr1,1,20,10][jl4]A" coords ≠ pixels fullDms c!"[tr1,1,30,10][jl4]A" coords := by
  refine ⟨⟨[(8, 0), (9, 0), (10, 0)], ?_⟩, ⟨[(0, 1), (0, 2), (0, 3), (0, 4)], ?_⟩, ⟨[(17, 0), (18, 0), (19, 0), (19, 1)], ?_⟩⟩
  · decide +kernel
  · decide +kernel
  · decide +kernel

end Ntcip
