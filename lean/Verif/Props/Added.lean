import Verif.Lemmas.Added
import Verif.Lemmas.Picture
import Verif.Props.Account
import Verif.Props.Blank
import Verif.Props.Append
import Verif.Props.Look
import Verif.Props.Wording
import Verif.Spec.Sequel
import Verif.Props.Alone
/-
C113: text added below does not move the text above.
-/
namespace Ntcip
open Spec Tests

/-- values added to the last of the text rectangles -/
def addLast (ws : List Value) : List Value → List (Rectangle × List Value) → List Value × List (Rectangle × List Value)
  | v, [] => (v ++ ws, [])
  | v, (r, x) :: rest => (v, (r, (addLast ws x rest).1) :: (addLast ws x rest).2)

/-- the last of the text rectangles -/
def lastIn (d : Dms) : TextAttr → Option UInt8 → Rectangle → List Value → List (Rectangle × List Value) → LastText
  | t, sp, rect, v, [] => ⟨t, sp, rect, v⟩
  | t, sp, _, v, (r, x) :: rest =>
    lastIn d (v.foldl (TextAttr.apply (signAttr d)) t) (v.foldl spacingAfter sp) (opened d r) x rest

theorem addsText_plain {v : Value} (h : AddsText v) : v ≠ .newPage ∧ (∀ r, v ≠ .textRectangle r) ∧
    (∀ r c, v ≠ .colorRectangle r c) ∧ (∀ n pos, v ≠ .graphic n pos) ∧ (∀ a b, v ≠ .pageTime a b) ∧
    (∀ c, v ≠ .colorBackground c) ∧ ∀ c, v ≠ .pageBackground c := by
  refine ⟨?_, ?_, ?_, ?_, ?_, ?_, ?_⟩ <;> intros <;> rintro rfl <;> exact h

theorem sections_adds {ws : List Value} (h : ∀ w ∈ ws, AddsText w) : sections ws = (ws, []) := by
  induction ws with
  | nil => rfl
  | cons w ws ih =>
    rw [sections_cons (addsText_plain (h w (List.mem_cons_self ..))).2.1, ih fun v hv => h v (List.mem_cons_of_mem _ hv)]

theorem sections_added {ws : List Value} (h : ∀ w ∈ ws, AddsText w) (us : List Value) :
    sections (us ++ ws) = addLast ws (sections us).1 (sections us).2 := by
  induction us with
  | nil => rw [List.nil_append, sections_adds h]; rfl
  | cons u us ih =>
    by_cases hr : ∃ r, u = .textRectangle r
    · obtain ⟨r, rfl⟩ := hr
      show (([] : List Value), (r, (sections (us ++ ws)).1) :: (sections (us ++ ws)).2) = _
      rw [ih]
      rfl
    · have hr : ∀ r, u ≠ .textRectangle r := fun r e => hr ⟨r, e⟩
      rw [List.cons_append, sections_cons hr, sections_cons hr, ih]
      cases (sections us).2 <;> rfl

theorem lastRect_added (d : Dms) (ws : List Value) (rest : List (Rectangle × List Value)) : ∀ rect v,
    lastRect d rect (addLast ws v rest).2 = lastRect d rect rest := by
  induction rest with
  | nil => intro rect v; rfl
  | cons r rest ih => intro rect v; exact ih _ _

theorem pageTimes_added {ws : List Value} (h : ∀ w ∈ ws, AddsText w) (a : UInt8 × UInt8) (us : List Value) (c) :
    pageTimes a c (us ++ ws) = pageTimes a c us := by
  unfold pageTimes
  rw [List.foldl_append]
  generalize us.foldl _ c = c
  induction ws generalizing c with
  | nil => rfl
  | cons w ws ih =>
    rw [List.foldl_cons]
    have e := ih (fun v hv => h v (List.mem_cons_of_mem _ hv))
    have := h w (List.mem_cons_self ..)
    cases w <;> first | exact this.elim | exact e c

theorem background_added {ws : List Value} (h : ∀ w ∈ ws, AddsText w) (a : Color) (us : List Value) (c) :
    background a c (us ++ ws) = background a c us := by
  unfold background
  rw [List.foldl_append]
  generalize us.foldl _ c = c
  induction ws generalizing c with
  | nil => rfl
  | cons w ws ih =>
    rw [List.foldl_cons]
    have e := ih (fun v hv => h v (List.mem_cons_of_mem _ hv))
    have := h w (List.mem_cons_self ..)
    cases w <;> first | exact this.elim | exact e c

theorem layered_added {d : Dms} {W H : Nat} {ws : List Value} (h : ∀ w ∈ ws, AddsText w) (us : List Value) :
    ∀ {p i j o}, Layered d W H p (us ++ ws) i j o → Layered d W H p us i j o := by
  induction us with
  | nil =>
    intro p i j o ho
    rw [List.nil_append] at ho
    have : o = none := by
      induction ws generalizing p o with
      | nil => cases ho; rfl
      | cons w ws ih =>
        cases ho with
        | cons h1 h2 =>
          obtain rfl := ih (fun v hv => h v (List.mem_cons_of_mem _ hv)) h2
          have := h w (List.mem_cons_self ..)
          cases h1 <;> first | exact this.elim | rfl
    subst this
    exact .nil
  | cons u us ih =>
    intro p i j o ho
    cases ho with
    | cons h1 h2 => exact .cons h1 (ih h2)

theorem graphicsOn_added {d : Dms} {ws : List Value} (h : ∀ w ∈ ws, AddsText w) {p us a b}
    (hg : GraphicsOn d p (us ++ ws) a b) : GraphicsOn d p us a b :=
  ⟨hg.width, hg.height, fun i j => by
    obtain ⟨o, h1, h2⟩ := hg.px i j
    exact ⟨o, layered_added h us h1, h2⟩⟩

theorem composed_added {d : Dms} (hu : UniqueNumbers (fun g : Graphic => g.number.toNat) d.graphicDefinition)
    {ws ws' : List Value} (h : ∀ w ∈ ws, AddsText w) (h' : ∀ w ∈ ws', AddsText w) {bg} (rest) : ∀ {t sp rect v a b b'},
    Composed d bg t sp rect (addLast ws v rest).1 (addLast ws v rest).2 a b →
    (∀ pos, Value.graphic 0 pos ∉ v) → (∀ w ∈ rest, ∀ pos, Value.graphic 0 pos ∉ w.2) →
    Composed d bg t sp rect (addLast ws' v rest).1 (addLast ws' v rest).2 a b' →
    ∀ L, L = lastIn d t sp rect v rest → ∀ R : Raster → Raster → Prop,
    (∀ {a b b'}, TextDrawn d L.attr L.spacing L.rect (L.values ++ ws) a b →
      TextDrawn d L.attr L.spacing L.rect (L.values ++ ws') a b' → R b b') →
    R b b' := by
  have gr : ∀ {p vs a g g'}, (∀ pos, Value.graphic 0 pos ∉ vs) → GraphicsOn d p vs a g → GraphicsOn d p vs a g' →
      g = g' := by
    intro p vs a g g' hv h h'
    obtain ⟨h1, h2, h3⟩ := graphicsOn_unique hu hv h h'
    exact raster_ext h1 h2 h3
  induction rest with
  | nil =>
    intro t sp rect v a b b' hc hv _ hc' L hL R hR
    subst hL
    cases hc with
    | last h1 h2 =>
      cases hc' with
      | last h1' h2' =>
        obtain rfl := gr hv (graphicsOn_added h h1) (graphicsOn_added h' h1')
        exact hR h2 h2'
  | cons r rest ih =>
    intro t sp rect v a b b' hc hv hr hc' L hL R hR
    cases hc with
    | next h1 h2 h3 =>
      cases hc' with
      | next h1' h2' h3' =>
        obtain rfl := gr hv h1 h1'
        obtain rfl := textDrawn_unique h2 h2'
        exact ih h3 (hr _ (List.mem_cons_self ..)) (fun w hw => hr w (List.mem_cons_of_mem _ hw)) h3' L hL R hR

theorem lastText_section (d : Dms) (us : List Value) (h : Value.newPage ∉ us) : ∀ t sp rect v,
    us.foldl (LastText.add d) ⟨t, sp, rect, v⟩ = lastIn d t sp rect (v ++ (sections us).1) (sections us).2 := by
  induction us with
  | nil => intro t sp rect v; simp [sections, lastIn]
  | cons u us ih =>
    intro t sp rect v
    have hi := ih fun hm => h (List.mem_cons_of_mem _ hm)
    have hn : u ≠ .newPage := fun e => h (e ▸ List.mem_cons_self ..)
    by_cases hr : ∃ r, u = .textRectangle r
    · obtain ⟨r, rfl⟩ := hr
      rw [List.foldl_cons]
      show us.foldl (LastText.add d) ⟨_, _, _, []⟩ = _
      rw [hi]
      simp only [sections, List.append_nil, List.nil_append]
      rfl
    · have hr : ∀ r, u ≠ .textRectangle r := fun r e => hr ⟨r, e⟩
      rw [List.foldl_cons, sections_cons hr]
      have e : LastText.add d ⟨t, sp, rect, v⟩ u = ⟨t, sp, rect, v ++ [u]⟩ := by
        cases u <;> first | rfl | exact absurd rfl hn | exact absurd rfl (hr _)
      rw [e, hi]
      simp

theorem lastText_after (d : Dms) (us : List Value) : ∀ l : LastText,
    (us.foldl (LastText.add d) l).after d = us.foldl (TextAttr.apply (signAttr d)) (l.after d) := by
  induction us with
  | nil => intro l; rfl
  | cons u us ih =>
    intro l
    rw [List.foldl_cons, ih, List.foldl_cons]
    congr 1
    cases u <;> first | rfl | (simp only [LastText.add, LastText.after, List.foldl_append]; rfl)

theorem splitPages_lone {vs u : List Value} (h : splitPages vs = [u]) : vs = u ∧ Value.newPage ∉ u := by
  induction vs generalizing u with
  | nil => simp only [splitPages, List.cons.injEq, and_true] at h; subst h; simp
  | cons v vs ih =>
    by_cases hv : v = .newPage
    · subst hv
      simp only [splitPages, if_true, List.cons.injEq] at h
      exact absurd h.2 (splitPages_ne vs)
    · obtain ⟨p, ps, e1, e2⟩ := splitPages_cons (vs := vs) hv
      rw [e2] at h
      simp only [List.cons.injEq] at h
      obtain ⟨rfl, rfl⟩ := h
      obtain ⟨rfl, h2⟩ := ih e1
      exact ⟨rfl, by simp only [List.mem_cons, not_or]; exact ⟨fun e => hv e.symm, h2⟩⟩

theorem splitPages_first {vs i : List Value} {ps} (h : splitPages vs = i :: ps) (hp : ps ≠ []) :
    ∃ vs', vs = i ++ .newPage :: vs' ∧ splitPages vs' = ps := by
  induction vs generalizing i with
  | nil =>
    simp only [splitPages, List.cons.injEq] at h
    exact absurd h.2.symm hp
  | cons v vs ih =>
    by_cases hv : v = .newPage
    · subst hv
      simp only [splitPages, if_true, List.cons.injEq] at h
      obtain ⟨rfl, h⟩ := h
      exact ⟨vs, rfl, h⟩
    · obtain ⟨p, qs, e1, e2⟩ := splitPages_cons (vs := vs) hv
      rw [e2] at h
      simp only [List.cons.injEq] at h
      obtain ⟨rfl, rfl⟩ := h
      obtain ⟨vs', rfl, h2⟩ := ih e1
      exact ⟨vs', rfl, h2⟩

theorem splitPages_last (ws : List Value) (h : Value.newPage ∉ ws) (vs : List Value) :
    ∃ init u, splitPages vs = init ++ [u] ∧ splitPages (vs ++ ws) = init ++ [u ++ ws] := by
  induction vs with
  | nil =>
    refine ⟨[], [], rfl, ?_⟩
    induction ws with
    | nil => rfl
    | cons w ws ih =>
      have hw : w ≠ .newPage := fun e => h (e ▸ List.mem_cons_self ..)
      have := ih fun hm => h (List.mem_cons_of_mem _ hm)
      simp only [List.nil_append] at this ⊢
      rw [splitPages, if_neg hw, this]
  | cons v vs ih =>
    obtain ⟨init, u, e1, e2⟩ := ih
    by_cases hv : v = .newPage
    · subst hv
      exact ⟨[] :: init, u, by simp [splitPages, e1], by simp [splitPages, e2]⟩
    · cases init with
      | nil =>
        exact ⟨[], v :: u, by rw [splitPages, if_neg hv, e1]; rfl, by rw [List.cons_append, splitPages, if_neg hv, e2]; rfl⟩
      | cons i init =>
        exact ⟨(v :: i) :: init, u, by rw [splitPages, if_neg hv, e1]; rfl, by rw [List.cons_append, splitPages, if_neg hv, e2]; rfl⟩

theorem pictured_added {d : Dms} (hu : UniqueNumbers (fun g : Graphic => g.number.toNat) d.graphicDefinition)
    {ws ws' : List Value} (h : ∀ w ∈ ws, AddsText w) (h' : ∀ w ∈ ws', AddsText w) (u : List Value) (init : List (List Value)) :
    ∀ {t p xs xs' vs}, splitPages vs = init ++ [u] → (∀ v ∈ vs, InRange v) → Pictured d t p xs (init ++ [u ++ ws]) →
    Pictured d t p xs' (init ++ [u ++ ws']) → ∀ L, L = vs.foldl (LastText.add d) ⟨t, none, signRect d, []⟩ →
    ∀ R : Raster → Raster → Prop,
    (∀ {a b b'}, TextDrawn d L.attr L.spacing L.rect (L.values ++ ws) a b →
      TextDrawn d L.attr L.spacing L.rect (L.values ++ ws') a b' → R b b') →
    ∃ ys p p' off, xs = ys ++ (true, .ok p) :: off ∧ xs' = ys ++ (true, .ok p') :: off ∧ (∀ o ∈ off, o.1 = false) ∧
      p.durationDs = p'.durationDs ∧ p.raster.width = p'.raster.width ∧ p.raster.height = p'.raster.height ∧
      R p.raster p'.raster := by
  induction init with
  | nil =>
    intro t p xs xs' vs hs hv h1 h2 L hL R hR
    obtain ⟨rfl, hnp⟩ := splitPages_lone hs
    rw [lastText_section d vs hnp] at hL
    rw [List.nil_append] at h1 h2
    unfold Pictured at h1 h2
    obtain ⟨r, m, k1, k2, k3⟩ := h1
    obtain ⟨r', m', l1, l2, l3⟩ := h2
    unfold Pictured at k3 l3
    subst k3; subst l3
    rw [background_added h, sections_added h] at k1
    rw [pageTimes_added h, background_added h, sections_added h, lastRect_added] at k2
    rw [background_added h', sections_added h'] at l1
    rw [pageTimes_added h', background_added h', sections_added h', lastRect_added] at l2
    have hz := sections_all (P := fun v => ∀ pos, v ≠ .graphic 0 pos) (vs := vs) (by
      rintro v hm pos rfl
      have := hv _ hm
      simp [InRange] at this)
    have s1 := composed_size k1
    have s2 := composed_size l1
    refine ⟨[], _, _, _, k2, l2, ?_, rfl, s1.1.trans s2.1.symm, s1.2.trans s2.2.symm, ?_⟩
    · intro o ho
      rw [List.append_nil] at ho
      split at ho
      · simp only [List.mem_singleton] at ho; rw [ho]
      · simp at ho
    · exact composed_added hu h h' _ k1 (fun pos hm => hz.1 _ hm pos rfl) (fun w hw pos hm => hz.2 w hw _ hm pos rfl) l1
        L hL R hR
  | cons i init ih =>
    intro t p xs xs' vs hs hv h1 h2 L hL R hR
    obtain ⟨vs', rfl, hs'⟩ := splitPages_first hs (by simp)
    rw [List.foldl_append, List.foldl_cons] at hL
    have e : LastText.add d (i.foldl (LastText.add d) ⟨t, none, signRect d, []⟩) .newPage =
        ⟨i.foldl (TextAttr.apply (signAttr d)) t, none, signRect d, []⟩ := by
      show (⟨LastText.after d _, _, _, _⟩ : LastText) = _
      rw [lastText_after]
      rfl
    rw [e] at hL
    rw [List.cons_append] at h1 h2
    unfold Pictured at h1 h2
    obtain ⟨r, m, k1, k2, k3⟩ := h1
    obtain ⟨r', m', l1, l2, l3⟩ := h2
    have hz := sections_all (P := fun v => ∀ pos, v ≠ .graphic 0 pos) (vs := i) (by
      rintro v hm pos rfl
      have := hv _ (List.mem_append_left _ hm)
      simp [InRange] at this)
    obtain rfl := composed_unique hu k1 (fun pos hm => hz.1 _ hm pos rfl) (fun w hw pos hm => hz.2 w hw _ hm pos rfl) l1
    obtain ⟨ys, q, q', off, e1, e2, e3⟩ := ih hs' (fun v hm => hv v (List.mem_append_right _ (List.mem_cons_of_mem _ hm)))
      k3 l3 L hL R hR
    subst e1; subst e2
    have key : ∀ a b, xs = a :: (b ++ (ys ++ (true, .ok q) :: off)) → xs' = a :: (b ++ (ys ++ (true, .ok q') :: off)) →
        ∃ zs, xs = zs ++ (true, .ok q) :: off ∧ xs' = zs ++ (true, .ok q') :: off := by
      intro a b h1 h2
      exact ⟨a :: (b ++ ys), by rw [h1, List.cons_append, List.append_assoc], by rw [h2, List.cons_append, List.append_assoc]⟩
    obtain ⟨zs, e4, e5⟩ := key _ _ k2 l2
    exact ⟨zs, q, q', off, e4, e5, e3⟩

/-- two messages that are the same but for texts at their ends -/
theorem shown_ended (d : Dms) (hf : FontsOk d.fontDefinition) (h0 : 1 ≤ d.multiCfg.defaultFont.toNat) (W H : Nat)
    (hg : GraphicsOk W H d.graphicDefinition) (ms ms' : Str) (vs ws ws' : List Value) (hv : Parses (slices ms) (vs ++ ws))
    (hv' : Parses (slices ms') (vs ++ ws')) (hw : ∀ w ∈ ws, AddsText w) (hw' : ∀ w ∈ ws', AddsText w)
    (xs xs') (hx : ShownAs d ms xs) (hx' : ShownAs d ms' xs') (R : Raster → Raster → Prop)
    (hR : ∀ {a b b'}, TextDrawn d (lastText d vs).attr (lastText d vs).spacing (lastText d vs).rect ((lastText d vs).values ++ ws) a b →
      TextDrawn d (lastText d vs).attr (lastText d vs).spacing (lastText d vs).rect ((lastText d vs).values ++ ws') a b' →
      R b b') :
    ∃ ys p p' off, xs = ys ++ (true, .ok p) :: off ∧ xs' = ys ++ (true, .ok p') :: off ∧ (∀ o ∈ off, o.1 = false) ∧
      p.durationDs = p'.durationDs ∧ p.raster.width = p'.raster.width ∧ p.raster.height = p'.raster.height ∧
      R p.raster p'.raster := by
  obtain ⟨us, hu, hp⟩ := C92_pictures d hf h0 W H hg ms xs hx.1 hx.2
  obtain rfl := parses_unique hv hu
  obtain ⟨us', hu', hp'⟩ := C92_pictures d hf h0 W H hg ms' xs' hx'.1 hx'.2
  obtain rfl := parses_unique hv' hu'
  obtain ⟨init, u, e1, e2⟩ := splitPages_last ws (fun hm => (addsText_plain (hw _ hm)).1 rfl) vs
  obtain ⟨init', u', e1', e2'⟩ := splitPages_last ws' (fun hm => (addsText_plain (hw' _ hm)).1 rfl) vs
  obtain ⟨rfl, e⟩ := List.append_inj' (e1.symm.trans e1') rfl
  obtain rfl : u = u' := by simpa using e
  rw [e2] at hp
  rw [e2'] at hp'
  exact pictured_added hg.numbers hw hw' u init e1
    (fun v hm => parses_inRange hv (slices_items ms) v (List.mem_append_left _ hm)) hp hp' _ rfl _ hR

/-- **C113** When text is added at the end of a message, with a new line below text at the top, or with another page
justification, and both messages are shown, then they are shown with the same pages, except for the last one.  It has the
same size and time, and its pixels are the same, except for pixels which are lit by the added texts, and are below all old
texts with the same page justification.  So nothing that was shown before moves or disappears, unless the added text is
drawn over it. -/
theorem C113_added (d : Dms) (hf : FontsOk d.fontDefinition) (h0 : 1 ≤ d.multiCfg.defaultFont.toNat) (W H : Nat)
    (hg : GraphicsOk W H d.graphicDefinition) (ms ms' : Str) (vs ws : List Value) (hv : Parses (slices ms) vs)
    (hv' : Parses (slices ms') (vs ++ ws)) (hw : ∀ w ∈ ws, AddsText w)
    (xs xs') (hx : ShownAs d ms xs) (hx' : ShownAs d ms' xs')
    (ht : Tidy (signAttr d) (lastText d vs).attr true true ((lastText d vs).values ++ ws))
    (hb : BeginsBelow (signAttr d) ((lastText d vs).after d) ws) :
    ∃ ys p p' off, xs = ys ++ (true, .ok p) :: off ∧ xs' = ys ++ (true, .ok p') :: off ∧ (∀ o ∈ off, o.1 = false) ∧
      p.durationDs = p'.durationDs ∧ p.raster.width = p'.raster.width ∧ p.raster.height = p'.raster.height ∧
      ∀ i j, p'.raster.px i j ≠ p.raster.px i j →
        LitBelow d
          (layoutOf d (lastText d vs).attr (lastText d vs).spacing (lastText d vs).rect (lastText d vs).values)
          (layoutOf d (lastText d vs).attr (lastText d vs).spacing (lastText d vs).rect ((lastText d vs).values ++ ws)) i j := by
  refine shown_ended d hf h0 W H hg ms ms' vs [] ws (by rwa [List.append_nil]) hv' (by simp) hw xs xs' hx hx'
    (fun b b' => ∀ i j, b'.px i j ≠ b.px i j → LitBelow d
      (layoutOf d (lastText d vs).attr (lastText d vs).spacing (lastText d vs).rect (lastText d vs).values)
      (layoutOf d (lastText d vs).attr (lastText d vs).spacing (lastText d vs).rect ((lastText d vs).values ++ ws)) i j) ?_
  intro a b b' h1 h2
  rw [List.append_nil] at h1
  exact textDrawn_added ht hb h1 h2

/-! ### an example -/

def above : Str := c!"ABC[np]A"
def withBelow : Str := c!"ABC[np]A[nl]B[jp4]C"

theorem above_values : Parses (slices above) [.text c!"ABC", .newPage, .text c!"A"] := by
  rw [show slices above = [c!"ABC", c!"[np]", c!"A"] by decide +kernel]
  exact .cons (by decide +kernel) (.cons (by decide +kernel) (.cons (by decide +kernel) .nil))

theorem withBelow_values : Parses (slices withBelow) ([.text c!"ABC", .newPage, .text c!"A"] ++
    [.newLine none, .text c!"B", .justificationPage (some .bottom), .text c!"C"]) := by
  rw [show slices withBelow = [c!"ABC", c!"[np]", c!"A", c!"[nl]", c!"B", c!"[jp4]", c!"C"] by decide +kernel]
  exact .cons (by decide +kernel) (.cons (by decide +kernel) (.cons (by decide +kernel) (.cons (by decide +kernel)
    (.cons (by decide +kernel) (.cons (by decide +kernel) (.cons (by decide +kernel) .nil))))))

-- the hypotheses of C113, and what it tells
example : ∃ xs xs', ShownAs fullDms above xs ∧ ShownAs fullDms withBelow xs' ∧
    ∃ ys p p' off, xs = ys ++ (true, .ok p) :: off ∧ xs' = ys ++ (true, .ok p') :: off ∧
      ∀ i j, p'.raster.px i j ≠ p.raster.px i j →
        LitBelow fullDms (layoutOf fullDms (signAttr fullDms) none (signRect fullDms) [.text c!"A"])
          (layoutOf fullDms (signAttr fullDms) none (signRect fullDms)
            [.text c!"A", .newLine none, .text c!"B", .justificationPage (some .bottom), .text c!"C"]) i j := by
  obtain ⟨xs, hx, hn, _⟩ := summary_noError (d := fullDms) (ms := above) (l := [(true, 60, 30, 30), (true, 60, 30, 30)])
    (by decide +kernel)
  obtain ⟨xs', hx', hn', _⟩ := summary_noError (d := fullDms) (ms := withBelow)
    (l := [(true, 60, 30, 30), (true, 60, 30, 30)]) (by decide +kernel)
  have hv := C22_built_sign_valid .checked _ _ fullDms_built
  obtain ⟨ys, p, p', off, h1, h2, _, _, _, _, h3⟩ := C113_added fullDms hv.2.2.2.2.1 (by decide) _ _ hv.2.2.2.2.2.1
    above withBelow _ _ above_values withBelow_values (by simp [AddsText]) xs xs' ⟨hx, hn⟩ ⟨hx', hn'⟩
    ⟨trivial, fun _ => by simp_all [freshAfter], trivial, .inr (by decide), trivial, trivial⟩ ⟨by decide, by decide⟩
  exact ⟨xs, xs', ⟨hx, hn⟩, ⟨hx', hn'⟩, ys, p, p', off, h1, h2, h3⟩

-- the text `A` is at the top, and 8 pixels high: a pixel with text `B` is below it
example (i j : Nat) (h : ∃ s ∈ (layoutOf fullDms (signAttr fullDms) none (signRect fullDms)
      [.text c!"A", .newLine none, .text c!"B"]).drop 1, Lights fullDms (layoutOf fullDms (signAttr fullDms) none
        (signRect fullDms) [.text c!"A", .newLine none, .text c!"B"]) s i j ∧
    ∀ o ∈ layoutOf fullDms (signAttr fullDms) none (signRect fullDms) [.text c!"A"],
      o.state.justPage = s.state.justPage → ∀ y f,
      AtY fullDms (layoutOf fullDms (signAttr fullDms) none (signRect fullDms) [.text c!"A"]) o y →
      FontOf fullDms.fontDefinition o f → y + f.height.toNat ≤ j) : 8 ≤ j := by
  obtain ⟨s, hs, _, h⟩ := h
  have e : s.state.justPage = .top := by
    have : s ∈ [spanOf fullDms (signRect fullDms) ⟨signAttr fullDms, none, 1, c!"B"⟩] := hs
    rw [List.mem_singleton] at this
    rw [this]; rfl
  obtain ⟨f, hf⟩ : ∃ f, FontTable.font fullDms.fontDefinition 8 = some f ∧ f.height = 8 := by
    have : ((FontTable.font fullDms.fontDefinition 8).map (·.height)) = some 8 := by decide +kernel
    cases h : FontTable.font fullDms.fontDefinition 8 with
    | none => rw [h] at this; simp at this
    | some f => rw [h] at this; exact ⟨f, rfl, by simpa using this⟩
  have hfo : FontOf fullDms.fontDefinition (spanOf fullDms (signRect fullDms) ⟨signAttr fullDms, none, 0, c!"A"⟩) f :=
    ⟨hf.1, by rintro v ⟨⟩⟩
  have := h (spanOf fullDms (signRect fullDms) ⟨signAttr fullDms, none, 0, c!"A"⟩) (List.mem_cons_self ..)
    (by rw [e]; rfl) 0 f ⟨f, 1, 8, hfo, .new rfl .nil, by decide +kernel, by decide, by rw [hf.2]; decide +kernel⟩ hfo
  rw [hf.2] at this
  exact this

-- text in the vertical middle is moved by a new line below
example : pixels fullDms c!"[jp3]A" [(2, 11), (2, 7)] ≠ pixels fullDms c!"[jp3]A[nl]B" [(2, 11), (2, 7)] ∧
    pixels fullDms c!"[jp2]A" [(2, 0), (0, 2)] = pixels fullDms c!"[jp2]A[nl]B" [(2, 0), (0, 2)] := by decide +kernel

end Ntcip
