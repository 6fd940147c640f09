import Verif.Lemmas.Stack
import Verif.Props.Added
/-
C126: a new line is like a text rectangle which begins at that line.
-/
namespace Ntcip
open Spec Tests

theorem sections_stacked {ws : List Value} (h : ∀ w ∈ ws, AddsText w) (r : Rectangle) (us : List Value) :
    sections (us ++ .textRectangle r :: ws) = ((sections us).1, (sections us).2 ++ [(r, ws)]) := by
  induction us with
  | nil =>
    show ([], (r, (sections ws).1) :: (sections ws).2) = _
    rw [sections_adds h]
    rfl
  | cons u us ih =>
    by_cases hr : ∃ r, u = .textRectangle r
    · obtain ⟨r', rfl⟩ := hr
      show (([] : List Value), (r', (sections (us ++ _)).1) :: (sections (us ++ _)).2) = _
      rw [ih]
      rfl
    · have hr : ∀ r, u ≠ .textRectangle r := fun r e => hr ⟨r, e⟩
      rw [List.cons_append, sections_cons hr, sections_cons hr, ih]

theorem composed_stacked {d : Dms} (hu : UniqueNumbers (fun g : Graphic => g.number.toNat) d.graphicDefinition)
    {s : Option UInt8} {ws : List Value} (h : ∀ w ∈ ws, AddsText w) {r : Rectangle} {bg} (rest) : ∀ {t sp rect v a b b'},
    Composed d bg t sp rect (addLast (.newLine s :: ws) v rest).1 (addLast (.newLine s :: ws) v rest).2 a b →
    (∀ pos, Value.graphic 0 pos ∉ v) → (∀ w ∈ rest, ∀ pos, Value.graphic 0 pos ∉ w.2) →
    Composed d bg t sp rect v (rest ++ [(r, ws)]) a b' →
    ∀ L, L = lastIn d t sp rect v rest →
    (∀ {a b u b'}, TextDrawn d L.attr L.spacing L.rect (L.values ++ .newLine s :: ws) a b →
      TextDrawn d L.attr L.spacing L.rect L.values a u →
      TextDrawn d (L.after d) (L.values.foldl spacingAfter L.spacing) (opened d r) ws u b' → b = b') →
    b = b' := by
  have gr : ∀ {p vs a g g'}, (∀ pos, Value.graphic 0 pos ∉ vs) → GraphicsOn d p vs a g → GraphicsOn d p vs a g' →
      g = g' := by
    intro p vs a g g' hv h h'
    obtain ⟨h1, h2, h3⟩ := graphicsOn_unique hu hv h h'
    exact raster_ext h1 h2 h3
  have hnl : ∀ w ∈ Value.newLine s :: ws, AddsText w := by
    intro w hw
    rcases List.mem_cons.1 hw with rfl | hw
    · trivial
    · exact h w hw
  induction rest with
  | nil =>
    intro t sp rect v a b b' hc hv _ hc' L hL hR
    subst hL
    cases hc with
    | last h1 h2 =>
      cases hc' with
      | next h1' h2' h3' =>
        obtain rfl := gr hv (graphicsOn_added hnl h1) h1'
        cases h3' with
        | last h4 h5 =>
          have e : GraphicsOn d _ [] _ _ := graphicsOn_added h (us := []) h4
          obtain rfl := gr (by simp) e ⟨rfl, rfl, fun i j => ⟨none, .nil, rfl⟩⟩
          exact hR h2 h2' h5
  | cons x rest ih =>
    intro t sp rect v a b b' hc hv hr hc' L hL hR
    cases hc with
    | next h1 h2 h3 =>
      cases hc' with
      | next h1' h2' h3' =>
        obtain rfl := gr hv h1 h1'
        obtain rfl := textDrawn_unique h2 h2'
        exact ih h3 (hr _ (List.mem_cons_self ..)) (fun w hw => hr w (List.mem_cons_of_mem _ hw)) h3' L hL hR

theorem pageTimes_stacked (a : UInt8 × UInt8) (s : Option UInt8) (r : Rectangle) (us ws : List Value) (c) :
    pageTimes a c (us ++ .newLine s :: ws) = pageTimes a c (us ++ .textRectangle r :: ws) := by
  unfold pageTimes
  rw [List.foldl_append, List.foldl_append]
  rfl

theorem background_stacked (a : Color) (s : Option UInt8) (r : Rectangle) (us ws : List Value) (c) :
    background a c (us ++ .newLine s :: ws) = background a c (us ++ .textRectangle r :: ws) := by
  unfold background
  rw [List.foldl_append, List.foldl_append]
  rfl

theorem pictured_stacked {d : Dms} (hu : UniqueNumbers (fun g : Graphic => g.number.toNat) d.graphicDefinition)
    {s : Option UInt8} {ws : List Value} (h : ∀ w ∈ ws, AddsText w) {r : Rectangle} (u : List Value)
    (init : List (List Value)) :
    ∀ {t p xs xs' vs}, splitPages vs = init ++ [u] → (∀ v ∈ vs, InRange v) →
    Pictured d t p xs (init ++ [u ++ .newLine s :: ws]) → Pictured d t p xs' (init ++ [u ++ .textRectangle r :: ws]) →
    ∀ L, L = vs.foldl (LastText.add d) ⟨t, none, signRect d, []⟩ →
    (∀ {a b u b'}, TextDrawn d L.attr L.spacing L.rect (L.values ++ .newLine s :: ws) a b →
      TextDrawn d L.attr L.spacing L.rect L.values a u →
      TextDrawn d (L.after d) (L.values.foldl spacingAfter L.spacing) (opened d r) ws u b' → b = b') →
    ∃ ys p off off', xs = ys ++ (true, .ok p) :: off ∧ xs' = ys ++ (true, .ok p) :: off' ∧
      (off = [] ∧ off' = [] ∨ ∃ q q', off = [(false, .ok q)] ∧ off' = [(false, .ok q')] ∧ q.durationDs = q'.durationDs) := by
  induction init with
  | nil =>
    intro t p xs xs' vs hs hv h1 h2 L hL hR
    obtain ⟨rfl, hnp⟩ := splitPages_lone hs
    rw [lastText_section d vs hnp] at hL
    rw [List.nil_append] at h1 h2
    unfold Pictured at h1 h2
    obtain ⟨r', m, k1, k2, k3⟩ := h1
    obtain ⟨r'', m', l1, l2, l3⟩ := h2
    unfold Pictured at k3 l3
    subst k3; subst l3
    have hnl : ∀ w ∈ Value.newLine s :: ws, AddsText w := by
      intro w hw
      rcases List.mem_cons.1 hw with rfl | hw
      · trivial
      · exact h w hw
    rw [sections_added hnl, background_stacked _ s r] at k1
    rw [pageTimes_stacked _ s r, background_stacked _ s r] at k2
    rw [sections_stacked h] at l1
    have hz := sections_all (P := fun v => ∀ pos, v ≠ .graphic 0 pos) (vs := vs) (by
      rintro v hm pos rfl
      have := hv _ hm
      simp [InRange] at this)
    obtain rfl := composed_stacked hu h _ k1 (fun pos hm => hz.1 _ hm pos rfl) (fun w hw pos hm => hz.2 w hw _ hm pos rfl)
      l1 L hL hR
    refine ⟨[], _, _, _, k2, l2, ?_⟩
    simp only [List.append_nil]
    split
    · exact .inr ⟨_, _, rfl, rfl, rfl⟩
    · exact .inl ⟨rfl, rfl⟩
  | cons i init ih =>
    intro t p xs xs' vs hs hv h1 h2 L hL hR
    obtain ⟨vs', rfl, hs'⟩ := splitPages_first hs (by simp)
    rw [List.foldl_append, List.foldl_cons] at hL
    have e : LastText.add d (i.foldl (LastText.add d) ⟨t, none, signRect d, []⟩) .newPage =
        ⟨i.foldl (TextAttr.apply (signAttr d)) t, none, signRect d, []⟩ := by
      show (⟨LastText.after d _, _, _, _⟩ : LastText) = _
      rw [lastText_after]
      rfl
    rw [e] at hL
    rw [List.cons_append] at h1 h2
    unfold Pictured at h1 h2
    obtain ⟨r', m, k1, k2, k3⟩ := h1
    obtain ⟨r'', m', l1, l2, l3⟩ := h2
    have hz := sections_all (P := fun v => ∀ pos, v ≠ .graphic 0 pos) (vs := i) (by
      rintro v hm pos rfl
      have := hv _ (List.mem_append_left _ hm)
      simp [InRange] at this)
    obtain rfl := composed_unique hu k1 (fun pos hm => hz.1 _ hm pos rfl) (fun w hw pos hm => hz.2 w hw _ hm pos rfl) l1
    obtain ⟨ys, q, off, off', e1, e2, e3⟩ := ih hs' (fun v hm => hv v (List.mem_append_right _ (List.mem_cons_of_mem _ hm)))
      k3 l3 L hL hR
    subst e1; subst e2
    have key : ∀ a b, xs = a :: (b ++ (ys ++ (true, .ok q) :: off)) → xs' = a :: (b ++ (ys ++ (true, .ok q) :: off')) →
        ∃ zs, xs = zs ++ (true, .ok q) :: off ∧ xs' = zs ++ (true, .ok q) :: off' := by
      intro a b h1 h2
      exact ⟨a :: (b ++ ys), by rw [h1, List.cons_append, List.append_assoc], by rw [h2, List.cons_append, List.append_assoc]⟩
    obtain ⟨zs, e4, e5⟩ := key _ _ k2 l2
    exact ⟨zs, q, off, off', e4, e5, e3⟩

/-- **C126** A new line is like a text rectangle which begins at that line.  Take a message which ends with text at the top
of its last text rectangle, in order, and one of its new lines.  When this `[nl]` tag is replaced with a text rectangle at
the same left, with the same width, and lower by the heights of the lines before and the spaces below them, and both
messages are shown, then they are shown with the same pages: every pixel and the times are the same.  Only the size of the
blank page of the last page's off time, if there is one, may be another (it is the size of the text rectangle). -/
theorem C126_line (d : Dms) (hf : FontsOk d.fontDefinition) (h0 : 1 ≤ d.multiCfg.defaultFont.toNat) (W H : Nat)
    (hg : GraphicsOk W H d.graphicDefinition) (ms ms' : Str) (vs ws : List Value) (s : Option UInt8) (r : Rectangle)
    (hv : Parses (slices ms) (vs ++ .newLine s :: ws)) (hv' : Parses (slices ms') (vs ++ .textRectangle r :: ws))
    (hw : ∀ w ∈ ws, AddsText w) (hj : (lastText d vs).attr.justPage ≠ .middle ∧ (lastText d vs).attr.justPage ≠ .bottom)
    (hp : ∀ j, Value.justificationPage j ∉ (lastText d vs).values ++ ws)
    (ht : Tidy (signAttr d) (lastText d vs).attr true true ((lastText d vs).values ++ .newLine s :: ws))
    (hr : AtNextLine d (lastText d vs) s ws r) (xs xs') (hx : ShownAs d ms xs) (hx' : ShownAs d ms' xs') :
    ∃ ys p off off', xs = ys ++ (true, .ok p) :: off ∧ xs' = ys ++ (true, .ok p) :: off' ∧
      (off = [] ∧ off' = [] ∨ ∃ q q', off = [(false, .ok q)] ∧ off' = [(false, .ok q')] ∧ q.durationDs = q'.durationDs) := by
  obtain ⟨us, hu, hpic⟩ := C92_pictures d hf h0 W H hg ms xs hx.1 hx.2
  obtain rfl := parses_unique hv hu
  obtain ⟨us', hu', hpic'⟩ := C92_pictures d hf h0 W H hg ms' xs' hx'.1 hx'.2
  obtain rfl := parses_unique hv' hu'
  have hn : Value.newPage ∉ ws := fun hm => (addsText_plain (hw _ hm)).1 rfl
  obtain ⟨init, u, e1, e2⟩ := splitPages_last (.newLine s :: ws) (by simpa using hn) vs
  obtain ⟨init', u', e1', e2'⟩ := splitPages_last (.textRectangle r :: ws) (by simpa using hn) vs
  obtain ⟨rfl, e⟩ := List.append_inj' (e1.symm.trans e1') rfl
  obtain rfl : u = u' := by simpa using e
  rw [e2] at hpic
  rw [e2'] at hpic'
  refine pictured_stacked hg.numbers hw u init e1
    (fun v hm => parses_inRange hv (slices_items ms) v (List.mem_append_left _ hm)) hpic hpic' _ rfl ?_
  intro a b u b' g1 g2 g3
  exact textDrawn_stack (rect' := opened d r) ht hj (fun j hm => hp j (List.mem_append_left _ hm)) (fun j hm => hp j (List.mem_append_right _ hm))
    hr.left hr.width hr.top g1 g2 g3

/-! ### an example -/

def stackedLines : Str := c!"ABC[np]A[nl2]B[jl4]C"
def stackedRects : Str := c!"ABC[np]A[tr1,11,0,0]B[jl4]C"

theorem stackedLines_values : Parses (slices stackedLines) ([.text c!"ABC", .newPage, .text c!"A"] ++
    .newLine (some 2) :: [.text c!"B", .justificationLine (some .right), .text c!"C"]) := by
  rw [show slices stackedLines = [c!"ABC", c!"[np]", c!"A", c!"[nl2]", c!"B", c!"[jl4]", c!"C"] by decide +kernel]
  exact .cons (by decide +kernel) (.cons (by decide +kernel) (.cons (by decide +kernel) (.cons (by decide +kernel)
    (.cons (by decide +kernel) (.cons (by decide +kernel) (.cons (by decide +kernel) .nil))))))

theorem stackedRects_values : Parses (slices stackedRects) ([.text c!"ABC", .newPage, .text c!"A"] ++
    .textRectangle ⟨1, 11, 0, 0⟩ :: [.text c!"B", .justificationLine (some .right), .text c!"C"]) := by
  rw [show slices stackedRects = [c!"ABC", c!"[np]", c!"A", c!"[tr1,11,0,0]", c!"B", c!"[jl4]", c!"C"] by decide +kernel]
  exact .cons (by decide +kernel) (.cons (by decide +kernel) (.cons (by decide +kernel) (.cons (by decide +kernel)
    (.cons (by decide +kernel) (.cons (by decide +kernel) (.cons (by decide +kernel) .nil))))))

-- the hypotheses of C126, and what it tells
example : ∃ xs xs', ShownAs fullDms stackedLines xs ∧ ShownAs fullDms stackedRects xs' ∧
    ∃ ys p off off', xs = ys ++ (true, .ok p) :: off ∧ xs' = ys ++ (true, .ok p) :: off' := by
  obtain ⟨xs, hx, hn, _⟩ := summary_noError (d := fullDms) (ms := stackedLines)
    (l := [(true, 60, 30, 30), (true, 60, 30, 30)]) (by decide +kernel)
  obtain ⟨xs', hx', hn', _⟩ := summary_noError (d := fullDms) (ms := stackedRects)
    (l := [(true, 60, 30, 30), (true, 60, 30, 30)]) (by decide +kernel)
  have hv := C22_built_sign_valid .checked _ _ fullDms_built
  obtain ⟨ys, p, off, off', h1, h2, _⟩ := C126_line fullDms hv.2.2.2.2.1 (by decide) _ _ hv.2.2.2.2.2.1
    stackedLines stackedRects _ _ _ _ stackedLines_values stackedRects_values (by simp [AddsText])
    ⟨by decide, by decide⟩ (by intro j; simp [lastText, LastText.add])
    ⟨trivial, fun h => by simp [freshAfter] at h, trivial, .inr (by decide), trivial, trivial⟩
    ⟨by decide +kernel, by decide +kernel, by decide +kernel⟩ xs xs' ⟨hx, hn⟩ ⟨hx', hn'⟩
  exact ⟨xs, xs', ⟨hx, hn⟩, ⟨hx', hn'⟩, ys, p, off, off', h1, h2⟩

-- the second line is shown, and at another place with a text rectangle one pixel lower
example : (pagePixels fullDms stackedLines 1 [(0, 10), (1, 10), (0, 11), (1, 11), (55, 12)]) =
      (pagePixels fullDms stackedRects 1 [(0, 10), (1, 10), (0, 11), (1, 11), (55, 12)]) ∧
    (pagePixels fullDms stackedLines 1 [(0, 10), (1, 10), (0, 11), (1, 11), (55, 12)]) ≠
      (pagePixels fullDms c!"ABC[np]A[tr1,12,0,0]B[jl4]C" 1 [(0, 10), (1, 10), (0, 11), (1, 11), (55, 12)]) := by
  decide +kernel

end Ntcip
