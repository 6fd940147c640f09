import Verif.Lemmas.Justify
import Verif.Props.Added
/-
C120: justification moves text as a whole.
-/
namespace Ntcip
open Spec Tests

theorem textDrawn_nothing {d : Dms} {t sp rect us a b} (hu : ∀ u ∈ us, PutsNothing u)
    (h : TextDrawn d t sp rect (us ++ []) a b) : a = b := by
  obtain ⟨ps, p1, _, _, _, p5, _⟩ := h
  rw [(pieces_puts hu [] t sp).1] at p1
  have : ps = [] := by simpa [pieces] using p1
  subst this
  rw [textAt_iff] at p5
  rw [p5]
  rfl

theorem lastOn_unique {α : Type} {ys ys' : List (Bool × α)} {p p' : Bool × α} {off off' : List (Bool × α)}
    (h : ys ++ p :: off = ys' ++ p' :: off') (hp : p.1 = true) (hp' : p'.1 = true) (ho : ∀ o ∈ off, o.1 = false)
    (ho' : ∀ o ∈ off', o.1 = false) : ys = ys' ∧ p = p' ∧ off = off' := by
  induction ys generalizing ys' with
  | nil =>
    cases ys' with
    | nil => simpa using h
    | cons y ys' =>
      simp only [List.nil_append, List.cons_append, List.cons.injEq] at h
      have := ho p' (by rw [h.2]; simp)
      rw [hp'] at this; cases this
  | cons y ys ih =>
    cases ys' with
    | nil =>
      simp only [List.nil_append, List.cons_append, List.cons.injEq] at h
      have := ho' p (by rw [← h.2]; simp)
      rw [hp] at this; cases this
    | cons y' ys' =>
      simp only [List.cons_append, List.cons.injEq] at h
      obtain ⟨rfl, h⟩ := h
      obtain ⟨rfl, h1, h2⟩ := ih h
      exact ⟨rfl, h1, h2⟩

/-- two ways to add text to a message without text at its end -/
theorem shown_over (d : Dms) (hf : FontsOk d.fontDefinition) (h0 : 1 ≤ d.multiCfg.defaultFont.toNat) (W H : Nat)
    (hg : GraphicsOk W H d.graphicDefinition) (ms ms1 ms2 : Str) (vs ws1 ws2 : List Value) (hv : Parses (slices ms) vs)
    (hv1 : Parses (slices ms1) (vs ++ ws1)) (hv2 : Parses (slices ms2) (vs ++ ws2)) (hw1 : ∀ w ∈ ws1, AddsText w)
    (hw2 : ∀ w ∈ ws2, AddsText w) (hn : ∀ v ∈ (lastText d vs).values, PutsNothing v)
    (xs xs1 xs2) (hx : ShownAs d ms xs) (hx1 : ShownAs d ms1 xs1) (hx2 : ShownAs d ms2 xs2) :
    ∃ ys p p1 p2 off, xs = ys ++ (true, .ok p) :: off ∧ xs1 = ys ++ (true, .ok p1) :: off ∧ xs2 = ys ++ (true, .ok p2) :: off ∧
      (∀ o ∈ off, o.1 = false) ∧ p.durationDs = p1.durationDs ∧ p.durationDs = p2.durationDs ∧
      TextDrawn d (lastText d vs).attr (lastText d vs).spacing (lastText d vs).rect ((lastText d vs).values ++ ws1)
        p.raster p1.raster ∧
      TextDrawn d (lastText d vs).attr (lastText d vs).spacing (lastText d vs).rect ((lastText d vs).values ++ ws2)
        p.raster p2.raster := by
  have key : ∀ {ms' ws' xs'}, Parses (slices ms') (vs ++ ws') → (∀ w ∈ ws', AddsText w) → ShownAs d ms' xs' → _ :=
    fun {ms' ws' xs'} h1 h2 h3 => shown_ended d hf h0 W H hg ms ms' vs [] ws' (by rwa [List.append_nil]) h1 (by simp) h2
      xs xs' hx h3 (fun b b' => TextDrawn d (lastText d vs).attr (lastText d vs).spacing (lastText d vs).rect
        ((lastText d vs).values ++ ws') b b') (by
          intro a b b' k1 k2
          rw [← textDrawn_nothing hn k1]
          exact k2)
  obtain ⟨ys, p, p1, off, e1, e2, e3, e4, _, _, e5⟩ := key hv1 hw1 hx1
  obtain ⟨ys', p', p2, off', f1, f2, f3, f4, _, _, f5⟩ := key hv2 hw2 hx2
  obtain ⟨rfl, e, rfl⟩ := lastOn_unique (e1.symm.trans f1) rfl rfl e3 f3
  simp only [Prod.mk.injEq, Except.ok.injEq, true_and] at e
  subst e
  exact ⟨ys, p, p1, p2, off, e1, e2, f2, e3, e4, f4, e5, f5⟩

/-- **C120** Text at the end of a message, with one page justification, in a text rectangle without other text: with another
page justification, just the last page changes, and there the text is moved up or down as a whole.  Both pages are the page
without the text, with the same picture `T` of the text over it, which is as high as the lines of the text, and no wider
than the text rectangle: its upper edge is at the top, in the middle, or at the bottom of the text rectangle (text in the
middle begins at a character cell). -/
theorem C120_vertical (d : Dms) (hf : FontsOk d.fontDefinition) (h0 : 1 ≤ d.multiCfg.defaultFont.toNat) (W H : Nat)
    (hg : GraphicsOk W H d.graphicDefinition) (ms ms1 ms2 : Str) (vs tail : List Value) (P1 P2 : JustificationPage)
    (hv : Parses (slices ms) vs) (hv1 : Parses (slices ms1) (vs ++ .justificationPage (some P1) :: tail))
    (hv2 : Parses (slices ms2) (vs ++ .justificationPage (some P2) :: tail))
    (ht : ∀ w ∈ tail, AddsText w ∧ ∀ j, w ≠ .justificationPage j) (hn : ∀ v ∈ (lastText d vs).values, PutsNothing v)
    (hc : P1 = .middle ∨ P2 = .middle → CellHeights d)
    (xs xs1 xs2) (hx : ShownAs d ms xs) (hx1 : ShownAs d ms1 xs1) (hx2 : ShownAs d ms2 xs2) :
    ∃ ys p p1 p2 off, xs = ys ++ (true, .ok p) :: off ∧ xs1 = ys ++ (true, .ok p1) :: off ∧ xs2 = ys ++ (true, .ok p2) :: off ∧
      (∀ o ∈ off, o.1 = false) ∧ p.durationDs = p1.durationDs ∧ p.durationDs = p2.durationDs ∧
      ∃ T n, n = blockHeight d (layoutOf d (lastText d vs).attr (lastText d vs).spacing (lastText d vs).rect
          ((lastText d vs).values ++ .justificationPage (some P1) :: tail)) ∧ n ≤ (lastText d vs).rect.height.toNat ∧
        (∀ i j, T i j ≠ none → i < (lastText d vs).rect.width.toNat ∧ j < n) ∧
        Over T ((lastText d vs).rect.x.toNat - 1) (blockTop d (lastText d vs).rect P1 n) p.raster p1.raster ∧
        Over T ((lastText d vs).rect.x.toNat - 1) (blockTop d (lastText d vs).rect P2 n) p.raster p2.raster := by
  have hw : ∀ P, ∀ w ∈ Value.justificationPage (some P) :: tail, AddsText w := by
    intro P w hm
    rcases List.mem_cons.1 hm with rfl | hm
    · trivial
    · exact (ht w hm).1
  obtain ⟨ys, p, p1, p2, off, e1, e2, e3, e4, e5, e6, e7, e8⟩ := shown_over d hf h0 W H hg ms ms1 ms2 vs _ _ hv hv1 hv2
    (hw P1) (hw P2) hn xs xs1 xs2 hx hx1 hx2
  exact ⟨ys, p, p1, p2, off, e1, e2, e3, e4, e5, e6, textDrawn_vertical hn (fun w hm => (ht w hm).2) hc e7 e8⟩

/-- **C120 (line)** A line of text at the end of a message, with one line justification, in a text rectangle without other
text: with another line justification, just the last page changes, and there the text is moved to the left or right as a
whole.  Both pages are the page without the text, with the same picture `T` of the text over it, which is as wide as the
line of text: it begins at the left edge of the text rectangle, in the center, or ends at the right edge. -/
theorem C120_horizontal (d : Dms) (hf : FontsOk d.fontDefinition) (h0 : 1 ≤ d.multiCfg.defaultFont.toNat) (W H : Nat)
    (hg : GraphicsOk W H d.graphicDefinition) (ms ms1 ms2 : Str) (vs tail : List Value) (L1 L2 : JustificationLine)
    (hv : Parses (slices ms) vs) (hv1 : Parses (slices ms1) (vs ++ .justificationLine (some L1) :: tail))
    (hv2 : Parses (slices ms2) (vs ++ .justificationLine (some L2) :: tail))
    (ht : ∀ w ∈ tail, StaysOnLine w) (hn : ∀ v ∈ (lastText d vs).values, PutsNothing v)
    (hc : L1 = .center ∨ L2 = .center → d.vmsCfg.charWidthPixels = 0)
    (xs xs1 xs2) (hx : ShownAs d ms xs) (hx1 : ShownAs d ms1 xs1) (hx2 : ShownAs d ms2 xs2) :
    ∃ ys p p1 p2 off, xs = ys ++ (true, .ok p) :: off ∧ xs1 = ys ++ (true, .ok p1) :: off ∧ xs2 = ys ++ (true, .ok p2) :: off ∧
      (∀ o ∈ off, o.1 = false) ∧ p.durationDs = p1.durationDs ∧ p.durationDs = p2.durationDs ∧
      ∃ T n, LineWidth d.fontDefinition none (layoutOf d (lastText d vs).attr (lastText d vs).spacing (lastText d vs).rect
          ((lastText d vs).values ++ .justificationLine (some L1) :: tail)) n ∧ n ≤ (lastText d vs).rect.width.toNat ∧
        (∀ i j, T i j ≠ none → i < n) ∧
        Over T (lineLeft (lastText d vs).rect L1 n) 0 p.raster p1.raster ∧
        Over T (lineLeft (lastText d vs).rect L2 n) 0 p.raster p2.raster := by
  have hw : ∀ P, ∀ w ∈ Value.justificationLine (some P) :: tail, AddsText w := by
    intro P w hm
    rcases List.mem_cons.1 hm with rfl | hm
    · trivial
    · have := ht w hm
      cases w <;> first | exact this.elim | trivial
  obtain ⟨ys, p, p1, p2, off, e1, e2, e3, e4, e5, e6, e7, e8⟩ := shown_over d hf h0 W H hg ms ms1 ms2 vs _ _ hv hv1 hv2
    (hw L1) (hw L2) hn xs xs1 xs2 hx hx1 hx2
  exact ⟨ys, p, p1, p2, off, e1, e2, e3, e4, e5, e6, textDrawn_horizontal hn ht hc e7 e8⟩

/-! ### examples -/

-- the hypotheses of C120, and what it tells: two lines in the middle and at the bottom
example : ∃ xs xs1 xs2, ShownAs fullDms c!"X[np][cr1,1,9,30,255,0,0]" xs ∧
    ShownAs fullDms c!"X[np][cr1,1,9,30,255,0,0][jp3]A[nl]B" xs1 ∧
    ShownAs fullDms c!"X[np][cr1,1,9,30,255,0,0][jp4]A[nl]B" xs2 ∧
    ∃ ys p p1 p2 off T n, xs = ys ++ (true, .ok p) :: off ∧ xs1 = ys ++ (true, .ok p1) :: off ∧
      xs2 = ys ++ (true, .ok p2) :: off ∧ (∀ i j, T i j ≠ none → i < 60 ∧ j < n) ∧
      Over T 0 ((30 - n) / 2) p.raster p1.raster ∧ Over T 0 (30 - n) p.raster p2.raster := by
  obtain ⟨xs, hx, hn, _⟩ := summary_noError (d := fullDms) (ms := c!"X[np][cr1,1,9,30,255,0,0]")
    (l := [(true, 60, 30, 30), (true, 60, 30, 30)]) (by decide +kernel)
  obtain ⟨xs1, hx1, hn1, _⟩ := summary_noError (d := fullDms) (ms := c!"X[np][cr1,1,9,30,255,0,0][jp3]A[nl]B")
    (l := [(true, 60, 30, 30), (true, 60, 30, 30)]) (by decide +kernel)
  obtain ⟨xs2, hx2, hn2, _⟩ := summary_noError (d := fullDms) (ms := c!"X[np][cr1,1,9,30,255,0,0][jp4]A[nl]B")
    (l := [(true, 60, 30, 30), (true, 60, 30, 30)]) (by decide +kernel)
  have hv := C22_built_sign_valid .checked _ _ fullDms_built
  obtain ⟨ys, p, p1, p2, off, e1, e2, e3, _, _, _, T, n, _, k1, k2, k3, k4⟩ := C120_vertical fullDms hv.2.2.2.2.1 (by decide) _ _
    hv.2.2.2.2.2.1 c!"X[np][cr1,1,9,30,255,0,0]" c!"X[np][cr1,1,9,30,255,0,0][jp3]A[nl]B"
    c!"X[np][cr1,1,9,30,255,0,0][jp4]A[nl]B"
    [.text c!"X", .newPage, .colorRectangle ⟨1, 1, 9, 30⟩ (.rgb 255 0 0)] [.text c!"A", .newLine none, .text c!"B"]
    .middle .bottom
    (by
      rw [show slices c!"X[np][cr1,1,9,30,255,0,0]" = [c!"X", c!"[np]", c!"[cr1,1,9,30,255,0,0]"] by decide +kernel]
      exact .cons (by decide +kernel) (.cons (by decide +kernel) (.cons (by decide +kernel) .nil)))
    (by
      rw [show slices c!"X[np][cr1,1,9,30,255,0,0][jp3]A[nl]B" =
        [c!"X", c!"[np]", c!"[cr1,1,9,30,255,0,0]", c!"[jp3]", c!"A", c!"[nl]", c!"B"] by decide +kernel]
      exact .cons (by decide +kernel) (.cons (by decide +kernel) (.cons (by decide +kernel) (.cons (by decide +kernel)
        (.cons (by decide +kernel) (.cons (by decide +kernel) (.cons (by decide +kernel) .nil)))))))
    (by
      rw [show slices c!"X[np][cr1,1,9,30,255,0,0][jp4]A[nl]B" =
        [c!"X", c!"[np]", c!"[cr1,1,9,30,255,0,0]", c!"[jp4]", c!"A", c!"[nl]", c!"B"] by decide +kernel]
      exact .cons (by decide +kernel) (.cons (by decide +kernel) (.cons (by decide +kernel) (.cons (by decide +kernel)
        (.cons (by decide +kernel) (.cons (by decide +kernel) (.cons (by decide +kernel) .nil)))))))
    (by simp [AddsText])
    (by
      intro v hm
      have : v ∈ [Value.colorRectangle ⟨1, 1, 9, 30⟩ (.rgb 255 0 0)] := hm
      rw [List.mem_singleton] at this
      subst this
      trivial)
    (fun _ => .inl (by decide +kernel)) xs xs1 xs2 ⟨hx, hn⟩ ⟨hx1, hn1⟩ ⟨hx2, hn2⟩
  have e : (lastText fullDms [.text c!"X", .newPage, .colorRectangle ⟨1, 1, 9, 30⟩ (.rgb 255 0 0)]).rect = ⟨1, 1, 60, 30⟩ := by
    decide +kernel
  rw [e] at k2 k3 k4
  have m1 : blockTop fullDms ⟨1, 1, 60, 30⟩ .middle n = (30 - n) / 2 := by
    show cellEdge 1 (0 + (30 - n) / 2) = _
    unfold cellEdge
    omega
  have m2 : blockTop fullDms ⟨1, 1, 60, 30⟩ .bottom n = 30 - n := by
    show 0 + (30 - n) = _
    omega
  rw [m1] at k3
  rw [m2] at k4
  exact ⟨xs, xs1, xs2, ⟨hx, hn⟩, ⟨hx1, hn1⟩, ⟨hx2, hn2⟩, ys, p, p1, p2, off, T, n, e1, e2, e3, k2, k3, k4⟩

-- the two lines are 8 pixels high each, with 2 pixels between them
example : blockHeight fullDms (layoutOf fullDms (signAttr fullDms) none (signRect fullDms)
    [.justificationPage (some .middle), .text c!"A", .newLine none, .text c!"B"]) = 18 := by decide +kernel

-- so the text in the middle begins at 6, and at the bottom at 12
example : pixels fullDms c!"[jp3]A[nl]B" [(2, 5), (2, 6), (0, 7), (0, 22), (0, 24)] =
    [(0, 0, 0), (255, 255, 255), (255, 255, 255), (255, 255, 255), (0, 0, 0)] ∧
    pixels fullDms c!"[jp4]A[nl]B" [(2, 11), (2, 12), (0, 13), (0, 28), (0, 10)] =
    [(0, 0, 0), (255, 255, 255), (255, 255, 255), (255, 255, 255), (0, 0, 0)] := by decide +kernel

-- the hypotheses of C120 (line), and what it tells: text in two colors, at the center and at the right of a text rectangle
example : ∃ xs xs1 xs2, ShownAs fullDms c!"X[tr11,11,40,20]" xs ∧
    ShownAs fullDms c!"X[tr11,11,40,20][jl3]A[cf255,0,0]B" xs1 ∧
    ShownAs fullDms c!"X[tr11,11,40,20][jl4]A[cf255,0,0]B" xs2 ∧
    ∃ ys p p1 p2 off T n, xs = ys ++ (true, .ok p) :: off ∧ xs1 = ys ++ (true, .ok p1) :: off ∧
      xs2 = ys ++ (true, .ok p2) :: off ∧ n ≤ 40 ∧ (∀ i j, T i j ≠ none → i < n) ∧
      Over T (10 + (40 - n) / 2) 0 p.raster p1.raster ∧ Over T (10 + (40 - n)) 0 p.raster p2.raster := by
  obtain ⟨xs, hx, hn, _⟩ := summary_noError (d := fullDms) (ms := c!"X[tr11,11,40,20]") (l := [(true, 60, 30, 30)])
    (by decide +kernel)
  obtain ⟨xs1, hx1, hn1, _⟩ := summary_noError (d := fullDms) (ms := c!"X[tr11,11,40,20][jl3]A[cf255,0,0]B")
    (l := [(true, 60, 30, 30)]) (by decide +kernel)
  obtain ⟨xs2, hx2, hn2, _⟩ := summary_noError (d := fullDms) (ms := c!"X[tr11,11,40,20][jl4]A[cf255,0,0]B")
    (l := [(true, 60, 30, 30)]) (by decide +kernel)
  have hv := C22_built_sign_valid .checked _ _ fullDms_built
  obtain ⟨ys, p, p1, p2, off, e1, e2, e3, _, _, _, T, n, _, k1, k2, k3, k4⟩ := C120_horizontal fullDms hv.2.2.2.2.1 (by decide)
    _ _ hv.2.2.2.2.2.1 c!"X[tr11,11,40,20]" c!"X[tr11,11,40,20][jl3]A[cf255,0,0]B" c!"X[tr11,11,40,20][jl4]A[cf255,0,0]B"
    [.text c!"X", .textRectangle ⟨11, 11, 40, 20⟩] [.text c!"A", .colorForeground (some (.rgb 255 0 0)), .text c!"B"]
    .center .right
    (by
      rw [show slices c!"X[tr11,11,40,20]" = [c!"X", c!"[tr11,11,40,20]"] by decide +kernel]
      exact .cons (by decide +kernel) (.cons (by decide +kernel) .nil))
    (by
      rw [show slices c!"X[tr11,11,40,20][jl3]A[cf255,0,0]B" =
        [c!"X", c!"[tr11,11,40,20]", c!"[jl3]", c!"A", c!"[cf255,0,0]", c!"B"] by decide +kernel]
      exact .cons (by decide +kernel) (.cons (by decide +kernel) (.cons (by decide +kernel) (.cons (by decide +kernel)
        (.cons (by decide +kernel) (.cons (by decide +kernel) .nil))))))
    (by
      rw [show slices c!"X[tr11,11,40,20][jl4]A[cf255,0,0]B" =
        [c!"X", c!"[tr11,11,40,20]", c!"[jl4]", c!"A", c!"[cf255,0,0]", c!"B"] by decide +kernel]
      exact .cons (by decide +kernel) (.cons (by decide +kernel) (.cons (by decide +kernel) (.cons (by decide +kernel)
        (.cons (by decide +kernel) (.cons (by decide +kernel) .nil))))))
    (by simp [StaysOnLine])
    (by
      intro v hm
      have : v ∈ ([] : List Value) := hm
      cases this)
    (fun _ => by decide +kernel) xs xs1 xs2 ⟨hx, hn⟩ ⟨hx1, hn1⟩ ⟨hx2, hn2⟩
  have e : (lastText fullDms [.text c!"X", .textRectangle ⟨11, 11, 40, 20⟩]).rect = ⟨11, 11, 40, 20⟩ := by
    decide +kernel
  rw [e] at k1 k3 k4
  exact ⟨xs, xs1, xs2, ⟨hx, hn⟩, ⟨hx1, hn1⟩, ⟨hx2, hn2⟩, ys, p, p1, p2, off, T, n, e1, e2, e3, k1, k2, k3, k4⟩

end Ntcip
