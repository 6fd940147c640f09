import Verif.Lemmas.Cover
import Verif.Props.Trade
/-
C117: what is drawn before a text rectangle with drawings that cover the whole sign is not seen.
-/
namespace Ntcip
open Spec Tests

variable {d : Dms}

theorem page_sane (hd : SizeOk d) (hu : UniqueNumbers (fun g : Graphic => g.number.toNat) d.graphicDefinition) {t p}
    (hr : ∀ v ∈ p, InRange v) (hq : Silent (pageStops d t p)) :
    (Sane d (sections p).1 ∧ ∀ q ∈ (sections p).2, Sane d q.2) ∧
    ∀ q ∈ (sections p).2, TextRect d d.vmsCfg.signWidthPixels.toNat d.vmsCfg.signHeightPixels.toNat q.1 := by
  have hv : ∀ v ∈ p, (isDrawing v = true → ValueOk d v) ∧ ∀ pos, v ≠ .graphic 0 pos := by
    intro v hm
    refine ⟨fun h => ?_, ?_⟩
    · refine (paint_quiet_iff hd hu (hr v hm) h).1 (pageStops_value hq hm ?_).2.1
      rintro r rfl
      cases h
    · rintro pos rfl
      have := hr _ hm
      simp [InRange] at this
  have h := sections_all hv
  have hquiet : RectsQuiet d t none (signRect d) (sections p).1 (sections p).2 := by
    unfold pageStops at hq
    rw [silent_append, rectsStops_silent] at hq
    exact hq.2.1
  exact ⟨⟨⟨fun v hm => (h.1 v hm).1, fun pos hm => (h.1 _ hm).2 pos rfl⟩,
    fun q hq => ⟨fun v hm => (h.2 q hq v hm).1, fun pos hm => (h.2 q hq _ hm).2 pos rfl⟩⟩, rectsQuiet_rects hquiet⟩

theorem lastRect_snoc {m1 m2 : List (Rectangle × List Value)} {r us rect rect'} :
    lastRect d rect (m1 ++ (r, us) :: m2) = lastRect d rect' ((r, us) :: m2) := by
  induction m1 generalizing rect with
  | nil => rfl
  | cons q m1 ih => exact ih

theorem page_cover (hd : SizeOk d) (hu : UniqueNumbers (fun g : Graphic => g.number.toNat) d.graphicDefinition)
    {t : TextAttr} {u u' w : List Value} {r : Rectangle} (hc : CoverIn d (sections w).1)
    (hr : ∀ v ∈ u ++ .textRectangle r :: w, InRange v) (hr' : ∀ v ∈ u' ++ .textRectangle r :: w, InRange v)
    (hq : Silent (pageStops d t (u ++ .textRectangle r :: w))) (hq' : Silent (pageStops d t (u' ++ .textRectangle r :: w)))
    (e1 : u.foldl (TextAttr.apply (signAttr d)) t = u'.foldl (TextAttr.apply (signAttr d)) t)
    (e2 : u.foldl spacingAfter none = u'.foldl spacingAfter none) {bg a b b'}
    (hw : a.width = d.vmsCfg.signWidthPixels.toNat) (hh : a.height = d.vmsCfg.signHeightPixels.toNat)
    (h : Composed d bg t none (signRect d) (sections (u ++ .textRectangle r :: w)).1
      (sections (u ++ .textRectangle r :: w)).2 a b)
    (h' : Composed d bg t none (signRect d) (sections (u' ++ .textRectangle r :: w)).1
      (sections (u' ++ .textRectangle r :: w)).2 a b') : b = b' := by
  obtain ⟨m, h1, h2⟩ := composed_upto h
  obtain ⟨m', h1', h2'⟩ := composed_upto h'
  obtain ⟨⟨s1, s2⟩, s3⟩ := page_sane hd hu hr hq
  obtain ⟨⟨s1', s2'⟩, s3'⟩ := page_sane hd hu hr' hq'
  rw [sections_upto] at s1 s2 s3 s1' s2' s3'
  rw [← e1, ← e2] at h2'
  have on : OnSign d (signRect d) := ⟨by simp, by simp⟩
  have ss : Sane d (sections w).1 := s2 (r, (sections w).1) (by simp)
  refine composed_cover hu hc ((composed_size h1).1.trans hw) ((composed_size h1).2.trans hh)
    ((composed_size h1').1.trans hw) ((composed_size h1').2.trans hh) (fun i j ho => ?_) ss
    (fun q hq => (s2 q (by simp [hq])).2) h2 h2'
  rw [composed_off hd hu ho h1 hw hh on (fun q hq => s3 q (by simp [hq])) s1 (fun q hq => s2 q (by simp [hq])),
    composed_off hd hu ho h1' hw hh on (fun q hq => s3' q (by simp [hq])) s1' (fun q hq => s2' q (by simp [hq]))]

/-- **C117** What is drawn on a page before a text rectangle with drawings that cover the sign is not seen: two shown messages
which differ only in what is before it on the page, and set the same for what follows, have the same pages. -/
theorem C117_cover (d : Dms) (hd : SizeOk d) (hok : SignOk d) (hf : FontsOk d.fontDefinition) (W H : Nat)
    (hg : GraphicsOk W H d.graphicDefinition) (ms ms' : Str) (hs : SizesOk d ms) (hs' : SizesOk d ms')
    (A X X' S : List Value) (r : Rectangle)
    (hX : ∀ v ∈ X, v ≠ .newPage) (hX' : ∀ v ∈ X', v ≠ .newPage)
    (hv : Parses (slices ms) (A ++ (X ++ .textRectangle r :: S)))
    (hv' : Parses (slices ms') (A ++ (X' ++ .textRectangle r :: S)))
    (hset : SetsAlike d (A ++ X) (A ++ X')) (hc : CoversSign d S) (xs ys)
    (hx : ShownAs d ms xs) (hy : ShownAs d ms' ys) : xs = ys := by
  obtain ⟨P, a, ha, hp, hsp, hfold⟩ := upto_page A
  obtain ⟨s, ss, hs0⟩ : ∃ s ss, splitPages S = s :: ss := List.exists_cons_of_ne_nil (splitPages_ne S)
  have pg : ∀ Y : List Value, (∀ v ∈ Y, v ≠ .newPage) → splitPages (A ++ (Y ++ .textRectangle r :: S)) =
      P ++ (((a ++ Y) ++ .textRectangle r :: s) :: ss) := by
    intro Y hY
    rw [hp, ← List.append_assoc]
    congr 1
    have : splitPages (.textRectangle r :: S) = (.textRectangle r :: s) :: ss := by
      simp only [splitPages, hs0]
      rfl
    refine splitPages_before (fun v hv => ?_) this
    rcases List.mem_append.1 hv with h | h
    · exact ha v h
    · exact hY v h
  obtain ⟨⟨_, q1⟩, c1⟩ := (shown_iff d hd hok hf W H hg ms hs hv xs).1 hx
  obtain ⟨⟨_, q2⟩, c2⟩ := (shown_iff d hd hok hf W H hg ms' hs' hv' ys).1 hy
  have r1 := parses_inRange hv (slices_items ms)
  have r2 := parses_inRange hv' (slices_items ms')
  have m1 : ∀ p ∈ P ++ (((a ++ X) ++ .textRectangle r :: s) :: ss), ∀ v ∈ p, InRange v := by
    intro p hp v hm
    rw [← pg X hX] at hp
    exact r1 v (splitPages_mem p hp v hm)
  have m2 : ∀ p ∈ P ++ (((a ++ X') ++ .textRectangle r :: s) :: ss), ∀ v ∈ p, InRange v := by
    intro p hp v hm
    rw [← pg X' hX'] at hp
    exact r2 v (splitPages_mem p hp v hm)
  rw [pg X hX] at q1 c1
  rw [pg X' hX'] at q2 c2
  rw [pagesQuiet_append] at q1 q2
  obtain ⟨x1, x2, rfl, k1, k2⟩ := pictured_split c1
  obtain ⟨y1, y2, rfl, l1, l2⟩ := pictured_split c2
  obtain rfl := pictured_unique hg.numbers (fun p hp v hm => m1 p (List.mem_append.2 (.inl hp)) v hm) k1 l1
  have e1 : (a ++ X).foldl (TextAttr.apply (signAttr d)) (P.flatten.foldl (TextAttr.apply (signAttr d)) (signAttr d)) =
      (a ++ X').foldl (TextAttr.apply (signAttr d)) (P.flatten.foldl (TextAttr.apply (signAttr d)) (signAttr d)) := by
    have := hset.style
    unfold styleSince at this
    rw [List.foldl_append, List.foldl_append] at this ⊢
    rw [hfold (fun _ => rfl)]
    exact this
  have e2 : (a ++ X).foldl spacingAfter none = (a ++ X').foldl spacingAfter none := by
    rw [← hsp X hX, ← hsp X' hX', hset.spacing]
  have e3 : pageTimes (signPage d).1 (pageTimes (signPage d).1 (signPage d).1 P.flatten) (a ++ X) =
      pageTimes (signPage d).1 (pageTimes (signPage d).1 (signPage d).1 P.flatten) (a ++ X') := by
    have := hset.times
    unfold pageTimes at this ⊢
    rw [List.foldl_append, List.foldl_append] at this ⊢
    rw [hfold (fun _ => rfl)]
    exact this
  have e4 : background (signPage d).2 (background (signPage d).2 (signPage d).2 P.flatten) (a ++ X) =
      background (signPage d).2 (background (signPage d).2 (signPage d).2 P.flatten) (a ++ X') := by
    have := hset.background
    unfold background at this ⊢
    rw [List.foldl_append, List.foldl_append] at this ⊢
    rw [hfold (fun _ => rfl)]
    exact this
  have f3 : pageTimes (signPage d).1 (pageTimes (signPage d).1 (signPage d).1 P.flatten) ((a ++ X) ++ .textRectangle r :: s) =
      pageTimes (signPage d).1 (pageTimes (signPage d).1 (signPage d).1 P.flatten) ((a ++ X') ++ .textRectangle r :: s) := by
    unfold pageTimes at e3 ⊢
    rw [List.foldl_append, e3, ← List.foldl_append]
  have f4 : background (signPage d).2 (background (signPage d).2 (signPage d).2 P.flatten) ((a ++ X) ++ .textRectangle r :: s) =
      background (signPage d).2 (background (signPage d).2 (signPage d).2 P.flatten) ((a ++ X') ++ .textRectangle r :: s) := by
    unfold background at e4 ⊢
    rw [List.foldl_append, e4, ← List.foldl_append]
  have f1 : ((a ++ X) ++ .textRectangle r :: s).foldl (TextAttr.apply (signAttr d))
        (P.flatten.foldl (TextAttr.apply (signAttr d)) (signAttr d)) =
      ((a ++ X') ++ .textRectangle r :: s).foldl (TextAttr.apply (signAttr d))
        (P.flatten.foldl (TextAttr.apply (signAttr d)) (signAttr d)) := by
    rw [List.foldl_append, e1, ← List.foldl_append]
  obtain ⟨raster, more, p1, rfl, p3⟩ := k2
  obtain ⟨raster', more', p1', rfl, p3'⟩ := l2
  dsimp only at p1 p1' p3 p3'
  rw [← f4] at p1'
  rw [← f1, ← f3, ← f4] at p3'
  obtain rfl := pictured_unique hg.numbers
    (fun p hp v hm => m1 p (List.mem_append.2 (.inr (List.mem_cons_of_mem _ hp))) v hm) p3 p3'
  have hq1 := q1.2.1
  have hq2 := q2.2.1
  obtain rfl := page_cover hd hg.numbers (covers_page hc hs0)
    (m1 _ (List.mem_append.2 (.inr (List.mem_cons_self ..)))) (m2 _ (List.mem_append.2 (.inr (List.mem_cons_self ..))))
    hq1 hq2 e1 e2 rfl rfl p1 p1'
  dsimp only
  rw [f3, f4, sections_upto, sections_upto]
  simp only [lastRect_snoc (m1 := (sections (a ++ X)).2) (rect' := signRect d),
    lastRect_snoc (m1 := (sections (a ++ X')).2) (rect' := signRect d)]

/-! ### text rectangles before are left out -/

theorem rectsQuiet_split {r us m2} (m1 : List (Rectangle × List Value)) : ∀ {ws t sp rect},
    RectsQuiet d t sp rect ws (m1 ++ (r, us) :: m2) ↔
    RectsQuiet d t sp rect ws m1 ∧ (∀ z, ¬ nextStop d r z) ∧
      RectsQuiet d ((ws ++ m1.flatMap Prod.snd).foldl (TextAttr.apply (signAttr d)) t)
        ((ws ++ m1.flatMap Prod.snd).foldl spacingAfter sp) (opened d r) us m2 := by
  induction m1 with
  | nil =>
    intro ws t sp rect
    simp only [List.nil_append, List.flatMap_nil, List.append_nil, RectsQuiet]
  | cons q m1 ih =>
    intro ws t sp rect
    obtain ⟨r', vs⟩ := q
    rw [List.cons_append, RectsQuiet, RectsQuiet, ih, ← List.foldl_append, ← List.foldl_append, List.flatMap_cons]
    simp only [and_assoc]

theorem rectsQuiet_upto {r t sp rect} {u w : List Value} :
    RectsQuiet d t sp rect (sections (u ++ .textRectangle r :: w)).1 (sections (u ++ .textRectangle r :: w)).2 ↔
    RectsQuiet d t sp rect (sections u).1 (sections u).2 ∧ (∀ z, ¬ nextStop d r z) ∧
      RectsQuiet d (u.foldl (TextAttr.apply (signAttr d)) t) (u.foldl spacingAfter sp) (opened d r)
        (sections w).1 (sections w).2 := by
  rw [sections_upto, rectsQuiet_split, sections_run (fun _ _ => rfl), sections_run (fun _ _ => rfl)]

/-- a page without some of its text rectangles is quiet if the page is -/
theorem pageStops_cut {t u x w q r} (h : Silent (pageStops d t (u ++ (.textRectangle q :: x ++ .textRectangle r :: w))))
    (e1 : (u ++ .textRectangle q :: x).foldl (TextAttr.apply (signAttr d)) t = u.foldl (TextAttr.apply (signAttr d)) t)
    (e2 : (u ++ .textRectangle q :: x).foldl spacingAfter none = u.foldl spacingAfter none) :
    Silent (pageStops d t (u ++ .textRectangle r :: w)) := by
  unfold pageStops at h ⊢
  rw [silent_append, silent_map, rectsStops_silent] at h ⊢
  obtain ⟨h1, h2, h3⟩ := h
  refine ⟨fun v hv => h1 v ?_, ?_, ?_⟩
  · simp only [List.mem_append, List.mem_cons] at hv ⊢
    rcases hv with hv | hv
    · exact .inl hv
    · exact .inr (.inr hv)
  · rw [← List.append_assoc, rectsQuiet_upto, rectsQuiet_upto] at h2
    rw [rectsQuiet_upto]
    rw [e1, e2] at h2
    exact ⟨h2.1.1, h2.2⟩
  · rw [← List.append_assoc, sections_upto, sections_upto] at h3
    rw [sections_upto]
    simp only [List.length_append, List.length_cons] at h3 ⊢
    omega

/-- **C117** In particular text rectangles before it on the page can be left out, if they set nothing for what follows. -/
theorem C117_cut (d : Dms) (hd : SizeOk d) (hok : SignOk d) (hf : FontsOk d.fontDefinition) (W H : Nat)
    (hg : GraphicsOk W H d.graphicDefinition) (ms ms' : Str) (hs : SizesOk d ms) (hs' : SizesOk d ms')
    (A X S : List Value) (q r : Rectangle) (hX : ∀ v ∈ X, v ≠ .newPage)
    (hv : Parses (slices ms) (A ++ (.textRectangle q :: X ++ .textRectangle r :: S)))
    (hv' : Parses (slices ms') (A ++ .textRectangle r :: S))
    (hset : SetsAlike d (A ++ .textRectangle q :: X) A) (hc : CoversSign d S) (xs)
    (hx : ShownAs d ms xs) : ShownAs d ms' xs := by
  have hXq : ∀ v ∈ Value.textRectangle q :: X, v ≠ .newPage := by
    intro v hm
    rcases List.mem_cons.1 hm with rfl | hm
    · nofun
    · exact hX v hm
  suffices hy : ∃ ys, ShownAs d ms' ys by
    obtain ⟨ys, hy⟩ := hy
    obtain rfl := C117_cover d hd hok hf W H hg ms ms' hs hs' A (.textRectangle q :: X) [] S r hXq nofun hv hv'
      (by rw [List.append_nil]; exact hset) hc xs ys hx hy
    exact hy
  obtain ⟨P, a, ha, hp, hsp, hfold⟩ := upto_page A
  obtain ⟨s, ss, hs0⟩ : ∃ s ss, splitPages S = s :: ss := List.exists_cons_of_ne_nil (splitPages_ne S)
  have pg : ∀ Y : List Value, (∀ v ∈ Y, v ≠ .newPage) → splitPages (A ++ (Y ++ .textRectangle r :: S)) =
      P ++ (((a ++ Y) ++ .textRectangle r :: s) :: ss) := by
    intro Y hY
    rw [hp, ← List.append_assoc]
    congr 1
    have : splitPages (.textRectangle r :: S) = (.textRectangle r :: s) :: ss := by
      simp only [splitPages, hs0]
      rfl
    refine splitPages_before (fun v hv => ?_) this
    rcases List.mem_append.1 hv with h | h
    · exact ha v h
    · exact hY v h
  obtain ⟨⟨t1, q1⟩, _⟩ := (shown_iff d hd hok hf W H hg ms hs hv xs).1 hx
  refine quiet_shown d hd hok ms' hs' hv' ⟨fun v hm => t1 v ?_, ?_⟩
  · simp only [List.mem_append, List.mem_cons] at hm ⊢
    rcases hm with hm | hm
    · exact .inl hm
    · exact .inr (.inr hm)
  have e1 : (a ++ .textRectangle q :: X).foldl (TextAttr.apply (signAttr d))
        (P.flatten.foldl (TextAttr.apply (signAttr d)) (signAttr d)) =
      a.foldl (TextAttr.apply (signAttr d)) (P.flatten.foldl (TextAttr.apply (signAttr d)) (signAttr d)) := by
    have := hset.style
    unfold styleSince at this
    rw [List.foldl_append] at this ⊢
    rw [hfold (fun _ => rfl)]
    exact this
  have e2 : (a ++ .textRectangle q :: X).foldl spacingAfter none = a.foldl spacingAfter none := by
    have h0 := hsp [] nofun
    rw [List.append_nil, List.append_nil] at h0
    rw [← hsp _ hXq, ← h0, hset.spacing]
  have p0 := pg [] nofun
  rw [List.nil_append] at p0
  rw [p0, pagesQuiet_append]
  rw [pg _ hXq, pagesQuiet_append] at q1
  refine ⟨q1.1, ?_, ?_⟩
  · have := q1.2.1
    rw [List.append_nil]
    rw [List.append_assoc] at this
    exact pageStops_cut this e1 e2
  · have := q1.2.2
    rw [List.foldl_append, e1, ← List.foldl_append] at this
    rw [List.append_nil]
    exact this

/-- **C117 (built)** the same on a sign made by the builder, for messages of at most 128 characters -/
theorem C117_built (p : Profile) (b : DmsBuilder) (d : Dms) (h : b.build p = .ok d)
    (hw : d.vmsCfg.signWidthPixels.toNat < 65535) (hh : d.vmsCfg.signHeightPixels.toNat < 65535)
    (hz : ¬ (d.vmsCfg.signWidthPixels.toNat = 0 ∧ d.vmsCfg.signHeightPixels.toNat = 0))
    (hf : 1 ≤ d.multiCfg.defaultFont.toNat)
    (hjp : d.multiCfg.defaultJustificationPage ≠ .other)
    (hjl : d.multiCfg.defaultJustificationLine ≠ .other ∧ d.multiCfg.defaultJustificationLine ≠ .full)
    (ms ms' : Str) (hl : ms.length ≤ 128) (hl' : ms'.length ≤ 128) (A X X' S : List Value) (r : Rectangle)
    (hX : ∀ v ∈ X, v ≠ .newPage) (hX' : ∀ v ∈ X', v ≠ .newPage)
    (hv : Parses (slices ms) (A ++ (X ++ .textRectangle r :: S)))
    (hv' : Parses (slices ms') (A ++ (X' ++ .textRectangle r :: S)))
    (hset : SetsAlike d (A ++ X) (A ++ X')) (hc : CoversSign d S) (xs ys)
    (hx : ShownAs d ms xs) (hy : ShownAs d ms' ys) : xs = ys := by
  have hv1 := C22_built_sign_valid p b d h
  exact C117_cover d ⟨hw, hh, hz⟩ ⟨hw, hh, hf, hjp, hjl, hv1.2.2.2.2.1.fonts, hv1.2.2.2.2.2.1.graphics⟩ hv1.2.2.2.2.1 _ _
    hv1.2.2.2.2.2.1 ms ms' (sizesOk_short d ms hl) (sizesOk_short d ms' hl') A X X' S r hX hX' hv hv' hset hc xs ys hx hy

/-! ### cases -/

/-- a color rectangle without width and height covers the sign -/
theorem fullRect_covers (c : Color) (S : List Value) :
    CoversSign d (.colorRectangle ⟨1, 1, 0, 0⟩ c :: S) := by
  intro i j hi hj
  refine ⟨_, .here, fun p o h => ?_⟩
  cases h with
  | rect _ => simp
  | offRect h =>
    refine absurd ?_ h
    simp only [PixelIn, extWidth, extHeight]
    simp
    omega
  | other h _ => exact absurd rfl (h _ _)

/-- text and a text rectangle, both painted over by the last text rectangle -/
def overpainted : Str := c!"A[tr5,5,20,20]B[tr1,1,60,30][cr1,1,0,0,0,0,255]C[np]D"
/-- other text -/
def overpainted' : Str := c!"[cr1,1,9,9,0,255,0][tr1,1,60,30][cr1,1,0,0,0,0,255]C[np]D"

theorem overpainted_values : Parses (slices overpainted) ([] ++ ([.text c!"A", .textRectangle ⟨5, 5, 20, 20⟩, .text c!"B"] ++
    .textRectangle ⟨1, 1, 60, 30⟩ :: [.colorRectangle ⟨1, 1, 0, 0⟩ (.rgb 0 0 255), .text c!"C", .newPage, .text c!"D"])) := by
  rw [show slices overpainted = [c!"A", c!"[tr5,5,20,20]", c!"B", c!"[tr1,1,60,30]", c!"[cr1,1,0,0,0,0,255]", c!"C", c!"[np]",
    c!"D"] by decide +kernel]
  repeat (first | exact .nil | refine .cons (by decide +kernel) ?_)

theorem overpainted_values' : Parses (slices overpainted') ([] ++ ([.colorRectangle ⟨1, 1, 9, 9⟩ (.rgb 0 255 0)] ++
    .textRectangle ⟨1, 1, 60, 30⟩ :: [.colorRectangle ⟨1, 1, 0, 0⟩ (.rgb 0 0 255), .text c!"C", .newPage, .text c!"D"])) := by
  rw [show slices overpainted' = [c!"[cr1,1,9,9,0,255,0]", c!"[tr1,1,60,30]", c!"[cr1,1,0,0,0,0,255]", c!"C", c!"[np]",
    c!"D"] by decide +kernel]
  repeat (first | exact .nil | refine .cons (by decide +kernel) ?_)

example (xs ys) (hx : ShownAs fullDms overpainted xs) (hy : ShownAs fullDms overpainted' ys) : xs = ys := by
  refine C117_built .checked _ fullDms fullDms_built (by decide +kernel) (by decide +kernel) (by decide +kernel)
    (by decide +kernel) (by decide) ⟨by decide, by decide⟩ overpainted overpainted' (by decide +kernel) (by decide +kernel)
    [] _ _ _ _ ?_ ?_ overpainted_values overpainted_values' ⟨?_, ?_, ?_, ?_⟩ (fullRect_covers _ _) xs ys hx hy
  all_goals decide +kernel

-- both are shown
example : (summary fullDms overpainted).map List.length = some 2 ∧ (summary fullDms overpainted').map List.length = some 2 := by
  decide +kernel

-- without the text rectangle the text is drawn after the color rectangle
example : pixels fullDms c!"A[cr1,1,0,0,0,0,255]" [(0, 1), (1, 1)] ≠ pixels fullDms c!"[cr1,1,0,0,0,0,255]" [(0, 1), (1, 1)] := by
  decide +kernel

end Ntcip
