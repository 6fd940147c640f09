import Verif.Props.Brush
import Verif.Props.Cover
import Verif.Props.Inset
/-
C133: a text rectangle changes only its own pixels.
-/
namespace Ntcip
open Spec Tests

variable {d : Dms}

theorem sections_bare {X : List Value} (h : ∀ v ∈ X, ∀ r, v ≠ .textRectangle r) : sections X = (X, []) := by
  induction X with
  | nil => rfl
  | cons v X ih =>
    rw [sections_cons (h v (List.mem_cons_self ..)), ih fun w hw => h w (List.mem_cons_of_mem _ hw)]

/-- nothing, or a text rectangle and more -/
def RectFirst (s : List Value) : Prop := s = [] ∨ ∃ r w, s = .textRectangle r :: w

theorem sections_rectFirst {s : List Value} (h : RectFirst s) (u : List Value) :
    sections (u ++ s) = ((sections u).1, (sections u).2 ++ (sections s).2) := by
  rcases h with rfl | ⟨r, w, rfl⟩
  · simp [sections]
  · rw [sections_upto]
    rfl

theorem sections_taken {s X : List Value} (h : RectFirst s) (hX : ∀ v ∈ X, ∀ r, v ≠ .textRectangle r) (u : List Value) (q) :
    sections (u ++ (.textRectangle q :: X ++ s)) =
      ((sections u).1, (sections u).2 ++ (q, X) :: (sections s).2) := by
  rw [← List.append_assoc, sections_rectFirst h, sections_upto, sections_bare hX]
  simp

theorem composed_join {bg more} (m1 : List (Rectangle × List Value)) : ∀ {ws t sp rect a b},
    Composed d bg t sp rect ws (m1 ++ more) a b →
    ∃ m, Composed d bg t sp rect ws m1 a m ∧
      Tail d bg ((ws ++ m1.flatMap Prod.snd).foldl (TextAttr.apply (signAttr d)) t)
        ((ws ++ m1.flatMap Prod.snd).foldl spacingAfter sp) more m b := by
  intro ws t sp rect a b h
  cases more with
  | nil => rw [List.append_nil] at h; exact ⟨b, h, rfl⟩
  | cons q more =>
    obtain ⟨r, us⟩ := q
    exact composed_split m1 h

/-- the page without the text rectangle passes the checks of the page with it -/
theorem pageStops_taken {t u X s q} (hs : RectFirst s) (hX : ∀ v ∈ X, ∀ r, v ≠ .textRectangle r)
    (h : Silent (pageStops d t (u ++ (.textRectangle q :: X ++ s))))
    (e1 : (u ++ .textRectangle q :: X).foldl (TextAttr.apply (signAttr d)) t = u.foldl (TextAttr.apply (signAttr d)) t)
    (e2 : (u ++ .textRectangle q :: X).foldl spacingAfter none = u.foldl spacingAfter none) :
    Silent (pageStops d t (u ++ s)) := by
  rcases hs with rfl | ⟨r, w, rfl⟩
  · have h0 : sections ([] : List Value) = ([], []) := rfl
    unfold pageStops at h ⊢
    rw [silent_append, silent_map, rectsStops_silent, sections_taken (.inl rfl) hX] at h
    rw [silent_append, silent_map, rectsStops_silent, List.append_nil]
    obtain ⟨h1, h2, h3⟩ := h
    refine ⟨fun v hv => h1 v (List.mem_append_left _ hv), (rectsQuiet_split _ |>.1 h2).1, ?_⟩
    rw [List.length_append] at h3
    omega
  · exact pageStops_cut h e1 e2

theorem signRows (hd : SizeOk d) {q : Rectangle}
    (h : TextRect d d.vmsCfg.signWidthPixels.toNat d.vmsCfg.signHeightPixels.toNat q) {i j} :
    ((opened d q).x.toNat - 1 ≤ i ∧ i < (opened d q).x.toNat - 1 + (opened d q).width.toNat ∧
      (opened d q).y.toNat - 1 ≤ j ∧ j < (opened d q).y.toNat - 1 + (opened d q).height.toNat) →
    PixelIn d.vmsCfg.signWidthPixels.toNat d.vmsCfg.signHeightPixels.toNat q i j := by
  have h3 := h.right
  have h4 := h.bottom
  have w := hd.width
  have w' := hd.height
  have h1 := h.x
  have h2 := h.y
  have e1 : (opened d q).width.toNat = extWidth q d.vmsCfg.signWidthPixels.toNat := by
    show (UInt16.ofNat _).toNat = _
    rw [UInt16.toNat_ofNat']
    exact Nat.mod_eq_of_lt (by omega)
  have e2 : (opened d q).height.toNat = extHeight q d.vmsCfg.signHeightPixels.toNat := by
    show (UInt16.ofNat _).toNat = _
    rw [UInt16.toNat_ofNat']
    exact Nat.mod_eq_of_lt (by omega)
  rw [e1, e2]
  show q.x.toNat - 1 ≤ i ∧ i < q.x.toNat - 1 + _ ∧ q.y.toNat - 1 ≤ j ∧ j < q.y.toNat - 1 + _ → _
  unfold PixelIn
  omega

theorem page_taken (hd : SizeOk d) (hu : UniqueNumbers (fun g : Graphic => g.number.toNat) d.graphicDefinition)
    (hch : CellHeights d) {t : TextAttr} {u X s : List Value} {q : Rectangle} (hs : RectFirst s)
    (hX : ∀ v ∈ X, ∀ r, v ≠ .textRectangle r)
    (hr : ∀ v ∈ u ++ (.textRectangle q :: X ++ s), InRange v)
    (hq : Silent (pageStops d t (u ++ (.textRectangle q :: X ++ s))))
    (e1 : (u ++ .textRectangle q :: X).foldl (TextAttr.apply (signAttr d)) t = u.foldl (TextAttr.apply (signAttr d)) t)
    (e2 : (u ++ .textRectangle q :: X).foldl spacingAfter none = u.foldl spacingAfter none) {bg a b b'}
    (hw : a.width = d.vmsCfg.signWidthPixels.toNat) (hh : a.height = d.vmsCfg.signHeightPixels.toNat)
    (h : Composed d bg t none (signRect d) (sections (u ++ (.textRectangle q :: X ++ s))).1
      (sections (u ++ (.textRectangle q :: X ++ s))).2 a b)
    (h' : Composed d bg t none (signRect d) (sections (u ++ s)).1 (sections (u ++ s)).2 a b') (i j)
    (hne : b.px i j ≠ b'.px i j) :
    (∃ v ∈ X, Paints d v i j) ∨ PixelIn d.vmsCfg.signWidthPixels.toNat d.vmsCfg.signHeightPixels.toNat q i j := by
  obtain ⟨⟨s1, s2⟩, s3⟩ := page_sane hd hu hr hq
  rw [sections_taken hs hX] at h s1 s2 s3
  rw [sections_rectFirst hs] at h'
  obtain ⟨m, h1, h2⟩ := composed_split _ h
  obtain ⟨m', h1', h2'⟩ := composed_join _ h'
  obtain rfl := composed_unique hu h1 s1.2 (fun w hw => (s2 w (List.mem_append_left _ hw)).2) h1'
  rw [sections_run (fun _ _ => rfl), sections_run (fun _ _ => rfl)] at h2 h2'
  obtain ⟨g, v, k1, k2, k3⟩ := composed_tail h2
  rw [← List.foldl_append, ← List.foldl_append] at k3
  have f1 : (u ++ X).foldl (TextAttr.apply (signAttr d)) t = u.foldl (TextAttr.apply (signAttr d)) t := by
    rw [← e1, List.foldl_append, List.foldl_append]; rfl
  have f2 : (u ++ X).foldl spacingAfter none = u.foldl spacingAfter none := by
    rw [← e2, List.foldl_append, List.foldl_append]; rfl
  rw [f1, f2] at k3
  have hmw := (composed_size h1).1.trans hw
  have hmh := (composed_size h1).2.trans hh
  refine Classical.byContradiction fun hno => hne ?_
  have hno1 : ¬ ∃ v ∈ X, Paints d v i j := fun h => hno (.inl h)
  have hno2 := fun h => hno (.inr (signRows hd (s3 (q, X) (by simp)) h))
  -- not painted
  have g1 : g.px i j = m.px i j := by
    obtain ⟨o, l1, l2⟩ := k1.px i j
    rw [hmw, hmh] at l1
    have : o = none := by
      have key : ∀ {p vs o}, (∀ v ∈ vs, ¬ Paints d v i j) →
          Layered d d.vmsCfg.signWidthPixels.toNat d.vmsCfg.signHeightPixels.toNat p vs i j o → o = none := by
        intro p vs
        induction vs generalizing p with
        | nil => intro o _ h; cases h; rfl
        | cons v vs ih =>
          intro o hp h
          cases h with
          | @cons _ _ _ _ _ o u h1 h2 =>
            rw [ih (fun w hw => hp w (List.mem_cons_of_mem _ hw)) h2]
            cases o with
            | none => rfl
            | some c => exact absurd ⟨p, c, h1⟩ (hp v (List.mem_cons_self ..))
      exact key (fun v hv hp => hno1 ⟨v, hv, hp⟩) l1
    rw [l2, this]
    rfl
  -- no text there
  have g2 : v.px i j = g.px i j := by
    obtain ⟨ps, _, _, _, _, _, _, k⟩ := k2
    refine Classical.byContradiction fun hne => ?_
    exact hno2 ((k fun _ => cellFonts_all hch _).px i j hne).1
  have g3 : v.px i j = m.px i j := g2.trans g1
  have hvw : v.width = m.width := by rw [(textDrawn_size k2).1, k1.width]
  have hvh : v.height = m.height := by rw [(textDrawn_size k2).2, k1.height]
  generalize hmore : (sections s).2 = more at k3 h2'
  have hsane : ∀ w ∈ more, Sane d w.2 := by
    intro w hw
    rw [← hmore] at hw
    exact s2 w (List.mem_append_right _ (List.mem_cons_of_mem _ hw))
  cases more with
  | nil =>
    have : b = v := k3
    have : b' = m := h2'
    subst b; subst b'
    exact g3
  | cons z more =>
    obtain ⟨r, us⟩ := z
    exact composed_pixel hu k3 (hsane _ (List.mem_cons_self ..)).2
      (fun w hw => (hsane w (List.mem_cons_of_mem _ hw)).2) h2' hvw hvh g3

/-- the values after a text rectangle: none, or those of the next page, or of the next text rectangle -/
def Spec.ClosesRect (S : List Value) : Prop :=
  S = [] ∨ (∃ S', S = .newPage :: S') ∨ ∃ r S', S = .textRectangle r :: S'

theorem closesRect_page {S : List Value} (h : ClosesRect S) : ∃ s ss, splitPages S = s :: ss ∧ RectFirst s ∧
    ((∃ r S', S = .textRectangle r :: S') → s ≠ []) := by
  rcases h with rfl | ⟨S', rfl⟩ | ⟨r, S', rfl⟩
  · exact ⟨[], [], rfl, .inl rfl, by rintro ⟨_, _, h⟩; cases h⟩
  · exact ⟨[], splitPages S', by simp [splitPages], .inl rfl, by rintro ⟨_, _, h⟩; cases h⟩
  · obtain ⟨s, ss, hs0⟩ : ∃ s ss, splitPages S' = s :: ss := List.exists_cons_of_ne_nil (splitPages_ne S')
    refine ⟨.textRectangle r :: s, ss, ?_, .inr ⟨_, _, rfl⟩, by simp⟩
    simp only [splitPages, hs0]
    rfl

/-- **C133** A text rectangle, with all that is in it, can be left out of a message that is shown, if it sets nothing for
what follows: the message is shown, too, all other pages are the same, and of its page, only pixels can have another color
which are inside of the text rectangle, or are painted by one of its drawings.  Only the size of the blank page of an off
time can be another, when the text rectangle is the last one of its page. -/
theorem C133_left_out (d : Dms) (hd : SizeOk d) (hok : SignOk d) (hf : FontsOk d.fontDefinition) (W H : Nat)
    (hg : GraphicsOk W H d.graphicDefinition) (hch : CellHeights d) (ms ms' : Str) (hs : SizesOk d ms) (hs' : SizesOk d ms')
    (A X S : List Value) (q : Rectangle) (hX : ∀ v ∈ X, v ≠ .newPage ∧ ∀ r, v ≠ .textRectangle r) (hS : ClosesRect S)
    (hv : Parses (slices ms) (A ++ (.textRectangle q :: X ++ S))) (hv' : Parses (slices ms') (A ++ S))
    (hset : SetsAlike d (A ++ .textRectangle q :: X) A) (xs) (hx : ShownAs d ms xs) :
    ∃ ys before after off off' p p', ShownAs d ms' ys ∧ xs = before ++ ((true, .ok p) :: (off ++ after)) ∧
      ys = before ++ ((true, .ok p') :: (off' ++ after)) ∧ (before.filter (·.1)).length = A.count .newPage ∧
      (∀ o ∈ off ++ off', o.1 = false) ∧ durations off = durations off' ∧
      ((∃ r S', S = .textRectangle r :: S') → off = off') ∧
      p.durationDs = p'.durationDs ∧ p.raster.width = p'.raster.width ∧ p.raster.height = p'.raster.height ∧
      ∀ i j, p.raster.px i j ≠ p'.raster.px i j → (∃ v ∈ X, Paints d v i j) ∨
        PixelIn d.vmsCfg.signWidthPixels.toNat d.vmsCfg.signHeightPixels.toNat q i j := by
  have hXp : ∀ v ∈ X, v ≠ .newPage := fun v h => (hX v h).1
  have hXr : ∀ v ∈ X, ∀ r, v ≠ .textRectangle r := fun v h => (hX v h).2
  have hXq : ∀ v ∈ Value.textRectangle q :: X, v ≠ .newPage := by
    intro v hm
    rcases List.mem_cons.1 hm with rfl | hm
    · nofun
    · exact hXp v hm
  obtain ⟨P, a, ha, hp, hsp, hfold⟩ := upto_page A
  obtain ⟨s, ss, hs0, hsr, hsn⟩ := closesRect_page hS
  have pg : splitPages (A ++ (.textRectangle q :: X ++ S)) = P ++ ((a ++ (.textRectangle q :: X ++ s)) :: ss) := by
    rw [hp, ← List.append_assoc, ← List.append_assoc]
    congr 1
    refine splitPages_before (fun v hv => ?_) hs0
    rcases List.mem_append.1 hv with h | h
    · exact ha v h
    · exact hXq v h
  have pg' : splitPages (A ++ S) = P ++ ((a ++ s) :: ss) := by
    rw [hp]
    congr 1
    exact splitPages_before ha hs0
  have hlen : P.length = A.count .newPage := by
    have h1 := splitPages_length A
    have h2 := hp []
    rw [List.append_nil, List.append_nil] at h2
    have h3 := splitPages_length a
    have h4 : a.countP (fun v => decide (v = .newPage)) = 0 := by
      rw [List.countP_eq_zero]
      intro v hv
      simp [ha v hv]
    rw [h2, List.length_append, h3, h4] at h1
    rw [List.count_eq_countP]
    have : (fun v : Value => decide (v = .newPage)) = (· == .newPage) := by
      funext v
      by_cases h : v = .newPage <;> simp [h]
    rw [this] at h1
    omega
  obtain ⟨⟨t1, q1⟩, c1⟩ := (shown_iff d hd hok hf W H hg ms hs hv xs).1 hx
  have m1 : ∀ p ∈ splitPages (A ++ (.textRectangle q :: X ++ S)), ∀ v ∈ p, InRange v := by
    intro p hp v hm
    exact parses_inRange hv (slices_items ms) v (splitPages_mem p hp v hm)
  rw [pg] at q1 c1 m1
  rw [pagesQuiet_append] at q1
  have e1 : (a ++ .textRectangle q :: X).foldl (TextAttr.apply (signAttr d))
        (P.flatten.foldl (TextAttr.apply (signAttr d)) (signAttr d)) =
      a.foldl (TextAttr.apply (signAttr d)) (P.flatten.foldl (TextAttr.apply (signAttr d)) (signAttr d)) := by
    have := hset.style
    unfold styleSince at this
    rw [List.foldl_append] at this ⊢
    rw [hfold (fun _ => rfl)]
    exact this
  have e2 : (a ++ .textRectangle q :: X).foldl spacingAfter none = a.foldl spacingAfter none := by
    have h0 := hsp [] nofun
    rw [List.append_nil, List.append_nil] at h0
    rw [← hsp _ hXq, ← h0, hset.spacing]
  have f1 : (a ++ (.textRectangle q :: X ++ s)).foldl (TextAttr.apply (signAttr d))
        (P.flatten.foldl (TextAttr.apply (signAttr d)) (signAttr d)) =
      (a ++ s).foldl (TextAttr.apply (signAttr d))
        (P.flatten.foldl (TextAttr.apply (signAttr d)) (signAttr d)) := by
    rw [← List.append_assoc, List.foldl_append, e1, ← List.foldl_append]
  have f3 : pageTimes (signPage d).1 (pageTimes (signPage d).1 (signPage d).1 P.flatten) (a ++ (.textRectangle q :: X ++ s)) =
      pageTimes (signPage d).1 (pageTimes (signPage d).1 (signPage d).1 P.flatten) (a ++ s) := by
    have := hset.times
    unfold pageTimes at this ⊢
    rw [List.foldl_append] at this
    rw [← List.append_assoc, List.foldl_append, List.foldl_append, List.foldl_append, hfold (fun _ => rfl), this]
  have f4 : background (signPage d).2 (background (signPage d).2 (signPage d).2 P.flatten) (a ++ (.textRectangle q :: X ++ s)) =
      background (signPage d).2 (background (signPage d).2 (signPage d).2 P.flatten) (a ++ s) := by
    have := hset.background
    unfold background at this ⊢
    rw [List.foldl_append] at this
    rw [← List.append_assoc, List.foldl_append, List.foldl_append, List.foldl_append, hfold (fun _ => rfl), this]
  obtain ⟨ys, hy⟩ : ∃ ys, ShownAs d ms' ys := by
    refine quiet_shown d hd hok ms' hs' hv' ⟨fun v hm => t1 v ?_, ?_⟩
    · simp only [List.mem_append, List.mem_cons] at hm ⊢
      rcases hm with hm | hm
      · exact .inl hm
      · exact .inr (.inr hm)
    · rw [pg', pagesQuiet_append]
      refine ⟨q1.1, pageStops_taken hsr hXr q1.2.1 e1 e2, ?_⟩
      rw [← f1]
      exact q1.2.2
  obtain ⟨_, c2⟩ := (shown_iff d hd hok hf W H hg ms' hs' hv' ys).1 hy
  rw [pg'] at c2
  obtain ⟨x1, x2, rfl, k1, k2⟩ := pictured_split c1
  obtain ⟨y1, y2, rfl, l1, l2⟩ := pictured_split c2
  obtain rfl := pictured_unique hg.numbers (fun p hp v hm => m1 p (List.mem_append.2 (.inl hp)) v hm) k1 l1
  obtain ⟨raster, more, p1, rfl, p3⟩ := k2
  obtain ⟨raster', more', p1', rfl, p3'⟩ := l2
  dsimp only at p1 p1' p3 p3'
  rw [← f4] at p1'
  rw [← f1, ← f3, ← f4] at p3'
  obtain rfl := pictured_unique hg.numbers
    (fun p hp v hm => m1 p (List.mem_append.2 (.inr (List.mem_cons_of_mem _ hp))) v hm) p3 p3'
  refine ⟨_, x1, more, _, _, _, _, hy, rfl, rfl, (pictured_count k1).trans hlen, ?_, ?_, ?_, ?_, ?_, ?_, ?_⟩
  · intro o ho
    rcases List.mem_append.1 ho with ho | ho
    · split at ho
      · rw [List.mem_singleton] at ho; rw [ho]
      · cases ho
    · split at ho
      · rw [List.mem_singleton] at ho; rw [ho]
      · cases ho
  · rw [f3]
    split <;> rfl
  · intro hr
    rcases hsr with rfl | ⟨r, w, rfl⟩
    · exact absurd rfl (hsn hr)
    · have hl : ∀ u, lastRect d (signRect d) (sections (u ++ .textRectangle r :: w)).2 =
          lastRect d (signRect d) ((r, (sections w).1) :: (sections w).2) := by
        intro u
        rw [sections_upto]
        exact lastRect_snoc
      have hl' := hl (a ++ (.textRectangle q :: X))
      rw [List.append_assoc] at hl'
      rw [f3, f4, hl a, hl']
  · show (pageTimes _ _ _).1.toNat = (pageTimes _ _ _).1.toNat
    rw [f3]
  · exact (composed_size p1).1.trans (composed_size p1').1.symm
  · exact (composed_size p1).2.trans (composed_size p1').2.symm
  · intro i j hne
    exact page_taken hd hg.numbers hch hsr hXr (m1 _ (List.mem_append.2 (.inr (List.mem_cons_self ..)))) q1.2.1 e1 e2
      rfl rfl p1 p1' i j hne

/-- **C133 (built)** the same on a sign made by the builder, for messages of at most 128 characters -/
theorem C133_built (pr : Profile) (b : DmsBuilder) (d : Dms) (h : b.build pr = .ok d)
    (hw : d.vmsCfg.signWidthPixels.toNat < 65535) (hh : d.vmsCfg.signHeightPixels.toNat < 65535)
    (hz : ¬ (d.vmsCfg.signWidthPixels.toNat = 0 ∧ d.vmsCfg.signHeightPixels.toNat = 0))
    (hf : 1 ≤ d.multiCfg.defaultFont.toNat)
    (hjp : d.multiCfg.defaultJustificationPage ≠ .other)
    (hjl : d.multiCfg.defaultJustificationLine ≠ .other ∧ d.multiCfg.defaultJustificationLine ≠ .full)
    (hch : CellHeights d) (ms ms' : Str) (hl : ms.length ≤ 128) (hl' : ms'.length ≤ 128)
    (A X S : List Value) (q : Rectangle) (hX : ∀ v ∈ X, v ≠ .newPage ∧ ∀ r, v ≠ .textRectangle r) (hS : ClosesRect S)
    (hv : Parses (slices ms) (A ++ (.textRectangle q :: X ++ S))) (hv' : Parses (slices ms') (A ++ S))
    (hset : SetsAlike d (A ++ .textRectangle q :: X) A) (xs) (hx : ShownAs d ms xs) :
    ∃ ys before after off off' p p', ShownAs d ms' ys ∧ xs = before ++ ((true, .ok p) :: (off ++ after)) ∧
      ys = before ++ ((true, .ok p') :: (off' ++ after)) ∧ (before.filter (·.1)).length = A.count .newPage ∧
      (∀ o ∈ off ++ off', o.1 = false) ∧ durations off = durations off' ∧
      ((∃ r S', S = .textRectangle r :: S') → off = off') ∧
      p.durationDs = p'.durationDs ∧ p.raster.width = p'.raster.width ∧ p.raster.height = p'.raster.height ∧
      ∀ i j, p.raster.px i j ≠ p'.raster.px i j → (∃ v ∈ X, Paints d v i j) ∨
        PixelIn d.vmsCfg.signWidthPixels.toNat d.vmsCfg.signHeightPixels.toNat q i j := by
  have hv1 := C22_built_sign_valid pr b d h
  exact C133_left_out d ⟨hw, hh, hz⟩ ⟨hw, hh, hf, hjp, hjl, hv1.2.2.2.2.1.fonts, hv1.2.2.2.2.2.1.graphics⟩ hv1.2.2.2.2.1 _ _
    hv1.2.2.2.2.2.1 hch ms ms' (sizesOk_short d ms hl) (sizesOk_short d ms' hl') A X S q hX hS hv hv' hset xs hx

/-! ### examples -/

/-- a text rectangle with text and a color rectangle, between two others -/
def Tests.rectsMsg : Str := c!"A[np]B[tr5,5,20,20]C[cr2,2,3,3,0,0,255][tr30,5,20,20]D[np]E"
def Tests.takenMsg : Str := c!"A[np]B[tr30,5,20,20]D[np]E"

theorem rectsMsg_values : Parses (slices rectsMsg) ([.text c!"A", .newPage, .text c!"B"] ++ (.textRectangle ⟨5, 5, 20, 20⟩ ::
    [.text c!"C", .colorRectangle ⟨2, 2, 3, 3⟩ (.rgb 0 0 255)] ++
    [.textRectangle ⟨30, 5, 20, 20⟩, .text c!"D", .newPage, .text c!"E"])) := by
  rw [show slices rectsMsg = [c!"A", c!"[np]", c!"B", c!"[tr5,5,20,20]", c!"C", c!"[cr2,2,3,3,0,0,255]", c!"[tr30,5,20,20]",
    c!"D", c!"[np]", c!"E"] by decide +kernel]
  repeat' first | exact Parses.nil | refine Parses.cons (by decide +kernel) ?_

theorem takenMsg_values : Parses (slices takenMsg) ([.text c!"A", .newPage, .text c!"B"] ++
    [.textRectangle ⟨30, 5, 20, 20⟩, .text c!"D", .newPage, .text c!"E"]) := by
  rw [show slices takenMsg = [c!"A", c!"[np]", c!"B", c!"[tr30,5,20,20]", c!"D", c!"[np]", c!"E"] by decide +kernel]
  repeat' first | exact Parses.nil | refine Parses.cons (by decide +kernel) ?_

-- the hypotheses of C133: the message is shown, and so it is without the text rectangle
example : ∃ xs ys, ShownAs fullDms rectsMsg xs ∧ ShownAs fullDms takenMsg ys := by
  obtain ⟨xs, hx, hn, -⟩ := summary_noError (d := fullDms) (ms := rectsMsg)
    (l := [(true, 60, 30, 30), (true, 60, 30, 30), (true, 60, 30, 30)]) (by decide +kernel)
  obtain ⟨ys, _, _, _, _, _, _, hy, _⟩ := C133_built .checked _ fullDms fullDms_built (by decide +kernel) (by decide +kernel)
    (by decide +kernel) (by decide +kernel) (by decide) ⟨by decide, by decide⟩ (.inl rfl) rectsMsg takenMsg (by decide +kernel)
    (by decide +kernel) _ _ _ _ (by simp) (.inr (.inr ⟨_, _, rfl⟩)) rectsMsg_values takenMsg_values
    ⟨by decide +kernel, by decide +kernel, by decide +kernel, by decide +kernel⟩ xs ⟨hx, hn⟩
  exact ⟨xs, ys, ⟨hx, hn⟩, hy⟩

-- pixels of the text rectangle and of the color rectangle change, in general
example : pixels fullDms c!"[tr5,5,20,20]C[cr2,2,3,3,0,0,255][tr30,5,20,20]D" [(1, 1), (5, 4)] ≠
    pixels fullDms c!"[tr30,5,20,20]D" [(1, 1), (5, 4)] := by decide +kernel

-- the size of the blank page of the off time is that of the last text rectangle
example : summary fullDms c!"[pt5o5]A[tr5,5,20,20]B" ≠ summary fullDms c!"[pt5o5]A" := by decide +kernel

end Ntcip
