import Verif.Props.Repaint
/-
C132: drawings change only the pixels that they paint.
-/
namespace Ntcip
open Spec Tests

variable {d : Dms} {X Y : List Value}

/-- none of the drawings paints the pixel -/
def Unpainted (d : Dms) (X : List Value) (i j : Nat) : Prop := ∀ v ∈ X, ¬ Paints d v i j

theorem unpainted_layered (hX : Drawings X) {p i j o} (hn : Unpainted d X i j)
    (h : Layered d d.vmsCfg.signWidthPixels.toNat d.vmsCfg.signHeightPixels.toNat p X i j o) : o = none := by
  cases o with
  | none => rfl
  | some k =>
    obtain ⟨v, hv, hl⟩ := layered_some hX h rfl
    exact absurd ⟨p, k, hl⟩ (hn v hv)

theorem rep_layered_off (hu : UniqueNumbers (fun g : Graphic => g.number.toNat) d.graphicDefinition)
    (hX : Drawings X) (hY : Drawings Y) {i j} (hx : Unpainted d X i j) (hy : Unpainted d Y i j) {a b} (h : Rep X Y a b) :
    (∀ pos, Value.graphic 0 pos ∉ a) → ∀ {p o o'},
    Layered d d.vmsCfg.signWidthPixels.toNat d.vmsCfg.signHeightPixels.toNat p a i j o →
    Layered d d.vmsCfg.signWidthPixels.toNat d.vmsCfg.signHeightPixels.toNat p b i j o' → o = o' := by
  induction h with
  | @here r =>
    intro hz p o o' ha hb
    rw [layered_append, drawings_colors hX] at ha
    rw [layered_append, drawings_colors hY] at hb
    obtain ⟨o1, o2, k1, k2, rfl⟩ := ha
    obtain ⟨u1, u2, l1, l2, rfl⟩ := hb
    rw [unpainted_layered hX hx k1, unpainted_layered hY hy l1,
      layered_unique hu (fun pos hm => hz pos (List.mem_append_right _ hm)) k2 l2]
  | @cons v a b _ ih =>
    intro hz p o o' ha hb
    cases ha with
    | cons h1 h2 =>
      cases hb with
      | cons k1 k2 =>
        rw [ih (fun pos hm => hz pos (List.mem_cons_of_mem _ hm)) h2 k2,
          layer_unique hu (fun pos e => hz pos (by rw [e]; exact List.mem_cons_self ..)) h1 k1]

/-- texts change a pixel alike -/
theorem textDrawn_pixel {t sp rect vs a b a' b' i j} (h : TextDrawn d t sp rect vs a b)
    (h' : TextDrawn d t sp rect vs a' b') (hp : a.px i j = a'.px i j) : b.px i j = b'.px i j := by
  obtain ⟨ps, p1, ⟨p2, p3⟩, p4, _, p5, _⟩ := h
  obtain ⟨qs, q1, ⟨q2, q3⟩, q4, _, q5, _⟩ := h'
  have hk : (ps.map Prod.fst).map placeKey = (qs.map Prod.fst).map placeKey :=
    map_pair (p1.trans q1.symm) (p2.trans q2.symm)
  have hlen : ps.length = qs.length := by simpa using congrArg List.length hk
  have hsame : ps.map (fun p => (pieceOf p.1, p.2)) = qs.map (fun p => (pieceOf p.1, p.2)) := by
    refine List.ext_getElem (by simpa using hlen) fun k k1 k2 => ?_
    simp only [List.length_map] at k1 k2
    simp only [List.getElem_map]
    have mp : ps[k] ∈ ps := List.getElem_mem k1
    have mq : qs[k] ∈ qs := List.getElem_mem k2
    have e : placeKey ps[k].1 = placeKey qs[k].1 := by
      have := congrArg (·[k]?) hk
      simpa [k1, k2] using this
    have er : ps[k].1.state.textRectangle = qs[k].1.state.textRectangle := by
      rw [(p4 _ (List.mem_map_of_mem mp)).1, (q4 _ (List.mem_map_of_mem mq)).1]
    have ex := exactX_unique (exactX_same hk e er (p3 _ mp).1) (q3 _ mq).1
    have ey := exactY_unique (exactY_same hk e er (p3 _ mp).2) (q3 _ mq).2
    simp only [placeKey, Prod.mk.injEq] at e
    exact Prod.ext e.1 (Prod.ext ex ey)
  rw [textAt_iff] at p5 q5
  rw [p5, q5]
  show textPx _ ps i j _ = textPx _ qs i j _
  rw [hp]
  exact textPx_same (d := d) hsame (fun p hp => (p4 _ (List.mem_map_of_mem hp)).2.1)
    (fun p hp => (q4 _ (List.mem_map_of_mem hp)).2.1)

/-- what comes after changes a pixel alike -/
theorem composed_pixel (hu : UniqueNumbers (fun g : Graphic => g.number.toNat) d.graphicDefinition)
    {bg t sp rect vs rest a b i j} (h : Composed d bg t sp rect vs rest a b) :
    (∀ pos, Value.graphic 0 pos ∉ vs) → (∀ w ∈ rest, ∀ pos, Value.graphic 0 pos ∉ w.2) →
    ∀ {a' b'}, Composed d bg t sp rect vs rest a' b' → a.width = a'.width → a.height = a'.height →
    a.px i j = a'.px i j → b.px i j = b'.px i j := by
  have gr : ∀ {p vs a a' g g'}, (∀ pos, Value.graphic 0 pos ∉ vs) → GraphicsOn d p vs a g → GraphicsOn d p vs a' g' →
      a.width = a'.width → a.height = a'.height → a.px i j = a'.px i j → g.px i j = g'.px i j := by
    intro p vs a a' g g' hv h h' ew eh ep
    obtain ⟨o, k1, k2⟩ := h.px i j
    obtain ⟨o', l1, l2⟩ := h'.px i j
    rw [ew, eh] at k1
    rw [k2, l2, layered_unique hu hv k1 l1, ep]
  induction h with
  | last h1 h2 =>
    intro hv _ a' b' h' ew eh ep
    cases h' with
    | last k1 k2 => exact textDrawn_pixel h2 k2 (gr hv h1 k1 ew eh ep)
  | next h1 h2 h3 ih =>
    intro hv hr a' b' h' ew eh ep
    cases h' with
    | next k1 k2 k3 =>
      refine ih (hr _ (List.mem_cons_self ..)) (fun w hw => hr w (List.mem_cons_of_mem _ hw)) k3 ?_ ?_
        (textDrawn_pixel h2 k2 (gr hv h1 k1 ew eh ep))
      · rw [(textDrawn_size h2).1, (textDrawn_size k2).1, h1.width, k1.width, ew]
      · rw [(textDrawn_size h2).2, (textDrawn_size k2).2, h1.height, k1.height, eh]

theorem rep_composed_off (hu : UniqueNumbers (fun g : Graphic => g.number.toNat) d.graphicDefinition)
    (hX : Drawings X) (hY : Drawings Y) {i j} (hx : Unpainted d X i j) (hy : Unpainted d Y i j)
    {bg a more b more'} (h : RepS X Y a more b more') : ∀ {t sp rect u w w'},
    (∀ pos, Value.graphic 0 pos ∉ a) → (∀ q ∈ more, ∀ pos, Value.graphic 0 pos ∉ q.2) →
    (u.width = d.vmsCfg.signWidthPixels.toNat ∧ u.height = d.vmsCfg.signHeightPixels.toNat) →
    Composed d bg t sp rect a more u w → Composed d bg t sp rect b more' u w' → w.px i j = w'.px i j := by
  have same : ∀ {p a g g' u}, (∀ pos, Value.graphic 0 pos ∉ a) → GraphicsOn d p a u g → GraphicsOn d p a u g' → g = g' := by
    intro p a g g' u hz h1 h2
    obtain ⟨e1, e2, e3⟩ := graphicsOn_unique hu hz h1 h2
    exact raster_ext e1 e2 e3
  have gr : ∀ {p a b u g g'}, (∀ pos, Value.graphic 0 pos ∉ a) →
      (u.width = d.vmsCfg.signWidthPixels.toNat ∧ u.height = d.vmsCfg.signHeightPixels.toNat) →
      Rep X Y a b → GraphicsOn d p a u g → GraphicsOn d p b u g' → g.px i j = g'.px i j := by
    intro p a b u g g' hz hs h h1 h2
    obtain ⟨o, k1, k2⟩ := h1.px i j
    obtain ⟨o', l1, l2⟩ := h2.px i j
    rw [hs.1, hs.2] at k1 l1
    rw [k2, l2, rep_layered_off hu hX hY hx hy h hz k1 l1]
  induction h with
  | first h =>
    intro t sp rect u w w' hz hm hs hc hc'
    cases hc with
    | last h1 h2 =>
      cases hc' with
      | last k1 k2 => exact textDrawn_pixel h2 ((rep_textDrawn hX hY h).2 k2) (gr hz hs h h1 k1)
    | next h1 h2 h3 =>
      cases hc' with
      | next k1 k2 k3 =>
        rw [← rep_text hX hY h, ← rep_spacing hX hY h] at k3
        have k2 := (rep_textDrawn hX hY h).2 k2
        refine composed_pixel hu h3 (hm _ (List.mem_cons_self ..)) (fun w hw => hm w (List.mem_cons_of_mem _ hw)) k3 ?_ ?_
          (textDrawn_pixel h2 k2 (gr hz hs h h1 k1))
        · rw [(textDrawn_size h2).1, (textDrawn_size k2).1, h1.width, k1.width]
        · rw [(textDrawn_size h2).2, (textDrawn_size k2).2, h1.height, k1.height]
  | later _ ih =>
    intro t sp rect u w w' hz hm hs hc hc'
    cases hc with
    | next h1 h2 h3 =>
      cases hc' with
      | next k1 k2 k3 =>
        obtain rfl := same hz h1 k1
        obtain rfl := textDrawn_unique h2 k2
        refine ih (hm _ (List.mem_cons_self ..)) (fun w hw => hm w (List.mem_cons_of_mem _ hw)) ?_ h3 k3
        rw [(textDrawn_size h2).1, (textDrawn_size h2).2, h1.width, h1.height]
        exact hs

/-- the drawings are on one page -/
theorem rep_pages (hX : Drawings X) (hY : Drawings Y) (post : List Value) : ∀ pre : List Value, ∃ P p p' ps,
    splitPages (pre ++ (X ++ post)) = P ++ p :: ps ∧ splitPages (pre ++ (Y ++ post)) = P ++ p' :: ps ∧
    Rep X Y p p' ∧ P.length = pre.count .newPage := by
  intro pre
  induction pre with
  | nil =>
    obtain ⟨p, ps, hp⟩ : ∃ p ps, splitPages post = p :: ps := List.exists_cons_of_ne_nil (splitPages_ne post)
    exact ⟨[], X ++ p, Y ++ p, ps, splitPages_drawings hX _ hp, splitPages_drawings hY _ hp, .here, rfl⟩
  | cons v pre ih =>
    obtain ⟨P, p, p', ps, e1, e2, h, hl⟩ := ih
    by_cases hv : v = .newPage
    · subst hv
      refine ⟨[] :: P, p, p', ps, ?_, ?_, h, by simp [hl]⟩
      · simp only [List.cons_append, splitPages, if_true, e1]
      · simp only [List.cons_append, splitPages, if_true, e2]
    · obtain ⟨q, qs, k1, k2⟩ := splitPages_cons (vs := pre ++ (X ++ post)) hv
      obtain ⟨q', qs', k3, k4⟩ := splitPages_cons (vs := pre ++ (Y ++ post)) hv
      rw [List.cons_append, List.cons_append, k2, k4]
      rw [e1] at k1
      rw [e2] at k3
      cases P with
      | nil =>
        cases k1; cases k3
        exact ⟨[], v :: p, v :: p', ps, rfl, rfl, .cons h, by simpa [hv] using hl⟩
      | cons z P =>
        cases k1; cases k3
        exact ⟨(v :: _) :: P, p, p', ps, rfl, rfl, h, by simpa [hv] using hl⟩

/-- each page has one picture -/
theorem pictured_count {ps : List (List Value)} : ∀ {t p xs}, Pictured d t p xs ps → (xs.filter (·.1)).length = ps.length := by
  induction ps with
  | nil => intro t p xs h; rw [Pictured] at h; subst h; rfl
  | cons vs ps ih =>
    intro t p xs h
    obtain ⟨r, more, _, rfl, h3⟩ := h
    have := ih h3
    split <;> simp [this]

/-- **C132** Color rectangles and graphics one after another in a message can be replaced by any others that the sign can
draw, or be left out: the message is shown, too, all other pages are the same, and of the page with the drawings, only
pixels can have another color which one of the drawings, old or new, paints. -/
theorem C132_drawings (d : Dms) (hd : SizeOk d) (hok : SignOk d) (hf : FontsOk d.fontDefinition) (W H : Nat)
    (hg : GraphicsOk W H d.graphicDefinition) (ms ms' : Str) (hs : SizesOk d ms) (hs' : SizesOk d ms')
    (pre post X Y : List Value) (hX : ∀ x ∈ X, isDrawing x = true) (hY : ∀ y ∈ Y, isDrawing y = true)
    (hv : Parses (slices ms) (pre ++ (X ++ post))) (hv' : Parses (slices ms') (pre ++ (Y ++ post)))
    (hc : ∀ y ∈ Y, CanDraw d y) (xs) (hx : ShownAs d ms xs) :
    ∃ ys before after p p', ShownAs d ms' ys ∧ xs = before ++ (true, .ok p) :: after ∧
      ys = before ++ (true, .ok p') :: after ∧ (before.filter (·.1)).length = pre.count .newPage ∧
      p.durationDs = p'.durationDs ∧ p.raster.width = p'.raster.width ∧ p.raster.height = p'.raster.height ∧
      ∀ i j, p.raster.px i j ≠ p'.raster.px i j → ∃ v, v ∈ X ++ Y ∧ Paints d v i j := by
  have he : Rep Y X (pre ++ (Y ++ post)) (pre ++ (X ++ post)) := rep_at pre post
  have hp' := splitPages_rep hY hX he
  unfold ShownAs at hx
  rw [shown_iff d hd hok hf W H hg ms hs hv xs] at hx
  obtain ⟨⟨h1, h2⟩, h3⟩ := hx
  have hq : TagsOk d (pre ++ (Y ++ post)) ∧ PagesQuiet d (signAttr d) (splitPages (pre ++ (Y ++ post))) := by
    refine ⟨?_, rep_pagesQuiet hY hX ?_ hp' h2⟩
    · intro v hm
      rcases rep_mem he hm with hm | hm
      · exact (hc v hm).1
      · exact h1 v hm
    · intro y hy
      exact (paint_quiet_iff hd hg.numbers (parses_inRange hv' (slices_items ms') y (rep_own he hy)) (hY y hy)).2 (hc y hy).2
  obtain ⟨ys, hy⟩ := quiet_shown d hd hok ms' hs' hv' hq
  have h4 := ((shown_iff d hd hok hf W H hg ms' hs' hv' ys).1 hy).2
  obtain ⟨P, p, p', ps, e1, e2, hr, hl⟩ := rep_pages hX hY post pre
  have hin := parses_inRange hv (slices_items ms)
  have hall : ∀ q ∈ P ++ p :: ps, ∀ v ∈ q, InRange v := by
    rw [← e1]
    intro q hq v hv
    exact hin v (splitPages_mem q hq v hv)
  rw [e1] at h3
  rw [e2] at h4
  obtain ⟨before, xs2, rfl, b1, b2⟩ := pictured_split h3
  obtain ⟨before', ys2, rfl, c1, c2⟩ := pictured_split h4
  obtain rfl := pictured_unique hg.numbers (fun q hq => hall q (List.mem_append_left _ hq)) b1 c1
  obtain ⟨r, m, k1, rfl, k3⟩ := b2
  obtain ⟨r', m', l1, rfl, l3⟩ := c2
  have hsec := sections_rep hX hY hr
  have last : ∀ {a more b more' rect}, RepS X Y a more b more' → lastRect d rect more' = lastRect d rect more := by
    intro a more b more' rect h
    induction h generalizing rect with
    | first _ => rfl
    | later _ ih => simp only [lastRect]; exact ih
  have t1 : ∀ c, pageTimes (signPage d).1 c p' = pageTimes (signPage d).1 c p := by
    intro c
    have := congrArg Settings.times (rep_settings (d := d) hX hY hr ⟨signAttr d, c, (signPage d).2⟩)
    rw [settings_times, settings_times] at this
    exact this.symm
  have t2 : ∀ c, background (signPage d).2 c p' = background (signPage d).2 c p := by
    intro c
    have := congrArg Settings.bg (rep_settings (d := d) hX hY hr ⟨signAttr d, (signPage d).1, c⟩)
    rw [settings_bg, settings_bg] at this
    exact this.symm
  rw [t2] at l1
  rw [t1, t2, ← rep_text hX hY hr] at l3
  have hm : m = m' := pictured_unique hg.numbers
    (fun q hq => hall q (List.mem_append_right _ (List.mem_cons_of_mem _ hq))) k3 l3
  subst hm
  have hz := sections_all (P := fun v => ∀ pos, v ≠ .graphic 0 pos) (vs := p) (by
    rintro v hm pos rfl
    have := hall p (List.mem_append_right _ (List.mem_cons_self ..)) _ hm
    simp [InRange] at this)
  have s1 := composed_size k1
  have s2 := composed_size l1
  refine ⟨_, before, _, ⟨r, _⟩, ⟨r', _⟩, hy, rfl, ?_, ?_, rfl, by rw [s1.1, s2.1], by rw [s1.2, s2.2], fun i j hne => ?_⟩
  · rw [t1, t2, last hsec]
  · rw [pictured_count b1, hl]
  · refine Classical.byContradiction fun hno => hne ?_
    exact rep_composed_off hg.numbers hX hY (fun v hv hp => hno ⟨v, List.mem_append_left _ hv, hp⟩)
      (fun v hv hp => hno ⟨v, List.mem_append_right _ hv, hp⟩) hsec (fun pos hm => hz.1 _ hm pos rfl)
      (fun q hq pos hm => hz.2 q hq _ hm pos rfl) ⟨rfl, rfl⟩ k1 l1

/-- **C132 (left out)** Color rectangles and graphics can be left out: the message is shown, too, and only pixels which they
paint, on their page, can have another color. -/
theorem C132_left_out (d : Dms) (hd : SizeOk d) (hok : SignOk d) (hf : FontsOk d.fontDefinition) (W H : Nat)
    (hg : GraphicsOk W H d.graphicDefinition) (ms ms' : Str) (hs : SizesOk d ms) (hs' : SizesOk d ms')
    (pre post X : List Value) (hX : ∀ x ∈ X, isDrawing x = true)
    (hv : Parses (slices ms) (pre ++ (X ++ post))) (hv' : Parses (slices ms') (pre ++ post)) (xs) (hx : ShownAs d ms xs) :
    ∃ ys before after p p', ShownAs d ms' ys ∧ xs = before ++ (true, .ok p) :: after ∧
      ys = before ++ (true, .ok p') :: after ∧ (before.filter (·.1)).length = pre.count .newPage ∧
      p.durationDs = p'.durationDs ∧ p.raster.width = p'.raster.width ∧ p.raster.height = p'.raster.height ∧
      ∀ i j, p.raster.px i j ≠ p'.raster.px i j → ∃ v ∈ X, Paints d v i j := by
  obtain ⟨ys, before, after, p, p', h1, h2, h3, h4, h5, h6, h7, h8⟩ := C132_drawings d hd hok hf W H hg ms ms' hs hs' pre post
    X [] hX nofun hv hv' nofun xs hx
  exact ⟨ys, before, after, p, p', h1, h2, h3, h4, h5, h6, h7, fun i j hne => by simpa using h8 i j hne⟩

/-! ### examples -/

/-- a page, then text with a color rectangle and a graphic before it -/
def Tests.paintedMsg : Str := c!"A[np]B[cr2,2,9,5,0,0,255][g7,3,3][jl4]C"
def Tests.otherMsg : Str := c!"A[np]B[cr20,2,9,5,255,0,0][jl4]C"
def Tests.unpaintedMsg : Str := c!"A[np]B[jl4]C"

-- the hypotheses of C132: the first message is shown, so are the other two
example : ∃ xs ys zs, ShownAs graphDms paintedMsg xs ∧ ShownAs graphDms otherMsg ys ∧ ShownAs graphDms unpaintedMsg zs := by
  obtain ⟨xs, hx, hn, -⟩ := summary_noError (d := graphDms) (ms := paintedMsg) (l := [(true, 60, 30, 30), (true, 60, 30, 30)])
    (by decide +kernel)
  have hf : FontsOk graphDms.fontDefinition := (C20_accepts_iff _).mp (by decide +kernel)
  have hg : GraphicsOk 60 30 graphDms.graphicDefinition := (C21_accepts_iff _ 60 30).mp (by decide +kernel)
  have hok : SignOk graphDms := ⟨by decide, by decide, by decide, by decide, ⟨by decide, by decide⟩, hf.fonts, hg.graphics⟩
  have hv : Parses (slices paintedMsg) ([.text c!"A", .newPage, .text c!"B"] ++ ([.colorRectangle ⟨2, 2, 9, 5⟩ (.rgb 0 0 255),
      .graphic 7 (some (3, 3, none))] ++ [.justificationLine (some .right), .text c!"C"])) := by
    rw [show slices paintedMsg = [c!"A", c!"[np]", c!"B", c!"[cr2,2,9,5,0,0,255]", c!"[g7,3,3]", c!"[jl4]", c!"C"] by
      decide +kernel]
    repeat' first | exact Parses.nil | refine Parses.cons (by decide +kernel) ?_
  obtain ⟨ys, _, _, _, _, hy, _⟩ := C132_drawings graphDms graphDms_size hok hf 60 30 hg paintedMsg otherMsg
    (sizesOk_short _ _ (by decide +kernel)) (sizesOk_short _ _ (by decide +kernel)) _ _ _
    [.colorRectangle ⟨20, 2, 9, 5⟩ (.rgb 255 0 0)] (by simp [isDrawing]) (by simp [isDrawing]) hv
    (by
      rw [show slices otherMsg = [c!"A", c!"[np]", c!"B", c!"[cr20,2,9,5,255,0,0]", c!"[jl4]", c!"C"] by decide +kernel]
      repeat' first | exact Parses.nil | refine Parses.cons (by decide +kernel) ?_)
    (by
      intro y hy
      rw [List.mem_singleton] at hy
      subst hy
      refine ⟨by decide +kernel, ?_, ⟨by decide +kernel, by decide +kernel, by decide +kernel, by decide +kernel, by decide +kernel,
        by decide +kernel⟩⟩
      rintro c hc; cases hc; exact trivial) xs ⟨hx, hn⟩
  obtain ⟨zs, _, _, _, _, hz, _⟩ := C132_left_out graphDms graphDms_size hok hf 60 30 hg paintedMsg unpaintedMsg
    (sizesOk_short _ _ (by decide +kernel)) (sizesOk_short _ _ (by decide +kernel)) _ _ _ (by simp [isDrawing]) hv
    (by
      rw [show slices unpaintedMsg = [c!"A", c!"[np]", c!"B", c!"[jl4]", c!"C"] by decide +kernel]
      repeat' first | exact Parses.nil | refine Parses.cons (by decide +kernel) ?_) xs ⟨hx, hn⟩
  exact ⟨xs, ys, zs, ⟨hx, hn⟩, hy, hz⟩

end Ntcip
