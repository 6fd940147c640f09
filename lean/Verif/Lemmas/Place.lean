import Verif.Lemmas.Fit
import Verif.Spec.Place
/-
Positions of text spans.
-/
namespace Ntcip
open Spec

theorem spanWidth_unique {t s w v} (h : SpanWidth t s w) (h' : SpanWidth t s v) : w = v := by
  obtain ⟨f, es, hf, hd, rfl⟩ := h
  obtain ⟨g, es', hg, hd', rfl⟩ := h'
  obtain rfl := fontOf_unique hf hg
  have : es.map some = es'.map some := by
    unfold Defined at hd hd'; rw [← hd, ← hd']
  rw [List.map_inj_right (fun a b h => by simpa using h)] at this
  rw [this]

theorem gap_unique {t p s g k} (h : Gap t p s g) (h' : Gap t p s k) : g = k := by
  unfold Gap at h h'
  split at h
  · rename_i c hc; rw [hc] at h'; simp only at h'; omega
  · rename_i hc
    rw [hc] at h'; simp only at h'
    obtain ⟨fp, fs, h1, h2, rfl⟩ := h
    obtain ⟨fp', fs', h1', h2', rfl⟩ := h'
    obtain rfl := fontOf_unique h2 h2'
    have : charSpacing p fp = charSpacing p fp' := by
      unfold charSpacing
      cases e : p.state.charSpacing with
      | some c => rfl
      | none => rw [fontOf_unique (h1 e) (h1' e)]
    rw [this]

theorem lineWidth_unique {t p ss n m} (h : LineWidth t p ss n) (h' : LineWidth t p ss m) : n = m := by
  induction h generalizing m with
  | nil => cases h'; rfl
  | first hw _ ih =>
    cases h' with
    | first hw' hl' => rw [spanWidth_unique hw hw', ih hl']
  | next hg hw _ ih =>
    cases h' with
    | next hg' hw' hl' => rw [gap_unique hg hg', spanWidth_unique hw hw', ih hl']

theorem lineWidth_append {t a l2 n1 n2} : ∀ {p l1}, LineWidth t p (l1 ++ [a]) n1 →
    LineWidth t (some a) l2 n2 → LineWidth t p (l1 ++ a :: l2) (n1 + n2) := by
  intro p l1 h1 h2
  induction l1 generalizing p n1 with
  | nil =>
    cases h1 with
    | first hw hl => cases hl; exact LineWidth.first hw h2
    | next hg hw hl =>
      cases hl; rw [Nat.add_zero]; exact LineWidth.next hg hw h2
  | cons b l1 ih =>
    cases h1 with
    | first hw hl => rw [Nat.add_assoc]; exact LineWidth.first hw (ih hl)
    | next hg hw hl => rw [Nat.add_assoc]; exact LineWidth.next hg hw (ih hl)

theorem lineWidth_split {t a l2 n} : ∀ {p l1}, LineWidth t p (l1 ++ a :: l2) n →
    ∃ n1 n2, LineWidth t p (l1 ++ [a]) n1 ∧ LineWidth t (some a) l2 n2 ∧ n = n1 + n2 := by
  intro p l1 h
  induction l1 generalizing p n with
  | nil =>
    cases h with
    | @first _ _ w n hw hl => exact ⟨w + 0, n, .first hw .nil, hl, rfl⟩
    | @next _ _ _ g w n hg hw hl => exact ⟨g + w + 0, n, .next hg hw .nil, hl, rfl⟩
  | cons b l1 ih =>
    cases h with
    | first hw hl =>
      obtain ⟨n1, n2, h1, h2, rfl⟩ := ih hl
      exact ⟨_, n2, .first hw h1, h2, by omega⟩
    | next hg hw hl =>
      obtain ⟨n1, n2, h1, h2, rfl⟩ := ih hl
      exact ⟨_, n2, .next hg hw h1, h2, by omega⟩

/-- all spans after the own one: nothing is before it -/
theorem hsum_after {t own prev ss b a} (h : HSum t own prev ss b a)
    (hpost : ∀ x ∈ ss, own < x.state.spanNumber) : b = 0 := by
  induction h with
  | nil => rfl
  | @first s ss w b a hw _ ih =>
    have := hpost s (List.mem_cons_self ..)
    rw [ih fun x hx => hpost x (List.mem_cons_of_mem _ hx), if_neg (by omega)]
  | @next p s ss g b a hg _ ih =>
    have := hpost s (List.mem_cons_self ..)
    rw [ih hpost, if_neg (by omega)]

theorem hsum_split {t own s post} : ∀ {pre prev b a}, HSum t own prev (pre ++ s :: post) b a →
    s.state.spanNumber = own → (∀ x ∈ pre, x.state.spanNumber < own) →
    (∀ x ∈ post, own < x.state.spanNumber) →
    ∃ w, SpanWidth t s w ∧ LineWidth t prev (pre ++ [s]) (b + w) := by
  intro pre
  induction pre with
  | nil =>
    intro prev b a h hs _ hpost
    have key : ∀ {b a}, HSum t own none (s :: post) b a → b = 0 ∧ ∃ w, SpanWidth t s w := by
      intro b a h
      cases h with
      | first hw hl =>
        rw [hsum_after hl hpost, if_neg (by omega)]
        exact ⟨rfl, _, hw⟩
    cases prev with
    | none =>
      obtain ⟨rfl, w, hw⟩ := key h
      refine ⟨w, hw, ?_⟩
      have := LineWidth.first hw (LineWidth.nil (t := t) (prev := some s))
      simpa using this
    | some p =>
      cases h with
      | @next _ _ _ g b a hg hl =>
        obtain ⟨rfl, w, hw⟩ := key hl
        refine ⟨w, hw, ?_⟩
        have := LineWidth.next hg hw (LineWidth.nil (t := t) (prev := some s))
        rw [if_pos (by omega)]
        simpa using this
  | cons c pre ih =>
    intro prev b a h hs hpre hpost
    have hc := hpre c (List.mem_cons_self ..)
    have key : ∀ {b a}, HSum t own none (c :: (pre ++ s :: post)) b a →
        ∃ w v n, SpanWidth t s w ∧ SpanWidth t c v ∧ LineWidth t (some c) (pre ++ [s]) (n + w) ∧ b = v + n := by
      intro b a h
      cases h with
      | @first _ _ v b a hw hl =>
        obtain ⟨w, h1, h2⟩ := ih hl hs (fun x hx => hpre x (List.mem_cons_of_mem _ hx)) hpost
        rw [if_pos hc]
        exact ⟨w, v, b, h1, hw, h2, by omega⟩
    cases prev with
    | none =>
      obtain ⟨w, v, n, hw, hv, hl, rfl⟩ := key h
      refine ⟨w, hw, ?_⟩
      rw [Nat.add_assoc]
      exact LineWidth.first hv hl
    | some p =>
      cases h with
      | @next _ _ _ g b a hg hl =>
        obtain ⟨w, v, n, hw, hv, hl', rfl⟩ := key hl
        refine ⟨w, hw, ?_⟩
        rw [if_pos (by omega)]
        have := LineWidth.next hg hv hl'
        have e : v + n + g + w = g + v + (n + w) := by omega
        rw [e]; exact this

theorem ordered_sameLine {spans s} (h : Ordered spans) :
    (sameLine spans s).Pairwise fun a b => a.state.spanNumber < b.state.spanNumber := by
  unfold sameLine
  have h1 := h.filter (fun x => decide (x.state.justPage = s.state.justPage ∧
    x.state.lineNumber = s.state.lineNumber ∧ x.state.justLine = s.state.justLine))
  refine h1.imp_of_mem ?_
  intro a b ha hb hab
  rw [List.mem_filter] at ha hb
  simp only [decide_eq_true_eq] at ha hb
  exact hab (by rw [ha.2.1, hb.2.1]) (by rw [ha.2.2.1, hb.2.2.1]) (by rw [ha.2.2.2, hb.2.2.2])

theorem offsetHoriz_before {d spans s b a pre post} (ho : Ordered spans)
    (h : offsetHoriz d spans s = .ok (b, a)) (e : sameLine spans s = pre ++ s :: post) :
    Before d.fontDefinition pre s b ∧ LineWidth d.fontDefinition none (sameLine spans s) (b + a) ∧
      b + a ≤ s.state.textRectangle.width.toNat := by
  obtain ⟨h1, h2⟩ := offsetHoriz_ok h
  refine ⟨?_, hsum_lineWidth h1, h2⟩
  have hp := ordered_sameLine (s := s) ho
  rw [e] at h1 hp
  rw [List.pairwise_append, List.pairwise_cons] at hp
  obtain ⟨w, hw, hl⟩ := hsum_split h1 rfl (fun x hx => hp.2.2 x hx s (List.mem_cons_self ..)) (fun x hx => hp.2.1.1 x hx)
  exact ⟨w, hw, hl⟩

theorem cellEdge_eq (c x : Nat) : x / c * c = cellEdge c x := by
  unfold cellEdge
  have := Nat.div_add_mod x c
  rw [Nat.mul_comm] at this; omega

/-- the horizontal position of a span is that of the specification -/
theorem spanX_at {d spans s x} (ho : Ordered spans) (hs : s ∈ spans) (h : spanX d spans s = .ok x) :
    AtX d spans s x := by
  obtain ⟨pre, post, e⟩ := List.append_of_mem (mem_sameLine hs)
  unfold spanX at h
  split at h
  · rename_i hj
    unfold spanXLeft at h
    simp only [Out.bind_eq_ok, Out.ofRes_eq_ok, chk16_ok, sub16_ok] at h
    obtain ⟨l, ⟨hl, rfl⟩, ⟨b, a⟩, h1, rfl, h2⟩ := h
    obtain ⟨h3, h4, h5⟩ := offsetHoriz_before ho h1 e
    refine ⟨pre, post, b, b + a, e, h3, h4, h5, ?_⟩
    rw [hj]; simp [lineLeft]
  · rename_i hj
    unfold spanXCenter at h; simp only [cellWidth_eq] at h
    simp only [Out.bind_eq_ok, Out.ofRes_eq_ok, chk16_ok, sub16_ok] at h
    obtain ⟨l, ⟨hl, rfl⟩, ⟨b, a⟩, h1, t1, ⟨h2, rfl⟩, t2, ⟨h3, rfl⟩, t3, ⟨rfl, h4⟩, t4, ⟨rfl, h5⟩, rfl, h6⟩ := h
    obtain ⟨h7, h8, h9⟩ := offsetHoriz_before ho h1 e
    refine ⟨pre, post, b, b + a, e, h7, h8, h9, ?_⟩
    rw [hj, if_pos rfl, cellEdge_eq]
    simp only [lineLeft]
    rw [Nat.sub_sub]
  · rename_i hj
    unfold spanXRight at h
    simp only [Out.bind_eq_ok, Out.ofRes_eq_ok, chk16_ok, sub16_ok] at h
    obtain ⟨l, ⟨hl, rfl⟩, ⟨b, a⟩, h1, t1, ⟨rfl, h2⟩, h3, rfl⟩ := h
    obtain ⟨h7, h8, h9⟩ := offsetHoriz_before ho h1 e
    refine ⟨pre, post, b, b + a, e, h7, h8, h9, ?_⟩
    rw [hj, if_neg (by decide)]
    simp only [lineLeft]
    omega
  · simp at h

theorem offsetVert_lines {d spans s n a b} (hd : Dense 0 (samePage spans s) n) (hs : s ∈ spans)
    (h : offsetVert d spans s = .ok (a, b)) :
    a = linesHeight (decide (d.vmsCfg.charHeightPixels = 0)) d.fontDefinition (samePage spans s) s.state.lineNumber ∧
    a + b = linesHeight (decide (d.vmsCfg.charHeightPixels = 0)) d.fontDefinition (samePage spans s) (n - 1) ∧
    a + b ≤ s.state.textRectangle.height.toNat := by
  obtain ⟨ls, h1, h2, h3, h4⟩ := offsetVert_ok h
  have hf : ∀ x ∈ samePage spans s, ∃ f, FontOf d.fontDefinition x f := fun x hx => by
    obtain ⟨f, hf, _⟩ := textLines_own h1 hx; exact ⟨f, hf⟩
  rw [textLines_spec hd hf, Out.ok.injEq] at h1
  subst h1
  obtain ⟨v1, v2, v3⟩ := vSum_zero (full := decide (d.vmsCfg.charHeightPixels = 0)) (t := d.fontDefinition)
    (ss := samePage spans s) ((dense_lt hd).2 s (mem_samePage hs))
  rw [v1] at h2
  rw [v2] at h3
  omega

/-- the vertical position of a span is that of the specification -/
theorem spanY_at {d spans s y} (hd : ∃ n, Dense 0 (samePage spans s) n) (hs : s ∈ spans)
    (h : spanY d spans s = .ok y) : AtY d spans s y := by
  obtain ⟨n, hd⟩ := hd
  unfold spanY at h
  simp only [Out.bind_eq_ok, Out.ofRes_eq_ok, sub16_ok, height_ok] at h
  obtain ⟨bl, h, hh, ⟨f, hf, rfl⟩, hb, rfl⟩ := h
  unfold baseline at h
  split at h
  · rename_i hj
    unfold baselineTop at h
    simp only [Out.bind_eq_ok, Out.ofRes_eq_ok, chk16_ok, sub16_ok] at h
    obtain ⟨l, ⟨hl, rfl⟩, ⟨a, b⟩, h1, rfl, h2⟩ := h
    obtain ⟨e1, e2, e3⟩ := offsetVert_lines hd hs h1
    refine ⟨f, n, _, hf, hd, rfl, by omega, ?_⟩
    rw [hj, if_neg (by decide), ← e1]
    simp only [linesTop]
    omega
  · rename_i hj
    unfold baselineMiddle at h; simp only [cellHeight_eq] at h
    simp only [Out.bind_eq_ok, Out.ofRes_eq_ok, chk16_ok, sub16_ok] at h
    obtain ⟨l, ⟨hl, rfl⟩, ⟨a, b⟩, h1, t1, ⟨h2, rfl⟩, t2, ⟨h3, rfl⟩, t3, ⟨rfl, h6⟩, t4, ⟨rfl, h7⟩, rfl, h8⟩ := h
    obtain ⟨e1, e2, e3⟩ := offsetVert_lines hd hs h1
    refine ⟨f, n, _, hf, hd, rfl, by omega, ?_⟩
    rw [hj, if_pos rfl, ← e1, ← e2, ← cellEdge_eq]
    simp only [linesTop]
    rw [← Nat.sub_sub]
    dsimp only at *
    omega
  · rename_i hj
    unfold baselineBottom at h
    simp only [Out.bind_eq_ok, Out.ofRes_eq_ok, chk16_ok, sub16_ok] at h
    obtain ⟨l, ⟨hl, rfl⟩, ⟨a, b⟩, h1, t, ⟨rfl, h2⟩, h3, rfl⟩ := h
    obtain ⟨e1, e2, e3⟩ := offsetVert_lines hd hs h1
    refine ⟨f, n, _, hf, hd, rfl, by omega, ?_⟩
    rw [hj, if_neg (by decide), ← e1, ← e2]
    simp only [linesTop]
    dsimp only at *
    omega
  · simp at h

/-! ### pixels of text -/

/-- `TextLit` for the characters `es` after the characters `done` -/
def LitFrom (cs h x y : Nat) (done es : List CharacterEntry) (i j : Nat) : Prop :=
  ∃ before e after row col, es = before ++ e :: after ∧ row < h ∧ col < e.width.toNat ∧
    bit e.bitmap (row * e.width.toNat + col) = true ∧
    i = x + advance cs ((done ++ before).map (·.width.toNat)) +
      (if 0 < ((done ++ before).map (·.width.toNat)).sum then cs else 0) + col ∧
    j = y + row

theorem litFrom_nil (es cs h x y i j) : LitFrom cs h x y [] es i j ↔ TextLit es cs h x y i j := Iff.rfl

theorem litFrom_cons (cs h x y done e es i j) : LitFrom cs h x y done (e :: es) i j ↔
    (∃ row col, row < h ∧ col < e.width.toNat ∧ bit e.bitmap (row * e.width.toNat + col) = true ∧
      i = x + advance cs (done.map (·.width.toNat)) +
        (if 0 < (done.map (·.width.toNat)).sum then cs else 0) + col ∧ j = y + row) ∨
    LitFrom cs h x y (done ++ [e]) es i j := by
  constructor
  · rintro ⟨before, e', after, row, col, h1, h2, h3, h4, h5, h6⟩
    cases before with
    | nil =>
      simp only [List.nil_append, List.cons.injEq] at h1
      obtain ⟨rfl, rfl⟩ := h1
      exact .inl ⟨row, col, h2, h3, h4, by simpa using h5, h6⟩
    | cons b before =>
      simp only [List.cons_append, List.cons.injEq] at h1
      obtain ⟨rfl, rfl⟩ := h1
      exact .inr ⟨before, e', after, row, col, rfl, h2, h3, h4, by simpa using h5, h6⟩
  · rintro (⟨row, col, h2, h3, h4, h5, h6⟩ | ⟨before, e', after, row, col, h1, h2, h3, h4, h5, h6⟩)
    · exact ⟨[], e, es, row, col, rfl, h2, h3, h4, by simpa using h5, h6⟩
    · exact ⟨e :: before, e', after, row, col, by rw [h1]; rfl, h2, h3, h4, by simpa using h5, h6⟩

theorem renderTextLoop_exact (f : Font) (hf : FontOk f) (x y cs : Nat) (cf : Rgb) (text : Str)
    (hn : ∀ ch ∈ text, ch.toNat ≠ 0) (es : List CharacterEntry) (h : Defined f text es)
    (done : List CharacterEntry) (page : Raster)
    (hw : x + advance cs ((done ++ es).map (·.width.toNat)) ≤ page.width)
    (hh : y + f.height.toNat ≤ page.height) :
    ∃ r, Font.renderTextLoop f x y cs cf page (advance cs (done.map (·.width.toNat))) text = .ok r ∧
      r.width = page.width ∧ r.height = page.height ∧
      ∀ i j, (LitFrom cs f.height.toNat x y done es i j → r.px i j = cf) ∧
        (¬ LitFrom cs f.height.toNat x y done es i j → r.px i j = page.px i j) := by
  induction text generalizing es done page with
  | nil =>
    have : es = [] := by cases es with | nil => rfl | cons => simp [Defined] at h
    subst this
    refine ⟨page, rfl, rfl, rfl, fun i j => ⟨?_, fun _ => rfl⟩⟩
    rintro ⟨before, e, after, _, _, h1, _⟩
    simp at h1
  | cons ch text ih =>
    cases es with
    | nil => simp [Defined] at h
    | cons e es =>
      simp only [Defined, List.map_cons, List.cons.injEq] at h
      have e1 : done ++ e :: es = (done ++ [e]) ++ es := by simp
      rw [e1] at hw
      have e2 : (done ++ [e]).map (·.width.toNat) = done.map (·.width.toNat) ++ [e.width.toNat] := by simp
      have hle := advance_append_le cs (done.map (·.width.toNat) ++ [e.width.toNat]) (es.map (·.width.toNat))
      rw [List.map_append, e2] at hw
      have hs := advance_snoc cs (done.map (·.width.toNat)) e.width.toNat
      have hb := C28_valid_fonts f hf ch (hn ch (List.mem_cons_self ..)) e h.1
      have key : (if 0 < advance cs (done.map (·.width.toNat)) then advance cs (done.map (·.width.toNat)) + cs
          else advance cs (done.map (·.width.toNat))) = advance cs (done.map (·.width.toNat)) +
          (if 0 < (done.map (·.width.toNat)).sum then cs else 0) := by
        simp only [advance_pos]; split <;> omega
      rw [Font.renderTextLoop, h.1]
      dsimp only
      simp only [gt_iff_lt, key]
      generalize hxx : advance cs (done.map (·.width.toNat)) +
          (if 0 < (done.map (·.width.toNat)).sum then cs else 0) = xx at hs ⊢
      obtain ⟨r1, hr1, w1, w2, lit1, unlit1⟩ := C28_glyph_drawing e page (x + xx) y f.height.toNat cf hb
        (by intro row col h1 h2 _; omega)
      rw [hr1, ← hs, ← e2]
      simp only [Out.ofRes_ok, Out.ok_bind]
      obtain ⟨r, hr, w3, w4, hpx⟩ := ih (fun c hc => hn c (List.mem_cons_of_mem _ hc)) es h.2 (done ++ [e]) r1
        (by rw [List.map_append, e2]; omega) (by omega)
      refine ⟨r, hr, by omega, by omega, fun i j => ?_⟩
      rw [litFrom_cons]
      by_cases h2 : LitFrom cs f.height.toNat x y (done ++ [e]) es i j
      · exact ⟨fun _ => (hpx i j).1 h2, fun hc => absurd (.inr h2) hc⟩
      · rw [(hpx i j).2 h2]
        constructor
        · rintro (⟨row, col, a1, a2, a3, rfl, rfl⟩ | hc)
          · have := lit1 row col a1 a2 (by rw [isPixelLit_eq]; simp [a2, a3])
            rw [← this]; congr 1; omega
          · exact absurd hc h2
        · intro hc
          refine unlit1 i j fun row col a1 a2 a3 a4 => hc (.inl ⟨row, col, a1, a2, ?_, ?_, a4.2⟩)
          · rw [isPixelLit_eq] at a3; simpa [a2] using a3
          · rw [a4.1]; omega

/-- drawing text lights exactly the pixels of its characters -/
theorem renderText_exact (f : Font) (hf : FontOk f) (x y cs : Nat) (cf : Rgb) (text : Str)
    (hn : ∀ ch ∈ text, ch.toNat ≠ 0) (es : List CharacterEntry) (h : Defined f text es)
    (page : Raster) (hw : x + advance cs (es.map (·.width.toNat)) ≤ page.width)
    (hh : y + f.height.toNat ≤ page.height) :
    ∃ r, f.renderText page text x y cs cf = .ok r ∧ r.width = page.width ∧ r.height = page.height ∧
      ∀ i j, (TextLit es cs f.height.toNat x y i j → r.px i j = cf) ∧
        (¬ TextLit es cs f.height.toNat x y i j → r.px i j = page.px i j) :=
  renderTextLoop_exact f hf x y cs cf text hn es h [] page (by simpa using hw) hh

theorem split_unique {l pre post pre' post' : List Span} {s : Span} (h : l = pre ++ s :: post)
    (h' : l = pre' ++ s :: post')
    (hp : l.Pairwise fun a b => a.state.spanNumber < b.state.spanNumber) : pre = pre' := by
  induction l generalizing pre pre' with
  | nil => simp at h
  | cons a l ih =>
    rw [List.pairwise_cons] at hp
    cases pre with
    | nil =>
      cases pre' with
      | nil => rfl
      | cons b pre' =>
        simp only [List.nil_append, List.cons.injEq, List.cons_append] at h h'
        obtain ⟨rfl, rfl⟩ := h
        have := hp.1 a (by rw [h'.2]; simp)
        omega
    | cons c pre =>
      cases pre' with
      | nil =>
        simp only [List.nil_append, List.cons.injEq, List.cons_append] at h h'
        obtain ⟨rfl, rfl⟩ := h'
        have := hp.1 a (by rw [h.2]; simp)
        omega
      | cons b pre' =>
        simp only [List.cons.injEq, List.cons_append] at h h'
        rw [← h.1, ← h'.1, ih h.2 h'.2 hp.2]

theorem before_unique {t pre s n m} (h : Before t pre s n) (h' : Before t pre s m) : n = m := by
  obtain ⟨w, hw, hl⟩ := h
  obtain ⟨v, hv, hl'⟩ := h'
  obtain rfl := spanWidth_unique hw hv
  have := lineWidth_unique hl hl'
  omega

theorem atX_unique {d spans s x x'} (ho : Ordered spans) (h : AtX d spans s x) (h' : AtX d spans s x') :
    x = x' := by
  obtain ⟨pre, post, n, total, e, hb, hl, _, rfl⟩ := h
  obtain ⟨pre', post', n', total', e', hb', hl', _, rfl⟩ := h'
  obtain rfl := split_unique e e' (ordered_sameLine ho)
  rw [before_unique hb hb', lineWidth_unique hl hl']

theorem dense_unique {k ss n m} (h : Dense k ss n) (h' : Dense k ss m) : n = m := by
  induction h with
  | nil => cases h'; rfl
  | old hl _ ih =>
    cases h' with
    | old _ h => exact ih h
    | new hl' _ => omega
  | new hl _ ih =>
    cases h' with
    | old hl' _ => omega
    | new _ h => exact ih h

theorem atY_unique {d spans s y y'} (h : AtY d spans s y) (h' : AtY d spans s y') : y = y' := by
  obtain ⟨f, m, total, hf, hd, rfl, _, e⟩ := h
  obtain ⟨f', m', total', hf', hd', rfl, _, e'⟩ := h'
  obtain rfl := fontOf_unique hf hf'
  obtain rfl := dense_unique hd hd'
  dsimp only at e e'
  omega

theorem defined_unique {f text es es'} (h : Defined f text es) (h' : Defined f text es') : es = es' := by
  have : es.map some = es'.map some := by
    unfold Defined at h h'; rw [← h, ← h']
  rwa [List.map_inj_right (fun a b h => by simpa using h)] at this

/-- no span is below its text rectangle -/
theorem spanY_bottom {d spans s y} (h : spanY d spans s = .ok y) :
    ∃ f, FontOf d.fontDefinition s f ∧
      y + f.height.toNat ≤ s.state.textRectangle.y.toNat - 1 + s.state.textRectangle.height.toNat := by
  unfold spanY at h
  simp only [Out.bind_eq_ok, Out.ofRes_eq_ok, sub16_ok, height_ok] at h
  obtain ⟨bl, h, hh, ⟨f, hf, rfl⟩, hb, rfl⟩ := h
  unfold baseline at h
  split at h
  · unfold baselineTop at h
    simp only [Out.bind_eq_ok, Out.ofRes_eq_ok, chk16_ok, sub16_ok] at h
    obtain ⟨l, ⟨hl, rfl⟩, ⟨a, b⟩, h1, rfl, h2⟩ := h
    obtain ⟨-, -, -, -, h4⟩ := offsetVert_ok h1
    dsimp only at *
    exact ⟨f, hf, by omega⟩
  · rename_i hj
    unfold baselineMiddle at h; simp only [cellHeight_eq] at h
    simp only [Out.bind_eq_ok, Out.ofRes_eq_ok, chk16_ok, sub16_ok] at h
    obtain ⟨l, ⟨hl, rfl⟩, ⟨a, b⟩, h1, t1, ⟨h2, rfl⟩, t2, ⟨h3, rfl⟩, t3, ⟨rfl, h6⟩, t4, ⟨rfl, h7⟩, rfl, h8⟩ := h
    obtain ⟨-, -, -, -, h4⟩ := offsetVert_ok h1
    dsimp only at *
    have hle := Nat.div_mul_le_self (s.state.textRectangle.y.toNat - 1 +
        (s.state.textRectangle.height.toNat - a - b) / 2 + a) (signCellHeight d)
    exact ⟨f, hf, by omega⟩
  · unfold baselineBottom at h
    simp only [Out.bind_eq_ok, Out.ofRes_eq_ok, chk16_ok, sub16_ok] at h
    obtain ⟨l, ⟨hl, rfl⟩, ⟨a, b⟩, h1, t, ⟨rfl, h2⟩, h3, rfl⟩ := h
    dsimp only at *
    exact ⟨f, hf, by omega⟩
  · simp at h

/-- drawing a span changes exactly the pixels it lights -/
theorem spanText_exact {d : Dms} {spans : List Span} {s : Span} {page : Raster} {x y : Nat} {f : Font}
    {r : Raster} (ho : Ordered spans) (hdense : ∃ n, Dense 0 (samePage spans s) n)
    (hs : s ∈ spans) (hx : spanX d spans s = .ok x) (hy : spanY d spans s = .ok y)
    (hf : s.state.font d.fontDefinition = .ok f)
    (hr : s.renderText page f x y = .ok r)
    (fok : FontOk f) (hn : ∀ ch ∈ s.str, ch.toNat ≠ 0)
    (ha : Aligned d s.state.textRectangle) (hi : RectIn s.state.textRectangle page.width page.height) :
    r.width = page.width ∧ r.height = page.height ∧
      ∀ i j, (Lights d spans s i j → r.px i j = s.state.colorCtx.foregroundRgb) ∧
        (¬ Lights d spans s i j → r.px i j = page.px i j) := by
  obtain ⟨w, ⟨f1, es, hf1, hd, rfl⟩, x1, x2, x3⟩ := spanX_inside hx hs ha.x
  obtain ⟨f2, hf2, y3⟩ := spanY_bottom hy
  have hf := font_ok.1 hf
  obtain rfl := fontOf_unique hf hf1
  obtain rfl := fontOf_unique hf hf2
  have hcs : s.charSpacingFont f = charSpacing s f := by
    unfold Span.charSpacingFont charSpacing
    split <;> rename_i h <;> simp [h]
  have h1 := hi.right
  have h2 := hi.bottom
  obtain ⟨r', hr', w1, w2, hpx⟩ := renderText_exact f fok x y (charSpacing s f) s.state.colorCtx.foregroundRgb
    s.str hn es hd page (by omega) (by omega)
  unfold Span.renderText at hr
  rw [hcs, hr'] at hr
  simp only [Out.mapErr_ok, Out.ok.injEq] at hr
  subst hr
  refine ⟨w1, w2, fun i j => ?_⟩
  have key : Lights d spans s i j ↔ TextLit es (charSpacing s f) f.height.toNat x y i j := by
    constructor
    · rintro ⟨x', y', f', es', hx', hy', hf', hd', hl⟩
      obtain rfl := fontOf_unique hf hf'
      obtain rfl := defined_unique hd hd'
      obtain rfl := atX_unique ho (spanX_at ho hs hx) hx'
      obtain rfl := atY_unique (spanY_at hdense hs hy) hy'
      exact hl
    · intro hl
      exact ⟨x, y, f, es, spanX_at ho hs hx, spanY_at hdense hs hy, hf, hd, hl⟩
  rw [key]
  exact hpx i j

theorem renderSpansLoop_exact {d : Dms} {spans ss : List Span} {page r : Raster} {rect : Rectangle}
    (ho : Ordered spans) (hdense : AllDense spans)
    (h : renderSpansLoop d spans ss page = .ok r) (hsub : ∀ s ∈ ss, s ∈ spans)
    (hf : ∀ s ∈ spans, ∀ f, FontOf d.fontDefinition s f → FontOk f)
    (hn : ∀ s ∈ spans, ∀ ch ∈ s.str, ch.toNat ≠ 0)
    (hr : ∀ s ∈ spans, s.state.textRectangle = rect)
    (ha : Aligned d rect) (hi : RectIn rect page.width page.height) :
    TextOn d spans ss page r := by
  induction ss generalizing page with
  | nil =>
    simp only [renderSpansLoop, Out.ok.injEq] at h
    subst h
    exact ⟨rfl, rfl, fun l1 s l2 i j e => by simp at e, fun _ _ _ => rfl⟩
  | cons s ss ih =>
    simp only [renderSpansLoop, Out.bind_eq_ok] at h
    obtain ⟨x, hx, y, hy, f, hff, r1, hr1, h⟩ := h
    have hs := hsub s (List.mem_cons_self ..)
    have e := hr s hs
    obtain ⟨w1, w2, c1⟩ := spanText_exact ho (hdense s hs) hs hx hy hff hr1 (hf s hs f (font_ok.1 hff)) (hn s hs)
      (by rw [e]; exact ha) (by rw [e]; exact hi)
    have c2 := ih h (fun s hs => hsub s (List.mem_cons_of_mem _ hs)) (by rw [w1, w2]; exact hi)
    refine ⟨c2.width.trans w1, c2.height.trans w2, ?_, ?_⟩
    · intro l1 s' l2 i j e hl hlater
      cases l1 with
      | nil =>
        simp only [List.nil_append, List.cons.injEq] at e
        obtain ⟨rfl, rfl⟩ := e
        rw [c2.unlit i j hlater]
        exact (c1 i j).1 hl
      | cons a l1 =>
        simp only [List.cons_append, List.cons.injEq] at e
        exact c2.lit l1 s' l2 i j e.2 hl hlater
    · intro i j hno
      rw [c2.unlit i j fun s hs => hno s (List.mem_cons_of_mem _ hs)]
      exact (c1 i j).2 (hno s (List.mem_cons_self ..))

end Ntcip
