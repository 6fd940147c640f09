import Verif.Lemmas.Pad
import Verif.Props.Places
import Verif.Spec.Sequel
/-
C137: blanks at the free ends of lines are not seen.
-/
namespace Ntcip
open Spec Tests

/-- **C137** Two shown messages with the same tags, and any other texts: pixels differ only where they are lit, in one of the two,
by a text which is moved by another text of its line, or which is another one itself, not only by blank characters after text at the
left or before text at the right. -/
theorem C137_seen (d : Dms) (hf : FontsOk d.fontDefinition) (h0 : 1 ≤ d.multiCfg.defaultFont.toNat)
    (hw : WideChars d.fontDefinition) (W H : Nat)
    (hg : GraphicsOk W H d.graphicDefinition) (ms ms' : Str) (vs vs' : List Value) (hv : Parses (slices ms) vs)
    (hv' : Parses (slices ms') vs') (hr : Pairwise2 Reworded vs vs') (xs xs') (hx : ShownAs d ms xs) (hx' : ShownAs d ms' xs') :
    SameBut d (fun i j t sp rect ws ws' => SeenPlaces d t sp rect ws ws' i j) (signAttr d) xs xs'
      (splitPages vs) (splitPages vs') := by
  obtain ⟨us, hu, hp⟩ := C92_pictures d hf h0 W H hg ms xs hx.1 hx.2
  obtain rfl := parses_unique hv hu
  obtain ⟨us', hu', hp'⟩ := C92_pictures d hf h0 W H hg ms' xs' hx'.1 hx'.2
  obtain rfl := parses_unique hv' hu'
  exact pictured_sameBut hg.numbers (textDrawn_pad hw) (splitPages_reduced (reworded_all hr))
    (fun p hpp v hm => parses_inRange hv (slices_items ms) v (splitPages_mem p hpp v hm)) hp hp'

/-- the texts of a text rectangle, with their numbers -/
def numberedPieces (dflt : TextAttr) : TextAttr → Option UInt8 → Nat → Nat → Bool → List Value → List (Piece × Nat)
  | _, _, _, _, _, [] => []
  | a, sp, n, c, b, v :: vs => (piece a sp n b v).map (·, c) ++ numberedPieces dflt (TextAttr.apply dflt a v) (spacingAfter sp v)
      (lineAfter dflt a n v) (numberAfter dflt a c v) (blankAfter b v) vs

theorem numbered_zip {dflt : TextAttr} {α : Type} (g : Piece → Nat → α) (vs : List Value) : ∀ {a sp n c b},
    List.zipWith g (pieces dflt a sp n b vs) (numbers dflt a c b vs) =
      (numberedPieces dflt a sp n c b vs).map fun q => g q.1 q.2 := by
  induction vs with
  | nil => intro a sp n c b; rfl
  | cons v vs ih =>
    intro a sp n c b
    unfold pieces numbers numberedPieces
    rw [List.map_append, ← ih, List.zipWith_append]
    · congr 1
      unfold piece
      split <;> first | rfl | (split <;> rfl)
    · unfold piece
      split <;> first | rfl | (split <;> rfl)

theorem numberedLayout_eq {d : Dms} {t sp rect ws} : numberedLayout d t sp rect ws =
    (numberedPieces (signAttr d) t sp 0 0 true ws).map fun q =>
      { spanOf d rect q.1 with state := { (spanOf d rect q.1).state with spanNumber := q.2 } } := by
  unfold numberedLayout layoutOf
  rw [← numbered_zip (fun p n => ({ spanOf d rect p with state := { (spanOf d rect p).state with spanNumber := n } } : Span)),
    List.zipWith_map_left]

/-- later texts are on later lines, or have larger numbers -/
theorem numbered_bounds {dflt : TextAttr} {vs : List Value} : ∀ {a sp n c b}, (∀ v ∈ vs, NoJust v) →
    ∀ q ∈ numberedPieces dflt a sp n c b vs, n ≤ q.1.line ∧ (q.1.line = n → c ≤ q.2) ∧ q.1.attr.justLine = a.justLine := by
  induction vs with
  | nil => intro a sp n c b _ q hq; cases hq
  | cons v vs ih =>
    intro a sp n c b hv q hq
    unfold numberedPieces at hq
    rcases List.mem_append.1 hq with hq | hq
    · obtain ⟨p, hp, rfl⟩ := List.mem_map.1 hq
      unfold piece at hp
      split at hp
      · rw [List.mem_singleton] at hp; subst hp; exact ⟨Nat.le_refl _, fun _ => Nat.le_refl _, rfl⟩
      · rw [List.mem_singleton] at hp; subst hp; exact ⟨Nat.le_refl _, fun _ => Nat.le_refl _, rfl⟩
      · split at hp
        · rw [List.mem_singleton] at hp; subst hp; exact ⟨Nat.le_refl _, fun _ => Nat.le_refl _, rfl⟩
        · cases hp
      · cases hp
    · obtain ⟨h1, h2, h3⟩ := ih (fun v hm => hv v (List.mem_cons_of_mem _ hm)) q hq
      have hn := hv v (List.mem_cons_self ..)
      cases v with
      | justificationLine j => exact absurd rfl (hn.1 j)
      | justificationPage j => exact absurd rfl (hn.2 j)
      | newLine s =>
        have h1 : n + 1 ≤ q.1.line := h1
        exact ⟨by omega, fun h => by omega, h3⟩
      | text s => exact ⟨h1, fun h => Nat.le_of_succ_le (h2 h), h3⟩
      | hexadecimalCharacter s => exact ⟨h1, fun h => Nat.le_of_succ_le (h2 h), h3⟩
      | font f => cases f <;> exact ⟨h1, h2, h3⟩
      | _ => exact ⟨h1, h2, h3⟩

/-- texts after the end of a line are on later lines -/
theorem numbered_after {dflt : TextAttr} {vs : List Value} {a sp n c} (hv : ∀ v ∈ vs, NoJust v) (he : EndsLine vs)
    (hp : Value.newPage ∉ vs) (hr : ∀ r, Value.textRectangle r ∉ vs) :
    ∀ q ∈ numberedPieces dflt a sp n c false vs, n < q.1.line := by
  intro q hq
  cases vs with
  | nil => cases hq
  | cons v vs =>
    cases v with
    | newLine s =>
      unfold numberedPieces at hq
      rcases List.mem_append.1 hq with hq | hq
      · cases hq
      · exact (numbered_bounds (fun v hm => hv v (List.mem_cons_of_mem _ hm)) q hq).1
    | newPage => exact absurd (List.mem_cons_self ..) hp
    | textRectangle r => exact absurd (List.mem_cons_self ..) (hr r)
    | _ => exact he.elim

/-- a text which is another one has more characters at its end, and is the last one of its line -/
theorem padded_last {dflt : TextAttr} {B vs vs'} (h : PaddedLines B vs vs') : ∀ {a sp n c b}, (∀ v ∈ vs, NoJust v) →
    Value.newPage ∉ vs → (∀ r, Value.textRectangle r ∉ vs) → ∀ {m : Nat} {u u' : Piece × Nat},
    (numberedPieces dflt a sp n c b vs)[m]? = some u → (numberedPieces dflt a sp n c b vs')[m]? = some u' → u.1.str ≠ u'.1.str →
    (∃ b, u'.1.str = u.1.str ++ b ∧ ∀ ch ∈ b, B ch) ∧ ∀ (k : Nat) (s : Piece × Nat), k ≠ m →
      (numberedPieces dflt a sp n c b vs)[k]? = some s →
      s.1.line = u.1.line → s.2 < u.2 := by
  have head : ∀ {a : TextAttr} {sp n c b} {v : Value}, (piece a sp n b v).map (·, c) = [] ∨
      ∃ p, (piece a sp n b v).map (·, c) = [(p, c)] ∧ p.line = n ∧
        ((lineAfter dflt a n v = n ∧ numberAfter dflt a c v = c + 1) ∨ lineAfter dflt a n v = n + 1) := by
    intro a sp n c b v
    unfold piece
    split
    · exact .inr ⟨_, rfl, rfl, .inl ⟨rfl, rfl⟩⟩
    · exact .inr ⟨_, rfl, rfl, .inl ⟨rfl, rfl⟩⟩
    · split
      · exact .inr ⟨_, rfl, rfl, .inr rfl⟩
      · exact .inl rfl
    · exact .inl rfl
  induction h with
  | nil => intro a sp n c b _ _ _ m u u' h1; simp [numberedPieces] at h1
  | @keep v vs vs' _ ih =>
    intro a sp n c b hv hp hr m u u' h1 h2 hne
    have hv' := fun w hm => hv w (List.mem_cons_of_mem v hm)
    have ih := fun {m u u'} => @ih (TextAttr.apply dflt a v) (spacingAfter sp v) (lineAfter dflt a n v) (numberAfter dflt a c v)
      (blankAfter b v) hv' (fun hm => hp (List.mem_cons_of_mem v hm)) (fun r hm => hr r (List.mem_cons_of_mem v hm)) m u u'
    have bd := numbered_bounds (dflt := dflt) (a := TextAttr.apply dflt a v) (sp := spacingAfter sp v)
      (n := lineAfter dflt a n v) (c := numberAfter dflt a c v) (b := blankAfter b v) hv'
    unfold numberedPieces at h1 h2 ⊢
    rcases head (a := a) (sp := sp) (n := n) (c := c) (b := b) (v := v) with e | ⟨p, e, el, hl⟩
    · rw [e, List.nil_append] at h1 h2
      simp only [e, List.nil_append]
      exact ih h1 h2 hne
    · rw [e, List.singleton_append] at h1 h2
      simp only [e, List.singleton_append]
      cases m with
      | zero =>
        simp only [List.getElem?_cons_zero, Option.some.injEq] at h1 h2
        subst h1; subst h2
        exact absurd rfl hne
      | succ m =>
        rw [List.getElem?_cons_succ] at h1 h2
        obtain ⟨r1, r2⟩ := ih h1 h2 hne
        refine ⟨r1, fun k s hk h3 h4 => ?_⟩
        cases k with
        | zero =>
          simp only [List.getElem?_cons_zero, Option.some.injEq] at h3
          subst h3
          obtain ⟨b1, b2, _⟩ := bd u (List.mem_of_getElem? h1)
          simp only at h4 ⊢
          rcases hl with ⟨l1, l2⟩ | l1
          · rw [l1, l2] at b2
            have := b2 (by omega)
            omega
          · omega
        | succ k =>
          rw [List.getElem?_cons_succ] at h3
          exact r2 k s (by omega) h3 h4
  | @pad x y vs vs' he hy _ ih =>
    intro a sp n c b hv hp hr m u u' h1 h2 hne
    have hv' := fun w hm => hv w (List.mem_cons_of_mem (Value.text x) hm)
    have hp' := fun hm => hp (List.mem_cons_of_mem (Value.text x) hm)
    have hr' := fun r hm => hr r (List.mem_cons_of_mem (Value.text x) hm)
    have ih := fun {m u u'} => @ih a sp n (c + 1) false hv' hp' hr' m u u'
    change ((⟨⟨a, sp, n, x⟩, c⟩ : Piece × Nat) :: numberedPieces dflt a sp n (c + 1) false vs)[m]? = some u at h1
    change ((⟨⟨a, sp, n, x ++ y⟩, c⟩ : Piece × Nat) :: numberedPieces dflt a sp n (c + 1) false vs')[m]? = some u' at h2
    change _ ∧ ∀ k s, k ≠ m → ((⟨⟨a, sp, n, x⟩, c⟩ : Piece × Nat) :: numberedPieces dflt a sp n (c + 1) false vs)[k]? = some s → _
    have late := numbered_after (dflt := dflt) (a := a) (sp := sp) (n := n) (c := c + 1) hv' he hp' hr'
    cases m with
    | zero =>
      simp only [List.getElem?_cons_zero, Option.some.injEq] at h1 h2
      subst h1; subst h2
      refine ⟨⟨y, rfl, hy⟩, fun k s hk h3 h4 => ?_⟩
      cases k with
      | zero => exact absurd rfl hk
      | succ k =>
        rw [List.getElem?_cons_succ] at h3
        have := late s (List.mem_of_getElem? h3)
        simp only at h4
        omega
    | succ m =>
      rw [List.getElem?_cons_succ] at h1 h2
      obtain ⟨r1, r2⟩ := ih h1 h2 hne
      refine ⟨r1, fun k s hk h3 h4 => ?_⟩
      cases k with
      | zero =>
        simp only [List.getElem?_cons_zero, Option.some.injEq] at h3
        subst h3
        have := late u (List.mem_of_getElem? h1)
        simp only at h4
        omega
      | succ k =>
        rw [List.getElem?_cons_succ] at h3
        exact r2 k s (by omega) h3 h4

theorem padded_unseen {d : Dms} {t : TextAttr} {sp rect vs vs'} {i j : Nat} (h : PaddedLines (BlankChar d) vs vs')
    (hv : ∀ v ∈ vs, NoJust v) (hp : Value.newPage ∉ vs) (hr : ∀ r, Value.textRectangle r ∉ vs)
    (hc : t.justLine ≠ .center) (hj : t.justLine ≠ .right) : ¬ SeenPlaces d t sp rect vs vs' i j := by
  rintro ⟨k, s, s', h1, _, _, m, u, u', k1, k2, hne, hm, hmv⟩
  unfold sameLine at hm
  rw [List.mem_filter] at hm
  have hl := hm.2
  simp only [decide_eq_true_eq] at hl
  rw [numberedLayout_eq, List.getElem?_map] at h1 k1 k2
  obtain ⟨q, q1, rfl⟩ := Option.map_eq_some_iff.1 h1
  obtain ⟨w, w1, rfl⟩ := Option.map_eq_some_iff.1 k1
  obtain ⟨w', w1', rfl⟩ := Option.map_eq_some_iff.1 k2
  obtain ⟨⟨b, e1, e2⟩, last⟩ := padded_last h hv hp hr w1 w1' hne
  have jw : w.1.attr.justLine = t.justLine := (numbered_bounds hv w (List.mem_of_getElem? w1)).2.2
  have jq : q.1.attr.justLine = t.justLine := (numbered_bounds hv q (List.mem_of_getElem? q1)).2.2
  split at hmv
  · apply hmv
    have hb : ∀ S : Span, BlankText d.fontDefinition S b := fun S f hf ch hch e he => e2 ch hch f (fontOf_mem hf) e he
    unfold AddsBlanks
    split
    · rename_i hx; exact hc (jw.symm.trans hx)
    · rename_i hx; exact absurd (jw.symm.trans hx) hj
    · exact ⟨b, .inl e1, hb _⟩
  · rename_i hmk
    have hlt := last k q (fun e => hmk e.symm) q1 hl.2.1.symm
    unfold Moves at hmv
    split at hmv
    · rename_i hx; exact hc (jq.symm.trans hx)
    · rename_i hx; exact hj (jq.symm.trans hx)
    · exact Nat.lt_asymm hlt hmv

theorem apply_noJust {dflt t : TextAttr} {v : Value} (h : NoJust v) : (TextAttr.apply dflt t v).justLine = t.justLine := by
  cases v with
  | justificationLine j => exact absurd rfl (h.1 j)
  | font f => cases f <;> rfl
  | _ => rfl

theorem foldl_noJust {dflt : TextAttr} {vs : List Value} : ∀ {t : TextAttr}, (∀ v ∈ vs, NoJust v) →
    (vs.foldl (TextAttr.apply dflt) t).justLine = t.justLine := by
  induction vs with
  | nil => intro t _; rfl
  | cons v vs ih =>
    intro t h
    rw [List.foldl_cons, ih fun v hm => h v (List.mem_cons_of_mem _ hm), apply_noJust (h v (List.mem_cons_self ..))]

theorem padded_pages {B vs vs'} (h : PaddedLines B vs vs') :
    Pairwise2 (PaddedLines B) (splitPages vs) (splitPages vs') := by
  induction h with
  | nil => exact .cons .nil .nil
  | @keep v vs vs' _ ih =>
    by_cases hv : v = .newPage
    · subst hv; exact .cons .nil ih
    · obtain ⟨p, ps, e1, e2⟩ := splitPages_cons (vs := vs) hv
      obtain ⟨p', ps', e3, e4⟩ := splitPages_cons (vs := vs') hv
      rw [e2, e4]
      rw [e1, e3] at ih
      cases ih with
      | cons h1 h2 => exact .cons (.keep h1) h2
  | @pad x b vs vs' he hb _ ih =>
    obtain ⟨p, ps, e1, e2⟩ := splitPages_cons (v := .text x) (vs := vs) (by simp)
    obtain ⟨p', ps', e3, e4⟩ := splitPages_cons (v := .text (x ++ b)) (vs := vs') (by simp)
    rw [e2, e4]
    have hend : EndsLine p := by
      cases vs with
      | nil => rw [splitPages, List.cons.injEq] at e1; rw [← e1.1]; trivial
      | cons v vs =>
        by_cases hv : v = .newPage
        · subst hv
          rw [splitPages, if_pos rfl, List.cons.injEq] at e1; rw [← e1.1]; trivial
        · obtain ⟨q, qs, f1, f2⟩ := splitPages_cons (vs := vs) hv
          rw [f2, List.cons.injEq] at e1
          rw [← e1.1]
          cases v <;> first | exact absurd rfl hv | exact he
    rw [e1, e3] at ih
    cases ih with
    | cons h1 h2 => exact .cons (.pad hend hb h1) h2

theorem padded_sections {B vs vs'} (h : PaddedLines B vs vs') : PaddedLines B (sections vs).1 (sections vs').1 ∧
    Pairwise2 (fun r r' => r.1 = r'.1 ∧ PaddedLines B r.2 r'.2) (sections vs).2 (sections vs').2 := by
  induction h with
  | nil => exact ⟨.nil, .nil⟩
  | @keep v vs vs' _ ih =>
    by_cases hv : ∃ r, v = .textRectangle r
    · obtain ⟨r, rfl⟩ := hv
      exact ⟨.nil, .cons ⟨rfl, ih.1⟩ ih.2⟩
    · rw [sections_cons (fun r e => hv ⟨r, e⟩), sections_cons (fun r e => hv ⟨r, e⟩)]
      exact ⟨.keep ih.1, ih.2⟩
  | @pad x b vs vs' he hb _ ih =>
    rw [sections_cons (by simp), sections_cons (by simp)]
    refine ⟨.pad ?_ hb ih.1, ih.2⟩
    cases vs with
    | nil => trivial
    | cons v vs =>
      cases v with
      | textRectangle r => trivial
      | newLine s => trivial
      | newPage => trivial
      | _ => exact he.elim

theorem sections_noRect (vs : List Value) : (∀ r, Value.textRectangle r ∉ (sections vs).1) ∧
    ∀ s ∈ (sections vs).2, ∀ r, Value.textRectangle r ∉ s.2 := by
  induction vs with
  | nil => simp [sections]
  | cons v vs ih =>
    by_cases hv : ∃ r, v = .textRectangle r
    · obtain ⟨r, rfl⟩ := hv
      refine ⟨fun r h => by simp [sections] at h, fun s hs => ?_⟩
      rcases List.mem_cons.1 hs with rfl | hs
      · exact ih.1
      · exact ih.2 s hs
    · rw [sections_cons (fun r e => hv ⟨r, e⟩)]
      refine ⟨fun r h => ?_, ih.2⟩
      rcases List.mem_cons.1 h with rfl | h
      · exact hv ⟨r, rfl⟩
      · exact ih.1 r h

theorem padded_nowhere {d : Dms} {i j : Nat} {t sp rect ws ws' more more'}
    (h : Somewhere d (fun t sp rect ws ws' => SeenPlaces d t sp rect ws ws' i j) t sp rect ws ws' more more') :
    PaddedLines (BlankChar d) ws ws' → Pairwise2 (fun r r' => r.1 = r'.1 ∧ PaddedLines (BlankChar d) r.2 r'.2) more more' →
    (∀ v ∈ ws, NoJust v ∧ v ≠ .newPage) → (∀ r ∈ more, ∀ v ∈ r.2, NoJust v ∧ v ≠ .newPage) →
    (∀ r, Value.textRectangle r ∉ ws) → (∀ s ∈ more, ∀ r, Value.textRectangle r ∉ s.2) →
    t.justLine ≠ .center → t.justLine ≠ .right → False := by
  induction h with
  | here h =>
    intro h1 _ h2 _ h3 _ hc hj
    exact padded_unseen h1 (fun v hm => (h2 v hm).1) (fun hm => (h2 _ hm).2 rfl) h3 hc hj h
  | @later t sp rect ws ws' r us us' more more' _ ih =>
    intro _ hm h2 h2' _ h3' hc hj
    cases hm with
    | cons k1 k2 =>
      have e := foldl_noJust (dflt := signAttr d) (t := t) fun v hm => (h2 v hm).1
      exact ih k1.2 k2 (h2' _ (List.mem_cons_self ..)) (fun r hr => h2' r (List.mem_cons_of_mem _ hr))
        (h3' _ (List.mem_cons_self ..)) (fun r hr => h3' r (List.mem_cons_of_mem _ hr)) (by rw [e]; exact hc) (by rw [e]; exact hj)

theorem padded_same {d : Dms} {t xs xs' ps ps'}
    (h : SameBut d (fun i j t sp rect ws ws' => SeenPlaces d t sp rect ws ws' i j) t xs xs' ps ps') :
    Pairwise2 (PaddedLines (BlankChar d)) ps ps' → (∀ p ∈ ps, ∀ v ∈ p, NoJust v ∧ v ≠ .newPage) →
    t.justLine ≠ .center → t.justLine ≠ .right → xs = xs' := by
  induction h with
  | nil => intros; rfl
  | @page t p p' off xs xs' vs vs' ps ps' _ h1 h2 h3 h4 _ ih =>
    intro hp hv hc hj
    cases hp with
    | cons k1 k2 =>
      have hvs := hv _ (List.mem_cons_self ..)
      have e := foldl_noJust (dflt := signAttr d) (t := t) fun v hm => (hvs v hm).1
      rw [ih k2 (fun p hm => hv p (List.mem_cons_of_mem _ hm)) (by rw [e]; exact hc) (by rw [e]; exact hj)]
      have hpx : ∀ i j, p.raster.px i j = p'.raster.px i j := fun i j => Classical.byContradiction fun hne =>
        padded_nowhere (h4 i j hne) (padded_sections k1).1 (padded_sections k1).2 (sections_all hvs).1 (sections_all hvs).2
          (sections_noRect _).1 (sections_noRect _).2 hc hj
      have : p = p' := by
        obtain ⟨⟨w, h, px⟩, dur⟩ := p
        obtain ⟨⟨w', h', px'⟩, dur'⟩ := p'
        simp only at h1 h2 h3 hpx
        have : px = px' := funext fun i => funext fun j => hpx i j
        subst h1; subst h2; subst h3; subst this; rfl
      rw [this]

theorem splitPages_noPage {vs : List Value} : ∀ p ∈ splitPages vs, Value.newPage ∉ p := by
  induction vs with
  | nil => simp [splitPages]
  | cons v vs ih =>
    by_cases hv : v = .newPage
    · subst hv
      rw [splitPages, if_pos rfl]
      intro p hp
      rcases List.mem_cons.1 hp with rfl | hp
      · simp
      · exact ih p hp
    · obtain ⟨q, qs, f1, f2⟩ := splitPages_cons (vs := vs) hv
      rw [f2]
      rw [f1] at ih
      intro p hp
      rcases List.mem_cons.1 hp with rfl | hp
      · intro hm
        rcases List.mem_cons.1 hm with e | hm
        · exact hv e.symm
        · exact ih q (List.mem_cons_self ..) hm
      · exact ih p (List.mem_cons_of_mem _ hp)

theorem padded_reworded {B vs vs'} (h : PaddedLines B vs vs') : Pairwise2 Reworded vs vs' := by
  induction h with
  | nil => exact .nil
  | keep _ ih => exact .cons .same ih
  | pad _ _ _ ih => exact .cons .text ih

theorem padded_reduced {t : FontTable} {B vs vs'} (h : PaddedLines B vs vs') : Pairwise2 (Reduced t) vs' vs := by
  induction h with
  | nil => exact .nil
  | keep _ ih => exact .cons .same ih
  | pad _ _ _ ih => exact .cons (.text (narrower_sublist t (List.sublist_append_left _ _))) ih

/-- **C137 (lines)** On a sign where text is at the left, if a message has no tags of justification, blank characters at the ends of its
lines are not seen: with and without them it has the same pages. -/
theorem C137_lines (d : Dms) (hf : FontsOk d.fontDefinition) (h0 : 1 ≤ d.multiCfg.defaultFont.toNat)
    (hw : WideChars d.fontDefinition) (W H : Nat) (hg : GraphicsOk W H d.graphicDefinition)
    (hj : d.multiCfg.defaultJustificationLine = .left) (ms ms' : Str) (vs vs' : List Value)
    (hv : Parses (slices ms) vs) (hv' : Parses (slices ms') vs') (hn : ∀ v ∈ vs, NoJust v)
    (hr : PaddedLines (BlankChar d) vs vs') (xs xs') (hx : ShownAs d ms xs) (hx' : ShownAs d ms' xs') : xs = xs' :=
  padded_same (C137_seen d hf h0 hw W H hg ms ms' vs vs' hv hv' (padded_reworded hr) xs xs' hx hx') (padded_pages hr)
    (fun p hp v hm => ⟨hn v (splitPages_mem p hp v hm), fun e => splitPages_noPage p hp (e ▸ hm)⟩)
    (by show d.multiCfg.defaultJustificationLine ≠ _; rw [hj]; simp) (by show d.multiCfg.defaultJustificationLine ≠ _; rw [hj]; simp)

/-- **C137 (trimmed)** … so such blanks can be left out of any message that is shown. -/
theorem C137_trimmed (d : Dms) (hd : SizeOk d) (hok : SignOk d) (hf : FontsOk d.fontDefinition)
    (hw : WideChars d.fontDefinition) (W H : Nat) (hg : GraphicsOk W H d.graphicDefinition)
    (hj : d.multiCfg.defaultJustificationLine = .left) (ms ms' : Str) (hs : SizesOk d ms) (hs' : SizesOk d ms')
    (vs vs' : List Value) (hv : Parses (slices ms) vs) (hv' : Parses (slices ms') vs') (hn : ∀ v ∈ vs, NoJust v)
    (hr : PaddedLines (BlankChar d) vs vs') (xs) (hx : ShownAs d ms' xs) : ShownAs d ms xs := by
  obtain ⟨ys, h1, h2, _⟩ := C96_narrower d hd hok hf W H hg ms' ms hs' hs vs' vs hv' hv (padded_reduced hr) xs hx.1 hx.2
  obtain rfl := C137_lines d hf hok.font hw W H hg hj ms ms' vs vs' hv hv' hn hr ys xs ⟨h1, h2⟩ hx
  exact ⟨h1, h2⟩

/-! ### blanks before text at the right -/

/-- a text which is another one has more characters at its beginning, and is the first one of its line -/
theorem started_first {dflt : TextAttr} {B start vs vs'} (h : PaddedStarts B start vs vs') : ∀ {a sp n c b}, (∀ v ∈ vs, NoJust v) →
    Value.newPage ∉ vs → (∀ r, Value.textRectangle r ∉ vs) → ∀ {m : Nat} {u u' : Piece × Nat},
    (numberedPieces dflt a sp n c b vs)[m]? = some u → (numberedPieces dflt a sp n c b vs')[m]? = some u' → u.1.str ≠ u'.1.str →
    (∃ b, u'.1.str = b ++ u.1.str ∧ ∀ ch ∈ b, B ch) ∧ (start = false → n < u.1.line) ∧ ∀ (k : Nat) (s : Piece × Nat), k ≠ m →
      (numberedPieces dflt a sp n c b vs)[k]? = some s → s.1.line = u.1.line → u.2 < s.2 := by
  have head : ∀ {a : TextAttr} {sp n} {c : Nat} {b} {v : Value}, NoJust v → (piece a sp n b v).map (·, c) = [] ∧ lineAfter dflt a n v = n ∧
        startAfter false v = false ∨ (piece a sp n b v).map (·, c) = [] ∧ lineAfter dflt a n v = n + 1 ∨
        (piece a sp n b v).map (·, c) = [] ∧ (v = .newPage ∨ ∃ r, v = .textRectangle r) ∨
      ∃ p, (piece a sp n b v).map (·, c) = [(p, c)] ∧ p.line = n ∧
        ((lineAfter dflt a n v = n ∧ ∀ start, startAfter start v = false) ∨ lineAfter dflt a n v = n + 1) := by
    intro a sp n c b v hv
    cases v with
    | text s => exact .inr (.inr (.inr ⟨_, rfl, rfl, .inl ⟨rfl, fun _ => rfl⟩⟩))
    | hexadecimalCharacter s => exact .inr (.inr (.inr ⟨_, rfl, rfl, .inl ⟨rfl, fun _ => rfl⟩⟩))
    | newLine s =>
      cases b with
      | true => exact .inr (.inr (.inr ⟨_, rfl, rfl, .inr rfl⟩))
      | false => exact .inr (.inl ⟨rfl, rfl⟩)
    | newPage => exact .inr (.inr (.inl ⟨rfl, .inl rfl⟩))
    | textRectangle r => exact .inr (.inr (.inl ⟨rfl, .inr ⟨r, rfl⟩⟩))
    | justificationLine j => exact absurd rfl (hv.1 j)
    | justificationPage j => exact absurd rfl (hv.2 j)
    | _ => exact .inl ⟨rfl, rfl, rfl⟩
  induction h with
  | nil => intro a sp n c b _ _ _ m u u' h1; simp [numberedPieces] at h1
  | @keep start v vs vs' _ ih =>
    intro a sp n c b hv hp hr m u u' h1 h2 hne
    have hv' := fun w hm => hv w (List.mem_cons_of_mem v hm)
    have ih := fun {m u u'} => @ih (TextAttr.apply dflt a v) (spacingAfter sp v) (lineAfter dflt a n v) (numberAfter dflt a c v)
      (blankAfter b v) hv' (fun hm => hp (List.mem_cons_of_mem v hm)) (fun r hm => hr r (List.mem_cons_of_mem v hm)) m u u'
    have bd := numbered_bounds (dflt := dflt) (a := TextAttr.apply dflt a v) (sp := spacingAfter sp v)
      (n := lineAfter dflt a n v) (c := numberAfter dflt a c v) (b := blankAfter b v) hv'
    unfold numberedPieces at h1 h2 ⊢
    rcases head (a := a) (sp := sp) (n := n) (c := c) (b := b) (hv v (List.mem_cons_self ..)) with
      ⟨e, el, es⟩ | ⟨e, el⟩ | ⟨_, e⟩ | ⟨p, e, el, hl⟩
    · rw [e, List.nil_append] at h1 h2
      simp only [e, List.nil_append]
      obtain ⟨r1, r2, r3⟩ := ih h1 h2 hne
      refine ⟨r1, fun hs => ?_, r3⟩
      subst hs
      have := r2 es
      rwa [el] at this
    · rw [e, List.nil_append] at h1 h2
      simp only [e, List.nil_append]
      obtain ⟨r1, r2, r3⟩ := ih h1 h2 hne
      refine ⟨r1, fun _ => ?_, r3⟩
      have := (bd u (List.mem_of_getElem? h1)).1
      omega
    · rcases e with rfl | ⟨r, rfl⟩
      · exact absurd (List.mem_cons_self ..) hp
      · exact absurd (List.mem_cons_self ..) (hr r)
    · rw [e, List.singleton_append] at h1 h2
      simp only [e, List.singleton_append]
      cases m with
      | zero =>
        simp only [List.getElem?_cons_zero, Option.some.injEq] at h1 h2
        subst h1; subst h2
        exact absurd rfl hne
      | succ m =>
        rw [List.getElem?_cons_succ] at h1 h2
        obtain ⟨r1, r2, r3⟩ := ih h1 h2 hne
        have later : n < u.1.line := by
          rcases hl with ⟨l1, l2⟩ | l1
          · have := r2 (l2 start); omega
          · have := (bd u (List.mem_of_getElem? h1)).1; omega
        refine ⟨r1, fun _ => later, fun k s hk h3 h4 => ?_⟩
        cases k with
        | zero =>
          simp only [List.getElem?_cons_zero, Option.some.injEq] at h3
          subst h3
          simp only at h4
          omega
        | succ k =>
          rw [List.getElem?_cons_succ] at h3
          exact r3 k s (by omega) h3 h4
  | @pad x y vs vs' hy _ ih =>
    intro a sp n c b hv hp hr m u u' h1 h2 hne
    have hv' := fun w hm => hv w (List.mem_cons_of_mem (Value.text x) hm)
    have hp' := fun hm => hp (List.mem_cons_of_mem (Value.text x) hm)
    have hr' := fun r hm => hr r (List.mem_cons_of_mem (Value.text x) hm)
    have ih := fun {m u u'} => @ih a sp n (c + 1) false hv' hp' hr' m u u'
    change ((⟨⟨a, sp, n, x⟩, c⟩ : Piece × Nat) :: numberedPieces dflt a sp n (c + 1) false vs)[m]? = some u at h1
    change ((⟨⟨a, sp, n, y ++ x⟩, c⟩ : Piece × Nat) :: numberedPieces dflt a sp n (c + 1) false vs')[m]? = some u' at h2
    change _ ∧ _ ∧ ∀ k s, k ≠ m →
      ((⟨⟨a, sp, n, x⟩, c⟩ : Piece × Nat) :: numberedPieces dflt a sp n (c + 1) false vs)[k]? = some s → _
    have bd := numbered_bounds (dflt := dflt) (a := a) (sp := sp) (n := n) (c := c + 1) (b := false) hv'
    cases m with
    | zero =>
      simp only [List.getElem?_cons_zero, Option.some.injEq] at h1 h2
      subst h1; subst h2
      refine ⟨⟨y, rfl, hy⟩, by simp, fun k s hk h3 h4 => ?_⟩
      cases k with
      | zero => exact absurd rfl hk
      | succ k =>
        rw [List.getElem?_cons_succ] at h3
        simp only at h4 ⊢
        have := (bd s (List.mem_of_getElem? h3)).2.1 h4
        omega
    | succ m =>
      rw [List.getElem?_cons_succ] at h1 h2
      obtain ⟨r1, r2, r3⟩ := ih h1 h2 hne
      refine ⟨r1, by simp, fun k s hk h3 h4 => ?_⟩
      cases k with
      | zero =>
        simp only [List.getElem?_cons_zero, Option.some.injEq] at h3
        subst h3
        have := r2 rfl
        simp only at h4
        omega
      | succ k =>
        rw [List.getElem?_cons_succ] at h3
        exact r3 k s (by omega) h3 h4

theorem started_unseen {d : Dms} {t : TextAttr} {sp rect vs vs'} {i j : Nat} {start : Bool}
    (h : PaddedStarts (BlankChar d) start vs vs')
    (hv : ∀ v ∈ vs, NoJust v) (hp : Value.newPage ∉ vs) (hr : ∀ r, Value.textRectangle r ∉ vs)
    (hj : t.justLine = .right) : ¬ SeenPlaces d t sp rect vs vs' i j := by
  rintro ⟨k, s, s', h1, _, _, m, u, u', k1, k2, hne, hm, hmv⟩
  unfold sameLine at hm
  rw [List.mem_filter] at hm
  have hl := hm.2
  simp only [decide_eq_true_eq] at hl
  rw [numberedLayout_eq, List.getElem?_map] at h1 k1 k2
  obtain ⟨q, q1, rfl⟩ := Option.map_eq_some_iff.1 h1
  obtain ⟨w, w1, rfl⟩ := Option.map_eq_some_iff.1 k1
  obtain ⟨w', w1', rfl⟩ := Option.map_eq_some_iff.1 k2
  obtain ⟨⟨b, e1, e2⟩, _, first⟩ := started_first h hv hp hr w1 w1' hne
  have jw : w.1.attr.justLine = .right := ((numbered_bounds hv w (List.mem_of_getElem? w1)).2.2).trans hj
  have jq : q.1.attr.justLine = .right := ((numbered_bounds hv q (List.mem_of_getElem? q1)).2.2).trans hj
  split at hmv
  · apply hmv
    have hb : ∀ S : Span, BlankText d.fontDefinition S b := fun S f hf ch hch e he => e2 ch hch f (fontOf_mem hf) e he
    unfold AddsBlanks
    split
    · rename_i hx; have := jw.symm.trans hx; cases this
    · exact ⟨b, .inl e1, hb _⟩
    · rename_i _ hx; exact absurd jw hx
  · rename_i hmk
    have hlt := first k q (fun e => hmk e.symm) q1 hl.2.1.symm
    unfold Moves at hmv
    split at hmv
    · rename_i hx; have := jq.symm.trans hx; cases this
    · exact absurd hlt (Nat.not_lt.2 hmv)
    · rename_i _ hx; exact absurd jq hx

theorem started_pages {B start vs vs'} (h : PaddedStarts B start vs vs') :
    ∃ p p' ps ps', splitPages vs = p :: ps ∧ splitPages vs' = p' :: ps' ∧ PaddedStarts B start p p' ∧
      Pairwise2 (PaddedStarts B true) ps ps' := by
  induction h with
  | nil => exact ⟨_, _, _, _, rfl, rfl, .nil, .nil⟩
  | @keep start v vs vs' _ ih =>
    obtain ⟨p, p', ps, ps', e1, e2, e3, e4⟩ := ih
    by_cases hv : v = .newPage
    · subst hv
      refine ⟨[], [], _, _, by rw [splitPages, if_pos rfl], by rw [splitPages, if_pos rfl], .nil, ?_⟩
      rw [e1, e2]
      exact .cons e3 e4
    · refine ⟨v :: p, v :: p', ps, ps', ?_, ?_, .keep e3, e4⟩
      · rw [splitPages, if_neg hv, e1]
      · rw [splitPages, if_neg hv, e2]
  | @pad x b vs vs' hb _ ih =>
    obtain ⟨p, p', ps, ps', e1, e2, e3, e4⟩ := ih
    refine ⟨.text x :: p, .text (b ++ x) :: p', ps, ps', ?_, ?_, .pad hb e3, e4⟩
    · rw [splitPages, if_neg (by simp), e1]
    · rw [splitPages, if_neg (by simp), e2]

theorem started_sections {B start vs vs'} (h : PaddedStarts B start vs vs') : PaddedStarts B start (sections vs).1 (sections vs').1 ∧
    Pairwise2 (fun r r' => r.1 = r'.1 ∧ PaddedStarts B true r.2 r'.2) (sections vs).2 (sections vs').2 := by
  induction h with
  | nil => exact ⟨.nil, .nil⟩
  | @keep start v vs vs' _ ih =>
    by_cases hv : ∃ r, v = .textRectangle r
    · obtain ⟨r, rfl⟩ := hv
      exact ⟨.nil, .cons ⟨rfl, ih.1⟩ ih.2⟩
    · rw [sections_cons (fun r e => hv ⟨r, e⟩), sections_cons (fun r e => hv ⟨r, e⟩)]
      exact ⟨.keep ih.1, ih.2⟩
  | @pad x b vs vs' hb _ ih =>
    rw [sections_cons (by simp), sections_cons (by simp)]
    exact ⟨.pad hb ih.1, ih.2⟩

theorem started_nowhere {d : Dms} {i j : Nat} {t sp rect ws ws' more more'}
    (h : Somewhere d (fun t sp rect ws ws' => SeenPlaces d t sp rect ws ws' i j) t sp rect ws ws' more more') :
    PaddedStarts (BlankChar d) true ws ws' →
    Pairwise2 (fun r r' => r.1 = r'.1 ∧ PaddedStarts (BlankChar d) true r.2 r'.2) more more' →
    (∀ v ∈ ws, NoJust v ∧ v ≠ .newPage) → (∀ r ∈ more, ∀ v ∈ r.2, NoJust v ∧ v ≠ .newPage) →
    (∀ r, Value.textRectangle r ∉ ws) → (∀ s ∈ more, ∀ r, Value.textRectangle r ∉ s.2) →
    t.justLine = .right → False := by
  induction h with
  | here h =>
    intro h1 _ h2 _ h3 _ hj
    exact started_unseen h1 (fun v hm => (h2 v hm).1) (fun hm => (h2 _ hm).2 rfl) h3 hj h
  | @later t sp rect ws ws' r us us' more more' _ ih =>
    intro _ hm h2 h2' _ h3' hj
    cases hm with
    | cons k1 k2 =>
      have e := foldl_noJust (dflt := signAttr d) (t := t) fun v hm => (h2 v hm).1
      exact ih k1.2 k2 (h2' _ (List.mem_cons_self ..)) (fun r hr => h2' r (List.mem_cons_of_mem _ hr))
        (h3' _ (List.mem_cons_self ..)) (fun r hr => h3' r (List.mem_cons_of_mem _ hr)) (by rw [e]; exact hj)

theorem page_eq {p p' : Page} (h1 : p.durationDs = p'.durationDs) (h2 : p.raster.width = p'.raster.width)
    (h3 : p.raster.height = p'.raster.height) (hpx : ∀ i j, p.raster.px i j = p'.raster.px i j) : p = p' := by
  obtain ⟨⟨w, h, px⟩, dur⟩ := p
  obtain ⟨⟨w', h', px'⟩, dur'⟩ := p'
  simp only at h1 h2 h3 hpx
  have : px = px' := funext fun i => funext fun j => hpx i j
  subst h1; subst h2; subst h3; subst this; rfl

theorem started_same {d : Dms} {t xs xs' ps ps'}
    (h : SameBut d (fun i j t sp rect ws ws' => SeenPlaces d t sp rect ws ws' i j) t xs xs' ps ps') :
    Pairwise2 (PaddedStarts (BlankChar d) true) ps ps' → (∀ p ∈ ps, ∀ v ∈ p, NoJust v ∧ v ≠ .newPage) →
    t.justLine = .right → xs = xs' := by
  induction h with
  | nil => intros; rfl
  | @page t p p' off xs xs' vs vs' ps ps' _ h1 h2 h3 h4 _ ih =>
    intro hp hv hj
    cases hp with
    | cons k1 k2 =>
      have hvs := hv _ (List.mem_cons_self ..)
      have e := foldl_noJust (dflt := signAttr d) (t := t) fun v hm => (hvs v hm).1
      rw [ih k2 (fun p hm => hv p (List.mem_cons_of_mem _ hm)) (by rw [e]; exact hj)]
      have hpx : ∀ i j, p.raster.px i j = p'.raster.px i j := fun i j => Classical.byContradiction fun hne =>
        started_nowhere (h4 i j hne) (started_sections k1).1 (started_sections k1).2 (sections_all hvs).1 (sections_all hvs).2
          (sections_noRect _).1 (sections_noRect _).2 hj
      rw [page_eq h1 h2 h3 hpx]

theorem started_reworded {B start vs vs'} (h : PaddedStarts B start vs vs') : Pairwise2 Reworded vs vs' := by
  induction h with
  | nil => exact .nil
  | keep _ ih => exact .cons .same ih
  | pad _ _ ih => exact .cons .text ih

theorem started_reduced {t : FontTable} {B start vs vs'} (h : PaddedStarts B start vs vs') : Pairwise2 (Reduced t) vs' vs := by
  induction h with
  | nil => exact .nil
  | keep _ ih => exact .cons .same ih
  | pad _ _ ih => exact .cons (.text (narrower_sublist t (List.sublist_append_right _ _))) ih

/-- **C137 (right)** On a sign where text is at the right, blank characters at the beginnings of lines can be left out of any message
that is shown and has no tags of justification: it is shown with the same pages. -/
theorem C137_right (d : Dms) (hd : SizeOk d) (hok : SignOk d) (hf : FontsOk d.fontDefinition)
    (hw : WideChars d.fontDefinition) (W H : Nat) (hg : GraphicsOk W H d.graphicDefinition)
    (hj : d.multiCfg.defaultJustificationLine = .right) (ms ms' : Str) (hs : SizesOk d ms) (hs' : SizesOk d ms')
    (vs vs' : List Value) (hv : Parses (slices ms) vs) (hv' : Parses (slices ms') vs') (hn : ∀ v ∈ vs, NoJust v)
    (hr : PaddedStarts (BlankChar d) true vs vs') (xs) (hx : ShownAs d ms' xs) : ShownAs d ms xs := by
  obtain ⟨ys, h1, h2, _⟩ := C96_narrower d hd hok hf W H hg ms' ms hs' hs vs' vs hv' hv (started_reduced hr) xs hx.1 hx.2
  obtain ⟨p, p', ps, ps', e1, e2, e3, e4⟩ := started_pages hr
  obtain rfl : ys = xs := by
    refine started_same (C137_seen d hf hok.font hw W H hg ms ms' vs vs' hv hv' (started_reworded hr) ys xs ⟨h1, h2⟩ hx) ?_
      (fun p hp v hm => ⟨hn v (splitPages_mem p hp v hm), fun e => splitPages_noPage p hp (e ▸ hm)⟩) hj
    rw [e1, e2]
    exact .cons e3 e4
  exact ⟨h1, h2⟩

/-! ### cases -/

/-- are all pixels of the character dark, in all fonts? -/
def darkChar (t : FontTable) (ch : Char) : Bool := t.all fun f => match f.character ch with
  | none => true
  | some e => (List.range f.height.toNat).all fun row => (List.range e.width.toNat).all fun col =>
      !bit e.bitmap (row * e.width.toNat + col)

theorem darkChar_blank {d : Dms} {ch : Char} (h : darkChar d.fontDefinition ch = true) : BlankChar d ch := by
  intro f hf e he row col hr hc
  unfold darkChar at h
  have := List.all_eq_true.1 h f hf
  rw [he] at this
  have := List.all_eq_true.1 this row (List.mem_range.2 hr)
  have := List.all_eq_true.1 this col (List.mem_range.2 hc)
  simpa using this

/-- a message with blanks at the ends of its lines, and without them -/
def paddedLines : Str := c!"HIT  [nl]A B [np]C[tr1,1,30,30][cf2]D "
def trimmedLines : Str := c!"HIT[nl]A B[np]C[tr1,1,30,30][cf2]D"

-- the hypotheses of C137
example : ∃ xs, ShownAs fullDms paddedLines xs ∧ ShownAs fullDms trimmedLines xs := by
  obtain ⟨xs, hx, hn, _⟩ := summary_noError (d := fullDms) (ms := paddedLines) (l := [(true, 60, 30, 30), (true, 60, 30, 30)])
    (by decide +kernel)
  have hs : Parses (slices trimmedLines) [.text c!"HIT", .newLine none, .text c!"A B", .newPage, .text c!"C",
    .textRectangle ⟨1, 1, 30, 30⟩, .colorForeground (some (.legacy 2)), .text c!"D"] := parses_of (by decide +kernel)
  have hs' : Parses (slices paddedLines) [.text (c!"HIT" ++ c!"  "), .newLine none, .text (c!"A B" ++ c!" "), .newPage, .text c!"C",
    .textRectangle ⟨1, 1, 30, 30⟩, .colorForeground (some (.legacy 2)), .text (c!"D" ++ c!" ")] := parses_of (by decide +kernel)
  have hv := C22_built_sign_valid .checked _ _ fullDms_built
  have hb : BlankChar fullDms ' ' := darkChar_blank (by decide +kernel)
  have hb1 : ∀ ch ∈ c!" ", BlankChar fullDms ch := by intro ch hm; rw [List.mem_singleton] at hm; rw [hm]; exact hb
  have hb2 : ∀ ch ∈ c!"  ", BlankChar fullDms ch := by
    intro ch hm
    have : ch = ' ' := by
      rcases List.mem_cons.1 hm with h | hm
      · exact h
      · exact List.mem_singleton.1 hm
    rw [this]; exact hb
  refine ⟨xs, ⟨hx, hn⟩, C137_trimmed fullDms ⟨by decide, by decide, by decide⟩
    ⟨by decide, by decide, by decide, by decide, by decide, hv.2.2.2.2.1.fonts, hv.2.2.2.2.2.1.graphics⟩ hv.2.2.2.2.1
    (by unfold WideChars; decide +kernel) _ _ hv.2.2.2.2.2.1 rfl trimmedLines paddedLines (sizesOk_short _ _ (by decide))
    (sizesOk_short _ _ (by decide)) _ _ hs hs' ?_ ?_ xs ⟨hx, hn⟩⟩
  · intro v hm
    simp only [List.mem_cons, List.not_mem_nil, or_false] at hm
    rcases hm with rfl | rfl | rfl | rfl | rfl | rfl | rfl | rfl <;> exact ⟨by simp, by simp⟩
  · exact .pad trivial hb2 (.keep (.pad trivial hb1 (.keep (.keep (.keep (.keep (.pad trivial hb1 .nil)))))))

-- the same at the right
def rightDms : Dms := { fullDms with multiCfg := { fullDms.multiCfg with defaultJustificationLine := .right } }

def startedLines : Str := c!"A[cf2]B[nl]  C[np] D"
def unstartedLines : Str := c!"A[cf2]B[nl]C[np]D"

example : ∃ xs, ShownAs rightDms startedLines xs ∧ ShownAs rightDms unstartedLines xs := by
  obtain ⟨xs, hx, hn, _⟩ := summary_noError (d := rightDms) (ms := startedLines) (l := [(true, 60, 30, 30), (true, 60, 30, 30)])
    (by decide +kernel)
  have hs : Parses (slices unstartedLines) [.text c!"A", .colorForeground (some (.legacy 2)), .text c!"B", .newLine none, .text c!"C",
    .newPage, .text c!"D"] := parses_of (by decide +kernel)
  have hs' : Parses (slices startedLines) [.text c!"A", .colorForeground (some (.legacy 2)), .text c!"B", .newLine none,
    .text (c!"  " ++ c!"C"), .newPage, .text (c!" " ++ c!"D")] := parses_of (by decide +kernel)
  have hv := C22_built_sign_valid .checked _ _ fullDms_built
  have hb : BlankChar rightDms ' ' := darkChar_blank (by decide +kernel)
  have hb1 : ∀ ch ∈ c!" ", BlankChar rightDms ch := by intro ch hm; rw [List.mem_singleton] at hm; rw [hm]; exact hb
  have hb2 : ∀ ch ∈ c!"  ", BlankChar rightDms ch := by
    intro ch hm
    have : ch = ' ' := by
      rcases List.mem_cons.1 hm with h | hm
      · exact h
      · exact List.mem_singleton.1 hm
    rw [this]; exact hb
  refine ⟨xs, ⟨hx, hn⟩, C137_right rightDms ⟨by decide, by decide, by decide⟩
    ⟨by decide, by decide, by decide, by decide, by decide, hv.2.2.2.2.1.fonts, hv.2.2.2.2.2.1.graphics⟩ hv.2.2.2.2.1
    (by unfold WideChars; decide +kernel) _ _ hv.2.2.2.2.2.1 rfl unstartedLines startedLines (sizesOk_short _ _ (by decide))
    (sizesOk_short _ _ (by decide)) _ _ hs hs' ?_ ?_ xs ⟨hx, hn⟩⟩
  · intro v hm
    simp only [List.mem_cons, List.not_mem_nil, or_false] at hm
    rcases hm with rfl | rfl | rfl | rfl | rfl | rfl | rfl <;> exact ⟨by simp, by simp⟩
  · exact .keep (.keep (.keep (.keep (.pad hb2 (.keep (.pad hb1 .nil))))))

-- in the center, blanks move the text; so C137 needs text at the left
example : pixels fullDms c!"[jl3]A" [(27, 2), (28, 2), (29, 2), (30, 2)] ≠
    pixels fullDms c!"[jl3]A  " [(27, 2), (28, 2), (29, 2), (30, 2)] := by
  decide +kernel

-- with blanks, a message may be too wide
example : nextError fullDms c!"ABCDEFGHI" = none ∧ nextError fullDms c!"ABCDEFGHI " ≠ none :=
  ⟨by decide +kernel, by decide +kernel⟩

end Ntcip
