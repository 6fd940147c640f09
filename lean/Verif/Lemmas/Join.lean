import Verif.Lemmas.Accept
import Verif.Spec.Look
/-
Lemmas on cutting a text in two: widths, places and pixels.
-/
namespace Ntcip.Spec

/-- the characters of all fonts have pixels -/
def WideChars (t : FontTable) : Prop := ∀ f ∈ t, ∀ c ∈ f.characters, c.number.toNat ≠ 0 → 0 < c.width.toNat

end Ntcip.Spec

namespace Ntcip
open Spec

/-- the span of both texts -/
def joined (a b : Span) : Span := ⟨a.state, a.str ++ b.str⟩

/-- spans that may be joined -/
structure Joins (a b : Span) : Prop where
  attr : textAttr a.state = textAttr b.state
  spacing : a.state.lineSpacing = b.state.lineSpacing
  line : a.state.lineNumber = b.state.lineNumber
  rect : a.state.textRectangle = b.state.textRectangle
  color : a.state.colorCtx.foregroundRgb = b.state.colorCtx.foregroundRgb
  left : a.str ≠ []
  right : b.str ≠ []
  leftNul : ∀ ch ∈ a.str, ch.toNat ≠ 0
  rightNul : ∀ ch ∈ b.str, ch.toNat ≠ 0

/-! ### widths -/

theorem advance_join (cs : Nat) (ws vs : List Nat) (hw : 0 < ws.sum) (hv : vs ≠ []) (hp : ∀ v ∈ vs, 0 < v) :
    advance cs (ws ++ vs) = advance cs ws + cs + advance cs vs := by
  have key : ∀ us : List Nat, us ≠ [] → (∀ v ∈ us, 0 < v) →
      advance cs (ws ++ us.reverse) = advance cs ws + cs + advance cs us.reverse := by
    intro us
    induction us with
    | nil => simp
    | cons u us ih =>
      intro _ hp
      rw [List.reverse_cons, ← List.append_assoc, advance_snoc, advance_snoc]
      cases us with
      | nil => simp [hw, advance_nil]
      | cons u' us =>
        rw [ih (by simp) (fun v h => hp v (List.mem_cons_of_mem _ h))]
        have h1 : 0 < (ws ++ (u' :: us).reverse).sum := by rw [List.sum_append]; omega
        have h2 : 0 < (u' :: us).reverse.sum := by
          have := hp u' (by simp)
          simp; omega
        rw [if_pos h1, if_pos h2]
        omega
  have := key vs.reverse (by simpa using hv) (by simpa using hp)
  simpa using this

theorem fontOf_attr {t : FontTable} {a b : Span} {f : Font} (h : textAttr a.state = textAttr b.state) :
    FontOf t a f ↔ FontOf t b f := by
  obtain ⟨h1, h2, _⟩ := textAttr_eq h
  unfold FontOf
  rw [h1, h2]

theorem charSpacing_attr {a b : Span} {f : Font} (h : textAttr a.state = textAttr b.state) :
    charSpacing a f = charSpacing b f := by
  obtain ⟨_, _, _, _, h1⟩ := textAttr_eq h
  unfold charSpacing
  rw [h1]

theorem gap_attr {t p p' s s' g} (hp : textAttr p.state = textAttr p'.state) (h : textAttr s.state = textAttr s'.state)
    (hg : Gap t p s g) : Gap t p' s' g := by
  obtain ⟨_, _, _, _, a⟩ := textAttr_eq h
  obtain ⟨_, _, _, _, b⟩ := textAttr_eq hp
  unfold Gap at *
  rw [← a]
  split
  · rename_i e; rw [e] at hg; exact hg
  · rename_i e
    rw [e] at hg
    obtain ⟨fp, fs, h1, h2, h3⟩ := hg
    exact ⟨fp, fs, fun k => (fontOf_attr hp).1 (h1 (by rw [b]; exact k)), (fontOf_attr h).1 h2, by
      rw [← charSpacing_attr h, ← charSpacing_attr hp]; exact h3⟩

theorem gap_same {t a b f} (h : textAttr a.state = textAttr b.state) (hf : FontOf t b f) :
    Gap t a b (charSpacing b f) := by
  unfold Gap
  split
  · rename_i c e; simp [charSpacing, e]
  · refine ⟨f, f, fun _ => (fontOf_attr h).2 hf, hf, ?_⟩
    rw [charSpacing_attr h]
    omega

theorem lineWidth_prev {t p p' ss n} (h : textAttr p.state = textAttr p'.state) (hl : LineWidth t (some p) ss n) :
    LineWidth t (some p') ss n := by
  cases hl with
  | nil => exact .nil
  | next hg hw hl => exact .next (gap_attr h rfl hg) hw hl

theorem defined_append {f : Font} {a b : Str} {es : List CharacterEntry} :
    Defined f (a ++ b) es ↔ ∃ es1 es2, es = es1 ++ es2 ∧ Defined f a es1 ∧ Defined f b es2 := by
  unfold Defined
  constructor
  · intro h
    rw [List.map_append] at h
    obtain ⟨e1, e2, rfl, h1, h2⟩ := List.append_eq_map_iff.1 h
    exact ⟨e1, e2, rfl, h1.symm, h2.symm⟩
  · rintro ⟨e1, e2, rfl, h1, h2⟩
    rw [List.map_append, h1, h2, List.map_append]

theorem character_wide {t : FontTable} (ht : WideChars t) {f : Font} (hf : f ∈ t) {ch : Char} {e : CharacterEntry}
    (h : f.character ch = some e) (hn : ch.toNat ≠ 0) : 0 < e.width.toNat := by
  unfold Font.character at h
  split at h
  · refine ht f hf e (List.mem_of_find?_eq_some h) ?_
    have : e.number.toNat = ch.toNat := by simpa using List.find?_some h
    rw [this]; exact hn
  · simp at h

theorem defined_wide {t : FontTable} (ht : WideChars t) {f : Font} (hf : f ∈ t) {s : Str} {es : List CharacterEntry}
    (h : Defined f s es) (hn : ∀ ch ∈ s, ch.toNat ≠ 0) : ∀ w ∈ es.map (·.width.toNat), 0 < w := by
  intro w hw
  obtain ⟨e, he, rfl⟩ := List.mem_map.1 hw
  have : some e ∈ s.map f.character := by rw [h]; exact List.mem_map_of_mem he
  obtain ⟨ch, hch, e'⟩ := List.mem_map.1 this
  exact character_wide ht hf e' (hn ch hch)

theorem defined_nil {f : Font} {s : Str} {es : List CharacterEntry} (h : Defined f s es) (hs : s ≠ []) : es ≠ [] := by
  rintro rfl
  simp [Defined] at h
  exact hs h

theorem fontOf_mem {t : FontTable} {s f} (h : FontOf t s f) : f ∈ t := List.mem_of_find?_eq_some h.1

/-- width of both texts -/
theorem advance_joined {t : FontTable} (ht : WideChars t) {a b : Span} (h : Joins a b) {f es1 es2 cs} (hf : f ∈ t)
    (h1 : Defined f a.str es1) (h2 : Defined f b.str es2) :
    0 < (es1.map (·.width.toNat)).sum ∧
    ∀ es, es <+: es2 → es ≠ [] → advance cs ((es1 ++ es).map (·.width.toNat)) =
      advance cs (es1.map (·.width.toNat)) + cs + advance cs (es.map (·.width.toNat)) := by
  have p1 := defined_wide ht hf h1 h.leftNul
  have p2 := defined_wide ht hf h2 h.rightNul
  have n1 := defined_nil h1 h.left
  have hs : 0 < (es1.map (·.width.toNat)).sum := by
    cases es1 with
    | nil => exact absurd rfl n1
    | cons e es =>
      have := p1 e.width.toNat (by simp)
      simp; omega
  refine ⟨hs, fun es hp hne => ?_⟩
  rw [List.map_append]
  refine advance_join cs _ _ hs (by simpa using hne) fun v hv => p2 v ?_
  obtain ⟨r, rfl⟩ := hp
  rw [List.map_append]
  exact List.mem_append_left _ hv

theorem spanWidth_join {t : FontTable} (ht : WideChars t) {a b : Span} (h : Joins a b) {n} :
    SpanWidth t (joined a b) n ↔ ∃ v g w, SpanWidth t a v ∧ Gap t a b g ∧ SpanWidth t b w ∧ n = v + g + w := by
  constructor
  · rintro ⟨f, es, hf, hd, rfl⟩
    obtain ⟨e1, e2, rfl, d1, d2⟩ := defined_append.1 hd
    have hfa : FontOf t a f := hf
    have hfb := (fontOf_attr h.attr).1 hfa
    have := (advance_joined ht h (cs := charSpacing a f) (fontOf_mem hf) d1 d2).2 e2 (List.prefix_refl _)
      (defined_nil d2 h.right)
    refine ⟨_, _, _, ⟨f, e1, hfa, d1, rfl⟩, gap_same h.attr hfb, ⟨f, e2, hfb, d2, rfl⟩, ?_⟩
    show advance (charSpacing a f) _ = _
    rw [this, charSpacing_attr h.attr]
  · rintro ⟨v, g, w, ⟨f, e1, hfa, d1, rfl⟩, hg, ⟨f', e2, hfb, d2, rfl⟩, rfl⟩
    have hfb' := (fontOf_attr h.attr).1 hfa
    obtain rfl := fontOf_unique hfb' hfb
    obtain rfl := gap_unique hg (gap_same h.attr hfb)
    have := (advance_joined ht h (cs := charSpacing a f) (fontOf_mem hfa) d1 d2).2 e2 (List.prefix_refl _)
      (defined_nil d2 h.right)
    refine ⟨f, e1 ++ e2, hfa, defined_append.2 ⟨_, _, rfl, d1, d2⟩, ?_⟩
    show _ = advance (charSpacing a f) _
    rw [this, charSpacing_attr h.attr]

theorem lineWidth_cast {t p ss n m} (h : LineWidth t p ss n) (e : n = m) : LineWidth t p ss m := e ▸ h

theorem lineWidth_join {t : FontTable} (ht : WideChars t) {a b : Span} (h : Joins a b) {r} : ∀ {l p n},
    LineWidth t p (l ++ a :: b :: r) n ↔ LineWidth t p (l ++ joined a b :: r) n := by
  intro l
  induction l with
  | nil =>
    intro p n
    constructor
    · intro hl
      cases hl with
      | first hw hl =>
        cases hl with
        | next hg hw' hl =>
          have := (spanWidth_join ht h).2 ⟨_, _, _, hw, hg, hw', rfl⟩
          have e := LineWidth.first this (lineWidth_prev (p' := joined a b) h.attr.symm hl)
          exact lineWidth_cast e (by omega)
      | next hg0 hw hl =>
        cases hl with
        | next hg hw' hl =>
          have := (spanWidth_join ht h).2 ⟨_, _, _, hw, hg, hw', rfl⟩
          have e := LineWidth.next (gap_attr (s' := joined a b) rfl rfl hg0) this
            (lineWidth_prev (p' := joined a b) h.attr.symm hl)
          exact lineWidth_cast e (by omega)
    · intro hl
      cases hl with
      | first hw hl =>
        obtain ⟨v, g, w, h1, h2, h3, rfl⟩ := (spanWidth_join ht h).1 hw
        have e := LineWidth.first h1 (.next h2 h3 (lineWidth_prev (p := joined a b) (p' := b) h.attr hl))
        exact lineWidth_cast e (by omega)
      | next hg0 hw hl =>
        obtain ⟨v, g, w, h1, h2, h3, rfl⟩ := (spanWidth_join ht h).1 hw
        have e := LineWidth.next (gap_attr (s := joined a b) (s' := a) rfl rfl hg0) h1
          (.next h2 h3 (lineWidth_prev (p := joined a b) (p' := b) h.attr hl))
        exact lineWidth_cast e (by omega)
  | cons c l ih =>
    intro p n
    rw [List.cons_append, List.cons_append]
    constructor
    · intro hl
      cases hl with
      | first hw hl => exact .first hw (ih.1 hl)
      | next hg hw hl => exact .next hg hw (ih.1 hl)
    · intro hl
      cases hl with
      | first hw hl => exact .first hw (ih.2 hl)
      | next hg hw hl => exact .next hg hw (ih.2 hl)

/-! ### lines -/

/-- the spans `ss` and `ss'` are the same, but two spans `a`, `b` of `ss` are joined in `ss'` -/
inductive JoinIn (a b : Span) : List Span → List Span → Prop
  | same {ss} : JoinIn a b ss ss
  | join {l r} : JoinIn a b (l ++ a :: b :: r) (l ++ joined a b :: r)

theorem joinIn_filter {a b : Span} {P : Span → Bool} (hb : P b = P a) (hj : P (joined a b) = P a) {ss ss'}
    (h : JoinIn a b ss ss') : JoinIn a b (ss.filter P) (ss'.filter P) := by
  cases h with
  | same => exact .same
  | @join l r =>
    rw [List.filter_append, List.filter_append]
    cases hp : P a with
    | true =>
      rw [List.filter_cons_of_pos hp, List.filter_cons_of_pos (hb.trans hp), List.filter_cons_of_pos (hj.trans hp)]
      exact .join
    | false =>
      rw [List.filter_cons_of_neg (by simp [hp]), List.filter_cons_of_neg (by simp [hb, hp]),
        List.filter_cons_of_neg (by simp [hj, hp])]
      exact .same

theorem joinIn_sameLine {a b : Span} (h : Joins a b) {ss ss'} (hj : JoinIn a b ss ss') (s : Span) :
    JoinIn a b (sameLine ss s) (sameLine ss' s) := by
  obtain ⟨_, _, h1, h2, _⟩ := textAttr_eq h.attr
  refine joinIn_filter ?_ rfl hj
  rw [h1, h2, h.line]

theorem joinIn_samePage {a b : Span} (h : Joins a b) {ss ss'} (hj : JoinIn a b ss ss') (s : Span) :
    JoinIn a b (samePage ss s) (samePage ss' s) := by
  obtain ⟨_, _, h1, _⟩ := textAttr_eq h.attr
  refine joinIn_filter ?_ rfl hj
  rw [h1]

theorem joinIn_onLine {a b : Span} (h : Joins a b) {ss ss'} (hj : JoinIn a b ss ss') (i : Nat) :
    JoinIn a b (onLine ss i) (onLine ss' i) := by
  refine joinIn_filter ?_ rfl hj
  rw [h.line]

theorem joinIn_lineWidth {t : FontTable} (ht : WideChars t) {a b : Span} (h : Joins a b) {ss ss'}
    (hj : JoinIn a b ss ss') {p n} : LineWidth t p ss n ↔ LineWidth t p ss' n := by
  cases hj with
  | same => exact Iff.rfl
  | join => exact lineWidth_join ht h

theorem largest_twice (x y : List Nat) (n : Nat) : largest (x ++ n :: n :: y) = largest (x ++ n :: y) := by
  unfold largest
  rw [List.foldr_append, List.foldr_append]
  congr 1
  simp only [List.foldr_cons]
  omega

theorem joinIn_largest {t : FontTable} {v : Font → UInt8} {a b : Span} (h : Joins a b) {ss ss'}
    (hj : JoinIn a b ss ss') : largest (ss.map (ofFont t v)) = largest (ss'.map (ofFont t v)) := by
  cases hj with
  | same => rfl
  | join =>
    obtain ⟨h1, _⟩ := textAttr_eq h.attr
    have e1 : ofFont t v b = ofFont t v a := by unfold ofFont; rw [h1]
    have e2 : ofFont t v (joined a b) = ofFont t v a := rfl
    simp only [List.map_append, List.map_cons, e1, e2, largest_twice]

theorem joinIn_spacing {a b : Span} (h : Joins a b) {ss ss'} (hj : JoinIn a b ss ss') :
    (ss.findSome? fun s => s.state.lineSpacing.map UInt8.toNat) =
      ss'.findSome? fun s => s.state.lineSpacing.map UInt8.toNat := by
  cases hj with
  | same => rfl
  | join =>
    rw [List.findSome?_append, List.findSome?_append]
    congr 1
    simp only [List.findSome?_cons, ← h.spacing]
    rw [show (joined a b).state = a.state from rfl]
    cases a.state.lineSpacing <;> rfl

theorem joinIn_linesHeight {full : Bool} {t : FontTable} {a b : Span} (h : Joins a b) {ss ss'}
    (hj : JoinIn a b ss ss') (n : Nat) : linesHeight full t ss n = linesHeight full t ss' n := by
  have h1 : ∀ i, lineHeight t ss i = lineHeight t ss' i := fun i => joinIn_largest h (joinIn_onLine h hj i)
  have h2 : ∀ i, fontLineSpacing t ss i = fontLineSpacing t ss' i := fun i => joinIn_largest h (joinIn_onLine h hj i)
  have h3 : ∀ i, tagLineSpacing ss i = tagLineSpacing ss' i := fun i => joinIn_spacing h (joinIn_onLine h hj i)
  induction n with
  | zero => exact h1 0
  | succ n ih => simp only [linesHeight, lineSpace, ih, h1, h2, h3]

theorem dense_join {a b : Span} (h : Joins a b) {r n} : ∀ {l k},
    Dense k (l ++ a :: b :: r) n ↔ Dense k (l ++ joined a b :: r) n := by
  have e : (joined a b).state.lineNumber = a.state.lineNumber := rfl
  have hl := h.line
  intro l
  induction l with
  | nil =>
    intro k
    constructor
    · intro hd
      cases hd with
      | old h1 hd =>
        cases hd with
        | old _ hd => exact .old h1 hd
        | new h2 _ => omega
      | new h1 hd =>
        cases hd with
        | old _ hd => exact .new h1 hd
        | new h2 _ => omega
    · intro hd
      cases hd with
      | old h1 hd => exact .old (by omega) (.old (by omega) hd)
      | new h1 hd => exact .new (by omega) (.old (by omega) hd)
  | cons c l ih =>
    intro k
    constructor
    · intro hd
      cases hd with
      | old h1 hd => exact .old h1 (ih.1 hd)
      | new h1 hd => exact .new h1 (ih.1 hd)
    · intro hd
      cases hd with
      | old h1 hd => exact .old h1 (ih.2 hd)
      | new h1 hd => exact .new h1 (ih.2 hd)

theorem joinIn_dense {a b : Span} (h : Joins a b) {ss ss'} (hj : JoinIn a b ss ss') {k n} :
    Dense k ss n ↔ Dense k ss' n := by
  cases hj with
  | same => exact Iff.rfl
  | join => exact dense_join h

theorem joinIn_fitsWidth {d : Dms} (ht : WideChars d.fontDefinition) {a b : Span} (h : Joins a b) {ss ss'}
    (hj : JoinIn a b ss ss') {W s} : FitsWidth d ss W s ↔ FitsWidth d ss' W s := by
  unfold FitsWidth
  simp only [joinIn_lineWidth ht h (joinIn_sameLine h hj s)]

theorem joinIn_fitsHeight {d : Dms} {a b : Span} (h : Joins a b) {ss ss'}
    (hj : JoinIn a b ss ss') {H s} : FitsHeight d ss H s ↔ FitsHeight d ss' H s := by
  unfold FitsHeight
  simp only [joinIn_dense h (joinIn_samePage h hj s), joinIn_linesHeight h (joinIn_samePage h hj s)]

theorem fitsWidth_attr {d : Dms} {ss W} {s s' : Span} (h : textAttr s.state = textAttr s'.state)
    (hl : s.state.lineNumber = s'.state.lineNumber) : FitsWidth d ss W s ↔ FitsWidth d ss W s' := by
  obtain ⟨_, _, h1, h2, _⟩ := textAttr_eq h
  unfold FitsWidth sameLine
  rw [h1, h2, hl]

theorem fitsHeight_attr {d : Dms} {ss H} {s s' : Span} (h : textAttr s.state = textAttr s'.state) :
    FitsHeight d ss H s ↔ FitsHeight d ss H s' := by
  obtain ⟨_, _, h1, _, _⟩ := textAttr_eq h
  unfold FitsHeight samePage
  rw [h1]

/-- joined texts fit exactly when the texts fit -/
theorem textsFit_join {d : Dms} (ht : WideChars d.fontDefinition) {a b : Span} (h : Joins a b) {rect l r} :
    TextsFit d rect (l ++ a :: b :: r) ↔ TextsFit d rect (l ++ joined a b :: r) := by
  have hj : JoinIn a b (l ++ a :: b :: r) (l ++ joined a b :: r) := .join
  have key : ∀ s, ((∃ f es, FontOf d.fontDefinition s f ∧ Defined f s.str es) ∧
      FitsWidth d (l ++ a :: b :: r) rect.width.toNat s ∧ FitsHeight d (l ++ a :: b :: r) rect.height.toNat s) ↔
      ((∃ f es, FontOf d.fontDefinition s f ∧ Defined f s.str es) ∧
      FitsWidth d (l ++ joined a b :: r) rect.width.toNat s ∧ FitsHeight d (l ++ joined a b :: r) rect.height.toNat s) := by
    intro s
    rw [joinIn_fitsWidth ht h hj, joinIn_fitsHeight h hj]
  constructor
  · intro hf s hs
    simp only [List.mem_append, List.mem_cons] at hs
    rcases hs with hs | rfl | hs
    · exact (key s).1 (hf s (by simp [hs]))
    · obtain ⟨⟨f, es, f1, f2⟩, f3, f4⟩ := (key a).1 (hf a (by simp))
      obtain ⟨⟨f', es', f1', f2'⟩, _⟩ := hf b (by simp)
      obtain rfl := fontOf_unique ((fontOf_attr h.attr).1 f1) f1'
      exact ⟨⟨f, es ++ es', f1, defined_append.2 ⟨_, _, rfl, f2, f2'⟩⟩, (fitsWidth_attr (s := a) rfl rfl).1 f3,
        (fitsHeight_attr (s := a) rfl).1 f4⟩
    · exact (key s).1 (hf s (by simp [hs]))
  · intro hf s hs
    simp only [List.mem_append, List.mem_cons] at hs
    have hjn := hf (joined a b) (by simp)
    obtain ⟨⟨f, es, f1, f2⟩, f3, f4⟩ := hjn
    obtain ⟨e1, e2, rfl, d1, d2⟩ := defined_append.1 f2
    rcases hs with hs | rfl | rfl | hs
    · exact (key s).2 (hf s (by simp [hs]))
    · exact (key _).2 ⟨⟨f, e1, f1, d1⟩, (fitsWidth_attr (s := joined s b) rfl rfl).1 f3,
        (fitsHeight_attr (s := joined s b) rfl).1 f4⟩
    · exact (key _).2 ⟨⟨f, e2, (fontOf_attr h.attr).1 f1, d2⟩, (fitsWidth_attr (s := joined a s) h.attr h.line).1 f3,
        (fitsHeight_attr (s := joined a s) h.attr).1 f4⟩
    · exact (key s).2 (hf s (by simp [hs]))

/-! ### places -/

theorem sameLine_append (l r : List Span) (s : Span) : sameLine (l ++ r) s = sameLine l s ++ sameLine r s :=
  List.filter_append ..

theorem sameLine_self (l : List Span) (s : Span) : sameLine (s :: l) s = s :: sameLine l s :=
  List.filter_cons_of_pos (by simp)

theorem split_once {l l' r r' : List Span} {s : Span} (h : (l ++ s :: r).Pairwise (fun a b => a.state.spanNumber < b.state.spanNumber))
    (e : l ++ s :: r = l' ++ s :: r') : l = l' := by
  induction l generalizing l' with
  | nil =>
    cases l' with
    | nil => rfl
    | cons c l' =>
      simp only [List.nil_append, List.cons_append, List.cons.injEq] at e
      obtain ⟨rfl, e⟩ := e
      simp only [List.nil_append, List.pairwise_cons] at h
      have := h.1 s (by rw [e]; simp)
      omega
  | cons c l ih =>
    cases l' with
    | nil =>
      simp only [List.nil_append, List.cons_append, List.cons.injEq] at e
      obtain ⟨rfl, e⟩ := e
      simp only [List.cons_append, List.pairwise_cons] at h
      have := h.1 c (by simp)
      omega
    | cons c' l' =>
      simp only [List.cons_append, List.cons.injEq] at e
      rw [e.1, ih (List.pairwise_cons.1 h).2 e.2]

theorem sameLine_ordered {spans : List Span} (h : Ordered spans) (s : Span) :
    (sameLine spans s).Pairwise (fun a b => a.state.spanNumber < b.state.spanNumber) := by
  unfold sameLine
  rw [List.pairwise_filter]
  refine h.imp fun {a b} hab ha hb => ?_
  simp only [decide_eq_true_eq] at ha hb
  exact hab (ha.1.trans hb.1.symm) (ha.2.1.trans hb.2.1.symm) (ha.2.2.trans hb.2.2.symm)

/-- spans in order have one place each -/
theorem placed_of {d : Dms} {ps : List (Span × Nat × Nat)} (ho : Ordered (ps.map (·.1)))
    (h : ∀ p ∈ ps, AtX d (ps.map (·.1)) p.1 p.2.1 ∧ AtY d (ps.map (·.1)) p.1 p.2.2) : Placed d ps := by
  rintro l p r rfl
  obtain ⟨⟨pre, post, n, total, e, h1, h2, h3, h4⟩, hy⟩ := h p (by simp)
  refine ⟨⟨n, total, ?_, ?_, h3, h4⟩, hy⟩
  · have e0 : sameLine ((l ++ p :: r).map (·.1)) p.1 =
        sameLine (l.map (·.1)) p.1 ++ p.1 :: sameLine (r.map (·.1)) p.1 := by
      rw [List.map_append, List.map_cons, sameLine_append, sameLine_self]
    have hp := sameLine_ordered ho p.1
    rw [e0] at e hp
    rw [split_once hp e]
    exact h1
  · simpa using h2

theorem joinIn_append {a b : Span} {ss ss'} (h : JoinIn a b ss ss') (x : List Span) : JoinIn a b (ss ++ x) (ss' ++ x) := by
  cases h with
  | same => exact .same
  | join => rw [List.append_assoc, List.append_assoc]; exact .join

theorem before_joinIn {t : FontTable} (ht : WideChars t) {a b : Span} (h : Joins a b) {ss ss' s n}
    (hj : JoinIn a b ss ss') (hb : Before t ss s n) : Before t ss' s n := by
  obtain ⟨w, h1, h2⟩ := hb
  exact ⟨w, h1, (joinIn_lineWidth ht h (joinIn_append hj [s])).1 h2⟩

theorem before_joined {t : FontTable} (ht : WideChars t) {a b : Span} (h : Joins a b) {pre n m}
    (ha : Before t pre a n) (hb : Before t (pre ++ [a]) b m) :
    Before t pre (joined a b) n ∧ ∃ w g, SpanWidth t a w ∧ Gap t a b g ∧ m = n + w + g := by
  obtain ⟨w, h1, h2⟩ := ha
  obtain ⟨v, h3, h4⟩ := hb
  obtain ⟨f, _, h5, _⟩ := id h3
  have hg := gap_same h.attr h5
  have h6 := lineWidth_append h2 (LineWidth.next hg h3 .nil)
  rw [List.append_assoc] at h4
  have e := lineWidth_unique h4 h6
  refine ⟨⟨_, (spanWidth_join ht h).2 ⟨_, _, _, h1, hg, h3, rfl⟩, ?_⟩, w, _, h1, hg, by omega⟩
  exact lineWidth_cast ((lineWidth_join ht h).1 h6) (by omega)

theorem atY_joinIn {d : Dms} {a b : Span} (h : Joins a b) {ss ss'} (hj : JoinIn a b ss ss') {s y} :
    AtY d ss s y ↔ AtY d ss' s y := by
  unfold AtY
  simp only [joinIn_dense h (joinIn_samePage h hj s), joinIn_linesHeight h (joinIn_samePage h hj s)]

theorem atY_same {d : Dms} {ss : List Span} {a b : Span} {y z : Nat} (ha : textAttr a.state = textAttr b.state)
    (hl : a.state.lineNumber = b.state.lineNumber) (hr : a.state.textRectangle = b.state.textRectangle)
    (h : AtY d ss a y) (h' : AtY d ss b z) : y = z := by
  obtain ⟨_, _, j1, _⟩ := textAttr_eq ha
  obtain ⟨f, m, tot, h1, h2, h3, _, h5⟩ := h
  obtain ⟨f', m', tot', h1', h2', h3', _, h5'⟩ := h'
  obtain rfl := fontOf_unique ((fontOf_attr ha).1 h1) h1'
  have e : samePage ss a = samePage ss b := by unfold samePage; rw [j1]
  rw [e] at h2 h3 h5
  obtain rfl := dense_unique h2 h2'
  rw [← h3'] at h3
  subst h3
  rw [j1, hl, hr, ← h5'] at h5
  omega

theorem textLit_join {es1 es2 : List CharacterEntry} {cs h x y i j : Nat}
    (hs : 0 < (es1.map (·.width.toNat)).sum)
    (ha : ∀ es, es <+: es2 → es ≠ [] → advance cs ((es1 ++ es).map (·.width.toNat)) =
      advance cs (es1.map (·.width.toNat)) + cs + advance cs (es.map (·.width.toNat)))
    (hw : ∀ w ∈ es2.map (·.width.toNat), 0 < w) :
    TextLit (es1 ++ es2) cs h x y i j ↔ TextLit es1 cs h x y i j ∨
      TextLit es2 cs h (x + advance cs (es1.map (·.width.toNat)) + cs) y i j := by
  -- the place of a character of the second text
  have off : ∀ es, es <+: es2 →
      advance cs ((es1 ++ es).map (·.width.toNat)) + (if 0 < ((es1 ++ es).map (·.width.toNat)).sum then cs else 0) =
      advance cs (es1.map (·.width.toNat)) + cs + advance cs (es.map (·.width.toNat)) +
        (if 0 < (es.map (·.width.toNat)).sum then cs else 0) := by
    intro es hp
    have h1 : 0 < ((es1 ++ es).map (·.width.toNat)).sum := by rw [List.map_append, List.sum_append]; omega
    rw [if_pos h1]
    cases es with
    | nil => simp [advance_nil]
    | cons e es =>
      rw [ha _ hp (by simp), if_pos]
      have := hw e.width.toNat (List.mem_map_of_mem (hp.subset (by simp)))
      simp; omega
  constructor
  · rintro ⟨before, e, after, row, col, he, hr, hc, hb, rfl, rfl⟩
    rcases List.append_eq_append_iff.1 he with ⟨m, e1, e2⟩ | ⟨m, e1, e2⟩
    · subst e1
      refine .inr ⟨m, e, after, row, col, e2, hr, hc, hb, ?_, rfl⟩
      have := off m ⟨_, e2.symm⟩
      omega
    · cases m with
      | nil =>
        simp only [List.append_nil, List.nil_append] at e1 e2
        subst e1
        refine .inr ⟨[], e, after, row, col, by simpa using e2.symm, hr, hc, hb, ?_, rfl⟩
        have := off [] List.nil_prefix
        simp only [List.append_nil, List.map_nil] at this
        simp only [List.map_nil]
        omega
      | cons e' m =>
        simp only [List.cons_append, List.cons.injEq] at e2
        obtain ⟨rfl, rfl⟩ := e2
        exact .inl ⟨before, e, m, row, col, e1, hr, hc, hb, rfl, rfl⟩
  · rintro (⟨before, e, after, row, col, rfl, hr, hc, hb, rfl, rfl⟩ | ⟨before, e, after, row, col, rfl, hr, hc, hb, rfl, rfl⟩)
    · exact ⟨before, e, after ++ es2, row, col, by simp, hr, hc, hb, rfl, rfl⟩
    · refine ⟨es1 ++ before, e, after, row, col, by simp, hr, hc, hb, ?_, rfl⟩
      have := off before (List.prefix_append _ _)
      omega

theorem lightsAt_join {t : FontTable} (ht : WideChars t) {a b : Span} (h : Joins a b) {x y w g i j : Nat}
    (hw : SpanWidth t a w) (hg : Gap t a b g) (hb : ∃ v, SpanWidth t b v) :
    LightsAt t (joined a b) x y i j ↔ LightsAt t a x y i j ∨ LightsAt t b (x + w + g) y i j := by
  obtain ⟨f, es1, f1, d1, rfl⟩ := hw
  obtain ⟨_, f', es2, f2, d2, rfl⟩ := hb
  obtain rfl := fontOf_unique ((fontOf_attr h.attr).1 f1) f2
  obtain rfl := gap_unique hg (gap_same h.attr f2)
  obtain ⟨hs, hadv⟩ := advance_joined ht h (cs := charSpacing a f) (fontOf_mem f1) d1 d2
  have key := textLit_join (cs := charSpacing a f) (h := f.height.toNat) (x := x) (y := y) (i := i) (j := j) hs hadv
    (defined_wide ht (fontOf_mem f1) d2 h.rightNul)
  have e : charSpacing b f = charSpacing a f := (charSpacing_attr h.attr).symm
  have one : ∀ {s : Span} {es : List CharacterEntry} {x}, FontOf t s f → Defined f s.str es →
      (LightsAt t s x y i j ↔ TextLit es (charSpacing s f) f.height.toNat x y i j) := by
    intro s es x hf hd
    constructor
    · rintro ⟨f', es', hf', hd', hl⟩
      obtain rfl := fontOf_unique hf hf'
      obtain rfl := defined_unique hd hd'
      exact hl
    · intro hl
      exact ⟨f, es, hf, hd, hl⟩
  rw [one (s := joined a b) f1 (defined_append.2 ⟨_, _, rfl, d1, d2⟩), one f1 d1, one f2 d2, e]
  exact key

theorem split_cases {α : Type} {l r l0 r0 : List α} {q p : α} (h : l ++ q :: r = l0 ++ p :: r0) :
    (p = q ∧ l0 = l ∧ r0 = r) ∨ (∃ m, l0 = l ++ q :: m ∧ r = m ++ p :: r0) ∨ ∃ m, l = l0 ++ p :: m ∧ r0 = m ++ q :: r := by
  rcases List.append_eq_append_iff.1 h with ⟨m, e1, e2⟩ | ⟨m, e1, e2⟩
  · cases m with
    | nil =>
      simp only [List.nil_append, List.cons.injEq, List.append_nil] at e1 e2
      exact .inl ⟨e2.1.symm, e1, e2.2.symm⟩
    | cons c m =>
      simp only [List.cons_append, List.cons.injEq] at e2
      obtain ⟨rfl, e2⟩ := e2
      exact .inr (.inl ⟨m, e1, e2⟩)
  · cases m with
    | nil =>
      simp only [List.nil_append, List.cons.injEq, List.append_nil] at e1 e2
      exact .inl ⟨e2.1, e1.symm, e2.2⟩
    | cons c m =>
      simp only [List.cons_append, List.cons.injEq] at e2
      obtain ⟨rfl, e2⟩ := e2
      exact .inr (.inr ⟨m, e1, e2⟩)

theorem placeX_joinIn {d : Dms} (ht : WideChars d.fontDefinition) {a b : Span} (h : Joins a b) {l l' r r' s x}
    (hl : JoinIn a b l l') (hr : JoinIn a b (l ++ s :: r) (l' ++ s :: r')) (hx : PlaceX d l s r x) :
    PlaceX d l' s r' x := by
  obtain ⟨n, total, h1, h2, h3, h4⟩ := hx
  exact ⟨n, total, before_joinIn ht h (joinIn_sameLine h hl s) h1,
    (joinIn_lineWidth ht h (joinIn_sameLine h hr s)).1 h2, h3, h4⟩

/-- a joined text is at the place of the first text, and the other texts are not moved -/
theorem placed_join {d : Dms} (ht : WideChars d.fontDefinition) {a b : Span} (h : Joins a b)
    (hc : d.vmsCfg.charWidthPixels = 0 ∨ a.state.justLine ≠ .center) {l r x y u v}
    (hp : Placed d (l ++ (a, x, y) :: (b, u, v) :: r)) :
    Placed d (l ++ (joined a b, x, y) :: r) ∧
    ∀ i j, LightsAt d.fontDefinition (joined a b) x y i j ↔
      LightsAt d.fontDefinition a x y i j ∨ LightsAt d.fontDefinition b u v i j := by
  have hj : JoinIn a b ((l ++ (a, x, y) :: (b, u, v) :: r).map (·.1)) ((l ++ (joined a b, x, y) :: r).map (·.1)) := by
    simp only [List.map_append, List.map_cons]; exact .join
  obtain ⟨pa, ya⟩ := hp l _ _ rfl
  obtain ⟨pb, yb⟩ := hp (l ++ [(a, x, y)]) (b, u, v) r (by simp)
  obtain ⟨_, _, j1, j2, _⟩ := textAttr_eq h.attr
  obtain ⟨n, total, a1, a2, a3, a4⟩ := pa
  obtain ⟨m, total', b1, b2, b3, b4⟩ := pb
  have eb : ∀ ss, sameLine ss b = sameLine ss a := fun ss => by unfold sameLine; rw [j1, j2, h.line]
  rw [eb] at b1 b2
  dsimp only at a1 a2 a3 a4 b1 b2 b3 b4 ya yb
  have es : sameLine ((l ++ [(a, x, y)]).map (·.1)) a = sameLine (l.map (·.1)) a ++ [a] := by
    rw [List.map_append, sameLine_append]
    simp [sameLine]
  rw [es] at b1
  obtain ⟨k1, w, g, k2, k3, k4⟩ := before_joined ht h a1 b1
  have et : total = total' := by
    refine lineWidth_unique a2 ?_
    simpa using b2
  subst et
  have ey : y = v := atY_same h.attr h.line h.rect ya yb
  have ex : u = x + w + g := by
    rw [a4, b4, k4, ← j2, ← h.rect]
    rcases hc with hc | hc
    · have : signCellWidth d = 1 := by unfold signCellWidth; rw [hc]; rfl
      rw [this]
      simp only [cellEdge, Nat.mod_one]
      split <;> omega
    · rw [if_neg hc, if_neg hc]; omega
  refine ⟨?_, fun i j => ?_⟩
  · intro l0 p r0 e
    rcases split_cases e with ⟨rfl, rfl, rfl⟩ | ⟨q, rfl, rfl⟩ | ⟨q, rfl, rfl⟩
    · refine ⟨⟨n, total, k1, ?_, a3, a4⟩, (atY_joinIn h hj).1 ya⟩
      refine (joinIn_lineWidth ht h (joinIn_sameLine h ?_ a)).1 a2
      exact .join
    · obtain ⟨hx, hy⟩ := hp (l ++ (a, x, y) :: (b, u, v) :: q) p r0 (by simp)
      refine ⟨placeX_joinIn ht h ?_ ?_ hx, (atY_joinIn h hj).1 hy⟩
      · simp only [List.map_append, List.map_cons]; exact .join
      · simp only [List.map_append, List.map_cons, List.append_assoc, List.cons_append]; exact .join
    · obtain ⟨hx, hy⟩ := hp l0 p (q ++ (a, x, y) :: (b, u, v) :: r) (by simp)
      refine ⟨placeX_joinIn ht h .same ?_ hx, (atY_joinIn h hj).1 hy⟩
      simp only [List.map_append, List.map_cons]
      rw [← List.cons_append, ← List.append_assoc, ← List.cons_append, ← List.append_assoc]
      exact .join
  · rw [ex, ← ey]
    obtain ⟨wb, hwb, _⟩ := b1
    exact lightsAt_join ht h k2 k3 ⟨wb, hwb⟩

end Ntcip
