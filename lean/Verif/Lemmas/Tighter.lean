import Verif.Lemmas.Narrow
import Verif.Lemmas.Paint
import Verif.Spec.Tighter
/-
Lemmas for C131: the checks of a page with smaller spacings.
-/
namespace Ntcip
open Spec

theorem smaller_self (a : Option UInt8) : Smaller a a := by
  cases a with
  | none => exact .none
  | some a => exact .some (Nat.le_refl _)

/-- the same attributes, but with a smaller spacing of characters -/
structure AttrTighter (t t' : TextAttr) : Prop where
  spacing : Smaller t.charSpacing t'.charSpacing
  rest : t' = { t with charSpacing := t'.charSpacing }

theorem attrTighter_self (t : TextAttr) : AttrTighter t t := ⟨smaller_self _, rfl⟩

theorem tightened_or {v v'} (h : Tightened v v') : v' = v ∨ (∃ a b : UInt8, b.toNat ≤ a.toNat ∧ v = .spacingCharacter a ∧
    v' = .spacingCharacter b) ∨ ∃ a b : UInt8, b.toNat ≤ a.toNat ∧ v = .newLine (some a) ∧ v' = .newLine (some b) := by
  cases h with
  | same => exact .inl rfl
  | chars h => exact .inr (.inl ⟨_, _, h, rfl, rfl⟩)
  | lines h => exact .inr (.inr ⟨_, _, h, rfl, rfl⟩)

theorem apply_tighter (dflt : TextAttr) {t t' v v'} (h : AttrTighter t t') (hv : Tightened v v') :
    AttrTighter (dflt.apply t v) (dflt.apply t' v') := by
  obtain ⟨h1, h2⟩ := h
  rcases tightened_or hv with rfl | ⟨a, b, hab, rfl, rfl⟩ | ⟨a, b, hab, rfl, rfl⟩
  · rw [h2]
    cases v' with
    | font f => cases f <;> exact ⟨h1, rfl⟩
    | spacingCharacter n => exact ⟨smaller_self _, rfl⟩
    | spacingCharacterEnd => exact ⟨smaller_self _, rfl⟩
    | _ => exact ⟨h1, rfl⟩
  · rw [h2]
    exact ⟨.some hab, rfl⟩
  · exact ⟨h1, h2⟩

theorem foldl_tighter (dflt : TextAttr) {vs vs'} (h : Pairwise2 Tightened vs vs') : ∀ {t t'}, AttrTighter t t' →
    AttrTighter (vs.foldl (TextAttr.apply dflt) t) (vs'.foldl (TextAttr.apply dflt) t') := by
  induction h with
  | nil => intro t t' h; exact h
  | cons hr _ ih => intro t t' h; exact ih (apply_tighter dflt h hr)

theorem spacingAfter_tighter {sp sp' v v'} (h : Smaller sp sp') (hv : Tightened v v') :
    Smaller (spacingAfter sp v) (spacingAfter sp' v') := by
  rcases tightened_or hv with rfl | ⟨a, b, hab, rfl, rfl⟩ | ⟨a, b, hab, rfl, rfl⟩
  · cases v' with
    | newLine n => exact smaller_self _
    | _ => exact h
  · exact h
  · exact .some hab

theorem spacing_tighter {vs vs'} (h : Pairwise2 Tightened vs vs') : ∀ {sp sp'}, Smaller sp sp' →
    Smaller (vs.foldl spacingAfter sp) (vs'.foldl spacingAfter sp') := by
  induction h with
  | nil => intro t t' h; exact h
  | cons hr _ ih => intro t t' h; exact ih (spacingAfter_tighter h hr)

/-! ### spans -/

/-- the same text with smaller spacings -/
structure SpanTighter (s s' : Span) : Prop where
  chars : Smaller s.state.charSpacing s'.state.charSpacing
  lines : Smaller s.state.lineSpacing s'.state.lineSpacing
  str : s'.str = s.str
  fontNum : s'.state.fontNum = s.state.fontNum
  fontVersionId : s'.state.fontVersionId = s.state.fontVersionId
  justPage : s'.state.justPage = s.state.justPage
  justLine : s'.state.justLine = s.state.justLine
  lineNumber : s'.state.lineNumber = s.state.lineNumber

theorem fontOf_tighter {t s s' f} (h : SpanTighter s s') : FontOf t s' f ↔ FontOf t s f := by
  unfold FontOf; rw [h.fontNum, h.fontVersionId]

theorem sameLine_tighter {ss ss' s s'} (h : Pairwise2 SpanTighter ss ss') (hs : SpanTighter s s') :
    Pairwise2 SpanTighter (sameLine ss s) (sameLine ss' s') := by
  unfold sameLine
  refine h.filter fun a b hab => ?_
  rw [hab.justPage, hs.justPage, hab.lineNumber, hs.lineNumber, hab.justLine, hs.justLine]

theorem samePage_tighter {ss ss' s s'} (h : Pairwise2 SpanTighter ss ss') (hs : SpanTighter s s') :
    Pairwise2 SpanTighter (samePage ss s) (samePage ss' s') := by
  unfold samePage
  refine h.filter fun a b hab => ?_
  rw [hab.justPage, hs.justPage]

/-! ### widths -/

theorem charSpacing_tighter {s s'} (h : SpanTighter s s') (f : Font) : charSpacing s' f ≤ charSpacing s f := by
  unfold charSpacing
  have := h.chars
  generalize s.state.charSpacing = a at this ⊢
  generalize s'.state.charSpacing = b at this ⊢
  cases this with
  | none => exact Nat.le_refl _
  | some h => exact h

theorem spanWidth_tighter {t s s' w} (h : SpanTighter s s') (hw : SpanWidth t s w) : ∃ w', SpanWidth t s' w' ∧ w' ≤ w := by
  obtain ⟨f, es, h1, h2, rfl⟩ := hw
  refine ⟨_, ⟨f, es, (fontOf_tighter h).2 h1, by rw [h.str]; exact h2, rfl⟩, ?_⟩
  unfold advance
  exact Nat.add_le_add_left (Nat.mul_le_mul_right _ (charSpacing_tighter h f)) _

theorem gap_tighter {t p p' s s' g} (hp : SpanTighter p p') (hs : SpanTighter s s') (hg : Gap t p s g) :
    ∃ g', Gap t p' s' g' ∧ g' ≤ g := by
  unfold Gap at hg ⊢
  have hc := hs.chars
  generalize hx : s.state.charSpacing = x at hc hg
  generalize hy : s'.state.charSpacing = y at hc ⊢
  cases hc with
  | some h => exact ⟨_, rfl, by rw [hg]; exact h⟩
  | none =>
    obtain ⟨fp, fs, h1, h2, rfl⟩ := hg
    refine ⟨_, ⟨fp, fs, ?_, (fontOf_tighter hs).2 h2, rfl⟩, ?_⟩
    · intro hn
      refine (fontOf_tighter hp).2 (h1 ?_)
      have := hp.chars
      rw [hn] at this
      generalize p.state.charSpacing = z at this
      cases this; rfl
    · have k1 := charSpacing_tighter hp fp
      have k2 := charSpacing_tighter hs fs
      omega

theorem lineWidth_tighter {t ss n} : ∀ {p p' ss'}, LineWidth t p ss n → (p = none ↔ p' = none) →
    (∀ a b, p = some a → p' = some b → SpanTighter a b) → Pairwise2 SpanTighter ss ss' →
    ∃ n', LineWidth t p' ss' n' ∧ n' ≤ n := by
  intro p p' ss' h
  induction h generalizing p' ss' with
  | nil => intro _ _ h; cases h; exact ⟨0, .nil, Nat.le_refl _⟩
  | first hw _ ih =>
    intro hn hpp h
    cases h with
    | cons hr h =>
      obtain ⟨w', k1, k2⟩ := spanWidth_tighter hr hw
      obtain ⟨n', k3, k4⟩ := ih (p' := some _) (by simp) (by rintro a b ⟨⟩ ⟨⟩; exact hr) h
      obtain rfl := hn.1 rfl
      exact ⟨_, .first k1 k3, by omega⟩
  | next hg hw _ ih =>
    intro hn hpp h
    cases h with
    | cons hr h =>
      obtain ⟨w', k1, k2⟩ := spanWidth_tighter hr hw
      obtain ⟨n', k3, k4⟩ := ih (p' := some _) (by simp) (by rintro a b ⟨⟩ ⟨⟩; exact hr) h
      cases p' with
      | none => simp at hn
      | some q =>
        obtain ⟨g', k5, k6⟩ := gap_tighter (hpp _ _ rfl rfl) hr hg
        exact ⟨_, .next k5 k1 k3, by omega⟩

/-! ### heights -/

theorem counted_tighter {ss ss'} (h : Pairwise2 SpanTighter ss ss') : ∀ k,
    Pairwise2 SpanTighter (counted k ss) (counted k ss') ∧ lineCount k ss' = lineCount k ss := by
  induction h with
  | nil => intro k; exact ⟨.nil, rfl⟩
  | cons hr _ ih =>
    intro k
    simp only [counted, lineCount, hr.lineNumber]
    split
    · exact ⟨.cons hr (ih k).1, (ih k).2⟩
    · refine ⟨.cons ?_ (ih (k + 1)).1, (ih (k + 1)).2⟩
      exact ⟨hr.chars, hr.lines, hr.str, hr.fontNum, hr.fontVersionId, hr.justPage, hr.justLine, rfl⟩

theorem onLine_tighter {ss ss'} (h : Pairwise2 SpanTighter ss ss') (i : Nat) :
    Pairwise2 SpanTighter (onLine ss i) (onLine ss' i) := by
  unfold onLine
  refine h.filter fun a b hab => ?_
  rw [hab.lineNumber]

theorem ofFont_tighter {t ss ss'} (h : Pairwise2 SpanTighter ss ss') (get : Font → UInt8) :
    ss'.map (ofFont t get) = ss.map (ofFont t get) := by
  induction h with
  | nil => rfl
  | cons hr _ ih =>
    rw [List.map_cons, List.map_cons, ih]
    congr 1
    unfold ofFont
    rw [hr.fontNum]

theorem tagLineSpacing_tighter {ss ss'} (h : Pairwise2 SpanTighter ss ss') :
    (ss'.findSome? (fun s => s.state.lineSpacing.map UInt8.toNat) = none ∧
      ss.findSome? (fun s => s.state.lineSpacing.map UInt8.toNat) = none) ∨
    ∃ a b : Nat, b ≤ a ∧ ss'.findSome? (fun s => s.state.lineSpacing.map UInt8.toNat) = some b ∧
      ss.findSome? (fun s => s.state.lineSpacing.map UInt8.toNat) = some a := by
  induction h with
  | nil => exact .inl ⟨rfl, rfl⟩
  | @cons s s' _ _ hr _ ih =>
    rw [List.findSome?_cons, List.findSome?_cons]
    have := hr.lines
    generalize s.state.lineSpacing = x at this ⊢
    generalize s'.state.lineSpacing = y at this ⊢
    cases this with
    | none => exact ih
    | some h => exact .inr ⟨_, _, h, rfl, rfl⟩

theorem linesHeight_tighter {t ss ss'} (full : Bool) (h : Pairwise2 SpanTighter ss ss') (n : Nat) :
    linesHeight full t ss' n ≤ linesHeight full t ss n := by
  have h1 : ∀ i, lineHeight t ss' i = lineHeight t ss i := by
    intro i; unfold lineHeight; rw [ofFont_tighter (onLine_tighter h i)]
  have h2 : ∀ i, fontLineSpacing t ss' i = fontLineSpacing t ss i := by
    intro i; unfold fontLineSpacing; rw [ofFont_tighter (onLine_tighter h i)]
  have h4 : ∀ i, lineSpace full t ss' i ≤ lineSpace full t ss i := by
    intro i
    unfold lineSpace
    split
    · rw [h2, h2]
      unfold tagLineSpacing
      rcases tagLineSpacing_tighter (onLine_tighter h (i + 1)) with ⟨e1, e2⟩ | ⟨a, b, hab, e1, e2⟩
      · rw [e1, e2]; exact Nat.le_refl _
      · rw [e1, e2]; exact hab
    · exact Nat.le_refl _
  induction n with
  | zero => exact Nat.le_of_eq (h1 0)
  | succ n ih =>
    simp only [linesHeight, h1]
    have := h4 n
    omega

theorem linesHeight_cells {t ss ss'} (h : Pairwise2 SpanTighter ss ss') (n : Nat) :
    linesHeight false t ss' n = linesHeight false t ss n := by
  have h1 : ∀ i, lineHeight t ss' i = lineHeight t ss i := by
    intro i; unfold lineHeight; rw [ofFont_tighter (onLine_tighter h i)]
  induction n with
  | zero => exact h1 0
  | succ n ih => simp only [linesHeight, h1, ih, lineSpace, Bool.false_eq_true, if_false]

theorem countedHeight_tighter {d : Dms} {ss ss' s s'} (h : Pairwise2 SpanTighter ss ss') (hs : SpanTighter s s') (n : Nat) :
    countedHeight d ss' s' n ≤ countedHeight d ss s n := by
  unfold countedHeight
  rw [(counted_tighter (samePage_tighter h hs) 0).2]
  exact linesHeight_tighter _ (counted_tighter (samePage_tighter h hs) 0).1 _

theorem countedHeight_cells {d : Dms} {ss ss' s s'} (hd : d.vmsCfg.charHeightPixels ≠ 0) (h : Pairwise2 SpanTighter ss ss')
    (hs : SpanTighter s s') (n : Nat) : countedHeight d ss' s' n = countedHeight d ss s n := by
  unfold countedHeight
  rw [(counted_tighter (samePage_tighter h hs) 0).2, decide_eq_false hd]
  exact linesHeight_cells (counted_tighter (samePage_tighter h hs) 0).1 _

theorem lineCount_tighter {ss ss' s s'} (h : Pairwise2 SpanTighter ss ss') (hs : SpanTighter s s') :
    lineCount 0 (samePage ss' s') = lineCount 0 (samePage ss s) := (counted_tighter (samePage_tighter h hs) 0).2

/-! ### the checks -/

theorem spanStops_tighter {d : Dms} {rect ss ss' s s'} (h : Pairwise2 SpanTighter ss ss')
    (hs : SpanTighter s s') (hm' : s' ∈ ss') (hk : Silent (spanStops d rect ss s)) :
    Silent (spanStops d rect ss' s') := by
  unfold spanStops spanChecks at hk ⊢
  simp only [List.map_append, List.map_cons, List.map_map, List.map_nil, List.append_assoc, List.cons_append, silent_append,
    silent_cons, silent_map, Function.comp_apply] at hk ⊢
  obtain ⟨k1, k2, k3, k4, _, k5, _⟩ := hk
  have hl := sameLine_tighter h hs
  have hp := samePage_tighter h hs
  have hdef : ∀ a ∈ sameLine ss s, ∃ f es, FontOf d.fontDefinition a f ∧ Defined f a.str es :=
    fun a ha => glyphFault_none fun e => errors_silent (k1 a ha) e
  refine ⟨fun b hb z => errors_not fun e => ?_, fun z => errors_not fun e => ?_, fun b hb z => errors_not fun e => ?_,
    fun z => errors_not fun e => ?_, silent_nil, fun z => ?_, silent_nil⟩
  · obtain ⟨a, ha, hab⟩ := hl.mem_right hb
    obtain ⟨f, es, h1, h2⟩ := hdef a ha
    exact glyph_noFault ((fontOf_tighter hab).2 h1) (hab.str ▸ h2) e
  · rintro ⟨rfl, n', hn', hlt⟩
    obtain ⟨n, hn⟩ := lineWidth_some hdef none (by simp)
    obtain ⟨m, hm, hle⟩ := lineWidth_tighter hn (p' := none) (by simp) (by simp) hl
    have := lineWidth_unique hm hn'
    exact errors_silent k2 .textTooBig ⟨rfl, n, hn, by omega⟩
  · obtain ⟨a, ha, hab⟩ := hp.mem_right hb
    intro hf
    refine errors_silent (k3 a ha) e ?_
    cases hf with
    | missing hm => rw [hab.fontNum] at hm ⊢; exact .missing hm
    | version h1 h2 h3 => rw [hab.fontNum] at h1; rw [hab.fontVersionId] at h2; exact .version h1 h2 h3
  · rintro ⟨rfl, hh⟩
    refine errors_silent k4 .textTooBig ⟨rfl, ?_⟩
    unfold totalHeight at hh ⊢
    rw [lineCount_tighter h hs] at hh
    have := countedHeight_tighter (d := d) h hs (lineCount 0 (samePage ss s) - 1)
    omega
  · cases z with
    | error e => exact id
    | panic =>
      rintro ⟨h1, f, h2, h3⟩
      have hown := countedHeight_own hm' h2
      by_cases hc : d.vmsCfg.charHeightPixels = 0
      · have e : signCellHeight d = 1 := by unfold signCellHeight; rw [hc]; rfl
        rw [e] at h3
        unfold cellEdge at h3
        rw [Nat.mod_one] at h3
        omega
      · refine k5 .panic ⟨hs.justPage ▸ h1, f, (fontOf_tighter hs).1 h2, ?_⟩
        unfold totalHeight at h3 ⊢
        rw [lineCount_tighter h hs, countedHeight_cells hc h hs, countedHeight_cells hc h hs, hs.lineNumber] at h3
        exact h3

theorem textStops_tighter {d : Dms} {rect ss ss'} (h : Pairwise2 SpanTighter ss ss')
    (hk : Silent (textStops d rect ss)) : Silent (textStops d rect ss') := by
  unfold textStops at hk ⊢
  rw [silent_cons, silent_flatMap] at hk ⊢
  refine ⟨fun z => errors_not fun e => ?_, fun b hb => ?_⟩
  · rintro ⟨rfl, i, a', b', h1, h2, h3⟩
    obtain ⟨a, k1, k2⟩ := h.get i h1
    obtain ⟨b, k3, k4⟩ := h.get (i + 1) h2
    refine errors_silent hk.1 .tagConflict ⟨rfl, i, a, b, k1, k3, ?_⟩
    unfold Backwards at h3 ⊢
    rw [k2.justPage, k4.justPage, k2.lineNumber, k4.lineNumber, k2.justLine, k4.justLine] at h3
    exact h3
  · obtain ⟨a, ha, hab⟩ := h.mem_right hb
    exact spanStops_tighter h hab hb (hk.2 a ha)

/-! ### values -/

theorem pieces_tighter {d : Dms} {rect} {vs vs'} (h : Pairwise2 Tightened vs vs') : ∀ {t t' sp sp'} (n b), AttrTighter t t' →
    Smaller sp sp' → Pairwise2 SpanTighter ((pieces (signAttr d) t sp n b vs).map (spanOf d rect))
      ((pieces (signAttr d) t' sp' n b vs').map (spanOf d rect)) := by
  induction h with
  | nil => intro t t' sp sp' n b _ _; exact .nil
  | @cons v v' vs vs' hr _ ih =>
    intro t t' sp sp' n b ht hsp
    simp only [pieces, List.map_append]
    have hspan : ∀ x l, SpanTighter (spanOf d rect ⟨t, sp, l, x⟩) (spanOf d rect ⟨t', sp', l, x⟩) := by
      intro x l
      refine ⟨ht.spacing, hsp, rfl, ?_, ?_, ?_, ?_, rfl⟩ <;> (unfold spanOf; rw [ht.rest])
    have hl : lineAfter (signAttr d) t' n v' = lineAfter (signAttr d) t n v := by
      rw [ht.rest]
      rcases tightened_or hr with rfl | ⟨x, y, _, rfl, rfl⟩ | ⟨x, y, _, rfl, rfl⟩
      · cases v' <;> rfl
      · rfl
      · rfl
    have hbl : blankAfter b v' = blankAfter b v := by
      rcases tightened_or hr with rfl | ⟨x, y, _, rfl, rfl⟩ | ⟨x, y, _, rfl, rfl⟩ <;> rfl
    rw [hl, hbl]
    refine Pairwise2.append ?_ (ih _ _ (apply_tighter _ ht hr) (spacingAfter_tighter hsp hr))
    rcases tightened_or hr with rfl | ⟨x, y, _, rfl, rfl⟩ | ⟨x, y, _, rfl, rfl⟩
    · cases v' with
      | text x => exact .cons (hspan _ _) .nil
      | hexadecimalCharacter c => exact .cons (hspan _ _) .nil
      | newLine x =>
        cases b with
        | true => exact .cons (hspan _ _) .nil
        | false => exact .nil
      | _ => exact .nil
    · exact .nil
    · cases b with
      | true => exact .cons (hspan _ _) .nil
      | false => exact .nil

theorem silent_tightened {vs vs'} (h : Pairwise2 Tightened vs vs') {c : Value → StopCheck}
    (hc : ∀ a b : UInt8, b.toNat ≤ a.toNat → (∀ z, ¬ c (.spacingCharacter a) z) → ∀ z, ¬ c (.spacingCharacter b) z)
    (hn : ∀ a b : UInt8, b.toNat ≤ a.toNat → (∀ z, ¬ c (.newLine (some a)) z) → ∀ z, ¬ c (.newLine (some b)) z)
    (hk : Silent (vs.map c)) : Silent (vs'.map c) := by
  rw [silent_map] at hk ⊢
  intro v hv
  obtain ⟨a, ha, hr⟩ := h.mem_right hv
  rcases tightened_or hr with rfl | ⟨x, y, hxy, rfl, rfl⟩ | ⟨x, y, hxy, rfl, rfl⟩
  · exact hk _ ha
  · exact hc _ _ hxy (hk _ ha)
  · exact hn _ _ hxy (hk _ ha)

theorem rectStops_tighter {d : Dms} {t t' sp sp' rect ws ws' next} (h : Pairwise2 Tightened ws ws') (ht : AttrTighter t t')
    (hsp : Smaller sp sp') (hk : Silent (rectStops d t sp rect ws next)) : Silent (rectStops d t' sp' rect ws' next) := by
  have zero : ∀ {a b : UInt8}, b.toNat ≤ a.toNat → a = 0 → b = 0 := by
    rintro a b hab rfl
    have : b.toNat = 0 := by simpa using hab
    exact UInt8.toNat_inj.1 (by simpa using this)
  unfold rectStops at hk ⊢
  simp only [silent_append] at hk ⊢
  refine ⟨silent_tightened h ?_ ?_ hk.1, silent_tightened h ?_ ?_ hk.2.1, hk.2.2.1,
    textStops_tighter (pieces_tighter h 0 true ht hsp) hk.2.2.2⟩
  · intro a b _ _ z
    cases z with
    | error e => rintro ⟨_, h⟩; cases h with | value h _ => cases h
    | panic =>
      rintro (h | ⟨r, c, h, _⟩)
      · cases h
      · cases h
  · intro a b _ _ z
    cases z with
    | error e => rintro ⟨_, h⟩; cases h with | value h _ => cases h
    | panic =>
      rintro (h | ⟨r, c, h, _⟩)
      · cases h
      · cases h
  · intro a b hab hno z
    refine errors_not fun e hf => ?_
    obtain ⟨h1, h2, rfl⟩ := hf
    refine errors_silent hno _ ⟨h1, fun hv => h2 ⟨fun c hc => (by cases hc), ?_⟩, rfl⟩
    exact hv.2.imp id (zero hab)
  · intro a b hab hno z
    refine errors_not fun e hf => ?_
    obtain ⟨h1, h2, rfl⟩ := hf
    refine errors_silent hno _ ⟨h1, fun hv => h2 ⟨fun c hc => (by cases hc), ?_⟩, rfl⟩
    exact hv.2.imp id (zero hab)

/-- the text rectangles of two pages: the same ones, with smaller spacings -/
def SectionsTighter : List (Rectangle × List Value) → List (Rectangle × List Value) → Prop :=
  Pairwise2 fun x y => x.1 = y.1 ∧ Pairwise2 Tightened x.2 y.2

theorem sections_tighter {vs vs'} (h : Pairwise2 Tightened vs vs') :
    Pairwise2 Tightened (sections vs).1 (sections vs').1 ∧ SectionsTighter (sections vs).2 (sections vs').2 := by
  induction h with
  | nil => exact ⟨.nil, .nil⟩
  | @cons v v' vs vs' hr _ ih =>
    by_cases hv : ∃ r, v = .textRectangle r
    · obtain ⟨r, rfl⟩ := hv
      cases hr
      exact ⟨.nil, .cons ⟨rfl, ih.1⟩ ih.2⟩
    · have hv1 : ∀ r, v ≠ .textRectangle r := fun r h => hv ⟨r, h⟩
      have hv2 : ∀ r, v' ≠ .textRectangle r := by
        rcases tightened_or hr with rfl | ⟨x, y, _, rfl, rfl⟩ | ⟨x, y, _, rfl, rfl⟩
        · exact hv1
        · simp
        · simp
      rw [sections_cons hv1, sections_cons hv2]
      exact ⟨.cons hr ih.1, ih.2⟩

theorem rectsStops_tighter {d : Dms} {more more'} (hm : SectionsTighter more more') :
    ∀ {n t t' sp sp' rect ws ws'}, Pairwise2 Tightened ws ws' → AttrTighter t t' → Smaller sp sp' →
    Silent (rectsStops d n t sp rect ws more) → Silent (rectsStops d n t' sp' rect ws' more') := by
  induction hm with
  | nil =>
    intro n t t' sp sp' rect ws ws' h ht hsp hk
    unfold rectsStops at hk ⊢
    rw [silent_append] at hk ⊢
    exact ⟨rectStops_tighter h ht hsp hk.1, hk.2⟩
  | @cons x y more more' hr _ ih =>
    intro n t t' sp sp' rect ws ws' h ht hsp hk
    obtain ⟨r, us⟩ := x
    obtain ⟨r', us'⟩ := y
    obtain ⟨rfl, hu⟩ : r = r' ∧ _ := hr
    unfold rectsStops at hk ⊢
    rw [silent_append, silent_cons] at hk ⊢
    exact ⟨rectStops_tighter h ht hsp hk.1, hk.2.1, ih hu (foldl_tighter _ h ht) (spacing_tighter h hsp) hk.2.2⟩

theorem pageStops_tighter {d : Dms} {t t' vs vs'} (h : Pairwise2 Tightened vs vs') (ht : AttrTighter t t')
    (hk : Silent (pageStops d t vs)) : Silent (pageStops d t' vs') := by
  unfold pageStops at hk ⊢
  rw [silent_append] at hk ⊢
  refine ⟨silent_tightened h ?_ ?_ hk.1, rectsStops_tighter (sections_tighter h).2 (sections_tighter h).1 ht .none hk.2⟩
  · intro a b _ _ z
    exact errors_not fun e h => by cases h
  · intro a b _ _ z
    exact errors_not fun e h => by cases h

end Ntcip
