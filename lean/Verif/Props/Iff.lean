import Verif.Props.First
import Verif.Props.Oversize
import Verif.Props.Pattern
/-
Exact conditions for properties whose full claims are false: C45, C55, C57.
-/
namespace Ntcip
open Spec Tests

/-- a text without faults of its own -/
theorem spanChecks_own {d rect spans s} (hg : ∀ s ∈ spans, ∃ f es, FontOf d.fontDefinition s f ∧ Defined f s.str es)
    {c : Check} (hc : c ∈ spanChecks d rect spans s) {e} (he : c e) :
    e = .textTooBig ∧ ((∃ n, LineWidth d.fontDefinition none (sameLine spans s) n ∧ rect.width.toNat < n) ∨
      rect.height.toNat < totalHeight d spans s) := by
  unfold spanChecks at hc
  simp only [List.mem_append, List.mem_map, List.mem_cons, List.not_mem_nil, or_false] at hc
  have mem : ∀ {s'}, s' ∈ sameLine spans s ∨ s' ∈ samePage spans s → s' ∈ spans := by
    rintro s' (h | h)
    · exact (List.mem_filter.1 h).1
    · exact (List.mem_filter.1 h).1
  rcases hc with ⟨s', hs', rfl⟩ | rfl | ⟨s', hs', rfl⟩ | rfl
  · obtain ⟨f, es, h1, h2⟩ := hg s' (mem (.inl hs'))
    exact (glyph_noFault h1 h2 e he).elim
  · exact ⟨he.1, .inl he.2⟩
  · obtain ⟨f, es, h1, h2⟩ := hg s' (mem (.inr hs'))
    exact (fontOf_noFault h1 e he).elim
  · exact ⟨he.1, .inr he.2⟩

/-- **C45 (exact)** texts that can be drawn, with justifications in order, are drawn exactly when every line is at most as
wide as the text rectangle and the lines of each page justification, as they are counted (`totalHeight`), are at most as
high; otherwise the error is `TextTooBig`.  (All lists of spans of one rectangle on which drawing does not panic.) -/
theorem C45_exact (d : Dms) (spans : List Span) (rect : Rectangle) (page : Raster)
    (hr : ∀ s ∈ spans, s.state.textRectangle = rect) (hp : ∀ p, renderTextSpans d spans page ≠ .panic p)
    (hg : ∀ s ∈ spans, ∃ f es, FontOf d.fontDefinition s f ∧ Defined f s.str es)
    (hj : ∀ (i : Nat) (a b : Span), spans[i]? = some a → spans[i + 1]? = some b → ¬ Backwards a b) :
    ((∃ page', renderTextSpans d spans page = .ok page') ↔
      ∀ s ∈ spans, FitsWidth d spans rect.width.toNat s ∧ totalHeight d spans s ≤ rect.height.toNat) ∧
    (renderTextSpans d spans page = .err .textTooBig ↔
      ∃ s ∈ spans, (∃ n, LineWidth d.fontDefinition none (sameLine spans s) n ∧ rect.width.toNat < n) ∨
        rect.height.toNat < totalHeight d spans s) := by
  have own : ∀ c ∈ textChecks d rect spans, ∀ e, c e → e = .textTooBig ∧
      ∃ s ∈ spans, (∃ n, LineWidth d.fontDefinition none (sameLine spans s) n ∧ rect.width.toNat < n) ∨
        rect.height.toNat < totalHeight d spans s := by
    intro c hc e he
    unfold textChecks at hc
    rcases List.mem_cons.1 hc with rfl | hc
    · obtain ⟨_, i, a, b, h1, h2, h3⟩ := he
      exact (hj i a b h1 h2 h3).elim
    · obtain ⟨s, hs, hc⟩ := List.mem_flatMap.1 hc
      obtain ⟨h1, h2⟩ := spanChecks_own hg hc he
      exact ⟨h1, s, hs, h2⟩
  have firstMem : ∀ {cs : List Check} {e}, First cs e → ∃ c ∈ cs, c e := by
    intro cs e h
    induction h with
    | here h => exact ⟨_, List.mem_cons_self .., h⟩
    | later _ _ ih => obtain ⟨c, h1, h2⟩ := ih; exact ⟨c, List.mem_cons_of_mem _ h1, h2⟩
  have inChecks : ∀ s ∈ spans, WideFault d rect spans s ∈ textChecks d rect spans ∧
      HighFault d rect spans s ∈ textChecks d rect spans := by
    intro s hs
    refine ⟨List.mem_cons_of_mem _ (List.mem_flatMap.2 ⟨s, hs, ?_⟩),
      List.mem_cons_of_mem _ (List.mem_flatMap.2 ⟨s, hs, ?_⟩)⟩ <;> simp [spanChecks]
  cases h : renderTextSpans d spans page with
  | panic p => exact absurd h (hp p)
  | ok page' =>
    have v := renderTextSpans_first (r := none) hr ⟨_, h⟩
    have hno : ∀ s ∈ spans, ¬ ((∃ n, LineWidth d.fontDefinition none (sameLine spans s) n ∧ rect.width.toNat < n) ∨
        rect.height.toNat < totalHeight d spans s) := by
      rintro s hs (k | k)
      · exact v _ (inChecks s hs).1 _ ⟨rfl, k⟩
      · exact v _ (inChecks s hs).2 _ ⟨rfl, k⟩
    refine ⟨⟨fun _ s hs => ⟨?_, ?_⟩, fun _ => ⟨_, rfl⟩⟩, ⟨by simp, fun ⟨s, hs, k⟩ => (hno s hs k).elim⟩⟩
    · have := (C45_drawn d spans page page' h s hs).1
      rwa [hr s hs] at this
    · have := hno s hs; omega
  | err e =>
    have v := renderTextSpans_first (r := some e) hr h
    obtain ⟨c, hc, he⟩ := firstMem v
    obtain ⟨rfl, s, hs, k⟩ := own c hc e he
    refine ⟨⟨by simp, fun hfit => ?_⟩, ⟨fun _ => ⟨s, hs, k⟩, fun _ => rfl⟩⟩
    obtain ⟨⟨n, h1, h2⟩, h3⟩ := hfit s hs
    rcases k with ⟨n', k1, k2⟩ | k
    · have := lineWidth_unique h1 k1; omega
    · omega



-- texts on a line with number 1 only, which is counted as two lines: drawn in a rectangle 18 rows high, not in one of 10
def Tests.gapSpans (h : UInt16) : List Span :=
  let rs := { RenderState.new fullDms with textRectangle := ⟨1, 1, 60, h⟩, lineNumber := 1 }
  [⟨rs, c!"A"⟩, ⟨{ rs with spanNumber := 1 }, c!"B"⟩]
example : (∀ s ∈ gapSpans 10, (decide (totalHeight fullDms (gapSpans 10) s = 18)) = true) ∧
    (renderTextSpans fullDms (gapSpans 10) (.withColor 60 30 (0, 0, 0)) matches .err .textTooBig) = true ∧
    (renderTextSpans fullDms (gapSpans 18) (.withColor 60 30 (0, 0, 0)) matches .ok _) = true := by decide +kernel
example : (∀ s ∈ gapSpans 10, ∃ f es, FontOf fullDms.fontDefinition s f ∧ Defined f s.str es) ∧
    ∀ (i : Nat) (a b : Span), (gapSpans 10)[i]? = some a → (gapSpans 10)[i + 1]? = some b → ¬ Backwards a b := by
  refine ⟨?_, ?_⟩
  · intro s hs
    simp only [gapSpans, List.mem_cons, List.not_mem_nil, or_false] at hs
    rcases hs with rfl | rfl
    · exact ⟨f08, c!"A".filterMap f08.character, ⟨rfl, by decide⟩, by unfold Defined; decide +kernel⟩
    · exact ⟨f08, c!"B".filterMap f08.character, ⟨rfl, by decide⟩, by unfold Defined; decide +kernel⟩
  · intro i a b h1 h2
    match i with
    | 0 => simp [gapSpans] at h1 h2; subst h1; subst h2; unfold Backwards; decide +kernel
    | 1 => simp [gapSpans] at h2
    | i + 2 => simp [gapSpans] at h2

/-! ### C55 -/

theorem widthsR_ok {d : Dms} {l : List (Rectangle × UInt8)} : ∀ {n ws}, widthsR d l n = .ok ws →
    (∀ x ∈ l, ∃ k, d.rectLines x.1 x.2 = .ok k) ∧ (n ≤ 255 → n + l.length ≤ 255) := by
  induction l with
  | nil => intro n ws _; simp
  | cons x l ih =>
    intro n ws h
    obtain ⟨r, f⟩ := x
    rw [widthsR] at h
    obtain ⟨n', hn, h⟩ := Res.bind_eq_ok.1 h
    obtain ⟨k, hk, h⟩ := Res.bind_eq_ok.1 h
    obtain ⟨t, ht, _⟩ := Res.bind_eq_ok.1 h
    unfold chk8 at hn
    split at hn
    · rename_i hlt
      simp only [Res.ok.injEq] at hn
      subst hn
      obtain ⟨i1, i2⟩ := ih ht
      refine ⟨fun x hx => ?_, fun _ => ?_⟩
      · rcases List.mem_cons.1 hx with rfl | hx
        · exact ⟨k, hk⟩
        · exact i1 x hx
      · have := i2 (by omega)
        simp only [List.length_cons]; omega
    · simp at hn

/-- **C55 (exactly when)** on a sign that supports `[np]`, the fillable lines are enumerated exactly when no tag of the
pattern panics (C03), there are at most 255 fillable areas, and the lines of each of them can be counted (C26); otherwise
`widths` panics. -/
theorem C55_ok_iff (d : Dms) (pat : Str) (hnp : supports d .newPage = true) :
    (∃ ws, widths d pat = .ok ws) ↔ ¬ HasPanicTag pat ∧
      ((areas (patternValues d pat)).filter (Area.fillable d)).length ≤ 255 ∧
      ∀ a ∈ areas (patternValues d pat), a.fillable d = true → ∃ k, d.rectLines (a.rect d) (a.font d) = .ok k := by
  have hon : areasOn d (areas (patternValues d pat)) = areas (patternValues d pat) := by rw [areasOn, if_pos hnp]
  constructor
  · rintro ⟨ws, h⟩
    have hp := widths_ok_panic h
    rw [widths, widthsLoop_rects _ _ _ (widthsLoop_ok_panic d h), rects_pattern _ _ hp, hon] at h
    obtain ⟨h1, h2⟩ := widthsR_ok h
    refine ⟨fun hpt => ?_, ?_, fun a ha hf => ?_⟩
    · obtain ⟨s, hs, p, e⟩ := (hasPanicTag_iff pat).1 hpt
      have := hp _ (List.mem_map_of_mem hs)
      rw [e] at this
      simp [isPanic] at this
    · simpa using h2 (by omega)
    · exact h1 _ (List.mem_map_of_mem (List.mem_filter.2 ⟨ha, hf⟩))
  · rintro ⟨hp, hn, hr⟩
    have hv : ∀ x ∈ values pat, isPanic x = false := by
      intro x hx
      cases x with
      | ok x => rfl
      | panic p =>
        obtain ⟨s, hs, e⟩ := List.mem_map.1 hx
        exact absurd ((hasPanicTag_iff pat).2 ⟨s, hs, p, e⟩) hp
    have hi : ∀ x ∈ patItems d pat, isPanic x = false := by rw [patItems_eq, patRun_panic]; exact hv
    rw [widths, widthsLoop_rects _ _ _ hi, rects_pattern _ _ hv, hon]
    refine widthsR_total d _ 0 (by simpa using hn) ?_
    intro x hx
    obtain ⟨a, ha, rfl⟩ := List.mem_map.1 hx
    exact hr a (List.mem_filter.1 ha).1 (List.mem_filter.1 ha).2

-- 255 fillable pages are enumerated, 256 are a panic
example : (match widths patDms (List.replicate 254 c!"[np]").flatten with
      | .ok ws => decide (ws.length = 510)
      | .panic _ => false) = true ∧
    (widths patDms (List.replicate 255 c!"[np]").flatten matches .panic _) = true := by decide +kernel

/-! ### C57 -/

/-- **C57 (exact)** what `fill` gives for a valid pattern: all texts and tags of the pattern but font tags, in order and in
canonical form, with the lines in the fillable areas, each taking as many as fit; behind the lines of each fillable area
is the last of the font tags since the fillable area before, if there is one (`Filled`).  Font tags behind the last
fillable area are not in the output. -/
theorem C57_exact (d : Dms) (pat : Str) (vs : List Value) (ls : List Str) (s : Str) (h : ValidPattern d pat vs)
    (hn : supports d .newPage = true) (hf : fill d pat ls = .ok s) (s' : Str) :
    Filled d (areas vs) ls none s' ↔ s' = s := by
  have hs := fill_filled h hn hf
  have uniq : ∀ {as : List Area} {ls p s s'}, Filled d as ls p s → Filled d as ls p s' → s = s' := by
    intro as ls p s s' h h'
    induction h generalizing s' with
    | nil => cases h'; rfl
    | skip hf _ ih =>
      cases h' with
      | skip _ h' => rw [ih h']
      | fill hf' _ _ => rw [hf] at hf'; cases hf'
    | fill hf hk _ ih =>
      cases h' with
      | skip hf' _ => rw [hf] at hf'; cases hf'
      | fill _ hk' h' => rw [hk] at hk'; cases hk'; rw [ih h']
  constructor
  · exact fun h' => uniq h' hs
  · rintro rfl; exact hs

end Ntcip
