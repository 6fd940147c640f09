import Verif.Spec.Drawn
import Verif.Lemmas.Place
/-
Lemmas on the lines of text, if their numbers have gaps.
-/
namespace Ntcip
open Spec

theorem counted_dense (ss : List Span) : ∀ k, Dense k (counted k ss) (lineCount k ss) := by
  induction ss with
  | nil => intro k; exact .nil
  | cons s ss ih =>
    intro k
    unfold counted lineCount
    split
    · rename_i h; exact .old h (ih k)
    · exact .new rfl (ih (k + 1))

theorem counted_of_dense {k ss n} (h : Dense k ss n) : counted k ss = ss ∧ lineCount k ss = n := by
  induction h with
  | nil => exact ⟨rfl, rfl⟩
  | old h _ ih => simp only [counted, lineCount, h, if_true, ih]; exact ⟨trivial, trivial⟩
  | @new k s ss n h _ ih =>
    have : ¬ s.state.lineNumber < k := by omega
    simp only [counted, lineCount, this, if_false, ih]
    refine ⟨?_, trivial⟩
    subst h
    rfl

theorem lineCount_le (ss : List Span) : ∀ k, k ≤ lineCount k ss := by
  induction ss with
  | nil => intro k; exact Nat.le_refl k
  | cons s ss ih =>
    intro k
    unfold lineCount
    split
    · exact ih k
    · have := ih (k + 1); omega

theorem lineCount_pos {ss : List Span} (h : ss ≠ []) : 0 < lineCount 0 ss := by
  cases ss with
  | nil => exact absurd rfl h
  | cons s ss =>
    unfold lineCount
    rw [if_neg (by omega)]
    exact lineCount_le ss 1

theorem textLines_counted {t : FontTable} (ss : List Span) : ∀ ls, textLines t (counted ls.length ss) ls = textLines t ss ls := by
  induction ss with
  | nil => intro ls; rfl
  | cons s ss ih =>
    intro ls
    unfold counted
    by_cases h : s.state.lineNumber < ls.length
    · rw [if_pos h]
      unfold textLines
      simp only [if_neg (show ¬ s.state.lineNumber ≥ ls.length by omega)]
      congr 1; funext a
      congr 1; funext b
      have := ih (combineAt ls s.state.lineNumber ⟨a, b, s.lineSpacing⟩)
      rw [combineAt_length] at this
      exact this
    · rw [if_neg h]
      unfold textLines
      simp only [if_pos (show s.state.lineNumber ≥ ls.length by omega),
        if_pos (show (Span.onLineNumber s ls.length).state.lineNumber ≥ ls.length from Nat.le_refl _)]
      show (s.height t >>= _) = _
      congr 1; funext a
      show (s.fontSpacing t >>= _) = _
      congr 1; funext b
      have := ih (ls ++ [⟨a, b, s.lineSpacing⟩])
      rw [List.length_append] at this
      exact this

theorem counted_fonts {t : FontTable} {ss : List Span} (h : ∀ s ∈ ss, ∃ f, FontOf t s f) : ∀ k,
    ∀ s ∈ counted k ss, ∃ f, FontOf t s f := by
  induction ss with
  | nil => intro k s hs; simp [counted] at hs
  | cons a ss ih =>
    intro k s hs
    have ih := ih fun s hs => h s (List.mem_cons_of_mem _ hs)
    unfold counted at hs
    split at hs
    · rcases List.mem_cons.1 hs with rfl | hs
      · exact h s (List.mem_cons_self ..)
      · exact ih k s hs
    · rcases List.mem_cons.1 hs with rfl | hs
      · exact h a (List.mem_cons_self ..)
      · exact ih (k + 1) s hs

theorem textLines_count {t : FontTable} {ss : List Span} (h : ∀ s ∈ ss, ∃ f, FontOf t s f) :
    textLines t ss [] = .ok ((List.range (lineCount 0 ss)).map (specLine t (counted 0 ss))) := by
  rw [← textLines_counted]
  exact textLines_spec (counted_dense ss 0) (counted_fonts h 0)

theorem vSum_count {full t ss sln n} (h : 0 < n) :
    vAbove full sln ((List.range n).map (specLine t ss)) 0 none = linesHeight full t ss (min sln (n - 1)) ∧
    vBelow full sln ((List.range n).map (specLine t ss)) 0 none =
      linesHeight full t ss (n - 1) - linesHeight full t ss (min sln (n - 1)) ∧
    linesHeight full t ss (min sln (n - 1)) ≤ linesHeight full t ss (n - 1) := by
  obtain ⟨h1, h2, h3, h4⟩ := vSum (full := full) (t := t) (ss := ss) (sln := sln) n 0
  rw [← List.range_eq_range'] at h1 h2
  have em : max 0 (min (sln + 1) (0 + n)) = min sln (n - 1) + 1 := by omega
  rw [em] at h1 h2 h4
  have en : 0 + n = (n - 1) + 1 := by omega
  rw [en] at h2 h4
  simp only [prevLine, heightTo, Nat.sub_zero] at h1 h2 h4
  exact ⟨h1, h2, h4⟩

/-- what the two loops of `offset_vert` give, for any spans -/
theorem offsetLines_counted {d : Dms} {spans s ls a b} (hs : s ∈ spans)
    (h1 : textLines d.fontDefinition (samePage spans s) [] = .ok ls)
    (h2 : offsetVertLoop (decide (d.vmsCfg.charHeightPixels = 0)) s.state.lineNumber ls 0 none 0 0 = .ok (a, b)) :
    a = countedHeight d spans s s.state.lineNumber ∧ a + b = totalHeight d spans s := by
  have hf : ∀ x ∈ samePage spans s, ∃ f, FontOf d.fontDefinition x f := fun x hx => by
    obtain ⟨f, hf, _⟩ := textLines_own h1 hx; exact ⟨f, hf⟩
  rw [textLines_count hf, Out.ok.injEq] at h1
  subst h1
  obtain ⟨v1, v2, v3⟩ := vSum_count (full := decide (d.vmsCfg.charHeightPixels = 0)) (t := d.fontDefinition)
    (ss := counted 0 (samePage spans s)) (sln := s.state.lineNumber)
    (lineCount_pos (List.ne_nil_of_mem (mem_samePage hs)))
  obtain ⟨e1, e2⟩ := offsetVertLoop_ok h2
  rw [v1] at e1
  rw [v2] at e2
  unfold totalHeight countedHeight
  rw [Nat.min_self]
  omega

theorem offsetVert_counted {d spans s a b} (hs : s ∈ spans) (h : offsetVert d spans s = .ok (a, b)) :
    a = countedHeight d spans s s.state.lineNumber ∧ a + b = totalHeight d spans s ∧
    a + b ≤ s.state.textRectangle.height.toNat := by
  obtain ⟨ls, h1, h2, h3, h4⟩ := offsetVert_ok h
  have hf : ∀ x ∈ samePage spans s, ∃ f, FontOf d.fontDefinition x f := fun x hx => by
    obtain ⟨f, hf, _⟩ := textLines_own h1 hx; exact ⟨f, hf⟩
  rw [textLines_count hf, Out.ok.injEq] at h1
  subst h1
  obtain ⟨v1, v2, v3⟩ := vSum_count (full := decide (d.vmsCfg.charHeightPixels = 0)) (t := d.fontDefinition)
    (ss := counted 0 (samePage spans s)) (sln := s.state.lineNumber)
    (lineCount_pos (List.ne_nil_of_mem (mem_samePage hs)))
  rw [v1] at h2
  rw [v2] at h3
  unfold totalHeight countedHeight
  rw [Nat.min_self]
  omega

theorem countedHeight_dense {d spans s n} (h : Dense 0 (samePage spans s) n) (m : Nat) (hm : m < n) :
    countedHeight d spans s m =
      linesHeight (decide (d.vmsCfg.charHeightPixels = 0)) d.fontDefinition (samePage spans s) m := by
  obtain ⟨h1, h2⟩ := counted_of_dense h
  unfold countedHeight
  rw [h1, h2, Nat.min_eq_left (by omega)]

theorem totalHeight_dense {d spans s n} (h : Dense 0 (samePage spans s) n) (hs : s ∈ spans) :
    totalHeight d spans s =
      linesHeight (decide (d.vmsCfg.charHeightPixels = 0)) d.fontDefinition (samePage spans s) (n - 1) := by
  have := (dense_lt h).2 s (mem_samePage hs)
  unfold totalHeight
  rw [(counted_of_dense h).2]
  exact countedHeight_dense h (n - 1) (by omega)

/-! ### places -/

theorem hsum_beforeAt {t own} {ss : List Span} : ∀ {prev b a}, HSum t own prev ss b a → BeforeAt t own prev ss b := by
  induction ss with
  | nil => intro prev b a h; cases h; exact .nil
  | cons s ss ih =>
    intro prev b a h
    cases h with
    | first hw hl => rw [Nat.add_comm]; exact .first hw (ih hl)
    | next hg hl =>
      cases hl with
      | first hw hl =>
        refine Eq.mp (congrArg _ ?_) (BeforeAt.next hg hw (ih hl))
        omega

/-- the left edge of a text, for any spans -/
theorem spanX_exact {d spans s x} (h : spanX d spans s = .ok x) : ExactX d spans s x := by
  have key : ∀ {b a}, offsetHoriz d spans s = .ok (b, a) →
      BeforeAt d.fontDefinition s.state.spanNumber none (sameLine spans s) b ∧
      LineWidth d.fontDefinition none (sameLine spans s) (b + a) ∧ b + a ≤ s.state.textRectangle.width.toNat := by
    intro b a h
    obtain ⟨h1, h2⟩ := offsetHoriz_ok h
    exact ⟨hsum_beforeAt h1, hsum_lineWidth h1, h2⟩
  unfold spanX at h
  split at h
  · rename_i hj
    unfold spanXLeft at h
    simp only [Out.bind_eq_ok, Out.ofRes_eq_ok, chk16_ok, sub16_ok] at h
    obtain ⟨l, ⟨hl, rfl⟩, ⟨b, a⟩, h1, rfl, h2⟩ := h
    obtain ⟨h3, h4, h5⟩ := key h1
    refine ⟨b, b + a, h3, h4, h5, ?_⟩
    rw [hj]; simp [lineLeft]
  · rename_i hj
    unfold spanXCenter at h; simp only [cellWidth_eq] at h
    simp only [Out.bind_eq_ok, Out.ofRes_eq_ok, chk16_ok, sub16_ok] at h
    obtain ⟨l, ⟨hl, rfl⟩, ⟨b, a⟩, h1, t1, ⟨h2, rfl⟩, t2, ⟨h3, rfl⟩, t3, ⟨rfl, h4⟩, t4, ⟨rfl, h5⟩, rfl, h6⟩ := h
    obtain ⟨h7, h8, h9⟩ := key h1
    refine ⟨b, b + a, h7, h8, h9, ?_⟩
    rw [hj, if_pos rfl, cellEdge_eq]
    simp only [lineLeft]
    rw [Nat.sub_sub]
  · rename_i hj
    unfold spanXRight at h
    simp only [Out.bind_eq_ok, Out.ofRes_eq_ok, chk16_ok, sub16_ok] at h
    obtain ⟨l, ⟨hl, rfl⟩, ⟨b, a⟩, h1, t1, ⟨rfl, h2⟩, h3, rfl⟩ := h
    obtain ⟨h7, h8, h9⟩ := key h1
    refine ⟨b, b + a, h7, h8, h9, ?_⟩
    rw [hj, if_neg (by decide)]
    simp only [lineLeft]
    omega
  · simp at h

/-- the top edge of a text, for any spans -/
theorem spanY_exact {d spans s y} (hs : s ∈ spans) (h : spanY d spans s = .ok y) : ExactY d spans s y := by
  unfold spanY at h
  simp only [Out.bind_eq_ok, Out.ofRes_eq_ok, sub16_ok, height_ok] at h
  obtain ⟨bl, h, hh, ⟨f, hf, rfl⟩, hb, rfl⟩ := h
  unfold baseline at h
  split at h
  · rename_i hj
    unfold baselineTop at h
    simp only [Out.bind_eq_ok, Out.ofRes_eq_ok, chk16_ok, sub16_ok] at h
    obtain ⟨l, ⟨hl, rfl⟩, ⟨a, b⟩, h1, rfl, h2⟩ := h
    obtain ⟨e1, e2, e3⟩ := offsetVert_counted hs h1
    refine ⟨f, hf, by omega, ?_⟩
    rw [hj, if_neg (by decide), ← e1]
    simp only [linesTop]
    omega
  · rename_i hj
    unfold baselineMiddle at h; simp only [cellHeight_eq] at h
    simp only [Out.bind_eq_ok, Out.ofRes_eq_ok, chk16_ok, sub16_ok] at h
    obtain ⟨l, ⟨hl, rfl⟩, ⟨a, b⟩, h1, t1, ⟨h2, rfl⟩, t2, ⟨h3, rfl⟩, t3, ⟨rfl, h6⟩, t4, ⟨rfl, h7⟩, rfl, h8⟩ := h
    obtain ⟨e1, e2, e3⟩ := offsetVert_counted hs h1
    refine ⟨f, hf, by omega, ?_⟩
    rw [hj, if_pos rfl, ← e1, ← e2, ← cellEdge_eq]
    simp only [linesTop]
    rw [← Nat.sub_sub]
    dsimp only at *
    omega
  · rename_i hj
    unfold baselineBottom at h
    simp only [Out.bind_eq_ok, Out.ofRes_eq_ok, chk16_ok, sub16_ok] at h
    obtain ⟨l, ⟨hl, rfl⟩, ⟨a, b⟩, h1, t, ⟨rfl, h2⟩, h3, rfl⟩ := h
    obtain ⟨e1, e2, e3⟩ := offsetVert_counted hs h1
    refine ⟨f, hf, by omega, ?_⟩
    rw [hj, if_neg (by decide), ← e1, ← e2]
    simp only [linesTop]
    dsimp only at *
    omega
  · simp at h

end Ntcip
