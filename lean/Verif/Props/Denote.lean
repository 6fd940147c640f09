import Verif.Lemmas.Denote
import Verif.Lemmas.Pattern
import Verif.Props.Case
import Verif.Props.Escape
import Verif.Props.Same
import Verif.Props.Version
/-
Property C78: only the values of the items of a message matter, not how they are written.
-/
namespace Ntcip
open Spec Tests

/-- **C78**: messages whose items have the same values give the same pages, errors and panics on every sign. -/
theorem C78_pages (d : Dms) (ms ms' : Str) (h : values ms = values ms') (k : Nat) :
    (Pages.run d k (Pages.new d ms)).map' Prod.fst = (Pages.run d k (Pages.new d ms')).map' Prod.fst := by
  have := run_alike d k (pg := Pages.new d ms) (pg' := Pages.new d ms') ⟨slices ms', h, rfl⟩
  cases hx : Pages.run d k (Pages.new d ms) <;> cases hy : Pages.run d k (Pages.new d ms') <;>
    rw [hx, hy] at this <;> simp only [Res.Rel] at this
  · rw [Res.map'_ok, Res.map'_ok, this.1]
  · rw [this]

theorem steps_alike {d : Dms} {pg pg' pg1 : Pages} {xs} (h : AlikeP pg pg') (hs : Steps d pg xs pg1) :
    ∃ pg1', Steps d pg' xs pg1' ∧ AlikeP pg1 pg1' := by
  induction hs generalizing pg' with
  | nil => exact ⟨pg', .nil, h⟩
  | @cons pg pg2 pg3 x xs hn _ ih =>
    have := next_alike d h
    rw [hn] at this
    cases hy : Pages.next d pg' with
    | panic p => rw [hy] at this; exact this.elim
    | ok q =>
      rw [hy] at this
      obtain ⟨x', pg2'⟩ := q
      obtain ⟨h1, h2⟩ := this
      simp only at h1 h2
      subst h1
      obtain ⟨pg3', h3, h4⟩ := ih h2
      refine ⟨pg3', ?_, h4⟩
      have hp : pg'.pageState = pg.pageState := by obtain ⟨_, _, rfl⟩ := h; rfl
      rw [← hp]
      exact .cons hy h3

theorem yields_alike {d : Dms} {ms ms' : Str} (h : values ms = values ms') {xs} (hy : Yields d ms xs) :
    Yields d ms' xs := by
  obtain ⟨pg1, h1, h2⟩ := hy
  obtain ⟨pg1', h3, h4⟩ := steps_alike (pg := Pages.new d ms) (pg' := Pages.new d ms') ⟨slices ms', h, rfl⟩ h1
  refine ⟨pg1', h3, ?_⟩
  have hd : pg1.pageState = .done := by
    unfold Pages.next at h2
    split at h2
    · simp at h2
    · simp at h2
    · assumption
  have hd' : pg1'.pageState = .done := by obtain ⟨_, _, rfl⟩ := h4; exact hd
  simp [Pages.next, hd']

/-- **C78**: … so they are shown alike by every sign. -/
theorem C78_yields (d : Dms) (ms ms' : Str) (h : values ms = values ms') (xs) :
    Yields d ms xs ↔ Yields d ms' xs := ⟨yields_alike h, yields_alike h.symm⟩

/-- **C78**: patterns whose items have the same values tell the same widths, are filled alike, and have the same lines
in a message. -/
theorem C78_patterns (d : Dms) (pat pat' : Str) (h : values pat = values pat') (ls : List Str) (ms : Str) :
    widths d pat = widths d pat' ∧ fill d pat ls = fill d pat' ls ∧ lines d pat ms = lines d pat' ms := by
  have e : patItems d pat = patItems d pat' := by rw [patItems_eq, patItems_eq, h]
  exact ⟨by rw [widths, widths, e], by rw [fill, fill, e], by rw [lines, lines, e]⟩

/-- a tag between two strings is one of the items -/
theorem slices_around (a x b : Str) (hx : Plain x) (ha : (slices a).getLast? ≠ some ['[']) :
    slices (a ++ ('[' :: (x ++ [']'])) ++ b) = slices a ++ (('[' :: (x ++ [']'])) :: slices b) := by
  have e1 : slices (('[' :: (x ++ [']'])) ++ b) = ('[' :: (x ++ [']'])) :: slices b := by
    apply slices_item (.tag x hx)
    refine ⟨fun _ hp => absurd (hp '[' (by simp)).1 (by simp), ?_, by simp⟩
    intro b' hb hp
    simp at hb; subst hb
    exact absurd (hp ']' (by simp)).2 (by simp)
  rw [List.append_assoc, slices_append, e1]
  intro t ht
  refine ⟨fun _ _ c hc => ?_, ?_, ?_⟩
  · simp at hc; exact .inl hc.symm
  · rintro b' rfl hp c hc
    simp at hc
    refine ⟨?_, hc.symm⟩
    rintro rfl
    exact ha ht
  · rintro rfl; simp

/-- **C78**: a tag may be replaced by any other spelling of the same value, wherever it is in a message. -/
theorem C78_spelling (a x x' b : Str) (hx : Plain x) (hx' : Plain x') (ha : (slices a).getLast? ≠ some ['['])
    (h : tryFrom ('[' :: (x ++ [']'])) = tryFrom ('[' :: (x' ++ [']']))) :
    values (a ++ ('[' :: (x ++ [']'])) ++ b) = values (a ++ ('[' :: (x' ++ [']'])) ++ b) := by
  simp only [values, slices_around _ _ _ hx ha, slices_around _ _ _ hx' ha, List.map_append, List.map_cons, h]

/-- **C78**: upper and lower case of a valid tag (but the free text of manufacturer tags and moving text) do not matter
for the pages of a message. -/
theorem C78_case (d : Dms) (a x x' b : Str) (hx : Plain x) (hf : ¬ NameIn freeText x)
    (h : x.map Char.toLower = x'.map Char.toLower) (ha : (slices a).getLast? ≠ some ['['])
    (hv : ∃ v, tryFrom ('[' :: (x ++ [']'])) = .ok (.ok v)) (k : Nat) :
    (Pages.run d k (Pages.new d (a ++ ('[' :: (x ++ [']'])) ++ b))).map' Prod.fst =
      (Pages.run d k (Pages.new d (a ++ ('[' :: (x' ++ [']'])) ++ b))).map' Prod.fst := by
  obtain ⟨v, hv⟩ := hv
  have hx' : Plain x' := by
    have h' : lower x = lower x' := by
      simpa [lower, show asciiLower = Char.toLower from funext asciiLower_eq_toLower] using h
    exact lower_plain h' hx
  refine C78_pages d _ _ (C78_spelling a x x' b hx hx' ha ?_) k
  rw [hv, (C05_case_insensitive x x' hx hf h v).1 hv]

-- different writings of the same message
example : values c!"[FO+01][Jl2]A[nl]B" = values c!"[fo1][jl2]A[NL]B" ∧
    c!"[FO+01][Jl2]A[nl]B" ≠ c!"[fo1][jl2]A[NL]B" := by decide +kernel
example : pageCount (render fullDms c!"[Jl3]A[NP]B") = some 2 ∧ pageCount (render fullDms c!"[jl3]A[np]B") = some 2 := by
  decide +kernel
-- errors differ when the values differ
example : nextError fullDms c!"[XX]" ≠ nextError fullDms c!"[xx]" := by decide +kernel

end Ntcip
