import Verif.Props.Shown
import Verif.Props.Append
/-
Property C89: limits of the sign for messages.
-/
namespace Ntcip.Spec

/-- The message keeps the limits of the sign: not more pages, and not longer than told -/
def InLimits (d : Dms) (ms : Str) (xs : List (Bool × Except SyntaxError Page)) : Prop :=
  xs.countP (fun x => x.1) ≤ d.multiCfg.maxNumberPages.toNat ∧ ms.length ≤ d.multiCfg.maxMultiStringLength.toNat

/-- `k` tags `[np]`: a message of `k + 1` blank pages -/
def blankPages : Nat → Str
  | 0 => []
  | k + 1 => c!"[np]" ++ blankPages k

end Ntcip.Spec

namespace Ntcip
open Spec Tests

theorem blankPages_display (k : Nat) : blankPages k = (List.replicate k Value.newPage).flatMap Value.display := by
  induction k with
  | zero => rfl
  | succ k ih => rw [blankPages, ih, List.replicate_succ, List.flatMap_cons]; rfl

theorem blankPages_length (k : Nat) : (blankPages k).length = 4 * k := by
  induction k with
  | zero => rfl
  | succ k ih => rw [blankPages, List.length_append, ih]; simp; omega

theorem blankPages_parses (k : Nat) : Parses (slices (blankPages k)) (List.replicate k .newPage) := by
  rw [blankPages_display]
  refine parses_display ?_ ?_
  · intro v hv
    rw [(List.mem_replicate.1 hv).2]
    exact ⟨by simp [InRange], by simp⟩
  · induction k with
    | zero => trivial
    | succ k ih => exact ⟨by simp [plainText], ih⟩

theorem pageAt_blank {d : Dms} {t t' : TextAttr} {ss ss' : List Str} (h : PageAt d t ss t' ss') :
    ∀ k, Parses ss (List.replicate k .newPage) → t' = t ∧ ∃ j, Parses ss' (List.replicate j .newPage) := by
  induction h with
  | first => exact fun k hk => ⟨rfl, k, hk⟩
  | later h1 _ ih =>
    intro k hk
    cases k with
    | zero => cases hk; cases h1
    | succ k =>
      rw [List.replicate_succ] at hk
      cases hk with
      | cons hs hk =>
        obtain ⟨rfl, rfl, -⟩ := takePage_unique h1 (.np hs)
        obtain ⟨rfl, h⟩ := ih k hk
        exact ⟨rfl, h⟩

theorem takePage_blank {ss : List Str} (k : Nat) (hk : Parses ss (List.replicate k .newPage)) :
    ∃ rest b, TakePage ss [] rest b := by
  cases k with
  | zero => cases hk; exact ⟨_, _, .nil⟩
  | succ k =>
    rw [List.replicate_succ] at hk
    cases hk with
    | cons hs hk => exact ⟨_, _, .np hs⟩

/-- **C89** is false for every valid sign with `[np]` tags: the limits are not enforced.  Messages of any number of pages,
and any length, are rendered without errors. -/
theorem C89_ignored (d : Dms) (hd : AcceptOk d) (hn : supports d .newPage = true) (k : Nat) :
    ∃ ms xs, ms.length = 4 * k ∧ Spec.Yields d ms xs ∧ NoError xs ∧ xs.countP (fun x => x.1) = k + 1 := by
  have hp := blankPages_parses k
  have hT : TidyMessage d (blankPages k) := by
    intro t ss ha vs rest b ht
    obtain ⟨rfl, j, hj⟩ := pageAt_blank ha k hp
    obtain ⟨rest', b', h⟩ := takePage_blank j hj
    obtain ⟨rfl, rfl, rfl⟩ := takePage_unique ht h
    refine ⟨by simp, .last ⟨trivial, ?_⟩⟩
    rintro ⟨s, hs, -⟩
    simp [layoutOf, sections, pieces] at hs
  obtain ⟨xs, hy, he⟩ := (C67_message_iff d hd _ hT).2 (by
    intro t ss ha
    obtain ⟨rfl, j, hj⟩ := pageAt_blank ha k hp
    obtain ⟨rest', b', h⟩ := takePage_blank j hj
    refine ⟨_, _, _, h, by simp, fun _ => hn, by simp, by simp [sections], .last ?_⟩
    intro s hs
    simp [layoutOf, sections, pieces] at hs)
  obtain ⟨vs, h1, h2⟩ := C41_page_count d _ xs hy he
  refine ⟨_, xs, blankPages_length k, hy, he, ?_⟩
  rw [h2, parses_unique h1 hp, List.countP_replicate]
  simp

/-- **C89 fails** on each of these signs: some message that does not keep the limits is shown. -/
theorem C89_false (d : Dms) (hd : AcceptOk d) (hn : supports d .newPage = true) :
    ∃ ms xs, Spec.Yields d ms xs ∧ NoError xs ∧ d.multiCfg.maxNumberPages.toNat < xs.countP (fun x => x.1) ∧
      d.multiCfg.maxMultiStringLength.toNat < ms.length := by
  obtain ⟨ms, xs, h1, h2, h3, h4⟩ := C89_ignored d hd hn
    (d.multiCfg.maxNumberPages.toNat + d.multiCfg.maxMultiStringLength.toNat + 1)
  exact ⟨ms, xs, h2, h3, by omega, by omega⟩

-- the sign of the tests is one of them
example : ∃ ms xs, Spec.Yields patDms ms xs ∧ NoError xs ∧ ¬ InLimits patDms ms xs := by
  obtain ⟨ms, xs, h1, h2, h3, -⟩ := C89_false patDms patDms_accept (by decide)
  exact ⟨ms, xs, h1, h2, fun h => by have := h.1; omega⟩

theorem parses_mem {ss : List Str} {vs : List Value} {v : Value} (h : Parses ss vs) (hv : v ∈ vs) :
    ∃ s ∈ ss, tryFrom s = .ok (.ok v) := by
  induction h with
  | nil => simp at hv
  | cons hs _ ih =>
    rcases List.mem_cons.1 hv with rfl | hv
    · exact ⟨_, List.mem_cons_self .., hs⟩
    · obtain ⟨s, h1, h2⟩ := ih hv
      exact ⟨s, List.mem_cons_of_mem _ h1, h2⟩

/-- **C89** the limit on pages is kept by signs that are limited to one page by not supporting `[np]` tags; the length is
not. -/
theorem C89_single_partial (d : Dms) (hn : supports d .newPage = false) (hm : d.multiCfg.validate = .ok ()) (ms : Str)
    (xs) (h : Spec.Yields d ms xs) (he : NoError xs) :
    xs.countP (fun x => x.1) = 1 ∧ xs.countP (fun x => x.1) ≤ d.multiCfg.maxNumberPages.toNat := by
  have h0 : xs.countP (fun x => x.1) = 1 := by
    obtain ⟨vs, h1, h2⟩ := C41_page_count d ms xs h he
    rw [h2]
    suffices h : vs.countP (fun v => decide (v = .newPage)) = 0 by omega
    rw [List.countP_eq_zero]
    intro v hv hv'
    rw [decide_eq_true_eq] at hv'
    subst hv'
    obtain ⟨s, hs, hp⟩ := parses_mem h1 hv
    exact C42_message d ms xs h he s hs (.inr ⟨_, .np, hp, rfl, hn⟩)
  refine ⟨h0, ?_⟩
  rw [h0]
  unfold MultiCfg.validate at hm
  split at hm
  · simp at hm
  · rename_i h1
    have : d.multiCfg.maxNumberPages.toNat ≠ 0 := fun h2 => h1 (.inl (by rw [← UInt8.toNat_inj]; exact h2))
    omega

-- a sign without `[np]` tags, and a message for it
example : summary { fullDms with multiCfg := { fullDms.multiCfg with supportedMultiTags := fun t => t != .np } } c!"A" =
    summary fullDms c!"A" := by decide +kernel

end Ntcip
