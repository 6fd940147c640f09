import Verif.Model.MultiStr
import Verif.Lemmas.Numbers
import Verif.Props.Split
/-
Property C69: byte offsets of `MultiStr` are at item boundaries.
-/
namespace Ntcip.Spec

/-- calling `next_slice` repeatedly gives the items, and ends in the state `m'` -/
inductive Takes : MultiStr → List Str → MultiStr → Prop
  | nil {m} : Takes m [] m
  | cons {m s m1 ss m'} : m.nextSlice = .ok (some s, m1) → Takes m1 ss m' → Takes m (s :: ss) m'

end Ntcip.Spec

namespace Ntcip
open Spec

theorem sliceFrom_append (a b : Str) : sliceFrom (blen a) (a ++ b) = .ok b := by
  induction a with
  | nil => cases b <;> simp [blen, sliceFrom]
  | cons c a ih =>
    have := utf8Size_pos c
    rw [List.cons_append, sliceFrom, blen, if_neg (by omega), if_pos (by omega)]
    rw [show c.utf8Size + blen a - c.utf8Size = blen a by omega]
    exact ih

theorem sliceTo_append (a b : Str) : sliceTo (blen a) (a ++ b) = .ok a := by
  induction a with
  | nil => cases b <;> simp [blen, sliceTo]
  | cons c a ih =>
    have := utf8Size_pos c
    rw [List.cons_append, sliceTo, blen, if_neg (by omega), if_pos (by omega)]
    rw [show c.utf8Size + blen a - c.utf8Size = blen a by omega, ih]
    rfl

/-- the byte index is the size of the characters counted by `scan` -/
theorem scanBytes_eq (opn : Bool) (s p : Str) :
    MultiStr.scanBytes opn (blen p) s = (scan opn p.length s).map fun k => blen ((p ++ s).take k) := by
  induction s generalizing p with
  | nil => rfl
  | cons c cs ih =>
    rw [MultiStr.scanBytes, scan]
    have hp : blen p > 0 ↔ p.length > 0 := by
      cases p with
      | nil => simp [blen]
      | cons x p => have := utf8Size_pos x; simp [blen]; omega
    by_cases h1 : c = '[' ∧ p.length > 0
    · rw [if_pos h1, if_pos ⟨h1.1, hp.2 h1.2⟩]
      simp
    · rw [if_neg h1, if_neg (fun h => h1 ⟨h.1, hp.1 h.2⟩)]
      by_cases h2 : c = ']'
      · subst h2
        rw [if_pos rfl, if_pos rfl]
        have e1 : (']' : Char).utf8Size = 1 := by decide
        cases opn with
        | true =>
          simp only [if_true, Option.map_some, Option.some.injEq]
          rw [show p ++ ']' :: cs = (p ++ [']']) ++ cs by simp, List.take_left' (by simp), blen_append]
          simp [blen, e1]
        | false =>
          simp only [Bool.false_eq_true, if_false, Option.map_some, Option.some.injEq]
          cases p with
          | nil => simp [blen, e1]
          | cons x p =>
            have := utf8Size_pos x
            rw [show max (x :: p).length 1 = (x :: p).length by simp, List.take_left]
            simp only [blen]
            omega
      · rw [if_neg h2, if_neg h2]
        have := ih (p ++ [c])
        rw [blen_append, List.length_append] at this
        simpa [blen] using this

theorem take2_blen {r t : Str} (h : r.take 2 = t) (ht : t = c!"[[" ∨ t = c!"]]") : ∃ r', r = t ++ r' ∧ blen t = 2 := by
  refine ⟨r.drop 2, ?_, ?_⟩
  · rw [← h, List.take_append_drop]
  · rcases ht with rfl | rfl <;> decide

theorem chopStart_eq {a s r : Str} (hs : s ≠ []) :
    MultiStr.chopStart ⟨a ++ (s ++ r), blen a⟩ (blen s) = .ok (some s, ⟨a ++ (s ++ r), blen (a ++ s)⟩) := by
  have := blen_pos hs
  unfold MultiStr.chopStart
  rw [if_neg (by omega)]
  simp only [sliceFrom_append, Res.ok_bind, sliceTo_append, Res.pure_eq, blen_append]

/-- the iterator with a byte offset does what `nextSlice` does with the rest of the string -/
theorem nextSlice_bytes (a r : Str) : MultiStr.nextSlice ⟨a ++ r, blen a⟩ = match nextSlice r with
    | some (s, _) => .ok (some s, ⟨a ++ r, blen (a ++ s)⟩)
    | none => .ok (none, ⟨a ++ r, blen a⟩) := by
  unfold MultiStr.nextSlice MultiStr.remaining nextSlice
  simp only [sliceFrom_append, Res.ok_bind]
  split
  · rename_i h
    obtain ⟨r', h1, h2⟩ : ∃ r', r = r.take 2 ++ r' ∧ blen (r.take 2) = 2 := take2_blen rfl h
    have hne : r.take 2 ≠ [] := by intro e; rw [e] at h2; simp [blen] at h2
    have := chopStart_eq (a := a) (r := r') hne
    rw [h2, ← h1] at this
    exact this
  · rename_i hh
    have hs := scanBytes_eq (decide (r.head? = some '[')) r []
    simp only [blen, List.length_nil, List.nil_append] at hs
    rw [hs]
    cases hsc : scan (decide (r.head? = some '[')) 0 r with
    | some k =>
      simp only [Option.map_some]
      have hne : r.take k ≠ [] := by
        have hns : nextSlice r = some (r.take k, r.drop k) := by
          unfold nextSlice
          rw [if_neg hh, hsc]
        obtain ⟨t, r', e1, _, e2, _⟩ := nextSlice_spec r (by rintro rfl; simp [nextSlice_nil] at hns)
        rw [hns] at e1
        simp only [Option.some.injEq, Prod.mk.injEq] at e1
        rw [e1.1]
        exact item_ne_nil e2
      have := chopStart_eq (a := a) (r := r.drop k) hne
      rw [List.take_append_drop] at this
      exact this
    | none =>
      simp only [Option.map_none]
      by_cases he : r = []
      · subst he; simp [blen]
      · simp [he, blen_append]

/-- **C69** the iterator with its byte offset: after the items `pre`, it has not panicked, the offset is the number of bytes
of `pre`, `split` gives the string before and after, and the next item is the next one of `slices`. -/
theorem C69_offsets (ms : Str) (pre post : List Str) (h : slices ms = pre ++ post) :
    Takes (.new ms) pre ⟨ms, blen pre.flatten⟩ ∧
    (⟨ms, blen pre.flatten⟩ : MultiStr).split = .ok (pre.flatten, post.flatten) := by
  have hms : ms = pre.flatten ++ post.flatten := by
    rw [← List.flatten_append, ← h, slices_flatten]
  constructor
  · have key : ∀ (pre : List Str) (a r : Str), slices r = pre ++ post →
        Takes ⟨a ++ r, blen a⟩ pre ⟨a ++ r, blen (a ++ pre.flatten)⟩ := by
      intro pre
      induction pre with
      | nil => intro a r _; simpa using Takes.nil
      | cons s pre ih =>
        intro a r hr
        have hne : r ≠ [] := by rintro rfl; simp [slices_nil] at hr
        obtain ⟨t, r', e1, rfl, e2, e3⟩ := nextSlice_spec r hne
        rw [slices_item e2 e3, List.cons_append, List.cons.injEq] at hr
        obtain ⟨rfl, hr⟩ := hr
        have hn := nextSlice_bytes a (t ++ r')
        rw [e1] at hn
        refine .cons hn ?_
        have := ih (a ++ t) r' hr
        rw [List.append_assoc, List.append_assoc] at this
        simpa using this
    exact key pre [] ms h
  · unfold MultiStr.split
    simp only [hms, sliceTo_append, sliceFrom_append, Res.ok_bind, Res.pure_eq]

/-- **C69 (end)** after the last item the iterator is at the end of the string, gives `None` and stays there -/
theorem C69_end (ms : Str) : Takes (.new ms) (slices ms) ⟨ms, blen ms⟩ ∧
    (⟨ms, blen ms⟩ : MultiStr).nextSlice = .ok (none, ⟨ms, blen ms⟩) ∧
    (⟨ms, blen ms⟩ : MultiStr).split = .ok (ms, []) := by
  obtain ⟨h1, h2⟩ := C69_offsets ms (slices ms) [] (by simp)
  rw [slices_flatten] at h1 h2
  refine ⟨h1, ?_, by simpa using h2⟩
  have := nextSlice_bytes ms []
  rw [nextSlice_nil] at this
  simpa using this

example : Takes (.new c!"Äb[nl]ü") [c!"Äb", c!"[nl]"] ⟨c!"Äb[nl]ü", 7⟩ ∧
    (⟨c!"Äb[nl]ü", 7⟩ : MultiStr).split = .ok (c!"Äb[nl]", c!"ü") ∧
    -- an offset inside of a character would be a panic
    (⟨c!"Äb[nl]ü", 1⟩ : MultiStr).split = .panic .boundary :=
  ⟨.cons (m1 := ⟨c!"Äb[nl]ü", 3⟩) (by decide +kernel) (.cons (by decide +kernel) .nil), by decide +kernel, by decide +kernel⟩

end Ntcip
