import Verif.Lemmas.Tokens
/-
C01, C02: how `multi::split` cuts a MULTI string.
-/
namespace Ntcip
open Spec

/-- Running the iterator `multi::split(s)` (repeated `next_slice`): it yields the items of the list
and then ends. -/
inductive Yields : Str → List Str → Prop
  | done {s : Str} : nextSlice s = none → Yields s []
  | next {s t r : Str} {ts : List Str} : nextSlice s = some (t, r) → Yields r ts → Yields s (t :: ts)

theorem yields_slices (ms : Str) : Yields ms (slices ms) := by
  induction ms using slices_induction with
  | h0 => rw [slices_nil]; exact .done nextSlice_nil
  | h1 t r ht hf ih => rw [slices_item ht hf]; exact .next (nextSlice_item ht hf) ih

theorem yields_unique {s : Str} {a b : List Str} (ha : Yields s a) (hb : Yields s b) : a = b := by
  induction ha generalizing b with
  | done h => cases hb with
    | done => rfl
    | next h' _ => simp [h] at h'
  | next h _ ih => cases hb with
    | done h' => simp [h] at h'
    | next h' hy =>
      rw [h] at h'; simp at h'; obtain ⟨rfl, rfl⟩ := h'
      rw [ih hy]

/-- **C01** `split` is lossless: the iterator ends after yielding finitely many items, all
non-empty, whose concatenation is the string given. -/
theorem C01_split_lossless (ms : Str) :
    ∃ items, Yields ms items ∧ (∀ other, Yields ms other → other = items) ∧
      items.flatten = ms ∧ ∀ t ∈ items, t ≠ [] :=
  ⟨slices ms, yields_slices ms, fun _ h => yields_unique h (yields_slices ms), slices_flatten ms,
    fun t ht => item_ne_nil (slices_items ms t ht)⟩

/-- what the model calls `slices` is what the iterator yields -/
theorem C01_slices_is_iteration (ms : Str) (items : List Str) :
    Yields ms items ↔ items = slices ms :=
  ⟨fun h => yields_unique h (yields_slices ms), fun h => h ▸ yields_slices ms⟩

example : slices c!"A[nl]B[[C]]]" = [c!"A", c!"[nl]", c!"B", c!"[[", c!"C", c!"]]", c!"]"] := by
  decide +kernel

/-- **C02** The items of `split` are a correct cut of the string (`Spec.Cut`: each item is an
escape, a complete tag, a maximal text span, a stray `]` or an unterminated fragment) … -/
theorem C02_split_cuts_on_tag_boundaries (ms : Str) : Cut (slices ms) := slices_cut ms

/-- … and there is no other correct cut: any list of items satisfying `Spec.Cut` is what `split`
gives for its concatenation. -/
theorem C02_split_unique (items : List Str) (h : Cut items) : slices items.flatten = items :=
  slices_of_cut h

theorem cut_adjacent {a b : Str} {pre post : List Str} (h : Cut (pre ++ a :: b :: post)) :
    Item a ∧ Item b ∧ Follows a b.head? := by
  induction pre with
  | nil =>
    obtain ⟨h1, h2, h3, -⟩ := h
    refine ⟨h1, h3, ?_⟩
    have := item_ne_nil h3
    cases b with
    | nil => simp at this
    | cons c b => simpa using h2
  | cons p pre ih => exact ih h.2.2

/-- … in particular two text spans are never adjacent. -/
theorem C02_no_adjacent_spans (ms : Str) (pre post : List Str) (a b : Str)
    (h : slices ms = pre ++ a :: b :: post) : ¬ (Plain a ∧ Plain b) := by
  rintro ⟨ha, hb⟩
  have hc := slices_cut ms
  rw [h] at hc
  obtain ⟨h1, h2, h3⟩ := cut_adjacent hc
  cases b with
  | nil => exact item_ne_nil h2 rfl
  | cons c b =>
    have := h3.1 (item_ne_nil h1) ha c (by simp)
    rcases this with h | h
    · exact (plain_cons.1 hb).1.1 h
    · exact (plain_cons.1 hb).1.2 h

/-- not every list of items is a cut: an unterminated fragment goes on until a `[` -/
example : Cut [c!"A", c!"[nl]", c!"B", c!"[[", c!"]", c!"[x", c!"]]"] = False := by
  simp [Cut, Follows, IsBracket]
  intros; simp_all [Plain]
/-- the hypothesis of `C02_split_unique` is met by a cut with every kind of item -/
example : Cut [c!"A", c!"[nl]", c!"]", c!"B", c!"]]", c!"[x", c!"[[", c!"["] := by
  have := slices_cut c!"A[nl]]B]][x[[["
  rwa [show slices c!"A[nl]]B]][x[[[" =
    [c!"A", c!"[nl]", c!"]", c!"B", c!"]]", c!"[x", c!"[[", c!"["] by decide +kernel] at this

end Ntcip
