import Verif.Lemmas.Drops
import Verif.Props.Pages
import Verif.Tests.Render
/-
Property C71: normalizing a message does not change its pages.
-/
namespace Ntcip.Spec

/-- is the value text? -/
def isText : Value → Bool
  | .text _ => true
  | _ => false

/-- No `[jl]` tag of the values repeats the `[jl]` tag before, unless there is no text in between, or a new line, page or
text rectangle.  `last` is the `[jl]` tag before, `fresh` tells that there was no text since. -/
def NoLateJl : Option JustificationLine → Bool → List Value → Prop
  | _, _, [] => True
  | last, fresh, .justificationLine j :: vs => (j = last → fresh = true) ∧ NoLateJl j true vs
  | last, _, .text _ :: vs => NoLateJl last false vs
  | last, _, .hexadecimalCharacter _ :: vs => NoLateJl last false vs
  | last, _, .newLine _ :: vs => NoLateJl last true vs
  | last, _, .newPage :: vs => NoLateJl last true vs
  | last, _, .textRectangle _ :: vs => NoLateJl last true vs
  | last, fresh, _ :: vs => NoLateJl last fresh vs

end Ntcip.Spec

namespace Ntcip
open Spec Tests

theorem normLoop_items {st st' : NormState} {ss : List Str} (h : normLoop st ss = .ok st') :
    ∀ s ∈ ss, ∃ x, tryFrom s = .ok x := by
  induction ss generalizing st with
  | nil => simp
  | cons s ss ih =>
    simp only [normLoop] at h
    intro x hx
    split at h
    · simp at h
    · rename_i e he
      rcases List.mem_cons.1 hx with rfl | hx
      · exact ⟨_, he⟩
      · exact ih h x hx
    · rename_i v hv
      rcases List.mem_cons.1 hx with rfl | hx
      · exact ⟨_, hv⟩
      · exact ih h x hx

theorem noLateJl_drop {v : Value} {vs : List Value} {st : NormState} {fr : Bool} (hu : (st.update v).1 = true)
    (hj : NoLateJl st.jl fr (v :: vs)) : (∀ j, v = .justificationLine j → fr = true) ∧ NoLateJl st.jl fr vs := by
  obtain ⟨hv, _⟩ := update_true hu
  rcases hv with rfl | rfl | rfl | rfl
  · exact ⟨by simp, hj⟩
  · exact ⟨by simp, hj⟩
  · simp only [NoLateJl, forall_const] at hj
    obtain ⟨rfl, hj⟩ := hj
    exact ⟨fun _ _ => rfl, hj⟩
  · exact ⟨by simp, hj⟩

theorem noLateJl_keep {v : Value} {vs : List Value} {st : NormState} {fr : Bool}
    (hj : NoLateJl st.jl fr (v :: vs)) : NoLateJl (st.update v).2.jl (freshOf fr v) vs := by
  cases v <;> first | exact hj | exact hj.2

theorem drops_of {st : NormState} {fr : Bool} {ss : List Str} (hp : ∀ s ∈ ss, ∃ x, tryFrom s = .ok x)
    (hf : ∀ v ∈ dedup st (ss.filterMap validOf), Faithful v) (hj : NoLateJl st.jl fr (ss.filterMap validOf)) :
    Drops st fr ss ((dedup st (ss.filterMap validOf)).map Value.display) := by
  induction ss generalizing st fr with
  | nil => exact .nil
  | cons s ss ih =>
    obtain ⟨x, hx⟩ := hp s (by simp)
    have hp' : ∀ s ∈ ss, ∃ x, tryFrom s = .ok x := fun s h => hp s (by simp [h])
    cases x with
    | error e =>
      have : validOf s = none := by unfold validOf; rw [hx]
      rw [List.filterMap_cons_none this] at hf hj ⊢
      exact .bad hx (ih hp' hf hj)
    | ok v =>
      have : validOf s = some v := validOf_eq_some.2 hx
      rw [List.filterMap_cons_some this] at hf hj ⊢
      unfold dedup at hf ⊢
      split
      · rename_i hu
        rw [if_pos hu] at hf
        obtain ⟨h1, h2⟩ := noLateJl_drop hu hj
        refine .drop hx hu h1 (ih hp' hf ?_)
        rw [(update_true hu).2]; exact h2
      · rename_i hu
        rw [if_neg hu] at hf
        rw [List.map_cons]
        exact .keep hx (display_parse v (hf v (by simp))).2 (ih hp' (fun w hw => hf w (by simp [hw])) (noLateJl_keep hj))

theorem mergeT_count (vs : List Value) : (mergeT vs).countP isText ≤ vs.countP isText ∧
    ((mergeT vs).countP isText = vs.countP isText → mergeT vs = vs) := by
  induction vs with
  | nil => simp [mergeT]
  | cons v vs ih =>
    rw [mergeT]
    rcases joinSpan_cases v (mergeT vs) with ⟨a, b, r, rfl, hr, _, _, hj⟩ | ⟨hj, -⟩
    · rw [hj]
      rw [hr] at ih
      simp only [List.countP_cons, isText, if_true] at ih ⊢
      refine ⟨by omega, fun h => ?_⟩
      omega
    · rw [hj]
      simp only [List.countP_cons] at ih ⊢
      refine ⟨by omega, fun h => ?_⟩
      rw [ih.2 (by omega)]

theorem dedup_count (st : NormState) (vs : List Value) : (dedup st vs).countP isText = vs.countP isText := by
  induction vs generalizing st with
  | nil => rfl
  | cons v vs ih =>
    unfold dedup
    split
    · rename_i hu
      rw [ih, List.countP_cons]
      rcases (update_true hu).1 with rfl | rfl | rfl | rfl <;> simp [isText]
    · rw [List.countP_cons, List.countP_cons, ih]

theorem dedup_last (st : NormState) {vs : List Value} {v : Value} (h : vs.getLast? = some v) (hv : Visible v) :
    (dedup st vs).getLast? = some v := by
  induction vs generalizing st with
  | nil => simp at h
  | cons w vs ih =>
    unfold dedup
    cases vs with
    | nil =>
      simp at h
      subst h
      rw [if_neg]
      · rfl
      · intro hu
        rcases (update_true hu).1 with rfl | rfl | rfl | rfl <;> simp [Visible] at hv
    | cons u us =>
      rw [List.getLast?_cons_cons] at h
      have := ih (st.update w).2 h
      split
      · exact this
      · rw [List.getLast?_cons, this]; rfl

/-- **C71** The message and its normalized form have the same pages: number, duration, and every pixel.  For messages
which are rendered without errors, whose last item is something visible, without hexadecimal characters of
two or more decimal digits, without repeated `[jl]` tags after text of the same line, and without tags to be removed that
stand between two texts.
Missing for the full claim: other messages; the claim is false for messages violating any one of the other hypotheses on
the message (`C71_false`). -/
theorem C71_pages_partial (d : Dms) (ms n : Str) (h : normalize ms = .ok n) (hs : SmallHex ms)
    (hl : ∃ v, (validValues ms).getLast? = some v ∧ Visible v) (hj : NoLateJl none true (validValues ms))
    (ht : (validValues n).countP isText = (validValues ms).countP isText)
    (xs) (hy : Yields d ms xs) (hn : NoError xs) : Yields d n xs := by
  obtain ⟨v, hv, hvis⟩ := hl
  have hk : kept ms = dedup .init (validValues ms) := by
    unfold kept
    apply trimB_of_last
    rw [dedup_last .init hv hvis]
    rintro w ⟨⟩
    have := isBlank_iff v (validValues_inRange ms v (List.mem_of_getLast? hv))
    cases hb : v.isBlank
    · rfl
    · exact absurd hvis (this.1 hb)
  have hm : mergeT (kept ms) = kept ms := by
    apply (mergeT_count _).2
    rw [← valid_normalize_small h hs, ht, hk, dedup_count]
  have hsl : slices n = (dedup .init (validValues ms)).map Value.display := by
    rw [slices_normalize h, hm, hk]
  have hp : ∀ s ∈ slices ms, ∃ x, tryFrom s = .ok x := by
    unfold normalize at h
    cases hl : normLoop .init (slices ms) with
    | panic p => rw [hl] at h; simp at h
    | ok st => exact normLoop_items hl
  have hD : Drops .init true (slices ms) (slices n) := by
    rw [hsl]
    exact drops_of hp (fun v hv => kept_faithful hs v (hk ▸ hv)) hj
  obtain ⟨pg', h1, h2⟩ := hy
  have hA : Agree .init (Pages.new d ms).defaultState (Pages.new d ms).renderState :=
    ⟨fun _ => rfl, rfl, rfl, rfl⟩
  obtain ⟨rest, e1, e2⟩ := drops_steps d (pg := Pages.new d ms) hD hA h1 hn h2
  exact ⟨_, e1, e2⟩

/-! ### the other messages -/

theorem steps_unique {d pg xs ys pg1 pg2} (h : Steps d pg xs pg1) (h1 : Pages.next d pg1 = .ok (none, pg1))
    (h' : Steps d pg ys pg2) (h2 : Pages.next d pg2 = .ok (none, pg2)) : xs = ys := by
  induction h generalizing ys with
  | nil =>
    cases h' with
    | nil => rfl
    | cons hn _ => rw [h1] at hn; simp at hn
  | cons hn _ ih =>
    cases h' with
    | nil => rw [h2] at hn; simp at hn
    | cons hn' ht =>
      rw [hn] at hn'
      simp only [Res.ok.injEq, Prod.mk.injEq, Option.some.injEq] at hn'
      obtain ⟨rfl, rfl⟩ := hn'
      rw [ih h1 ht]

/-- duration, size and all pixels of an item; nothing for an error -/
def picture (x : Bool × Except SyntaxError Page) : List Nat :=
  match x.2 with
  | .ok p => p.durationDs :: p.raster.width :: p.raster.height ::
      (List.range p.raster.height).flatMap fun j => (List.range p.raster.width).map fun i =>
        (p.raster.px i j).1.toNat * 65536 + (p.raster.px i j).2.1.toNat * 256 + (p.raster.px i j).2.2.toNat
  | .error _ => []

/-- The message of less than 20 pages is rendered without errors, and its normalized form `n` with different pictures -/
def changed (d : Dms) (ms n : Str) : Bool :=
  decide (normalize ms = .ok n) &&
  match runLabelled d 20 (Pages.new d ms), runLabelled d 20 (Pages.new d n) with
  | some r, some r' => r.1.all (fun x => !(picture x).isEmpty) && decide (r.1.map picture ≠ r'.1.map picture)
  | _, _ => false

theorem changed_pages {d ms n} (h : changed d ms n = true) :
    normalize ms = .ok n ∧ ∃ xs, Yields d ms xs ∧ NoError xs ∧ ¬ Yields d n xs := by
  unfold changed at h
  rw [Bool.and_eq_true, decide_eq_true_eq] at h
  refine ⟨h.1, ?_⟩
  replace h := h.2
  split at h
  · rename_i r r' hr hr'
    obtain ⟨xs, pg1⟩ := r
    obtain ⟨ys, pg2⟩ := r'
    rw [Bool.and_eq_true, decide_eq_true_eq] at h
    obtain ⟨a1, a2⟩ := runLabelled_steps hr
    obtain ⟨b1, b2⟩ := runLabelled_steps hr'
    refine ⟨xs, ⟨_, a1, a2⟩, ?_, ?_⟩
    · intro x hx
      have := List.all_eq_true.1 h.1 x hx
      obtain ⟨b, _ | p⟩ := x
      · simp [picture] at this
      · exact ⟨p, rfl⟩
    · rintro ⟨pg3, c1, c2⟩
      have := steps_unique c1 c2 b1 b2
      rw [this] at h
      simp at h
  · simp at h

/-- **C71 false** Messages with different pages after normalizing, one for each hypothesis of `C71_pages_partial`: a last page
without text, a background color after the text, a hexadecimal character, a repeated `[jl]` tag, and (on a sign with
character cells) a removed tag between two centered texts. -/
theorem C71_false :
    (normalize c!"A[np]" = .ok c!"A" ∧
      ∃ xs, Yields fullDms c!"A[np]" xs ∧ NoError xs ∧ ¬ Yields fullDms c!"A" xs) ∧
    (normalize c!"A[pb9,9,9]" = .ok c!"A" ∧
      ∃ xs, Yields fullDms c!"A[pb9,9,9]" xs ∧ NoError xs ∧ ¬ Yields fullDms c!"A" xs) ∧
    (normalize c!"[hc41]" = .ok c!"[hc65]" ∧
      ∃ xs, Yields fullDms c!"[hc41]" xs ∧ NoError xs ∧ ¬ Yields fullDms c!"[hc65]" xs) ∧
    (normalize c!"[jl2]A[jl2]B" = .ok c!"[jl2]AB" ∧
      ∃ xs, Yields fullDms c!"[jl2]A[jl2]B" xs ∧ NoError xs ∧ ¬ Yields fullDms c!"[jl2]AB" xs) ∧
    (normalize c!"[jl3][fo8]A[fo8]B" = .ok c!"[jl3][fo8]AB" ∧
      ∃ xs, Yields charDms c!"[jl3][fo8]A[fo8]B" xs ∧ NoError xs ∧ ¬ Yields charDms c!"[jl3][fo8]AB" xs) :=
  ⟨changed_pages (by decide +kernel), changed_pages (by decide +kernel), changed_pages (by decide +kernel),
    changed_pages (by decide +kernel), changed_pages (by decide +kernel)⟩

/-- **C71 false (joined texts)** When a tag which repeats the justification in effect makes texts overlap, joining two of them moves
the second one. -/
theorem C71_joined_false : normalize c!"[cf1]A[jl2]B[cf1]D" = .ok c!"[cf1]A[jl2]BD" ∧
    NoLateJl none true (validValues c!"[cf1]A[jl2]B[cf1]D") ∧
    ∃ xs, Yields fullDms c!"[cf1]A[jl2]B[cf1]D" xs ∧ NoError xs ∧ ¬ Yields fullDms c!"[cf1]A[jl2]BD" xs := by
  obtain ⟨h1, h2⟩ := changed_pages (d := fullDms) (ms := c!"[cf1]A[jl2]B[cf1]D") (n := c!"[cf1]A[jl2]BD") (by decide +kernel)
  refine ⟨h1, ?_, h2⟩
  rw [show validValues c!"[cf1]A[jl2]B[cf1]D" = [.colorForeground (some (.legacy 1)), .text c!"A", .justificationLine (some .left),
    .text c!"B", .colorForeground (some (.legacy 1)), .text c!"D"] by decide +kernel]
  simp [NoLateJl]

/-- `C71_pages_partial` applies to this message of two pages, of which four tags are removed -/
example : ∀ xs, Yields fullDms c!"[jl3][jl3]A[nl][jl3]B[fo8][jp3][fo8][np][jp3]C" xs → NoError xs →
    Yields fullDms c!"[jl3]A[nl]B[fo8][jp3][np]C" xs := by
  have hv : validValues c!"[jl3][jl3]A[nl][jl3]B[fo8][jp3][fo8][np][jp3]C" =
      [.justificationLine (some .center), .justificationLine (some .center), .text c!"A", .newLine none,
        .justificationLine (some .center), .text c!"B", .font (some (8, none)), .justificationPage (some .middle),
        .font (some (8, none)), .newPage, .justificationPage (some .middle), .text c!"C"] := by decide +kernel
  apply C71_pages_partial fullDms _ _ (by decide +kernel)
  · intro c hc
    rw [← mem_validValues, hv] at hc
    simp at hc
  · rw [hv]
    exact ⟨.text c!"C", rfl, 'C', by simp, by simp [IsSpace]⟩
  · rw [hv]
    simp [NoLateJl]
  · decide +kernel

/-- and it is rendered without errors -/
example : (summary fullDms c!"[jl3][jl3]A[nl][jl3]B[fo8][jp3][fo8][np][jp3]C").map (·.map (·.2)) =
    some [some (60, 30, 30), some (60, 30, 30)] := by decide +kernel

end Ntcip
