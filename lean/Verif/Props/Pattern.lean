import Verif.Lemmas.Extract
import Verif.Tests.Pattern
import Verif.Props.Lines
/-
C54 – C60: message patterns.
-/
namespace Ntcip
open Spec Tests

/-! ### C55 widths -/

/-- `widths` for a list of rectangles -/
def widthsR (d : Dms) : List (Rectangle × UInt8) → Nat → Res (List (UInt16 × UInt8 × Nat))
  | [], _ => .ok []
  | (r, f) :: rest, n => do
    let n' ← chk8 (n + 1)
    let k ← d.rectLines r f
    let tail ← widthsR d rest n'
    pure (List.replicate k (r.width, f, n) ++ tail)

theorem widthsLoop_rects (d : Dms) (xs : List (Res (Except SyntaxError PatValue))) (n : Nat)
    (hp : ∀ x ∈ xs, isPanic x = false) : widthsLoop d xs n = widthsR d (xs.filterMap rectOf) n := by
  induction xs generalizing n with
  | nil => rfl
  | cons x xs ih =>
    have hp' : ∀ x ∈ xs, isPanic x = false := fun y hy => hp y (List.mem_cons_of_mem _ hy)
    match x with
    | .panic p => have := hp _ (List.mem_cons_self ..); simp [isPanic] at this
    | .ok (.error e) => rw [widthsLoop, List.filterMap_cons_none rfl, ih _ hp']; simp
    | .ok (.ok (.value v)) => rw [widthsLoop, List.filterMap_cons_none rfl, ih _ hp']; simp
    | .ok (.ok (.fillableRect r f)) =>
      show _ = widthsR d ((r, f) :: xs.filterMap rectOf) n
      rw [widthsLoop, widthsR]
      cases chk8 (n + 1) with
      | panic p => rfl
      | ok m => simp only [Res.ok_bind, ih _ hp']

theorem widthsLoop_ok_panic (d : Dms) {xs : List (Res (Except SyntaxError PatValue))} {n : Nat} {ws}
    (h : widthsLoop d xs n = .ok ws) : ∀ x ∈ xs, isPanic x = false := by
  induction xs generalizing n ws with
  | nil => simp
  | cons x xs ih =>
    match x with
    | .panic p => simp [widthsLoop] at h
    | .ok (.error e) =>
      rw [widthsLoop] at h
      · intro y hy
        rcases List.mem_cons.1 hy with rfl | hy
        · rfl
        · exact ih h y hy
      · simp
    | .ok (.ok (.value v)) =>
      rw [widthsLoop] at h
      · intro y hy
        rcases List.mem_cons.1 hy with rfl | hy
        · rfl
        · exact ih h y hy
      · simp
    | .ok (.ok (.fillableRect r f)) =>
      rw [widthsLoop] at h
      obtain ⟨n', -, h⟩ := Res.bind_eq_ok.1 h
      obtain ⟨k, -, h⟩ := Res.bind_eq_ok.1 h
      obtain ⟨t, h, -⟩ := Res.bind_eq_ok.1 h
      intro y hy
      rcases List.mem_cons.1 hy with rfl | hy
      · rfl
      · exact ih h y hy

theorem widthsR_lines (d : Dms) {as : List Area} {n : Nat} {ws}
    (h : widthsR d (as.map (areaRect d)) n = .ok ws) : FillLines d n as ws := by
  induction as generalizing n ws with
  | nil => simp [widthsR] at h; subst h; exact .nil
  | cons a as ih =>
    rw [List.map_cons, areaRect, widthsR] at h
    obtain ⟨n', hn, h1⟩ := Res.bind_eq_ok.1 h
    obtain ⟨k, hk, h2⟩ := Res.bind_eq_ok.1 h1
    obtain ⟨t, ht, h3⟩ := Res.bind_eq_ok.1 h2
    have : n' = n + 1 := by unfold chk8 at hn; split at hn <;> simp_all
    subst this
    simp only [Res.pure_eq, Res.ok.injEq] at h3
    subst h3
    exact .cons hk (ih ht)

/-- an item of the pattern panics exactly when a value does -/
theorem patRun_panic (d : Dms) (font : UInt8) (rf : Option (Rectangle × UInt8))
    (xs : List (Res (Except SyntaxError Value))) :
    (∀ x ∈ patRun d font rf xs, isPanic x = false) ↔ ∀ x ∈ xs, isPanic x = false := by
  induction xs generalizing font rf with
  | nil =>
    rw [patRun]
    split
    · simp [isPanic]
    · simp [isPanic, good]
  | cons x xs ih =>
    match x with
    | .panic p => simp [patRun, isPanic]
    | .ok (.error e) => rw [patRun]; simp only [List.forall_mem_cons, ih]; simp [isPanic]
    | .ok (.ok v) =>
      rw [patRun]
      split
      · simp only [List.forall_mem_cons, ih]; simp [isPanic]
      · simp only [List.forall_mem_append, List.forall_mem_cons, ih]; simp [isPanic, good]

/-- the valid values of the pattern with a supported tag -/
def Spec.patternValues (d : Dms) (pat : Str) : List Value := (validValues pat).filter (supports d)

theorem goodValues_eq (d : Dms) (pat : Str) : (values pat).filterMap (goodValue d) = patternValues d pat := by
  unfold values patternValues validValues
  rw [List.filterMap_map, List.filter_filterMap]
  congr 1
  funext s
  simp only [Function.comp, goodValue, validOf]
  split <;> simp_all [Option.filter]

theorem start_font (d : Dms) : fontAfter d ([] ++ Option.toList none ++ []) = d.multiCfg.defaultFont := rfl
theorem start_rect (d : Dms) : blankRect d [] none [] = some ((signRect d), d.multiCfg.defaultFont) := rfl

theorem rects_pattern (d : Dms) (pat : Str) (hp : ∀ x ∈ values pat, isPanic x = false) :
    (patItems d pat).filterMap rectOf =
      ((areasOn d (areas (patternValues d pat))).filter (Area.fillable d)).map (areaRect d) := by
  rw [patItems_eq, rects_patRun _ _ _ _ hp, goodValues_eq, ← start_rect]
  have := rects_areas d [] none [] (patternValues d pat)
    (by intro v hv; exact (List.mem_filter.1 hv).2) (by simp) (by simp)
  rwa [start_font] at this

theorem widths_ok_panic {d : Dms} {pat : Str} {ws} (h : widths d pat = .ok ws) :
    ∀ x ∈ values pat, isPanic x = false := by
  have := widthsLoop_ok_panic d h
  rw [patItems_eq, patRun_panic] at this
  exact this

/-- **C55** what `widths` returns on a sign that supports `[np]`: for every fillable area of the pattern in order,
numbered 0, 1, 2…, one entry for each line that fits, with the width of the area and the font number in
effect at its beginning.  Missing for the full claim: more than 255 areas are a panic (`C55_false`, and a release
build would number them from 0 again); signs without `[np]`, see C60. -/
theorem C55_widths_partial (d : Dms) (pat : Str) (ws) (h : widths d pat = .ok ws)
    (hnp : supports d .newPage = true) :
    FillLines d 0 ((areas (patternValues d pat)).filter (Area.fillable d)) ws := by
  have hp := widths_ok_panic h
  rw [widths, widthsLoop_rects _ _ _ (widthsLoop_ok_panic d h), rects_pattern _ _ hp] at h
  have := widthsR_lines d h
  rwa [areasOn, if_pos hnp] at this

theorem widthsR_total (d : Dms) (l : List (Rectangle × UInt8)) (n : Nat) (hn : n + l.length ≤ 255)
    (hr : ∀ x ∈ l, ∃ k, d.rectLines x.1 x.2 = .ok k) : ∃ ws, widthsR d l n = .ok ws := by
  induction l generalizing n with
  | nil => exact ⟨_, rfl⟩
  | cons x l ih =>
    obtain ⟨r, f⟩ := x
    simp at hn
    obtain ⟨ws, hws⟩ := ih (n + 1) (by omega) (fun y hy => hr y (List.mem_cons_of_mem _ hy))
    obtain ⟨k, hk⟩ := hr (r, f) (List.mem_cons_self ..)
    dsimp only at hk
    rw [widthsR]
    have : chk8 (n + 1) = .ok (n + 1) := by unfold chk8; rw [if_pos (by omega)]
    simp only [this, hk, hws, Res.ok_bind]
    exact ⟨_, rfl⟩

/-- **C55 (totality)** up to 255 fillable areas are enumerated, if no tag of the pattern panics (C03) and the
lines of each area can be counted (C26) -/
theorem C55_total_partial (d : Dms) (pat : Str) (hp : ¬ HasPanicTag pat)
    (hn : ((areas (patternValues d pat)).filter (Area.fillable d)).length ≤ 255)
    (hr : ∀ a ∈ areas (patternValues d pat), ∃ k, d.rectLines (a.rect d) (a.font d) = .ok k) :
    ∃ ws, widths d pat = .ok ws := by
  have hv : ∀ x ∈ values pat, isPanic x = false := by
    intro x hx
    cases x with
    | ok x => rfl
    | panic p =>
      obtain ⟨s, hs, e⟩ := List.mem_map.1 hx
      exact absurd ((hasPanicTag_iff pat).2 ⟨s, hs, p, e⟩) hp
  have hi : ∀ x ∈ patItems d pat, isPanic x = false := by rw [patItems_eq, patRun_panic]; exact hv
  have hsub : (areasOn d (areas (patternValues d pat))).Sublist (areas (patternValues d pat)) := by
    unfold areasOn; split
    · exact List.Sublist.refl _
    · exact List.dropLast_sublist _
  rw [widths, widthsLoop_rects _ _ _ hi, rects_pattern _ _ hv]
  refine widthsR_total d _ 0 ?_ ?_
  · rw [List.length_map, Nat.zero_add]
    exact Nat.le_trans (hsub.filter _).length_le hn
  · intro x hx
    obtain ⟨a, ha, rfl⟩ := List.mem_map.1 hx
    exact hr a (hsub.subset (List.mem_filter.1 ha).1)

-- three rectangles, the second with font 7; text in the last
example : widths patDms c!"[tr1,1,50,12][fo7][tr1,14,25,0][np][tr1,1,9,9]TEXT" = .ok [(50, 8, 0), (25, 7, 1)] := by
  decide +kernel
example : ¬ HasPanicTag c!"[tr1,1,50,12][fo7][tr1,14,25,0][np][tr1,1,9,9]TEXT" := C03_ascii _ (by decide)

/-- **C55 fails** for 256 fillable pages: a panic (in a profile with overflow checks) -/
theorem C55_false : widths patDms (List.replicate 255 c!"[np]").flatten = .panic .overflow := by
  decide +kernel

/-! ### C54 number of lines -/

theorem scanLines_count {fuel : Nat} {cons rest before after : Str} {n : Nat} {acc acc' : List Str}
    {before' after' : Str} {n' : Nat}
    (h : scanLines fuel cons rest before after n acc = .ok (acc', before', after', n')) :
    acc'.length + n' = acc.length + n := by
  induction fuel generalizing cons rest before after n acc with
  | zero => simp [scanLines] at h; obtain ⟨rfl, rfl, rfl, rfl⟩ := h; rfl
  | succ fuel ih =>
    rw [scanLines] at h
    split at h
    · simp at h; obtain ⟨rfl, rfl, rfl, rfl⟩ := h; rfl
    · split at h
      · simp at h
      · simp at h; obtain ⟨rfl, rfl, rfl, rfl⟩ := h; rfl
      · split at h
        · exact ih h
        · split at h
          · split at h
            · have := ih h; simp at this; omega
            · exact ih h
          · simp at h; obtain ⟨rfl, rfl, rfl, rfl⟩ := h; rfl

theorem padLines_length (before : Str) (n : Nat) : (padLines before n).length = n := by
  cases n <;> simp [padLines]

theorem linesLoop_count (d : Dms) {items : List (Res (Except SyntaxError PatValue))} {ms : Str}
    {acc ls : List Str} {n : Nat} {ws} (h : linesLoop d items ms acc = .ok ls)
    (hw : widthsLoop d items n = .ok ws) : ls = [] ∨ ls.length = acc.length + ws.length := by
  induction items generalizing ms acc n ws with
  | nil => simp [linesLoop] at h; simp [widthsLoop] at hw; subst h hw; exact .inr rfl
  | cons x items ih =>
    match x with
    | .panic p => simp [linesLoop] at h
    | .ok (.error e) =>
      rw [linesLoop] at h
      rw [widthsLoop] at hw
      · exact ih h hw
      · simp
    | .ok (.ok (.fillableRect r f)) =>
      rw [linesLoop] at h
      rw [widthsLoop] at hw
      obtain ⟨n', -, w1⟩ := Res.bind_eq_ok.1 hw
      obtain ⟨k, hk, w2⟩ := Res.bind_eq_ok.1 w1
      obtain ⟨t, ht, w3⟩ := Res.bind_eq_ok.1 w2
      simp only [Res.pure_eq, Res.ok.injEq] at w3
      obtain ⟨k', hk', h1⟩ := Res.bind_eq_ok.1 h
      rw [hk] at hk'; simp at hk'; subst hk'
      obtain ⟨⟨acc', before, after, m⟩, hs, h2⟩ := Res.bind_eq_ok.1 h1
      have c := scanLines_count hs
      rcases ih h2 ht with h3 | h3
      · exact .inl h3
      · right
        rw [h3, ← w3, List.length_append, List.length_append, List.length_replicate, padLines_length]
        omega
    | .ok (.ok (.value v)) =>
      rw [widthsLoop] at hw
      · cases v with
        | font fv => rw [linesLoop] at h; exact ih h hw
        | _ =>
          all_goals
            rw [linesLoop] at h
            · obtain ⟨⟨value, after⟩, -, h1⟩ := Res.bind_eq_ok.1 h
              dsimp only at h1
              split at h1
              · split at h1
                · exact ih h1 hw
                · simp at h1; exact .inl h1
              · split at h1
                · exact ih h1 hw
                · simp at h1; exact .inl h1
              · simp at h1; exact .inl h1
            · simp
      · simp

/-- **C54** whatever the sign, the pattern and the message, `lines` returns nothing or exactly one entry for each
fillable line of `widths` -/
theorem C54_lines_count (d : Dms) (pat ms : Str) (ls : List Str) (ws) (h : lines d pat ms = .ok ls)
    (hw : widths d pat = .ok ws) : ls = [] ∨ ls.length = ws.length := by
  rcases linesLoop_count d h hw with h1 | h1
  · exact .inl h1
  · right; simpa using h1

example : lines patDms c!"[tr1,1,25,0][tr26,1,0,0]" c!"[tr1,1,25,0]ONE[nl]TWO[nl]THREE[tr26,1,0,0]X" =
    .ok [c!"ONE", c!"TWO", c!"X", []] ∧
    widths patDms c!"[tr1,1,25,0][tr26,1,0,0]" = .ok [(25, 8, 0), (25, 8, 0), (25, 8, 1), (25, 8, 1)] := by
  decide +kernel

/-! ### C59 what is filled in -/

/-- **C59** the output for a valid pattern, area by area: each fillable area takes as many lines as fit from those
not used yet, in order, separated by `[nl]`; the other areas take none. -/
theorem C59_filled (d : Dms) (pat : Str) (vs : List Value) (ls : List Str) (s : Str) (h : ValidPattern d pat vs)
    (hn : supports d .newPage = true) (hf : fill d pat ls = .ok s) : Filled d (areas vs) ls none s :=
  fill_filled h hn hf

theorem filled_unique {d : Dms} {as : List Area} {ls : List Str} {p : Option FontTag} {s t : Str}
    (h1 : Filled d as ls p s) (h2 : Filled d as ls p t) : s = t := by
  induction h1 generalizing t with
  | nil => cases h2; rfl
  | skip hf _ ih =>
    cases h2 with
    | skip _ h => rw [ih h]
    | fill hf' _ _ => rw [hf] at hf'; simp at hf'
  | fill hf hk _ ih =>
    cases h2 with
    | skip hf' _ => rw [hf] at hf'; simp at hf'
    | fill _ hk' h =>
      rw [hk] at hk'; simp at hk'; subst hk'
      rw [ih h]

theorem filled_take {d : Dms} {as : List Area} {ls : List Str} {p : Option FontTag} {s : Str} {n : Nat} {ws}
    (h : Filled d as ls p s) (hw : FillLines d n (as.filter (Area.fillable d)) ws) :
    Filled d as (ls.take ws.length) p s := by
  induction h generalizing n ws with
  | nil => exact .nil
  | skip hf _ ih =>
    rw [List.filter_cons, if_neg (by simp [hf])] at hw
    exact .skip hf (ih hw)
  | @fill a as ls p s k hf hk _ ih =>
    rw [List.filter_cons, if_pos hf] at hw
    cases hw with
    | @cons _ _ _ k' ws hk' hw =>
      rw [hk] at hk'; simp at hk'; subst hk'
      have e1 : ls.take k = (ls.take (List.replicate k ((a.rect d).width, a.font d, n) ++ ws).length).take k := by
        rw [List.take_take]; simp
      rw [e1]
      refine .fill hf hk ?_
      rw [List.drop_take]
      have e2 : (List.replicate k ((a.rect d).width, a.font d, n) ++ ws).length - k = ws.length := by simp
      rw [e2]
      exact ih hw

/-- **C59 (capacity)** lines beyond the number of fillable lines have no influence. -/
theorem C59_capacity (d : Dms) (pat : Str) (vs : List Value) (ls : List Str) (s t : Str) (ws)
    (h : ValidPattern d pat vs) (hn : supports d .newPage = true)
    (hw : FillLines d 0 ((areas vs).filter (Area.fillable d)) ws)
    (hs : fill d pat ls = .ok s) (ht : fill d pat (ls.take ws.length) = .ok t) : s = t :=
  filled_unique (filled_take (fill_filled h hn hs) hw) (fill_filled h hn ht)

example : fill patDms c!"[tr1,1,25,0][tr26,1,0,0]" [c!"ONE", c!"TWO", c!"X", c!"Y", c!"Z"] =
    .ok c!"[tr1,1,25,0]ONE[nl]TWO[tr26,1,0,0]X[nl]Y" := by decide +kernel

/-- a valid pattern -/
theorem demo_pattern : ValidPattern patDms c!"[tr1,1,25,0][fo7][np]TEXT"
    [.textRectangle ⟨1, 1, 25, 0⟩, .font (some (7, none)), .newPage, .text c!"TEXT"] := by
  refine ⟨values_parses (by decide +kernel), by decide +kernel⟩

example : supports patDms .newPage = true := by decide +kernel

/-! ### C57 the pattern is kept -/

/-- `s` is made of the pieces, in order, and other text before, between and after them -/
inductive Spec.Weave : List Str → Str → Prop
  | nil (t : Str) : Weave [] t
  | cons (t p : Str) {ps s} : Weave ps s → Weave (p :: ps) (t ++ p ++ s)

theorem Spec.Weave.pre {ps s} (t : Str) (h : Weave ps s) : Weave ps (t ++ s) := by
  cases h with
  | nil => exact .nil _
  | cons u p h => rw [← List.append_assoc, ← List.append_assoc]; exact .cons (t ++ u) p h

theorem Spec.Weave.append {ps s qs t} (h : Weave ps s) (h' : Weave qs t) : Weave (ps ++ qs) (s ++ t) := by
  induction h with
  | nil u => exact h'.pre u
  | cons u p _ ih =>
    rw [List.append_assoc]
    exact .cons u p ih

theorem weave_flatMap {α : Type} (f : α → Str) (l : List α) : Weave (l.map f) (l.flatMap f) := by
  induction l with
  | nil => exact .nil _
  | cons a l ih => simpa using Weave.cons [] (f a) ih

/-- the values of an area -/
def areaValues (a : Area) : List Value := a.body ++ a.next.toList

theorem areas_values (before : List Value) (opener : Option Value) (body vs : List Value) :
    (areasFrom before opener body vs).flatMap areaValues = body ++ vs := by
  induction vs generalizing before opener body with
  | nil => simp [areasFrom, areaValues]
  | cons v vs ih =>
    rw [areasFrom]
    split
    · rw [List.flatMap_cons, ih]; simp [areaValues]
    · rw [ih]; simp

theorem nextText_eq (a : Area) : nextText a = a.next.toList.flatMap Value.display := by
  unfold nextText; cases a.next <;> simp

theorem next_nonfont {a : Area} (h : ∀ v, a.next = some v → opens v = true) :
    a.next.toList.filter (fun v => !isFont v) = a.next.toList := by
  cases e : a.next with
  | none => rfl
  | some v =>
    have := h v e
    cases v <;> simp_all [opens, isFont]

/-- **C57 (all but font tags)** the output for a valid pattern contains all texts and all tags other than font
tags, in order and in canonical form.  Font tags: see `C57_fonts_partial` and `C57_false`. -/
theorem C57_kept_partial (d : Dms) (pat : Str) (vs : List Value) (ls : List Str) (s : Str)
    (h : ValidPattern d pat vs) (hn : supports d .newPage = true) (hf : fill d pat ls = .ok s) :
    Weave ((vs.filter fun v => !isFont v).map Value.display) s := by
  have key : ∀ (as : List Area) (ls : List Str) (p : Option FontTag) (s : Str),
      (∀ a ∈ as, ∀ v, a.next = some v → opens v = true) → Filled d as ls p s →
      Weave (((as.flatMap areaValues).filter fun v => !isFont v).map Value.display) s := by
    intro as ls p s ha hf
    induction hf with
    | nil => exact .nil _
    | @skip a as ls p s _ _ ih =>
      have ih := ih fun b hb => ha b (List.mem_cons_of_mem _ hb)
      rw [List.flatMap_cons, List.filter_append, List.map_append, areaValues, List.filter_append,
        List.map_append, next_nonfont (ha a (List.mem_cons_self ..)), nextText_eq]
      exact ((weave_flatMap _ _).append (weave_flatMap _ _)).append ih
    | @fill a as ls p s k _ _ _ ih =>
      have ih := ih fun b hb => ha b (List.mem_cons_of_mem _ hb)
      rw [List.flatMap_cons, List.filter_append, List.map_append, areaValues, List.filter_append,
        List.map_append, next_nonfont (ha a (List.mem_cons_self ..)), nextText_eq,
        List.append_assoc (_ ++ _) _ s, List.append_assoc (tagsText a.body ++ _),
        List.append_assoc (tagsText a.body), List.append_assoc _ _ ((List.map Value.display _))]
      refine (weave_flatMap _ _).append ?_
      refine Weave.pre _ (Weave.pre _ ?_)
      exact (weave_flatMap _ _).append ih
  have := key (areas vs) _ _ _ (areasFrom_next _ _ _ _) (fill_filled h hn hf)
  rw [areas, areas_values] at this
  exact this

/-- An area whose content has no font tag; or that is fillable and has one, at its end -/
def Spec.FontsPlaced (d : Dms) (a : Area) : Prop :=
  (∀ v ∈ a.body, isFont v = false) ∨
  (a.fillable d = true ∧ ∃ l f, (∀ v ∈ l, isFont v = false) ∧ a.body = l ++ [.font f])

theorem tagsText_nonfont {l : List Value} (h : ∀ v ∈ l, isFont v = false) : tagsText l = l.flatMap Value.display := by
  unfold tagsText
  rw [List.filter_eq_self.2]
  intro v hv; simp [h v hv]

theorem pending_nonfont {l : List Value} {p : Option FontTag} (h : ∀ v ∈ l, isFont v = false) :
    pendingFont p l = p := by
  induction l generalizing p with
  | nil => rfl
  | cons v l ih =>
    have h1 := h v (List.mem_cons_self ..)
    have h2 : pendingFont p (v :: l) = pendingFont p l := by
      cases v <;> simp_all [pendingFont, isFont]
    rw [h2, ih fun w hw => h w (List.mem_cons_of_mem _ hw)]

theorem pendingFont_append (p : Option FontTag) (a b : List Value) :
    pendingFont p (a ++ b) = pendingFont (pendingFont p a) b := by
  unfold pendingFont; rw [List.foldl_append]

/-- **C57 (font tags)** if font tags are only at the end of fillable areas, the output contains all tags and texts
of the pattern, in order; and without lines it is the canonical form of the pattern. -/
theorem C57_fonts_partial (d : Dms) (pat : Str) (vs : List Value) (ls : List Str) (s : Str)
    (h : ValidPattern d pat vs) (hn : supports d .newPage = true) (hp : ∀ a ∈ areas vs, FontsPlaced d a)
    (hf : fill d pat ls = .ok s) :
    Weave (vs.map Value.display) s ∧ (ls = [] → s = vs.flatMap Value.display) := by
  have key : ∀ (as : List Area) (ls : List Str) (p : Option FontTag) (s : Str), p = none →
      (∀ a ∈ as, FontsPlaced d a) → Filled d as ls p s →
      Weave ((as.flatMap areaValues).map Value.display) s ∧
        (ls = [] → s = (as.flatMap areaValues).flatMap Value.display) := by
    intro as ls p s hp ha hf
    induction hf with
    | nil => exact ⟨.nil _, fun _ => rfl⟩
    | @skip a as ls p s hf _ ih =>
      subst hp
      have hb : ∀ v ∈ a.body, isFont v = false := by
        rcases ha a (List.mem_cons_self ..) with h | ⟨h, -⟩
        · exact h
        · rw [hf] at h; simp at h
      obtain ⟨ih1, ih2⟩ := ih (pending_nonfont hb) fun b hb => ha b (List.mem_cons_of_mem _ hb)
      rw [List.flatMap_cons, List.map_append, areaValues, List.map_append, nextText_eq, tagsText_nonfont hb]
      refine ⟨((weave_flatMap _ _).append (weave_flatMap _ _)).append ih1, fun hl => ?_⟩
      rw [ih2 hl]; simp
    | @fill a as ls p s k hf _ _ ih =>
      subst hp
      obtain ⟨ih1, ih2⟩ := ih rfl fun b hb => ha b (List.mem_cons_of_mem _ hb)
      obtain ⟨l, m, hl, hb, hm⟩ : ∃ l m, (∀ v ∈ l, isFont v = false) ∧ a.body = l ++ m ∧
          m.flatMap Value.display = fontText (pendingFont none m) ∧ True ∧ tagsText m = [] := by
        rcases ha a (List.mem_cons_self ..) with h | ⟨-, l, f, h, e⟩
        · exact ⟨a.body, [], h, by simp, rfl, trivial, rfl⟩
        · exact ⟨l, [.font f], h, e, by simp [pendingFont, fontText], trivial, rfl⟩
      have e1 : tagsText a.body = l.flatMap Value.display := by
        have : tagsText (l ++ m) = tagsText l ++ tagsText m := by simp [tagsText]
        rw [hb, this, hm.2.2, tagsText_nonfont hl, List.append_nil]
      have e2 : fontText (pendingFont none a.body) = m.flatMap Value.display := by
        rw [hb, pendingFont_append, pending_nonfont hl, hm.1]
      rw [e1, e2, List.flatMap_cons, areaValues, hb, nextText_eq]
      constructor
      · simp only [List.map_append, List.append_assoc]
        refine (weave_flatMap _ _).append (Weave.pre _ ((weave_flatMap _ _).append ((weave_flatMap _ _).append ih1)))
      · rintro rfl
        rw [ih2 (by simp)]
        simp [joinLines]
  have := key _ _ _ _ rfl hp (fill_filled h hn hf)
  rw [areas, areas_values] at this
  exact this

/-- **C57 (nothing to fill)** a valid pattern without fillable area and without font tags is returned in canonical
form -/
theorem C57_canonical_partial (d : Dms) (pat : Str) (vs : List Value) (ls : List Str) (s : Str)
    (h : ValidPattern d pat vs) (hn : supports d .newPage = true) (hp : ∀ v ∈ vs, isFont v = false)
    (ha : ∀ a ∈ areas vs, a.fillable d = false) (hf : fill d pat ls = .ok s) : s = vs.flatMap Value.display := by
  have key : ∀ (as : List Area) (ls : List Str) (p : Option FontTag) (s : Str),
      (∀ a ∈ as, a.fillable d = false) → (∀ v ∈ as.flatMap areaValues, isFont v = false) → Filled d as ls p s →
      s = (as.flatMap areaValues).flatMap Value.display := by
    intro as ls p s ha hp hf
    induction hf with
    | nil => rfl
    | @skip a as ls p s hf _ ih =>
      rw [List.flatMap_cons] at hp
      have ih := ih (fun b hb => ha b (List.mem_cons_of_mem _ hb)) fun v hv => hp v (List.mem_append_right _ hv)
      have hb : ∀ v ∈ a.body, isFont v = false := fun v hv =>
        hp v (List.mem_append_left _ (List.mem_append_left _ hv))
      rw [ih, tagsText_nonfont hb, nextText_eq]
      simp [areaValues]
    | @fill a as ls p s k hf _ _ ih => rw [ha a (List.mem_cons_self ..)] at hf; simp at hf
  have e := areas_values [] none [] vs
  have := key (areas vs) _ _ _ ha (by rw [areas, e]; exact hp) (fill_filled h hn hf)
  rw [areas, e] at this
  exact this

/-- **C57 fails** for font tags: they are dropped when no fillable area follows, of two only the last is kept, and
a font tag before text is moved behind the lines of a later page. -/
theorem C57_false : fill patDms c!"[fo7]TEXT" [] = .ok c!"TEXT" ∧ fill patDms c!"A[fo7]B" [] = .ok c!"AB" ∧
    fill patDms c!"[fo7][fo8]" [c!"X"] = .ok c!"X[fo8]" ∧
    fill patDms c!"[fo7]FIRST[np]" [c!"SECOND"] = .ok c!"FIRST[np]SECOND[fo7]" := by decide +kernel

example : ∀ a ∈ areas [.textRectangle ⟨1, 1, 25, 0⟩, .font (some (7, none)), .newPage, .text c!"TEXT"],
    FontsPlaced patDms a := by
  intro a ha
  have : areas [.textRectangle ⟨1, 1, 25, 0⟩, .font (some (7, none)), .newPage, .text c!"TEXT"] =
    [⟨[], none, [], some (.textRectangle ⟨1, 1, 25, 0⟩)⟩,
     ⟨[], some (.textRectangle ⟨1, 1, 25, 0⟩), [.font (some (7, none))], some .newPage⟩,
     ⟨[.textRectangle ⟨1, 1, 25, 0⟩, .font (some (7, none))], some .newPage, [.text c!"TEXT"], none⟩] := rfl
  rw [this] at ha
  simp only [List.mem_cons, List.not_mem_nil, or_false] at ha
  rcases ha with rfl | rfl | rfl
  · exact .inl (by simp)
  · exact .inr ⟨by decide +kernel, [], _, by simp, rfl⟩
  · exact .inl (by decide)
example : fill patDms c!"[TR1,1,25,0][FO7][np]TEXT" [c!"X"] = .ok c!"[tr1,1,25,0]X[fo7][np]TEXT" := by
  decide +kernel

/-! ### C58 invalid patterns -/

theorem fillLoop_error (d : Dms) {items : List (Res (Except SyntaxError PatValue))} {ls : List Str}
    {p : Option FontTag} {ms s : Str} (h : fillLoop d items ls p ms = .ok s) (hs : s ≠ []) :
    ∀ x ∈ items, ∃ y, x = .ok (.ok y) := by
  induction items generalizing ls p ms with
  | nil => simp
  | cons x items ih =>
    match x with
    | .panic _ => simp [fillLoop] at h
    | .ok (.error e) => simp [fillLoop] at h; exact absurd h.symm (by simpa using hs.symm)
    | .ok (.ok (.fillableRect r f)) =>
      have := fillLoop_rect d r f items ls p ms
      rw [good] at this
      rw [this] at h
      obtain ⟨k, -, h⟩ := Res.bind_eq_ok.1 h
      intro y hy
      rcases List.mem_cons.1 hy with rfl | hy
      · exact ⟨_, rfl⟩
      · exact ih h y hy
    | .ok (.ok (.value v)) =>
      have := fillLoop_body d [v] items ls p ms
      simp only [List.map_cons, List.map_nil, List.cons_append, List.nil_append, good] at this
      rw [this] at h
      intro y hy
      rcases List.mem_cons.1 hy with rfl | hy
      · exact ⟨_, rfl⟩
      · exact ih h y hy

theorem patRun_good (d : Dms) (font : UInt8) (rf : Option (Rectangle × UInt8))
    (xs : List (Res (Except SyntaxError Value))) (h : ∀ x ∈ patRun d font rf xs, ∃ y, x = .ok (.ok y)) :
    supports d .newPage = true ∧
      ∃ vs : List Value, xs = vs.map (fun v => .ok (.ok v)) ∧ ∀ v ∈ vs, supports d v = true := by
  induction xs generalizing font rf with
  | nil =>
    rw [patRun, unsupported_eq] at h
    refine ⟨?_, [], rfl, by simp⟩
    cases hn : supports d .newPage with
    | true => rfl
    | false => rw [hn] at h; simp at h
  | cons x xs ih =>
    match x with
    | .panic p => simp [patRun] at h
    | .ok (.error e) => simp [patRun] at h
    | .ok (.ok v) =>
      rw [patRun, unsupported_eq] at h
      cases hs : supports d v with
      | false => rw [hs] at h; simp at h
      | true =>
        rw [hs, if_neg (by simp)] at h
        obtain ⟨h1, vs, rfl, h2⟩ := ih _ _ fun x hx =>
          h x (List.mem_append_right _ (List.mem_cons_of_mem _ hx))
        refine ⟨h1, v :: vs, rfl, ?_⟩
        intro w hw
        rcases List.mem_cons.1 hw with rfl | hw
        · exact hs
        · exact h2 w hw

/-- **C58 (invalid patterns)** if `fill` returns, and an item of the pattern is not valid or not supported by the
sign, the result is empty -/
theorem C58_invalid (d : Dms) (pat : Str) (ls : List Str) (s : Str) (hf : fill d pat ls = .ok s)
    (h : ∀ vs, ¬ ValidPattern d pat vs) : s = [] := by
  apply Classical.byContradiction
  intro hs
  have := fillLoop_error d hf hs
  rw [patItems_eq] at this
  obtain ⟨-, vs, h1, h2⟩ := patRun_good d _ _ _ this
  exact h vs ⟨values_parses h1, h2⟩

theorem areasFrom_single {before : List Value} {opener : Option Value} {body vs : List Value} {a : Area}
    {as : List Area} (h : areasFrom before opener body vs = a :: as) (hn : a.next = none) : a.body = body ++ vs := by
  induction vs generalizing body with
  | nil => simp [areasFrom] at h; rw [← h.1]; simp
  | cons v vs ih =>
    rw [areasFrom] at h
    split at h
    · simp at h; rw [← h.1] at hn; simp at hn
    · rw [ih h]; simp

theorem valid_inRange {d : Dms} {pat : Str} {vs : List Value} (h : ValidPattern d pat vs) :
    ∀ v ∈ vs, InRange v := by
  have key : ∀ {ss : List Str} {vs : List Value}, Parses ss vs → (∀ s ∈ ss, Item s) → ∀ v ∈ vs, InRange v := by
    intro ss vs h
    induction h with
    | nil => simp
    | cons h _ ih =>
      intro hi v hv
      rcases List.mem_cons.1 hv with rfl | hv
      · exact C04_in_range _ _ (hi _ (List.mem_cons_self ..)) h
      · exact ih (fun s hs => hi s (List.mem_cons_of_mem _ hs)) v hv
  exact key h.1 (slices_items pat)

theorem font_display_ne (f : FontTag) : (Value.font f).display ≠ [] := by
  cases f with
  | none => decide
  | some f => obtain ⟨n, v⟩ := f; cases v <;> simp [Value.display]

theorem pendingFont_some (p : Option FontTag) {l : List Value} (h : ∀ v ∈ l, isFont v = true) (hl : l ≠ []) :
    ∃ f, pendingFont p l = some f := by
  have hx := List.dropLast_concat_getLast hl
  have hl' := h _ (List.getLast_mem hl)
  rw [← hx, pendingFont_append]
  generalize l.getLast hl = v at hl'
  cases v <;> simp_all [isFont, pendingFont]

/-- **C58 (valid patterns)** a non-empty valid pattern never gives an empty string, on a sign that supports `[np]`.
Without: `C58_false` and C60. -/
theorem C58_nonempty_partial (d : Dms) (pat : Str) (vs : List Value) (ls : List Str) (s : Str)
    (h : ValidPattern d pat vs) (hn : supports d .newPage = true) (hp : pat ≠ []) (hf : fill d pat ls = .ok s) :
    s ≠ [] := by
  intro hs
  subst hs
  have hr := valid_inRange h
  have hfl := fill_filled h hn hf
  have hvs : vs ≠ [] := by
    rintro rfl
    have h1 := h.1
    have : slices pat = [] := by cases hx : slices pat with
      | nil => rfl
      | cons a b => rw [hx] at h1; cases h1
    have := slices_flatten pat
    simp_all
  obtain ⟨a, as, ha⟩ : ∃ a as, areas vs = a :: as := by
    cases hx : areas vs with
    | nil => exact absurd hx (areasFrom_ne_nil _ _ _ _)
    | cons a as => exact ⟨a, as, rfl⟩
  rw [ha] at hfl
  -- no tag opens another area
  have hbody : tagsText a.body = [] ∧ nextText a = [] ∧
      (a.fillable d = true → fontText (pendingFont none a.body) = []) := by
    have aux : ∀ z, Filled d (a :: as) ls none z → z = [] → tagsText a.body = [] ∧ nextText a = [] ∧
        (a.fillable d = true → fontText (pendingFont none a.body) = []) := by
      intro z hfl hz
      cases hfl with
      | skip h1 h2 =>
        simp only [List.append_eq_nil_iff] at hz
        exact ⟨hz.1.1, hz.1.2, by simp [h1]⟩
      | fill h1 h2 h3 =>
        simp only [List.append_eq_nil_iff] at hz
        exact ⟨hz.1.1.1.1, hz.1.2, fun _ => hz.1.1.2⟩
    exact aux _ hfl rfl
  have hval : ∀ v ∈ areaValues a, v ∈ vs := by
    have e := areas_values [] none [] vs
    rw [List.nil_append] at e
    intro v hv
    rw [← e]
    have ha' : areasFrom [] none [] vs = a :: as := ha
    rw [ha', List.flatMap_cons]
    exact List.mem_append_left _ hv
  have hnext : a.next = none := by
    cases e : a.next with
    | none => rfl
    | some v =>
      have h1 := hbody.2.1
      unfold nextText at h1
      rw [e] at h1
      exact absurd h1 (display_ne_nil v (hr v (hval v (by simp [areaValues, e]))))
  have hb : a.body = vs := by simpa using areasFrom_single ha hnext
  have hfonts : ∀ v ∈ a.body, isFont v = true := by
    intro v hv
    cases e : isFont v with
    | true => rfl
    | false =>
      have h1 := hbody.1
      unfold tagsText at h1
      rw [List.flatMap_eq_nil_iff] at h1
      exact absurd (h1 v (List.mem_filter.2 ⟨hv, by simp [e]⟩)) (display_ne_nil v (hr v (hb ▸ hv)))
  have hfill : a.fillable d = true := by
    unfold Area.fillable
    rw [hnext]
    simp only [Bool.and_true, Bool.not_eq_true']
    rw [List.any_eq_false]
    intro v hv
    have := hfonts v hv
    cases v <;> simp_all [isFont, occupies]
  obtain ⟨f, hpf⟩ := pendingFont_some none hfonts (hb ▸ hvs)
  have := hbody.2.2 hfill
  rw [hpf] at this
  exact font_display_ne f this

/-- a sign that does not support `[np]` -/
def onePageDms : Dms :=
  { patDms with multiCfg := { patDms.multiCfg with supportedMultiTags := fun t => t != .np } }

/-- **C58 fails** on a sign without `[np]`: this pattern is valid and does not use it -/
theorem C58_false : ValidPattern onePageDms c!"TEXT" [.text c!"TEXT"] ∧ fill onePageDms c!"TEXT" [] = .ok [] :=
  ⟨⟨values_parses (by decide +kernel), by decide +kernel⟩, by decide +kernel⟩

example : fill patDms c!"[x]TEXT" [] = .ok [] ∧ fill patDms c!"[fo7]" [] = .ok c!"[fo7]" := by decide +kernel

/-! ### C56 extracting what was filled in -/

theorem patternValues_valid {d : Dms} {pat : Str} {vs : List Value} (h : ValidPattern d pat vs) :
    patternValues d pat = vs := by
  have key : ∀ {ss : List Str} {vs : List Value}, Parses ss vs → ss.filterMap validOf = vs := by
    intro ss vs h
    induction h with
    | nil => rfl
    | cons h _ ih => simp [validOf, h, ih]
  unfold patternValues validValues
  rw [key h.1]
  exact List.filter_eq_self.2 h.2

theorem areas_mem {vs : List Value} {a : Area} (ha : a ∈ areas vs) : ∀ v ∈ areaValues a, v ∈ vs := by
  intro v hv
  have e := areas_values [] none [] vs
  rw [List.nil_append] at e
  rw [← e]
  exact List.mem_flatMap.2 ⟨a, ha, hv⟩

/-- **C56** what is filled into a valid pattern is extracted again, padded or cut to the number of fillable lines:
for patterns on a sign that supports `[np]`, when the removal of font tags does not bring texts together, and
hexadecimal characters are single digits (C07). -/
theorem C56_round_trip_partial (d : Dms) (pat : Str) (vs : List Value) (ls : List Str) (s : Str) (ws)
    (h : ValidPattern d pat vs) (hn : supports d .newPage = true)
    (hhc : ∀ c, .hexadecimalCharacter c ∈ vs → c.toNat < 10)
    (ha : ∀ a ∈ areas vs, Apart (a.body.filter fun v => !isFont v))
    (hl : ∀ l ∈ ls, LineText l) (hf : fill d pat ls = .ok s) (hw : widths d pat = .ok ws) :
    lines d pat s = .ok ((ls ++ List.replicate ws.length []).take ws.length) := by
  have hw' := C55_widths_partial d pat ws hw hn
  rw [patternValues_valid h] at hw'
  have := linesLoop_filled d (fill_filled h hn hf) (areasFrom_linked _ _ _ _) hw' ?_ ha (by simp) hl []
  · rw [lines, patItems_valid h hn, this]; rfl
  · intro a hma v hv
    have hv := areas_mem hma v hv
    exact ⟨valid_inRange h v hv, fun c e => hhc c (e ▸ hv)⟩

/-- **C56 (fonts in fillable areas)** in particular when font tags are only in fillable areas -/
theorem C56_fonts_partial (d : Dms) (pat : Str) (vs : List Value) (ls : List Str) (s : Str) (ws)
    (h : ValidPattern d pat vs) (hn : supports d .newPage = true)
    (hhc : ∀ c, .hexadecimalCharacter c ∈ vs → c.toNat < 10)
    (ha : ∀ a ∈ areas vs, a.fillable d = true ∨ ∀ v ∈ a.body, isFont v = false)
    (hl : ∀ l ∈ ls, LineText l) (hf : fill d pat ls = .ok s) (hw : widths d pat = .ok ws) :
    lines d pat s = .ok ((ls ++ List.replicate ws.length []).take ws.length) := by
  refine C56_round_trip_partial d pat vs ls s ws h hn hhc ?_ hl hf hw
  intro a hma
  rcases ha a hma with hfa | hfo
  · have : ∀ (l : List Value), (∀ v ∈ l, plainText v = false) → Apart l := by
      intro l
      induction l with
      | nil => exact fun _ => trivial
      | cons v l ih =>
        intro hl
        exact ⟨fun h => by rw [hl v (List.mem_cons_self ..)] at h; simp at h,
          ih fun w hw => hl w (List.mem_cons_of_mem _ hw)⟩
    apply this
    intro v hv
    have hv := (List.mem_filter.1 hv).1
    unfold Area.fillable at hfa
    simp only [Bool.and_eq_true, Bool.not_eq_true', List.any_eq_false] at hfa
    have := hfa.1 v hv
    cases v <;> simp_all [occupies, plainText]
  · rw [List.filter_eq_self.2 (by intro v hv; simp [hfo v hv])]
    exact areasFrom_apart _ _ _ _ (by simpa using parses_apart h.1 (slices_cut pat)) a hma

/-- lines of text -/
theorem demo_lines : ∀ l ∈ [c!"ONE[jl3]1", c!"", c!"A[[B"], LineText l := by
  intro l hl
  simp only [List.mem_cons, List.not_mem_nil, or_false] at hl
  rcases hl with rfl | rfl | rfl
  · exact ⟨[.text c!"ONE", .justificationLine (some .center), .text c!"1"], values_parses (by decide +kernel), by decide⟩
  · exact ⟨[], values_parses (by decide +kernel), by decide⟩
  · exact ⟨[.text c!"A", .text c!"[", .text c!"B"], values_parses (by decide +kernel), by decide⟩

example : fill patDms c!"[tr1,1,25,0][fo7][np]TEXT[np]" [c!"ONE[jl3]1", c!"", c!"A[[B"] =
      .ok c!"[tr1,1,25,0]ONE[jl3]1[nl][fo7][np]TEXT[np]A[[B" ∧
    lines patDms c!"[tr1,1,25,0][fo7][np]TEXT[np]" c!"[tr1,1,25,0]ONE[jl3]1[nl][fo7][np]TEXT[np]A[[B" =
      .ok [c!"ONE[jl3]1", c!"", c!"A[[B", c!""] := by decide +kernel

/-- **C56 fails** where a font tag between two texts is dropped, -/
theorem C56_false : fill patDms c!"A[fo7]B[np]" [c!"X"] = .ok c!"AB[np]X[fo7]" ∧
    lines patDms c!"A[fo7]B[np]" c!"AB[np]X[fo7]" = .ok [] ∧
    (widths patDms c!"A[fo7]B[np]").bind (fun ws => .ok ws.length) = .ok 2 := by decide +kernel

/-- and for hexadecimal characters that are not written back as they were read. -/
theorem C56_hc_false : fill patDms c!"[hc41]" [c!"X"] = .ok c!"[hc65]X" ∧
    lines patDms c!"[hc41]" c!"[hc65]X" = .ok [] := by decide +kernel

/-! ### C60 signs without `[np]` -/

/-- **C60 fails for every sign without `[np]` and every pattern**: `fill` returns nothing, -/
theorem C60_fill_false (d : Dms) (pat : Str) (ls : List Str) (s : Str) (hn : supports d .newPage = false)
    (h : fill d pat ls = .ok s) : s = [] := by
  apply Classical.byContradiction
  intro hs
  have := fillLoop_error d h hs
  rw [patItems_eq] at this
  rw [(patRun_good d _ _ _ this).1] at hn
  simp at hn

/-- and the blank page is not fillable. -/
theorem C60_blank_false (d : Dms) (hn : supports d .newPage = false) :
    widths d [] = .ok [] ∧ ∀ ms, lines d [] ms = .ok [] := by
  have : patItems d [] = [.ok (.error (.unsupportedTag Value.newPage.display))] := by
    rw [patItems_eq]
    simp [values, slices_nil, patRun, unsupported_eq, hn]
  constructor
  · rw [widths, this]; rfl
  · intro ms; rw [lines, this]; rfl

/-- **C60 (what holds)** on a sign without `[np]` all areas but the last are enumerated by `widths` -/
theorem C60_widths_partial (d : Dms) (pat : Str) (ws) (h : widths d pat = .ok ws)
    (hnp : supports d .newPage = false) :
    FillLines d 0 ((areas (patternValues d pat)).dropLast.filter (Area.fillable d)) ws := by
  have hp := widths_ok_panic h
  rw [widths, widthsLoop_rects _ _ _ (widthsLoop_ok_panic d h), rects_pattern _ _ hp] at h
  have := widthsR_lines d h
  rwa [areasOn, if_neg (by simp [hnp])] at this

example : supports onePageDms .newPage = false ∧
    widths onePageDms c!"[tr1,1,25,0][tr26,1,0,0]" = .ok [(25, 8, 0), (25, 8, 0)] := by decide +kernel

end Ntcip
