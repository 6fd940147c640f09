import Verif.Model.Pattern
import Verif.Lemmas.Tokens
import Verif.Lemmas.Rects
import Verif.Lemmas.Normalize
import Verif.Spec.Pattern
/-
The items of a pattern, without the iterator
-/
namespace Ntcip
open Spec

/-- font number after `v` -/
def nextFont (d : Dms) (font : UInt8) : Value → UInt8
  | .font none => d.multiCfg.defaultFont
  | .font (some (n, _)) => n
  | _ => font

/-- blank rectangle after `v` -/
def nextRect (d : Dms) (font : UInt8) (rf : Option (Rectangle × UInt8)) : Value → Option (Rectangle × UInt8)
  | .text _ => none
  | .newLine _ => none
  | .newPage => some (d.fullRect, font)
  | .textRectangle tr => some (tr.extendWidthHeight d.fullRect, font)
  | _ => rf

/-- fillable rectangle before `v` -/
def fillBefore (d : Dms) (rf : Option (Rectangle × UInt8)) : Value → List PatValue
  | .newPage => match rf with
    | some (r, f) => [.fillableRect r f]
    | none => []
  | .textRectangle _ => match rf with
    | some (r, f) => if r ≠ d.fullRect then [.fillableRect r f] else []
    | none => []
  | _ => []

/-- an item that is not an error -/
def good (x : PatValue) : Res (Except SyntaxError PatValue) := .ok (.ok x)

/-- the items of a pattern with values `xs` -/
def patRun (d : Dms) : UInt8 → Option (Rectangle × UInt8) → List (Res (Except SyntaxError Value)) →
    List (Res (Except SyntaxError PatValue))
  | _, rf, [] =>
    if unsupportedBy d .newPage then [.ok (.error (.unsupportedTag Value.newPage.display))]
    else (fillBefore d rf .newPage).map good
  | _, _, .panic p :: _ => [.panic p]
  | font, rf, .ok (.error e) :: xs => .ok (.error e) :: patRun d font rf xs
  | font, rf, .ok (.ok v) :: xs =>
    if unsupportedBy d v then .ok (.error (.unsupportedTag v.display)) :: patRun d font rf xs
    else (fillBefore d rf v).map good ++ good (.value v) :: patRun d (nextFont d font v) (nextRect d font rf v) xs

theorem step_eq (d : Dms) (it : PatIter) (v : Value) (ha : it.atEnd = false) (hv : it.value = none) :
    PatIter.step d it v =
      if unsupportedBy d v then (some (.error (.unsupportedTag v.display)), it)
      else match fillBefore d it.rectFont v with
        | [] => (some (.ok (.value v)),
            { it with fontNum := nextFont d it.fontNum v, rectFont := nextRect d it.fontNum it.rectFont v })
        | x :: _ => (some (.ok x), { it with value := some v, fontNum := nextFont d it.fontNum v,
                                             rectFont := nextRect d it.fontNum it.rectFont v }) := by
  obtain ⟨rest, value, font, rf, ae⟩ := it
  dsimp only at ha hv
  subst ha hv
  unfold PatIter.step
  dsimp only
  by_cases hu : unsupportedBy d v = true
  · rw [if_pos hu, if_pos hu]
  · rw [if_neg hu, if_neg hu]
    cases v <;> try rfl
    · rename_i f; cases f <;> rfl
    · cases rf <;> rfl
    · cases rf
      · rfl
      · simp only [fillBefore, nextFont, nextRect]
        split <;> rfl

theorem step_end (d : Dms) (font : UInt8) (rf : Option (Rectangle × UInt8)) :
    ∃ it', (PatIter.step d ⟨[], none, font, rf, true⟩ .newPage) =
      ((patRun d font rf []).head?.bind (fun | .ok x => some x | .panic _ => none), it') ∧
      (it'.atEnd = true) ∧ (patRun d font rf []).length ≤ 1 ∧ ∀ x ∈ patRun d font rf [], ∃ y, x = .ok y := by
  unfold PatIter.step
  dsimp only
  rw [patRun.eq_def]
  dsimp only
  by_cases hu : unsupportedBy d .newPage = true
  · rw [if_pos hu, if_pos hu]
    exact ⟨_, rfl, rfl, by simp, by simp⟩
  · rw [if_neg hu, if_neg hu]
    cases rf
    · exact ⟨_, rfl, rfl, by simp [fillBefore], by simp [fillBefore]⟩
    · exact ⟨_, rfl, rfl, by simp [fillBefore], by simp [fillBefore, good]⟩

theorem fillBefore_length (d : Dms) (rf : Option (Rectangle × UInt8)) (v : Value) :
    fillBefore d rf v = [] ∨ ∃ x, fillBefore d rf v = [x] := by
  unfold fillBefore
  split
  · split
    · exact .inr ⟨_, rfl⟩
    · exact .inl rfl
  · split
    · split
      · exact .inr ⟨_, rfl⟩
      · exact .inl rfl
    · exact .inl rfl
  · exact .inl rfl

theorem patItemsAux_eq (d : Dms) (ms : Str) (n : Nat) (font : UInt8) (rf : Option (Rectangle × UInt8))
    (h : 2 * ms.length + 2 ≤ n) :
    patItemsAux d n ⟨ms, none, font, rf, false⟩ = patRun d font rf (values ms) := by
  induction ms using slices_induction generalizing n font rf with
  | h0 =>
    obtain ⟨n, rfl⟩ : ∃ m, n = m + 2 := ⟨n - 2, by simp at h; omega⟩
    have hv : values [] = [] := by simp [values, slices_nil]
    rw [hv, patItemsAux]
    have hn : PatIter.next d ⟨[], none, font, rf, false⟩ =
        .ok (PatIter.step d ⟨[], none, font, rf, true⟩ .newPage) := by
      unfold PatIter.next; simp [nextSlice_nil]
    rw [hn]
    obtain ⟨it', h1, h2, h3, h4⟩ := step_end d font rf
    rw [h1]
    generalize patRun d font rf [] = l at *
    cases l with
    | nil => rfl
    | cons x l =>
      obtain ⟨y, rfl⟩ := h4 x (by simp)
      have : l = [] := by simp at h3; exact h3
      subst this
      simp only [List.head?_cons, Option.bind_some, patItemsAux]
      unfold PatIter.next
      rw [if_pos h2]
  | h1 t r ht hf ih =>
    have hpos := List.length_pos_iff.2 (item_ne_nil ht)
    have hl : 2 * r.length + 2 + 2 ≤ n := by simp at h; omega
    obtain ⟨n, rfl⟩ : ∃ m, n = m + 2 := ⟨n - 2, by omega⟩
    have hv : values (t ++ r) = tryFrom t :: values r := by simp [values, slices_item ht hf]
    rw [hv, patItemsAux]
    have hn : PatIter.next d ⟨t ++ r, none, font, rf, false⟩ =
        match tryFrom t with
        | .panic p => .panic p
        | .ok (.error e) => .ok (some (.error e), ⟨r, none, font, rf, false⟩)
        | .ok (.ok v) => .ok (PatIter.step d ⟨r, none, font, rf, false⟩ v) := by
      unfold PatIter.next; simp [nextSlice_item ht hf]; rfl
    rw [hn]
    cases hp : tryFrom t with
    | panic p => rfl
    | ok x =>
      cases x with
      | error e =>
        dsimp only
        rw [patRun, ih (n + 1) font rf (by omega)]
      | ok v =>
        dsimp only
        rw [step_eq d _ v rfl rfl, patRun]
        by_cases hu : unsupportedBy d v = true
        · rw [if_pos hu, if_pos hu]
          dsimp only
          rw [ih (n + 1) font rf (by omega)]
        · rw [if_neg hu, if_neg hu]
          dsimp only
          rcases fillBefore_length d rf v with hx | ⟨x, hx⟩
          · rw [hx]
            dsimp only
            rw [ih (n + 1) _ _ (by omega)]
            rfl
          · rw [hx]
            dsimp only
            rw [patItemsAux]
            simp only [PatIter.next, Bool.false_eq_true, if_false]
            rw [ih n _ _ (by omega)]
            rfl

theorem patItems_eq (d : Dms) (ms : Str) :
    patItems d ms = patRun d d.multiCfg.defaultFont (some (d.fullRect, d.multiCfg.defaultFont)) (values ms) :=
  patItemsAux_eq d ms _ _ _ (Nat.le_refl _)

/-! ### fillable rectangles -/

theorem unsupported_eq (d : Dms) (v : Value) : unsupportedBy d v = !supports d v := by
  unfold unsupportedBy supports
  cases v.tag <;> rfl

/-- the fillable rectangle of an item -/
def rectOf : Res (Except SyntaxError PatValue) → Option (Rectangle × UInt8)
  | .ok (.ok (.fillableRect r f)) => some (r, f)
  | _ => none

def isPanic {α : Type} : Res α → Bool
  | .panic _ => true
  | .ok _ => false

/-- the value of a valid and supported item -/
def goodValue (d : Dms) : Res (Except SyntaxError Value) → Option Value
  | .ok (.ok v) => if supports d v then some v else none
  | _ => none

theorem rects_patRun (d : Dms) (font : UInt8) (rf : Option (Rectangle × UInt8))
    (xs : List (Res (Except SyntaxError Value))) (hp : ∀ x ∈ xs, isPanic x = false) :
    (patRun d font rf xs).filterMap rectOf =
      (patRun d font rf ((xs.filterMap (goodValue d)).map fun v => .ok (.ok v))).filterMap rectOf := by
  induction xs generalizing font rf with
  | nil => rfl
  | cons x xs ih =>
    have hp' : ∀ x ∈ xs, isPanic x = false := fun y hy => hp y (List.mem_cons_of_mem _ hy)
    cases x with
    | panic p => have := hp _ (List.mem_cons_self ..); simp [isPanic] at this
    | ok x =>
      cases x with
      | error e =>
        rw [patRun, List.filterMap_cons_none rfl, ih _ _ hp', List.filterMap_cons_none rfl]
      | ok v =>
        rw [patRun, unsupported_eq]
        by_cases hs : supports d v = true
        · rw [if_neg (by simp [hs]), List.filterMap_append, List.filterMap_cons_none rfl, ih _ _ hp']
          have : goodValue d (.ok (.ok v)) = some v := by simp [goodValue, hs]
          rw [List.filterMap_cons_some this, List.map_cons, patRun, unsupported_eq, if_neg (by simp [hs]),
            List.filterMap_append, List.filterMap_cons_none rfl]
        · rw [if_pos (by simpa using hs), List.filterMap_cons_none rfl, ih _ _ hp']
          have : goodValue d (.ok (.ok v)) = none := by simp [goodValue, hs]
          rw [List.filterMap_cons_none this]

theorem fontAfter_snoc (d : Dms) (vs : List Value) (v : Value) :
    fontAfter d (vs ++ [v]) = nextFont d (fontAfter d vs) v := by
  unfold fontAfter
  rw [List.foldl_append]
  cases v <;> try rfl

theorem fontAfter_opens (d : Dms) (vs : List Value) (v : Value) (h : opens v = true) :
    fontAfter d (vs ++ [v]) = fontAfter d vs := by
  rw [fontAfter_snoc]
  cases v <;> simp_all [opens, nextFont]

/-- the state of the iterator after the values of an area -/
def blankRect (d : Dms) (before : List Value) (opener : Option Value) (body : List Value) :
    Option (Rectangle × UInt8) :=
  if body.any occupies then none
  else some ((Area.mk before opener body none).rect d, fontAfter d before)

def areaRect (d : Dms) (a : Area) : Rectangle × UInt8 := (a.rect d, a.font d)

/-- the areas, without the last if a new page is not supported -/
def areasOn (d : Dms) (as : List Area) : List Area := if supports d .newPage then as else as.dropLast

theorem areasFrom_ne_nil (before : List Value) (opener : Option Value) (body vs : List Value) :
    areasFrom before opener body vs ≠ [] := by
  induction vs generalizing before opener body with
  | nil => simp [areasFrom]
  | cons v vs ih =>
    rw [areasFrom]; split
    · simp
    · exact ih _ _ _

theorem rects_areas (d : Dms) (before : List Value) (opener : Option Value) (body vs : List Value)
    (hs : ∀ v ∈ vs, supports d v = true) (hb : ∀ v ∈ body, opens v = false)
    (ho : ∀ v, opener = some v → opens v = true) :
    (patRun d (fontAfter d (before ++ opener.toList ++ body)) (blankRect d before opener body)
      (vs.map fun v => .ok (.ok v))).filterMap rectOf =
      ((areasOn d (areasFrom before opener body vs)).filter (Area.fillable d)).map (areaRect d) := by
  induction vs generalizing before opener body with
  | nil =>
    rw [List.map_nil, patRun, unsupported_eq, areasFrom, areasOn]
    by_cases hn : supports d .newPage = true
    · rw [if_neg (by simp [hn]), if_pos hn]
      unfold blankRect
      by_cases hbl : body.any occupies = true
      · simp [hbl, fillBefore, Area.fillable]
      · simp only [if_neg hbl]
        simp [fillBefore, Area.fillable, hbl, areaRect, Area.font, good, rectOf]
    · rw [if_pos (by simpa using hn), if_neg hn]
      simp [rectOf]
  | cons v vs ih =>
    rw [List.map_cons, patRun, unsupported_eq, if_neg (by simp [hs v]), areasFrom]
    have hs' : ∀ w ∈ vs, supports d w = true := fun w hw => hs w (List.mem_cons_of_mem _ hw)
    rw [List.filterMap_append, List.filterMap_cons_none rfl, ← fontAfter_snoc]
    by_cases hov : opens v = true
    · rw [if_pos hov]
      have e1 : areasOn d (⟨before, opener, body, some v⟩ ::
          areasFrom (before ++ opener.toList ++ body) (some v) [] vs) =
          ⟨before, opener, body, some v⟩ ::
            areasOn d (areasFrom (before ++ opener.toList ++ body) (some v) [] vs) := by
        unfold areasOn
        split
        · rfl
        · rw [List.dropLast_cons_of_ne_nil (areasFrom_ne_nil _ _ _ _)]
      have ih' := ih (before ++ opener.toList ++ body) (some v) [] hs' (by simp) (by simp [hov])
      have e2 : nextRect d (fontAfter d (before ++ opener.toList ++ body)) (blankRect d before opener body) v =
          blankRect d (before ++ opener.toList ++ body) (some v) [] := by
        cases v <;> simp_all [opens, nextRect, blankRect, Area.rect, extendWidthHeight_eq]
      rw [e1, e2, List.filter_cons]
      simp only [Option.toList, List.append_nil] at ih'
      simp only [Option.toList] at ih' ⊢
      rw [ih']
      have e3 : ((fillBefore d (blankRect d before opener body) v).map good).filterMap rectOf =
          if (Area.fillable d ⟨before, opener, body, some v⟩) = true then
            [areaRect d ⟨before, opener, body, some v⟩] else [] := by
        unfold blankRect Area.fillable
        by_cases hbl : body.any occupies = true
        · have hfn : fillBefore d none v = [] := by cases v <;> rfl
          rw [if_pos hbl, hfn, hbl]; simp
        · simp only [if_neg hbl]
          have hrect : Area.rect d ⟨before, opener, body, none⟩ = Area.rect d ⟨before, opener, body, some v⟩ := rfl
          cases v <;> simp [opens] at hov
          · simp [fillBefore, hbl, areaRect, Area.font, good, rectOf, hrect]
          · simp only [fillBefore, hbl, hrect]
            have hf : d.fullRect = ⟨1, 1, d.vmsCfg.signWidthPixels, d.vmsCfg.signHeightPixels⟩ := rfl
            rw [hf]
            simp only [Bool.not_false, Bool.true_and, bne_iff_ne]
            split <;> simp [good, rectOf, areaRect, Area.font]
      rw [e3]
      split <;> rfl
    · rw [if_neg hov]
      have hob : opens v = false := by simpa using hov
      have e3 : fillBefore d (blankRect d before opener body) v = [] := by
        cases v <;> simp_all [opens, fillBefore]
      have e2 : nextRect d (fontAfter d (before ++ opener.toList ++ body)) (blankRect d before opener body) v =
          blankRect d before opener (body ++ [v]) := by
        have hrect : Area.rect d ⟨before, opener, body ++ [v], none⟩ = Area.rect d ⟨before, opener, body, none⟩ := rfl
        unfold blankRect
        rw [hrect, List.any_append]
        cases v <;> simp_all [opens, nextRect, occupies]
      rw [e3, e2]
      have ih' := ih before opener (body ++ [v]) hs'
        (by intro w hw; rcases List.mem_append.1 hw with h | h
            · exact hb w h
            · simp at h; rw [h]; exact hob) ho
      rw [← List.append_assoc] at ih'
      rw [ih']
      rfl

end Ntcip
