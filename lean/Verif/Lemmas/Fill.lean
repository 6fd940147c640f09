import Verif.Lemmas.Pattern
/-
Filling a valid pattern
-/
namespace Ntcip
open Spec

/-- the items of an area -/
def areaItems (d : Dms) (a : Area) : List PatValue :=
  a.body.map .value ++ (if a.fillable d then [.fillableRect (a.rect d) (a.font d)] else []) ++
    a.next.toList.map .value

theorem areaItems_areasFrom (d : Dms) (before : List Value) (opener : Option Value) (body vs : List Value)
    (hs : ∀ v ∈ vs, supports d v = true) (hn : supports d .newPage = true) :
    body.map (fun v => good (.value v)) ++
      patRun d (fontAfter d (before ++ opener.toList ++ body)) (blankRect d before opener body)
        (vs.map fun v => .ok (.ok v)) =
      ((areasFrom before opener body vs).flatMap (areaItems d)).map good := by
  induction vs generalizing before opener body with
  | nil =>
    rw [List.map_nil, patRun, unsupported_eq, areasFrom, if_neg (by simp [hn])]
    unfold blankRect
    by_cases hbl : body.any occupies = true
    · simp [hbl, fillBefore, areaItems, Area.fillable]
    · simp only [if_neg hbl]
      simp [fillBefore, areaItems, Area.fillable, hbl, Area.font]
  | cons v vs ih =>
    rw [List.map_cons, patRun, unsupported_eq, if_neg (by simp [hs v]), areasFrom]
    have hs' : ∀ w ∈ vs, supports d w = true := fun w hw => hs w (List.mem_cons_of_mem _ hw)
    rw [← fontAfter_snoc]
    by_cases hov : opens v = true
    · rw [if_pos hov]
      have ih' := ih (before ++ opener.toList ++ body) (some v) [] hs'
      have e2 : nextRect d (fontAfter d (before ++ opener.toList ++ body)) (blankRect d before opener body) v =
          blankRect d (before ++ opener.toList ++ body) (some v) [] := by
        cases v <;> simp_all [opens, nextRect, blankRect, Area.rect, extendWidthHeight_eq]
      simp only [List.map_nil, List.nil_append, Option.toList, List.append_nil] at ih'
      rw [e2, List.flatMap_cons, List.map_append]
      simp only [Option.toList] at ih' ⊢
      rw [ih']
      have e3 : fillBefore d (blankRect d before opener body) v =
          if (Area.fillable d ⟨before, opener, body, some v⟩) = true then
            [.fillableRect (Area.rect d ⟨before, opener, body, some v⟩)
              (Area.font d ⟨before, opener, body, some v⟩)] else [] := by
        unfold blankRect Area.fillable
        by_cases hbl : body.any occupies = true
        · have hfn : fillBefore d none v = [] := by cases v <;> rfl
          rw [if_pos hbl, hfn, hbl]; simp
        · simp only [if_neg hbl]
          have hrect : Area.rect d ⟨before, opener, body, none⟩ = Area.rect d ⟨before, opener, body, some v⟩ := rfl
          cases v <;> simp [opens] at hov
          · simp [fillBefore, hbl, Area.font, hrect]
          · simp only [fillBefore, hbl, hrect]
            have hf : d.fullRect = ⟨1, 1, d.vmsCfg.signWidthPixels, d.vmsCfg.signHeightPixels⟩ := rfl
            rw [hf]
            simp only [Bool.not_false, Bool.true_and, bne_iff_ne]
            split <;> simp [Area.font]
      rw [e3]
      unfold areaItems
      simp only [List.map_append, List.map_map, Option.toList, List.append_assoc]
      congr 1
    · rw [if_neg hov]
      have hob : opens v = false := by simpa using hov
      have e3 : fillBefore d (blankRect d before opener body) v = [] := by
        cases v <;> simp_all [opens, fillBefore]
      have e2 : nextRect d (fontAfter d (before ++ opener.toList ++ body)) (blankRect d before opener body) v =
          blankRect d before opener (body ++ [v]) := by
        have hrect : Area.rect d ⟨before, opener, body ++ [v], none⟩ = Area.rect d ⟨before, opener, body, none⟩ := rfl
        unfold blankRect
        rw [hrect, List.any_append]
        cases v <;> simp_all [opens, nextRect, occupies]
      have ih' := ih before opener (body ++ [v]) hs'
      rw [← ih', e3, e2, ← List.append_assoc, List.map_append]
      simp

theorem parses_values {ss : List Str} {vs : List Value} (h : Parses ss vs) :
    ss.map tryFrom = vs.map fun v => .ok (.ok v) := by
  induction h with
  | nil => rfl
  | cons h _ ih => simp [h, ih]

theorem values_parses {ss : List Str} {vs : List Value} (h : ss.map tryFrom = vs.map fun v => .ok (.ok v)) :
    Parses ss vs := by
  induction ss generalizing vs with
  | nil => cases vs with
    | nil => exact .nil
    | cons v vs => simp at h
  | cons s ss ih => cases vs with
    | nil => simp at h
    | cons v vs =>
      simp only [List.map_cons, List.cons.injEq] at h
      exact .cons h.1 (ih h.2)

theorem patItems_valid {d : Dms} {pat : Str} {vs : List Value} (h : ValidPattern d pat vs)
    (hn : supports d .newPage = true) :
    patItems d pat = ((areas vs).flatMap (areaItems d)).map good := by
  rw [patItems_eq, values, parses_values h.1, areas, ← areaItems_areasFrom d [] none [] vs h.2 hn]
  rfl

/-! ### fill -/

theorem fillLines_eq (k i : Nat) (ls : List Str) :
    fillLines k i ls =
      (if i > 0 then (ls.take k).flatMap (c!"[nl]" ++ ·) else joinLines (ls.take k), ls.drop k) := by
  induction k generalizing i ls with
  | zero => simp [fillLines, joinLines]
  | succ k ih =>
    cases ls with
    | nil => simp [fillLines, joinLines]
    | cons l ls =>
      rw [fillLines, ih]
      by_cases hi : i > 0
      · simp [hi]
      · have : i = 0 := by omega
        subst this
        simp only [List.take_succ_cons, joinLines]
        cases h : ls.take k with
        | nil => simp
        | cons m ms =>
          simp only [Nat.zero_add, gt_iff_lt, Nat.lt_irrefl, if_false, Nat.zero_lt_one, if_true, List.nil_append,
            List.drop_succ_cons, Prod.mk.injEq, and_true]
          clear h
          induction ms generalizing l m with
          | nil => simp [List.intercalate, List.intersperse]
          | cons n ms ihm =>
            have := ihm m n
            simp [List.intercalate, List.intersperse] at this ⊢
            simp [this]

theorem fillLoop_body (d : Dms) (body : List Value) (rest : List (Res (Except SyntaxError PatValue)))
    (ls : List Str) (p : Option FontTag) (ms : Str) :
    fillLoop d ((body.map .value).map good ++ rest) ls p ms =
      fillLoop d rest ls (pendingFont p body) (ms ++ tagsText body) := by
  induction body generalizing p ms with
  | nil => simp [pendingFont, tagsText]
  | cons v body ih =>
    simp only [List.map_cons, List.cons_append]
    cases v with
    | font f => rw [good, fillLoop, ih]; rfl
    | _ =>
      all_goals
        rw [good, fillLoop]
        · rw [ih, List.append_assoc]; rfl
        · simp

theorem pendingFont_opens {p : Option FontTag} {v : Value} (h : opens v = true) : pendingFont p [v] = p := by
  cases v <;> simp_all [opens, pendingFont]

theorem tagsText_opens {v : Value} (h : opens v = true) : tagsText [v] = v.display := by
  cases v <;> simp_all [opens, tagsText, isFont]

theorem fillLoop_next (d : Dms) (a : Area) (ha : ∀ v, a.next = some v → opens v = true)
    (rest : List (Res (Except SyntaxError PatValue))) (ls : List Str) (p : Option FontTag) (ms : Str) :
    fillLoop d ((a.next.toList.map .value).map good ++ rest) ls p ms =
      fillLoop d rest ls p (ms ++ nextText a) := by
  rw [fillLoop_body]
  unfold nextText
  cases h : a.next with
  | none => simp [pendingFont, tagsText]
  | some v =>
    have := ha v h
    simp only [Option.toList, pendingFont_opens this, tagsText_opens this]

theorem areasFrom_next (before : List Value) (opener : Option Value) (body vs : List Value) :
    ∀ a ∈ areasFrom before opener body vs, ∀ v, a.next = some v → opens v = true := by
  induction vs generalizing before opener body with
  | nil => simp [areasFrom]
  | cons v vs ih =>
    rw [areasFrom]
    split
    · rename_i h
      intro a ha w hw
      rcases List.mem_cons.1 ha with rfl | ha
      · simp at hw; subst hw; exact h
      · exact ih _ _ _ a ha w hw
    · exact ih _ _ _

theorem fillLoop_rect (d : Dms) (r : Rectangle) (f : UInt8) (rest : List (Res (Except SyntaxError PatValue)))
    (ls : List Str) (p : Option FontTag) (ms : Str) :
    fillLoop d (good (.fillableRect r f) :: rest) ls p ms =
      (d.rectLines r f >>= fun k =>
        fillLoop d rest (ls.drop k) none (ms ++ joinLines (ls.take k) ++ fontText p)) := by
  rw [good, fillLoop.eq_def]
  dsimp only
  congr 1
  funext k
  rw [fillLines_eq]
  cases p <;> rfl

theorem fillLoop_areas (d : Dms) (as : List Area) (ha : ∀ a ∈ as, ∀ v, a.next = some v → opens v = true)
    (ls : List Str) (p : Option FontTag) (ms s : Str)
    (h : fillLoop d ((as.flatMap (areaItems d)).map good) ls p ms = .ok s) :
    ∃ t, s = ms ++ t ∧ Filled d as ls p t := by
  induction as generalizing ls p ms with
  | nil => simp [fillLoop] at h; exact ⟨[], by simp [h], .nil⟩
  | cons a as ih =>
    have ha' : ∀ a ∈ as, ∀ v, a.next = some v → opens v = true := fun b hb => ha b (List.mem_cons_of_mem _ hb)
    rw [List.flatMap_cons, List.map_append, areaItems, List.map_append, List.map_append, List.append_assoc,
      List.append_assoc, fillLoop_body] at h
    by_cases hf : a.fillable d = true
    · rw [if_pos hf] at h
      simp only [List.map_cons, List.map_nil, List.cons_append, List.nil_append] at h
      rw [fillLoop_rect] at h
      obtain ⟨k, hk, h⟩ := Res.bind_eq_ok.1 h
      rw [fillLoop_next _ _ (ha a (List.mem_cons_self ..))] at h
      obtain ⟨t, rfl, ht⟩ := ih ha' _ _ _ h
      exact ⟨_, by simp only [List.append_assoc], .fill hf hk ht⟩
    · rw [if_neg hf] at h
      simp only [List.map_nil, List.nil_append] at h
      rw [fillLoop_next _ _ (ha a (List.mem_cons_self ..))] at h
      obtain ⟨t, rfl, ht⟩ := ih ha' _ _ _ h
      exact ⟨_, by simp only [List.append_assoc], .skip (by simpa using hf) ht⟩

theorem fill_filled {d : Dms} {pat s : Str} {vs : List Value} {ls : List Str} (h : ValidPattern d pat vs)
    (hn : supports d .newPage = true) (hf : fill d pat ls = .ok s) : Filled d (areas vs) ls none s := by
  rw [fill, patItems_valid h hn] at hf
  obtain ⟨t, rfl, ht⟩ := fillLoop_areas d _ (areasFrom_next _ _ _ _) _ _ _ _ hf
  exact ht

end Ntcip
