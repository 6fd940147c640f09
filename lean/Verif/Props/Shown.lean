import Verif.Lemmas.Walk
import Verif.Tests.Pattern
import Verif.Props.Version
import Verif.Props.Same
/-
Property C72: a pattern filled with lines that fit is shown.
-/
namespace Ntcip.Spec

/-- The value may be in a pattern: no `[sc]` and `[hc]` tags, and version IDs of fonts are right -/
def PlainValue (d : Dms) : Value → Prop
  | .spacingCharacter _ => False
  | .hexadecimalCharacter _ => False
  | .font (some (n, some v)) => ∀ f, FontTable.font d.fontDefinition n = some f → v = f.versionId
  | _ => True

end Ntcip.Spec

namespace Ntcip
open Spec Tests

/-! ### the areas of a pattern -/

/-- the attributes at an area, as far as they matter for widths -/
structure AttrOk (d : Dms) (t : TextAttr) : Prop where
  spacing : t.charSpacing = none
  font : 1 ≤ t.fontNum.toNat
  version : ∀ v f, t.fontVersionId = some v → FontTable.font d.fontDefinition t.fontNum = some f → v = f.versionId

theorem attrOk_apply {d t v} (hd : AcceptOk d) (h : AttrOk d t) (hp : PlainValue d v) (hr : InRange v) :
    AttrOk d (TextAttr.apply (signAttr d) t v) := by
  obtain ⟨h1, h2, h3⟩ := h
  cases v with
  | font f =>
    cases f with
    | none => exact ⟨h1, hd.font, by simp [TextAttr.apply, signAttr]⟩
    | some x =>
      obtain ⟨n, v⟩ := x
      refine ⟨h1, hr n v rfl, ?_⟩
      intro w f hw hf
      simp only [TextAttr.apply] at hw hf
      subst hw
      exact hp f hf
  | spacingCharacter => exact hp.elim
  | spacingCharacterEnd => exact ⟨rfl, h2, h3⟩
  | _ => exact ⟨h1, h2, h3⟩

theorem attrOk_foldl {d t} {vs : List Value} (hd : AcceptOk d) (h : AttrOk d t) (hp : ∀ v ∈ vs, PlainValue d v ∧ InRange v) :
    AttrOk d (vs.foldl (TextAttr.apply (signAttr d)) t) := by
  induction vs generalizing t with
  | nil => exact h
  | cons v vs ih =>
    obtain ⟨h1, h2⟩ := hp v (List.mem_cons_self ..)
    exact ih (attrOk_apply hd h h1 h2) fun w hw => hp w (List.mem_cons_of_mem _ hw)

/-- the areas have the font and rectangle of the attributes and text rectangles before -/
def Chained (d : Dms) : TextAttr → Rectangle → List Area → Prop
  | _, _, [] => True
  | t, rect, a :: as => a.rect d = rect ∧ a.font d = t.fontNum ∧ NoOpen a.body ∧
    match a.next with
    | none => as = []
    | some (.textRectangle r) =>
      Chained d (a.body.foldl (TextAttr.apply (signAttr d)) t) (opened d r) as
    | some v => v = .newPage ∧ Chained d (a.body.foldl (TextAttr.apply (signAttr d)) t) (signRect d) as

theorem fontNum_foldl (d : Dms) (vs : List Value) :
    (vs.foldl (TextAttr.apply (signAttr d)) (signAttr d)).fontNum = fontAfter d vs := by
  have key : ∀ (vs : List Value) (t : TextAttr) (n : UInt8), t.fontNum = n →
      (vs.foldl (TextAttr.apply (signAttr d)) t).fontNum = vs.foldl (fun n v => match v with
        | .font none => d.multiCfg.defaultFont
        | .font (some (n, _)) => n
        | _ => n) n := by
    intro vs
    induction vs with
    | nil => intro t n h; exact h
    | cons v vs ih =>
      intro t n h
      apply ih
      cases v with
      | font f => cases f <;> rfl
      | _ => exact h
  exact key vs (signAttr d) _ rfl

theorem chained_areas (d : Dms) (before : List Value) (opener : Option Value) (body vs : List Value)
    (ho : ∀ v, opener = some v → opens v = true) (hb : NoOpen body) :
    Chained d (before.foldl (TextAttr.apply (signAttr d)) (signAttr d)) (Area.rect d ⟨before, opener, body, none⟩)
      (areasFrom before opener body vs) := by
  induction vs generalizing before opener body with
  | nil => exact ⟨rfl, (fontNum_foldl d before).symm, hb, rfl⟩
  | cons v vs ih =>
    rw [areasFrom]
    split
    · rename_i hv
      refine ⟨rfl, (fontNum_foldl d before).symm, hb, ?_⟩
      have h1 := ih (before ++ opener.toList ++ body) (some v) [] (by simpa using hv) (by simp [NoOpen])
      have e : (before ++ opener.toList ++ body).foldl (TextAttr.apply (signAttr d)) (signAttr d) =
          body.foldl (TextAttr.apply (signAttr d)) (before.foldl (TextAttr.apply (signAttr d)) (signAttr d)) := by
        rw [List.foldl_append, List.foldl_append]
        cases opener with
        | none => rfl
        | some w =>
          have := ho w rfl
          cases w <;> simp_all [opens, TextAttr.apply]
      rw [e] at h1
      cases v <;> simp [opens] at hv
      · exact ⟨rfl, h1⟩
      · rename_i r
        simp only
        exact h1
    · rename_i hv
      refine ih before opener (body ++ [v]) ho ?_
      intro w hw
      rcases List.mem_append.1 hw with hw | hw
      · exact hb w hw
      · rw [List.mem_singleton.1 hw]; simpa using hv

/-! ### what is filled in -/

theorem zip_take {α β} {k : Nat} {ls : List α} {c : β} {ws : List β} {l : α} (h : l ∈ ls.take k) :
    (l, c) ∈ ls.zip (List.replicate k c ++ ws) := by
  induction k generalizing ls with
  | zero => simp at h
  | succ k ih =>
    cases ls with
    | nil => simp at h
    | cons a ls =>
      rw [List.take_succ_cons] at h
      rw [List.replicate_succ, List.cons_append, List.zip_cons_cons]
      rcases List.mem_cons.1 h with rfl | h
      · exact List.mem_cons_self ..
      · exact List.mem_cons_of_mem _ (ih h)

theorem zip_drop {α β} {k : Nat} {ls : List α} {c : β} {ws : List β} {x : α × β} (h : x ∈ (ls.drop k).zip ws) :
    x ∈ ls.zip (List.replicate k c ++ ws) := by
  induction k generalizing ls with
  | zero => simpa using h
  | succ k ih =>
    cases ls with
    | nil => simp at h
    | cons a ls =>
      rw [List.drop_succ_cons] at h
      rw [List.replicate_succ, List.cons_append, List.zip_cons_cons]
      exact List.mem_cons_of_mem _ (ih h)

theorem lineVals_display {ls : List Str} (h : ∀ l ∈ ls, Plain l) :
    (lineVals ls).flatMap Value.display = joinLines ls := by
  have ht : ∀ l : Str, Plain l → (textVals l).flatMap Value.display = l := by
    intro l hl
    unfold textVals
    split
    · simp_all
    · simp [display_span hl]
  induction ls with
  | nil => rfl
  | cons l ls ih =>
    have hl := ht l (h l (List.mem_cons_self ..))
    have ih := ih fun x hx => h x (List.mem_cons_of_mem _ hx)
    cases ls with
    | nil => simpa [lineVals, joinLines, List.intercalate] using hl
    | cons l' ls =>
      rw [lineVals_cons _ (by simp), List.flatMap_append, hl, List.flatMap_cons, ih]
      have : (Value.newLine none).display = c!"[nl]" := by decide
      rw [this]
      simp [joinLines, List.intercalate]

theorem foldl_lineVals (dflt : TextAttr) (ls : List Str) (t : TextAttr) :
    (lineVals ls).foldl (TextAttr.apply dflt) t = t := by
  have ht : ∀ l : Str, (textVals l).foldl (TextAttr.apply dflt) t = t := by
    intro l; unfold textVals; split <;> rfl
  induction ls with
  | nil => rfl
  | cons l ls ih =>
    cases ls with
    | nil => exact ht l
    | cons l' ls =>
      rw [lineVals_cons _ (by simp), List.foldl_append, ht, List.foldl_cons]
      exact ih

theorem lineVals_mem {ls : List Str} {v : Value} (h : v ∈ lineVals ls) :
    v = .newLine none ∨ ∃ l ∈ ls, l ≠ [] ∧ v = .text l := by
  have ht : ∀ l : Str, v ∈ textVals l → l ≠ [] ∧ v = .text l := by
    intro l; unfold textVals; split <;> simp_all
  induction ls with
  | nil => simp [lineVals] at h
  | cons l ls ih =>
    cases ls with
    | nil =>
      obtain ⟨h1, h2⟩ := ht l h
      exact .inr ⟨l, List.mem_cons_self .., h1, h2⟩
    | cons l' ls =>
      rw [lineVals_cons _ (by simp)] at h
      rcases List.mem_append.1 h with h | h
      · obtain ⟨h1, h2⟩ := ht l h
        exact .inr ⟨l, List.mem_cons_self .., h1, h2⟩
      · rcases List.mem_cons.1 h with h | h
        · exact .inl h
        · rcases ih h with h | ⟨x, hx, h⟩
          · exact .inl h
          · exact .inr ⟨x, List.mem_cons_of_mem _ hx, h⟩

theorem lineVals_length (ls : List Str) : (lineVals ls).length ≤ 2 * ls.length := by
  have ht : ∀ l : Str, (textVals l).length ≤ 1 := by intro l; unfold textVals; split <;> simp
  induction ls with
  | nil => simp [lineVals]
  | cons l ls ih =>
    have := ht l
    cases ls with
    | nil => simp only [lineVals, List.length_cons, List.length_nil]; omega
    | cons l' ls =>
      rw [lineVals_cons _ (by simp), List.length_append, List.length_cons]
      simp only [List.length_cons] at ih ⊢
      omega

theorem apart_join {a b : List Value} (ha : Apart a) (hb : Apart b) (h : ∀ w, b.head? = some w → plainText w = false) :
    Apart (a ++ b) := by
  induction a with
  | nil => exact hb
  | cons v a ih =>
    refine ⟨?_, ih ha.2⟩
    intro hv w hw
    cases a with
    | nil => exact h w hw
    | cons x a => exact ha.1 hv w (by simpa using hw)

theorem apart_lineVals (ls : List Str) : Apart (lineVals ls) := by
  have ht : ∀ l : Str, Apart (textVals l) := by
    intro l; unfold textVals; split
    · trivial
    · exact ⟨by simp, trivial⟩
  induction ls with
  | nil => trivial
  | cons l ls ih =>
    cases ls with
    | nil => exact ht l
    | cons l' ls =>
      rw [lineVals_cons _ (by simp)]
      exact apart_join (ht l) ⟨by simp [plainText], ih⟩ (by simp [plainText])

theorem apart_quiet {a b : List Value} (h : ∀ v ∈ a, quiet v = true) (hb : Apart b) : Apart (a ++ b) := by
  induction a with
  | nil => exact hb
  | cons v a ih =>
    refine ⟨fun hp => ?_, ih fun w hw => h w (List.mem_cons_of_mem _ hw)⟩
    have := h v (List.mem_cons_self ..)
    cases v <;> simp_all [plainText, quiet]

theorem quiet_tag {d : Dms} {v : Value} (h1 : occupies v = false) (h2 : PlainValue d v) : quiet v = true := by
  cases v <;> first | rfl | exact h2.elim | simp [occupies] at h1

theorem font_quiet {v : Value} (h : isFont v = true) : quiet v = true ∧ plainText v = false := by
  cases v <;> first | exact ⟨rfl, rfl⟩ | simp [isFont] at h

/-- what holds of the text rectangles of a pattern that is shown -/
def PatRect (d : Dms) (t : TextAttr) (sp : Option UInt8) (rect : Rectangle) (b : List Value) : Prop :=
  Tidy (signAttr d) t true true b ∧ TextsFit d rect (layoutOf d t sp rect b)

theorem rectLines_ok {d : Dms} (hd : AcceptOk d) {rect : Rectangle} {n : UInt8} (hn : 1 ≤ n.toNat) {k : Nat}
    (h : d.rectLines rect n = .ok k) : RectLines d n rect.height.toNat k := by
  obtain ⟨m, h1, h2⟩ := rectLines_spec d rect n (by
    intro f hf _
    have e : f.number = n := by simpa using List.find?_some hf
    have := (hd.fonts.fonts f (List.mem_of_find?_eq_some hf) (by rw [e]; omega)).height
    omega)
  rw [h] at h1
  cases h1
  exact h2

/-- an area with lines -/
theorem area_lines {d : Dms} (hd : AcceptOk d) {t sp rect} {tags fs : List Value} {ls : List Str} {k : Nat}
    (ht : AttrOk d t) (hv : ∀ v ∈ tags, PlainValue d v ∧ InRange v) (hq : ∀ v ∈ tags, quiet v = true)
    (hf : ∀ v ∈ tags, isFont v = false) (hfs : ∀ v ∈ fs, isFont v = true)
    (hT : Tidy (signAttr d) t true true tags) (hk : d.rectLines rect t.fontNum = .ok k)
    (hl : ∀ l ∈ ls.take k, LineFits d l rect.width t.fontNum) :
    PatRect d t sp rect (tags ++ lineVals (ls.take k) ++ fs) := by
  constructor
  · rw [List.append_assoc, tidy_quiet _ _ _ hq]
    exact ⟨hT, tidy_lines _ _ _ hfs _⟩
  · rw [layout_lines _ _ _ _ _ _ _ hq (by intro v hv; have := hfs v hv; cases v <;> simp_all [isFont, quiet])]
    have h1 := attrOk_foldl hd ht hv
    have e : (tags.foldl (TextAttr.apply (signAttr d)) t).fontNum = t.fontNum := by
      clear hT h1 hv hq ht hk hl
      induction tags generalizing t with
      | nil => rfl
      | cons v tags ih =>
        have e := hf v (List.mem_cons_self ..)
        have e1 : (TextAttr.apply (signAttr d) t v).fontNum = t.fontNum := by
          cases v <;> first | rfl | simp [isFont] at e
        rw [List.foldl_cons, ih (fun w hw => hf w (List.mem_cons_of_mem _ hw)), e1]
    refine lines_fit d rect _ sp _ k h1.spacing h1.version ?_ ?_ ?_
    · rw [e]; exact rectLines_ok hd ht.font hk
    · have := inked_length (ls.take k)
      rw [List.length_take] at this
      omega
    · rw [e]
      intro l h; exact hl l (inked_mem h)

/-- one area and what follows -/
theorem area_step {d : Dms} {a : Area} {as : List Area} {ls ls' : List Str} {s : Str} {body : List Value} {n t sp rect}
    (hc : Chained d t rect (a :: as))
    (hP : ∀ sp', PatRect d t sp rect a.body → PatRect d t sp' rect body)
    (hfold : body.foldl (TextAttr.apply (signAttr d)) t = a.body.foldl (TextAttr.apply (signAttr d)) t)
    (hno : NoOpen body) (hmem : ∀ v ∈ body, v ∈ a.body ∨ v = .newLine none ∨ ∃ l, v = .text l ∧ InRange v)
    (hap : Apart body) (hlen : body.length + 2 * ls'.length ≤ a.body.length + 2 * ls.length)
    (hnil : as = [] → s = [])
    (hW : Walk d (PatRect d) n t sp rect ((a :: as).flatMap areaValues))
    (ih : ∀ {n sp rect}, Chained d (a.body.foldl (TextAttr.apply (signAttr d)) t) rect as →
      Walk d (PatRect d) n (a.body.foldl (TextAttr.apply (signAttr d)) t) sp rect (as.flatMap areaValues) →
      ∃ V, s = V.flatMap Value.display ∧
        (∀ sp', Walk d (PatRect d) n (a.body.foldl (TextAttr.apply (signAttr d)) t) sp' rect V) ∧
        (∀ v ∈ V, v ∈ as.flatMap areaValues ∨ v = .newLine none ∨ ∃ l, v = .text l ∧ InRange v) ∧ Apart V ∧
        V.length ≤ (as.flatMap areaValues).length + 2 * ls'.length) :
    ∃ V, body.flatMap Value.display ++ nextText a ++ s = V.flatMap Value.display ∧
      (∀ sp', Walk d (PatRect d) n t sp' rect V) ∧
      (∀ v ∈ V, v ∈ (a :: as).flatMap areaValues ∨ v = .newLine none ∨ ∃ l, v = .text l ∧ InRange v) ∧ Apart V ∧
      V.length ≤ ((a :: as).flatMap areaValues).length + 2 * ls.length := by
  obtain ⟨-, -, hb, hn⟩ := hc
  rw [List.flatMap_cons, areaValues] at hW ⊢
  rw [nextText_eq]
  cases hx : a.next with
  | none =>
    rw [hx] at hn hW
    subst hn
    rw [hnil rfl]
    simp only [Option.toList_none, List.append_nil, List.flatMap_nil] at hW ⊢
    obtain ⟨h1, h2⟩ := walk_last hb hW
    refine ⟨body, rfl, fun sp' => .last hno (hP sp' h1) h2, hmem, hap, by omega⟩
  | some v =>
    rw [hx] at hn hW
    simp only [Option.toList_some, List.append_assoc, List.cons_append, List.nil_append] at hW
    have hmem' : ∀ {V : List Value}, (∀ w ∈ V, w ∈ as.flatMap areaValues ∨ w = .newLine none ∨ ∃ l, w = .text l ∧ InRange w) →
        ∀ w ∈ body ++ v :: V, w ∈ a.body ++ [v] ++ as.flatMap areaValues ∨ w = .newLine none ∨
          ∃ l, w = .text l ∧ InRange w := by
      intro V hV w hw
      rcases List.mem_append.1 hw with hw | hw
      · rcases hmem w hw with h | h
        · exact .inl (by simp [h])
        · exact .inr h
      · rcases List.mem_cons.1 hw with rfl | hw
        · exact .inl (by simp)
        · rcases hV w hw with h | h
          · exact .inl (by simp only [List.mem_append]; exact .inr h)
          · exact .inr h
    by_cases hr : ∃ r, v = .textRectangle r
    · obtain ⟨r, rfl⟩ := hr
      obtain ⟨h1, h2⟩ := walk_rect hb hW
      obtain ⟨V, i1, i2, i3, i4, i5⟩ := ih hn h2
      refine ⟨body ++ .textRectangle r :: V, ?_, ?_, hmem' i3, ?_, ?_⟩
      · rw [i1]; simp
      · intro sp'
        refine .rect hno (hP sp' h1) ?_
        rw [hfold]; exact i2 _
      · exact apart_join hap ⟨by simp [plainText], i4⟩ (by simp [plainText])
      · simp only [List.length_append, List.length_cons, Option.toList_some, List.length_nil] at i5 ⊢
        omega
    · have hn' : v = .newPage ∧ Chained d (a.body.foldl (TextAttr.apply (signAttr d)) t) (signRect d) as := by
        cases v <;> first | exact hn | exact absurd ⟨_, rfl⟩ hr
      obtain ⟨rfl, hn'⟩ := hn'
      obtain ⟨h1, h2, h3⟩ := walk_page hb hW
      obtain ⟨V, i1, i2, i3, i4, i5⟩ := ih hn' h3
      refine ⟨body ++ .newPage :: V, ?_, ?_, hmem' i3, ?_, ?_⟩
      · rw [i1]; simp
      · intro sp'
        refine .page hno (hP sp' h1) h2 ?_
        rw [hfold]; exact i2 _
      · exact apart_join hap ⟨by simp [plainText], i4⟩ (by simp [plainText])
      · simp only [List.length_append, List.length_cons, Option.toList_some, List.length_nil] at i5 ⊢
        omega

theorem filled_walk {d : Dms} (hd : AcceptOk d) {as ls p s} (hf : Filled d as ls p s) (hp : p = none) :
    ∀ {n t sp rect ws m}, Chained d t rect as → (∀ a ∈ as, FontsPlaced d a) →
    (∀ a ∈ as, ∀ v ∈ areaValues a, PlainValue d v ∧ InRange v) → (∀ a ∈ as, Apart a.body) →
    FillLines d m (as.filter (Area.fillable d)) ws → (∀ x ∈ ls.zip ws, LineFits d x.1 x.2.1 x.2.2.1) → AttrOk d t →
    Walk d (PatRect d) n t sp rect (as.flatMap areaValues) →
    ∃ V, s = V.flatMap Value.display ∧ (∀ sp', Walk d (PatRect d) n t sp' rect V) ∧
      (∀ v ∈ V, v ∈ as.flatMap areaValues ∨ v = .newLine none ∨ ∃ l, v = .text l ∧ InRange v) ∧ Apart V ∧
      V.length ≤ (as.flatMap areaValues).length + 2 * ls.length := by
  have hnil : ∀ {as ls p s}, Filled d as ls p s → as = [] → s = [] := by
    intro as ls p s h e; subst e; cases h; rfl
  induction hf with
  | nil =>
    intro n t sp rect ws m _ _ _ _ _ _ _ hW
    obtain ⟨h1, h2⟩ := walk_last (b := []) (by simp [NoOpen]) hW
    refine ⟨[], rfl, fun sp' => .last (by simp [NoOpen]) ⟨trivial, ?_⟩ h2, by simp, trivial, by simp⟩
    intro s hs; simp [layoutOf, pieces] at hs
  | @skip a as ls p s hf hF ih =>
    subst hp
    intro n t sp rect ws m hc hfp hv hap hw hl ht hW
    have hb : ∀ v ∈ a.body, isFont v = false := by
      rcases hfp a (List.mem_cons_self ..) with h | ⟨h, -⟩
      · exact h
      · rw [hf] at h; simp at h
    rw [List.filter_cons_of_neg (by simp [hf])] at hw
    rw [tagsText_nonfont hb]
    refine area_step (ls := ls) (ls' := ls) hc ?_ rfl hc.2.2.1 (fun v h => .inl h) (hap a (List.mem_cons_self ..)) (Nat.le_refl _)
      (hnil hF) hW ?_
    · intro sp' h
      exact ⟨h.1, (textsFit_spacing d t sp sp' rect _).1 h.2⟩
    · intro n sp rect hc' hW'
      exact ih (pending_nonfont hb) hc' (fun b h => hfp b (List.mem_cons_of_mem _ h))
        (fun b h => hv b (List.mem_cons_of_mem _ h)) (fun b h => hap b (List.mem_cons_of_mem _ h)) hw hl
        (attrOk_foldl hd ht fun v h => hv a (List.mem_cons_self ..) v (List.mem_append_left _ h)) hW'
  | @fill a as ls p s k hf hk hF ih =>
    subst hp
    intro n t sp rect ws m hc hfp hv hap hw hl ht hW
    obtain ⟨l, fs, hlf, hb, hfs, hm1, hm2⟩ : ∃ l fs, (∀ v ∈ l, isFont v = false) ∧ a.body = l ++ fs ∧
        (∀ v ∈ fs, isFont v = true) ∧ fs.flatMap Value.display = fontText (pendingFont none fs) ∧ tagsText fs = [] := by
      rcases hfp a (List.mem_cons_self ..) with h | ⟨-, l, f, h, e⟩
      · exact ⟨a.body, [], h, by simp, by simp, rfl, rfl⟩
      · exact ⟨l, [.font f], h, e, by simp [isFont], by simp [pendingFont, fontText], rfl⟩
    have e1 : tagsText a.body = l.flatMap Value.display := by
      have : tagsText (l ++ fs) = tagsText l ++ tagsText fs := by simp [tagsText]
      rw [hb, this, hm2, tagsText_nonfont hlf, List.append_nil]
    have e2 : fontText (pendingFont none a.body) = fs.flatMap Value.display := by
      rw [hb, pendingFont_append, pending_nonfont hlf, hm1]
    rw [List.filter_cons_of_pos hf] at hw
    obtain ⟨hr, hfn, hno, -⟩ := id hc
    cases hw with
    | @cons _ _ _ k' ws hk' hw =>
      rw [hk] at hk'
      cases hk'
      have hfit : ∀ x ∈ ls.take k, LineFits d x rect.width t.fontNum := by
        intro x hx
        have := hl _ (zip_take hx)
        rwa [hr, hfn] at this
      rw [hr, hfn] at hk
      have hq : ∀ v ∈ l, quiet v = true := by
        intro v h
        have h1 : v ∈ a.body := by rw [hb]; exact List.mem_append_left _ h
        have h2 : occupies v = false := by
          unfold Area.fillable at hf
          rw [Bool.and_eq_true, Bool.not_eq_true', List.any_eq_false] at hf
          simpa using hf.1 v h1
        have h3 := (hv a (List.mem_cons_self ..) v (List.mem_append_left _ h1)).1
        exact quiet_tag h2 h3
      have e3 : tagsText a.body ++ joinLines (ls.take k) ++ fontText (pendingFont none a.body) =
          (l ++ lineVals (ls.take k) ++ fs).flatMap Value.display := by
        rw [e1, e2, List.flatMap_append, List.flatMap_append, lineVals_display fun x hx => (hfit x hx).1]
      rw [e3]
      have hlv : ∀ v ∈ lineVals (ls.take k), v = .newLine none ∨ ∃ l, v = .text l ∧ InRange v := by
        intro v h
        rcases lineVals_mem h with h | ⟨x, hx, hne, rfl⟩
        · exact .inl h
        · obtain ⟨g1, g2, -⟩ := hfit x hx
          exact .inr ⟨x, rfl, .inr (.inr ⟨hne, g1, g2⟩)⟩
      refine area_step (ls := ls) (ls' := ls.drop k) hc ?_ ?_ ?_ ?_ ?_ ?_ (hnil hF) hW ?_
      · intro sp' h
        refine area_lines hd ht (fun v h => hv a (List.mem_cons_self ..) v ?_) hq hlf hfs ?_ hk hfit
        · exact List.mem_append_left _ (by rw [hb]; exact List.mem_append_left _ h)
        · have := h.1
          rw [hb, tidy_quiet _ _ _ hq] at this
          exact this.1
      · rw [hb, List.foldl_append, List.foldl_append, List.foldl_append, foldl_lineVals]
      · intro v h
        rcases List.mem_append.1 h with h | h
        · rcases List.mem_append.1 h with h | h
          · exact hno v (by rw [hb]; exact List.mem_append_left _ h)
          · rcases hlv v h with rfl | ⟨_, rfl, _⟩ <;> rfl
        · exact hno v (by rw [hb]; exact List.mem_append_right _ h)
      · intro v h
        rcases List.mem_append.1 h with h | h
        · rcases List.mem_append.1 h with h | h
          · exact .inl (by rw [hb]; exact List.mem_append_left _ h)
          · exact .inr (hlv v h)
        · exact .inl (by rw [hb]; exact List.mem_append_right _ h)
      · have hfq : ∀ v ∈ fs, plainText v = false := fun v h => (font_quiet (hfs v h)).2
        have hfa : Apart fs := by
          have := apart_quiet (b := []) (fun v h => (font_quiet (hfs v h)).1) trivial
          rwa [List.append_nil] at this
        have hla : Apart (lineVals (ls.take k) ++ fs) :=
          apart_join (apart_lineVals _) hfa fun w hw => hfq w (List.mem_of_head? hw)
        rw [List.append_assoc]
        exact apart_quiet hq hla
      · have := lineVals_length (ls.take k)
        rw [hb]
        simp only [List.length_append, List.length_take, List.length_drop] at this ⊢
        omega
      · intro n sp rect hc' hW'
        exact ih rfl hc' (fun b h => hfp b (List.mem_cons_of_mem _ h))
          (fun b h => hv b (List.mem_cons_of_mem _ h)) (fun b h => hap b (List.mem_cons_of_mem _ h)) hw
          (fun x hx => hl x (zip_drop hx))
          (attrOk_foldl hd ht fun v h => hv a (List.mem_cons_self ..) v (List.mem_append_left _ h)) hW'

/-! ### the message -/

theorem allSections_and {d : Dms} {P Q t sp rect b rest} (h1 : AllSections d P t sp rect b rest)
    (h2 : AllSections d Q t sp rect b rest) :
    AllSections d (fun t sp rect b => P t sp rect b ∧ Q t sp rect b) t sp rect b rest := by
  induction h1 with
  | last h => cases h2 with | last h' => exact .last ⟨h, h'⟩
  | next h _ ih => cases h2 with | next h' h2 => exact .next ⟨h, h'⟩ (ih h2)

theorem takePage_parses {ss : List Str} {p rest b} (h : TakePage ss p rest b) {V : List Value} (hp : Parses ss V) :
    (b = false ∧ V = p) ∨ (b = true ∧ ∃ V', V = p ++ .newPage :: V' ∧ Parses rest V') := by
  induction h generalizing V with
  | nil => cases hp; exact .inl ⟨rfl, rfl⟩
  | np hs =>
    cases hp with
    | cons hs' hp =>
      rw [hs] at hs'
      simp only [Res.ok.injEq, Except.ok.injEq] at hs'
      subst hs'
      exact .inr ⟨rfl, _, rfl, hp⟩
  | cons hs _ _ ih =>
    cases hp with
    | cons hs' hp =>
      rw [hs] at hs'
      simp only [Res.ok.injEq, Except.ok.injEq] at hs'
      subst hs'
      rcases ih hp with ⟨h1, rfl⟩ | ⟨h1, V', rfl, h2⟩
      · exact .inl ⟨h1, rfl⟩
      · exact .inr ⟨h1, V', rfl, h2⟩

/-- every value is on a page -/
theorem values_pages {d : Dms} {Q : Value → Prop} (N : Nat) : ∀ {t ss} {V : List Value}, V.length < N → Parses ss V →
    (∀ t' ss', PageAt d t ss t' ss' → ∃ p rest b, TakePage ss' p rest b ∧ ∀ v ∈ p, Q v) →
    ∀ v ∈ V, v = .newPage ∨ Q v := by
  induction N with
  | zero => intro _ _ _ h; simp at h
  | succ N ih =>
    intro t ss V hN hp h v hv
    obtain ⟨p, rest, b, h1, h2⟩ := h _ _ .first
    rcases takePage_parses h1 hp with ⟨rfl, rfl⟩ | ⟨rfl, V', rfl, h3⟩
    · exact .inr (h2 v hv)
    · rcases List.mem_append.1 hv with hv | hv
      · exact .inr (h2 v hv)
      · rcases List.mem_cons.1 hv with hv | hv
        · exact .inl hv
        · refine ih (by simp at hN; omega) h3 (fun t' ss' ha => h t' ss' (.later h1 ha)) v hv

theorem mergeT_apart {V : List Value} (h : Apart V) : mergeT V = V := by
  induction V with
  | nil => rfl
  | cons v V ih =>
    rw [mergeT, ih h.2]
    rcases joinSpan_cases v V with ⟨a, b, r, rfl, rfl, ha, hb, -⟩ | ⟨e, -⟩
    · have h1 : ∀ {x : Str}, Plain x → plainText (.text x) = true := by
        intro x hx; rw [plainText_eq]; exact (plainB_iff x).2 hx
      have := h.1 (h1 ha) _ rfl
      rw [h1 hb] at this
      simp at this
    · exact e

theorem parses_display {V : List Value} (hv : ∀ v ∈ V, Faithful v) (ha : Apart V) :
    Parses (slices (V.flatMap Value.display)) V := by
  rw [slices_display fun v h => (hv v h).1, mergeT_apart ha]
  clear ha
  induction V with
  | nil => exact .nil
  | cons v V ih =>
    exact .cons (display_parse v (hv v (List.mem_cons_self ..))).2 (ih fun w hw => hv w (List.mem_cons_of_mem _ hw))

/-- **C72** A valid pattern that is rendered itself is also rendered when it is filled with lines that are not wider
than `widths` tells; for patterns without `[sc]` and `[hc]` tags, whose font tags are at the end of fillable areas and
have the right version IDs.  See `C72_false` for others. -/
theorem C72_shown_partial (d : Dms) (hd : AcceptOk d) (hh : CellHeights d) (hn : supports d .newPage = true)
    (hnl : supports d (.newLine none) = true) (pat : Str) (vs : List Value) (h : ValidPattern d pat vs)
    (hp : ∀ a ∈ areas vs, FontsPlaced d a) (hv : ∀ v ∈ vs, PlainValue d v) (ht : TidyMessage d pat)
    (hy : ∃ xs, Yields d pat xs ∧ NoError xs) (ws : List (UInt16 × UInt8 × Nat)) (hw : widths d pat = .ok ws)
    (ls : List Str) (hl : ∀ x ∈ ls.zip ws, LineFits d x.1 x.2.1 x.2.2.1) (hlen : vs.length + 2 * ls.length ≤ 255)
    (s : Str) (hf : fill d pat ls = .ok s) : ∃ xs, Yields d s xs ∧ NoError xs := by
  have hS := (C67_message_iff d hd pat ht).1 hy
  have hr := valid_inRange h
  have hfl := C55_widths_partial d pat ws hw hn
  rw [patternValues_valid h] at hfl
  have hpage : ∀ t ss, PageAt d (signAttr d) (slices pat) t ss → ∃ p rest b, TakePage ss p rest b ∧
      AllSections d (PatRect d) t none (signRect d) (sections p).1 (sections p).2 ∧
        (sections p).2.length < maxTextRectangles := by
    intro t ss ha
    obtain ⟨p, rest, b, h1, h2⟩ := hS t ss ha
    refine ⟨p, rest, b, h1, ?_, h2.rects⟩
    exact allSections_imp (fun _ _ _ _ h => ⟨h.1.1, h.2⟩) (allSections_and (ht t ss ha p rest b h1).2 h2.texts)
  have hW : Walk d (PatRect d) 0 (signAttr d) none (signRect d) vs := by
    obtain ⟨p, rest, b, h1, h2, h3⟩ := hpage _ _ .first
    refine pages_walk (vs.length + 1) (by omega) h.1 ⟨p, rest, b, h1, h2, by omega, ?_⟩
    rintro rfl t' ss' ha
    exact hpage t' ss' (.later h1 ha)
  have hok := values_pages (d := d) (Q := ValueOk d) (vs.length + 1) (by omega) h.1 (t := signAttr d) (by
    intro t ss ha
    obtain ⟨p, rest, b, h1, h2⟩ := hS t ss ha
    exact ⟨p, rest, b, h1, h2.values⟩)
  have he := areas_values [] none [] vs
  rw [List.nil_append] at he
  have hc := chained_areas d [] none [] vs (by simp) (by simp [NoOpen])
  obtain ⟨V, rfl, hVW, hmem, hap, hVl⟩ := filled_walk hd (fill_filled h hn hf) rfl (n := 0) (sp := none) hc hp
    (fun a ha v hv' => ⟨hv v (areas_mem ha v hv'), hr v (areas_mem ha v hv')⟩)
    (areasFrom_apart _ _ _ _ (by simpa using parses_apart h.1 (slices_cut pat))) hfl hl
    ⟨rfl, hd.font, by simp [signAttr]⟩ (by rw [areas, he]; exact hW)
  rw [areas, he] at hmem hVl
  have hF : ∀ v ∈ V, Faithful v := by
    intro v hm
    rcases hmem v hm with hm | rfl | ⟨l, rfl, hl⟩
    · have h1 := hr v hm
      have h2 := hv v hm
      refine ⟨h1, ?_⟩
      cases v <;> first | trivial | simp_all [PlainValue]
    · exact ⟨by simp [InRange, AtMost], by simp⟩
    · exact ⟨hl, by simp⟩
  have hP := parses_display hF hap
  have hwalk := fun t ss => walk_pages (hVW none) hP (t' := t) (ss' := ss)
  have hT : TidyMessage d (V.flatMap Value.display) := by
    intro t ss ha p rest b h1
    obtain ⟨p', rest', b', h1', h2, h3, V1, V2, rfl⟩ := hwalk t ss ha
    obtain ⟨rfl, rfl, rfl⟩ := takePage_unique h1 h1'
    refine ⟨?_, allSections_imp (fun _ _ _ _ h => ⟨h.1, fun _ => cellFonts_all hh _⟩) h2⟩
    simp only [List.length_append] at hVl
    omega
  refine (C67_message_iff d hd _ hT).2 ?_
  intro t ss ha
  obtain ⟨p, rest, b, h1, h2, h3, V1, V2, rfl⟩ := hwalk t ss ha
  refine ⟨p, rest, b, h1, ?_, ?_, ?_, h3, allSections_imp (fun _ _ _ _ h => h.2) h2⟩
  · intro v hm tag htag
    rcases hmem v (by simp [hm]) with hm | rfl | ⟨l, rfl, -⟩
    · have := h.2 v hm
      rwa [supports, htag] at this
    · rwa [supports, htag] at hnl
    · simp [Value.tag] at htag
  · intro _
    exact hn
  · intro v hm
    rcases hmem v (by simp [hm]) with hm' | rfl | ⟨l, rfl, -⟩
    · rcases hok v hm' with rfl | h
      · exact ⟨by simp [ColorOk, tagColor], rfl⟩
      · exact h
    · exact ⟨by simp [ColorOk, tagColor], rfl⟩
    · exact ⟨by simp [ColorOk, tagColor], rfl⟩

/-! ### concrete cases -/

/-- checks `LineFits` -/
def lineFitsB (d : Dms) (l : Str) (w : UInt16) (fnum : UInt8) : Bool :=
  l.all (fun c => c ≠ '[' && c ≠ ']' && decide (1 ≤ c.toNat) && decide (c.toNat ≤ 0xFF)) &&
  match FontTable.font d.fontDefinition fnum with
  | some f => match f.textWidth l none with
    | .ok n => decide (n ≤ w.toNat)
    | _ => false
  | none => false

theorem lineFits_of {d l w fnum} (h : lineFitsB d l w fnum = true) : LineFits d l w fnum := by
  unfold lineFitsB at h
  rw [Bool.and_eq_true, List.all_eq_true] at h
  obtain ⟨h1, h2⟩ := h
  refine ⟨fun c hc => ?_, fun c hc => ?_, ?_⟩
  · have := h1 c hc; simp at this; exact this.1.1
  · have := h1 c hc; simp at this; exact ⟨this.1.2, this.2⟩
  · split at h2
    · rename_i f hf
      split at h2
      · rename_i n hn
        exact ⟨f, n, hf, hn, by simpa using h2⟩
      · simp at h2
    · simp at h2

/-- checks the lines of a pattern -/
def linesFitB (d : Dms) (pat : Str) (ls : List Str) : Bool :=
  match widths d pat with
  | .ok ws => decide (ls.length ≤ ws.length) && (ls.zip ws).all fun x => lineFitsB d x.1 x.2.1 x.2.2.1
  | .panic _ => false

theorem linesFit_of {d pat ls} (h : linesFitB d pat ls = true) : ∃ ws, widths d pat = .ok ws ∧
    ls.length ≤ ws.length ∧ ∀ x ∈ ls.zip ws, LineFits d x.1 x.2.1 x.2.2.1 := by
  unfold linesFitB at h
  split at h
  · rename_i ws hw
    rw [Bool.and_eq_true, List.all_eq_true, decide_eq_true_eq] at h
    exact ⟨ws, hw, h.1, fun x hx => lineFits_of (h.2 x hx)⟩
  · simp at h

/-- A message of less than 20 pages: is it rendered without errors? -/
def shownB (d : Dms) (ms : Str) : Option Bool := (summary d ms).map fun l => l.all fun x => x.2.isSome

theorem shown_of {d ms b} (h : shownB d ms = some b) : ∃ xs, Yields d ms xs ∧ (NoError xs ↔ b = true) := by
  unfold shownB at h
  rw [Option.map_eq_some_iff] at h
  obtain ⟨l, h1, rfl⟩ := h
  obtain ⟨xs, h2, rfl⟩ := summary_yields h1
  refine ⟨xs, h2, ?_⟩
  rw [List.all_map, List.all_eq_true]
  refine forall_congr' fun x => forall_congr' fun _ => ?_
  obtain ⟨b, x⟩ := x
  cases x <;> simp

/-- The pattern is rendered, the lines fit, but the filled pattern is not rendered -/
def FillFails (d : Dms) (pat : Str) (ls : List Str) : Prop :=
  (∃ xs, Yields d pat xs ∧ NoError xs) ∧
  (∃ ws, widths d pat = .ok ws ∧ ls.length ≤ ws.length ∧ ∀ x ∈ ls.zip ws, LineFits d x.1 x.2.1 x.2.2.1) ∧
  ∃ s, fill d pat ls = .ok s ∧ ¬ ∃ xs, Yields d s xs ∧ NoError xs

theorem fillFails_of {d pat ls s} (h1 : shownB d pat = some true) (h2 : linesFitB d pat ls = true)
    (h3 : fill d pat ls = .ok s) (h4 : shownB d s = some false) : FillFails d pat ls := by
  obtain ⟨xs, y1, n1⟩ := shown_of h1
  refine ⟨⟨xs, y1, n1.2 rfl⟩, linesFit_of h2, s, h3, ?_⟩
  rintro ⟨ys, y2, n2⟩
  obtain ⟨zs, y3, n3⟩ := shown_of h4
  have : ys = zs := steps_unique y2.choose_spec.1 y2.choose_spec.2 y3.choose_spec.1 y3.choose_spec.2
  subst this
  simpa using n3.1 n2

/-- **C72 fails** for patterns with `[sc]` tags, which `widths` does not look at; with `[hc]` tags, which are not text for
`fill`; with font tags before text, which are dropped; and with version IDs that are wrong, which does not matter
without text. -/
theorem C72_false : FillFails patDms c!"[sc9]" [c!"EEEEE"] ∧ FillFails patDms c!"[hc41]" [c!"EEEEEEE"] ∧
    FillFails patDms c!"[fo7]EEEEEEEE" [] ∧ FillFails smallDms c!"[tr1,1,60,2][fo8,d5d9][tr1,3,60,2]" [c!"", c!"A"] :=
  ⟨fillFails_of (s := c!"[sc9]EEEEE") (by decide +kernel) (by decide +kernel) (by decide +kernel) (by decide +kernel),
   fillFails_of (s := c!"[hc65]EEEEEEE") (by decide +kernel) (by decide +kernel) (by decide +kernel) (by decide +kernel),
   fillFails_of (s := c!"EEEEEEEE") (by decide +kernel) (by decide +kernel) (by decide +kernel) (by decide +kernel),
   fillFails_of (s := c!"[tr1,1,60,2][fo8,d5d9][tr1,3,60,2]A") (by decide +kernel) (by decide +kernel)
     (by decide +kernel) (by decide +kernel)⟩

/-- the sign of the tests meets the hypotheses -/
theorem Tests.patDms_accept : AcceptOk patDms where
  width := by decide
  height := by decide
  size := by decide
  graphics := (C21_accepts_iff _ 50 21).mp (by decide +kernel)
  font := by decide
  justPage := by decide
  justLine := by decide
  fonts := (C20_accepts_iff _).mp (by decide +kernel)

/-- a pattern of two pages, the first with two text rectangles with different fonts -/
def Tests.shownPat : Str := c!"[tr1,1,50,8][fo7][tr1,10,50,7][jl4][np]TEXT[cf1]"

/-- and its values -/
def Tests.shownVals : List Value := [.textRectangle ⟨1, 1, 50, 8⟩, .font (some (7, none)), .textRectangle ⟨1, 10, 50, 7⟩,
  .justificationLine (some .right), .newPage, .text c!"TEXT", .colorForeground (some (.legacy 1))]

theorem Tests.shownPat_valid : ValidPattern patDms shownPat shownVals := by
  have : slices shownPat = [c!"[tr1,1,50,8]", c!"[fo7]", c!"[tr1,10,50,7]", c!"[jl4]", c!"[np]", c!"TEXT", c!"[cf1]"] := by
    decide +kernel
  rw [ValidPattern, this]
  refine ⟨?_, by decide⟩
  repeat' first | exact Parses.nil | refine Parses.cons (by decide +kernel) ?_

theorem Tests.shownPat_tidy : TidyMessage patDms shownPat := by
  intro t ss hat vs rest b ht
  have h1 : TakePage (slices shownPat) _ _ _ := takeValues_take (vs := [.textRectangle ⟨1, 1, 50, 8⟩,
    .font (some (7, none)), .textRectangle ⟨1, 10, 50, 7⟩, .justificationLine (some .right)])
    (rest := [c!"TEXT", c!"[cf1]"]) (b := true) (by decide +kernel)
  have h2 : TakePage [c!"TEXT", c!"[cf1]"] _ _ _ := takeValues_take
    (vs := [.text c!"TEXT", .colorForeground (some (.legacy 1))]) (rest := []) (b := false) (by decide +kernel)
  have mid : ∀ {t sp rect ws}, (∃ s ∈ layoutOf patDms t sp rect ws, s.state.justPage = .middle) →
        CellFonts patDms (layoutOf patDms t sp rect ws) := fun _ => .inl rfl
  rcases pageAt_step h1 hat with ⟨rfl, rfl⟩ | ⟨_, hat⟩
  · obtain ⟨rfl, rfl, rfl⟩ := takePage_unique h1 ht
    exact ⟨by decide, .next ⟨by decide, mid⟩ (.next ⟨by decide, mid⟩ (.last ⟨by decide, mid⟩))⟩
  · rcases pageAt_step h2 hat with ⟨rfl, rfl⟩ | ⟨h, _⟩
    · obtain ⟨rfl, rfl, rfl⟩ := takePage_unique h2 ht
      exact ⟨by decide, .last ⟨by decide, mid⟩⟩
    · cases h

/-- `C72_shown_partial` applies to this pattern, with any two lines that fit -/
example (l1 l2 : Str) (h1 : LineFits patDms l1 50 8) (h2 : LineFits patDms l2 50 7) (s : Str)
    (hf : fill patDms shownPat [l1, l2] = .ok s) : ∃ xs, Yields patDms s xs ∧ NoError xs := by
  refine C72_shown_partial patDms patDms_accept (.inl rfl) rfl rfl shownPat shownVals shownPat_valid ?_ ?_ shownPat_tidy ?_
    [(50, 8, 0), (50, 7, 1)] (by decide +kernel) [l1, l2] ?_ (by simp [shownVals]) s hf
  · intro a ha
    have : areas shownVals = [⟨[], none, [], some (.textRectangle ⟨1, 1, 50, 8⟩)⟩,
       ⟨[], some (.textRectangle ⟨1, 1, 50, 8⟩), [.font (some (7, none))], some (.textRectangle ⟨1, 10, 50, 7⟩)⟩,
       ⟨[.textRectangle ⟨1, 1, 50, 8⟩, .font (some (7, none))], some (.textRectangle ⟨1, 10, 50, 7⟩),
         [.justificationLine (some .right)], some .newPage⟩,
       ⟨[.textRectangle ⟨1, 1, 50, 8⟩, .font (some (7, none)), .textRectangle ⟨1, 10, 50, 7⟩,
         .justificationLine (some .right)], some .newPage, [.text c!"TEXT", .colorForeground (some (.legacy 1))], none⟩] := rfl
    rw [this] at ha
    simp only [List.mem_cons, List.not_mem_nil, or_false] at ha
    rcases ha with rfl | rfl | rfl | rfl
    · exact .inl (by simp)
    · exact .inr ⟨by decide, [], some (7, none), by simp, rfl⟩
    · exact .inl (by simp [isFont])
    · exact .inl (by simp [isFont])
  · intro v hv
    simp only [shownVals, List.mem_cons, List.not_mem_nil, or_false] at hv
    rcases hv with rfl | rfl | rfl | rfl | rfl | rfl | rfl <;> trivial
  · obtain ⟨xs, hy, hn⟩ := shown_of (b := true) (d := patDms) (ms := shownPat) (by decide +kernel)
    exact ⟨xs, hy, hn.2 rfl⟩
  · intro x hx
    simp only [List.zip_cons_cons, List.zip_nil_left, List.mem_cons, List.not_mem_nil, or_false] at hx
    rcases hx with rfl | rfl
    · exact h1
    · exact h2

-- such lines exist, and are filled in
example : LineFits patDms c!"ABC DE" 50 8 ∧ LineFits patDms c!"123" 50 7 ∧ fill patDms shownPat [c!"ABC DE", c!"123"] =
    .ok c!"[tr1,1,50,8]ABC DE[fo7][tr1,10,50,7][jl4]123[np]TEXT[cf1]" :=
  ⟨lineFits_of (by decide +kernel), lineFits_of (by decide +kernel), by decide +kernel⟩

end Ntcip
