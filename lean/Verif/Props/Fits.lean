import Verif.Props.Shown
/-
Property C88: a filled pattern is shown exactly when its lines fit.
-/
namespace Ntcip.Spec

/-- A line of text that can be filled in: no brackets, and characters with codes of one byte -/
def LinePlain (l : Str) : Prop := Plain l ∧ ∀ c ∈ l, 1 ≤ c.toNat ∧ c.toNat ≤ 0xFF

end Ntcip.Spec

namespace Ntcip
open Spec Tests

/-! ### the lines of one area -/

theorem inked_or_nil {ls : List Str} {l : Str} (h : l ∈ ls) : l ∈ inked ls ∨ l = [] := by
  induction ls with
  | nil => simp at h
  | cons a ls ih =>
    cases ls with
    | nil =>
      simp only [inked]
      rw [List.mem_singleton] at h
      subst h
      split
      · exact .inr ‹_›
      · simp
    | cons b ls =>
      rw [inked_cons _ (by simp)]
      rcases List.mem_cons.1 h with rfl | h
      · simp
      · rcases ih h with h | h
        · exact .inl (List.mem_cons_of_mem _ h)
        · exact .inr h

theorem linePieces_of_mem {t sp i} {ls : List Str} {l : Str} (h : l ∈ ls) : ∃ p ∈ linePieces t sp i ls, p.str = l := by
  induction ls generalizing sp i with
  | nil => simp at h
  | cons a ls ih =>
    rcases List.mem_cons.1 h with rfl | h
    · exact ⟨_, List.mem_cons_self .., rfl⟩
    · obtain ⟨p, h1, h2⟩ := ih (sp := none) (i := i + 1) h
      exact ⟨p, List.mem_cons_of_mem _ h1, h2⟩

theorem lineWidth_at_least {T : FontTable} {p : Option Span} {ss : List Span} {n : Nat} (h : LineWidth T p ss n)
    {s : Span} (hs : s ∈ ss) : ∃ w, SpanWidth T s w ∧ w ≤ n := by
  induction h with
  | nil => simp at hs
  | first h1 _ ih =>
    rcases List.mem_cons.1 hs with rfl | hs
    · exact ⟨_, h1, by omega⟩
    · obtain ⟨w, h2, h3⟩ := ih hs
      exact ⟨w, h2, by omega⟩
  | next _ h1 _ ih =>
    rcases List.mem_cons.1 hs with rfl | hs
    · exact ⟨_, h1, by omega⟩
    · obtain ⟨w, h2, h3⟩ := ih hs
      exact ⟨w, h2, by omega⟩

/-- lines of an area that fit are not wider than it -/
theorem fit_lines {d : Dms} {rect : Rectangle} {t sp} {ls : List Str} (hc : t.charSpacing = none)
    (hf : ∃ f, FontTable.font d.fontDefinition t.fontNum = some f) (hp : ∀ l ∈ ls, LinePlain l)
    (h : TextsFit d rect ((linePieces t sp 0 (inked ls)).map (spanOf d rect))) :
    ∀ l ∈ ls, LineFits d l rect.width t.fontNum := by
  intro l hl
  refine ⟨(hp l hl).1, (hp l hl).2, ?_⟩
  rcases inked_or_nil hl with hi | rfl
  · obtain ⟨p, h1, rfl⟩ := linePieces_of_mem (t := t) (sp := sp) (i := 0) hi
    have hm : spanOf d rect p ∈ (linePieces t sp 0 (inked ls)).map (spanOf d rect) := List.mem_map.2 ⟨p, h1, rfl⟩
    obtain ⟨-, ⟨n, h2, h3⟩, -⟩ := h _ hm
    obtain ⟨w, ⟨f, es, h4, h5, rfl⟩, h6⟩ := lineWidth_at_least h2 (s := spanOf d rect p) (by simp [sameLine, hm])
    have ha := (linePieces_mem h1).1
    have hs : charSpacing (spanOf d rect p) f = spacing f none := by
      simp [charSpacing, spanOf, ha, hc, spacing]
    rw [hs] at h6
    have := rect.width.toNat_lt
    refine ⟨f, _, by simpa [spanOf, ha] using h4.1, (C27_ok_iff f _ none _).2 ⟨es, h5, rfl, by omega⟩, by omega⟩
  · obtain ⟨f, hf⟩ := hf
    exact ⟨f, 0, hf, by simp [Font.textWidth, Font.textWidthLoop], by omega⟩

theorem rectLines_font {d : Dms} {n : UInt8} {m k : Nat} (h : RectLines d n m k) (hk : k ≠ 0) :
    ∃ f, FontTable.font d.fontDefinition n = some f := by
  unfold RectLines at h
  cases hf : FontTable.font d.fontDefinition n with
  | none => rw [hf] at h; exact absurd h hk
  | some f => exact ⟨f, rfl⟩

theorem zip_fits {α β} {k : Nat} {ls : List α} {c : β} {ws : List β} {x : α × β}
    (h : x ∈ ls.zip (List.replicate k c ++ ws)) : (x.1 ∈ ls.take k ∧ x.2 = c) ∨ x ∈ (ls.drop k).zip ws := by
  induction k generalizing ls with
  | zero => exact .inr (by simpa using h)
  | succ k ih =>
    cases ls with
    | nil => simp at h
    | cons a ls =>
      rw [List.replicate_succ, List.cons_append, List.zip_cons_cons] at h
      rcases List.mem_cons.1 h with rfl | h
      · exact .inl ⟨by simp, rfl⟩
      · rcases ih h with ⟨h1, h2⟩ | h
        · exact .inl ⟨by rw [List.take_succ_cons]; exact List.mem_cons_of_mem _ h1, h2⟩
        · exact .inr (by simpa using h)

/-- values in order -/
def TidyRect (d : Dms) (t : TextAttr) (_ : Option UInt8) (_ : Rectangle) (b : List Value) : Prop :=
  Tidy (signAttr d) t true true b

/-- one area and what follows; `F1` and `F2` hold when it and what follows are shown -/
theorem area_both {d : Dms} {a : Area} {as : List Area} {ls ls' : List Str} {s : Str} {body : List Value} {n t sp rect}
    {F1 F2 : Prop}
    (hc : Chained d t rect (a :: as))
    (hP : ∀ sp', PatRect d t sp rect a.body → TidyRect d t sp' rect body)
    (hB : ∀ sp', PatRect d t sp' rect body → F1)
    (hfold : body.foldl (TextAttr.apply (signAttr d)) t = a.body.foldl (TextAttr.apply (signAttr d)) t)
    (hno : NoOpen body) (hmem : ∀ v ∈ body, v ∈ a.body ∨ v = .newLine none ∨ ∃ l, v = .text l ∧ InRange v)
    (hap : Apart body) (hlen : body.length + 2 * ls'.length ≤ a.body.length + 2 * ls.length)
    (hnil : as = [] → s = []) (hnil2 : as = [] → F2)
    (hW : Walk d (PatRect d) n t sp rect ((a :: as).flatMap areaValues))
    (ih : ∀ {n sp rect}, Chained d (a.body.foldl (TextAttr.apply (signAttr d)) t) rect as →
      Walk d (PatRect d) n (a.body.foldl (TextAttr.apply (signAttr d)) t) sp rect (as.flatMap areaValues) →
      ∃ V, s = V.flatMap Value.display ∧
        (∀ sp', Walk d (TidyRect d) n (a.body.foldl (TextAttr.apply (signAttr d)) t) sp' rect V) ∧
        (∀ v ∈ V, v ∈ as.flatMap areaValues ∨ v = .newLine none ∨ ∃ l, v = .text l ∧ InRange v) ∧ Apart V ∧
        V.length ≤ (as.flatMap areaValues).length + 2 * ls'.length ∧
        ∀ sp', Walk d (PatRect d) n (a.body.foldl (TextAttr.apply (signAttr d)) t) sp' rect V → F2) :
    ∃ V, body.flatMap Value.display ++ nextText a ++ s = V.flatMap Value.display ∧
      (∀ sp', Walk d (TidyRect d) n t sp' rect V) ∧
      (∀ v ∈ V, v ∈ (a :: as).flatMap areaValues ∨ v = .newLine none ∨ ∃ l, v = .text l ∧ InRange v) ∧ Apart V ∧
      V.length ≤ ((a :: as).flatMap areaValues).length + 2 * ls.length ∧
      ∀ sp', Walk d (PatRect d) n t sp' rect V → F1 ∧ F2 := by
  obtain ⟨-, -, hb, hn⟩ := hc
  rw [List.flatMap_cons, areaValues] at hW ⊢
  rw [nextText_eq]
  cases hx : a.next with
  | none =>
    rw [hx] at hn hW
    subst hn
    rw [hnil rfl]
    simp only [Option.toList_none, List.append_nil, List.flatMap_nil] at hW ⊢
    obtain ⟨h1, h2⟩ := walk_last hb hW
    refine ⟨body, rfl, fun sp' => .last hno (hP sp' h1) h2, hmem, hap, by omega, fun sp' h => ⟨hB sp' (walk_last hno h).1, hnil2 rfl⟩⟩
  | some v =>
    rw [hx] at hn hW
    simp only [Option.toList_some, List.append_assoc, List.cons_append, List.nil_append] at hW
    have hmem' : ∀ {V : List Value}, (∀ w ∈ V, w ∈ as.flatMap areaValues ∨ w = .newLine none ∨ ∃ l, w = .text l ∧ InRange w) →
        ∀ w ∈ body ++ v :: V, w ∈ a.body ++ [v] ++ as.flatMap areaValues ∨ w = .newLine none ∨
          ∃ l, w = .text l ∧ InRange w := by
      intro V hV w hw
      rcases List.mem_append.1 hw with hw | hw
      · rcases hmem w hw with h | h
        · exact .inl (by simp [h])
        · exact .inr h
      · rcases List.mem_cons.1 hw with rfl | hw
        · exact .inl (by simp)
        · rcases hV w hw with h | h
          · exact .inl (by simp only [List.mem_append]; exact .inr h)
          · exact .inr h
    by_cases hr : ∃ r, v = .textRectangle r
    · obtain ⟨r, rfl⟩ := hr
      obtain ⟨h1, h2⟩ := walk_rect hb hW
      obtain ⟨V, i1, i2, i3, i4, i5, i6⟩ := ih hn h2
      refine ⟨body ++ .textRectangle r :: V, ?_, ?_, hmem' i3, ?_, ?_, ?_⟩
      · rw [i1]; simp
      · intro sp'
        refine .rect hno (hP sp' h1) ?_
        rw [hfold]; exact i2 _
      · exact apart_join hap ⟨by simp [plainText], i4⟩ (by simp [plainText])
      · simp only [List.length_append, List.length_cons, Option.toList_some, List.length_nil] at i5 ⊢
        omega
      · intro sp' h
        obtain ⟨g1, g2⟩ := walk_rect hno h
        rw [hfold] at g2
        exact ⟨hB _ g1, i6 _ g2⟩
    · have hn' : v = .newPage ∧ Chained d (a.body.foldl (TextAttr.apply (signAttr d)) t) (signRect d) as := by
        cases v <;> first | exact hn | exact absurd ⟨_, rfl⟩ hr
      obtain ⟨rfl, hn'⟩ := hn'
      obtain ⟨h1, h2, h3⟩ := walk_page hb hW
      obtain ⟨V, i1, i2, i3, i4, i5, i6⟩ := ih hn' h3
      refine ⟨body ++ .newPage :: V, ?_, ?_, hmem' i3, ?_, ?_, ?_⟩
      · rw [i1]; simp
      · intro sp'
        refine .page hno (hP sp' h1) h2 ?_
        rw [hfold]; exact i2 _
      · exact apart_join hap ⟨by simp [plainText], i4⟩ (by simp [plainText])
      · simp only [List.length_append, List.length_cons, Option.toList_some, List.length_nil] at i5 ⊢
        omega
      · intro sp' h
        obtain ⟨g1, -, g2⟩ := walk_page hno h
        rw [hfold] at g2
        exact ⟨hB _ g1, i6 _ g2⟩

theorem filled_both {d : Dms} (hd : AcceptOk d) {as ls p s} (hf : Filled d as ls p s) (hp : p = none) :
    ∀ {n t sp rect ws m}, Chained d t rect as → (∀ a ∈ as, FontsPlaced d a) →
    (∀ a ∈ as, ∀ v ∈ areaValues a, PlainValue d v ∧ InRange v) → (∀ a ∈ as, Apart a.body) →
    FillLines d m (as.filter (Area.fillable d)) ws → (∀ l ∈ ls, LinePlain l) → AttrOk d t →
    Walk d (PatRect d) n t sp rect (as.flatMap areaValues) →
    ∃ V, s = V.flatMap Value.display ∧ (∀ sp', Walk d (TidyRect d) n t sp' rect V) ∧
      (∀ v ∈ V, v ∈ as.flatMap areaValues ∨ v = .newLine none ∨ ∃ l, v = .text l ∧ InRange v) ∧ Apart V ∧
      V.length ≤ (as.flatMap areaValues).length + 2 * ls.length ∧
      ∀ sp', Walk d (PatRect d) n t sp' rect V → ∀ x ∈ ls.zip ws, LineFits d x.1 x.2.1 x.2.2.1 := by
  have hnil : ∀ {as ls p s}, Filled d as ls p s → as = [] → s = [] := by
    intro as ls p s h e; subst e; cases h; rfl
  have hnil2 : ∀ {as m ws} {ls : List Str}, FillLines d m (as.filter (Area.fillable d)) ws → as = [] →
      ∀ x ∈ ls.zip ws, LineFits d x.1 x.2.1 x.2.2.1 := by
    intro as m ws ls h e; subst e; cases h; simp
  induction hf with
  | nil =>
    intro n t sp rect ws m _ _ _ _ hw _ _ hW
    obtain ⟨h1, h2⟩ := walk_last (b := []) (by simp [NoOpen]) hW
    exact ⟨[], rfl, fun sp' => .last (by simp [NoOpen]) trivial h2, by simp, trivial, by simp,
      fun _ _ => hnil2 hw rfl⟩
  | @skip a as ls p s hf hF ih =>
    subst hp
    intro n t sp rect ws m hc hfp hv hap hw hl ht hW
    have hb : ∀ v ∈ a.body, isFont v = false := by
      rcases hfp a (List.mem_cons_self ..) with h | ⟨h, -⟩
      · exact h
      · rw [hf] at h; simp at h
    rw [List.filter_cons_of_neg (by simp [hf])] at hw
    rw [tagsText_nonfont hb]
    obtain ⟨V, h1, h2, h3, h4, h5, h6⟩ := area_both (ls := ls) (ls' := ls) (F1 := True) hc
      (fun _ h => h.1) (fun _ _ => trivial) rfl hc.2.2.1 (fun v h => .inl h) (hap a (List.mem_cons_self ..))
      (Nat.le_refl _) (hnil hF) (hnil2 hw) hW (by
        intro n sp rect hc' hW'
        exact ih (pending_nonfont hb) hc' (fun b h => hfp b (List.mem_cons_of_mem _ h))
          (fun b h => hv b (List.mem_cons_of_mem _ h)) (fun b h => hap b (List.mem_cons_of_mem _ h)) hw hl
          (attrOk_foldl hd ht fun v h => hv a (List.mem_cons_self ..) v (List.mem_append_left _ h)) hW')
    exact ⟨V, h1, h2, h3, h4, h5, fun sp' h => (h6 sp' h).2⟩
  | @fill a as ls p s k hf hk hF ih =>
    subst hp
    intro n t sp rect ws m hc hfp hv hap hw hl ht hW
    obtain ⟨l, fs, hlf, hb, hfs, hm1, hm2⟩ : ∃ l fs, (∀ v ∈ l, isFont v = false) ∧ a.body = l ++ fs ∧
        (∀ v ∈ fs, isFont v = true) ∧ fs.flatMap Value.display = fontText (pendingFont none fs) ∧ tagsText fs = [] := by
      rcases hfp a (List.mem_cons_self ..) with h | ⟨-, l, f, h, e⟩
      · exact ⟨a.body, [], h, by simp, by simp, rfl, rfl⟩
      · exact ⟨l, [.font f], h, e, by simp [isFont], by simp [pendingFont, fontText], rfl⟩
    have e1 : tagsText a.body = l.flatMap Value.display := by
      have : tagsText (l ++ fs) = tagsText l ++ tagsText fs := by simp [tagsText]
      rw [hb, this, hm2, tagsText_nonfont hlf, List.append_nil]
    have e2 : fontText (pendingFont none a.body) = fs.flatMap Value.display := by
      rw [hb, pendingFont_append, pending_nonfont hlf, hm1]
    rw [List.filter_cons_of_pos hf] at hw
    obtain ⟨hr, hfn, hno, -⟩ := id hc
    cases hw with
    | @cons _ _ _ k' ws hk' hw =>
      rw [hk] at hk'
      cases hk'
      rw [hr, hfn] at hk
      have hplain : ∀ x ∈ ls.take k, LinePlain x := fun x hx => hl x (List.mem_of_mem_take hx)
      have hq : ∀ v ∈ l, quiet v = true := by
        intro v h
        have h1 : v ∈ a.body := by rw [hb]; exact List.mem_append_left _ h
        have h2 : occupies v = false := by
          unfold Area.fillable at hf
          rw [Bool.and_eq_true, Bool.not_eq_true', List.any_eq_false] at hf
          simpa using hf.1 v h1
        have h3 := (hv a (List.mem_cons_self ..) v (List.mem_append_left _ h1)).1
        exact quiet_tag h2 h3
      have hlt : ∀ v ∈ l, PlainValue d v ∧ InRange v := fun v h =>
        hv a (List.mem_cons_self ..) v (List.mem_append_left _ (by rw [hb]; exact List.mem_append_left _ h))
      have hat := attrOk_foldl hd ht hlt
      have efont : (l.foldl (TextAttr.apply (signAttr d)) t).fontNum = t.fontNum := by
        clear hat hlt hq hb hm1 hm2 e1 e2 hk hplain hW hr ht hc hfn
        induction l generalizing t with
        | nil => rfl
        | cons v tags ih =>
          have e := hlf v (List.mem_cons_self ..)
          have e1 : (TextAttr.apply (signAttr d) t v).fontNum = t.fontNum := by
            cases v <;> first | rfl | simp [isFont] at e
          rw [List.foldl_cons, ih (fun w hw => hlf w (List.mem_cons_of_mem _ hw)), e1]
      have e3 : tagsText a.body ++ joinLines (ls.take k) ++ fontText (pendingFont none a.body) =
          (l ++ lineVals (ls.take k) ++ fs).flatMap Value.display := by
        rw [e1, e2, List.flatMap_append, List.flatMap_append, lineVals_display fun x hx => (hplain x hx).1]
      rw [e3]
      have hlv : ∀ v ∈ lineVals (ls.take k), v = .newLine none ∨ ∃ l, v = .text l ∧ InRange v := by
        intro v h
        rcases lineVals_mem h with h | ⟨x, hx, hne, rfl⟩
        · exact .inl h
        · obtain ⟨g1, g2⟩ := hplain x hx
          exact .inr ⟨x, rfl, .inr (.inr ⟨hne, g1, g2⟩)⟩
      obtain ⟨V, h1, h2, h3, h4, h5, h6⟩ := area_both (ls := ls) (ls' := ls.drop k)
        (body := l ++ lineVals (ls.take k) ++ fs) (F1 := ∀ x ∈ ls.take k, LineFits d x rect.width t.fontNum)
        (F2 := ∀ x ∈ (ls.drop k).zip ws, LineFits d x.1 x.2.1 x.2.2.1) hc
        (by
          intro sp' h
          have := h.1
          rw [hb, tidy_quiet _ _ _ hq] at this
          unfold TidyRect
          rw [List.append_assoc, tidy_quiet _ _ _ hq]
          exact ⟨this.1, tidy_lines _ _ _ hfs _⟩)
        (by
          intro sp' h x hx
          have h2 := h.2
          rw [layout_lines _ _ _ _ _ _ _ hq (fun v hv => (font_quiet (hfs v hv)).1)] at h2
          have hk0 : k ≠ 0 := by rintro rfl; simp at hx
          have := fit_lines hat.spacing (by rw [efont]; exact rectLines_font (rectLines_ok hd ht.font hk) hk0) hplain h2 x hx
          rwa [efont] at this)
        (by rw [hb, List.foldl_append, List.foldl_append, List.foldl_append, foldl_lineVals])
        (by
          intro v h
          rcases List.mem_append.1 h with h | h
          · rcases List.mem_append.1 h with h | h
            · exact hno v (by rw [hb]; exact List.mem_append_left _ h)
            · rcases hlv v h with rfl | ⟨_, rfl, _⟩ <;> rfl
          · exact hno v (by rw [hb]; exact List.mem_append_right _ h))
        (by
          intro v h
          rcases List.mem_append.1 h with h | h
          · rcases List.mem_append.1 h with h | h
            · exact .inl (by rw [hb]; exact List.mem_append_left _ h)
            · exact .inr (hlv v h)
          · exact .inl (by rw [hb]; exact List.mem_append_right _ h))
        (by
          have hfq : ∀ v ∈ fs, plainText v = false := fun v h => (font_quiet (hfs v h)).2
          have hfa : Apart fs := by
            have := apart_quiet (b := []) (fun v h => (font_quiet (hfs v h)).1) trivial
            rwa [List.append_nil] at this
          have hla : Apart (lineVals (ls.take k) ++ fs) :=
            apart_join (apart_lineVals _) hfa fun w hw => hfq w (List.mem_of_head? hw)
          rw [List.append_assoc]
          exact apart_quiet hq hla)
        (by
          have := lineVals_length (ls.take k)
          rw [hb]
          simp only [List.length_append, List.length_take, List.length_drop] at this ⊢
          omega)
        (hnil hF) (hnil2 hw) hW
        (by
          intro n sp rect hc' hW'
          exact ih rfl hc' (fun b h => hfp b (List.mem_cons_of_mem _ h))
            (fun b h => hv b (List.mem_cons_of_mem _ h)) (fun b h => hap b (List.mem_cons_of_mem _ h)) hw
            (fun x hx => hl x (List.mem_of_mem_drop hx))
            (attrOk_foldl hd ht fun v h => hv a (List.mem_cons_self ..) v (List.mem_append_left _ h)) hW')
      refine ⟨V, h1, h2, h3, h4, h5, fun sp' h x hx => ?_⟩
      obtain ⟨g1, g2⟩ := h6 sp' h
      rcases zip_fits hx with ⟨hx, e⟩ | hx
      · rw [e]
        simp only [hr, hfn]
        exact g1 _ hx
      · exact g2 x hx

/-! ### the message -/

/-- **C88** A valid pattern that is rendered itself, filled with lines of plain text, is rendered exactly when each line
is not wider than `widths` tells for it.  With the conditions on patterns of `C72_shown_partial`. -/
theorem C88_shown_iff_partial (d : Dms) (hd : AcceptOk d) (hh : CellHeights d) (hn : supports d .newPage = true)
    (hnl : supports d (.newLine none) = true) (pat : Str) (vs : List Value) (h : ValidPattern d pat vs)
    (hp : ∀ a ∈ areas vs, FontsPlaced d a) (hv : ∀ v ∈ vs, PlainValue d v) (ht : TidyMessage d pat)
    (hy : ∃ xs, Yields d pat xs ∧ NoError xs) (ws : List (UInt16 × UInt8 × Nat)) (hw : widths d pat = .ok ws)
    (ls : List Str) (hl : ∀ l ∈ ls, LinePlain l) (hlen : vs.length + 2 * ls.length ≤ 255)
    (s : Str) (hf : fill d pat ls = .ok s) :
    (∃ xs, Yields d s xs ∧ NoError xs) ↔ ∀ x ∈ ls.zip ws, LineFits d x.1 x.2.1 x.2.2.1 := by
  constructor
  case mpr => exact fun hfit => C72_shown_partial d hd hh hn hnl pat vs h hp hv ht hy ws hw ls hfit hlen s hf
  intro hshown
  have hS := (C67_message_iff d hd pat ht).1 hy
  have hr := valid_inRange h
  have hfl := C55_widths_partial d pat ws hw hn
  rw [patternValues_valid h] at hfl
  have hpage : ∀ t ss, PageAt d (signAttr d) (slices pat) t ss → ∃ p rest b, TakePage ss p rest b ∧
      AllSections d (PatRect d) t none (signRect d) (sections p).1 (sections p).2 ∧
        (sections p).2.length < maxTextRectangles := by
    intro t ss ha
    obtain ⟨p, rest, b, h1, h2⟩ := hS t ss ha
    refine ⟨p, rest, b, h1, ?_, h2.rects⟩
    exact allSections_imp (fun _ _ _ _ h => ⟨h.1.1, h.2⟩) (allSections_and (ht t ss ha p rest b h1).2 h2.texts)
  have hW : Walk d (PatRect d) 0 (signAttr d) none (signRect d) vs := by
    obtain ⟨p, rest, b, h1, h2, h3⟩ := hpage _ _ .first
    refine pages_walk (vs.length + 1) (by omega) h.1 ⟨p, rest, b, h1, h2, by omega, ?_⟩
    rintro rfl t' ss' ha
    exact hpage t' ss' (.later h1 ha)
  have he := areas_values [] none [] vs
  rw [List.nil_append] at he
  have hc := chained_areas d [] none [] vs (by simp) (by simp [NoOpen])
  obtain ⟨V, rfl, hVW, hmem, hap, hVl, hback⟩ := filled_both hd (fill_filled h hn hf) rfl (n := 0) (sp := none) hc hp
    (fun a ha v hv' => ⟨hv v (areas_mem ha v hv'), hr v (areas_mem ha v hv')⟩)
    (areasFrom_apart _ _ _ _ (by simpa using parses_apart h.1 (slices_cut pat))) hfl hl
    ⟨rfl, hd.font, by simp [signAttr]⟩ (by rw [areas, he]; exact hW)
  rw [areas, he] at hmem hVl
  have hF : ∀ v ∈ V, Faithful v := by
    intro v hm
    rcases hmem v hm with hm | rfl | ⟨l, rfl, hl⟩
    · have h1 := hr v hm
      have h2 := hv v hm
      refine ⟨h1, ?_⟩
      cases v <;> first | trivial | simp_all [PlainValue]
    · exact ⟨by simp [InRange, AtMost], by simp⟩
    · exact ⟨hl, by simp⟩
  have hP := parses_display hF hap
  have hwalk := fun t ss => walk_pages (hVW none) hP (t' := t) (ss' := ss)
  have hT : TidyMessage d (V.flatMap Value.display) := by
    intro t ss ha p rest b h1
    obtain ⟨p', rest', b', h1', h2, h3, V1, V2, rfl⟩ := hwalk t ss ha
    obtain ⟨rfl, rfl, rfl⟩ := takePage_unique h1 h1'
    refine ⟨?_, allSections_imp (fun _ _ _ _ h => ⟨h, fun _ => cellFonts_all hh _⟩) h2⟩
    simp only [List.length_append] at hVl
    omega
  have hS' := (C67_message_iff d hd _ hT).1 hshown
  have hpage' : ∀ t ss, PageAt d (signAttr d) (slices (V.flatMap Value.display)) t ss → ∃ p rest b, TakePage ss p rest b ∧
      AllSections d (PatRect d) t none (signRect d) (sections p).1 (sections p).2 ∧
        (sections p).2.length < maxTextRectangles := by
    intro t ss ha
    obtain ⟨p, rest, b, h1, h2⟩ := hS' t ss ha
    refine ⟨p, rest, b, h1, ?_, h2.rects⟩
    exact allSections_imp (fun _ _ _ _ h => ⟨h.1.1, h.2⟩) (allSections_and (hT t ss ha p rest b h1).2 h2.texts)
  refine hback none ?_
  obtain ⟨p, rest, b, h1, h2, h3⟩ := hpage' _ _ .first
  refine pages_walk (V.length + 1) (by omega) hP ⟨p, rest, b, h1, h2, by omega, ?_⟩
  rintro rfl t' ss' ha
  exact hpage' t' ss' (.later h1 ha)

/-! ### concrete cases -/

theorem linePlain_of {l : Str}
    (h : l.all (fun c => c ≠ '[' && c ≠ ']' && decide (1 ≤ c.toNat) && decide (c.toNat ≤ 0xFF)) = true) : LinePlain l := by
  rw [List.all_eq_true] at h
  refine ⟨fun c hc => ?_, fun c hc => ?_⟩
  · have := h c hc; simp at this; exact this.1.1
  · have := h c hc; simp at this; exact ⟨this.1.2, this.2⟩

theorem lineFitsB_of {d l w fnum} (h : LineFits d l w fnum) : lineFitsB d l w fnum = true := by
  obtain ⟨h1, h2, f, n, h3, h4, h5⟩ := h
  unfold lineFitsB
  rw [h3]
  simp only [h4, Bool.and_eq_true, List.all_eq_true, decide_eq_true_eq]
  refine ⟨fun c hc => ?_, h5⟩
  have g1 := h1 c hc
  have g2 := h2 c hc
  simp_all

theorem Tests.shownPat_placed : ∀ a ∈ areas shownVals, FontsPlaced patDms a := by
  intro a ha
  have : areas shownVals = [⟨[], none, [], some (.textRectangle ⟨1, 1, 50, 8⟩)⟩,
     ⟨[], some (.textRectangle ⟨1, 1, 50, 8⟩), [.font (some (7, none))], some (.textRectangle ⟨1, 10, 50, 7⟩)⟩,
     ⟨[.textRectangle ⟨1, 1, 50, 8⟩, .font (some (7, none))], some (.textRectangle ⟨1, 10, 50, 7⟩),
       [.justificationLine (some .right)], some .newPage⟩,
     ⟨[.textRectangle ⟨1, 1, 50, 8⟩, .font (some (7, none)), .textRectangle ⟨1, 10, 50, 7⟩,
       .justificationLine (some .right)], some .newPage, [.text c!"TEXT", .colorForeground (some (.legacy 1))], none⟩] := rfl
  rw [this] at ha
  simp only [List.mem_cons, List.not_mem_nil, or_false] at ha
  rcases ha with rfl | rfl | rfl | rfl
  · exact .inl (by simp)
  · exact .inr ⟨by decide, [], some (7, none), by simp, rfl⟩
  · exact .inl (by simp [isFont])
  · exact .inl (by simp [isFont])

/-- `C88_shown_iff_partial` applies to the pattern `shownPat`, with any two lines of plain text -/
theorem Tests.shownPat_lines (l1 l2 : Str) (h1 : LinePlain l1) (h2 : LinePlain l2) (s : Str)
    (hf : fill patDms shownPat [l1, l2] = .ok s) : (∃ xs, Yields patDms s xs ∧ NoError xs) ↔
      LineFits patDms l1 50 8 ∧ LineFits patDms l2 50 7 := by
  have hv : ∀ v ∈ shownVals, PlainValue patDms v := by
    intro v hv
    simp only [shownVals, List.mem_cons, List.not_mem_nil, or_false] at hv
    rcases hv with rfl | rfl | rfl | rfl | rfl | rfl | rfl <;> trivial
  have hy : ∃ xs, Yields patDms shownPat xs ∧ NoError xs := by
    obtain ⟨xs, hy, hn⟩ := shown_of (b := true) (d := patDms) (ms := shownPat) (by decide +kernel)
    exact ⟨xs, hy, hn.2 rfl⟩
  rw [C88_shown_iff_partial patDms patDms_accept (.inl rfl) rfl rfl shownPat shownVals shownPat_valid shownPat_placed hv
    shownPat_tidy hy [(50, 8, 0), (50, 7, 1)] (by decide +kernel) [l1, l2]
    (by simp only [List.mem_cons, List.not_mem_nil, or_false]; rintro l (rfl | rfl) <;> assumption)
    (by simp [shownVals]) s hf]
  simp

-- lines that fit
example : ∃ xs, Yields patDms c!"[tr1,1,50,8]ABC DE[fo7][tr1,10,50,7][jl4]123[np]TEXT[cf1]" xs ∧ NoError xs :=
  (shownPat_lines c!"ABC DE" c!"123" (linePlain_of (by decide)) (linePlain_of (by decide)) _
    (by decide +kernel)).2 ⟨lineFits_of (by decide +kernel), lineFits_of (by decide +kernel)⟩

-- a line that is too wide by one character
example : ¬ ∃ xs, Yields patDms c!"[tr1,1,50,8]EEEEEEEEE[fo7][tr1,10,50,7][jl4]123[np]TEXT[cf1]" xs ∧ NoError xs := by
  rw [shownPat_lines c!"EEEEEEEEE" c!"123" (linePlain_of (by decide)) (linePlain_of (by decide)) _
    (by decide +kernel)]
  rintro ⟨h, -⟩
  have := lineFitsB_of h
  revert this
  decide +kernel

end Ntcip
