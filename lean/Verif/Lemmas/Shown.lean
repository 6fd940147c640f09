import Verif.Spec.Accept
import Verif.Props.Pattern
import Verif.Props.Lines
/-
Lemmas for filled patterns on the sign (C72): the lines filled into one area.
-/
namespace Ntcip.Spec

/-- The line can be filled into a line of a pattern, with its width and font number (`Font::text_width`) -/
def LineFits (d : Dms) (l : Str) (w : UInt16) (fnum : UInt8) : Prop :=
  Plain l ∧ (∀ c ∈ l, 1 ≤ c.toNat ∧ c.toNat ≤ 0xFF) ∧
    ∃ f n, FontTable.font d.fontDefinition fnum = some f ∧ f.textWidth l none = .ok n ∧ n ≤ w.toNat

end Ntcip.Spec

namespace Ntcip
open Spec

/-- the values of a line -/
def textVals (l : Str) : List Value := if l = [] then [] else [.text l]

/-- the values of lines -/
def lineVals : List Str → List Value
  | [] => []
  | [l] => textVals l
  | l :: ls => textVals l ++ .newLine none :: lineVals ls

theorem lineVals_cons (l : Str) {ls : List Str} (h : ls ≠ []) :
    lineVals (l :: ls) = textVals l ++ .newLine none :: lineVals ls := by
  cases ls with
  | nil => simp at h
  | cons => rfl

/-- the lines with pieces: the last one has none if it is empty -/
def inked : List Str → List Str
  | [] => []
  | [l] => if l = [] then [] else [l]
  | l :: ls => l :: inked ls

theorem inked_cons (l : Str) {ls : List Str} (h : ls ≠ []) : inked (l :: ls) = l :: inked ls := by
  cases ls with
  | nil => simp at h
  | cons => rfl

theorem inked_length (ls : List Str) : (inked ls).length ≤ ls.length := by
  induction ls with
  | nil => simp [inked]
  | cons l ls ih =>
    cases ls with
    | nil => simp only [inked]; split <;> simp
    | cons => rw [inked_cons _ (by simp)]; simpa using ih

theorem inked_mem {ls : List Str} {l : Str} (h : l ∈ inked ls) : l ∈ ls := by
  induction ls with
  | nil => simp [inked] at h
  | cons a ls ih =>
    cases ls with
    | nil =>
      simp only [inked] at h
      split at h
      · simp at h
      · exact h
    | cons =>
      rw [inked_cons _ (by simp)] at h
      rcases List.mem_cons.1 h with rfl | h
      · simp
      · exact List.mem_cons_of_mem _ (ih h)

/-- the pieces of lines, from line `i` on -/
def linePieces (t : TextAttr) : Option UInt8 → Nat → List Str → List Piece
  | _, _, [] => []
  | sp, i, l :: ls => ⟨t, sp, i, l⟩ :: linePieces t none (i + 1) ls

/-- values without effect on pieces: nothing drawn, no `[nl]` -/
def quiet : Value → Bool
  | .text _ | .newLine _ | .hexadecimalCharacter _ => false
  | _ => true

theorem pieces_quiet (dflt : TextAttr) (vs rest : List Value) (h : ∀ v ∈ vs, quiet v = true) (t sp) :
    pieces dflt t sp 0 true (vs ++ rest) = pieces dflt (vs.foldl (TextAttr.apply dflt) t) sp 0 true rest := by
  induction vs generalizing t with
  | nil => rfl
  | cons v vs ih =>
    have hv := h v (List.mem_cons_self ..)
    rw [List.cons_append, pieces, List.foldl_cons, ← ih fun w hw => h w (List.mem_cons_of_mem _ hw)]
    have : lineAfter dflt t 0 v = 0 := by
      cases v <;> simp_all [lineAfter, quiet]
    rw [this]
    cases v <;> simp_all [piece, spacingAfter, blankAfter, quiet]

theorem pieces_quiet_end (dflt : TextAttr) (vs : List Value) (h : ∀ v ∈ vs, quiet v = true) (t sp n b) :
    pieces dflt t sp n b vs = [] := by
  induction vs generalizing t sp n b with
  | nil => rfl
  | cons v vs ih =>
    have hv := h v (List.mem_cons_self ..)
    rw [pieces, ih fun w hw => h w (List.mem_cons_of_mem _ hw)]
    cases v <;> simp_all [piece, quiet]

theorem pieces_lines (dflt : TextAttr) (ls : List Str) (end_ : List Value) (h : ∀ v ∈ end_, quiet v = true) (t sp i) :
    pieces dflt t sp i true (lineVals ls ++ end_) = linePieces t sp i (inked ls) := by
  induction ls generalizing sp i with
  | nil => exact pieces_quiet_end dflt _ h _ _ _ _
  | cons l ls ih =>
    cases ls with
    | nil =>
      simp only [lineVals, inked, textVals]
      split
      · exact pieces_quiet_end dflt _ h _ _ _ _
      · simp [pieces, piece, pieces_quiet_end dflt _ h, linePieces]
    | cons l' ls =>
      rw [lineVals_cons _ (by simp), inked_cons _ (by simp), linePieces, ← ih]
      simp only [textVals]
      split
      · rename_i hl
        subst hl
        simp [pieces, piece, TextAttr.apply, spacingAfter, lineAfter, blankAfter]
      · simp [pieces, piece, TextAttr.apply, spacingAfter, lineAfter, blankAfter]

/-- the layout of an area with lines -/
theorem layout_lines (d : Dms) (t sp rect) (tags : List Value) (ls : List Str) (end_ : List Value)
    (h : ∀ v ∈ tags, quiet v = true) (he : ∀ v ∈ end_, quiet v = true) :
    layoutOf d t sp rect (tags ++ lineVals ls ++ end_) =
      (linePieces (tags.foldl (TextAttr.apply (signAttr d)) t) sp 0 (inked ls)).map (spanOf d rect) := by
  unfold layoutOf
  rw [List.append_assoc, pieces_quiet _ _ _ h, pieces_lines _ _ _ he]

theorem tidy_quiet (dflt : TextAttr) (a b : List Value) (h : ∀ v ∈ a, quiet v = true) (t) :
    Tidy dflt t true true (a ++ b) ↔
      Tidy dflt t true true a ∧ Tidy dflt (a.foldl (TextAttr.apply dflt) t) true true b := by
  induction a generalizing t with
  | nil => simp [Tidy]
  | cons v a ih =>
    have hv := h v (List.mem_cons_self ..)
    have h1 : freshAfter dflt t true v = true := by cases v <;> simp_all [freshAfter, quiet]
    have h2 : blankAfter true v = true := by cases v <;> simp_all [blankAfter, quiet]
    simp only [List.cons_append, Tidy, List.foldl_cons, h1, h2, ih fun w hw => h w (List.mem_cons_of_mem _ hw), and_assoc]

theorem tidy_fonts (dflt : TextAttr) (end_ : List Value) (h : ∀ v ∈ end_, isFont v = true) (t fr bl) :
    Tidy dflt t fr bl end_ := by
  induction end_ generalizing t fr bl with
  | nil => trivial
  | cons v vs ih =>
    refine ⟨?_, ih (fun w hw => h w (List.mem_cons_of_mem _ hw)) _ _ _⟩
    have := h v (List.mem_cons_self ..)
    cases v <;> simp_all [isFont, InOrder]

theorem tidy_lines (dflt : TextAttr) (ls : List Str) (end_ : List Value) (h : ∀ v ∈ end_, isFont v = true) (t) :
    Tidy dflt t true true (lineVals ls ++ end_) := by
  induction ls with
  | nil => exact tidy_fonts dflt _ h _ _ _
  | cons l ls ih =>
    cases ls with
    | nil =>
      simp only [lineVals, textVals]
      split
      · exact tidy_fonts dflt _ h _ _ _
      · simp only [List.cons_append, List.nil_append, Tidy]
        exact ⟨trivial, tidy_fonts dflt _ h _ _ _⟩
    | cons l' ls =>
      rw [lineVals_cons _ (by simp)]
      simp only [textVals]
      split
      · simpa [Tidy, InOrder, TextAttr.apply, freshAfter, blankAfter] using ih
      · simpa [Tidy, InOrder, TextAttr.apply, freshAfter, blankAfter] using ih

/-! ### the lines fit -/

theorem linePieces_mem {t sp i ls p} (h : p ∈ linePieces t sp i ls) :
    p.attr = t ∧ p.str ∈ ls ∧ i ≤ p.line ∧ p.line < i + ls.length ∧ (i < p.line → p.spacing = none) ∧
      (sp = none → p.spacing = none) := by
  induction ls generalizing sp i with
  | nil => simp [linePieces] at h
  | cons l ls ih =>
    simp only [linePieces, List.mem_cons] at h
    rcases h with rfl | h
    · simp
    · obtain ⟨h1, h2, h3, h4, _, h6⟩ := ih h
      refine ⟨h1, List.mem_cons_of_mem _ h2, by omega, by simp; omega, fun _ => h6 rfl, fun _ => h6 rfl⟩

theorem onLine_none (d : Dms) (rect) {t sp i ls n} (h : n < i) :
    onLine ((linePieces t sp i ls).map (spanOf d rect)) n = [] := by
  unfold onLine
  rw [List.filter_eq_nil_iff]
  intro x hx
  obtain ⟨p, hp, rfl⟩ := List.mem_map.1 hx
  have := (linePieces_mem hp).2.2.1
  have e : (spanOf d rect p).state.lineNumber = p.line := rfl
  rw [e, decide_eq_true_eq]
  omega

theorem onLine_lines (d : Dms) (rect) {t sp i ls k} (hk : k < ls.length) :
    onLine ((linePieces t sp i ls).map (spanOf d rect)) (i + k) =
      [spanOf d rect ⟨t, if k = 0 then sp else none, i + k, ls[k]⟩] := by
  induction ls generalizing sp i k with
  | nil => simp at hk
  | cons l ls ih =>
    cases k with
    | zero =>
      have := onLine_none d rect (t := t) (sp := none) (i := i + 1) (ls := ls) (n := i) (by omega)
      unfold onLine at this ⊢
      simp only [linePieces, List.map_cons, Nat.add_zero]
      rw [List.filter_cons_of_pos (by simp [spanOf]), this]
      simp
    | succ k =>
      simp only [List.length_cons, Nat.add_lt_add_iff_right] at hk
      have := ih (sp := none) (i := i + 1) hk
      have e : i + 1 + k = i + (k + 1) := by omega
      rw [e] at this
      unfold onLine at this ⊢
      simp only [linePieces, List.map_cons]
      rw [List.filter_cons_of_neg (by simp [spanOf]), this]
      simp

theorem dense_lines (d : Dms) (rect) (t sp i ls) :
    Dense i ((linePieces t sp i ls).map (spanOf d rect)) (i + ls.length) := by
  induction ls generalizing sp i with
  | nil => exact .nil
  | cons l ls ih =>
    have := ih none (i + 1)
    have e : i + 1 + ls.length = i + (l :: ls).length := by simp; omega
    rw [e] at this
    exact .new rfl this

theorem linesHeight_lines (d : Dms) (rect) (t sp ls) (f : Font)
    (hf : FontTable.font d.fontDefinition t.fontNum = some f) (full : Bool) (m : Nat) (hm : m < ls.length) :
    linesHeight full d.fontDefinition ((linePieces t sp 0 ls).map (spanOf d rect)) m =
      (m + 1) * f.height.toNat + m * (if full then f.lineSpacing.toNat else 0) := by
  have ol := fun k (hk : k < ls.length) => onLine_lines d rect (t := t) (sp := sp) (i := 0) hk
  simp only [Nat.zero_add] at ol
  have h1 : ∀ k, k < ls.length →
      lineHeight d.fontDefinition ((linePieces t sp 0 ls).map (spanOf d rect)) k = f.height.toNat := by
    intro k hk
    unfold lineHeight
    rw [ol k hk]
    simp [ofFont, spanOf, hf, largest]
  have h2 : ∀ k, k < ls.length →
      fontLineSpacing d.fontDefinition ((linePieces t sp 0 ls).map (spanOf d rect)) k = f.lineSpacing.toNat := by
    intro k hk
    unfold fontLineSpacing
    rw [ol k hk]
    simp [ofFont, spanOf, hf, largest]
  induction m with
  | zero => simp [linesHeight, h1 0 hm]
  | succ m ih =>
    rw [linesHeight, ih (by omega), h1 _ hm, lineSpace, h2 _ hm, h2 m (by omega)]
    have : tagLineSpacing ((linePieces t sp 0 ls).map (spanOf d rect)) (m + 1) = none := by
      unfold tagLineSpacing
      rw [ol _ hm]
      simp [spanOf]
    rw [this, Option.getD_none]
    have e : (f.lineSpacing.toNat + f.lineSpacing.toNat + 1) / 2 = f.lineSpacing.toNat := by omega
    rw [e]
    cases full <;> simp [Nat.add_mul] <;> omega

/-- the lines of an area fit -/
theorem lines_fit (d : Dms) (rect : Rectangle) (t sp) (ls : List Str) (k : Nat)
    (hc : t.charSpacing = none) (hv : ∀ v f, t.fontVersionId = some v →
      FontTable.font d.fontDefinition t.fontNum = some f → v = f.versionId)
    (hk : RectLines d t.fontNum rect.height.toNat k) (hlen : ls.length ≤ k)
    (hl : ∀ l ∈ ls, LineFits d l rect.width t.fontNum) :
    TextsFit d rect ((linePieces t sp 0 ls).map (spanOf d rect)) := by
  intro s hs
  obtain ⟨p, hp, rfl⟩ := List.mem_map.1 hs
  obtain ⟨ha, hstr, -, hlt, -⟩ := linePieces_mem hp
  obtain ⟨_, _, f, n, hf, hw, hn⟩ := hl _ hstr
  obtain ⟨es, hd, rfl, _⟩ := (C27_ok_iff f _ none n).1 hw
  have hF : FontOf d.fontDefinition (spanOf d rect p) f := by
    refine ⟨by simpa [spanOf, ha] using hf, ?_⟩
    intro v hvv
    exact hv v f (by simpa [spanOf, ha] using hvv) hf
  have hSP : samePage ((linePieces t sp 0 ls).map (spanOf d rect)) (spanOf d rect p) =
      (linePieces t sp 0 ls).map (spanOf d rect) := by
    unfold samePage
    rw [List.filter_eq_self]
    intro x hx
    obtain ⟨q, hq, rfl⟩ := List.mem_map.1 hx
    simp [spanOf, ha, (linePieces_mem hq).1]
  refine ⟨⟨f, es, hF, hd⟩, ?_, ?_⟩
  · have hSL : sameLine ((linePieces t sp 0 ls).map (spanOf d rect)) (spanOf d rect p) = [spanOf d rect p] := by
      have h1 := onLine_lines d rect (t := t) (sp := sp) (i := 0) (ls := ls) (k := p.line) (by omega)
      rw [Nat.zero_add] at h1
      have h2 : sameLine ((linePieces t sp 0 ls).map (spanOf d rect)) (spanOf d rect p) =
          onLine ((linePieces t sp 0 ls).map (spanOf d rect)) p.line := by
        unfold sameLine onLine
        apply List.filter_congr
        intro x hx
        obtain ⟨q, hq, rfl⟩ := List.mem_map.1 hx
        simp [spanOf, ha, (linePieces_mem hq).1]
      have h3 : spanOf d rect p ∈ onLine ((linePieces t sp 0 ls).map (spanOf d rect)) p.line := by
        unfold onLine
        exact List.mem_filter.2 ⟨hs, by simp [spanOf]⟩
      rw [h2]
      rw [h1] at h3 ⊢
      rw [List.mem_singleton.1 h3]
    refine ⟨_, by rw [hSL]; exact .first ⟨f, es, hF, hd, rfl⟩ .nil, ?_⟩
    have : charSpacing (spanOf d rect p) f = spacing f none := by
      simp [charSpacing, spanOf, ha, hc, spacing]
    rw [this]
    omega
  · refine ⟨_, by rw [hSP]; exact dense_lines d rect t sp 0 ls, ?_⟩
    have h0 : 0 < ls.length := by omega
    rw [hSP, Nat.zero_add, linesHeight_lines d rect t sp ls f hf _ _ (by omega)]
    unfold RectLines at hk
    rw [hf] at hk
    simp only at hk
    have ec : d.vmsCfg.charHeightPixels = 0 ↔ d.vmsCfg.charHeightPixels.toNat = 0 := by
      rw [← UInt8.toNat_inj]; rfl
    split at hk
    · rename_i h0'
      have := (linesFit_mono hlen hk.1)
      unfold LinesFit at this
      rw [decide_eq_true (ec.2 h0'), if_pos rfl]
      have e : ls.length - 1 + 1 = ls.length := by omega
      rw [e]; exact this
    · rename_i h0'
      rw [decide_eq_false (fun h => h0' (ec.1 h))]
      split at hk
      · omega
      · have := (linesFit_mono hlen hk.1)
        unfold LinesFit at this
        have e : ls.length - 1 + 1 = ls.length := by omega
        have : ls.length * f.height.toNat ≤ ls.length * d.vmsCfg.charHeightPixels.toNat :=
          Nat.mul_le_mul_left _ (by omega)
        rw [e]
        simp at *
        omega

/-! ### the spacing before the first line does not matter -/

/-- the span, without spacing on the first line -/
def clearSp (s : Span) : Span :=
  { s with state := { s.state with lineSpacing := if s.state.lineNumber = 0 then none else s.state.lineSpacing } }

theorem pieces_clear (d : Dms) (rect) (dflt : TextAttr) (vs : List Value) (t sp sp' n b) (h : n = 0 ∨ sp = sp') :
    (pieces dflt t sp n b vs).map (fun p => clearSp (spanOf d rect p)) =
      (pieces dflt t sp' n b vs).map (fun p => clearSp (spanOf d rect p)) := by
  induction vs generalizing t sp sp' n b with
  | nil => rfl
  | cons v vs ih =>
    simp only [pieces, List.map_append]
    congr 1
    · rcases h with rfl | rfl
      · cases v <;> simp [piece]
        case newLine => split <;> simp [clearSp, spanOf]
        all_goals simp [clearSp, spanOf]
      · rfl
    · apply ih
      rcases h with rfl | rfl
      · cases v <;> simp [lineAfter, spacingAfter]
      · exact .inr rfl

theorem lineWidth_clear (T : FontTable) (p : Option Span) (ss : List Span) (n : Nat) :
    LineWidth T (p.map clearSp) (ss.map clearSp) n ↔ LineWidth T p ss n := by
  have hw : ∀ s w, SpanWidth T (clearSp s) w ↔ SpanWidth T s w := fun s w => Iff.rfl
  have hg : ∀ p s g, Gap T (clearSp p) (clearSp s) g ↔ Gap T p s g := fun p s g => Iff.rfl
  constructor
  · intro h
    induction ss generalizing p n with
    | nil => cases p <;> (cases h; exact .nil)
    | cons s ss ih =>
      cases p with
      | none =>
        cases h with
        | first h1 h2 => exact .first ((hw _ _).1 h1) (ih (some s) _ h2)
      | some p =>
        cases h with
        | next h0 h1 h2 => exact .next ((hg _ _ _).1 h0) ((hw _ _).1 h1) (ih (some s) _ h2)
  · intro h
    induction h with
    | nil => exact .nil
    | first h1 _ ih => exact .first ((hw _ _).2 h1) ih
    | next h0 h1 _ ih => exact .next ((hg _ _ _).2 h0) ((hw _ _).2 h1) ih

theorem sameLine_clear (spans : List Span) (s : Span) :
    sameLine (spans.map clearSp) (clearSp s) = (sameLine spans s).map clearSp := by
  unfold sameLine
  rw [List.filter_map]
  rfl

theorem samePage_clear (spans : List Span) (s : Span) :
    samePage (spans.map clearSp) (clearSp s) = (samePage spans s).map clearSp := by
  unfold samePage
  rw [List.filter_map]
  rfl

theorem dense_clear {k ss n} : Dense k (ss.map clearSp) n ↔ Dense k ss n := by
  induction ss generalizing k with
  | nil => exact ⟨fun h => by cases h; exact .nil, fun h => by cases h; exact .nil⟩
  | cons s ss ih =>
    constructor
    · intro h
      cases h with
      | old h1 h2 => exact .old h1 (ih.1 h2)
      | new h1 h2 => exact .new h1 (ih.1 h2)
    · intro h
      cases h with
      | old h1 h2 => exact .old h1 (ih.2 h2)
      | new h1 h2 => exact .new h1 (ih.2 h2)

theorem linesHeight_clear (full T) (ss : List Span) (m : Nat) :
    linesHeight full T (ss.map clearSp) m = linesHeight full T ss m := by
  have ho : ∀ i, onLine (ss.map clearSp) i = (onLine ss i).map clearSp := by
    intro i; unfold onLine; rw [List.filter_map]; rfl
  have h1 : ∀ i, lineHeight T (ss.map clearSp) i = lineHeight T ss i := by
    intro i; unfold lineHeight; rw [ho, List.map_map]; rfl
  have h2 : ∀ i, fontLineSpacing T (ss.map clearSp) i = fontLineSpacing T ss i := by
    intro i; unfold fontLineSpacing; rw [ho, List.map_map]; rfl
  have h3 : ∀ i, tagLineSpacing (ss.map clearSp) (i + 1) = tagLineSpacing ss (i + 1) := by
    intro i
    unfold tagLineSpacing
    rw [ho, List.findSome?_map]
    have key : ∀ (l : List Span), (∀ s ∈ l, s.state.lineNumber = i + 1) →
        l.findSome? ((fun s => s.state.lineSpacing.map UInt8.toNat) ∘ clearSp) =
          l.findSome? fun s => s.state.lineSpacing.map UInt8.toNat := by
      intro l hl
      induction l with
      | nil => rfl
      | cons s l ih =>
        have := hl s (List.mem_cons_self ..)
        simp only [List.findSome?_cons, ih fun x hx => hl x (List.mem_cons_of_mem _ hx)]
        simp [clearSp, this]
    apply key
    intro s hs
    simpa using (List.mem_filter.1 hs).2
  induction m with
  | zero => exact h1 0
  | succ m ih => simp only [linesHeight, ih, h1, lineSpace, h2, h3]

theorem textsFit_clear (d : Dms) (rect : Rectangle) (spans : List Span) :
    TextsFit d rect (spans.map clearSp) ↔ TextsFit d rect spans := by
  unfold TextsFit
  simp only [List.forall_mem_map]
  apply forall_congr'; intro s
  apply forall_congr'; intro hs
  refine and_congr Iff.rfl (and_congr ?_ ?_)
  · unfold FitsWidth
    rw [sameLine_clear]
    exact exists_congr fun n => and_congr (lineWidth_clear _ none _ _) Iff.rfl
  · unfold FitsHeight
    rw [samePage_clear]
    exact exists_congr fun n => by rw [dense_clear, linesHeight_clear]

/-- the spacing before does not matter -/
theorem textsFit_spacing (d : Dms) (t sp sp' rect) (vs : List Value) :
    TextsFit d rect (layoutOf d t sp rect vs) ↔ TextsFit d rect (layoutOf d t sp' rect vs) := by
  rw [← textsFit_clear, ← textsFit_clear d rect (layoutOf d t sp' rect vs)]
  unfold layoutOf
  rw [List.map_map, List.map_map]
  have := pieces_clear d rect (signAttr d) vs t sp sp' 0 true (.inl rfl)
  exact iff_of_eq (congrArg _ this)

end Ntcip
