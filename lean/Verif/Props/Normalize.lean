import Verif.Lemmas.Normalize
import Verif.Spec.Effect
/-
C07 – C12: normalize and is_blank.
-/
namespace Ntcip
open Spec

/-! ### the state of `normalize` and the attributes in effect -/

theorem lastOf_nil {α : Type} (f : Value → Option (Option α)) : lastOf f [] = none := rfl
theorem lastOf_snoc {α : Type} (f : Value → Option (Option α)) (p : List Value) (v : Value) :
    lastOf f (p ++ [v]) = (f v).getD (lastOf f p) := by
  simp only [lastOf, List.reverse_append, List.reverse_cons, List.reverse_nil, List.nil_append,
    List.singleton_append, List.findSome?_cons]
  cases f v <;> simp

/-- the state holds the attributes after `p` -/
def Holds (st : NormState) (p : List Value) : Prop :=
  st.cf = colorOf p ∧ st.fo = fontOf p ∧ st.jl = lineJustOf p ∧ st.jp = pageJustOf p

theorem holds_init : Holds .init [] := ⟨rfl, rfl, rfl, rfl⟩

theorem holds_update {st : NormState} {p : List Value} (h : Holds st p) (v : Value) :
    Holds (st.update v).2 (p ++ [v]) ∧ ((st.update v).1 = true ↔ Redundant p v) := by
  obtain ⟨h1, h2, h3, h4⟩ := h
  unfold Holds colorOf fontOf lineJustOf pageJustOf at *
  simp only [lastOf_snoc]
  cases v <;>
    simp [NormState.update, Redundant, h1, h2, h3, h4, colorOf, fontOf, lineJustOf, pageJustOf]

theorem holds_dropped {st : NormState} {p : List Value} (h : Holds st p) {v : Value}
    (hv : (st.update v).1 = true) : Holds (st.update v).2 p := by
  obtain ⟨h1, h2, h3, h4⟩ := h
  cases v <;> simp [NormState.update] at hv <;>
    simp [NormState.update, Holds, h1, h2, h3, h4, hv]

/-- nothing to drop -/
def NoRed (p : List Value) : List Value → Prop
  | [] => True
  | v :: vs => ¬ Redundant p v ∧ NoRed (p ++ [v]) vs

theorem redundant_congr {p q : List Value} (h : attrsOf p = attrsOf q) (v : Value) :
    Redundant p v ↔ Redundant q v := by
  simp only [attrsOf, Attrs.mk.injEq] at h
  obtain ⟨h1, h2, h3, h4⟩ := h
  cases v <;> simp [Redundant, h1, h2, h3, h4]

theorem attrs_snoc_congr {p q : List Value} (h : attrsOf p = attrsOf q) (v : Value) :
    attrsOf (p ++ [v]) = attrsOf (q ++ [v]) := by
  simp only [attrsOf, Attrs.mk.injEq] at h ⊢
  unfold colorOf fontOf lineJustOf pageJustOf at *
  simp only [lastOf_snoc]
  obtain ⟨h1, h2, h3, h4⟩ := h
  simp [h1, h2, h3, h4]

theorem noRed_congr {p q : List Value} (h : attrsOf p = attrsOf q) (vs : List Value) :
    NoRed p vs ↔ NoRed q vs := by
  induction vs generalizing p q with
  | nil => simp [NoRed]
  | cons v vs ih => simp only [NoRed, redundant_congr h, ih (attrs_snoc_congr h v)]

theorem trace_congr {hex : Bool} {p q : List Value} (h : attrsOf p = attrsOf q) (vs : List Value) :
    trace hex p vs = trace hex q vs := by
  induction vs generalizing p q with
  | nil => simp [trace]
  | cons v vs ih => simp only [trace, h, ih (attrs_snoc_congr h v)]

/-- not a state tag -/
theorem attrs_other {p : List Value} {v : Value} (h : ∀ q, ¬ Redundant (q ++ [v]) v) :
    attrsOf (p ++ [v]) = attrsOf p := by
  simp only [attrsOf, Attrs.mk.injEq]
  unfold Redundant colorOf fontOf lineJustOf pageJustOf at *
  simp only [lastOf_snoc] at *
  cases v <;> simp at h ⊢

theorem attrs_text (p : List Value) (t : Str) : attrsOf (p ++ [.text t]) = attrsOf p :=
  attrs_other fun _ => by simp [Redundant]
theorem attrs_hex (p : List Value) (c : UInt16) : attrsOf (p ++ [.hexadecimalCharacter c]) = attrsOf p :=
  attrs_other fun _ => by simp [Redundant]

theorem attrs_redundant {p : List Value} {v : Value} (h : Redundant p v) :
    attrsOf (p ++ [v]) = attrsOf p := by
  simp only [attrsOf, Attrs.mk.injEq]
  unfold Redundant colorOf fontOf lineJustOf pageJustOf at *
  simp only [lastOf_snoc]
  cases v <;> simp at h ⊢ <;> exact h

/-- what `dedup` does -/
theorem dedup_spec {st : NormState} {p : List Value} (h : Holds st p) (hex : Bool) (vs : List Value) :
    NoRed p (dedup st vs) ∧ trace hex p (dedup st vs) = trace hex p vs := by
  induction vs generalizing st p with
  | nil => simp [dedup, NoRed]
  | cons v vs ih =>
    obtain ⟨h1, h2⟩ := holds_update h v
    simp only [dedup]
    split
    · rename_i hs
      obtain ⟨i1, i2⟩ := ih (holds_dropped h hs)
      refine ⟨i1, ?_⟩
      rw [i2, trace]
      have hr := h2.1 hs
      have ha : atoms hex v = [] := by cases v <;> simp [Redundant] at hr <;> rfl
      rw [ha, trace_congr (attrs_redundant hr)]; rfl
    · rename_i hs
      obtain ⟨i1, i2⟩ := ih h1
      exact ⟨⟨fun hr => hs (h2.2 hr), i1⟩, by simp only [trace, i2]⟩

theorem noRed_append {p a b : List Value} : NoRed p (a ++ b) ↔ NoRed p a ∧ NoRed (p ++ a) b := by
  induction a generalizing p with
  | nil => simp [NoRed]
  | cons v a ih => simp only [List.cons_append, NoRed, ih, List.append_assoc, and_assoc]; rfl

theorem trace_append (hex : Bool) (p a b : List Value) :
    trace hex p (a ++ b) = trace hex p a ++ trace hex (p ++ a) b := by
  induction a generalizing p with
  | nil => simp [trace]
  | cons v a ih => simp [trace, ih]

theorem mergeT_spec (hex : Bool) (p vs : List Value) (h : NoRed p vs) :
    NoRed p (mergeT vs) ∧ trace hex p (mergeT vs) = trace hex p vs := by
  induction vs generalizing p with
  | nil => simp [mergeT, NoRed]
  | cons v vs ih =>
    obtain ⟨h1, h2⟩ := h
    obtain ⟨i1, i2⟩ := ih (p ++ [v]) h2
    simp only [mergeT, trace]
    rw [← i2]
    rcases joinSpan_cases v (mergeT vs) with ⟨a, b, r', rfl, hr, ha, hb, hj⟩ | ⟨hj, -⟩
    · rw [hj, hr]
      rw [hr] at i1
      simp only [NoRed, Redundant, not_false_eq_true, true_and, trace, atoms, List.map_append] at i1 ⊢
      have e : attrsOf (p ++ [Value.text a] ++ [Value.text b]) = attrsOf (p ++ [Value.text (a ++ b)]) := by
        rw [attrs_text, attrs_text, attrs_text]
      rw [noRed_congr e] at i1
      rw [trace_congr e, attrs_text p a]
      exact ⟨i1, by simp⟩
    · rw [hj]; exact ⟨⟨h1, i1⟩, rfl⟩

/-- reading the canonical text of the value -/
def reread (v : Value) : Option Value := validOf v.display

theorem reread_cases (v : Value) (hv : InRange v) :
    reread v = some v ∨ ∃ c, v = .hexadecimalCharacter c ∧ 10 ≤ c.toNat ∧
      ((∃ c', reread v = some (.hexadecimalCharacter c')) ∨ reread v = none) := by
  rcases display_tryFrom v hv with h | ⟨c, h1, h2, ⟨c', h3⟩ | ⟨-, e, h3⟩⟩
  · exact .inl (validOf_eq_some.2 h)
  · exact .inr ⟨c, h1, h2, .inl ⟨c', validOf_eq_some.2 h3⟩⟩
  · refine .inr ⟨c, h1, h2, .inr ?_⟩
    simp [reread, validOf, h3]

theorem reread_spec (p vs : List Value) (hv : ∀ v ∈ vs, InRange v) :
    (NoRed p vs → NoRed p (vs.filterMap reread)) ∧
    trace false p (vs.filterMap reread) = trace false p vs := by
  induction vs generalizing p with
  | nil => simp
  | cons v vs ih =>
    have ih := fun p => ih p fun w hw => hv w (by simp [hw])
    rcases reread_cases v (hv v (by simp)) with h | ⟨c, rfl, -, ⟨c', h⟩ | h⟩
    · rw [List.filterMap_cons_some h]
      simp only [trace, NoRed, ih]
      exact ⟨fun h => ⟨h.1, (ih _).1 h.2⟩, trivial⟩
    · rw [List.filterMap_cons_some h]
      simp only [trace, NoRed, atoms]
      rw [trace_congr (attrs_hex p c'), (ih p).2, trace_congr (attrs_hex p c)]
      simp only [Redundant, not_false_eq_true, true_and, noRed_congr (attrs_hex p c'),
        noRed_congr (attrs_hex p c)]
      exact ⟨(ih p).1, rfl⟩
    · rw [List.filterMap_cons_none h]
      simp only [trace, NoRed, atoms]
      rw [(ih p).2, trace_congr (attrs_hex p c)]
      simp only [Redundant, not_false_eq_true, true_and, noRed_congr (attrs_hex p c)]
      exact ⟨(ih p).1, rfl⟩

theorem slices_normalize {ms n : Str} (h : normalize ms = .ok n) :
    slices n = (mergeT (kept ms)).map Value.display := by
  rw [normalize_eq h, slices_display (kept_inRange ms)]

theorem valid_normalize {ms n : Str} (h : normalize ms = .ok n) :
    validValues n = (mergeT (kept ms)).filterMap reread := by
  unfold validValues
  rw [slices_normalize h, List.filterMap_map]; rfl

theorem reread_faithful {vs : List Value} (hv : ∀ v ∈ vs, Faithful v) : vs.filterMap reread = vs := by
  induction vs with
  | nil => rfl
  | cons v vs ih =>
    have h : reread v = some v := validOf_eq_some.2 (display_parse v (hv v (by simp))).2
    rw [List.filterMap_cons_some h, ih fun w hw => hv w (by simp [hw])]

/-- the string has no hexadecimal character with two or more decimal digits -/
def Spec.SmallHex (ms : Str) : Prop :=
  ∀ c, .ok (.ok (.hexadecimalCharacter c)) ∈ values ms → c.toNat < 10

theorem mem_validValues {ms : Str} {v : Value} : v ∈ validValues ms ↔ .ok (.ok v) ∈ values ms := by
  simp [validValues, values, validOf_eq_some]

theorem hex_mem_mergeT {c : UInt16} {vs : List Value} (hm : Value.hexadecimalCharacter c ∈ mergeT vs) :
    .hexadecimalCharacter c ∈ vs := by
  induction vs with
  | nil => simp [mergeT] at hm
  | cons w vs ih =>
    rw [mergeT] at hm
    rcases joinSpan_cases w (mergeT vs) with ⟨a, b, r', rfl, hr, ha, hb, hj⟩ | ⟨hj, -⟩
    · rw [hj] at hm
      simp at hm
      have := ih (by rw [hr]; simp [hm])
      simp [this]
    · rw [hj] at hm
      rcases List.mem_cons.1 hm with h | h
      · simp [h]
      · simp [ih h]

theorem faithful_mergeT {vs : List Value} (hv : ∀ v ∈ vs, Faithful v) : ∀ v ∈ mergeT vs, Faithful v := by
  intro v hm
  refine ⟨mergeT_inRange (fun v h => (hv v h).1) v hm, ?_⟩
  rintro c rfl
  exact (hv _ (hex_mem_mergeT hm)).2 c rfl

theorem kept_faithful {ms : Str} (hs : SmallHex ms) : ∀ v ∈ kept ms, Faithful v := by
  intro v hv
  refine ⟨kept_inRange ms v hv, ?_⟩
  rintro c rfl
  exact hs c (mem_validValues.1 ((kept_sublist ms).subset hv))

theorem valid_normalize_small {ms n : Str} (h : normalize ms = .ok n) (hs : SmallHex ms) :
    validValues n = mergeT (kept ms) := by
  rw [valid_normalize h, reread_faithful (faithful_mergeT (kept_faithful hs))]

theorem dedup_of_noRed {st : NormState} {p vs : List Value} (h : Holds st p) (hn : NoRed p vs) :
    dedup st vs = vs := by
  induction vs generalizing st p with
  | nil => rfl
  | cons v vs ih =>
    obtain ⟨h1, h2⟩ := holds_update h v
    have : (st.update v).1 = false := by
      have := mt h2.1 hn.1; simpa using this
    simp [dedup, this, ih h1 hn.2]

theorem kept_noRed (ms : Str) : NoRed [] (kept ms) := by
  obtain ⟨b, h, -⟩ := trimB_spec (dedup .init (validValues ms))
  have := (dedup_spec holds_init true (validValues ms)).1
  rw [h, noRed_append] at this
  exact this.1

theorem kept_last (ms : Str) : ∀ v, (kept ms).getLast? = some v → v.isBlank = false := by
  obtain ⟨b, h, h1, h2⟩ := trimB_spec (dedup .init (validValues ms))
  exact h2

theorem mergeT_last (vs : List Value) (h : ∀ v, vs.getLast? = some v → v.isBlank = false) :
    ∀ v, (mergeT vs).getLast? = some v → v.isBlank = false := by
  induction vs with
  | nil => simp [mergeT]
  | cons v vs ih =>
    intro w hw
    have hv : vs ≠ [] → ∀ v, vs.getLast? = some v → v.isBlank = false := by
      intro hne u hu
      apply h u
      cases vs with
      | nil => simp at hne
      | cons x xs => rw [List.getLast?_cons_cons]; exact hu
    rw [mergeT] at hw
    rcases joinSpan_cases v (mergeT vs) with ⟨a, b, r', rfl, hr, ha, hb, hj⟩ | ⟨hj, -⟩
    · have hne : vs ≠ [] := by rintro rfl; simp [mergeT] at hr
      have ih := ih (hv hne)
      rw [hj] at hw
      rw [hr] at ih
      cases r' with
      | nil =>
        simp at hw; subst hw
        have := ih (.text b) (by simp)
        simp only [Value.isBlank] at this ⊢
        rw [List.all_append, this, Bool.and_false]
      | cons x xs =>
        rw [List.getLast?_cons_cons] at hw
        exact ih w (by rw [List.getLast?_cons_cons]; exact hw)
    · rw [hj] at hw
      cases hm : mergeT vs with
      | nil =>
        rw [hm] at hw; simp at hw; subst hw
        cases vs with
        | nil => exact h v (by simp)
        | cons x xs =>
          obtain ⟨y, ys, hy, -⟩ := joinSpan_isSpan x (mergeT xs)
          rw [mergeT, hy] at hm; simp at hm
      | cons x xs =>
        have hne : vs ≠ [] := by rintro rfl; simp [mergeT] at hm
        have ih := ih (hv hne)
        rw [hm] at ih hw
        rw [List.getLast?_cons_cons] at hw
        exact ih w hw

/-- every item of the output of `normalize` is parsed without panic -/
theorem normalize_items {ms n : Str} (h : normalize ms = .ok n) :
    ∀ t ∈ slices n, ∃ v, InRange v ∧ v ∈ mergeT (kept ms) ∧ t = v.display := by
  intro t ht
  rw [slices_normalize h] at ht
  obtain ⟨v, hv, rfl⟩ := List.mem_map.1 ht
  exact ⟨v, mergeT_inRange (kept_inRange ms) v hv, hv, rfl⟩

theorem normalize_no_panic {ms n : Str} (h : normalize ms = .ok n) : ¬ HasPanicTag n := by
  rw [hasPanicTag_iff]
  rintro ⟨t, ht, p, hp⟩
  obtain ⟨v, hv, -, rfl⟩ := normalize_items h t ht
  rcases display_tryFrom v hv with h | ⟨c, -, -, ⟨c', h⟩ | ⟨-, e, h⟩⟩ <;> simp [h] at hp

/-! ### C07 -/

/-- **C07 (strings without a hexadecimal character of two or more decimal digits)** normalizing
again changes nothing.
Missing for the full claim: false with `[hc10]` and up, see `C07_false`. -/
theorem C07_idempotent_partial (ms n : Str) (h : normalize ms = .ok n) (hs : SmallHex ms) :
    normalize n = .ok n := by
  obtain ⟨⟨n', hn'⟩, -⟩ := C03_no_panic_partial n [] (normalize_no_panic h)
  rw [hn']
  congr 1
  rw [normalize_eq hn', kept, valid_normalize_small h hs]
  rw [dedup_of_noRed holds_init (mergeT_spec true [] _ (kept_noRed ms)).1,
    trimB_of_last (mergeT_last _ (kept_last ms)), mergeT_display, ← normalize_eq h]

/-- **C07 is false** for hexadecimal characters: each pass rewrites the number. -/
theorem C07_false : normalize c!"[hc41]" = .ok c!"[hc65]" ∧ normalize c!"[hc65]" = .ok c!"[hc101]" ∧
    normalize c!"[hcFFFF]" = .ok c!"[hc65535]" ∧ normalize c!"[hc65535]" = .ok [] := by decide +kernel

-- a string with several things to clean up
example : normalize c!"[FO][fo3]A[fo3]B[bad][CF1,2,3] [nl][x" = .ok c!"[fo3]AB" ∧
    normalize c!"[fo3]AB" = .ok c!"[fo3]AB" := by decide +kernel

/-! ### C08 -/

/-- **C08 (strings without a hexadecimal character above 9999)** every item of the output is valid.
Missing for the full claim: false above, see `C08_false`. -/
theorem C08_well_formed_partial (ms n : Str) (h : normalize ms = .ok n)
    (hs : ∀ c, .ok (.ok (.hexadecimalCharacter c)) ∈ values ms → c.toNat < 10000) :
    ∀ x ∈ values n, ∃ v, x = .ok (.ok v) := by
  intro x hx
  simp only [values, List.mem_map] at hx
  obtain ⟨t, ht, rfl⟩ := hx
  obtain ⟨v, hv, hm, rfl⟩ := normalize_items h t ht
  rcases display_tryFrom v hv with h | ⟨c, rfl, -, ⟨c', h⟩ | ⟨h4, e, h⟩⟩
  · exact ⟨v, h⟩
  · exact ⟨_, h⟩
  · exfalso
    have := hs c (mem_validValues.1 ((kept_sublist ms).subset (hex_mem_mergeT hm)))
    omega

/-- **C08 is false**: the output of `normalize` can contain an invalid tag. -/
theorem C08_false : normalize c!"[hcFFFF]" = .ok c!"[hc65535]" ∧
    values c!"[hc65535]" = [.ok (.error (.unsupportedTagValue c!"hc65535"))] := by decide +kernel

example : values c!"[bad]A€[x][fo2]B" ≠ [] ∧ normalize c!"[bad]A€[x][fo2]B" = .ok c!"[fo2]B" ∧
    values c!"[fo2]B" = [.ok (.ok (.font (some (2, none)))), .ok (.ok (.text c!"B"))] := by decide +kernel

/-! ### C10: the trace -/

theorem isWhitespace_iff (c : Char) (h : c.toNat ≤ 0xFF) : isWhitespace c = true ↔ IsSpace c := by
  simp only [isWhitespace, IsSpace, Bool.or_eq_true, Bool.and_eq_true, decide_eq_true_eq, beq_iff_eq]
  omega

theorem isBlank_iff (v : Value) (hv : InRange v) : v.isBlank = true ↔ ¬ Visible v := by
  cases v <;> simp only [Value.isBlank, Visible, not_true_eq_false, not_false_eq_true, Bool.false_eq_true]
  case text t =>
    simp only [List.all_eq_true, not_exists, not_and, Classical.not_not]
    have hb : ∀ c ∈ t, c.toNat ≤ 0xFF := by
      rcases hv with rfl | rfl | h
      · simp
      · simp
      · exact fun c hc => (h.2.2 c hc).2
    constructor
    · intro h c hc; exact (isWhitespace_iff c (hb c hc)).1 (h c hc)
    · intro h c hc; exact (isWhitespace_iff c (hb c hc)).2 (h c hc)

theorem trace_blank (hex : Bool) (p vs : List Value) (h : ∀ v ∈ vs, ¬ Visible v) :
    ∀ x ∈ trace hex p vs, x.1.Blank := by
  induction vs generalizing p with
  | nil => simp [trace]
  | cons v vs ih =>
    intro x hx
    rw [trace] at hx
    rcases List.mem_append.1 hx with hx | hx
    · obtain ⟨a, ha, rfl⟩ := List.mem_map.1 hx
      have hv := h v (by simp)
      cases v <;> simp only [atoms, List.mem_map, List.mem_singleton, List.not_mem_nil, Visible] at ha hv
      all_goals first
        | (subst ha; simp [Atom.Blank, Visible]; done)
        | exact absurd trivial hv
        | skip
      case text t =>
        obtain ⟨c, hc, rfl⟩ := ha
        simp only [Atom.Blank]
        apply Classical.byContradiction
        intro hn; exact hv ⟨c, hc, hn⟩
    · exact ih _ (fun w hw => h w (by simp [hw])) x hx

/-- the trace of the kept values -/
theorem kept_trace (hex : Bool) (ms : Str) :
    ∃ w, trace hex [] (validValues ms) = trace hex [] (mergeT (kept ms)) ++ w ∧ ∀ x ∈ w, x.1.Blank := by
  obtain ⟨b, h, h1, h2⟩ := trimB_spec (dedup .init (validValues ms))
  have hd := (dedup_spec holds_init hex (validValues ms)).2
  have hk : dedup .init (validValues ms) = kept ms ++ b := h
  rw [hk, trace_append] at hd
  refine ⟨trace hex ([] ++ kept ms) b, ?_, ?_⟩
  · rw [(mergeT_spec hex [] _ (kept_noRed ms)).2, hd]
  · apply trace_blank
    intro v hv
    have hm : v ∈ validValues ms := by
      have : v ∈ dedup .init (validValues ms) := by rw [h]; simp [hv]
      exact (dedup_sublist _ _).subset this
    exact (isBlank_iff v (validValues_inRange ms v hm)).1 (h1 v hv)

/-- **C10** after `normalize`, no `[cf]`, `[fo]`, `[jl]`, `[jp]` tag repeats what is in effect; -/
theorem C10_no_redundant (ms n : Str) (h : normalize ms = .ok n) (a : List Value) (v : Value)
    (b : List Value) (hn : validValues n = a ++ v :: b) : ¬ Redundant a v := by
  have h1 := (mergeT_spec true [] _ (kept_noRed ms)).1
  have h2 := (reread_spec [] _ (mergeT_inRange (kept_inRange ms))).1 h1
  rw [← valid_normalize h, hn, noRed_append] at h2
  exact h2.2.1

/-- **C10** and no tag that mattered was removed: every character and tag (hexadecimal characters
aside) has the same color, font and justification as before, up to things at the end that cannot be
seen. -/
theorem C10_effect (ms n : Str) (h : normalize ms = .ok n) :
    ∃ w, trace false [] (validValues ms) = trace false [] (validValues n) ++ w ∧
      ∀ x ∈ w, x.1.Blank := by
  obtain ⟨w, h1, h2⟩ := kept_trace false ms
  refine ⟨w, ?_, h2⟩
  rw [valid_normalize h, (reread_spec [] _ (mergeT_inRange (kept_inRange ms))).2, h1]

/-- **C10** the same, hexadecimal characters included, if these are below 10 (see C06). -/
theorem C10_effect_hex_partial (ms n : Str) (h : normalize ms = .ok n) (hs : SmallHex ms) :
    ∃ w, trace true [] (validValues ms) = trace true [] (validValues n) ++ w ∧
      ∀ x ∈ w, x.1.Blank := by
  obtain ⟨w, h1, h2⟩ := kept_trace true ms
  exact ⟨w, by rw [valid_normalize_small h hs, h1], h2⟩

example : normalize c!"[jl2]A[jl2]B[jl3][jl2]C[fo]" = .ok c!"[jl2]AB[jl3][jl2]C" := by decide +kernel

/-! ### C09 -/

/-- the characters of a trace -/
def Spec.charsOf (l : List (Atom × Attrs)) : List Char :=
  l.filterMap fun x => match x.1 with | .char c => some c | .tag _ => none

def textOf : Value → Str
  | .text t => t
  | _ => []

theorem charsOf_trace (hex : Bool) (p vs : List Value) : charsOf (trace hex p vs) = vs.flatMap textOf := by
  induction vs generalizing p with
  | nil => rfl
  | cons v vs ih =>
    rw [trace, charsOf, List.filterMap_append, List.flatMap_cons]
    rw [show List.filterMap _ (trace hex (p ++ [v]) vs) = charsOf (trace hex (p ++ [v]) vs) from rfl, ih]
    congr 1
    cases v <;> simp only [atoms, textOf, List.map_nil, List.filterMap_nil, List.map_cons, List.filterMap_cons]
    case text t => simp [List.filterMap_map, Function.comp_def]
    case hexadecimalCharacter c => cases hex <;> simp

theorem textSpansLoop_ok {l : List Str} {ts : List Str} (h : textSpansLoop l = .ok ts) :
    ts.flatten = (l.filterMap validOf).flatMap textOf := by
  induction l generalizing ts with
  | nil => simp [textSpansLoop] at h; simp [h]
  | cons s l ih =>
    simp only [textSpansLoop] at h
    split at h
    · simp at h
    · rename_i t ht
      have : validOf s = some (.text t) := by simp [validOf, ht]
      rw [List.filterMap_cons_some this]
      cases hl : textSpansLoop l with
      | panic p => rw [hl] at h; simp at h
      | ok ts' =>
        rw [hl] at h; simp at h; subst h
        simp [ih hl, textOf]
    · rename_i x hx ht
      cases x with
      | error e =>
        have : validOf s = none := by simp [validOf, ht]
        rw [List.filterMap_cons_none this]; exact ih h
      | ok v =>
        have : validOf s = some v := by simp [validOf, ht]
        rw [List.filterMap_cons_some this, ih h]
        cases v <;> simp [textOf]
        case text t => exact absurd rfl (hx t)

theorem joinStr_nil (ts : List Str) : joinStr [] ts = ts.flatten := by
  induction ts with
  | nil => rfl
  | cons a ts ih => cases ts <;> simp_all [joinStr]

theorem joinText_ok {ms T : Str} (h : joinText ms [] = .ok T) : T = (validValues ms).flatMap textOf := by
  unfold joinText textSpans at h
  cases hl : textSpansLoop (slices ms) with
  | panic p => rw [hl] at h; simp at h
  | ok ts =>
    rw [hl] at h; simp at h
    rw [← h, joinStr_nil, textSpansLoop_ok hl]; rfl

/-- **C09** the text of the normalized string is the text of the string without some white space
at its end. -/
theorem C09_text_kept (ms n : Str) (h : normalize ms = .ok n) :
    ∃ T T' w, joinText ms [] = .ok T ∧ joinText n [] = .ok T' ∧ T = T' ++ w ∧ ∀ c ∈ w, IsSpace c := by
  have hp : ¬ HasPanicTag ms := by
    intro hp
    obtain ⟨p, hp⟩ := (C03_panics_iff ms []).1.2 hp
    rw [hp] at h; cases h
  obtain ⟨-, -, -, T, hT⟩ := C03_no_panic_partial ms [] hp
  obtain ⟨-, -, -, T', hT'⟩ := C03_no_panic_partial n [] (normalize_no_panic h)
  obtain ⟨w, h1, h2⟩ := C10_effect ms n h
  refine ⟨T, T', charsOf w, hT, hT', ?_, ?_⟩
  · have := congrArg charsOf h1
    rw [charsOf, charsOf, List.filterMap_append] at this
    rw [joinText_ok hT, joinText_ok hT', ← charsOf_trace false [] (validValues ms),
      ← charsOf_trace false [] (validValues n)]
    exact this
  · intro c hc
    obtain ⟨x, hx, hxc⟩ := List.mem_filterMap.1 hc
    have := h2 x hx
    revert hxc this
    cases x.1 with
    | char d => intro hxc this; simp at hxc; subst hxc; exact this
    | tag v => simp

example : normalize c!"A [fo]B[nl]  [x" = .ok c!"A B" ∧ joinText c!"A [fo]B[nl]  [x" [] = .ok c!"A B  " := by
  decide +kernel

/-- joined with another separator the text does change: a dropped tag no longer separates -/
theorem C09_separator_false : normalize c!"A[fo]B" = .ok c!"AB" ∧ joinText c!"A[fo]B" c!" " = .ok c!"A B" ∧
    joinText c!"AB" c!" " = .ok c!"AB" := by decide +kernel

/-! ### C11 -/

theorem redundant_not_visible {p : List Value} {v : Value} (h : Redundant p v) : ¬ Visible v := by
  cases v <;> simp [Redundant] at h <;> simp [Visible]

theorem dedup_blank {st : NormState} {p : List Value} (h : Holds st p) (vs : List Value) :
    (∀ v ∈ dedup st vs, ¬ Visible v) ↔ ∀ v ∈ vs, ¬ Visible v := by
  induction vs generalizing st p with
  | nil => simp [dedup]
  | cons v vs ih =>
    obtain ⟨h1, h2⟩ := holds_update h v
    simp only [dedup]
    split
    · rename_i hs
      rw [ih h1]
      have := redundant_not_visible (h2.1 hs)
      simp only [List.mem_cons, forall_eq_or_imp, this, not_false_eq_true, true_and]
    · simp only [List.mem_cons, forall_eq_or_imp, ih h1]

/-- **C11** the output is empty exactly when no valid item is visible; -/
theorem C11_empty_iff (ms n : Str) (h : normalize ms = .ok n) :
    n = [] ↔ ∀ v, .ok (.ok v) ∈ values ms → ¬ Visible v := by
  have e1 : n = [] ↔ kept ms = [] := by
    rw [normalize_eq h]
    constructor
    · intro h'
      cases hk : kept ms with
      | nil => rfl
      | cons v vs =>
        rw [hk] at h'
        simp at h'
        exact absurd h'.1 (display_ne_nil v (kept_inRange ms v (by rw [hk]; simp)))
    · intro h'; rw [h']; rfl
  rw [e1, kept, trimB_eq_nil]
  have e2 : (∀ v ∈ dedup .init (validValues ms), v.isBlank = true) ↔
      ∀ v ∈ dedup .init (validValues ms), ¬ Visible v := by
    have : ∀ v ∈ dedup .init (validValues ms), (v.isBlank = true ↔ ¬ Visible v) := fun v hv =>
      isBlank_iff v (validValues_inRange ms v ((dedup_sublist _ _).subset hv))
    exact ⟨fun h v hv => (this v hv).1 (h v hv), fun h v hv => (this v hv).2 (h v hv)⟩
  rw [e2, dedup_blank holds_init]
  simp only [mem_validValues]

/-- **C11** its last item is visible; -/
theorem C11_last_visible (ms n t : Str) (v : Value) (h : normalize ms = .ok n)
    (ht : (slices n).getLast? = some t) (hv : tryFrom t = .ok (.ok v)) : Visible v := by
  rw [slices_normalize h, List.getLast?_map] at ht
  obtain ⟨w, hw, rfl⟩ := Option.map_eq_some_iff.1 ht
  have hb := mergeT_last _ (kept_last ms) w hw
  have hr := mergeT_inRange (kept_inRange ms) w (List.mem_of_getLast? hw)
  rcases display_tryFrom w hr with h' | ⟨c, rfl, -, ⟨c', h'⟩ | ⟨-, e, h'⟩⟩
  · have hvis : Visible w := Classical.byContradiction fun hn => by
      have := (isBlank_iff w hr).2 hn
      simp [hb] at this
    rw [h'] at hv; cases hv; exact hvis
  · rw [h'] at hv; cases hv; trivial
  · rw [h'] at hv; cases hv

/-- visible tags -/
def Spec.visibleTag (hex : Bool) : Value → Bool
  | .graphic _ _ | .colorRectangle _ _ | .field _ _
  | .manufacturerSpecific _ _ | .manufacturerSpecificEnd _ _ | .movingText _ _ _ _ _ _ => true
  | .hexadecimalCharacter _ => hex
  | _ => false

def tagsOf (hex : Bool) (l : List (Atom × Attrs)) : List Value :=
  l.filterMap fun x => match x.1 with
    | .char _ => none
    | .tag v => if visibleTag hex v then some v else none

theorem tagsOf_trace (hex : Bool) (p vs : List Value) :
    tagsOf hex (trace hex p vs) = vs.filter (visibleTag hex) := by
  induction vs generalizing p with
  | nil => rfl
  | cons v vs ih =>
    rw [trace, tagsOf, List.filterMap_append]
    rw [show List.filterMap _ (trace hex (p ++ [v]) vs) = tagsOf hex (trace hex (p ++ [v]) vs) from rfl, ih]
    rw [List.filter_cons]
    cases v <;> simp [atoms, visibleTag, List.filterMap_map, Function.comp_def]
    case hexadecimalCharacter c => cases hex <;> simp [visibleTag]

theorem tagsOf_blank {hex : Bool} {l : List (Atom × Attrs)} (h : ∀ x ∈ l, x.1.Blank) : tagsOf hex l = [] := by
  simp only [tagsOf, List.filterMap_eq_nil_iff]
  intro x hx
  have := h x hx
  revert this
  cases x.1 with
  | char c => simp
  | tag v =>
    intro hb
    simp only [Atom.Blank] at hb
    cases v <;> simp [Visible] at hb <;> simp [visibleTag]

/-- **C11** every visible tag (hexadecimal characters aside) is kept, in order; visible text is kept
by C09, and both together by C10. -/
theorem C11_kept (ms n : Str) (h : normalize ms = .ok n) :
    (validValues n).filter (visibleTag false) = (validValues ms).filter (visibleTag false) := by
  obtain ⟨w, h1, h2⟩ := C10_effect ms n h
  have := congrArg (tagsOf false) h1
  rw [tagsOf_trace, tagsOf, List.filterMap_append] at this
  rw [this, ← tagsOf_trace false [] (validValues n)]
  rw [show List.filterMap _ w = tagsOf false w from rfl, tagsOf_blank h2, List.append_nil]; rfl

/-- **C11 (hexadecimal characters included, if below 10)**
Missing for the full claim: larger ones are changed or lost, see `C11_false`. -/
theorem C11_kept_hex_partial (ms n : Str) (h : normalize ms = .ok n) (hs : SmallHex ms) :
    (validValues n).filter (visibleTag true) = (validValues ms).filter (visibleTag true) := by
  obtain ⟨w, h1, h2⟩ := C10_effect_hex_partial ms n h hs
  have := congrArg (tagsOf true) h1
  rw [tagsOf_trace, tagsOf, List.filterMap_append] at this
  rw [this, ← tagsOf_trace true [] (validValues n)]
  rw [show List.filterMap _ w = tagsOf true w from rfl, tagsOf_blank h2, List.append_nil]; rfl

/-- **C11 is false** for hexadecimal characters: a visible, valid item is not kept. -/
theorem C11_false : validValues c!"[hcFFFF]A" = [.hexadecimalCharacter 0xFFFF, .text c!"A"] ∧
    (∃ n, normalize c!"[hcFFFF]A" = .ok n ∧ validValues n = [.text c!"A"]) :=
  ⟨by decide +kernel, c!"[hc65535]A", by decide +kernel, by decide +kernel⟩

example : normalize c!"[g1] [cr1,1,2,2,9][f1][nl] [pt5o5]" = .ok c!"[g1] [cr1,1,2,2,9][f1]" := by
  decide +kernel
example : normalize c!"[pt5o5][nl]   [bad]" = .ok [] := by decide +kernel

/-! ### C12 -/

theorem isBlankLoop_true (l : List Str) :
    isBlankLoop l = .ok true ↔ ∀ t ∈ l, ∃ v, tryFrom t = .ok (.ok v) ∧ v.isBlank = true := by
  induction l with
  | nil => simp [isBlankLoop]
  | cons s l ih =>
    simp only [isBlankLoop, List.mem_cons, forall_eq_or_imp]
    rw [← ih]
    cases tryFrom s with
    | panic p => simp
    | ok x =>
      cases x with
      | error e => simp
      | ok v => by_cases hb : v.isBlank = true <;> simp [hb]

/-- **C12** a string is blank exactly when every item is valid and not visible; -/
theorem C12_blank_iff (ms : Str) :
    isBlank ms = .ok true ↔ ∀ x ∈ values ms, ∃ v, x = .ok (.ok v) ∧ ¬ Visible v := by
  rw [isBlank, isBlankLoop_true]
  simp only [values, List.mem_map, forall_exists_index, and_imp, forall_apply_eq_imp_iff₂]
  constructor
  · intro h t ht
    obtain ⟨v, h1, h2⟩ := h t ht
    exact ⟨v, h1, (isBlank_iff v (C04_in_range t v (slices_items ms t ht) h1)).1 h2⟩
  · intro h t ht
    obtain ⟨v, h1, h2⟩ := h t ht
    exact ⟨v, h1, (isBlank_iff v (C04_in_range t v (slices_items ms t ht) h1)).2 h2⟩

/-- **C12** and then `normalize` gives the empty string. -/
theorem C12_normalize (ms : Str) (h : isBlank ms = .ok true) : normalize ms = .ok [] := by
  have hb := (C12_blank_iff ms).1 h
  have hp : ¬ HasPanicTag ms := by
    rw [hasPanicTag_iff]
    rintro ⟨t, ht, p, hp⟩
    obtain ⟨v, hv, -⟩ := hb (tryFrom t) (List.mem_map_of_mem ht)
    rw [hv] at hp; cases hp
  obtain ⟨⟨n, hn⟩, -⟩ := C03_no_panic_partial ms [] hp
  rw [hn, (C11_empty_iff ms n hn).2]
  intro v hv
  obtain ⟨w, hw, h2⟩ := hb _ hv
  cases hw; exact h2

example : isBlank c!"[jl2] [nl3] [pt5o0][/fl]" = .ok true ∧ isBlank c!" ." = .ok false ∧
    isBlank c!" [bad]" = .ok false ∧ isBlank c!"[hc20]" = .ok false := by decide +kernel

end Ntcip
