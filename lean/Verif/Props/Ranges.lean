import Verif.Lemmas.Items
import Verif.Spec.Values
/-
C04: parameters of accepted tags are in range.
-/
namespace Ntcip
open Spec

theorem u16_pos (v : UInt16) : v > 0 ↔ 1 ≤ v.toNat := by
  rw [gt_iff_lt, UInt16.lt_iff_toNat_lt]
  exact Iff.rfl

theorem parseU8_one_le {r : Str} {n : UInt8} (hl : blen r = 1) (h : parseU8 r = some n) :
    n.toNat ≤ 9 := by
  match r with
  | [] => simp [blen] at hl
  | [c] =>
    by_cases hp : c = '+'
    · subst hp; revert h; simp [show parseU8 c!"+" = none by decide]
    · rw [parseU8, parseUInt_digits _ _ _ (by simp) (by simpa using hp)] at h
      simp only [digitsVal, digitVal_ten] at h
      by_cases hd : Spec.IsDigit c
      · rw [if_pos hd] at h
        unfold Spec.IsDigit at hd
        simp [show c.toNat - 48 ≤ 255 by omega] at h
        subst h
        simp; omega
      · rw [if_neg hd] at h; simp at h
  | c :: d :: r =>
    have h1 := utf8Size_pos c
    have h2 := utf8Size_pos d
    simp [blen] at hl; omega

theorem parseRectangle_origin {v rest : List Str} {r : Rectangle}
    (h : parseRectangle v = (some r, rest)) : OriginOk r := by
  unfold parseRectangle at h
  split at h
  · split at h
    · split at h
      · rename_i hp
        simp at h
        rw [← h.1]
        exact ⟨(u16_pos _).1 hp.1, (u16_pos _).1 hp.2⟩
      · simp at h
    · simp at h
  · simp at h

theorem parseNonzero_pos {v rest : List Str} {n : UInt8} (h : parseNonzero v = (some n, rest)) :
    1 ≤ n.toNat := by
  unfold parseNonzero at h
  split at h
  · split at h
    · split at h
      · rename_i hp
        simp at h
        rw [← h.1]
        rw [ne_eq, ← UInt8.toNat_inj] at hp
        have : (0 : UInt8).toNat = 0 := rfl
        omega
      · simp at h
    · simp at h
  · simp at h

theorem parseOptional99_le {v rest : List Str} {o : Option UInt8}
    (h : parseOptional99 v = (some o, rest)) : AtMost 99 o := by
  unfold parseOptional99 at h
  intro x hx
  split at h
  · simp at h; rw [← h.1] at hx; simp at hx
  · split at h
    · simp at h; rw [← h.1] at hx; simp at hx
    · split at h
      · split at h
        · rename_i hp
          simp at h
          rw [← h.1] at hx; simp at hx; subst hx
          exact UInt8.le_iff_toNat_le.1 hp
        · simp at h
      · simp at h

theorem parsePoint_pos {v rest : List Str} {x y : UInt16}
    (h : parsePoint v = (some (some (x, y)), rest)) : 1 ≤ x.toNat ∧ 1 ≤ y.toNat := by
  unfold parsePoint parseXY at h
  split at h
  · split at h
    · rename_i hp
      split at hp
      · split at hp
        · rename_i h2
          simp at h hp
          rw [h.1] at hp
          simp at hp
          rw [← hp.1, ← hp.2]
          exact ⟨(u16_pos _).1 h2.1, (u16_pos _).1 h2.2⟩
        · simp at hp
      · simp at hp
    · simp at h
  · simp at h
  · simp at h

theorem parseFlashOn_range {r : Str} {v : Value} (h : parseFlashOn r = some v) : InRange v := by
  unfold parseFlashOn at h
  split at h
  rename_i t vs he
  split at h
  · simp at h
  · split at h
    rename_i o vs' he2
    split at h
    · simp at h
    · simp at h; subst h
      exact ⟨parseOptional99_le he, parseOptional99_le he2⟩

theorem parseFlashOff_range {r : Str} {v : Value} (h : parseFlashOff r = some v) : InRange v := by
  unfold parseFlashOff at h
  split at h
  rename_i t vs he
  split at h
  · simp at h
  · split at h
    rename_i o vs' he2
    split at h
    · simp at h
    · simp at h; subst h
      exact ⟨parseOptional99_le he, parseOptional99_le he2⟩

theorem plain_of_mem {s t : Str} (h : ∀ c ∈ t, c ∈ s) (hs : Plain s) : Plain t :=
  fun c hc => hs c (h c hc)

theorem parseIntU32_rest {v : List Str} : ∀ t ∈ (parseIntU32 v).2, t ∈ v := by
  cases v <;> simp [parseIntU32]; intro t h; exact .inr h
theorem parseIntU8_rest {v : List Str} : ∀ t ∈ (parseIntU8 v).2, t ∈ v := by
  cases v <;> simp [parseIntU8]; intro t h; exact .inr h
theorem parseIntU16_rest {v : List Str} : ∀ t ∈ (parseIntU16 v).2, t ∈ v := by
  cases v <;> simp [parseIntU16]; intro t h; exact .inr h

theorem parseMovingTextMode_range {r : Str} {m : MovingTextMode} {v : Value}
    (hm : ∀ d, m = .linear d → d.toNat ≤ 9) (hp : Plain r)
    (h : parseMovingTextMode r m = .ok (some v)) : InRange v := by
  unfold parseMovingTextMode at h
  split at h
  · simp only [Res.bind_eq_ok] at h
    obtain ⟨s, hs, h⟩ := h
    have hps : Plain s := by
      cases r with
      | nil => simp_all
      | cons c r =>
        by_cases hc : c.toNat < 128
        · rw [((slice_one c r).1 hc).1] at hs
          simp at hs; subst hs
          exact (plain_cons.1 hp).2
        · rw [((slice_one c r).2 hc).1] at hs; simp at hs
    split at h
    · rename_i hv
      simp at h; subst h
      refine ⟨hm, ?_⟩
      have h1 := List.mem_of_mem_head? hv
      have h2 := mem_splitN _ _ _ _ (parseIntU16_rest _ (parseIntU8_rest _ (parseIntU8_rest _ h1)))
      exact plain_of_mem h2 hps
    · simp at h
  · simp at h

theorem parseMovingTextLinear_range {r : Str} {v : Value} (hp : Plain r)
    (h : parseMovingTextLinear r = .ok (some v)) : InRange v := by
  unfold parseMovingTextLinear at h
  cases r with
  | nil => simp at h
  | cons c r =>
    by_cases hc : c.toNat < 128
    · obtain ⟨h1, h2⟩ := (slice_one c r).1 hc
      simp only [ne_eq, reduceCtorEq, not_false_eq_true, if_true, h1, h2, Res.ok_bind] at h
      split at h
      · rename_i i hi
        refine parseMovingTextMode_range ?_ (plain_cons.1 hp).2 h
        intro d hd; cases hd
        exact parseU8_one_le (by simp [blen, (utf8Size_ascii c).2 hc]) hi
      · refine parseMovingTextMode_range ?_ hp h
        intro d hd; cases hd; decide
    · obtain ⟨h1, h2⟩ := (slice_one c r).2 hc
      simp [h1] at h

theorem body_range (k : Kind) (r : Str) (v : Value) (hp : Plain r) (h : k.body r = .ok (some v)) :
    InRange v := by
  cases k <;> simp only [Kind.body, Res.ok.injEq] at h
  case nl =>
    split at h
    · cases h; simp [InRange, AtMost]
    · split at h
      · rename_i hl
        cases hr : parseU8 r with
        | none => simp [hr] at h
        | some n =>
          simp [hr] at h; subst h
          simp only [InRange, AtMost, Option.some.injEq]
          rintro x rfl; exact parseU8_one_le hl hr
      · simp at h
  case fo =>
    split at h
    · cases h; simp [InRange]
    · split at h
      · rename_i hn _
        simp at h; subst h
        simp only [InRange, Option.some.injEq, Prod.mk.injEq]
        rintro n _ ⟨rfl, rfl⟩
        exact parseNonzero_pos (Prod.ext hn rfl)
      · simp at h
  case cr =>
    split at h
    · rename_i hq _
      simp at h; subst h
      exact parseRectangle_origin (Prod.ext hq rfl)
    · simp at h
  case tr =>
    cases hq : (parseRectangle (splitN 4 isComma r)).1 with
    | none => simp [hq] at h
    | some q => simp [hq] at h; subst h; exact parseRectangle_origin (Prod.ext hq rfl)
  case cb =>
    split at h
    · cases h; simp [InRange]
    · cases hr : parseU8 r with
      | none => simp [hr] at h
      | some n => simp [hr] at h; subst h; simp [InRange]
  case sc =>
    split at h
    · split at h
      · rename_i hs
        simp at h; subst h
        rw [UInt8.lt_iff_toNat_lt] at hs
        have : (100 : UInt8).toNat = 100 := rfl
        simp only [InRange]; omega
      · simp at h
    · simp at h
  case fl =>
    split at h
    · cases h; simp [InRange, AtMost]
    · (repeat' split at h) <;> simp at h
      · exact parseFlashOn_range h
      · exact parseFlashOff_range h
  case mv =>
    split at h
    · simp at h
    · have hp' := (plain_cons.1 hp).2
      (repeat' split at h) <;> try simp at h
      · exact parseMovingTextMode_range (by simp) hp' h
      · exact parseMovingTextLinear_range hp' h
  case ms =>
    simp only [Option.map_eq_some_iff] at h
    obtain ⟨m, _, rfl⟩ := h
    intro t ht
    exact plain_of_mem (mem_splitN _ _ _ _ (parseIntU32_rest _ (List.mem_of_mem_head? ht))) hp
  case msEnd =>
    simp only [Option.map_eq_some_iff] at h
    obtain ⟨m, _, rfl⟩ := h
    intro t ht
    exact plain_of_mem (mem_splitN _ _ _ _ (parseIntU32_rest _ (List.mem_of_mem_head? ht))) hp
  case f =>
    split at h
    · split at h
      · rename_i hs
        simp at h; subst h
        rw [UInt8.lt_iff_toNat_lt] at hs
        exact hs
      · simp at h
    · simp at h
  case g =>
    split at h
    · rename_i hn hpt _
      simp at h; subst h
      refine ⟨parseNonzero_pos (Prod.ext hn rfl), ?_⟩
      rintro x y v ⟨⟩
      exact parsePoint_pos (Prod.ext hpt rfl)
    · rename_i hn _ _
      simp at h; subst h
      refine ⟨parseNonzero_pos (Prod.ext hn rfl), ?_⟩
      rintro x y v ⟨⟩
    · simp at h
  case np => split at h <;> simp at h; subst h; trivial
  case scEnd => split at h <;> simp at h; subst h; trivial
  case flEnd => split at h <;> simp at h; subst h; trivial
  case jl =>
    split at h
    · cases h; trivial
    · simp only [Option.map_eq_some_iff] at h; obtain ⟨_, _, rfl⟩ := h; trivial
  case jp =>
    split at h
    · cases h; trivial
    · simp only [Option.map_eq_some_iff] at h; obtain ⟨_, _, rfl⟩ := h; trivial
  case pb =>
    split at h
    · cases h; trivial
    · simp only [Option.map_eq_some_iff] at h; obtain ⟨_, _, rfl⟩ := h; trivial
  case cf =>
    split at h
    · cases h; trivial
    · simp only [Option.map_eq_some_iff] at h; obtain ⟨_, _, rfl⟩ := h; trivial
  case pt => split at h <;> simp at h; subst h; trivial
  case hc => simp only [Option.map_eq_some_iff] at h; obtain ⟨_, _, rfl⟩ := h; trivial

/-- **C04** every value accepted for an item of a MULTI string is in the documented ranges. -/
theorem C04_in_range (t : Str) (v : Value) (ht : Item t) (h : tryFrom t = .ok (.ok v)) :
    InRange v := by
  rcases tryFrom_ok ht h with ⟨_, rfl⟩ | ⟨_, rfl⟩ | ⟨rfl, hn, hp, hv⟩ | ⟨k, pre, r, _, _, _, hp, hb⟩
  · exact .inl rfl
  · exact .inr (.inl rfl)
  · refine .inr (.inr ⟨hn, hp, ?_⟩)
    intro c hc
    rw [List.any_eq_false] at hv
    have := hv c hc
    simp [validChar] at this
    omega
  · exact body_range k r v hp hb

/-- the same for every item of a string -/
theorem C04_values_in_range (ms : Str) (v : Value) (h : .ok (.ok v) ∈ values ms) : InRange v := by
  simp only [values, List.mem_map] at h
  obtain ⟨t, ht, h⟩ := h
  exact C04_in_range t v (slices_items ms t ht) h

-- boundaries
example : tryFrom c!"[nl9]" = .ok (.ok (.newLine (some 9))) ∧
    tryFrom c!"[nl10]" = .ok (.error (.unsupportedTagValue c!"nl10")) ∧
    tryFrom c!"[sc99]" = .ok (.ok (.spacingCharacter 99)) ∧
    tryFrom c!"[sc100]" = .ok (.error (.unsupportedTagValue c!"sc100")) ∧
    tryFrom c!"[f13]" = .ok (.ok (.field 13 none)) ∧
    tryFrom c!"[f14]" = .ok (.error (.unsupportedTagValue c!"f14")) ∧
    tryFrom c!"[mvl9r100,1,10,Text]" = .ok (.ok (.movingText (.linear 9) .right 100 1 10 c!"Text")) ∧
    tryFrom c!"[g0]" = .ok (.error (.unsupportedTagValue c!"g0")) ∧
    tryFrom c!"[tr1,0,1,1]" = .ok (.error (.unsupportedTagValue c!"tr1,0,1,1")) := by
  decide +kernel

end Ntcip
