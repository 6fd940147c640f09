import Verif.Lemmas.PageErr
import Verif.Spec.Layout
/-
Layout of text spans.
-/
namespace Ntcip
open Spec

theorem chk16_ok {n m : Nat} : chk16 n = .ok m ↔ n = m ∧ n < 65536 := by
  unfold chk16; split <;> simp <;> omega

theorem chk16_panic {n : Nat} {p} : chk16 n = .panic p ↔ p = .overflow ∧ 65536 ≤ n := by
  unfold chk16; split <;> simp
  · omega
  · constructor
    · rintro rfl; exact ⟨rfl, by omega⟩
    · exact fun h => h.1.symm

theorem sub16_ok {a b m : Nat} : sub16 a b = .ok m ↔ b ≤ a ∧ m = a - b := by
  unfold sub16; split <;> simp <;> omega

theorem font_ok {t : FontTable} {s : Span} {f : Font} : s.state.font t = .ok f ↔ FontOf t s f := by
  unfold RenderState.font FontOf
  split
  · rename_i h1 h2
    rw [h1, h2]
    split
    · rename_i h; simp only [Out.ok.injEq, Option.some.injEq]
      constructor
      · rintro rfl; exact ⟨rfl, by rintro v rfl; exact h⟩
      · exact fun h => h.1
    · rename_i h
      simp only [reduceCtorEq, Option.some.injEq, false_iff, not_and]
      rintro rfl h'; exact h (h' _ rfl)
  · rename_i h1 h2
    rw [h1, h2]; simp
  · rename_i h1; rw [h1]; simp

theorem fontOf_unique {t s f g} (h : FontOf t s f) (h' : FontOf t s g) : f = g := by
  have := h.1.symm.trans h'.1; simpa using this

theorem charSpacingFonts_ok {t : FontTable} {s : Span} {n : Nat} :
    s.charSpacingFonts t = .ok n ↔
      ∃ f, (s.state.charSpacing = none → FontOf t s f) ∧ n = charSpacing s f := by
  unfold Span.charSpacingFonts charSpacing
  split
  · rename_i c h
    simp only [Out.ok.injEq, h, reduceCtorEq, false_implies, true_and, Option.getD_some]
    exact ⟨fun e => ⟨Font.default 0, e.symm⟩, fun ⟨_, e⟩ => e.symm⟩
  · rename_i h
    simp only [Out.bind_eq_ok, font_ok, Out.pure_eq, Out.ok.injEq, h, forall_const, Option.getD_none]
    constructor
    · rintro ⟨f, h, rfl⟩; exact ⟨f, h, rfl⟩
    · rintro ⟨f, h, rfl⟩; exact ⟨f, h, rfl⟩

theorem u8_u16 (c : UInt8) : (UInt16.ofNat c.toNat).toNat = c.toNat := by
  simp

theorem width_ok {t : FontTable} {s : Span} {w : Nat} :
    s.width t = .ok w ↔ SpanWidth t s w ∧ w < 65536 := by
  unfold Span.width SpanWidth
  simp only [Out.bind_eq_ok, font_ok, charSpacingFonts_ok, mapErr_eq_ok, C27_ok_iff]
  constructor
  · rintro ⟨f, hf, n, ⟨g, hg, rfl⟩, es, hd, rfl, hlt⟩
    have e : charSpacing s g = charSpacing s f := by
      unfold charSpacing
      cases hc : s.state.charSpacing with
      | some c => rfl
      | none => rw [fontOf_unique hf (hg hc)]
    have e2 : spacing f (some (UInt16.ofNat (charSpacing s g))) = charSpacing s f := by
      rw [e]; unfold spacing charSpacing; simp only [Option.map_some, Option.getD_some, u8_u16]
    rw [e2] at hlt ⊢
    exact ⟨⟨f, es, hf, hd, rfl⟩, hlt⟩
  · rintro ⟨⟨f, es, hf, hd, rfl⟩, hlt⟩
    refine ⟨f, hf, _, ⟨f, fun _ => hf, rfl⟩, es, hd, ?_, hlt⟩
    unfold spacing charSpacing; simp only [Option.map_some, Option.getD_some, u8_u16]

theorem between_ok {t : FontTable} {p s : Span} {g : Nat} :
    s.charSpacingBetween p t = .ok g ↔ Gap t p s g := by
  unfold Span.charSpacingBetween Gap
  split
  · rename_i c h
    simp only [Out.ok.injEq, h]; exact eq_comm
  · rename_i h
    simp only [Out.bind_eq_ok, charSpacingFonts_ok, Out.pure_eq, Out.ok.injEq, h, forall_const]
    constructor
    · rintro ⟨a, ⟨fp, h1, rfl⟩, b, ⟨fs, h2, rfl⟩, rfl⟩
      exact ⟨fp, fs, h1, h2, by omega⟩
    · rintro ⟨fp, fs, h1, h2, rfl⟩
      exact ⟨_, ⟨fp, h1, rfl⟩, _, ⟨fs, h2, rfl⟩, by omega⟩

theorem gap_le {t p s g} (h : Gap t p s g) : g ≤ 255 := by
  unfold Gap at h
  split at h
  · rename_i c _; have := c.toNat_lt; omega
  · obtain ⟨fp, fs, _, _, rfl⟩ := h
    unfold charSpacing
    have := (p.state.charSpacing.getD fp.charSpacing).toNat_lt
    have := (s.state.charSpacing.getD fs.charSpacing).toNat_lt
    omega

/-! ### horizontal offsets -/

theorem offsetHorizLoop_first (t rs s ss b a) :
    offsetHorizLoop t rs (s :: ss) none b a = (s.width t >>= fun w =>
      if s.state.spanNumber < rs.spanNumber then
        .ofRes (chk16 (b + w)) >>= fun b => offsetHorizLoop t rs ss (some s) b a
      else .ofRes (chk16 (a + w)) >>= fun a => offsetHorizLoop t rs ss (some s) b a) := by
  rw [offsetHorizLoop]; rfl

theorem offsetHorizLoop_next (t rs p s ss b a) :
    offsetHorizLoop t rs (s :: ss) (some p) b a = (s.charSpacingBetween p t >>= fun w =>
      if s.state.spanNumber ≤ rs.spanNumber then
        .ofRes (chk16 (b + w)) >>= fun b => offsetHorizLoop t rs (s :: ss) none b a
      else .ofRes (chk16 (a + w)) >>= fun a => offsetHorizLoop t rs (s :: ss) none b a) := by
  simp only [offsetHorizLoop_first]
  rw [offsetHorizLoop]
  rfl

/-- the widths before and after the start of span number `own` -/
inductive HSum (t : FontTable) (own : Nat) : Option Span → List Span → Nat → Nat → Prop
  | nil {prev} : HSum t own prev [] 0 0
  | first {s ss w b a} : SpanWidth t s w → HSum t own (some s) ss b a →
      HSum t own none (s :: ss) (b + if s.state.spanNumber < own then w else 0)
        (a + if s.state.spanNumber < own then 0 else w)
  | next {p s ss g b a} : Gap t p s g → HSum t own none (s :: ss) b a →
      HSum t own (some p) (s :: ss) (b + if s.state.spanNumber ≤ own then g else 0)
        (a + if s.state.spanNumber ≤ own then 0 else g)

theorem lineWidth_next {t p s ss g n} (hg : Gap t p s g) (h : LineWidth t none (s :: ss) n) :
    LineWidth t (some p) (s :: ss) (g + n) := by
  cases h with
  | first hw hl => rw [← Nat.add_assoc]; exact .next hg hw hl

theorem hsum_lineWidth {t own prev ss b a} (h : HSum t own prev ss b a) : LineWidth t prev ss (b + a) := by
  induction h with
  | nil => exact .nil
  | @first s ss w b a hw _ ih =>
    have := LineWidth.first hw ih
    have e : b + (if s.state.spanNumber < own then w else 0) +
      (a + if s.state.spanNumber < own then 0 else w) = w + (b + a) := by split <;> omega
    rw [e]; exact this
  | @next p s ss g b a hg _ ih =>
    have e : b + (if s.state.spanNumber ≤ own then g else 0) +
      (a + if s.state.spanNumber ≤ own then 0 else g) = g + (b + a) := by split <;> omega
    rw [e]; exact lineWidth_next hg ih

theorem lineWidth_hsum {t prev ss n} (h : LineWidth t prev ss n) (own : Nat) :
    ∃ b a, HSum t own prev ss b a ∧ b + a = n := by
  induction h with
  | nil => exact ⟨0, 0, .nil, rfl⟩
  | first hw _ ih =>
    obtain ⟨b, a, h, rfl⟩ := ih
    exact ⟨_, _, .first hw h, by split <;> omega⟩
  | next hg hw _ ih =>
    obtain ⟨b, a, h, rfl⟩ := ih
    exact ⟨_, _, .next hg (.first hw h), by split <;> split <;> omega⟩

theorem offsetHorizLoop_ok {t rs} {ss : List Span} : ∀ {ps b a b' a'},
    offsetHorizLoop t rs ss ps b a = .ok (b', a') →
    ∃ x y, HSum t rs.spanNumber ps ss x y ∧ b' = b + x ∧ a' = a + y := by
  induction ss with
  | nil =>
    intro ps b a b' a' h
    simp only [offsetHorizLoop, Out.ok.injEq, Prod.mk.injEq] at h
    exact ⟨0, 0, .nil, h.1.symm, h.2.symm⟩
  | cons s ss ih =>
    have first : ∀ {b a b' a'}, offsetHorizLoop t rs (s :: ss) none b a = .ok (b', a') →
        ∃ x y, HSum t rs.spanNumber none (s :: ss) x y ∧ b' = b + x ∧ a' = a + y := by
      intro b a b' a' h
      rw [offsetHorizLoop_first] at h
      simp only [Out.bind_eq_ok, width_ok] at h
      obtain ⟨w, ⟨hw, _⟩, h⟩ := h
      split at h
      · simp only [Out.bind_eq_ok, Out.ofRes_eq_ok, chk16_ok] at h
        obtain ⟨_, ⟨rfl, _⟩, h⟩ := h
        obtain ⟨x, y, h1, rfl, rfl⟩ := ih h
        refine ⟨_, _, .first hw h1, ?_, ?_⟩ <;> simp only [*, if_true] <;> omega
      · simp only [Out.bind_eq_ok, Out.ofRes_eq_ok, chk16_ok] at h
        obtain ⟨_, ⟨rfl, _⟩, h⟩ := h
        obtain ⟨x, y, h1, rfl, rfl⟩ := ih h
        refine ⟨_, _, .first hw h1, ?_, ?_⟩ <;> simp only [*, if_false] <;> omega
    intro ps b a b' a' h
    cases ps with
    | none => exact first h
    | some p =>
      rw [offsetHorizLoop_next] at h
      simp only [Out.bind_eq_ok, between_ok] at h
      obtain ⟨g, hg, h⟩ := h
      split at h
      · simp only [Out.bind_eq_ok, Out.ofRes_eq_ok, chk16_ok] at h
        obtain ⟨_, ⟨rfl, _⟩, h⟩ := h
        obtain ⟨x, y, h1, rfl, rfl⟩ := first h
        refine ⟨_, _, .next hg h1, ?_, ?_⟩ <;> simp only [*, if_true] <;> omega
      · simp only [Out.bind_eq_ok, Out.ofRes_eq_ok, chk16_ok] at h
        obtain ⟨_, ⟨rfl, _⟩, h⟩ := h
        obtain ⟨x, y, h1, rfl, rfl⟩ := first h
        refine ⟨_, _, .next hg h1, ?_, ?_⟩ <;> simp only [*, if_false] <;> omega

theorem offsetHorizLoop_of {t rs ss ps x y} (h : HSum t rs.spanNumber ps ss x y) :
    ∀ b a, b + a + x + y < 65536 → offsetHorizLoop t rs ss ps b a = .ok (b + x, a + y) := by
  induction h with
  | nil => intro b a _; rfl
  | @first s ss w x y hw _ ih =>
    intro b a hlt
    rw [offsetHorizLoop_first, width_ok.2 ⟨hw, by split at hlt <;> omega⟩]
    simp only [Out.ok_bind]
    split
    · rename_i hs
      simp only [hs, if_true] at hlt ⊢
      rw [chk16_ok.2 ⟨rfl, by omega⟩]
      simp only [Out.ofRes_ok, Out.ok_bind]
      rw [ih _ _ (by omega)]
      congr 2 <;> omega
    · rename_i hs
      simp only [hs, if_false] at hlt ⊢
      rw [chk16_ok.2 ⟨rfl, by omega⟩]
      simp only [Out.ofRes_ok, Out.ok_bind]
      rw [ih _ _ (by omega)]
      congr 2 <;> omega
  | @next p s ss g x y hg _ ih =>
    intro b a hlt
    rw [offsetHorizLoop_next, between_ok.2 hg]
    simp only [Out.ok_bind]
    split
    · rename_i hs
      simp only [hs, if_true] at hlt ⊢
      rw [chk16_ok.2 ⟨rfl, by omega⟩]
      simp only [Out.ofRes_ok, Out.ok_bind]
      rw [ih _ _ (by omega)]
      congr 2 <;> omega
    · rename_i hs
      simp only [hs, if_false] at hlt ⊢
      rw [chk16_ok.2 ⟨rfl, by omega⟩]
      simp only [Out.ofRes_ok, Out.ok_bind]
      rw [ih _ _ (by omega)]
      congr 2 <;> omega

/-- the width of the span itself is part of the width after its start -/
theorem hsum_own {t own prev ss b a} (h : HSum t own prev ss b a) {s : Span} (hs : s ∈ ss)
    (ho : s.state.spanNumber = own) : ∃ w, SpanWidth t s w ∧ w ≤ a := by
  induction h with
  | nil => simp at hs
  | @first s' ss w b a hw _ ih =>
    rcases List.mem_cons.1 hs with rfl | hs
    · exact ⟨w, hw, by rw [if_neg (by omega)]; omega⟩
    · obtain ⟨w', h1, h2⟩ := ih hs
      exact ⟨w', h1, by omega⟩
  | next _ _ ih =>
    obtain ⟨w', h1, h2⟩ := ih hs
    exact ⟨w', h1, by omega⟩

theorem matchesSpan_filter (spans : List Span) (s : Span) :
    (spans.filter fun x => s.state.matchesSpan x.state) = sameLine spans s := by
  unfold sameLine RenderState.matchesSpan
  apply List.filter_congr
  intro x _
  simp only [Bool.decide_and]
  rw [Bool.eq_iff_iff]
  simp only [Bool.and_eq_true, beq_iff_eq, decide_eq_true_eq, and_assoc]
  constructor <;> rintro ⟨h1, h2, h3⟩ <;> exact ⟨h1.symm, h2.symm, h3.symm⟩

theorem matchesLine_filter (spans : List Span) (s : Span) :
    (spans.filter fun x => s.state.matchesLine x.state) = samePage spans s := by
  unfold samePage RenderState.matchesLine
  apply List.filter_congr
  intro x _
  rw [Bool.eq_iff_iff]
  simp only [beq_iff_eq, decide_eq_true_eq]
  exact eq_comm

theorem offsetHoriz_ok {d spans s b a} (h : offsetHoriz d spans s = .ok (b, a)) :
    HSum d.fontDefinition s.state.spanNumber none (sameLine spans s) b a ∧
      b + a ≤ s.state.textRectangle.width.toNat := by
  unfold offsetHoriz at h
  dsimp only at h
  rw [matchesSpan_filter] at h
  simp only [Out.bind_eq_ok] at h
  obtain ⟨⟨b', a'⟩, h1, t, h2, h3⟩ := h
  simp only [Out.ofRes_eq_ok, chk16_ok] at h2
  split at h3
  · simp only [Out.pure_eq, Out.ok.injEq, Prod.mk.injEq] at h3
    obtain ⟨rfl, rfl⟩ := h3
    obtain ⟨x, y, hh, e1, e2⟩ := offsetHorizLoop_ok h1
    simp only [Nat.zero_add] at e1 e2
    subst e1 e2
    exact ⟨hh, by omega⟩
  · simp at h3

theorem offsetHoriz_of {d spans s b a}
    (h : HSum d.fontDefinition s.state.spanNumber none (sameLine spans s) b a) (hlt : b + a < 65536) :
    offsetHoriz d spans s =
      if b + a ≤ s.state.textRectangle.width.toNat then .ok (b, a) else .err .textTooBig := by
  unfold offsetHoriz
  dsimp only
  rw [matchesSpan_filter]
  rw [offsetHorizLoop_of h 0 0 (by omega)]
  simp only [Out.ok_bind, Nat.zero_add]
  rw [chk16_ok.2 ⟨rfl, hlt⟩]
  rfl

/-! ### positions -/

theorem mem_sameLine {spans s} (h : s ∈ spans) : s ∈ sameLine spans s := by
  unfold sameLine; simp [h]

theorem mem_samePage {spans s} (h : s ∈ spans) : s ∈ samePage spans s := by
  unfold samePage; simp [h]

theorem trunc_ge {x l c : Nat} (h : l ≤ x) (hl : l % c = 0) (hc : 0 < c) : l ≤ x / c * c := by
  obtain ⟨k, rfl⟩ : ∃ k, l = k * c := ⟨l / c, by rw [Nat.div_mul_cancel (Nat.dvd_of_mod_eq_zero hl)]⟩
  apply Nat.mul_le_mul_right
  rw [Nat.le_div_iff_mul_le hc]; exact h

theorem cellWidth_eq (d : Dms) : d.cellWidth = signCellWidth d := rfl
theorem cellHeight_eq (d : Dms) : d.cellHeight = signCellHeight d := rfl

theorem cellWidth_pos (d : Dms) : 0 < (signCellWidth d) := by unfold signCellWidth; omega
theorem cellHeight_pos (d : Dms) : 0 < (signCellHeight d) := by unfold signCellHeight; omega

/-- horizontal position of a span: inside of its text rectangle -/
theorem spanX_inside {d spans s x} (h : spanX d spans s = .ok x) (hs : s ∈ spans)
    (ha : (s.state.textRectangle.x.toNat - 1) % (signCellWidth d) = 0) :
    ∃ w, SpanWidth d.fontDefinition s w ∧ 1 ≤ s.state.textRectangle.x.toNat ∧
      s.state.textRectangle.x.toNat - 1 ≤ x ∧
      x + w ≤ s.state.textRectangle.x.toNat - 1 + s.state.textRectangle.width.toNat := by
  unfold spanX at h
  split at h
  · unfold spanXLeft at h
    simp only [Out.bind_eq_ok, Out.ofRes_eq_ok, chk16_ok, sub16_ok] at h
    obtain ⟨l, ⟨hl, rfl⟩, ⟨b, a⟩, h1, rfl, h2⟩ := h
    obtain ⟨hh, hle⟩ := offsetHoriz_ok h1
    obtain ⟨w, hw, hwa⟩ := hsum_own hh (mem_sameLine hs) rfl
    exact ⟨w, hw, hl, by omega, by omega⟩
  · unfold spanXCenter at h; simp only [cellWidth_eq] at h
    simp only [Out.bind_eq_ok, Out.ofRes_eq_ok, chk16_ok, sub16_ok] at h
    obtain ⟨l, ⟨hl, rfl⟩, ⟨b, a⟩, h1, t1, ⟨h2, rfl⟩, t2, ⟨h3, rfl⟩, t3, ⟨rfl, h4⟩, t4, ⟨rfl, h5⟩, rfl, h6⟩ := h
    obtain ⟨hh, hle⟩ := offsetHoriz_ok h1
    obtain ⟨w, hw, hwa⟩ := hsum_own hh (mem_sameLine hs) rfl
    dsimp only at *
    refine ⟨w, hw, hl, trunc_ge (by omega) ha (cellWidth_pos d), ?_⟩
    have := Nat.div_mul_le_self (s.state.textRectangle.x.toNat - 1 +
      (s.state.textRectangle.width.toNat - b - a) / 2 + b) (signCellWidth d)
    omega
  · unfold spanXRight at h
    simp only [Out.bind_eq_ok, Out.ofRes_eq_ok, chk16_ok, sub16_ok] at h
    obtain ⟨l, ⟨hl, rfl⟩, ⟨b, a⟩, h1, t1, ⟨rfl, h2⟩, h3, rfl⟩ := h
    obtain ⟨hh, hle⟩ := offsetHoriz_ok h1
    obtain ⟨w, hw, hwa⟩ := hsum_own hh (mem_sameLine hs) rfl
    dsimp only at *
    exact ⟨w, hw, hl, by omega, by omega⟩
  · simp at h

/-! ### vertical offsets -/

theorem height_ok {t : FontTable} {s : Span} {h : Nat} :
    s.height t = .ok h ↔ ∃ f, FontOf t s f ∧ h = f.height.toNat := by
  unfold Span.height
  simp only [Out.bind_eq_ok, font_ok, Out.pure_eq, Out.ok.injEq]
  constructor <;> rintro ⟨f, h1, rfl⟩ <;> exact ⟨f, h1, rfl⟩

theorem fontSpacing_ok {t : FontTable} {s : Span} {h : Nat} :
    s.fontSpacing t = .ok h ↔ ∃ f, FontOf t s f ∧ h = f.lineSpacing.toNat := by
  unfold Span.fontSpacing
  simp only [Out.bind_eq_ok, font_ok, Out.pure_eq, Out.ok.injEq]
  constructor <;> rintro ⟨f, h1, rfl⟩ <;> exact ⟨f, h1, rfl⟩

/-- the text line of a span alone -/
def spanLine (s : Span) (f : Font) : TextLine :=
  ⟨f.height.toNat, f.lineSpacing.toNat, s.lineSpacing⟩

theorem textLines_cons_ok {t s ss ls r} : textLines t (s :: ss) ls = .ok r ↔
    ∃ f, FontOf t s f ∧ textLines t ss (if s.state.lineNumber ≥ ls.length then ls ++ [spanLine s f]
      else combineAt ls s.state.lineNumber (spanLine s f)) = .ok r := by
  rw [textLines]
  simp only [Out.bind_eq_ok, height_ok, fontSpacing_ok]
  constructor
  · rintro ⟨h, ⟨f, hf, rfl⟩, fs, ⟨g, hg, rfl⟩, h⟩
    obtain rfl := fontOf_unique hf hg
    refine ⟨f, hf, ?_⟩
    split at h <;> rename_i hc
    · rw [if_pos hc]; exact h
    · rw [if_neg hc]; exact h
  · rintro ⟨f, hf, h⟩
    refine ⟨_, ⟨f, hf, rfl⟩, _, ⟨f, hf, rfl⟩, ?_⟩
    split at h <;> rename_i hc
    · rw [if_pos hc]; exact h
    · rw [if_neg hc]; exact h

theorem combineAt_length (ls : List TextLine) (n : Nat) (l : TextLine) :
    (combineAt ls n l).length = ls.length := by
  induction ls generalizing n with
  | nil => rfl
  | cons a ls ih => cases n <;> simp [combineAt, ih]

theorem combineAt_get (ls : List TextLine) (n : Nat) (l : TextLine) (i : Nat) :
    (combineAt ls n l)[i]? = if i = n then ls[i]?.map (·.combine l) else ls[i]? := by
  induction ls generalizing n i with
  | nil => simp [combineAt]
  | cons a ls ih =>
    cases n with
    | zero => cases i <;> simp [combineAt]
    | succ n => cases i <;> simp [combineAt, ih]

theorem textLines_mono {t ss ls r} (h : textLines t ss ls = .ok r) (i : Nat) (l : TextLine)
    (hl : ls[i]? = some l) : ∃ l', r[i]? = some l' ∧ l.height ≤ l'.height := by
  induction ss generalizing ls l with
  | nil => simp only [textLines, Out.ok.injEq] at h; subst h; exact ⟨l, hl, Nat.le_refl _⟩
  | cons s ss ih =>
    obtain ⟨f, hf, h⟩ := textLines_cons_ok.1 h
    split at h
    · exact ih h l (by rw [List.getElem?_append_left (by
        have := List.getElem?_eq_some_iff.1 hl; exact this.1)]; exact hl)
    · by_cases e : i = s.state.lineNumber
      · obtain ⟨l', h1, h2⟩ := ih h (l.combine (spanLine s f)) (by
          rw [combineAt_get, if_pos e, hl]; rfl)
        refine ⟨l', h1, Nat.le_trans ?_ h2⟩
        simp only [TextLine.combine]; omega
      · exact ih h l (by rw [combineAt_get, if_neg e]; exact hl)

/-- each span is part of a line with at most its line number -/
theorem textLines_own {t ss ls r} (h : textLines t ss ls = .ok r) {s : Span} (hs : s ∈ ss) :
    ∃ f, FontOf t s f ∧ ∃ i l, i ≤ s.state.lineNumber ∧ r[i]? = some l ∧ f.height.toNat ≤ l.height := by
  induction ss generalizing ls with
  | nil => simp at hs
  | cons s' ss ih =>
    obtain ⟨f, hf, h⟩ := textLines_cons_ok.1 h
    rcases List.mem_cons.1 hs with rfl | hs
    · refine ⟨f, hf, ?_⟩
      split at h
      · rename_i hc
        obtain ⟨l', h1, h2⟩ := textLines_mono h ls.length (spanLine s f) (by simp)
        exact ⟨_, l', hc, h1, h2⟩
      · rename_i hc
        obtain ⟨l, hl⟩ : ∃ l, ls[s.state.lineNumber]? = some l :=
          ⟨_, List.getElem?_eq_getElem (by omega)⟩
        obtain ⟨l', h1, h2⟩ := textLines_mono h s.state.lineNumber (l.combine (spanLine s f)) (by
          rw [combineAt_get, if_pos rfl, hl]; rfl)
        refine ⟨_, l', Nat.le_refl _, h1, Nat.le_trans ?_ h2⟩
        simp only [TextLine.combine, spanLine]; omega
    · exact ih h hs

/-- a property of the lines -/
theorem textLines_all {t ss ls r} (h : textLines t ss ls = .ok r) (P : TextLine → Prop)
    (h1 : ∀ s ∈ ss, ∀ f, FontOf t s f → P (spanLine s f))
    (h2 : ∀ a b, P a → P b → P (a.combine b)) (h0 : ∀ l ∈ ls, P l) : ∀ l ∈ r, P l := by
  induction ss generalizing ls with
  | nil => simp only [textLines, Out.ok.injEq] at h; subst h; exact h0
  | cons s ss ih =>
    obtain ⟨f, hf, h⟩ := textLines_cons_ok.1 h
    have hp := h1 s (List.mem_cons_self ..) f hf
    refine ih h (fun s hs => h1 s (List.mem_cons_of_mem _ hs)) ?_
    split
    · intro l hl
      rcases List.mem_append.1 hl with hl | hl
      · exact h0 l hl
      · simp at hl; subst hl; exact hp
    · intro l hl
      obtain ⟨i, hi⟩ := List.mem_iff_getElem?.1 hl
      rw [combineAt_get] at hi
      split at hi
      · cases hx : ls[i]? with
        | none => simp [hx] at hi
        | some a =>
          simp only [hx, Option.map_some, Option.some.injEq] at hi
          subst hi
          exact h2 _ _ (h0 a (List.mem_of_getElem? hx)) hp
      · exact h0 l (List.mem_of_getElem? hi)

theorem textLines_length {t ss ls r} (h : textLines t ss ls = .ok r) :
    r.length ≤ ls.length + ss.length := by
  induction ss generalizing ls with
  | nil => simp only [textLines, Out.ok.injEq] at h; subst h; simp
  | cons s ss ih =>
    obtain ⟨f, hf, h⟩ := textLines_cons_ok.1 h
    have := ih h
    split at this
    · simp at this ⊢; omega
    · rw [combineAt_length] at this; simp; omega

/-- spacing before a line -/
def lineGap (full : Bool) (prev : Option TextLine) (l : TextLine) : Nat :=
  match prev with
  | some p => if full then l.spacing p else 0
  | none => 0

/-- height of the lines up to line `sln` (from line `ln` on) -/
def vAbove (full : Bool) (sln : Nat) : List TextLine → Nat → Option TextLine → Nat
  | [], _, _ => 0
  | l :: ls, ln, prev =>
    (if ln ≤ sln then lineGap full prev l + l.height else 0) + vAbove full sln ls (ln + 1) (some l)

/-- height of the lines after line `sln` -/
def vBelow (full : Bool) (sln : Nat) : List TextLine → Nat → Option TextLine → Nat
  | [], _, _ => 0
  | l :: ls, ln, prev =>
    (if ln ≤ sln then 0 else lineGap full prev l + l.height) + vBelow full sln ls (ln + 1) (some l)

theorem offsetVertLoop_cons (full sln l ls ln prev above below) :
    offsetVertLoop full sln (l :: ls) ln prev above below =
      (if ln ≤ sln then
        if above + lineGap full prev l + l.height < 65536 then
          offsetVertLoop full sln ls (ln + 1) (some l) (above + lineGap full prev l + l.height) below
        else .panic .overflow
      else
        if below + lineGap full prev l + l.height < 65536 then
          offsetVertLoop full sln ls (ln + 1) (some l) above (below + lineGap full prev l + l.height)
        else .panic .overflow) := by
  have one : ∀ (n m : Nat) (k : Nat → Res (Nat × Nat)),
      ((chk16 (n + m)) >>= k) = if n + m < 65536 then k (n + m) else .panic .overflow := by
    intro n m k; unfold chk16; split <;> rfl
  have two : ∀ (n m h : Nat) (k : Nat → Res (Nat × Nat)),
      ((chk16 (n + m)) >>= fun a => chk16 (a + h) >>= k) =
        if n + m + h < 65536 then k (n + m + h) else .panic .overflow := by
    intro n m h k; unfold chk16
    by_cases h1 : n + m < 65536
    · rw [if_pos h1, Res.ok_bind]
      split <;> rfl
    · rw [if_neg h1, if_neg (by omega)]; rfl
  rw [offsetVertLoop.eq_def]
  cases prev with
  | none =>
    simp only [lineGap, Nat.add_zero, Res.pure_eq, Res.ok_bind]
    by_cases hc : ln ≤ sln
    · rw [if_pos hc, if_pos hc]; exact one ..
    · rw [if_neg hc, if_neg hc]; exact one ..
  | some p =>
    cases full with
    | false =>
      simp only [lineGap, Bool.false_eq_true, if_false, Nat.add_zero, Res.pure_eq, Res.ok_bind]
      by_cases hc : ln ≤ sln
      · rw [if_pos hc, if_pos hc]; exact one ..
      · rw [if_neg hc, if_neg hc]; exact one ..
    | true =>
      simp only [lineGap, if_true, Res.pure_eq, Res.ok_bind]
      by_cases hc : ln ≤ sln
      · simp only [if_pos hc]; exact two ..
      · simp only [if_neg hc]; exact two ..

theorem offsetVertLoop_ok {full sln ls} : ∀ {ln prev above below a b},
    offsetVertLoop full sln ls ln prev above below = .ok (a, b) →
      a = above + vAbove full sln ls ln prev ∧ b = below + vBelow full sln ls ln prev := by
  induction ls with
  | nil =>
    intro ln prev above below a b h
    simp only [offsetVertLoop, Res.ok.injEq, Prod.mk.injEq] at h
    simp only [vAbove, vBelow]; omega
  | cons l ls ih =>
    intro ln prev above below a b h
    rw [offsetVertLoop_cons] at h
    simp only [vAbove, vBelow]
    split at h
    · rename_i hc
      split at h
      · obtain ⟨h1, h2⟩ := ih h
        simp only [hc, if_true]; omega
      · simp at h
    · rename_i hc
      split at h
      · obtain ⟨h1, h2⟩ := ih h
        simp only [hc, if_false]; omega
      · simp at h

theorem offsetVertLoop_of {full sln ls} : ∀ {ln prev above below},
    above + below + vAbove full sln ls ln prev + vBelow full sln ls ln prev < 65536 →
    offsetVertLoop full sln ls ln prev above below =
      .ok (above + vAbove full sln ls ln prev, below + vBelow full sln ls ln prev) := by
  induction ls with
  | nil => intro ln prev above below _; rfl
  | cons l ls ih =>
    intro ln prev above below h
    rw [offsetVertLoop_cons]
    simp only [vAbove, vBelow] at h ⊢
    split
    · rename_i hc
      simp only [hc, if_true] at h ⊢
      rw [if_pos (by omega), ih (by omega)]
      congr 2 <;> omega
    · rename_i hc
      simp only [hc, if_false] at h ⊢
      rw [if_pos (by omega), ih (by omega)]
      congr 2 <;> omega

theorem vAbove_own {full sln ls} : ∀ {ln prev} (i : Nat) (l : TextLine), ln + i ≤ sln → ls[i]? = some l →
    l.height ≤ vAbove full sln ls ln prev := by
  induction ls with
  | nil => simp
  | cons a ls ih =>
    intro ln prev i l hi hl
    simp only [vAbove]
    cases i with
    | zero =>
      simp only [List.getElem?_cons_zero, Option.some.injEq] at hl
      subst hl
      rw [if_pos (by omega)]; omega
    | succ i =>
      simp only [List.getElem?_cons_succ] at hl
      have := ih (ln := ln + 1) (prev := some a) i l (by omega) hl
      omega

theorem vAbove_mod {sln c ls} : ∀ {ln prev}, (∀ l ∈ ls, l.height % c = 0) →
    vAbove false sln ls ln prev % c = 0 := by
  induction ls with
  | nil => intros; simp [vAbove]
  | cons a ls ih =>
    intro ln prev h
    simp only [vAbove]
    have h1 := ih (ln := ln + 1) (prev := some a) (fun l hl => h l (List.mem_cons_of_mem _ hl))
    have h2 := h a (List.mem_cons_self ..)
    have e : lineGap false prev a = 0 := by unfold lineGap; split <;> simp
    rw [e]
    split
    · rw [Nat.zero_add, Nat.add_mod, h1, h2]; simp
    · rw [Nat.zero_add]; exact h1

theorem offsetVert_ok {d spans s a b} (h : offsetVert d spans s = .ok (a, b)) :
    ∃ ls, textLines d.fontDefinition (samePage spans s) [] = .ok ls ∧
      a = vAbove (decide (d.vmsCfg.charHeightPixels = 0)) s.state.lineNumber ls 0 none ∧
      b = vBelow (decide (d.vmsCfg.charHeightPixels = 0)) s.state.lineNumber ls 0 none ∧
      a + b ≤ s.state.textRectangle.height.toNat := by
  unfold offsetVert at h
  dsimp only at h
  rw [matchesLine_filter] at h
  simp only [Out.bind_eq_ok, Out.ofRes_eq_ok, chk16_ok] at h
  obtain ⟨ls, h1, ⟨a', b'⟩, h2, t, ⟨rfl, h3⟩, h4⟩ := h
  split at h4
  · simp only [Out.pure_eq, Out.ok.injEq, Prod.mk.injEq] at h4
    obtain ⟨rfl, rfl⟩ := h4
    obtain ⟨e1, e2⟩ := offsetVertLoop_ok h2
    unfold Dms.charHeight at e1 e2
    exact ⟨ls, h1, by omega, by omega, by assumption⟩
  · simp at h4

/-- above the baseline of a span is enough space for it -/
theorem offsetVert_own {d spans s a b} (h : offsetVert d spans s = .ok (a, b)) (hs : s ∈ spans) :
    ∃ f, FontOf d.fontDefinition s f ∧ f.height.toNat ≤ a := by
  obtain ⟨ls, h1, h2, h3, h4⟩ := offsetVert_ok h
  obtain ⟨f, hf, i, l, hi, hl, hh⟩ := textLines_own h1 (mem_samePage hs)
  have := vAbove_own (full := decide (d.vmsCfg.charHeightPixels = 0)) (prev := none) i l
    (by omega : 0 + i ≤ s.state.lineNumber) hl
  exact ⟨f, hf, by omega⟩

/-- condition for middle justification: the heights of the fonts are multiples of the height of the
character cells -/
def Spec.CellFonts (d : Dms) (spans : List Span) : Prop :=
  d.vmsCfg.charHeightPixels = 0 ∨ ∀ s ∈ spans, ∀ f, FontOf d.fontDefinition s f → f.height.toNat % (signCellHeight d) = 0

theorem offsetVert_mod {d spans s a b} (h : offsetVert d spans s = .ok (a, b))
    (hc : CellFonts d (samePage spans s)) : a % (signCellHeight d) = 0 := by
  obtain ⟨ls, h1, h2, h3, h4⟩ := offsetVert_ok h
  rcases hc with hc | hc
  · have : (signCellHeight d) = 1 := by unfold signCellHeight; rw [hc]; rfl
    rw [this]; omega
  · by_cases h0 : d.vmsCfg.charHeightPixels = 0
    · have : (signCellHeight d) = 1 := by unfold signCellHeight; rw [h0]; rfl
      rw [this]; omega
    · rw [h2, decide_eq_false h0]
      apply vAbove_mod
      refine textLines_all h1 (fun l => l.height % (signCellHeight d) = 0) (fun s hs f hf => hc s hs f hf) ?_ (by simp)
      intro x y hx hy
      simp only [TextLine.combine]
      rcases Nat.le_total x.height y.height with h | h
      · rw [Nat.max_eq_right h]; exact hy
      · rw [Nat.max_eq_left h]; exact hx

/-- vertical position of a span: inside of its text rectangle -/
theorem spanY_inside {d spans s y} (h : spanY d spans s = .ok y) (hs : s ∈ spans)
    (ha : (s.state.textRectangle.y.toNat - 1) % (signCellHeight d) = 0)
    (hm : s.state.justPage = .middle → CellFonts d (samePage spans s)) :
    ∃ f, FontOf d.fontDefinition s f ∧ 1 ≤ s.state.textRectangle.y.toNat ∧
      s.state.textRectangle.y.toNat - 1 ≤ y ∧
      y + f.height.toNat ≤ s.state.textRectangle.y.toNat - 1 + s.state.textRectangle.height.toNat := by
  unfold spanY at h
  simp only [Out.bind_eq_ok, Out.ofRes_eq_ok, sub16_ok, height_ok] at h
  obtain ⟨bl, h, hh, ⟨f, hf, rfl⟩, hb, rfl⟩ := h
  unfold baseline at h
  split at h
  · unfold baselineTop at h
    simp only [Out.bind_eq_ok, Out.ofRes_eq_ok, chk16_ok, sub16_ok] at h
    obtain ⟨l, ⟨hl, rfl⟩, ⟨a, b⟩, h1, rfl, h2⟩ := h
    obtain ⟨-, -, -, -, h4⟩ := offsetVert_ok h1
    obtain ⟨f', hf', h5⟩ := offsetVert_own h1 hs
    obtain rfl := fontOf_unique hf hf'
    dsimp only at *
    exact ⟨f, hf, hl, by omega, by omega⟩
  · rename_i hj
    unfold baselineMiddle at h; simp only [cellHeight_eq] at h
    simp only [Out.bind_eq_ok, Out.ofRes_eq_ok, chk16_ok, sub16_ok] at h
    obtain ⟨l, ⟨hl, rfl⟩, ⟨a, b⟩, h1, t1, ⟨h2, rfl⟩, t2, ⟨h3, rfl⟩, t3, ⟨rfl, h6⟩, t4, ⟨rfl, h7⟩, rfl, h8⟩ := h
    obtain ⟨-, -, -, -, h4⟩ := offsetVert_ok h1
    obtain ⟨f', hf', h5⟩ := offsetVert_own h1 hs
    obtain rfl := fontOf_unique hf hf'
    have hmod := offsetVert_mod h1 (hm hj)
    dsimp only at *
    have hge := trunc_ge (x := s.state.textRectangle.y.toNat - 1 +
        (s.state.textRectangle.height.toNat - a - b) / 2 + a)
      (l := s.state.textRectangle.y.toNat - 1 + a) (c := (signCellHeight d)) (by omega)
      (by rw [Nat.add_mod, ha, hmod]; simp) (cellHeight_pos d)
    have hle := Nat.div_mul_le_self (s.state.textRectangle.y.toNat - 1 +
        (s.state.textRectangle.height.toNat - a - b) / 2 + a) (signCellHeight d)
    exact ⟨f, hf, hl, by omega, by omega⟩
  · unfold baselineBottom at h
    simp only [Out.bind_eq_ok, Out.ofRes_eq_ok, chk16_ok, sub16_ok] at h
    obtain ⟨l, ⟨hl, rfl⟩, ⟨a, b⟩, h1, t, ⟨rfl, h2⟩, h3, rfl⟩ := h
    obtain ⟨-, -, -, -, h4⟩ := offsetVert_ok h1
    obtain ⟨f', hf', h5⟩ := offsetVert_own h1 hs
    obtain rfl := fontOf_unique hf hf'
    dsimp only at *
    exact ⟨f, hf, hl, by omega, by omega⟩
  · simp at h

end Ntcip
