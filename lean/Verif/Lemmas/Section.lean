import Verif.Lemmas.Pages
import Verif.Lemmas.Fit
import Verif.Spec.Drawn
/-
The spans of a text rectangle.
-/
namespace Ntcip
open Spec

/-- Effect of a round of the loop that goes on -/
structure StepSpans (d : Dms) (st : Rtr) (v : Value) (st' : Rtr) : Prop where
  spacing : st'.rs.lineSpacing = spacingAfter st.rs.lineSpacing v
  line : st'.rs.lineNumber = lineAfter (signAttr d) (textAttr st.rs) st.rs.lineNumber v
  number : st'.rs.spanNumber = numberAfter (signAttr d) (textAttr st.rs) st.rs.spanNumber v
  blank : st'.lineBlank = blankAfter st.lineBlank v
  spans : ∃ new, st'.spans = st.spans ++ new ∧ (∀ s ∈ new, s.state = st.rs) ∧
    new.map pieceOf = piece (textAttr st.rs) st.rs.lineSpacing st.rs.lineNumber st.lineBlank v

theorem charFromU32_ofNat {n : Nat} {c : Char} (h : charFromU32 n = some c) : c = Char.ofNat n := by
  unfold charFromU32 at h
  split at h
  · simpa [eq_comm] using h
  · simp at h

theorem rtrStep_spans {d po st v st'} (h : rtrStep d (RenderState.new d) po st v = .ok (.cont, st')) :
    StepSpans d st v st' := by
  unfold rtrStep at h
  split at h <;> dsimp only at h
  · split at h
    · simp only [Res.ok.injEq, Prod.mk.injEq, true_and] at h; subst h
      exact ⟨rfl, rfl, rfl, rfl, [], by simp, by simp, rfl⟩
    · simp at h
  · simp only [Res.ok.injEq, Prod.mk.injEq, true_and] at h; subst h
    exact ⟨rfl, rfl, rfl, rfl, [], by simp, by simp, rfl⟩
  · simp only [Res.ok.injEq, Prod.mk.injEq, true_and] at h; subst h
    exact ⟨rfl, rfl, rfl, rfl, [], by simp, by simp, rfl⟩
  · simp at h
  · simp at h
  · simp only [Res.ok.injEq, Prod.mk.injEq, true_and] at h; subst h
    exact ⟨rfl, rfl, rfl, rfl, [], by simp, by simp, rfl⟩
  · simp at h
  · rename_i jp _
    split at h
    · rename_i hj
      simp only [Res.ok.injEq, Prod.mk.injEq, true_and] at h; subst h
      have hj : ¬ jp.getD (signAttr d).justPage = (textAttr st.rs).justPage := hj
      refine ⟨rfl, ?_, ?_, rfl, [], by simp, by simp, rfl⟩
      · simp only [lineAfter, if_neg hj]
      · simp only [numberAfter, if_neg hj]
    · rename_i hj
      simp only [Res.ok.injEq, Prod.mk.injEq, true_and] at h; subst h
      have hj : jp.getD (signAttr d).justPage = (textAttr st.rs).justPage := Decidable.not_not.1 hj
      refine ⟨rfl, ?_, ?_, rfl, [], by simp, by simp, rfl⟩
      · simp only [lineAfter, if_pos hj]
      · simp only [numberAfter, if_pos hj]
  · split at h
    · simp at h
    · simp only [Res.bind_eq_ok, Res.pure_eq, Res.ok.injEq, Prod.mk.injEq, true_and] at h
      obtain ⟨ln, hln, rfl⟩ := h
      have e : ln = st.rs.lineNumber + 1 := by
        unfold chk8 at hln; split at hln <;> simp at hln; omega
      subst e
      refine ⟨rfl, rfl, rfl, rfl, ?_⟩
      cases hb : st.lineBlank
      · exact ⟨[], by simp, by simp, by simp [piece]⟩
      · exact ⟨[⟨st.rs, []⟩], by simp, by simp, by simp [piece, pieceOf]⟩
  · simp at h
  · split at h
    · simp at h
    · simp only [Res.ok.injEq, Prod.mk.injEq, true_and] at h; subst h
      exact ⟨rfl, rfl, rfl, rfl, [], by simp, by simp, rfl⟩
  · simp only [Res.ok.injEq, Prod.mk.injEq, true_and] at h; subst h
    exact ⟨rfl, rfl, rfl, rfl, [], by simp, by simp, rfl⟩
  · simp only [Res.bind_eq_ok] at h
    obtain ⟨o, _, h⟩ := h
    cases o <;> simp at h
  · rename_i t
    simp only [Res.bind_eq_ok, Res.pure_eq, Res.ok.injEq, Prod.mk.injEq, true_and] at h
    obtain ⟨sn, hsn, rfl⟩ := h
    have e : sn = st.rs.spanNumber + 1 := by
      unfold chk8 at hsn; split at hsn <;> simp at hsn; omega
    subst e
    exact ⟨rfl, rfl, rfl, rfl, [⟨st.rs, t⟩], rfl, by simp, by simp [piece, pieceOf]⟩
  · rename_i hc
    split at h
    · rename_i c hcc
      simp only [Res.bind_eq_ok, Res.pure_eq, Res.ok.injEq, Prod.mk.injEq, true_and] at h
      obtain ⟨sn, hsn, rfl⟩ := h
      have e : sn = st.rs.spanNumber + 1 := by
        unfold chk8 at hsn; split at hsn <;> simp at hsn; omega
      subst e
      refine ⟨rfl, rfl, rfl, rfl, _, rfl, by simp, ?_⟩
      simp [piece, pieceOf, hexText, charFromU32_ofNat hcc]
    · simp at h
  · rename_i h1 h2 h3 h4 h5 h6 h7 h8 h9 h10 h11 h12 h13 h14
    simp only [Res.ok.injEq, Prod.mk.injEq, true_and] at h; subst h
    refine ⟨?_, ?_, ?_, ?_, [], by simp, by simp, ?_⟩
    · unfold spacingAfter; split <;> simp_all
    · unfold lineAfter; split <;> simp_all
    · unfold numberAfter; split <;> simp_all
    · unfold blankAfter; split <;> simp_all
    · unfold piece; split <;> simp_all

theorem rtrStep_section {d ds po st v st'} :
    (rtrStep d ds po st v = .ok (.cont, st') → v ≠ .newPage ∧ ∀ r, v ≠ .textRectangle r) ∧
    (rtrStep d ds po st v = .ok (.brk, st') →
      (v = .newPage ∨ ∃ r, v = .textRectangle r) ∧ st'.spans = st.spans) := by
  constructor <;> intro h
  · constructor
    · rintro rfl; simp [rtrStep] at h
    · rintro r rfl
      simp only [rtrStep, Res.bind_eq_ok] at h
      obtain ⟨o, _, h⟩ := h
      cases o <;> simp at h
  · unfold rtrStep at h
    split at h <;> dsimp only at h
    all_goals first
      | (split at h <;> simp at h; done)
      | (simp at h; done)
      | skip
    · simp only [Res.ok.injEq, Prod.mk.injEq, true_and] at h; subst h
      exact ⟨.inl rfl, rfl⟩
    · rename_i r
      simp only [Res.bind_eq_ok] at h
      obtain ⟨o, _, h⟩ := h
      cases o with
      | none => simp at h
      | some o =>
        simp only [Res.pure_eq, Res.ok.injEq, Prod.mk.injEq, true_and] at h
        subst h; exact ⟨.inr ⟨r, rfl⟩, rfl⟩

/-! ### spans of a tidy section -/

/-- spans with a page justification -/
def withJust (spans : List Span) (p : JustificationPage) : List Span :=
  spans.filter fun x => x.state.justPage = p

/-- The spans so far, in state `rs` of the loop -/
structure SpansTidy (rs : RenderState) (spans : List Span) (fresh blank : Bool) : Prop where
  ordered : Ordered spans
  dense : ∀ p, ∃ n, Dense 0 (withJust spans p) n
  cur : Dense 0 (withJust spans rs.justPage) (if fresh then rs.lineNumber else rs.lineNumber + 1)
  page : ∀ s ∈ spans, s.state.justPage.toNat ≤ rs.justPage.toNat
  line : ∀ s ∈ spans, s.state.justPage = rs.justPage → s.state.lineNumber = rs.lineNumber →
    fresh = false ∧ s.state.justLine.toNat ≤ rs.justLine.toNat ∧
    (s.state.justLine = rs.justLine → s.state.spanNumber < rs.spanNumber)
  blank : fresh = false → blank = false

theorem dense_old {k ss n s} (h : Dense k ss n) (hs : s.state.lineNumber < n) : Dense k (ss ++ [s]) n := by
  induction h with
  | nil => exact .old hs .nil
  | old h _ ih => exact .old h (ih hs)
  | new h _ ih => exact .new h (ih hs)

theorem dense_new {k ss n s} (h : Dense k ss n) (hs : s.state.lineNumber = n) : Dense k (ss ++ [s]) (n + 1) := by
  induction h with
  | nil => exact .new hs .nil
  | old h _ ih => exact .old h (ih hs)
  | new h _ ih => exact .new h (ih hs)

theorem justLine_inj {a b : JustificationLine} (h : a.toNat = b.toNat) : a = b := by
  cases a <;> cases b <;> first | rfl | (exact absurd h (by decide))

theorem justPage_inj {a b : JustificationPage} (h : a.toNat = b.toNat) : a = b := by
  cases a <;> cases b <;> first | rfl | (exact absurd h (by decide))

/-- adding the text of the current line -/
theorem spansTidy_push {rs spans fresh blank} (h : SpansTidy rs spans fresh blank) (s : Span) (hs : s.state = rs)
    (n : Nat) (hn : rs.spanNumber < n) :
    SpansTidy { rs with spanNumber := n } (spans ++ [s]) false false := by
  have hcur : Dense 0 (withJust (spans ++ [s]) rs.justPage) (rs.lineNumber + 1) := by
    have hc := h.cur
    unfold withJust at hc ⊢
    rw [List.filter_append]
    have : [s].filter (fun x => decide (x.state.justPage = rs.justPage)) = [s] := by simp [hs]
    rw [this]
    cases fresh
    · exact dense_old hc (by rw [hs]; exact Nat.lt_succ_self _)
    · exact dense_new hc (by rw [hs])
  refine ⟨?_, ?_, hcur, ?_, ?_, fun _ => rfl⟩
  · unfold Ordered
    rw [List.pairwise_append]
    refine ⟨h.ordered, by simp, ?_⟩
    intro a ha b hb h1 h2 h3
    simp only [List.mem_singleton] at hb
    subst hb
    rw [hs] at h1 h2 h3 ⊢
    exact (h.line a ha h1 h2).2.2 h3
  · intro p
    by_cases hp : rs.justPage = p
    · exact ⟨_, hp ▸ hcur⟩
    · obtain ⟨m, hm⟩ := h.dense p
      refine ⟨m, ?_⟩
      unfold withJust at hm ⊢
      rw [List.filter_append]
      have : [s].filter (fun x => decide (x.state.justPage = p)) = [] := by simp [hs, hp]
      rw [this, List.append_nil]; exact hm
  · intro x hx
    rw [List.mem_append, List.mem_singleton] at hx
    rcases hx with hx | rfl
    · exact h.page x hx
    · rw [hs]; exact Nat.le_refl _
  · intro x hx h1 h2
    rw [List.mem_append, List.mem_singleton] at hx
    rcases hx with hx | rfl
    · obtain ⟨_, a2, a3⟩ := h.line x hx h1 h2
      exact ⟨rfl, a2, fun e => Nat.lt_trans (a3 e) hn⟩
    · rw [hs]; exact ⟨rfl, Nat.le_refl _, fun _ => hn⟩

theorem spansTidy_same {rs rs' : RenderState} {spans fresh blank} (h : SpansTidy rs spans fresh blank)
    (h1 : rs'.justPage = rs.justPage) (h2 : rs'.justLine = rs.justLine) (h3 : rs'.lineNumber = rs.lineNumber)
    (h4 : rs'.spanNumber = rs.spanNumber) : SpansTidy rs' spans fresh blank := by
  obtain ⟨a1, a2, a3, a4, a5, a6⟩ := h
  exact ⟨a1, a2, by rw [h1, h3]; exact a3, by rw [h1]; exact a4, by rw [h1, h2, h3, h4]; exact a5, a6⟩

/-- the next line -/
theorem spansTidy_line {rs rs' : RenderState} {spans} (h : SpansTidy rs spans false false)
    (h1 : rs'.justPage = rs.justPage) (h3 : rs'.lineNumber = rs.lineNumber + 1) :
    SpansTidy rs' spans true true := by
  obtain ⟨a1, a2, a3, a4, a5, a6⟩ := h
  refine ⟨a1, a2, by rw [h1, h3]; exact a3, by rw [h1]; exact a4, ?_, by simp⟩
  intro s hs e1 e2
  rw [h1] at e1
  have := (dense_lt a3).2 s (by unfold withJust; simp [hs, e1])
  simp at this; omega

theorem tidy_step {d : Dms} {st v st' fresh} (h : SpansTidy st.rs st.spans fresh st.lineBlank)
    (hs : StepSpans d st v st') (ha : textAttr st'.rs = TextAttr.apply (signAttr d) (textAttr st.rs) v)
    (ho : InOrder (signAttr d) (textAttr st.rs) fresh st.lineBlank v) :
    SpansTidy st'.rs st'.spans (freshAfter (signAttr d) (textAttr st.rs) fresh v) st'.lineBlank := by
  obtain ⟨-, hl, hn, hb, new, hnew, hstate, hp⟩ := hs
  have hjp : st'.rs.justPage = (TextAttr.apply (signAttr d) (textAttr st.rs) v).justPage := by rw [← ha]; rfl
  have hjl : st'.rs.justLine = (TextAttr.apply (signAttr d) (textAttr st.rs) v).justLine := by rw [← ha]; rfl
  clear ha
  rw [hnew, hb]
  have one : ∀ p, new.map pieceOf = [p] → ∃ s, new = [s] ∧ s.state = st.rs := by
    intro p e
    obtain ⟨s, rfl, _⟩ := List.map_eq_singleton_iff.1 e
    exact ⟨s, rfl, hstate s (by simp)⟩
  have none : new.map pieceOf = [] → new = [] := by simp
  cases v
  case text t =>
    obtain ⟨s, rfl, hs⟩ := one _ hp
    exact spansTidy_same (spansTidy_push h s hs (st.rs.spanNumber + 1) (by omega)) hjp hjl hl hn
  case hexadecimalCharacter c =>
    obtain ⟨s, rfl, hs⟩ := one _ hp
    exact spansTidy_same (spansTidy_push h s hs (st.rs.spanNumber + 1) (by omega)) hjp hjl hl hn
  case newLine ls =>
    cases hf : fresh
    · have hbl := h.blank hf
      simp only [piece, hbl] at hp
      rw [none hp, List.append_nil]
      rw [hf, hbl] at h
      exact spansTidy_line h hjp hl
    · have hbl := ho hf
      simp only [piece, hbl, if_true] at hp
      obtain ⟨s, rfl, hs⟩ := one _ hp
      exact spansTidy_line (spansTidy_push h s hs (st.rs.spanNumber + 1) (by omega)) hjp hl
  case justificationLine j =>
    rw [none hp, List.append_nil]
    have hno : ∀ s ∈ st.spans, s.state.justPage = st.rs.justPage → s.state.lineNumber = st.rs.lineNumber →
        fresh = false ∧ s.state.justLine.toNat < st'.rs.justLine.toNat := by
      intro s hs e1 e2
      obtain ⟨b1, b2, _⟩ := h.line s hs e1 e2
      rcases ho with ho | ho
      · rw [b1] at ho; simp at ho
      · refine ⟨b1, ?_⟩
        rw [hjl]
        exact Nat.lt_of_le_of_lt b2 ho
    have hl : st'.rs.lineNumber = st.rs.lineNumber := hl
    have hjp : st'.rs.justPage = st.rs.justPage := hjp
    obtain ⟨a1, a2, a3, a4, a5, a6⟩ := h
    refine ⟨a1, a2, by rw [hjp, hl]; exact a3, by rw [hjp]; exact a4, ?_, a6⟩
    rw [hjp, hl]
    intro s hs e1 e2
    obtain ⟨b1, b2⟩ := hno s hs e1 e2
    exact ⟨b1, Nat.le_of_lt b2, fun e => by rw [e] at b2; omega⟩
  case justificationPage j =>
    rw [none hp, List.append_nil]
    simp only [InOrder] at ho
    simp only [freshAfter]
    simp only [lineAfter] at hl
    simp only [numberAfter] at hn
    have hjp : st'.rs.justPage = j.getD (signAttr d).justPage := hjp
    by_cases e : j.getD (signAttr d).justPage = (textAttr st.rs).justPage
    · rw [if_pos e] at hl hn ⊢
      exact spansTidy_same h (hjp.trans e) hjl hl hn
    · rw [if_neg e] at hl hn ⊢
      have hlt : st.rs.justPage.toNat < st'.rs.justPage.toNat := by
        rw [hjp]; exact ho.resolve_left e
      have hno : ∀ s ∈ st.spans, s.state.justPage ≠ st'.rs.justPage := by
        intro s hs e
        have := h.page s hs
        rw [e] at this; omega
      refine ⟨h.ordered, h.dense, ?_, fun s hs => Nat.le_of_lt (Nat.lt_of_le_of_lt (h.page s hs) hlt), ?_,
        by simp⟩
      · have : withJust st.spans st'.rs.justPage = [] := by
          unfold withJust; rw [List.filter_eq_nil_iff]; simpa using hno
        rw [this, hl]; exact .nil
      · intro s hs e; exact absurd e (hno s hs)
  all_goals
    rw [none hp, List.append_nil]
    refine spansTidy_same h ?_ ?_ hl hn
    · first | exact hjp | (rename_i f; cases f <;> exact hjp)
    · first | exact hjl | (rename_i f; cases f <;> exact hjl)

theorem allDense_of {spans} (h : ∀ p, ∃ n, Dense 0 (withJust spans p) n) : AllDense spans := fun s _ => h s.state.justPage

/-- the spans of a section are its pieces; those of a tidy section are in order -/
theorem rtrLoop_section {d po} {ss : List Str} {st st' rest'} (hd : SignState d (RenderState.new d) st.rs)
    (h : rtrLoop d (RenderState.new d) po ss st = .ok (.ok (), st', rest')) :
    ∃ vs, Section ss vs ∧ (∃ new, st'.spans = st.spans ++ new ∧ new.map pieceOf =
        pieces (signAttr d) (textAttr st.rs) st.rs.lineSpacing st.rs.lineNumber st.lineBlank vs) ∧
      ∀ fresh, SpansTidy st.rs st.spans fresh st.lineBlank →
        Tidy (signAttr d) (textAttr st.rs) fresh st.lineBlank vs → Ordered st'.spans ∧ AllDense st'.spans := by
  induction ss generalizing st with
  | nil =>
    simp only [rtrLoop, Res.ok.injEq, Prod.mk.injEq, true_and] at h
    obtain ⟨rfl, rfl⟩ := h
    exact ⟨[], .nil, ⟨[], by simp, rfl⟩, fun fresh h _ => ⟨h.ordered, allDense_of h.dense⟩⟩
  | cons s ss ih =>
    unfold rtrLoop at h
    split at h
    · simp at h
    · simp at h
    · rename_i v hv
      split at h
      · simp at h
      · rename_i st1 h1
        have hk := rtrStep_section.1 h1
        have hss := rtrStep_spans h1
        obtain ⟨a1, _, a3⟩ := rtrStep_attr hd h1
        obtain ⟨vs, i1, ⟨new, i2, i3⟩, i4⟩ := ih a3 h
        obtain ⟨new1, b1, _, b2⟩ := hss.spans
        refine ⟨v :: vs, .cons hv hk.1 hk.2 i1, ⟨new1 ++ new, ?_, ?_⟩, ?_⟩
        · rw [i2, b1, List.append_assoc]
        · rw [List.map_append, b2, i3, pieces, a1, hss.spacing, hss.line, hss.blank]
        · intro fresh h0 ht
          simp only [Tidy] at ht
          refine i4 _ (tidy_step h0 hss a1 ht.1) ?_
          rw [a1, hss.blank]
          exact ht.2
      · rename_i st1 h1
        obtain ⟨hk, hsp⟩ := rtrStep_section.2 h1
        simp only [Res.ok.injEq, Prod.mk.injEq, true_and] at h
        obtain ⟨rfl, rfl⟩ := h
        refine ⟨[], ?_, ⟨[], by simp [hsp], rfl⟩, fun fresh h _ => ?_⟩
        · rcases hk with rfl | ⟨r, rfl⟩
          · exact .np hv
          · exact .tr hv
        · rw [hsp]; exact ⟨h.ordered, allDense_of h.dense⟩
      · simp at h

/-- the numbers of the spans of a section -/
theorem rtrLoop_numbers {d po} {ss : List Str} {st st' rest'} (hd : SignState d (RenderState.new d) st.rs)
    (h : rtrLoop d (RenderState.new d) po ss st = .ok (.ok (), st', rest')) :
    ∃ vs, Section ss vs ∧ ∃ new, st'.spans = st.spans ++ new ∧ new.map (·.state.spanNumber) =
        numbers (signAttr d) (textAttr st.rs) st.rs.spanNumber st.lineBlank vs := by
  induction ss generalizing st with
  | nil =>
    simp only [rtrLoop, Res.ok.injEq, Prod.mk.injEq, true_and] at h
    obtain ⟨rfl, rfl⟩ := h
    exact ⟨[], .nil, [], by simp, rfl⟩
  | cons s ss ih =>
    unfold rtrLoop at h
    split at h
    · simp at h
    · simp at h
    · rename_i v hv
      split at h
      · simp at h
      · rename_i st1 h1
        have hk := rtrStep_section.1 h1
        have hss := rtrStep_spans h1
        obtain ⟨a1, _, a3⟩ := rtrStep_attr hd h1
        obtain ⟨vs, i1, new, i2, i3⟩ := ih a3 h
        obtain ⟨new1, b1, b2, b3⟩ := hss.spans
        refine ⟨v :: vs, .cons hv hk.1 hk.2 i1, new1 ++ new, ?_, ?_⟩
        · rw [i2, b1, List.append_assoc]
        · have hlen : ∀ sp l, (piece (textAttr st.rs) sp l st.lineBlank v).length = new1.length := by
            intro sp l
            rw [← List.length_map (as := new1) (f := pieceOf), b3]
            unfold piece
            split <;> first | rfl | (split <;> rfl)
          have hn : new1.map (·.state.spanNumber) = List.replicate new1.length st.rs.spanNumber := by
            rw [List.eq_replicate_iff]
            refine ⟨by simp, fun n hn => ?_⟩
            obtain ⟨x, hx, rfl⟩ := List.mem_map.1 hn
            rw [b2 x hx]
          rw [List.map_append, i3, numbers, a1, hss.number, hss.blank, hn, List.map_const', hlen]
      · rename_i st1 h1
        obtain ⟨hk, hsp⟩ := rtrStep_section.2 h1
        simp only [Res.ok.injEq, Prod.mk.injEq, true_and] at h
        obtain ⟨rfl, rfl⟩ := h
        refine ⟨[], ?_, [], by simp [hsp], rfl⟩
        rcases hk with rfl | ⟨r, rfl⟩
        · exact .np hv
        · exact .tr hv
      · simp at h

end Ntcip
