import Verif.Lemmas.Rects
import Verif.Props.Escape
/-
Invariants of the render state.
-/
namespace Ntcip
open Spec

theorem updateTextRectangle_some {d : Dms} {r r' : Rectangle} {W H : UInt16}
    (h : updateTextRectangle d ⟨1, 1, W, H⟩ r = .ok (some r')) :
    (RectIn r' W.toNat H.toNat ∧ Aligned d r') ∧ r'.width.toNat % signCellWidth d = 0 ∧
      r'.height.toNat % signCellHeight d = 0 := by
  have e1 : (1:UInt16).toNat = 1 := rfl
  unfold updateTextRectangle at h
  dsimp only at h
  generalize r.extendWidthHeight ⟨1, 1, W, H⟩ = q at h
  simp only [Res.bind_eq_ok] at h
  obtain ⟨i, hi, h⟩ := h
  split at h
  · simp at h
  · rename_i hiq
    obtain rfl : i = q := by simpa using hiq
    simp only [Res.bind_eq_ok, sub16_ok] at h
    obtain ⟨_, ⟨hx, rfl⟩, h⟩ := h
    split at h
    · simp at h
    · rename_i c1
      simp only [Res.bind_eq_ok, sub16_ok] at h
      obtain ⟨_, ⟨hy, rfl⟩, h⟩ := h
      split at h
      · simp at h
      · rename_i c2
        simp only [Res.pure_eq, Res.ok.injEq, Option.some.injEq] at h
        subst h
        simp only [cellWidth_eq, cellHeight_eq] at c1 c2
        refine ⟨⟨?_, by omega, by omega⟩, by omega, by omega⟩
        unfold Rectangle.intersection at hi
        simp only [addU16_checked, e1] at hi
        simp only [Res.bind_eq_ok] at hi
        obtain ⟨a, ha, b, hb, c, hc, e, he, hi⟩ := hi
        split at ha <;> simp only [Res.ok.injEq, reduceCtorEq] at ha
        split at hb <;> simp only [Res.ok.injEq, reduceCtorEq] at hb
        split at hc <;> simp only [Res.ok.injEq, reduceCtorEq] at hc
        split at he <;> simp only [Res.ok.injEq, reduceCtorEq] at he
        rename_i l1 l2 l3 l4
        have ax : a.toNat = i.x.toNat + i.width.toNat := by rw [← ha, UInt16.toNat_add]; omega
        have ay : c.toNat = i.y.toNat + i.height.toNat := by rw [← hc, UInt16.toNat_add]; omega
        have aW : b.toNat = 1 + W.toNat := by rw [← hb, UInt16.toNat_add, e1]; omega
        have aH : e.toNat = 1 + H.toNat := by rw [← he, UInt16.toNat_add, e1]; omega
        split at hi
        · rename_i hlt
          simp only [u16_gt, u16_max, u16_min, ax, ay, aW, aH, e1] at hlt
          simp only [Res.pure_eq, Res.ok.injEq] at hi
          rw [rect_eq] at hi
          dsimp only at hi
          rw [u16_sub (by simp only [u16_max, u16_min, ax, aW, e1]; omega),
            u16_sub (by simp only [u16_max, u16_min, ay, aH, e1]; omega)] at hi
          simp only [u16_max, u16_min, ax, ay, aW, aH, e1] at hi
          exact ⟨by omega, by omega, by omega, by omega⟩
        · simp only [Res.pure_eq, Res.ok.injEq] at hi
          subst hi
          exact ⟨by decide, by decide, Nat.zero_le _, Nat.zero_le _⟩

/-- What holds of the state on a sign with character cells: if they fill the sign, they fill the text rectangle;
there is no spacing between characters -/
structure Spec.CellState (d : Dms) (rs : RenderState) : Prop where
  width : d.vmsCfg.signWidthPixels.toNat % signCellWidth d = 0 → rs.textRectangle.width.toNat % signCellWidth d = 0
  height : d.vmsCfg.signHeightPixels.toNat % signCellHeight d = 0 →
    rs.textRectangle.height.toNat % signCellHeight d = 0
  spacing : 0 < d.vmsCfg.charWidthPixels.toNat → ∀ c, rs.charSpacing = some c → c.toNat = 0

/-- What holds of the state along the pages of any message -/
structure Spec.StateOk (d : Dms) (rs : RenderState) : Prop where
  rectIn : RectIn rs.textRectangle d.vmsCfg.signWidthPixels.toNat d.vmsCfg.signHeightPixels.toNat
  aligned : Aligned d rs.textRectangle
  font : 1 ≤ d.multiCfg.defaultFont.toNat → 1 ≤ rs.fontNum.toNat
  justPage : d.multiCfg.defaultJustificationPage ≠ .other → rs.justPage ≠ .other
  justLine : d.multiCfg.defaultJustificationLine ≠ .other ∧ d.multiCfg.defaultJustificationLine ≠ .full →
    rs.justLine ≠ .other ∧ rs.justLine ≠ .full
  charSpacing : ∀ c, rs.charSpacing = some c → c.toNat ≤ 99
  lineSpacing : ∀ c, rs.lineSpacing = some c → c.toNat ≤ 9
  cells : CellState d rs

theorem rectIn_full (d : Dms) : RectIn (RenderState.new d).textRectangle d.vmsCfg.signWidthPixels.toNat d.vmsCfg.signHeightPixels.toNat ∧
    Aligned d (RenderState.new d).textRectangle := by
  have e1 : (1:UInt16).toNat = 1 := rfl
  refine ⟨⟨Nat.le_refl 1, Nat.le_refl 1, ?_, ?_⟩, ⟨?_, ?_⟩⟩
  · show (1:UInt16).toNat - 1 + _ ≤ _; rw [e1]; simp [RenderState.new]
  · show (1:UInt16).toNat - 1 + _ ≤ _; rw [e1]; simp [RenderState.new]
  · show ((1:UInt16).toNat - 1) % _ = 0; rw [e1]; simp
  · show ((1:UInt16).toNat - 1) % _ = 0; rw [e1]; simp

theorem stateOk_new (d : Dms) : StateOk d (RenderState.new d) :=
  ⟨(rectIn_full d).1, (rectIn_full d).2, fun h => h, fun h => h, fun h => h, by simp [RenderState.new],
    by simp [RenderState.new], fun h => h, fun h => h, fun _ => by simp [RenderState.new]⟩

/-- number of code points that spans take at least -/
def Spec.spansWeight (ss : List Span) : Nat := (ss.map fun s => max 1 s.str.length).sum

/-- one round of the loop of `render_text_rectangle`, for the item `t` with value `v` -/
structure StepOk (d : Dms) (t : Str) (st st' : Rtr) : Prop where
  state : StateOk d st.rs → StateOk d st'.rs
  spans : st'.spans = st.spans ∨ ∃ str, st'.spans = st.spans ++ [⟨st.rs, str⟩] ∧
    (∀ ch ∈ str, ch.toNat ≠ 0) ∧ max 1 str.length ≤ t.length
  lines : st'.rs.lineNumber ≤ st.rs.lineNumber + 1
  spanNumbers : st'.rs.spanNumber ≤ st.rs.spanNumber + 1

theorem chk8_ok {n m : Nat} : chk8 n = .ok m ↔ n = m ∧ n < 256 := by
  unfold chk8; split <;> simp <;> omega

theorem charFromU32_toNat {n : Nat} {c : Char} (h : charFromU32 n = some c) : c.toNat = n := by
  unfold charFromU32 at h
  split at h
  · rename_i hv
    simp only [Option.some.injEq] at h
    subst h
    have : n.isValidChar := by rcases hv with hv | hv; exact .inl hv; exact .inr hv
    simp [Char.ofNat, this, Char.toNat, Char.ofNatAux]
  · simp at h

theorem item_length {t : Str} (ht : Item t) : 1 ≤ t.length := by
  have := item_ne_nil ht
  cases t with
  | nil => simp at this
  | cons a b => simp

theorem text_ok {t s : Str} (h : tryFrom t = .ok (.ok (.text s))) (ht : Item t) :
    max 1 s.length ≤ t.length ∧ ∀ ch ∈ s, ch.toNat ≠ 0 := by
  have h1 := item_length ht
  cases (tryFrom_text ht).1 h with
  | escOpen => exact ⟨by decide, by decide⟩
  | escClose => exact ⟨by decide, by decide⟩
  | span _ hn hp hv => exact ⟨by omega, fun c hc => by have := hv c hc; omega⟩

theorem rtrStep_ok {d : Dms} {po st t v c st'} (ht : Item t) (hv : tryFrom t = .ok (.ok v))
    (h : rtrStep d (RenderState.new d) po st v = .ok (c, st')) : StepOk d t st st' := by
  have hr := C04_in_range t v ht hv
  have h1 := item_length ht
  unfold rtrStep at h
  split at h <;> dsimp only at h
  · split at h
    · simp only [Res.ok.injEq, Prod.mk.injEq] at h
      obtain ⟨_, rfl⟩ := h
      exact ⟨fun h => ⟨h.1, h.2, h.3, h.4, h.5, h.6, h.7, h.8.1, h.8.2, h.8.3⟩, .inl rfl, Nat.le_succ _, Nat.le_succ _⟩
    · simp only [Res.ok.injEq, Prod.mk.injEq] at h
      obtain ⟨_, rfl⟩ := h
      exact ⟨id, .inl rfl, Nat.le_succ _, Nat.le_succ _⟩
  · simp only [Res.ok.injEq, Prod.mk.injEq] at h
    obtain ⟨_, rfl⟩ := h
    exact ⟨fun h => ⟨h.1, h.2, fun h => h, h.4, h.5, h.6, h.7, h.8.1, h.8.2, h.8.3⟩, .inl rfl, Nat.le_succ _, Nat.le_succ _⟩
  · simp only [Res.ok.injEq, Prod.mk.injEq] at h
    obtain ⟨_, rfl⟩ := h
    exact ⟨fun h => ⟨h.1, h.2, fun _ => hr _ _ rfl, h.4, h.5, h.6, h.7, h.8.1, h.8.2, h.8.3⟩, .inl rfl, Nat.le_succ _, Nat.le_succ _⟩
  · simp only [Res.ok.injEq, Prod.mk.injEq] at h
    obtain ⟨_, rfl⟩ := h
    exact ⟨id, .inl rfl, Nat.le_succ _, Nat.le_succ _⟩
  · simp only [Res.ok.injEq, Prod.mk.injEq] at h
    obtain ⟨_, rfl⟩ := h
    exact ⟨id, .inl rfl, Nat.le_succ _, Nat.le_succ _⟩
  · rename_i jl n1 n2
    simp only [Res.ok.injEq, Prod.mk.injEq] at h
    obtain ⟨_, rfl⟩ := h
    refine ⟨fun h => ⟨h.1, h.2, h.3, h.4, fun hd => ?_, h.6, h.7, h.8.1, h.8.2, h.8.3⟩, .inl rfl, Nat.le_succ _, Nat.zero_le _⟩
    cases jl with
    | none => exact hd
    | some j => cases j <;> simp_all
  · simp only [Res.ok.injEq, Prod.mk.injEq] at h
    obtain ⟨_, rfl⟩ := h
    exact ⟨id, .inl rfl, Nat.le_succ _, Nat.le_succ _⟩
  · rename_i jp n1
    split at h <;> simp only [Res.ok.injEq, Prod.mk.injEq] at h <;> obtain ⟨_, rfl⟩ := h
    · refine ⟨fun h => ⟨h.1, h.2, h.3, fun hd => ?_, h.5, h.6, h.7, h.8.1, h.8.2, h.8.3⟩, .inl rfl, Nat.zero_le _, Nat.zero_le _⟩
      cases jp with
      | none => exact hd
      | some j => cases j <;> simp_all
    · exact ⟨id, .inl rfl, Nat.le_succ _, Nat.le_succ _⟩
  · split at h
    · simp only [Res.ok.injEq, Prod.mk.injEq] at h
      obtain ⟨_, rfl⟩ := h
      exact ⟨id, .inl rfl, Nat.le_succ _, Nat.le_succ _⟩
    · simp only [Res.bind_eq_ok, Res.pure_eq, Res.ok.injEq, Prod.mk.injEq, chk8_ok] at h
      obtain ⟨ln, ⟨rfl, hlt⟩, _, rfl⟩ := h
      refine ⟨fun h => ⟨h.1, h.2, h.3, h.4, h.5, h.6, fun c hc => hr c hc, h.8.1, h.8.2, h.8.3⟩, ?_, Nat.le_refl _, Nat.zero_le _⟩
      dsimp only
      split
      · exact .inr ⟨[], rfl, by simp, by simpa using h1⟩
      · exact .inl rfl
  · simp only [Res.ok.injEq, Prod.mk.injEq] at h
    obtain ⟨_, rfl⟩ := h
    exact ⟨id, .inl rfl, Nat.le_succ _, Nat.le_succ _⟩
  · split at h <;> simp only [Res.ok.injEq, Prod.mk.injEq] at h <;> obtain ⟨_, rfl⟩ := h
    · exact ⟨id, .inl rfl, Nat.le_succ _, Nat.le_succ _⟩
    · rename_i hsc _
      refine ⟨fun h => ⟨h.1, h.2, h.3, h.4, h.5, fun c hc => ?_, h.7, h.8.1, h.8.2, fun hw c hc => ?_⟩, .inl rfl,
        Nat.le_succ _, Nat.le_succ _⟩
      · simp only [Option.some.injEq] at hc; subst hc; exact hr
      · simp only [Option.some.injEq] at hc; subst hc
        simp only [GT.gt, UInt8.lt_iff_toNat_lt] at hsc
        have e0 : (0:UInt8).toNat = 0 := rfl
        rw [e0] at hsc
        have hw : 0 < d.charWidth.toNat := hw
        omega
  · simp only [Res.ok.injEq, Prod.mk.injEq] at h
    obtain ⟨_, rfl⟩ := h
    exact ⟨fun h => ⟨h.1, h.2, h.3, h.4, h.5, by simp, h.7, h.8.1, h.8.2, fun _ => by simp⟩, .inl rfl, Nat.le_succ _, Nat.le_succ _⟩
  · simp only [Res.bind_eq_ok] at h
    obtain ⟨o, ho, h⟩ := h
    cases o with
    | none =>
      simp only [Res.pure_eq, Res.ok.injEq, Prod.mk.injEq] at h
      obtain ⟨_, rfl⟩ := h
      exact ⟨id, .inl rfl, Nat.le_succ _, Nat.le_succ _⟩
    | some r' =>
      simp only [Res.pure_eq, Res.ok.injEq, Prod.mk.injEq] at h
      obtain ⟨_, rfl⟩ := h
      obtain ⟨⟨u1, u2⟩, u3, u4⟩ := updateTextRectangle_some ho
      exact ⟨fun h => ⟨u1, u2, h.3, h.4, h.5, h.6, h.7, fun _ => u3, fun _ => u4, h.8.3⟩, .inl rfl, Nat.zero_le _, Nat.zero_le _⟩
  · simp only [Res.bind_eq_ok, Res.pure_eq, Res.ok.injEq, Prod.mk.injEq, chk8_ok] at h
    obtain ⟨ln, ⟨rfl, hlt⟩, _, rfl⟩ := h
    obtain ⟨t1, t2⟩ := text_ok hv ht
    exact ⟨fun h => ⟨h.1, h.2, h.3, h.4, h.5, h.6, h.7, h.8.1, h.8.2, h.8.3⟩, .inr ⟨_, rfl, t2, t1⟩, Nat.le_succ _, Nat.le_refl _⟩
  · split at h
    · rename_i c hc
      simp only [Res.bind_eq_ok, Res.pure_eq, Res.ok.injEq, Prod.mk.injEq, chk8_ok] at h
      obtain ⟨ln, ⟨rfl, hlt⟩, _, rfl⟩ := h
      refine ⟨fun h => ⟨h.1, h.2, h.3, h.4, h.5, h.6, h.7, h.8.1, h.8.2, h.8.3⟩, .inr ⟨_, rfl, ?_, ?_⟩, Nat.le_succ _, Nat.le_refl _⟩
      · split
        · simp
        · rename_i h0
          intro ch hch
          simp only [List.mem_singleton] at hch
          subst hch
          rw [charFromU32_toNat hc]
          exact fun e => h0 (UInt16.toNat_inj.1 (by simpa using e))
      · split <;> simpa using h1
    · simp only [Res.ok.injEq, Prod.mk.injEq] at h
      obtain ⟨_, rfl⟩ := h
      exact ⟨id, .inl rfl, Nat.le_succ _, Nat.le_succ _⟩
  · simp only [Res.ok.injEq, Prod.mk.injEq] at h
    obtain ⟨_, rfl⟩ := h
    exact ⟨id, .inl rfl, Nat.le_succ _, Nat.le_succ _⟩

/-- the loop of `render_text_rectangle` -/
theorem rtrLoop_state {d : Dms} {po ss st x st' rest} (hs : ∀ t ∈ ss, Item t)
    (h : rtrLoop d (RenderState.new d) po ss st = .ok (x, st', rest)) (h0 : StateOk d st.rs) :
    StateOk d st'.rs ∧
    ((∀ s ∈ st.spans, StateOk d s.state ∧ ∀ ch ∈ s.str, ch.toNat ≠ 0) →
      ∀ s ∈ st'.spans, StateOk d s.state ∧ ∀ ch ∈ s.str, ch.toNat ≠ 0) ∧
    spansWeight st'.spans + rest.flatten.length ≤ spansWeight st.spans + ss.flatten.length := by
  induction ss generalizing st with
  | nil =>
    simp only [rtrLoop, Res.ok.injEq, Prod.mk.injEq] at h
    obtain ⟨_, rfl, rfl⟩ := h
    exact ⟨h0, id, Nat.le_refl _⟩
  | cons t ss ih =>
    have ht := hs t (List.mem_cons_self ..)
    have hs' := fun t h => hs t (List.mem_cons_of_mem _ h)
    have one : ∀ {v c st1}, tryFrom t = .ok (.ok v) → rtrStep d (RenderState.new d) po st v = .ok (c, st1) →
        StateOk d st1.rs ∧
        ((∀ s ∈ st.spans, StateOk d s.state ∧ ∀ ch ∈ s.str, ch.toNat ≠ 0) →
          ∀ s ∈ st1.spans, StateOk d s.state ∧ ∀ ch ∈ s.str, ch.toNat ≠ 0) ∧
        spansWeight st1.spans ≤ spansWeight st.spans + t.length := by
      intro v c st1 hv h1
      have k := rtrStep_ok ht hv h1
      refine ⟨k.state h0, fun hall s hsm => ?_, ?_⟩
      · rcases k.spans with e | ⟨str, e, e2, _⟩
        · rw [e] at hsm; exact hall s hsm
        · rw [e] at hsm
          rcases List.mem_append.1 hsm with hsm | hsm
          · exact hall s hsm
          · simp only [List.mem_singleton] at hsm; subst hsm
            exact ⟨h0, e2⟩
      · rcases k.spans with e | ⟨str, e, _, e3⟩
        · rw [e]; omega
        · rw [e]; simp only [spansWeight, List.map_append, List.map_cons, List.map_nil, List.sum_append,
            List.sum_cons, List.sum_nil]; omega
    unfold rtrLoop at h
    split at h
    · simp at h
    · simp only [Res.ok.injEq, Prod.mk.injEq] at h
      obtain ⟨_, rfl, rfl⟩ := h
      exact ⟨h0, id, by simp⟩
    · rename_i v hv
      split at h
      · simp at h
      · rename_i st1 h1
        obtain ⟨a1, a2, a3⟩ := one hv h1
        obtain ⟨b1, b2, b3⟩ := ih hs' h a1
        exact ⟨b1, fun hh => b2 (a2 hh), by simp only [List.flatten_cons, List.length_append]; omega⟩
      · rename_i st1 h1
        obtain ⟨a1, a2, a3⟩ := one hv h1
        simp only [Res.ok.injEq, Prod.mk.injEq] at h
        obtain ⟨_, rfl, rfl⟩ := h
        exact ⟨a1, a2, by simp only [List.flatten_cons, List.length_append]; omega⟩
      · rename_i st1 h1
        obtain ⟨a1, a2, a3⟩ := one hv h1
        simp only [Res.ok.injEq, Prod.mk.injEq] at h
        obtain ⟨_, rfl, rfl⟩ := h
        exact ⟨a1, a2, by simp only [List.flatten_cons, List.length_append]; omega⟩

/-- What holds of the iterator along the pages of any message -/
structure Spec.PagesOk (d : Dms) (pg : Pages) : Prop where
  default : pg.defaultState = RenderState.new d
  state : StateOk d pg.renderState
  items : ∀ t ∈ pg.values, Item t

theorem pagesOk_new (d : Dms) (ms : Str) : PagesOk d (Pages.new d ms) :=
  ⟨rfl, stateOk_new d, slices_items ms⟩

theorem renderTextRectangle_state {d pg raster x pg'} (hp : PagesOk d pg)
    (h : renderTextRectangle d pg raster = .ok (x, pg')) : PagesOk d pg' := by
  unfold renderTextRectangle at h
  simp only [Res.bind_eq_ok] at h
  obtain ⟨⟨y, st, values⟩, h1, h2⟩ := h
  have key : pg' = ⟨pg.defaultState, st.rs, st.pageState, values, st.spans⟩ := by
    cases y with
    | error e => simp only [Res.pure_eq, Res.ok.injEq, Prod.mk.injEq] at h2; exact h2.2.symm
    | ok u =>
      simp only at h2
      split at h2
      · simp at h2
      · simp only [Res.pure_eq, Res.ok.injEq, Prod.mk.injEq] at h2; exact h2.2.symm
      · simp only [Res.pure_eq, Res.ok.injEq, Prod.mk.injEq] at h2; exact h2.2.symm
  subst key
  have hsuf := rtrLoop_suffix h1
  rw [hp.default] at h1
  exact ⟨hp.default, (rtrLoop_state hp.items h1 hp.state).1, fun t ht => hp.items t (hsuf.subset ht)⟩

theorem onPageLoop_state {d fuel n pg raster x pg'} (hp : PagesOk d pg)
    (h : onPageLoop d fuel n pg raster = .ok (x, pg')) : PagesOk d pg' := by
  induction fuel generalizing n pg raster with
  | zero =>
    simp only [onPageLoop, Res.ok.injEq, Prod.mk.injEq] at h
    obtain ⟨_, rfl⟩ := h; exact hp
  | succ fuel ih =>
    rw [onPageLoop] at h
    split at h
    · split at h
      · simp at h
      · simp only [Res.ok.injEq, Prod.mk.injEq] at h
        obtain ⟨_, rfl⟩ := h; exact hp
      · simp only [Res.bind_eq_ok] at h
        obtain ⟨⟨y, pg1⟩, h1, h2⟩ := h
        have k1 := renderTextRectangle_state hp h1
        cases y with
        | error e =>
          simp only [Res.pure_eq, Res.ok.injEq, Prod.mk.injEq] at h2
          obtain ⟨_, rfl⟩ := h2; exact k1
        | ok r =>
          simp only at h2
          split at h2
          · simp only [Res.pure_eq, Res.ok.injEq, Prod.mk.injEq] at h2
            obtain ⟨_, rfl⟩ := h2; exact k1
          · exact ih k1 h2
    · simp only [Res.ok.injEq, Prod.mk.injEq] at h
      obtain ⟨_, rfl⟩ := h; exact hp

theorem updatePageStateLoop_keep {ds : RenderState} {ss rs x rs'}
    (h : updatePageStateLoop ds ss rs = .ok (x, rs')) :
    ∃ c a b, rs' = { rs with colorCtx := c, pageOnTimeDs := a, pageOffTimeDs := b } := by
  induction ss generalizing rs with
  | nil =>
    simp only [updatePageStateLoop, Res.ok.injEq, Prod.mk.injEq] at h
    exact ⟨rs.colorCtx, rs.pageOnTimeDs, rs.pageOffTimeDs, h.2.symm⟩
  | cons t ss ih =>
    unfold updatePageStateLoop at h
    split at h
    · simp at h
    · simp only [Res.ok.injEq, Prod.mk.injEq] at h
      exact ⟨rs.colorCtx, rs.pageOnTimeDs, rs.pageOffTimeDs, h.2.symm⟩
    · split at h
      · split at h
        · obtain ⟨c, a, b, rfl⟩ := ih h; exact ⟨c, a, b, rfl⟩
        · simp only [Res.ok.injEq, Prod.mk.injEq] at h
          exact ⟨rs.colorCtx, rs.pageOnTimeDs, rs.pageOffTimeDs, h.2.symm⟩
      · split at h
        · obtain ⟨c, a, b, rfl⟩ := ih h; exact ⟨c, a, b, rfl⟩
        · simp only [Res.ok.injEq, Prod.mk.injEq] at h
          exact ⟨rs.colorCtx, rs.pageOnTimeDs, rs.pageOffTimeDs, h.2.symm⟩
      · simp only [Res.ok.injEq, Prod.mk.injEq] at h
        exact ⟨rs.colorCtx, rs.pageOnTimeDs, rs.pageOffTimeDs, h.2.symm⟩
      · obtain ⟨c, a, b, rfl⟩ := ih h; exact ⟨c, a, b, rfl⟩
      · obtain ⟨c, a, b, rfl⟩ := ih h; exact ⟨c, a, b, rfl⟩

theorem updatePageState_state {d : Dms} {rs : RenderState} {values x rs'} (h0 : StateOk d rs)
    (h : updatePageState (RenderState.new d) rs values = .ok (x, rs')) :
    StateOk d rs' ∧ rs'.textRectangle = (RenderState.new d).textRectangle ∧ rs'.lineNumber = 0 ∧
      rs'.spanNumber = 0 := by
  unfold updatePageState at h
  obtain ⟨c, a, b, rfl⟩ := updatePageStateLoop_keep h
  exact ⟨⟨(rectIn_full d).1, (rectIn_full d).2, h0.3, h0.4, h0.5, h0.6, by simp [RenderState.new],
    fun h => h, fun h => h, h0.8.3⟩, rfl, rfl, rfl⟩

theorem renderOnPage_state {d pg x pg'} (hp : PagesOk d pg) (h : renderOnPage d pg = .ok (x, pg')) :
    PagesOk d pg' := by
  unfold renderOnPage at h
  split at h
  · simp at h
  · simp only [Res.ok.injEq, Prod.mk.injEq] at h
    obtain ⟨_, rfl⟩ := h; exact hp
  · simp only [Res.bind_eq_ok] at h
    obtain ⟨⟨y, rs⟩, h1, h2⟩ := h
    rw [hp.default] at h1
    have k := (updatePageState_state hp.state h1).1
    cases y with
    | error e =>
      simp only [Res.pure_eq, Res.ok.injEq, Prod.mk.injEq] at h2
      obtain ⟨_, rfl⟩ := h2; exact ⟨hp.default, k, hp.items⟩
    | ok u =>
      simp only [Res.bind_eq_ok] at h2
      obtain ⟨⟨y, pg1⟩, h3, h4⟩ := h2
      have k2 := onPageLoop_state (pg := ⟨pg.defaultState, rs, .on false, pg.values, pg.spans⟩)
        ⟨hp.default, k, hp.items⟩ h3
      cases y <;> simp only [Res.pure_eq, Res.ok.injEq, Prod.mk.injEq] at h4 <;> obtain ⟨_, rfl⟩ := h4 <;>
        exact k2

theorem next_state {d pg x pg'} (hp : PagesOk d pg) (h : Pages.next d pg = .ok (x, pg')) : PagesOk d pg' := by
  cases x with
  | none => rw [(next_none h).2]; exact hp
  | some x =>
    rcases next_cases h with ⟨_, h1⟩ | ⟨_, _, _, rfl⟩
    · exact renderOnPage_state hp h1
    · exact ⟨hp.default, hp.state, hp.items⟩

theorem steps_state {d pg xs pg'} (h : Steps d pg xs pg') (hp : PagesOk d pg) : PagesOk d pg' := by
  induction h with
  | nil => exact hp
  | cons hn _ ih => exact ih (next_state hp hn)

end Ntcip
