import Verif.Spec.Push
import Verif.Props.Pad
import Verif.Props.Justify
import Verif.Lemmas.Stack

/-! Lemmas for `C138`: another text on a line. -/

namespace Ntcip

open Spec

/-- the span with another text -/
def restr (b : Str) (s : Span) : Span := { s with str := b }

theorem before_prev {t own s T n} (b : Str) (h : BeforeAt t own (some s) T n) : BeforeAt t own (some (restr b s)) T n := by
  cases h with
  | nil => exact .nil
  | next hg hw h => exact .next hg hw h

theorem width_prev {t s T n} (b : Str) (h : LineWidth t (some s) T n) : LineWidth t (some (restr b s)) T n := by
  cases h with
  | nil => exact .nil
  | next hg hw h => exact .next hg hw h

/-- what is before a text, with another text on the line -/
theorem before_restr {t own T s w w'} {b : Str} (hw : SpanWidth t s w) (hw' : SpanWidth t (restr b s) w') :
    ∀ {B p n}, BeforeAt t own p (B ++ s :: T) n → ∃ m, n = m + (if s.state.spanNumber < own then w else 0) ∧
      BeforeAt t own p (B ++ restr b s :: T) (m + if s.state.spanNumber < own then w' else 0) := by
  intro B
  induction B with
  | nil =>
    intro p n h
    cases h with
    | first k1 k2 =>
      rename_i w1 n1
      obtain rfl := spanWidth_unique k1 hw
      refine ⟨n1, by omega, ?_⟩
      have := BeforeAt.first (own := own) hw' (before_prev b k2)
      rw [Nat.add_comm] at this
      exact this
    | next k0 k1 k2 =>
      rename_i p g w1 n1
      obtain rfl := spanWidth_unique k1 hw
      refine ⟨(if s.state.spanNumber ≤ own then g else 0) + n1, by omega, ?_⟩
      have := BeforeAt.next (own := own) (s := restr b s) k0 hw' (before_prev b k2)
      have e : ∀ a b c : Nat, a + b + c = a + c + b := by omega
      rw [e] at this
      exact this
  | cons u B ih =>
    intro p n h
    cases h with
    | first k1 k2 =>
      obtain ⟨m, e, k⟩ := ih k2
      subst e
      refine ⟨_ + m, (Nat.add_assoc ..).symm, ?_⟩
      rw [Nat.add_assoc]
      exact .first k1 k
    | next k0 k1 k2 =>
      obtain ⟨m, e, k⟩ := ih k2
      subst e
      refine ⟨_ + m, (Nat.add_assoc ..).symm, ?_⟩
      rw [Nat.add_assoc]
      exact .next k0 k1 k

/-- the width of a line with another text on it -/
theorem width_restr {t T s w w'} {b : Str} (hw : SpanWidth t s w) (hw' : SpanWidth t (restr b s) w') :
    ∀ {B p n}, LineWidth t p (B ++ s :: T) n → ∃ m, n = m + w ∧ LineWidth t p (B ++ restr b s :: T) (m + w') := by
  intro B
  induction B with
  | nil =>
    intro p n h
    cases h with
    | first k1 k2 =>
      rename_i w1 n1
      obtain rfl := spanWidth_unique k1 hw
      refine ⟨n1, by omega, ?_⟩
      have := LineWidth.first hw' (width_prev b k2)
      rw [Nat.add_comm] at this
      exact this
    | next k0 k1 k2 =>
      rename_i p g w1 n1
      obtain rfl := spanWidth_unique k1 hw
      refine ⟨g + n1, by omega, ?_⟩
      have := LineWidth.next (s := restr b s) k0 hw' (width_prev b k2)
      have e : ∀ a b c : Nat, a + b + c = a + c + b := by omega
      rw [e] at this
      exact this
  | cons u B ih =>
    intro p n h
    cases h with
    | first k1 k2 =>
      obtain ⟨m, e, k⟩ := ih k2
      subst e
      refine ⟨_ + m, (Nat.add_assoc ..).symm, ?_⟩
      rw [Nat.add_assoc]
      exact .first k1 k
    | next k0 k1 k2 =>
      obtain ⟨m, e, k⟩ := ih k2
      subst e
      refine ⟨_ + m, (Nat.add_assoc ..).symm, ?_⟩
      rw [Nat.add_assoc]
      exact .next k0 k1 k

/-- the texts of values which stay on their line -/
theorem numbered_stays {dflt : TextAttr} {xs : List Value} : ∀ {a sp n c b}, (∀ v ∈ xs, StaysOnLine v) →
    ∃ X : List (Piece × Nat), (∀ ys, numberedPieces dflt a sp n c b (xs ++ ys) = X ++
        numberedPieces dflt (xs.foldl (TextAttr.apply dflt) a) sp n (c + X.length) (xs.foldl blankAfter b) ys) ∧
      (∀ q ∈ X, c ≤ q.2 ∧ q.2 < c + X.length ∧ q.1.line = n ∧ q.1.attr.justPage = a.justPage ∧ q.1.attr.justLine = a.justLine) ∧
      (xs.foldl (TextAttr.apply dflt) a).justPage = a.justPage ∧ (xs.foldl (TextAttr.apply dflt) a).justLine = a.justLine := by
  induction xs with
  | nil => intro a sp n c b _; exact ⟨[], by simp, by simp, rfl, rfl⟩
  | cons v xs ih =>
    intro a sp n c b h
    have hv := h v (List.mem_cons_self ..)
    have h' := fun w hw => h w (List.mem_cons_of_mem v hw)
    have jp : (TextAttr.apply dflt a v).justPage = a.justPage ∧ (TextAttr.apply dflt a v).justLine = a.justLine ∧
        spacingAfter sp v = sp ∧ lineAfter dflt a n v = n := by
      cases v <;> first
        | exact hv.elim
        | exact ⟨rfl, rfl, rfl, rfl⟩
        | (rename_i f; cases f <;> exact ⟨rfl, rfl, rfl, rfl⟩)
    obtain ⟨X, e, k, j1, j2⟩ := ih (a := TextAttr.apply dflt a v) (sp := sp) (n := n) (c := numberAfter dflt a c v)
      (b := blankAfter b v) h'
    have hd : ((piece a sp n b v).map (·, c) = [] ∧ numberAfter dflt a c v = c) ∨
        ∃ p : Piece, (piece a sp n b v).map (·, c) = [(p, c)] ∧ numberAfter dflt a c v = c + 1 ∧ p.line = n ∧ p.attr = a := by
      cases v <;> first | exact hv.elim | exact .inl ⟨rfl, rfl⟩ | exact .inr ⟨_, rfl, rfl, rfl, rfl⟩
    have u : ∀ ys, numberedPieces dflt a sp n c b (v :: xs ++ ys) = (piece a sp n b v).map (·, c) ++
        numberedPieces dflt (TextAttr.apply dflt a v) (spacingAfter sp v) (lineAfter dflt a n v) (numberAfter dflt a c v)
          (blankAfter b v) (xs ++ ys) := fun _ => rfl
    rw [jp.2.2.1, jp.2.2.2] at u
    rw [jp.1] at j1 k
    rw [jp.2.1] at j2 k
    rcases hd with ⟨h1, h2⟩ | ⟨p, h1, h2, h3, h4⟩
    · rw [h2] at k e
      refine ⟨X, fun ys => ?_, k, j1, j2⟩
      rw [u, h1, h2, e]
      rfl
    · rw [h2] at k e
      refine ⟨(p, c) :: X, fun ys => ?_, ?_, j1, j2⟩
      · rw [u, h1, h2, e, List.length_cons, Nat.add_assoc, Nat.add_comm 1]; rfl
      · intro q hq
        rcases List.mem_cons.1 hq with rfl | hq
        · simp only [List.length_cons]
          exact ⟨Nat.le_refl _, by omega, h3, by rw [h4], by rw [h4]⟩
        · have := k q hq
          simp only [List.length_cons]
          exact ⟨by omega, by omega, this.2.2⟩

theorem numbered_fst {dflt : TextAttr} (vs : List Value) : ∀ {a sp n c b},
    (numberedPieces dflt a sp n c b vs).map Prod.fst = pieces dflt a sp n b vs := by
  induction vs with
  | nil => intro a sp n c b; rfl
  | cons v vs ih =>
    intro a sp n c b
    unfold pieces numberedPieces
    rw [List.map_append, ih, List.map_map]
    congr 1
    exact List.map_id _

/-- some texts at or right of a column, as colors from that column -/
theorem over_part {t : FontTable} {part : List (Span × Nat × Nat)} {x : Nat} (h : ∀ p ∈ part, x ≤ p.2.1) (a : Raster) :
    Over (textColor t (part.map fun p => (p.1, p.2.1 - x, p.2.2))) x 0 a
      ⟨a.width, a.height, fun i j => textPx t part i j (a.px i j)⟩ := by
  refine ⟨rfl, rfl, fun i j => ?_⟩
  rw [← textColor_moved, List.map_map]
  have e : part.map ((fun p : Span × Nat × Nat => (p.1, x + p.2.1, 0 + p.2.2)) ∘ fun p => (p.1, p.2.1 - x, p.2.2)) = part := by
    refine (List.map_congr_left fun p hp => ?_).trans (List.map_id part)
    have := h p hp
    refine Prod.ext rfl (Prod.ext ?_ ?_)
    · show x + (p.2.1 - x) = p.2.1
      omega
    · show 0 + p.2.2 = p.2.2
      omega
  rw [e]
  exact textPx_color _

/-- the colors of texts end before a column -/
theorem part_ends {t : FontTable} {part : List (Span × Nat × Nat)} {x m : Nat}
    (h : ∀ p ∈ part, ∀ w, SpanWidth t p.1 w → p.2.1 - x + w ≤ m) (i j : Nat)
    (hne : textColor t (part.map fun p => (p.1, p.2.1 - x, p.2.2)) i j ≠ none) : i < m := by
  unfold textColor at hne
  split at hne
  · rename_i hl
    obtain ⟨q, hq, hl⟩ := hl
    obtain ⟨p, hp, rfl⟩ := List.mem_map.1 hq
    have hl2 := hl
    obtain ⟨f, es, m1, m2, _⟩ := hl2
    have hsw : SpanWidth t p.1 _ := ⟨f, es, m1, m2, rfl⟩
    have := lightsAt_inside hl m1 hsw
    have := h p hp _ hsw
    simp only at *
    omega
  · exact absurd rfl hne

theorem zip_placeKey (l : List Span) : l.map placeKey = List.zipWith Prod.mk (l.map pieceOf) (l.map (·.state.spanNumber)) := by
  induction l with
  | nil => rfl
  | cons a l ih => simp only [List.map_cons, List.zipWith_cons_cons, ih]; rfl

theorem before_width {t own T s} : ∀ {B p n}, BeforeAt t own p (B ++ s :: T) n → ∃ w, SpanWidth t s w := by
  intro B
  induction B with
  | nil =>
    intro p n h
    cases h with
    | first k1 _ => exact ⟨_, k1⟩
    | next _ k1 _ => exact ⟨_, k1⟩
  | cons u B ih =>
    intro p n h
    cases h with
    | first _ k2 => exact ih k2
    | next _ _ k2 => exact ih k2

theorem before_none {t own p T n} (h : BeforeAt t own p T n) (hT : ∀ s ∈ T, own < s.state.spanNumber) : n = 0 := by
  induction h with
  | nil => rfl
  | first _ _ ih =>
    have := hT _ (List.mem_cons_self ..)
    rw [if_neg (by omega), ih fun s hs => hT s (List.mem_cons_of_mem _ hs)]
  | next _ _ _ ih =>
    have := hT _ (List.mem_cons_self ..)
    rw [if_neg (by omega), if_neg (by omega), ih fun s hs => hT s (List.mem_cons_of_mem _ hs)]

/-- a text ends where the line up to it ends -/
theorem before_upto {t T s w} (hw : SpanWidth t s w) (hT : ∀ u ∈ T, s.state.spanNumber < u.state.spanNumber) :
    ∀ {B p n}, (∀ u ∈ B, u.state.spanNumber < s.state.spanNumber) → BeforeAt t s.state.spanNumber p (B ++ s :: T) n →
      LineWidth t p (B ++ [s]) (n + w) := by
  intro B
  induction B with
  | nil =>
    intro p n _ h
    cases h with
    | first k1 k2 =>
      rw [before_none k2 hT, if_neg (Nat.lt_irrefl _), Nat.zero_add]
      have := LineWidth.first hw (LineWidth.nil (prev := some s))
      simpa using this
    | next k0 k1 k2 =>
      rw [before_none k2 hT, if_neg (Nat.lt_irrefl _), if_pos (Nat.le_refl _)]
      simpa using LineWidth.next k0 hw LineWidth.nil
  | cons u B ih =>
    intro p n hB h
    have hu := hB u (List.mem_cons_self ..)
    have hB' := fun v hv => hB v (List.mem_cons_of_mem u hv)
    cases h with
    | first k1 k2 =>
      rw [if_pos hu, Nat.add_assoc]
      exact .first k1 (ih hB' k2)
    | next k0 k1 k2 =>
      rw [if_pos hu, if_pos (Nat.le_of_lt hu), Nat.add_assoc]
      exact .next k0 k1 (ih hB' k2)

/-- the texts of a line, in three parts -/
theorem line_parts {d : Dms} {t sp rect us bs tail a b} {x : Str} {J : JustificationLine} (hu : ∀ u ∈ us, PutsNothing u)
    (hc : J = .center → d.vmsCfg.charWidthPixels = 0)
    (KB KT : List (Piece × Nat)) (at0 : TextAttr) (k : Nat)
    (hK : ∀ y, numberedPieces (signAttr d) (us.foldl (TextAttr.apply (signAttr d)) t) sp 0 0 true (bs ++ .text y :: tail) =
      KB ++ (⟨at0, sp, 0, y⟩, k) :: KT)
    (hK2 : ∀ y, ∀ q ∈ KB ++ (⟨at0, sp, 0, y⟩, k) :: KT, q.1.line = 0 ∧
      q.1.attr.justPage = (us.foldl (TextAttr.apply (signAttr d)) t).justPage ∧ q.1.attr.justLine = J)
    (h : TextDrawn d t sp rect (us ++ (bs ++ .text x :: tail)) a b) :
    ∃ (pB : List (Span × Nat × Nat)) (p0 : Span × Nat × Nat) (pT : List (Span × Nat × Nat)) (n : Nat),
      (pB.map Prod.fst).map placeKey = KB ∧ placeKey p0.1 = (⟨at0, sp, 0, x⟩, k) ∧ (pT.map Prod.fst).map placeKey = KT ∧
      LineWidth d.fontDefinition none ((pB ++ p0 :: pT).map Prod.fst) n ∧ n ≤ rect.width.toNat ∧
      (∀ p ∈ pB ++ p0 :: pT, p.1.state.textRectangle = rect ∧
        p.1.state.colorCtx.foregroundRgb = foregroundRgb d (pieceOf p.1).attr.foreground ∧
        ExactY d ((pB ++ p0 :: pT).map Prod.fst) p.1 p.2.2 ∧
        ∃ m, BeforeAt d.fontDefinition p.1.state.spanNumber none ((pB ++ p0 :: pT).map Prod.fst) m ∧
          p.2.1 = lineLeft rect J n + m) ∧
      b = ⟨a.width, a.height, fun i j => textPx d.fontDefinition (pB ++ p0 :: pT) i j (a.px i j)⟩ ∧
      ((pB ++ p0 :: pT).map Prod.fst).map pieceOf = pieces (signAttr d) t sp 0 true (us ++ (bs ++ .text x :: tail)) := by
  obtain ⟨ps, p1, ⟨p2, p3⟩, p4, _, p5, _⟩ := h
  have key : (ps.map Prod.fst).map placeKey = KB ++ (⟨at0, sp, 0, x⟩, k) :: KT := by
    rw [zip_placeKey, p1, p2, (pieces_puts hu _ t sp).1, (pieces_puts hu _ t sp).2, numbered_zip, hK]
    simp
  have hone : ∀ s ∈ ps.map Prod.fst, s.state.lineNumber = 0 ∧
      s.state.justPage = (us.foldl (TextAttr.apply (signAttr d)) t).justPage ∧ s.state.justLine = J := by
    intro s hs
    exact hK2 x (placeKey s) (key ▸ List.mem_map_of_mem hs)
  have hall : ∀ a ∈ ps.map Prod.fst, ∀ b ∈ ps.map Prod.fst,
      a.state.justPage = b.state.justPage ∧ a.state.lineNumber = b.state.lineNumber := fun a ha b hb =>
    ⟨(hone a ha).2.1.trans (hone b hb).2.1.symm, (hone a ha).1.trans (hone b hb).1.symm⟩
  have key' := key
  rw [List.map_map] at key'
  obtain ⟨pB, pR, rfl, e1, e2⟩ := List.map_eq_append_iff.1 key'
  obtain ⟨p0, pT, rfl, e3, e4⟩ := List.map_eq_cons_iff.1 e2
  have m0 : p0 ∈ pB ++ p0 :: pT := List.mem_append_right _ (List.mem_cons_self ..)
  have hr := fun p hp => (p4 _ (List.mem_map_of_mem (f := Prod.fst) (a := p) hp))
  obtain ⟨w, hw, hle⟩ : ∃ w, LineWidth d.fontDefinition none ((pB ++ p0 :: pT).map Prod.fst) w ∧ w ≤ rect.width.toNat := by
    obtain ⟨n, total, h1, h2, h3, h4⟩ := (p3 p0 m0).1
    have hsl : sameLine ((pB ++ p0 :: pT).map Prod.fst) p0.1 = (pB ++ p0 :: pT).map Prod.fst := by
      refine List.filter_eq_self.2 fun y hy => ?_
      have m2 := List.mem_map_of_mem (f := Prod.fst) m0
      have := hall y hy p0.1 m2
      simp [this, (hone y hy).2.2, (hone _ m2).2.2]
    rw [hsl] at h2
    rw [(hr p0 m0).1] at h3
    exact ⟨total, h2, h3⟩
  refine ⟨pB, p0, pT, w, by rw [List.map_map]; exact e1, e3, by rw [List.map_map]; exact e4, hw, hle, fun p hp => ?_,
    textAt_iff.1 p5, p1⟩
  exact ⟨(hr p hp).1, (hr p hp).2.1, (p3 p hp).2, exactX_line hall (fun s hs => (hone s hs).2.2)
    (List.mem_map_of_mem (f := Prod.fst) hp) (hr p hp).1 hc hw (p3 p hp).1⟩

/-- another text on a line of text -/
theorem textDrawn_push {d : Dms} {t sp rect us bs tail a b b'} {x x' : Str} {J : JustificationLine}
    (hu : ∀ u ∈ us, PutsNothing u)
    (hb : ∀ v ∈ bs, StaysOnLine v) (ht : ∀ v ∈ tail, StaysOnLine v)
    (hJ : (us.foldl (TextAttr.apply (signAttr d)) t).justLine = J) (hc : J = .center → d.vmsCfg.charWidthPixels = 0)
    (h : TextDrawn d t sp rect (us ++ (bs ++ .text x :: tail)) a b)
    (h' : TextDrawn d t sp rect (us ++ (bs ++ .text x' :: tail)) a b') :
    ∃ B A A' T nb w w' n n',
      SpanWidth d.fontDefinition (spanOf d rect ⟨(us ++ bs).foldl (TextAttr.apply (signAttr d)) t, sp, 0, x⟩) w ∧
      SpanWidth d.fontDefinition (spanOf d rect ⟨(us ++ bs).foldl (TextAttr.apply (signAttr d)) t, sp, 0, x'⟩) w' ∧
      LineWidth d.fontDefinition none (layoutOf d t sp rect (us ++ (bs ++ [.text x]))) (nb + w) ∧
      LineWidth d.fontDefinition none (layoutOf d t sp rect (us ++ (bs ++ .text x :: tail))) n ∧
      LineWidth d.fontDefinition none (layoutOf d t sp rect (us ++ (bs ++ .text x' :: tail))) n' ∧
      n ≤ rect.width.toNat ∧ n' ≤ rect.width.toNat ∧ n' + w = n + w' ∧
      (∀ i j, B i j ≠ none → i < nb) ∧ (∀ i j, A i j ≠ none → i < w) ∧ (∀ i j, A' i j ≠ none → i < w') ∧
      (∀ i j, T i j ≠ none → nb + w + i < n) ∧
      InThreeParts B A T (lineLeft rect J n) nb w a b ∧ InThreeParts B A' T (lineLeft rect J n') nb w' a b' := by
  -- the keys of the texts
  obtain ⟨KB, eB, kB, jB, jB'⟩ := numbered_stays (dflt := signAttr d) (xs := bs) (a := us.foldl (TextAttr.apply (signAttr d)) t)
    (sp := sp) (n := 0) (c := 0) (b := true) hb
  rw [Nat.zero_add] at eB kB
  obtain ⟨KT, eT, kT, _⟩ := numbered_stays (dflt := signAttr d) (xs := tail)
    (a := bs.foldl (TextAttr.apply (signAttr d)) (us.foldl (TextAttr.apply (signAttr d)) t))
    (sp := sp) (n := 0) (c := KB.length + 1) (b := false) ht
  rw [jB, jB', hJ] at kT
  rw [hJ] at kB
  rw [← List.foldl_append] at eB eT
  have e0 : ∀ y ys, numberedPieces (signAttr d) ((us ++ bs).foldl (TextAttr.apply (signAttr d)) t) sp 0 KB.length
      (bs.foldl blankAfter true) (.text y :: ys) = (⟨(us ++ bs).foldl (TextAttr.apply (signAttr d)) t, sp, 0, y⟩, KB.length) ::
        numberedPieces (signAttr d) ((us ++ bs).foldl (TextAttr.apply (signAttr d)) t) sp 0 (KB.length + 1) false ys :=
    fun _ _ => rfl
  have hK : ∀ y, numberedPieces (signAttr d) (us.foldl (TextAttr.apply (signAttr d)) t) sp 0 0 true (bs ++ .text y :: tail) =
      KB ++ (⟨(us ++ bs).foldl (TextAttr.apply (signAttr d)) t, sp, 0, y⟩, KB.length) :: KT := by
    intro y
    have := eT []
    rw [List.append_nil] at this
    rw [eB, e0, this]
    simp [numberedPieces]
  have hK2 : ∀ y, ∀ q ∈ KB ++ (⟨(us ++ bs).foldl (TextAttr.apply (signAttr d)) t, sp, 0, y⟩, KB.length) :: KT, q.1.line = 0 ∧
      q.1.attr.justPage = (us.foldl (TextAttr.apply (signAttr d)) t).justPage ∧ q.1.attr.justLine = J := by
    intro y q hq
    rcases List.mem_append.1 hq with hq | hq
    · exact (kB q hq).2.2
    · rcases List.mem_cons.1 hq with rfl | hq
      · rw [List.foldl_append]; exact ⟨rfl, jB, jB'.trans hJ⟩
      · exact (kT q hq).2.2
  have up : ∀ y, (numberedPieces (signAttr d) (us.foldl (TextAttr.apply (signAttr d)) t) sp 0 0 true (bs ++ [.text y])).map Prod.fst =
      (KB ++ [((⟨(us ++ bs).foldl (TextAttr.apply (signAttr d)) t, sp, 0, y⟩ : Piece), KB.length)]).map Prod.fst := by
    intro y; rw [eB, e0]; rfl
  obtain ⟨pB, p0, pT, n, a1, a2, a3, a4, a5, a6, a7, a8⟩ := line_parts hu hc KB KT _ _ hK hK2 h
  obtain ⟨qB, q0, qT, n', b1, b2, b3, b4, b5, b6, b7, b8⟩ := line_parts hu hc KB KT _ _ hK hK2 h'
  have m0 : p0 ∈ pB ++ p0 :: pT := List.mem_append_right _ (List.mem_cons_self ..)
  have m0' : q0 ∈ qB ++ q0 :: qT := List.mem_append_right _ (List.mem_cons_self ..)
  have mB : ∀ p ∈ pB, p ∈ pB ++ p0 :: pT := fun p hp => List.mem_append_left _ hp
  have mB' : ∀ p ∈ qB, p ∈ qB ++ q0 :: qT := fun p hp => List.mem_append_left _ hp
  have mT : ∀ p ∈ pT, p ∈ pB ++ p0 :: pT := fun p hp => List.mem_append_right _ (List.mem_cons_of_mem _ hp)
  have mT' : ∀ p ∈ qT, p ∈ qB ++ q0 :: qT := fun p hp => List.mem_append_right _ (List.mem_cons_of_mem _ hp)
  have n0 : p0.1.state.spanNumber = KB.length := congrArg Prod.snd a2
  have n0' : q0.1.state.spanNumber = KB.length := congrArg Prod.snd b2
  have nB : ∀ {P : List (Span × Nat × Nat)}, (P.map Prod.fst).map placeKey = KB → ∀ p ∈ P, p.1.state.spanNumber < KB.length := by
    intro P e p hp
    exact (kB (placeKey p.1) (e ▸ List.mem_map_of_mem (List.mem_map_of_mem hp))).2.1
  have nT : ∀ {P : List (Span × Nat × Nat)}, (P.map Prod.fst).map placeKey = KT → ∀ p ∈ P, KB.length < p.1.state.spanNumber := by
    intro P e p hp
    have := (kT (placeKey p.1) (e ▸ List.mem_map_of_mem (List.mem_map_of_mem hp))).1
    exact this
  have eS : (pB ++ p0 :: pT).map Prod.fst = pB.map Prod.fst ++ p0.1 :: pT.map Prod.fst := by simp
  have eS' : (qB ++ q0 :: qT).map Prod.fst = qB.map Prod.fst ++ q0.1 :: qT.map Prod.fst := by simp
  rw [eS] at a4 a6
  rw [eS'] at b4 b6
  -- the spans with the other text
  have hp' : placeKey (restr x' p0.1) = placeKey q0.1 := by
    rw [b2]
    have c1 := congrArg Prod.fst a2
    unfold placeKey pieceOf at c1
    simp only [Piece.mk.injEq] at c1
    unfold placeKey pieceOf restr
    simp only [Prod.mk.injEq, Piece.mk.injEq, and_true]
    exact ⟨⟨c1.1, c1.2.1, c1.2.2.1⟩, n0⟩
  have hR : (pB.map Prod.fst ++ restr x' p0.1 :: pT.map Prod.fst).map placeKey =
      (qB.map Prod.fst ++ q0.1 :: qT.map Prod.fst).map placeKey := by
    simp only [List.map_append, List.map_cons, hp', a1, a3, b1, b3]
  obtain ⟨_, _, _, nb, c1, c2⟩ := a6 p0 m0
  obtain ⟨_, _, _, nb', c1', c2'⟩ := b6 q0 m0'
  obtain ⟨w, hw⟩ := before_width c1
  obtain ⟨w', hw'⟩ := before_width c1'
  have hw2 : SpanWidth d.fontDefinition (restr x' p0.1) w' := spanWidth_pieces (Prod.mk.inj hp').1.symm hw'
  obtain ⟨m, hm1, hm2⟩ := width_restr hw hw2 a4
  have hm3 := lineWidth_unique (lineWidth_pieces hm2 rfl (placeKey_pieces hR)) b4
  have refl : ∀ l : List Span, Pairwise2 (SpanNarrower []) l l := by
    intro l
    induction l with
    | nil => exact .nil
    | cons s l ih => exact .cons ⟨rfl, .inl rfl⟩ ih
  have nar : Pairwise2 (SpanNarrower []) (pB.map Prod.fst ++ p0.1 :: pT.map Prod.fst)
      (pB.map Prod.fst ++ restr x' p0.1 :: pT.map Prod.fst) :=
    pairwise2_append (refl _) (.cons ⟨rfl, .inr fun f hf => absurd hf List.not_mem_nil⟩ (refl _))
  -- where the other texts are
  have pos : ∀ p ∈ pB ++ p0 :: pT, ∀ q ∈ qB ++ q0 :: qT, placeKey p.1 = placeKey q.1 → p.2.2 = q.2.2 ∧ ∃ m,
      BeforeAt d.fontDefinition p.1.state.spanNumber none (pB.map Prod.fst ++ p0.1 :: pT.map Prod.fst)
        (m + if KB.length < p.1.state.spanNumber then w else 0) ∧
      p.2.1 = lineLeft rect J n + (m + if KB.length < p.1.state.spanNumber then w else 0) ∧
      q.2.1 = lineLeft rect J n' + (m + if KB.length < p.1.state.spanNumber then w' else 0) := by
    intro p hp q hq e
    obtain ⟨r1, _, y1, u, v1, v2⟩ := a6 p hp
    obtain ⟨r1', _, y1', u', v1', v2'⟩ := b6 q hq
    refine ⟨exactY_unique (exactY_same hR e (r1.trans r1'.symm) (exactY_narrow nar ⟨rfl, .inl rfl⟩ y1)) y1', ?_⟩
    obtain ⟨m, f1, f2⟩ := before_restr hw hw2 v1
    rw [n0] at f1 f2
    have f3 := beforeAt_placeKey f2 rfl hR
    rw [← (Prod.mk.inj e).2] at v1'
    have f4 := beforeAt_unique f3 v1'
    subst f1
    exact ⟨m, v1, v2, by rw [f4]; exact v2'⟩
  have hnb : nb = nb' := by
    obtain ⟨m, f1, f2⟩ := before_restr hw hw2 c1
    rw [if_neg (Nat.lt_irrefl _)] at f1 f2
    have f3 := beforeAt_placeKey f2 rfl hR
    rw [n0, ← n0'] at f3
    have := beforeAt_unique f3 c1'
    omega
  subst hnb
  have pastT : ∀ p ∈ pT, ∀ m, BeforeAt d.fontDefinition p.1.state.spanNumber none
      (pB.map Prod.fst ++ p0.1 :: pT.map Prod.fst) m → nb + w ≤ m := by
    intro p hp m hm
    have := nT a3 p hp
    exact before_past c1 hm (List.mem_append_right _ (List.mem_cons_self ..)) rfl (by omega) hw
  -- the same parts
  have same : ∀ (P Q : List (Span × Nat × Nat)) (z z' : Nat), (∀ p ∈ P, p ∈ pB ++ p0 :: pT) → (∀ q ∈ Q, q ∈ qB ++ q0 :: qT) →
      (P.map Prod.fst).map placeKey = (Q.map Prod.fst).map placeKey →
      (∀ p ∈ P, ∀ q ∈ Q, placeKey p.1 = placeKey q.1 → p.2.1 - z = q.2.1 - z') →
      textColor d.fontDefinition (P.map fun p => (p.1, p.2.1 - z, p.2.2)) =
        textColor d.fontDefinition (Q.map fun p => (p.1, p.2.1 - z', p.2.2)) := by
    intro P Q z z' hP hQ e hx
    funext i j
    refine textColor_same (d := d) ?_ ?_ ?_
    · have hlen : P.length = Q.length := by simpa using congrArg List.length e
      refine List.ext_getElem (by simpa using hlen) fun k k1 k2 => ?_
      simp only [List.length_map] at k1 k2
      simp only [List.getElem_map]
      have mp : P[k] ∈ P := List.getElem_mem k1
      have mq : Q[k] ∈ Q := List.getElem_mem k2
      have e : placeKey P[k].1 = placeKey Q[k].1 := by
        have := congrArg (·[k]?) e
        simpa [k1, k2] using this
      exact Prod.ext (Prod.mk.inj e).1 (Prod.ext (hx _ mp _ mq e) (pos _ (hP _ mp) _ (hQ _ mq) e).1)
    · intro p hp
      obtain ⟨q, hq, rfl⟩ := List.mem_map.1 hp
      exact (a6 _ (hP _ hq)).2.1
    · intro p hp
      obtain ⟨q, hq, rfl⟩ := List.mem_map.1 hp
      exact (b6 _ (hQ _ hq)).2.1
  have sameB := same pB qB (lineLeft rect J n) (lineLeft rect J n') mB mB' (a1.trans b1.symm) (by
    intro p hp q hq e
    obtain ⟨_, m, _, e1, e2⟩ := pos p (mB p hp) q (mB' q hq) e
    have := nB a1 p hp
    rw [if_neg (by omega)] at e1 e2
    omega)
  have sameT := same pT qT (lineLeft rect J n + nb + w) (lineLeft rect J n' + nb + w') mT mT' (a3.trans b3.symm) (by
    intro p hp q hq e
    obtain ⟨_, m, e0, e1, e2⟩ := pos p (mT p hp) q (mT' q hq) e
    have := nT a3 p hp
    have := pastT p hp _ e0
    rw [if_pos (by omega)] at e1 e2 this
    omega)
  have leT : ∀ p ∈ pT, lineLeft rect J n + nb + w ≤ p.2.1 := by
    intro p hp
    obtain ⟨_, _, _, m, e1, e2⟩ := a6 p (mT p hp)
    have := pastT p hp m e1
    omega
  have leT' : ∀ q ∈ qT, lineLeft rect J n' + nb + w' ≤ q.2.1 := by
    intro q hq
    obtain ⟨_, _, _, m, e1, e2⟩ := b6 q (mT' q hq)
    have := nT b3 q hq
    have := before_past c1' e1 (List.mem_append_right _ (List.mem_cons_self ..)) rfl (by omega) hw'
    omega
  have leB : ∀ p ∈ pB, lineLeft rect J n ≤ p.2.1 := by
    intro p hp
    obtain ⟨_, _, _, m, e1, e2⟩ := a6 p (mB p hp)
    omega
  have leB' : ∀ p ∈ qB, lineLeft rect J n' ≤ p.2.1 := by
    intro p hp
    obtain ⟨_, _, _, m, e1, e2⟩ := b6 p (mB' p hp)
    omega
  have hlay : ∀ {y : Str} {P : List (Span × Nat × Nat)} {r : Nat} {ss}, (P.map Prod.fst).map pieceOf =
      pieces (signAttr d) t sp 0 true (us ++ (bs ++ .text y :: tail)) → P.map Prod.fst = ss →
      LineWidth d.fontDefinition none ss r →
      LineWidth d.fontDefinition none (layoutOf d t sp rect (us ++ (bs ++ .text y :: tail))) r := by
    intro y P r ss e e' hl
    subst e'
    refine lineWidth_pieces hl rfl ?_
    rw [layoutOf_pieces e, List.map_map, List.map_map]
    rfl
  refine ⟨textColor d.fontDefinition (pB.map fun p => (p.1, p.2.1 - lineLeft rect J n, p.2.2)),
    textColor d.fontDefinition ([p0].map fun p => (p.1, p.2.1 - (lineLeft rect J n + nb), p.2.2)),
    textColor d.fontDefinition ([q0].map fun p => (p.1, p.2.1 - (lineLeft rect J n' + nb), p.2.2)),
    textColor d.fontDefinition (pT.map fun p => (p.1, p.2.1 - (lineLeft rect J n + nb + w), p.2.2)),
    nb, w, w', n, n', ?_, ?_, ?_, hlay a8 eS a4, hlay b8 eS' b4, a5, b5, by omega, ?_, ?_, ?_, ?_,
    ⟨_, _, over_part leB a, over_part (part := [p0]) (x := lineLeft rect J n + nb) ?_ _, ?_⟩,
    ⟨_, _, by rw [sameB]; exact over_part leB' a, over_part (part := [q0]) (x := lineLeft rect J n' + nb) ?_ _, ?_⟩⟩
  · exact spanWidth_pieces (Prod.mk.inj a2).1 hw
  · exact spanWidth_pieces (Prod.mk.inj b2).1 hw'
  · refine lineWidth_pieces (before_upto hw ?_ ?_ c1) rfl ?_
    · intro u hu
      obtain ⟨p, hp, rfl⟩ := List.mem_map.1 hu
      have := nT a3 p hp
      omega
    · intro u hu
      obtain ⟨p, hp, rfl⟩ := List.mem_map.1 hu
      have := nB a1 p hp
      omega
    · have e : pieces (signAttr d) t sp 0 true (us ++ (bs ++ [.text x])) = (pB.map Prod.fst ++ [p0.1]).map pieceOf := by
        rw [(pieces_puts hu _ t sp).1, ← numbered_fst (dflt := signAttr d) (a := us.foldl (TextAttr.apply (signAttr d)) t)
          (sp := sp) (n := 0) (c := 0) (b := true) (bs ++ [Value.text x]), up, ← a2, ← a1]
        simp [placeKey]
      unfold layoutOf
      rw [e, List.map_map, List.map_map]
      rfl
  · refine part_ends fun p hp v hv => ?_
    obtain ⟨_, _, _, m, e1, e2⟩ := a6 p (mB p hp)
    have := nB a1 p hp
    have := before_past e1 c1 (List.mem_append_left _ (List.mem_map_of_mem hp)) rfl (by omega) hv
    omega
  · refine part_ends fun p hp v hv => ?_
    rw [List.mem_singleton] at hp
    subst hp
    have := spanWidth_unique hv hw
    omega
  · refine part_ends fun p hp v hv => ?_
    rw [List.mem_singleton] at hp
    subst hp
    have := spanWidth_unique hv hw'
    omega
  · intro i j hne
    have := part_ends (m := n - (nb + w)) (fun p hp v hv => by
      obtain ⟨_, _, _, m, e1, e2⟩ := a6 p (mT p hp)
      have := pastT p hp m e1
      have := beforeAt_end e1 (List.mem_append_right _ (List.mem_cons_of_mem _ (List.mem_map_of_mem hp))) rfl hv a4
      omega) i j hne
    omega
  · intro p hp
    rw [List.mem_singleton] at hp
    subst hp
    omega
  · rw [a7]
    have := over_part (t := d.fontDefinition) leT ⟨a.width, a.height, fun i j => textPx d.fontDefinition (pB ++ [p0]) i j (a.px i j)⟩
    simp only [textPx_append] at this
    have e : pB ++ p0 :: pT = pB ++ [p0] ++ pT := by simp
    simp only [e, textPx_append]
    exact this
  · intro p hp
    rw [List.mem_singleton] at hp
    subst hp
    omega
  · rw [b7, sameT]
    have := over_part (t := d.fontDefinition) leT' ⟨a.width, a.height, fun i j => textPx d.fontDefinition (qB ++ [q0]) i j (a.px i j)⟩
    simp only [textPx_append] at this
    have e : qB ++ q0 :: qT = qB ++ [q0] ++ qT := by simp
    simp only [e, textPx_append]
    exact this

end Ntcip
