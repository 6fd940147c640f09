import Verif.Lemmas.Added
import Verif.Lemmas.Picture
import Verif.Spec.Stack
/-
Lemmas for C126: text below a new line, and text in a text rectangle which begins there.
-/
namespace Ntcip
open Spec

/-! ### pieces -/

theorem lineEnd_lines {dflt : TextAttr} (us : List Value) : (∀ j, Value.justificationPage j ∉ us) → ∀ a l,
    lineEnd dflt a l us = l + newLines us := by
  induction us with
  | nil => intro _ a l; rfl
  | cons u us ih =>
    intro h a l
    have hi := ih fun j hm => h j (List.mem_cons_of_mem _ hm)
    show lineEnd dflt _ _ us = _
    rw [hi]
    cases u <;> simp only [lineAfter, newLines]
    case newLine => omega
    case justificationPage j => exact absurd (List.mem_cons_self ..) (h j)

theorem apply_justPage {dflt a : TextAttr} {u : Value} (h : ∀ j, u ≠ .justificationPage j) :
    (TextAttr.apply dflt a u).justPage = a.justPage := by
  cases u with
  | justificationPage j => exact absurd rfl (h j)
  | font f => cases f <;> rfl
  | _ => rfl

theorem foldl_justPage {dflt : TextAttr} (us : List Value) : (∀ j, Value.justificationPage j ∉ us) → ∀ a,
    (us.foldl (TextAttr.apply dflt) a).justPage = a.justPage := by
  induction us with
  | nil => intro _ a; rfl
  | cons u us ih =>
    intro h a
    rw [List.foldl_cons, ih fun j hm => h j (List.mem_cons_of_mem _ hm)]
    exact apply_justPage fun j e => h j (e ▸ List.mem_cons_self ..)

theorem piece_line {a : TextAttr} {sp l b u} {p : Piece} (hp : p ∈ piece a sp l b u) : p.attr = a ∧ p.line = l := by
  cases u with
  | text t => simp only [piece, List.mem_singleton] at hp; subst hp; exact ⟨rfl, rfl⟩
  | hexadecimalCharacter t => simp only [piece, List.mem_singleton] at hp; subst hp; exact ⟨rfl, rfl⟩
  | newLine ls =>
    simp only [piece] at hp
    split at hp
    · simp only [List.mem_singleton] at hp; subst hp; exact ⟨rfl, rfl⟩
    · simp at hp
  | _ => simp [piece] at hp

theorem pieces_between {dflt : TextAttr} (us : List Value) : (∀ j, Value.justificationPage j ∉ us) → ∀ {a sp l b},
    ∀ p ∈ pieces dflt a sp l b us, l ≤ p.line ∧ p.line ≤ l + newLines us ∧ p.attr.justPage = a.justPage := by
  induction us with
  | nil => intro _ a sp l b p hp; simp [pieces] at hp
  | cons u us ih =>
    intro h a sp l b p hp
    have hu : ∀ j, u ≠ .justificationPage j := fun j e => h j (e ▸ List.mem_cons_self ..)
    rcases List.mem_append.1 hp with hp | hp
    · obtain ⟨rfl, rfl⟩ := piece_line hp
      exact ⟨Nat.le_refl _, by omega, rfl⟩
    · obtain ⟨h1, h2, h3⟩ := ih (fun j hm => h j (List.mem_cons_of_mem _ hm)) p hp
      rw [apply_justPage hu] at h3
      refine ⟨?_, ?_, h3⟩ <;> revert h1 h2 <;> cases u <;> simp only [lineAfter, newLines] <;>
        first | omega | (intros; exact absurd rfl (hu _))

/-- the same text on a line which is lower by `k`; on the first line, the spacing of the line may be another -/
def LoweredP (k : Nat) (p q : Piece) : Prop :=
  p.attr = q.attr ∧ p.str = q.str ∧ p.line = q.line + k ∧ (q.line ≠ 0 → p.spacing = q.spacing)

theorem pairwise2_append {α β : Type} {R : α → β → Prop} {as bs} (h : Pairwise2 R as bs) {cs ds} (h' : Pairwise2 R cs ds) :
    Pairwise2 R (as ++ cs) (bs ++ ds) := by
  induction h with
  | nil => exact h'
  | cons h1 _ ih => exact .cons h1 ih

theorem pieces_lowered {dflt : TextAttr} (k : Nat) (us : List Value) : (∀ j, Value.justificationPage j ∉ us) →
    ∀ {a s s' l b}, (l ≠ 0 → s = s') →
    Pairwise2 (LoweredP k) (pieces dflt a s (l + k) b us) (pieces dflt a s' l b us) := by
  induction us with
  | nil => intro _ a s s' l b _; exact .nil
  | cons u us ih =>
    intro h a s s' l b hs
    have hi := fun {a s s' l b} => @ih (fun j hm => h j (List.mem_cons_of_mem _ hm)) a s s' l b
    refine pairwise2_append ?_ ?_
    · cases u with
      | text t => exact .cons ⟨rfl, rfl, rfl, hs⟩ .nil
      | hexadecimalCharacter t => exact .cons ⟨rfl, rfl, rfl, hs⟩ .nil
      | newLine ls =>
        simp only [piece]
        split
        · exact .cons ⟨rfl, rfl, rfl, hs⟩ .nil
        · exact .nil
      | _ => exact .nil
    · cases u with
      | newLine ls =>
        have := @hi (TextAttr.apply dflt a (.newLine ls)) ls ls (l + 1) true fun _ => rfl
        simpa only [lineAfter, spacingAfter, blankAfter, show l + 1 + k = l + k + 1 by omega] using this
      | justificationPage j => exact absurd (List.mem_cons_self ..) (h j)
      | _ => exact hi hs

theorem numbers_split (dflt : TextAttr) (ws us : List Value) : ∀ a n b,
    ∃ n', numbers dflt a n b (us ++ ws) = numbers dflt a n b us ++
      numbers dflt (us.foldl (TextAttr.apply dflt) a) n' (us.foldl blankAfter b) ws := by
  induction us with
  | nil => intro a n b; exact ⟨n, rfl⟩
  | cons u us ih =>
    intro a n b
    obtain ⟨n', h⟩ := ih (TextAttr.apply dflt a u) (numberAfter dflt a n u) (blankAfter b u)
    refine ⟨n', ?_⟩
    show _ ++ numbers dflt _ _ _ (us ++ ws) = (_ ++ _) ++ _
    rw [h, List.append_assoc]
    rfl

theorem numbers_length (dflt : TextAttr) (us : List Value) : ∀ a sp l n b,
    (numbers dflt a n b us).length = (pieces dflt a sp l b us).length := by
  induction us with
  | nil => intros; rfl
  | cons u us ih =>
    intro a sp l n b
    unfold numbers pieces
    rw [List.length_append, List.length_append, ih _ (spacingAfter sp u) (lineAfter dflt a l u)]
    congr 1
    rw [List.length_map]
    cases u <;> first | rfl | (simp only [piece]; split <;> rfl)

/-! ### texts on other lines -/

/-- the text without its line -/
def unlined (s : Span) : Span := ⟨{ s.state with lineNumber := 0, lineSpacing := none }, s.str⟩

theorem lineWidth_unlined {t p ss n} (h : LineWidth t p ss n) : LineWidth t (p.map unlined) (ss.map unlined) n := by
  induction h with
  | nil => exact .nil
  | first h1 _ ih => exact .first h1 ih
  | next h1 h2 _ ih => exact .next h1 h2 ih

theorem lineWidth_lined {t ss n} : ∀ {p}, LineWidth t (p.map unlined) (ss.map unlined) n → LineWidth t p ss n := by
  induction ss generalizing n with
  | nil =>
    intro p h
    rw [List.map_nil] at h
    generalize p.map unlined = p' at h
    cases h
    exact .nil
  | cons s ss ih =>
    intro p h
    cases p with
    | none =>
      cases h with
      | first h1 h2 => exact .first h1 (ih (p := some s) h2)
    | some p =>
      cases h with
      | next h1 h2 h3 => exact .next h1 h2 (ih (p := some s) h3)

theorem beforeAt_unlined {t own p ss n} (h : BeforeAt t own p ss n) :
    BeforeAt t own (p.map unlined) (ss.map unlined) n := by
  induction h with
  | nil => exact .nil
  | @first s _ _ _ h1 _ ih => exact .first (s := unlined s) h1 ih
  | @next p s _ _ _ _ h1 h2 _ ih => exact .next (p := unlined p) (s := unlined s) h1 h2 ih

theorem beforeAt_lined {t own ss n} : ∀ {p}, BeforeAt t own (p.map unlined) (ss.map unlined) n → BeforeAt t own p ss n := by
  induction ss generalizing n with
  | nil =>
    intro p h
    rw [List.map_nil] at h
    generalize p.map unlined = p' at h
    cases h
    exact .nil
  | cons s ss ih =>
    intro p h
    cases p with
    | none =>
      cases h with
      | first h1 h2 => exact .first (s := s) h1 (ih (p := some s) h2)
    | some p =>
      cases h with
      | next h1 h2 h3 => exact .next (p := p) (s := s) h1 h2 (ih (p := some s) h3)

/-- the same text on a line which is lower by `k` -/
def LoweredS (k : Nat) (q p : Span) : Prop :=
  placeKey (unlined q) = placeKey (unlined p) ∧ q.state.lineNumber = p.state.lineNumber + k ∧
    (p.state.lineNumber ≠ 0 → q.state.lineSpacing = p.state.lineSpacing)

theorem filter_pairs {α β : Type} {R : α → β → Prop} {P : α → Bool} {P' : β → Bool} {as bs} (h : Pairwise2 R as bs)
    (hp : ∀ a b, R a b → P a = P' b) : Pairwise2 R (as.filter P) (bs.filter P') := by
  induction h with
  | nil => exact .nil
  | @cons a b as bs h1 _ ih =>
    rw [List.filter_cons, List.filter_cons, hp _ _ h1]
    split
    · exact .cons h1 ih
    · exact ih

theorem map_pairs {α β γ : Type} {R : α → β → Prop} {f : α → γ} {g : β → γ} {as bs} (h : Pairwise2 R as bs)
    (hp : ∀ a b, R a b → f a = g b) : as.map f = bs.map g := by
  induction h with
  | nil => rfl
  | cons h1 _ ih => rw [List.map_cons, List.map_cons, hp _ _ h1, ih]

theorem lowered_attr {k q p} (h : LoweredS k q p) : textAttr q.state = textAttr p.state ∧ q.str = p.str ∧
    q.state.spanNumber = p.state.spanNumber := by
  have e := congrArg Prod.fst h.1
  have n := congrArg Prod.snd h.1
  exact ⟨congrArg Piece.attr e, congrArg Piece.str e, n⟩

theorem sameLine_lowered {k : Nat} {Q P : List Span} {q p : Span} (h : Pairwise2 (LoweredS k) Q P) (hq : LoweredS k q p) :
    (sameLine Q q).map (placeKey ∘ unlined) = (sameLine P p).map (placeKey ∘ unlined) := by
  refine map_pairs (R := LoweredS k) (filter_pairs h fun a b hab => ?_) fun a b hab => hab.1
  obtain ⟨_, _, a3, a4, _⟩ := textAttr_eq (lowered_attr hab).1
  obtain ⟨_, _, b3, b4, _⟩ := textAttr_eq (lowered_attr hq).1
  rw [a3, a4, b3, b4, hab.2.1, hq.2.1]
  simp only [Nat.add_right_cancel_iff]

theorem exactX_lowered {d : Dms} {k : Nat} {Q P : List Span} {q p : Span} {x : Nat} (h : Pairwise2 (LoweredS k) Q P)
    (hq : LoweredS k q p) (hx : q.state.textRectangle.x = p.state.textRectangle.x)
    (hw : q.state.textRectangle.width = p.state.textRectangle.width) (he : ExactX d Q q x) : ExactX d P p x := by
  obtain ⟨n, total, h1, h2, h3, h4⟩ := he
  obtain ⟨ha, _, hn⟩ := lowered_attr hq
  obtain ⟨_, _, _, j, _⟩ := textAttr_eq ha
  have e := sameLine_lowered h hq
  rw [← List.map_map, ← List.map_map] at e
  have hl : ∀ t, lineLeft q.state.textRectangle q.state.justLine t = lineLeft p.state.textRectangle p.state.justLine t := by
    intro t
    unfold lineLeft
    rw [hx, hw, j]
  refine ⟨n, total, ?_, ?_, by rw [← hw]; exact h3, ?_⟩
  · rw [← hn]
    exact beforeAt_lined (p := none) (beforeAt_placeKey (beforeAt_unlined h1) rfl e)
  · exact lineWidth_lined (p := none) (lineWidth_pieces (lineWidth_unlined h2) rfl (placeKey_pieces e))
  · rw [← hl, ← j]; exact h4

theorem lightsAt_lowered {t : FontTable} {k : Nat} {q p : Span} (h : LoweredS k q p) {x y i j} :
    LightsAt t q x y i j ↔ LightsAt t p x y i j := by
  have e : pieceOf (unlined q) = pieceOf (unlined p) := congrArg Prod.fst h.1
  exact ⟨fun hl => (lightsAt_pieces e (show LightsAt t (unlined q) x y i j from hl) :),
    fun hl => (lightsAt_pieces e.symm (show LightsAt t (unlined p) x y i j from hl) :)⟩

theorem fontOf_lowered {t : FontTable} {k : Nat} {q p : Span} {f} (h : LoweredS k q p) (hf : FontOf t q f) : FontOf t p f := by
  have e : pieceOf (unlined q) = pieceOf (unlined p) := congrArg Prod.fst h.1
  exact (fontOf_pieces e (show FontOf t (unlined q) f from hf) :)

theorem ofFont_lowered {t : FontTable} {k : Nat} {Q P : List Span} {g} (h : Pairwise2 (LoweredS k) Q P) :
    Q.map (ofFont t g) = P.map (ofFont t g) := by
  have e : (Q.map unlined).map pieceOf = (P.map unlined).map pieceOf := by
    rw [List.map_map, List.map_map]
    exact map_pairs h fun a b hab => congrArg Prod.fst hab.1
  have := ofFont_pieces (t := t) (v := g) e
  rw [List.map_map, List.map_map] at this
  exact this

theorem onLine_lowered {k : Nat} {F Q P : List Span} (hF : ∀ f ∈ F, f.state.lineNumber < k) (h : Pairwise2 (LoweredS k) Q P)
    (i : Nat) : Pairwise2 (LoweredS k) (onLine (F ++ Q) (i + k)) (onLine P i) := by
  have e : onLine (F ++ Q) (i + k) = onLine Q (i + k) := by
    unfold onLine
    have : F.filter (fun s => decide (s.state.lineNumber = i + k)) = [] := by
      refine List.filter_eq_nil_iff.2 fun f hf => ?_
      have := hF f hf
      simp only [decide_eq_true_eq]
      omega
    rw [List.filter_append, this, List.nil_append]
  rw [e]
  refine filter_pairs h fun a b hab => ?_
  rw [hab.2.1]
  simp only [Nat.add_right_cancel_iff]

theorem tag_lowered {k : Nat} {Q P : List Span} (h : Pairwise2 (LoweredS k) Q P) (h0 : ∀ p ∈ P, p.state.lineNumber ≠ 0) :
    (Q.findSome? fun s => s.state.lineSpacing.map UInt8.toNat) = P.findSome? fun s => s.state.lineSpacing.map UInt8.toNat := by
  induction h with
  | nil => rfl
  | @cons q p Q P h1 _ ih =>
    rw [List.findSome?_cons, List.findSome?_cons, h1.2.2 (h0 p (List.mem_cons_self ..)),
      ih fun p hp => h0 p (List.mem_cons_of_mem _ hp)]

theorem linesHeight_lowered {full : Bool} {t : FontTable} {m : Nat} {F Q P : List Span}
    (hF : ∀ f ∈ F, f.state.lineNumber < m + 1) (h : Pairwise2 (LoweredS (m + 1)) Q P) (n : Nat) :
    linesHeight full t (F ++ Q) (n + (m + 1)) =
      linesHeight full t (F ++ Q) m + lineSpace full t (F ++ Q) m + linesHeight full t P n := by
  have h1 : ∀ i, lineHeight t (F ++ Q) (i + (m + 1)) = lineHeight t P i := fun i => by
    unfold lineHeight
    rw [ofFont_lowered (onLine_lowered hF h i)]
  have h2 : ∀ i, lineSpace full t (F ++ Q) (i + (m + 1)) = lineSpace full t P i := by
    intro i
    unfold lineSpace tagLineSpacing fontLineSpacing
    rw [ofFont_lowered (onLine_lowered hF h i), show i + (m + 1) + 1 = i + 1 + (m + 1) by omega,
      ofFont_lowered (onLine_lowered hF h (i + 1)), tag_lowered (onLine_lowered hF h (i + 1))]
    intro p hp
    have := (List.mem_filter.1 hp).2
    simp only [decide_eq_true_eq] at this
    omega
  induction n with
  | zero =>
    have := h1 0
    rw [Nat.zero_add] at this ⊢
    show _ + _ + lineHeight t (F ++ Q) (m + 1) = _
    rw [this]
    rfl
  | succ n ih =>
    rw [show n + 1 + (m + 1) = n + (m + 1) + 1 by omega]
    show linesHeight full t (F ++ Q) (n + (m + 1)) + lineSpace full t (F ++ Q) (n + (m + 1)) +
      lineHeight t (F ++ Q) (n + (m + 1) + 1) = _
    rw [ih, h2, show n + (m + 1) + 1 = n + 1 + (m + 1) by omega, h1]
    show _ = _ + (_ + _ + _)
    omega

/-! ### text drawn -/

theorem atY_top {d : Dms} {W : List Span} {s : Span} {y : Nat} {f : Font} (hall : ∀ w ∈ W, w.state.justPage = s.state.justPage)
    (hj : s.state.justPage ≠ .middle ∧ s.state.justPage ≠ .bottom) (hf : FontOf d.fontDefinition s f) (h : AtY d W s y) :
    y + f.height.toNat = s.state.textRectangle.y.toNat - 1 +
      linesHeight (decide (d.vmsCfg.charHeightPixels = 0)) d.fontDefinition W s.state.lineNumber := by
  obtain ⟨f', m, total, h1, h2, h3, h4, h5⟩ := h
  obtain rfl := fontOf_unique hf h1
  have e : samePage W s = W := List.filter_eq_self.2 fun w hw => by simpa using hall w hw
  rw [e] at h5
  simp only at h5
  rw [if_neg hj.1] at h5
  have : linesTop s.state.textRectangle s.state.justPage total = s.state.textRectangle.y.toNat - 1 := by
    unfold linesTop
    revert hj
    cases s.state.justPage <;> simp
  rw [this] at h5
  exact h5

theorem textDrawn_stack {d : Dms} {t sp rect rect' us s ws} {a b u b' : Raster}
    (ht : Tidy (signAttr d) t true true (us ++ .newLine s :: ws))
    (hj : t.justPage ≠ .middle ∧ t.justPage ≠ .bottom)
    (hu : ∀ j, Value.justificationPage j ∉ us) (hw : ∀ j, Value.justificationPage j ∉ ws)
    (hx : rect'.x = rect.x) (hwd : rect'.width = rect.width)
    (hy : rect'.y.toNat - 1 = rect.y.toNat - 1 +
      linesHeight (decide (d.vmsCfg.charHeightPixels = 0)) d.fontDefinition
        (layoutOf d t sp rect (us ++ .newLine s :: ws)) (newLines us) +
      lineSpace (decide (d.vmsCfg.charHeightPixels = 0)) d.fontDefinition
        (layoutOf d t sp rect (us ++ .newLine s :: ws)) (newLines us))
    (h : TextDrawn d t sp rect (us ++ .newLine s :: ws) a b) (h1 : TextDrawn d t sp rect us a u)
    (h2 : TextDrawn d (us.foldl (TextAttr.apply (signAttr d)) t) (us.foldl spacingAfter sp) rect' ws u b') : b = b' := by
  obtain ⟨qs, q1, ⟨q2, q3⟩, q4, q6, q5, q7, _⟩ := h
  obtain ⟨ps, p1, ⟨p2, p3⟩, p4, p6, p5, p7, _⟩ := h1
  obtain ⟨rs, r1, ⟨r2, r3⟩, r4, r6, r5, r7, _⟩ := h2
  have hb : BeginsBelow (signAttr d) (us.foldl (TextAttr.apply (signAttr d)) t) (.newLine s :: ws) := by
    show _ ∧ _
    rw [foldl_justPage us hu]
    exact hj
  obtain ⟨tA, fr, tB⟩ := tidy_append (.newLine s :: ws) us ht
  obtain ⟨_, pat⟩ := p7 tA
  obtain ⟨_, qat⟩ := q7 ht
  obtain ⟨_, rat⟩ := r7 tB.2
  have hap := added_apart sp 0 ht hb
  have ly' := layoutOf_pieces (rect := rect) q1
  -- the numbers
  obtain ⟨n', hn⟩ := numbers_split (signAttr d) (.newLine s :: ws) us t 0 true
  rw [hn] at q2
  -- split the texts
  have q0 := q1
  rw [pieces_append] at q1
  obtain ⟨A', C', e1, e2, e3⟩ := List.map_eq_append_iff.1 q1
  obtain ⟨qA, qC, rfl, rfl, rfl⟩ := List.map_eq_append_iff.1 e1
  have e3' := e3
  unfold pieces at e3
  obtain ⟨N', B', e4, e5, e6⟩ := List.map_eq_append_iff.1 e3
  obtain ⟨qN, qB, rfl, rfl, rfl⟩ := List.map_eq_append_iff.1 e4
  have hlen : qA.length = ps.length := by
    have := congrArg List.length (e2.trans p1.symm)
    simpa using this
  have hnumA : (qA.map Prod.fst).map (·.state.spanNumber) = (ps.map Prod.fst).map (·.state.spanNumber) ∧
      ((qN ++ qB).map Prod.fst).map (·.state.spanNumber) =
        numbers (signAttr d) (us.foldl (TextAttr.apply (signAttr d)) t) n' (us.foldl blankAfter true) (.newLine s :: ws) := by
    rw [List.map_append, List.map_append] at q2
    have hl : ((qA.map Prod.fst).map (·.state.spanNumber)).length = (numbers (signAttr d) t 0 true us).length := by
      rw [← p2]; simp [hlen]
    refine ⟨?_, List.append_inj_right q2 hl⟩
    rw [List.append_inj_left q2 hl, p2]
  have hkey : (qA.map Prod.fst).map placeKey = (ps.map Prod.fst).map placeKey :=
    map_pair (e2.trans p1.symm) hnumA.1
  have hapS : ∀ a ∈ qA.map Prod.fst, ∀ b ∈ (qN ++ qB).map Prod.fst, ApartS a b := by
    intro a ha b hb'
    exact hap _ (e2 ▸ List.mem_map_of_mem ha) _ (e3' ▸ List.mem_map_of_mem hb')
  have qat0 := qat
  have q30 := q3
  rw [List.map_append] at qat q3
  -- the texts before are at the same places
  have hsame : ∀ k (h1 : k < qA.length) (h2 : k < ps.length), pieceOf qA[k].1 = pieceOf ps[k].1 ∧ qA[k].2 = ps[k].2 := by
    intro k h1 h2
    have hk : placeKey qA[k].1 = placeKey ps[k].1 := by
      have := congrArg (·[k]?) hkey
      simpa [h1, h2] using this
    have hk1 : pieceOf qA[k].1 = pieceOf ps[k].1 := congrArg Prod.fst hk
    have mq : qA[k] ∈ qA := List.getElem_mem h1
    have mp : ps[k] ∈ ps := List.getElem_mem h2
    have rq := (q4 _ (List.mem_map_of_mem (List.mem_append_left (qN ++ qB) mq))).1
    have rp := (p4 _ (List.mem_map_of_mem mp)).1
    obtain ⟨qx, _⟩ := q3 _ (List.mem_append_left (qN ++ qB) mq)
    obtain ⟨px, _⟩ := p3 _ mp
    obtain ⟨_, qy⟩ := qat _ (List.mem_append_left (qN ++ qB) mq)
    obtain ⟨_, py⟩ := pat _ mp
    have ex := exactX_same hkey hk (rq.trans rp.symm) (exactX_apart (hapS _ (List.mem_map_of_mem mq)) qx)
    have ey := atY_pieces (placeKey_pieces hkey) hk1 (rq.trans rp.symm) (atY_apart (List.mem_map_of_mem mq) hapS qy)
    exact ⟨hk1, Prod.ext (exactX_unique ex px) (atY_unique ey py)⟩
  have hpx : ∀ i j, textPx d.fontDefinition qA i j (a.px i j) = textPx d.fontDefinition ps i j (a.px i j) := by
    intro i j
    refine textPx_pairs (pairwise2_get hlen fun k h1 h2 => ?_) _
    obtain ⟨k1, k2⟩ := hsame k h1 h2
    have mq : qA[k] ∈ qA := List.getElem_mem h1
    have mp : ps[k] ∈ ps := List.getElem_mem h2
    rw [k2]
    refine ⟨⟨lightsAt_pieces k1, lightsAt_pieces k1.symm⟩, fun _ => ?_⟩
    rw [(q4 _ (List.mem_map_of_mem (List.mem_append_left (qN ++ qB) mq))).2.1, (p4 _ (List.mem_map_of_mem mp)).2.1, k1]
  -- the texts after
  have hle := lineEnd_lines (dflt := signAttr d) us hu t 0
  rw [Nat.zero_add] at hle
  have hjA := foldl_justPage (dflt := signAttr d) us hu t
  have hlowP : Pairwise2 (LoweredP (newLines us + 1)) ((qB.map Prod.fst).map pieceOf) ((rs.map Prod.fst).map pieceOf) := by
    rw [e6, r1, hle]
    have := pieces_lowered (dflt := signAttr d) (newLines us + 1) ws hw
      (a := us.foldl (TextAttr.apply (signAttr d)) t) (s := s) (s' := us.foldl spacingAfter sp) (l := 0) (b := true)
      (fun h => absurd rfl h)
    rw [Nat.zero_add] at this
    exact this
  have hlenB : qB.length = rs.length := by
    simpa using pairwise2_length hlowP
  have hnumB : (qB.map Prod.fst).map (·.state.spanNumber) = (rs.map Prod.fst).map (·.state.spanNumber) := by
    have h := hnumA.2
    unfold numbers at h
    rw [List.map_append, List.map_append] at h
    have hl : ((qB.map Prod.fst).map (·.state.spanNumber)).length =
        (numbers (signAttr d) (TextAttr.apply (signAttr d) (us.foldl (TextAttr.apply (signAttr d)) t) (.newLine s))
          (numberAfter (signAttr d) (us.foldl (TextAttr.apply (signAttr d)) t) n' (.newLine s))
          (blankAfter (us.foldl blankAfter true) (.newLine s)) ws).length := by
      show _ = (numbers (signAttr d) (us.foldl (TextAttr.apply (signAttr d)) t) 0 true ws).length
      rw [← r2]
      simp [hlenB]
    rw [List.append_inj_right' h hl, r2]
    rfl
  have hlow : Pairwise2 (LoweredS (newLines us + 1)) (qB.map Prod.fst) (rs.map Prod.fst) := by
    refine pairwise2_get (by simpa using hlenB) fun k h1 h2 => ?_
    have hp := pairwise2_at hlowP k (by simpa using h1) (by simpa using h2)
    have hn : (qB.map Prod.fst)[k].state.spanNumber = (rs.map Prod.fst)[k].state.spanNumber := by
      have := congrArg (·[k]?) hnumB
      simp only [List.length_map] at h1 h2
      simpa [h1, h2] using this
    simp only [List.getElem_map] at hp hn ⊢
    obtain ⟨g1, g2, g3, g4⟩ := hp
    refine ⟨?_, g3, g4⟩
    show (Piece.mk _ _ _ _, _) = (Piece.mk _ _ _ _, _)
    rw [Prod.mk.injEq, Piece.mk.injEq]
    exact ⟨⟨g1, rfl, rfl, g2⟩, hn⟩
  -- lines and justification of all texts
  have hF : ∀ f ∈ qA.map Prod.fst ++ qN.map Prod.fst, f.state.lineNumber < newLines us + 1 := by
    intro f hf
    rcases List.mem_append.1 hf with hf | hf
    · have hm : pieceOf f ∈ pieces (signAttr d) t sp 0 true us := e2 ▸ List.mem_map_of_mem hf
      have := (pieces_between us hu _ hm).2.1
      rw [Nat.zero_add] at this
      exact Nat.lt_succ_of_le this
    · have hm : pieceOf f ∈ _ := e5 ▸ List.mem_map_of_mem hf
      have := (piece_line hm).2
      rw [hle] at this
      have : f.state.lineNumber = newLines us := this
      omega
  have hallP : ∀ p ∈ pieces (signAttr d) t sp 0 true (us ++ .newLine s :: ws), p.attr.justPage = t.justPage :=
    fun p hp => (pieces_between _ (by
      intro j hm
      rcases List.mem_append.1 hm with hm | hm
      · exact hu j hm
      · rcases List.mem_cons.1 hm with hm | hm
        · cases hm
        · exact hw j hm) p hp).2.2
  have hallQ : ∀ w ∈ (qA ++ (qN ++ qB)).map Prod.fst, w.state.justPage = t.justPage :=
    fun w hm => hallP (pieceOf w) (q0 ▸ List.mem_map_of_mem hm)
  have hallR : ∀ w ∈ rs.map Prod.fst, w.state.justPage = t.justPage := by
    intro w hm
    have : pieceOf w ∈ _ := r1 ▸ List.mem_map_of_mem hm
    have := (pieces_between ws hw _ this).2.2
    rw [hjA] at this
    exact this
  have hsameB : ∀ k (h1 : k < qB.length) (h2 : k < rs.length), LoweredS (newLines us + 1) qB[k].1 rs[k].1 ∧ qB[k].2 = rs[k].2 := by
    intro k h1 h2
    have hk : LoweredS (newLines us + 1) qB[k].1 rs[k].1 := by
      have := pairwise2_at hlow k (by simpa using h1) (by simpa using h2)
      simpa using this
    have mq : qB[k] ∈ qB := List.getElem_mem h1
    have mq' : qB[k] ∈ qA ++ (qN ++ qB) := List.mem_append_right _ (List.mem_append_right _ mq)
    have mr : rs[k] ∈ rs := List.getElem_mem h2
    have rq := (q4 _ (List.mem_map_of_mem mq')).1
    have rr := (r4 _ (List.mem_map_of_mem mr)).1
    obtain ⟨qx, _⟩ := q30 _ mq'
    obtain ⟨rx, _⟩ := r3 _ mr
    obtain ⟨_, qy⟩ := qat0 _ mq'
    obtain ⟨_, ry⟩ := rat _ mr
    refine ⟨hk, Prod.ext ?_ ?_⟩
    · have e : sameLine ((qA ++ (qN ++ qB)).map Prod.fst) qB[k].1 = sameLine (qB.map Prod.fst) qB[k].1 := by
        rw [List.map_append, List.map_append, ← List.append_assoc, sameLine_append]
        have : sameLine (qA.map Prod.fst ++ qN.map Prod.fst) qB[k].1 = [] := by
          refine List.filter_eq_nil_iff.2 fun f hf => ?_
          have := hF f hf
          have := hk.2.1
          simp only [decide_eq_true_eq]
          rintro ⟨_, h, _⟩
          omega
        rw [this, List.nil_append]
      have qx' : ExactX d (qB.map Prod.fst) qB[k].1 qB[k].2.1 := by
        unfold ExactX at qx ⊢
        rwa [e] at qx
      exact exactX_unique (exactX_lowered hlow hk (by rw [rq, rr, hx]) (by rw [rq, rr, hwd]) qx') rx
    · obtain ⟨f, hfq⟩ : ∃ f, FontOf d.fontDefinition qB[k].1 f := by
        obtain ⟨f, _, _, hf, _⟩ := qy; exact ⟨f, hf⟩
      have jq := hallQ _ (List.mem_map_of_mem mq')
      have jr := hallR _ (List.mem_map_of_mem mr)
      have y1 := atY_top (fun w hm => (hallQ w hm).trans jq.symm) (by rw [jq]; exact hj) hfq qy
      have y2 := atY_top (fun w hm => (hallR w hm).trans jr.symm) (by rw [jr]; exact hj) (fontOf_lowered hk hfq) ry
      have hW : ((qA ++ (qN ++ qB)).map Prod.fst).map pieceOf = (layoutOf d t sp rect (us ++ .newLine s :: ws)).map pieceOf := by
        rw [q0, layoutOf, map_spanOf]
      have hl := linesHeight_lowered (full := decide (d.vmsCfg.charHeightPixels = 0)) (t := d.fontDefinition)
        (F := qA.map Prod.fst ++ qN.map Prod.fst) hF hlow rs[k].1.state.lineNumber
      rw [List.append_assoc, ← List.map_append, ← List.map_append] at hl
      have hls : lineSpace (decide (d.vmsCfg.charHeightPixels = 0)) d.fontDefinition ((qA ++ (qN ++ qB)).map Prod.fst) (newLines us) =
          lineSpace (decide (d.vmsCfg.charHeightPixels = 0)) d.fontDefinition
            (layoutOf d t sp rect (us ++ .newLine s :: ws)) (newLines us) := by
        simp only [lineSpace, fontLineSpacing, ofFont_pieces (onLine_pieces _ hW), tagLineSpacing_pieces _ hW]
      rw [← linesHeight_pieces hW, ← hls] at hy
      rw [rq, hk.2.1, hl] at y1
      rw [rr, hy] at y2
      omega
  have hpxB : ∀ i j c, textPx d.fontDefinition qB i j c = textPx d.fontDefinition rs i j c := by
    intro i j
    refine textPx_pairs (pairwise2_get hlenB fun k h1 h2 => ?_)
    obtain ⟨k1, k2⟩ := hsameB k h1 h2
    have mq : qB[k] ∈ qB := List.getElem_mem h1
    have mq' : qB[k] ∈ qA ++ (qN ++ qB) := List.mem_append_right _ (List.mem_append_right _ mq)
    have mr : rs[k] ∈ rs := List.getElem_mem h2
    rw [k2]
    refine ⟨lightsAt_lowered k1, fun _ => ?_⟩
    rw [(q4 _ (List.mem_map_of_mem mq')).2.1, (r4 _ (List.mem_map_of_mem mr)).2.1]
    congr 1
    exact congrArg TextAttr.foreground (lowered_attr k1).1
  have hpxN : ∀ i j c, textPx d.fontDefinition qN i j c = c := by
    intro i j
    refine textPx_unlit fun p hp => ?_
    have hm : pieceOf p.1 ∈ piece _ _ _ _ (.newLine s) := e5 ▸ List.mem_map_of_mem (List.mem_map_of_mem hp)
    have hs : p.1.str = [] := by
      simp only [piece] at hm
      split at hm
      · simp only [List.mem_singleton] at hm
        exact congrArg Piece.str hm
      · simp at hm
    rintro ⟨f, es, _, l2, l3⟩
    rw [hs] at l2
    have : es = [] := by
      unfold Defined at l2
      simpa using l2.symm
    subst this
    obtain ⟨b, e, a, _, _, h, _⟩ := l3
    simp at h
  rw [textAt_iff] at p5 q5 r5
  rw [q5, r5]
  subst p5
  refine raster_ext rfl rfl fun i j => ?_
  show textPx _ (qA ++ (qN ++ qB)) i j (a.px i j) = textPx _ rs i j (textPx _ ps i j (a.px i j))
  rw [textPx_append, textPx_append, hpx, hpxN, hpxB]

end Ntcip
