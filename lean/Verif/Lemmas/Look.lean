import Verif.Lemmas.Join
import Verif.Props.Accept
/-
Lemmas on the look of a message.
-/
namespace Ntcip
open Spec

/-! ### painting -/

theorem paintsAt_of {d : Dms} {W H p vs i j o} (h : Layered d W H p vs i j o) : PaintsAt d W H (paints d p vs) i j o := by
  induction h with
  | nil => exact .nil
  | @cons p v vs i j o u hl _ ih =>
    cases hl with
    | rect hp => exact .cons (.rect hp) ih
    | offRect hp => exact .cons (.offRect hp) ih
    | graphic h1 h2 h3 => exact .cons (.graphic h1 h2 h3) ih
    | offGraphic h1 h2 => exact .cons (.offGraphic h1 h2) ih
    | other h1 h2 =>
      rw [Option.or_none]
      have : paints d p (v :: vs) = paints d (p.apply d v) vs := by
        cases v <;> first | rfl | exact absurd rfl (h1 _ _) | exact absurd rfl (h2 _ _)
      rw [this]
      exact ih

theorem paintsOn_of {d : Dms} {p vs a b} (h : GraphicsOn d p vs a b) : PaintsOn d (paints d p vs) a b :=
  ⟨h.width, h.height, fun i j => let ⟨o, h1, h2⟩ := h.px i j; ⟨o, paintsAt_of h1, h2⟩⟩

/-- graphics have a number -/
def Numbered : Paint → Prop
  | .rectangle _ _ => True
  | .graphic n _ _ => n ≠ 0

theorem paintAt_unique {d : Dms} {W H p i j o o'}
    (hu : UniqueNumbers (fun g : Graphic => g.number.toNat) d.graphicDefinition) (hn : Numbered p)
    (h : PaintAt d W H p i j o) (h' : PaintAt d W H p i j o') : o = o' := by
  have key : ∀ {n pos g g'}, n ≠ 0 → GraphicOf d n pos g → GraphicOf d n pos g' → g = g' := by
    rintro n pos g g' h0 ⟨a, b, _⟩ ⟨a', b', _⟩
    obtain ⟨k, hk⟩ := List.getElem?_of_mem a
    obtain ⟨k', hk'⟩ := List.getElem?_of_mem a'
    have hne : g.number.toNat ≠ 0 := by
      rw [b]
      intro hz
      exact h0 (UInt8.toNat_inj.mp hz)
    have := hu k k' g g' hk hk' hne (by dsimp only; rw [b, b'])
    subst this
    rw [hk] at hk'
    simpa using hk'
  cases h with
  | rect h =>
    cases h' with
    | rect => rfl
    | offRect h' => exact absurd h h'
  | offRect h =>
    cases h' with
    | rect h' => exact absurd h' h
    | offRect => rfl
  | graphic h1 h2 h3 =>
    cases h' with
    | graphic h1' h2' h3' =>
      obtain rfl := key hn h1 h1'
      rw [pixelValue_unique h3 h3']
    | offGraphic h1' h2' =>
      obtain rfl := key hn h1 h1'
      exact absurd h2 h2'
  | offGraphic h1 h2 =>
    cases h' with
    | graphic h1' h2' =>
      obtain rfl := key hn h1 h1'
      exact absurd h2' h2
    | offGraphic => rfl

theorem paintsAt_unique {d : Dms} {W H ps i j o o'}
    (hu : UniqueNumbers (fun g : Graphic => g.number.toNat) d.graphicDefinition) (hn : ∀ p ∈ ps, Numbered p)
    (h : PaintsAt d W H ps i j o) (h' : PaintsAt d W H ps i j o') : o = o' := by
  induction h generalizing o' with
  | nil => cases h'; rfl
  | cons h1 _ ih =>
    cases h' with
    | cons h1' h2' =>
      rw [ih (fun p hp => hn p (List.mem_cons_of_mem _ hp)) h2', paintAt_unique hu (hn _ (List.mem_cons_self ..)) h1 h1']

theorem raster_ext {a b : Raster} (h1 : a.width = b.width) (h2 : a.height = b.height)
    (h3 : ∀ i j, a.px i j = b.px i j) : a = b := by
  obtain ⟨w, h, p⟩ := a
  obtain ⟨w', h', p'⟩ := b
  dsimp only at h1 h2 h3
  subst h1 h2
  congr 1
  funext i j
  exact h3 i j

theorem paintsOn_unique {d : Dms} {ps a b b'}
    (hu : UniqueNumbers (fun g : Graphic => g.number.toNat) d.graphicDefinition) (hn : ∀ p ∈ ps, Numbered p)
    (h : PaintsOn d ps a b) (h' : PaintsOn d ps a b') : b = b' := by
  refine raster_ext (h.width.trans h'.width.symm) (h.height.trans h'.height.symm) fun i j => ?_
  obtain ⟨o, ho, e⟩ := h.px i j
  obtain ⟨o', ho', e'⟩ := h'.px i j
  rw [e, e', paintsAt_unique hu hn ho ho']

/-! ### text -/

open Classical in
/-- the color of a pixel after drawing texts at the places given -/
noncomputable def textPx (t : FontTable) (ps : List (Span × Nat × Nat)) (i j : Nat) (c : Rgb) : Rgb :=
  ps.foldl (fun c p => if LightsAt t p.1 p.2.1 p.2.2 i j then p.1.state.colorCtx.foregroundRgb else c) c

theorem textPx_none {t ps i j c} (h : ∀ p ∈ ps, ¬ LightsAt t p.1 p.2.1 p.2.2 i j) : textPx t ps i j c = c := by
  induction ps generalizing c with
  | nil => rfl
  | cons p ps ih =>
    unfold textPx
    rw [List.foldl_cons, if_neg (h p (List.mem_cons_self ..))]
    exact ih (fun p hp => h p (List.mem_cons_of_mem _ hp))

theorem textPx_append {t ps qs i j c} : textPx t (ps ++ qs) i j c = textPx t qs i j (textPx t ps i j c) :=
  List.foldl_append ..

theorem textAt_px (t : FontTable) (ps : List (Span × Nat × Nat)) (a : Raster) :
    TextAt t ps a ⟨a.width, a.height, fun i j => textPx t ps i j (a.px i j)⟩ := by
  refine ⟨rfl, rfl, ?_, fun i j h => textPx_none h⟩
  rintro l1 p l2 i j rfl h1 h2
  show textPx t _ i j _ = _
  rw [textPx_append]
  show textPx t l2 i j _ = _
  rw [textPx_none h2]
  exact if_pos h1

theorem textAt_iff {t ps} {a b : Raster} : TextAt t ps a b ↔
    b = ⟨a.width, a.height, fun i j => textPx t ps i j (a.px i j)⟩ := by
  constructor
  · intro h
    obtain ⟨h1, h2, h3⟩ := textAt_unique h (textAt_px t ps a)
    exact raster_ext h1 h2 h3
  · rintro rfl
    exact textAt_px t ps a

theorem textsOn_of {d : Dms} {t sp rect vs a b} (h : TextDrawn d t sp rect vs a b)
    (ht : Tidy (signAttr d) t true true vs) : TextsOn d rect (pieces (signAttr d) t sp 0 true vs) a b := by
  obtain ⟨ps, h1, _, h2, h3, h4, h5, _⟩ := h
  obtain ⟨ho, h5⟩ := h5 ht
  refine ⟨ps, by rw [← h1, List.map_map]; rfl, fun p hp => h2 p.1 (List.mem_map_of_mem hp), placed_of ho h5, h4⟩

theorem joins_of {d : Dms} {rect : Rectangle} {a b : Span} (h : joinable d (pieceOf a) (pieceOf b) = true)
    (ha : a.state.textRectangle = rect ∧ a.state.colorCtx.foregroundRgb = foregroundRgb d (pieceOf a).attr.foreground ∧
      ∀ ch ∈ a.str, ch.toNat ≠ 0)
    (hb : b.state.textRectangle = rect ∧ b.state.colorCtx.foregroundRgb = foregroundRgb d (pieceOf b).attr.foreground ∧
      ∀ ch ∈ b.str, ch.toNat ≠ 0) :
    Joins a b ∧ (d.vmsCfg.charWidthPixels = 0 ∨ a.state.justLine ≠ .center) := by
  simp only [joinable, decide_eq_true_eq] at h
  obtain ⟨h1, h2, h3, h4, h5, h6⟩ := h
  exact ⟨⟨h1, h2, h3, ha.1.trans hb.1.symm, by rw [ha.2.1, hb.2.1, h1], h4, h5, ha.2.2, hb.2.2⟩, h6⟩

/-- what is known of a text to be drawn in the rectangle -/
def TextIn (d : Dms) (rect : Rectangle) (s : Span) : Prop :=
  s.state.textRectangle = rect ∧ s.state.colorCtx.foregroundRgb = foregroundRgb d (pieceOf s).attr.foreground ∧
    ∀ ch ∈ s.str, ch.toNat ≠ 0

open Classical in
theorem placed_glue {d : Dms} (hw : WideChars d.fontDefinition) {rect : Rectangle} (ps : List (Span × Nat × Nat)) :
    ∀ l, (∀ p ∈ ps, TextIn d rect p.1) → Placed d (l ++ ps) →
    ∃ qs, qs.map (fun p => pieceOf p.1) = glue d (ps.map fun p => pieceOf p.1) ∧
      (∀ p ∈ qs, TextIn d rect p.1) ∧ Placed d (l ++ qs) ∧
      ∀ i j c, textPx d.fontDefinition qs i j c = textPx d.fontDefinition ps i j c := by
  induction ps with
  | nil => intro l _ hp; exact ⟨[], rfl, by simp, hp, fun _ _ _ => rfl⟩
  | cons p ps ih =>
    intro l hall hp
    obtain ⟨qs, e, hq, hpl, hpx⟩ := ih (l ++ [p]) (fun p hm => hall p (List.mem_cons_of_mem _ hm)) (by simpa using hp)
    have h0 := hall p (List.mem_cons_self ..)
    have keep : ∃ qs' : List (Span × Nat × Nat),
        qs'.map (fun p => pieceOf p.1) = pieceOf p.1 :: glue d (ps.map fun p => pieceOf p.1) ∧
        (∀ p ∈ qs', TextIn d rect p.1) ∧ Placed d (l ++ qs') ∧
        ∀ i j c, textPx d.fontDefinition qs' i j c = textPx d.fontDefinition (p :: ps) i j c := by
      refine ⟨p :: qs, by rw [List.map_cons, e], ?_, by simpa using hpl, fun i j c => hpx i j _⟩
      intro q hm
      rcases List.mem_cons.1 hm with rfl | hm
      · exact h0
      · exact hq q hm
    rw [List.map_cons, glue]
    split
    · rename_i hg; rw [hg] at keep; exact keep
    · rename_i g gs hg
      split
      · rename_i hj
        cases qs with
        | nil => rw [hg] at e; simp at e
        | cons q qs =>
          rw [hg] at e
          simp only [List.map_cons, List.cons.injEq] at e
          obtain ⟨rfl, e⟩ := e
          have h1 := hq q (List.mem_cons_self ..)
          obtain ⟨hJ, hc⟩ := joins_of hj h0 h1
          obtain ⟨k1, k2⟩ := placed_join (l := l) (r := qs) hw hJ hc (x := p.2.1) (y := p.2.2) (u := q.2.1) (v := q.2.2)
            (by simpa using hpl)
          refine ⟨(joined p.1 q.1, p.2.1, p.2.2) :: qs, ?_, ?_, k1, ?_⟩
          · rw [List.map_cons, e]; rfl
          · intro x hm
            rcases List.mem_cons.1 hm with rfl | hm
            · refine ⟨h0.1, h0.2.1, ?_⟩
              intro ch hch
              rcases List.mem_append.1 hch with hch | hch
              · exact h0.2.2 ch hch
              · exact h1.2.2 ch hch
            · exact hq x (List.mem_cons_of_mem _ hm)
          · intro i j c
            have := hpx i j (if LightsAt d.fontDefinition p.1 p.2.1 p.2.2 i j then p.1.state.colorCtx.foregroundRgb else c)
            show textPx d.fontDefinition qs i j _ = textPx d.fontDefinition ps i j _
            rw [← this]
            show _ = textPx d.fontDefinition qs i j _
            congr 1
            simp only [k2]
            have hc := hJ.color
            by_cases hA : LightsAt d.fontDefinition p.1 p.2.1 p.2.2 i j <;>
              by_cases hB : LightsAt d.fontDefinition q.1 q.2.1 q.2.2 i j <;> simp [hA, hB, joined, hc]
      · rw [hg] at keep; exact keep

theorem textsOn_glue {d : Dms} (hw : WideChars d.fontDefinition) {rect texts a b} (h : TextsOn d rect texts a b) :
    TextsOn d rect (glue d texts) a b := by
  obtain ⟨ps, rfl, h2, h3, h4⟩ := h
  obtain ⟨qs, e, hq, hp, hx⟩ := placed_glue hw ps [] h2 h3
  refine ⟨qs, e, hq, hp, ?_⟩
  rw [textAt_iff] at h4 ⊢
  rw [h4]
  simp only [hx]

/-! ### texts with the same pieces are at the same places -/

theorem lightsAt_pieces {t : FontTable} {s s' : Span} (h : pieceOf s = pieceOf s') {x y i j} :
    LightsAt t s x y i j → LightsAt t s' x y i j := by
  rintro ⟨f, es, h1, h2, h3⟩
  exact ⟨f, es, fontOf_pieces h h1, by rw [← (pieceOf_eq h).2.2.2]; exact h2, by rw [← charSpacing_pieces h]; exact h3⟩

theorem before_pieces {t : FontTable} {l l' : List Span} {s s' n} (hl : l.map pieceOf = l'.map pieceOf)
    (h : pieceOf s = pieceOf s') (hb : Before t l s n) : Before t l' s' n := by
  obtain ⟨w, h1, h2⟩ := hb
  exact ⟨w, spanWidth_pieces h h1, lineWidth_pieces h2 rfl (by simp [hl, h])⟩

theorem placeX_unique {d : Dms} {l l' s s' r r' x x'} (hl : l.map pieceOf = l'.map pieceOf)
    (hs : pieceOf s = pieceOf s') (hr : r.map pieceOf = r'.map pieceOf)
    (ht : s.state.textRectangle = s'.state.textRectangle) (h : PlaceX d l s r x) (h' : PlaceX d l' s' r' x') : x = x' := by
  obtain ⟨n, m, h1, h2, _, h4⟩ := h
  obtain ⟨n', m', h1', h2', _, h4'⟩ := h'
  obtain ⟨_, _, _, j, _⟩ := textAttr_eq (pieceOf_eq hs).1
  obtain rfl := before_unique (before_pieces (sameLine_pieces hl hs) hs h1) h1'
  obtain rfl := lineWidth_unique (lineWidth_pieces h2 rfl (sameLine_pieces (by simp [hl, hs, hr]) hs)) h2'
  rw [h4, h4', ht, j]

theorem atY_pieces {d : Dms} {ss ss' s s' y} (hl : ss.map pieceOf = ss'.map pieceOf)
    (hs : pieceOf s = pieceOf s') (ht : s.state.textRectangle = s'.state.textRectangle) (h : AtY d ss s y) :
    AtY d ss' s' y := by
  obtain ⟨f, m, tot, h1, h2, h3, h4, h5⟩ := h
  obtain ⟨_, _, j, _⟩ := textAttr_eq (pieceOf_eq hs).1
  have e := samePage_pieces hl hs
  refine ⟨f, m, tot, fontOf_pieces hs h1, dense_pieces h2 e, by rw [← linesHeight_pieces e]; exact h3, by rw [← ht]; exact h4, ?_⟩
  rw [← linesHeight_pieces e, ← ht, ← j, ← (pieceOf_eq hs).2.2.1]
  exact h5

open Classical in
theorem textPx_places {d : Dms} {rect : Rectangle} {c0 : Piece → Rgb} {i j : Nat} : ∀ {ps qs l l' : List (Span × Nat × Nat)},
    (∀ p ∈ ps, p.1.state.textRectangle = rect ∧ p.1.state.colorCtx.foregroundRgb = c0 (pieceOf p.1)) →
    (∀ p ∈ qs, p.1.state.textRectangle = rect ∧ p.1.state.colorCtx.foregroundRgb = c0 (pieceOf p.1)) →
    l.map (fun p => pieceOf p.1) = l'.map (fun p => pieceOf p.1) →
    ps.map (fun p => pieceOf p.1) = qs.map (fun p => pieceOf p.1) → Placed d (l ++ ps) → Placed d (l' ++ qs) →
    ∀ c, textPx d.fontDefinition ps i j c = textPx d.fontDefinition qs i j c := by
  intro ps
  induction ps with
  | nil =>
    intro qs l l' _ _ _ e _ _ c
    cases qs with
    | nil => rfl
    | cons => simp at e
  | cons p ps ih =>
    intro qs l l' hp hq hl e pp pq c
    cases qs with
    | nil => simp at e
    | cons q qs =>
      simp only [List.map_cons, List.cons.injEq] at e
      obtain ⟨p1, p2⟩ := hp p (by simp)
      obtain ⟨q1, q2⟩ := hq q (by simp)
      obtain ⟨px, py⟩ := pp l p ps rfl
      obtain ⟨qx, qy⟩ := pq l' q qs rfl
      have el : (l.map (·.1)).map pieceOf = (l'.map (·.1)).map pieceOf := by
        rw [List.map_map, List.map_map]; exact hl
      have er : (ps.map (·.1)).map pieceOf = (qs.map (·.1)).map pieceOf := by
        rw [List.map_map, List.map_map]; exact e.2
      have ex := placeX_unique el e.1 er (p1.trans q1.symm) px qx
      have ey := atY_unique (atY_pieces (by simp only [List.map_append, List.map_cons, el, e.1, er]) e.1 (p1.trans q1.symm) py) qy
      have := ih (qs := qs) (l := l ++ [p]) (l' := l' ++ [q]) (fun p h => hp p (by simp [h])) (fun p h => hq p (by simp [h]))
        (by simp [hl, e.1]) e.2 (by simpa using pp) (by simpa using pq)
        (if LightsAt d.fontDefinition p.1 p.2.1 p.2.2 i j then p.1.state.colorCtx.foregroundRgb else c)
      show textPx d.fontDefinition ps i j _ = textPx d.fontDefinition qs i j _
      rw [this]
      congr 1
      have k : LightsAt d.fontDefinition p.1 p.2.1 p.2.2 i j ↔ LightsAt d.fontDefinition q.1 q.2.1 q.2.2 i j := by
        rw [ex, ey]
        exact ⟨lightsAt_pieces e.1, lightsAt_pieces e.1.symm⟩
      simp only [k, p2, q2, e.1]

theorem textsOn_unique {d : Dms} {rect texts a b b'} (h : TextsOn d rect texts a b) (h' : TextsOn d rect texts a b') :
    b = b' := by
  obtain ⟨ps, e, h2, h3, h4⟩ := h
  obtain ⟨qs, e', h2', h3', h4'⟩ := h'
  rw [textAt_iff] at h4 h4'
  rw [h4, h4']
  congr 1
  funext i j
  exact textPx_places (l := []) (l' := []) (c0 := fun p => foregroundRgb d p.attr.foreground)
    (fun p hp => ⟨(h2 p hp).1, (h2 p hp).2.1⟩) (fun p hp => ⟨(h2' p hp).1, (h2' p hp).2.1⟩) rfl (e.trans e'.symm) h3 h3' _

/-! ### pages -/

theorem partsOn_of {d : Dms} (hw : WideChars d.fontDefinition) {bg t sp rect vs rest a b}
    (h : Composed d bg t sp rect vs rest a b)
    (ht : AllSections d (fun t _ _ ws => Tidy (signAttr d) t true true ws) t sp rect vs rest) :
    PartsOn d (partsOf d bg t sp rect vs rest) a b := by
  induction h with
  | last hG hT =>
    cases ht with
    | last ht => exact .cons (paintsOn_of hG) (textsOn_glue hw (textsOn_of hT ht)) .nil
  | next hG hT _ ih =>
    cases ht with
    | next ht hr => exact .cons (paintsOn_of hG) (textsOn_glue hw (textsOn_of hT ht)) (ih hr)

theorem partsOf_last {d : Dms} {bg t sp rect vs rest} :
    (partsOf d bg t sp rect vs rest).getLast?.map (·.rect) = some (lastRect d rect rest) := by
  induction rest generalizing t sp rect vs with
  | nil => rfl
  | cons q rest ih =>
    obtain ⟨r, ws⟩ := q
    rw [partsOf, List.getLast?_cons]
    have := ih (t := vs.foldl (TextAttr.apply (signAttr d)) t) (sp := vs.foldl spacingAfter sp) (rect := opened d r) (vs := ws)
    rw [Option.map_eq_some_iff] at this
    obtain ⟨x, e, e'⟩ := this
    rw [e]
    simp [lastRect, e']

theorem partsOn_unique {d : Dms} {ps a b b'}
    (hu : UniqueNumbers (fun g : Graphic => g.number.toNat) d.graphicDefinition)
    (hn : ∀ l ∈ ps, ∀ p ∈ l.paints, Numbered p) (h : PartsOn d ps a b) (h' : PartsOn d ps a b') : b = b' := by
  induction h with
  | nil => cases h'; rfl
  | cons h1 h2 _ ih =>
    cases h' with
    | cons h1' h2' h3' =>
      obtain rfl := paintsOn_unique hu (hn _ (List.mem_cons_self ..)) h1 h1'
      obtain rfl := textsOn_unique h2 h2'
      exact ih (fun l hl => hn l (List.mem_cons_of_mem _ hl)) h3'

theorem depicts_unique {d : Dms} {ls : List PageLook}
    (hu : UniqueNumbers (fun g : Graphic => g.number.toNat) d.graphicDefinition)
    (hn : ∀ l ∈ ls, ∀ q ∈ l.parts, ∀ p ∈ q.paints, Numbered p) {xs ys} (h : Depicts d xs ls) (h' : Depicts d ys ls) :
    xs = ys := by
  induction ls generalizing xs ys with
  | nil => simp only [Depicts] at h h'; rw [h, h']
  | cons l ls ih =>
    obtain ⟨r, rest, h1, rfl, h3⟩ := h
    obtain ⟨r', rest', h1', rfl, h3'⟩ := h'
    obtain rfl := partsOn_unique hu (hn l (List.mem_cons_self ..)) h1 h1'
    rw [ih (fun l hl => hn l (List.mem_cons_of_mem _ hl)) h3 h3']

end Ntcip
