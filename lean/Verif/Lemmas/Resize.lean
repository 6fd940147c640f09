import Verif.Lemmas.Picture
import Verif.Lemmas.Onward
import Verif.Spec.Resize
/-
Lemmas for C128: text in text rectangles of other sizes.
-/
namespace Ntcip
open Spec

theorem pieces_spacing {dflt : TextAttr} (us : List Value) : ∀ {a sp sp' l b},
    (pieces dflt a sp l b us).map (·.attr) = (pieces dflt a sp' l b us).map (·.attr) := by
  induction us with
  | nil => intro a sp sp' l b; rfl
  | cons u us ih =>
    intro a sp sp' l b
    unfold pieces
    rw [List.map_append, List.map_append, ih (sp' := spacingAfter sp' u)]
    congr 1
    cases u <;> first | rfl | (cases b <;> rfl)

theorem exactX_side {d : Dms} {ss ss' : List Span} {s s' : Span} {x x'} (h : ss.map placeKey = ss'.map placeKey)
    (hs : placeKey s = placeKey s') (hk : SideKept s.state.textRectangle s'.state.textRectangle s.state.justLine)
    (hx : ExactX d ss s x) (hx' : ExactX d ss' s' x') : x = x' := by
  obtain ⟨n, total, h1, h2, h3, h4⟩ := hx
  obtain ⟨n', total', h1', h2', h3', h4'⟩ := hx'
  have hp : pieceOf s = pieceOf s' := congrArg Prod.fst hs
  have hn : s.state.spanNumber = s'.state.spanNumber := congrArg Prod.snd hs
  have hj := (textAttr_eq (pieceOf_eq hp).1).2.2.2.1
  obtain rfl := lineWidth_unique (lineWidth_pieces h2 rfl (sameLine_pieces (placeKey_pieces h) hp)) h2'
  have e := beforeAt_placeKey h1 (p' := none) rfl (sameLine_placeKey h hp)
  rw [hn] at e
  obtain rfl := beforeAt_unique e h1'
  rw [h4, h4', ← hj]
  unfold SideKept at hk
  cases hl : s.state.justLine <;> simp only [hl] at hk ⊢ <;> simp only [lineLeft]
  · simp only [reduceCtorEq, if_false]; omega
  · simp only [reduceCtorEq, if_false]; omega
  · rw [hk.1, hk.2]
  · simp only [reduceCtorEq, if_false]; omega
  · simp only [reduceCtorEq, if_false]; omega

theorem exactY_level {d : Dms} {ss ss' : List Span} {s s' : Span} {y y'} (h : ss.map placeKey = ss'.map placeKey)
    (hs : placeKey s = placeKey s') (hk : LevelKept s.state.textRectangle s'.state.textRectangle s.state.justPage)
    (hy : ExactY d ss s y) (hy' : ExactY d ss' s' y') : y = y' := by
  obtain ⟨f, h1, h2, h3⟩ := hy
  obtain ⟨f', h1', h2', h3'⟩ := hy'
  have hp : pieceOf s = pieceOf s' := congrArg Prod.fst hs
  obtain rfl := fontOf_unique (fontOf_pieces hp h1) h1'
  have hj := (textAttr_eq (pieceOf_eq hp).1).2.2.1
  obtain ⟨c1, c2⟩ := counted_pieces 0 (samePage_pieces (placeKey_pieces h) hp)
  have ec : ∀ n, countedHeight d ss s n = countedHeight d ss' s' n := by
    intro n; unfold countedHeight; rw [linesHeight_pieces c1, c2]
  have et : totalHeight d ss s = totalHeight d ss' s' := by
    unfold totalHeight; rw [ec, c2]
  rw [et] at h2 h3
  rw [ec, (pieceOf_eq hp).2.2.1] at h3
  rw [← hj] at h3'
  have : y + f.height.toNat = y' + f.height.toNat := by
    rw [h3, h3']
    unfold LevelKept at hk
    cases hl : s.state.justPage <;> simp only [hl] at hk ⊢ <;> simp only [linesTop]
    · simp only [reduceCtorEq, if_false]; omega
    · simp only [reduceCtorEq, if_false]; omega
    · rw [hk.1, hk.2]
    · simp only [reduceCtorEq, if_false]; omega
  omega

theorem textDrawn_resized {d : Dms} {t sp r r' us a b b'} (hk : KeepsEdges d t us r r')
    (h : TextDrawn d t sp r us a b) (h' : TextDrawn d t sp r' us a b') : b = b' := by
  obtain ⟨ps, p1, ⟨p2, p3⟩, p4, _, p5, _⟩ := h
  obtain ⟨qs, q1, ⟨q2, q3⟩, q4, _, q5, _⟩ := h'
  have hkey : (ps.map Prod.fst).map placeKey = (qs.map Prod.fst).map placeKey :=
    map_pair (p1.trans q1.symm) (p2.trans q2.symm)
  have hlen : ps.length = qs.length := by simpa using congrArg List.length hkey
  rw [textAt_iff] at p5 q5
  rw [p5, q5]
  congr 1
  funext i j
  refine textPx_pairs (pairwise2_get hlen fun k k1 k2 => ?_) _
  have mp : ps[k] ∈ ps := List.getElem_mem k1
  have mq : qs[k] ∈ qs := List.getElem_mem k2
  have e : placeKey ps[k].1 = placeKey qs[k].1 := by
    have := congrArg (·[k]?) hkey
    simpa [k1, k2] using this
  have ep : pieceOf ps[k].1 = pieceOf qs[k].1 := congrArg Prod.fst e
  have rp := (p4 _ (List.mem_map_of_mem mp)).1
  have rq := (q4 _ (List.mem_map_of_mem mq)).1
  obtain ⟨g1, g2⟩ : SideKept r r' ps[k].1.state.justLine ∧ LevelKept r r' ps[k].1.state.justPage := by
    have hm : (pieceOf ps[k].1).attr ∈ (pieces (signAttr d) t sp 0 true us).map (·.attr) :=
      List.mem_map_of_mem (p1 ▸ List.mem_map_of_mem (List.mem_map_of_mem mp))
    rw [pieces_spacing us (sp' := none)] at hm
    obtain ⟨p, hp, hpe⟩ := List.mem_map.1 hm
    have := hk p hp
    rw [hpe] at this
    exact this
  have ex := exactX_side hkey e (by rw [rp, rq]; exact g1) (p3 _ mp).1 (q3 _ mq).1
  have ey := exactY_level hkey e (by rw [rp, rq]; exact g2) (p3 _ mp).2 (q3 _ mq).2
  rw [ex, ey]
  refine ⟨⟨lightsAt_pieces ep, lightsAt_pieces ep.symm⟩, fun _ => ?_⟩
  rw [(p4 _ (List.mem_map_of_mem mp)).2.1, (q4 _ (List.mem_map_of_mem mq)).2.1, ep]

end Ntcip
