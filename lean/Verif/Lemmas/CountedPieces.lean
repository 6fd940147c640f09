import Verif.Lemmas.Counted
import Verif.Lemmas.Accept
/-
The lines of text as counted depend on the pieces of the spans only.
-/
namespace Ntcip
open Spec

theorem counted_pieces {ss : List Span} : ∀ {ss' : List Span} (k : Nat), ss.map pieceOf = ss'.map pieceOf →
    (counted k ss).map pieceOf = (counted k ss').map pieceOf ∧ lineCount k ss = lineCount k ss' := by
  induction ss with
  | nil => intro ss' k h; simp only [List.map_nil, List.nil_eq, List.map_eq_nil_iff] at h; subst h; exact ⟨rfl, rfl⟩
  | cons s ss ih =>
    intro ss' k h
    cases ss' with
    | nil => simp at h
    | cons s' ss' =>
      simp only [List.map_cons, List.cons.injEq] at h
      have e := (pieceOf_eq h.1).2.2.1
      simp only [counted, lineCount, ← e]
      split
      · simp only [List.map_cons, h.1, ih k h.2]; exact ⟨trivial, trivial⟩
      · simp only [List.map_cons, ih (k + 1) h.2]
        refine ⟨?_, trivial⟩
        congr 1
        obtain ⟨a1, a2, a3, a4⟩ := pieceOf_eq h.1
        have := h.1
        unfold pieceOf at this ⊢
        simp only [Piece.mk.injEq] at this ⊢
        obtain ⟨b1, b2, b3, b4⟩ := this
        exact ⟨b1, b2, rfl, b4⟩

theorem countedHeight_pieces {d} {ss ss' : List Span} {s s'} (h : ss.map pieceOf = ss'.map pieceOf)
    (hs : pieceOf s = pieceOf s') (n : Nat) : countedHeight d ss s n = countedHeight d ss' s' n := by
  obtain ⟨h1, h2⟩ := counted_pieces 0 (samePage_pieces h hs)
  unfold countedHeight
  rw [h2, linesHeight_pieces h1]

theorem totalHeight_pieces {d} {ss ss' : List Span} {s s'} (h : ss.map pieceOf = ss'.map pieceOf)
    (hs : pieceOf s = pieceOf s') : totalHeight d ss s = totalHeight d ss' s' := by
  unfold totalHeight
  rw [(counted_pieces 0 (samePage_pieces h hs)).2, countedHeight_pieces h hs]

end Ntcip
