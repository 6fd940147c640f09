import Verif.Lemmas.Cells
/-
Property C85: text on signs with character cells.
-/
namespace Ntcip
open Spec Tests

/-- `b` is `a` with the texts drawn in character cells, the first character of each one in the cell given, in their
foreground colors, later texts over earlier ones -/
structure Spec.CellsAt (d : Dms) (ps : List (Span × Nat × Nat)) (a b : Raster) : Prop where
  width : b.width = a.width
  height : b.height = a.height
  lit : ∀ l1 p l2 i j, ps = l1 ++ p :: l2 → LitInCell d p.1 p.2.1 p.2.2 i j →
    (∀ q ∈ l2, ¬ LitInCell d q.1 q.2.1 q.2.2 i j) → b.px i j = p.1.state.colorCtx.foregroundRgb
  unlit : ∀ i j, (∀ p ∈ ps, ¬ LitInCell d p.1 p.2.1 p.2.2 i j) → b.px i j = a.px i j

/-- the cells of the text, from the cell `(col, row)` on, are cells of the text rectangle -/
def Spec.CellsIn (d : Dms) (r : Rectangle) (s : Span) (col row : Nat) : Prop :=
  (r.x.toNat - 1) / d.vmsCfg.charWidthPixels.toNat ≤ col ∧
  col + s.str.length ≤ (r.x.toNat - 1 + r.width.toNat) / d.vmsCfg.charWidthPixels.toNat ∧
  (r.y.toNat - 1) / d.vmsCfg.charHeightPixels.toNat ≤ row ∧
  row + 1 ≤ (r.y.toNat - 1 + r.height.toNat) / d.vmsCfg.charHeightPixels.toNat

/-- a sign filled by its character cells -/
structure Spec.CellSign (d : Dms) : Prop where
  charWidth : 0 < d.vmsCfg.charWidthPixels.toNat
  charHeight : 0 < d.vmsCfg.charHeightPixels.toNat
  width : d.vmsCfg.signWidthPixels.toNat % d.vmsCfg.charWidthPixels.toNat = 0
  height : d.vmsCfg.signHeightPixels.toNat % d.vmsCfg.charHeightPixels.toNat = 0

/-- **C85** on a sign filled by character cells, text in fonts made for the cells is drawn cell by cell: the texts
of a text rectangle have places in cells of the rectangle such that every character is in its own cell, one
after the other, and exactly the pixels of the characters in their cells change. -/
theorem C85_cells (d : Dms) (hc : CellSign d) (hd : FontsOk d.fontDefinition)
    (h0 : 1 ≤ d.multiCfg.defaultFont.toNat) (ms : Str) (pg pg' : Pages) (page page' : Raster)
    (h : Drawing d ms pg page) (hon : pg.pageState = .on false)
    (hr : renderTextRectangle d pg page = .ok (.ok page', pg')) (hm : CellSpans d pg'.spans) :
    ∃ cells : List (Span × Nat × Nat),
      (∃ vs, Section pg.values vs ∧ cells.map (fun p => pieceOf p.1) =
        pieces (signAttr d) (textAttr pg.renderState) pg.renderState.lineSpacing 0 true vs) ∧
      (∀ p ∈ cells, CellsIn d pg.renderState.textRectangle p.1 p.2.1 p.2.2 ∧
        p.1.state.colorCtx.foregroundRgb = Spec.foregroundRgb d (pieceOf p.1).attr.foreground) ∧
      CellsAt d cells page page' := by
  obtain ⟨vs, h1, h2, _⟩ := drawn_section h hon hr
  obtain ⟨r1, r2⟩ := C43_rectangle_inside d ms pg page h
  obtain ⟨hs, hall⟩ := drawn_spans h hr
  obtain ⟨hp, _, _⟩ := drawing_ok h
  have hcw := cellWidth_of hc.charWidth
  have hch := cellHeight_of hc.charHeight
  have hrw := hp.state.cells.width (by rw [hcw]; exact hc.width)
  have hrh := hp.state.cells.height (by rw [hch]; exact hc.height)
  have hsp : ∀ s ∈ pg'.spans, ∀ c, s.state.charSpacing = some c → c.toNat = 0 :=
    fun s hs => (hall s hs).1.1.cells.spacing hc.charWidth
  unfold renderTextSpans at hs
  split at hs
  · simp at hs
  · have hfo : ∀ s ∈ pg'.spans, ∀ f, FontOf d.fontDefinition s f → FontOk f := by
      intro s hs f hf
      obtain ⟨f1, f2⟩ := font_number hf
      refine hd.fonts f f1 ?_
      have := (hall s hs).1.1.font h0
      rw [f2]; omega
    obtain ⟨ps, e1, e2, e3⟩ := renderSpansLoop_placed hs (fun s h => h) hfo (fun s hs => (hall s hs).1.2)
      (fun s hs => (hall s hs).2) r2 r1
    have hmem : ∀ p ∈ ps, p.1 ∈ pg'.spans := fun p hp => by rw [← e1]; exact List.mem_map_of_mem hp
    have hplace : ∀ p ∈ ps, p.2.1 % d.vmsCfg.charWidthPixels.toNat = 0 ∧ p.2.2 % d.vmsCfg.charHeightPixels.toNat = 0 := by
      intro p hp
      obtain ⟨_, hx, hy⟩ := e2 p hp
      have hrect := (hall _ (hmem p hp)).2
      rw [← hcw, ← hch]
      exact ⟨spanX_cells hx hm hc.charWidth (fun s hs => (hall s hs).1.2) hsp (by rw [hrect]; exact r2.x) (by rw [hrect]; exact hrw),
        spanY_cells hy (hmem p hp) hm hc.charHeight (by rw [hrect]; exact r2.y) (by rw [hrect]; exact hrh)⟩
    refine ⟨ps.map fun p => (p.1, p.2.1 / d.vmsCfg.charWidthPixels.toNat, p.2.2 / d.vmsCfg.charHeightPixels.toNat),
      ⟨vs, h1, ?_⟩, ?_, ?_⟩
    · rw [← h2, ← e1, List.map_map, List.map_map]; rfl
    · intro q hq
      obtain ⟨p, hp, rfl⟩ := List.mem_map.1 hq
      refine ⟨?_, drawn_colors h hr _ (hmem p hp)⟩
      obtain ⟨_, hx, hy⟩ := e2 p hp
      have hrect := (hall _ (hmem p hp)).2
      obtain ⟨w, hw, x1, x2, x3⟩ := spanX_inside hx (hmem p hp) (by rw [hrect]; exact r2.x)
      obtain ⟨f, hf, y1, y2, y3⟩ := spanY_inside hy (hmem p hp) (by rw [hrect]; exact r2.y)
        (fun _ => cellFonts_of hm hc.charHeight _)
      have ew := spanWidth_cells hw (hm _ (hmem p hp)) (hall _ (hmem p hp)).1.2 (hsp _ (hmem p hp))
      rw [(hm _ (hmem p hp) f hf).height] at y3
      rw [hrect] at x2 x3 y2 y3
      refine ⟨Nat.div_le_div_right x2, ?_, Nat.div_le_div_right y2, ?_⟩
      · rw [← Nat.add_mul_div_right _ _ hc.charWidth, ← ew]
        exact Nat.div_le_div_right x3
      · have := Nat.div_le_div_right (c := d.vmsCfg.charHeightPixels.toNat) y3
        rw [Nat.add_div_right _ hc.charHeight] at this
        exact this
    · have hl : ∀ p ∈ ps, ∀ i j, LightsAt d.fontDefinition p.1 p.2.1 p.2.2 i j ↔ LitInCell d p.1
          (p.2.1 / d.vmsCfg.charWidthPixels.toNat) (p.2.2 / d.vmsCfg.charHeightPixels.toNat) i j := by
        intro p hp i j
        obtain ⟨m1, m2⟩ := hplace p hp
        rw [← lightsAt_cells (hm _ (hmem p hp)) (hall _ (hmem p hp)).1.2 (hsp _ (hmem p hp)) _ i j hc.charWidth hc.charHeight,
          Nat.div_mul_cancel (Nat.dvd_of_mod_eq_zero m1), Nat.div_mul_cancel (Nat.dvd_of_mod_eq_zero m2)]
        intro f hf
        obtain ⟨_, hx, _⟩ := e2 p hp
        obtain ⟨w, ⟨f', es, hf', hd', _⟩, _⟩ := spanX_inside hx (hmem p hp)
          (by rw [(hall _ (hmem p hp)).2]; exact r2.x)
        obtain rfl := fontOf_unique hf hf'
        exact ⟨es, hd'⟩
      refine ⟨e3.width, e3.height, ?_, ?_⟩
      · intro l1 q l2 i j e hq hlater
        obtain ⟨m1, r, rfl, rfl, e'⟩ := List.map_eq_append_iff.1 e
        obtain ⟨p, m2, rfl, rfl, rfl⟩ := List.map_eq_cons_iff.1 e'
        refine e3.lit m1 p m2 i j rfl ((hl p (by simp) i j).2 hq) fun q hq hlit => ?_
        exact hlater _ (List.mem_map_of_mem hq) ((hl q (by simp [hq]) i j).1 hlit)
      · intro i j hno
        exact e3.unlit i j fun p hp hlit => hno _ (List.mem_map_of_mem hp) ((hl p hp i j).1 hlit)

instance (d : Dms) (f : Font) : Decidable (MadeForCells d f) :=
  decidable_of_iff ((∀ c ∈ f.characters, c.number ≠ 0 → c.width = d.vmsCfg.charWidthPixels) ∧
      f.height = d.vmsCfg.charHeightPixels ∧ f.charSpacing = 0)
    ⟨fun ⟨a, b, c⟩ => ⟨a, b, c⟩, fun h => ⟨h.1, h.2, h.3⟩⟩

/-- the fonts of all spans are made for the cells, as a check -/
def Tests.cellSpansCheck (d : Dms) (spans : List Span) : Bool :=
  spans.all fun s => match FontTable.font d.fontDefinition s.state.fontNum with
    | some f => decide (MadeForCells d f)
    | none => true

theorem cellSpansCheck_ok {d spans} (h : cellSpansCheck d spans = true) : CellSpans d spans := by
  intro s hs f hf
  have := List.all_eq_true.1 h s hs
  rw [hf.1] at this
  exact of_decide_eq_true this

/-- texts of the first text rectangle of a message, with places in pixels, if all fonts are made for the cells -/
def Tests.cellTexts (d : Dms) (ms : Str) : Option (List (Str × Nat × Nat)) :=
  let pg := Pages.new d ms
  match updatePageState pg.defaultState pg.renderState pg.values with
  | .ok (.ok (), rs) =>
    match renderTextRectangle d { pg with renderState := rs, pageState := .on false } (buildRaster rs) with
    | .ok (.ok _, pg') => if cellSpansCheck d pg'.spans
      then some (pg'.spans.map fun s => (s.str,
        (match spanX d pg'.spans s with | .ok x => x | _ => 0), match spanY d pg'.spans s with | .ok y => y | _ => 0))
      else none
    | _ => none
  | _ => none

theorem cellTexts_drawn {d ms ts} (h : cellTexts d ms = some ts) :
    ∃ pg page pg' page', Drawing d ms pg page ∧ pg.pageState = .on false ∧
      renderTextRectangle d pg page = .ok (.ok page', pg') ∧ CellSpans d pg'.spans ∧
      pg'.spans.map (·.str) = ts.map Prod.fst := by
  unfold cellTexts at h
  dsimp only at h
  split at h
  · rename_i rs hu
    split at h
    · rename_i page' pg' hr
      split at h
      · rename_i hc
        refine ⟨_, _, pg', page', Drawing.start .nil hu, rfl, hr, cellSpansCheck_ok hc, ?_⟩
        simp only [Option.some.injEq] at h
        rw [← h, List.map_map]
        rfl
      · simp at h
    · simp at h
  · simp at h

-- the sign of `render_char` has cells of 5 x 7 pixels; centered text starts at a cell, though the free space is odd
example : CellSign charDms := ⟨by decide, by decide, by decide, by decide⟩
example : cellTexts charDms c!"[jl3][jp3]ABC[nl]C[fo5]D[jl4]E" =
    some [(c!"ABC", 40, 0), (c!"C", 45, 7), (c!"D", 50, 7), (c!"E", 95, 7)] := by decide +kernel
example : ∃ pg page pg' page', Drawing charDms c!"[jl3][jp3]ABC[nl]C[fo5]D[jl4]E" pg page ∧
    pg.pageState = .on false ∧ renderTextRectangle charDms pg page = .ok (.ok page', pg') ∧
    CellSpans charDms pg'.spans ∧ pg'.spans.map (·.str) = [c!"ABC", c!"C", c!"D", c!"E"] :=
  cellTexts_drawn (ts := [(c!"ABC", 40, 0), (c!"C", 45, 7), (c!"D", 50, 7), (c!"E", 95, 7)]) (by decide +kernel)

/-- left edges of the texts of the first text rectangle -/
def Tests.textEdges (d : Dms) (ms : Str) : Option (List (Str × Nat)) :=
  let pg := Pages.new d ms
  match updatePageState pg.defaultState pg.renderState pg.values with
  | .ok (.ok (), rs) =>
    match renderTextRectangle d { pg with renderState := rs, pageState := .on false } (buildRaster rs) with
    | .ok (.ok _, pg') => some (pg'.spans.map fun s => (s.str, match spanX d pg'.spans s with | .ok x => x | _ => 0))
    | _ => none
  | _ => none

/-- the condition on fonts is needed: no check of the sign rejects other fonts (`charDms` is built with font 8,
which is not made for its cells), and text in them is not at cells -/
theorem C85_unchecked : (charDms.intoBuilder.build .checked matches .ok _) = true ∧
    textEdges charDms c!"[jl2][fo8]A[fo5]B" = some [(c!"A", 0), (c!"B", 6)] ∧
    6 % charDms.vmsCfg.charWidthPixels.toNat ≠ 0 := by decide +kernel

end Ntcip
