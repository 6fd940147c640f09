import Verif.Props.Exact
/-
Lemmas for character cells: positions of texts in fonts made for the cells.
-/
namespace Ntcip
open Spec

/-- a font made for the character cells of a sign: its characters fill a cell, without spacing -/
structure Spec.MadeForCells (d : Dms) (f : Font) : Prop where
  width : ∀ c ∈ f.characters, c.number ≠ 0 → c.width = d.vmsCfg.charWidthPixels
  height : f.height = d.vmsCfg.charHeightPixels
  spacing : f.charSpacing = 0

/-- the fonts of all spans are made for the character cells of the sign -/
def Spec.CellSpans (d : Dms) (spans : List Span) : Prop :=
  ∀ s ∈ spans, ∀ f, FontOf d.fontDefinition s f → MadeForCells d f

theorem cellFont_spacing {d : Dms} {s : Span} {f : Font} (hm : MadeForCells d f)
    (hs : ∀ c, s.state.charSpacing = some c → c.toNat = 0) : charSpacing s f = 0 := by
  unfold charSpacing
  cases h : s.state.charSpacing with
  | none => rw [hm.spacing]; rfl
  | some c => exact hs c h

theorem character_mem {f : Font} {ch : Char} {e : CharacterEntry} (h : f.character ch = some e) :
    e ∈ f.characters ∧ e.number.toNat = ch.toNat := by
  unfold Font.character at h
  split at h
  · exact ⟨List.mem_of_find?_eq_some h, by simpa using List.find?_some h⟩
  · simp at h

theorem defined_widths {d : Dms} {f : Font} (hm : MadeForCells d f) {text : Str} {es : List CharacterEntry}
    (hn : ∀ ch ∈ text, ch.toNat ≠ 0) (h : Defined f text es) : es.length = text.length ∧ ∀ e ∈ es, e.width = d.vmsCfg.charWidthPixels := by
  unfold Defined at h
  refine ⟨by simpa using (congrArg List.length h).symm, fun e he => ?_⟩
  have : some e ∈ text.map f.character := by rw [h]; exact List.mem_map_of_mem he
  obtain ⟨c, hct, hc⟩ := List.mem_map.1 this
  obtain ⟨h1, h2⟩ := character_mem hc
  refine hm.width e h1 fun e0 => hn c hct ?_
  rw [← h2, e0]; rfl

theorem sum_const {l : List Nat} {w : Nat} (h : ∀ a ∈ l, a = w) : l.sum = l.length * w := by
  induction l with
  | nil => simp
  | cons a l ih =>
    rw [List.sum_cons, ih fun b hb => h b (List.mem_cons_of_mem _ hb), h a (List.mem_cons_self ..),
      List.length_cons, Nat.add_mul, Nat.one_mul, Nat.add_comm]

theorem advance_cells {d : Dms} {es : List CharacterEntry} (h : ∀ e ∈ es, e.width = d.vmsCfg.charWidthPixels) :
    advance 0 (es.map (·.width.toNat)) = es.length * d.vmsCfg.charWidthPixels.toNat := by
  unfold advance
  rw [sum_const (w := d.vmsCfg.charWidthPixels.toNat)]
  · simp
  · intro a ha
    obtain ⟨e, he, rfl⟩ := List.mem_map.1 ha
    rw [h e he]

theorem cellWidth_of {d : Dms} (h : 0 < d.vmsCfg.charWidthPixels.toNat) :
    signCellWidth d = d.vmsCfg.charWidthPixels.toNat := by
  unfold signCellWidth; omega

theorem cellHeight_of {d : Dms} (h : 0 < d.vmsCfg.charHeightPixels.toNat) :
    signCellHeight d = d.vmsCfg.charHeightPixels.toNat := by
  unfold signCellHeight; omega

section
variable {d : Dms} {spans : List Span}

theorem spanWidth_cells {s : Span} {w : Nat} (hw : SpanWidth d.fontDefinition s w)
    (hm : ∀ f, FontOf d.fontDefinition s f → MadeForCells d f) (hn : ∀ ch ∈ s.str, ch.toNat ≠ 0)
    (hs : ∀ c, s.state.charSpacing = some c → c.toNat = 0) :
    w = s.str.length * d.vmsCfg.charWidthPixels.toNat := by
  obtain ⟨f, es, hf, hd, rfl⟩ := hw
  obtain ⟨h1, h2⟩ := defined_widths (hm f hf) hn hd
  rw [cellFont_spacing (hm f hf) hs, advance_cells h2, h1]

theorem gap_cells {p s : Span} {g : Nat} (hg : Gap d.fontDefinition p s g)
    (hm : ∀ f, FontOf d.fontDefinition s f → MadeForCells d f)
    (hmp : ∀ f, FontOf d.fontDefinition p f → MadeForCells d f)
    (hp : ∀ c, p.state.charSpacing = some c → c.toNat = 0)
    (hs : ∀ c, s.state.charSpacing = some c → c.toNat = 0) : g = 0 := by
  unfold Gap at hg
  cases h : s.state.charSpacing with
  | some c => rw [h] at hg; rw [hg]; exact hs c h
  | none =>
    rw [h] at hg
    obtain ⟨fp, fs, h1, h2, rfl⟩ := hg
    rw [cellFont_spacing (hm fs h2) hs]
    have : charSpacing p fp = 0 := by
      cases h' : p.state.charSpacing with
      | none => exact cellFont_spacing (hmp fp (h1 h')) hp
      | some c => unfold charSpacing; rw [h']; exact hp c h'
    rw [this]

theorem hsum_cells {own : Nat} {prev : Option Span} {ss : List Span} {b a : Nat}
    (h : HSum d.fontDefinition own prev ss b a) (hm : CellSpans d ss)
    (hn : ∀ s ∈ ss, ∀ ch ∈ s.str, ch.toNat ≠ 0)
    (hs : ∀ s ∈ ss, ∀ c, s.state.charSpacing = some c → c.toNat = 0)
    (hmp : ∀ p, prev = some p → ∀ f, FontOf d.fontDefinition p f → MadeForCells d f)
    (hp : ∀ p, prev = some p → ∀ c, p.state.charSpacing = some c → c.toNat = 0) :
    b % d.vmsCfg.charWidthPixels.toNat = 0 ∧ a % d.vmsCfg.charWidthPixels.toNat = 0 := by
  induction h with
  | nil => simp
  | @first s ss w b a hw _ ih =>
    have e := spanWidth_cells hw (hm s (List.mem_cons_self ..)) (hn s (List.mem_cons_self ..))
      (hs s (List.mem_cons_self ..))
    obtain ⟨i1, i2⟩ := ih (fun s h => hm s (List.mem_cons_of_mem _ h)) (fun s h => hn s (List.mem_cons_of_mem _ h))
      (fun s h => hs s (List.mem_cons_of_mem _ h))
      (fun p hp => by cases hp; exact hm s (List.mem_cons_self ..))
      (fun p hp => by cases hp; exact hs s (List.mem_cons_self ..))
    subst e
    split
    · exact ⟨by rw [Nat.add_mul_mod_self_right]; exact i1, i2⟩
    · exact ⟨i1, by rw [Nat.add_mul_mod_self_right]; exact i2⟩
  | @next p s ss g b a hg _ ih =>
    obtain rfl := gap_cells hg (hm s (List.mem_cons_self ..)) (hmp p rfl) (hp p rfl) (hs s (List.mem_cons_self ..))
    simpa using ih hm hn hs (fun p hp => by cases hp) (fun p hp => by cases hp)

theorem sameLine_sub {s x : Span} (h : x ∈ sameLine spans s) : x ∈ spans := (List.mem_filter.1 h).1

theorem samePage_sub {s x : Span} (h : x ∈ samePage spans s) : x ∈ spans := (List.mem_filter.1 h).1

theorem mod_add_zero {a b c : Nat} (ha : a % c = 0) (hb : b % c = 0) : (a + b) % c = 0 := by
  rw [Nat.add_mod, ha, hb]; simp

theorem mod_sub_zero {a b c : Nat} (ha : a % c = 0) (hb : b % c = 0) : (a - b) % c = 0 :=
  Nat.mod_eq_zero_of_dvd (Nat.dvd_sub (Nat.dvd_of_mod_eq_zero ha) (Nat.dvd_of_mod_eq_zero hb))

/-- texts start at a character cell -/
theorem spanX_cells {s : Span} {x : Nat} (h : spanX d spans s = .ok x) (hm : CellSpans d spans)
    (hw : 0 < d.vmsCfg.charWidthPixels.toNat) (hn : ∀ s ∈ spans, ∀ ch ∈ s.str, ch.toNat ≠ 0)
    (hsp : ∀ s ∈ spans, ∀ c, s.state.charSpacing = some c → c.toNat = 0)
    (ha : (s.state.textRectangle.x.toNat - 1) % (signCellWidth d) = 0)
    (hr : s.state.textRectangle.width.toNat % (signCellWidth d) = 0) : x % signCellWidth d = 0 := by
  have key : ∀ {b a}, offsetHoriz d spans s = .ok (b, a) → b % signCellWidth d = 0 ∧ a % signCellWidth d = 0 := by
    intro b a h1
    rw [cellWidth_of hw]
    exact hsum_cells (offsetHoriz_ok h1).1 (fun s h => hm s (sameLine_sub h))
      (fun s h => hn s (sameLine_sub h)) (fun s h => hsp s (sameLine_sub h))
      (fun p hp => by cases hp) (fun p hp => by cases hp)
  unfold spanX at h
  split at h
  · unfold spanXLeft at h
    simp only [Out.bind_eq_ok, Out.ofRes_eq_ok, chk16_ok, sub16_ok] at h
    obtain ⟨l, ⟨hl, rfl⟩, ⟨b, a⟩, h1, rfl, h2⟩ := h
    exact mod_add_zero ha (key h1).1
  · unfold spanXCenter at h; simp only [cellWidth_eq] at h
    simp only [Out.bind_eq_ok, Out.ofRes_eq_ok, chk16_ok, sub16_ok] at h
    obtain ⟨l, ⟨hl, rfl⟩, ⟨b, a⟩, h1, t1, ⟨h2, rfl⟩, t2, ⟨h3, rfl⟩, t3, ⟨rfl, h4⟩, t4, ⟨rfl, h5⟩, rfl, h6⟩ := h
    exact Nat.mul_mod_left ..
  · unfold spanXRight at h
    simp only [Out.bind_eq_ok, Out.ofRes_eq_ok, chk16_ok, sub16_ok] at h
    obtain ⟨l, ⟨hl, rfl⟩, ⟨b, a⟩, h1, t1, ⟨rfl, h2⟩, h3, rfl⟩ := h
    exact mod_sub_zero (mod_add_zero ha hr) (key h1).2
  · simp at h

theorem vBelow_mod {sln c : Nat} {ls : List TextLine} : ∀ {ln prev}, (∀ l ∈ ls, l.height % c = 0) →
    vBelow false sln ls ln prev % c = 0 := by
  induction ls with
  | nil => intros; simp [vBelow]
  | cons a ls ih =>
    intro ln prev h
    simp only [vBelow]
    have h1 := ih (ln := ln + 1) (prev := some a) (fun l hl => h l (List.mem_cons_of_mem _ hl))
    have h2 := h a (List.mem_cons_self ..)
    have e : lineGap false prev a = 0 := by unfold lineGap; split <;> simp
    rw [e]
    split
    · rw [Nat.zero_add]; exact h1
    · rw [Nat.zero_add, Nat.add_mod, h1, h2]; simp

theorem offsetVert_below {s : Span} {a b : Nat} (h : offsetVert d spans s = .ok (a, b))
    (hc : CellFonts d (samePage spans s)) : b % (signCellHeight d) = 0 := by
  obtain ⟨ls, h1, h2, h3, h4⟩ := offsetVert_ok h
  rcases hc with hc | hc
  · have : (signCellHeight d) = 1 := by unfold signCellHeight; rw [hc]; rfl
    rw [this]; omega
  · by_cases h0 : d.vmsCfg.charHeightPixels = 0
    · have : (signCellHeight d) = 1 := by unfold signCellHeight; rw [h0]; rfl
      rw [this]; omega
    · rw [h3, decide_eq_false h0]
      apply vBelow_mod
      refine textLines_all h1 (fun l => l.height % (signCellHeight d) = 0) (fun s hs f hf => hc s hs f hf) ?_ (by simp)
      intro x y hx hy
      simp only [TextLine.combine]
      rcases Nat.le_total x.height y.height with h | h
      · rw [Nat.max_eq_right h]; exact hy
      · rw [Nat.max_eq_left h]; exact hx

theorem cellFonts_of (hm : CellSpans d spans) (hh : 0 < d.vmsCfg.charHeightPixels.toNat) (s : Span) :
    CellFonts d (samePage spans s) := by
  refine .inr fun s' hs f hf => ?_
  rw [(hm s' (samePage_sub hs) f hf).height, cellHeight_of hh, Nat.mod_self]

/-- texts have their upper edge at a character cell -/
theorem spanY_cells {s : Span} {y : Nat} (h : spanY d spans s = .ok y) (hs : s ∈ spans) (hm : CellSpans d spans)
    (hh : 0 < d.vmsCfg.charHeightPixels.toNat)
    (ha : (s.state.textRectangle.y.toNat - 1) % (signCellHeight d) = 0)
    (hr : s.state.textRectangle.height.toNat % (signCellHeight d) = 0) : y % signCellHeight d = 0 := by
  have hcf := cellFonts_of hm hh s
  unfold spanY at h
  simp only [Out.bind_eq_ok, Out.ofRes_eq_ok, sub16_ok, height_ok] at h
  obtain ⟨bl, h, _, ⟨f, hf, rfl⟩, hb, rfl⟩ := h
  have hfh : f.height.toNat % signCellHeight d = 0 := by
    rw [(hm s hs f hf).height, cellHeight_of hh, Nat.mod_self]
  refine mod_sub_zero ?_ hfh
  unfold baseline at h
  split at h
  · unfold baselineTop at h
    simp only [Out.bind_eq_ok, Out.ofRes_eq_ok, chk16_ok, sub16_ok] at h
    obtain ⟨l, ⟨hl, rfl⟩, ⟨a, b⟩, h1, rfl, h2⟩ := h
    exact mod_add_zero ha (offsetVert_mod h1 hcf)
  · unfold baselineMiddle at h; simp only [cellHeight_eq] at h
    simp only [Out.bind_eq_ok, Out.ofRes_eq_ok, chk16_ok, sub16_ok] at h
    obtain ⟨l, ⟨hl, rfl⟩, ⟨a, b⟩, h1, t1, ⟨h2, rfl⟩, t2, ⟨h3, rfl⟩, t3, ⟨rfl, h6⟩, t4, ⟨rfl, h7⟩, rfl, h8⟩ := h
    exact Nat.mul_mod_left ..
  · unfold baselineBottom at h
    simp only [Out.bind_eq_ok, Out.ofRes_eq_ok, chk16_ok, sub16_ok] at h
    obtain ⟨l, ⟨hl, rfl⟩, ⟨a, b⟩, h1, t, ⟨rfl, h2⟩, h3, rfl⟩ := h
    exact mod_sub_zero (mod_add_zero ha hr) (offsetVert_below h1 hcf)
  · simp at h

end

/-- the pixel `(i, j)` is lit by the text of `s`, with its first character in the cell `(col, row)`: it is in the
cell of one of its characters, and lit in the bitmap of that character -/
def Spec.LitInCell (d : Dms) (s : Span) (col row i j : Nat) : Prop :=
  ∃ f k c e, FontOf d.fontDefinition s f ∧ s.str[k]? = some c ∧ f.character c = some e ∧
    i / d.vmsCfg.charWidthPixels.toNat = col + k ∧ j / d.vmsCfg.charHeightPixels.toNat = row ∧
    bit e.bitmap (j % d.vmsCfg.charHeightPixels.toNat * d.vmsCfg.charWidthPixels.toNat +
      i % d.vmsCfg.charWidthPixels.toNat) = true

theorem div_mod_place {a c r : Nat} (hr : r < c) : (a * c + r) / c = a ∧ (a * c + r) % c = r := by
  have hc : 0 < c := by omega
  exact ⟨by rw [Nat.add_comm, Nat.add_mul_div_right _ _ hc, Nat.div_eq_of_lt hr, Nat.zero_add],
    by rw [Nat.add_comm, Nat.add_mul_mod_self_right, Nat.mod_eq_of_lt hr]⟩

theorem lightsAt_cells {d : Dms} {s : Span} {col row : Nat} (hm : ∀ f, FontOf d.fontDefinition s f → MadeForCells d f)
    (hn : ∀ ch ∈ s.str, ch.toNat ≠ 0) (hs : ∀ c, s.state.charSpacing = some c → c.toNat = 0)
    (hd : ∀ f, FontOf d.fontDefinition s f → ∃ es, Defined f s.str es) (i j : Nat)
    (hw : 0 < d.vmsCfg.charWidthPixels.toNat) (hh : 0 < d.vmsCfg.charHeightPixels.toNat) :
    LightsAt d.fontDefinition s (col * d.vmsCfg.charWidthPixels.toNat) (row * d.vmsCfg.charHeightPixels.toNat) i j ↔
      LitInCell d s col row i j := by
  constructor
  · rintro ⟨f, es, hf, hdf, before, e, after, r, c, rfl, hr, hc, hb, rfl, rfl⟩
    have hmf := hm f hf
    obtain ⟨_, hwid⟩ := defined_widths hmf hn hdf
    have he : e.width = d.vmsCfg.charWidthPixels := hwid e (by simp)
    rw [cellFont_spacing hmf hs, advance_cells fun e he => hwid e (by simp [he])]
    rw [he] at hc hb
    rw [hmf.height] at hr
    have hk : s.str[before.length]?.map f.character = some (some e) := by
      rw [← List.getElem?_map]
      have := hdf
      unfold Defined at this
      rw [this]
      simp
    obtain ⟨ch, h1, h2⟩ := Option.map_eq_some_iff.1 hk
    have e1 : col * d.vmsCfg.charWidthPixels.toNat + before.length * d.vmsCfg.charWidthPixels.toNat +
        (if 0 < (before.map (·.width.toNat)).sum then 0 else 0) + c =
        (col + before.length) * d.vmsCfg.charWidthPixels.toNat + c := by
      rw [Nat.add_mul]; split <;> omega
    rw [e1]
    obtain ⟨a1, a2⟩ := div_mod_place (a := col + before.length) hc
    obtain ⟨b1, b2⟩ := div_mod_place (a := row) hr
    exact ⟨f, before.length, ch, e, hf, h1, h2, a1, b1, by rw [a2, b2]; exact hb⟩
  · rintro ⟨f, k, c, e, hf, hk, hc, hi, hj, hb⟩
    have hmf := hm f hf
    obtain ⟨es, hdf⟩ := hd f hf
    obtain ⟨_, hwid⟩ := defined_widths hmf hn hdf
    have hek : es[k]? = some e := by
      have := congrArg (fun l => l[k]?) hdf
      simp only [List.getElem?_map, hk, Option.map_some, hc] at this
      cases h : es[k]? with
      | none => rw [h] at this; simp at this
      | some e' => rw [h] at this; simp at this; rw [this]
    have hlt : k < es.length := by
      rcases Nat.lt_or_ge k es.length with h | h
      · exact h
      · rw [List.getElem?_eq_none h] at hek; simp at hek
    have hes : es = es.take k ++ e :: es.drop (k + 1) := by
      have : es[k] = e := by rw [List.getElem?_eq_getElem hlt] at hek; simpa using hek
      rw [← this]
      simp
    have he : e.width = d.vmsCfg.charWidthPixels := hwid e (List.mem_of_getElem? hek)
    refine ⟨f, es, hf, hdf, es.take k, e, es.drop (k + 1), j % d.vmsCfg.charHeightPixels.toNat,
      i % d.vmsCfg.charWidthPixels.toNat, hes, ?_, ?_, ?_, ?_, ?_⟩
    · rw [hmf.height]; exact Nat.mod_lt _ hh
    · rw [he]; exact Nat.mod_lt _ hw
    · rw [he]; exact hb
    · rw [cellFont_spacing hmf hs, advance_cells fun e he => hwid e (List.mem_of_mem_take he), List.length_take,
        Nat.min_eq_left (by omega), ← Nat.add_mul, ← hi]
      have := Nat.div_add_mod i d.vmsCfg.charWidthPixels.toNat
      rw [Nat.mul_comm] at this
      split <;> omega
    · rw [← hj]
      have := Nat.div_add_mod j d.vmsCfg.charHeightPixels.toNat
      rw [Nat.mul_comm] at this
      omega

end Ntcip
