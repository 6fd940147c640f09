import Verif.Lemmas.Renumber
import Verif.Props.Synonym
import Verif.Props.Tables
/-
C112: numbers and names of fonts and graphics are names only.
-/
namespace Ntcip
open Spec

/-- **C112** A sign with other numbers and names for the same fonts and graphics gives, for a message with these numbers in its
tags (and version IDs for these numbers), the same results: the same pages, and errors at the same places, which name the
new number; or both panic. -/
theorem C112_results (n : Numbering) (d : Dms) (ms ms' : Str) (hs : All2 (n.Item d) (slices ms) (slices ms')) (k : Nat) :
    Res.Rel (fun p q => All2 (n.SameResult d) p.1 q.1)
      (Pages.run d k (Pages.new d ms)) (Pages.run (n.sign d) k (Pages.new (n.sign d) ms')) :=
  run_ren n d k (new_ren n d hs)

theorem steps_ren {n : Numbering} {d : Dms} {pg pg' pe : Pages} (hp : RenP n d pg pg') {xs} (hx : Steps d pg xs pe)
    (hn : NoError xs) : ∃ pe', Steps (n.sign d) pg' xs pe' ∧ RenP n d pe pe' := by
  induction hx generalizing pg' with
  | nil => exact ⟨pg', .nil, hp⟩
  | cons h1 _ ih =>
    rename_i pg pg1 pe x xs _
    have h := next_ren n d hp
    rw [h1] at h
    cases h2 : Pages.next (n.sign d) pg' with
    | panic p => rw [h2] at h; exact h.elim
    | ok q =>
      rw [h2] at h
      obtain ⟨y, pg1'⟩ := q
      obtain ⟨k1, k2⟩ := h
      cases y with
      | none => exact k1.elim
      | some y =>
        obtain ⟨p, hxp⟩ := hn (isOn pg.pageState, x) (by simp)
        dsimp only at hxp
        subst hxp
        cases y with
        | error e => exact k1.elim
        | ok q =>
          have : q = p := k1
          subst this
          obtain ⟨pe', h3, h4⟩ := ih k2 (fun z hz => hn z (by simp [hz]))
          refine ⟨pe', ?_, h4⟩
          have := Steps.cons h2 h3
          rwa [hp.pageState] at this

theorem steps_ren' {n : Numbering} {d : Dms} {pg pg' pe' : Pages} (hp : RenP n d pg pg') {xs} (hx : Steps (n.sign d) pg' xs pe')
    (hn : NoError xs) : ∃ pe, Steps d pg xs pe ∧ RenP n d pe pe' := by
  induction hx generalizing pg with
  | nil => exact ⟨pg, .nil, hp⟩
  | cons h1 _ ih =>
    rename_i pg' pg1' pe' x xs _
    have h := next_ren n d hp
    rw [h1] at h
    cases h2 : Pages.next d pg with
    | panic p => rw [h2] at h; exact h.elim
    | ok q =>
      rw [h2] at h
      obtain ⟨y, pg1⟩ := q
      obtain ⟨k1, k2⟩ := h
      cases y with
      | none => exact k1.elim
      | some y =>
        obtain ⟨p, hxp⟩ := hn (isOn pg'.pageState, x) (by simp)
        dsimp only at hxp
        subst hxp
        cases y with
        | error e => exact k1.elim
        | ok q =>
          have : p = q := k1
          subst this
          obtain ⟨pe, h3, h4⟩ := ih k2 (fun z hz => hn z (by simp [hz]))
          refine ⟨pe, ?_, h4⟩
          have := Steps.cons h2 h3
          rwa [← hp.pageState] at this

theorem next_done {d : Dms} {pg : Pages} (h : pg.pageState = .done) : Pages.next d pg = .ok (none, pg) := by
  unfold Pages.next
  rw [h]

/-- **C112 (shown)** So the message is shown on the sign exactly if the message with new numbers is shown on the sign with
new numbers, as the same pages for the same times. -/
theorem C112_shown (n : Numbering) (d : Dms) (ms ms' : Str) (hs : All2 (n.Item d) (slices ms) (slices ms')) (xs) :
    ShownAs d ms xs ↔ ShownAs (n.sign d) ms' xs := by
  constructor
  · rintro ⟨⟨pe, h1, h2⟩, hn⟩
    obtain ⟨pe', h3, h4⟩ := steps_ren (new_ren n d hs) h1 hn
    exact ⟨⟨pe', h3, next_done (h4.pageState.trans (next_none h2).1)⟩, hn⟩
  · rintro ⟨⟨pe', h1, h2⟩, hn⟩
    obtain ⟨pe, h3, h4⟩ := steps_ren' (new_ren n d hs) h1 hn
    exact ⟨⟨pe, h3, next_done (h4.pageState.symm.trans (next_none h2).1)⟩, hn⟩

/-- **C112 (values)** the same for messages without a wrong item, told by their values -/
theorem C112_values (n : Numbering) (d : Dms) (ms ms' : Str) (vs : List Value) (hv : Parses (slices ms) vs)
    (hv' : Parses (slices ms') (vs.map (n.value d))) (xs) : ShownAs d ms xs ↔ ShownAs (n.sign d) ms' xs := by
  refine C112_shown n d ms ms' ?_ xs
  revert hv hv'
  generalize slices ms' = ss'
  generalize slices ms = ss
  intro hv hv'
  induction hv generalizing ss' with
  | nil => cases hv'; exact .nil
  | cons h1 _ ih =>
    cases hv' with
    | cons h2 h3 =>
      refine .cons ?_ (ih _ h3)
      unfold Numbering.Item
      rw [h1, h2]

theorem uniqueNumbers_map {α : Type} {num : α → UInt8} {f : α → α} {ρ : UInt8 → UInt8} (hf : ∀ a, num (f a) = ρ (num a))
    (hi : ∀ a b, ρ a = ρ b → a = b) (h0 : ρ 0 = 0) {l : List α} (h : UniqueNumbers (fun a => (num a).toNat) l) :
    UniqueNumbers (fun a => (num a).toNat) (l.map f) := by
  intro i j a b ha hb hne he
  simp only [List.getElem?_map, Option.map_eq_some_iff] at ha hb
  obtain ⟨a', ha, rfl⟩ := ha
  obtain ⟨b', hb, rfl⟩ := hb
  simp only [hf, UInt8.toNat_inj] at he
  have he := hi _ _ he
  refine h i j a' b' ha hb ?_ (by simp only [he])
  intro hz
  refine hne ?_
  have hz : num a' = 0 := UInt8.toNat_inj.1 hz
  simp only [hf, hz, h0]
  rfl

theorem retain_named (n : Numbering) (t : GraphicTable) (w h : UInt16) (ht : GraphicTable.retain t w h = t) :
    GraphicTable.retain (t.map n.ofGraphic) w h = t.map n.ofGraphic := by
  unfold GraphicTable.retain at ht ⊢
  rw [List.map_map]
  refine List.map_congr_left fun g hg => ?_
  have hk : (if g.width > w ∨ g.height.toUInt16 > h then Graphic.default else g) = g := by
    obtain ⟨i, hi⟩ := List.mem_iff_getElem?.1 hg
    have := congrArg (fun l => l[i]?) ht
    simp only [List.getElem?_map, hi, Option.map_some, Option.some.injEq] at this
    exact this
  show (if g.width > w ∨ g.height.toUInt16 > h then Graphic.default else n.ofGraphic g) = n.ofGraphic g
  split
  · rename_i hb
    rw [if_pos hb] at hk
    rw [← hk] at hb
    rcases hb with hb | hb
    · exact absurd (UInt16.lt_iff_toNat_lt.1 hb) (by simp [Graphic.default])
    · exact absurd (UInt16.lt_iff_toNat_lt.1 hb) (by simp [Graphic.default])
  · rfl

/-- **C112 (built)** The sign with new numbers is built exactly like the sign, if unused slots (number 0) stay unused. -/
theorem C112_built (n : Numbering) (hf : n.font 0 = 0) (hg : n.graphic 0 = 0) (p : Profile) (b : DmsBuilder) (d : Dms)
    (h : b.build p = .ok d) : (n.sign d).intoBuilder.build p = .ok (n.sign d) := by
  have hv := C22_built_sign_valid p b d h
  have h := C23_rebuild p b d h
  have hfz : ∀ k, (n.font k).toNat ≠ 0 → k.toNat ≠ 0 := by
    intro k h1 h2
    have : k = 0 := UInt8.toNat_inj.1 h2
    subst this
    rw [hf] at h1
    exact h1 rfl
  have hgz : ∀ k, (n.graphic k).toNat ≠ 0 → k.toNat ≠ 0 := by
    intro k h1 h2
    have : k = 0 := UInt8.toNat_inj.1 h2
    subst this
    rw [hg] at h1
    exact h1 rfl
  simp only [DmsBuilder.build, Dms.intoBuilder, Out.bind_unit_eq_ok, Out.pure_eq, Out.ok.injEq] at h ⊢
  obtain ⟨h1, h2, _, _, h5⟩ := h
  have hr : GraphicTable.retain d.graphicDefinition d.vmsCfg.signWidthPixels d.vmsCfg.signHeightPixels = d.graphicDefinition := by
    have := congrArg Dms.graphicDefinition h5
    exact this
  have hr' := retain_named n _ _ _ hr
  refine ⟨h1, h2, ?_, ?_, ?_⟩
  · have : FontTable.validate (n.sign d).fontDefinition = .ok () := by
      refine (C20_accepts_iff _).2 ⟨fun f hm h0 => ?_, ?_⟩
      · obtain ⟨f', hm', rfl⟩ := List.mem_map.1 hm
        have k := hv.2.2.2.2.1.fonts f' hm' (hfz _ h0)
        exact ⟨k.height, k.bitmaps, k.chars⟩
      · exact uniqueNumbers_map (num := Font.number) (fun _ => rfl) n.font_inj hf hv.2.2.2.2.1.numbers
    rw [this]; rfl
  · have : GraphicTable.validate (n.sign d).graphicDefinition (n.sign d).vmsCfg.signWidthPixels (n.sign d).vmsCfg.signHeightPixels
        = .ok () := by
      refine (C21_accepts_iff _ _ _).2 ⟨fun g hm h0 => ?_, ?_⟩
      · obtain ⟨g', hm', rfl⟩ := List.mem_map.1 hm
        have k := hv.2.2.2.2.2.1.graphics g' hm' (hgz _ h0)
        exact ⟨k.height, k.width, k.bitmap, k.transparent⟩
      · exact uniqueNumbers_map (num := Graphic.number) (fun _ => rfl) n.graphic_inj hg hv.2.2.2.2.2.1.numbers
    show Out.mapErr SignError.graphic (DmsBuilder.liftE (GraphicTable.validate (GraphicTable.retain
      (d.graphicDefinition.map n.ofGraphic) d.vmsCfg.signWidthPixels d.vmsCfg.signHeightPixels) _ _)) = _
    rw [hr']
    exact congrArg (fun r => Out.mapErr SignError.graphic (DmsBuilder.liftE r)) this
  · show ({ n.sign d with graphicDefinition := (GraphicTable.retain (d.graphicDefinition.map n.ofGraphic)
      d.vmsCfg.signWidthPixels d.vmsCfg.signHeightPixels) } : Dms) = n.sign d
    rw [hr']; rfl

/-- **C112 (lines)** a rectangle has as many lines of text in a font by its new number -/
theorem C112_lines (n : Numbering) (d : Dms) (r : Rectangle) (k : UInt8) :
    (n.sign d).rectLines r (n.font k) = d.rectLines r k := by
  unfold Dms.rectLines
  rw [fontTable_ren]
  cases FontTable.font d.fontDefinition k <;> rfl

/-! ### case -/

section Case
open Tests

/-- fonts 5 and 8 exchange their numbers -/
def exchange : Numbering where
  font k := if k = 5 then 8 else if k = 8 then 5 else k
  graphic k := if k = 1 then 7 else if k = 7 then 1 else k
  fontName _ := c!"font"
  graphicName s := s ++ c!"!"
  font_inj a b := by grind
  graphic_inj a b := by grind

/-- a full matrix sign with a graphic -/
def dotFull : Dms := { fullDms with graphicDefinition := [⟨1, c!"dot", 1, 1, .monochrome1Bit, none, [0x80]⟩] }

-- the exchanged sign
example : (exchange.sign dotFull).multiCfg.defaultFont = 5 ∧ (exchange.sign dotFull).fontDefinition.map Font.number = [8, 5, 0, 0] ∧
  (exchange.sign dotFull).graphicDefinition.map Graphic.number = [7] := by decide +kernel

example : dotFull.intoBuilder.build .checked = .ok dotFull := rfl
example : (exchange.sign dotFull).intoBuilder.build .checked = .ok (exchange.sign dotFull) :=
  C112_built exchange (by decide) (by decide) .checked dotFull.intoBuilder dotFull rfl

example (xs) : ShownAs dotFull c!"A[fo5]B[g1,20,20]" xs ↔ ShownAs (exchange.sign dotFull) c!"A[fo8]B[g7,20,20]" xs := by
  refine C112_values exchange dotFull _ _ [.text c!"A", .font (some (5, none)), .text c!"B", .graphic 1 (some (20, 20, none))] ?_ ?_ xs
  · rw [show slices c!"A[fo5]B[g1,20,20]" = [c!"A", c!"[fo5]", c!"B", c!"[g1,20,20]"] by decide +kernel]
    exact .cons (by decide +kernel) (.cons (by decide +kernel) (.cons (by decide +kernel) (.cons (by decide +kernel) .nil)))
  · rw [show slices c!"A[fo8]B[g7,20,20]" = [c!"A", c!"[fo8]", c!"B", c!"[g7,20,20]"] by decide +kernel]
    exact .cons (by decide +kernel) (.cons (by decide +kernel) (.cons (by decide +kernel) (.cons (by decide +kernel) .nil)))

-- it is shown, and a page in font 5 is not the page in font 8
example : (summary dotFull c!"A[fo5]B[g1,20,20]").isSome = true ∧
    (summary (exchange.sign dotFull) c!"A[fo8]B[g7,20,20]").isSome = true ∧
    pagePixels dotFull c!"A" 0 [(0, 0), (0, 3), (0, 7)] ≠ pagePixels dotFull c!"[fo5]A" 0 [(0, 0), (0, 3), (0, 7)] ∧
    pagePixels dotFull c!"[fo5]A" 0 [(0, 0), (0, 3), (0, 7)] = pagePixels (exchange.sign dotFull) c!"[fo8]A" 0 [(0, 0), (0, 3), (0, 7)] := by
  decide +kernel

end Case
end Ntcip
