import Verif.Spec.Example
import Verif.Model.Example
import Verif.Props.Bmp
import Verif.Props.NormalizeExact
import Verif.Props.Sequel
/-
C104: the example program writes an image of each page.
-/
namespace Ntcip
open Spec Tests

theorem pages_small {d ms xs pg'} (h : Steps d (Pages.new d ms) xs pg') {b p} (hp : (b, Except.ok p) ∈ xs) :
    p.raster.width ≤ d.vmsCfg.signWidthPixels.toNat ∧ p.raster.height ≤ d.vmsCfg.signHeightPixels.toNat := by
  have := (steps_ind h (PagesOk d) (fun _ x => ∀ p, x = .ok p →
      p.raster.width ≤ d.vmsCfg.signWidthPixels.toNat ∧ p.raster.height ≤ d.vmsCfg.signHeightPixels.toNat)
    (by
      intro pg x pg' hd hn
      refine ⟨next_state hd hn, ?_⟩
      rintro p rfl
      rcases next_cases hn with ⟨_, h1⟩ | ⟨hoff, _, hq, _⟩
      · obtain ⟨vs, rest, b, ho⟩ := renderOnPage_ok h1
        rw [ho.width, ho.height, hd.default]
        exact ⟨Nat.le_refl _, Nat.le_refl _⟩
      · simp only [Except.ok.injEq] at hq
        subst hq
        have := hd.state.rectIn
        exact ⟨by have := this.right; simp only [renderOffPage, buildRaster, Raster.withColor]; omega,
          by have := this.bottom; simp only [renderOffPage, buildRaster, Raster.withColor]; omega⟩) (pagesOk_new d ms)).2
  exact this _ hp p rfl

theorem fits_small {d : Dms} (hd : ImagesFit d) {r : Raster} (hw : r.width ≤ d.vmsCfg.signWidthPixels.toNat)
    (hh : r.height ≤ d.vmsCfg.signHeightPixels.toNat) : BmpFits r := by
  have h1 := d.vmsCfg.signWidthPixels.toNat_lt
  have h2 := d.vmsCfg.signHeightPixels.toNat_lt
  have h3 := Nat.mul_le_mul hw hh
  unfold ImagesFit at hd
  exact ⟨by omega, by omega, by omega⟩

theorem image_written {r : Raster} (hr : BmpFits r) : ∃ bs, Bmp.write r = .ok bs ∧ ImageOf bs r := by
  obtain ⟨bs, hb⟩ := C73_writes_partial r hr
  refine ⟨bs, hb, C73_file_partial r hr bs hb, fun x y => ?_⟩
  split
  · rename_i h
    exact C73_pixels_partial r hr bs hb x y h.1 h.2
  · rename_i h
    exact C73_outside r hr bs hb x y h

theorem dec_toString (n : Nat) : dec n = (toString n).toList := by
  have dc : ∀ n, n < 10 → digitChar n = Nat.digitChar n := by decide
  have key : ∀ f n, n ≤ f → decAux f n = Nat.toDigits 10 n := by
    intro f
    induction f with
    | zero =>
      intro n h
      obtain rfl : n = 0 := by omega
      rfl
    | succ f ih =>
      intro n h
      rw [Nat.toDigits_eq_if (by decide), decAux]
      split
      · rename_i h; rw [dc n h]
      · rw [ih _ (by omega), dc _ (Nat.mod_lt _ (by decide))]
  rw [Nat.toString_eq_repr, Nat.toList_repr]
  exact key n n (Nat.le_refl n)

/-- how the program ends, by what comes after the pages -/
def endingOf : Res (Option (Except SyntaxError Page) × Pages) → Example.Ending
  | .panic p => .panic p
  | .ok (some (.error e), _) => .error e
  | .ok _ => .done

theorem loop_steps {d pg xs pg'} (h : Steps d pg xs pg') (hn : NoError xs)
    (hf : ∀ b p, (b, Except.ok p) ∈ xs → BmpFits p.raster)
    (hend : ∀ p g, Pages.next d pg' ≠ .ok (some (.ok p), g)) : ∀ {fuel i}, xs.length < fuel →
    ∃ files, FilesOf i files xs ∧ Example.loop d fuel i pg = (files, endingOf (Pages.next d pg')) := by
  induction h with
  | @nil pg =>
    intro fuel i hl
    obtain ⟨fuel, rfl⟩ : ∃ n, fuel = n + 1 := ⟨fuel - 1, by simp at hl; omega⟩
    refine ⟨[], trivial, ?_⟩
    unfold Example.loop
    cases hx : Pages.next d pg with
    | panic p => rfl
    | ok r =>
      obtain ⟨o, g⟩ := r
      rcases o with _ | (e | p)
      · rfl
      · rfl
      · exact absurd hx (hend p g)
  | @cons pg pg1 pg' x xs hx hs ih =>
    intro fuel i hl
    obtain ⟨fuel, rfl⟩ : ∃ n, fuel = n + 1 := ⟨fuel - 1, by simp at hl; omega⟩
    obtain ⟨p, rfl⟩ : ∃ p, x = .ok p := hn _ (List.mem_cons_self ..)
    obtain ⟨files, h1, h2⟩ := ih (fun y hy => hn y (List.mem_cons_of_mem _ hy))
      (fun b p h => hf b p (List.mem_cons_of_mem _ h)) hend (fuel := fuel) (i := i + 1) (by simp at hl; omega)
    obtain ⟨bs, hb, hi⟩ := image_written (hf _ p (List.mem_cons_self ..))
    refine ⟨(Example.fileName i, bs) :: files, ⟨by rw [← dec_toString]; rfl, hi, h1⟩, ?_⟩
    unfold Example.loop
    simp only [hx, hb, h2]

/-- **C104 (files)** for every sign small enough and every message: the program writes, one after another, an image of
each page given before the first error or panic, numbered from 0; then it ends with that error or panic, or well if
there is none. -/
theorem C104_files (d : Dms) (hd : ImagesFit d) (ms : Str) (xs pg') (h : Steps d (Pages.new d ms) xs pg') (hn : NoError xs)
    (hend : ∀ p g, Pages.next d pg' ≠ .ok (some (.ok p), g)) :
    ∃ files, FilesOf 0 files xs ∧ Example.writePages d ms = (files, endingOf (Pages.next d pg')) :=
  loop_steps h hn (fun _ _ hp => fits_small hd (pages_small h hp).1 (pages_small h hp).2) hend
    (by have := C50_ends_partial d ms xs pg' h hn; omega)

theorem filesOf_names {i files xs} (h : FilesOf i files xs) : files.length = xs.length ∧
    files.map Prod.fst = (List.range' i xs.length).map Example.fileName := by
  induction files generalizing i xs with
  | nil =>
    cases xs with
    | nil => exact ⟨rfl, rfl⟩
    | cons x xs => exact h.elim
  | cons f files ih =>
    obtain ⟨name, bs⟩ := f
    match xs, h with
    | (_, .ok p) :: xs, h =>
      obtain ⟨h1, _, h3⟩ := h
      obtain ⟨k1, k2⟩ := ih h3
      refine ⟨by simp [k1], ?_⟩
      rw [List.map_cons, k2, List.length_cons, List.range'_succ, List.map_cons]
      rw [← dec_toString] at h1
      rw [show name = Example.fileName i from h1]

/-- **C104 (names)** as many files as pages, and none is written twice. -/
theorem C104_names (files xs) (h : FilesOf 0 files xs) : files.length = xs.length ∧ (files.map Prod.fst).Nodup := by
  obtain ⟨h1, h2⟩ := filesOf_names h
  refine ⟨h1, ?_⟩
  rw [h2]
  refine List.pairwise_map.2 ((List.nodup_range' (step := 1)).imp ?_)
  intro a b hab e
  refine hab ?_
  unfold Example.fileName at e
  simp only [List.append_assoc, List.append_cancel_left_eq, List.append_cancel_right_eq] at e
  exact dec_inj e

/-- **C104 (ending)** on a sign made by the builder the program ends well exactly if the message is shown, and then
there is an image of each page; otherwise with the error or panic that is the first stop of the message. -/
theorem C104_ending (p : Profile) (b : DmsBuilder) (d : Dms) (h : b.build p = .ok d)
    (hw : d.vmsCfg.signWidthPixels.toNat < 65535) (hh : d.vmsCfg.signHeightPixels.toNat < 65535)
    (hz : ¬ (d.vmsCfg.signWidthPixels.toNat = 0 ∧ d.vmsCfg.signHeightPixels.toNat = 0))
    (hf : 1 ≤ d.multiCfg.defaultFont.toNat)
    (hjp : d.multiCfg.defaultJustificationPage ≠ .other)
    (hjl : d.multiCfg.defaultJustificationLine ≠ .other ∧ d.multiCfg.defaultJustificationLine ≠ .full)
    (hd : ImagesFit d) (ms : Str) (hl : ms.length ≤ 128) :
    ((Example.writePages d ms).2 = .done ↔ ∃ xs, ShownAs d ms xs) ∧
    (∀ xs, ShownAs d ms xs → FilesOf 0 (Example.writePages d ms).1 xs) ∧
    (∀ e, (Example.writePages d ms).2 = .error e ↔ FirstStop d (signAttr d) (slices ms) (.error e)) ∧
    ((∃ q, (Example.writePages d ms).2 = .panic q) ↔ FirstStop d (signAttr d) (slices ms) .panic) := by
  have hv := C22_built_sign_valid p b d h
  have hd0 : SizeOk d := ⟨hw, hh, hz⟩
  have hok : SignOk d := ⟨hw, hh, hf, hjp, hjl, hv.2.2.2.2.1.fonts, hv.2.2.2.2.2.1.graphics⟩
  have hs := sizesOk_short d ms hl
  have shown : ∀ xs, ShownAs d ms xs → ∃ files, FilesOf 0 files xs ∧ Example.writePages d ms = (files, .done) := by
    rintro xs ⟨⟨pg', k1, k2⟩, k3⟩
    obtain ⟨files, f1, f2⟩ := C104_files d hd ms xs pg' k1 k3 (by rw [k2]; intro p g h; cases h)
    rw [k2] at f2
    exact ⟨files, f1, f2⟩
  have stops : ∀ z, FirstStop d (signAttr d) (slices ms) z → match z with
      | .error e => (Example.writePages d ms).2 = .error e
      | .panic => ∃ q, (Example.writePages d ms).2 = .panic q := by
    intro z hz
    have he := (C93_ends d hd0 hok ms hs z).2 hz
    obtain ⟨xs, pg, k1, k2, k3⟩ := he
    cases z with
    | error e =>
      obtain ⟨pg', k3⟩ := k3
      obtain ⟨files, f1, f2⟩ := C104_files d hd ms xs pg k1 k2 (by rw [k3]; intro p g h; cases h)
      rw [k3] at f2
      simp only [f2]; rfl
    | panic =>
      obtain ⟨q, k3⟩ := k3
      obtain ⟨files, f1, f2⟩ := C104_files d hd ms xs pg k1 k2 (by rw [k3]; intro p g h; cases h)
      rw [k3] at f2
      exact ⟨q, by simp only [f2]; rfl⟩
  have total : (∃ xs, ShownAs d ms xs) ∨ ∃ z, FirstStop d (signAttr d) (slices ms) z := by
    have hc := course_stop hd0 hok hs _ (Nat.lt_succ_self _) (.nil (pg := Pages.new d ms)) rfl
    rw [pagesNew_attr] at hc
    rcases hc with ⟨ys, g1, z, _, _, _, k4⟩ | ⟨ys, g1, k1, k2, k3, _⟩
    · exact .inr ⟨z, (k4 z).2 rfl⟩
    · exact .inl ⟨ys, ⟨g1, k1, by unfold Pages.next; rw [k3]⟩, k2⟩
  refine ⟨⟨?_, ?_⟩, ?_, ?_, ?_⟩
  · intro hdone
    rcases total with h | ⟨z, hz⟩
    · exact h
    · have := stops z hz
      cases z with
      | error e => rw [hdone] at this; cases this
      | panic => obtain ⟨q, this⟩ := this; rw [hdone] at this; cases this
  · rintro ⟨xs, hx⟩
    obtain ⟨files, _, e⟩ := shown xs hx
    rw [e]
  · intro xs hx
    obtain ⟨files, k, e⟩ := shown xs hx
    rw [e]; exact k
  · intro e
    refine ⟨fun he => ?_, fun h => stops _ h⟩
    rcases total with ⟨xs, hx⟩ | ⟨z, hz⟩
    · obtain ⟨files, _, e'⟩ := shown xs hx
      rw [e'] at he; cases he
    · have := stops z hz
      cases z with
      | error e2 => rw [he] at this; cases this; exact hz
      | panic => obtain ⟨q, this⟩ := this; rw [he] at this; cases this
  · refine ⟨?_, fun h => stops _ h⟩
    rintro ⟨q, he⟩
    rcases total with ⟨xs, hx⟩ | ⟨z, hz⟩
    · obtain ⟨files, _, e'⟩ := shown xs hx
      rw [e'] at he; cases he
    · have := stops z hz
      cases z with
      | error e2 => rw [he] at this; cases this
      | panic => exact hz

/-- the sign of the example with a face of 9860 by 2020 mm, which has room for its pixels -/
def exampleDms : Dms :=
  { Example.builder [f08] with signCfg := { SignCfg.default with signWidth := 9860, signHeight := 2020 } } |> fun b =>
  ⟨b.signCfg, b.vmsCfg, b.fontDefinition, b.multiCfg, b.graphicDefinition⟩

/-- **C104 false** the program as it is writes no image at all: the sign is not made, as 140 by 28 pixels with the default
pitch of 70 mm need a face of 9860 by 2020 mm, and the default is 2920 by 1650 mm.  The error of the builder is unwrapped. -/
theorem C104_false (p : Profile) : Example.fontTable f08Props = .ok [f08] ∧
    (Example.builder [f08]).build p = .err (.cfg .invalidDimensions) ∧
    Example.main p f08Props = ([], .panic .unwrap) ∧ (∃ d, exampleDms.intoBuilder.build p = .ok d) := by
  have h1 : Example.fontTable f08Props = .ok [f08] := by decide +kernel
  have h2 : (Example.builder [f08]).build p = .err (.cfg .invalidDimensions) := by cases p <;> rfl
  refine ⟨h1, h2, ?_, ?_⟩
  · unfold Example.main Example.makeDms
    simp only [h1, h2]
  · cases p <;> exact ⟨_, rfl⟩

/-! ### cases -/

-- on a sign with room for its pixels the message of the example gives images of its three pages and one OFF page
example : ∃ files xs, Example.writePages exampleDms Example.multi = (files, .done) ∧ ShownAs exampleDms Example.multi xs ∧
    FilesOf 0 files xs ∧ files.length = 4 := by
  obtain ⟨xs, hx, hn, hl⟩ := summary_noError (d := exampleDms) (ms := Example.multi)
    (l := [(true, 140, 28, 30), (true, 140, 28, 30), (true, 140, 28, 40), (false, 140, 28, 10)]) (by decide +kernel)
  obtain ⟨pg', k1, k2⟩ := hx
  obtain ⟨files, f1, f2⟩ := C104_files exampleDms (by unfold ImagesFit; decide +kernel) Example.multi xs pg' k1 hn
    (by rw [k2]; intro p g h; cases h)
  rw [k2] at f2
  exact ⟨files, xs, f2, ⟨⟨pg', k1, k2⟩, hn⟩, f1, (C104_names files xs f1).1.trans hl⟩

-- an error on the second page: one image, and the error
example : ((Example.writePages fullDms c!"A[np]B[fo9]C").1.map Prod.fst, (Example.writePages fullDms c!"A[np]B[fo9]C").2) =
    ([c!"render0.bmp"], .error (.fontNotDefined 9)) := by decide +kernel

end Ntcip
