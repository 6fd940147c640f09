import Verif.Lemmas.Smaller
import Verif.Props.Stop
import Verif.Props.Tighter
/-
C134: a message that is shown is also shown with smaller fonts.
-/
namespace Ntcip
open Spec Tests

/-- **C134** A message that is shown is also shown with smaller fonts: when each font of the sign is replaced with one which has
the same characters (or more), none of them wider, and whose height and spacings are not larger.  There are as many pages, of
the same sizes and times.  Version IDs told in the message must be those of the new fonts. -/
theorem C134_smaller (d : Dms) (hd : SizeOk d) (hok : SignOk d) (hf : FontsOk d.fontDefinition) (W H : Nat)
    (hg : GraphicsOk W H d.graphicDefinition) (F' : FontTable) (hf' : FontsOk F') (h : FontsSmaller d.fontDefinition F')
    (hc : CellHeights { d with fontDefinition := F' }) (ms : Str) (hs : SizesOk d ms)
    (hs' : SizesOk { d with fontDefinition := F' } ms) (vs : List Value) (hv : Parses (slices ms) vs) (hver : VersionsOf F' vs)
    (xs) (hx : ShownAs d ms xs) :
    ∃ xs', ShownAs { d with fontDefinition := F' } ms xs' ∧ Pairwise2 SameFrame xs xs' := by
  have hd' : SizeOk { d with fontDefinition := F' } := ⟨hd.width, hd.height, hd.size⟩
  have hok' : SignOk { d with fontDefinition := F' } :=
    ⟨hok.width, hok.height, hok.font, hok.justPage, hok.justLine, hf'.fonts, hok.graphics⟩
  obtain ⟨⟨t1, q1⟩, c1⟩ := (shown_iff d hd hok hf W H hg ms hs hv xs).1 hx
  obtain ⟨ys, hy⟩ := quiet_shown _ hd' hok' ms hs' hv ⟨t1, pagesQuiet_smaller h hc hver
    (fun p hp v hm => splitPages_mem p hp v hm) (signAttr_version F') q1⟩
  obtain ⟨_, c2⟩ := (shown_iff _ hd' hok' hf' W H hg ms hs' hv ys).1 hy
  exact ⟨ys, hy, pictured_smaller c1 c2⟩

/-! ### fonts changed one by one -/

theorem font_map {t : FontTable} {g : Font → Font} (hn : ∀ f, (g f).number = f.number) (n : UInt8) :
    FontTable.font (t.map g) n = (FontTable.font t n).map g := by
  unfold FontTable.font
  rw [List.find?_map]
  congr 2
  funext f
  simp [hn]

theorem fontsSmaller_map {t : FontTable} {g : Font → Font} (hn : ∀ f, (g f).number = f.number)
    (hg : ∀ f, FontSmaller f (g f)) : FontsSmaller t (t.map g) := by
  intro n f hf
  exact ⟨g f, by rw [font_map hn, hf]; rfl, hg f⟩

/-- **C134 (spacings)** In particular, the spacings of the fonts can be made smaller. -/
theorem C134_spacings (d : Dms) (hd : SizeOk d) (hok : SignOk d) (hf : FontsOk d.fontDefinition) (W H : Nat)
    (hg : GraphicsOk W H d.graphicDefinition) (cs ls : Font → UInt8) (hcs : ∀ f, (cs f).toNat ≤ f.charSpacing.toNat)
    (hls : ∀ f, (ls f).toNat ≤ f.lineSpacing.toNat) (hc : CellHeights d) (ms : Str) (hs : SizesOk d ms) (vs : List Value)
    (hv : Parses (slices ms) vs) (hver : ∀ n w, Value.font (some (n, some w)) ∉ vs) (xs) (hx : ShownAs d ms xs) :
    ∃ xs', ShownAs { d with fontDefinition := d.fontDefinition.map fun f => { f with charSpacing := cs f, lineSpacing := ls f } }
      ms xs' ∧ Pairwise2 SameFrame xs xs' := by
  refine C134_smaller d hd hok hf W H hg _ ⟨?_, ?_⟩ (fontsSmaller_map
    (g := fun f => { f with charSpacing := cs f, lineSpacing := ls f }) (fun _ => rfl) fun f => ⟨Nat.le_refl _, hcs f, hls f,
    fun c e he => ⟨e, he, Nat.le_refl _⟩⟩) ?_ ms hs ?_ vs hv (fun n w f hm => absurd hm (hver n w)) xs hx
  · intro f' hm hn
    obtain ⟨f, hm', rfl⟩ := List.mem_map.1 hm
    have := hf.fonts f hm' hn
    exact ⟨this.height, this.bitmaps, this.chars⟩
  · intro i j a b h1 h2 h3 h4
    rw [List.getElem?_map, Option.map_eq_some_iff] at h1 h2
    obtain ⟨a', h1, rfl⟩ := h1
    obtain ⟨b', h2, rfl⟩ := h2
    exact hf.numbers i j a' b' h1 h2 h3 h4
  · rcases hc with hc | hc
    · exact .inl hc
    · refine .inr fun f' hm => ?_
      obtain ⟨f, hm', rfl⟩ := List.mem_map.1 hm
      exact hc f hm'
  · obtain ⟨h1, M, h2, h3, h4⟩ := hs
    refine ⟨h1, M, h2, h3, fun f' hm hn => ?_⟩
    obtain ⟨f, hm', rfl⟩ := List.mem_map.1 hm
    have := h4 f hm' hn
    exact ⟨this.height, Nat.le_trans (hcs f) this.charSpacing, Nat.le_trans (hls f) this.lineSpacing, this.chars⟩

/-! ### cases -/

-- the hypotheses of C134: a message which just fits, and fonts without spacings
example : ∃ xs, ShownAs { fullDms with fontDefinition := fullDms.fontDefinition.map fun f =>
    { f with charSpacing := 0, lineSpacing := 0 } } c!"ABCDEFG[np]A[nl]B[nl]C" xs ∧ xs.length = 2 := by
  obtain ⟨xs, hx, hn, hlen⟩ := summary_noError (d := fullDms) (ms := c!"ABCDEFG[np]A[nl]B[nl]C")
    (l := [(true, 60, 30, 30), (true, 60, 30, 30)]) (by decide +kernel)
  have hv := C22_built_sign_valid .checked _ _ fullDms_built
  have hsz : SizeOk fullDms := ⟨by decide +kernel, by decide +kernel, by decide +kernel⟩
  have hok : SignOk fullDms := ⟨by decide +kernel, by decide +kernel, by decide +kernel, by decide, ⟨by decide, by decide⟩,
    hv.2.2.2.2.1.fonts, hv.2.2.2.2.2.1.graphics⟩
  obtain ⟨xs', h1, h2⟩ := C134_spacings fullDms hsz hok hv.2.2.2.2.1 _ _ hv.2.2.2.2.2.1 (fun _ => 0) (fun _ => 0)
    (fun _ => Nat.zero_le _) (fun _ => Nat.zero_le _) (.inl rfl) c!"ABCDEFG[np]A[nl]B[nl]C" (sizesOk_short _ _ (by decide))
    [.text c!"ABCDEFG", .newPage, .text c!"A", .newLine none, .text c!"B", .newLine none, .text c!"C"]
    (by
      rw [show slices c!"ABCDEFG[np]A[nl]B[nl]C" = [c!"ABCDEFG", c!"[np]", c!"A", c!"[nl]", c!"B", c!"[nl]", c!"C"] by
        decide +kernel]
      repeat' first | exact Parses.nil | refine Parses.cons (by decide +kernel) ?_)
    (by simp) xs ⟨hx, hn⟩
  exact ⟨xs', h1, by rw [← pairwise2_length h2, hlen]; rfl⟩

/-- fonts without spacings -/
def Tests.unspacedDms : Dms := { fullDms with fontDefinition := fullDms.fontDefinition.map fun f =>
  { f with charSpacing := 0, lineSpacing := 0 } }

-- more characters fit without spacings than with them
example : summary fullDms c!"ABCDEFGHIJ" = some [(true, none)] ∧
    summary unspacedDms c!"ABCDEFGHIJ" = some [(true, some (60, 30, 30))] :=
  ⟨by decide +kernel, by decide +kernel⟩

/-- a sign with cells 7 pixels high, and a font of that height -/
def Tests.cellFontDms : Dms := { charDms with fontDefinition := [⟨5, c!"a", 7, 0, 0, [⟨65, 5, [0, 0, 0, 0, 0]⟩]⟩] }
/-- with a font 3 pixels high -/
def Tests.lowFonts : FontTable := [⟨5, c!"b", 3, 0, 0, [⟨65, 5, [0, 0]⟩]⟩]

/-- **C134 (why)** The heights of the new fonts must be multiples of the height of the cells: with a font that is lower than
the cells, rendering of text at the middle panics, on a valid sign. -/
theorem C134_cells : ({ cellFontDms with fontDefinition := lowFonts }.intoBuilder.build .checked matches .ok _) = true ∧
    FontsSmaller cellFontDms.fontDefinition lowFonts ∧
    summary cellFontDms c!"[tr1,1,100,7][jp3]A" = some [(true, some (100, 21, 30))] ∧
    summary { cellFontDms with fontDefinition := lowFonts } c!"[tr1,1,100,7][jp3]A" = none := by
  refine ⟨by decide +kernel, ?_, by decide +kernel, by decide +kernel⟩
  intro n f hf
  have hn : n = 5 ∧ f = ⟨5, c!"a", 7, 0, 0, [⟨65, 5, [0, 0, 0, 0, 0]⟩]⟩ := by
    unfold FontTable.font at hf
    have h1 := List.mem_of_find?_eq_some hf
    have h2 := List.find?_some hf
    rw [show cellFontDms.fontDefinition = [⟨5, c!"a", 7, 0, 0, [⟨65, 5, [0, 0, 0, 0, 0]⟩]⟩] from rfl, List.mem_singleton] at h1
    subst h1
    exact ⟨by simpa using Eq.symm (by simpa using h2 : (5 : UInt8) = n), rfl⟩
  obtain ⟨rfl, rfl⟩ := hn
  refine ⟨_, rfl, by decide, by decide, by decide, fun c e he => ?_⟩
  obtain ⟨h1, h2⟩ := character_entry he
  rw [List.mem_singleton] at h1
  subst h1
  have : c = 'A' := by
    apply Char.toNat_inj.1
    rw [← h2]; rfl
  subst this
  exact ⟨_, rfl, by decide⟩

end Ntcip
