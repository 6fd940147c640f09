import Verif.Lemmas.Tint
import Verif.Props.Stop
import Verif.Props.Alone
import Verif.Props.Version
/-
C135, C136: colors do not move anything.
-/
namespace Ntcip
open Spec Tests

theorem attrTint_self {F} (t : TextAttr) : AttrTint F t t := ⟨rfl, .inl rfl⟩

theorem dyed_tag {d F G v v'} (h : Dyed d F G v v') : v'.tag = v.tag := by
  cases h <;> rfl

/-- no check complains about a color that the sign has not -/
theorem quiet_colorOk {d : Dms} {v} (h : QuietValue d v) : ColorOk d.multiCfg.colorScheme v := by
  have paint : isPaint v = true → ColorOk d.multiCfg.colorScheme v := fun hp =>
    (Classical.byContradiction fun k => h.2.1 (.error _) ⟨fun q => h.2.1 .panic q, .value hp k⟩ : ValueOk d v).1
  cases v with
  | colorBackground c => exact Classical.byContradiction fun k => h.1 (.error _) (.cb k)
  | pageBackground c => exact Classical.byContradiction fun k => h.1 (.error _) (.pb k)
  | colorForeground c => exact paint rfl
  | colorRectangle r c => exact paint rfl
  | _ => intro c hc; cases hc

/-- the values of a message that is shown have colors of the sign -/
theorem shown_colorOk {d : Dms} {vs t} (h : PagesQuiet d t (splitPages vs)) {v} (hv : v ∈ vs) : ColorOk d.multiCfg.colorScheme v := by
  by_cases h1 : v = .newPage
  · subst h1; intro c hc; cases hc
  by_cases h2 : ∃ r, v = .textRectangle r
  · obtain ⟨r, rfl⟩ := h2; intro c hc; cases hc
  · exact quiet_colorOk (pagesQuiet_value h v (splitPages_flatten_mem hv h1) fun r e => h2 ⟨r, e⟩)

/-- **C136** When the colors of a message are replaced with other colors that the sign has, a message that is shown is shown still:
with as many pages of the same sizes and times, and each pixel that differs shows a replaced color before, and the color that
replaces it after (`F` tells which colors replace which ones for texts and color rectangles, and `G` for backgrounds).  Only on signs
without 24-bit colors, pixels in graphics of one bit may differ in other ways. -/
theorem C136_dyed (d : Dms) (hd : SizeOk d) (hok : SignOk d) (hf : FontsOk d.fontDefinition) (W H : Nat)
    (hg : GraphicsOk W H d.graphicDefinition) (F G : Color → Color → Prop) (ms ms' : Str) (hs : SizesOk d ms) (hs' : SizesOk d ms')
    (vs vs' : List Value) (hv : Parses (slices ms) vs) (hv' : Parses (slices ms') vs') (h : Pairwise2 (Dyed d F G) vs vs')
    (hc : ∀ v ∈ vs', ColorOk d.multiCfg.colorScheme v) (xs) (hx : ShownAs d ms xs) :
    ∃ ys, ShownAs d ms' ys ∧ Pairwise2 (DyedPage d F G vs) xs ys := by
  obtain ⟨⟨t1, q1⟩, c1⟩ := (shown_iff d hd hok hf W H hg ms hs hv xs).1 hx
  have hp := splitPages_tint h
  have t2 : TagsOk d vs' := by
    intro v hm t ht
    obtain ⟨a, ha, hr⟩ := h.mem_right hm
    exact t1 a ha t (by rw [← dyed_tag hr]; exact ht)
  obtain ⟨ys, hy⟩ := quiet_shown d hd hok ms' hs' hv' ⟨t2, pagesQuiet_tint hp (attrTint_self _)
    (fun p hm v hv => hc v (splitPages_mem p hm v hv)) q1⟩
  obtain ⟨_, c2⟩ := (shown_iff d hd hok hf W H hg ms' hs' hv' ys).1 hy
  have h0 : ∀ pos, Value.graphic 0 pos ∉ vs := by
    intro pos hm
    have := parses_inRange hv (slices_items ms) _ hm
    simp [InRange] at this
  exact ⟨ys, hy, pictured_tint hg.numbers h0 hp (attrTint_self _) (ofRgb_hasValue _) (ofRgb_hasValue _) rfl (.inl rfl)
    (ofRgb_hasValue _) (ofRgb_hasValue _)
    (fun p hm v hv => ⟨splitPages_mem p hm v hv, shown_colorOk q1 (splitPages_mem p hm v hv)⟩)
    (fun p hm v hv => hc v (splitPages_mem p hm v hv)) c1 c2⟩

theorem dyed_symm {d F G vs vs'} (h : Pairwise2 (Dyed d F G) vs vs') :
    Pairwise2 (Dyed d (fun c c' => F c' c) fun c c' => G c' c) vs' vs := by
  induction h with
  | nil => exact .nil
  | cons hr _ ih =>
    refine .cons ?_ ih
    cases hr with
    | same => exact .same
    | text h => exact .text h
    | rect h => exact .rect h
    | back h => exact .back h
    | page h => exact .page h

/-- **C136 (accepted)** Whether a sign shows a message does not depend on which of its colors the message has. -/
theorem C136_accepted (d : Dms) (hd : SizeOk d) (hok : SignOk d) (hf : FontsOk d.fontDefinition) (W H : Nat)
    (hg : GraphicsOk W H d.graphicDefinition) (ms ms' : Str) (hs : SizesOk d ms) (hs' : SizesOk d ms') (vs vs' : List Value)
    (hv : Parses (slices ms) vs) (hv' : Parses (slices ms') vs')
    (h : Pairwise2 (Dyed d (fun _ _ => True) fun _ _ => True) vs vs') (hc : ∀ v ∈ vs, ColorOk d.multiCfg.colorScheme v)
    (hc' : ∀ v ∈ vs', ColorOk d.multiCfg.colorScheme v) : (∃ xs, ShownAs d ms xs) ↔ ∃ ys, ShownAs d ms' ys := by
  constructor
  · rintro ⟨xs, hx⟩
    obtain ⟨ys, hy, _⟩ := C136_dyed d hd hok hf W H hg _ _ ms ms' hs hs' vs vs' hv hv' h hc' xs hx
    exact ⟨ys, hy⟩
  · rintro ⟨xs, hx⟩
    obtain ⟨ys, hy, _⟩ := C136_dyed d hd hok hf W H hg _ _ ms' ms hs' hs vs' vs hv' hv (dyed_symm h) hc xs hx
    exact ⟨ys, hy⟩

theorem pairwise2_imp {α} {R S : α → α → Prop} {xs ys} (h : Pairwise2 R xs ys) (hi : ∀ x y, R x y → S x y) : Pairwise2 S xs ys := by
  induction h with
  | nil => exact .nil
  | cons h _ ih => exact .cons (hi _ _ h) ih

/-- **C136 (replace)** When a color `a` of a sign is replaced with another one `b` in some tags of a message, then (with
24-bit colors) each pixel that differs shows `a` before and `b` after. -/
theorem C136_replace (d : Dms) (hd : SizeOk d) (hok : SignOk d) (hf : FontsOk d.fontDefinition) (W H : Nat)
    (hg : GraphicsOk W H d.graphicDefinition) (h24 : d.multiCfg.colorScheme = .color24Bit) (a b : Color)
    (ha : Admits .color24Bit a) (hb : Admits .color24Bit b) (ms ms' : Str) (hs : SizesOk d ms) (hs' : SizesOk d ms')
    (vs vs' : List Value) (hv : Parses (slices ms) vs) (hv' : Parses (slices ms') vs')
    (h : Pairwise2 (Dyed d (fun c c' => c = a ∧ c' = b) fun c c' => c = a ∧ c' = b) vs vs') (xs) (hx : ShownAs d ms xs) :
    ∃ ys, ShownAs d ms' ys ∧ Pairwise2 (fun x y => SameFrame x y ∧ ∀ p q, x.2 = .ok p → y.2 = .ok q → ∀ i j,
      p.raster.px i j = q.raster.px i j ∨ (some (p.raster.px i j) = signColor d a ∧ some (q.raster.px i j) = signColor d b)) xs ys := by
  obtain ⟨⟨_, q1⟩, _⟩ := (shown_iff d hd hok hf W H hg ms hs hv xs).1 hx
  have back : ∀ {c' : Option Color} {x y}, c'.getD x = b → c' = some y → Admits d.multiCfg.colorScheme y := by
    intro c' x y e1 e2
    rw [e2] at e1
    obtain rfl : y = b := e1
    rw [h24]; exact hb
  have hk : ∀ v ∈ vs', ColorOk d.multiCfg.colorScheme v := by
    intro v hm
    obtain ⟨u, hu, hr⟩ := h.mem_right hm
    cases hr with
    | same => exact shown_colorOk q1 hu
    | text h => exact fun x hx => back h.2 hx
    | rect h =>
      intro x hx
      obtain rfl := Option.some.inj hx
      rw [h.2, h24]
      exact hb
    | back h => exact fun x hx => back h.2 hx
    | page h => exact fun x hx => back h.2 hx
  obtain ⟨x, hxa⟩ := admits_value (d := d) (by rw [h24]; exact ha) h24
  obtain ⟨y, hyb⟩ := admits_value (d := d) (by rw [h24]; exact hb) h24
  obtain ⟨ys, h1, h2⟩ := C136_dyed d hd hok hf W H hg _ _ ms ms' hs hs' vs vs' hv hv' h hk xs hx
  refine ⟨ys, h1, pairwise2_imp h2 ?_⟩
  rintro u v ⟨k1, k2⟩
  refine ⟨k1, fun p q e1 e2 i j => ?_⟩
  unfold signColor
  rcases k2 p q e1 e2 i j with k | ⟨c, c', ⟨rfl, rfl⟩, e1, e2⟩ | ⟨c, c', ⟨rfl, rfl⟩, e1, e2⟩ | k
  · exact .inl k
  · rw [e1, e2, hxa, hyb, fore_value hxa, fore_value hyb]; exact .inr ⟨rfl, rfl⟩
  · rw [e1, e2, hxa, hyb, back_value hxa, back_value hyb]; exact .inr ⟨rfl, rfl⟩
  · exact absurd h24 k.2

/-- a color that text may have -/
def Spec.ToldColor (d : Dms) (vs : List Value) (c : Color) : Prop :=
  c = .ofRgb (signForeground d) ∨ Value.colorForeground (some c) ∈ vs

theorem foreground_sign {d : Dms} : foregroundRgb d (.ofRgb (signForeground d)) = signForeground d := by
  unfold foregroundRgb Color.ofRgb
  cases hs : d.multiCfg.colorScheme <;> simp [colorValue]

theorem told_color {d : Dms} {V c} (h : ToldColor d V c) : TextColor d V (foregroundRgb d c) := by
  rcases h with rfl | h
  · exact .inl foreground_sign
  · exact .inr ⟨c, h, rfl⟩

theorem told_getD {d : Dms} {V c} (h : Value.colorForeground c ∈ V) : ToldColor d V (c.getD (.ofRgb (signForeground d))) := by
  cases c with
  | none => exact .inl rfl
  | some c => exact .inr h

theorem retinted_dyed {d : Dms} {V V' vs vs'} (h : Pairwise2 Retinted vs vs') : (∀ v ∈ vs, v ∈ V) → (∀ v ∈ vs', v ∈ V') →
    Pairwise2 (Dyed d (fun c c' => ToldColor d V c ∧ ToldColor d V' c') fun _ _ => False) vs vs' := by
  induction h with
  | nil => intro _ _; exact .nil
  | cons hr _ ih =>
    intro h1 h2
    refine .cons ?_ (ih (fun v hv => h1 v (List.mem_cons_of_mem _ hv)) fun v hv => h2 v (List.mem_cons_of_mem _ hv))
    cases hr with
    | same => exact .same
    | color => exact .text ⟨told_getD (h1 _ (List.mem_cons_self ..)), told_getD (h2 _ (List.mem_cons_self ..))⟩

/-- **C135** When colors of text (`[cf]` tags) are replaced with other colors that the sign has, a message that is shown is shown
still: with as many pages of the same sizes and times, and the pixels that differ show a color of text before and after, or are
(without 24-bit colors) in a graphic of one bit for each pixel.  No text is moved, and no other pixel changes. -/
theorem C135_retinted (d : Dms) (hd : SizeOk d) (hok : SignOk d) (hf : FontsOk d.fontDefinition) (W H : Nat)
    (hg : GraphicsOk W H d.graphicDefinition) (ms ms' : Str) (hs : SizesOk d ms) (hs' : SizesOk d ms') (vs vs' : List Value)
    (hv : Parses (slices ms) vs) (hv' : Parses (slices ms') vs') (h : Pairwise2 Retinted vs vs')
    (hc : ∀ c, Value.colorForeground (some c) ∈ vs' → Admits d.multiCfg.colorScheme c) (xs) (hx : ShownAs d ms xs) :
    ∃ ys, ShownAs d ms' ys ∧ Pairwise2 (RetintedPage d vs vs') xs ys := by
  obtain ⟨⟨_, q1⟩, _⟩ := (shown_iff d hd hok hf W H hg ms hs hv xs).1 hx
  have hk : ∀ v ∈ vs', ColorOk d.multiCfg.colorScheme v := by
    intro v hm
    obtain ⟨a, ha, hr⟩ := h.mem_right hm
    cases hr with
    | same => exact shown_colorOk q1 ha
    | @color _ c' =>
      intro x hx
      obtain rfl : c' = some x := hx
      exact hc x hm
  obtain ⟨ys, h1, h2⟩ := C136_dyed d hd hok hf W H hg _ _ ms ms' hs hs' vs vs' hv hv'
    (retinted_dyed h (fun _ k => k) fun _ k => k) hk xs hx
  refine ⟨ys, h1, pairwise2_imp h2 ?_⟩
  rintro x y ⟨k1, k2⟩
  refine ⟨k1, fun p q e1 e2 i j => ?_⟩
  rcases k2 p q e1 e2 i j with k | ⟨c, c', ⟨z1, z2⟩, e1, e2⟩ | ⟨_, _, k, _⟩ | k
  · exact .inl k
  · rw [e1, e2]; exact .inr (.inl ⟨told_color z1, told_color z2⟩)
  · exact k.elim
  · exact .inr (.inr k)

/-- **C135 (accepted)** Whether a sign shows a message does not depend on which of its colors the text has. -/
theorem C135_accepted (d : Dms) (hd : SizeOk d) (hok : SignOk d) (hf : FontsOk d.fontDefinition) (W H : Nat)
    (hg : GraphicsOk W H d.graphicDefinition) (ms ms' : Str) (hs : SizesOk d ms) (hs' : SizesOk d ms') (vs vs' : List Value)
    (hv : Parses (slices ms) vs) (hv' : Parses (slices ms') vs') (h : Pairwise2 Retinted vs vs')
    (hc : ∀ c, Value.colorForeground (some c) ∈ vs → Admits d.multiCfg.colorScheme c)
    (hc' : ∀ c, Value.colorForeground (some c) ∈ vs' → Admits d.multiCfg.colorScheme c) :
    (∃ xs, ShownAs d ms xs) ↔ ∃ ys, ShownAs d ms' ys := by
  have hsym : Pairwise2 Retinted vs' vs := by
    clear hv hv' hc hc'
    induction h with
    | nil => exact .nil
    | cons hr _ ih =>
      refine .cons ?_ ih
      cases hr with
      | same => exact .same
      | color => exact .color
  constructor
  · rintro ⟨xs, hx⟩
    obtain ⟨ys, hy, _⟩ := C135_retinted d hd hok hf W H hg ms ms' hs hs' vs vs' hv hv' h hc' xs hx
    exact ⟨ys, hy⟩
  · rintro ⟨xs, hx⟩
    obtain ⟨ys, hy, _⟩ := C135_retinted d hd hok hf W H hg ms' ms hs' hs vs' vs hv' hv hsym hc xs hx
    exact ⟨ys, hy⟩

/-! ### cases -/

/-- two colors of text -/
def Tests.whiteMsg : Str := c!"A[cf]B[cr9,9,2,2,255,255,255][np]C[nl][cf7]D"
def Tests.redMsg : Str := c!"A[cf255,0,0]B[cr9,9,2,2,255,255,255][np]C[nl][cf1]D"

theorem whiteMsg_values : Parses (slices whiteMsg) [.text c!"A", .colorForeground none, .text c!"B",
    .colorRectangle ⟨9, 9, 2, 2⟩ (.rgb 255 255 255), .newPage, .text c!"C", .newLine none, .colorForeground (some (.legacy 7)),
    .text c!"D"] := by
  rw [show slices whiteMsg = [c!"A", c!"[cf]", c!"B", c!"[cr9,9,2,2,255,255,255]", c!"[np]", c!"C", c!"[nl]", c!"[cf7]", c!"D"] by
    decide +kernel]
  repeat' first | exact Parses.nil | refine Parses.cons (by decide +kernel) ?_

theorem redMsg_values : Parses (slices redMsg) [.text c!"A", .colorForeground (some (.rgb 255 0 0)), .text c!"B",
    .colorRectangle ⟨9, 9, 2, 2⟩ (.rgb 255 255 255), .newPage, .text c!"C", .newLine none, .colorForeground (some (.legacy 1)),
    .text c!"D"] := by
  rw [show slices redMsg = [c!"A", c!"[cf255,0,0]", c!"B", c!"[cr9,9,2,2,255,255,255]", c!"[np]", c!"C", c!"[nl]", c!"[cf1]", c!"D"] by
    decide +kernel]
  repeat' first | exact Parses.nil | refine Parses.cons (by decide +kernel) ?_

-- the hypotheses of C135
example : ∃ ys, ShownAs fullDms redMsg ys ∧ ys.length = 2 := by
  obtain ⟨xs, hx, hn, hlen⟩ := summary_noError (d := fullDms) (ms := whiteMsg)
    (l := [(true, 60, 30, 30), (true, 60, 30, 30)]) (by decide +kernel)
  have hv := C22_built_sign_valid .checked _ _ fullDms_built
  have hsz : SizeOk fullDms := ⟨by decide +kernel, by decide +kernel, by decide +kernel⟩
  have hok : SignOk fullDms := ⟨by decide +kernel, by decide +kernel, by decide +kernel, by decide, ⟨by decide, by decide⟩,
    hv.2.2.2.2.1.fonts, hv.2.2.2.2.2.1.graphics⟩
  obtain ⟨ys, h1, h2⟩ := C135_retinted fullDms hsz hok hv.2.2.2.2.1 _ _ hv.2.2.2.2.2.1 whiteMsg redMsg
    (sizesOk_short _ _ (by decide)) (sizesOk_short _ _ (by decide)) _ _ whiteMsg_values redMsg_values
    (by repeat' first | exact Pairwise2.nil | refine Pairwise2.cons (by first | exact .same | exact .color) ?_)
    (by
      rw [show fullDms.multiCfg.colorScheme = .color24Bit by decide +kernel]
      intro c hc
      simp only [List.mem_cons, reduceCtorEq, Value.colorForeground.injEq, Option.some.injEq, false_or, List.not_mem_nil,
        or_false] at hc
      rcases hc with rfl | rfl
      · trivial
      · show (1 : Nat) ≤ 9; decide) xs ⟨hx, hn⟩
  exact ⟨ys, h1, by rw [← pairwise2_length h2, hlen]; rfl⟩

-- the pixels of the second text change, not those of the first one or of the color rectangle
example : pagePixels fullDms whiteMsg 0 [(0, 1), (8, 8), (7, 1), (59, 29)] = [(255, 255, 255), (255, 255, 255), (255, 255, 255), (0, 0, 0)] ∧
    pagePixels fullDms redMsg 0 [(0, 1), (8, 8), (7, 1), (59, 29)] = [(255, 255, 255), (255, 255, 255), (255, 0, 0), (0, 0, 0)] :=
  ⟨by decide +kernel, by decide +kernel⟩

/-- **C135 (graphics)** Graphics of one bit for each pixel are drawn in the color of text; with a color that the sign does not
have, a sign refuses the message. -/
theorem C135_graphics : pagePixels graphDms c!"[cf255,0,0][g4,1,1]" 0 [(0, 0), (1, 0)] = [(255, 0, 0), (0, 0, 0)] ∧
    pagePixels graphDms c!"[cf0,0,255][g4,1,1]" 0 [(0, 0), (1, 0)] = [(0, 0, 255), (0, 0, 0)] ∧
    nextError graphDms c!"[cf10]A" = some (.unsupportedTagValue c!"[cf10]") :=
  ⟨by decide +kernel, by decide +kernel, by decide +kernel⟩

/-- every yellow replaced with white -/
def Tests.yellowMsg : Str := c!"[pb2][cf2]A[cr9,9,2,2,2][np][cf1]B[cr1,9,2,2,2]"
def Tests.blankMsg : Str := c!"[pb7][cf7]A[cr9,9,2,2,7][np][cf1]B[cr1,9,2,2,7]"

theorem yellowMsg_values : Parses (slices yellowMsg) [.pageBackground (some (.legacy 2)), .colorForeground (some (.legacy 2)),
    .text c!"A", .colorRectangle ⟨9, 9, 2, 2⟩ (.legacy 2), .newPage, .colorForeground (some (.legacy 1)), .text c!"B",
    .colorRectangle ⟨1, 9, 2, 2⟩ (.legacy 2)] := by
  rw [show slices yellowMsg = [c!"[pb2]", c!"[cf2]", c!"A", c!"[cr9,9,2,2,2]", c!"[np]", c!"[cf1]", c!"B", c!"[cr1,9,2,2,2]"] by
    decide +kernel]
  repeat' first | exact Parses.nil | refine Parses.cons (by decide +kernel) ?_

theorem blankMsg_values : Parses (slices blankMsg) [.pageBackground (some (.legacy 7)), .colorForeground (some (.legacy 7)),
    .text c!"A", .colorRectangle ⟨9, 9, 2, 2⟩ (.legacy 7), .newPage, .colorForeground (some (.legacy 1)), .text c!"B",
    .colorRectangle ⟨1, 9, 2, 2⟩ (.legacy 7)] := by
  rw [show slices blankMsg = [c!"[pb7]", c!"[cf7]", c!"A", c!"[cr9,9,2,2,7]", c!"[np]", c!"[cf1]", c!"B", c!"[cr1,9,2,2,7]"] by
    decide +kernel]
  repeat' first | exact Parses.nil | refine Parses.cons (by decide +kernel) ?_

-- the hypotheses of C136
example : ∃ ys, ShownAs fullDms blankMsg ys ∧ ys.length = 2 := by
  obtain ⟨xs, hx, hn, hlen⟩ := summary_noError (d := fullDms) (ms := yellowMsg)
    (l := [(true, 60, 30, 30), (true, 60, 30, 30)]) (by decide +kernel)
  have hv := C22_built_sign_valid .checked _ _ fullDms_built
  have hsz : SizeOk fullDms := ⟨by decide +kernel, by decide +kernel, by decide +kernel⟩
  have hok : SignOk fullDms := ⟨by decide +kernel, by decide +kernel, by decide +kernel, by decide, ⟨by decide, by decide⟩,
    hv.2.2.2.2.1.fonts, hv.2.2.2.2.2.1.graphics⟩
  obtain ⟨ys, h1, h2⟩ := C136_replace fullDms hsz hok hv.2.2.2.2.1 _ _ hv.2.2.2.2.2.1 (by decide +kernel) (.legacy 2) (.legacy 7)
    (by show (2 : Nat) ≤ 9; decide) (by show (7 : Nat) ≤ 9; decide) yellowMsg blankMsg
    (sizesOk_short _ _ (by decide)) (sizesOk_short _ _ (by decide)) _ _ yellowMsg_values blankMsg_values
    (.cons (.page ⟨rfl, rfl⟩) <| .cons (.text ⟨rfl, rfl⟩) <| .cons .same <| .cons (.rect ⟨rfl, rfl⟩) <| .cons .same <| .cons .same <|
      .cons .same <| .cons (.rect ⟨rfl, rfl⟩) .nil) xs ⟨hx, hn⟩
  exact ⟨ys, h1, by rw [← pairwise2_length h2, hlen]; rfl⟩

-- backgrounds and color rectangles change; red text does not
example : pagePixels fullDms yellowMsg 1 [(0, 0), (0, 1), (0, 8), (59, 29)] = [(255, 0, 0), (255, 0, 0), (255, 255, 0), (255, 255, 0)] ∧
    pagePixels fullDms blankMsg 1 [(0, 0), (0, 1), (0, 8), (59, 29)] = [(255, 0, 0), (255, 0, 0), (255, 255, 255), (255, 255, 255)] :=
  ⟨by decide +kernel, by decide +kernel⟩

/-- a sign with classic colors, and graphics -/
def Tests.classicGraphDms : Dms := { graphDms with multiCfg := { graphDms.multiCfg with colorScheme := .colorClassic } }

/-- **C136 (bits)** Without 24-bit colors, a graphic of one bit shows nothing in the default colors of a sign, so that replacing its
color uncovers what is behind it. -/
theorem C136_bits :
    pagePixels classicGraphDms c!"[pb4][cf][g4,1,1]" 0 [(0, 0), (1, 0), (59, 0)] = [(0, 255, 255), (0, 255, 255), (0, 255, 255)] ∧
    pagePixels classicGraphDms c!"[pb4][cf1][g4,1,1]" 0 [(0, 0), (1, 0), (59, 0)] = [(255, 0, 0), (0, 255, 255), (0, 255, 255)] :=
  ⟨by decide +kernel, by decide +kernel⟩

end Ntcip
