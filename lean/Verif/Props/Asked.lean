import Verif.Props.Compose
import Verif.Props.Grammar
/-
Property C86: pages show only colors that the message or the sign asks for.
-/
namespace Ntcip
open Spec Tests

namespace Spec

/-- an item of the message has this value -/
def HasValue (ms : Str) (v : Value) : Prop := ∃ s ∈ slices ms, Denotes s v

/-- the tag names this color -/
inductive ColorTag : Value → Color → Prop
  | foreground {c} : ColorTag (.colorForeground (some c)) c
  | background {c} : ColorTag (.colorBackground (some c)) c
  | page {c} : ColorTag (.pageBackground (some c)) c
  | rectangle {r c} : ColorTag (.colorRectangle r c) c

/-- how the sign shows a color -/
def signColor (d : Dms) (c : Color) : Option Rgb :=
  colorValue d.multiCfg.colorScheme (signForeground d) (signBackground d) c

/-- how the sign shows the value of a pixel of an 8-bit or classic graphic (a level or color of the sign), or of a
24-bit graphic (the color itself) -/
def graphicColor (d : Dms) : Color → Option Rgb
  | .legacy v => signColor d (.legacy v)
  | .rgb r g b => some (r, g, b)

/-- The message or the sign asks for the color: it is a default color of the sign, the color of a tag of the message, or
the color of a pixel, which is not transparent, of a graphic of the message. -/
inductive Asked (d : Dms) (ms : Str) : Rgb → Prop
  | signForeground : Asked d ms (signForeground d)
  | signBackground : Asked d ms (signBackground d)
  | tag {v c x} : HasValue ms v → ColorTag v c → signColor d c = some x → Asked d ms x
  | graphic {n pos g k c x} : HasValue ms (.graphic n pos) → GraphicOf d n pos g → g.gtype ≠ .monochrome1Bit →
      PixelValue g.gtype g.bitmap k c → g.transparentColor ≠ some c → graphicColor d c = some x → Asked d ms x

end Spec

/-- a color set by a tag, or a default color -/
def SetColor (d : Dms) (ms : Str) (c : Color) : Prop :=
  c = .ofRgb (signForeground d) ∨ c = .ofRgb (signBackground d) ∨ ∃ v, HasValue ms v ∧ ColorTag v c

section
variable {d : Dms} {ms : Str}

theorem ofRgb_value {d : Dms} {c x} (h : signColor d (.ofRgb c) = some x) : x = c := by
  unfold signColor colorValue Color.ofRgb at h
  dsimp only at h
  split at h
  · simpa using h.symm
  · simp at h

theorem setColor_asked {c : Color} {x : Rgb} (h : SetColor d ms c) (hx : signColor d c = some x) : Asked d ms x := by
  rcases h with rfl | rfl | ⟨v, h1, h2⟩
  · rw [ofRgb_value hx]; exact .signForeground
  · rw [ofRgb_value hx]; exact .signBackground
  · exact .tag h1 h2 hx

theorem setColor_foreground {c : Color} (h : SetColor d ms c) : Asked d ms (foregroundRgb d c) := by
  unfold foregroundRgb
  cases hx : colorValue d.multiCfg.colorScheme (signForeground d) (signBackground d) c with
  | none => exact .signForeground
  | some x => exact setColor_asked h hx

theorem setColor_background {c : Color} (h : SetColor d ms c) : Asked d ms (backgroundRgb d c) := by
  unfold backgroundRgb
  cases hx : colorValue d.multiCfg.colorScheme (signForeground d) (signBackground d) c with
  | none => exact .signBackground
  | some x => exact setColor_asked h hx

theorem apply_setColor {a : TextAttr} {v : Value} (hv : HasValue ms v) (h : SetColor d ms a.foreground) :
    SetColor d ms (TextAttr.apply (signAttr d) a v).foreground := by
  unfold TextAttr.apply
  split <;> try exact h
  rename_i c
  cases c with
  | none => exact .inl rfl
  | some c => exact .inr (.inr ⟨_, hv, .foreground⟩)

theorem foldl_setColor {vs : List Value} : ∀ {a : TextAttr}, (∀ v ∈ vs, HasValue ms v) → SetColor d ms a.foreground →
    SetColor d ms (vs.foldl (TextAttr.apply (signAttr d)) a).foreground := by
  induction vs with
  | nil => intro a _ h; exact h
  | cons v vs ih =>
    intro a hv h
    exact ih (fun w hw => hv w (List.mem_cons_of_mem _ hw)) (apply_setColor (hv v (List.mem_cons_self ..)) h)

theorem colors_setColor {p : Colors} {v : Value} (hv : HasValue ms v) (h : SetColor d ms p.fg ∧ SetColor d ms p.bg) :
    SetColor d ms (p.apply d v).fg ∧ SetColor d ms (p.apply d v).bg := by
  unfold Colors.apply
  split
  · rename_i c
    refine ⟨?_, h.2⟩
    cases c with
    | none => exact .inl rfl
    | some c => exact .inr (.inr ⟨_, hv, .foreground⟩)
  · rename_i c
    refine ⟨h.1, ?_⟩
    cases c with
    | none => exact .inr (.inl rfl)
    | some c => exact .inr (.inr ⟨_, hv, .background⟩)
  · exact h

theorem background_setColor {vs : List Value} : ∀ {c : Color}, (∀ v ∈ vs, HasValue ms v) → SetColor d ms c →
    SetColor d ms (background (signPage d).2 c vs) := by
  induction vs with
  | nil => intro c _ h; exact h
  | cons v vs ih =>
    intro c hv h
    unfold background
    rw [List.foldl_cons]
    refine ih (fun w hw => hv w (List.mem_cons_of_mem _ hw)) ?_
    have hv := hv v (List.mem_cons_self ..)
    split
    · rename_i o _
      cases o with
      | none => exact .inr (.inl rfl)
      | some c => exact .inr (.inr ⟨_, hv, .background⟩)
    · rename_i o _
      cases o with
      | none => exact .inr (.inl rfl)
      | some c => exact .inr (.inr ⟨_, hv, .page⟩)
    · exact h

theorem layer_asked {W H : Nat} {p : Colors} {v : Value} {i j : Nat} {o : Option Rgb} (hv : HasValue ms v)
    (hp : SetColor d ms p.fg ∧ SetColor d ms p.bg) (h : Layer d W H p v i j o) : ∀ x, o = some x → Asked d ms x := by
  cases h with
  | rect => rintro x ⟨⟩; exact setColor_foreground (.inr (.inr ⟨_, hv, .rectangle⟩))
  | offRect => rintro x ⟨⟩
  | @graphic n pos g c i j hg hb hpix =>
    intro x hx
    split at hx
    · simp at hx
    · rename_i ht
      by_cases hm : g.gtype = .monochrome1Bit
      · cases c with
        | legacy b =>
          simp only [shown, hm, if_true] at hx
          split at hx
          · exact setColor_asked hp.1 hx
          · exact setColor_asked hp.2 hx
        | rgb r g b => rw [hm] at hpix; cases hpix
      · refine .graphic hv hg hm hpix ht ?_
        cases c with
        | legacy b => simp only [shown, hm, if_false] at hx; exact hx
        | rgb r g b => exact hx
  | offGraphic => rintro x ⟨⟩
  | other => rintro x ⟨⟩

theorem layered_asked {W H : Nat} {p : Colors} {vs : List Value} {i j : Nat} {o : Option Rgb}
    (h : Layered d W H p vs i j o) (hv : ∀ v ∈ vs, HasValue ms v) (hp : SetColor d ms p.fg ∧ SetColor d ms p.bg) :
    ∀ x, o = some x → Asked d ms x := by
  induction h with
  | nil => rintro x ⟨⟩
  | @cons p v vs i j o u hl _ ih =>
    intro x hx
    have hv1 := hv v (List.mem_cons_self ..)
    cases u with
    | some y =>
      exact ih (fun w hw => hv w (List.mem_cons_of_mem _ hw)) (colors_setColor hv1 hp) x hx
    | none => exact layer_asked hv1 hp hl x hx

theorem pieces_setColor {vs : List Value} : ∀ {a : TextAttr} {sp line blank}, (∀ v ∈ vs, HasValue ms v) →
    SetColor d ms a.foreground → ∀ q ∈ pieces (signAttr d) a sp line blank vs, SetColor d ms q.attr.foreground := by
  induction vs with
  | nil => intro a sp line blank _ _ q hq; simp [pieces] at hq
  | cons v vs ih =>
    intro a sp line blank hv h q hq
    rw [pieces, List.mem_append] at hq
    rcases hq with hq | hq
    · have : q.attr = a := by
        unfold piece at hq
        split at hq
        · simp only [List.mem_singleton] at hq; rw [hq]
        · simp only [List.mem_singleton] at hq; rw [hq]
        · split at hq
          · simp only [List.mem_singleton] at hq; rw [hq]
          · simp at hq
        · simp at hq
      rw [this]; exact h
    · exact ih (fun w hw => hv w (List.mem_cons_of_mem _ hw)) (apply_setColor (hv v (List.mem_cons_self ..)) h) q hq

theorem textAt_pixel {t : FontTable} {ps : List (Span × Nat × Nat)} {a b : Raster} (h : TextAt t ps a b) (i j : Nat) :
    b.px i j = a.px i j ∨ ∃ p ∈ ps, b.px i j = p.1.state.colorCtx.foregroundRgb := by
  have key : ∀ ps : List (Span × Nat × Nat), (∀ p ∈ ps, ¬ LightsAt t p.1 p.2.1 p.2.2 i j) ∨
      ∃ l1 p l2, ps = l1 ++ p :: l2 ∧ LightsAt t p.1 p.2.1 p.2.2 i j ∧ ∀ q ∈ l2, ¬ LightsAt t q.1 q.2.1 q.2.2 i j := by
    intro ps
    induction ps with
    | nil => exact .inl (by simp)
    | cons p ps ih =>
      rcases ih with ih | ⟨l1, q, l2, rfl, hq, hl⟩
      · by_cases hp : LightsAt t p.1 p.2.1 p.2.2 i j
        · exact .inr ⟨[], p, ps, rfl, hp, ih⟩
        · exact .inl (by simpa [hp] using ih)
      · exact .inr ⟨p :: l1, q, l2, rfl, hq, hl⟩
  rcases key ps with h1 | ⟨l1, p, l2, e, h1, h2⟩
  · exact .inl (h.unlit i j h1)
  · exact .inr ⟨p, by rw [e]; simp, h.lit l1 p l2 i j e h1 h2⟩

theorem text_asked {t : TextAttr} {sp rect vs} {a b : Raster} (h : TextDrawn d t sp rect vs a b)
    (hv : ∀ v ∈ vs, HasValue ms v) (ht : SetColor d ms t.foreground) (ha : ∀ i j, Asked d ms (a.px i j)) (i j : Nat) :
    Asked d ms (b.px i j) := by
  obtain ⟨ps, h1, _, h2, _, h3, _⟩ := h
  rcases textAt_pixel h3 i j with e | ⟨p, hp, e⟩
  · rw [e]; exact ha i j
  · rw [e, (h2 p.1 (List.mem_map_of_mem hp)).2.1]
    refine setColor_foreground (pieces_setColor (sp := sp) (line := 0) (blank := true) hv ht (pieceOf p.1) ?_)
    rw [← h1]
    exact List.mem_map_of_mem (List.mem_map_of_mem hp)

theorem composed_asked {bg : Color} {t : TextAttr} {sp rect vs rest} {a b : Raster}
    (h : Composed d bg t sp rect vs rest a b) (hv : ∀ v ∈ vs, HasValue ms v)
    (hr : ∀ q ∈ rest, ∀ v ∈ q.2, HasValue ms v)
    (ht : SetColor d ms t.foreground) (hb : SetColor d ms bg) (ha : ∀ i j, Asked d ms (a.px i j)) (i j : Nat) :
    Asked d ms (b.px i j) := by
  have graphics : ∀ {vs t} {a g : Raster}, GraphicsOn d ⟨t, bg⟩ vs a g → (∀ v ∈ vs, HasValue ms v) →
      SetColor d ms t → (∀ i j, Asked d ms (a.px i j)) → ∀ i j, Asked d ms (g.px i j) := by
    intro vs t a g hg hv ht ha i j
    obtain ⟨o, ho, e⟩ := hg.px i j
    rw [e]
    cases o with
    | none => exact ha i j
    | some x => exact layered_asked ho hv ⟨ht, hb⟩ x rfl
  induction h generalizing i j with
  | last hg htx => exact text_asked htx hv ht (graphics hg hv ht ha) i j
  | next hg htx _ ih =>
    exact ih (hr _ (List.mem_cons_self ..)) (fun q hq => hr q (List.mem_cons_of_mem _ hq)) (foldl_setColor hv ht)
      (text_asked htx hv ht (graphics hg hv ht ha)) i j

theorem sections_sub {vs : List Value} : (∀ v ∈ (sections vs).1, v ∈ vs) ∧
    ∀ q ∈ (sections vs).2, ∀ v ∈ q.2, v ∈ vs := by
  induction vs with
  | nil => simp [sections]
  | cons v vs ih =>
    unfold sections
    split
    · simp at *
    · rename_i r ws e
      simp only [List.cons.injEq] at e
      obtain ⟨rfl, rfl⟩ := e
      refine ⟨by simp, fun q hq w hw => ?_⟩
      rcases List.mem_cons.1 hq with rfl | hq
      · exact List.mem_cons_of_mem _ (ih.1 w hw)
      · exact List.mem_cons_of_mem _ (ih.2 q hq w hw)
    · rename_i w ws _ e
      simp only [List.cons.injEq] at e
      obtain ⟨rfl, rfl⟩ := e
      refine ⟨fun w hw => ?_, fun q hq w hw => List.mem_cons_of_mem _ (ih.2 q hq w hw)⟩
      rcases List.mem_cons.1 hw with rfl | hw
      · exact List.mem_cons_self ..
      · exact List.mem_cons_of_mem _ (ih.1 w hw)

theorem parses_denotes {ss : List Str} {vs : List Value} (h : Parses ss vs) : ∀ v ∈ vs, ∃ s ∈ ss, Denotes s v := by
  induction h with
  | nil => simp
  | @cons s v ss vs hv _ ih =>
    intro w hw
    rcases List.mem_cons.1 hw with rfl | hw
    · exact ⟨s, List.mem_cons_self .., (C84_item _ _).1 hv⟩
    · obtain ⟨t, ht, hd⟩ := ih w hw
      exact ⟨t, List.mem_cons_of_mem _ ht, hd⟩

theorem consumed_has {rest : List Str} {us : List Value} (h : Consumed (slices ms) rest us) : ∀ v ∈ us, HasValue ms v := by
  obtain ⟨pre, e, hp⟩ := h
  intro v hv
  obtain ⟨s, hs, hd⟩ := parses_denotes hp v hv
  exact ⟨s, by rw [e]; exact List.mem_append_left _ hs, hd⟩

theorem takePage_has {rest rest' : List Str} {us vs : List Value} {b} (h : Consumed (slices ms) rest us)
    (h' : TakePage rest vs rest' b) : ∀ v ∈ vs, HasValue ms v := by
  have := consumed_has (consumed_trans h (takePage_consumed h'))
  intro v hv
  refine this v ?_
  cases b <;> simp [hv]

end

/-- **C86** no color appears which was not asked for.  Every pixel of a page, ON or OFF, which comes without an error
before, has a default color of the sign, the color of a color tag of the message, or the color of a pixel (which is not
transparent) of a graphic of the message. -/
theorem C86_asked (d : Dms) (hf : FontsOk d.fontDefinition) (h0 : 1 ≤ d.multiCfg.defaultFont.toNat) (W H : Nat)
    (hg : GraphicsOk W H d.graphicDefinition) (ms : Str) (xs pg page pg')
    (h : Steps d (Pages.new d ms) xs pg) (hn : NoError xs)
    (hx : Pages.next d pg = .ok (some (.ok page), pg')) (i j : Nat) : Asked d ms (page.raster.px i j) := by
  cases hon : isOn pg.pageState with
  | true =>
    obtain ⟨us, vs, b, hc, ht, hcomp⟩ := C66_page d hf h0 W H hg ms xs pg page pg' h hn hon hx
    have hu := consumed_has hc
    have hv := takePage_has hc ht
    have huv : ∀ v ∈ us ++ vs, HasValue ms v := by
      intro v hm
      rcases List.mem_append.1 hm with hm | hm
      · exact hu v hm
      · exact hv v hm
    have hb : SetColor d ms (background (signPage d).2 (signPage d).2 (us ++ vs)) :=
      background_setColor huv (.inr (.inl rfl))
    have hs := sections_sub (vs := vs)
    exact composed_asked hcomp (fun v hm => hv v (hs.1 v hm)) (fun q hq v hm => hv v (hs.2 q hq v hm))
      (foldl_setColor hu (.inl rfl)) hb (fun i j => setColor_background hb) i j
  | false =>
    rcases next_cases hx with ⟨h1, _⟩ | ⟨_, _, hp, _⟩
    · rw [hon] at h1; simp at h1
    · simp only [Except.ok.injEq] at hp
      subst hp
      obtain ⟨us, hc, _, hb, _⟩ := C53_carry d ms xs pg h hn
      have : (renderOffPage pg).1.raster.px i j = pg.renderState.colorCtx.backgroundRgb := rfl
      rw [this, backgroundRgb_sign (steps_sign h), hb]
      exact setColor_background (background_setColor (consumed_has hc) (.inr (.inl rfl)))

/-- **C86 (plain messages)** without color tags, and with no graphics but 1-bit ones, a message shows the two default
colors of the sign, whatever its color scheme is. -/
theorem C86_plain (d : Dms) (hf : FontsOk d.fontDefinition) (h0 : 1 ≤ d.multiCfg.defaultFont.toNat) (W H : Nat)
    (hg : GraphicsOk W H d.graphicDefinition) (ms : Str) (ht : ∀ v c, HasValue ms v → ¬ ColorTag v c)
    (hm : ∀ n pos g, HasValue ms (.graphic n pos) → GraphicOf d n pos g → g.gtype = .monochrome1Bit)
    (xs pg page pg') (h : Steps d (Pages.new d ms) xs pg) (hn : NoError xs)
    (hx : Pages.next d pg = .ok (some (.ok page), pg')) (i j : Nat) :
    page.raster.px i j = signForeground d ∨ page.raster.px i j = signBackground d := by
  have := C86_asked d hf h0 W H hg ms xs pg page pg' h hn hx i j
  generalize page.raster.px i j = x at this ⊢
  cases this with
  | signForeground => exact .inl rfl
  | signBackground => exact .inr rfl
  | tag h1 h2 _ => exact absurd h2 (ht _ _ h1)
  | graphic h1 h2 h3 => exact absurd (hm _ _ _ h1 h2) h3

/-- **C86 (8-bit and classic signs)** on a sign which is not a 24-bit sign, and without 24-bit graphics in the message, a
page shows the two default colors and the levels of the sign (8-bit) or the ten classic colors. -/
theorem C86_scheme (d : Dms) (hf : FontsOk d.fontDefinition) (h0 : 1 ≤ d.multiCfg.defaultFont.toNat) (W H : Nat)
    (hg : GraphicsOk W H d.graphicDefinition) (ms : Str)
    (hm : ∀ n pos g, HasValue ms (.graphic n pos) → GraphicOf d n pos g → g.gtype ≠ .color24Bit)
    (xs pg page pg') (h : Steps d (Pages.new d ms) xs pg) (hn : NoError xs)
    (hx : Pages.next d pg = .ok (some (.ok page), pg')) (i j : Nat) :
    let x := page.raster.px i j
    let fg := signForeground d
    let bg := signBackground d
    match d.multiCfg.colorScheme with
    | .monochrome1Bit => x = fg ∨ x = bg
    | .monochrome8Bit => x = fg ∨ x = bg ∨ ∃ v, x = (level bg.1 fg.1 v, level bg.2.1 fg.2.1 v, level bg.2.2 fg.2.2 v)
    | .colorClassic => x = fg ∨ x = bg ∨ x ∈ classicColors
    | .color24Bit => True := by
  have := C86_asked d hf h0 W H hg ms xs pg page pg' h hn hx i j
  generalize page.raster.px i j = x at this ⊢
  have key : ∀ c, signColor d c = some x → d.multiCfg.colorScheme ≠ .color24Bit → ∃ v, signColor d (.legacy v) = some x := by
    intro c hc hs
    cases c with
    | legacy v => exact ⟨v, hc⟩
    | rgb r g b => simp [signColor, colorValue, hs] at hc
  have key : d.multiCfg.colorScheme ≠ .color24Bit →
      x = signForeground d ∨ x = signBackground d ∨ ∃ v, signColor d (.legacy v) = some x := by
    intro hs
    cases this with
    | signForeground => exact .inl rfl
    | signBackground => exact .inr (.inl rfl)
    | tag _ _ h3 => exact .inr (.inr (key _ h3 hs))
    | @graphic n pos g k c _ h1 h2 h3 h4 h5 h6 =>
      cases c with
      | legacy v => exact .inr (.inr ⟨v, h6⟩)
      | rgb r' g' b' =>
        have := hm _ _ _ h1 h2
        generalize g.gtype = t at this h4
        cases h4; exact absurd rfl this
  dsimp only
  unfold signColor colorValue at key
  cases hs : d.multiCfg.colorScheme with
  | monochrome1Bit =>
    rcases key (by simp [hs]) with h | h | ⟨v, h⟩
    · exact .inl h
    · exact .inr h
    · simp only [hs] at h
      split at h
      · exact .inr (Option.some.inj h).symm
      · split at h
        · exact .inl (Option.some.inj h).symm
        · simp at h
  | monochrome8Bit =>
    rcases key (by simp [hs]) with h | h | ⟨v, h⟩
    · exact .inl h
    · exact .inr (.inl h)
    · simp only [hs] at h
      exact .inr (.inr ⟨v, (Option.some.inj h).symm⟩)
  | colorClassic =>
    rcases key (by simp [hs]) with h | h | ⟨v, h⟩
    · exact .inl h
    · exact .inr (.inl h)
    · simp only [hs] at h
      exact .inr (.inr (List.mem_of_getElem? h))
  | color24Bit => trivial

/-- a 1-bit sign with a graphic of 2 by 1 pixels with 24-bit colors -/
def Tests.foreignDms : Dms := { charDms with graphicDefinition := [⟨1, [], 1, 2, .color24Bit, none, [255, 0, 0, 0, 255, 0]⟩] }

/-- **C86 (24-bit graphics elsewhere)** a 24-bit graphic shows its own colors on signs which do not have these colors: the
sign here is built without error, and has neither blue nor green. -/
theorem C86_foreign : ∃ d, (∃ d', d.intoBuilder.build .checked = .ok d') ∧ d.multiCfg.colorScheme = .monochrome1Bit ∧
    ∃ ms page pg', Pages.next d (Pages.new d ms) = .ok (some (.ok page), pg') ∧
      page.raster.px 0 0 ≠ signForeground d ∧ page.raster.px 0 0 ≠ signBackground d ∧
      ∀ c, signColor d c ≠ some (page.raster.px 0 0) := by
  have hb : (match foreignDms.intoBuilder.build .checked with | .ok _ => true | _ => false) = true := by decide +kernel
  have hp : pixels foreignDms c!"[g1]" [(0, 0)] = [(0, 0, 255)] := by decide +kernel
  have h1 : signForeground foreignDms ≠ (0, 0, 255) := by decide
  have h2 : signBackground foreignDms ≠ (0, 0, 255) := by decide
  refine ⟨foreignDms, ?_, rfl, c!"[g1]", ?_⟩
  · split at hb
    · rename_i d' e; exact ⟨d', e⟩
    · simp at hb
  · unfold pixels at hp
    split at hp
    · rename_i page pg' e
      simp only [List.map_cons, List.map_nil, List.cons.injEq, and_true] at hp
      refine ⟨page, pg', e, by rw [hp]; exact h1.symm, by rw [hp]; exact h2.symm, ?_⟩
      intro c hc
      rw [hp] at hc
      cases c with
      | legacy v =>
        have hs : foreignDms.multiCfg.colorScheme = .monochrome1Bit := rfl
        simp only [signColor, colorValue, hs] at hc
        split at hc
        · exact h2 (Option.some.inj hc)
        · split at hc
          · exact h1 (Option.some.inj hc)
          · simp at hc
      | rgb r g b =>
        have hs : foreignDms.multiCfg.colorScheme = .monochrome1Bit := rfl
        simp [signColor, colorValue, hs] at hc
    · simp at hp

-- the colors of the page of C66's example: of tags (blue, red), of the graphic (magenta) and of the sign (white); the
-- hypotheses are those of C66
example : pixels graphDms c!"A[cr1,1,10,10,255,0,0][g7,3,3][pb0,0,255]"
    [(20, 20), (9, 9), (2, 2), (3, 2), (2, 3), (0, 1)] =
    [(0, 0, 255), (255, 0, 0), (255, 255, 255), (255, 0, 255), (255, 0, 0), (255, 255, 255)] := by decide +kernel
example : HasValue c!"A[pb0,0,255]" (.pageBackground (some (.rgb 0 0 255))) :=
  ⟨c!"[pb0,0,255]", by decide +kernel, (C84_item _ _).1 (by decide +kernel)⟩
-- the message of C86_plain
example : pixels graphDms c!"[jl2]A[nl]A" [(0, 0), (0, 1)] = [(0, 0, 0), (255, 255, 255)] := by decide +kernel

end Ntcip
