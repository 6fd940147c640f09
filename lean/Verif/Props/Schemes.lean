import Verif.Lemmas.Schemes
import Verif.Props.Sister
import Verif.Props.Same
import Verif.Props.Accept
/-
Property C141: color schemes decide about colors only.
-/
namespace Ntcip
open Spec Tests

theorem tellsColor_tag {ms : Str} {v : Value} (hm : .ok (.ok v) ∈ values ms) {c} (h : tagColor v = some c) : TellsColor ms c := by
  cases v with
  | colorForeground x => obtain rfl : x = some c := h; exact .inl hm
  | colorBackground x => obtain rfl : x = some c := h; exact .inr (.inl hm)
  | pageBackground x => obtain rfl : x = some c := h; exact .inr (.inr (.inl hm))
  | colorRectangle r x => obtain rfl : x = c := Option.some.inj h; exact .inr (.inr (.inr ⟨r, hm⟩))
  | _ => cases h

theorem cross_new {d d' : Dms} (hd : SameButColors d d') {ms : Str} (hc : ∀ c, TellsColor ms c → HasColor d c ∧ HasColor d' c)
    {Q : Graphic → Prop} (hg : ∀ n pos, .ok (.ok (.graphic n pos)) ∈ values ms → ∀ g ∈ d.graphicDefinition, g.number = n → Q g) :
    TintP (CrossCtx d d') (CrossValue d d' Q) (Pages.new d ms) (Pages.new d' ms) := by
  have hk : CrossCtx d d' (signCtx d) (signCtx d') := ⟨rfl, rfl, rfl, rfl, rfl, rfl, .inr ⟨rfl, rfl⟩, .inr ⟨rfl, rfl⟩⟩
  refine new_rel hd hk ms fun s hs v hv => ?_
  have hm : .ok (.ok v) ∈ values ms := by rw [values, List.mem_map]; exact ⟨s, hs, hv⟩
  exact ⟨fun c e => hc c (tellsColor_tag hm e), fun n pos e => hg n pos (e ▸ hm)⟩

/-- **C141** Signs that differ in nothing but colors (their color schemes, default colors, LEDs) have the same results for every
message whose colors both of them have, but for the colors of pixels: the same errors, as many pages, of the same sizes and times. -/
theorem C141_alike (d d' : Dms) (hd : SameButColors d d') (ms : Str) (hc : ∀ c, TellsColor ms c → HasColor d c ∧ HasColor d' c)
    (k : Nat) : RecoloredRun (fun _ _ => True) d d' ms k :=
  run_rel hd (cross_sim d d' (Q := fun _ => True) (fun _ _ _ => trivial) fun _ _ => .inl fun _ _ => trivial) k
    (cross_new hd hc fun _ _ _ _ _ _ => trivial)

/-- **C141 (colors)** Each pixel has the default foreground color of its sign on both, or the default background color on both, or
what its sign shows for the same color; provided that graphics of the message are shared. -/
theorem C141_colors (d d' : Dms) (hd : SameButColors d d') (ms : Str) (hc : ∀ c, TellsColor ms c → HasColor d c ∧ HasColor d' c)
    (hg : SharedGraphics d d' ms) (k : Nat) : RecoloredRun (fun a b => BothDefault d d' a b ∨ SameColor d d' a b) d d' ms k :=
  run_rel hd (cross_sim d d' (Q := SharedGraphic d d') (fun _ _ h => h) fun _ h => .inr (.inl h)) k (cross_new hd hc hg)

/-- **C141 (graphics)** With graphics of 24 bits on signs of any color scheme, pixels may also have the very same color on both. -/
theorem C141_graphics (d d' : Dms) (hd : SameButColors d d') (ms : Str) (hc : ∀ c, TellsColor ms c → HasColor d c ∧ HasColor d' c)
    (hg : PlainGraphics d d' ms) (k : Nat) :
    RecoloredRun (fun a b => (BothDefault d d' a b ∨ SameColor d d' a b) ∨ a = b) d d' ms k :=
  run_rel hd (cross_sim d d' (Q := fun g => SharedGraphic d d' g ∨ g.gtype = .color24Bit) (fun _ _ h => .inl h)
    fun _ h => .inr (h.imp id fun h => ⟨h, fun _ => .inr rfl⟩)) k (cross_new hd hc hg)

/-- the sign has all colors of a message it shows -/
theorem shown_hasColor (d : Dms) (hd : SizeOk d) (hok : SignOk d) (hf : FontsOk d.fontDefinition) (W H : Nat)
    (hg : GraphicsOk W H d.graphicDefinition) (ms : Str) (hs : SizesOk d ms) (xs) (hx : ShownAs d ms xs) (c) (hc : TellsColor ms c) :
    HasColor d c := by
  obtain ⟨_, vs, hv, _⟩ := (C93_message d hd hok hf W H hg ms hs xs).1 hx
  obtain ⟨⟨_, q⟩, _⟩ := (shown_iff d hd hok hf W H hg ms hs hv xs).1 hx
  have key : ∀ v, .ok (.ok v) ∈ values ms → tagColor v = some c → HasColor d c :=
    fun v hm e => hasColor_admits.2 (shown_colorOk q (parses_value_mem hv hm) c e)
  rcases hc with h | h | h | ⟨r, h⟩ <;> exact key _ h rfl

/-- **C141 (shown)** A message that one sign shows is shown by a sign with other colors exactly if this one has all colors of the
message; then as many pages are shown, ON and OFF alike, of the same sizes and times. -/
theorem C141_shown (d d' : Dms) (h : SameButColors d d') (hd : SizeOk d) (hok : SignOk d) (hf : FontsOk d.fontDefinition)
    (W H : Nat) (hg : GraphicsOk W H d.graphicDefinition) (ms : Str) (hs : SizesOk d ms) (xs) (hx : ShownAs d ms xs) :
    ((∃ ys, ShownAs d' ms ys) ↔ ∀ c, TellsColor ms c → HasColor d' c) ∧ ∀ ys, ShownAs d' ms ys → Pairwise2 SameFrame xs ys := by
  have fwd : (∀ c, TellsColor ms c → HasColor d' c) → ∃ ys, ShownAs d' ms ys ∧ Pairwise2 SameFrame xs ys := by
    intro hc
    obtain ⟨⟨pg, h1, h2⟩, hn⟩ := hx
    obtain ⟨ys, pg', h3, h4, h5⟩ := steps_cross h (cross_sim d d' (Q := fun _ => True) (P := fun _ _ => True) (fun _ _ _ => trivial)
      fun _ _ => .inl fun _ _ => trivial) (cross_new h (fun c hk => ⟨shown_hasColor d hd hok hf W H hg ms hs xs ⟨⟨pg, h1, h2⟩, hn⟩ c hk, hc c hk⟩)
        fun _ _ _ _ _ _ => trivial) h1
    have hframe : Pairwise2 SameFrame xs ys ∧ NoError ys := by
      clear h1 h3
      induction h5 with
      | nil => exact ⟨.nil, fun _ hx => by cases hx⟩
      | @cons x y xs ys hr _ ih =>
        obtain ⟨p, hp⟩ := hn x (List.mem_cons_self ..)
        obtain ⟨k1, k2⟩ := hr
        obtain ⟨i1, i2⟩ := ih fun z hz => hn z (List.mem_cons_of_mem _ hz)
        rw [hp] at k2
        cases hq : y.2 with
        | error e => rw [hq] at k2; exact k2.elim
        | ok q =>
          rw [hq] at k2
          refine ⟨.cons ⟨k1, p, q, hp, hq, k2.1.symm, k2.2.width.symm, k2.2.height.symm⟩ i1, fun z hz => ?_⟩
          cases hz with
          | head => exact ⟨q, hq⟩
          | tail _ hz => exact i2 z hz
    refine ⟨ys, ⟨⟨pg', h3, ?_⟩, hframe.2⟩, hframe.1⟩
    unfold Pages.next
    rw [h4.pageState, (next_none h2).1]
  have hd' : SizeOk d' := ⟨by rw [h.width]; exact hd.width, by rw [h.height]; exact hd.height, by rw [h.width, h.height]; exact hd.size⟩
  have hok' : SignOk d' := ⟨by rw [h.width]; exact hok.width, by rw [h.height]; exact hok.height, by rw [h.font]; exact hok.font,
    by rw [h.justPage]; exact hok.justPage, by rw [h.justLine]; exact hok.justLine, by rw [h.fonts]; exact hok.fonts,
    by rw [h.graphics, h.width, h.height]; exact hok.graphics⟩
  have hs' : SizesOk d' ms := by
    obtain ⟨k1, M, k2, k3, k4⟩ := hs
    exact ⟨k1, M, k2, k3, by rw [h.fonts]; exact k4⟩
  have back : ∀ ys, ShownAs d' ms ys → ∀ c, TellsColor ms c → HasColor d' c := fun ys hy =>
    shown_hasColor d' hd' hok' (by rw [h.fonts]; exact hf) W H (by rw [h.graphics]; exact hg) ms hs' ys hy
  refine ⟨⟨fun ⟨ys, hy⟩ => back ys hy, fun hc => ?_⟩, fun ys hy => ?_⟩
  · obtain ⟨ys, hy, _⟩ := fwd hc
    exact ⟨ys, hy⟩
  · obtain ⟨zs, hz, hf⟩ := fwd (back ys hy)
    obtain ⟨⟨p1, k1, k2⟩, _⟩ := hy
    obtain ⟨⟨p2, k3, k4⟩, _⟩ := hz
    obtain rfl := steps_unique k1 k2 k3 k4
    exact hf

/-- **C141 (order)** Which color schemes have all the colors of which others: every scheme has those of monochrome signs of one bit,
all others have the classic ones, and that is all. -/
theorem C141_order (d d' : Dms) : (∀ c, HasColor d c → HasColor d' c) ↔
    d.multiCfg.colorScheme = d'.multiCfg.colorScheme ∨ d.multiCfg.colorScheme = .monochrome1Bit ∨
    (d.multiCfg.colorScheme = .colorClassic ∧ d'.multiCfg.colorScheme ≠ .monochrome1Bit) := by
  unfold HasColor
  have a := fun h : ∀ c, HasColor d c → HasColor d' c => h (.legacy 10)
  have b := fun h : ∀ c, HasColor d c → HasColor d' c => h (.legacy 9)
  have e := fun h : ∀ c, HasColor d c → HasColor d' c => h (.rgb 0 0 0)
  unfold HasColor at a b e
  cases h1 : d.multiCfg.colorScheme <;> cases h2 : d'.multiCfg.colorScheme <;> simp only [h1, h2] at a b e ⊢ <;>
    simp only [reduceCtorEq, or_true, or_false, and_false, ne_eq, not_true, not_false_eq_true, and_true, iff_true, iff_false]
  all_goals first
    | (intro c; cases c <;> simp <;> omega)
    | exact fun h => absurd (a h trivial) (by decide)
    | exact fun h => absurd (b h (by decide)) (by decide)
    | exact fun h => e h trivial
    | exact fun c h => h

/-- **C141 (upgrade)** So a message that is shown by a sign is shown, with pages of the same sizes and times, by a sign of a color
scheme with more colors. -/
theorem C141_upgrade (d d' : Dms) (h : SameButColors d d') (hd : SizeOk d) (hok : SignOk d) (hf : FontsOk d.fontDefinition)
    (W H : Nat) (hg : GraphicsOk W H d.graphicDefinition) (ms : Str) (hs : SizesOk d ms) (xs) (hx : ShownAs d ms xs)
    (ho : d.multiCfg.colorScheme = d'.multiCfg.colorScheme ∨ d.multiCfg.colorScheme = .monochrome1Bit ∨
      (d.multiCfg.colorScheme = .colorClassic ∧ d'.multiCfg.colorScheme ≠ .monochrome1Bit)) :
    ∃ ys, ShownAs d' ms ys ∧ Pairwise2 SameFrame xs ys := by
  obtain ⟨h1, h2⟩ := C141_shown d d' h hd hok hf W H hg ms hs xs hx
  obtain ⟨ys, hy⟩ := h1.2 fun c hc => (C141_order d d').2 ho c (shown_hasColor d hd hok hf W H hg ms hs xs hx c hc)
  exact ⟨ys, hy, h2 ys hy⟩

/-- a message of a color tag only -/
theorem colorTag_shown (d : Dms) (hd : AcceptOk d) (ht : d.multiCfg.supportedMultiTags .cf = true) {ms s : Str} {c : Color}
    (h1 : slices ms = [s]) (h2 : tryFrom s = .ok (.ok (.colorForeground (some c)))) (hc : HasColor d c) : ∃ xs, ShownAs d ms xs := by
  have htake : ∀ vs rest b, TakePage [s] vs rest b → vs = [.colorForeground (some c)] ∧ rest = [] ∧ b = false := by
    intro vs rest b h
    cases h with
    | np h => rw [h2] at h; cases h
    | cons h _ hr =>
      rw [h2] at h
      cases h
      cases hr
      exact ⟨rfl, rfl, rfl⟩
  have hat : ∀ t ss, PageAt d (signAttr d) [s] t ss → t = signAttr d ∧ ss = [s] := by
    intro t ss h
    cases h with
    | first => exact ⟨rfl, rfl⟩
    | later h _ => cases (htake _ _ _ h).2.2
  refine (C67_message_iff d hd ms ?_).2 ?_
  · intro t ss h vs rest b hp
    rw [h1] at h
    obtain ⟨rfl, rfl⟩ := hat t ss h
    obtain ⟨rfl, _, _⟩ := htake _ _ _ hp
    refine ⟨by simp, .last ⟨?_, ?_⟩⟩
    · simp [sections, Tidy, InOrder]
    · rintro ⟨s, hs, _⟩
      simp [sections, layoutOf, pieces, piece] at hs
  · intro t ss h
    rw [h1] at h
    obtain ⟨rfl, rfl⟩ := hat t ss h
    refine ⟨_, _, _, .cons h2 (by simp) .nil, ⟨?_, by simp, ?_, by simp [sections], .last ?_⟩⟩
    · intro v hv t e
      rw [List.mem_singleton] at hv
      subst hv
      cases e
      exact ht
    · intro v hv
      rw [List.mem_singleton] at hv
      subst hv
      exact ⟨fun x e => by cases e; exact hasColor_admits.1 hc, rfl⟩
    · intro s hs
      simp [sections, layoutOf, pieces, piece] at hs

/-- **C141 (strict)** Each other pair of color schemes has a message that the first sign shows, but not the second. -/
theorem C141_strict (d d' : Dms) (h : SameButColors d d') (ha : AcceptOk d)
    (ht : d.multiCfg.supportedMultiTags .cf = true)
    (ho : ¬ (d.multiCfg.colorScheme = d'.multiCfg.colorScheme ∨ d.multiCfg.colorScheme = .monochrome1Bit ∨
      (d.multiCfg.colorScheme = .colorClassic ∧ d'.multiCfg.colorScheme ≠ .monochrome1Bit))) :
    ∃ ms xs, ShownAs d ms xs ∧ ¬ ∃ ys, ShownAs d' ms ys := by
  have hd : SizeOk d := ⟨ha.width, ha.height, ha.size⟩
  have hok : SignOk d := ⟨ha.width, ha.height, ha.font, ha.justPage, ha.justLine, ha.fonts.fonts, ha.graphics.graphics⟩
  have key : ∀ ms c, ms.length ≤ 128 → slices ms = [ms] → tryFrom ms = .ok (.ok (.colorForeground (some c))) → HasColor d c →
      ¬ HasColor d' c → ∃ ms xs, ShownAs d ms xs ∧ ¬ ∃ ys, ShownAs d' ms ys := by
    intro ms c hl h1 h2 hc hn
    obtain ⟨xs, hx⟩ := colorTag_shown d ha ht h1 h2 hc
    refine ⟨ms, xs, hx, fun hy => hn ?_⟩
    refine (C141_shown d d' h hd hok ha.fonts _ _ ha.graphics ms (sizesOk_short _ _ hl) xs hx).1.1 hy c (.inl ?_)
    rw [values, h1, List.map_singleton, h2]
    exact List.mem_singleton.2 rfl
  have k9 := key c!"[cf9]" (.legacy 9) (by decide) (by decide +kernel) (by decide +kernel)
  have k10 := key c!"[cf10]" (.legacy 10) (by decide) (by decide +kernel) (by decide +kernel)
  have k0 := key c!"[cf0,0,0]" (.rgb 0 0 0) (by decide) (by decide +kernel) (by decide +kernel)
  unfold HasColor at k9 k10 k0
  cases h1 : d.multiCfg.colorScheme <;> cases h2 : d'.multiCfg.colorScheme <;> simp only [h1, h2] at ho k9 k10 k0 <;>
    first
    | (exfalso; apply ho; simp; done)
    | exact k9 (by decide) (by decide)
    | exact k10 (by decide) (by decide)
    | exact k10 trivial (by decide)
    | exact k9 trivial (by decide)
    | exact k0 trivial (by simp)

/-! ### cases -/

/-- `fullDms` with green LEDs -/
def Tests.ledDms : Dms := { fullDms with
  vmsCfg := { fullDms.vmsCfg with monoForeground := (0, 200, 0), monoBackground := (1, 2, 3) }
  multiCfg := { fullDms.multiCfg with colorScheme := .monochrome1Bit } }

theorem ledDms_built : ledDms.intoBuilder.build .checked = .ok ledDms := by
  with_unfolding_all rfl

theorem led_full : SameButColors ledDms fullDms := by constructor <;> rfl

/-- text in inverse colors -/
def Tests.inverseMsg : Str := c!"[pb1][cf0]A[np][cf]B"

theorem inverseMsg_values : values inverseMsg = [.ok (.ok (.pageBackground (some (.legacy 1)))),
    .ok (.ok (.colorForeground (some (.legacy 0)))), .ok (.ok (.text c!"A")), .ok (.ok .newPage), .ok (.ok (.colorForeground none)),
    .ok (.ok (.text c!"B"))] := by decide +kernel

theorem inverseMsg_colors (c) (h : TellsColor inverseMsg c) : c = .legacy 0 ∨ c = .legacy 1 := by
  unfold TellsColor at h
  rw [inverseMsg_values] at h
  simp only [List.mem_cons, Res.ok.injEq, Except.ok.injEq, reduceCtorEq, Value.colorForeground.injEq, Value.pageBackground.injEq,
    Option.some.injEq, List.not_mem_nil, or_false, false_or, exists_false] at h
  rcases h with h | h
  · exact .inl h
  · exact .inr h

-- the hypotheses of C141_alike and C141_colors
example : (∀ c, TellsColor inverseMsg c → HasColor ledDms c ∧ HasColor fullDms c) ∧ SharedGraphics ledDms fullDms inverseMsg := by
  constructor
  · intro c hc
    rcases inverseMsg_colors c hc with rfl | rfl <;> exact ⟨by show (_ : Nat) ≤ 1; decide, by show (_ : Nat) ≤ 9; decide⟩
  · intro n pos h
    rw [inverseMsg_values] at h
    simp at h

/-- text and a graphic of one byte for each pixel -/
def Tests.arrowMsg : Str := c!"[cf1]A[g5,1,1]"

theorem arrowMsg_values : values arrowMsg = [.ok (.ok (.colorForeground (some (.legacy 1)))), .ok (.ok (.text c!"A")),
    .ok (.ok (.graphic 5 (some (1, 1, none))))] := by decide +kernel

-- the same for a message with a graphic
example : (∀ c, TellsColor arrowMsg c → HasColor classicGraphDms c ∧ HasColor graphDms c) ∧
    SharedGraphics classicGraphDms graphDms arrowMsg := by
  constructor
  · intro c hc
    unfold TellsColor at hc
    rw [arrowMsg_values] at hc
    simp only [List.mem_cons, Res.ok.injEq, Except.ok.injEq, reduceCtorEq, Value.colorForeground.injEq, Option.some.injEq,
      List.not_mem_nil, or_false, exists_false] at hc
    subst hc
    exact ⟨by show (_ : Nat) ≤ 9; decide, by show (_ : Nat) ≤ 9; decide⟩
  · intro n pos h g hg hn
    rw [arrowMsg_values] at h
    simp only [List.mem_cons, Res.ok.injEq, Except.ok.injEq, reduceCtorEq, Value.graphic.injEq, List.not_mem_nil, or_false,
      false_or] at h
    rw [h.1] at hn
    simp only [classicGraphDms, graphDms, testGraphics, List.mem_cons, List.not_mem_nil, or_false] at hg
    rcases hg with rfl | rfl | rfl
    · exact absurd hn (by decide)
    · exact fun b _ => Iff.rfl
    · exact absurd hn (by decide)

-- the other graphics of these signs are not shared
example : ∀ g ∈ classicGraphDms.graphicDefinition, g.number ≠ 5 → ¬ SharedGraphic classicGraphDms graphDms g := by
  intro g hg hn
  simp only [classicGraphDms, graphDms, testGraphics, List.mem_cons, List.not_mem_nil, or_false] at hg
  rcases hg with rfl | rfl | rfl
  · intro h
    have : ColorScheme.colorClassic = .color24Bit ↔ ColorScheme.color24Bit = .color24Bit := h
    simp at this
  · exact absurd rfl hn
  · intro h
    have : ColorScheme.colorClassic = .color24Bit ∧ ColorScheme.color24Bit = .color24Bit := h
    simp at this

-- the hypothesis of C141_graphics, and what both signs show
example : PlainGraphics classicGraphDms graphDms c!"[g7,1,1]" := by
  intro n pos h g hg hn
  have hv : values c!"[g7,1,1]" = [.ok (.ok (.graphic 7 (some (1, 1, none))))] := by decide +kernel
  rw [hv] at h
  simp only [List.mem_cons, Res.ok.injEq, Except.ok.injEq, Value.graphic.injEq, List.not_mem_nil, or_false] at h
  rw [h.1] at hn
  simp only [classicGraphDms, graphDms, testGraphics, List.mem_cons, List.not_mem_nil, or_false] at hg
  rcases hg with rfl | rfl | rfl
  · exact absurd hn (by decide)
  · exact absurd hn (by decide)
  · exact .inr rfl

example : pagePixels classicGraphDms c!"[g7,1,1]" 0 [(0, 0), (1, 0)] = pagePixels graphDms c!"[g7,1,1]" 0 [(0, 0), (1, 0)] ∧
    (pagePixels graphDms c!"[g7,1,1]" 0 [(0, 0), (1, 0)]).head? = some (255, 255, 255) :=
  ⟨by decide +kernel, by decide +kernel⟩

-- the hypotheses of C141_shown
example : ∃ ys, ShownAs fullDms inverseMsg ys ∧ ys.length = 2 := by
  obtain ⟨xs, hx, hn, hlen⟩ := summary_noError (d := ledDms) (ms := inverseMsg)
    (l := [(true, 60, 30, 30), (true, 60, 30, 30)]) (by decide +kernel)
  have hv := C22_built_sign_valid .checked _ _ ledDms_built
  have hsz : SizeOk ledDms := ⟨by decide +kernel, by decide +kernel, by decide +kernel⟩
  have hok : SignOk ledDms := ⟨by decide +kernel, by decide +kernel, by decide +kernel, by decide, ⟨by decide, by decide⟩,
    hv.2.2.2.2.1.fonts, hv.2.2.2.2.2.1.graphics⟩
  obtain ⟨h1, h2⟩ := C141_shown _ _ led_full hsz hok hv.2.2.2.2.1 _ _ hv.2.2.2.2.2.1 inverseMsg (sizesOk_short _ _ (by decide)) xs ⟨hx, hn⟩
  obtain ⟨ys, hy⟩ := h1.2 fun c hc => by
    rcases inverseMsg_colors c hc with rfl | rfl <;> (show (_ : Nat) ≤ 9; decide)
  exact ⟨ys, hy, by rw [← pairwise2_length (h2 ys hy), hlen]; rfl⟩

-- the color schemes of C141_upgrade for these signs
example : ledDms.multiCfg.colorScheme = .monochrome1Bit ∧ fullDms.multiCfg.colorScheme ≠ .monochrome1Bit := ⟨rfl, by decide⟩

-- the hypotheses of C141_strict
example : ∃ ms xs, ShownAs fullDms ms xs ∧ ¬ ∃ ys, ShownAs ledDms ms ys := by
  have hv := C22_built_sign_valid .checked _ _ ledDms_built
  exact C141_strict fullDms ledDms (by constructor <;> rfl) ⟨⟨by decide +kernel, by decide +kernel, by decide +kernel, hv.2.2.2.2.2.1⟩,
    by decide +kernel, by decide, ⟨by decide, by decide⟩, hv.2.2.2.2.1⟩ (by decide +kernel) (by decide)

-- color 1 is the foreground color of the monochrome sign, and red on the other
example : pagePixels ledDms inverseMsg 0 [(0, 1), (59, 29)] = [(1, 2, 3), (0, 200, 0)] ∧
    pagePixels fullDms inverseMsg 0 [(0, 1), (59, 29)] = [(0, 0, 0), (255, 0, 0)] :=
  ⟨by decide +kernel, by decide +kernel⟩

-- a color that the monochrome sign has not
example : nextError fullDms c!"[cf2]A" = none ∧ nextError ledDms c!"[cf2]A" = some (.unsupportedTagValue c!"[cf2]") :=
  ⟨by decide +kernel, by decide +kernel⟩

end Ntcip
