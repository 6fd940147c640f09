import Verif.Lemmas.Sister
import Verif.Props.Tint
/-
Property C140: signs with 24-bit colors show what signs with classic colors show.
-/
namespace Ntcip
open Spec Tests

theorem sister_new {d d' : Dms} (h : ClassicAndFull d d') {ms : Str} (hc : NoRgb ms) (hb : NoBitmaps d ms) :
    TintP SisterCtx (SisterValue d) (Pages.new d ms) (Pages.new d' ms) := by
  have hk : SisterCtx (signCtx d) (signCtx d') := by
    refine ⟨h.classic, ?_, .inr rfl, .inr rfl⟩
    simp only [signCtx, h.fg, h.bg, h.full]
  refine new_rel h.same hk ms fun s hs v hv => ?_
  · have hm : .ok (.ok v) ∈ values ms := by rw [values, List.mem_map]; exact ⟨s, hs, hv⟩
    exact ⟨fun r g b => hc r g b v hm, fun n pos e => hb n pos (e ▸ hm)⟩

/-- **C140** A sign with classic colors and a sign with 24-bit colors that are alike otherwise, default colors included, give the very
same results for every message whose colors are numbers and that shows no graphics of one bit: the same pages, pixel by pixel, ON and
OFF alike, and the same errors. -/
theorem C140_same (d d' : Dms) (h : ClassicAndFull d d') (ms : Str) (hc : NoRgb ms) (hb : NoBitmaps d ms) (xs) :
    Spec.Yields d ms xs ↔ Spec.Yields d' ms xs := by
  constructor
  · rintro ⟨pg, h1, h2⟩
    obtain ⟨pg', h3, h4⟩ := steps_sister h.same (sister_sim d d') (sister_new h hc hb) h1
    refine ⟨pg', h3, ?_⟩
    unfold Pages.next
    rw [h4.pageState, (next_none h2).1]
  · rintro ⟨pg', h1, h2⟩
    obtain ⟨pg, h3, h4⟩ := steps_sister_back h.same (sister_sim d d') (sister_new h hc hb) h1
    refine ⟨pg, h3, ?_⟩
    unfold Pages.next
    rw [← h4.pageState, (next_none h2).1]

/-- **C140 (panics)** … and the same panics, at the same result. -/
theorem C140_panics (d d' : Dms) (h : ClassicAndFull d d') (ms : Str) (hc : NoRgb ms) (hb : NoBitmaps d ms) (k : Nat) (p : Panic) :
    Pages.run d k (Pages.new d ms) = .panic p ↔ Pages.run d' k (Pages.new d' ms) = .panic p := by
  have := run_rel h.same (sister_sim d d') k (sister_new h hc hb)
  cases hx : Pages.run d k (Pages.new d ms) <;> cases hy : Pages.run d' k (Pages.new d' ms) <;> rw [hx, hy] at this <;>
    simp only [Res.Rel] at this
  · simp
  · rw [this]

theorem parses_value_mem {ss : List Str} {vs : List Value} (h : Parses ss vs) {v : Value} (hv : .ok (.ok v) ∈ ss.map tryFrom) :
    v ∈ vs := by
  induction h with
  | nil => simp at hv
  | cons h1 _ ih =>
    rw [List.map_cons, List.mem_cons] at hv
    rcases hv with hv | hv
    · rw [h1] at hv
      simp only [Res.ok.injEq, Except.ok.injEq] at hv
      rw [hv]; exact List.mem_cons_self
    · exact List.mem_cons_of_mem _ (ih hv)

/-- a message that a sign with classic colors shows has no colors by parts -/
theorem shown_noRgb (d : Dms) (h : d.multiCfg.colorScheme = .colorClassic) (hd : SizeOk d) (hok : SignOk d)
    (hf : FontsOk d.fontDefinition) (W H : Nat) (hg : GraphicsOk W H d.graphicDefinition) (ms : Str) (hs : SizesOk d ms) (xs)
    (hx : ShownAs d ms xs) : NoRgb ms := by
  obtain ⟨_, vs, hv, _⟩ := (C93_message d hd hok hf W H hg ms hs xs).1 hx
  obtain ⟨⟨_, q⟩, _⟩ := (shown_iff d hd hok hf W H hg ms hs hv xs).1 hx
  intro r g b v hm
  have hk := shown_colorOk q (parses_value_mem hv hm)
  rw [h] at hk
  refine ⟨?_, ?_, ?_, ?_⟩
  · rintro rfl; exact hk _ rfl
  · rintro rfl; exact hk _ rfl
  · rintro rfl; exact hk _ rfl
  · rintro rect rfl; exact hk _ rfl

/-- **C140 (shown)** So what a sign with classic colors shows, a sign with 24-bit colors shows exactly the same way, unless it has
graphics of one bit: there is nothing to rewrite in messages for the new sign. -/
theorem C140_shown (d d' : Dms) (h : ClassicAndFull d d') (hd : SizeOk d) (hok : SignOk d) (hf : FontsOk d.fontDefinition)
    (W H : Nat) (hg : GraphicsOk W H d.graphicDefinition) (ms : Str) (hs : SizesOk d ms) (hb : NoBitmaps d ms) (xs)
    (hx : ShownAs d ms xs) : ShownAs d' ms xs :=
  ⟨(C140_same d d' h ms (shown_noRgb d h.classic hd hok hf W H hg ms hs xs hx) hb xs).1 hx.1, hx.2⟩

theorem sisterOf_new {d d' : Dms} (h : ClassicAndFull d d') {ms : Str} (hc : NoRgb ms) :
    TintP (SisterOf d) SisterColors (Pages.new d ms) (Pages.new d' ms) := by
  have hk : SisterOf d (signCtx d) (signCtx d') := by
    refine ⟨⟨h.classic, ?_, .inr rfl, .inr rfl⟩, rfl, rfl⟩
    simp only [signCtx, h.fg, h.bg, h.full]
  refine new_rel h.same hk ms fun s hs v hv => ?_
  have hm : .ok (.ok v) ∈ values ms := by rw [values, List.mem_map]; exact ⟨s, hs, hv⟩
  exact fun r g b => hc r g b v hm

/-- **C140 (bitmaps)** With graphics of one bit, there are still the same errors and as many pages of the same sizes and times, and
each pixel is the same on both signs, or has a default color on the sign with 24-bit colors. -/
theorem C140_bitmaps (d d' : Dms) (h : ClassicAndFull d d') (ms : Str) (hc : NoRgb ms) (k : Nat) :
    RecoloredRun (SameOrDefault d) d d' ms k :=
  run_rel h.same (sisterOf_sim d d') k (sisterOf_new h hc)

/-- **C140 (all)** So whatever a sign with classic colors shows, a sign with 24-bit colors shows, too: as many pages of the same sizes
and times, where each pixel is the same or has a default color. -/
theorem C140_all (d d' : Dms) (h : ClassicAndFull d d') (hd : SizeOk d) (hok : SignOk d) (hf : FontsOk d.fontDefinition)
    (W H : Nat) (hg : GraphicsOk W H d.graphicDefinition) (ms : Str) (hs : SizesOk d ms) (xs) (hx : ShownAs d ms xs) :
    ∃ ys, ShownAs d' ms ys ∧ Pairwise2 (fun x y => SameFrame x y ∧ ∀ p q, x.2 = .ok p → y.2 = .ok q → ∀ i j,
      SameOrDefault d (p.raster.px i j) (q.raster.px i j)) xs ys := by
  have hc := shown_noRgb d h.classic hd hok hf W H hg ms hs xs hx
  obtain ⟨⟨pg, h1, h2⟩, hn⟩ := hx
  obtain ⟨ys, pg', h3, h4, h5⟩ := steps_cross h.same (sisterOf_sim d d') (sisterOf_new h hc) h1
  have hframe : Pairwise2 (fun x y => SameFrame x y ∧ ∀ p q, x.2 = .ok p → y.2 = .ok q → ∀ i j,
      SameOrDefault d (p.raster.px i j) (q.raster.px i j)) xs ys ∧ NoError ys := by
    clear h1 h3
    induction h5 with
    | nil => exact ⟨.nil, fun _ hx => by cases hx⟩
    | @cons x y xs ys hr _ ih =>
      obtain ⟨p, hp⟩ := hn x (List.mem_cons_self ..)
      obtain ⟨k1, k2⟩ := hr
      obtain ⟨i1, i2⟩ := ih fun z hz => hn z (List.mem_cons_of_mem _ hz)
      rw [hp] at k2
      cases hq : y.2 with
      | error e => rw [hq] at k2; exact k2.elim
      | ok q =>
        rw [hq] at k2
        refine ⟨.cons ⟨⟨k1, p, q, hp, hq, k2.1.symm, k2.2.width.symm, k2.2.height.symm⟩, ?_⟩ i1, fun z hz => ?_⟩
        · intro p' q' e1 e2 i j
          rw [hp] at e1; rw [hq] at e2
          cases e1; cases e2
          exact k2.2.pixel i j
        · cases hz with
          | head => exact ⟨q, hq⟩
          | tail _ hz => exact i2 z hz
  refine ⟨ys, ⟨⟨pg', h3, ?_⟩, hframe.2⟩, hframe.1⟩
  unfold Pages.next
  rw [h4.pageState, (next_none h2).1]

/-! ### cases -/

/-- the sign `fullDms` with classic colors -/
def Tests.classicDms : Dms := { fullDms with multiCfg := { fullDms.multiCfg with colorScheme := .colorClassic } }

theorem classicDms_built : classicDms.intoBuilder.build .checked = .ok classicDms := by
  with_unfolding_all rfl

theorem classic_full : ClassicAndFull classicDms fullDms := ⟨by constructor <;> rfl, rfl, rfl, rfl, rfl⟩

-- the hypotheses of C140_shown
example : ∃ xs, ShownAs classicDms yellowMsg xs ∧ ShownAs fullDms yellowMsg xs ∧ xs.length = 2 := by
  obtain ⟨xs, hx, hn, hlen⟩ := summary_noError (d := classicDms) (ms := yellowMsg)
    (l := [(true, 60, 30, 30), (true, 60, 30, 30)]) (by decide +kernel)
  have hv := C22_built_sign_valid .checked _ _ classicDms_built
  have hsz : SizeOk classicDms := ⟨by decide +kernel, by decide +kernel, by decide +kernel⟩
  have hok : SignOk classicDms := ⟨by decide +kernel, by decide +kernel, by decide +kernel, by decide, ⟨by decide, by decide⟩,
    hv.2.2.2.2.1.fonts, hv.2.2.2.2.2.1.graphics⟩
  exact ⟨xs, ⟨hx, hn⟩, C140_shown _ _ classic_full hsz hok hv.2.2.2.2.1 _ _ hv.2.2.2.2.2.1 yellowMsg (sizesOk_short _ _ (by decide))
    (fun _ _ _ g hg => by cases hg) xs ⟨hx, hn⟩, hlen⟩

/-- the sign `graphDms` beside the same sign with classic colors -/
theorem classic_graph : ClassicAndFull classicGraphDms graphDms := ⟨by constructor <;> rfl, rfl, rfl, rfl, rfl⟩

-- the hypotheses of C140_same, with a graphic of eight bits and an error at the end
example : NoRgb c!"[cf1]A[g5,1,1][np][cf10]A" ∧ NoBitmaps classicGraphDms c!"[cf1]A[g5,1,1][np][cf10]A" := by
  have : values c!"[cf1]A[g5,1,1][np][cf10]A" = [.ok (.ok (.colorForeground (some (.legacy 1)))), .ok (.ok (.text c!"A")),
      .ok (.ok (.graphic 5 (some (1, 1, none)))), .ok (.ok .newPage), .ok (.ok (.colorForeground (some (.legacy 10)))),
      .ok (.ok (.text c!"A"))] := by decide +kernel
  constructor
  · intro r g b v hv
    rw [this] at hv
    simp only [List.mem_cons, Res.ok.injEq, Except.ok.injEq, List.not_mem_nil, or_false] at hv
    rcases hv with rfl | rfl | rfl | rfl | rfl | rfl <;> simp
  · intro n pos hv
    rw [this] at hv
    simp only [List.mem_cons, Res.ok.injEq, Except.ok.injEq, reduceCtorEq, Value.graphic.injEq, false_or, List.not_mem_nil,
      or_false] at hv
    obtain ⟨rfl, rfl⟩ := hv
    decide +kernel

-- the hypotheses of C140_all, with a graphic of one bit
example : ∃ ys, ShownAs graphDms c!"[pb4][g4,1,1]" ys ∧ ys.length = 1 := by
  obtain ⟨xs, hx, hn, hlen⟩ := summary_noError (d := classicGraphDms) (ms := c!"[pb4][g4,1,1]") (l := [(true, 60, 30, 30)])
    (by decide +kernel)
  have hf : FontsOk classicGraphDms.fontDefinition := (C20_accepts_iff _).mp (by decide +kernel)
  have hg : GraphicsOk 60 30 classicGraphDms.graphicDefinition := (C21_accepts_iff _ 60 30).mp (by decide +kernel)
  have hsz : SizeOk classicGraphDms := ⟨by decide +kernel, by decide +kernel, by decide +kernel⟩
  have hok : SignOk classicGraphDms := ⟨by decide +kernel, by decide +kernel, by decide +kernel, by decide, ⟨by decide, by decide⟩,
    hf.fonts, hg.graphics⟩
  obtain ⟨ys, h1, h2⟩ := C140_all _ _ classic_graph hsz hok hf _ _ hg c!"[pb4][g4,1,1]" (sizesOk_short _ _ (by decide)) xs ⟨hx, hn⟩
  exact ⟨ys, h1, by rw [← pairwise2_length h2, hlen]; rfl⟩

/-- **C140 (graphics)** Graphics of one bit in default colors are missing on signs with classic colors, but not on signs with 24-bit
colors. -/
theorem C140_graphics :
    pagePixels classicGraphDms c!"[pb4][g4,1,1]" 0 [(0, 0), (1, 0), (59, 0)] = [(0, 255, 255), (0, 255, 255), (0, 255, 255)] ∧
    pagePixels graphDms c!"[pb4][g4,1,1]" 0 [(0, 0), (1, 0), (59, 0)] = [(255, 255, 255), (0, 255, 255), (0, 255, 255)] :=
  ⟨by decide +kernel, by decide +kernel⟩

/-- **C140 (colors)** Signs with classic colors refuse colors by their parts, which the others show. -/
theorem C140_colors : nextError classicDms c!"[cf1,2,3]A" = some (.unsupportedTagValue c!"[cf1,2,3]") ∧
    nextError fullDms c!"[cf1,2,3]A" = none ∧ pixels fullDms c!"[cf1,2,3]A" [(0, 1)] = [(1, 2, 3)] :=
  ⟨by decide +kernel, by decide +kernel, by decide +kernel⟩

end Ntcip
