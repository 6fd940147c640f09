import Verif.Lemmas.Stop
import Verif.Props.Account
/-
Property C93: exactly when rendering panics.
-/
namespace Ntcip
open Spec Tests

/-- the pages of a message are given without error up to one that ends with `z` -/
def Spec.Ends (d : Dms) (ms : Str) (z : Stop) : Prop :=
  ∃ xs pg, Steps d (Pages.new d ms) xs pg ∧ NoError xs ∧ match z with
    | .error e => ∃ pg', Pages.next d pg = .ok (some (.error e), pg')
    | .panic => ∃ p, Pages.next d pg = .panic p

/-- how a call of `next` ended -/
def nextStop? : Res (Option (Except SyntaxError Page) × Pages) → Option Stop
  | .ok (some (.error e), _) => some (.error e)
  | .ok _ => none
  | .panic _ => some .panic

theorem next_stopIn {d : Dms} {pg : Pages} (hon : isOn pg.pageState = true) :
    nextStop? (Pages.next d pg) = stopIn (renderOnPage d pg) := by
  unfold Pages.next
  cases hs : pg.pageState with
  | on b =>
    cases renderOnPage d pg with
    | panic p => rfl
    | ok q => obtain ⟨r, pg'⟩ := q; cases r <;> rfl
  | off b => rw [hs] at hon; cases hon
  | done => rw [hs] at hon; cases hon

theorem next_panic_on {d : Dms} {pg : Pages} {p} (h : Pages.next d pg = .panic p) : isOn pg.pageState = true := by
  unfold Pages.next at h
  cases hs : pg.pageState with
  | on b => rfl
  | off b => rw [hs] at h; cases h
  | done => rw [hs] at h; cases h

theorem nextStop_panic {x} : nextStop? x = some .panic ↔ ∃ p, x = .panic p := by
  cases x with
  | panic p => simp [nextStop?]
  | ok q =>
    obtain ⟨o, pg⟩ := q
    cases o with
    | none => simp [nextStop?]
    | some r => cases r <;> simp [nextStop?]

theorem nextStop_error {x e} : nextStop? x = some (.error e) ↔ ∃ pg, x = .ok (some (.error e), pg) := by
  cases x with
  | panic p => simp [nextStop?]
  | ok q =>
    obtain ⟨o, pg⟩ := q
    cases o with
    | none => simp [nextStop?]
    | some r => cases r <;> simp [nextStop?]

theorem pagesFit_new {d : Dms} {ms : Str} (h : SizesOk d ms) : ∃ M, PagesFit M d (Pages.new d ms) := by
  obtain ⟨hl, M, h99, h2, hf⟩ := h
  have e : (Pages.new d ms).values.flatten.length ≤ ms.length := by
    show (slices ms).flatten.length ≤ ms.length
    rw [slices_flatten]
    exact Nat.le_refl _
  exact ⟨M, h99, hf, Nat.lt_of_le_of_lt (Nat.mul_le_mul_left _ e) h2, Nat.le_trans e hl⟩

theorem steps_fit {M d pg xs pg'} (h : Steps d pg xs pg') (hp : PagesFit M d pg) : PagesFit M d pg' := by
  induction h with
  | nil => exact hp
  | cons hx _ ih => exact ih (hp.suffix (next_suffix hx))

/-- **C93 (pages)** whatever was given before, a page is given with error `e` exactly when that is its first stop, and
its rendering panics exactly when its first stop is a panic. -/
theorem C93_page (d : Dms) (hd : SizeOk d) (hok : SignOk d) (ms : Str) (hs : SizesOk d ms) (xs pg)
    (h : Steps d (Pages.new d ms) xs pg) (hon : isOn pg.pageState = true) :
    ((∃ p, Pages.next d pg = .panic p) ↔ PageStop d (textAttr pg.renderState) pg.values .panic) ∧
    ∀ e, (∃ pg', Pages.next d pg = .ok (some (.error e), pg')) ↔
      PageStop d (textAttr pg.renderState) pg.values (.error e) := by
  obtain ⟨M, hf⟩ := pagesFit_new hs
  have k := page_stop hd hok h (steps_fit h hf)
  rw [← next_stopIn hon] at k
  exact ⟨by rw [k, nextStop_panic], fun e => by rw [k, nextStop_error]⟩

/-- **C93 (any number of calls)** no number of calls of `next` panics, exactly when no page that is reached, also after
errors, has a panic as its first stop. -/
theorem C93_never (d : Dms) (hd : SizeOk d) (hok : SignOk d) (ms : Str) (hs : SizesOk d ms) :
    NeverPanics d ms ↔ ∀ xs pg, Steps d (Pages.new d ms) xs pg → isOn pg.pageState = true →
      ¬ PageStop d (textAttr pg.renderState) pg.values .panic := by
  constructor
  · intro hn xs pg h hon hz
    obtain ⟨p, hp⟩ := (C93_page d hd hok ms hs xs pg h hon).1.2 hz
    exact hn _ _ (steps_run h hp)
  · intro hn
    have key : ∀ n {xs pg}, Steps d (Pages.new d ms) xs pg → ∀ p, Pages.run d n pg ≠ .panic p := by
      intro n
      induction n with
      | zero => intro xs pg _ p hp; rw [Pages.run] at hp; cases hp
      | succ n ih =>
        intro xs pg h p hp
        rw [Pages.run] at hp
        cases hx : Pages.next d pg with
        | panic q =>
          have hon := next_panic_on hx
          exact hn xs pg h hon ((C93_page d hd hok ms hs xs pg h hon).1.1 ⟨q, hx⟩)
        | ok r =>
          obtain ⟨o, pg'⟩ := r
          rw [hx, Res.ok_bind] at hp
          cases o with
          | none => cases hp
          | some x =>
            have := ih (steps_snoc h hx)
            dsimp only at hp
            cases hr : Pages.run d n pg' with
            | panic q => exact this q hr
            | ok r => rw [hr] at hp; cases hp
    exact fun n p => key n .nil p

/-- the course of the remaining pages up to the first error or panic -/
theorem course_stop {d : Dms} (hd : SizeOk d) (hok : SignOk d) {ms : Str} (hsz : SizesOk d ms) (n : Nat) : ∀ {pg xs0},
    pg.values.length < n → Steps d (Pages.new d ms) xs0 pg → isOn pg.pageState = true →
    (∃ ys pg1 z, Steps d pg ys pg1 ∧ NoError ys ∧ nextStop? (Pages.next d pg1) = some z ∧
      ∀ z', FirstStop d (textAttr pg.renderState) pg.values z' ↔ z' = z) ∨
    (∃ ys pg1, Steps d pg ys pg1 ∧ NoError ys ∧ pg1.pageState = .done ∧
      ∀ z', ¬ FirstStop d (textAttr pg.renderState) pg.values z') := by
  induction n with
  | zero => intro pg xs0 hl; omega
  | succ n ih =>
    intro pg xs0 hl h0 hon
    obtain ⟨M, hfit⟩ := pagesFit_new hsz
    have hf := page_stop hd hok h0 (steps_fit h0 hfit)
    rw [← next_stopIn hon] at hf
    cases hz : nextStop? (Pages.next d pg) with
    | some z =>
      rw [hz] at hf
      refine .inl ⟨[], pg, z, .nil, by simp [NoError], hz, fun z' => ⟨fun h => ?_, ?_⟩⟩
      · cases h with
        | here h => have := (hf z').1 h; cases this; rfl
        | later h _ _ => exact absurd ((hf z).2 rfl) (h z)
      · rintro rfl
        exact .here ((hf _).2 rfl)
    | none =>
      rw [hz] at hf
      have hno : ∀ z, ¬ PageStop d (textAttr pg.renderState) pg.values z := fun z he => nomatch (hf z).1 he
      obtain ⟨p, pg1, hx⟩ : ∃ p pg1, Pages.next d pg = .ok (some (.ok p), pg1) := by
        obtain ⟨x, pg1, hx⟩ := next_gives (d := d) hon (fun p hp => by rw [hp] at hz; cases hz)
        cases x with
        | error e => rw [hx] at hz; cases hz
        | ok p => exact ⟨p, pg1, hx⟩
      obtain ⟨vs, rest, b, ys, pg2, ht, hs, hn, e1, e2, e3⟩ := next_page h0 hon hx
      cases b with
      | false =>
        refine .inr ⟨ys, pg2, hs, hn, by simpa using e3, fun e' h => ?_⟩
        cases h with
        | here h => exact hno _ h
        | later _ ht' _ => obtain ⟨_, _, h⟩ := takePage_unique ht ht'; cases h
      | true =>
        have key : ∀ e', FirstStop d (textAttr pg.renderState) pg.values e' ↔
            FirstStop d (textAttr pg2.renderState) pg2.values e' := by
          intro e'
          rw [e1, e2]
          constructor
          · intro h
            cases h with
            | here h => exact absurd h (hno _)
            | later _ ht' h => obtain ⟨rfl, rfl, _⟩ := takePage_unique ht ht'; exact h
          · exact .later hno ht
        have hl2 : pg2.values.length < n := by
          have := (takePage_shorter ht).2 rfl
          rw [e1]; omega
        rcases ih hl2 (steps_append h0 hs) (by simpa using e3) with ⟨zs, g1, z, k1, k2, k3, k4⟩ | ⟨zs, g1, k1, k2, k3, k4⟩
        · refine .inl ⟨ys ++ zs, g1, z, steps_append hs k1, ?_, k3, fun e' => (key e').trans (k4 e')⟩
          intro x hm
          rcases List.mem_append.1 hm with hm | hm
          · exact hn x hm
          · exact k2 x hm
        · refine .inr ⟨ys ++ zs, g1, steps_append hs k1, ?_, k3, fun e' h => k4 e' ((key e').1 h)⟩
          intro x hm
          rcases List.mem_append.1 hm with hm | hm
          · exact hn x hm
          · exact k2 x hm

/-- two courses without errors up to an error, a panic or the end -/
theorem steps_ends {d : Dms} {pg xs ys pg1 pg2} (h : Steps d pg xs pg1) (hx : NoError xs)
    (h' : Steps d pg ys pg2) (hy : NoError ys) (h1 : ∀ p g, Pages.next d pg1 ≠ .ok (some (.ok p), g))
    (h2 : ∀ p g, Pages.next d pg2 ≠ .ok (some (.ok p), g)) : xs = ys ∧ pg1 = pg2 := by
  induction h generalizing ys with
  | nil =>
    cases h' with
    | nil => exact ⟨rfl, rfl⟩
    | cons k _ =>
      obtain ⟨p, e⟩ := hy _ (List.mem_cons_self ..)
      dsimp only at e
      subst e
      exact absurd k (h1 _ _)
  | cons k _ ih =>
    cases h' with
    | nil =>
      obtain ⟨p, e⟩ := hx _ (List.mem_cons_self ..)
      dsimp only at e
      subst e
      exact absurd k (h2 _ _)
    | cons k' h' =>
      rw [k] at k'; cases k'
      obtain ⟨rfl, e⟩ := ih (fun x hm => hx x (List.mem_cons_of_mem _ hm)) h' (fun x hm => hy x (List.mem_cons_of_mem _ hm)) h1
      exact ⟨rfl, e⟩

theorem ends_iff {d : Dms} {ms : Str} {z : Stop} : Ends d ms z ↔
    ∃ xs pg, Steps d (Pages.new d ms) xs pg ∧ NoError xs ∧ nextStop? (Pages.next d pg) = some z := by
  unfold Ends
  cases z with
  | error e => simp only [nextStop_error]
  | panic => simp only [nextStop_panic]

theorem nextStop_not_ok {x : Res (Option (Except SyntaxError Page) × Pages)} {z} (h : nextStop? x = some z) :
    ∀ p g, x ≠ .ok (some (.ok p), g) := by
  rintro p g rfl
  cases h

/-- **C93 (first stop)** the pages of a message are given without error up to an error `e`, or a panic, exactly when
that is the first stop of the first page that has one. -/
theorem C93_ends (d : Dms) (hd : SizeOk d) (hok : SignOk d) (ms : Str) (hs : SizesOk d ms) (z : Stop) :
    Ends d ms z ↔ FirstStop d (signAttr d) (slices ms) z := by
  have hc := course_stop hd hok hs _ (Nat.lt_succ_self _) (.nil (pg := Pages.new d ms)) rfl
  rw [pagesNew_attr] at hc
  rw [ends_iff]
  rcases hc with ⟨ys, g1, z', k1, k2, k3, k4⟩ | ⟨ys, g1, k1, k2, k3, k4⟩
  · rw [show slices ms = (Pages.new d ms).values from rfl, k4]
    constructor
    · rintro ⟨xs, pg, h, hn, hx⟩
      obtain ⟨_, rfl⟩ := steps_ends h hn k1 k2 (nextStop_not_ok hx) (nextStop_not_ok k3)
      rw [hx] at k3
      exact Option.some.inj k3
    · rintro rfl
      exact ⟨ys, g1, k1, k2, k3⟩
  · refine ⟨?_, fun h => absurd h (k4 z)⟩
    rintro ⟨xs, pg, h, hn, hx⟩
    have k : Pages.next d g1 = .ok (none, g1) := by unfold Pages.next; rw [k3]
    obtain ⟨_, rfl⟩ := steps_ends h hn k1 k2 (nextStop_not_ok hx) (by rw [k]; intro p g h; cases h)
    rw [k] at hx; cases hx

/-- **C93** everything that is given for a message, with no condition on its tags: its pages without error, exactly when
no page has a stop, and then those described by its values; otherwise they end with the first stop (`C93_ends`). -/
theorem C93_message (d : Dms) (hd : SizeOk d) (hok : SignOk d) (hf : FontsOk d.fontDefinition) (W H : Nat)
    (hg : GraphicsOk W H d.graphicDefinition) (ms : Str) (hs : SizesOk d ms) (xs : List (Bool × Except SyntaxError Page)) :
    (Spec.Yields d ms xs ∧ NoError xs) ↔ (∀ z, ¬ FirstStop d (signAttr d) (slices ms) z) ∧
      ∃ vs, Parses (slices ms) vs ∧ Pictured d (signAttr d) (signPage d) xs (splitPages vs) := by
  have hc := course_stop hd hok hs _ (Nat.lt_succ_self _) (.nil (pg := Pages.new d ms)) rfl
  rw [pagesNew_attr] at hc
  have h0 := hok.font
  constructor
  · rintro ⟨h, hn⟩
    refine ⟨fun z hz => ?_, C92_pictures d hf h0 W H hg ms xs h hn⟩
    obtain ⟨ys, g1, k1, k2, k3⟩ := ends_iff.1 ((C93_ends d hd hok ms hs z).2 hz)
    obtain ⟨pg', hs, hend⟩ := h
    obtain ⟨_, rfl⟩ := steps_ends hs hn k1 k2 (by rw [hend]; intro p g h; cases h) (nextStop_not_ok k3)
    rw [hend] at k3; cases k3
  · rintro ⟨hno, vs, hv, hpic⟩
    rcases hc with ⟨ys, g1, z, k1, k2, k3, k4⟩ | ⟨ys, g1, k1, k2, k3, k4⟩
    · exact absurd ((k4 z).2 rfl) (hno z)
    · have hy : Spec.Yields d ms ys := ⟨g1, k1, by unfold Pages.next; rw [k3]⟩
      obtain ⟨vs', hv', hpic'⟩ := C92_pictures d hf h0 W H hg ms ys hy k2
      obtain rfl := parses_unique hv hv'
      obtain rfl := C92_unique d W H hg ms vs hv xs ys hpic hpic'
      exact ⟨hy, k2⟩

/-- **C93 (one stop)** a message has at most one first stop. -/
theorem C93_unique (d : Dms) (hd : SizeOk d) (hok : SignOk d) (ms : Str) (hs : SizesOk d ms) (z z' : Stop)
    (h : FirstStop d (signAttr d) (slices ms) z) (h' : FirstStop d (signAttr d) (slices ms) z') : z = z' := by
  obtain ⟨xs, pg, k1, k2, k3⟩ := ends_iff.1 ((C93_ends d hd hok ms hs z).2 h)
  obtain ⟨ys, pg', l1, l2, l3⟩ := ends_iff.1 ((C93_ends d hd hok ms hs z').2 h')
  obtain ⟨_, rfl⟩ := steps_ends k1 k2 l1 l2 (nextStop_not_ok k3) (nextStop_not_ok l3)
  rw [k3] at l3
  exact Option.some.inj l3

/-- **C93 (built signs)** on a sign made by the builder, for every message of at most 128 characters: its pages are
given without error up to an error or a panic, exactly when that is the first stop of the first page that has one. -/
theorem C93_built (p : Profile) (b : DmsBuilder) (d : Dms) (h : b.build p = .ok d)
    (hw : d.vmsCfg.signWidthPixels.toNat < 65535) (hh : d.vmsCfg.signHeightPixels.toNat < 65535)
    (hz : ¬ (d.vmsCfg.signWidthPixels.toNat = 0 ∧ d.vmsCfg.signHeightPixels.toNat = 0))
    (hf : 1 ≤ d.multiCfg.defaultFont.toNat)
    (hjp : d.multiCfg.defaultJustificationPage ≠ .other)
    (hjl : d.multiCfg.defaultJustificationLine ≠ .other ∧ d.multiCfg.defaultJustificationLine ≠ .full)
    (ms : Str) (hl : ms.length ≤ 128) (z : Stop) :
    Ends d ms z ↔ FirstStop d (signAttr d) (slices ms) z := by
  have hv := C22_built_sign_valid p b d h
  exact C93_ends d ⟨hw, hh, hz⟩ ⟨hw, hh, hf, hjp, hjl, hv.2.2.2.2.1.fonts, hv.2.2.2.2.2.1.graphics⟩ ms
    (sizesOk_short d ms hl) z

/-! ### cases -/

/-- how the first call of `next` ends -/
def firstStop (d : Dms) (ms : Str) : Option (Option SyntaxError) :=
  match nextStop? (Pages.next d (Pages.new d ms)) with
  | some (.error e) => some (some e)
  | some .panic => some none
  | none => none

-- the parser, tags that are not implemented, edges of color and text rectangles, text in the middle
example : firstStop fullDms c!"A[flé]" = some none ∧ firstStop allTagsDms c!"A[fl]" = some none ∧
    firstStop fullDms c!"A[cr1,65535,1,1,255,0,0]" = some none ∧ firstStop fullDms c!"A[tr65535,1,1,1]" = some none ∧
    firstStop tallCellDms c!"[tr1,1,100,10][jp3]A" = some none := by decide +kernel

-- an error of the same page may come first: of an item, a background color, another color or a font; not that of a text
example : firstStop fullDms c!"[qq][flé]" = some (some (.unsupportedTag c!"qq")) ∧
    firstStop allTagsDms c!"[fl][pb77]" = some (some (.unsupportedTagValue c!"[pb77]")) ∧
    firstStop allTagsDms c!"[cf77][fl]" = some (some (.unsupportedTagValue c!"[cf77]")) ∧
    firstStop allTagsDms c!"[fl][cf77]" = some none ∧
    firstStop fullDms c!"[jl5]A[tr65535,1,1,1]" = some (some (.unsupportedTagValue c!"[jl5]")) ∧
    firstStop fullDms c!"~[tr65535,1,1,1]" = some none := by decide +kernel

-- and that of a text before it; the text after it is not reached
example : firstStop tallCellDms c!"[tr1,1,100,10][jp3]A" = some none ∧
    firstStop tallCellDms c!"[tr1,1,100,10][jp2]~[jp3]A" = some (some (.characterNotDefined '~')) ∧
    firstStop tallCellDms c!"[tr1,1,100,10][jp3]A[jp4]~" = some none := by decide +kernel

end Ntcip
