import Verif.Lemmas.Synonym
import Verif.Props.Sequel
import Verif.Props.Wording
import Verif.Tests.Render
/-
C108: tags that say the same in other words are shown alike.
-/
namespace Ntcip
open Spec

section Run
variable {d : Dms} {g : Bool}

theorem updatePageState_rect {ss ss' : List Str} (hs : SameItems d g ss ss') {rs rs' : RenderState} (hrs : Like d g rs rs') :
    Res.Rel (fun p q => LikeU d g p q ∧ (p.1 = .ok () → p.2.textRectangle = (RenderState.new d).textRectangle))
      (updatePageState (.new d) rs ss) (updatePageState (.new d) rs' ss') := by
  have h := updatePageState_like hs hrs
  cases h1 : updatePageState (.new d) rs ss <;> cases h2 : updatePageState (.new d) rs' ss' <;> rw [h1, h2] at h <;>
    simp only [Res.Rel] at h
  · rename_i p q
    refine ⟨h, fun e => ?_⟩
    obtain ⟨x, r⟩ := p
    dsimp only at e
    subst e
    obtain ⟨_, _, _, _, _, k, _⟩ := updatePageStateLoop_ok h1
    rw [k]
  · exact h

theorem renderOnPage_like {pg pg' : Pages} (hp : LikeP d g pg pg') :
    Res.Rel (LikeE (fun p q => q = p) d g) (renderOnPage d pg) (renderOnPage d pg') := by
  unfold renderOnPage
  have hc := checkUnsupported_like hp.values
  cases h1 : checkUnsupported d pg.values <;> cases h2 : checkUnsupported d pg'.values <;> rw [h1, h2] at hc <;>
    simp only [Out.RelE] at hc
  · dsimp only
    rw [hp.dflt, hp.dflt']
    refine Res.Rel.bind (updatePageState_rect hp.values hp.cur) fun p q hpq => ?_
    obtain ⟨e, rs⟩ := p
    obtain ⟨e', rs'⟩ := q
    obtain ⟨⟨k1, k2⟩, k3⟩ := hpq
    dsimp only at k1 k2 k3
    cases e <;> cases e' <;> simp only [Except.RelE] at k1
    · exact ⟨k1, rfl, rfl, k2, hp.pageState, hp.values, hp.spans, hp.graphics⟩
    · dsimp only
      rw [buildRaster_like k2]
      have hs : OfSize d (buildRaster rs) := by
        unfold buildRaster
        rw [k3 rfl]
        exact ⟨rfl, rfl⟩
      refine Res.Rel.bind (onPageLoop_like _ _ (pg := ⟨.new d, rs, .on false, pg.values, pg.spans⟩)
        (pg' := ⟨.new d, rs', .on false, pg'.values, pg'.spans⟩)
        ⟨rfl, rfl, k2, rfl, hp.values, hp.spans, hp.graphics⟩ hs) fun p q hpq => ?_
      obtain ⟨e, p⟩ := p
      obtain ⟨e', q⟩ := q
      obtain ⟨k1, k2⟩ := hpq
      cases e <;> cases e' <;> simp only [Except.RelE] at k1
      · exact ⟨k1, k2⟩
      · obtain ⟨rfl, _⟩ := k1
        refine ⟨?_, k2⟩
        show (⟨_, q.renderState.pageOnTimeDs.toNat⟩ : Page) = _
        rw [k2.cur.on]
  · exact ⟨hc, hp⟩
  · exact hc

/-- results of `next` -/
def LikeN (d : Dms) (g : Bool) (p q : Option (Except SyntaxError Page) × Pages) : Prop :=
  Option.Rel (SameResult d g) p.1 q.1 ∧ LikeP d g p.2 q.2

theorem next_like {pg pg' : Pages} (hp : LikeP d g pg pg') :
    Res.Rel (LikeN d g) (Pages.next d pg) (Pages.next d pg') := by
  unfold Pages.next
  rw [hp.pageState]
  split
  · refine Res.Rel.bind (renderOnPage_like hp) fun p q hpq => ?_
    obtain ⟨e, p⟩ := p
    obtain ⟨e', q⟩ := q
    refine ⟨?_, hpq.2⟩
    have := hpq.1
    cases e <;> cases e' <;> exact this
  · dsimp only [renderOffPage]
    refine ⟨?_, hp.dflt, hp.dflt', hp.cur, ?_, hp.values, hp.spans, hp.graphics⟩
    · show (⟨buildRaster pg'.renderState, pg'.renderState.pageOffTimeDs.toNat⟩ : Page) = _
      rw [hp.cur.off, buildRaster_like hp.cur]
    · show pg'.pageState.nextState = _
      rw [hp.pageState]
  · exact ⟨trivial, hp⟩

theorem run_like (k : Nat) {pg pg' : Pages} (hp : LikeP d g pg pg') :
    Res.Rel (fun p q => All2 (SameResult d g) p.1 q.1) (Pages.run d k pg) (Pages.run d k pg') := by
  induction k generalizing pg pg' with
  | zero => exact All2.nil
  | succ k ih =>
    unfold Pages.run
    refine Res.Rel.bind (next_like hp) fun p q hpq => ?_
    obtain ⟨x, p⟩ := p
    obtain ⟨x', q⟩ := q
    obtain ⟨k1, k2⟩ := hpq
    cases x <;> cases x' <;> simp only [Option.Rel] at k1
    · exact All2.nil
    · dsimp only
      refine Res.Rel.bind (ih k2) fun a b hab => ?_
      exact All2.cons k1 hab

theorem ofSign_start : OfSign d (RenderState.new d).colorCtx := by
  show OfSign d d.colorCtx
  rw [colorCtx_eq]
  exact ⟨rfl, rfl, rfl⟩

theorem new_like {ms ms' : Str} (hs : SameItems d g (slices ms) (slices ms')) (hg : NoGraphicIn g (slices ms)) :
    LikeP d g (Pages.new d ms) (Pages.new d ms') :=
  ⟨rfl, rfl, ⟨⟨ofSign_start, ofSign_start, rfl, rfl, fun _ => rfl, fun _ => rfl⟩, fun _ => rfl⟩, rfl, hs, .nil, hg⟩

end Run

/-- **C108** Two messages with the same items, or items that say the same in other words (`Synonym`: colors shown alike, defaults
left out or named, sizes of rectangles left open or given, places and version IDs of graphics and fonts, characters by their
number), give the same results on a sign: the same pages, and errors in the same places, each naming the tag as it was
written; or both panic.  Color tags without a color may be exchanged with the default color on any sign if the message has no
graphics (`g` is false), with graphics on 24-bit signs only. -/
theorem C108_synonyms (d : Dms) (g : Bool) (ms ms' : Str) (hs : All2 (SameItem d g) (slices ms) (slices ms'))
    (hg : g = true ∨ ∀ s ∈ slices ms, ∀ n pos, tryFrom s ≠ .ok (.ok (.graphic n pos))) (k : Nat) :
    Res.Rel (fun p q => All2 (SameResult d g) p.1 q.1)
      (Pages.run d k (Pages.new d ms)) (Pages.run d k (Pages.new d ms')) :=
  run_like k (new_like hs hg)

theorem steps_like {d : Dms} {g : Bool} {pg pg' pe : Pages} (hp : LikeP d g pg pg') {xs} (hx : Steps d pg xs pe)
    (hn : NoError xs) : ∃ pe', Steps d pg' xs pe' ∧ LikeP d g pe pe' := by
  induction hx generalizing pg' with
  | nil => exact ⟨pg', .nil, hp⟩
  | cons h1 _ ih =>
    rename_i pg pg1 pe x xs _
    have h := next_like hp
    rw [h1] at h
    cases h2 : Pages.next d pg' with
    | panic p => rw [h2] at h; exact h.elim
    | ok q =>
      rw [h2] at h
      obtain ⟨y, pg1'⟩ := q
      obtain ⟨k1, k2⟩ := h
      cases y with
      | none => exact k1.elim
      | some y =>
        obtain ⟨p, hxp⟩ := hn (isOn pg.pageState, x) (by simp)
        dsimp only at hxp
        subst hxp
        cases y with
        | error e => exact k1.elim
        | ok q =>
          have : q = p := k1
          subst this
          obtain ⟨pe', h3, h4⟩ := ih k2 (fun z hz => hn z (by simp [hz]))
          refine ⟨pe', ?_, h4⟩
          have := Steps.cons h2 h3
          rwa [hp.pageState] at this

theorem synonyms_shown (d : Dms) (g : Bool) (ms ms' : Str) (hs : All2 (SameItem d g) (slices ms) (slices ms'))
    (hg : g = true ∨ ∀ s ∈ slices ms, ∀ n pos, tryFrom s ≠ .ok (.ok (.graphic n pos))) (xs) (h : ShownAs d ms xs) :
    ShownAs d ms' xs := by
  obtain ⟨⟨pe, h1, h2⟩, hn⟩ := h
  obtain ⟨pe', h3, h4⟩ := steps_like (new_like hs hg) h1 hn
  refine ⟨⟨pe', h3, ?_⟩, hn⟩
  have h := next_like h4
  rw [h2] at h
  cases h5 : Pages.next d pe' with
  | panic p => rw [h5] at h; exact h.elim
  | ok q =>
    rw [h5] at h
    obtain ⟨y, pg1'⟩ := q
    cases y with
    | some y => exact h.1.elim
    | none =>
      unfold Pages.next at h5
      split at h5
      · simp only [Res.bind_eq_ok] at h5
        obtain ⟨_, _, h6⟩ := h5
        simp at h6
      · simp at h5
      · simp only [Res.ok.injEq, Prod.mk.injEq, true_and] at h5
        rw [h5]

theorem SameShown.symm {d : Dms} {g dflt a b} (h : SameShown d g dflt a b) : SameShown d g dflt b a := by
  rcases h with h | ⟨x, h1, h2⟩
  · exact .inl h.symm
  · exact .inr ⟨x, h2, h1⟩

theorem SameVersion.symm {id a b} (h : SameVersion id a b) : SameVersion id b a := by
  rcases h with h | ⟨h1, h2⟩
  · exact .inl h.symm
  · exact .inr ⟨h2, h1⟩

theorem SameRect.symm {d : Dms} {r r'} (h : SameRect d r r') : SameRect d r' r :=
  ⟨h.x.symm, h.y.symm, h.width.symm, h.height.symm⟩

theorem Synonym.symm {d : Dms} {g v w} (h : Synonym d g v w) : Synonym d g w v := by
  cases h with
  | refl => exact .refl _
  | foreground h => exact .foreground (SameShown.symm h)
  | background h => exact .background (SameShown.symm h)
  | page h => exact .page (SameShown.symm h)
  | fill h k => exact .fill (SameRect.symm h) (SameShown.symm k)
  | textRect h => exact .textRect (SameRect.symm h)
  | font h k => exact .font h.symm (by rw [← h]; exact SameVersion.symm k)
  | graphic h k l => exact .graphic h.symm k.symm (SameVersion.symm l)
  | justLine h k l => exact .justLine h k l.symm
  | justPage h k => exact .justPage h k.symm
  | times h k => exact .times h.symm k.symm
  | char h k l => exact .char' h k l
  | char' h k l => exact .char h k l

theorem sameItems_symm {d : Dms} {g ss ss'} (h : All2 (SameItem d g) ss ss') : All2 (SameItem d g) ss' ss := by
  induction h with
  | nil => exact .nil
  | cons h1 _ ih =>
    refine .cons ?_ ih
    rcases h1 with h1 | ⟨v, w, h1, h2, h3⟩
    · exact .inl h1.symm
    · exact .inr ⟨w, v, h2, h1, Synonym.symm h3⟩

theorem sameItems_noGraphic {d : Dms} {g ss ss'} (h : All2 (SameItem d g) ss ss') (hg : NoGraphicIn g ss) :
    NoGraphicIn g ss' := by
  rcases hg with hg | hg
  · exact .inl hg
  · right
    induction h with
    | nil => simp
    | cons h1 _ ih =>
      intro s hs n pos he
      rcases List.mem_cons.1 hs with rfl | hs
      · rcases h1 with h1 | ⟨v, w, h1, h2, h3⟩
        · exact hg _ (by simp) n pos (h1 ▸ he)
        · rw [h2] at he
          cases he
          cases h3 with
          | refl => exact hg _ (by simp) _ _ h1
          | graphic => exact hg _ (by simp) _ _ h1
      · exact ih (fun x hx => hg x (by simp [hx])) s hs n pos he

/-- **C108 (shown)** So one is shown exactly if the other is, as the same pages for the same times. -/
theorem C108_shown (d : Dms) (g : Bool) (ms ms' : Str) (hs : All2 (SameItem d g) (slices ms) (slices ms'))
    (hg : g = true ∨ ∀ s ∈ slices ms, ∀ n pos, tryFrom s ≠ .ok (.ok (.graphic n pos))) (xs) :
    ShownAs d ms xs ↔ ShownAs d ms' xs :=
  ⟨synonyms_shown d g ms ms' hs hg xs, synonyms_shown d g ms' ms (sameItems_symm hs) (sameItems_noGraphic hs hg) xs⟩

/-! ### case -/

section Case
open Tests

/-- a message -/
def wordsA : Str := c!"[cf7][pt]A[nl][jl2][cr1,21,0,0,1][tr1,11,0,0][fo8]BC"

/-- the same in other words -/
def wordsB : Str := c!"[cf][pt30o0]A[nl][jl][cr1,21,60,10,255,0,0][tr1,11,60,20][fo]BC"

theorem words_same : All2 (SameItem fullDms true) (slices wordsA) (slices wordsB) := by
  have e1 : slices wordsA = [c!"[cf7]", c!"[pt]", c!"A", c!"[nl]", c!"[jl2]", c!"[cr1,21,0,0,1]", c!"[tr1,11,0,0]",
    c!"[fo8]", c!"BC"] := by decide +kernel
  have e2 : slices wordsB = [c!"[cf]", c!"[pt30o0]", c!"A", c!"[nl]", c!"[jl]", c!"[cr1,21,60,10,255,0,0]",
    c!"[tr1,11,60,20]", c!"[fo]", c!"BC"] := by decide +kernel
  have rect : SameRect fullDms ⟨1, 21, 0, 0⟩ ⟨1, 21, 60, 10⟩ := ⟨rfl, rfl, by decide, by decide⟩
  rw [e1, e2]
  refine .cons (.inr ⟨.colorForeground (some (.legacy 7)), .colorForeground none, by decide +kernel, by decide +kernel,
    .foreground (.inr ⟨(255, 255, 255), by decide +kernel, by decide +kernel⟩)⟩) ?_
  refine .cons (.inr ⟨.pageTime none none, .pageTime (some 30) (some 0), by decide +kernel, by decide +kernel,
    .times (by decide) (by decide)⟩) ?_
  refine .cons (.inl rfl) (.cons (.inl rfl) ?_)
  refine .cons (.inr ⟨.justificationLine (some .left), .justificationLine none, by decide +kernel, by decide +kernel,
    .justLine (by decide) (by decide) (by decide)⟩) ?_
  refine .cons (.inr ⟨.colorRectangle ⟨1, 21, 0, 0⟩ (.legacy 1), .colorRectangle ⟨1, 21, 60, 10⟩ (.rgb 255 0 0),
    by decide +kernel, by decide +kernel, .fill rect (.inr ⟨(255, 0, 0), by decide +kernel, by decide +kernel⟩)⟩) ?_
  refine .cons (.inr ⟨.textRectangle ⟨1, 11, 0, 0⟩, .textRectangle ⟨1, 11, 60, 20⟩, by decide +kernel, by decide +kernel,
    .textRect ⟨rfl, rfl, by decide, by decide⟩⟩) ?_
  refine .cons (.inr ⟨.font (some (8, none)), .font none, by decide +kernel, by decide +kernel,
    .font (by decide) (.inl (by decide))⟩) (.cons (.inl rfl) .nil)

/-- it is shown as one page, in the other words too -/
example : ∃ xs, ShownAs fullDms wordsA xs ∧ ShownAs fullDms wordsB xs ∧ xs.length = 1 := by
  have h : summary fullDms wordsA = some ([(true, 60, 30, 30)].map fun x => (x.1, some x.2)) := by decide +kernel
  obtain ⟨xs, h1, h2, h3⟩ := summary_noError h
  exact ⟨xs, ⟨h1, h2⟩, (C108_shown fullDms true wordsA wordsB words_same (.inl rfl) xs).1 ⟨h1, h2⟩, h3⟩

/-- with text in white (the default) and a red rectangle -/
example : pixels fullDms wordsA [(0, 25), (59, 29), (0, 20)] = pixels fullDms wordsB [(0, 25), (59, 29), (0, 20)] ∧
    pixels fullDms wordsA [(0, 25), (59, 29)] = [(255, 0, 0), (255, 0, 0)] := by decide +kernel

/-- a monochrome sign with a graphic -/
def dotDms : Dms := { charDms with
  graphicDefinition := [⟨1, c!"dot", 1, 1, .monochrome1Bit, none, [0x80]⟩]
  multiCfg := { charDms.multiCfg with supportedMultiTags := fun _ => true } }

/-- **C108 (graphics)** the restriction for graphics is needed: on a monochrome sign `[cf]` and the number of the default
color are shown alike for text, but a 1-bit graphic is drawn after `[cf1]` only (see C38) -/
theorem C108_graphics : SameShown dotDms false (signForeground dotDms) none (some (.legacy 1)) ∧
    pixels dotDms c!"[cf][g1]" [(0, 0)] = [signBackground dotDms] ∧
    pixels dotDms c!"[cf1][g1]" [(0, 0)] = [signForeground dotDms] ∧ signForeground dotDms ≠ signBackground dotDms :=
  ⟨.inr ⟨signForeground dotDms, by decide +kernel, by decide +kernel⟩, by decide +kernel, by decide +kernel, by decide +kernel⟩

end Case
end Ntcip
