import Verif.Spec.Alone
import Verif.Lemmas.Quiet
import Verif.Props.Wording
/-
C99: a page of a message can be shown alone.
-/
namespace Ntcip
open Spec Tests

/-! ### state tags before the values of a page -/

theorem state_pieces {dflt : TextAttr} {T : List Value} (hT : ∀ v ∈ T, isState v = true) (ws : List Value) :
    ∀ a sp, pieces dflt a sp 0 true (T ++ ws) = pieces dflt (T.foldl (TextAttr.apply dflt) a) sp 0 true ws := by
  induction T with
  | nil => intro a sp; rfl
  | cons v T ih =>
    intro a sp
    have hv := hT v (List.mem_cons_self ..)
    have ih := ih fun w hw => hT w (List.mem_cons_of_mem _ hw)
    rw [List.cons_append, List.foldl_cons, ← ih]
    cases v <;> simp [isState] at hv <;> simp [pieces, piece, spacingAfter, blankAfter, lineAfter]

theorem state_numbers {dflt : TextAttr} {T : List Value} (hT : ∀ v ∈ T, isState v = true) (ws : List Value) :
    ∀ a, numbers dflt a 0 true (T ++ ws) = numbers dflt (T.foldl (TextAttr.apply dflt) a) 0 true ws := by
  induction T with
  | nil => intro a; rfl
  | cons v T ih =>
    intro a
    have hv := hT v (List.mem_cons_self ..)
    have ih := ih fun w hw => hT w (List.mem_cons_of_mem _ hw)
    rw [List.cons_append, List.foldl_cons, ← ih]
    cases v <;> simp [isState] at hv <;> simp [numbers, piece, numberAfter, blankAfter]

theorem state_tidy {dflt : TextAttr} {T : List Value} (hT : ∀ v ∈ T, isState v = true) (ws : List Value) :
    ∀ a, Tidy dflt a true true (T ++ ws) → Tidy dflt (T.foldl (TextAttr.apply dflt) a) true true ws := by
  induction T with
  | nil => intro a h; exact h
  | cons v T ih =>
    intro a h
    have hv := hT v (List.mem_cons_self ..)
    refine ih (fun w hw => hT w (List.mem_cons_of_mem _ hw)) _ ?_
    cases v <;> simp [isState] at hv <;> simpa [freshAfter, blankAfter] using h.2

theorem state_spacing {T : List Value} (hT : ∀ v ∈ T, isState v = true) : ∀ sp, T.foldl spacingAfter sp = sp := by
  induction T with
  | nil => intro sp; rfl
  | cons v T ih =>
    intro sp
    have hv := hT v (List.mem_cons_self ..)
    rw [List.foldl_cons, ih fun w hw => hT w (List.mem_cons_of_mem _ hw)]
    cases v <;> simp [isState] at hv <;> rfl

theorem state_sections {T : List Value} (hT : ∀ v ∈ T, isState v = true) (ws : List Value) :
    sections (T ++ ws) = (T ++ (sections ws).1, (sections ws).2) := by
  induction T with
  | nil => rfl
  | cons v T ih =>
    have hv := hT v (List.mem_cons_self ..)
    have ih := ih fun w hw => hT w (List.mem_cons_of_mem _ hw)
    rw [List.cons_append, List.cons_append]
    cases v <;> simp [isState] at hv <;> simp [sections, ih]

theorem state_text {d : Dms} {T : List Value} (hT : ∀ v ∈ T, isState v = true) {t sp rect ws a b}
    (h : TextDrawn d (T.foldl (TextAttr.apply (signAttr d)) t) sp rect ws a b) :
    TextDrawn d t sp rect (T ++ ws) a b := by
  obtain ⟨ps, h1, ⟨h2, h3⟩, h4, h5, h6, h7, h8⟩ := h
  refine ⟨ps, ?_, ⟨?_, h3⟩, h4, h5, h6, fun ht => h7 (state_tidy hT ws _ ht), h8⟩
  · rw [state_pieces hT]; exact h1
  · rw [state_numbers hT]; exact h2

/-- without graphics, the colors in effect do not matter -/
theorem layered_noGraphic {d : Dms} {W H p vs i j o} (h : Layered d W H p vs i j o)
    (hg : ∀ n pos, Value.graphic n pos ∉ vs) : ∀ q, Layered d W H q vs i j o := by
  induction h with
  | nil => intro q; exact .nil
  | cons hl _ ih =>
    intro q
    refine .cons ?_ (ih (fun n pos hm => hg n pos (List.mem_cons_of_mem _ hm)) _)
    cases hl with
    | rect h => exact .rect h
    | offRect h => exact .offRect h
    | graphic _ _ _ => exact absurd (List.mem_cons_self ..) (hg _ _)
    | offGraphic _ _ => exact absurd (List.mem_cons_self ..) (hg _ _)
    | other h1 h2 => exact .other h1 h2

theorem state_layered {d : Dms} {W H : Nat} {T : List Value} (hT : ∀ v ∈ T, isState v = true) {ws i j o} :
    ∀ {t : TextAttr} {bg}, ((∀ c, Value.colorBackground c ∉ T) ∨ ∀ n pos, Value.graphic n pos ∉ ws) →
    Layered d W H ⟨(T.foldl (TextAttr.apply (signAttr d)) t).foreground, bg⟩ ws i j o →
    Layered d W H ⟨t.foreground, bg⟩ (T ++ ws) i j o := by
  induction T with
  | nil => intro t bg _ h; exact h
  | cons v T ih =>
    intro t bg hc h
    have hv := hT v (List.mem_cons_self ..)
    have hs : Layer d W H ⟨t.foreground, bg⟩ v i j none := by
      cases v <;> simp [isState] at hv <;> exact .other (by simp) (by simp)
    have hcol : ∃ bg', Colors.apply d ⟨t.foreground, bg⟩ v = ⟨(TextAttr.apply (signAttr d) t v).foreground, bg'⟩ ∧
        ((∀ c, v ≠ .colorBackground c) → bg' = bg) := by
      cases v <;> simp [isState] at hv <;> try exact ⟨_, rfl, fun _ => rfl⟩
      · exact ⟨_, rfl, fun h => absurd rfl (h _)⟩
      · rename_i x
        rcases x with _ | ⟨_, _⟩ <;> exact ⟨_, rfl, fun _ => rfl⟩
    obtain ⟨bg', e1, e2⟩ := hcol
    have key : Layered d W H (Colors.apply d ⟨t.foreground, bg⟩ v) (T ++ ws) i j o := by
      rw [e1]
      refine ih (fun w hw => hT w (List.mem_cons_of_mem _ hw))
        (hc.imp (fun h c hm => h c (List.mem_cons_of_mem _ hm)) id) ?_
      rw [List.foldl_cons] at h
      rcases hc with hc | hc
      · rw [e2 fun c e => hc c (by rw [e]; exact List.mem_cons_self ..)]
        exact h
      · exact layered_noGraphic h hc _
    have := Layered.cons hs key
    rwa [Option.or_none] at this

theorem state_graphics {d : Dms} {T : List Value} (hT : ∀ v ∈ T, isState v = true) {ws a b} {t : TextAttr} {bg}
    (hc : (∀ c, Value.colorBackground c ∉ T) ∨ ∀ n pos, Value.graphic n pos ∉ ws)
    (h : GraphicsOn d ⟨(T.foldl (TextAttr.apply (signAttr d)) t).foreground, bg⟩ ws a b) :
    GraphicsOn d ⟨t.foreground, bg⟩ (T ++ ws) a b := by
  refine ⟨h.width, h.height, fun i j => ?_⟩
  obtain ⟨o, h1, h2⟩ := h.px i j
  exact ⟨o, state_layered hT hc h1, h2⟩

theorem state_composed {d : Dms} {T : List Value} (hT : ∀ v ∈ T, isState v = true) {ws more a b sp rect}
    {t : TextAttr} {bg} (hc : (∀ c, Value.colorBackground c ∉ T) ∨ ∀ n pos, Value.graphic n pos ∉ ws)
    (h : Composed d bg (T.foldl (TextAttr.apply (signAttr d)) t) sp rect ws more a b) :
    Composed d bg t sp rect (T ++ ws) more a b := by
  cases h with
  | last h1 h2 => exact .last (state_graphics hT hc h1) (state_text hT h2)
  | next h1 h2 h3 =>
    refine .next (state_graphics hT hc h1) (state_text hT h2) ?_
    rw [List.foldl_append, List.foldl_append, state_spacing hT]
    exact h3

/-! ### the checks -/

/-- no check of the value itself gives an error or a panic -/
def QuietValue (d : Dms) (v : Value) : Prop :=
  (∀ z, ¬ errors (BackgroundFault d v) z) ∧ (∀ z, ¬ paintStop d v z) ∧ ∀ z, ¬ errors (LayoutFault d v) z

theorem state_rectStops {d : Dms} {T : List Value} (hT : ∀ v ∈ T, isState v = true) (hq : ∀ v ∈ T, QuietValue d v)
    {t sp rect ws next}
    (h : Silent (rectStops d (T.foldl (TextAttr.apply (signAttr d)) t) sp rect ws next)) :
    Silent (rectStops d t sp rect (T ++ ws) next) := by
  unfold rectStops at h ⊢
  simp only [silent_append, silent_map, List.mem_append] at h ⊢
  obtain ⟨h1, h2, h3, h4⟩ := h
  refine ⟨?_, ?_, h3, ?_⟩
  · rintro v (hv | hv)
    · exact (hq v hv).2.1
    · exact h1 v hv
  · rintro v (hv | hv)
    · exact (hq v hv).2.2
    · exact h2 v hv
  · unfold layoutOf at h4 ⊢
    rw [state_pieces hT]
    exact h4

theorem state_rectsStops {d : Dms} {T : List Value} (hT : ∀ v ∈ T, isState v = true) (hq : ∀ v ∈ T, QuietValue d v)
    {n t sp rect ws more}
    (h : Silent (rectsStops d n (T.foldl (TextAttr.apply (signAttr d)) t) sp rect ws more)) :
    Silent (rectsStops d n t sp rect (T ++ ws) more) := by
  cases more with
  | nil =>
    unfold rectsStops at h ⊢
    rw [silent_append] at h ⊢
    exact ⟨state_rectStops hT hq h.1, h.2⟩
  | cons x more =>
    obtain ⟨r, us⟩ := x
    unfold rectsStops at h ⊢
    rw [silent_append, silent_cons] at h ⊢
    refine ⟨state_rectStops hT hq h.1, h.2.1, ?_⟩
    rw [List.foldl_append, List.foldl_append, state_spacing hT]
    exact h.2.2

theorem state_pageStops {d : Dms} {T : List Value} (hT : ∀ v ∈ T, isState v = true) (hq : ∀ v ∈ T, QuietValue d v)
    {t B} (h : Silent (pageStops d (T.foldl (TextAttr.apply (signAttr d)) t) B)) : Silent (pageStops d t (T ++ B)) := by
  unfold pageStops at h ⊢
  rw [silent_append, silent_map] at h ⊢
  rw [state_sections hT]
  refine ⟨fun v hv => ?_, state_rectsStops hT hq h.2⟩
  rcases List.mem_append.1 hv with hv | hv
  · exact (hq v hv).1
  · exact h.1 v hv

theorem sections_has {vs : List Value} {v : Value} (hv : v ∈ vs) (hne : ∀ r, v ≠ .textRectangle r) :
    v ∈ (sections vs).1 ∨ ∃ x ∈ (sections vs).2, v ∈ x.2 := by
  induction vs with
  | nil => simp at hv
  | cons w vs ih =>
    by_cases hw : ∃ r, w = .textRectangle r
    · obtain ⟨r, rfl⟩ := hw
      rw [show sections (.textRectangle r :: vs) = ([], (r, (sections vs).1) :: (sections vs).2) from rfl]
      rcases List.mem_cons.1 hv with rfl | hv
      · exact absurd rfl (hne r)
      · rcases ih hv with h | ⟨x, h1, h2⟩
        · exact .inr ⟨_, List.mem_cons_self .., h⟩
        · exact .inr ⟨x, List.mem_cons_of_mem _ h1, h2⟩
    · have e : sections (w :: vs) = (w :: (sections vs).1, (sections vs).2) := by
        cases w <;> first | rfl | exact absurd ⟨_, rfl⟩ hw
      rw [e]
      rcases List.mem_cons.1 hv with rfl | hv
      · exact .inl (List.mem_cons_self ..)
      · exact (ih hv).imp (List.mem_cons_of_mem _) id

theorem rectsStops_value {d : Dms} : ∀ {more n t sp rect ws}, Silent (rectsStops d n t sp rect ws more) →
    ∀ v, (v ∈ ws ∨ ∃ x ∈ more, v ∈ x.2) → (∀ z, ¬ paintStop d v z) ∧ ∀ z, ¬ errors (LayoutFault d v) z := by
  have one : ∀ {t sp rect ws next}, Silent (rectStops d t sp rect ws next) → ∀ v ∈ ws,
      (∀ z, ¬ paintStop d v z) ∧ ∀ z, ¬ errors (LayoutFault d v) z := by
    intro t sp rect ws next h v hv
    unfold rectStops at h
    simp only [silent_append, silent_map] at h
    exact ⟨h.1 v hv, h.2.1 v hv⟩
  intro more
  induction more with
  | nil =>
    intro n t sp rect ws h v hv
    unfold rectsStops at h
    rw [silent_append] at h
    rcases hv with hv | ⟨x, hx, _⟩
    · exact one h.1 v hv
    · simp at hx
  | cons x more ih =>
    intro n t sp rect ws h v hv
    obtain ⟨r, us⟩ := x
    unfold rectsStops at h
    rw [silent_append, silent_cons] at h
    rcases hv with hv | ⟨y, hy, hv⟩
    · exact one h.1 v hv
    · refine ih h.2.2 v ?_
      rcases List.mem_cons.1 hy with rfl | hy
      · exact .inl hv
      · exact .inr ⟨y, hy, hv⟩

theorem pageStops_value {d : Dms} {t vs} (h : Silent (pageStops d t vs)) {v} (hv : v ∈ vs)
    (hne : ∀ r, v ≠ .textRectangle r) : QuietValue d v := by
  unfold pageStops at h
  rw [silent_append, silent_map] at h
  exact ⟨h.1 v hv, rectsStops_value h.2 v (sections_has hv hne)⟩

theorem pagesQuiet_value {d : Dms} : ∀ {ps t}, PagesQuiet d t ps → ∀ v, v ∈ ps.flatten → (∀ r, v ≠ .textRectangle r) →
    QuietValue d v := by
  intro ps
  induction ps with
  | nil => intro t _ v hv; simp at hv
  | cons p ps ih =>
    intro t h v hv hne
    rw [List.flatten_cons] at hv
    rcases List.mem_append.1 hv with hv | hv
    · exact pageStops_value h.1 hv hne
    · exact ih h.2 v hv hne

theorem pagesQuiet_get {d : Dms} : ∀ {ps t} {k : Nat} {B}, PagesQuiet d t ps → ps[k]? = some B →
    Silent (pageStops d ((ps.take k).flatten.foldl (TextAttr.apply (signAttr d)) t) B) := by
  intro ps
  induction ps with
  | nil => intro t k B _ h; simp at h
  | cons p ps ih =>
    intro t k B h hk
    cases k with
    | zero =>
      simp only [List.getElem?_cons_zero, Option.some.injEq] at hk
      subst hk
      exact h.1
    | succ k =>
      rw [List.getElem?_cons_succ] at hk
      rw [List.take_succ_cons, List.flatten_cons, List.foldl_append]
      exact ih h.2 hk

/-! ### the share of a page -/

theorem pictured_share {d : Dms} : ∀ {ps t p xs} {k : Nat} {B}, Pictured d t p xs ps → ps[k]? = some B →
    ∃ ys, ShareOf xs k ys ∧ Pictured d ((ps.take k).flatten.foldl (TextAttr.apply (signAttr d)) t)
      (pageTimes (signPage d).1 p.1 (ps.take k).flatten, background (signPage d).2 p.2 (ps.take k).flatten) ys [B] := by
  intro ps
  induction ps with
  | nil => intro t p xs k B _ h; simp at h
  | cons q ps ih =>
    intro t p xs k B h hk
    unfold Pictured at h
    obtain ⟨raster, more, h1, rfl, h3⟩ := h
    have hoff : ∀ y ∈ (if (pageTimes (signPage d).1 p.1 q).2.toNat > 0 then
        [(false, (Except.ok ⟨plain d (lastRect d (signRect d) (sections q).2).width.toNat
          (lastRect d (signRect d) (sections q).2).height.toNat (background (signPage d).2 p.2 q),
          (pageTimes (signPage d).1 p.1 q).2.toNat⟩ : Except SyntaxError Page))] else []), y.1 = false := by
      intro y hy
      split at hy <;> simp at hy
      rw [hy]
    cases k with
    | zero =>
      simp only [List.getElem?_cons_zero, Option.some.injEq] at hk
      subst hk
      refine ⟨_, ⟨[], more, ?_, rfl, ⟨.ok ⟨raster, (pageTimes (signPage d).1 p.1 q).1.toNat⟩, _, rfl, hoff⟩, ?_⟩, ?_⟩
      · rfl
      · intro y hy
        cases ps with
        | nil =>
          unfold Pictured at h3
          subst h3
          simp at hy
        | cons p' ps =>
          unfold Pictured at h3
          obtain ⟨_, _, _, rfl, _⟩ := h3
          simp at hy
          rw [← hy]
      · unfold Pictured
        refine ⟨raster, [], h1, ?_, ?_⟩
        · rw [List.append_nil]; rfl
        · unfold Pictured; rfl
    | succ k =>
      rw [List.getElem?_cons_succ] at hk
      obtain ⟨ys, ⟨pre, post, e, hl, k3, k4⟩, k5⟩ := ih h3 hk
      refine ⟨ys, ⟨(true, .ok ⟨raster, (pageTimes (signPage d).1 p.1 q).1.toNat⟩) ::
        ((if (pageTimes (signPage d).1 p.1 q).2.toNat > 0 then
          [(false, .ok ⟨plain d (lastRect d (signRect d) (sections q).2).width.toNat
            (lastRect d (signRect d) (sections q).2).height.toNat (background (signPage d).2 p.2 q),
            (pageTimes (signPage d).1 p.1 q).2.toNat⟩)] else []) ++ pre), post, ?_, ?_, k3, k4⟩, ?_⟩
      · rw [e]; simp only [List.cons_append, List.append_assoc]
      · rw [List.filter_cons_of_pos rfl, List.length_cons, List.filter_append,
          List.filter_eq_nil_iff.2 fun y hy => by rw [hoff y hy]; decide]
        rw [List.nil_append, hl]
      · rw [List.take_succ_cons, List.flatten_cons]
        unfold pageTimes background at k5 ⊢
        rw [List.foldl_append, List.foldl_append, List.foldl_append]
        exact k5

/-! ### the property -/

theorem splitPages_flatten_mem {vs : List Value} {v} (hv : v ∈ vs) (hne : v ≠ .newPage) :
    v ∈ (splitPages vs).flatten := by
  induction vs with
  | nil => simp at hv
  | cons w vs ih =>
    by_cases hw : w = .newPage
    · subst hw
      rcases List.mem_cons.1 hv with rfl | hv
      · exact absurd rfl hne
      · simp only [splitPages, if_true, List.flatten_cons, List.nil_append]
        exact ih hv
    · obtain ⟨p, ps, e1, e2⟩ := splitPages_cons (vs := vs) hw
      rw [e2, List.flatten_cons, List.cons_append]
      rcases List.mem_cons.1 hv with rfl | hv
      · exact List.mem_cons_self ..
      · have := ih hv
        rw [e1, List.flatten_cons] at this
        exact List.mem_cons_of_mem _ this

theorem splitPages_one {vs : List Value} (h : ∀ v ∈ vs, v ≠ .newPage) : splitPages vs = [vs] := by
  induction vs with
  | nil => rfl
  | cons v vs ih =>
    simp only [splitPages]
    rw [if_neg (h v (List.mem_cons_self ..)), ih fun w hw => h w (List.mem_cons_of_mem _ hw)]

theorem splitPages_no_newPage {vs : List Value} : ∀ p ∈ splitPages vs, ∀ v ∈ p, v ≠ .newPage := by
  induction vs with
  | nil => intro p hp v hv; simp [splitPages] at hp; subst hp; simp at hv
  | cons w vs ih =>
    intro p hp v hv
    by_cases hw : w = .newPage
    · subst hw
      simp only [splitPages, if_true, List.mem_cons] at hp
      rcases hp with rfl | hp
      · simp at hv
      · exact ih p hp v hv
    · obtain ⟨q, qs, e1, e2⟩ := splitPages_cons (vs := vs) hw
      rw [e2] at hp
      rw [e1] at ih
      rcases List.mem_cons.1 hp with rfl | hp
      · rcases List.mem_cons.1 hv with rfl | hv
        · exact hw
        · exact ih q (List.mem_cons_self ..) v hv
      · exact ih p (List.mem_cons_of_mem _ hp) v hv

/-- **C99** let `B` be the values of page number `k` (counted from 0) of a message that is shown, and `T` some of the tags
of the message with the effect of everything on the pages before.  Then the message of `T` and `B` is shown: it gives
exactly the ON page of page `k` and the OFF page after it, if any.  (`[cb]` tags can not be used before a graphic, see
the cases below.) -/
theorem C99_alone (d : Dms) (hd : SizeOk d) (hok : SignOk d) (hf : FontsOk d.fontDefinition) (W H : Nat)
    (hg : GraphicsOk W H d.graphicDefinition) (ms ms' : Str) (hs : SizesOk d ms) (hs' : SizesOk d ms')
    (vs T B : List Value) (k : Nat) (hv : Parses (slices ms) vs) (hk : (splitPages vs)[k]? = some B)
    (hv' : Parses (slices ms') (T ++ B)) (hT : ∀ v ∈ T, isState v = true ∧ v ∈ vs)
    (hst : SameState d T ((splitPages vs).take k).flatten)
    (hc : (∀ c, Value.colorBackground c ∉ T) ∨ ∀ n pos, Value.graphic n pos ∉ B)
    (xs) (hx : Spec.Yields d ms xs) (hn : NoError xs) :
    ∃ ys, Spec.Yields d ms' ys ∧ NoError ys ∧ ShareOf xs k ys := by
  obtain ⟨⟨h1, h2⟩, h3⟩ := (shown_iff d hd hok hf W H hg ms hs hv xs).1 ⟨hx, hn⟩
  have hB := List.mem_of_getElem? hk
  have hTs : ∀ v ∈ T, isState v = true := fun v h => (hT v h).1
  have hTn : ∀ v ∈ T, v ≠ .newPage := by
    rintro v h rfl
    have := hTs _ h
    cases this
  have hTr : ∀ v ∈ T, ∀ r, v ≠ .textRectangle r := by
    rintro v h r rfl
    have := hTs _ h
    cases this
  have hone : splitPages (T ++ B) = [T ++ B] := by
    refine splitPages_one fun v h => ?_
    rcases List.mem_append.1 h with h | h
    · exact hTn v h
    · exact splitPages_no_newPage B hB v h
  obtain ⟨s1, s2, s3⟩ := hst
  have hqv : ∀ v ∈ T, QuietValue d v := fun v h =>
    pagesQuiet_value h2 v (splitPages_flatten_mem (hT v h).2 (hTn v h)) (hTr v h)
  obtain ⟨ys, hsh, hp⟩ := pictured_share h3 hk
  have hq := pagesQuiet_get h2 hk
  rw [← s1] at hq hp
  rw [← s2, ← s3] at hp
  refine ⟨ys, ?_⟩
  have key : Spec.Yields d ms' ys ∧ NoError ys := by
    refine (shown_iff d hd hok hf W H hg ms' hs' hv' ys).2 ⟨⟨?_, ?_⟩, ?_⟩
    · intro v h
      rcases List.mem_append.1 h with h | h
      · exact h1 v (hT v h).2
      · exact h1 v (splitPages_mem B hB v h)
    · rw [hone]
      exact ⟨state_pageStops hTs hqv hq, trivial⟩
    · rw [hone]
      unfold Pictured at hp ⊢
      obtain ⟨raster, more, k1, k2, k3⟩ := hp
      have et : pageTimes (signPage d).1 (signPage d).1 (T ++ B) =
          pageTimes (signPage d).1 (pageTimes (signPage d).1 (signPage d).1 T) B := by
        unfold pageTimes; rw [List.foldl_append]
      have eb : background (signPage d).2 (signPage d).2 (T ++ B) =
          background (signPage d).2 (background (signPage d).2 (signPage d).2 T) B := by
        unfold background; rw [List.foldl_append]
      simp only [et, eb, state_sections hTs]
      refine ⟨raster, more, ?_, k2, ?_⟩
      · refine state_composed hTs (hc.imp id fun h n pos hm => h n pos ?_) k1
        exact sections_mem _ hm
      · unfold Pictured at k3 ⊢
        exact k3
  exact ⟨key.1, key.2, hsh⟩

/-- the state tags have the effect of all values -/
theorem sameState_filter (d : Dms) (vs : List Value) : SameState d (vs.filter isState) vs := by
  have key : ∀ vs : List Value, ∀ t p c,
      (vs.filter isState).foldl (TextAttr.apply (signAttr d)) t = vs.foldl (TextAttr.apply (signAttr d)) t ∧
      pageTimes (signPage d).1 p (vs.filter isState) = pageTimes (signPage d).1 p vs ∧
      background (signPage d).2 c (vs.filter isState) = background (signPage d).2 c vs := by
    unfold pageTimes background
    intro vs
    induction vs with
    | nil => intro t p c; exact ⟨rfl, rfl, rfl⟩
    | cons v vs ih =>
      intro t p c
      by_cases hv : isState v = true
      · rw [List.filter_cons_of_pos hv]
        simp only [List.foldl_cons]
        exact ih _ _ _
      · rw [List.filter_cons_of_neg hv]
        simp only [List.foldl_cons]
        cases v <;> first | exact absurd rfl hv | exact ih _ _ _
  exact key vs _ _ _

/-- **C99 (on a built sign)** on a sign made by the builder, let a message of at most 128 characters be shown.  Then a
message of at most 128 characters made of the state tags (`[fo]`, `[jl]`, `[jp]`, `[sc]`, `[/sc]`, `[cf]`, `[cb]`, `[pb]`,
`[pt]`) of the pages before page `k`, in order, and the values of page `k` gives exactly the ON page and the OFF page of
page `k`, if page `k` has no graphic or there is no `[cb]` tag before. -/
theorem C99_page (p : Profile) (b : DmsBuilder) (d : Dms) (h : b.build p = .ok d)
    (hw : d.vmsCfg.signWidthPixels.toNat < 65535) (hh : d.vmsCfg.signHeightPixels.toNat < 65535)
    (hz : ¬ (d.vmsCfg.signWidthPixels.toNat = 0 ∧ d.vmsCfg.signHeightPixels.toNat = 0))
    (hf : 1 ≤ d.multiCfg.defaultFont.toNat)
    (hjp : d.multiCfg.defaultJustificationPage ≠ .other)
    (hjl : d.multiCfg.defaultJustificationLine ≠ .other ∧ d.multiCfg.defaultJustificationLine ≠ .full)
    (ms ms' : Str) (hl : ms.length ≤ 128) (hl' : ms'.length ≤ 128)
    (vs B : List Value) (k : Nat) (hv : Parses (slices ms) vs) (hk : (splitPages vs)[k]? = some B)
    (hv' : Parses (slices ms') (((splitPages vs).take k).flatten.filter isState ++ B))
    (hc : (∀ c, Value.colorBackground c ∉ ((splitPages vs).take k).flatten) ∨ ∀ n pos, Value.graphic n pos ∉ B)
    (xs) (hx : Spec.Yields d ms xs) (hn : NoError xs) :
    ∃ ys, Spec.Yields d ms' ys ∧ NoError ys ∧ ShareOf xs k ys := by
  have hv1 := C22_built_sign_valid p b d h
  refine C99_alone d ⟨hw, hh, hz⟩ ⟨hw, hh, hf, hjp, hjl, hv1.2.2.2.2.1.fonts, hv1.2.2.2.2.2.1.graphics⟩ hv1.2.2.2.2.1 _ _
    hv1.2.2.2.2.2.1 ms ms' (sizesOk_short d ms hl) (sizesOk_short d ms' hl') vs _ B k hv hk hv' ?_ (sameState_filter d _)
    (hc.imp (fun h c hm => h c (List.mem_filter.1 hm).1) id) xs hx hn
  intro v hm
  obtain ⟨h1, h2⟩ := List.mem_filter.1 hm
  refine ⟨h2, ?_⟩
  obtain ⟨q, hq, hvq⟩ := List.mem_flatten.1 h1
  exact splitPages_mem q (List.mem_of_mem_take hq) v hvq

/-! ### cases -/

/-- a message of three pages, and its last page alone -/
def threePages : Str := c!"[fo8][pt10o5][jl3]AB[nl]C[np][cf255,0,0]D[np][tr1,1,40,20][jp4]E"
def thirdPage : Str := c!"[fo8][pt10o5][jl3][cf255,0,0][tr1,1,40,20][jp4]E"

def threeValues : List Value := [.font (some (8, none)), .pageTime (some 10) (some 5), .justificationLine (some .center),
  .text c!"AB", .newLine none, .text c!"C", .newPage, .colorForeground (some (.rgb 255 0 0)), .text c!"D", .newPage,
  .textRectangle ⟨1, 1, 40, 20⟩, .justificationPage (some .bottom), .text c!"E"]

-- the hypotheses of C99_page, and what it tells: the page alone is given as in the message
example : ∃ xs p q, Spec.Yields fullDms threePages xs ∧ Spec.Yields fullDms thirdPage [(true, .ok p), (false, .ok q)] ∧
    ShareOf xs 2 [(true, .ok p), (false, .ok q)] := by
  obtain ⟨xs, hx, hn, hl⟩ := summary_noError (d := fullDms) (ms := threePages) (l := [(true, 60, 30, 10), (false, 60, 30, 5),
    (true, 60, 30, 10), (false, 60, 30, 5), (true, 60, 30, 10), (false, 40, 20, 5)]) (by decide +kernel)
  have hs : Parses (slices threePages) threeValues := by
    rw [show slices threePages = [c!"[fo8]", c!"[pt10o5]", c!"[jl3]", c!"AB", c!"[nl]", c!"C", c!"[np]", c!"[cf255,0,0]",
      c!"D", c!"[np]", c!"[tr1,1,40,20]", c!"[jp4]", c!"E"] by decide +kernel]
    exact .cons (by decide +kernel) (.cons (by decide +kernel) (.cons (by decide +kernel) (.cons (by decide +kernel)
      (.cons (by decide +kernel) (.cons (by decide +kernel) (.cons (by decide +kernel) (.cons (by decide +kernel)
      (.cons (by decide +kernel) (.cons (by decide +kernel) (.cons (by decide +kernel) (.cons (by decide +kernel)
      (.cons (by decide +kernel) .nil))))))))))))
  have hs' : Parses (slices thirdPage) (((splitPages threeValues).take 2).flatten.filter isState ++
      [.textRectangle ⟨1, 1, 40, 20⟩, .justificationPage (some .bottom), .text c!"E"]) := by
    rw [show slices thirdPage = [c!"[fo8]", c!"[pt10o5]", c!"[jl3]", c!"[cf255,0,0]", c!"[tr1,1,40,20]", c!"[jp4]", c!"E"] by
      decide +kernel]
    exact .cons (by decide +kernel) (.cons (by decide +kernel) (.cons (by decide +kernel) (.cons (by decide +kernel)
      (.cons (by decide +kernel) (.cons (by decide +kernel) (.cons (by decide +kernel) .nil))))))
  obtain ⟨ys, k1, k2, pre, post, e, k3, ⟨r, off, rfl, k4⟩, k5⟩ := C99_page .checked _ fullDms fullDms_built (by decide +kernel)
    (by decide +kernel) (by decide +kernel) (by decide +kernel) (by decide) ⟨by decide, by decide⟩ threePages thirdPage
    (by decide +kernel) (by decide +kernel) _ _ 2 hs rfl hs' (.inl (by intro c; simp [threeValues, splitPages])) xs hx hn
  obtain ⟨zs, hz, hn', hz'⟩ := summary_noError (d := fullDms) (ms := thirdPage) (l := [(true, 60, 30, 10), (false, 40, 20, 5)])
    (by decide +kernel)
  obtain rfl := steps_unique k1.choose_spec.1 k1.choose_spec.2 hz.choose_spec.1 hz.choose_spec.2
  obtain ⟨q, rfl⟩ : ∃ q, off = [q] := by
    match off, hz' with
    | [q], _ => exact ⟨q, rfl⟩
  obtain ⟨q1, q⟩ := q
  obtain rfl : q1 = false := k4 _ (List.mem_cons_self ..)
  obtain ⟨r, rfl⟩ := k2 _ (List.mem_cons_self ..)
  obtain ⟨q, rfl⟩ := k2 _ (List.mem_cons_of_mem _ (List.mem_cons_self ..))
  exact ⟨xs, r, q, hx, k1, pre, post, e, k3, ⟨_, _, rfl, k4⟩, k5⟩

/-- colors of pixels of the page number `k` among all that are given -/
def Tests.pagePixels (d : Dms) (ms : Str) (k : Nat) (at_ : List (Nat × Nat)) : List Rgb :=
  match runLabelled d 20 (Pages.new d ms) with
  | some (xs, _) => match xs[k]? with
    | some (_, .ok p) => at_.map fun (x, y) => p.raster.px x y
    | _ => []
  | none => []

-- why `[cb]` tags can not be used before a graphic of one bit: alone, the graphic gets the color of the `[cb]` tag, in the
-- message that of the `[pb]` tag of its page; without graphics there is no difference
example : pagePixels graphDms c!"[cb4]A[np][pb255,0,0][g4,1,1]" 1 [(0, 0), (1, 0), (20, 20)] =
      [(255, 255, 255), (255, 0, 0), (255, 0, 0)] ∧
    pagePixels graphDms c!"[cb4][pb255,0,0][g4,1,1]" 0 [(0, 0), (1, 0), (20, 20)] =
      [(255, 255, 255), (0, 255, 255), (255, 0, 0)] := ⟨by decide +kernel, by decide +kernel⟩

-- all hypotheses but the one of the `[cb]` tag hold
example : SameState graphDms [.colorBackground (some (.legacy 4))]
    ((splitPages [.colorBackground (some (.legacy 4)), .text c!"A", .newPage, .pageBackground (some (.rgb 255 0 0)),
      .graphic 4 (some (1, 1, none))]).take 1).flatten := by
  unfold SameState; decide +kernel

end Ntcip
