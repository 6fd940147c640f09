import Verif.Spec.Style
import Verif.Props.Sequel
/-
C103: of tags for style, only what they have set matters.
-/
namespace Ntcip
open Spec Tests

theorem isState_of_style {v : Value} (h : isStyle v = true) : isState v = true := by
  cases v <;> first | rfl | cases h

/-! ### style tags before values -/

theorem style_pieces {dflt : TextAttr} {T : List Value} (hT : ∀ v ∈ T, isStyle v = true) (ws : List Value) :
    ∀ a sp n b, pieces dflt a sp n b (T ++ ws) = pieces dflt (T.foldl (TextAttr.apply dflt) a) sp n b ws := by
  induction T with
  | nil => intro a sp n b; rfl
  | cons v T ih =>
    intro a sp n b
    have hv := hT v (List.mem_cons_self ..)
    have ih := ih fun w hw => hT w (List.mem_cons_of_mem _ hw)
    rw [List.cons_append, List.foldl_cons, ← ih]
    cases v <;> simp [isStyle] at hv <;> simp [pieces, piece, spacingAfter, blankAfter, lineAfter]

theorem style_numbers {dflt : TextAttr} {T : List Value} (hT : ∀ v ∈ T, isStyle v = true) (ws : List Value) :
    ∀ a n b, numbers dflt a n b (T ++ ws) = numbers dflt (T.foldl (TextAttr.apply dflt) a) n b ws := by
  induction T with
  | nil => intro a n b; rfl
  | cons v T ih =>
    intro a n b
    have hv := hT v (List.mem_cons_self ..)
    have ih := ih fun w hw => hT w (List.mem_cons_of_mem _ hw)
    rw [List.cons_append, List.foldl_cons, ← ih]
    cases v <;> simp [isStyle] at hv <;> simp [numbers, piece, numberAfter, blankAfter]

theorem style_tidy {dflt : TextAttr} {T : List Value} (hT : ∀ v ∈ T, isStyle v = true) (ws : List Value) :
    ∀ a f b, Tidy dflt a f b (T ++ ws) ↔ Tidy dflt (T.foldl (TextAttr.apply dflt) a) f b ws := by
  induction T with
  | nil => intro a f b; exact Iff.rfl
  | cons v T ih =>
    intro a f b
    have hv := hT v (List.mem_cons_self ..)
    have ih := ih fun w hw => hT w (List.mem_cons_of_mem _ hw)
    rw [List.cons_append, List.foldl_cons, ← ih]
    cases v <;> simp [isStyle] at hv <;> simp [Tidy, InOrder, freshAfter, blankAfter]

theorem state_layered_inv {d : Dms} {W H : Nat} {T : List Value} (hT : ∀ v ∈ T, isState v = true) {ws i j} :
    ∀ {t : TextAttr} {bg o}, ((∀ c, Value.colorBackground c ∉ T) ∨ ∀ n pos, Value.graphic n pos ∉ ws) →
    Layered d W H ⟨t.foreground, bg⟩ (T ++ ws) i j o →
    Layered d W H ⟨(T.foldl (TextAttr.apply (signAttr d)) t).foreground, bg⟩ ws i j o := by
  induction T with
  | nil => intro t bg o _ h; exact h
  | cons v T ih =>
    intro t bg o hc h
    have hv := hT v (List.mem_cons_self ..)
    have hcol : ∃ bg', Colors.apply d ⟨t.foreground, bg⟩ v = ⟨(TextAttr.apply (signAttr d) t v).foreground, bg'⟩ ∧
        ((∀ c, v ≠ .colorBackground c) → bg' = bg) := by
      clear h
      cases v <;> simp [isState] at hv <;> try exact ⟨_, rfl, fun _ => rfl⟩
      · exact ⟨_, rfl, fun h => absurd rfl (h _)⟩
      · rename_i x
        rcases x with _ | ⟨_, _⟩ <;> exact ⟨_, rfl, fun _ => rfl⟩
    obtain ⟨bg', e1, e2⟩ := hcol
    rw [List.cons_append] at h
    cases h with
    | @cons _ _ _ _ _ o u hl hr =>
      have ho : o = none := by
        cases hl with
        | other _ _ => rfl
        | _ => cases hv
      subst ho
      rw [Option.or_none]
      rw [e1] at hr
      have := ih (fun w hw => hT w (List.mem_cons_of_mem _ hw))
        (hc.imp (fun h c hm => h c (List.mem_cons_of_mem _ hm)) id) hr
      rw [List.foldl_cons]
      rcases hc with hc | hc
      · rw [e2 fun c e => hc c (by rw [e]; exact List.mem_cons_self ..)] at this
        exact this
      · exact layered_noGraphic this hc _

/-! ### other style tags at one place -/

/-- what has been set: attributes of text, times and background color -/
structure Settings where
  text : TextAttr
  times : UInt8 × UInt8
  bg : Color

def Settings.apply (d : Dms) (s : Settings) (v : Value) : Settings :=
  ⟨TextAttr.apply (signAttr d) s.text v, pageTimes (signPage d).1 s.times [v], background (signPage d).2 s.bg [v]⟩

/-- at one place, there are the tags `T'` instead of `T` -/
inductive Swap (d : Dms) (T T' : List Value) : Settings → List Value → List Value → Prop
  | here {s r} : T.foldl (Settings.apply d) s = T'.foldl (Settings.apply d) s →
      ((∀ c, Value.colorBackground c ∉ T ∧ Value.colorBackground c ∉ T') ∨ ∀ n pos, Value.graphic n pos ∉ r) →
      Swap d T T' s (T ++ r) (T' ++ r)
  | cons {s v a b} : Swap d T T' (s.apply d v) a b → Swap d T T' s (v :: a) (v :: b)

theorem colors_text (d : Dms) (t : TextAttr) (bg : Color) (v : Value) :
    ∃ bg', Colors.apply d ⟨t.foreground, bg⟩ v = ⟨(TextAttr.apply (signAttr d) t v).foreground, bg'⟩ := by
  cases v <;> try exact ⟨_, rfl⟩
  rename_i x
  rcases x with _ | ⟨_, _⟩ <;> exact ⟨_, rfl⟩

theorem settings_text (d : Dms) (vs : List Value) : ∀ s : Settings,
    (vs.foldl (Settings.apply d) s).text = vs.foldl (TextAttr.apply (signAttr d)) s.text := by
  induction vs with
  | nil => intro s; rfl
  | cons v vs ih => intro s; rw [List.foldl_cons, List.foldl_cons, ih]; rfl

theorem settings_times (d : Dms) (vs : List Value) : ∀ s : Settings,
    (vs.foldl (Settings.apply d) s).times = pageTimes (signPage d).1 s.times vs := by
  induction vs with
  | nil => intro s; rfl
  | cons v vs ih => intro s; rw [List.foldl_cons, ih]; rfl

theorem settings_bg (d : Dms) (vs : List Value) : ∀ s : Settings,
    (vs.foldl (Settings.apply d) s).bg = background (signPage d).2 s.bg vs := by
  induction vs with
  | nil => intro s; rfl
  | cons v vs ih => intro s; rw [List.foldl_cons, ih]; rfl

section
variable {d : Dms} {T T' : List Value} (hT : ∀ v ∈ T, isStyle v = true) (hT' : ∀ v ∈ T', isStyle v = true)

theorem swap_fold {s a b} (h : Swap d T T' s a b) : a.foldl (Settings.apply d) s = b.foldl (Settings.apply d) s := by
  induction h with
  | here h _ => rw [List.foldl_append, List.foldl_append, h]
  | cons _ ih => exact ih

theorem swap_text {s a b} (h : Swap d T T' s a b) :
    a.foldl (TextAttr.apply (signAttr d)) s.text = b.foldl (TextAttr.apply (signAttr d)) s.text := by
  rw [← settings_text, ← settings_text, swap_fold h]

include hT hT'

theorem swap_pieces {s a b} (h : Swap d T T' s a b) : ∀ sp n bl,
    pieces (signAttr d) s.text sp n bl a = pieces (signAttr d) s.text sp n bl b := by
  induction h with
  | @here s r h _ =>
    intro sp n bl
    rw [style_pieces hT, style_pieces hT', ← settings_text, ← settings_text, h]
  | cons _ ih =>
    intro sp n bl
    unfold pieces
    exact congrArg _ (ih ..)

theorem swap_numbers {s a b} (h : Swap d T T' s a b) : ∀ n bl,
    numbers (signAttr d) s.text n bl a = numbers (signAttr d) s.text n bl b := by
  induction h with
  | @here s r h _ =>
    intro n bl
    rw [style_numbers hT, style_numbers hT', ← settings_text, ← settings_text, h]
  | cons _ ih =>
    intro n bl
    unfold numbers
    exact congrArg _ (ih ..)

theorem swap_tidy {s a b} (h : Swap d T T' s a b) : ∀ f bl,
    Tidy (signAttr d) s.text f bl a ↔ Tidy (signAttr d) s.text f bl b := by
  induction h with
  | @here s r h _ =>
    intro f bl
    rw [style_tidy hT, style_tidy hT', ← settings_text, ← settings_text, h]
  | cons _ ih =>
    intro f bl
    unfold Tidy
    exact and_congr Iff.rfl (ih ..)

theorem swap_spacing {s a b} (h : Swap d T T' s a b) : ∀ sp, a.foldl spacingAfter sp = b.foldl spacingAfter sp := by
  induction h with
  | here _ _ =>
    intro sp
    rw [List.foldl_append, List.foldl_append, state_spacing fun v hv => isState_of_style (hT v hv),
      state_spacing fun v hv => isState_of_style (hT' v hv)]
  | cons _ ih => intro sp; exact ih _

theorem swap_textDrawn {s : Settings} {sp rect a b x y} (h : Swap d T T' s a b)
    (hd : TextDrawn d s.text sp rect a x y) : TextDrawn d s.text sp rect b x y := by
  unfold TextDrawn at hd ⊢
  rw [← swap_pieces hT hT' h, ← swap_numbers hT hT' h, ← swap_tidy hT hT' h]
  exact hd

theorem swap_layered {W H : Nat} {s a b} (h : Swap d T T' s a b) : ∀ {bg i j o},
    Layered d W H ⟨s.text.foreground, bg⟩ a i j o → Layered d W H ⟨s.text.foreground, bg⟩ b i j o := by
  induction h with
  | @here s r h hc =>
    intro bg i j o hl
    refine state_layered (fun v hv => isState_of_style (hT' v hv)) (hc.imp (fun h c => (h c).2) id) ?_
    rw [← settings_text, ← h, settings_text]
    exact state_layered_inv (fun v hv => isState_of_style (hT v hv)) (hc.imp (fun h c => (h c).1) id) hl
  | @cons s v a b _ ih =>
    intro bg i j o hl
    cases hl with
    | cons h1 h2 =>
      refine .cons h1 ?_
      obtain ⟨bg', e⟩ := colors_text d s.text bg v
      rw [e] at h2 ⊢
      exact ih h2

omit hT hT' in
theorem swap_mem {s a b} (h : Swap d T T' s a b) {v : Value} (hv : v ∈ b) : v ∈ a ∨ v ∈ T' := by
  induction h with
  | here _ _ =>
    rcases List.mem_append.1 hv with hv | hv
    · exact .inr hv
    · exact .inl (List.mem_append_right _ hv)
  | cons _ ih =>
    rcases List.mem_cons.1 hv with rfl | hv
    · exact .inl (List.mem_cons_self ..)
    · exact (ih hv).imp (List.mem_cons_of_mem _) id

omit hT hT' in
/-- other style tags in one of the text rectangles of a page -/
inductive SwapS (d : Dms) (T T' : List Value) : Settings → List Value → List (Rectangle × List Value) → List Value →
    List (Rectangle × List Value) → Prop
  | first {s a b more} : Swap d T T' s a b → SwapS d T T' s a more b more
  | later {s a r us us' more more'} : SwapS d T T' (a.foldl (Settings.apply d) s) us more us' more' →
      SwapS d T T' s a ((r, us) :: more) a ((r, us') :: more')

theorem sections_swap {s a b} (h : Swap d T T' s a b) :
    SwapS d T T' s (sections a).1 (sections a).2 (sections b).1 (sections b).2 := by
  induction h with
  | here h hc =>
    rw [state_sections fun v hv => isState_of_style (hT v hv), state_sections fun v hv => isState_of_style (hT' v hv)]
    exact .first (.here h (hc.imp id fun h n pos hm => h n pos (sections_mem _ hm)))
  | @cons s v a b _ ih =>
    by_cases hr : ∃ r, v = .textRectangle r
    · obtain ⟨r, rfl⟩ := hr
      simp only [sections]
      exact .later ih
    · rw [sections_cons (fun r e => hr ⟨r, e⟩), sections_cons (fun r e => hr ⟨r, e⟩)]
      generalize (sections a).1 = a1, (sections a).2 = a2, (sections b).1 = b1, (sections b).2 = b2 at ih
      cases ih with
      | first h => exact .first (.cons h)
      | later h => exact .later h

theorem swap_composed {bg s sp rect a more b more' x y} (h : SwapS d T T' s a more b more') :
    Composed d bg s.text sp rect a more x y → Composed d bg s.text sp rect b more' x y := by
  have gr : ∀ {s a b x y}, Swap d T T' s a b → GraphicsOn d ⟨s.text.foreground, bg⟩ a x y →
      GraphicsOn d ⟨s.text.foreground, bg⟩ b x y := by
    intro s a b x y h hg
    refine ⟨hg.width, hg.height, fun i j => ?_⟩
    obtain ⟨o, h1, h2⟩ := hg.px i j
    exact ⟨o, swap_layered hT hT' h h1, h2⟩
  induction h generalizing sp rect x y with
  | first h =>
    intro hc
    cases hc with
    | last h1 h2 => exact .last (gr h h1) (swap_textDrawn hT hT' h h2)
    | next h1 h2 h3 =>
      refine .next (gr h h1) (swap_textDrawn hT hT' h h2) ?_
      rw [← swap_text h, ← swap_spacing hT hT' h]
      exact h3
  | later _ ih =>
    intro hc
    cases hc with
    | next h1 h2 h3 =>
      refine .next h1 h2 ?_
      rw [← settings_text] at h3 ⊢
      exact ih h3

theorem swap_rectsStops (hq : ∀ v ∈ T', QuietValue d v) {n s sp rect a more b more'} (h : SwapS d T T' s a more b more') :
    Silent (rectsStops d n s.text sp rect a more) → Silent (rectsStops d n s.text sp rect b more') := by
  have one : ∀ {s a b sp rect next}, Swap d T T' s a b → Silent (rectStops d s.text sp rect a next) →
      Silent (rectStops d s.text sp rect b next) := by
    intro s a b sp rect next h hs
    unfold rectStops at hs ⊢
    simp only [silent_append, silent_map] at hs ⊢
    obtain ⟨h1, h2, h3, h4⟩ := hs
    refine ⟨fun v hv => (swap_mem h hv).elim (h1 v) fun hv => (hq v hv).2.1,
      fun v hv => (swap_mem h hv).elim (h2 v) fun hv => (hq v hv).2.2, h3, ?_⟩
    unfold layoutOf at h4 ⊢
    rw [← swap_pieces hT hT' h]
    exact h4
  induction h generalizing n sp rect with
  | @first s a b more h =>
    intro hs
    cases more with
    | nil =>
      unfold rectsStops at hs ⊢
      rw [silent_append] at hs ⊢
      exact ⟨one h hs.1, hs.2⟩
    | cons x more =>
      obtain ⟨r, us⟩ := x
      unfold rectsStops at hs ⊢
      rw [silent_append] at hs ⊢
      rw [← swap_text h, ← swap_spacing hT hT' h]
      exact ⟨one h hs.1, hs.2⟩
  | later _ ih =>
    intro hs
    unfold rectsStops at hs ⊢
    rw [silent_append, silent_cons] at hs ⊢
    rw [← settings_text] at hs ⊢
    exact ⟨hs.1, hs.2.1, ih hs.2.2⟩

theorem swap_pageStops (hq : ∀ v ∈ T', QuietValue d v) {s a b} (h : Swap d T T' s a b)
    (hs : Silent (pageStops d s.text a)) : Silent (pageStops d s.text b) := by
  unfold pageStops at hs ⊢
  rw [silent_append, silent_map] at hs ⊢
  exact ⟨fun v hv => (swap_mem h hv).elim (hs.1 v) fun hv => (hq v hv).1,
    swap_rectsStops hT hT' hq (sections_swap hT hT' h) hs.2⟩

omit hT hT' in
/-- other style tags in one of the pages -/
inductive SwapP (d : Dms) (T T' : List Value) : Settings → List (List Value) → List (List Value) → Prop
  | here {s p p' ps} : Swap d T T' s p p' → SwapP d T T' s (p :: ps) (p' :: ps)
  | later {s p ps ps'} : SwapP d T T' (p.foldl (Settings.apply d) s) ps ps' → SwapP d T T' s (p :: ps) (p :: ps')

theorem splitPages_swap {s a b} (h : Swap d T T' s a b) : SwapP d T T' s (splitPages a) (splitPages b) := by
  have nn : ∀ {T : List Value}, (∀ v ∈ T, isStyle v = true) → ∀ v ∈ T, v ≠ .newPage := by
    rintro T hT v hv rfl
    have := hT _ hv
    cases this
  induction h with
  | @here s r h hc =>
    obtain ⟨p, ps, hp⟩ : ∃ p ps, splitPages r = p :: ps := by
      cases h : splitPages r with
      | nil => exact absurd h (splitPages_ne_nil _)
      | cons p ps => exact ⟨p, ps, rfl⟩
    rw [splitPages_before (nn hT) hp, splitPages_before (nn hT') hp]
    exact .here (.here h (hc.imp id fun h n pos hm =>
      h n pos (splitPages_mem p (by rw [hp]; exact List.mem_cons_self ..) _ hm)))
  | @cons s v a b _ ih =>
    by_cases hv : v = .newPage
    · subst hv
      simp only [splitPages, if_true]
      exact .later ih
    · obtain ⟨p, ps, e1, e2⟩ := splitPages_cons (vs := a) hv
      obtain ⟨p', ps', e3, e4⟩ := splitPages_cons (vs := b) hv
      rw [e2, e4]
      rw [e1, e3] at ih
      cases ih with
      | here h => exact .here (.cons h)
      | later h => exact .later h

theorem swap_pagesQuiet (hq : ∀ v ∈ T', QuietValue d v) {s ps ps'} (h : SwapP d T T' s ps ps')
    (hs : PagesQuiet d s.text ps) : PagesQuiet d s.text ps' := by
  induction h with
  | here h => exact ⟨swap_pageStops hT hT' hq h hs.1, by rw [← swap_text h]; exact hs.2⟩
  | later _ ih =>
    refine ⟨hs.1, ?_⟩
    have h2 := hs.2
    rw [← settings_text] at h2 ⊢
    exact ih h2

theorem swap_pictured {s ps ps'} (h : SwapP d T T' s ps ps') : ∀ {xs}, Pictured d s.text (s.times, s.bg) xs ps →
    Pictured d s.text (s.times, s.bg) xs ps' := by
  have last : ∀ {s a more b more' rect}, SwapS d T T' s a more b more' → lastRect d rect more' = lastRect d rect more := by
    intro s a more b more' rect h
    induction h generalizing rect with
    | first _ => rfl
    | later _ ih => simp only [lastRect]; exact ih
  induction h with
  | @here s p p' ps h =>
    intro xs hx
    unfold Pictured at hx ⊢
    obtain ⟨raster, more, k1, k2, k3⟩ := hx
    have hsec := sections_swap hT hT' h
    simp only [← settings_times, ← settings_bg, ← settings_text] at k1 k2 k3 ⊢
    rw [← swap_fold h, last hsec]
    exact ⟨raster, more, swap_composed hT hT' hsec k1, k2, k3⟩
  | later _ ih =>
    intro xs hx
    unfold Pictured at hx ⊢
    obtain ⟨raster, more, k1, k2, k3⟩ := hx
    refine ⟨raster, more, k1, k2, ?_⟩
    rw [← settings_times, ← settings_bg, ← settings_text] at k3 ⊢
    exact ih k3

end

/-- the settings at the beginning of a message -/
def Settings.start (d : Dms) : Settings := ⟨signAttr d, (signPage d).1, (signPage d).2⟩

theorem swap_at {d : Dms} {T T' post : List Value}
    (hc : (∀ c, Value.colorBackground c ∉ T ∧ Value.colorBackground c ∉ T') ∨ ∀ n pos, Value.graphic n pos ∉ post) :
    ∀ {pre s}, (pre ++ T).foldl (Settings.apply d) s = (pre ++ T').foldl (Settings.apply d) s →
    Swap d T T' s (pre ++ (T ++ post)) (pre ++ (T' ++ post)) := by
  intro pre
  induction pre with
  | nil => intro s h; exact .here h hc
  | cons v pre ih => intro s h; exact .cons (ih h)

theorem style_forward {d : Dms} (hd : SizeOk d) (hok : SignOk d) (hf : FontsOk d.fontDefinition) (W H : Nat)
    (hg : GraphicsOk W H d.graphicDefinition) (ms ms' : Str) (hs : SizesOk d ms) (hs' : SizesOk d ms')
    {pre T T' post : List Value} (hv : Parses (slices ms) (pre ++ (T ++ post)))
    (hv' : Parses (slices ms') (pre ++ (T' ++ post)))
    (hT : ∀ v ∈ T, isStyle v = true) (hT' : ∀ v ∈ T', isStyle v = true ∧ Usable d v)
    (he : (pre ++ T).foldl (Settings.apply d) (.start d) = (pre ++ T').foldl (Settings.apply d) (.start d))
    (hc : (∀ c, Value.colorBackground c ∉ T ∧ Value.colorBackground c ∉ T') ∨ ∀ n pos, Value.graphic n pos ∉ post) {xs}
    (h : ShownAs d ms xs) : ShownAs d ms' xs := by
  have hsw := swap_at hc he
  have hp := splitPages_swap hT (fun v hv => (hT' v hv).1) hsw
  obtain ⟨⟨h1, h2⟩, h3⟩ := (shown_iff d hd hok hf W H hg ms hs hv xs).1 h
  refine (shown_iff d hd hok hf W H hg ms' hs' hv' xs).2 ⟨⟨?_, ?_⟩, ?_⟩
  · intro v hm
    rcases swap_mem hsw hm with hm | hm
    · exact h1 v hm
    · exact (hT' v hm).2.1
  · exact swap_pagesQuiet hT (fun v hv => (hT' v hv).1)
      (fun v hv => usable_quiet (isState_of_style (hT' v hv).1) (hT' v hv).2.2) hp h2
  · exact swap_pictured hT (fun v hv => (hT' v hv).1) hp h3

/-- **C103** tags for the style of what follows (`[fo]`, `[sc]`, `[/sc]`, `[cf]`, `[cb]`, `[pb]`, `[pt]`) matter only by what
they have set in the end.  If in place of some of them others stand, all of them allowed on the sign, and what is
set after them is the same, the message is shown exactly as before (`[cb]` only, if no graphic follows). -/
theorem C103_style (d : Dms) (hd : SizeOk d) (hok : SignOk d) (hf : FontsOk d.fontDefinition) (W H : Nat)
    (hg : GraphicsOk W H d.graphicDefinition) (ms ms' : Str) (hs : SizesOk d ms) (hs' : SizesOk d ms')
    (pre T T' post : List Value) (hv : Parses (slices ms) (pre ++ (T ++ post)))
    (hv' : Parses (slices ms') (pre ++ (T' ++ post)))
    (hT : ∀ v ∈ T, isStyle v = true ∧ Usable d v) (hT' : ∀ v ∈ T', isStyle v = true ∧ Usable d v)
    (he : SameState d (pre ++ T) (pre ++ T'))
    (hc : (∀ c, Value.colorBackground c ∉ T ∧ Value.colorBackground c ∉ T') ∨ ∀ n pos, Value.graphic n pos ∉ post) (xs) :
    ShownAs d ms xs ↔ ShownAs d ms' xs := by
  have e : (pre ++ T).foldl (Settings.apply d) (.start d) = (pre ++ T').foldl (Settings.apply d) (.start d) := by
    have k1 := he.1
    have k2 := he.2.1
    have k3 := he.2.2
    have f : ∀ vs : List Value, vs.foldl (Settings.apply d) (.start d) = ⟨vs.foldl (TextAttr.apply (signAttr d)) (signAttr d),
        pageTimes (signPage d).1 (signPage d).1 vs, background (signPage d).2 (signPage d).2 vs⟩ := by
      intro vs
      have a := settings_text d vs (.start d)
      have b := settings_times d vs (.start d)
      have c := settings_bg d vs (.start d)
      generalize vs.foldl (Settings.apply d) (.start d) = z at a b c
      cases z
      simp only at a b c
      rw [a, b, c]
      rfl
    rw [f, f, k1, k2, k3]
  constructor
  · exact style_forward hd hok hf W H hg ms ms' hs hs' hv hv' (fun v h => (hT v h).1) hT' e hc
  · exact style_forward hd hok hf W H hg ms' ms hs' hs hv' hv (fun v h => (hT' v h).1) hT e.symm
      (hc.imp (fun h c => ⟨(h c).2, (h c).1⟩) id)

/-- **C103 (built)** the same on a sign made by the builder, for messages of at most 128 characters -/
theorem C103_built (p : Profile) (b : DmsBuilder) (d : Dms) (h : b.build p = .ok d)
    (hw : d.vmsCfg.signWidthPixels.toNat < 65535) (hh : d.vmsCfg.signHeightPixels.toNat < 65535)
    (hz : ¬ (d.vmsCfg.signWidthPixels.toNat = 0 ∧ d.vmsCfg.signHeightPixels.toNat = 0))
    (hf : 1 ≤ d.multiCfg.defaultFont.toNat)
    (hjp : d.multiCfg.defaultJustificationPage ≠ .other)
    (hjl : d.multiCfg.defaultJustificationLine ≠ .other ∧ d.multiCfg.defaultJustificationLine ≠ .full)
    (ms ms' : Str) (hl : ms.length ≤ 128) (hl' : ms'.length ≤ 128)
    (pre T T' post : List Value) (hv : Parses (slices ms) (pre ++ (T ++ post)))
    (hv' : Parses (slices ms') (pre ++ (T' ++ post)))
    (hT : ∀ v ∈ T, isStyle v = true ∧ Usable d v) (hT' : ∀ v ∈ T', isStyle v = true ∧ Usable d v)
    (he : SameState d (pre ++ T) (pre ++ T'))
    (hc : (∀ c, Value.colorBackground c ∉ T ∧ Value.colorBackground c ∉ T') ∨ ∀ n pos, Value.graphic n pos ∉ post) (xs) :
    ShownAs d ms xs ↔ ShownAs d ms' xs := by
  have hv1 := C22_built_sign_valid p b d h
  exact C103_style d ⟨hw, hh, hz⟩ ⟨hw, hh, hf, hjp, hjl, hv1.2.2.2.2.1.fonts, hv1.2.2.2.2.2.1.graphics⟩ hv1.2.2.2.2.1 _ _
    hv1.2.2.2.2.2.1 ms ms' (sizesOk_short d ms hl) (sizesOk_short d ms' hl') pre T T' post hv hv' hT hT' he hc xs

/-! ### cases -/

-- tags in another order, one of them without effect: in the middle of a line, with a color rectangle and a second page behind them
def styledOnce : Str := c!"A[cf255,0,0][pt10o5]B[cr1,1,5,5,0,255,0][np]C"
def styledTwice : Str := c!"A[cf0,0,255][pt10o5][fo][cf255,0,0]B[cr1,1,5,5,0,255,0][np]C"

example (xs) : ShownAs fullDms styledOnce xs ↔ ShownAs fullDms styledTwice xs := by
  refine C103_built .checked _ fullDms fullDms_built (by decide +kernel)
    (by decide +kernel) (by decide +kernel) (by decide +kernel) (by decide) ⟨by decide, by decide⟩
    _ _ (by decide +kernel) (by decide +kernel) [.text c!"A"]
    [.colorForeground (some (.rgb 255 0 0)), .pageTime (some 10) (some 5)]
    [.colorForeground (some (.rgb 0 0 255)), .pageTime (some 10) (some 5), .font none, .colorForeground (some (.rgb 255 0 0))]
    [.text c!"B", .colorRectangle ⟨1, 1, 5, 5⟩ (.rgb 0 255 0), .newPage, .text c!"C"] ?_ ?_ ?_ ?_ ?_ (.inl (by intro c; simp)) xs
  · rw [show slices styledOnce = [c!"A", c!"[cf255,0,0]", c!"[pt10o5]", c!"B", c!"[cr1,1,5,5,0,255,0]", c!"[np]", c!"C"] by decide +kernel]
    exact .cons (by decide +kernel) (.cons (by decide +kernel) (.cons (by decide +kernel) (.cons (by decide +kernel)
      (.cons (by decide +kernel) (.cons (by decide +kernel) (.cons (by decide +kernel) .nil))))))
  · rw [show slices styledTwice = [c!"A", c!"[cf0,0,255]", c!"[pt10o5]", c!"[fo]", c!"[cf255,0,0]", c!"B", c!"[cr1,1,5,5,0,255,0]", c!"[np]",
      c!"C"] by decide +kernel]
    exact .cons (by decide +kernel) (.cons (by decide +kernel) (.cons (by decide +kernel) (.cons (by decide +kernel)
      (.cons (by decide +kernel) (.cons (by decide +kernel) (.cons (by decide +kernel) (.cons (by decide +kernel)
      (.cons (by decide +kernel) .nil))))))))
  · intro v hv
    simp only [List.mem_cons, List.not_mem_nil, or_false] at hv
    rcases hv with rfl | rfl
    · exact ⟨rfl, (fun t ht => by cases ht; decide +kernel), (fun c hc => by cases hc; trivial), rfl⟩
    · exact ⟨rfl, (fun t ht => by cases ht; decide +kernel), (fun c hc => by cases hc), rfl⟩
  · intro v hv
    simp only [List.mem_cons, List.not_mem_nil, or_false] at hv
    rcases hv with rfl | rfl | rfl | rfl
    · exact ⟨rfl, (fun t ht => by cases ht; decide +kernel), (fun c hc => by cases hc; trivial), rfl⟩
    · exact ⟨rfl, (fun t ht => by cases ht; decide +kernel), (fun c hc => by cases hc), rfl⟩
    · exact ⟨rfl, (fun t ht => by cases ht; decide +kernel), (fun c hc => by cases hc), rfl⟩
    · exact ⟨rfl, (fun t ht => by cases ht; decide +kernel), (fun c hc => by cases hc; trivial), rfl⟩
  · exact ⟨rfl, rfl, rfl⟩

-- both are shown
example : summary fullDms styledOnce = summary fullDms styledTwice ∧
    (summary fullDms styledOnce).map List.length = some 4 := by decide +kernel

-- with `[cb]` before a graphic, what is set is more than font, colors of text and page, spacing and times
example : SameState graphDms [.colorBackground (some (.legacy 4)), .pageBackground (some (.rgb 255 0 0))]
      [.pageBackground (some (.rgb 255 0 0))] ∧
    pixels graphDms c!"[cb4][pb255,0,0][g4,1,1]" [(0, 0), (1, 0)] ≠
      pixels graphDms c!"[pb255,0,0][g4,1,1]" [(0, 0), (1, 0)] :=
  ⟨⟨rfl, rfl, rfl⟩, by decide +kernel⟩

end Ntcip
