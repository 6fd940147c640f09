import Verif.Props.Narrow
/-
Messages without a stop, told by their values only.
-/
namespace Ntcip
open Spec

/-- no check of a page gives an error or a panic; `t` are the text attributes before the first page -/
def PagesQuiet (d : Dms) : TextAttr → List (List Value) → Prop
  | _, [] => True
  | t, p :: ps => Silent (pageStops d t p) ∧ PagesQuiet d (p.foldl (TextAttr.apply (signAttr d)) t) ps

/-- the sign supports the tags of the values -/
def TagsOk (d : Dms) (vs : List Value) : Prop :=
  ∀ v ∈ vs, ∀ t, v.tag = some t → d.multiCfg.supportedMultiTags t = true

theorem parses_takes {ss : List Str} {vs} (h : Parses ss vs) : ∃ p rest b, TakePage ss p rest b ∧
    ((b = false ∧ vs = p ∧ splitPages vs = [p]) ∨ (b = true ∧ ∃ ws, vs = p ++ .newPage :: ws ∧ Parses rest ws ∧
      splitPages vs = p :: splitPages ws)) := by
  induction h with
  | nil => exact ⟨[], [], false, .nil, .inl ⟨rfl, rfl, rfl⟩⟩
  | @cons s v ss vs hs hp ih =>
    by_cases hv : v = .newPage
    · subst hv
      exact ⟨[], ss, true, .np hs, .inr ⟨rfl, vs, rfl, hp, by simp [splitPages]⟩⟩
    · obtain ⟨p, rest, b, k1, k2⟩ := ih
      refine ⟨v :: p, rest, b, .cons hs hv k1, ?_⟩
      rcases k2 with ⟨rfl, rfl, k3⟩ | ⟨rfl, ws, rfl, k3, k4⟩
      · exact .inl ⟨rfl, rfl, by simp only [splitPages]; rw [if_neg hv, k3]⟩
      · exact .inr ⟨rfl, ws, rfl, k3, by simp only [splitPages]; rw [if_neg hv, k4]⟩

theorem newPage_tag : Value.newPage.tag = some .np := rfl

/-- a valid item is neither wrong nor does the parser panic on it -/
theorem valid_item {s : Str} {v} (hi : Item s) (h : tryFrom s = .ok (.ok v)) :
    ¬ PanicItem s ∧ ∀ e, ¬ WrongItem s e := by
  constructor
  · intro hp
    obtain ⟨p, k⟩ := (panicItem_iff hi).2 hp
    rw [h] at k; cases k
  · intro e hw
    rcases wrongItem_error hw with k | ⟨p, k⟩
    · rw [h] at k; simp at k
    · rw [h] at k; cases k

/-- the items of a page with values have no stop, exactly if the sign supports their tags -/
theorem itemStop_quiet {d : Dms} {ss p rest b} (h : TakePage ss p rest b) (hi : ∀ s ∈ ss, Item s) :
    (∀ z, ¬ ItemStop d ss z) ↔ TagsOk d p ∧ (b = true → d.multiCfg.supportedMultiTags .np = true) := by
  induction h with
  | nil =>
    refine ⟨fun _ => ⟨fun v hv => (by simp at hv), fun h => (by cases h)⟩, fun _ z hz => (by cases hz)⟩
  | @np s ss hs =>
    have hv := valid_item (hi s (List.mem_cons_self ..)) hs
    constructor
    · intro h
      refine ⟨fun v hv => (by simp at hv), fun _ => ?_⟩
      refine Classical.byContradiction fun hn => ?_
      exact h _ (.tag ((C84_item ..).1 hs) newPage_tag (by simpa using hn))
    · rintro ⟨_, h⟩ z hz
      cases hz with
      | panic hp => exact hv.1 hp
      | bad _ hw => exact hv.2 _ hw
      | tag hd ht hu =>
        rw [← C84_item, hs] at hd; cases hd
        cases ht
        rw [h rfl] at hu; cases hu
      | later hd hne _ _ => rw [← C84_item, hs] at hd; cases hd; exact hne rfl
  | @cons s v ss vs rest b hs hne _ ih =>
    have hv := valid_item (hi s (List.mem_cons_self ..)) hs
    have ih := ih fun s hs => hi s (List.mem_cons_of_mem _ hs)
    constructor
    · intro h
      have h1 : ∀ t, v.tag = some t → d.multiCfg.supportedMultiTags t = true := by
        intro t ht
        refine Classical.byContradiction fun hn => ?_
        exact h _ (.tag ((C84_item ..).1 hs) ht (by simpa using hn))
      obtain ⟨k1, k2⟩ := ih.1 fun z hz => h z (.later ((C84_item ..).1 hs) hne h1 hz)
      exact ⟨fun w hw => (List.mem_cons.1 hw).elim (fun e => by subst e; exact h1) (k1 w), k2⟩
    · rintro ⟨h1, h2⟩ z hz
      cases hz with
      | panic hp => exact hv.1 hp
      | bad _ hw => exact hv.2 _ hw
      | tag hd ht hu =>
        rw [← C84_item, hs] at hd; cases hd
        rw [h1 v (List.mem_cons_self ..) _ ht] at hu; cases hu
      | later hd _ _ hz => exact ih.2 ⟨fun w hw => h1 w (List.mem_cons_of_mem _ hw), h2⟩ z hz

theorem pageStop_quiet {d : Dms} {t ss p rest b} (h : TakePage ss p rest b) (hi : ∀ s ∈ ss, Item s) :
    (∀ z, ¬ PageStop d t ss z) ↔ (TagsOk d p ∧ (b = true → d.multiCfg.supportedMultiTags .np = true)) ∧
      Silent (pageStops d t p) := by
  constructor
  · intro hn
    have h1 := (itemStop_quiet h hi).1 fun z hz => hn z (.inl hz)
    exact ⟨h1, silent_iff.2 fun e he => hn e (.inr ⟨p, rest, b, h, h1.1, h1.2, he⟩)⟩
  · rintro ⟨h1, h2⟩ z (hz | ⟨p', rest', b', k1, _, _, k4⟩)
    · exact (itemStop_quiet h hi).2 h1 z hz
    · obtain ⟨rfl, rfl, rfl⟩ := takePage_unique h k1
      exact silent_iff.1 h2 z k4

/-- a message with values has no stop, exactly if the sign supports all tags and no check of a page gives one -/
theorem firstStop_quiet {d : Dms} : ∀ (n : Nat) {t ss vs}, ss.length < n → (∀ s ∈ ss, Item s) → Parses ss vs →
    ((∀ z, ¬ FirstStop d t ss z) ↔ TagsOk d vs ∧ PagesQuiet d t (splitPages vs)) := by
  intro n
  induction n with
  | zero => intro t ss vs h; omega
  | succ n ih =>
    intro t ss vs hl hi hp
    obtain ⟨p, rest, b, h1, h2⟩ := parses_takes hp
    have hq := pageStop_quiet (d := d) (t := t) h1 hi
    rcases h2 with ⟨rfl, rfl, h3⟩ | ⟨rfl, ws, rfl, h3, h4⟩
    · rw [h3]
      simp only [PagesQuiet, and_true]
      constructor
      · intro hn
        have := hq.1 fun z hz => hn z (.here hz)
        exact ⟨this.1.1, this.2⟩
      · rintro ⟨k1, k2⟩ z (hz | ⟨_, ht, _⟩)
        · exact hq.2 ⟨⟨k1, fun h => by cases h⟩, k2⟩ z hz
        · have := (takePage_unique h1 ht).2.2; cases this
    · rw [h4]
      simp only [PagesQuiet]
      have hlen : rest.length < ss.length := by
        clear hq h3 h4 hp hi hl ih
        generalize hb : true = b at h1
        induction h1 with
        | nil => cases hb
        | np _ => simp
        | cons _ _ _ ih => have := ih hb; simp; omega
      have ih := ih (t := p.foldl (TextAttr.apply (signAttr d)) t) (by omega) (takePage_items h1 hi) h3
      constructor
      · intro hn
        have k1 := hq.1 fun z hz => hn z (.here hz)
        have k2 := ih.1 fun z hz => hn z (.later (fun z hz => hn z (.here hz)) h1 hz)
        refine ⟨fun v hv => ?_, k1.2, k2.2⟩
        rcases List.mem_append.1 hv with hv | hv
        · exact k1.1.1 v hv
        · rcases List.mem_cons.1 hv with rfl | hv
          · intro t ht
            rw [newPage_tag] at ht; cases ht
            exact k1.1.2 rfl
          · exact k2.1 v hv
      · rintro ⟨k1, k2, k3⟩ z hz
        have l1 : TagsOk d p := fun v hv => k1 v (List.mem_append_left _ hv)
        have l2 : d.multiCfg.supportedMultiTags .np = true :=
          k1 .newPage (List.mem_append_right _ (List.mem_cons_self ..)) _ newPage_tag
        cases hz with
        | here hz => exact hq.2 ⟨⟨l1, fun _ => l2⟩, k2⟩ z hz
        | later _ ht hz =>
          obtain ⟨rfl, rfl, _⟩ := takePage_unique h1 ht
          exact ih.2 ⟨fun v hv => k1 v (List.mem_append_right _ (List.mem_cons_of_mem _ hv)), k3⟩ z hz

/-- A message is shown without error exactly if the sign supports its tags, no check gives an error, and each page is
the one of its values. -/
theorem shown_iff (d : Dms) (hd : SizeOk d) (hok : SignOk d) (hf : FontsOk d.fontDefinition) (W H : Nat)
    (hg : GraphicsOk W H d.graphicDefinition) (ms : Str) (hs : SizesOk d ms) {vs} (hv : Parses (slices ms) vs)
    (xs : List (Bool × Except SyntaxError Page)) :
    (Spec.Yields d ms xs ∧ NoError xs) ↔ (TagsOk d vs ∧ PagesQuiet d (signAttr d) (splitPages vs)) ∧
      Pictured d (signAttr d) (signPage d) xs (splitPages vs) := by
  rw [C93_message d hd hok hf W H hg ms hs xs, firstStop_quiet _ (Nat.lt_succ_self _) (slices_items ms) hv]
  constructor
  · rintro ⟨h1, us, hu, h2⟩
    obtain rfl := parses_unique hv hu
    exact ⟨h1, h2⟩
  · rintro ⟨h1, h2⟩
    exact ⟨h1, vs, hv, h2⟩

/-- a message without stop is shown -/
theorem quiet_shown (d : Dms) (hd : SizeOk d) (hok : SignOk d) (ms : Str) (hs : SizesOk d ms) {vs}
    (hv : Parses (slices ms) vs) (hq : TagsOk d vs ∧ PagesQuiet d (signAttr d) (splitPages vs)) :
    ∃ xs, Spec.Yields d ms xs ∧ NoError xs := by
  have hno := (firstStop_quiet _ (Nat.lt_succ_self _) (slices_items ms) hv).2 hq
  rcases course_stop hd hok hs _ (Nat.lt_succ_self _) (.nil (pg := Pages.new d ms)) rfl with
    ⟨ys, g1, z, _, _, _, k4⟩ | ⟨ys, g1, k1, k2, k3, _⟩
  · rw [pagesNew_attr] at k4
    exact absurd ((k4 z).2 rfl) (hno z)
  · exact ⟨ys, ⟨g1, k1, by unfold Pages.next; rw [k3]⟩, k2⟩

end Ntcip
