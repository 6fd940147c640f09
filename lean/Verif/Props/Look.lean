import Verif.Lemmas.Depict
import Verif.Lemmas.Rewrite
import Verif.Props.Shown
import Verif.Props.Same
/-
Property C81: the look of a message determines its pages.
-/
namespace Ntcip
open Spec Tests

theorem parses_inRange {ss : List Str} {vs : List Value} (h : Parses ss vs) (hi : ∀ s ∈ ss, Item s) :
    ∀ v ∈ vs, InRange v := by
  induction h with
  | nil => simp
  | cons h _ ih =>
    intro v hv
    rcases List.mem_cons.1 hv with rfl | hv
    · exact C04_in_range _ _ (hi _ (List.mem_cons_self ..)) h
    · exact ih (fun s hs => hi s (List.mem_cons_of_mem _ hs)) v hv

theorem parses_takePage {ss : List Str} {vs : List Value} (h : Parses ss vs) : ∃ p rest b, TakePage ss p rest b := by
  induction h with
  | nil => exact ⟨_, _, _, .nil⟩
  | @cons s v ss vs hs _ ih =>
    by_cases hv : v = .newPage
    · subst hv; exact ⟨_, _, _, .np hs⟩
    · obtain ⟨p, rest, b, h⟩ := ih
      exact ⟨_, _, _, .cons hs hv h⟩

theorem valueOk_textsOk {d : Dms} {vs : List Value} (hr : ∀ v ∈ vs, InRange v) (h : ∀ v ∈ vs, ValueOk d v) : TextsOk vs := by
  intro v hv
  refine ⟨hr v hv, ?_⟩
  rintro c rfl
  exact (h _ hv).2

theorem valueOk_newPage (d : Dms) : ValueOk d .newPage := ⟨by intro c h; simp [tagColor] at h, rfl⟩

theorem pageFits_iff {d : Dms} (hw : WideChars d.fontDefinition) {bg : Color} {t : TextAttr} {p : List Value}
    (hr : ∀ v ∈ p, InRange v) (hv : ∀ v ∈ p, ValueOk d v) :
    AllSections d (fun t sp rect ws => TextsFit d rect (layoutOf d t sp rect ws))
      t none (signRect d) (sections p).1 (sections p).2 ↔
    ∀ q ∈ partsOf d bg t none (signRect d) (sections p).1 (sections p).2, PartFits d q := by
  have h := sections_all (vs := p) (P := fun v => InRange v ∧ ∀ c : UInt16, v = .hexadecimalCharacter c →
    c.toNat < 0xD800 ∨ 0xE000 ≤ c.toNat) (valueOk_textsOk hr hv)
  exact sections_fit hw h.1 h.2

theorem showable_look {d : Dms} (hw : WideChars d.fontDefinition) (n : Nat) : ∀ {ss vs t p}, ss.length < n →
    Parses ss vs → (∀ s ∈ ss, Item s) →
    ((∀ t' ss', PageAt d t ss t' ss' → ∃ vs rest b, TakePage ss' vs rest b ∧ PageOk d t' vs b) ↔
      ValuesOk d vs ∧ LookFits d (looks d t p (splitPages vs))) := by
  induction n with
  | zero => intro ss vs t p h; omega
  | succ n ih =>
    intro ss vs t p hl hp hi
    have hr := parses_inRange hp hi
    obtain ⟨us, rest, b, ht⟩ := parses_takePage hp
    have hru : ∀ v ∈ us, InRange v := by
      intro v hv
      rcases takePage_parses ht hp with ⟨_, rfl⟩ | ⟨_, V', rfl, _⟩
      · exact hr v hv
      · exact hr v (List.mem_append_left _ hv)
    -- this page
    have one : ∀ {bg}, PageOk d t us b ↔ ValuesOk d us ∧ (b = true → d.multiCfg.supportedMultiTags .np = true) ∧
        (partsOf d bg t none (signRect d) (sections us).1 (sections us).2).length ≤ 50 ∧
        ∀ q ∈ partsOf d bg t none (signRect d) (sections us).1 (sections us).2, PartFits d q := by
      intro bg
      rw [partsOf_length]
      constructor
      · rintro ⟨h1, h2, h3, h4, h5⟩
        exact ⟨fun v hv => ⟨h1 v hv, h3 v hv⟩, h2, by omega, (pageFits_iff hw hru h3).1 h5⟩
      · rintro ⟨h1, h2, h3, h4⟩
        exact ⟨fun v hv => (h1 v hv).1, h2, fun v hv => (h1 v hv).2, by omega,
          (pageFits_iff hw hru fun v hv => (h1 v hv).2).2 h4⟩
    -- and the others
    rcases takePage_parses ht hp with ⟨rfl, rfl⟩ | ⟨rfl, V', rfl, hV⟩
    · have hsp : splitPages vs = [vs] := by
        obtain rfl := takePage_end ht
        obtain ⟨us, h1, h2⟩ := takePage_split ht [] .nil
        obtain rfl := parses_unique hp h1
        simpa using h2
      rw [hsp]
      constructor
      · intro h
        obtain ⟨vs', rest', b', ht', hok⟩ := h _ _ .first
        obtain ⟨rfl, rfl, rfl⟩ := takePage_unique ht ht'
        obtain ⟨h1, _, h3⟩ := one.1 hok
        refine ⟨h1, ?_⟩
        intro l hl
        simp only [looks, List.mem_singleton] at hl
        subst hl
        exact h3
      · rintro ⟨h1, h2⟩ t' ss' hat
        rcases pageAt_step ht hat with ⟨rfl, rfl⟩ | ⟨h, _⟩
        · exact ⟨_, _, _, ht, one.2 ⟨h1, by simp, h2 _ (List.mem_cons_self ..)⟩⟩
        · cases h
    · have hsp : splitPages (us ++ .newPage :: V') = us :: splitPages V' := by
        obtain ⟨us', h1, h2⟩ := takePage_split ht V' hV
        obtain rfl := parses_unique hp h1
        simpa using h2
      rw [hsp]
      have hi' : ∀ s ∈ rest, Item s := by
        obtain ⟨pre, e, _⟩ := takePage_consumed ht
        intro s hs
        exact hi s (by rw [e]; exact List.mem_append_right _ hs)
      have ih := @ih rest V' (us.foldl (TextAttr.apply (signAttr d)) t)
        (pageTimes (signPage d).1 p.1 us, background (signPage d).2 p.2 us)
        (by have := (takePage_shorter ht).2 rfl; omega) hV hi'
      constructor
      · intro h
        obtain ⟨vs', rest', b', ht', hok⟩ := h _ _ .first
        obtain ⟨rfl, rfl, rfl⟩ := takePage_unique ht ht'
        obtain ⟨h1, h2, h3⟩ := one.1 hok
        obtain ⟨k1, k2⟩ := ih.1 fun t' ss' hat => h t' ss' (.later ht hat)
        constructor
        · intro v hv
          rcases List.mem_append.1 hv with hv | hv
          · exact h1 v hv
          · rcases List.mem_cons.1 hv with rfl | hv
            · refine ⟨?_, valueOk_newPage d⟩
              intro t ht
              cases ht
              exact h2 rfl
            · exact k1 v hv
        · intro l hl
          rw [looks] at hl
          rcases List.mem_cons.1 hl with rfl | hl
          · exact h3
          · exact k2 l hl
      · rintro ⟨h1, h2⟩ t' ss' hat
        rw [looks] at h2
        rcases pageAt_step ht hat with ⟨rfl, rfl⟩ | ⟨_, hat⟩
        · exact ⟨_, _, _, ht, one.2 ⟨fun v hv => h1 v (List.mem_append_left _ hv),
            fun _ => (h1 .newPage (by simp)).1 _ rfl, h2 _ (List.mem_cons_self ..)⟩⟩
        · exact ih.2 ⟨fun v hv => h1 v (by simp [hv]), fun l hl => h2 l (List.mem_cons_of_mem _ hl)⟩ _ _ hat

/-- **C81 (pictures)** Let the values of the message be in order, and let no character of the fonts have width 0.  When the
message is shown without error, its pages are the pictures of its look. -/
theorem C81_pictures (d : Dms) (hd : AcceptOk d) (hw : WideChars d.fontDefinition) (ms : Str) (ht : TidyMessage d ms)
    (xs) (h : Yields d ms xs) (hn : NoError xs) : ∃ vs, Parses (slices ms) vs ∧ Depicts d xs (lookOf d vs) := by
  obtain ⟨pg', hs, he⟩ := h
  obtain ⟨vs, h1, h2⟩ := steps_depict hd.fonts hd.font hd.graphics hw hs (next_none he).1 .nil (by simp [NoError]) hn
    (by simp [Pages.new]) (by
      rw [pagesNew_attr]
      exact fun t ss hat vs rest b h => (ht t ss hat vs rest b h).2)
  refine ⟨vs, h1, ?_⟩
  have e : (.ofRgb d.backgroundDefaultRgb : Color) = .ofRgb (signBackground d) := by
    rw [backgroundDefault_eq]
  have e2 : DepictsFrom d (Pages.new d ms) xs vs = Depicts d xs (looks d (textAttr (Pages.new d ms).renderState)
      ((d.multiCfg.defaultPageOnTime, d.multiCfg.defaultPageOffTime), .ofRgb d.backgroundDefaultRgb)
      (splitPages vs)) := rfl
  rw [e2, e, pagesNew_attr] at h2
  exact h2

/-- **C81 (acceptance)** A message whose values are in order is shown without error exactly when all its items are well
formed, the sign can show the values, and the texts of its look fit. -/
theorem C81_accepted_iff (d : Dms) (hd : AcceptOk d) (hw : WideChars d.fontDefinition) (ms : Str) (ht : TidyMessage d ms) :
    (∃ xs, Yields d ms xs ∧ NoError xs) ↔
      ∃ vs, Parses (slices ms) vs ∧ ValuesOk d vs ∧ LookFits d (lookOf d vs) := by
  constructor
  · rintro ⟨xs, h, hn⟩
    obtain ⟨vs, hp, _⟩ := C81_pictures d hd hw ms ht xs h hn
    exact ⟨vs, hp, (showable_look hw _ (Nat.lt_succ_self _) hp (slices_items ms)).1
      ((C67_message_iff d hd ms ht).1 ⟨xs, h, hn⟩)⟩
  · rintro ⟨vs, hp, h⟩
    exact (C67_message_iff d hd ms ht).2
      ((showable_look hw _ (Nat.lt_succ_self _) hp (slices_items ms)).2 h)

theorem paints_numbered {d : Dms} {vs : List Value} (h : ∀ v ∈ vs, InRange v) : ∀ {p}, ∀ q ∈ paints d p vs, Numbered q := by
  induction vs with
  | nil => intro p q hq; simp [paints] at hq
  | cons v vs ih =>
    intro p q hq
    have ih := fun p => @ih (fun v hv => h v (List.mem_cons_of_mem _ hv)) p q
    have h0 := h v (List.mem_cons_self ..)
    cases v <;> simp only [paints] at hq <;> first | exact ih _ hq | skip
    case colorRectangle =>
      rcases List.mem_cons.1 hq with rfl | hq
      · trivial
      · exact ih _ hq
    case graphic n pos =>
      rcases List.mem_cons.1 hq with rfl | hq
      · intro e
        have := h0.1
        rw [e] at this
        simp at this
      · exact ih _ hq

theorem partsOf_numbered {d : Dms} {bg : Color} {rest : List (Rectangle × List Value)} : ∀ {t sp rect vs},
    (∀ v ∈ vs, InRange v) → (∀ r ∈ rest, ∀ v ∈ r.2, InRange v) →
    ∀ q ∈ partsOf d bg t sp rect vs rest, ∀ p ∈ q.paints, Numbered p := by
  induction rest with
  | nil =>
    intro t sp rect vs hv _ q hq
    rw [partsOf, List.mem_singleton] at hq
    subst hq
    exact paints_numbered hv
  | cons r rest ih =>
    intro t sp rect vs hv hr q hq
    obtain ⟨r, ws⟩ := r
    rw [partsOf] at hq
    rcases List.mem_cons.1 hq with rfl | hq
    · exact paints_numbered hv
    · exact ih (hr _ (List.mem_cons_self ..)) (fun r h => hr r (List.mem_cons_of_mem _ h)) q hq

theorem splitPages_mem {vs : List Value} : ∀ p ∈ splitPages vs, ∀ v ∈ p, v ∈ vs := by
  induction vs with
  | nil => simp [splitPages]
  | cons v vs ih =>
    intro p hp w hw
    rw [splitPages] at hp
    split at hp
    · rcases List.mem_cons.1 hp with rfl | hp
      · simp at hw
      · exact List.mem_cons_of_mem _ (ih p hp w hw)
    · split at hp
      · rename_i q qs e
        rw [e] at ih
        rcases List.mem_cons.1 hp with rfl | hp
        · rcases List.mem_cons.1 hw with rfl | hw
          · exact List.mem_cons_self ..
          · exact List.mem_cons_of_mem _ (ih q (List.mem_cons_self ..) w hw)
        · exact List.mem_cons_of_mem _ (ih p (List.mem_cons_of_mem _ hp) w hw)
      · rw [List.mem_singleton] at hp
        subst hp
        rw [List.mem_singleton] at hw
        subst hw
        exact List.mem_cons_self ..

theorem looks_numbered {d : Dms} {ps : List (List Value)} : ∀ {t p}, (∀ vs ∈ ps, ∀ v ∈ vs, InRange v) →
    ∀ l ∈ looks d t p ps, ∀ q ∈ l.parts, ∀ x ∈ q.paints, Numbered x := by
  induction ps with
  | nil => intro t p _ l hl; simp [looks] at hl
  | cons vs ps ih =>
    intro t p h l hl
    rw [looks] at hl
    rcases List.mem_cons.1 hl with rfl | hl
    · have := sections_all (h vs (List.mem_cons_self ..))
      exact partsOf_numbered this.1 this.2
    · exact ih (fun vs hv => h vs (List.mem_cons_of_mem _ hv)) l hl

/-- **C81 (one picture)** The look of a message has only one picture. -/
theorem C81_one_picture (d : Dms) (hd : AcceptOk d) (ms : Str) (vs) (hp : Parses (slices ms) vs) (xs ys)
    (h : Depicts d xs (lookOf d vs)) (h' : Depicts d ys (lookOf d vs)) : xs = ys := by
  refine depicts_unique hd.graphics.numbers ?_ h h'
  exact looks_numbered fun p hpp v hv => parses_inRange hp (slices_items ms) v (splitPages_mem p hpp v hv)

/-- **C81** Messages with the same look show the same pages.  Both have values that are in order, no character of the fonts
has width 0; the first is shown without error, and the sign can show the values of the second. -/
theorem C81_same_look (d : Dms) (hd : AcceptOk d) (hw : WideChars d.fontDefinition) (ms ms' : Str)
    (ht : TidyMessage d ms) (ht' : TidyMessage d ms') (vs vs')
    (hp : Parses (slices ms) vs) (hp' : Parses (slices ms') vs') (hl : lookOf d vs = lookOf d vs')
    (hv : ValuesOk d vs') (xs) (h : Yields d ms xs) (hn : NoError xs) : Yields d ms' xs := by
  obtain ⟨us, h1, _, h3⟩ := (C81_accepted_iff d hd hw ms ht).1 ⟨xs, h, hn⟩
  obtain rfl := parses_unique hp h1
  obtain ⟨ys, h4, h5⟩ := (C81_accepted_iff d hd hw ms' ht').2 ⟨vs', hp', hv, hl ▸ h3⟩
  obtain ⟨us, k1, k2⟩ := C81_pictures d hd hw ms ht xs h hn
  obtain rfl := parses_unique hp k1
  obtain ⟨us, k3, k4⟩ := C81_pictures d hd hw ms' ht' ys h4 h5
  obtain rfl := parses_unique hp' k3
  rw [← hl] at k4
  obtain rfl := C81_one_picture d hd ms vs hp xs ys k2 k4
  exact h4

theorem tidyPages_of {d : Dms} (n : Nat) : ∀ {ss vs t}, ss.length < n → Parses ss vs →
    ((∀ t' ss', PageAt d t ss t' ss' → ∀ vs rest b, TakePage ss' vs rest b → vs.length ≤ 255 ∧ TidyPage d t' vs) ↔
      TidyPages d t (splitPages vs)) := by
  induction n with
  | zero => intro ss vs t h; omega
  | succ n ih =>
    intro ss vs t hl hp
    obtain ⟨us, rest, b, ht⟩ := parses_takePage hp
    have hfirst : ∀ {ss' t'}, t' = t → ss' = ss → (us.length ≤ 255 ∧ TidyPage d t us) →
        ∀ vs rest b, TakePage ss' vs rest b → vs.length ≤ 255 ∧ TidyPage d t' vs := by
      rintro ss' t' rfl rfl h vs' rest' b' ht'
      obtain ⟨rfl, rfl, rfl⟩ := takePage_unique ht ht'
      exact h
    rcases takePage_parses ht hp with ⟨rfl, rfl⟩ | ⟨rfl, V', rfl, hV⟩
    · have hsp : splitPages vs = [vs] := by
        obtain rfl := takePage_end ht
        obtain ⟨us, h1, h2⟩ := takePage_split ht [] .nil
        obtain rfl := parses_unique hp h1
        simpa using h2
      rw [hsp]
      constructor
      · intro h
        exact ⟨h _ _ .first _ _ _ ht, trivial⟩
      · rintro ⟨h1, _⟩ t' ss' hat
        rcases pageAt_step ht hat with ⟨e1, e2⟩ | ⟨h, _⟩
        · exact hfirst e1 e2 h1
        · cases h
    · have hsp : splitPages (us ++ .newPage :: V') = us :: splitPages V' := by
        obtain ⟨us', h1, h2⟩ := takePage_split ht V' hV
        obtain rfl := parses_unique hp h1
        simpa using h2
      rw [hsp]
      have ih := @ih rest V' (us.foldl (TextAttr.apply (signAttr d)) t)
        (by have := (takePage_shorter ht).2 rfl; omega) hV
      constructor
      · intro h
        exact ⟨h _ _ .first _ _ _ ht, ih.1 fun t' ss' hat => h t' ss' (.later ht hat)⟩
      · rintro ⟨h1, h2⟩ t' ss' hat
        rcases pageAt_step ht hat with ⟨e1, e2⟩ | ⟨_, hat⟩
        · exact hfirst e1 e2 h1
        · exact ih.2 h2 t' ss' hat

/-- the values of a message are in order, if those of its pages are -/
theorem tidyMessage_iff {d : Dms} {ms : Str} {vs} (hp : Parses (slices ms) vs) :
    TidyMessage d ms ↔ TidyPages d (signAttr d) (splitPages vs) :=
  tidyPages_of _ (Nat.lt_succ_self _) hp

/-- **C81 (other ways to write)** A message may be written without tags that set attributes to what they are already, with
adjacent texts written as one (if they are not centered on a sign with character cells), and with characters written as
text or hexadecimal.  Its pages stay the same. -/
theorem C81_rewritten (d : Dms) (hd : AcceptOk d) (hw : WideChars d.fontDefinition) (ms n : Str)
    (ht : TidyMessage d ms) (vs ws) (hp : Parses (slices ms) vs) (hq : Parses (slices n) ws)
    (hr : Rewrites d (signAttr d) vs ws) (hv : ValuesOk d ws) (xs) (h : Yields d ms xs) (hn : NoError xs) :
    Yields d n xs :=
  C81_same_look d hd hw ms n ht
    ((tidyMessage_iff hq).2 (rewrites_tidyPages (rewrites_pages hr) ((tidyMessage_iff hp).1 ht))) vs ws hp hq
    (rewrites_look hr) hv xs h hn

/-! ### normalizing -/

/-- the state of `normalize` and the attributes agree -/
structure AgreeAttr (st : NormState) (dflt t : TextAttr) : Prop where
  cf : t.foreground = st.cf.getD dflt.foreground
  fo : (t.fontNum, t.fontVersionId) = st.fo.getD (dflt.fontNum, dflt.fontVersionId)
  jl : t.justLine = st.jl.getD dflt.justLine
  jp : t.justPage = st.jp.getD dflt.justPage

theorem agreeAttr_update {st : NormState} {dflt t : TextAttr} (h : AgreeAttr st dflt t) (v : Value) :
    AgreeAttr (st.update v).2 dflt (TextAttr.apply dflt t v) := by
  obtain ⟨h1, h2, h3, h4⟩ := h
  cases v <;> try exact ⟨h1, h2, h3, h4⟩
  case colorForeground c => exact ⟨rfl, h2, h3, h4⟩
  case font f =>
    rcases f with _ | ⟨n, i⟩
    · exact ⟨h1, rfl, h3, h4⟩
    · exact ⟨h1, rfl, h3, h4⟩
  case justificationLine j => exact ⟨h1, h2, rfl, h4⟩
  case justificationPage j => exact ⟨h1, h2, h3, rfl⟩

theorem agreeAttr_same {st : NormState} {dflt t : TextAttr} (h : AgreeAttr st dflt t) {v : Value}
    (hu : (st.update v).1 = true) : setsAttr v ∧ TextAttr.apply dflt t v = t := by
  obtain ⟨h1, h2, h3, h4⟩ := h
  obtain ⟨t1, t2, t3, t4, t5, t6⟩ := t
  dsimp only at h1 h2 h3 h4
  rcases (update_true hu).1 with rfl | rfl | rfl | rfl
  · exact ⟨trivial, by simp [TextAttr.apply, h1]⟩
  · refine ⟨trivial, ?_⟩
    cases hf : st.fo with
    | none => rw [hf] at h2; simp at h2; simp [TextAttr.apply, h2]
    | some f => obtain ⟨n, i⟩ := f; rw [hf] at h2; simp at h2; simp [TextAttr.apply, h2]
  · exact ⟨trivial, by simp [TextAttr.apply, h3]⟩
  · exact ⟨trivial, by simp [TextAttr.apply, h4]⟩

theorem inRange_text {s : Str} (h : InRange (.text s)) : s ≠ [] := by
  rcases h with rfl | rfl | h
  · simp
  · simp
  · exact h.1

theorem dedup_mem {vs : List Value} : ∀ {st v}, v ∈ dedup st vs → v ∈ vs := by
  induction vs with
  | nil => intro st v h; simp [dedup] at h
  | cons w vs ih =>
    intro st v h
    unfold dedup at h
    split at h
    · exact List.mem_cons_of_mem _ (ih h)
    · rcases List.mem_cons.1 h with rfl | h
      · exact List.mem_cons_self ..
      · exact List.mem_cons_of_mem _ (ih h)

theorem mergeT_text {vs : List Value} (h : ∀ s, .text s ∈ vs → s ≠ []) : ∀ s, .text s ∈ mergeT vs → s ≠ [] := by
  induction vs with
  | nil => simp [mergeT]
  | cons v vs ih =>
    have ih := ih (fun s hs => h s (List.mem_cons_of_mem _ hs))
    intro s hs
    rw [mergeT] at hs
    rcases joinSpan_cases v (mergeT vs) with ⟨a, b, r, rfl, hr, _, _, hj⟩ | ⟨hj, -⟩
    · rw [hj] at hs
      rcases List.mem_cons.1 hs with hs | hs
      · simp only [Value.text.injEq] at hs
        subst hs
        have := h a (List.mem_cons_self ..)
        simp [this]
      · exact ih s (by rw [hr]; exact List.mem_cons_of_mem _ hs)
    · rw [hj] at hs
      rcases List.mem_cons.1 hs with rfl | hs
      · exact h s (List.mem_cons_self ..)
      · exact ih s hs

theorem dedup_rewrites {d : Dms} {vs : List Value} (hx : ∀ s, .text s ∈ vs → s ≠ [])
    (hc : d.vmsCfg.charWidthPixels = 0 ∨ (signAttr d).justLine ≠ .center ∧ .justificationLine (some .center) ∉ vs) :
    ∀ {st t}, AgreeAttr st (signAttr d) t → (d.vmsCfg.charWidthPixels = 0 ∨ t.justLine ≠ .center) →
    Rewrites d t vs (mergeT (dedup st vs)) := by
  induction vs with
  | nil => intro st t _ _; exact .nil
  | cons v vs ih =>
    intro st t ha ht
    have ih := @ih (fun s hs => hx s (List.mem_cons_of_mem _ hs))
      (hc.imp id fun h => ⟨h.1, fun hm => h.2 (List.mem_cons_of_mem _ hm)⟩)
    unfold dedup
    split
    · rename_i hu
      obtain ⟨h1, h2⟩ := agreeAttr_same ha hu
      refine .drop h1 h2 (ih ?_ ht)
      rw [(update_true hu).2]
      exact ha
    · have ht' : d.vmsCfg.charWidthPixels = 0 ∨ (TextAttr.apply (signAttr d) t v).justLine ≠ .center := by
        rcases hc with hc | ⟨hc1, hc2⟩
        · exact .inl hc
        · rcases ht with ht | ht
          · exact .inl ht
          · right
            rename_i hr0
            clear hr0
            cases v <;> try exact ht
            case font f => rcases f with _ | ⟨n, i⟩ <;> exact ht
            case justificationLine j =>
              cases j with
              | none => exact hc1
              | some j =>
                intro e
                have e : j = .center := e
                subst e
                exact hc2 (List.mem_cons_self ..)
      have hr := ih (agreeAttr_update ha v) ht'
      rw [mergeT]
      rcases joinSpan_cases v (mergeT (dedup (st.update v).2 vs)) with ⟨a, b, r, rfl, e, _, _, hj⟩ | ⟨hj, -⟩
      · rw [hj]
        rw [e] at hr
        refine .join (hx a (List.mem_cons_self ..)) ?_ ht hr
        refine mergeT_text (vs := dedup (st.update (.text a)).2 vs) ?_ b (by rw [e]; exact List.mem_cons_self ..)
        exact fun s hs => hx s (List.mem_cons_of_mem _ (dedup_mem hs))
      · rw [hj]
        exact .keep hr

theorem parses_validValues {ss : List Str} {vs : List Value} (h : Parses ss vs) : ss.filterMap validOf = vs := by
  induction h with
  | nil => rfl
  | cons hv _ ih => rw [List.filterMap_cons_some (validOf_eq_some.2 hv), ih]

theorem parses_map {vs : List Value} (h : ∀ v ∈ vs, Faithful v) : Parses (vs.map Value.display) vs := by
  induction vs with
  | nil => exact .nil
  | cons v vs ih =>
    exact .cons (display_parse v (h v (List.mem_cons_self ..))).2 (ih fun v hv => h v (List.mem_cons_of_mem _ hv))

theorem mergeT_ok {d : Dms} {vs : List Value} (h : ValuesOk d vs) : ValuesOk d (mergeT vs) := by
  induction vs with
  | nil => simp [mergeT, ValuesOk]
  | cons v vs ih =>
    have ih := ih (fun v hv => h v (List.mem_cons_of_mem _ hv))
    rw [mergeT]
    rcases joinSpan_cases v (mergeT vs) with ⟨a, b, r, rfl, hr, _, _, hj⟩ | ⟨hj, -⟩
    · rw [hj]
      intro w hw
      rcases List.mem_cons.1 hw with rfl | hw
      · exact ⟨fun t ht => by simp [Value.tag] at ht, fun c hc => by simp [tagColor] at hc, rfl⟩
      · exact ih w (by rw [hr]; exact List.mem_cons_of_mem _ hw)
    · rw [hj]
      intro w hw
      rcases List.mem_cons.1 hw with rfl | hw
      · exact h _ (List.mem_cons_self ..)
      · exact ih w hw

/-- **C71 (values in order)** The message and its normalized form have the same pages.  For messages which are rendered
without errors, whose values are in order, whose last item is something visible, without hexadecimal characters of two
or more decimal digits, and, on signs with character cells, without centered text.  Tags to be removed may stand between two
texts.
Missing for the full claim: other messages; see `C71_false`, `C71_joined_false`, and `C71_pages_partial` for values that are not in
order. -/
theorem C71_tidy_partial (d : Dms) (hd : AcceptOk d) (hw : WideChars d.fontDefinition) (ms n : Str)
    (h : normalize ms = .ok n) (hs : SmallHex ms)
    (hl : ∃ v, (validValues ms).getLast? = some v ∧ Visible v) (ht : TidyMessage d ms)
    (hc : d.vmsCfg.charWidthPixels = 0 ∨
      d.multiCfg.defaultJustificationLine ≠ .center ∧ .justificationLine (some .center) ∉ validValues ms)
    (xs) (hy : Yields d ms xs) (hn : NoError xs) : Yields d n xs := by
  obtain ⟨v, hv, hvis⟩ := hl
  have hk : kept ms = dedup .init (validValues ms) := by
    unfold kept
    apply trimB_of_last
    rw [dedup_last .init hv hvis]
    rintro w ⟨⟩
    have := isBlank_iff v (validValues_inRange ms v (List.mem_of_getLast? hv))
    cases hb : v.isBlank
    · rfl
    · exact absurd hvis (this.1 hb)
  obtain ⟨vs, hp, hok, _⟩ := (C81_accepted_iff d hd hw ms ht).1 ⟨xs, hy, hn⟩
  have e : validValues ms = vs := parses_validValues hp
  have hq : Parses (slices n) (mergeT (kept ms)) := by
    rw [slices_normalize h]
    exact parses_map (faithful_mergeT (kept_faithful hs))
  refine C81_rewritten d hd hw ms n ht vs _ hp hq ?_ (mergeT_ok ?_) xs hy hn
  · rw [hk, e]
    rw [e] at hc
    refine dedup_rewrites (fun s hs => inRange_text (parses_inRange hp (slices_items ms) _ hs)) hc
      ⟨rfl, rfl, rfl, rfl⟩ ?_
    rcases hc with hc | hc
    · exact .inl hc
    · exact .inr hc.1
  · rw [hk, e]
    exact fun v hv => hok v (dedup_mem hv)

/-! ### concrete messages -/

/-- characters of width 0 are not in the fonts of the examples -/
theorem Tests.wide : WideChars renderFonts := by
  intro f hf c hc hn
  have : (renderFonts.all fun f => f.characters.all fun c => decide (c.number.toNat ≠ 0 → 0 < c.width.toNat)) = true := by
    decide +kernel
  have := List.all_eq_true.1 (List.all_eq_true.1 this f hf) c hc
  exact (of_decide_eq_true this) hn

theorem Tests.middle_none {d : Dms} {t sp rect ws}
    (h : (pieces (signAttr d) t sp 0 true ws).all (·.attr.justPage ≠ .middle) = true) :
    (∃ s ∈ layoutOf d t sp rect ws, s.state.justPage = .middle) → CellFonts d (layoutOf d t sp rect ws) := by
  rintro ⟨s, hs, e⟩
  obtain ⟨p, hp, rfl⟩ := List.mem_map.1 hs
  rw [List.all_eq_true] at h
  exact absurd e (by simpa using h p hp : ¬ p.attr.justPage = .middle)

/-- a message with tags that have no effect -/
def Tests.longMsg : Str := c!"[fo]A[fo8]B[hc41][nl][jl3][cf9,9,9]A[cf9,9,9]B[np][jl]A[sc3]A[sc3]B"
/-- the same message, shorter -/
def Tests.shortMsg : Str := c!"ABA[nl][jl3][cf9,9,9]AB[np][jl]A[sc3]AB"

def Tests.longValues : List Value := [.font none, .text c!"A", .font (some (8, none)), .text c!"B", .hexadecimalCharacter 0x41,
  .newLine none, .justificationLine (some .center), .colorForeground (some (.rgb 9 9 9)), .text c!"A",
  .colorForeground (some (.rgb 9 9 9)), .text c!"B", .newPage, .justificationLine none, .text c!"A", .spacingCharacter 3,
  .text c!"A", .spacingCharacter 3, .text c!"B"]
def Tests.shortValues : List Value := [.text c!"ABA", .newLine none, .justificationLine (some .center),
  .colorForeground (some (.rgb 9 9 9)), .text c!"AB", .newPage, .justificationLine none, .text c!"A", .spacingCharacter 3,
  .text c!"AB"]

theorem Tests.parses_of {ss : List Str} {vs : List Value} (h : ss.map tryFrom = vs.map fun v => .ok (.ok v)) :
    Parses ss vs := by
  induction ss generalizing vs with
  | nil => cases vs with
    | nil => exact .nil
    | cons v vs => simp at h
  | cons s ss ih => cases vs with
    | nil => simp at h
    | cons v vs =>
      simp only [List.map_cons, List.cons.injEq] at h
      exact .cons h.1 (ih h.2)

theorem Tests.long_parses : Parses (slices longMsg) longValues := parses_of (by decide +kernel)
theorem Tests.short_parses : Parses (slices shortMsg) shortValues := parses_of (by decide +kernel)

theorem Tests.long_tidy : TidyMessage graphDms longMsg := by
  rw [tidyMessage_iff long_parses]
  exact ⟨⟨by decide, .last ⟨by decide, middle_none (by decide +kernel)⟩⟩,
    ⟨by decide, .last ⟨by decide, middle_none (by decide +kernel)⟩⟩, trivial⟩

theorem Tests.short_rewrites : Rewrites graphDms (signAttr graphDms) longValues shortValues :=
  .drop trivial rfl <| .join (b := c!"BA") (by simp) (by simp) (.inl rfl) <| .drop trivial rfl <|
    .join (b := c!"A") (by simp) (by simp) (.inl rfl) <| .hex <| .keep <| .keep <| .keep <|
    .join (b := c!"B") (by simp) (by simp) (.inl rfl) <| .drop trivial rfl <| .keep <| .keep <| .keep <| .keep <| .keep <|
    .join (b := c!"B") (by simp) (by simp) (.inl rfl) <| .drop trivial rfl <| .keep .nil

theorem Tests.short_ok : ValuesOk graphDms shortValues := by
  intro v hv
  have : v = .text c!"ABA" ∨ v = .newLine none ∨ v = .justificationLine (some .center) ∨
    v = .colorForeground (some (.rgb 9 9 9)) ∨ v = .text c!"AB" ∨ v = .newPage ∨ v = .justificationLine none ∨
    v = .text c!"A" ∨ v = .spacingCharacter 3 ∨ v = .text c!"AB" := by
    simpa [shortValues, or_assoc] using hv
  have none_ok : ∀ {w : Value}, tagColor w = none → ColorOk graphDms.multiCfg.colorScheme w := by
    intro w h c hc; rw [h] at hc; cases hc
  rcases this with rfl | rfl | rfl | rfl | rfl | rfl | rfl | rfl | rfl | rfl <;>
    refine ⟨fun t ht => by cases ht; try decide, ?_⟩
  · exact ⟨none_ok rfl, rfl⟩
  · exact ⟨none_ok rfl, rfl⟩
  · exact ⟨none_ok rfl, by decide⟩
  · exact ⟨fun c hc => by cases hc; trivial, rfl⟩
  · exact ⟨none_ok rfl, rfl⟩
  · exact valueOk_newPage _
  · exact ⟨none_ok rfl, rfl⟩
  · exact ⟨none_ok rfl, rfl⟩
  · exact ⟨none_ok rfl, .inl rfl⟩
  · exact ⟨none_ok rfl, rfl⟩

/-- the shorter message shows the same pages -/
example : ∀ xs, Yields graphDms longMsg xs → NoError xs → Yields graphDms shortMsg xs :=
  C81_rewritten graphDms fullDms_accept wide longMsg shortMsg long_tidy _ _ long_parses short_parses short_rewrites short_ok
-- and these are two pages
example : pageCount (render graphDms longMsg) = some 2 := by decide +kernel
-- the look of the first page has two texts
example : (lookOf graphDms longValues).map (fun l => l.parts.map fun q => q.texts.map (·.str)) =
    [[[c!"ABA", c!"AB"]], [[c!"A", c!"AB"]]] := by decide +kernel

/-- `C71_tidy_partial` applies to this message: tags are removed between texts -/
example : ∀ xs, Yields graphDms c!"[fo]A[fo8]B[fo8]A[nl][jl3]A[cf]B[np][jl]A" xs → NoError xs →
    Yields graphDms c!"A[fo8]BA[nl][jl3]AB[np][jl]A" xs := by
  have hp : Parses (slices c!"[fo]A[fo8]B[fo8]A[nl][jl3]A[cf]B[np][jl]A") [.font none, .text c!"A", .font (some (8, none)),
      .text c!"B", .font (some (8, none)), .text c!"A", .newLine none, .justificationLine (some .center), .text c!"A",
      .colorForeground none, .text c!"B", .newPage, .justificationLine none, .text c!"A"] := parses_of (by decide +kernel)
  have hv := parses_validValues hp
  refine C71_tidy_partial graphDms fullDms_accept wide _ _ (by decide +kernel) ?_ ?_ ?_ (.inl rfl)
  · intro c hc
    rw [← mem_validValues] at hc
    unfold validValues at hc
    rw [hv] at hc
    simp at hc
  · unfold validValues
    rw [hv]
    exact ⟨.text c!"A", rfl, 'A', by simp, by simp [IsSpace]⟩
  · rw [tidyMessage_iff hp]
    exact ⟨⟨by decide, .last ⟨by decide, middle_none (by decide +kernel)⟩⟩,
      ⟨by decide, .last ⟨by decide, middle_none (by decide +kernel)⟩⟩, trivial⟩
-- and these are two pages
example : pageCount (render graphDms c!"[fo]A[fo8]B[fo8]A[nl][jl3]A[cf]B[np][jl]A") = some 2 := by decide +kernel

/-! ### characters of width 0 -/

/-- a sign whose character `z` has width 0 -/
def Tests.thinDms : Dms := { fullDms with fontDefinition := [⟨8, c!"thin", 2, 1, 1, [⟨122, 0, []⟩, ⟨65, 2, [0xF0]⟩]⟩] }

/-- **C81 (why `WideChars`)** With a character of width 0, texts written separately and as one may show different pages,
since no space is added in a text before the first pixel column, but is between texts.  All else that
`C81_rewritten` asks for is met here. -/
theorem C81_zero_width : ∃ (d : Dms) (ms n : Str) (vs ws : List Value), AcceptOk d ∧ TidyMessage d ms ∧
    Parses (slices ms) vs ∧ Parses (slices n) ws ∧ Rewrites d (signAttr d) vs ws ∧ ValuesOk d ws ∧
    ∃ xs, Yields d ms xs ∧ NoError xs ∧ ¬ Yields d n xs := by
  have hp : Parses (slices c!"[fo8]z[fo8]A") [.font (some (8, none)), .text c!"z", .font (some (8, none)), .text c!"A"] :=
    parses_of (by decide +kernel)
  refine ⟨thinDms, c!"[fo8]z[fo8]A", c!"[fo8]zA", _, [.font (some (8, none)), .text c!"zA"], ?_, ?_, hp,
    parses_of (by decide +kernel), ?_, ?_, (changed_pages (by decide +kernel)).2⟩
  · exact {
      width := by decide
      height := by decide
      size := by decide
      graphics := (C21_accepts_iff _ 60 30).mp (by decide +kernel)
      font := by decide
      justPage := by decide
      justLine := by decide
      fonts := (C20_accepts_iff _).mp (by decide +kernel) }
  · rw [tidyMessage_iff hp]
    exact ⟨⟨by decide, .last ⟨by decide, middle_none (by decide +kernel)⟩⟩, trivial⟩
  · exact .keep (.join (a := c!"z") (b := c!"A") (by simp) (by simp) (.inl rfl) (.drop trivial rfl (.keep .nil)))
  · intro v hv
    have : v = .font (some (8, none)) ∨ v = .text c!"zA" := by simpa using hv
    rcases this with rfl | rfl <;> refine ⟨fun t ht => by cases ht; try decide, ?_⟩
    · exact ⟨fun c hc => by simp [tagColor] at hc, by decide⟩
    · exact ⟨fun c hc => by simp [tagColor] at hc, rfl⟩

end Ntcip
