import Verif.Spec.Told
import Verif.Props.Account
import Verif.Props.Tables
import Verif.Props.Version
import Verif.Props.Look
import Verif.Props.Cells
import Verif.Spec.Sequel
import Verif.Lemmas.Fill
import Verif.Lemmas.Rewrite
import Verif.Lemmas.Trade
/-
Property C125: a sign is built from what its builder was told last.
-/
namespace Ntcip
open Spec Tests

theorem lastTold_append {α : Type} (kind : Setting → Option α) (ss : List Setting) (s : Setting) (dflt : α) :
    lastTold kind (ss ++ [s]) dflt = (kind s).getD (lastTold kind ss dflt) := by
  unfold lastTold
  rw [List.filterMap_append]
  cases hk : kind s <;> simp [hk]

theorem told_eq (b : DmsBuilder) (ss : List Setting) : ss.foldl Setting.tell b =
    ⟨lastTold Setting.sign? ss b.signCfg, lastTold Setting.vms? ss b.vmsCfg, lastTold Setting.fonts? ss b.fontDefinition,
     lastTold Setting.multi? ss b.multiCfg, lastTold Setting.graphics? ss b.graphicDefinition⟩ := by
  have key : ∀ rs : List Setting, rs.reverse.foldl Setting.tell b =
      ⟨lastTold Setting.sign? rs.reverse b.signCfg, lastTold Setting.vms? rs.reverse b.vmsCfg,
       lastTold Setting.fonts? rs.reverse b.fontDefinition, lastTold Setting.multi? rs.reverse b.multiCfg,
       lastTold Setting.graphics? rs.reverse b.graphicDefinition⟩ := by
    intro rs
    induction rs with
    | nil => rfl
    | cons s rs ih =>
      rw [List.reverse_cons, List.foldl_append, ih]
      simp only [lastTold_append]
      cases s <;> rfl
  simpa using key ss.reverse

/-- **C125** A sign has the settings its builder was told last, of each kind, or else the default ones.  Of the graphics,
those which are larger than the sign are left out (C22). -/
theorem C125_last (p : Profile) (C F G : Nat) (ss : List Setting) (d : Dms)
    (h : (ss.foldl Setting.tell (DmsBuilder.default C F G)).build p = .ok d) :
    d.signCfg = lastTold Setting.sign? ss .default ∧ d.vmsCfg = lastTold Setting.vms? ss .default ∧
    d.fontDefinition = lastTold Setting.fonts? ss (.default C F) ∧ d.multiCfg = lastTold Setting.multi? ss .default ∧
    d.graphicDefinition.length = (lastTold Setting.graphics? ss (.default G)).length ∧
    ∀ (i : Nat) g, (lastTold Setting.graphics? ss (.default G))[i]? = some g →
      ¬ TooLarge d.vmsCfg.signWidthPixels d.vmsCfg.signHeightPixels g → d.graphicDefinition[i]? = some g := by
  obtain ⟨h1, h2, h3, h4, _, _, h7, h8, _⟩ := C22_built_sign_valid p _ d h
  rw [told_eq] at h1 h2 h3 h4 h7 h8
  refine ⟨h1, h2, h4, h3, h7, fun i g hi hl => h8 i g hi ?_⟩
  rw [h2] at hl
  exact hl

/-- **C125** Whether a sign can be built, and which one, depends only on what was told last of each kind. -/
theorem C125_order (p : Profile) (b : DmsBuilder) (ss ss' : List Setting)
    (h1 : (ss.filterMap Setting.sign?).getLast? = (ss'.filterMap Setting.sign?).getLast?)
    (h2 : (ss.filterMap Setting.vms?).getLast? = (ss'.filterMap Setting.vms?).getLast?)
    (h3 : (ss.filterMap Setting.fonts?).getLast? = (ss'.filterMap Setting.fonts?).getLast?)
    (h4 : (ss.filterMap Setting.multi?).getLast? = (ss'.filterMap Setting.multi?).getLast?)
    (h5 : (ss.filterMap Setting.graphics?).getLast? = (ss'.filterMap Setting.graphics?).getLast?) :
    (ss.foldl Setting.tell b).build p = (ss'.foldl Setting.tell b).build p := by
  rw [told_eq, told_eq]
  simp only [lastTold, h1, h2, h3, h4, h5]

/-! ### the default sign -/

theorem page_of_value {v : Value} (hv : v ≠ .newPage) {vs : List Value} (h : v ∈ vs) : ∃ p ∈ splitPages vs, v ∈ p := by
  induction vs with
  | nil => cases h
  | cons w vs ih =>
    by_cases hw : w = .newPage
    · subst hw
      obtain ⟨p, hp, hm⟩ := ih ((List.mem_cons.1 h).resolve_left hv)
      exact ⟨p, by rw [splitPages, if_pos rfl]; exact List.mem_cons_of_mem _ hp, hm⟩
    · obtain ⟨p, ps, e1, e2⟩ := splitPages_cons (vs := vs) hw
      rw [e2]
      rcases List.mem_cons.1 h with rfl | h
      · exact ⟨_, List.mem_cons_self .., List.mem_cons_self ..⟩
      · obtain ⟨q, hq, hm⟩ := ih h
        rw [e1] at hq
        rcases List.mem_cons.1 hq with rfl | hq
        · exact ⟨_, List.mem_cons_self .., List.mem_cons_of_mem _ hm⟩
        · exact ⟨q, List.mem_cons_of_mem _ hq, hm⟩

theorem attr_numbered {dflt : TextAttr} (h0 : 1 ≤ dflt.fontNum.toNat) {v : Value} (hv : InRange v) {a : TextAttr}
    (ha : 1 ≤ a.fontNum.toNat) : 1 ≤ (TextAttr.apply dflt a v).fontNum.toNat := by
  cases v <;> try exact ha
  case font f =>
    cases f with
    | none => exact h0
    | some f => exact hv f.1 f.2 rfl

theorem attrs_numbered {dflt : TextAttr} (h0 : 1 ≤ dflt.fontNum.toNat) {vs : List Value} : ∀ {a : TextAttr},
    (∀ v ∈ vs, InRange v) → 1 ≤ a.fontNum.toNat → 1 ≤ (vs.foldl (TextAttr.apply dflt) a).fontNum.toNat := by
  induction vs with
  | nil => intro a _ ha; exact ha
  | cons v vs ih =>
    intro a hv ha
    exact ih (fun w hw => hv w (List.mem_cons_of_mem _ hw)) (attr_numbered h0 (hv v (List.mem_cons_self ..)) ha)

theorem texts_numbered {dflt : TextAttr} (h0 : 1 ≤ dflt.fontNum.toNat) {vs : List Value} : ∀ {a : TextAttr},
    (∀ v ∈ vs, InRange v) → 1 ≤ a.fontNum.toNat → ∀ q ∈ Spec.texts dflt a vs, 1 ≤ q.1.fontNum.toNat := by
  induction vs with
  | nil => intro a _ _ q hq; simp [Spec.texts] at hq
  | cons v vs ih =>
    intro a hv ha q hq
    have i := @ih _ (fun w hw => hv w (List.mem_cons_of_mem _ hw)) (attr_numbered h0 (hv v (List.mem_cons_self ..)) ha) q
    cases v
    case text t =>
      rcases List.mem_cons.1 hq with rfl | hq
      · exact ha
      · exact i hq
    case hexadecimalCharacter t =>
      rcases List.mem_cons.1 hq with rfl | hq
      · exact ha
      · exact i hq
    all_goals exact i hq

theorem pictured_page {d : Dms} (h0 : 1 ≤ d.multiCfg.defaultFont.toNat) {ps : List (List Value)} : ∀ {t pa xs},
    1 ≤ t.fontNum.toNat → (∀ p ∈ ps, ∀ v ∈ p, InRange v) → Pictured d t pa xs ps → ∀ p ∈ ps,
    ∃ bg u raster, 1 ≤ u.fontNum.toNat ∧ Composed d bg u none (signRect d) (sections p).1 (sections p).2
      (plain d d.vmsCfg.signWidthPixels.toNat d.vmsCfg.signHeightPixels.toNat bg) raster := by
  induction ps with
  | nil => intro t pa xs _ _ _ p hp; cases hp
  | cons q ps ih =>
    intro t pa xs ht hr h p hp
    obtain ⟨raster, more, h1, _, h3⟩ := h
    rcases List.mem_cons.1 hp with rfl | hp
    · exact ⟨_, _, raster, ht, h1⟩
    · exact ih (attrs_numbered h0 (hr q (List.mem_cons_self ..)) ht) (fun r hr' => hr r (List.mem_cons_of_mem _ hr')) h3 p hp

theorem mem_splitPages {vs : List Value} : ∀ p ∈ splitPages vs, ∀ v ∈ p, v ∈ vs := by
  induction vs with
  | nil => intro p hp v hv; simp only [splitPages, List.mem_singleton] at hp; subst hp; cases hv
  | cons w vs ih =>
    intro p hp v hv
    by_cases hw : w = .newPage
    · rw [splitPages, if_pos hw] at hp
      rcases List.mem_cons.1 hp with rfl | hp
      · cases hv
      · exact List.mem_cons_of_mem _ (ih p hp v hv)
    · obtain ⟨q, qs, e1, e2⟩ := splitPages_cons (vs := vs) hw
      rw [e2] at hp
      rw [e1] at ih
      rcases List.mem_cons.1 hp with rfl | hp
      · rcases List.mem_cons.1 hv with rfl | hv
        · exact List.mem_cons_self ..
        · exact List.mem_cons_of_mem _ (ih q (List.mem_cons_self ..) v hv)
      · exact List.mem_cons_of_mem _ (ih p (List.mem_cons_of_mem _ hp) v hv)

theorem texts_mem {dflt : TextAttr} {vs : List Value} {v : Value} (h : v ∈ vs)
    (hv : (∃ t, v = .text t) ∨ ∃ c, v = .hexadecimalCharacter c) : ∀ a, Spec.texts dflt a vs ≠ [] := by
  induction vs with
  | nil => cases h
  | cons w vs ih =>
    intro a
    rcases List.mem_cons.1 h with rfl | h
    · rcases hv with ⟨t, rfl⟩ | ⟨c, rfl⟩ <;> simp [Spec.texts]
    · have := ih h
      cases w <;> simp [Spec.texts, this]

/-- **C125** A sign without fonts shows no message with text, not even blanks, and one without graphics none with a
graphic. -/
theorem C125_without (d : Dms) (hf : FontsOk d.fontDefinition) (h0 : 1 ≤ d.multiCfg.defaultFont.toNat) (W H : Nat)
    (hg : GraphicsOk W H d.graphicDefinition) (ms : Str) (xs) (h : ShownAs d ms xs) :
    ((∀ f ∈ d.fontDefinition, f.number.toNat = 0) → ∀ t c, .ok (.ok (.text t)) ∉ values ms ∧
      .ok (.ok (.hexadecimalCharacter c)) ∉ values ms) ∧
    ((∀ g ∈ d.graphicDefinition, g.number.toNat = 0) → ∀ n pos, .ok (.ok (.graphic n pos)) ∉ values ms) := by
  obtain ⟨vs, hp, hP⟩ := C92_pictures d hf h0 W H hg ms xs h.1 h.2
  have hr := parses_inRange hp (slices_items ms)
  have hm : ∀ v, .ok (.ok v) ∈ values ms → v ∈ vs := by
    intro v hv
    rw [values, parses_values hp] at hv
    obtain ⟨w, hw, e⟩ := List.mem_map.1 hv
    cases e
    exact hw
  have page := pictured_page (t := signAttr d) h0 h0 (fun p hp v hv => hr v (mem_splitPages p hp v hv)) hP
  refine ⟨fun hn => ?_, fun hn n pos hv => ?_⟩
  · have key : ∀ v, .ok (.ok v) ∈ values ms → ((∃ t, v = .text t) ∨ ∃ c, v = .hexadecimalCharacter c) → False := by
      intro v hv hk
      obtain ⟨p, hp, hvp⟩ := page_of_value (by rcases hk with ⟨t, rfl⟩ | ⟨c, rfl⟩ <;> simp) (hm v hv)
      obtain ⟨bg, u, raster, hu, hC⟩ := page p hp
      obtain ⟨q, hq⟩ := List.exists_mem_of_ne_nil _ (texts_mem (dflt := signAttr d) hvp hk u)
      obtain ⟨f, h1, h2, _⟩ := (composed_uses hC rfl).1 q hq
      have h3 := texts_numbered (dflt := signAttr d) h0 (fun v hv => hr v (mem_splitPages p hp v hv)) hu q hq
      have h4 := hn f h1
      rw [h2] at h4
      omega
    exact fun t c => ⟨fun hv => key _ hv (.inl ⟨t, rfl⟩), fun hv => key _ hv (.inr ⟨c, rfl⟩)⟩
  · obtain ⟨p, hp, hvp⟩ := page_of_value (by simp) (hm _ hv)
    obtain ⟨bg, u, raster, hu, hC⟩ := page p hp
    obtain ⟨g, h1, h2, _⟩ := (composed_uses hC rfl).2 n pos hvp
    have h3 : 1 ≤ n.toNat := (hr _ (hm _ hv)).1
    have h4 := hn g h1
    rw [h2] at h4
    omega

/-- **C125** The settings which are the default make a sign, for all sizes of its tables.  It is filled by its
character cells, has no fonts and no graphics and shows no message with text or a graphic. -/
theorem C125_default (p : Profile) (C F G : Nat) : ∃ d, (DmsBuilder.default C F G).build p = .ok d ∧
    d.signCfg = .default ∧ d.vmsCfg = .default ∧ d.multiCfg = .default ∧ d.fontDefinition = .default C F ∧
    d.graphicDefinition = .default G ∧ CellSign d ∧
    ∀ ms xs, ShownAs d ms xs → ∀ x ∈ values ms, ∃ v, x = .ok (.ok v) ∧ (∀ t, v ≠ .text t) ∧
      (∀ c, v ≠ .hexadecimalCharacter c) ∧ ∀ n pos, v ≠ .graphic n pos := by
  have hF : FontsOk (FontTable.default C F) := by
    have e : ∀ f ∈ FontTable.default C F, f.number.toNat = 0 := by
      intro f hf
      rw [FontTable.default, List.mem_replicate] at hf
      rw [hf.2]; rfl
    exact ⟨fun f hf hn => absurd (e f hf) hn, fun i j a b hi hj hn => absurd (e a (List.mem_of_getElem? hi)) hn⟩
  have eG : ∀ g ∈ GraphicTable.default G, g.number.toNat = 0 := by
    intro g hg
    rw [GraphicTable.default, List.mem_replicate] at hg
    rw [hg.2]; rfl
  have hG : ∀ w h, GraphicsOk w h (GraphicTable.default G) := fun w h =>
    ⟨fun g hg hn => absurd (eG g hg) hn, fun i j a b hi hj hn => absurd (eG a (List.mem_of_getElem? hi)) hn⟩
  have hR : ∀ w h, GraphicTable.retain (GraphicTable.default G) w h = .default G := by
    intro w h
    simp [GraphicTable.retain, GraphicTable.default]
  have hs : SignCfg.default.validate p VmsCfg.default = .ok () := by
    cases p <;> decide +kernel
  have hm : MultiCfg.default.validate = .ok () := by decide +kernel
  refine ⟨⟨.default, .default, .default C F, .default, .default G⟩, ?_, rfl, rfl, rfl, rfl, rfl,
    ⟨(by decide : 0 < VmsCfg.default.charWidthPixels.toNat), (by decide : 0 < VmsCfg.default.charHeightPixels.toNat),
      (by decide : VmsCfg.default.signWidthPixels.toNat % VmsCfg.default.charWidthPixels.toNat = 0),
      (by decide : VmsCfg.default.signHeightPixels.toNat % VmsCfg.default.charHeightPixels.toNat = 0)⟩, fun ms xs h x hx => ?_⟩
  · simp only [DmsBuilder.build, DmsBuilder.default, hs, hm, (C20_accepts_iff _).2 hF, hR, (C21_accepts_iff _ _ _).2 (hG _ _),
      DmsBuilder.liftE, Out.mapErr_ok, Out.ok_bind]
    rfl
  · obtain ⟨k1, k2⟩ := C125_without ⟨.default, .default, .default C F, .default, .default G⟩ hF
      (show 1 ≤ MultiCfg.default.defaultFont.toNat by decide) 0 0 (hG 0 0) ms xs h
    obtain ⟨vs, hp, _⟩ := C92_pictures ⟨.default, .default, .default C F, .default, .default G⟩ hF
      (show 1 ≤ MultiCfg.default.defaultFont.toNat by decide) 0 0 (hG 0 0) ms xs h.1 h.2
    have hx' := hx
    rw [values, parses_values hp] at hx'
    obtain ⟨v, _, rfl⟩ := List.mem_map.1 hx'
    have k1 := k1 fun f hf => by
      have hf : f ∈ FontTable.default C F := hf
      rw [FontTable.default, List.mem_replicate] at hf
      rw [hf.2]; rfl
    refine ⟨v, rfl, ?_, ?_, ?_⟩
    · rintro t rfl; exact (k1 t 0).1 hx
    · rintro c rfl; exact (k1 [] c).2 hx
    · rintro n pos rfl; exact k2 eG n pos hx

/-- **C125** The name of a color scheme gives it, and all other names give the scheme of one bit. -/
theorem C125_schemes (s : Str) :
    (∀ k, (s, k) ∈ schemeNames → ColorScheme.fromStr s = k) ∧
    ((∀ k, (s, k) ∉ schemeNames) → ColorScheme.fromStr s = .monochrome1Bit) := by
  constructor
  · intro k h
    simp only [schemeNames, List.mem_cons, Prod.mk.injEq, List.not_mem_nil, or_false] at h
    rcases h with ⟨rfl, rfl⟩ | ⟨rfl, rfl⟩ | ⟨rfl, rfl⟩ | ⟨rfl, rfl⟩ <;> decide
  · intro h
    unfold ColorScheme.fromStr
    split
    · rfl
    · rw [if_neg, if_neg, if_neg]
      · rintro rfl; exact h .color24Bit (by simp [schemeNames])
      · rintro rfl; exact h .colorClassic (by simp [schemeNames])
      · rintro rfl; exact h .monochrome8Bit (by simp [schemeNames])

/-! ### examples -/

-- told twice, the second counts; the order of kinds is free
example : lastTold Setting.vms? [.vms .default, .fonts [], .vms { VmsCfg.default with signWidthPixels := 35 }] .default =
    { VmsCfg.default with signWidthPixels := 35 } := by rfl
example : ∃ d, ([Setting.vms { VmsCfg.default with signWidthPixels := 4000 }, .fonts [f07, .default 128], .vms .default].foldl
    Setting.tell (DmsBuilder.default 1 1 0)).build .checked = .ok d ∧ d.fontDefinition = [f07, .default 128] := ⟨_, rfl, rfl⟩
-- a message without text is shown by the default sign, the others are not
example : ∃ d, (DmsBuilder.default 128 4 4).build .checked = .ok d ∧
    pageCount (render d c!"[cr1,1,5,5,1][np][pb0]") = some 2 := ⟨_, rfl, by decide +kernel⟩
example : (∀ f ∈ FontTable.default 128 4, f.number.toNat = 0) ∧ (c!"color24Bit", ColorScheme.color24Bit) ∈ schemeNames ∧
    ColorScheme.fromStr c!"rgb" = .monochrome1Bit := by decide +kernel

end Ntcip
