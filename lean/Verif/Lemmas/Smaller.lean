import Verif.Lemmas.Tighter
import Verif.Lemmas.Trade
import Verif.Lemmas.Quiet
import Verif.Props.Blank
import Verif.Spec.Smaller
/-
Lemmas for C134: the checks of a page with smaller fonts.
-/
namespace Ntcip
open Spec

variable {t t' : FontTable}

/-- a version ID, if there is one, is that of the font in the table -/
def SpanVersion (t : FontTable) (s : Span) : Prop :=
  ∀ w f, s.state.fontVersionId = some w → FontTable.font t s.state.fontNum = some f → w = f.versionId

theorem fontOf_smaller (h : FontsSmaller t t') {s f} (hs : SpanVersion t' s) (hf : FontOf t s f) :
    ∃ f', FontOf t' s f' ∧ FontSmaller f f' := by
  obtain ⟨f', h1, h2⟩ := h _ _ hf.1
  exact ⟨f', ⟨h1, fun w hw => hs w f' hw h1⟩, h2⟩

theorem defined_smaller {f f' : Font} (h : FontSmaller f f') {str : Str} : ∀ {es}, Defined f str es →
    ∃ es', Defined f' str es' ∧ Pairwise2 (fun e e' : CharacterEntry => e'.width.toNat ≤ e.width.toNat) es es' := by
  induction str with
  | nil =>
    intro es hd
    unfold Defined at hd
    cases es with
    | nil => exact ⟨[], rfl, .nil⟩
    | cons e es => cases hd
  | cons c str ih =>
    intro es hd
    unfold Defined at hd
    cases es with
    | nil => cases hd
    | cons e es =>
      rw [List.map_cons, List.map_cons, List.cons.injEq] at hd
      obtain ⟨e', k1, k2⟩ := h.characters c e hd.1
      obtain ⟨es', k3, k4⟩ := ih hd.2
      refine ⟨e' :: es', ?_, .cons k2 k4⟩
      unfold Defined at k3 ⊢
      rw [List.map_cons, List.map_cons, k1, k3]

theorem countP_imp_le {α} (p q : α → Bool) (l : List α) (h : ∀ a ∈ l, p a = true → q a = true) : l.countP p ≤ l.countP q := by
  induction l with
  | nil => simp
  | cons a l ih =>
    have := ih fun b hb => h b (List.mem_cons_of_mem _ hb)
    have ha := h a (List.mem_cons_self ..)
    rw [List.countP_cons, List.countP_cons]
    cases hp : p a
    · simp; omega
    · simp [ha hp, this]

theorem advance_smaller {c c' : Nat} (hc : c' ≤ c) {es es' : List CharacterEntry}
    (h : Pairwise2 (fun e e' : CharacterEntry => e'.width.toNat ≤ e.width.toNat) es es') :
    advance c' (es'.map (·.width.toNat)) ≤ advance c (es.map (·.width.toNat)) := by
  have hs : ∀ {es es' : List CharacterEntry}, Pairwise2 (fun e e' : CharacterEntry => e'.width.toNat ≤ e.width.toNat) es es' →
      ∀ i, ((es'.map (·.width.toNat)).take i).sum ≤ ((es.map (·.width.toNat)).take i).sum := by
    intro es es' h
    induction h with
    | nil => intro i; simp
    | cons hr _ ih =>
      intro i
      cases i with
      | zero => simp
      | succ i =>
        have := ih i
        simp only [List.map_cons, List.take_succ_cons, List.sum_cons]
        omega
  have hl : es'.length = es.length := (pairwise2_length h).symm
  have htot := hs h es.length
  rw [List.take_of_length_le (by simp [hl]), List.take_of_length_le (by simp)] at htot
  unfold advance
  refine Nat.add_le_add htot (Nat.mul_le_mul hc ?_)
  rw [List.length_map, List.length_map, hl]
  refine countP_imp_le _ _ _ fun i _ hi => ?_
  have := hs h i
  simp only [decide_eq_true_eq] at hi ⊢
  omega

theorem charSpacing_smaller {f f' : Font} (h : FontSmaller f f') (s : Span) : charSpacing s f' ≤ charSpacing s f := by
  unfold charSpacing
  cases s.state.charSpacing with
  | none => exact h.charSpacing
  | some c => exact Nat.le_refl _

theorem spanWidth_smaller (h : FontsSmaller t t') {s w} (hs : SpanVersion t' s) (hw : SpanWidth t s w) :
    ∃ w', SpanWidth t' s w' ∧ w' ≤ w := by
  obtain ⟨f, es, h1, h2, rfl⟩ := hw
  obtain ⟨f', k1, k2⟩ := fontOf_smaller h hs h1
  obtain ⟨es', k3, k4⟩ := defined_smaller k2 h2
  exact ⟨_, ⟨f', es', k1, k3, rfl⟩, advance_smaller (charSpacing_smaller k2 s) k4⟩

theorem gap_smaller (h : FontsSmaller t t') {p s g} (hp : SpanVersion t' p) (hs : SpanVersion t' s) (hg : Gap t p s g) :
    ∃ g', Gap t' p s g' ∧ g' ≤ g := by
  unfold Gap at hg ⊢
  cases hc : s.state.charSpacing with
  | some c => rw [hc] at hg; exact ⟨_, rfl, by rw [hg]; exact Nat.le_refl _⟩
  | none =>
    rw [hc] at hg
    obtain ⟨fp, fs, h1, h2, rfl⟩ := hg
    obtain ⟨fs', k1, k2⟩ := fontOf_smaller h hs h2
    cases hpc : p.state.charSpacing with
    | some c =>
      refine ⟨_, ⟨fp, fs', fun hn => ?_, k1, rfl⟩, ?_⟩
      · cases hn
      · have := charSpacing_smaller k2 s
        omega
    | none =>
      obtain ⟨fp', k3, k4⟩ := fontOf_smaller h hp (h1 hpc)
      refine ⟨_, ⟨fp', fs', fun _ => k3, k1, rfl⟩, ?_⟩
      have := charSpacing_smaller k2 s
      have := charSpacing_smaller k4 p
      omega

theorem lineWidth_smaller (h : FontsSmaller t t') {ss n} : ∀ {p}, LineWidth t p ss n → (∀ a, p = some a → SpanVersion t' a) →
    (∀ s ∈ ss, SpanVersion t' s) → ∃ n', LineWidth t' p ss n' ∧ n' ≤ n := by
  intro p hw
  induction hw with
  | nil => intro _ _; exact ⟨0, .nil, Nat.le_refl _⟩
  | first hw _ ih =>
    intro _ hv
    obtain ⟨w', k1, k2⟩ := spanWidth_smaller h (hv _ (List.mem_cons_self ..)) hw
    obtain ⟨n', k3, k4⟩ := ih (by rintro a ⟨⟩; exact hv _ (List.mem_cons_self ..)) fun s hs => hv s (List.mem_cons_of_mem _ hs)
    exact ⟨_, .first k1 k3, by omega⟩
  | next hg hw _ ih =>
    intro hp hv
    obtain ⟨w', k1, k2⟩ := spanWidth_smaller h (hv _ (List.mem_cons_self ..)) hw
    obtain ⟨n', k3, k4⟩ := ih (by rintro a ⟨⟩; exact hv _ (List.mem_cons_self ..)) fun s hs => hv s (List.mem_cons_of_mem _ hs)
    obtain ⟨g', k5, k6⟩ := gap_smaller h (hp _ rfl) (hv _ (List.mem_cons_self ..)) hg
    exact ⟨_, .next k5 k1 k3, by omega⟩

/-! ### heights -/

/-- the fonts of the texts are in the table -/
def FontsIn (t : FontTable) (ss : List Span) : Prop := ∀ s ∈ ss, ∃ f, FontTable.font t s.state.fontNum = some f

theorem ofFont_smaller (h : FontsSmaller t t') {get : Font → UInt8} (hg : ∀ f f', FontSmaller f f' → (get f').toNat ≤ (get f).toNat)
    {s} (hs : ∃ f, FontTable.font t s.state.fontNum = some f) : Spec.ofFont t' get s ≤ Spec.ofFont t get s := by
  obtain ⟨f, hf⟩ := hs
  obtain ⟨f', k1, k2⟩ := h _ _ hf
  unfold Spec.ofFont
  rw [hf, k1]
  exact hg _ _ k2

theorem largest_mono {α} (p q : α → Nat) (l : List α) (h : ∀ a ∈ l, p a ≤ q a) : largest (l.map p) ≤ largest (l.map q) := by
  induction l with
  | nil => exact Nat.le_refl _
  | cons a l ih =>
    have h1 := ih fun b hb => h b (List.mem_cons_of_mem _ hb)
    have h2 := h a (List.mem_cons_self ..)
    unfold largest at h1 ⊢
    simp only [List.map_cons, List.foldr_cons]
    omega

theorem linesHeight_smaller (h : FontsSmaller t t') {ss} (full : Bool) (hs : FontsIn t ss) (n : Nat) :
    linesHeight full t' ss n ≤ linesHeight full t ss n := by
  have hon : ∀ i, ∀ s ∈ onLine ss i, ∃ f, FontTable.font t s.state.fontNum = some f := by
    intro i s hm
    refine hs s ?_
    unfold onLine at hm
    exact (List.mem_filter.1 hm).1
  have h1 : ∀ i, lineHeight t' ss i ≤ lineHeight t ss i := fun i =>
    largest_mono _ _ _ fun s hm => ofFont_smaller h (fun _ _ k => k.height) (hon i s hm)
  have h2 : ∀ i, fontLineSpacing t' ss i ≤ fontLineSpacing t ss i := fun i =>
    largest_mono _ _ _ fun s hm => ofFont_smaller h (fun _ _ k => k.lineSpacing) (hon i s hm)
  have h4 : ∀ i, lineSpace full t' ss i ≤ lineSpace full t ss i := by
    intro i
    unfold lineSpace
    split
    · cases tagLineSpacing ss (i + 1) with
      | some c => exact Nat.le_refl _
      | none =>
        have := h2 i
        have := h2 (i + 1)
        simp only [Option.getD_none]
        omega
    · exact Nat.le_refl _
  induction n with
  | zero => exact h1 0
  | succ n ih =>
    simp only [linesHeight]
    have := h4 n
    have := h1 (n + 1)
    omega

theorem fontsIn_counted {ss} : ∀ k, FontsIn t ss → FontsIn t (counted k ss) := by
  induction ss with
  | nil => intro k h; exact h
  | cons s ss ih =>
    intro k h
    have h' : FontsIn t ss := fun a ha => h a (List.mem_cons_of_mem _ ha)
    unfold counted
    split
    · intro a ha
      rcases List.mem_cons.1 ha with rfl | ha
      · exact h _ (List.mem_cons_self ..)
      · exact ih k h' a ha
    · intro a ha
      rcases List.mem_cons.1 ha with rfl | ha
      · exact h s (List.mem_cons_self ..)
      · exact ih (k + 1) h' a ha

theorem countedHeight_smaller {d : Dms} {F' : FontTable} (h : FontsSmaller d.fontDefinition F') {ss s}
    (hs : FontsIn d.fontDefinition (samePage ss s)) (n : Nat) :
    countedHeight { d with fontDefinition := F' } ss s n ≤ countedHeight d ss s n :=
  linesHeight_smaller h _ (fontsIn_counted 0 hs) _

/-! ### the checks -/

theorem not_above {d : Dms} (hc : CellHeights d) {rect ss s} (hs : s ∈ ss) : ¬ AboveSign d rect ss s := by
  rintro ⟨_, f, h2, h3⟩
  have hown := countedHeight_own hs h2
  have hm : f ∈ d.fontDefinition := by
    have := h2.1
    unfold FontTable.font at this
    exact List.mem_of_find?_eq_some this
  rcases hc with hc | hc
  · have e : signCellHeight d = 1 := by unfold signCellHeight; rw [hc]; rfl
    rw [e] at h3
    unfold cellEdge at h3
    rw [Nat.mod_one] at h3
    omega
  · have hz := hc f hm
    unfold cellEdge at h3
    have hx : f.height.toNat ≤ linesTop rect .middle (totalHeight d ss s) + countedHeight d ss s s.state.lineNumber := by omega
    generalize linesTop rect .middle (totalHeight d ss s) + countedHeight d ss s s.state.lineNumber = x at h3 hx
    generalize signCellHeight d = c at h3 hz
    obtain ⟨k, hk⟩ := Nat.dvd_of_mod_eq_zero hz
    have h4 := Nat.div_add_mod x c
    have h5 : c * k ≤ c * (x / c) := by
      rcases Nat.eq_zero_or_pos c with rfl | hcp
      · simp
      · refine Nat.mul_le_mul_left _ ((Nat.le_div_iff_mul_le hcp).2 ?_)
        rw [Nat.mul_comm, ← hk]
        exact hx
    omega

section
variable {d : Dms} {F' : FontTable}

theorem spanStops_smaller (h : FontsSmaller d.fontDefinition F') (hc : CellHeights { d with fontDefinition := F' }) {rect ss s}
    (hv : ∀ a ∈ ss, SpanVersion F' a) (hs : s ∈ ss)
    (hk : Silent (spanStops d rect ss s)) : Silent (spanStops { d with fontDefinition := F' } rect ss s) := by
  unfold spanStops spanChecks at hk ⊢
  simp only [List.map_append, List.map_cons, List.map_map, List.map_nil, List.append_assoc, List.cons_append, silent_append,
    silent_cons, silent_map, Function.comp_apply] at hk ⊢
  obtain ⟨k1, k2, k3, k4, _, k5, _⟩ := hk
  have hdef : ∀ a ∈ sameLine ss s, ∃ f es, FontOf d.fontDefinition a f ∧ Defined f a.str es :=
    fun a ha => glyphFault_none fun e => errors_silent (k1 a ha) e
  have hline : ∀ a ∈ sameLine ss s, a ∈ ss := by
    intro a ha; unfold sameLine at ha; exact (List.mem_filter.1 ha).1
  have hpage : ∀ a ∈ samePage ss s, a ∈ ss := by
    intro a ha; unfold samePage at ha; exact (List.mem_filter.1 ha).1
  have hfont : FontsIn d.fontDefinition (samePage ss s) := by
    intro a ha
    cases hf : FontTable.font d.fontDefinition a.state.fontNum with
    | some f => exact ⟨f, rfl⟩
    | none =>
      refine absurd (.missing fun f hm he => ?_) (errors_silent (k3 a ha) (.fontNotDefined a.state.fontNum))
      unfold FontTable.font at hf
      have := List.find?_eq_none.1 hf f hm
      simp [he] at this
  refine ⟨fun b hb z => errors_not fun e => ?_, fun z => errors_not fun e => ?_, fun b hb z => errors_not fun e => ?_,
    fun z => errors_not fun e => ?_, silent_nil, fun z => ?_, silent_nil⟩
  · obtain ⟨f, es, h1, h2⟩ := hdef b hb
    obtain ⟨f', h3, h4⟩ := fontOf_smaller h (hv b (hline b hb)) h1
    obtain ⟨es', h5, _⟩ := defined_smaller h4 h2
    exact glyph_noFault h3 h5 e
  · rintro ⟨rfl, n', hn', hlt⟩
    obtain ⟨n, hn⟩ := lineWidth_some hdef none (by simp)
    obtain ⟨m, hm, hle⟩ := lineWidth_smaller h hn (by simp) fun a ha => hv a (hline a ha)
    have := lineWidth_unique hm hn'
    exact errors_silent k2 .textTooBig ⟨rfl, n, hn, by omega⟩
  · obtain ⟨f, hf⟩ := hfont b hb
    obtain ⟨f', h3, h4⟩ := h _ _ hf
    intro hf'
    cases hf' with
    | missing hm =>
      unfold FontTable.font at h3
      have h5 := List.mem_of_find?_eq_some h3
      have h6 := List.find?_some h3
      exact hm f' h5 (by simpa using h6)
    | version h5 h6 h7 => exact h7 (hv b (hpage b hb) _ _ h6 h5)
  · rintro ⟨rfl, hh⟩
    refine errors_silent k4 .textTooBig ⟨rfl, ?_⟩
    unfold totalHeight at hh ⊢
    have := countedHeight_smaller h hfont (lineCount 0 (samePage ss s) - 1)
    omega
  · cases z with
    | error e => exact id
    | panic => exact not_above hc hs

theorem textStops_smaller (h : FontsSmaller d.fontDefinition F') (hc : CellHeights { d with fontDefinition := F' }) {rect ss}
    (hv : ∀ a ∈ ss, SpanVersion F' a) (hk : Silent (textStops d rect ss)) :
    Silent (textStops { d with fontDefinition := F' } rect ss) := by
  unfold textStops at hk ⊢
  rw [silent_cons, silent_flatMap] at hk ⊢
  exact ⟨hk.1, fun b hb => spanStops_smaller h hc hv hb (hk.2 b hb)⟩

/-- the version ID of the style, if any, is that of the font -/
def AttrVersion (t : FontTable) (a : TextAttr) : Prop :=
  ∀ w f, a.fontVersionId = some w → FontTable.font t a.fontNum = some f → w = f.versionId

theorem signAttr_version (t : FontTable) : AttrVersion t (signAttr d) := by
  intro w f h
  cases h

theorem apply_version {vs v a} (hv : VersionsOf F' vs) (hm : v ∈ vs) (h : AttrVersion F' a) :
    AttrVersion F' ((signAttr d).apply a v) := by
  cases v with
  | font x =>
    cases x with
    | none => exact signAttr_version _
    | some x =>
      obtain ⟨n, i⟩ := x
      intro w f h1 h2
      cases i with
      | none => cases h1
      | some i => cases h1; exact hv n _ f hm h2
  | _ => exact h

theorem foldl_version {vs ws : List Value} (hv : VersionsOf F' vs) : ∀ {a}, (∀ v ∈ ws, v ∈ vs) → AttrVersion F' a →
    AttrVersion F' (ws.foldl (TextAttr.apply (signAttr d)) a) := by
  induction ws with
  | nil => intro a _ h; exact h
  | cons v ws ih =>
    intro a hm h
    exact ih (fun w hw => hm w (List.mem_cons_of_mem _ hw)) (apply_version hv (hm v (List.mem_cons_self ..)) h)

theorem layout_version {vs rect ws} (hv : VersionsOf F' vs) : ∀ {a sp n b}, (∀ v ∈ ws, v ∈ vs) → AttrVersion F' a →
    ∀ s ∈ (pieces (signAttr d) a sp n b ws).map (spanOf d rect), SpanVersion F' s := by
  induction ws with
  | nil => intro a sp n b _ _ s hs; cases hs
  | cons v ws ih =>
    intro a sp n b hm h s hs
    simp only [pieces, List.map_append, List.mem_append] at hs
    rcases hs with hs | hs
    · obtain ⟨p, hp, rfl⟩ := List.mem_map.1 hs
      have : p.attr = a := by
        unfold piece at hp
        split at hp
        · rw [List.mem_singleton] at hp; rw [hp]
        · rw [List.mem_singleton] at hp; rw [hp]
        · split at hp
          · rw [List.mem_singleton] at hp; rw [hp]
          · cases hp
        · cases hp
      intro w f h1 h2
      refine h w f ?_ ?_
      · rw [← this]; exact h1
      · rw [← this]; exact h2
    · exact ih (fun w hw => hm w (List.mem_cons_of_mem _ hw)) (apply_version hv (hm v (List.mem_cons_self ..)) h) s hs

theorem textRect_fonts {w h r} : TextRect { d with fontDefinition := F' } w h r ↔ TextRect d w h r :=
  ⟨fun h => ⟨h.x, h.y, h.width, h.height, h.right, h.bottom, h.left_aligned, h.width_aligned, h.top_aligned, h.height_aligned⟩,
    fun h => ⟨h.x, h.y, h.width, h.height, h.right, h.bottom, h.left_aligned, h.width_aligned, h.top_aligned, h.height_aligned⟩⟩

theorem valueOk_fonts {v} : ValueOk { d with fontDefinition := F' } v ↔ ValueOk d v := by
  cases v with
  | textRectangle r => exact and_congr_right fun _ => textRect_fonts
  | justificationLine j => cases j <;> exact Iff.rfl
  | justificationPage j => cases j <;> exact Iff.rfl
  | newLine n => cases n <;> exact Iff.rfl
  | _ => exact Iff.rfl

theorem paintStop_fonts {v z} : paintStop { d with fontDefinition := F' } v z → paintStop d v z := by
  cases z with
  | panic => exact id
  | error e =>
    rintro ⟨h1, h2⟩
    refine ⟨h1, ?_⟩
    cases h2 with
    | value h h' => exact .value h fun k => h' (valueOk_fonts.2 k)
    | missing h => exact .missing h
    | version h h' => exact .version h h'
    | big h h' h'' => exact .big h h' h''

theorem layoutFault_fonts {v z} : errors (LayoutFault { d with fontDefinition := F' } v) z → errors (LayoutFault d v) z := by
  cases z with
  | panic => exact id
  | error e =>
    rintro ⟨h1, h2, h3⟩
    exact ⟨h1, fun k => h2 (valueOk_fonts.2 k), h3⟩

theorem nextStop_fonts {r z} : nextStop { d with fontDefinition := F' } r z → nextStop d r z := by
  cases z with
  | panic => exact id
  | error e =>
    rintro ⟨h1, h2⟩
    exact ⟨h1, layoutFault_fonts (z := .error e) h2⟩

theorem backgroundFault_fonts {v z} :
    errors (BackgroundFault { d with fontDefinition := F' } v) z → errors (BackgroundFault d v) z := by
  cases z with
  | panic => exact id
  | error e =>
    intro h
    cases h with
    | cb h => exact .cb h
    | pb h => exact .pb h

theorem rectStops_smaller (h : FontsSmaller d.fontDefinition F') (hc : CellHeights { d with fontDefinition := F' }) {vs a sp rect ws}
    (hv : VersionsOf F' vs) (hm : ∀ v ∈ ws, v ∈ vs) (ha : AttrVersion F' a)
    (hk : Silent (rectStops d a sp rect ws none)) : Silent (rectStops { d with fontDefinition := F' } a sp rect ws none) := by
  unfold rectStops at hk ⊢
  simp only [silent_append, silent_map] at hk ⊢
  exact ⟨fun v hm z hz => hk.1 v hm z (paintStop_fonts hz), fun v hm z hz => hk.2.1 v hm z (layoutFault_fonts hz), nofun, textStops_smaller h hc (layout_version hv hm ha) hk.2.2.2⟩

theorem rectsQuiet_smaller (h : FontsSmaller d.fontDefinition F') (hc : CellHeights { d with fontDefinition := F' }) {vs more}
    (hv : VersionsOf F' vs) : ∀ {a sp rect ws}, (∀ v ∈ ws, v ∈ vs) → (∀ q ∈ more, ∀ v ∈ q.2, v ∈ vs) → AttrVersion F' a →
    RectsQuiet d a sp rect ws more → RectsQuiet { d with fontDefinition := F' } a sp rect ws more := by
  induction more with
  | nil =>
    intro a sp rect ws hm _ ha hk
    exact rectStops_smaller h hc hv hm ha hk
  | cons q more ih =>
    intro a sp rect ws hm hq ha hk
    obtain ⟨r, us⟩ := q
    exact ⟨rectStops_smaller h hc hv hm ha hk.1, fun z hz => hk.2.1 z (nextStop_fonts hz), ih (hq _ (List.mem_cons_self ..))
      (fun q hq' => hq q (List.mem_cons_of_mem _ hq')) (foldl_version hv hm ha) hk.2.2⟩

theorem pageStops_smaller (h : FontsSmaller d.fontDefinition F') (hc : CellHeights { d with fontDefinition := F' }) {vs a p}
    (hv : VersionsOf F' vs) (hm : ∀ v ∈ p, v ∈ vs) (ha : AttrVersion F' a)
    (hk : Silent (pageStops d a p)) : Silent (pageStops { d with fontDefinition := F' } a p) := by
  unfold pageStops at hk ⊢
  rw [silent_append, silent_map, rectsStops_silent] at hk ⊢
  have hs := sections_all (P := (· ∈ vs)) hm
  exact ⟨fun v hv z hz => hk.1 v hv z (backgroundFault_fonts hz), rectsQuiet_smaller h hc hv hs.1 hs.2 ha hk.2.1, hk.2.2⟩

theorem pagesQuiet_smaller (h : FontsSmaller d.fontDefinition F') (hc : CellHeights { d with fontDefinition := F' }) {vs ps}
    (hv : VersionsOf F' vs) : ∀ {a}, (∀ p ∈ ps, ∀ v ∈ p, v ∈ vs) → AttrVersion F' a →
    PagesQuiet d a ps → PagesQuiet { d with fontDefinition := F' } a ps := by
  induction ps with
  | nil => intro a _ _ _; trivial
  | cons p ps ih =>
    intro a hm ha hk
    exact ⟨pageStops_smaller h hc hv (hm p (List.mem_cons_self ..)) ha hk.1,
      ih (fun q hq => hm q (List.mem_cons_of_mem _ hq)) (foldl_version hv (hm p (List.mem_cons_self ..)) ha) hk.2⟩

theorem pictured_smaller {ps : List (List Value)} : ∀ {a p xs xs'}, Pictured d a p xs ps →
    Pictured { d with fontDefinition := F' } a p xs' ps → Pairwise2 SameFrame xs xs' := by
  induction ps with
  | nil =>
    intro a p xs xs' h1 h2
    unfold Pictured at h1 h2
    subst h1; subst h2
    exact .nil
  | cons vs ps ih =>
    intro a p xs xs' h1 h2
    unfold Pictured at h1 h2
    obtain ⟨r1, m1, k1, rfl, k2⟩ := h1
    obtain ⟨r2, m2, l1, rfl, l2⟩ := h2
    have s1 := composed_size k1
    have s2 := composed_size l1
    refine .cons ⟨rfl, _, _, rfl, rfl, rfl, s1.1.trans s2.1.symm, s1.2.trans s2.2.symm⟩ (Pairwise2.append ?_ (ih k2 l2))
    have hl : ∀ (m : List (Rectangle × List Value)) r, lastRect { d with fontDefinition := F' } r m = lastRect d r m := by
      intro m
      induction m with
      | nil => intro r; rfl
      | cons q m ih => intro r; exact ih _
    rw [show signRect { d with fontDefinition := F' } = signRect d from rfl, hl]
    show Pairwise2 SameFrame (if _ > 0 then _ else _) (if (pageTimes (signPage d).1 p.1 vs).2.toNat > 0 then _ else _)
    split
    · exact .cons ⟨rfl, _, _, rfl, rfl, rfl, rfl, rfl⟩ .nil
    · exact .nil

end

end Ntcip
