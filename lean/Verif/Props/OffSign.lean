import Verif.Lemmas.OffSign
import Verif.Props.Render
import Verif.Tests.Render
/-
C109: rectangles off the sign in release builds.
-/
namespace Ntcip
open Spec

/-- **C109** In a release build all rectangles off the sign are alike: two messages that differ in such rectangles only, whatever
their positions and sizes (also beyond 16 bits), give the same pages, and errors in the same places, each naming the rectangle
as written in its message; or both panic.  Any number of calls of `Pages::next`. -/
theorem C109_off_sign (d : Dms) (hd : SizeOk d) (ms ms' : Str) (hs : All2 (OffItem d) (slices ms) (slices ms')) (n : Nat) :
    Res.Rel (fun p q => All2 (OffResult d) p.1 q.1) (Release.run d n (Pages.new d ms)) (Release.run d n (Pages.new d ms')) :=
  release_run_off hd n ⟨rfl, rfl, hs⟩

/-- **C109 (builds with overflow checks)** So the results of a release build for any rectangles are those of a build with
overflow checks for other rectangles off the sign, for which it does not panic. -/
theorem C109_checked (d : Dms) (hd : SizeOk d) (ms ms' : Str) (hs : All2 (OffItem d) (slices ms) (slices ms')) (n : Nat)
    (ys pg') (h : Pages.run d n (Pages.new d ms') = .ok (ys, pg')) :
    ∃ xs pg, Release.run d n (Pages.new d ms) = .ok (xs, pg) ∧ All2 (OffResult d) xs ys := by
  have k := C109_off_sign d hd ms ms' hs n
  rw [(Release.run_le d n _).eq h] at k
  cases hr : Release.run d n (Pages.new d ms) with
  | panic p => rw [hr] at k; exact k.elim
  | ok x =>
    rw [hr] at k
    exact ⟨x.1, x.2, rfl, k⟩

/-! ### a message without rectangles beyond 16 bits -/

theorem digits_length {s : Str} {n : Nat} (h : DigitsAre 10 s n) : 1 ≤ s.length ∧ n < 10 ^ s.length := by
  induction h with
  | one h => exact ⟨Nat.le_refl _, by simpa using h.1⟩
  | @more s n c d _ h ih =>
    have := h.1
    refine ⟨by simp, ?_⟩
    rw [List.length_append, List.length_singleton, Nat.pow_succ]
    omega

theorem num16_length {s : Str} {n : UInt16} (h : Num16 s n) : 1 ≤ s.length ∧ (10000 ≤ n.toNat → 5 ≤ s.length) := by
  have key : ∀ {t : Str} {m : Nat}, DigitsAre 10 t m → 1 ≤ t.length ∧ (10000 ≤ m → 5 ≤ t.length) := by
    intro t m h
    obtain ⟨h1, h2⟩ := digits_length h
    refine ⟨h1, fun hm => ?_⟩
    rcases Nat.lt_or_ge t.length 5 with hl | hl
    · exfalso
      have : 10 ^ t.length ≤ 10 ^ 4 := Nat.pow_le_pow_right (by decide) (by omega)
      omega
    · exact hl
  generalize hm : n.toNat = m
  rw [Num16, hm] at h
  cases h with
  | digits h => exact key h
  | plus h =>
    obtain ⟨k1, k2⟩ := key h
    simp only [List.length_cons]
    exact ⟨by omega, fun hm => by have := k2 hm; omega⟩

theorem rect_length {s : Str} {r : Rectangle} (h : RectIs s r) (hr : ¬ RectFits r) : 11 ≤ s.length := by
  cases h with
  | mk hp hw hh =>
    cases hp with
    | mk hx hy _ _ =>
      obtain ⟨a1, a2⟩ := num16_length hx
      obtain ⟨b1, b2⟩ := num16_length hy
      obtain ⟨c1, c2⟩ := num16_length hw
      obtain ⟨d1, d2⟩ := num16_length hh
      unfold RectFits at hr
      simp only [List.length_append, List.length_cons] at *
      omega

/-- a rectangle of one pixel, off the sign -/
def farRect : Rectangle := ⟨65534, 1, 1, 1⟩

theorem farRect_is : RectIs c!"65534,1,1,1" farRect := by
  have h1 : DigitsAre 10 c!"6" 6 := .one ⟨by decide, by decide⟩
  have h2 : DigitsAre 10 c!"65" 65 := .more h1 ⟨by decide, by decide⟩ (d := 5)
  have h3 : DigitsAre 10 c!"655" 655 := .more h2 ⟨by decide, by decide⟩ (d := 5)
  have h4 : DigitsAre 10 c!"6553" 6553 := .more h3 ⟨by decide, by decide⟩ (d := 3)
  have h5 : DigitsAre 10 c!"65534" 65534 := .more h4 ⟨by decide, by decide⟩ (d := 4)
  have one : DigitsAre 10 c!"1" 1 := .one ⟨by decide, by decide⟩
  exact .mk (p := c!"65534,1") (.mk (a := c!"65534") (b := c!"1") (.digits h5) (.digits one) (by decide) (by decide))
    (a := c!"1") (b := c!"1") (.digits one) (.digits one)

theorem farRect_fits : RectFits farRect := by unfold RectFits farRect; decide

theorem farRect_off {d : Dms} (hw : d.vmsCfg.signWidthPixels.toNat < 65534) (h : Nat) :
    ¬ InsideRect d.vmsCfg.signWidthPixels.toNat h farRect := by
  intro k
  have := k.right
  have e : extWidth farRect d.vmsCfg.signWidthPixels.toNat = 1 := rfl
  have e' : farRect.x.toNat = 65534 := rfl
  rw [e, e'] at this
  omega

theorem notFits_off {d : Dms} (hd : SizeOk d) {r : Rectangle} (h : ¬ RectFits r) :
    ¬ InsideRect d.vmsCfg.signWidthPixels.toNat d.vmsCfg.signHeightPixels.toNat r := by
  intro k
  have h1 := k.right
  have h2 := k.bottom
  have h3 := k.x
  have h4 := k.y
  have := hd.width
  have := hd.height
  have := r.x.toNat_lt
  have := r.y.toNat_lt
  apply h
  unfold RectFits
  unfold extWidth at h1
  unfold extHeight at h2
  split at h1 <;> split at h2 <;> omega

theorem Spec.TextRect.insideRect {d : Dms} {w h : Nat} {r : Rectangle} (k : TextRect d w h r) : InsideRect w h r :=
  ⟨k.x, k.y, k.width, k.height, k.right, k.bottom⟩

theorem item_tag_inner {b : Str} (h : Item ('[' :: (b ++ [']']))) : Plain b := by
  generalize hs : '[' :: (b ++ [']']) = s at h
  cases h with
  | escOpen =>
    simp only [List.cons.injEq, true_and] at hs
    cases b with
    | nil => simp at hs
    | cons c b => simp at hs
  | escClose => simp at hs
  | tag b' h =>
    simp only [List.cons.injEq, true_and, List.append_cancel_right_eq] at hs
    rw [hs]; exact h
  | span t _ h => subst hs; exact absurd rfl (h '[' (by simp)).1
  | stray => simp at hs
  | frag b' h =>
    simp only [List.cons.injEq, true_and] at hs
    subst hs
    exact absurd rfl (h ']' (by simp)).2

/-- the item, or a tag in its place -/
def Replaced (s s' : Str) : Prop :=
  s' = s ∨ ∃ b b', s = '[' :: (b ++ [']']) ∧ s' = '[' :: (b' ++ [']']) ∧ Plain b'

/-- an item that is off the sign like this one, not longer, with values of 16 bits -/
theorem item_replaced {d : Dms} (hd : SizeOk d) (hw : d.vmsCfg.signWidthPixels.toNat < 65534) {s : Str} (hi : Item s) :
    ∃ s', OffItem d s s' ∧ s'.length ≤ s.length ∧ Replaced s s' ∧
      (∀ v, tryFrom s' = .ok (.ok v) → ValueFits v ∧ (tryFrom s = .ok (.ok v) ∨ unimplemented v = false ∧
        v ≠ .justificationPage (some .middle))) := by
  by_cases hv : ∃ v, tryFrom s = .ok (.ok v) ∧ ¬ ValueFits v
  · obtain ⟨v, hv, hf⟩ := hv
    have hden := hv
    rw [C84_item] at hden
    have hoff := fun h => (farRect_off (d := d) hw h)
    cases hden with
    | escOpen => exact absurd trivial hf
    | escClose => exact absurd trivial hf
    | text _ _ _ => exact absurd trivial hf
    | @tag name params v ht =>
      have hname : ∀ {m : Str}, name.map Char.toLower = m → name.length = m.length := by
        rintro m rfl; simp
      generalize hm : name.map Char.toLower = m at ht
      have hl := hname hm
      cases ht with
      | @textRectangle a r hr =>
        have hlen := rect_length hr hf
        have htr : TagIs c!"tr" c!"65534,1,1,1" (.textRectangle farRect) := .textRectangle farRect_is
        have hx : tryFrom c!"[tr65534,1,1,1]" = .ok (.ok (.textRectangle farRect)) :=
          (C84_item _ _).2 (.tag (name := c!"tr") (params := c!"65534,1,1,1") htr)
        refine ⟨c!"[tr65534,1,1,1]", .inr ⟨_, _, hv, hx, .text (fun k => notFits_off hd hf k.insideRect)
          (fun k => hoff _ k.insideRect)⟩, ?_, .inr ⟨name ++ params, c!"tr65534,1,1,1", rfl, rfl, ?_⟩, ?_⟩
        · simp only [List.length_append, List.length_cons, hl, List.length_nil]
          omega
        · unfold Plain; decide
        · intro w hw'
          rw [hx] at hw'
          cases hw'
          exact ⟨farRect_fits, .inr ⟨rfl, by simp⟩⟩
      | @colorRectangle a r b c hr hc =>
        have hlen := rect_length hr hf
        have htr : TagIs c!"cr" (c!"65534,1,1,1" ++ ',' :: b) (.colorRectangle farRect c) := .colorRectangle farRect_is hc
        have hx : tryFrom ('[' :: (c!"cr" ++ (c!"65534,1,1,1" ++ ',' :: b) ++ [']'])) = .ok (.ok (.colorRectangle farRect c)) :=
          (C84_item _ _).2 (.tag (name := c!"cr") htr)
        have hp := item_tag_inner hi
        refine ⟨_, .inr ⟨_, _, hv, hx, .fill (notFits_off hd hf) (hoff _)⟩, ?_,
          .inr ⟨name ++ (a ++ ',' :: b), c!"cr" ++ (c!"65534,1,1,1" ++ ',' :: b), rfl, rfl, ?_⟩, ?_⟩
        · simp only [List.length_append, List.length_cons, hl, List.length_nil]
          omega
        · have hb : Plain b := fun x hx => hp x (by simp [hx])
          have h0 : Plain c!"cr65534,1,1,1," := by unfold Plain; decide
          intro x hx
          have : x ∈ c!"cr65534,1,1,1," ++ b := by simpa using hx
          rcases List.mem_append.1 this with h | h
          · exact h0 x h
          · exact hb x h
        · intro w hw'
          rw [hx] at hw'
          cases hw'
          exact ⟨farRect_fits, .inr ⟨rfl, by simp⟩⟩
      | _ => exact absurd trivial hf
  · refine ⟨s, .inl rfl, Nat.le_refl _, .inl rfl, fun v h => ⟨?_, .inl h⟩⟩
    by_cases hf : ValueFits v
    · exact hf
    · exact absurd ⟨v, h, hf⟩ hv

theorem replaced_flatten {ss ss' : List Str} (h : All2 Replaced ss ss') : ss'.flatten.head? = ss.flatten.head? := by
  induction h with
  | nil => rfl
  | cons h _ ih =>
    rcases h with rfl | ⟨b, b', rfl, rfl, _⟩
    · rename_i a as bs _
      cases a with
      | nil => simpa using ih
      | cons c a => rfl
    · rfl

theorem tag_follows {b : Str} (c : Option Char) : Follows ('[' :: (b ++ [']'])) c := by
  refine ⟨fun _ h => absurd rfl (h '[' (by simp)).1, fun b' h hp => ?_, fun h => ?_⟩
  · simp only [List.cons.injEq, true_and] at h
    subst h
    exact absurd rfl (hp ']' (by simp)).2
  · simp at h

theorem replaced_cut {ss ss' : List Str} (h : All2 Replaced ss ss') (hc : Cut ss) : Cut ss' := by
  induction h with
  | nil => trivial
  | cons h1 h2 ih =>
    obtain ⟨k1, k2, k3⟩ := hc
    rcases h1 with rfl | ⟨b, b', rfl, rfl, hp⟩
    · exact ⟨k1, by rw [replaced_flatten h2]; exact k2, ih k3⟩
    · exact ⟨.tag _ hp, tag_follows _, ih k3⟩

/-- all items -/
theorem items_replaced {d : Dms} (hd : SizeOk d) (hw : d.vmsCfg.signWidthPixels.toNat < 65534) {ss : List Str}
    (hi : ∀ s ∈ ss, Item s) : ∃ ss', All2 (OffItem d) ss ss' ∧ ss'.flatten.length ≤ ss.flatten.length ∧ All2 Replaced ss ss' ∧
      ∀ s' ∈ ss', ∀ v, tryFrom s' = .ok (.ok v) → ValueFits v ∧ ((∃ s ∈ ss, tryFrom s = .ok (.ok v)) ∨ unimplemented v = false ∧
        v ≠ .justificationPage (some .middle)) := by
  induction ss with
  | nil => exact ⟨[], .nil, Nat.le_refl _, .nil, by simp⟩
  | cons s ss ih =>
    obtain ⟨t, h1, h2, h3, h4⟩ := item_replaced hd hw (hi s (by simp))
    obtain ⟨ts, k1, k2, k3, k4⟩ := ih fun x hx => hi x (by simp [hx])
    refine ⟨t :: ts, .cons h1 k1, by simp only [List.flatten_cons, List.length_append]; omega, .cons h3 k3, ?_⟩
    intro x hx v hv
    rcases List.mem_cons.1 hx with rfl | hx
    · obtain ⟨a, b⟩ := h4 v hv
      exact ⟨a, b.imp (fun b => ⟨s, by simp, b⟩) id⟩
    · obtain ⟨a, b⟩ := k4 x hx v hv
      exact ⟨a, b.imp (fun ⟨y, hy, b⟩ => ⟨y, by simp [hy], b⟩) id⟩

theorem OffItem.panics {d : Dms} {s s' : Str} (h : OffItem d s s') {p} (hp : tryFrom s' = .panic p) : tryFrom s = .panic p := by
  rcases h with h | ⟨v, w, _, h, _⟩
  · rw [← h, hp]
  · rw [h] at hp; cases hp

theorem offItems_panics {d : Dms} {ss ss' : List Str} (h : All2 (OffItem d) ss ss') {s' p} (hm : s' ∈ ss')
    (hp : tryFrom s' = .panic p) : ∃ s ∈ ss, tryFrom s = .panic p := by
  induction h with
  | nil => simp at hm
  | cons h _ ih =>
    rcases List.mem_cons.1 hm with rfl | hm
    · exact ⟨_, by simp, OffItem.panics h hp⟩
    · obtain ⟨s, hs, k⟩ := ih hm
      exact ⟨s, by simp [hs], k⟩

/-- **C109 (no panic)** For the signs of C44 and messages without a tag on which the parser panics, without
supported-but-unimplemented tags, with sizes of 16 bits: a release build does not panic, whatever rectangles there are.  Its
results are those of a build with overflow checks for a message with other rectangles. -/
theorem C109_no_panic (d : Dms) (hz : SizeOk d) (hw : d.vmsCfg.signWidthPixels.toNat < 65534) (hd : SignOk d) (ms : Str)
    (hp : ¬ HasPanicTag ms) (himp : ∀ v ∈ validValues ms, Supportable d v)
    (hmid : SignCells d ∨ (d.multiCfg.defaultJustificationPage ≠ .middle ∧
      .justificationPage (some .middle) ∉ validValues ms)) (hs : SizesOk d ms) :
    ∃ ms', All2 (OffItem d) (slices ms) (slices ms') ∧ ∀ n, ∃ xs pg ys pg', Release.run d n (Pages.new d ms) = .ok (xs, pg) ∧
      Pages.run d n (Pages.new d ms') = .ok (ys, pg') ∧ All2 (OffResult d) xs ys := by
  obtain ⟨ss', h1, h2, h3, h4⟩ := items_replaced hz hw (slices_items ms)
  have hcut := replaced_cut h3 (slices_cut ms)
  have hsl := slices_of_cut hcut
  have hmem : ∀ {v}, v ∈ validValues ss'.flatten → ∃ s' ∈ ss', tryFrom s' = .ok (.ok v) := by
    intro v hv
    unfold validValues at hv
    rw [hsl, List.mem_filterMap] at hv
    obtain ⟨s, hs, hv⟩ := hv
    exact ⟨s, hs, validOf_eq_some.1 hv⟩
  have hok : MessageOk d ss'.flatten := by
    refine ⟨fun hpt => ?_, fun v hv => ?_, fun v hv => ?_, ?_⟩
    · obtain ⟨t, ht, p, hx⟩ := (hasPanicTag_iff _).1 hpt
      rw [hsl] at ht
      obtain ⟨s, hs, k⟩ := offItems_panics h1 ht hx
      exact hp ((hasPanicTag_iff _).2 ⟨s, hs, p, k⟩)
    · obtain ⟨s, hs, k⟩ := hmem hv
      exact (h4 s hs v k).1
    · obtain ⟨s, hs, k⟩ := hmem hv
      rcases (h4 s hs v k).2 with ⟨t, ht, k⟩ | ⟨k, _⟩
      · exact himp v (mem_valid ht k)
      · intro hu; rw [k] at hu; cases hu
    · refine hmid.imp id fun ⟨k1, k2⟩ => ⟨k1, fun hv => ?_⟩
      obtain ⟨s, hs, k⟩ := hmem hv
      rcases (h4 s hs _ k).2 with ⟨t, ht, k⟩ | ⟨_, k⟩
      · exact k2 (mem_valid ht k)
      · exact k rfl
  have hlen : ss'.flatten.length ≤ ms.length := by
    rw [slices_flatten] at h2; exact h2
  have hsz : SizesOk d ss'.flatten := by
    obtain ⟨a, M, b, c, e⟩ := hs
    exact ⟨by omega, M, b, Nat.lt_of_le_of_lt (Nat.mul_le_mul_left _ hlen) c, e⟩
  rw [← hsl] at h1
  refine ⟨ss'.flatten, h1, fun n => ?_⟩
  obtain ⟨ys, pg', hy⟩ := C44_no_panic_partial d hd _ hok hsz n
  obtain ⟨xs, pg, hx, hr⟩ := C109_checked d hz ms _ h1 n ys pg' hy
  exact ⟨xs, pg, ys, pg', hx, hy, hr⟩

/-- **C109 (built signs)** the same for signs of the builder and ASCII messages of at most 128 characters -/
theorem C109_built (p : Profile) (b : DmsBuilder) (d : Dms) (h : b.build p = .ok d)
    (hw : d.vmsCfg.signWidthPixels.toNat < 65534) (hh : d.vmsCfg.signHeightPixels.toNat < 65535)
    (h0 : ¬ (d.vmsCfg.signWidthPixels.toNat = 0 ∧ d.vmsCfg.signHeightPixels.toNat = 0))
    (hf : 1 ≤ d.multiCfg.defaultFont.toNat) (hjp : d.multiCfg.defaultJustificationPage ≠ .other)
    (hjl : d.multiCfg.defaultJustificationLine ≠ .other ∧ d.multiCfg.defaultJustificationLine ≠ .full)
    (ms : Str) (ha : ∀ c ∈ ms, c.toNat < 128) (hl : ms.length ≤ 128) (himp : ∀ v ∈ validValues ms, Supportable d v)
    (hmid : SignCells d ∨ (d.multiCfg.defaultJustificationPage ≠ .middle ∧
      .justificationPage (some .middle) ∉ validValues ms)) (n : Nat) :
    ∃ xs pg, Release.run d n (Pages.new d ms) = .ok (xs, pg) := by
  have hv := C22_built_sign_valid p b d h
  obtain ⟨_, _, k⟩ := C109_no_panic d ⟨by omega, hh, h0⟩ hw
    ⟨by omega, hh, hf, hjp, hjl, hv.2.2.2.2.1.fonts, hv.2.2.2.2.2.1.graphics⟩ ms (C03_ascii ms ha) himp hmid
    (sizesOk_short d ms hl)
  obtain ⟨xs, pg, _, _, hx, _⟩ := k n
  exact ⟨xs, pg, hx⟩

/-! ### a message with rectangles beyond 16 bits -/

namespace Tests

/-- rectangles of which the right or lower edge needs more than 16 bits -/
def beyondMsg : Str := c!"A[tr60000,1,6000,10]B[np]C[cr1,65535,1,1,255,0,0][np]D"

/-- rectangles just off a sign of 60×30 pixels -/
def besideMsg : Str := c!"A[tr61,1,1,1]B[np]C[cr1,31,1,1,255,0,0][np]D"

/-- errors, and pixels of pages, in a release build -/
def releaseItems (d : Dms) (ms : Str) (n : Nat) : Option (List (Except SyntaxError Rgb)) :=
  match Release.run d n (Pages.new d ms) with
  | .ok (xs, _) => some (xs.map fun x => x.map fun p => p.raster.px 0 0)
  | .panic _ => none

end Tests
open Tests

-- `C109_off_sign` applies
example : SizeOk fullDms ∧ All2 (OffItem fullDms) (slices beyondMsg) (slices besideMsg) := by
  have e1 : slices beyondMsg = [c!"A", c!"[tr60000,1,6000,10]", c!"B", c!"[np]", c!"C", c!"[cr1,65535,1,1,255,0,0]", c!"[np]",
    c!"D"] := by decide +kernel
  have e2 : slices besideMsg = [c!"A", c!"[tr61,1,1,1]", c!"B", c!"[np]", c!"C", c!"[cr1,31,1,1,255,0,0]", c!"[np]",
    c!"D"] := by decide +kernel
  rw [e1, e2]
  have off : ∀ {r : Rectangle}, (60 < r.x.toNat - 1 + extWidth r 60 ∨ 30 < r.y.toNat - 1 + extHeight r 30) →
      ¬ InsideRect fullDms.vmsCfg.signWidthPixels.toNat fullDms.vmsCfg.signHeightPixels.toNat r := by
    intro r h k
    have h1 : r.x.toNat - 1 + extWidth r 60 ≤ 60 := k.right
    have h2 : r.y.toNat - 1 + extHeight r 30 ≤ 30 := k.bottom
    omega
  refine ⟨⟨by decide +kernel, by decide +kernel, by decide +kernel⟩, .cons (.inl rfl) (.cons (.inr ⟨.textRectangle
    ⟨60000, 1, 6000, 10⟩, .textRectangle ⟨61, 1, 1, 1⟩, by decide +kernel, by decide +kernel, .text (fun k => off (by decide)
    k.insideRect) (fun k => off (by decide) k.insideRect)⟩) (.cons (.inl rfl) (.cons (.inl rfl) (.cons (.inl rfl) (.cons (.inr
    ⟨.colorRectangle ⟨1, 65535, 1, 1⟩ (.rgb 255 0 0), .colorRectangle ⟨1, 31, 1, 1⟩ (.rgb 255 0 0), by decide +kernel,
    by decide +kernel, .fill (off (by decide)) (off (by decide))⟩) (.cons (.inl rfl) (.cons (.inl rfl) .nil)))))))⟩

-- the same results: errors that name the rectangles as written
example : releaseItems fullDms beyondMsg 4 = some [.error (.unsupportedTagValue c!"[tr60000,1,6000,10]"), .ok (255, 255, 255),
    .error (.unsupportedTagValue c!"[cr1,65535,1,1,255,0,0]"), .error (.unsupportedTagValue c!"[cr1,65535,1,1,255,0,0]")] := by
  decide +kernel
example : releaseItems fullDms besideMsg 4 = some [.error (.unsupportedTagValue c!"[tr61,1,1,1]"), .ok (255, 255, 255),
    .error (.unsupportedTagValue c!"[cr1,31,1,1,255,0,0]"), .error (.unsupportedTagValue c!"[cr1,31,1,1,255,0,0]")] := by
  decide +kernel
-- a build with overflow checks panics
example : renderPanics fullDms beyondMsg = true := by decide +kernel
-- `C109_built` applies
example (n : Nat) : ∃ xs pg, Release.run fullDms n (Pages.new fullDms beyondMsg) = .ok (xs, pg) :=
  C109_built .checked _ fullDms fullDms_built (by decide +kernel) (by decide +kernel) (by decide +kernel) (by decide +kernel)
    (by decide +kernel) (by decide +kernel) beyondMsg (by decide +kernel) (by decide +kernel)
    (by
      intro v hv hu
      have : (validValues beyondMsg).all (fun v => !unimplemented v) = true := by decide +kernel
      rw [List.all_eq_true] at this
      have := this v hv
      rw [hu] at this
      cases this)
    (.inl (.inl (by decide +kernel))) n

end Ntcip
