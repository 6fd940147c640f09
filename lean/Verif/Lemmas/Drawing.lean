import Verif.Lemmas.Layout
/-
Drawing of text spans.
-/
namespace Ntcip
open Spec

/-- Only pixels of a box differ between the pages `a` and `b`; those have one of the colors `P` in `b` -/
structure Spec.ChangesOnly (P : Rgb → Prop) (x y w h : Nat) (a b : Raster) : Prop where
  width : b.width = a.width
  height : b.height = a.height
  px : ∀ i j, b.px i j ≠ a.px i j → (x ≤ i ∧ i < x + w ∧ y ≤ j ∧ j < y + h) ∧ P (b.px i j)

theorem Spec.ChangesOnly.refl (P x y w h a) : ChangesOnly P x y w h a a := ⟨rfl, rfl, by simp⟩

theorem Spec.ChangesOnly.trans {P x y w h a b c} (h1 : ChangesOnly P x y w h a b)
    (h2 : ChangesOnly P x y w h b c) : ChangesOnly P x y w h a c := by
  refine ⟨h2.width.trans h1.width, h2.height.trans h1.height, ?_⟩
  intro i j hne
  by_cases e : c.px i j = b.px i j
  · rw [e] at hne ⊢; exact h1.px i j hne
  · exact h2.px i j e

theorem Spec.ChangesOnly.mono {P Q : Rgb → Prop} {x y w h x' y' w' h' a b} (h1 : ChangesOnly P x y w h a b)
    (hx : x' ≤ x) (hw : x + w ≤ x' + w') (hy : y' ≤ y) (hh : y + h ≤ y' + h') (hp : ∀ c, P c → Q c) :
    ChangesOnly Q x' y' w' h' a b := by
  refine ⟨h1.width, h1.height, ?_⟩
  intro i j hne
  obtain ⟨h2, h3⟩ := h1.px i j hne
  exact ⟨⟨by omega, by omega, by omega, by omega⟩, hp _ h3⟩

theorem renderTextLoop_defined (f : Font) (hf : FontOk f) (x y cs : Nat) (cf : Rgb) (text : Str)
    (hn : ∀ ch ∈ text, ch.toNat ≠ 0) (es : List CharacterEntry) (h : Defined f text es) (ws : List Nat)
    (page : Raster) (hw : x + advance cs (ws ++ es.map (·.width.toNat)) ≤ page.width)
    (hh : y + f.height.toNat ≤ page.height) :
    ∃ r, Font.renderTextLoop f x y cs cf page (advance cs ws) text = .ok r ∧
      ChangesOnly (· = cf) x y (advance cs (ws ++ es.map (·.width.toNat))) f.height.toNat page r := by
  induction text generalizing es ws page with
  | nil => exact ⟨page, rfl, ChangesOnly.refl ..⟩
  | cons ch text ih =>
    cases es with
    | nil => simp [Defined] at h
    | cons e es =>
      simp only [Defined, List.map_cons, List.cons.injEq] at h
      have e1 : ws ++ (e :: es).map (·.width.toNat) = (ws ++ [e.width.toNat]) ++ es.map (·.width.toNat) := by
        simp
      rw [e1] at hw ⊢
      have hle := advance_append_le cs (ws ++ [e.width.toNat]) (es.map (·.width.toNat))
      have hs := advance_snoc cs ws e.width.toNat
      have hb := C28_valid_fonts f hf ch (hn ch (List.mem_cons_self ..)) e h.1
      have key : ∀ xx, xx = (if 0 < advance cs ws then advance cs ws + cs else advance cs ws) →
          xx + e.width.toNat = advance cs (ws ++ [e.width.toNat]) := by
        rintro xx rfl
        rw [hs]; simp only [advance_pos]; split <;> omega
      rw [Font.renderTextLoop, h.1]
      dsimp only
      generalize hxx : (if 0 < advance cs ws then advance cs ws + cs else advance cs ws) = xx at key ⊢
      have hk := key xx rfl
      obtain ⟨r, hr, r1, r2, r3⟩ := C28_inside_box e page (x + xx) y f.height.toNat cf hb (by omega) (by omega)
      have hc : ChangesOnly (· = cf) x y (advance cs ((ws ++ [e.width.toNat]) ++ es.map (·.width.toNat)))
          f.height.toNat page r := by
        refine ⟨r1, r2, ?_⟩
        intro i j hne
        obtain ⟨a1, a2⟩ := r3 i j hne
        exact ⟨⟨by omega, by omega, by omega, by omega⟩, a2⟩
      rw [hr, hk]
      simp only [Out.ofRes_ok, Out.ok_bind]
      obtain ⟨r', hr', hc'⟩ := ih (fun c hc => hn c (List.mem_cons_of_mem _ hc)) es h.2 (ws ++ [e.width.toNat]) r
        (by omega) (by omega)
      exact ⟨r', hr', hc.trans hc'⟩

theorem renderText_defined (f : Font) (hf : FontOk f) (x y cs : Nat) (cf : Rgb) (text : Str)
    (hn : ∀ ch ∈ text, ch.toNat ≠ 0) (es : List CharacterEntry) (h : Defined f text es)
    (page : Raster) (hw : x + advance cs (es.map (·.width.toNat)) ≤ page.width)
    (hh : y + f.height.toNat ≤ page.height) :
    ∃ r, f.renderText page text x y cs cf = .ok r ∧
      ChangesOnly (· = cf) x y (advance cs (es.map (·.width.toNat))) f.height.toNat page r := by
  have := renderTextLoop_defined f hf x y cs cf text hn es h [] page (by simpa using hw) hh
  simpa [advance_nil, Font.renderText] using this

/-- A text rectangle of a sign of size `w`×`h`: inside of it, with its corner at a character cell -/
structure Spec.RectIn (r : Rectangle) (w h : Nat) : Prop where
  x : 1 ≤ r.x.toNat
  y : 1 ≤ r.y.toNat
  right : r.x.toNat - 1 + r.width.toNat ≤ w
  bottom : r.y.toNat - 1 + r.height.toNat ≤ h

structure Spec.Aligned (d : Dms) (r : Rectangle) : Prop where
  x : (r.x.toNat - 1) % (signCellWidth d) = 0
  y : (r.y.toNat - 1) % (signCellHeight d) = 0

/-- changes inside of a (1-based) rectangle -/
def Spec.ChangesIn (P : Rgb → Prop) (r : Rectangle) (a b : Raster) : Prop :=
  ChangesOnly P (r.x.toNat - 1) (r.y.toNat - 1) r.width.toNat r.height.toNat a b

theorem spanText_ok {d : Dms} {spans : List Span} {s : Span} {page : Raster} {x y : Nat} {f : Font}
    {r : Raster} (hs : s ∈ spans) (hx : spanX d spans s = .ok x) (hy : spanY d spans s = .ok y)
    (hf : s.state.font d.fontDefinition = .ok f)
    (hr : s.renderText page f x y = .ok r)
    (fok : FontOk f) (hn : ∀ ch ∈ s.str, ch.toNat ≠ 0)
    (ha : Aligned d s.state.textRectangle) (hi : RectIn s.state.textRectangle page.width page.height)
    (hm : s.state.justPage = .middle → CellFonts d (samePage spans s)) :
    ChangesIn (· = s.state.colorCtx.foregroundRgb) s.state.textRectangle page r := by
  obtain ⟨w, ⟨f1, es, hf1, hd, rfl⟩, x1, x2, x3⟩ := spanX_inside hx hs ha.x
  obtain ⟨f2, hf2, y1, y2, y3⟩ := spanY_inside hy hs ha.y hm
  have hf := font_ok.1 hf
  obtain rfl := fontOf_unique hf hf1
  obtain rfl := fontOf_unique hf hf2
  have hcs : s.charSpacingFont f = charSpacing s f := by
    unfold Span.charSpacingFont charSpacing
    split <;> rename_i h <;> simp [h]
  have h1 := hi.right
  have h2 := hi.bottom
  obtain ⟨r', hr', hc⟩ := renderText_defined f fok x y (charSpacing s f) s.state.colorCtx.foregroundRgb
    s.str hn es hd page (by omega) (by omega)
  unfold Span.renderText at hr
  rw [hcs, hr'] at hr
  simp only [Out.mapErr_ok, Out.ok.injEq] at hr
  subst hr
  exact hc.mono x2 x3 y2 y3 (fun c h => h)

theorem renderSpansLoop_ok {d : Dms} {spans ss : List Span} {page r : Raster} {rect : Rectangle}
    (h : renderSpansLoop d spans ss page = .ok r) (hsub : ∀ s ∈ ss, s ∈ spans)
    (hf : ∀ s ∈ spans, ∀ f, FontOf d.fontDefinition s f → FontOk f)
    (hn : ∀ s ∈ spans, ∀ ch ∈ s.str, ch.toNat ≠ 0)
    (hr : ∀ s ∈ spans, s.state.textRectangle = rect)
    (ha : Aligned d rect) (hi : RectIn rect page.width page.height)
    (hm : (∃ s ∈ spans, s.state.justPage = .middle) → CellFonts d spans) :
    ChangesIn (fun c => ∃ s ∈ ss, c = s.state.colorCtx.foregroundRgb) rect page r := by
  induction ss generalizing page with
  | nil =>
    simp only [renderSpansLoop, Out.ok.injEq] at h
    subst h; exact ChangesOnly.refl ..
  | cons s ss ih =>
    simp only [renderSpansLoop, Out.bind_eq_ok] at h
    obtain ⟨x, hx, y, hy, f, hff, r1, hr1, h⟩ := h
    have hs := hsub s (List.mem_cons_self ..)
    have e := hr s hs
    have c1 := spanText_ok hs hx hy hff hr1 (hf s hs f (font_ok.1 hff)) (hn s hs)
      (by rw [e]; exact ha) (by rw [e]; exact hi) (fun hj => by
        rcases hm ⟨s, hs, hj⟩ with hm | hm
        · exact .inl hm
        · refine .inr fun s' hs' => hm s' ?_
          unfold samePage at hs'; exact (List.mem_filter.1 hs').1)
    rw [e] at c1
    have c2 := ih h (fun s hs => hsub s (List.mem_cons_of_mem _ hs))
      (by rw [c1.width, c1.height]; exact hi)
    refine ChangesOnly.trans (c1.mono (Nat.le_refl _) (Nat.le_refl _) (Nat.le_refl _) (Nat.le_refl _) ?_)
      (c2.mono (Nat.le_refl _) (Nat.le_refl _) (Nat.le_refl _) (Nat.le_refl _) ?_)
    · rintro c rfl; exact ⟨s, List.mem_cons_self .., rfl⟩
    · rintro c ⟨s', hs', rfl⟩; exact ⟨s', List.mem_cons_of_mem _ hs', rfl⟩

end Ntcip
