import Verif.Lemmas.Shown
import Verif.Props.Accept
/-
Lemmas for filled patterns on the sign (C72): from the pages of a message to its text rectangles, and back.
-/
namespace Ntcip
open Spec

/-- no `[np]` and no `[tr]` tag -/
def NoOpen (b : List Value) : Prop := ∀ v ∈ b, opens v = false

/-- `P` holds for the values of each text rectangle, and there are not too many of them; for the rest of a message that
begins within a page, at a text rectangle, after `n` others -/
inductive Walk (d : Dms) (P : TextAttr → Option UInt8 → Rectangle → List Value → Prop) :
    Nat → TextAttr → Option UInt8 → Rectangle → List Value → Prop
  | last {n t sp rect b} : NoOpen b → P t sp rect b → n < maxTextRectangles → Walk d P n t sp rect b
  | page {n t sp rect b V} : NoOpen b → P t sp rect b → n < maxTextRectangles →
      Walk d P 0 (b.foldl (TextAttr.apply (signAttr d)) t) none (signRect d) V → Walk d P n t sp rect (b ++ .newPage :: V)
  | rect {n t sp rect b r V} : NoOpen b → P t sp rect b →
      Walk d P (n + 1) (b.foldl (TextAttr.apply (signAttr d)) t) (b.foldl spacingAfter sp)
        (opened d r) V → Walk d P n t sp rect (b ++ .textRectangle r :: V)

theorem open_split {b b' : List Value} {v v' : Value} {V V' : List Value} (h : NoOpen b) (h' : NoOpen b')
    (hv : opens v = true) (hv' : opens v' = true) (e : b ++ v :: V = b' ++ v' :: V') : b = b' ∧ v = v' ∧ V = V' := by
  induction b generalizing b' with
  | nil =>
    cases b' with
    | nil => simpa using e
    | cons w b' =>
      simp only [List.nil_append, List.cons_append, List.cons.injEq] at e
      have := h' w (List.mem_cons_self ..)
      rw [← e.1, hv] at this; simp at this
  | cons w b ih =>
    cases b' with
    | nil =>
      simp only [List.nil_append, List.cons_append, List.cons.injEq] at e
      have := h w (List.mem_cons_self ..)
      rw [e.1, hv'] at this; simp at this
    | cons w' b' =>
      simp only [List.cons_append, List.cons.injEq] at e
      obtain ⟨h1, h2, h3⟩ := ih (fun x hx => h x (List.mem_cons_of_mem _ hx))
        (fun x hx => h' x (List.mem_cons_of_mem _ hx)) e.2
      exact ⟨by rw [e.1, h1], h2, h3⟩

theorem not_noOpen {b b' : List Value} {v : Value} {V : List Value} (h : NoOpen b) (hv : opens v = true)
    (e : b' ++ v :: V = b) : False := by
  have := h v (by rw [← e]; simp)
  rw [hv] at this; simp at this

theorem walk_last {d P n t sp rect b} (hb : NoOpen b) (h : Walk d P n t sp rect b) :
    P t sp rect b ∧ n < maxTextRectangles := by
  generalize e : b = V at h
  cases h with
  | last _ h1 h2 => subst e; exact ⟨h1, h2⟩
  | page => exact (not_noOpen hb rfl e.symm).elim
  | rect => exact (not_noOpen hb rfl e.symm).elim

theorem walk_page {d P n t sp rect b V} (hb : NoOpen b) (h : Walk d P n t sp rect (b ++ .newPage :: V)) :
    P t sp rect b ∧ n < maxTextRectangles ∧ Walk d P 0 (b.foldl (TextAttr.apply (signAttr d)) t) none (signRect d) V := by
  generalize e : b ++ .newPage :: V = U at h
  cases h with
  | last h0 => exact (not_noOpen h0 rfl e).elim
  | page h0 h1 h2 h3 =>
    obtain ⟨rfl, -, rfl⟩ := open_split hb h0 rfl rfl e
    exact ⟨h1, h2, h3⟩
  | rect h0 =>
    obtain ⟨-, h, -⟩ := open_split hb h0 rfl rfl e
    simp at h

theorem walk_rect {d P n t sp rect b r V} (hb : NoOpen b) (h : Walk d P n t sp rect (b ++ .textRectangle r :: V)) :
    P t sp rect b ∧ Walk d P (n + 1) (b.foldl (TextAttr.apply (signAttr d)) t) (b.foldl spacingAfter sp)
        (opened d r) V := by
  generalize e : b ++ .textRectangle r :: V = U at h
  cases h with
  | last h0 => exact (not_noOpen h0 rfl e).elim
  | page h0 =>
    obtain ⟨-, h, -⟩ := open_split hb h0 rfl rfl e
    simp at h
  | rect h0 h1 h2 =>
    obtain ⟨rfl, h, rfl⟩ := open_split hb h0 rfl rfl e
    simp only [Value.textRectangle.injEq] at h
    subst h
    exact ⟨h1, h2⟩

theorem sections_noOpen {b : List Value} (h : NoOpen b) : sections b = (b, []) := by
  induction b with
  | nil => rfl
  | cons v b ih =>
    have hv := h v (List.mem_cons_self ..)
    have := ih fun x hx => h x (List.mem_cons_of_mem _ hx)
    cases v <;> simp_all [sections, opens]

theorem sections_rect {b : List Value} {r : Rectangle} {p : List Value} (h : NoOpen b) :
    sections (b ++ .textRectangle r :: p) = (b, (r, (sections p).1) :: (sections p).2) := by
  induction b with
  | nil => rfl
  | cons v b ih =>
    have hv := h v (List.mem_cons_self ..)
    have := ih fun x hx => h x (List.mem_cons_of_mem _ hx)
    cases v <;> simp_all [sections, opens]

theorem takePage_append {b : List Value} (hb : ∀ v ∈ b, v ≠ .newPage) {ss V p : List _} {rest : List Str} {c : Bool}
    {bs : List Str} (hbs : Parses bs b) (h : TakePage ss p rest c) (_ : Parses ss V) :
    TakePage (bs ++ ss) (b ++ p) rest c := by
  induction hbs with
  | nil => exact h
  | cons hs _ ih =>
    exact .cons hs (hb _ (List.mem_cons_self ..)) (ih fun v hv => hb v (List.mem_cons_of_mem _ hv))

theorem takePage_strip {b : List Value} (hb : ∀ v ∈ b, v ≠ .newPage) {ss : List Str} {p : List Value} {rest : List Str}
    {c : Bool} {bs : List Str} (hbs : Parses bs b) (h : TakePage (bs ++ ss) p rest c) :
    ∃ q, TakePage ss q rest c ∧ p = b ++ q := by
  induction hbs generalizing p with
  | nil => exact ⟨p, h, rfl⟩
  | cons hs _ ih =>
    cases h with
    | np k =>
      rw [hs] at k
      simp only [Res.ok.injEq, Except.ok.injEq] at k
      exact (hb _ (List.mem_cons_self ..) k).elim
    | cons k _ k2 =>
      rw [hs] at k
      simp only [Res.ok.injEq, Except.ok.injEq] at k
      obtain ⟨q, h1, rfl⟩ := ih (fun v hv => hb v (List.mem_cons_of_mem _ hv)) k2
      exact ⟨q, h1, by rw [k]; rfl⟩

theorem parses_split {ss : List Str} {a b : List Value} (h : Parses ss (a ++ b)) :
    ∃ s1 s2, ss = s1 ++ s2 ∧ Parses s1 a ∧ Parses s2 b := by
  induction a generalizing ss with
  | nil => exact ⟨[], ss, rfl, .nil, h⟩
  | cons v a ih =>
    cases h with
    | cons hs h =>
      obtain ⟨s1, s2, rfl, h1, h2⟩ := ih h
      exact ⟨_ :: s1, s2, rfl, .cons hs h1, h2⟩

theorem noOpen_np {b : List Value} (h : NoOpen b) : ∀ v ∈ b, v ≠ .newPage := by
  rintro v hv rfl
  have := h _ hv
  simp [opens] at this

/-- the first page -/
theorem walk_first {d P n t sp rect V} (h : Walk d P n t sp rect V) {ss : List Str} (hp : Parses ss V) :
    ∃ p rest b, TakePage ss p rest b ∧ AllSections d P t sp rect (sections p).1 (sections p).2 ∧
      n + (sections p).2.length < maxTextRectangles ∧
      (b = false → p = V) ∧
      (b = true → ∃ V', V = p ++ .newPage :: V' ∧ Parses rest V' ∧
        Walk d P 0 (p.foldl (TextAttr.apply (signAttr d)) t) none (signRect d) V') := by
  induction h generalizing ss with
  | @last n t sp rect b h0 h1 h2 =>
    have := takePage_append (noOpen_np h0) hp .nil .nil
    rw [List.append_nil, List.append_nil] at this
    refine ⟨b, [], false, this, ?_, ?_, fun _ => rfl, by simp⟩
    · rw [sections_noOpen h0]; exact .last h1
    · rw [sections_noOpen h0]; simpa using h2
  | @page n t sp rect b V h0 h1 h2 h3 _ =>
    obtain ⟨s1, s2, rfl, e1, e2⟩ := parses_split hp
    cases e2 with
    | @cons s _ s2 _ hs e2 =>
      have := takePage_append (noOpen_np h0) e1 (.np hs) (.cons hs e2)
      rw [List.append_nil] at this
      refine ⟨b, s2, true, this, ?_, ?_, by simp, fun _ => ⟨V, rfl, e2, h3⟩⟩
      · rw [sections_noOpen h0]; exact .last h1
      · rw [sections_noOpen h0]; simpa using h2
  | @rect n t sp rect b r V h0 h1 h2 ih =>
    obtain ⟨s1, s2, rfl, e1, e2⟩ := parses_split hp
    cases e2 with
    | @cons s _ s2 _ hs e2 =>
      obtain ⟨p, rest, c, i1, i2, i3, i4, i5⟩ := ih e2
      have := takePage_append (noOpen_np h0) e1 (.cons hs (by simp) i1) (.cons hs e2)
      refine ⟨_, rest, c, this, ?_, ?_, ?_, ?_⟩
      · rw [sections_rect h0]; exact .next h1 i2
      · rw [sections_rect h0]
        simp only [List.length_cons]; omega
      · intro hc; rw [i4 hc]
      · intro hc
        obtain ⟨V', rfl, j1, j2⟩ := i5 hc
        refine ⟨V', by simp, j1, ?_⟩
        rw [List.foldl_append, List.foldl_cons]
        exact j2

/-- all pages -/
theorem walk_pages {d P t V} (h : Walk d P 0 t none (signRect d) V) {ss : List Str} (hp : Parses ss V)
    {t' ss'} (ha : PageAt d t ss t' ss') :
    ∃ p rest b, TakePage ss' p rest b ∧ AllSections d P t' none (signRect d) (sections p).1 (sections p).2 ∧
      (sections p).2.length < maxTextRectangles ∧ ∃ V1 V2, V = V1 ++ p ++ V2 := by
  induction ha generalizing V with
  | @first t ss =>
    obtain ⟨p, rest, b, h1, h2, h3, h4, h5⟩ := walk_first h hp
    refine ⟨p, rest, b, h1, h2, by omega, ?_⟩
    cases b with
    | false => exact ⟨[], [], by simp [h4 rfl]⟩
    | true =>
      obtain ⟨V', rfl, -⟩ := h5 rfl
      exact ⟨[], .newPage :: V', by simp⟩
  | @later t ss vs rest t' ss' hT _ ih =>
    obtain ⟨p, rest', b, h1, h2, h3, h4, h5⟩ := walk_first h hp
    obtain ⟨rfl, rfl, rfl⟩ := takePage_unique hT h1
    obtain ⟨V', rfl, j1, j2⟩ := h5 rfl
    obtain ⟨p, rest', b, h1, h2, h3, V1, V2, rfl⟩ := ih j2 j1
    exact ⟨p, rest', b, h1, h2, h3, vs ++ .newPage :: V1, V2, by simp⟩

theorem noOpen_or {V : List Value} : NoOpen V ∨ ∃ b v V', V = b ++ v :: V' ∧ NoOpen b ∧ opens v = true := by
  induction V with
  | nil => exact .inl (by simp [NoOpen])
  | cons w V ih =>
    cases hw : opens w with
    | true => exact .inr ⟨[], w, V, rfl, by simp [NoOpen], hw⟩
    | false =>
      rcases ih with h | ⟨b, v, V', rfl, h1, h2⟩
      · refine .inl ?_
        intro x hx
        rcases List.mem_cons.1 hx with rfl | hx
        · exact hw
        · exact h x hx
      · refine .inr ⟨w :: b, v, V', rfl, ?_, h2⟩
        intro x hx
        rcases List.mem_cons.1 hx with rfl | hx
        · exact hw
        · exact h1 x hx

/-- and back: from the pages to the text rectangles -/
theorem pages_walk {d P} (N : Nat) : ∀ {n t sp rect V ss}, V.length < N → Parses ss V →
    (∃ p rest b, TakePage ss p rest b ∧ AllSections d P t sp rect (sections p).1 (sections p).2 ∧
      n + (sections p).2.length < maxTextRectangles ∧
      (b = true → ∀ t' ss', PageAt d (p.foldl (TextAttr.apply (signAttr d)) t) rest t' ss' → ∃ p rest b, TakePage ss' p rest b ∧
        AllSections d P t' none (signRect d) (sections p).1 (sections p).2 ∧
          (sections p).2.length < maxTextRectangles)) → Walk d P n t sp rect V := by
  induction N with
  | zero => intro _ _ _ _ _ _ h; simp at h
  | succ N ih =>
    intro n t sp rect V ss hN hp ⟨p, rest, c, h1, h2, h3, h4⟩
    rcases noOpen_or (V := V) with hV | ⟨b, v, V', rfl, hb, hv⟩
    · have := takePage_append (noOpen_np hV) hp .nil .nil
      rw [List.append_nil, List.append_nil] at this
      obtain ⟨rfl, rfl, rfl⟩ := takePage_unique h1 this
      rw [sections_noOpen hV] at h2 h3
      cases h2 with
      | last h2 => exact .last hV h2 (by simpa using h3)
    · obtain ⟨s1, s2, rfl, e1, e2⟩ := parses_split hp
      cases e2 with
      | @cons s _ s2 _ hs e2 =>
        have hlen : V'.length < N := by simp at hN; omega
        cases v <;> simp [opens] at hv
        · have := takePage_append (noOpen_np hb) e1 (.np hs) (.cons hs e2)
          rw [List.append_nil] at this
          obtain ⟨rfl, rfl, rfl⟩ := takePage_unique h1 this
          rw [sections_noOpen hb] at h2 h3
          cases h2 with
          | last h2 =>
            refine .page hb h2 (by simpa using h3) (ih hlen e2 ?_)
            obtain ⟨p, rest, c, k1, k2, k3⟩ := h4 rfl _ _ .first
            refine ⟨p, rest, c, k1, k2, by omega, ?_⟩
            rintro rfl t' ss' ha
            exact h4 rfl t' ss' (.later k1 ha)
        · rename_i r
          have htp : ∃ p' , TakePage s2 p' rest c ∧ p = b ++ .textRectangle r :: p' := by
            obtain ⟨q, k1, rfl⟩ := takePage_strip (noOpen_np hb) e1 h1
            cases k1 with
            | np k => rw [hs] at k; simp at k
            | cons k _ k2 =>
              rw [hs] at k
              simp only [Res.ok.injEq, Except.ok.injEq] at k
              subst k
              exact ⟨_, k2, rfl⟩
          obtain ⟨p', k1, rfl⟩ := htp
          rw [sections_rect hb] at h2 h3
          cases h2 with
          | next h2 h2' =>
            refine .rect hb h2 (ih hlen e2 ⟨p', rest, c, k1, h2', ?_, ?_⟩)
            · simp at h3; omega
            · rw [List.foldl_append, List.foldl_cons] at h4
              exact h4

end Ntcip
