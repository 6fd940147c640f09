import Verif.Lemmas.Fill
import Verif.Lemmas.Normalize
import Verif.Lemmas.Display
import Verif.Props.Escape
/-
Extracting lines from a filled pattern
-/
namespace Ntcip
open Spec

/-- a valid item may be followed by a bracket -/
theorem follows_bracket {t : Str} {v : Value} {c : Char} (ht : Item t) (h : tryFrom t = .ok (.ok v))
    (hc : IsBracket c) : Follows t (some c) := by
  rcases tryFrom_ok ht h with ⟨rfl, -⟩ | ⟨rfl, -⟩ | ⟨-, h1, h2, -⟩ | ⟨k, pre, r, rfl, -, -, -, -⟩
  · refine ⟨fun _ hp => absurd (hp '[' (by simp)).1 (by simp), ?_, by simp⟩
    rintro b hb hp; cases hb; exact absurd (hp '[' (by simp)).1 (by simp)
  · refine ⟨fun _ hp => absurd (hp ']' (by simp)).2 (by simp), ?_, by simp⟩
    rintro b hb; cases hb
  · refine ⟨fun _ _ x hx => by cases hx; exact hc, ?_, ?_⟩
    · rintro b rfl; exact absurd (h2 '[' (by simp)).1 (by simp)
    · rintro rfl; exact absurd (h2 ']' (by simp)).2 (by simp)
  · refine ⟨fun _ hp => absurd (hp '[' (by simp)).1 (by simp), ?_, by simp⟩
    rintro b hb hp
    simp only [List.cons.injEq, true_and] at hb
    subst hb
    exact absurd (hp ']' (by simp)).2 (by simp)

theorem follows_none {t : Str} : Follows t none := ⟨by simp, by simp, by simp⟩

theorem isLinePart_eq (v : Value) : v.isLinePart = inLine v := by cases v <;> rfl

/-- the tail begins with a bracket, or is empty -/
def TailOk (T : Str) : Prop := ∀ c, T.head? = some c → IsBracket c

/-- reading a line of text -/
theorem scan_line {l : Str} (hl : LineText l) {T : Str} (hT : TailOk T) (c : Str) (n : Nat) (acc : List Str)
    (fuel : Nat) (hf : l.length + T.length < fuel) :
    ∃ fuel', T.length < fuel' ∧
      scanLines fuel c (l ++ T) c (l ++ T) n acc = scanLines fuel' (c ++ l) T (c ++ l) T n acc := by
  induction l using slices_induction generalizing c fuel with
  | h0 => exact ⟨fuel, by simpa using hf, by simp⟩
  | h1 t r ht hfo ih =>
    obtain ⟨vs, hp, hv⟩ := hl
    rw [slices_item ht hfo] at hp
    cases hp with
    | @cons _ v _ vs htv hp =>
    have hpos := List.length_pos_iff.2 (item_ne_nil ht)
    simp only [List.length_append] at hf
    obtain ⟨f, rfl⟩ : ∃ f, fuel = f + 1 := ⟨fuel - 1, by omega⟩
    obtain ⟨f', h1, h2⟩ := ih ⟨vs, hp, fun w hw => hv w (List.mem_cons_of_mem _ hw)⟩ (c ++ t) f (by omega)
    refine ⟨f', h1, ?_⟩
    have hfo' : Follows t (r ++ T).head? := by
      cases r with
      | nil =>
        cases hT' : T.head? with
        | none => simp [hT']; exact follows_none
        | some x => simp only [List.nil_append, hT']; exact follows_bracket ht htv (hT x hT')
      | cons a r => exact hfo
    have hin : v.isLinePart = true := by rw [isLinePart_eq]; exact hv v (List.mem_cons_self ..)
    rw [scanLines, List.append_assoc, nextSlice_item ht hfo']
    dsimp only
    rw [htv]
    dsimp only
    rw [if_pos hin, h2, List.append_assoc]

/-- a tail at which a line ends: nothing, or a valid tag that is neither part of a line nor a line break -/
def StopTail (T : Str) : Prop :=
  T = [] ∨ ∃ t r v, nextSlice T = some (t, r) ∧ tryFrom t = .ok (.ok v) ∧ inLine v = false ∧
    (∀ s, v ≠ .newLine s)

theorem scan_stop {T : Str} (h : StopTail T) (c b a : Str) (n : Nat) (acc : List Str) (fuel : Nat)
    (hf : T.length < fuel) : scanLines fuel c T b a n acc = .ok (acc, b, a, n) := by
  obtain ⟨f, rfl⟩ : ∃ f, fuel = f + 1 := ⟨fuel - 1, by omega⟩
  rw [scanLines]
  rcases h with rfl | ⟨t, r, v, h1, h2, h3, h4⟩
  · rw [nextSlice_nil]
  · rw [h1]; dsimp only; rw [h2]; dsimp only
    rw [if_neg (by rw [isLinePart_eq, h3]; simp)]
    split
    · rename_i s; exact absurd rfl (h4 s)
    · rfl

theorem nl_item : Item c!"[nl]" := .tag c!"nl" (by simp [Plain])
theorem nl_follows (r : Str) : Follows c!"[nl]" r.head? := by
  refine ⟨fun _ hp => absurd (hp '[' (by simp)).1 (by simp), ?_, by simp⟩
  rintro b hb hp
  simp only [List.cons.injEq, true_and] at hb
  subst hb
  exact absurd (hp ']' (by simp)).2 (by simp)
theorem nl_parse : tryFrom c!"[nl]" = .ok (.ok (.newLine none)) := by decide +kernel

/-- reading several lines -/
theorem scan_lines (ls : List Str) (l : Str) (hl : ∀ x ∈ l :: ls, LineText x) {T : Str} (hT : TailOk T)
    (hs : StopTail T) (n : Nat) (hn : ls.length ≤ n) (acc : List Str) (fuel : Nat)
    (hf : (joinLines (l :: ls) ++ T).length < fuel) :
    scanLines fuel [] (joinLines (l :: ls) ++ T) [] (joinLines (l :: ls) ++ T) n acc =
      .ok (acc ++ (l :: ls).dropLast, (l :: ls).getLast (by simp), T, n - ls.length) := by
  induction ls generalizing l n acc fuel with
  | nil =>
    have e : joinLines [l] = l := by simp [joinLines, List.intercalate]
    rw [e] at hf ⊢
    obtain ⟨f', h1, h2⟩ := scan_line (hl l (by simp)) hT [] n acc fuel (by simpa using hf)
    rw [h2, scan_stop hs _ _ _ _ _ _ h1]
    simp
  | cons l' ls ih =>
    have e : joinLines (l :: l' :: ls) ++ T = l ++ (c!"[nl]" ++ (joinLines (l' :: ls) ++ T)) := by
      simp [joinLines, List.intercalate]
    rw [e] at hf ⊢
    obtain ⟨f', h1, h2⟩ := scan_line (T := c!"[nl]" ++ (joinLines (l' :: ls) ++ T)) (hl l (by simp))
      (by intro c hc; simp at hc; exact .inl hc.symm) [] n acc fuel (by simpa using hf)
    rw [h2]
    obtain ⟨f, rfl⟩ : ∃ f, f' = f + 1 := ⟨f' - 1, by omega⟩
    simp only [List.length_cons] at hn
    rw [scanLines, nextSlice_item nl_item (nl_follows _)]
    dsimp only
    rw [nl_parse]
    dsimp only
    rw [if_neg (by decide), if_pos (by omega), ih l' (fun x hx => hl x (List.mem_cons_of_mem _ hx)) _ (by omega)]
    · simp; omega
    · simp only [List.length_append] at h1 ⊢; simp at h1; omega

/-- the lines read from an area with `k` lines -/
theorem scan_area (ls : List Str) (k : Nat) (hl : ∀ x ∈ ls, LineText x) {T : Str} (hT : TailOk T)
    (hs : StopTail T) (acc : List Str) (fuel : Nat) (hf : (joinLines (ls.take k) ++ T).length < fuel) :
    ∃ acc' before n, scanLines fuel [] (joinLines (ls.take k) ++ T) [] (joinLines (ls.take k) ++ T) k acc =
        .ok (acc', before, T, n) ∧
      acc' ++ padLines before n = acc ++ (ls.take k ++ List.replicate (k - ls.length) []) := by
  cases hx : ls.take k with
  | nil =>
    have e : joinLines [] ++ T = T := rfl
    rw [hx, e] at hf
    rw [e, scan_stop hs _ _ _ _ _ _ hf]
    refine ⟨acc, [], k, rfl, ?_⟩
    cases k with
    | zero => simp [padLines]
    | succ k =>
      have : ls = [] := by cases ls <;> simp_all
      simp [padLines, this, List.replicate_succ]
  | cons l m =>
    have hm : m.length + 1 = min k ls.length := by rw [← List.length_cons (a := l), ← hx, List.length_take]
    rw [hx] at hf
    rw [scan_lines m l (fun x h => hl x (List.mem_of_mem_take (hx ▸ h))) hT hs k (by omega) acc fuel hf]
    refine ⟨_, _, _, rfl, ?_⟩
    obtain ⟨j, hj⟩ : ∃ j, k - m.length = j + 1 := ⟨k - m.length - 1, by omega⟩
    have hj' : k - ls.length = j := by omega
    have e := List.dropLast_concat_getLast (List.cons_ne_nil l m)
    rw [hj, padLines, hj', List.append_assoc]
    conv => rhs; rw [← e]
    simp

/-- reading a value -/
theorem skipFonts_value {v : Value} (hv : Faithful v) (hn : isFont v = false) {r : Str}
    (hr : isSpan v = true → TailOk r) (fuel : Nat) (hf : 0 < fuel) :
    skipFonts fuel (v.display ++ r) = .ok (some (.ok v), r) := by
  obtain ⟨h1, h2⟩ := display_parse v hv
  obtain ⟨f, rfl⟩ : ∃ f, fuel = f + 1 := ⟨fuel - 1, by omega⟩
  rw [skipFonts, nextSlice_item h1 (display_follows v hv.1 _ hr)]
  dsimp only
  rw [h2]
  cases v <;> simp_all [isFont]

/-- reading a font tag -/
theorem skipFonts_font {v : Value} (hv : Faithful v) (hn : isFont v = true) (r : Str) (fuel : Nat) :
    skipFonts (fuel + 1) (v.display ++ r) = skipFonts fuel r := by
  obtain ⟨h1, h2⟩ := display_parse v hv
  have : isSpan v = false := by cases v <;> simp_all [isFont, isSpan]
  rw [skipFonts, nextSlice_item h1 (display_follows v hv.1 _ (by simp [this]))]
  dsimp only
  rw [h2]
  cases v <;> simp_all [isFont]

theorem plainText_eq (v : Value) : plainText v = isSpan v := by cases v <;> rfl

theorem linesLoop_value (d : Dms) {v : Value} (hv : Faithful v) (hn : isFont v = false) {r : Str}
    (hr : isSpan v = true → TailOk r) (items : List (Res (Except SyntaxError PatValue))) (acc : List Str) :
    linesLoop d (good (.value v) :: items) (v.display ++ r) acc = linesLoop d items r acc := by
  have := skipFonts_value hv hn hr ((v.display ++ r).length + 1) (by omega)
  rw [good]
  cases v <;> first | simp [isFont] at hn | skip
  all_goals
    rw [linesLoop, this]
    · simp
    all_goals simp

theorem linesLoop_font (d : Dms) {v : Value} (hn : isFont v = true)
    (items : List (Res (Except SyntaxError PatValue))) (s : Str) (acc : List Str) :
    linesLoop d (good (.value v) :: items) s acc = linesLoop d items s acc := by
  cases v <;> simp_all [isFont, good, linesLoop]

theorem tagsText_cons_font {v : Value} (hn : isFont v = true) (vs : List Value) :
    tagsText (v :: vs) = tagsText vs := by simp [tagsText, hn]
theorem tagsText_cons {v : Value} (hn : isFont v = false) (vs : List Value) :
    tagsText (v :: vs) = v.display ++ tagsText vs := by simp [tagsText, hn]

theorem tail_tagsText {vs : List Value} (hv : ∀ v ∈ vs, Faithful v) {r : Str} (hr : TailOk r)
    (h : ∀ w, (vs.filter fun v => !isFont v).head? = some w → isSpan w = false) : TailOk (tagsText vs ++ r) := by
  induction vs with
  | nil => simpa [tagsText] using hr
  | cons v vs ih =>
    cases hf : isFont v with
    | true =>
      rw [tagsText_cons_font hf]
      exact ih (fun w hw => hv w (List.mem_cons_of_mem _ hw)) (by simpa [hf] using h)
    | false =>
      rw [tagsText_cons hf, List.append_assoc]
      have hs := h v (by simp [hf])
      obtain ⟨c, h1, h2⟩ := display_head v (hv v (List.mem_cons_self ..)).1 hs (tagsText vs ++ r)
      intro x hx; rw [h1] at hx; cases hx; exact h2

/-- reading the content of an area -/
theorem linesLoop_body (d : Dms) (body : List Value) (hv : ∀ v ∈ body, Faithful v)
    (ha : Apart (body.filter fun v => !isFont v)) {r : Str}
    (hr : body.any isSpan = true → TailOk r) (items : List (Res (Except SyntaxError PatValue))) (acc : List Str) :
    linesLoop d ((body.map .value).map good ++ items) (tagsText body ++ r) acc = linesLoop d items r acc := by
  induction body with
  | nil => simp [tagsText]
  | cons v body ih =>
    have hv' : ∀ w ∈ body, Faithful w := fun w hw => hv w (List.mem_cons_of_mem _ hw)
    cases hf : isFont v with
    | true =>
      have := ih hv' (by simpa [hf] using ha) (fun h => hr (by simp_all))
      rw [tagsText_cons_font hf, List.map_cons, List.map_cons, List.cons_append, linesLoop_font d hf, this]
    | false =>
      simp only [List.filter_cons, hf, Bool.not_false, if_true, Apart, plainText_eq] at ha
      have := ih hv' ha.2 (fun h => hr (by simp_all))
      rw [tagsText_cons hf, List.map_cons, List.map_cons, List.cons_append, List.append_assoc,
        linesLoop_value d (hv v (List.mem_cons_self ..)) hf, this]
      intro hsp
      exact tail_tagsText hv' (hr (by simp [hsp])) (ha.1 hsp)

/-- each area but the last has a next one -/
def Linked : List Area → Prop
  | [] => True
  | [a] => a.next = none
  | a :: as => (∃ v, a.next = some v ∧ opens v = true) ∧ Linked as

theorem linked_cons {a : Area} {as : List Area} (h : as ≠ []) :
    Linked (a :: as) ↔ (∃ v, a.next = some v ∧ opens v = true) ∧ Linked as := by
  cases as with
  | nil => simp at h
  | cons b as => rfl

theorem areasFrom_linked (before : List Value) (opener : Option Value) (body vs : List Value) :
    Linked (areasFrom before opener body vs) := by
  induction vs generalizing before opener body with
  | nil => rfl
  | cons v vs ih =>
    rw [areasFrom]
    split
    · rename_i ho
      rw [linked_cons (areasFrom_ne_nil _ _ _ _)]
      exact ⟨⟨v, rfl, ho⟩, ih _ _ _⟩
    · exact ih _ _ _

theorem opens_span {v : Value} (h : opens v = true) : isSpan v = false ∧ isFont v = false ∧ inLine v = false ∧
    ∀ s, v ≠ .newLine s := by
  cases v <;> simp_all [opens, isSpan, isFont, inLine]

theorem stop_value {v : Value} (hv : Faithful v) (hs : isSpan v = false) (hi : inLine v = false)
    (hn : ∀ s, v ≠ .newLine s) (r : Str) : StopTail (v.display ++ r) ∧ TailOk (v.display ++ r) := by
  obtain ⟨h1, h2⟩ := display_parse v hv
  refine ⟨.inr ⟨_, r, v, nextSlice_item h1 (display_follows v hv.1 _ (by simp [hs])), h2, hi, hn⟩, ?_⟩
  obtain ⟨c, h3, h4⟩ := display_head v hv.1 hs r
  intro x hx; rw [h3] at hx; cases hx; exact h4

theorem pendingFont_mem {p : Option FontTag} {vs : List Value} {f : FontTag} (h : pendingFont p vs = some f) :
    p = some f ∨ .font f ∈ vs := by
  induction vs generalizing p with
  | nil => exact .inl h
  | cons v vs ih =>
    have e : pendingFont p (v :: vs) = pendingFont (pendingFont p [v]) vs := rfl
    rw [e] at h
    rcases ih h with h | h
    · cases v <;> simp_all [pendingFont]
    · exact .inr (List.mem_cons_of_mem _ h)

theorem skipFonts_nil (fuel : Nat) : skipFonts fuel [] = .ok (none, []) := by
  cases fuel with
  | zero => rfl
  | succ n => rw [skipFonts, nextSlice_nil]

/-- reading an optional font tag and the tag that opens the next area -/
theorem linesLoop_next (d : Dms) {p : Option FontTag} (hp : ∀ f, p = some f → Faithful (.font f)) {v : Value}
    (hv : Faithful v) (ho : opens v = true) (r : Str) (items : List (Res (Except SyntaxError PatValue)))
    (acc : List Str) :
    linesLoop d (good (.value v) :: items) (fontText p ++ v.display ++ r) acc = linesLoop d items r acc := by
  obtain ⟨h1, h2, -, -⟩ := opens_span ho
  cases p with
  | none => exact linesLoop_value d hv h2 (by simp [h1]) items acc
  | some f =>
    have key : skipFonts ((fontText (some f) ++ v.display ++ r).length + 1) (fontText (some f) ++ v.display ++ r) =
        .ok (some (.ok v), r) := by
      rw [List.append_assoc, fontText, skipFonts_font (hp f rfl) rfl]
      apply skipFonts_value hv h2 (by simp [h1])
      have := List.length_pos_iff.2 (display_ne_nil v hv.1)
      simp only [List.length_append]; omega
    rw [good]
    cases v <;> simp [opens] at ho
    · rw [linesLoop, key]
      · simp
      · simp
    · rw [linesLoop, key]
      · simp
      · simp

/-- lines of all fillable areas -/
theorem linesLoop_filled (d : Dms) {as : List Area} {ls : List Str} {p : Option FontTag} {s : Str} {n : Nat} {ws}
    (h : Filled d as ls p s) (hL : Linked as) (hw : FillLines d n (as.filter (Area.fillable d)) ws)
    (hv : ∀ a ∈ as, ∀ v ∈ a.body ++ a.next.toList, Faithful v)
    (ha : ∀ a ∈ as, Apart (a.body.filter fun v => !isFont v))
    (hp : ∀ f, p = some f → Faithful (.font f)) (hl : ∀ l ∈ ls, LineText l) (acc : List Str) :
    linesLoop d ((as.flatMap (areaItems d)).map good) s acc =
      .ok (acc ++ (ls ++ List.replicate ws.length []).take ws.length) := by
  induction h generalizing n ws acc with
  | nil =>
    cases hw
    simp [linesLoop]
  | @skip a as ls p s hf hfl ih =>
    rw [List.filter_cons, if_neg (by simp [hf])] at hw
    have hva := hv a (List.mem_cons_self ..)
    have hpf : ∀ f, pendingFont p a.body = some f → Faithful (.font f) := by
      intro f h
      rcases pendingFont_mem h with h | h
      · exact hp f h
      · exact hva _ (List.mem_append_left _ h)
    have hL' : Linked as := by
      cases as with
      | nil => trivial
      | cons b as => exact ((linked_cons (by simp)).1 hL).2
    have ih := ih hL' hw (fun b hb => hv b (List.mem_cons_of_mem _ hb)) (fun b hb => ha b (List.mem_cons_of_mem _ hb))
      hpf hl acc
    simp only [List.flatMap_cons, areaItems, hf, Bool.false_eq_true, if_false, List.append_nil, List.map_append,
      List.append_assoc]
    have hbody := fun v hv => hva v (List.mem_append_left _ hv)
    cases as with
    | nil =>
      have hn : a.next = none := hL
      cases hfl
      rw [linesLoop_body d a.body hbody (ha a (List.mem_cons_self ..))]
      · simpa [hn, nextText] using ih
      · intro _; simp [hn, nextText, TailOk]
    | cons b as =>
      obtain ⟨⟨v, hn, ho⟩, -⟩ := (linked_cons (by simp)).1 hL
      have hfv : Faithful v := hva v (by simp [hn])
      obtain ⟨h1, h2, h3, h4⟩ := opens_span ho
      have hnt : nextText a = v.display := by simp [nextText, hn]
      rw [hnt, linesLoop_body d a.body hbody (ha a (List.mem_cons_self ..))]
      · have := linesLoop_next d (p := none) (by simp) hfv ho s
          ((List.flatMap (areaItems d) (b :: as)).map good) acc
        rw [hn]
        simp only [Option.toList, List.map_cons, List.map_nil, List.cons_append, List.nil_append]
        rw [← ih, ← this]
        rfl
      · intro _; exact (stop_value hfv h1 h3 h4 s).2
  | @fill a as ls p s k hf hk hfl ih =>
    rw [List.filter_cons, if_pos hf] at hw
    cases hw with
    | @cons _ _ _ k' ws hk' hw =>
    rw [hk] at hk'; simp at hk'; subst hk'
    have hva := hv a (List.mem_cons_self ..)
    have hpf : ∀ f, pendingFont p a.body = some f → Faithful (.font f) := by
      intro f h
      rcases pendingFont_mem h with h | h
      · exact hp f h
      · exact hva _ (List.mem_append_left _ h)
    have hL' : Linked as := by
      cases as with
      | nil => trivial
      | cons b as => exact ((linked_cons (by simp)).1 hL).2
    have hbody := fun v hv => hva v (List.mem_append_left _ hv)
    have hspan : a.body.any isSpan = false := by
      have : a.body.any occupies = false := by
        unfold Area.fillable at hf
        simp only [Bool.and_eq_true, Bool.not_eq_true'] at hf
        exact hf.1
      rw [List.any_eq_false] at this ⊢
      intro v hv
      have := this v hv
      cases v <;> simp_all [occupies, isSpan]
    have hlen : (List.replicate k ((a.rect d).width, a.font d, n) ++ ws).length = k + ws.length := by simp
    have hres : ∀ acc : List Str, acc ++ (ls ++ List.replicate (k + ws.length) []).take (k + ws.length) =
        acc ++ (ls.take k ++ List.replicate (k - ls.length) []) ++
          (ls.drop k ++ List.replicate ws.length []).take ws.length := by
      intro acc
      rw [List.append_assoc acc]
      congr 1
      rw [List.take_add]
      congr 1
      · rw [List.take_append, List.take_replicate]
        congr 2; omega
      · rw [List.drop_append, List.drop_replicate, List.take_append, List.take_append, List.take_replicate,
          List.take_replicate]
        congr 2; simp only [List.length_drop]; omega
    have ih := fun acc => ih hL' hw (fun b hb => hv b (List.mem_cons_of_mem _ hb))
      (fun b hb => ha b (List.mem_cons_of_mem _ hb)) (by simp)
      (fun l h => hl l (List.mem_of_mem_drop h)) acc
    -- what follows the lines
    have htail : StopTail (fontText (pendingFont p a.body) ++ (nextText a ++ s)) ∧
        TailOk (fontText (pendingFont p a.body) ++ (nextText a ++ s)) := by
      cases hpp : pendingFont p a.body with
      | some f => exact stop_value (hpf f hpp) rfl rfl (by simp) _
      | none =>
        cases as with
        | nil =>
          have hn : a.next = none := hL
          cases hfl
          simp [fontText, nextText, hn, StopTail, TailOk]
        | cons b as =>
          obtain ⟨⟨v, hn, ho⟩, -⟩ := (linked_cons (by simp)).1 hL
          obtain ⟨h1, h2, h3, h4⟩ := opens_span ho
          have hnt : nextText a = v.display := by simp [nextText, hn]
          rw [hnt]
          exact stop_value (hva v (by simp [hn])) h1 h3 h4 s
    simp only [List.flatMap_cons, areaItems, hf, if_true, List.map_append, List.append_assoc]
    rw [linesLoop_body d a.body hbody (ha a (List.mem_cons_self ..)) (by simp [hspan]), hlen, hres]
    simp only [List.map_cons, List.map_nil, List.cons_append, List.nil_append]
    obtain ⟨acc', before, m, h1, h2⟩ := scan_area ls k hl htail.2 htail.1 acc _ (Nat.lt_succ_self _)
    rw [good, linesLoop, hk, Res.ok_bind, h1, Res.ok_bind]
    dsimp only
    rw [h2]
    cases as with
    | nil =>
      have hn : a.next = none := hL
      rw [← ih]
      rw [hn]
      simp [linesLoop]
    | cons b as =>
      obtain ⟨⟨v, hn, ho⟩, -⟩ := (linked_cons (by simp)).1 hL
      have hnt : nextText a = v.display := by simp [nextText, hn]
      rw [hn, hnt, ← ih, ← List.append_assoc (fontText _)]
      exact linesLoop_next d hpf (hva v (by simp [hn])) ho s _ _

theorem apart_append {a b : List Value} (h : Apart (a ++ b)) : Apart a ∧ Apart b := by
  induction a with
  | nil => exact ⟨trivial, h⟩
  | cons v a ih =>
    obtain ⟨h1, h2⟩ := ih h.2
    refine ⟨⟨?_, h1⟩, h2⟩
    intro hv w hw
    exact h.1 hv w (by cases a <;> simp_all)

theorem areasFrom_apart (before : List Value) (opener : Option Value) (body vs : List Value)
    (h : Apart (body ++ vs)) : ∀ a ∈ areasFrom before opener body vs, Apart a.body := by
  induction vs generalizing before opener body with
  | nil => simpa [areasFrom] using h
  | cons v vs ih =>
    rw [areasFrom]
    split
    · intro a ha
      rcases List.mem_cons.1 ha with rfl | ha
      · exact (apart_append h).1
      · exact ih _ _ [] (apart_append h).2.2 a ha
    · exact ih _ _ _ (by simpa using h)

/-- texts of a valid message are separated by something else -/
theorem parses_apart {ss : List Str} {vs : List Value} (h : Parses ss vs) (hc : Cut ss) : Apart vs := by
  induction h with
  | nil => trivial
  | @cons s v ss vs hs hp ih =>
    obtain ⟨h1, h2, h3⟩ := hc
    refine ⟨?_, ih h3⟩
    intro hv w hw
    cases hp with
    | nil => simp at hw
    | @cons s' v' ss vs hs' _ =>
      simp at hw; subst hw
      rw [plainText_eq] at hv ⊢
      cases hv' : isSpan v' with
      | false => rfl
      | true =>
        exfalso
        have shape : ∀ {t : Str} {u : Value}, Item t → tryFrom t = .ok (.ok u) → isSpan u = true →
            t ≠ [] ∧ Plain t := by
          intro t u ht hu hsp
          cases u <;> simp [isSpan] at hsp
          cases (tryFrom_text ht).1 hu with
          | escOpen => simp [plainB] at hsp
          | escClose => simp [plainB] at hsp
          | span _ h4 h5 _ => exact ⟨h4, h5⟩
        obtain ⟨a1, a2⟩ := shape h1 hs hv
        obtain ⟨b1, b2⟩ := shape h3.1 hs' hv'
        obtain ⟨c, hc⟩ : ∃ c, s'.head? = some c := by cases s' <;> simp_all
        have := h2.1 a1 a2 c (by cases s' <;> simp_all)
        have hm := b2 c (List.mem_of_mem_head? hc)
        rcases this with rfl | rfl <;> simp at hm

end Ntcip
