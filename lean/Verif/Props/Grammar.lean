import Verif.Lemmas.Grammar
import Verif.Props.Split
/-
Property C84: the grammar of MULTI.
-/
namespace Ntcip
open Spec

theorem numHex_ne {s n} (h : NumHex s n) : s ≠ [] := (numberIs_chars h).1
theorem num8_ne {s n} (h : Num8 s n) : s ≠ [] := (numberIs_chars h).1

theorem split2 (s : Str) : splitN 2 isComma s = [s] ∨ ∃ a b, s = a ++ ',' :: b ∧ splitN 2 isComma s = [a, b] := by
  rcases splitN_cases isComma s with h | ⟨a, d, b, rfl, h1, h2⟩
  · exact .inl (splitN_none _ _ _ h)
  · have hd : d = ',' := by simpa [isComma] using h2
    subst hd
    exact .inr ⟨a, b, rfl, by rw [splitN_cut 0 _ _ _ _ h1 h2, splitN_one]⟩

theorem splitN2_cut {p : Char → Bool} {a : Str} {d : Char} (b : Str) (h : ∀ c ∈ a, p c = false) (hd : p d = true) :
    splitN 2 p (a ++ d :: b) = [a, b] := by rw [splitN_cut 0 _ _ _ _ h hd, splitN_one]

theorem split2_of (p : Char → Bool) (s : Str) : splitN 2 p s = [s] ∨ ∃ a d b, s = a ++ d :: b ∧ p d = true ∧ splitN 2 p s = [a, b] := by
  rcases splitN_cases p s with h | ⟨a, d, b, rfl, h1, h2⟩
  · exact .inl (splitN_none _ _ _ h)
  · exact .inr ⟨a, d, b, rfl, h2, by rw [splitN_cut 0 _ _ _ _ h1 h2, splitN_one]⟩

theorem codeIs_iff (r : Str) (n : UInt32) (t : Option Str) :
    (parseIntU32 (splitN 2 isComma r)).1 = some n ∧ (parseIntU32 (splitN 2 isComma r)).2.head? = t ↔ CodeIs r n t := by
  constructor
  · rintro ⟨h1, h2⟩
    rcases split2 r with e | ⟨a, b, rfl, e⟩
    · rw [e] at h1 h2
      simp only [parseIntU32, List.head?_nil] at h1 h2
      subst h2
      exact .code ((num32_iff _ _).1 h1)
    · rw [e] at h1 h2
      simp only [parseIntU32, List.head?_cons] at h1 h2
      subst h2
      exact .text ((num32_iff _ _).1 h1)
  · intro h
    cases h with
    | code h => rw [splitN_none _ _ _ (num32_comma h)]; simp [parseIntU32, (num32_iff _ _).2 h]
    | text h => rw [splitN2_cut _ (num32_comma h) rfl]; simp [parseIntU32, (num32_iff _ _).2 h]

theorem digit_one (c : Char) (n : UInt8) : parseU8 [c] = some n ↔ DigitIs 10 c n.toNat := by
  rw [num8_iff]
  constructor
  · intro h
    have h : NumberIs 10 [c] n.toNat := h
    have inv : ∀ {s n}, DigitsAre 10 s n → s = [c] → DigitIs 10 c n := by
      intro s n h e
      cases h with
      | one h => cases e; exact h
      | @more s' _ _ _ h _ =>
        have : s' = [] := by
          cases s' with
          | nil => rfl
          | cons x y => simp at e
        subst this
        exact absurd rfl ((digitsAre_iff (by decide) _ _).1 h).1
    cases h with
    | digits h => exact inv h rfl
    | plus h => rw [digitsAre_iff (by decide)] at h; simp at h
  · exact fun h => .digits (.one h)

theorem digit_ascii {c n} (h : DigitIs 10 c n) : c.utf8Size = 1 := by
  have := digit_range h (by decide)
  exact (utf8Size_ascii c).2 (by omega)

theorem movingIs_iff (r : Str) (mode : MovingTextMode) (v : Value) : parseMovingTextMode r mode = .ok (some v) ↔
    ∃ dir w n k t, v = .movingText mode dir w n k t ∧ MovingIs r dir w n k t := by
  constructor
  · intro h
    unfold parseMovingTextMode at h
    split at h
    · rename_i hr
      cases r with
      | nil => exact absurd rfl hr
      | cons c r =>
        simp only [Res.bind_eq_ok] at h
        obtain ⟨s, hs, h⟩ := h
        have hc : parseMovingTextDir (some c) = some .left ∧ c.toLower = 'l' ∨
            parseMovingTextDir (some c) = some .right ∧ c.toLower = 'r' ∨ parseMovingTextDir (some c) = none := by
          unfold parseMovingTextDir
          rw [toLower_iff (u := 'L') (by decide) (by decide), toLower_iff (u := 'R') (by decide) (by decide)]
          simp only [Option.some.injEq]
          by_cases h1 : c = 'l' ∨ c = 'L'
          · rw [if_pos h1]; exact .inl ⟨rfl, h1⟩
          · rw [if_neg h1]
            by_cases h2 : c = 'r' ∨ c = 'R'
            · rw [if_pos h2]; exact .inr (.inl ⟨rfl, h2⟩)
            · rw [if_neg h2]; exact .inr (.inr rfl)
        have hcs : (parseMovingTextDir (some c) ≠ none) → s = r := by
          intro hne
          have : c.utf8Size = 1 := by
            refine (utf8Size_ascii c).2 ?_
            have : c = 'l' ∨ c = 'L' ∨ c = 'r' ∨ c = 'R' := by
              unfold parseMovingTextDir at hne
              simp only [Option.some.injEq] at hne
              split at hne
              · rename_i h; rcases h with h | h <;> simp [h]
              · split at hne
                · rename_i h; rcases h with h | h <;> simp [h]
                · exact absurd rfl hne
            rcases this with rfl | rfl | rfl | rfl <;> decide
          rw [sliceFrom, if_neg (by decide), if_pos (by omega), this] at hs
          cases r <;> simp [sliceFrom] at hs <;> first | exact hs | exact hs.symm
        have hj := (splitN_commas 3 s).1
        simp only [List.head?_cons, Res.pure_eq] at h
        split at h
        · rename_i dir w n k t hd hw hn hk ht
          cases h
          match hp : splitN 4 isComma s, hw, hn, hk, ht with
          | a :: b :: d :: e :: tl, hw, hn, hk, ht =>
            have hlen := (splitN_commas 3 s).2.2
            rw [hp] at hj hlen
            have : tl = [] := by
              cases tl with
              | nil => rfl
              | cons _ _ => simp at hlen
            subst this
            simp only [parseIntU16, parseIntU8, List.head?_cons, Option.some.injEq] at hw hn hk ht
            subst ht
            rw [num16_iff] at hw
            rw [num8_iff] at hn hk
            have hs : s = r := hcs (by rw [hd]; simp)
            subst hs
            simp only [commas] at hj
            refine ⟨dir, w, n, k, e, rfl, ?_⟩
            rcases hc with ⟨h1, h2⟩ | ⟨h1, h2⟩ | h1
            · rw [h1] at hd; cases hd
              rw [← hj]
              have := MovingIs.left (t := e) h2 hw hn hk
              simpa using this
            · rw [h1] at hd; cases hd
              rw [← hj]
              have := MovingIs.right (t := e) h2 hw hn hk
              simpa using this
            · rw [h1] at hd; cases hd
          | [], hw, _, _, _ => simp [parseIntU16] at hw
          | [a], hw, hn, _, _ => simp [parseIntU16, parseIntU8] at hn
          | [a, b], hw, hn, hk, _ => simp [parseIntU16, parseIntU8] at hk
          | [a, b, d], hw, hn, hk, ht => simp [parseIntU16, parseIntU8] at ht
        · cases h
    · cases h
  · rintro ⟨dir, w, n, k, t, rfl, h⟩
    have key : ∀ {c a b r}, parseMovingTextDir (some c) = some dir → c.toNat < 128 → Num16 a w → Num8 b n → Num8 r k →
        parseMovingTextMode (c :: a ++ ',' :: b ++ ',' :: r ++ ',' :: t) mode = .ok (some (.movingText mode dir w n k t)) := by
      intro c a b r hd hc h1 h2 h3
      have e : splitN 4 isComma (a ++ ',' :: (b ++ ',' :: (r ++ ',' :: t))) = [a, b, r, t] := by
        rw [splitN_cut 2 _ _ _ _ (num16_comma h1) rfl, splitN_cut 1 _ _ _ _ (num8_comma h2) rfl,
          splitN_cut 0 _ _ _ _ (num8_comma h3) rfl, splitN_one]
      have es : sliceFrom 1 (c :: (a ++ ',' :: (b ++ ',' :: (r ++ ',' :: t)))) =
          .ok (a ++ ',' :: (b ++ ',' :: (r ++ ',' :: t))) := by
        have hu := (utf8Size_ascii c).2 hc
        rw [sliceFrom, if_neg (by decide), if_pos (by omega), hu]
        cases (a ++ ',' :: (b ++ ',' :: (r ++ ',' :: t))) <;> simp [sliceFrom]
      unfold parseMovingTextMode
      simp only [List.cons_append, List.append_assoc, es, Res.ok_bind, e, parseIntU16, parseIntU8, (num16_iff _ _).2 h1,
        (num8_iff _ _).2 h2, (num8_iff _ _).2 h3, List.head?_cons, hd]
      simp
    cases h with
    | left hc h1 h2 h3 =>
      rw [toLower_iff (u := 'L') (by decide) (by decide)] at hc
      exact key (by rcases hc with rfl | rfl <;> rfl) (by rcases hc with rfl | rfl <;> decide) h1 h2 h3
    | right hc h1 h2 h3 =>
      rw [toLower_iff (u := 'R') (by decide) (by decide)] at hc
      exact key (by rcases hc with rfl | rfl <;> rfl) (by rcases hc with rfl | rfl <;> decide) h1 h2 h3

theorem body_tagIs (k : Kind) (r : Str) (v : Value) (h : k.body r = .ok (some v)) : TagIs k.name r v := by
  cases k <;> simp only [Kind.name]
  case nl =>
    simp only [Kind.body, Res.ok.injEq] at h
    split at h
    · cases h; subst r; exact .newLine
    · split at h
      · rename_i hr hb
        obtain ⟨c, rfl⟩ : ∃ c, r = [c] := by
          match r, hr, hb with
          | [c], _, _ => exact ⟨c, rfl⟩
          | c :: d :: r, _, hb =>
            have := utf8Size_pos c
            have := utf8Size_pos d
            simp [blen] at hb
            omega
        simp only [Option.map_eq_some_iff] at h
        obtain ⟨n, hn, rfl⟩ := h
        exact .newLineSpacing ((digit_one _ _).1 hn)
      · cases h
  case np =>
    simp only [Kind.body, Res.ok.injEq] at h
    split at h
    · cases h; subst r; exact .newPage
    · cases h
  case fo =>
    simp only [Kind.body, Res.ok.injEq] at h
    split at h
    · cases h; subst r; exact .fontDefault
    · split at h
      · rename_i n' vid hn hv
        cases h
        rcases split2 r with e | ⟨a, b, rfl, e⟩
        · rw [e] at hn hv
          rw [nonzero_iff] at hn
          rw [parseNonzero_rest] at hv
          cases hv
          exact .font hn.1 hn.2
        · rw [e] at hn hv
          rw [nonzero_iff] at hn
          rw [parseNonzero_rest, version_iff] at hv
          obtain ⟨v, rfl, hv⟩ := hv
          exact .fontVersion hn.1 hn.2 hv
      · cases h
  case jl =>
    simp only [Kind.body, Res.ok.injEq] at h
    split at h
    · cases h; subst r; exact .justLineDefault
    · simp only [Option.map_eq_some_iff] at h
      obtain ⟨j, hj, rfl⟩ := h
      unfold JustificationLine.new at hj
      (repeat' split at hj) <;> cases hj <;> subst r <;> exact .justLine (by decide)
  case jp =>
    simp only [Kind.body, Res.ok.injEq] at h
    split at h
    · cases h; subst r; exact .justPageDefault
    · simp only [Option.map_eq_some_iff] at h
      obtain ⟨j, hj, rfl⟩ := h
      unfold JustificationPage.new at hj
      (repeat' split at hj) <;> cases hj <;> subst r <;> exact .justPage (by decide)
  case pt =>
    simp only [Kind.body, Res.ok.injEq] at h
    split at h
    · rename_i t o ht ho
      cases h
      rcases split2_of isO r with e | ⟨a, d, b, rfl, hd, e⟩
      · rw [e] at ht ho
        rw [optNum_iff] at ht
        rw [parseOptional_rest] at ho
        simp only [parseOptional, Option.some.injEq] at ho
        subst ho
        exact .pageTimeOn ht
      · rw [e] at ht ho
        rw [optNum_iff] at ht
        rw [parseOptional_rest, optNum_iff] at ho
        exact .pageTime ht ((isO_iff d).1 hd) ho
    · cases h
  case pb =>
    simp only [Kind.body, Res.ok.injEq] at h
    split at h
    · cases h; subst r; exact .pageBackgroundDefault
    · simp only [Option.map_eq_some_iff] at h
      obtain ⟨c, hc, rfl⟩ := h
      exact .pageBackground ((colorIs_iff _ _).1 hc)
  case cf =>
    simp only [Kind.body, Res.ok.injEq] at h
    split at h
    · cases h; subst r; exact .colorForegroundDefault
    · simp only [Option.map_eq_some_iff] at h
      obtain ⟨c, hc, rfl⟩ := h
      exact .colorForeground ((colorIs_iff _ _).1 hc)
  case cr =>
    simp only [Kind.body, Res.ok.injEq] at h
    split at h
    · rename_i q c hq hc
      cases h
      have hj := (splitN_commas 6 r).1
      have hl := (splitN_commas 6 r).2.2
      obtain ⟨a, b, d, e, hp, h1, h2, h3, h4, h5, h6⟩ := (parseRectangle_pieces _ (parseRectangle (splitN 7 isComma r)).2 q).1 (Prod.ext hq rfl)
      rw [parseColor_pieces] at hc
      rw [hp] at hj
      rcases hc with ⟨x, n, hx, rfl, hn⟩ | ⟨x, y, z, rr, g, k, hx, rfl, hr, hg, hk⟩
      · have hx' : (parseRectangle (splitN 7 isComma r)).2 = _ := hx
        rw [hx'] at hj
        simp only [commas] at hj
        have := TagIs.colorRectangle (rectIs_of h1 h2 h3 h4 h5 h6) (.legacy hn)
        rw [← hj]
        simpa using this
      · have hx' : (parseRectangle (splitN 7 isComma r)).2 = _ := hx
        rw [hx'] at hj
        simp only [commas] at hj
        have := TagIs.colorRectangle (rectIs_of h1 h2 h3 h4 h5 h6) (.rgb hr hg hk)
        rw [← hj]
        simpa using this
    · cases h
  case tr =>
    simp only [Kind.body, Res.ok.injEq, Option.map_eq_some_iff] at h
    obtain ⟨q, hq, rfl⟩ := h
    have hj := (splitN_commas 3 r).1
    have hl := (splitN_commas 3 r).2.2
    obtain ⟨a, b, d, e, hp, h1, h2, h3, h4, h5, h6⟩ := (parseRectangle_pieces _ (parseRectangle (splitN 4 isComma r)).2 q).1 (Prod.ext hq rfl)
    rw [hp] at hj hl
    generalize (parseRectangle (splitN 4 isComma r)).2 = tl at hj hl hp
    cases tl with
    | nil =>
      simp only [commas] at hj
      rw [← hj]
      exact .textRectangle (rectIs_of h1 h2 h3 h4 h5 h6)
    | cons x y => simp at hl
  case cb =>
    simp only [Kind.body, Res.ok.injEq] at h
    split at h
    · cases h; subst r; exact .colorBackgroundDefault
    · simp only [Option.map_eq_some_iff] at h
      obtain ⟨n, hn, rfl⟩ := h
      exact .colorBackground ((num8_iff _ _).1 hn)
  case sc =>
    simp only [Kind.body, Res.ok.injEq] at h
    split at h
    · rename_i s hs
      split at h
      · rename_i h1
        cases h
        rw [UInt8.lt_iff_toNat_lt] at h1
        exact .spacing ((num8_iff _ _).1 hs) (by rw [UInt8.le_iff_toNat_le]; simp at h1 ⊢; omega)
      · cases h
    · cases h
  case hc =>
    simp only [Kind.body, Res.ok.injEq, Option.map_eq_some_iff] at h
    obtain ⟨n, hn, rfl⟩ := h
    exact .hexadecimal ((numHex_iff _ _).1 hn)
  case fl =>
    simp only [Kind.body] at h
    split at h
    · cases h; exact .flash
    · rename_i c r
      split at h
      · split at h
        · rename_i hc
          rw [← toLower_iff (u := 'T') (by decide) (by decide)] at hc
          simp only [Res.ok.injEq, parseFlashOn] at h
          split at h
          · cases h
          · rename_i t ht
            split at h
            · cases h
            · rename_i o ho
              cases h
              rcases split2_of isO r with e | ⟨a, d, b, rfl, hd, e⟩
              · rw [e] at ht ho
                rw [flashIs_iff] at ht
                rw [parseOptional99_rest] at ho
                simp only [parseOptional99, Option.some.injEq] at ho
                subst ho
                exact .flashOn hc ht
              · rw [e] at ht ho
                rw [flashIs_iff] at ht
                rw [parseOptional99_rest, flashIs_iff] at ho
                exact .flashOnOff hc ht ((isO_iff d).1 hd) ho
        · split at h
          · rename_i hc
            rw [← toLower_iff (u := 'O') (by decide) (by decide)] at hc
            simp only [Res.ok.injEq, parseFlashOff] at h
            split at h
            · cases h
            · rename_i t ht
              split at h
              · cases h
              · rename_i o ho
                cases h
                rcases split2_of isT r with e | ⟨a, d, b, rfl, hd, e⟩
                · rw [e] at ht ho
                  rw [flashIs_iff] at ht
                  rw [parseOptional99_rest] at ho
                  simp only [parseOptional99, Option.some.injEq] at ho
                  subst ho
                  exact .flashOff hc ht
                · rw [e] at ht ho
                  rw [flashIs_iff] at ht
                  rw [parseOptional99_rest, flashIs_iff] at ho
                  exact .flashOffOn hc ht ((isT_iff d).1 hd) ho
          · cases h
      · cases h
  case mv =>
    simp only [Kind.body] at h
    split at h
    · cases h
    · rename_i c r
      split at h
      · split at h
        · rename_i hc
          rw [← toLower_iff (u := 'C') (by decide) (by decide)] at hc
          obtain ⟨dir, w, n, k, t, rfl, hm⟩ := (movingIs_iff _ _ _).1 h
          exact .circular hc hm
        · split at h
          · rename_i hc
            rw [← toLower_iff (u := 'L') (by decide) (by decide)] at hc
            unfold parseMovingTextLinear at h
            split at h
            · rename_i hr
              cases r with
              | nil => exact absurd rfl hr
              | cons d r =>
                simp only [Res.bind_eq_ok] at h
                obtain ⟨t, ht, hd, hh, h⟩ := h
                split at h
                · rename_i i hi
                  obtain ⟨dir, w, n, k, t', rfl, hm⟩ := (movingIs_iff _ _ _).1 h
                  have e1 : hd = [d] ∧ t = r := by
                    rw [sliceTo, if_neg (by decide)] at hh
                    split at hh
                    · rename_i hu
                      have hu' : d.utf8Size = 1 := by have := utf8Size_pos d; omega
                      rw [hu'] at hh
                      rw [sliceFrom, if_neg (by decide), if_pos hu, hu'] at ht
                      constructor
                      · cases r <;> simp [sliceTo] at hh <;> exact hh.symm
                      · cases r <;> simp [sliceFrom] at ht <;> first | exact ht | exact ht.symm
                    · cases hh
                  obtain ⟨rfl, rfl⟩ := e1
                  exact .linearDelay hc ((digit_one _ _).1 hi) hm
                · obtain ⟨dir, w, n, k, t', rfl, hm⟩ := (movingIs_iff _ _ _).1 h
                  exact .linear hc hm
            · cases h
          · cases h
      · cases h
  case ms =>
    simp only [Kind.body, Res.ok.injEq, Option.map_eq_some_iff] at h
    obtain ⟨n, hn, rfl⟩ := h
    exact .manufacturer ((codeIs_iff _ _ _).1 ⟨hn, rfl⟩)
  case msEnd =>
    simp only [Kind.body, Res.ok.injEq, Option.map_eq_some_iff] at h
    obtain ⟨n, hn, rfl⟩ := h
    exact .manufacturerEnd ((codeIs_iff _ _ _).1 ⟨hn, rfl⟩)
  case f =>
    simp only [Kind.body, Res.ok.injEq] at h
    split at h
    · rename_i fid w hf hw
      split at h
      · rename_i h1
        cases h
        rcases split2 r with e | ⟨a, b, rfl, e⟩
        · rw [e] at hf hw
          simp only [parseIntU8, parseOptional, Option.some.injEq] at hf hw
          subst hw
          exact .field ((num8_iff _ _).1 hf) h1
        · rw [e] at hf hw
          simp only [parseIntU8] at hf hw
          rw [optNum_iff] at hw
          exact .fieldWidth ((num8_iff _ _).1 hf) h1 hw
      · cases h
    · cases h
  case g =>
    simp only [Kind.body, Res.ok.injEq] at h
    have hj := (splitN_commas 3 r).1
    have hl := (splitN_commas 3 r).2.2
    have hne := (splitN_commas 3 r).2.1
    match hp : splitN 4 isComma r with
    | [] => exact absurd hp hne
    | a :: ps =>
      rw [hp] at h hj hl
      simp only [parseNonzero_rest] at h
      split at h
      · rename_i n x y vid hn hxy hv
        cases h
        rw [nonzero_iff] at hn
        match ps, hxy, hv, hj, hl with
        | [], hxy, _, _, _ => simp [parsePoint] at hxy
        | [b], hxy, _, _, _ => simp [parsePoint] at hxy
        | b :: c :: qs, hxy, hv, hj, hl =>
          simp only [parsePoint] at hxy hv
          have e : (parseXY b c) = some (x, y) := by
            split at hxy
            · rename_i p hp; cases hxy; exact hp
            · cases hxy
          rw [e] at hv
          clear hxy
          have hxy := (parseXY_iff _ _ _ _).1 e
          match qs, hv, hj, hl with
          | [], hv, hj, _ =>
            simp only [parseVersionId, Option.some.injEq] at hv
            subst hv
            simp only [commas] at hj
            rw [← hj]
            exact .graphicAt hn.1 hn.2 (.mk hxy.1 hxy.2.1 hxy.2.2.1 hxy.2.2.2)
          | [d], hv, hj, _ =>
            simp only [version_iff] at hv
            obtain ⟨v, rfl, hv'⟩ := hv
            simp only [commas] at hj
            rw [← hj]
            have := TagIs.graphicVersion hn.1 hn.2 (.mk hxy.1 hxy.2.1 hxy.2.2.1 hxy.2.2.2) hv'
            simpa using this
          | _ :: _ :: _, _, _, hl => simp at hl
      · rename_i n hn hxy hv
        cases h
        rw [nonzero_iff] at hn
        match ps, hxy, hj with
        | [], _, hj =>
          simp only [commas] at hj
          rw [← hj]
          exact .graphic hn.1 hn.2
        | [b], hxy, _ => simp [parsePoint] at hxy
        | b :: c :: qs, hxy, _ =>
          simp only [parsePoint] at hxy
          split at hxy <;> cases hxy
      · cases h
  case scEnd =>
    simp only [Kind.body, Res.ok.injEq] at h
    split at h
    · cases h; subst r; exact .spacingEnd
    · cases h
  case flEnd =>
    simp only [Kind.body, Res.ok.injEq] at h
    split at h
    · cases h; subst r; exact .flashEnd
    · cases h

theorem tagIs_body {nm : List Char} {r : Str} {v : Value} (h : TagIs nm r v) :
    ∃ k : Kind, k.name = nm ∧ k.Ok r ∧ k.body r = .ok (some v) := by
  have ascii : ∀ {c l u : Char}, c.toLower = l → (97 ≤ l.toNat ∧ l.toNat ≤ 122) → u.toNat + 32 = l.toNat →
      c.toNat < 128 ∧ (c = l ∨ c = u) := by
    intro c l u h h1 h2
    rw [toLower_iff h1 h2] at h
    refine ⟨?_, h⟩
    rcases h with rfl | rfl <;> omega
  have fOk : ∀ {a : Str} {n b}, Num8 a n → (b = [] ∨ ∃ b', b = ',' :: b') → Kind.Ok (a ++ b) .f := by
    intro a n b h _ c hc
    have hc : c ∈ a := by
      cases a with
      | nil => exact absurd rfl (num8_ne h)
      | cons d a => simp at hc; simp [hc]
    rcases (numberIs_chars h).2 c hc with rfl | ⟨d, hd⟩
    · decide
    · have := digit_range hd (by decide)
      simp only [ne_eq, char_eq_iff, asciiLower_toNat]
      have : 'o'.toNat = 111 := rfl
      have : 'l'.toNat = 108 := rfl
      have : 'e'.toNat = 101 := rfl
      split <;> omega
  cases h with
  | newLine => exact ⟨.nl, rfl, trivial, rfl⟩
  | @newLineSpacing c n h =>
    refine ⟨.nl, rfl, trivial, ?_⟩
    have hb : blen [c] = 1 := by simp [blen, digit_ascii h]
    simp [Kind.body, hb, (digit_one _ _).2 h]
  | newPage => exact ⟨.np, rfl, trivial, rfl⟩
  | fontDefault => exact ⟨.fo, rfl, trivial, rfl⟩
  | font h h0 =>
    refine ⟨.fo, rfl, trivial, ?_⟩
    simp only [Kind.body, if_neg (num8_ne h), splitN_none _ _ _ (num8_comma h), (nonzero_iff _ _ _).2 ⟨h, h0⟩,
      parseNonzero_rest, parseVersionId]
  | fontVersion h h0 hv =>
    refine ⟨.fo, rfl, trivial, ?_⟩
    simp only [Kind.body, splitN2_cut _ (num8_comma h) (show isComma ',' = true from rfl),
      (nonzero_iff _ _ _).2 ⟨h, h0⟩, parseNonzero_rest, (version_iff _ _ _).2 ⟨_, rfl, hv⟩]
    simp
  | justLineDefault => exact ⟨.jl, rfl, trivial, rfl⟩
  | justLine h =>
    refine ⟨.jl, rfl, trivial, ?_⟩
    simp only [List.mem_cons, Prod.mk.injEq, List.not_mem_nil, or_false] at h
    rcases h with ⟨rfl, rfl⟩ | ⟨rfl, rfl⟩ | ⟨rfl, rfl⟩ | ⟨rfl, rfl⟩ | ⟨rfl, rfl⟩ <;> rfl
  | justPageDefault => exact ⟨.jp, rfl, trivial, rfl⟩
  | justPage h =>
    refine ⟨.jp, rfl, trivial, ?_⟩
    simp only [List.mem_cons, Prod.mk.injEq, List.not_mem_nil, or_false] at h
    rcases h with ⟨rfl, rfl⟩ | ⟨rfl, rfl⟩ | ⟨rfl, rfl⟩ | ⟨rfl, rfl⟩ <;> rfl
  | pageTimeOn h =>
    refine ⟨.pt, rfl, trivial, ?_⟩
    simp only [Kind.body, splitN_none _ _ _ (optNum_O h), (optNum_iff _ _ _).2 h, parseOptional_rest]
    rfl
  | pageTime h hc h' =>
    refine ⟨.pt, rfl, trivial, ?_⟩
    simp only [Kind.body, splitN2_cut _ (optNum_O h) ((isO_iff _).2 hc), (optNum_iff _ _ _).2 h, parseOptional_rest,
      (optNum_iff _ _ _).2 h']
  | pageBackgroundDefault => exact ⟨.pb, rfl, trivial, rfl⟩
  | @pageBackground a c h =>
    refine ⟨.pb, rfl, trivial, ?_⟩
    have hne : r ≠ [] := by
      cases h with
      | legacy h => exact num8_ne h
      | rgb => simp
    simp [Kind.body, hne, (colorIs_iff _ _).2 h]
  | colorForegroundDefault => exact ⟨.cf, rfl, trivial, rfl⟩
  | @colorForeground a c h =>
    refine ⟨.cf, rfl, trivial, ?_⟩
    have hne : r ≠ [] := by
      cases h with
      | legacy h => exact num8_ne h
      | rgb => simp
    simp [Kind.body, hne, (colorIs_iff _ _).2 h]
  | colorBackgroundDefault => exact ⟨.cb, rfl, trivial, rfl⟩
  | colorBackground h =>
    refine ⟨.cb, rfl, trivial, ?_⟩
    simp [Kind.body, num8_ne h, (num8_iff _ _).2 h]
  | @colorRectangle a r b c h hc =>
    refine ⟨.cr, rfl, trivial, ?_⟩
    obtain ⟨x, y, z, w, rfl, h1, h2, h3, h4, h5, h6⟩ := rectIs_pieces h
    have e : splitN 7 isComma (x ++ ',' :: (y ++ ',' :: (z ++ ',' :: w)) ++ ',' :: b) =
        x :: y :: z :: w :: splitN 3 isComma b := by
      simp only [List.append_assoc, List.cons_append]
      rw [splitN_cut 5 _ _ _ _ (num16_comma h1) rfl, splitN_cut 4 _ _ _ _ (num16_comma h2) rfl,
        splitN_cut 3 _ _ _ _ (num16_comma h5) rfl, splitN_cut 2 _ _ _ _ (num16_comma h6) rfl]
    have hr : parseRectangle (splitN 7 isComma (x ++ ',' :: (y ++ ',' :: (z ++ ',' :: w)) ++ ',' :: b)) =
        (some r, splitN 3 isComma b) :=
      (parseRectangle_pieces _ _ _).2 ⟨x, y, z, w, e, h1, h2, h3, h4, h5, h6⟩
    have hc' : parseColor (splitN 3 isComma b) = some c := by
      rw [parseColor_pieces]
      cases hc with
      | legacy h => exact .inl ⟨_, _, splitN_none _ _ _ (num8_comma h), rfl, h⟩
      | @rgb a b d r g k h1 h2 h3 =>
        refine .inr ⟨a, b, d, r, g, k, ?_, rfl, h1, h2, h3⟩
        rw [List.append_assoc, List.cons_append, splitN_cut 1 _ _ _ _ (num8_comma h1) rfl,
          splitN_cut 0 _ _ _ _ (num8_comma h2) rfl, splitN_one]
    simp only [Kind.body, hr, hc']
  | @textRectangle a r h =>
    refine ⟨.tr, rfl, trivial, ?_⟩
    obtain ⟨x, y, z, w, rfl, h1, h2, h3, h4, h5, h6⟩ := rectIs_pieces h
    have e : splitN 4 isComma (x ++ ',' :: (y ++ ',' :: (z ++ ',' :: w))) = [x, y, z, w] := by
      rw [splitN_cut 2 _ _ _ _ (num16_comma h1) rfl, splitN_cut 1 _ _ _ _ (num16_comma h2) rfl,
        splitN_cut 0 _ _ _ _ (num16_comma h5) rfl, splitN_one]
    have hr : parseRectangle (splitN 4 isComma (x ++ ',' :: (y ++ ',' :: (z ++ ',' :: w)))) = (some r, []) :=
      (parseRectangle_pieces _ _ _).2 ⟨x, y, z, w, e, h1, h2, h3, h4, h5, h6⟩
    simp only [Kind.body, hr, Option.map_some]
  | @spacing a n h h1 =>
    refine ⟨.sc, rfl, trivial, ?_⟩
    have : n < 100 := by
      rw [UInt8.le_iff_toNat_le] at h1
      rw [UInt8.lt_iff_toNat_lt]
      simp at h1 ⊢; omega
    simp [Kind.body, (num8_iff _ _).2 h, this]
  | spacingEnd => exact ⟨.scEnd, rfl, trivial, rfl⟩
  | hexadecimal h =>
    refine ⟨.hc, rfl, trivial, ?_⟩
    simp [Kind.body, (numHex_iff _ _).2 h]
  | flash => exact ⟨.fl, rfl, trivial, rfl⟩
  | flashOn hc h =>
    refine ⟨.fl, rfl, trivial, ?_⟩
    obtain ⟨h1, h2⟩ := ascii (u := 'T') hc (by decide) (by decide)
    simp only [Kind.body, h1, h2, if_true, parseFlashOn, splitN_none _ _ _ (optNum_O h.1), (flashIs_iff _ _ _).2 h,
      parseOptional99_rest]
    rfl
  | flashOnOff hc h hk h' =>
    refine ⟨.fl, rfl, trivial, ?_⟩
    obtain ⟨h1, h2⟩ := ascii (u := 'T') hc (by decide) (by decide)
    simp only [Kind.body, List.cons_append, h1, h2, if_true, parseFlashOn, splitN2_cut _ (optNum_O h.1) ((isO_iff _).2 hk),
      (flashIs_iff _ _ _).2 h, parseOptional99_rest, (flashIs_iff _ _ _).2 h']
  | @flashOff c _ _ hc h =>
    refine ⟨.fl, rfl, trivial, ?_⟩
    obtain ⟨h1, h2⟩ := ascii (u := 'O') hc (by decide) (by decide)
    have h3 : ¬ (c = 't' ∨ c = 'T') := by rcases h2 with rfl | rfl <;> decide
    simp only [Kind.body, h1, h2, h3, if_true, if_false, parseFlashOff, splitN_none _ _ _ (optNum_T h.1),
      (flashIs_iff _ _ _).2 h, parseOptional99_rest]
    rfl
  | @flashOffOn c _ _ _ _ _ hc h hk h' =>
    refine ⟨.fl, rfl, trivial, ?_⟩
    obtain ⟨h1, h2⟩ := ascii (u := 'O') hc (by decide) (by decide)
    have h3 : ¬ (c = 't' ∨ c = 'T') := by rcases h2 with rfl | rfl <;> decide
    simp only [Kind.body, List.cons_append, h1, h2, h3, if_true, if_false, parseFlashOff,
      splitN2_cut _ (optNum_T h.1) ((isT_iff _).2 hk), (flashIs_iff _ _ _).2 h, parseOptional99_rest,
      (flashIs_iff _ _ _).2 h']
  | flashEnd => exact ⟨.flEnd, rfl, trivial, rfl⟩
  | circular hc h =>
    refine ⟨.mv, rfl, trivial, ?_⟩
    obtain ⟨h1, h2⟩ := ascii (u := 'C') hc (by decide) (by decide)
    simp only [Kind.body, h1, h2, if_true]
    exact (movingIs_iff _ _ _).2 ⟨_, _, _, _, _, rfl, h⟩
  | @linear c a _ _ _ _ _ hc h =>
    refine ⟨.mv, rfl, trivial, ?_⟩
    obtain ⟨h1, h2⟩ := ascii (u := 'L') hc (by decide) (by decide)
    have h3 : ¬ (c = 'c' ∨ c = 'C') := by rcases h2 with rfl | rfl <;> decide
    simp only [Kind.body, h1, h2, h3, if_true, if_false]
    have hd : ∃ d a', a = d :: a' ∧ (d = 'l' ∨ d = 'L' ∨ d = 'r' ∨ d = 'R') := by
      cases h with
      | left hc =>
        rw [toLower_iff (u := 'L') (by decide) (by decide)] at hc
        exact ⟨_, _, rfl, by rcases hc with rfl | rfl <;> simp⟩
      | right hc =>
        rw [toLower_iff (u := 'R') (by decide) (by decide)] at hc
        exact ⟨_, _, rfl, by rcases hc with rfl | rfl <;> simp⟩
    obtain ⟨d, a', rfl, hd⟩ := hd
    have hu : d.utf8Size = 1 := (utf8Size_ascii d).2 (by rcases hd with rfl | rfl | rfl | rfl <;> decide)
    have e1 : sliceFrom 1 (d :: a') = .ok a' := by
      rw [sliceFrom, if_neg (by decide), if_pos (by omega), hu]
      cases a' <;> simp [sliceFrom]
    have e2 : sliceTo 1 (d :: a') = .ok [d] := by
      rw [sliceTo, if_neg (by decide), if_pos (by omega), hu]
      cases a' <;> simp [sliceTo]
    have e3 : parseU8 [d] = none := by rcases hd with rfl | rfl | rfl | rfl <;> decide +kernel
    unfold parseMovingTextLinear
    simp only [ne_eq, reduceCtorEq, not_false_eq_true, if_true, e1, e2, Res.ok_bind, e3]
    exact (movingIs_iff _ _ _).2 ⟨_, _, _, _, _, rfl, h⟩
  | @linearDelay c d i a _ _ _ _ _ hc hd h =>
    refine ⟨.mv, rfl, trivial, ?_⟩
    obtain ⟨h1, h2⟩ := ascii (u := 'L') hc (by decide) (by decide)
    have h3 : ¬ (c = 'c' ∨ c = 'C') := by rcases h2 with rfl | rfl <;> decide
    simp only [Kind.body, h1, h2, h3, if_true, if_false]
    have hu : d.utf8Size = 1 := digit_ascii hd
    have e1 : sliceFrom 1 (d :: a) = .ok a := by
      rw [sliceFrom, if_neg (by decide), if_pos (by omega), hu]
      cases a <;> simp [sliceFrom]
    have e2 : sliceTo 1 (d :: a) = .ok [d] := by
      rw [sliceTo, if_neg (by decide), if_pos (by omega), hu]
      cases a <;> simp [sliceTo]
    unfold parseMovingTextLinear
    simp only [ne_eq, reduceCtorEq, not_false_eq_true, if_true, e1, e2, Res.ok_bind, (digit_one _ _).2 hd]
    exact (movingIs_iff _ _ _).2 ⟨_, _, _, _, _, rfl, h⟩
  | manufacturer h =>
    refine ⟨.ms, rfl, trivial, ?_⟩
    obtain ⟨h1, h2⟩ := (codeIs_iff _ _ _).2 h
    simp [Kind.body, h1, h2]
  | manufacturerEnd h =>
    refine ⟨.msEnd, rfl, trivial, ?_⟩
    obtain ⟨h1, h2⟩ := (codeIs_iff _ _ _).2 h
    simp [Kind.body, h1, h2]
  | field h h1 =>
    refine ⟨.f, rfl, by simpa using fOk h (.inl rfl), ?_⟩
    simp [Kind.body, splitN_none _ _ _ (num8_comma h), parseIntU8, parseOptional, (num8_iff _ _).2 h, h1]
  | fieldWidth h h1 h2 =>
    refine ⟨.f, rfl, fOk h (.inr ⟨_, rfl⟩), ?_⟩
    simp [Kind.body, splitN2_cut _ (num8_comma h) (show isComma ',' = true from rfl), parseIntU8,
      (num8_iff _ _).2 h, h1, (optNum_iff _ _ _).2 h2]
  | graphic h h0 =>
    refine ⟨.g, rfl, trivial, ?_⟩
    simp [Kind.body, splitN_none _ _ _ (num8_comma h), (nonzero_iff _ _ _).2 ⟨h, h0⟩, parseNonzero_rest, parsePoint,
      parseVersionId]
  | graphicAt h h0 hp =>
    refine ⟨.g, rfl, trivial, ?_⟩
    cases hp with
    | @mk b c x y h1 h2 h3 h4 =>
      simp [Kind.body, splitN_cut 2 isComma _ ',' _ (num8_comma h) rfl, splitN_cut 1 isComma _ ',' _ (num16_comma h1) rfl,
        splitN_none _ _ _ (num16_comma h2), (nonzero_iff _ _ _).2 ⟨h, h0⟩, parseNonzero_rest, parsePoint,
        (parseXY_iff _ _ _ _).2 ⟨h1, h2, h3, h4⟩, parseVersionId]
  | graphicVersion h h0 hp hv =>
    refine ⟨.g, rfl, trivial, ?_⟩
    cases hp with
    | @mk b c x y h1 h2 h3 h4 =>
      simp [Kind.body, splitN_cut 2 isComma _ ',' _ (num8_comma h) rfl, splitN_cut 1 isComma _ ',' _ (num16_comma h1) rfl,
        splitN_cut 0 isComma _ ',' _ (num16_comma h2) rfl, splitN_one, (nonzero_iff _ _ _).2 ⟨h, h0⟩, parseNonzero_rest,
        parsePoint, (parseXY_iff _ _ _ _).2 ⟨h1, h2, h3, h4⟩, (version_iff _ _ _).2 ⟨_, rfl, hv⟩]

theorem parseTag_iff (x : Str) (v : Value) : parseTag x = .ok (.ok v) ↔
    ∃ name params, x = name ++ params ∧ TagIs (name.map Char.toLower) params v := by
  have el : asciiLower = Char.toLower := funext asciiLower_eq_toLower
  constructor
  · intro h
    rcases parseTag_cases x with ⟨k, pre, r, rfl, hp, hk⟩ | ⟨h2, -⟩
    · rw [parseTag_kind k pre r hp hk] at h
      refine ⟨pre, r, rfl, ?_⟩
      rw [← el, hp]
      apply body_tagIs
      cases hbd : k.body r with
      | panic p => rw [hbd] at h; cases h
      | ok o => cases o with
        | none => rw [hbd] at h; cases h
        | some v' => rw [hbd] at h; cases h; rfl
    · rw [h2] at h; cases h
  · rintro ⟨pre, r, rfl, h⟩
    obtain ⟨k, hk, ho, hb⟩ := tagIs_body h
    rw [← el] at hk
    rw [parseTag_kind k pre r hk.symm ho, hb]
    rfl

/-- **C84** the items that are accepted, and their values, are those of the grammar. -/
theorem C84_item (s : Str) (v : Value) : tryFrom s = .ok (.ok v) ↔ Denotes s v := by
  have notEsc : ∀ x : Str, ¬ ('[' :: (x ++ [']']) = c!"[[" ∨ '[' :: (x ++ [']']) = c!"]]") := by
    intro x
    cases x <;> simp
  constructor
  · intro h
    unfold tryFrom at h
    split at h
    · rename_i hs
      cases h
      rcases hs with rfl | rfl
      · exact .escOpen
      · exact .escClose
    · split at h
      · rename_i hs
        obtain ⟨x, rfl⟩ : ∃ x, s = '[' :: (x ++ [']']) := by
          obtain ⟨h1, h2⟩ := hs
          cases s with
          | nil => cases h1
          | cons c s =>
            simp only [List.head?_cons, Option.some.injEq] at h1
            subst h1
            rw [List.getLast?_cons] at h2
            rcases s.eq_nil_or_concat with rfl | ⟨x, b, rfl⟩
            · simp at h2
            · simp at h2
              exact ⟨x, by rw [h2]; simp⟩
        simp only [List.drop_succ_cons, List.drop_zero, List.dropLast_concat] at h
        obtain ⟨name, params, rfl, ht⟩ := (parseTag_iff _ _).1 h
        exact .tag ht
      · split at h
        · cases h
        · split at h
          · cases h
          · rename_i h1 h2
            cases h
            simp only [not_or] at h1
            refine .text h1.1 h1.2 fun c hc => ?_
            simp only [List.any_eq_true, not_exists, not_and, Bool.not_eq_true, Bool.not_eq_false'] at h2
            have := h2 c hc
            simpa [validChar] using this
  · intro h
    cases h with
    | escOpen => rfl
    | escClose => rfl
    | @tag name params v h =>
      unfold tryFrom
      rw [if_neg (notEsc _), if_pos (by simp [List.getLast?_cons])]
      simp only [List.drop_succ_cons, List.drop_zero, List.dropLast_concat]
      exact (parseTag_iff _ _).2 ⟨name, params, rfl, h⟩
    | @text _ h1 h2 h3 =>
      unfold tryFrom
      rw [if_neg, if_neg, if_neg, if_neg]
      · simp only [List.any_eq_true, not_exists, not_and, Bool.not_eq_true, Bool.not_eq_false']
        intro c hc
        simpa [validChar] using h3 c hc
      · simp [h1, h2]
      · simp [h1]
      · rintro (rfl | rfl) <;> simp at h1 h2

/-- **C84** the grammar is not ambiguous. -/
theorem C84_unique (s : Str) (v v' : Value) (h : Denotes s v) (h' : Denotes s v') : v = v' := by
  rw [← C84_item] at h h'
  rw [h] at h'
  cases h'; rfl

/-- **C84** a message consists of valid items exactly if it is one of the grammar; it then has the values of the
grammar. -/
theorem C84_message (ms : Str) (vs : List Value) : values ms = vs.map (fun v => .ok (.ok v)) ↔ MessageIs ms vs := by
  have key : ∀ (ss : List Str) (vs : List Value),
      ss.map tryFrom = vs.map (fun v => .ok (.ok v)) ↔ AllDenote ss vs := by
    intro ss
    induction ss with
    | nil =>
      intro vs
      cases vs with
      | nil => simp [AllDenote.nil]
      | cons v vs =>
        constructor
        · intro h; simp at h
        · intro h; cases h
    | cons s ss ih =>
      intro vs
      cases vs with
      | nil =>
        constructor
        · intro h; simp at h
        · intro h; cases h
      | cons v vs =>
        simp only [List.map_cons, List.cons.injEq, ih, C84_item]
        constructor
        · rintro ⟨h1, h2⟩; exact .cons h1 h2
        · intro h
          cases h with
          | cons h1 h2 => exact ⟨h1, h2⟩
  unfold values MessageIs
  rw [key]
  constructor
  · intro h
    exact ⟨slices ms, slices_flatten ms, C02_split_cuts_on_tag_boundaries ms, h⟩
  · rintro ⟨items, rfl, hc, h⟩
    rwa [C02_split_unique items hc]

/-- **C84** a message has only one meaning. -/
theorem C84_meaning (ms : Str) (vs vs' : List Value) (h : MessageIs ms vs) (h' : MessageIs ms vs') : vs = vs' := by
  rw [← C84_message] at h h'
  rw [h] at h'
  exact List.map_inj_right (fun a b h => by cases h; rfl) |>.1 h'

example : Num8 c!"+042" 42 :=
  .plus (.more (s := c!"04") (n := 4) (d := 2) (.more (s := c!"0") (n := 0) (d := 4) (.one ⟨by decide, by decide⟩)
    ⟨by decide, by decide⟩) ⟨by decide, by decide⟩)
-- tags in unusual writing
example : Denotes c!"[FO+7,0aF]" (.font none) → False := by
  intro h
  rw [← C84_item] at h
  revert h; decide +kernel
example : Denotes c!"[pT3o]" (.pageTime (some 3) none) :=
  .tag (name := c!"pT") (params := c!"3o") (.pageTime (a := c!"3") (b := [])
    (.given (.digits (.one ⟨by decide, by decide⟩))) (by decide) .missing)
example : [c!"[FO+7,0aFf]", c!"[cr1,2,0,4,5]", c!"[flO5t]", c!"[mvl3r100,1,2,a,b]", c!"[g3,1,1,+12A]", c!"[f13,]", c!"[ms5,]",
      c!"[HC+41]", c!"[nl+]", c!"[jl6]", c!"[f14]", c!"[g3,1]", c!"[fo0]", c!"[pt1.5]"].map tryFrom =
    [.ok (.ok (.font (some (7, some 0xaff)))), .ok (.ok (.colorRectangle ⟨1, 2, 0, 4⟩ (.legacy 5))),
      .ok (.ok (.flash .offOn (some 5) none)), .ok (.ok (.movingText (.linear 3) .right 100 1 2 c!"a,b")),
      .ok (.ok (.graphic 3 (some (1, 1, some 0x12a)))), .ok (.ok (.field 13 none)),
      .ok (.ok (.manufacturerSpecific 5 (some []))), .ok (.ok (.hexadecimalCharacter 0x41)),
      .ok (.error (.unsupportedTagValue c!"nl+")), .ok (.error (.unsupportedTagValue c!"jl6")),
      .ok (.error (.unsupportedTagValue c!"f14")), .ok (.error (.unsupportedTagValue c!"g3,1")),
      .ok (.error (.unsupportedTagValue c!"fo0")), .ok (.error (.unsupportedTagValue c!"pt1.5"))] := by decide +kernel

end Ntcip
