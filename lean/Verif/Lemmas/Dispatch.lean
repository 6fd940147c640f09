import Verif.Lemmas.Numbers
/-
How `parse_tag` chooses the parser of a tag: by its lower-cased name.
-/
namespace Ntcip

/-- the tags `parse_tag` knows -/
inductive Kind where
  | nl | np | fo | jl | jp | pt | pb | cf | cr | tr | cb | sc | hc | fl | mv | ms | f | g
  | scEnd | flEnd | msEnd
  deriving DecidableEq, Repr

namespace Kind

/-- lower-case name -/
def name : Kind → Str
  | nl => c!"nl" | np => c!"np" | fo => c!"fo" | jl => c!"jl" | jp => c!"jp" | pt => c!"pt"
  | pb => c!"pb" | cf => c!"cf" | cr => c!"cr" | tr => c!"tr" | cb => c!"cb" | sc => c!"sc"
  | hc => c!"hc" | fl => c!"fl" | mv => c!"mv" | ms => c!"ms" | f => c!"f" | g => c!"g"
  | scEnd => c!"/sc" | flEnd => c!"/fl" | msEnd => c!"/ms"

/-- the value of the tag with parameters `r` (what follows the name) -/
def body (r : Str) : Kind → Res (Option Value)
  | nl => .ok (if r = [] then some (.newLine none)
      else if blen r = 1 then (parseU8 r).map fun n => .newLine (some n) else none)
  | np => .ok (if r = [] then some .newPage else none)
  | fo => .ok (if r = [] then some (.font none) else
      match parseNonzero (splitN 2 isComma r) with
      | (n, vs) => match n, parseVersionId vs with
        | some n, some vid => some (.font (some (n, vid)))
        | _, _ => none)
  | jl => .ok (if r = [] then some (.justificationLine none)
      else (JustificationLine.new r).map fun j => .justificationLine (some j))
  | jp => .ok (if r = [] then some (.justificationPage none)
      else (JustificationPage.new r).map fun j => .justificationPage (some j))
  | pt => .ok (match parseOptional (splitN 2 isO r) with
      | (t, vs) => match t, (parseOptional vs).1 with
        | some t, some o => some (.pageTime t o)
        | _, _ => none)
  | pb => .ok (if r = [] then some (.pageBackground none)
      else (parseColor (splitAll isComma r)).map fun c => .pageBackground (some c))
  | cf => .ok (if r = [] then some (.colorForeground none)
      else (parseColor (splitAll isComma r)).map fun c => .colorForeground (some c))
  | cr => .ok (match parseRectangle (splitN 7 isComma r) with
      | (q, vs) => match q, parseColor vs with
        | some q, some c => some (.colorRectangle q c)
        | _, _ => none)
  | tr => .ok ((parseRectangle (splitN 4 isComma r)).1.map .textRectangle)
  | cb => .ok (if r = [] then some (.colorBackground none)
      else (parseU8 r).map fun n => .colorBackground (some (.legacy n)))
  | sc => .ok (match parseU8 r with
      | some s => if s < 100 then some (.spacingCharacter s) else none
      | none => none)
  | hc => .ok ((parseHex16 r).map .hexadecimalCharacter)
  | fl => match r with
    | [] => .ok (some (.flash .onOff none none))
    | c :: r =>
      if c.toNat < 128 then
        if c = 't' ∨ c = 'T' then .ok (parseFlashOn r)
        else if c = 'o' ∨ c = 'O' then .ok (parseFlashOff r)
        else .ok none
      else .panic .boundary
  | mv => match r with
    | [] => .ok none
    | c :: r =>
      if c.toNat < 128 then
        if c = 'c' ∨ c = 'C' then parseMovingTextMode r .circular
        else if c = 'l' ∨ c = 'L' then parseMovingTextLinear r
        else .ok none
      else .panic .boundary
  | ms => .ok (match parseIntU32 (splitN 2 isComma r) with
      | (m, vs) => m.map fun m => .manufacturerSpecific m vs.head?)
  | f => .ok (match parseIntU8 (splitN 2 isComma r) with
      | (i, vs) => match i, (parseOptional vs).1 with
        | some fid, some w => if fid < 14 then some (.field fid w) else none
        | _, _ => none)
  | g => .ok (match parseNonzero (splitN 4 isComma r) with
      | (n, vs) => match parsePoint vs with
        | (p, vs) => match n, p, parseVersionId vs with
          | some n, some (some (x, y)), some vid => some (.graphic n (some (x, y, vid)))
          | some n, some none, some none => some (.graphic n none)
          | _, _, _ => none)
  | scEnd => .ok (if r = [] then some .spacingCharacterEnd else none)
  | flEnd => .ok (if r = [] then some .flashEnd else none)
  | msEnd => .ok (match parseIntU32 (splitN 2 isComma r) with
      | (m, vs) => m.map fun m => .manufacturerSpecificEnd m vs.head?)

/-- `f` is not the beginning of another tag name -/
def Ok (r : Str) : Kind → Prop
  | f => ∀ c, r.head? = some c → asciiLower c ≠ 'o' ∧ asciiLower c ≠ 'l' ∧ asciiLower c ≠ 'e'
  | _ => True

end Kind

theorem asciiLower_ascii (c : Char) : (asciiLower c).toNat < 128 ↔ c.toNat < 128 := by
  unfold asciiLower
  split
  · rename_i h
    have h1 : 65 ≤ c.toNat := h.1
    have h2 : c.toNat ≤ 90 := h.2
    have key : ∀ n : Fin 26, (Char.ofNat (n.val + 65 + 32)).toNat = n.val + 65 + 32 := by decide +kernel
    have := key ⟨c.toNat - 65, by omega⟩
    rw [show c.toNat - 65 + 65 = c.toNat by omega] at this
    rw [this]; omega
  · rfl

/-- a lower-cased name has as many bytes, all ASCII -/
theorem kind_pre {pre : Str} {k : Kind} (h : pre.map asciiLower = k.name) :
    pre.length = k.name.length ∧ ∀ c ∈ pre, c.toNat < 128 := by
  refine ⟨by rw [← h]; simp, ?_⟩
  intro c hc
  rw [← asciiLower_ascii]
  have hm : asciiLower c ∈ k.name := by rw [← h]; exact List.mem_map_of_mem hc
  have : ∀ d ∈ k.name, d.toNat < 128 := by cases k <;> decide
  exact this _ hm

theorem blen_pre {pre : Str} {k : Kind} (h : pre.map asciiLower = k.name) (r : Str) :
    blen (pre ++ r) = k.name.length + blen r := by
  obtain ⟨h1, h2⟩ := kind_pre h
  rw [blen_append, blen_ascii _ h2, h1]

theorem sliceFrom_pre {pre : Str} {k : Kind} (h : pre.map asciiLower = k.name) (r : Str) (n : Nat) :
    sliceFrom (k.name.length + n) (pre ++ r) = sliceFrom n r := by
  obtain ⟨h1, h2⟩ := kind_pre h
  rw [← h1]
  clear h h1
  induction pre with
  | nil => simp
  | cons c pre ih =>
    rw [List.length_cons, List.cons_append, show pre.length + 1 + n = pre.length + n + 1 by omega,
      sliceFrom_ascii _ _ _ (h2 c (by simp)), ih (fun c hc => h2 c (by simp [hc]))]

theorem blen_gt_pre {pre : Str} {k : Kind} (h : pre.map asciiLower = k.name) (r : Str) :
    (blen (pre ++ r) > k.name.length) ↔ r ≠ [] := by
  rw [blen_pre h]
  constructor
  · rintro h1 rfl; simp [blen] at h1
  · intro h1; have := blen_pos h1; omega

theorem blen_eq_pre {pre : Str} {k : Kind} (h : pre.map asciiLower = k.name) (r : Str) :
    (blen (pre ++ r) = k.name.length) ↔ r = [] := by
  rw [blen_pre h, ← blen_eq_zero]; omega

theorem map_two {pre : Str} {a b : Char} (h : pre.map asciiLower = [a, b]) :
    ∃ x y, pre = [x, y] ∧ asciiLower x = a ∧ asciiLower y = b := by
  match pre, h with
  | [x, y], h => simp at h; exact ⟨x, y, rfl, h⟩
theorem map_one {pre : Str} {a : Char} (h : pre.map asciiLower = [a]) :
    ∃ x, pre = [x] ∧ asciiLower x = a := by
  match pre, h with
  | [x], h => simp at h; exact ⟨x, rfl, h⟩
theorem map_three {pre : Str} {a b d : Char} (h : pre.map asciiLower = [a, b, d]) :
    ∃ x y z, pre = [x, y, z] ∧ asciiLower x = a ∧ asciiLower y = b ∧ asciiLower z = d := by
  match pre, h with
  | [x, y, z], h => simp at h; exact ⟨x, y, z, rfl, h⟩

/-- the parser of a kind on a whole tag -/
def Kind.parser : Kind → Str → Res (Option Value)
  | nl => parseNewLine | np => fun t => .ok (parseNewPage t) | fo => parseFont
  | jl => parseJustificationLine | jp => parseJustificationPage | pt => parsePageTime
  | pb => parsePageBackground | cf => parseColorForeground | cr => parseColorRectangle
  | tr => parseTextRectangle | cb => parseColorBackground | sc => parseSpacingCharacter
  | hc => parseHexadecimalCharacter | fl => parseFlashTime | mv => parseMovingText
  | ms => parseManufacturerSpecific | f => parseField | g => parseGraphic
  | scEnd => fun t => .ok (parseSpacingCharacterEnd t) | flEnd => fun t => .ok (parseFlashEnd t)
  | msEnd => parseManufacturerSpecificEnd

theorem parseTag_parser (k : Kind) (pre r : Str) (h : pre.map asciiLower = k.name) (hk : k.Ok r) :
    parseTag (pre ++ r) = orTagValue (pre ++ r) (k.parser (pre ++ r)) := by
  cases k
  case f =>
    obtain ⟨x, rfl, hx⟩ := map_one h
    simp only [Kind.Ok] at hk
    cases r with
    | nil => simp [parseTag, hx, Kind.parser]
    | cons c r => have := hk c rfl; simp [parseTag, hx, this, Kind.parser]
  case g =>
    obtain ⟨x, rfl, hx⟩ := map_one h
    simp [parseTag, hx, Kind.parser]
  case scEnd | flEnd | msEnd =>
    obtain ⟨x, y, z, rfl, hx, hy, hz⟩ := map_three h
    simp [parseTag, hx, hy, hz, Kind.parser]
  all_goals
    obtain ⟨x, y, rfl, hx, hy⟩ := map_two h
    simp [parseTag, hx, hy, Kind.parser]

theorem parser_body (k : Kind) (pre r : Str) (h : pre.map asciiLower = k.name) :
    k.parser (pre ++ r) = k.body r := by
  have hg := blen_gt_pre h r
  have he := blen_eq_pre h r
  have hb := blen_pre h r
  have hs := sliceFrom_pre h r 0
  have hs1 := sliceFrom_pre h r 1
  rw [sliceFrom_zero, Nat.add_zero] at hs
  cases k <;> simp only [Kind.name, List.length_cons, List.length_nil, Nat.zero_add, Nat.reduceAdd] at hg he hb hs hs1
  case nl =>
    simp only [Kind.parser, Kind.body, parseNewLine, he]
    split
    · rfl
    · rw [hs]
      by_cases h1 : blen r = 1
      · rw [if_pos (by omega), if_pos h1]; simp only [Res.ok_bind]; cases parseU8 r <;> rfl
      · rw [if_neg (by omega), if_neg h1]; rfl
  case np => simp only [Kind.parser, Kind.body, parseNewPage, he]
  case scEnd => simp only [Kind.parser, Kind.body, parseSpacingCharacterEnd, he]
  case flEnd => simp only [Kind.parser, Kind.body, parseFlashEnd, he]
  case fo =>
    simp only [Kind.parser, Kind.body, parseFont, hg, hs, Res.ok_bind]
    by_cases h0 : r = []
    · simp [h0]
    · simp only [h0, ne_eq, not_false_eq_true, if_true, if_false]
      rcases parseNonzero (splitN 2 isComma r) with ⟨n, vs⟩
      simp only
      cases n <;> cases parseVersionId vs <;> rfl
  case jl =>
    simp only [Kind.parser, Kind.body, parseJustificationLine, hg, hs, Res.ok_bind]
    by_cases h0 : r = [] <;> simp [h0]
  case jp =>
    simp only [Kind.parser, Kind.body, parseJustificationPage, hg, hs, Res.ok_bind]
    by_cases h0 : r = [] <;> simp [h0]
  case pt =>
    simp only [Kind.parser, Kind.body, parsePageTime, hs, Res.ok_bind]
    rcases parseOptional (splitN 2 isO r) with ⟨n, vs⟩
    simp only
    rcases parseOptional vs with ⟨o, vs'⟩
    cases n <;> cases o <;> rfl
  case pb =>
    simp only [Kind.parser, Kind.body, parsePageBackground, hg, hs, Res.ok_bind]
    by_cases h0 : r = [] <;> simp [h0]
  case cf =>
    simp only [Kind.parser, Kind.body, parseColorForeground, hg, hs, Res.ok_bind]
    by_cases h0 : r = [] <;> simp [h0]
  case cr =>
    simp only [Kind.parser, Kind.body, parseColorRectangle, hs, Res.ok_bind]
    rcases parseRectangle (splitN 7 isComma r) with ⟨q, vs⟩
    simp only
    cases q <;> cases parseColor vs <;> rfl
  case tr => simp only [Kind.parser, Kind.body, parseTextRectangle, hs, Res.ok_bind]; rfl
  case cb =>
    simp only [Kind.parser, Kind.body, parseColorBackground, hg, hs, Res.ok_bind]
    by_cases h0 : r = []
    · simp [h0]
    · simp only [h0, ne_eq, not_false_eq_true, if_true, if_false]
      cases parseU8 r <;> rfl
  case sc =>
    simp only [Kind.parser, Kind.body, parseSpacingCharacter, hs, Res.ok_bind, parseIntU8]
    cases parseU8 r with
    | none => rfl
    | some s => simp only; split <;> rfl
  case hc => simp only [Kind.parser, Kind.body, parseHexadecimalCharacter, hs, Res.ok_bind]; rfl
  case fl =>
    simp only [Kind.parser, Kind.body, parseFlashTime, hg, hs, Res.ok_bind]
    cases r with
    | nil => simp
    | cons c r =>
      simp only [ne_eq, reduceCtorEq, not_false_eq_true, if_true]
      by_cases hc : c.toNat < 128
      · obtain ⟨h1, h2⟩ := (slice_one c r).1 hc
        simp only [h1, h2, hc, if_true, Res.ok_bind, List.cons.injEq, and_true, Res.pure_eq]
      · obtain ⟨h1, h2⟩ := (slice_one c r).2 hc
        simp only [h2, hc, if_false, Res.panic_bind]
  case mv =>
    simp only [Kind.parser, Kind.body, parseMovingText, hg, hs, hs1, Res.ok_bind]
    cases r with
    | nil => simp
    | cons c r =>
      simp only [ne_eq, reduceCtorEq, not_false_eq_true, if_true]
      by_cases hc : c.toNat < 128
      · obtain ⟨h1, h2⟩ := (slice_one c r).1 hc
        simp only [h1, h2, hc, if_true, Res.ok_bind, List.cons.injEq, and_true, Res.pure_eq]
      · obtain ⟨h1, h2⟩ := (slice_one c r).2 hc
        simp only [h1, hc, if_false, Res.panic_bind]
  case ms =>
    simp only [Kind.parser, Kind.body, parseManufacturerSpecific, hs, Res.ok_bind]
    rcases parseIntU32 (splitN 2 isComma r) with ⟨m, vs⟩
    simp only
    cases m <;> cases vs.head? <;> rfl
  case msEnd =>
    simp only [Kind.parser, Kind.body, parseManufacturerSpecificEnd, hs, Res.ok_bind]
    rcases parseIntU32 (splitN 2 isComma r) with ⟨m, vs⟩
    simp only
    cases m <;> cases vs.head? <;> rfl
  case f =>
    simp only [Kind.parser, Kind.body, parseField, hs, Res.ok_bind]
    rcases parseIntU8 (splitN 2 isComma r) with ⟨i, vs⟩
    simp only
    rcases parseOptional vs with ⟨o, vs'⟩
    cases i <;> cases o <;> simp only [Res.pure_eq]
    split <;> rfl
  case g =>
    simp only [Kind.parser, Kind.body, parseGraphic, hs, Res.ok_bind]
    rcases parseNonzero (splitN 4 isComma r) with ⟨n, vs⟩
    simp only
    rcases parsePoint vs with ⟨q, vs'⟩
    simp only
    rcases n with _ | n <;> rcases q with _ | _ | ⟨x, y⟩ <;> rcases parseVersionId vs' with _ | _ | v <;> rfl

/-- a tag of a known kind is parsed from what follows its name -/
theorem parseTag_kind (k : Kind) (pre r : Str) (h : pre.map asciiLower = k.name) (hk : k.Ok r) :
    parseTag (pre ++ r) = orTagValue (pre ++ r) (k.body r) := by
  rw [parseTag_parser k pre r h hk, parser_body k pre r h]

theorem heads_one {tag : Str} {a : Char} (h0 : tag[0]?.map asciiLower = some a) :
    ∃ pre r, tag = pre ++ r ∧ pre.map asciiLower = [a] := by
  match tag with
  | [] => simp at h0
  | x :: r => simp at h0; exact ⟨[x], r, rfl, by simp [h0]⟩

theorem heads_two {tag : Str} {a b : Char} (h0 : tag[0]?.map asciiLower = some a)
    (h1 : tag[1]?.map asciiLower = some b) :
    ∃ pre r, tag = pre ++ r ∧ pre.map asciiLower = [a, b] := by
  match tag with
  | [] => simp at h0
  | [x] => simp at h1
  | x :: y :: r => simp at h0 h1; exact ⟨[x, y], r, rfl, by simp [h0, h1]⟩

theorem heads_three {tag : Str} {a b c : Char} (h0 : tag[0]?.map asciiLower = some a)
    (h1 : tag[1]?.map asciiLower = some b) (h2 : tag[2]?.map asciiLower = some c) :
    ∃ pre r, tag = pre ++ r ∧ pre.map asciiLower = [a, b, c] := by
  match tag with
  | [] => simp at h0
  | [x] => simp at h1
  | [x, y] => simp at h2
  | x :: y :: z :: r => simp at h0 h1 h2; exact ⟨[x, y, z], r, rfl, by simp [h0, h1, h2]⟩

/-- every other tag is not supported -/
theorem parseTag_cases (tag : Str) :
    (∃ k pre r, tag = pre ++ r ∧ pre.map asciiLower = k.name ∧ Kind.Ok r k) ∨
    (parseTag tag = .ok (.error (.unsupportedTag tag)) ∧
      ¬ ∃ k pre r, tag = pre ++ r ∧ pre.map asciiLower = k.name ∧ Kind.Ok r k) := by
  by_cases hex : ∃ k pre r, tag = pre ++ r ∧ pre.map asciiLower = k.name ∧ Kind.Ok r k
  · exact .inl hex
  · refine .inr ⟨?_, hex⟩
    have two : ∀ (k : Kind) (a b : Char), k.name = [a, b] →
        ¬ (tag[0]?.map asciiLower = some a ∧ tag[1]?.map asciiLower = some b) := by
      rintro k a b hk ⟨h0, h1⟩
      obtain ⟨pre, r, e, hp⟩ := heads_two h0 h1
      exact hex ⟨k, pre, r, e, by rw [hp, hk], by cases k <;> simp [Kind.Ok, Kind.name] at hk ⊢⟩
    have three : ∀ (k : Kind) (a b c : Char), k.name = [a, b, c] →
        ¬ (tag[0]?.map asciiLower = some a ∧ tag[1]?.map asciiLower = some b ∧
          tag[2]?.map asciiLower = some c) := by
      rintro k a b c hk ⟨h0, h1, h2⟩
      obtain ⟨pre, r, e, hp⟩ := heads_three h0 h1 h2
      exact hex ⟨k, pre, r, e, by rw [hp, hk], by cases k <;> simp [Kind.Ok, Kind.name] at hk ⊢⟩
    have hgg : ¬ tag[0]?.map asciiLower = some 'g' := by
      intro h0
      obtain ⟨pre, r, e, hp⟩ := heads_one h0
      exact hex ⟨.g, pre, r, e, hp, trivial⟩
    have hff : tag[0]?.map asciiLower = some 'f' → tag[1]?.map asciiLower = some 'e' := by
      intro h0
      apply Decidable.byContradiction
      intro h1
      have hfo := two .fo _ _ rfl
      have hfl := two .fl _ _ rfl
      match tag with
      | [] => simp at h0
      | x :: r =>
        refine hex ⟨.f, [x], r, rfl, by simpa [Kind.name] using h0, ?_⟩
        intro c hc
        cases r with
        | nil => simp at hc
        | cons d r => simp at hc h0 h1 hfo hfl; subst hc; simp_all
    unfold parseTag
    simp only [two .nl _ _ rfl, two .np _ _ rfl, two .fo _ _ rfl, two .jl _ _ rfl, two .jp _ _ rfl,
      two .pt _ _ rfl, two .pb _ _ rfl, two .cf _ _ rfl, two .cr _ _ rfl, two .tr _ _ rfl,
      two .cb _ _ rfl, two .sc _ _ rfl, two .hc _ _ rfl, two .fl _ _ rfl, two .mv _ _ rfl,
      two .ms _ _ rfl, hgg, three .scEnd _ _ _ rfl, three .flEnd _ _ _ rfl, three .msEnd _ _ _ rfl,
      if_false]
    split
    · rfl
    · rename_i h
      rw [if_neg]
      intro h0; exact h ⟨h0, hff h0⟩

end Ntcip
