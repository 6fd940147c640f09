import Verif.Model.Release
/-
Release builds give the same results as builds with overflow checks, when the latter do not panic.
-/
namespace Ntcip
namespace Release

/-- `b` is `a`, if `a` is no panic -/
inductive RLe {α : Type} : Res α → Res α → Prop
  | refl (a) : RLe a a
  | panic (p b) : RLe (.panic p) b

/-- `b` is `a`, if `a` is no panic -/
inductive OLe {ε α : Type} : Out ε α → Out ε α → Prop
  | refl (a) : OLe a a
  | panic (p b) : OLe (.panic p) b

theorem RLe.of {α : Type} {a b : Res α} (h : ∀ x, a = .ok x → b = .ok x) : RLe a b := by
  cases a with
  | ok x => rw [h x rfl]; exact .refl _
  | panic p => exact .panic _ _

theorem RLe.eq {α : Type} {a b : Res α} (h : RLe a b) {x : α} (hx : a = .ok x) : b = .ok x := by
  cases h with
  | refl a => exact hx
  | panic p b => cases hx

theorem OLe.okEq {ε α : Type} {a b : Out ε α} (h : OLe a b) {x : α} (hx : a = .ok x) : b = .ok x := by
  cases h with
  | refl a => exact hx
  | panic p b => cases hx

theorem OLe.errEq {ε α : Type} {a b : Out ε α} (h : OLe a b) {e : ε} (hx : a = .err e) : b = .err e := by
  cases h with
  | refl a => exact hx
  | panic p b => cases hx

theorem RLe.bind {α β : Type} {a b : Res α} {f g : α → Res β} (h : RLe a b) (k : ∀ x, RLe (f x) (g x)) :
    RLe (a >>= f) (b >>= g) := by
  cases h with
  | panic p b => exact .panic p _
  | refl a => cases a with
    | ok x => exact k x
    | panic p => exact .panic p _

theorem OLe.bind {ε α β : Type} {a b : Out ε α} {f g : α → Out ε β} (h : OLe a b) (k : ∀ x, OLe (f x) (g x)) :
    OLe (a >>= f) (b >>= g) := by
  cases h with
  | panic p b => exact .panic p _
  | refl a => cases a with
    | ok x => exact k x
    | err e => exact .refl _
    | panic p => exact .panic p _

theorem OLe.ofRes {ε α : Type} {a b : Res α} (h : RLe a b) : OLe (Out.ofRes a : Out ε α) (.ofRes b) := by
  cases h with
  | panic p b => exact .panic p _
  | refl a => exact .refl _

theorem OLe.mapErr {ε δ α : Type} {a b : Out ε α} (f : ε → δ) (h : OLe a b) : OLe (a.mapErr f) (b.mapErr f) := by
  cases h with
  | panic p b => exact .panic p _
  | refl a => exact .refl _

theorem wrap16_le (n : Nat) : RLe (chk16 n) (wrap16 n) := by
  refine .of fun x h => ?_
  unfold chk16 at h
  split at h
  · cases h
    simp only [wrap16]
    rw [Nat.mod_eq_of_lt ‹_›]
  · cases h

theorem wrap8_le (n : Nat) : RLe (chk8 n) (wrap8 n) := by
  refine .of fun x h => ?_
  unfold chk8 at h
  split at h
  · cases h
    simp only [wrap8]
    rw [Nat.mod_eq_of_lt ‹_›]
  · cases h

/-- the minuend is a `u16` value -/
theorem subw16_le {a : Nat} (ha : a < 65536) (b : Nat) : RLe (sub16 a b) (subw16 a b) := by
  refine .of fun x h => ?_
  unfold sub16 at h
  split at h
  · cases h
    simp only [subw16]
    congr 1
    omega
  · cases h

theorem addU16_le (a b : UInt16) : RLe (addU16 .checked a b) (addU16 .wrapping a b) := by
  refine .of fun x h => ?_
  unfold addU16 at h ⊢
  split at h
  · rw [if_pos ‹_›]; exact h
  · cases h

theorem intersection_le (a b : Rectangle) : RLe (a.intersection .checked b) (a.intersection .wrapping b) := by
  unfold Rectangle.intersection
  refine .bind (addU16_le ..) fun ar => .bind (addU16_le ..) fun br => .bind (addU16_le ..) fun ab =>
    .bind (addU16_le ..) fun bb => .refl _

theorem textWidthLoop_le (f : Font) (cs : Nat) : ∀ (s : Str) (w : Nat),
    OLe (f.textWidthLoop cs w s) (textWidthLoop f cs w s) := by
  intro s
  induction s with
  | nil => intro w; exact .refl _
  | cons ch rest ih =>
    intro w
    unfold Font.textWidthLoop textWidthLoop
    cases f.character ch with
    | none => exact .refl _
    | some c =>
      refine .bind (.ofRes ?_) fun w => .bind (.ofRes (wrap16_le _)) fun w => ih w
      split
      · exact wrap16_le _
      · exact .refl _

theorem spanWidth_le (s : Span) (fonts : FontTable) : OLe (s.width fonts) (spanWidth s fonts) :=
  .bind (.refl _) fun _ => .bind (.refl _) fun _ => .mapErr _ (textWidthLoop_le ..)

theorem offsetHorizLoop_le (fonts : FontTable) (rs : RenderState) : ∀ (l : List Span) (p b a),
    OLe (Ntcip.offsetHorizLoop fonts rs l p b a) (offsetHorizLoop fonts rs l p b a) := by
  intro l
  induction l with
  | nil => intro p b a; exact .refl _
  | cons span rest ih =>
    intro p b a
    unfold Ntcip.offsetHorizLoop offsetHorizLoop
    have fin : ∀ b a, OLe (Span.width span fonts >>= fun w => if span.state.spanNumber < rs.spanNumber then
          (Out.ofRes (chk16 (b + w)) >>= fun b => Ntcip.offsetHorizLoop fonts rs rest (some span) b a)
        else (Out.ofRes (chk16 (a + w)) >>= fun a => Ntcip.offsetHorizLoop fonts rs rest (some span) b a))
        (spanWidth span fonts >>= fun w => if span.state.spanNumber < rs.spanNumber then
          (Out.ofRes (wrap16 (b + w)) >>= fun b => offsetHorizLoop fonts rs rest (some span) b a)
        else (Out.ofRes (wrap16 (a + w)) >>= fun a => offsetHorizLoop fonts rs rest (some span) b a)) := by
      intro b a
      refine .bind (spanWidth_le ..) fun w => ?_
      split
      · exact .bind (.ofRes (wrap16_le _)) fun _ => ih ..
      · exact .bind (.ofRes (wrap16_le _)) fun _ => ih ..
    cases p with
    | none => exact fin b a
    | some ps =>
      refine .bind (.refl _) fun w => ?_
      split
      · exact .bind (.ofRes (wrap16_le _)) fun _ => fin ..
      · exact .bind (.ofRes (wrap16_le _)) fun _ => fin ..

theorem offsetHoriz_le (d : Dms) (spans : List Span) (span : Span) :
    OLe (Ntcip.offsetHoriz d spans span) (offsetHoriz d spans span) :=
  .bind (offsetHorizLoop_le ..) fun _ => .bind (.ofRes (wrap16_le _)) fun _ => .refl _

theorem u16_lt (a : UInt16) : a.toNat < 65536 := a.toNat_lt

/-- results of checked `u16` arithmetic are `u16` values -/
theorem OLe.bind16 {β : Type} {n : Nat} {f g : Nat → Out SyntaxError β} (k : ∀ x, x < 65536 → OLe (f x) (g x)) :
    OLe (Out.ofRes (chk16 n) >>= f) (Out.ofRes (wrap16 n) >>= g) := by
  unfold chk16
  split
  · simp only [Out.ofRes_ok, Out.ok_bind, wrap16, Nat.mod_eq_of_lt ‹_›]
    exact k _ ‹_›
  · exact .panic _ _

/-- the same for differences -/
theorem OLe.bindSub {β : Type} {a b : Nat} {f g : Nat → Out SyntaxError β} (ha : a < 65536)
    (k : ∀ x, x < 65536 → OLe (f x) (g x)) :
    OLe (Out.ofRes (sub16 a b) >>= f) (Out.ofRes (subw16 a b) >>= g) := by
  by_cases h : b ≤ a
  · rw [(subw16_le ha b).eq (x := a - b) (by simp [sub16, h])]
    simp only [sub16, if_pos h, Out.ofRes_ok, Out.ok_bind]
    exact k _ (by omega)
  · simp only [sub16, if_neg h]
    exact .panic _ _

theorem spanX_le (d : Dms) (spans : List Span) (span : Span) : OLe (Ntcip.spanX d spans span) (spanX d spans span) := by
  have e : span.state.textRectangle.x.toNat < 65536 := u16_lt _
  unfold Ntcip.spanX spanX
  cases span.state.justLine with
  | left => exact .bindSub e fun l _ => .bind (offsetHoriz_le ..) fun _ => .ofRes (wrap16_le _)
  | center =>
    exact .bindSub e fun l _ => .bind (offsetHoriz_le ..) fun _ => .bindSub (u16_lt _) fun t ht => .bindSub ht fun t _ =>
      .bind16 fun x _ => .bind16 fun x _ => .ofRes (wrap16_le _)
  | right =>
    exact .bindSub e fun l _ => .bind (offsetHoriz_le ..) fun _ => .bind16 fun x hx => .ofRes (subw16_le hx _)
  | other => exact .refl _
  | full => exact .refl _

theorem offsetVertLoop_le (full : Bool) (sln : Nat) : ∀ (l : List TextLine) (ln p a b),
    RLe (Ntcip.offsetVertLoop full sln l ln p a b) (offsetVertLoop full sln l ln p a b) := by
  intro l
  induction l with
  | nil => intro ln p a b; exact .refl _
  | cons line rest ih =>
    intro ln p a b
    unfold Ntcip.offsetVertLoop offsetVertLoop
    have fin : ∀ a b, RLe (if ln ≤ sln then
          (chk16 (a + line.height) >>= fun a => Ntcip.offsetVertLoop full sln rest (ln + 1) (some line) a b)
        else (chk16 (b + line.height) >>= fun b => Ntcip.offsetVertLoop full sln rest (ln + 1) (some line) a b))
        (if ln ≤ sln then
          (wrap16 (a + line.height) >>= fun a => offsetVertLoop full sln rest (ln + 1) (some line) a b)
        else (wrap16 (b + line.height) >>= fun b => offsetVertLoop full sln rest (ln + 1) (some line) a b)) := by
      intro a b
      split
      · exact .bind (wrap16_le _) fun _ => ih ..
      · exact .bind (wrap16_le _) fun _ => ih ..
    cases p with
    | none => exact fin a b
    | some ps =>
      dsimp only
      split
      · split
        · rename_i h
          refine .bind (wrap16_le _) fun x => ?_
          have := fin x b
          rw [if_pos h, if_pos h] at this
          exact this
        · rename_i h
          refine .bind (wrap16_le _) fun x => ?_
          have := fin a x
          rw [if_neg h, if_neg h] at this
          exact this
      · exact fin a b

theorem offsetVert_le (d : Dms) (spans : List Span) (span : Span) :
    OLe (Ntcip.offsetVert d spans span) (offsetVert d spans span) :=
  .bind (.refl _) fun _ => .bind (.ofRes (offsetVertLoop_le ..)) fun _ => .bind (.ofRes (wrap16_le _)) fun _ => .refl _

/-- a baseline is a `u16` value -/
theorem OLe.bindLt {a b : Out SyntaxError Nat} {β : Type} {f g : Nat → Out SyntaxError β} (h : OLe a b)
    (hl : ∀ x, a = .ok x → x < 65536) (k : ∀ x, x < 65536 → OLe (f x) (g x)) : OLe (a >>= f) (b >>= g) := by
  cases h with
  | panic p b => exact .panic p _
  | refl a => cases a with
    | ok x => exact k x (hl x rfl)
    | err e => exact .refl _
    | panic p => exact .panic p _

theorem chk16_lt {n x : Nat} (h : chk16 n = .ok x) : x < 65536 := by
  unfold chk16 at h
  split at h
  · cases h; assumption
  · cases h

theorem sub16_lt {n m x : Nat} (hn : n < 65536) (h : sub16 n m = .ok x) : x < 65536 := by
  unfold sub16 at h
  split at h
  · cases h; omega
  · cases h

theorem baseline_le (d : Dms) (spans : List Span) (span : Span) :
    OLe (Ntcip.baseline d spans span) (baseline d spans span) := by
  have e : span.state.textRectangle.y.toNat < 65536 := u16_lt _
  unfold Ntcip.baseline baseline
  cases span.state.justPage with
  | top => exact .bindSub e fun l _ => .bind (offsetVert_le ..) fun _ => .ofRes (wrap16_le _)
  | middle =>
    exact .bindSub e fun l _ => .bind (offsetVert_le ..) fun _ => .bindSub (u16_lt _) fun t ht => .bindSub ht fun t _ =>
      .bind16 fun x _ => .bind16 fun x _ => .ofRes (wrap16_le _)
  | bottom =>
    exact .bindSub e fun l _ => .bind (offsetVert_le ..) fun _ => .bind16 fun x hx => .ofRes (subw16_le hx _)
  | other => exact .refl _

theorem baseline_lt {d : Dms} {spans : List Span} {span : Span} {b : Nat} (h : Ntcip.baseline d spans span = .ok b) :
    b < 65536 := by
  unfold Ntcip.baseline at h
  split at h
  · simp only [Ntcip.baselineTop, Out.bind_eq_ok, Out.ofRes_eq_ok] at h
    obtain ⟨_, _, _, _, h⟩ := h
    exact chk16_lt h
  · simp only [Ntcip.baselineMiddle, Out.bind_eq_ok, Out.ofRes_eq_ok] at h
    obtain ⟨_, _, _, _, _, _, _, _, _, _, _, _, h⟩ := h
    exact chk16_lt h
  · simp only [Ntcip.baselineBottom, Out.bind_eq_ok, Out.ofRes_eq_ok] at h
    obtain ⟨_, _, _, _, r, hr, h⟩ := h
    exact sub16_lt (chk16_lt hr) h
  · cases h

theorem spanY_le (d : Dms) (spans : List Span) (span : Span) : OLe (Ntcip.spanY d spans span) (spanY d spans span) :=
  .bindLt (baseline_le ..) (fun _ h => baseline_lt h) fun _ hb => .bind (.refl _) fun _ => .ofRes (subw16_le hb _)

theorem renderSpansLoop_le (d : Dms) (spans : List Span) : ∀ (l : List Span) (r : Raster),
    OLe (Ntcip.renderSpansLoop d spans l r) (renderSpansLoop d spans l r) := by
  intro l
  induction l with
  | nil => intro r; exact .refl _
  | cons s rest ih =>
    intro r
    exact .bind (spanX_le ..) fun _ => .bind (spanY_le ..) fun _ => .bind (.refl _) fun _ => .bind (.refl _) fun _ => ih _

theorem renderTextSpans_le (d : Dms) (spans : List Span) (r : Raster) :
    OLe (Ntcip.renderTextSpans d spans r) (renderTextSpans d spans r) := by
  unfold Ntcip.renderTextSpans renderTextSpans
  cases checkJustification spans with
  | error e => exact .refl _
  | ok u => exact renderSpansLoop_le ..

theorem renderRect_le (raster : Raster) (rect : Rectangle) (clr : Rgb) (v : Value) :
    OLe (Ntcip.renderRect raster rect clr v) (renderRect raster rect clr v) := by
  unfold Ntcip.renderRect renderRect
  split
  · exact .panic _ _
  · split
    · exact .refl _
    · exact .bind (.ofRes (intersection_le ..)) fun _ => .refl _

theorem renderGraphicsLoop_le (d : Dms) : ∀ (l : List Str) (ctx : ColorCtx) (r : Raster),
    OLe (Ntcip.renderGraphicsLoop d l ctx r) (renderGraphicsLoop d l ctx r) := by
  intro l
  induction l with
  | nil => intro ctx r; exact .refl _
  | cons s rest ih =>
    intro ctx r
    unfold Ntcip.renderGraphicsLoop renderGraphicsLoop
    refine .bind (.refl _) fun value => .bind (.refl _) fun val => ?_
    cases val with
    | colorBackground clr => exact .bind (.refl _) fun _ => ih ..
    | colorForeground clr => exact .bind (.refl _) fun _ => ih ..
    | colorRectangle rect clr => exact .bind (.refl _) fun _ => .bind (renderRect_le ..) fun _ => ih ..
    | graphic gn at_ =>
      match at_ with
      | none => exact .bind (.refl _) fun _ => .bind (.refl _) fun _ => ih ..
      | some (x, y, gid) => exact .bind (.refl _) fun _ => .bind (.refl _) fun _ => ih ..
    | _ => first | exact .refl _ | exact ih ..

theorem updateTextRectangle_le (d : Dms) (full rect : Rectangle) :
    RLe (Ntcip.updateTextRectangle d full rect) (updateTextRectangle d full rect) := by
  unfold Ntcip.updateTextRectangle updateTextRectangle
  refine .bind (intersection_le ..) fun i => ?_
  split
  · exact .refl _
  · refine .bind (subw16_le (u16_lt _) _) fun x => ?_
    split
    · exact .refl _
    · exact .bind (subw16_le (u16_lt _) _) fun x => .refl _

theorem rtrStep_le (d : Dms) (ds : RenderState) (off : Bool) (st : Rtr) (v : Value) :
    RLe (Ntcip.rtrStep d ds off st v) (rtrStep d ds off st v) := by
  cases v with
  | newLine ls =>
    simp only [Ntcip.rtrStep, rtrStep]
    split
    · exact .refl _
    · exact .bind (wrap8_le _) fun _ => .refl _
  | text t => exact .bind (wrap8_le _) fun _ => .refl _
  | hexadecimalCharacter hc =>
    simp only [Ntcip.rtrStep, rtrStep]
    cases charFromU32 hc.toNat with
    | some c => exact .bind (wrap8_le _) fun _ => .refl _
    | none => exact .refl _
  | textRectangle rect =>
    simp only [Ntcip.rtrStep, rtrStep]
    exact .bind (updateTextRectangle_le ..) fun _ => .refl _
  | font f => rcases f with _ | ⟨n, vid⟩ <;> exact .refl _
  | justificationLine j => rcases j with _ | (_ | _ | _ | _ | _) <;> exact .refl _
  | justificationPage j => rcases j with _ | (_ | _ | _ | _ | _) <;> exact .refl _
  | _ => exact .refl _

theorem rtrLoop_le (d : Dms) (ds : RenderState) (off : Bool) : ∀ (l : List Str) (st : Rtr),
    RLe (Ntcip.rtrLoop d ds off l st) (rtrLoop d ds off l st) := by
  intro l
  induction l with
  | nil => intro st; exact .refl _
  | cons s rest ih =>
    intro st
    unfold Ntcip.rtrLoop rtrLoop
    match tryFrom s with
    | .panic p => exact .refl _
    | .ok (.error e) => exact .refl _
    | .ok (.ok v) =>
      dsimp only
      have hs := rtrStep_le d ds off st v
      generalize Ntcip.rtrStep d ds off st v = a at hs
      generalize rtrStep d ds off st v = b at hs
      cases hs with
      | panic p b => exact .panic _ _
      | refl a => match a with
        | .panic p => exact .refl _
        | .ok (.cont, st) => exact ih _
        | .ok (.brk, st) => exact .refl _
        | .ok (.fail e, st) => exact .refl _

theorem renderTextRectangle_le (d : Dms) (pg : Pages) (r : Raster) :
    RLe (Ntcip.renderTextRectangle d pg r) (renderTextRectangle d pg r) := by
  unfold Ntcip.renderTextRectangle renderTextRectangle
  refine .bind (rtrLoop_le ..) ?_
  rintro ⟨r', st, values⟩
  cases r' with
  | error e => exact .refl _
  | ok u =>
    have hs := renderTextSpans_le d st.spans r
    dsimp only
    generalize Ntcip.renderTextSpans d st.spans r = a at hs
    generalize renderTextSpans d st.spans r = b at hs
    cases hs with
    | panic p b => exact .panic _ _
    | refl a => cases a <;> exact .refl _

theorem onPageLoop_le (d : Dms) : ∀ (fuel n : Nat) (pg : Pages) (r : Raster),
    RLe (Ntcip.onPageLoop d fuel n pg r) (onPageLoop d fuel n pg r) := by
  intro fuel
  induction fuel with
  | zero => intro n pg r; exact .refl _
  | succ fuel ih =>
    intro n pg r
    unfold Ntcip.onPageLoop onPageLoop
    split
    · have hg := renderGraphicsLoop_le d pg.values pg.renderState.colorCtx r
      generalize Ntcip.renderGraphicsLoop d pg.values pg.renderState.colorCtx r = a at hg
      generalize renderGraphicsLoop d pg.values pg.renderState.colorCtx r = b at hg
      cases hg with
      | panic p b => exact .panic _ _
      | refl a => cases a with
        | panic p => exact .refl _
        | err e => exact .refl _
        | ok raster =>
          refine .bind (renderTextRectangle_le ..) ?_
          rintro ⟨r', pg⟩
          cases r' with
          | error e => exact .refl _
          | ok raster =>
            dsimp only
            split
            · exact .refl _
            · exact ih ..
    · exact .refl _

theorem renderOnPage_le (d : Dms) (pg : Pages) : RLe (Ntcip.renderOnPage d pg) (renderOnPage d pg) := by
  unfold Ntcip.renderOnPage renderOnPage
  cases checkUnsupported d pg.values with
  | panic p => exact .refl _
  | err e => exact .refl _
  | ok u =>
    refine .bind (.refl _) ?_
    rintro ⟨r, rs⟩
    cases r with
    | error e => exact .refl _
    | ok u => exact .bind (onPageLoop_le ..) fun _ => .refl _

theorem next_le (d : Dms) (pg : Pages) : RLe (Pages.next d pg) (next d pg) := by
  unfold Pages.next next
  cases pg.pageState with
  | on b => exact .bind (renderOnPage_le ..) fun _ => .refl _
  | off b => exact .refl _
  | done => exact .refl _

theorem run_le (d : Dms) : ∀ (n : Nat) (pg : Pages), RLe (Pages.run d n pg) (run d n pg) := by
  intro n
  induction n with
  | zero => intro pg; exact .refl _
  | succ n ih =>
    intro pg
    unfold Pages.run run
    refine .bind (next_le ..) ?_
    rintro ⟨r, pg⟩
    cases r with
    | none => exact .refl _
    | some x => exact .bind (ih _) fun _ => .refl _

theorem widthsLoop_le (d : Dms) : ∀ (l : List (Res (Except SyntaxError PatValue))) (n : Nat),
    RLe (Ntcip.widthsLoop d l n) (widthsLoop d l n) := by
  intro l
  induction l with
  | nil => intro n; exact .refl _
  | cons x rest ih =>
    intro n
    unfold Ntcip.widthsLoop widthsLoop
    match x with
    | .panic p => exact .refl _
    | .ok (.ok (.fillableRect r f)) =>
      exact .bind (wrap8_le _) fun _ => .bind (.refl _) fun _ => .bind (ih _) fun _ => .refl _
    | .ok (.ok (.value v)) => exact ih _
    | .ok (.error e) => exact ih _

end Release
end Ntcip
