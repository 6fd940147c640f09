import Verif.Lemmas.Larger
import Verif.Props.Accept
/-
Property C75: larger signs show what smaller ones show.
-/
namespace Ntcip
open Spec Tests

/-- **C75** (page by page): as long as a sign with valid fonts and graphics gives pages without error for a
message, so does a larger sign, as many, ON and OFF alike and for the same times. -/
theorem C75_steps (d d' : Dms) (hd : DrawOk d) (hf : FontsOk d.fontDefinition)
    (h0 : 1 ≤ d.multiCfg.defaultFont.toNat) (hl : Larger d d') (ms : Str) (xs) (pg : Pages)
    (h : Steps d (Pages.new d ms) xs pg) (hn : NoError xs) :
    ∃ xs' pg', Steps d' (Pages.new d' ms) xs' pg' ∧ NoError xs' ∧ xs'.map timed = xs.map timed := by
  obtain ⟨xs', pg', h1, _, h2, h3⟩ := steps_within hd hf h0 hl h hn (both_new hl ms)
  exact ⟨xs', pg', h1, h2, h3⟩

/-- **C75**: a message shown without errors by a sign with valid fonts and graphics is shown without errors by
a larger sign (of whole character cells, otherwise alike): as many pages, ON and OFF alike, for the same times. -/
theorem C75_larger (d d' : Dms) (hd : DrawOk d) (hf : FontsOk d.fontDefinition)
    (h0 : 1 ≤ d.multiCfg.defaultFont.toNat) (hl : Larger d d') (ms : Str) (xs)
    (h : Yields d ms xs) (hn : NoError xs) :
    ∃ xs', Yields d' ms xs' ∧ NoError xs' ∧ xs'.map timed = xs.map timed := by
  obtain ⟨pg, h, hend⟩ := h
  obtain ⟨xs', pg', h1, hb, h2, h3⟩ := steps_within hd hf h0 hl h hn (both_new hl ms)
  refine ⟨xs', ⟨pg', h1, ?_⟩, h2, h3⟩
  have hdone := (next_none hend).1
  unfold Pages.next
  rw [hb.pageState, hdone]

/-- a sign twice as large as `graphDms` -/
def Tests.bigDms : Dms := { graphDms with
  vmsCfg := { graphDms.vmsCfg with signWidthPixels := 120, signHeightPixels := 60 }
  signCfg := { graphDms.signCfg with signWidth := 20000, signHeight := 10000 } }

/-- the hypotheses are met … -/
example : DrawOk graphDms ∧ FontsOk graphDms.fontDefinition ∧ 1 ≤ graphDms.multiCfg.defaultFont.toNat ∧
    Larger graphDms bigDms := by
  refine ⟨fullDms_accept.toDrawOk, fullDms_accept.fonts, fullDms_accept.font, ?_⟩
  constructor <;> first | rfl | decide

/-- … and the message of two pages is shown by both signs -/
example : pageCount (render graphDms acceptMsg) = some 2 ∧ pageCount (render bigDms acceptMsg) = some 2 := by
  decide +kernel

/-- a text too long for the smaller sign -/
example : pageCount (render graphDms c!"ABABABABABABABA") = none ∧
    pageCount (render bigDms c!"ABABABABABABABA") = some 1 := by decide +kernel

/-- a sign with character cells -/
def Tests.oddDms : Dms := { charDms with
  vmsCfg := { charDms.vmsCfg with signWidthPixels := 101 }
  signCfg := { charDms.signCfg with signWidth := 8000 } }

/-- Whole character cells are needed: nothing keeps a sign from having 101 columns of pixels for cells of 5
(it is built without error).  Text rectangles without a size are no whole cells there. -/
theorem C75_cells : (oddDms.intoBuilder.build .checked matches .ok _) = true ∧
    pageCount (render charDms c!"[tr1,1,0,0]A") = some 1 ∧ pageCount (render oddDms c!"[tr1,1,0,0]A") = none := by
  decide +kernel

/-- the largest sign -/
def Tests.endlessDms : Dms := { smallDms with
  vmsCfg := { smallDms.vmsCfg with signWidthPixels := 65535 } }

/-- Widths and heights below 65535 are needed: the right edge of a rectangle with the size of the sign must fit
16 bits. -/
theorem C75_limit : pageCount (render smallDms c!"[tr1,1,0,0]A") = some 1 ∧
    (match render endlessDms c!"[tr1,1,0,0]A" with
      | .panic _ => true
      | _ => false) = true := by
  decide +kernel

end Ntcip
