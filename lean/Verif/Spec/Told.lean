import Verif.Model.Sign
/-
Specification of property C125: what a sign is built from.
-/
namespace Ntcip.Spec

/-- one call of a `with_…` function of the builder -/
inductive Setting where
  | sign (c : SignCfg)
  | vms (c : VmsCfg)
  | fonts (t : FontTable)
  | multi (c : MultiCfg)
  | graphics (t : GraphicTable)

/-- the call -/
def Setting.tell (b : DmsBuilder) : Setting → DmsBuilder
  | .sign c => b.withSignCfg c
  | .vms c => b.withVmsCfg c
  | .fonts t => b.withFontDefinition t
  | .multi c => b.withMultiCfg c
  | .graphics t => b.withGraphicDefinition t

def Setting.sign? : Setting → Option SignCfg
  | .sign c => some c
  | _ => none

def Setting.vms? : Setting → Option VmsCfg
  | .vms c => some c
  | _ => none

def Setting.fonts? : Setting → Option FontTable
  | .fonts t => some t
  | _ => none

def Setting.multi? : Setting → Option MultiCfg
  | .multi c => some c
  | _ => none

def Setting.graphics? : Setting → Option GraphicTable
  | .graphics t => some t
  | _ => none

/-- what was told last of a kind, or else the default -/
def lastTold {α : Type} (kind : Setting → Option α) (ss : List Setting) (dflt : α) : α :=
  (ss.filterMap kind).getLast?.getD dflt

/-- the names of the color schemes (`dmsColorScheme` of NTCIP 1203) -/
def schemeNames : List (Str × ColorScheme) :=
  [(c!"monochrome1Bit", .monochrome1Bit), (c!"monochrome8Bit", .monochrome8Bit), (c!"colorClassic", .colorClassic),
   (c!"color24Bit", .color24Bit)]

end Ntcip.Spec
