import Verif
open Lean Elab Command
run_cmd do
  let env ← getEnv
  let m ← IO.ofExcept (Json.parse (← IO.FS.readFile "/verif/MANIFEST.json"))
  let cs ← IO.ofExcept (m.getObjValAs? (Array Json) "claims")
  for c in cs do
    let ts ← IO.ofExcept (c.getObjValAs? (Array String) "theorems")
    for t in ts do
      let n := t.toName
      let ax ← liftCoreM (collectAxioms n)
      IO.println s!"{t}\t{ax.toList}"
