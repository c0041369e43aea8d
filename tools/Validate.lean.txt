import Verif.Model.Lib
import Verif.Model.Display
/-! Runs the executable model on the test cases of the repository (see validate.py). -/
open Verif
def U : Unicode := { isAlphabetic := fun c => c.isAlpha || c.toNat ≥ 0x3040, toUpper := fun c => [c.toUpper] }
def main (args : List String) : IO Unit := do
  let txt ← IO.FS.readFile args.head!
  let cases := txt.splitOn "\x01"
  let mut ok := 0
  let mut bad := 0
  for c in cases do
    match c.splitOn "\x02" with
    | [kind, code, exp, idx] =>
      let r := Verif.parse U code.toList
      let got := match r with
        | .ok ns => if kind == "S" then match ns[idx.toNat!]? with
            | some n => String.ofList n.display
            | none => "no such index"
          else "OK"
        | .err e => s!"{e.line} {e.column}"
        | .panic _ => "panic"
        | .timeout => "timeout"
      if got == exp then ok := ok + 1
      else
        bad := bad + 1
        IO.println s!"MISMATCH on\n{code}\nexpected\n{exp}\ngot\n{got}"
    | _ => pure ()
  IO.println s!"agree: {ok}, disagree: {bad}"
