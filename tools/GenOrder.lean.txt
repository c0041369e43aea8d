import Verif.Analysis.Order
import Verif.Model.Program
open Verif Verif.OI
abbrev Tab := Array (List OI.Entry)
def look (T : Tab) (f : Fn) : List OI.Entry := T.getD f.ctorIdx []
def vecFns : List Fn := [.parse_n_keywords, .parse_exprs]
def closedFns : List Fn := [.parse_between_operator, .parse_binary_operator, .parse_in_operator, .parse_is_distinct_from_operator, .parse_pipe_statement, .parse_set_operator]
def trim (l : List (Option Bool)) : List (Option Bool) := (l.reverse.dropWhile Option.isNone).reverse
def sensFns : List Fn := Fn.all.filter (fun f => f == .parse_expr || (let n := ((reprStr f).splitOn "_"); n.getLast! == "statement"|| n.getLast! == "general" || n.getLast! == "satement"))
def lastFns : List Fn := [.parse_pipe_statement, .parse_set_operator]
def short (f : Fn) : String := ((reprStr f).drop 9).toString
def sty (t : NodeType) : String := ((reprStr t).drop 15).toString
def skeys (m : AI.Mask) : String := String.intercalate "," ((Key.all.filter (fun k => m.testBit k.ctorIdx)).map (fun k => (reprStr k).drop 12 |>.toString) ++ (if m.testBit SELF then ["SELF"] else []))
def joinRes : OI.Res → OI.Res → OI.Res
  | .node as, .node bs => .node (bs.foldl (fun acc p =>
      if acc.any (fun q => AI.tyEq q.1 p.1) then acc.map (fun q => if AI.tyEq q.1 p.1 then (q.1, q.2.1 ||| p.2.1, q.2.2 ||| p.2.2) else q)
      else acc ++ [p]) as)
  | .vec (some as), .vec (some bs) => .vec (some (OI.joinAlts as bs))
  | .vec _, .vec _ => .vec none
  | a, _ => a
partial def loop (ru : Rules) (T : Tab) (n : Nat) : IO Tab := do
  let mut T := T
  let mut changed := false
  let mut errs : Array String := #[]
  for f in Fn.all do
    let es := look T f
    let mut i := 0
    for e in es do
      let mut again := true
      while again do
        again := false
        match runEntry ru (look T) (Program.defs f) ((look T f)[i]!) with
        | .error (.missing g used bs arg) =>
          let arg := if closedFns.contains g then arg.map (fun p => (p.1 && lastFns.contains g, Desc.any)) else arg
          let entry : OI.Entry := ⟨used, if sensFns.contains g then trim bs else [], arg, if vecFns.contains g then .vec (some []) else .node []⟩
          T := T.modify g.ctorIdx (· ++ [entry])
          changed := true; again := true
        | .error (.msg s) => errs := errs.push s!"{short f}: {s}"
        | .error (.order t a b) => errs := errs.push s!"{short f}: ORDER {sty t} {skeys a} / {skeys b}"
        | .ok rs =>
          for r in rs do
            let e := (look T f)[i]!
            if !(resLe r e.res) then
              T := T.modify f.ctorIdx (·.set i { e with res := joinRes e.res r })
              changed := true
      i := i + 1
  IO.println s!"round {n}: changed {changed}, errors {errs.size}, entries {T.foldl (fun n l => n + l.length) 0}"
  if changed && n < 40 then loop ru T (n+1) else
    for e in errs do IO.println (e.take 1500).toString
    return T
def emAlts (as : Alts) : String := "[" ++ String.intercalate ", " (as.map fun (p : NodeType × AI.Mask) => s!"(.{sty p.1}, {p.2})") ++ "]"
def emO (as : Option Alts) : String := match as with
  | none => "none"
  | some as => s!"(some {emAlts as})"
def emD : Desc → String
  | .any => ".any"
  | .node as => s!".node {emAlts as}"
  | .vec o as => s!".vec {o} {emO as}"
def emB : Option Bool → String
  | none => "none"
  | some b => s!"some {b}"
def emR : OI.Res → String
  | .node as => ".node [" ++ String.intercalate ",\n    " (as.map fun (p : NodeType × AI.Mask × AI.Mask) => s!"(.{sty p.1}, {p.2.1}, {p.2.2})") ++ "]"
  | .vec as => s!".vec {emO as}"
def emE (e : OI.Entry) : String :=
  let arg := match e.arg with | none => "none" | some (l, d) => s!"some ({l}, {emD d})"
  s!"⟨{e.used}, [{String.intercalate ", " (e.bools.map emB)}], {arg},\n    {emR e.res}⟩"
/-- The summaries are found by iteration; `write`: write the module. -/
def gen (ru : Rules) (write : Bool) : IO Unit := do
  let T0 : Tab := (List.replicate (Fn.all.length) []).toArray
  let T0 := T0.modify Fn.parse_statement.ctorIdx (fun _ => [⟨false, [some true], none, .node []⟩])
  let T ← loop ru T0 0
  let mut o := "import Verif.Analysis.Order\n/-! Generated by tools/GenOrder.lean.txt: summaries of the parse functions, checked in Verif.Analysis.OrderCheck. -/\nnamespace Verif.OI.Table\n\n"
  for f in Fn.all do
    o := o ++ s!"/-- Summaries of `{short f}`. -/\ndef {short f} : List Entry := [\n  {String.intercalate ",\n  " ((look T f).map emE)}]\n\n"
  o := o ++ "/-- The table. -/\ndef table : Fn → List Entry\n"
  for f in Fn.all do
    o := o ++ s!"  | .{short f} => {short f}\n"
  o := o ++ "\nend Verif.OI.Table\n"
  if write then IO.FS.writeFile "/verif/lean/Verif/Analysis/OrderTable.lean" o
