import Verif.Analysis.Domain
open Verif Verif.AI

/-! Roles are inferred together with the summaries.  `Verif.AI.roles` is replaced by a version that reads a
reference (tools/RolesRef.lean.txt); the reference is set here. -/
@[extern "verif_roles_set"] opaque setRoles (t : NodeType) (l : List Role) : BaseIO Unit
@[extern "verif_roles_get"] opaque getRoles (t : NodeType) : BaseIO (List Role)
def ALLT : Mask := 2 ^ 302 - 1
def ALLK : Mask := 2 ^ 300 - 1
def ALLN : Mask := 2 ^ 200 - 1
def interesting : Mask := keysMask [.k_alias, .k_as, .k_comma, .k_order, .k_null_order, .k_semicolon, .k_over]
def popc (m : Nat) : Nat := (List.range 302).foldl (fun n i => if m.testBit i then n + 1 else n) 0
/-- what is written down of a role -/
def coarse (r : Role) : Role :=
  { r with ctys := if popc r.ctys > 14 then ALLN else r.ctys
           ctok := if popc r.ctok > 12 || r.ctok.testBit OTHER || r.ctok.testBit NOTOK then ALLT else r.ctok
           ckeys := ALLK ^^^ (interesting &&& (ALLK ^^^ r.ckeys)) }
/-- a type that is among those of the role but not mentioned has no requirement -/
def subOf (r : Role) (t : Nat) : Option OfType := match r.subs.find? (·.cty == t) with
  | some s => some s
  | none => if r.ctys.testBit t then some ⟨t, 0, ALLT⟩ else none
def joinSubs (r s : Role) : List OfType := NodeType.all.filterMap fun t => match subOf r t.ctorIdx, subOf s t.ctorIdx with
  | some a, some b => some ⟨a.cty, a.must &&& b.must, a.ctok ||| b.ctok⟩
  | some a, none => some a
  | none, b => b
def joinR (r s : Role) : Role := { r with ctys := r.ctys ||| s.ctys, ctok := r.ctok ||| s.ctok, ckeys := r.ckeys ||| s.ckeys, subs := joinSubs r s }
def sameS (a b : List OfType) : Bool := a.length == b.length && (a.zip b).all fun (x, y) => x.cty == y.cty && x.must == y.must && x.ctok == y.ctok
/-- what is written down of the requirements on children of certain types -/
def coarseS (l : List OfType) : List OfType := l.filterMap fun s =>
  let m := s.must &&& (ALLK ^^^ (ALLK &&& needed (NodeType.all[s.cty]!)))
  let t := if s.cty == NodeType.GroupedStatement.ctorIdx || s.cty == NodeType.GroupedExpr.ctorIdx || popc s.ctok > 12 || s.ctok.testBit OTHER || s.ctok.testBit NOTOK || Mask.le (allowT (NodeType.all[s.cty]!)) s.ctok then ALLT else s.ctok
  if m == 0 && t == ALLT then none else some ⟨s.cty, m, t⟩
def sameR (r s : Role) : Bool := r.key == s.key && r.ctys == s.ctys && r.ctok == s.ctok && r.ckeys == s.ckeys && sameS (coarseS r.subs) (coarseS s.subs)
/-- unite groups of parents with the same role -/
def group : List Role → List Role
  | [] => []
  | r :: l => match (group l).partition (sameR r) with
    | (a, b) => { r with ptok := a.foldl (fun m x => m ||| x.ptok) r.ptok, subs := a.foldl (fun m x => joinSubs {r with subs := m} x) r.subs } :: b
/-- let the role of parents with tokens in `lit` include `n` -/
def widenRole (t : NodeType) (lit : Mask) (n : Role) : BaseIO Unit := do
  let l ← getRoles t
  let l := l.flatMap fun r =>
    if r.key != n.key || (r.ptok &&& lit) == 0 then [r]
    else
      let r1 := coarse (joinR { r with ptok := r.ptok &&& lit } n)
      let out := r.ptok ^^^ (r.ptok &&& lit)
      if out == 0 then [r1] else [r1, { r with ptok := out }]
  setRoles t (group l)
def ofAlt (k : Nat) (c : Alt) : Role := ⟨k, ALLT, bit c.ty.ctorIdx, c.lit, c.mN ||| c.mV ||| commentKeys, [⟨c.ty.ctorIdx, c.must, c.lit⟩]⟩
def topRole (k : Nat) : Role := ⟨k, ALLT, ALLN, ALLT, ALLK, []⟩
def initRoles : BaseIO Unit := do
  for t in NodeType.all do
    setRoles t ((Key.all.filter fun k => !commentKeys.has k.ctorIdx).map fun k => ⟨k.ctorIdx, ALLT, 0, 0, ALLK ^^^ interesting, []⟩)

abbrev Tab := Array (List Entry)   -- by ctorIdx
def look (T : Tab) (f : Fn) : List Entry := T.getD f.ctorIdx []
def bottom (f : Fn) : AVal := if f == .parse_n_keywords || f == .parse_exprs then .vec [] false false false else .node []
def closedFns : List Fn := [.parse_between_operator, .parse_binary_operator, .parse_in_operator, .parse_is_distinct_from_operator, .parse_pipe_statement]
def denyT0 : List Fn := [.parse_expr,.parse_exprs,.parse_identifier,.parse_single_or_multi_token_identifier,.parse_type,.parse_table,.parse_n_keywords,.parse_grouped_exprs,.parse_statement,.push_trailing_alias,.parse_grouped_type_declaration_or_constraints,.parse_select_statement]
def keepT0 : List Fn := [.parse_select_statement, .parse_binary_operator]
def keepT1 : List Fn := [.parse_identifier]
def norm (f : Fn) (args : List AVal) (t0 t1 : Mask) : List AVal × Mask × Mask :=
  (args.map fun v => match v with
    | .node as => if closedFns.contains f then .closed else .node as
    | v => v, if denyT0.contains f then TOP else t0, if keepT1.contains f then t1 else TOP)
/-- join into existing entry res -/
def widen (e : Entry) (r : AVal × Mask × Mask) : Option Entry := do
  let v ← joinVal true e.res r.1
  some { e with res := v, p0 := e.p0 ||| r.2.1, p1 := e.p1 ||| r.2.2 }

partial def loop (T : Tab) (n : Nat) : IO Tab := do
  let mut T := T
  let mut changed := false
  let mut unc : List Alt := []
  let mut errs : Array String := #[]
  for f in Fn.all do
    let es := look T f
    let mut i := 0
    for e in es do
      let mut again := true
      while again do
        again := false
        match runEntry (look T) Program.defs f e with
        | .error (.missing g used args t0 t1) =>
          if closedFns.contains g then
            for v in args do match v with
              | .node as => unc := unc ++ as
              | _ => pure ()
          let (args, t0, t1) := norm g args t0 t1
          let entry : Entry := ⟨used, args, t0, t1, bottom g, 0, 0⟩
          -- subsumed?
          if (look T g).any (fun e => used == e.used && argsLe args e.args && t0.le e.t0 && t1.le e.t1) then
            errs := errs.push s!"{reprStr f}: normalisation of {reprStr g} {reprStr args} failed"
          else
            T := T.modify g.ctorIdx (· ++ [entry])
            changed := true; again := true
        | .error (.unclosed as) =>
          unc := unc ++ as
        | .error (.badChild k as v) =>
          for a in as do
            let rs ← getRoles a.ty
            if !(match v with
              | .node cs => rs.all fun r => !r.applies k.ctorIdx a.lit || cs.all r.fits
              | _ => rs.all fun r => !r.applies k.ctorIdx a.lit) then
              again := true; changed := true
              match v with
              | .node cs => for c in cs do widenRole a.ty a.lit (ofAlt k.ctorIdx c)
              | _ => do
                widenRole a.ty a.lit (topRole k.ctorIdx)
                setRoles a.ty ((← getRoles a.ty).filter fun r => !sameR r (topRole r.key))
            match lookupRestr k.ctorIdx (restr a.ty) with
            | none => pure ()
            | some m => match v with
              | .node cs => for c in cs do if !m.has c.ty.ctorIdx then
                  (← IO.getStdout).putStr (s!"CHILD {reprStr a.ty} {reprStr k} {reprStr c.ty}" ++ "\n")
                  (← IO.getStdout).putStr (s!"EXC {reprStr a.ty} {reprStr k} child" ++ "\n")
              | _ => (← IO.getStdout).putStr (s!"EXC {reprStr a.ty} {reprStr k} child" ++ "\n")
        | .error (.badType nt as) =>
          for b in as do
            for r in ← getRoles nt do
              if (b.mN ||| b.mV).has r.key && r.applies r.key b.lit && !(Mask.le (r.ptok &&& b.lit) (r.covered (← getRoles b.ty))) then
                again := true; changed := true
                let olds := (← getRoles b.ty).filter fun r' => r'.applies r.key (b.lit &&& r.ptok)
                if !(Mask.le (b.lit &&& r.ptok) (olds.foldl (fun m r' => m ||| r'.ptok) 0)) then
                  widenRole nt (b.lit &&& r.ptok) (topRole r.key)
                  setRoles nt ((← getRoles nt).filter fun r => !sameR r (topRole r.key))
                else for r' in olds do widenRole nt (b.lit &&& r'.ptok) { r' with ptok := ALLT }
            if b.dirtyMay then errs := errs.push s!"dirty setType in {reprStr f}"
            for p in restr nt do
              if (b.mN ||| b.mV).has p.1 && !(match lookupRestr p.1 (restr b.ty) with
    | none => false
    | some m => m.le p.2) then (← IO.getStdout).putStr (s!"EXC {reprStr nt} {reprStr (Key.all[p.1]!)} child" ++ "\n")
        | .error (.msg s) => errs := errs.push s!"{reprStr f}: {s} [args {reprStr e.args}]"
        | .ok o =>
          if !(o.norm.isEmpty && o.brk.isEmpty) then errs := errs.push s!"{reprStr f}: falls off"
          for r in o.ret do
            let e := (look T f)[i]!
            if !(r.1.le e.res && r.2.1.le e.p0 && r.2.2.le e.p1) then
              match widen e r with
              | some e' =>
                T := T.modify f.ctorIdx (·.set i e')
                changed := true
              | none => errs := errs.push s!"{reprStr f}: cannot widen"
      i := i + 1
  (← IO.getStdout).putStr (s!"round {n}: changed {changed}, errors {errs.size}, entries {T.foldl (fun n l => n + l.length) 0}" ++ "\n")
  if changed && n < 40 then loop T (n+1) else
    for e in look T .parse_statement do match e.res with
      | .node as => unc := unc ++ as
      | _ => pure ()
    for a in unc do
      for k in Key.all do
        if a.mN.testBit k.ctorIdx && !(allowN a.ty).testBit k.ctorIdx then (← IO.getStdout).putStr (s!"EXC {reprStr a.ty} {reprStr k} node" ++ "\n")
        if a.mV.testBit k.ctorIdx && !(allowV a.ty).testBit k.ctorIdx then (← IO.getStdout).putStr (s!"EXC {reprStr a.ty} {reprStr k} vec" ++ "\n")
        if !a.must.testBit k.ctorIdx && (needed a.ty).testBit k.ctorIdx then (← IO.getStdout).putStr (s!"EXC {reprStr a.ty} {reprStr k} missing" ++ "\n")
      if a.lit.testBit NOTOK && a.ty != .TypeDeclaration then (← IO.getStdout).putStr (s!"NOTOK {reprStr a.ty}" ++ "\n")
    for e in errs do (← IO.getStdout).putStr ((e.take 1500).toString ++ "\n")
    return T

def lst (l : List String) : String := "[" ++ String.intercalate ", " l ++ "]"
def hexm (m : Nat) : String := toString m
def kwsOf (m : Nat) : String := String.intercalate "," ((Kw.all.filter (fun k => m.testBit k.ctorIdx)).map (fun k => (reprStr k).drop 9 |>.toString) ++ (if m.testBit 300 then ["OTHER"] else []) ++ (if m.testBit 301 then ["NOTOK"] else []))
def showM (m : Nat) : String := if m == TOP then "TOP" else if (TOP ^^^ m) < m then s!"~[{kwsOf (TOP ^^^ m)}]" else s!"[{kwsOf m}]"
def keysOf (m : Nat) : String := String.intercalate "," ((Key.all.filter (fun k => m.testBit k.ctorIdx)).map (fun k => (reprStr k).drop 12 |>.toString))
def showAlt (a : Alt) : String := s!"{(reprStr a.ty).drop 15} N[{keysOf a.mN}] V[{keysOf a.mV}] must[{keysOf a.must}] lit {showM a.lit}"
def showV : AVal → String
  | .node as => "node{" ++ String.intercalate "; " (as.map showAlt) ++ "}"
  | .closed => "closed"
  | .vec as z o m => s!"vec {z} {o} {m} " ++ "{" ++ String.intercalate "; " (as.map showAlt) ++ "}"
  | .bool b => s!"bool {b}"
  | .nat => "nat" | .str => "str" | .kws => "kws"


def emM (m : Nat) : String := if m == TOP then "TOP" else toString m
def emAlt (a : Alt) : String := s!"⟨.{(reprStr a.ty).drop 15}, {a.mN}, {a.mV}, {a.must}, {emM a.lit}⟩"
def emAlts (as : List Alt) : String := "[" ++ String.intercalate ",\n      " (as.map emAlt) ++ "]"
def emV : AVal → String
  | .node as => ".node " ++ emAlts as
  | .closed => ".closed"
  | .vec as z o m => s!".vec {emAlts as} {z} {o} {m}"
  | .bool none => ".bool none"
  | .bool (some b) => s!".bool (some {b})"
  | .nat => ".nat" | .str => ".str" | .kws => ".kws"
def emE (e : Entry) : String := s!"⟨{e.used}, [{String.intercalate ", " (e.args.map emV)}], {emM e.t0}, {emM e.t1},\n    {emV e.res},\n    {emM e.p0}, {emM e.p1}⟩"
def short (f : Fn) : String := ((reprStr f).drop 9).toString
def kwl (m : Nat) : String := lst ((Kw.all.filter (fun k => m.testBit k.ctorIdx)).map fun k => s!".{(reprStr k).drop 9}")
def emRoles : IO Unit := do
  let mut s := "import Verif.Spec.Role\n/-! Generated by tools/GenTable.lean.txt: the roles of children. -/\nnamespace Verif.Spec\n\n"
  let mut o := "import Verif.Analysis.RoleBase\n/-! Generated by tools/GenTable.lean.txt: the table of Verif.Spec.Roles as bit masks (checked in\nVerif.Proofs.RoleMasks). -/\nnamespace Verif.AI\n\n/-- The roles of the children of each type of nodes. -/\n@[noinline] def roles : NodeType → List Role\n"
  let mut all : List (NodeType × List (Role × String)) := []
  let mut tops : List Nat := []
  for t in NodeType.all do
    let full ← getRoles t
    for k in Key.all do
      if !commentKeys.has k.ctorIdx && (full.foldl (fun m r => if r.key == k.ctorIdx then m ||| r.ptok else m) 0) != ALLT then tops := k.ctorIdx :: tops
    let mut out : List (Role × String) := []
    for r in full.filter fun r => r.ctys != 0 && !sameR r (topRole r.key) do
      -- tokens of parents that have no such children, and tokens of parents whose children have another role
      let none' := full.foldl (fun m r' => if r'.key == r.key && r'.ctys == 0 then m ||| r'.ptok else m) 0
      let rest := ALLT ^^^ (r.ptok ||| none')
      let listed (m : Mask) : Bool := popc m ≤ 60 && !m.testBit OTHER && !m.testBit NOTOK
      let (par, pt) : Option (List String) × Mask :=
        if rest == 0 then (some [], ALLT)
        else if listed r.ptok then (some [s!"parent := some {kwl r.ptok}"], r.ptok)
        else if listed rest then (some [s!"notParent := {kwl rest}"], ALLT ^^^ rest)
        else (none, 0)
      match par with
      | none => (← IO.getStdout).putStr s!"lost role {reprStr t} {reprStr (Key.all[r.key]!)}\n"
      | some p =>
        let types := NodeType.all.filter fun x => r.ctys.testBit x.ctorIdx
        -- keys that the types do not have at all need not be mentioned
        let has := types.foldl (fun m x => m ||| allowN x ||| allowV x) 0
        let without := interesting &&& has &&& (ALLK ^^^ (r.ckeys &&& ALLK))
        let r := { r with ptok := pt, ckeys := ALLK ^^^ without, subs := coarseS r.subs }
        let each := r.subs.filterMap fun x =>
          let t := if Mask.le r.ctok x.ctok then ALLT else x.ctok
          if x.must == 0 && t == ALLT then none else
          let nm := (reprStr (NodeType.all[x.cty]!)).drop 15
          let hs := Key.all.filter fun k => x.must.testBit k.ctorIdx
          some ("{ " ++ String.intercalate ", " ([s!"type := .{nm}"] ++
            (if hs.isEmpty then [] else [s!"has := {lst (hs.map fun k => s!".{(reprStr k).drop 10}")}"]) ++
            (if t == ALLT then [] else [s!"tokens := some {kwl t}"])) ++ " }")
        let fields := [s!"key := .{(reprStr (Key.all[r.key]!)).drop 10}"] ++ p
          ++ (if r.ctys == ALLN then [] else [s!"types := some {lst (types.map fun x => s!".{(reprStr x).drop 15}")}"])
          ++ (if r.ctok == ALLT then [] else [s!"tokens := some {kwl r.ctok}"])
          ++ (let w := Key.all.filter fun k => without.testBit k.ctorIdx
              if w.isEmpty then [] else [s!"without := {lst (w.map fun k => s!".{(reprStr k).drop 10}")}"])
          ++ (if each.isEmpty then [] else [s!"each := {lst each}"])
        if !sameR r (topRole r.key) then out := out ++ [(r, "{ " ++ String.intercalate ", " fields ++ " }")]
    -- declared children that never occur
    for k in Key.all do
      if !commentKeys.has k.ctorIdx && (allowN t ||| allowV t).testBit k.ctorIdx &&
          (full.any fun r => r.key == k.ctorIdx && r.ctys == 0 && r.ptok == ALLT) then
        out := out ++ [(⟨k.ctorIdx, ALLT, 0, 0, ALLK ^^^ interesting, []⟩, "{ key := ." ++ ((reprStr k).drop 10).toString ++ ", types := some [] }")]
    all := all ++ [(t, out)]
  -- roles that do not depend on the type of the parent
  let flat := (all.flatMap fun (_, l) => l).filter fun x => x.1.ctys != 0
  let mut every : List String := []
  for k in Key.all do
    let l := flat.filter fun x => x.1.key == k.ctorIdx
    if !tops.contains k.ctorIdx && l.length ≥ 3 && (l.all fun x => x.2 == l.head!.2) && l.head!.1.ptok == ALLT then every := every ++ [l.head!.2]
  s := s ++ "/-- Roles that do not depend on the type of the parent. -/\ndef everywhere : List Role := [\n  " ++ String.intercalate ",\n  " every ++ "]\n\n/-- The other roles of the children of each type of nodes. -/\ndef roles : NodeType → List Role\n"
  let mut count := every.length
  for (t, out) in all do
    if !out.isEmpty then
      o := o ++ s!"  | .{(reprStr t).drop 15} => [\n    {String.intercalate ",\n    " (out.map fun (r, _) => s!"⟨{r.key}, {r.ptok}, {r.ctys}, {r.ctok}, {r.ckeys}, {lst (r.subs.map fun s => s!"⟨{s.cty}, {s.must}, {s.ctok}⟩")}⟩")}]\n"
    let out := out.filter fun x => !every.contains x.2
    count := count + out.length
    if !out.isEmpty then
      s := s ++ s!"  | .{(reprStr t).drop 15} => [\n    {String.intercalate ",\n    " (out.map (·.2))}]\n"
  IO.FS.writeFile "/verif/lean/Verif/Spec/Roles.lean" (s ++ "  | _ => []\n\nend Verif.Spec\n")
  IO.FS.writeFile "/verif/lean/Verif/Analysis/Roles.lean" (o ++ "  | _ => []\n\nend Verif.AI\n")
  (← IO.getStdout).putStr s!"{count} roles\n"
def main : IO Unit := do
  let T0 : Tab := (List.replicate (Fn.all.length) []).toArray
  let T0 := T0.modify Fn.parse_statement.ctorIdx (fun _ => [⟨false, [.bool (some true)], TOP, TOP, .node [], 0, 0⟩])
  let m := kwMask [.sym_lparen, .SELECT, .sym_pipe]
  let T0 := T0.modify Fn.parse_select_statement.ctorIdx (fun _ => [⟨false, [.bool (some true), .bool (some true)], m, TOP, .node [], 0, 0⟩, ⟨false, [.bool (some false), .bool (some true)], m, TOP, .node [], 0, 0⟩, ⟨false, [.bool (some false), .bool (some false)], kwMask [.sym_lparen], TOP, .node [], 0, 0⟩])
  let T0 := T0.modify Fn.parse_identifier.ctorIdx (fun _ => [⟨false, [], TOP, kwMask [.sym_comma], .node [], 0, 0⟩])
  let T0 := T0.modify Fn.parse_single_or_multi_token_identifier.ctorIdx (fun _ => [⟨false, [], TOP, kwMask [.sym_comma], .node [], 0, 0⟩])
  let T0 := T0.modify Fn.parse_expr.ctorIdx (fun _ => [⟨false, [.nat, .bool (some false), .bool (some false), .bool (some false), .bool (some true)], kwMask [.UNNEST], TOP, .node [], 0, 0⟩, ⟨false, [.nat, .bool (some false), .bool (some false), .bool (some false), .bool (some true)], TOP ^^^ kwMask [.sym_lparen], TOP, .node [], 0, 0⟩])
  initRoles
  let T ← loop T0 0
  let mut s := ""
  for f in Fn.all do
    for e in look T f do
      s := s ++ s!"{reprStr f} {e.used} args {lst (e.args.map showV)} t0 {showM e.t0} t1 {showM e.t1}\n    res {showV e.res}\n    p0 {showM e.p0} p1 {showM e.p1}\n"
  IO.FS.writeFile "/tmp/table.txt" s
  let mut o := "import Verif.Analysis.Domain\n/-! Generated by tools/GenTable.lean.txt: summaries of the parse functions, checked in Verif.Analysis.Check. -/\nnamespace Verif.AI.Table\n\n"
  for f in Fn.all do
    o := o ++ s!"/-- Summaries of `{short f}`. -/\ndef {short f} : List Entry := [\n  {String.intercalate ",\n  " ((look T f).map emE)}]\n\n"
  o := o ++ "/-- The table. -/\ndef table : Fn → List Entry\n"
  for f in Fn.all do
    o := o ++ s!"  | .{short f} => {short f}\n"
  o := o ++ "\nend Verif.AI.Table\n"
  IO.FS.writeFile "/verif/lean/Verif/Analysis/Table.lean" o
  emRoles
