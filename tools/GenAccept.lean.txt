import Verif.Analysis.Accept
import Verif.Model.Program
/-! Infers the summaries of lean/Verif/Analysis/AcceptTable.lean from tools/pres.txt (untrusted). -/
open Verif Verif.GI Spec AI

structure Data where
  prods : Array (List (List GSym))
  first : Array Mask
  null : Array Bool
  pres : Array (List (List (Option GV) × List GSym × Mask))
  deriving Inhabited

def ntArr : Array NT := NT.all.toArray
def rdSym (s : String) : GSym := match s.splitOn ":" with
  | ["T", m] => .T m.toNat!
  | ["N", n, m] => .N ntArr[n.toNat!]! m.toNat!
  | _ => panic! s
def rdSyms (s : String) : List GSym := ((s.splitOn " ").filter (· ≠ "")).map rdSym
def rdArg (s : String) : Option GV :=
  if s == "_" then none else if s == "t" then some (.bool true) else if s == "f" then some (.bool false)
  else if s == "MAX" then some (.nat usizeMax) else if s.startsWith "<" then some (.natB ((s.drop 1).toString.toNat!))
  else some (.nat s.toNat!)

def load : IO Data := do
  let sc := (← IO.getEnv "SC").getD "/tmp/scratch"
  let txt ← IO.FS.readFile (sc ++ "/tables.txt")
  let mut d : Data := ⟨Array.replicate ntArr.size [], Array.replicate ntArr.size 0, Array.replicate ntArr.size false, Array.replicate Fn.all.length []⟩
  for l in txt.splitOn "\n" do
    match l.splitOn "\t" with
    | ["F", n, m, b] => d := { d with first := d.first.set! n.toNat! m.toNat!, null := d.null.set! n.toNat! (b == "1") }
    | ["R", n, r] => d := { d with prods := d.prods.modify n.toNat! (· ++ [rdSyms r]) }
    | ["S", f, a, r, c] =>
      match Fn.all.find? fun g => toString (repr g) == "Verif.Fn." ++ f with
      | some g => d := { d with pres := d.pres.modify g.ctorIdx (· ++ [(((a.splitOn " ").filter (· ≠ "")).map rdArg, rdSyms r, c.toNat!)]) }
      | none => throw (IO.userError s!"no function {f}")
    | _ => pure ()
  return d

unsafe def dataU : Data := match unsafeIO load with
  | .ok d => d
  | .error e => panic! (toString e)
@[implemented_by dataU]
opaque data : Data

def pres (f : Fn) : List (List (Option GV) × List GSym × Mask) := data.pres[f.ctorIdx]!

structure Ent where
  f : Fn
  idx : Nat
  args : List (Option GV)
  pre : List GSym
  follow : Mask
  post : List (List GSym)
  err : Option GErr := none
  dirty : Bool := true
  deps : List Nat := []
  time : Nat := 0
  deriving Inhabited

structure Gen where
  ents : Array Ent := #[]
  cur : Nat := 0

def G : Tables := ⟨fun n => data.prods[n.ctorIdx]!, fun n => data.first[n.ctorIdx]!, fun n => data.null[n.ctorIdx]!⟩

def normArg : Option GV → Option GV
  | some (.str _) => none
  | a => a

def argEq (a b : List (Option GV)) : Bool := argsLe a b && argsLe b a

def addPost (p : List GSym) : List (List GSym) → List (List GSym)
  | [] => [p]
  | q :: l => if streamLe G p q then q :: l else match mergeX p q with
    | some u => u :: l
    | none => q :: addPost p l

/-- canonical masks: drop what cannot occur -/
def canon (X : List GSym) : List GSym := X.map fun
  | .T a => .T a
  | .N n a => let b := G.first n &&& a
    .N n (if b == G.first n then ALL else b)

def patArgs : List (Option GV) → List (Option GV) → Bool
  | _, [] => true
  | a, p => argsLe a p

def kwName (i : Nat) : String :=
  if i == IDENT then "ID" else if i == QID then "QID" else if i == NUM then "NUM" else if i == STR then "STR"
  else if i == PAR then "PAR" else if i == EOFC then "EOF" else match Kw.all[i]? with
  | some k => String.ofList k.lit
  | none => s!"?{i}"

def showMask (m : Mask) : String :=
  if m == ALL then "ANY" else
  let l := (List.range 308).filter fun i => m.testBit i
  if l.length > 40 then
    let l' := (List.range 308).filter fun i => !m.testBit i
    if l'.length < 25 then "ANY-{" ++ " ".intercalate (l'.map kwName) ++ "}" else "{" ++ " ".intercalate ((l.take 40).map kwName) ++ "…}"
  else "{" ++ " ".intercalate (l.map kwName) ++ "}"

def showSym : GSym → String
  | .T m => showMask m
  | .N n m => ((toString (repr n)).drop 13).toString ++ (if m == ALL then "" else "/" ++ showMask m)

def showX (X : List GSym) : String := "[" ++ ", ".intercalate (X.map showSym) ++ "]"
def showArg : Option GV → String
  | none => "_" | some (.bool true) => "t" | some (.bool false) => "f"
  | some (.nat n) => if n == usizeMax then "MAX" else toString n
  | some (.natB n) => s!"<{n}"
  | some (.kws ks) => "kws" ++ toString ks.length | some (.str m) => "str" ++ showMask m

def dbg : List Nat := []
def dbgMsg (m : String) : EIO GErr Unit := (IO.eprintln m).adapt (fun _ => GErr.msg "io" [])

unsafe def recCallU (ref : IO.Ref Gen) (f : Fn) (args : List (Option GV)) (X : List GSym) (m : Mask) :
    GI.R (List (List GSym × Mask)) :=
  let args := args.map normArg
  let rec go (n : Nat) (X : List GSym) : EIO GErr (List (List GSym × Mask)) := do
    match n with
    | 0 => throw (.missing f args X m)
    | n + 1 =>
      let mut i := 0
      for (pa, pre, ceil) in pres f do
        if patArgs args pa then
          let args := args.mapIdx fun i a => match pa[i]? with
            | some (some (.natB n)) => some (.natB n)
            | _ => a
          match fold G FUEL pre X with
          | some Y =>
            let unk := noRest m && !nonempty G Y
            let fo := if unk then 0 else firstOf G Y m
            if (if unk then ceil == ALL else Mask.le fo ceil) then
              let g ← ref.get
              let k? := g.ents.findIdx? fun e => e.f.ctorIdx == f.ctorIdx && e.idx == i && argEq e.args args
              match k? with
              | some k =>
                let e := g.ents[k]!
                let fo' := if e.follow == 0 || unk then 0 else e.follow ||| fo
                let ch := fo' != e.follow
                if ch && dbg.contains f.ctorIdx then dbgMsg s!"FOLLOW {repr f} {args.map showArg} {showX pre} from {showX X} + {showMask (fo' ^^^ e.follow)} cur {g.cur}"
                ref.modify fun g => { g with ents := g.ents.modify k fun e =>
                  { e with follow := fo', dirty := e.dirty || ch, deps := if e.deps.contains g.cur then e.deps else g.cur :: e.deps } }
                return e.post.map fun p => (p ++ Y, m)
              | none =>
                if dbg.contains f.ctorIdx then dbgMsg s!"NEW {repr f} {args.map showArg} {showX pre} from {showX X} cur {g.cur}"
                ref.modify fun g => { g with ents := g.ents.push ⟨f, i, args, pre, fo, [], none, true, [g.cur], 0⟩ }
                return []
          | none => pure ()
        i := i + 1
      match X with
      | .N j a :: X' =>
        let mut out := []
        for r in expand G j a do
          out := out ++ (← go n (r ++ X'))
        return out
      | _ => throw (.missing f args X m)
  match unsafeEIO (go 6 X) with
  | .ok l => .ok l
  | .error e => .error e

@[implemented_by recCallU]
opaque recCall (ref : IO.Ref Gen) (f : Fn) (args : List (Option GV)) (X : List GSym) (m : Mask) :
    GI.R (List (List GSym × Mask))

def showErr : GErr → String
  | .msg s X => s!"{s} at {showX X}"
  | .missing f args X m => s!"MISSING {repr f} ({" ".intercalate (args.map showArg)}) {showX X} rest {showMask m}"

def litSym : GSym → String
  | .T m => if m == ALL then ".T ALL" else s!".T {m}"
  | .N n m => s!".N .{((toString (repr n)).drop 14).toString} " ++ (if m == ALL then "ALL" else toString m)
def litX (X : List GSym) : String := "[" ++ ", ".intercalate (X.map litSym) ++ "]"
def litArg : Option GV → String
  | none => "none"
  | some (.bool b) => s!"some (.bool {b})"
  | some (.nat n) => s!"some (.nat {n})"
  | some (.natB n) => s!"some (.natB {n})"
  | some (.kws ks) => "some (.kws [" ++ ", ".intercalate (ks.map fun k => "." ++ ((toString (repr k)).drop 9).toString) ++ "])"
  | some (.str m) => s!"some (.str {m})"

def fnName (f : Fn) : String := ((toString (repr f)).drop 9).toString

unsafe def main (argv : List String) : IO Unit := do
  let ref ← IO.mkRef ({} : Gen)
  -- root
  ref.modify fun g => { g with ents := #[⟨.parse_statement, 2, [some (.bool true)], [.N .Statement ALL], bit EOFC, [], none, true, [], 0⟩,
    ⟨.parse_statement, 1, [some (.bool true)], [.N .Step ALL, .T (bit Kw.sym_semi.ctorIdx)], (G.first .Statement) ||| (G.first .Step) ||| bit EOFC, [], none, true, [], 0⟩,
    ⟨.parse_statement, 0, [some (.bool true)], [.N .PlainStep ALL, .T (bit Kw.sym_semi.ctorIdx)], 0, [], none, true, [], 0⟩] }
  let mut go := true
  let mut steps := 0
  let mut nerr := 0
  while go && nerr < 4 do
    let g ← ref.get
    match (List.range g.ents.size).find? fun i => g.ents[i]!.dirty with
    | none => go := false
    | some i =>
      steps := steps + 1
      let e := g.ents[i]!
      ref.modify fun g => { g with cur := i, ents := g.ents.modify i fun e => { e with dirty := false } }
      let d := Program.defs e.f
      let t0 ← IO.monoMsNow
      let r := exec G (recCall ref) d.body [⟨bindG d.params e.args, e.pre, e.follow⟩]
      match r with
      | .error er =>
        nerr := nerr + 1
        IO.eprintln s!"*** {fnName e.f} ({" ".intercalate (e.args.map showArg)}) pre {showX e.pre} follow {showMask e.follow}\n     {showErr er}"
        ref.modify fun g => { g with ents := g.ents.modify i fun e => { e with err := some er } }
      | .ok o =>
        let mut post := e.post
        for s in o.ret do
          post := addPost (canon s.X) post
        let ch := !(post.length == e.post.length && (post.zip e.post).all fun (a, b) => streamEq a b)
        ref.modify fun g =>
          let g := { g with ents := g.ents.modify i fun e => { e with err := none, post := post } }
          if ch then { g with ents := g.ents.mapIdx fun j x => if e.deps.contains j || (g.ents[i]!).deps.contains j then { x with dirty := true } else x } else g
      let t1 ← IO.monoMsNow
      ref.modify fun g => { g with ents := g.ents.modify i fun e => { e with time := t1 - t0 } }
      if t1 - t0 > 3000 then IO.eprintln s!"{steps}: {fnName e.f} {showX e.pre} {t1 - t0} ms"
  let g ← ref.get
  let errs := g.ents.filter fun e => e.err.isSome
  IO.eprintln s!"{g.ents.size} entries, {steps} steps, {errs.size} errors, {g.ents.foldl (fun a e => a + e.time) 0} ms"
  if argv.contains "-v" then
    for e in g.ents do
      IO.println s!"--- {fnName e.f} ({" ".intercalate (e.args.map showArg)}) pre {showX e.pre} follow {showMask e.follow} time {e.time}"
      for p in e.post do IO.println s!"      post {showX p}"
  if errs.isEmpty then
    let mut s := "import Verif.Analysis.GrammarTable\n/-! Generated by tools/GenAccept.lean.txt: summaries of the functions (checked in Verif.Analysis.AcceptCheck*). -/\nnamespace Verif.GI\nopen AI Spec\n\n"
    for i in [0:g.ents.size] do
      let e := g.ents[i]!
      s := s ++ s!"/-- {fnName e.f} -/\ndef e{i} : Entry where\n  args := [{", ".intercalate (e.args.map litArg)}]\n  pre := {litX e.pre}\n  follow := {e.follow}\n  post := [{",\n    ".intercalate (e.post.map litX)}]\n\n"
    s := s ++ "/-- The summaries of the functions. -/\ndef acceptTab : Fn → List Entry\n"
    let mut seen : List Nat := []
    for e in g.ents do
      if !seen.contains e.f.ctorIdx then
        seen := e.f.ctorIdx :: seen
        let l := (List.range g.ents.size).filter fun i => g.ents[i]!.f.ctorIdx == e.f.ctorIdx
        let l := l.toArray.qsort (fun a b => g.ents[a]!.idx < g.ents[b]!.idx) |>.toList
        s := s ++ s!"  | .{fnName e.f} => [{", ".intercalate (l.map fun i => s!"e{i}")}]\n"
    s := s ++ "  | _ => []\n\nend Verif.GI\n"
    IO.FS.writeFile "Verif/Analysis/AcceptTable.lean" s
    IO.eprintln "written"
