import Verif.Analysis.Domain
/-!
A third abstract interpreter for the command language: the order of tokens.  A state is a sequence of
segments in source order; each segment belongs to a variable and stands for some of the slots (token,
comments, children) of the node in it.  When a node is put under another one its only segment becomes a
slot of that node.  Neighbouring segments of the same node are merged, and the order of their slots is
checked against a table.  The analysis is not trusted: its soundness is proved in Verif.Proofs.Order*, and
its verdict is computed by the kernel.
-/
namespace Verif.OI
open AI (Mask bit tyEq kbit keysMask)

/-- The slot of the token, beside those of the keys. -/
def SELF : Nat := 255

/-- What is known about the slots of a segment: for each possible type of the node, the slots. -/
abbrev Alts := List (NodeType × Mask)

/-- What a segment holds. -/
inductive Desc
  /-- a whole node of unknown type -/
  | any
  /-- slots of a node -/
  | node (as : Alts)
  /-- the elements of a vector; `one`: there is exactly one; `as`: their types and slots, if known -/
  | vec (one : Bool) (as : Option Alts)
  deriving Repr, Inhabited

/-- A segment. -/
structure Seg where
  own : Var
  d : Desc
  deriving Repr, Inhabited

/-- Has the current token been put into a node? -/
inductive Cov
  | unc
  | cov
  | fresh (x : Var)
  deriving Repr, Inhabited

/-- States: segments from the argument of the function, segments from the tokens read, variables without
segments (empty vectors, and nodes of the given type without token and children). -/
structure OState where
  cov : Cov
  lw : List Seg
  rw : List Seg
  em : List (Var × Option NodeType)
  deriving Repr, Inhabited

/-- A variable that stands for the value of an expression. -/
def TMP : Var := 1000
/-- A variable that stands for the rest of a vector that is being taken apart. -/
def REST : Var := 1001

/-- Is it a variable of the program? -/
def low (x : Var) : Bool := Nat.blt x 1000

/-- Result of a function: the slots from its argument and those from the tokens read, by type. -/
inductive Res
  | node (as : List (NodeType × Mask × Mask))
  | vec (as : Option Alts)
  deriving Repr, Inhabited

/-- A summary.  `bools`: what is known about the arguments.  The (first) argument may be a node; if the
Boolean of `arg` is true, its segment is the last one. -/
structure Entry where
  used : Bool
  bools : List (Option Bool)
  arg : Option (Bool × Desc)
  res : Res
  deriving Repr, Inhabited

/-- Reasons to reject. -/
inductive Err
  | msg (s : String)
  | order (ty : NodeType) (a b : Mask)
  | missing (f : Fn) (used : Bool) (bools : List (Option Bool)) (arg : Option (Bool × Desc))
  deriving Repr, Inhabited

/-- Results of the analysis. -/
abbrev R := Except Err

/-- Reject. -/
def bad {α : Type} (s : String) : R α := .error (.msg s)

/-- For a node type: slots with the slots that come later. -/
abbrev Rules := NodeType → List (Nat × Mask)

/-- May slots `m` come before slots `m'`? -/
def crossOk (ru : Rules) (ty : NodeType) (m m' : Mask) : Bool :=
  (ru ty).all fun p => !m'.has p.1 || Nat.beq (p.2 &&& m) 0

/-- The slots that must come later than a slot. -/
def laterOf (b : Nat) : List (Nat × Mask) → Mask
  | [] => 0
  | p :: r => if Nat.beq p.1 b then p.2 else laterOf b r

/-- Are slots `m` in order for type `nt` if they are for type `ty`? -/
def convOk (ru : Rules) (ty nt : NodeType) (m : Mask) : Bool :=
  (ru nt).all fun p => !m.has p.1 || Mask.le (p.2 &&& m) (laterOf p.1 (ru ty))

/-! ### Alternatives -/

/-- The slots for a type. -/
def slotsOf (ty : NodeType) : Alts → Option Mask
  | [] => none
  | (t, m) :: r => if tyEq t ty then some m else slotsOf ty r

/-- Inclusion. -/
def altsLe (as bs : Alts) : Bool := as.all fun p => match slotsOf p.1 bs with
  | none => false
  | some m => p.2.le m

/-- Add slots. -/
def addAlt (ty : NodeType) (m : Mask) : Alts → Alts
  | [] => [(ty, m)]
  | (t, m') :: r => if tyEq t ty then (t, m' ||| m) :: r else (t, m') :: addAlt ty m r

/-- Join. -/
def joinAlts (as bs : Alts) : Alts := bs.foldl (fun acc p => addAlt p.1 p.2 acc) as

/-- Inclusion. -/
def Desc.le : Desc → Desc → Bool
  | .any, .any => true
  | .node _, .any => true
  | .node as, .node bs => altsLe as bs
  | .vec o _, .vec o' none => !o' || o
  | .vec o (some as), .vec o' (some bs) => (!o' || o) && altsLe as bs
  | _, _ => false

/-- Join. -/
def joinDesc : Desc → Desc → Option Desc
  | .any, .any => some .any
  | .any, .node _ => some .any
  | .node _, .any => some .any
  | .node as, .node bs => some (.node (joinAlts as bs))
  | .vec o (some as), .vec o' (some bs) => some (.vec (o && o') (some (joinAlts as bs)))
  | .vec o _, .vec o' _ => some (.vec (o && o') none)
  | _, _ => none

/-! ### Inclusion and joins of states -/

/-- Number of segments of a variable. -/
def count (x : Var) : List Seg → Nat
  | [] => 0
  | g :: r => if Nat.beq g.own x then count x r + 1 else count x r

/-- Inclusion of segments of a variable with `n` segments. -/
def segLe (n : Nat) (d e : Desc) : Bool :=
  d.le e && match d, e with
  | .node _, .any => Nat.beq n 1
  | _, _ => true

/-- Inclusion of words; `all`: all segments on the left. -/
def wordLe (all : List Seg) : List Seg → List Seg → Bool
  | [], [] => true
  | a :: r, b :: r' => Nat.beq a.own b.own && segLe (count a.own all) a.d b.d && wordLe all r r'
  | _, _ => false

/-- Join of words. -/
def joinWord : List Seg → List Seg → Option (List Seg)
  | [], [] => some []
  | a :: r, b :: r' =>
    if Nat.beq a.own b.own then
      match joinDesc a.d b.d with
      | none => none
      | some d => match joinWord r r' with
        | none => none
        | some l => some (⟨a.own, d⟩ :: l)
    else none
  | _, _ => none

/-- Equality of empty variables. -/
def emEq : List (Var × Option NodeType) → List (Var × Option NodeType) → Bool
  | [], [] => true
  | (x, t) :: r, (y, u) :: r' => Nat.beq x y && (match t, u with
    | none, none => true
    | some t, some u => tyEq t u
    | _, _ => false) && emEq r r'
  | _, _ => false

/-- Inclusion of coverage. -/
def Cov.le : Cov → Cov → Bool
  | .unc, .unc => true
  | .cov, .cov => true
  | .fresh _, .cov => true
  | .fresh x, .fresh y => Nat.beq x y
  | _, _ => false

/-- Inclusion of states. -/
def OState.le (a b : OState) : Bool :=
  a.cov.le b.cov && wordLe (a.lw ++ a.rw) a.lw b.lw && wordLe (a.lw ++ a.rw) a.rw b.rw && emEq a.em b.em

/-- Join of states. -/
def joinState (a b : OState) : Option OState :=
  let c : Option Cov := match a.cov, b.cov with
    | .unc, .unc => some .unc
    | .unc, _ => none
    | _, .unc => none
    | .fresh x, .fresh y => some (if Nat.beq x y then .fresh x else .cov)
    | _, _ => some .cov
  match c with
  | none => none
  | some c => match joinWord a.lw b.lw with
    | none => none
    | some l => match joinWord a.rw b.rw with
      | none => none
      | some r => if emEq a.em b.em then some ⟨c, l, r, a.em⟩ else none

/-- Insert a state. -/
def insertState (s : OState) : List OState → List OState
  | [] => [s]
  | a :: r => match joinState a s with
    | some j => j :: r
    | none => a :: insertState s r

/-- Shorten a list of states. -/
def merge (l : List OState) : R (List OState) :=
  match l with
  | [] => .ok []
  | [s] => .ok [s]
  | _ =>
    let m := l.foldl (fun acc s => insertState s acc) []
    if l.all fun s => m.any fun t => s.le t then .ok m else bad "merge"

/-! ### Segments -/

/-- Remove the segments of a variable. -/
def without (x : Var) : List Seg → List Seg
  | [] => []
  | g :: r => if Nat.beq g.own x then without x r else g :: without x r

/-- Remove an empty variable. -/
def emWithout (x : Var) : List (Var × Option NodeType) → List (Var × Option NodeType)
  | [] => []
  | p :: r => if Nat.beq p.1 x then emWithout x r else p :: emWithout x r

/-- The first segment of a variable. -/
def find (x : Var) : List Seg → Option Desc
  | [] => none
  | g :: r => if Nat.beq g.own x then some g.d else find x r

/-- Forget a variable. -/
def dropVar (x : Var) (a : OState) : OState :=
  ⟨a.cov, without x a.lw, without x a.rw, emWithout x a.em⟩

/-- Rename a variable in a word. -/
def rename (x y : Var) : List Seg → List Seg
  | [] => []
  | g :: r => (if Nat.beq g.own x then ⟨y, g.d⟩ else g) :: rename x y r

/-- Rename an empty variable. -/
def emRename (x y : Var) : List (Var × Option NodeType) → List (Var × Option NodeType)
  | [] => []
  | p :: r => (if Nat.beq p.1 x then (y, p.2) else p) :: emRename x y r

/-- `y = x`, where `x` is moved. -/
def renameVar (x y : Var) (a : OState) : OState :=
  if Nat.beq x y then a
  else
    let a := dropVar y a
    ⟨match a.cov with
      | .fresh z => if Nat.beq z x then .fresh y else if Nat.beq z y then .cov else .fresh z
      | c => c, rename x y a.lw, rename x y a.rw, emRename x y a.em⟩

/-- Replace the segments of a variable. -/
def replaceSeg (x : Var) (g : Seg) : List Seg → List Seg
  | [] => []
  | h :: r => (if Nat.beq h.own x then g else h) :: replaceSeg x g r

/-- Union of the slots of two segments of one node, the first before the second. -/
def mergeAlts (ru : Rules) : Alts → Alts → R Alts
  | [], _ => .ok []
  | (t, m) :: r, bs => match slotsOf t bs with
    | none => bad "types of segments"
    | some m' => if crossOk ru t m m' then
        match mergeAlts ru r bs with
        | .error e => .error e
        | .ok l => .ok ((t, m ||| m') :: l)
      else .error (.order t m m')

/-- Merge neighbouring segments of the same node. -/
def compact (ru : Rules) : List Seg → R (List Seg)
  | [] => .ok []
  | g :: r => match compact ru r with
    | .error e => .error e
    | .ok [] => .ok [g]
    | .ok (h :: r') => if Nat.beq g.own h.own then
        match g.d, h.d with
        | .node as, .node bs => match mergeAlts ru as bs with
          | .error e => .error e
          | .ok l => .ok (⟨g.own, .node l⟩ :: r')
        | _, _ => .ok (g :: h :: r')
      else .ok (g :: h :: r')

/-- The same type, other slots. -/
def withSlots (m : Mask) : Alts → Alts
  | [] => []
  | (t, _) :: r => (t, m) :: withSlots m r

/-- Without some slots. -/
def clearAlts (k : Mask) : Alts → Alts
  | [] => []
  | (t, m) :: r => (t, (m ||| k) ^^^ k) :: clearAlts k r

/-- The slots are removed from a node. -/
def clearSlot (x : Var) (k : Mask) : List Seg → List Seg
  | [] => []
  | g :: r => (if Nat.beq g.own x then match g.d with
      | .node as => ⟨x, .node (clearAlts k as)⟩
      | d => ⟨x, d⟩
    else g) :: clearSlot x k r

/-- An empty variable. -/
def emFind (x : Var) : List (Var × Option NodeType) → Option (Option NodeType)
  | [] => none
  | p :: r => if Nat.beq p.1 x then some p.2 else emFind x r

/-- The types of the node in a variable. -/
def typesOf (x : Var) (a : OState) : Option Alts :=
  match find x a.lw with
  | some (.node as) => some as
  | some _ => none
  | none => match find x a.rw with
    | some (.node as) => some as
    | some _ => none
    | none => match emFind x a.em with
      | some (some t) => some [(t, 0)]
      | _ => none

/-- After the current token has been put into a node that may have changed. -/
def Cov.commit : Cov → Cov
  | .fresh _ => .cov
  | c => c

/-- `push_node(k, TMP)` / `push_node_vec(k, TMP)`. -/
def apush (ru : Rules) (x : Var) (k : Key) (isVec : Bool) (a : OState) : R OState :=
  if !low x then bad "push" else
  match typesOf x a with
  | none => bad "push to unknown node"
  | some ts =>
    let g : Seg := ⟨x, .node (withSlots (kbit k) ts)⟩
    let lw := clearSlot x (kbit k) a.lw
    let rw := clearSlot x (kbit k) a.rw
    let done (l r : List Seg) : R OState := match compact ru l with
      | .error e => .error e
      | .ok l => match compact ru r with
        | .error e => .error e
        | .ok r => .ok ⟨a.cov.commit, l, r, emWithout x (emWithout TMP a.em)⟩
    let c := count TMP a.lw + count TMP a.rw
    if Nat.beq c 1 then
      match find TMP lw, find TMP rw with
      | some (.vec ..), _ => if isVec then done (replaceSeg TMP g lw) rw else bad "push of a vector"
      | some _, _ => if isVec then bad "push of a node" else done (replaceSeg TMP g lw) rw
      | none, some (.vec ..) => if isVec then done lw (replaceSeg TMP g rw) else bad "push of a vector"
      | none, some _ => if isVec then bad "push of a node" else done lw (replaceSeg TMP g rw)
      | none, none => bad "push"
    else if Nat.beq c 0 && isVec then
      match emFind TMP a.em with
      | some none => match emFind x a.em with
        | none => .ok ⟨a.cov.commit, lw, rw, emWithout TMP a.em⟩
        | some _ => bad "empty vector in empty node"
      | _ => bad "push"
    else bad "push of a node in pieces"

/-- The types of the elements after one more. -/
def joinElems (as : Option Alts) (d : Desc) : Option Alts :=
  match as, d with
  | some as, .node bs =>
    let j := joinAlts as bs
    if altsLe as j && altsLe bs j then some j else none
  | _, _ => none

/-- What is known about a vector with a single element. -/
def elemAlts : Desc → Option Alts
  | .node as => some as
  | _ => none

/-- The segment of a variable that has one. -/
def firstAlts : Option Desc → Option Desc → Option Alts
  | some d, _ => elemAlts d
  | none, some d => elemAlts d
  | none, none => none

/-- An element of a vector. -/
def elemDesc : Option Alts → Desc
  | some as => .node as
  | none => .any

/-- Merge the segment of TMP into the segment of the vector before it. -/
def absorb (x : Var) : List Seg → R (List Seg)
  | g :: h :: r =>
    if Nat.beq g.own x && Nat.beq h.own TMP then
      match g.d with
      | .vec _ as => .ok (⟨x, .vec false (joinElems as h.d)⟩ :: r)
      | _ => bad "append to no vector"
    else match absorb x (h :: r) with
      | .error e => .error e
      | .ok l => .ok (g :: l)
  | _ => bad "append of a distant node"

/-- `x.push(TMP)` on a vector. -/
def aappend (x : Var) (a : OState) : R OState :=
  if !low x then bad "append" else
  let c := count TMP a.lw + count TMP a.rw
  if Nat.beq c 1 then
    match emFind x a.em with
    | some none =>
      if !Nat.beq (count x a.lw + count x a.rw) 0 then bad "append to an empty vector" else
      let as : Option Alts := firstAlts (find TMP a.lw) (find TMP a.rw)
      .ok ⟨a.cov.commit, replaceSeg TMP ⟨x, .vec true as⟩ a.lw, replaceSeg TMP ⟨x, .vec true as⟩ a.rw, emWithout x a.em⟩
    | some (some _) => bad "append to a node"
    | none =>
      if Nat.beq (count x a.lw + count x a.rw) 1 then
        if Nat.beq (count x a.lw) 1 then
          match absorb x a.lw with
          | .error e => .error e
          | .ok l => .ok ⟨a.cov.commit, l, a.rw, a.em⟩
        else match absorb x a.rw with
          | .error e => .error e
          | .ok r => .ok ⟨a.cov.commit, a.lw, r, a.em⟩
      else bad "append to a vector in pieces"
  else bad "append of a node in pieces"

/-- Split off the last element of a vector. -/
def split (x : Var) (y : Var) : List Seg → List Seg
  | [] => []
  | g :: r => if Nat.beq g.own x then
      match g.d with
      | .vec _ as => ⟨x, .vec false as⟩ :: ⟨y, elemDesc as⟩ :: r
      | _ => g :: ⟨y, .any⟩ :: r
    else g :: split x y r

/-- Types for `construct_node(Unknown)` (src/parser.rs 60-79). -/
def unknownTypes : List NodeType := [.Identifier, .NumericLiteral, .StringLiteral, .BooleanLiteral, .Parameter,
  .Template, .NullLiteral, .Unknown]

/-- The slots of a token. -/
def tokenSlots : Mask := bit SELF ||| keysMask [.k_leading_comments, .k_trailing_comments]

/-- All with the same slots. -/
def allWith (m : Mask) : List NodeType → Alts
  | [] => []
  | t :: r => (t, m) :: allWith m r

/-- Make the current token available. -/
def uncover (a : OState) : R OState :=
  match a.cov with
  | .unc => .ok a
  | .cov => bad "token used twice"
  | .fresh x =>
    if Nat.beq (count x a.lw) 0 then
      .ok { dropVar x a with cov := .unc }
    else bad "fresh"

/-- Are the slots of a token in order? -/
def tokenOk (ru : Rules) : List NodeType → Bool
  | [] => true
  | t :: r => crossOk ru t (kbit .k_leading_comments) (bit SELF ||| kbit .k_trailing_comments) &&
    crossOk ru t (bit SELF) (kbit .k_trailing_comments) && tokenOk ru r

/-- `construct_node`. -/
def aconstruct (ru : Rules) (nt : NodeType) (a : OState) : R OState :=
  if tyEq nt .EOF then bad "EOF" else
  match uncover a with
  | .error e => .error e
  | .ok a =>
    let a := dropVar TMP a
    let ts := if tyEq nt .Unknown then unknownTypes else [nt]
    if tokenOk ru ts then
      .ok ⟨.fresh TMP, a.lw, a.rw ++ [⟨TMP, .node (allWith tokenSlots ts)⟩], a.em⟩
    else bad "order of comments"

/-- The node argument. -/
def nodeArg (a : OState) : List Atom → Option Var
  | .var x :: _ => if !low x || Nat.beq (count x a.lw + count x a.rw) 0 then none else some x
  | _ => none

/-- Values of the Boolean parameters of a function; they are not assigned to. -/
abbrev Bools := List (Var × Bool)

/-- The value of a Boolean parameter. -/
def boolOf (x : Var) : Bools → Option Bool
  | [] => none
  | p :: r => if Nat.beq p.1 x then some p.2 else boolOf x r

/-- What is known about the arguments of a call. -/
def boolArgs (B : Bools) : List Atom → List (Option Bool)
  | [] => []
  | .bool b :: r => some b :: boolArgs B r
  | .var x :: r => boolOf x B :: boolArgs B r
  | .notVar x :: r => (match boolOf x B with
    | some b => some (!b)
    | none => none) :: boolArgs B r
  | _ :: r => none :: boolArgs B r

/-- Is everything on the right known on the left? -/
def boolsLe : List (Option Bool) → List (Option Bool) → Bool
  | _, [] => true
  | [], _ :: _ => false
  | _ :: r, none :: r' => boolsLe r r'
  | some b :: r, some b' :: r' => (b == b') && boolsLe r r'
  | none :: _, some _ :: _ => false

/-- The value of a condition, if it is known. -/
def known (B : Bools) : Cond → Option Bool
  | .bvar x => boolOf x B
  | .const b => some b
  | .not c => match known B c with
    | some b => some (!b)
    | none => none
  | .and c d => match known B c, known B d with
    | some false, _ => some false
    | _, some false => some false
    | some true, some true => some true
    | _, _ => none
  | .or c d => match known B c, known B d with
    | some true, _ => some true
    | _, some true => some true
    | some false, some false => some false
    | _, _ => none
  | _ => none

/-- Does an entry apply? -/
def Entry.fits (used : Bool) (bs : List (Option Bool)) (arg : Option (Bool × Desc)) (e : Entry) : Bool :=
  (used == e.used) && boolsLe bs e.bools && match arg, e.arg with
  | none, none => true
  | some (l, d), some (l', d') => (!l' || l) && d.le d'
  | _, _ => false

/-- The parts of a result. -/
def leftAlts : List (NodeType × Mask × Mask) → Alts
  | [] => []
  | (t, m, _) :: r => (t, m) :: leftAlts r
/-- The parts of a result. -/
def rightAlts : List (NodeType × Mask × Mask) → Alts
  | [] => []
  | (t, _, m) :: r => (t, m) :: rightAlts r

/-- Is there nothing in the part from the argument? -/
def noLeft : List (NodeType × Mask × Mask) → Bool
  | [] => true
  | (_, m, _) :: r => Nat.beq m 0 && noLeft r

/-- Apply an entry; `last`: the argument goes into the part from the tokens read. -/
def applyEntry (ru : Rules) (e : Entry) (last : Bool) (arg : Option Var) (a : OState) : R OState :=
  match arg, e.res with
  | none, .node as =>
    if noLeft as then .ok ⟨.cov, a.lw, a.rw ++ [⟨TMP, .node (rightAlts as)⟩], a.em⟩ else bad "left part"
  | none, .vec as => .ok ⟨.cov, a.lw, a.rw ++ [⟨TMP, .vec false as⟩], a.em⟩
  | some x, .node as =>
    if last then
      if noLeft as then .ok ⟨.cov, a.lw, without x a.rw ++ [⟨TMP, .node (rightAlts as)⟩], a.em⟩
      else bad "left part"
    else
    let g : Seg := ⟨TMP, .node (leftAlts as)⟩
    match compact ru (replaceSeg x g a.lw) with
    | .error e => .error e
    | .ok l => match compact ru (replaceSeg x g a.rw ++ [⟨TMP, .node (rightAlts as)⟩]) with
      | .error e => .error e
      | .ok r => .ok ⟨.cov, l, r, a.em⟩
  | some _, .vec _ => bad "vector from a node"

/-- What is known about a variable. -/
def descOf (x : Var) (a : OState) : Desc :=
  match find x a.lw with
  | some d => d
  | none => (find x a.rw).getD .any

/-- Has the current token been used? -/
def usedOf : Cov → Bool
  | .unc => false
  | _ => true

/-- Is a variable the last one? -/
def lastOf (x : Var) (l : List Seg) : Bool :=
  match l.getLast? with
  | some g => Nat.beq g.own x
  | none => false

/-- Does the argument of an entry go into the part from the tokens read? -/
def argLast : Option (Bool × Desc) → Bool
  | some (l, _) => l
  | none => false

/-- A call with an entry of the table. -/
def callWith (ru : Rules) (T : Fn → List Entry) (f : Fn) (used : Bool) (bs : List (Option Bool))
    (arg : Option (Bool × Desc)) (x : Option Var) (a : OState) : R OState :=
  match (T f).find? (Entry.fits used bs arg) with
  | none => .error (.missing f used bs arg)
  | some e => applyEntry ru e (argLast e.arg) x a

/-- A call. -/
def acall (ru : Rules) (T : Fn → List Entry) (B : Bools) (f : Fn) (args : List Atom) (a : OState) : R OState :=
  let a := dropVar TMP a
  let bs := boolArgs B args
  match nodeArg a args with
  | none =>
    match a.cov with
    | .unc => callWith ru T f false bs none none a
    | .cov => callWith ru T f true bs none none a
    | .fresh _ => match uncover a with
      | .error e => .error e
      | .ok a => callWith ru T f false bs none none a
  | some x =>
    if Nat.beq (count x a.lw + count x a.rw) 1 then
      callWith ru T f (usedOf a.cov) bs (some (lastOf x a.rw, descOf x a)) (some x) a
    else bad "argument in pieces"

/-- The value of an expression goes to TMP. -/
def aeval (ru : Rules) (T : Fn → List Entry) (B : Bools) : Exp → OState → R OState
  | .var x, a => if low x then .ok (renameVar x TMP a) else bad "variable"
  | .construct nt, a => aconstruct ru nt a
  | .empty nt, a => let a := dropVar TMP a; .ok { a with em := (TMP, some nt) :: a.em }
  | .call f args, a => acall ru T B f args a
  | .nilVec, a => let a := dropVar TMP a; .ok { a with em := (TMP, none) :: a.em }
  | .pop x, a =>
    if !low x then bad "pop" else
    let a := dropVar TMP a
    if Nat.beq (count x a.lw) 0 && Nat.beq (count x a.rw) 1 then
      match find x a.rw with
      | some (.vec true as) =>
        .ok ⟨a.cov.commit, a.lw, replaceSeg x ⟨TMP, elemDesc as⟩ a.rw,
          (x, none) :: a.em⟩
      | some (.vec false _) => .ok ⟨a.cov.commit, a.lw, split x TMP a.rw, a.em⟩
      | _ => bad "pop"
    else bad "pop"
  | _, a => .ok (dropVar TMP a)

/-- `x = TMP`. -/
def aset (B : Bools) (x : Var) (a : OState) : R OState :=
  if !low x || (boolOf x B).isSome then bad "set" else .ok (renameVar TMP x a)

/-- Change the type. -/
def retype (ru : Rules) (nt : NodeType) : Alts → R Mask
  | [] => .ok 0
  | (t, m) :: r => if convOk ru t nt m then
      match retype ru nt r with
      | .error e => .error e
      | .ok m' => .ok (m ||| m')
    else .error (.order nt m 0)

/-- Change the type of all segments of a variable. -/
def retypeWord (ru : Rules) (x : Var) (nt : NodeType) : List Seg → R (List Seg)
  | [] => .ok []
  | g :: r => match retypeWord ru x nt r with
    | .error e => .error e
    | .ok r => if Nat.beq g.own x then
        match g.d with
        | .node as => match retype ru nt as with
          | .error e => .error e
          | .ok m => .ok (⟨x, .node [(nt, m)]⟩ :: r)
        | _ => bad "type of an unknown node"
      else .ok (g :: r)

/-- `x.node_type = nt`. -/
def asetType (ru : Rules) (x : Var) (nt : NodeType) (a : OState) : R OState :=
  if !low x then bad "type" else
  match emFind x a.em with
  | some _ => bad "type of an empty node"
  | none => match retypeWord ru x nt a.lw with
    | .error e => .error e
    | .ok l => match retypeWord ru x nt a.rw with
      | .error e => .error e
      | .ok r => .ok ⟨a.cov, l, r, a.em⟩

/-- Outcome of a command. -/
structure OOut where
  norm : List OState
  brk : List OState
  ret : List OState
  deriving Repr, Inhabited

/-- Join of outcomes. -/
def joinOut (a b : OOut) : R OOut :=
  match merge (a.norm ++ b.norm) with
  | .error e => .error e
  | .ok n => match merge (a.brk ++ b.brk) with
    | .error e => .error e
    | .ok k => .ok ⟨n, k, a.ret ++ b.ret⟩

/-- Run on all states. -/
def runAll (f : OState → R OOut) : List OState → R OOut
  | [] => .ok ⟨[], [], []⟩
  | s :: r => match f s with
    | .error e => .error e
    | .ok o => match runAll f r with
      | .error e => .error e
      | .ok o' => joinOut o o'

/-- Inclusion of sets of states. -/
def statesLe (l m : List OState) : Bool := l.all fun s => m.any fun t => s.le t

/-- Iterate a loop body until the states are stable. -/
def fixLoop (body : OState → R OOut) : Nat → List OState → R (List OState × OOut)
  | 0, _ => bad "no fixpoint"
  | n + 1, i =>
    match runAll body i with
    | .error e => .error e
    | .ok o =>
      if statesLe o.norm i then .ok (i, o)
      else match merge (i ++ o.norm) with
        | .error e => .error e
        | .ok j => fixLoop body n j

/-- One normal outcome. -/
def one : R OState → R OOut
  | .error e => .error e
  | .ok a => .ok ⟨[a], [], []⟩

/-- Bind. -/
def rbind {α β : Type} (a : R α) (f : α → R β) : R β :=
  match a with
  | .error e => .error e
  | .ok a => f a

/-- A vector with one element. -/
def oneDesc : Desc → Desc
  | .vec _ as => .vec true as
  | d => d

/-- A vector with one element. -/
def asOne (x : Var) : List Seg → List Seg
  | [] => []
  | g :: r => (if Nat.beq g.own x then ⟨x, oneDesc g.d⟩ else g) :: asOne x r

/-- A node of a given type. -/
def typeDesc (t : NodeType) : Desc → Desc
  | .node as => .node (as.filter fun p => tyEq p.1 t)
  | d => d

/-- A node of a given type. -/
def ofType (x : Var) (t : NodeType) : List Seg → List Seg
  | [] => []
  | g :: r => (if Nat.beq g.own x then ⟨x, typeDesc t g.d⟩ else g) :: ofType x t r

/-- States in which a condition has a value. -/
def refine : Cond → Bool → OState → List OState
  | .lenPos x, true, a => if low x then match emFind x a.em with
      | some none => []
      | _ => [a]
    else [a]
  | .lenPos x, false, a => if low x then match emFind x a.em with
      | some _ => [a]
      | none => [⟨a.cov, without x a.lw, without x a.rw, (x, none) :: a.em⟩]
    else [a]
  | .lenOne x, true, a => if low x then [⟨a.cov, asOne x a.lw, asOne x a.rw, a.em⟩] else [a]
  | .typeIs x t, true, a => if low x then [⟨a.cov, ofType x t a.lw, ofType x t a.rw, a.em⟩] else [a]
  | _, _, a => [a]

/-- States in which a condition has a value. -/
def assume (B : Bools) (c : Cond) (v : Bool) (a : OState) : List OState :=
  match known B c with
  | some b => if b == v then refine c v a else []
  | none => refine c v a

/-- The analysis of commands. -/
def aexec (ru : Rules) (T : Fn → List Entry) (B : Bools) : Cmd → OState → R OOut
  | .skip, a => .ok ⟨[a], [], []⟩
  | .seq c d, a => match aexec ru T B c a with
    | .error e => .error e
    | .ok o => match runAll (aexec ru T B d) o.norm with
      | .error e => .error e
      | .ok o' => joinOut ⟨[], o.brk, o.ret⟩ o'
  | .next, a => .ok ⟨[⟨.unc, a.lw, a.rw, a.em⟩], [], []⟩
  | .set x e, a => one (rbind (aeval ru T B e a) (aset B x))
  | .push x k e, a => one (rbind (aeval ru T B e a) (apush ru x k false))
  | .pushVec x k e, a => one (rbind (aeval ru T B e a) (apush ru x k true))
  | .append x e, a => one (rbind (aeval ru T B e a) (aappend x))
  | .setType x nt, a => one (asetType ru x nt a)
  | .ite c d e, a => match runAll (aexec ru T B d) (assume B c true a) with
    | .error e => .error e
    | .ok o => match runAll (aexec ru T B e) (assume B c false a) with
      | .error e => .error e
      | .ok o' => joinOut o o'
  | .loop c, a => match fixLoop (aexec ru T B c) 10 [a] with
    | .error e => .error e
    | .ok (_, o) => .ok ⟨o.brk, [], o.ret⟩
  | .brk, a => .ok ⟨[], [a], []⟩
  | .ret e, a => match aeval ru T B e a with
    | .error e => .error e
    | .ok b => .ok ⟨[], [], [b]⟩
  | .fail _ _, _ => .ok ⟨[], [], []⟩
  | .scan x _ _ c, a =>
    if (boolOf x B).isSome then bad "scan" else
    match fixLoop (fun b => aexec ru T B c (dropVar x b)) 10 [dropVar x a] with
    | .error e => .error e
    | .ok (i, o) => match merge (i ++ o.brk) with
      | .error e => .error e
      | .ok n => .ok ⟨n, [], o.ret⟩
  | .drain v x c, a =>
    if !low x || !low v || (boolOf x B).isSome then bad "drain" else
    match fixLoop (fun b =>
      let b := dropVar x b
      if Nat.beq (count REST b.lw) 0 && Nat.beq (count REST b.rw) 1 then
        aexec ru T B c ⟨b.cov.commit, b.lw, split REST x b.rw, b.em⟩
      else bad "drain") 10 [renameVar v REST a] with
    | .error e => .error e
    | .ok (i, o) => match merge (i ++ o.brk) with
      | .error e => .error e
      | .ok n => .ok ⟨n.map (dropVar REST), [], o.ret⟩
  | .tryElse x f args h, a => match rbind (acall ru T B f args a) (aset B x) with
    | .error e => .error e
    | .ok b => match aexec ru T B h a with
      | .error e => .error e
      | .ok o => joinOut ⟨[b], [], []⟩ o

/-! ### Functions -/

/-- The node parameter of a function with a node argument is its first one. -/
def startState (d : FunDef) (e : Entry) : Option OState :=
  let c : Cov := if e.used then .cov else .unc
  match e.arg with
  | none => some ⟨c, [], [], []⟩
  | some (l, dd) => match d.params with
    | x :: _ => some (if l then ⟨c, [], [⟨x, dd⟩], []⟩ else ⟨c, [⟨x, dd⟩], [], []⟩)
    | [] => none

/-- The Boolean parameters of a function. -/
def startBools : List Var → List (Option Bool) → Bools
  | x :: xs, some b :: bs => (x, b) :: startBools xs bs
  | _ :: xs, none :: bs => startBools xs bs
  | _, _ => []

/-- The result in a final state. -/
def resultOf (a : OState) : R Res :=
  match emFind TMP a.em with
  | some none => .ok (.vec (some []))
  | some (some t) => .ok (.node [(t, 0, 0)])
  | none =>
    if Nat.ble (count TMP a.lw) 1 && Nat.ble (count TMP a.rw) 1 then
      match find TMP a.lw, find TMP a.rw with
      | some (.node as), some (.node bs) =>
        .ok (.node (as.map fun p => (p.1, p.2, (slotsOf p.1 bs).getD 0)))
      | some (.node as), none => .ok (.node (as.map fun p => (p.1, p.2, 0)))
      | none, some (.node bs) => .ok (.node (bs.map fun p => (p.1, 0, p.2)))
      | none, some (.vec _ as) => .ok (.vec as)
      | _, _ => bad "result"
    else bad "result in pieces"

/-- Inclusion of results. -/
def resLe : Res → Res → Bool
  | .node as, .node bs => altsLe (leftAlts as) (leftAlts bs) && altsLe (rightAlts as) (rightAlts bs)
  | .vec _, .vec none => true
  | .vec (some as), .vec (some bs) => altsLe as bs
  | _, _ => false

/-- Are all variables different? -/
def distinct : List Var → Bool
  | [] => true
  | x :: r => r.all (fun y => !Nat.beq x y) && distinct r

/-- The possible results of a function. -/
def runEntry (ru : Rules) (T : Fn → List Entry) (d : FunDef) (e : Entry) : R (List Res) :=
  if !distinct d.params then bad "parameters" else
  match startState d e with
  | none => bad "arguments"
  | some a => match aexec ru T (startBools d.params e.bools) d.body a with
    | .error e => .error e
    | .ok o => o.ret.mapM resultOf

/-- The check of an entry. -/
def checkEntry (ru : Rules) (T : Fn → List Entry) (d : FunDef) (e : Entry) : Bool :=
  match runEntry ru T d e with
  | .error _ => false
  | .ok l => l.all fun r => resLe r e.res

end Verif.OI
