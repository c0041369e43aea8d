import Verif.Analysis.Domain
import Verif.Spec.Precedence
import Verif.Model.Program
/-!
A second abstract interpreter for the command language: operator precedence.  Every node is always
`Spec.ByPrecedence` throughout; this is checked where operands are added to operators.  For that the
analysis tracks the precedence parameter `p` of the function, one more precedence `q` (that of the token
last examined), and how the operators at both ends of a node compare to `p`, `q` and the next token.  It is
not trusted: its soundness is proved in Verif.Proofs.Prec*, and its verdict is computed by the kernel.
-/
namespace Verif.PI
open AI

/-- Classes of operators with a left operand: postfix, with operand `right`, `BETWEEN`, `IN`. -/
inductive Cls
  | post | bin | btw | inn
  deriving DecidableEq, Repr, Inhabited

/-- What kind of node. -/
inductive Kind
  | any
  /-- no operator -/
  | nonop
  /-- no operator, but its token might be a prefix operator; `cur`: its token is the current one;
  otherwise its token is in the mask; it has no child `right` -/
  | preN (cur : Bool) (m : Mask)
  /-- a `UnaryOperator` without operand -/
  | preU (cur : Bool) (m : Mask)
  /-- no operator, or a `UnaryOperator` with operand; everything holds if it becomes a `UnaryOperator` -/
  | un
  /-- an operator of precedence `q`; `nr`: without the last operand -/
  | op (c : Cls) (nr : Bool)
  deriving DecidableEq, Repr, Inhabited

/-- What is known about a node. -/
structure NV where
  kind : Kind
  /-- the operators at its left end bind tighter than `p`, `q`, a constant -/
  ltp : Bool
  ltq : Bool
  ltc : Option Nat
  /-- there is an `ASC` at its right end -/
  so : Bool
  /-- there are no open operators at its right end -/
  cl : Bool
  /-- `so`, or the operators at its right end bind at least as tight as the next token, the current one, `q` -/
  tn : Bool
  tc : Bool
  tq : Bool
  /-- `so`, or `p`, `q`, a constant are at most the precedence of the next token -/
  pn : Bool
  qn : Bool
  cn : Nat
  deriving DecidableEq, Repr, Inhabited

/-- Abstract values. -/
inductive PV
  | top
  | node (v : NV)
  | bool (b : Bool)
  /-- a non-empty vector -/
  | vec1
  | natc (n : Nat)
  | natp
  | natq
  /-- at most `usize::MAX` -/
  | natle
  deriving DecidableEq, Repr, Inhabited

/-- Abstract states.  `np`, `cp`: the next / current token has precedence `q`; `qlt`: `q < p`; `clt`: the
current token has a precedence less than `p`; `qc`: the value of `q`. -/
structure PState where
  t0 : Mask
  t1 : Mask
  np : Bool
  cp : Bool
  qlt : Bool
  clt : Bool
  qc : Option Nat
  vars : List (Var × PV)
  deriving Repr, Inhabited

/-- Nothing known. -/
def NV.any : NV := ⟨.any, false, false, none, false, false, false, false, false, false, false, 0⟩
/-- A node that is no operator. -/
def NV.nonop : NV := ⟨.nonop, true, true, some 0, false, true, true, true, true, false, false, 0⟩

/-- Weaken a bound: the smaller set of bounds. -/
def ltcLe (a b : Option Nat) : Bool :=
  match b with
  | none => true
  | some m => match a with
    | some n => Nat.ble n m
    | none => false

/-- Is every operator at the left end below the bound? -/
def NV.ltP (v : NV) : Bool := v.ltp || ltcLe v.ltc (some 0)
/-- The same for `q`. -/
def NV.ltQ (v : NV) : Bool := v.ltq || ltcLe v.ltc (some 0)
/-- Bounded by `q` at the right end. -/
def NV.tQ (v : NV) : Bool := v.tq || v.cl || v.so
/-- Bounded by the next token. -/
def NV.tN (v : NV) : Bool := v.tn || v.cl || v.so
/-- Bounded by the current token. -/
def NV.tC (v : NV) : Bool := v.tc || v.cl || v.so

/-- Implication. -/
def imp (a b : Bool) : Bool := !a || b

/-- Inclusion of kinds. -/
def Kind.le : Kind → Kind → Bool
  | .nonop, .any | .preN .., .any | .preU .., .any | .op .., .any | .any, .any => true
  | .nonop, .nonop => true
  | .preN .., .nonop => true
  | .preN c m, .preN c' m' => c == c' && (c || m.le m')
  | .preU c m, .preU c' m' => c == c' && (c || m.le m')
  | .un, .un => true
  | .op c nr, .op c' nr' => decide (c = c') && imp nr' nr
  | _, _ => false

/-- Inclusion of node values of the same reading. -/
def NV.leF (a b : NV) : Bool :=
  imp b.ltp a.ltP && imp b.ltq a.ltQ && ltcLe a.ltc b.ltc && imp b.so a.so && imp b.cl a.cl &&
  imp b.tn a.tN && imp b.tc a.tC && imp b.tq a.tQ && imp b.pn (a.pn || a.so) && imp b.qn (a.qn || a.so) &&
  (a.so || Nat.ble b.cn a.cn)

/-- Inclusion. -/
def NV.le (a b : NV) : Bool :=
  a.leF b && (a.kind.le b.kind ||
    (decide (a.kind = .un) && decide (b.kind = .any) && !b.so && !b.pn && !b.qn && Nat.beq b.cn 0))

/-- Inclusion of values. -/
def PV.le : PV → PV → Bool
  | _, .top => true
  | .node a, .node b => a.le b
  | .bool a, .bool b => a == b
  | .natc a, .natc b => Nat.beq a b
  | .vec1, .vec1 => true
  | .natp, .natp => true
  | .natq, .natq => true
  | .natc a, .natle => Nat.ble a usizeMax
  | .natp, .natle => true
  | .natq, .natle => true
  | .natle, .natle => true
  | _, _ => false

/-- Value of a variable. -/
def look (x : Var) : List (Var × PV) → PV
  | [] => .top
  | (y, v) :: r => if Nat.beq x y then v else look x r

/-- Inclusion of variable maps. -/
def varsLe (a b : List (Var × PV)) : Bool := b.all fun e => (look e.1 a).le e.2

/-- Inclusion of states. -/
def PState.le (a b : PState) : Bool :=
  a.t0.le b.t0 && a.t1.le b.t1 && imp b.np a.np && imp b.cp a.cp && imp b.qlt a.qlt &&
  imp b.clt a.clt && (match b.qc with | none => true | some c => decide (a.qc = some c)) &&
  varsLe a.vars b.vars

/-! ### Joins (not trusted: the result is checked with `le`) -/

/-- Join of kinds. -/
def joinKind : Kind → Kind → Kind
  | .nonop, .nonop => .nonop
  | .nonop, .preN .. => .nonop
  | .preN .., .nonop => .nonop
  | .preN c m, .preN c' m' => if c == c' then .preN c (m ||| m') else .nonop
  | .preU c m, .preU c' m' => if c == c' then .preU c (m ||| m') else .any
  | .un, .un => .un
  | .op c nr, .op c' nr' => if c = c' then .op c (nr && nr') else .any
  | _, _ => .any

/-- Join of node values. -/
def joinNV (a b : NV) : NV :=
  let k := joinKind a.kind b.kind
  let u := decide (k = .any) && (decide (a.kind = .un) || decide (b.kind = .un))
  ⟨k, a.ltP && b.ltP, a.ltQ && b.ltQ,
    match a.ltc, b.ltc with | some n, some m => some (max n m) | _, _ => none,
    a.so && b.so && !u, a.cl && b.cl, a.tN && b.tN, a.tC && b.tC, a.tQ && b.tQ,
    (a.pn || a.so) && (b.pn || b.so) && !u, (a.qn || a.so) && (b.qn || b.so) && !u,
    if u then 0 else if a.so then b.cn else if b.so then a.cn else min a.cn b.cn⟩

/-- Join of values. -/
def joinPV : PV → PV → PV
  | .node a, .node b => .node (joinNV a b)
  | .bool a, .bool b => if a == b then .bool a else .top
  | .natc a, .natc b => if Nat.beq a b then .natc a else .natle
  | .vec1, .vec1 => .vec1
  | .natp, .natp => .natp
  | .natq, .natq => .natq
  | a, b => if a.le .natle && b.le .natle then .natle else .top

/-- Join of variable maps. -/
def joinVars (b : List (Var × PV)) : List (Var × PV) → List (Var × PV)
  | [] => []
  | (x, v) :: r => match joinPV v (look x b) with
    | .top => joinVars b r
    | w => (x, w) :: joinVars b r

/-- Join of states. -/
def joinRaw (a b : PState) : PState :=
  ⟨a.t0 ||| b.t0, a.t1 ||| b.t1, a.np && b.np, a.cp && b.cp, a.qlt && b.qlt, a.clt && b.clt,
    if a.qc = b.qc then a.qc else none, joinVars b.vars a.vars⟩

/-- Results of the analysis. -/
abbrev R := Except String

/-- Reachable states, if any. -/
abbrev O := Option PState

/-- Join, checked. -/
def join : O → O → R O
  | none, b => .ok b
  | a, none => .ok a
  | some a, some b =>
    let j := joinRaw a b
    if a.le j && b.le j then .ok (some j) else .error "join"

/-! ### Transfer functions -/

/-- Apply a function to all known nodes. -/
def mapNV (f : NV → NV) : List (Var × PV) → List (Var × PV)
  | [] => []
  | (x, v) :: r => (x, match v with
    | .node n => .node (f n)
    | v => v) :: mapNV f r

/-- Forget the number `q`. -/
def dropNat : List (Var × PV) → List (Var × PV)
  | [] => []
  | (x, v) :: r => (x, match v with
    | .natq => .natle
    | v => v) :: dropNat r

/-- Kinds after the current token changes; `m`: its classes. -/
def Kind.leave (m : Mask) : Kind → Kind
  | .preN true _ => .preN false m
  | .preU true _ => .preU false m
  | k => k

/-- Node values after `next_token`. -/
def NV.next (m : Mask) (v : NV) : NV :=
  { v with kind := v.kind.leave m, tn := false, tc := v.tn, pn := false, qn := false, cn := 0 }

/-- Node values after a call. -/
def NV.moved (m : Mask) (v : NV) : NV :=
  { v with kind := v.kind.leave m, tn := false, tc := false, pn := false, qn := false, cn := 0 }

/-- Kinds when `q` changes. -/
def Kind.dropQ : Kind → Kind
  | .op _ _ => .any
  | k => k

/-- Node values when `q` becomes the precedence of the next token. -/
def NV.bindNext (v : NV) : NV := { v with kind := v.kind.dropQ, ltq := false, tq := v.tn, qn := false }

/-- Node values when `q` becomes the precedence of the current token. -/
def NV.bindCur (v : NV) : NV := { v with kind := v.kind.dropQ, ltq := false, tq := v.tc, qn := false }

/-- The precedence of the keywords of a mask (src/parser.rs 117-146), if they all have the same one. -/
def maskPrec (m : Mask) : Option Nat :=
  if m.le (kwMask [.sym_lparen, .sym_lbrack]) then some 101
  else if m.le (kwMask [.sym_dot]) then some 102
  else if m.le (kwMask [.BETWEEN, .IN, .IS, .LIKE]) then some 109
  else none

/-- No token of the mask is `NOT`. -/
def notFree (m : Mask) : Bool := !m.has Kw.NOT.ctorIdx

/-- Sharpen the value of `q` from the classes of the token it belongs to. -/
def sharpen (m : Mask) (qlt : Bool) (c : Option Nat) : Option Nat :=
  match maskPrec m with
  | some n => some n
  | none => if qlt && m.le (kwMask [.NOT]) then some 109 else c

/-- Let `q` be the precedence of the next token, which is less than `p`. -/
def bindNext (a : PState) : PState :=
  if a.np then { a with qlt := true, qc := sharpen a.t1 true a.qc }
  else { a with np := true, cp := false, qlt := true, qc := sharpen a.t1 true none,
                vars := dropNat (mapNV NV.bindNext a.vars) }

/-- Let `q` be the precedence of the current token. -/
def bindCur (a : PState) : PState :=
  if a.cp then a
  else { a with np := false, cp := true, qlt := a.clt, qc := sharpen a.t0 a.clt none,
                vars := dropNat (mapNV NV.bindCur a.vars) }

/-- Learn that the current token is in `m`. -/
def refine0 (m : Mask) (a : PState) : O :=
  let t := a.t0 &&& m
  if Nat.beq t 0 then none
  else
    let qc := if a.cp then sharpen t a.qlt a.qc else a.qc
    let cp := a.cp || (match maskPrec t with
      | some n => decide (qc = some n)
      | none => false)
    some { a with t0 := t, qc := qc, cp := cp }

/-- Learn that the next token is in `m`. -/
def refine1 (m : Mask) (a : PState) : O :=
  let t := a.t1 &&& m
  if Nat.beq t 0 then none
  else some { a with t1 := t, qc := if a.np then sharpen t a.qlt a.qc else a.qc }

/-- Learn something about the token at an offset. -/
def refineOff (o : Off) (m : Mask) (a : PState) : O :=
  match o with
  | .lit 0 => refine0 m a
  | .lit 1 => refine1 m a
  | _ => some a

/-- Bind. -/
def obind {α β : Type} (a : Option α) (f : α → R (Option β)) : R (Option β) :=
  match a with
  | none => .ok none
  | some a => f a

/-- Split a state by a condition. -/
def assume : Cond → PState → R (O × O)
  | .up o ks, a => .ok (refineOff o (kwMask ks) a, refineOff o (TOP ^^^ kwMask ks) a)
  | .bvar x, a => match look x a.vars with
    | .bool true => .ok (some a, none)
    | .bool false => .ok (none, some a)
    | _ => .ok (some a, some a)
  | .precLt x, a => match look x a.vars with
    | .natp => .ok (some (bindNext a), some { a with vars := mapNV (fun v => { v with pn := true }) a.vars })
    | _ => .ok (some a, some a)
  | .and c d, a => match assume c a with
    | .error e => .error e
    | .ok (t, f) => match t with
      | none => .ok (none, f)
      | some t => match assume d t with
        | .error e => .error e
        | .ok (t', f') => match join f f' with
          | .error e => .error e
          | .ok j => .ok (t', j)
  | .or c d, a => match assume c a with
    | .error e => .error e
    | .ok (t, f) => match f with
      | none => .ok (t, none)
      | some f => match assume d f with
        | .error e => .error e
        | .ok (t', f') => match join t t' with
          | .error e => .error e
          | .ok j => .ok (j, f')
  | .not c, a => match assume c a with
    | .error e => .error e
    | .ok (t, f) => .ok (f, t)
  | _, a => .ok (some a, some a)

/-- Node types that are no operators. -/
def nonopTy (nt : NodeType) : Bool :=
  !(tyEq nt .CallingFunction || tyEq nt .AccessOperator || tyEq nt .DotOperator || tyEq nt .FunctionChain ||
    tyEq nt .BetweenOperator || tyEq nt .InOperator || tyEq nt .IsDistinctFromOperator ||
    tyEq nt .BinaryOperator || tyEq nt .UnaryOperator)

/-- The class of an operator on a token of the mask, if its precedence is that of the token. -/
def clsOf (nt : NodeType) (m : Mask) : Option Cls :=
  if tyEq nt .CallingFunction || tyEq nt .AccessOperator then
    if m.le (kwMask [.sym_lparen, .sym_lbrack]) then some .post else none
  else if tyEq nt .DotOperator || tyEq nt .FunctionChain then
    if m.le (kwMask [.sym_dot]) then some .post else none
  else if tyEq nt .BetweenOperator then
    if m.le (kwMask [.BETWEEN, .IN, .IS, .LIKE]) then some .btw else none
  else if tyEq nt .InOperator then
    if m.le (kwMask [.BETWEEN, .IN, .IS, .LIKE]) then some .inn else none
  else if tyEq nt .IsDistinctFromOperator then
    if m.le (kwMask [.BETWEEN, .IN, .IS, .LIKE]) then some .bin else none
  else if tyEq nt .BinaryOperator then
    if m.le (kwMask [.sym_star, .sym_slash, .sym_concat, .sym_plus, .sym_minus, .sym_shl, .sym_shr, .sym_amp,
      .sym_caret, .sym_bar, .sym_eq, .sym_lt, .sym_gt, .sym_le, .sym_ge, .sym_ne, .sym_ltgt, .LIKE, .IS, .AND,
      .OR, .sym_arrow]) then some .bin else none
  else none

/-- `construct_node(nt)`. -/
def aconstruct (nt : NodeType) (a : PState) : R (PV × PState) :=
  if tyEq nt .Unknown then .ok (.node { NV.nonop with kind := .preN true 0 }, a)
  else if nonopTy nt then .ok (.node .nonop, a)
  else match clsOf nt a.t0 with
    | none => .error "operator on another token"
    | some c =>
      let b := bindCur a
      let closed := match c with | .post => true | .inn => true | _ => false
      .ok (.node ⟨.op c true, b.qlt, false, none, false, closed, false, false, false, false, false, 0⟩, b)

/-- What is known if the node does not become a prefix operator. -/
def NV.weak (v : NV) : NV :=
  match v.kind with
  | .un => { v with kind := .any, so := false, tn := v.tN, tc := v.tC, tq := v.tQ, pn := false, qn := false, cn := 0 }
  | _ => v

/-- The value as a node. -/
def PV.nv : PV → NV
  | .node v => v.weak
  | _ => .any

/-- How functions are summarised. -/
inductive Sum
  /-- nothing known about the result -/
  | plain
  /-- the result is no operator -/
  | nonop
  /-- the result does not end with an operand -/
  | closed
  /-- `parse_expr` -/
  | expr
  /-- a function that takes the left operand; the classes of the current token -/
  | oper (m : Mask)
  deriving Repr, Inhabited

/-- Value of an argument. -/
def aatom (a : PState) : Atom → PV
  | .var x => look x a.vars
  | .bool b => .bool b
  | .nat n => .natc n
  | _ => .top

/-- The state after a call. -/
def afterCall (a : PState) : PState :=
  { a with t0 := TOP, t1 := TOP, np := false, cp := false, clt := false,
           vars := mapNV (NV.moved a.t0) a.vars }

/-- Result of `parse_expr`. -/
def exprResult (args : List PV) : R NV :=
  match args with
  | .natc n :: .bool false :: .bool false :: _ =>
    if Nat.ble n usizeMax then
      .ok ⟨.any, false, false, some n, false, false, true, false, false, false, false, n⟩
    else .error "bound"
  | .natq :: .bool false :: .bool false :: _ =>
    .ok ⟨.any, false, true, none, false, false, true, false, false, false, true, 0⟩
  | .natc n :: _ => if Nat.ble n usizeMax then .ok .any else .error "bound"
  | .natq :: _ => .ok .any
  | .natp :: _ => .ok .any
  | .natle :: _ => .ok .any
  | _ => .error "precedence argument"

/-- Result of a call. -/
def acall (T : Fn → Sum) (f : Fn) (args : List Atom) (a : PState) : R (PV × PState) :=
  match T f with
  | .plain => .ok (.top, afterCall a)
  | .nonop => .ok (.node .nonop, afterCall a)
  | .closed => .ok (.node { NV.any with cl := true }, afterCall a)
  | .expr => match exprResult (args.map (aatom a)) with
    | .error e => .error e
    | .ok v => .ok (.node v, afterCall a)
  | .oper m => match args.map (aatom a) with
    | [v] =>
      if a.t0.le m && (v.nv.tC || (v.nv.tq && a.cp)) then
        .ok (.node { NV.any with ltp := v.nv.ltP && (a.clt || (a.cp && a.qlt)), tn := true }, afterCall a)
      else .error "left operand"
    | _ => .error "left operand"

/-- Value of a right-hand side. -/
def aeval (T : Fn → Sum) : Exp → PState → R (PV × PState)
  | .var x, a => .ok (look x a.vars, a)
  | .construct nt, a => aconstruct nt a
  | .empty nt, a => if nonopTy nt then .ok (.node .nonop, a) else .error "empty operator"
  | .call f args, a => acall T f args a
  | .pop x, a => .ok (.top, { a with vars := (a.vars.filter fun e => !Nat.beq x e.1) })
  | .prec (.lit 0), a => .ok (.natq, bindCur a)
  | .natLit n, a => .ok (.natc n, a)
  | .boolLit b, a => .ok (.bool b, a)
  | _, a => .ok (.top, a)

/-- Assign a variable. -/
def setVar (x : Var) (v : PV) (a : PState) : PState :=
  { a with vars := (x, v) :: a.vars.filter fun e => !Nat.beq x e.1 }

/-- Keys of operands. -/
def operandKey (k : Key) : Bool :=
  Nat.beq k.ctorIdx Key.k_left.ctorIdx || Nat.beq k.ctorIdx Key.k_func.ctorIdx ||
  Nat.beq k.ctorIdx Key.k_right.ctorIdx || Nat.beq k.ctorIdx Key.k_right_min.ctorIdx ||
  Nat.beq k.ctorIdx Key.k_right_max.ctorIdx

/-- Keys of `ASC` etc. -/
def orderKey (k : Key) : Bool :=
  Nat.beq k.ctorIdx Key.k_order.ctorIdx || Nat.beq k.ctorIdx Key.k_null_order.ctorIdx

/-- Is it this key? -/
def isKey (k k' : Key) : Bool := Nat.beq k.ctorIdx k'.ctorIdx

/-- The precedence of the prefix operators of a mask: `some none`: there are none. -/
def maskPrefix (m : Mask) : Option (Option Nat) :=
  if m.le (kwMask [.sym_minus, .sym_plus, .sym_tilde]) then some (some 102)
  else if m.le (kwMask [.NOT]) then some (some 110)
  else if Nat.beq (m &&& kwMask [.sym_minus, .sym_plus, .sym_tilde, .NOT]) 0 then some none
  else none

/-- Give a prefix operator its operand. -/
def pushPrefix (m : Mask) (c : NV) : R NV :=
  match maskPrefix m with
  | none => .error "prefix operators of different precedence"
  | some none => .ok { NV.nonop with kind := .un }
  | some (some n) =>
    if ltcLe c.ltc (some n) then
      .ok { NV.nonop with kind := .un, so := c.so, cl := false, tc := c.so, tq := c.so,
                          tn := c.so || (c.tN && Nat.ble n c.cn) }
    else .error "operand of prefix operator"

/-- Add an operand. -/
def pushOperand (t0 : Mask) (k : Key) (c : NV) (v : NV) : R NV :=
  match v.kind with
  | .nonop => .ok v
  | .preN cur m => if isKey k .k_right then pushPrefix (if cur then t0 else m) c else .ok v
  | .preU cur m => if isKey k .k_right then pushPrefix (if cur then t0 else m) c else .ok v
  | .op cl nr =>
    if isKey k .k_left || isKey k .k_func then
      if c.tQ then
        .ok { v with ltp := v.ltP && c.ltP, ltq := false, ltc := none }
      else .error "left operand looser"
    else match cl with
      | .post => .ok v
      | .inn => if c.ltQ then .ok v else .error "right operand"
      | .btw =>
        if c.ltQ then
          if isKey k .k_right_min then .ok v
          else if isKey k .k_right_max && nr then
            .ok { v with kind := .op .btw false, so := c.so, cl := false, tq := c.so, tc := c.so,
                         tn := c.so || (c.tN && c.qn), pn := false, qn := false, cn := 0 }
          else .error "operand of BETWEEN"
        else .error "right operand"
      | .bin =>
        if c.ltQ then
          if isKey k .k_right && nr then
            .ok { v with kind := .op .bin false, so := c.so, cl := false, tq := c.so, tc := c.so,
                         tn := c.so || (c.tN && c.qn), pn := false, qn := false, cn := 0 }
          else .error "operand of binary operator"
        else .error "right operand"
  | _ => .error "operand of unknown node"

/-- The node gets an `ASC` etc. -/
def orderNV (v : NV) : NV :=
  { v with kind := (match v.kind with | .un => .any | k => k), so := true }

/-- The variable as a node. -/
def lookNV (x : Var) (a : PState) : NV :=
  match look x a.vars with
  | .node v => v
  | _ => .any

/-- `push_node`. -/
def apush (x : Var) (k : Key) (c : PV) (a : PState) : R PState :=
  if operandKey k then
    match pushOperand a.t0 k c.nv (lookNV x a) with
    | .error e => .error e
    | .ok v => .ok (setVar x (.node v) a)
  else if orderKey k then .ok (setVar x (.node (orderNV (lookNV x a))) a)
  else .ok a

/-- `push_node_vec`. -/
def apushVec (x : Var) (k : Key) (c : PV) (a : PState) : R PState :=
  if operandKey k then
    match (lookNV x a).kind with
    | .nonop => .ok a
    | _ => .error "array of operands"
  else if orderKey k then
    match c with
    | .vec1 => .ok (setVar x (.node (orderNV (lookNV x a))) a)
    | _ => .ok (setVar x .top a)
  else .ok a

/-- `node_type = nt`. -/
def asetType (x : Var) (nt : NodeType) (a : PState) : R PState :=
  if nonopTy nt then .ok (setVar x (.node .nonop) a)
  else if tyEq nt .UnaryOperator then
    match (lookNV x a).kind with
    | .preN cur m => .ok (setVar x (.node { NV.any with kind := .preU cur m, ltc := some 0 }) a)
    | .un => .ok a
    | _ => .error "UnaryOperator"
  else .error "setType"

/-- `next_token`. -/
def anext (a : PState) : PState :=
  { a with t0 := a.t1, t1 := TOP, np := false, cp := a.np, clt := a.np && a.qlt,
           vars := mapNV (NV.next a.t0) a.vars }

/-- Outcome of a command; values returned come with the state. -/
structure POut where
  norm : O
  brk : O
  ret : List (PV × PState)
  deriving Repr, Inhabited

/-- Only a normal end. -/
def POut.normal (a : PState) : POut := ⟨some a, none, []⟩

/-- Join of outcomes. -/
def joinOut (a b : POut) : R POut :=
  match join a.norm b.norm with
  | .error e => .error e
  | .ok n => match join a.brk b.brk with
    | .error e => .error e
    | .ok k => .ok ⟨n, k, a.ret ++ b.ret⟩

/-- Run on a state, if reachable. -/
def runO (f : PState → R POut) : O → R POut
  | none => .ok ⟨none, none, []⟩
  | some a => f a

/-- Inclusion of optional states. -/
def oLe : O → PState → Bool
  | none, _ => true
  | some a, b => a.le b

/-- Iterate a loop body until the state is stable. -/
def fixLoop (body : PState → R POut) : Nat → PState → R (PState × POut)
  | 0, _ => .error "no fixpoint"
  | n + 1, i =>
    match body i with
    | .error e => .error e
    | .ok o =>
      if oLe o.norm i then .ok (i, o)
      else match join (some i) o.norm with
        | .error e => .error e
        | .ok none => .error "no fixpoint"
        | .ok (some j) => fixLoop body n j

/-- The analysis of commands. -/
def aexec (T : Fn → Sum) : Cmd → PState → R POut
  | .skip, a => .ok (.normal a)
  | .seq c d, a => match aexec T c a with
    | .error e => .error e
    | .ok o => match runO (aexec T d) o.norm with
      | .error e => .error e
      | .ok o' => joinOut ⟨none, o.brk, o.ret⟩ o'
  | .next, a => .ok (.normal (anext a))
  | .set x e, a => match aeval T e a with
    | .error e => .error e
    | .ok (v, b) => .ok (.normal (setVar x v b))
  | .push x k e, a => match aeval T e a with
    | .error e => .error e
    | .ok (v, b) => match apush x k v b with
      | .error e => .error e
      | .ok b => .ok (.normal b)
  | .pushVec x k e, a => match aeval T e a with
    | .error e => .error e
    | .ok (v, b) => match apushVec x k v b with
      | .error e => .error e
      | .ok b => .ok (.normal b)
  | .append x e, a => match aeval T e a with
    | .error e => .error e
    | .ok (_, b) => .ok (.normal (setVar x .vec1 b))
  | .setType x nt, a => match asetType x nt a with
    | .error e => .error e
    | .ok b => .ok (.normal b)
  | .ite c d e, a => match assume c a with
    | .error e => .error e
    | .ok (t, f) => match runO (aexec T d) t with
      | .error e => .error e
      | .ok o => match runO (aexec T e) f with
        | .error e => .error e
        | .ok o' => joinOut o o'
  | .loop c, a => match fixLoop (aexec T c) 10 a with
    | .error e => .error e
    | .ok (_, o) => .ok ⟨o.brk, none, o.ret⟩
  | .brk, a => .ok ⟨none, some a, []⟩
  | .ret e, a => match aeval T e a with
    | .error e => .error e
    | .ok (v, b) => .ok ⟨none, none, [(v, b)]⟩
  | .fail _ _, _ => .ok ⟨none, none, []⟩
  | .scan x _ _ c, a =>
    match fixLoop (fun b => match aexec T c (setVar x .top b) with
      | .error e => .error e
      | .ok o => .ok o) 10 a with
    | .error e => .error e
    | .ok (i, o) => match join (some i) o.brk with
      | .error e => .error e
      | .ok n => .ok ⟨n, none, o.ret⟩
  | .drain v x c, a =>
    match fixLoop (fun b => aexec T c (setVar x .top b)) 10 (setVar v .top a) with
    | .error e => .error e
    | .ok (i, o) => match join (some i) o.brk with
      | .error e => .error e
      | .ok n => .ok ⟨n, none, o.ret⟩
  | .tryElse x f args h, a => match acall T f args a with
    | .error e => .error e
    | .ok (v, b) => match aexec T h a with
      | .error e => .error e
      | .ok o => joinOut (.normal (setVar x v b)) o

/-- The classes of the current token at the start of an operator function. -/
def opMask : Mask := kwMask [.sym_star, .sym_slash, .sym_concat, .sym_plus, .sym_minus, .sym_shl, .sym_shr,
  .sym_amp, .sym_caret, .sym_bar, .sym_eq, .sym_lt, .sym_gt, .sym_le, .sym_ge, .sym_ne, .sym_ltgt, .LIKE, .IS,
  .AND, .OR, .sym_arrow]

/-- The summaries. -/
def summary : Fn → Sum
  | .parse_expr => .expr
  | .parse_binary_operator => .oper opMask
  | .parse_between_operator => .oper (kwMask [.BETWEEN])
  | .parse_in_operator => .oper (kwMask [.IN])
  | .parse_is_distinct_from_operator => .oper (kwMask [.IS])
  | .parse_identifier => .closed
  | .parse_single_or_multi_token_identifier
  | .parse_grouped_exprs | .parse_select_statement | .parse_set_operator | .parse_pipe_statement
  | .parse_from_statement => .nonop
  | _ => .plain

/-- The state in which nothing is known. -/
def start (vs : List (Var × PV)) : PState := ⟨TOP, TOP, false, false, false, false, none, vs⟩

/-- Run a body; a value must be returned, and all values must be as required. -/
def checkBody (T : Fn → Sum) (c : Cmd) (a : PState) (ok : PV → Bool) : Bool :=
  match aexec T c a with
  | .error _ => false
  | .ok o => o.ret.all fun e => ok e.1

/-- The variables are different. -/
def distinct : List Var → Bool
  | [] => true
  | x :: r => (r.all fun y => !Nat.beq x y) && distinct r

/-- The result of `parse_expr`. -/
def exprOk (v : PV) : Bool := v.nv.ltP && v.nv.tN && (v.nv.pn || v.nv.so)

/-- The check of a function. -/
def checkFun (T : Fn → Sum) (defs : Fn → FunDef) (f : Fn) : Bool :=
  let d := defs f
  match T f with
  | .plain => checkBody T d.body (start []) fun _ => true
  | .nonop => checkBody T d.body (start []) fun v => v.nv.le .nonop
  | .closed => checkBody T d.body (start []) fun v => v.nv.cl
  | .expr => match d.params with
    | x :: y :: z :: w :: _ =>
      distinct [x, y, z, w] &&
      checkBody T d.body (start [(x, .natp), (y, .bool false), (z, .bool false), (w, .bool false)]) exprOk &&
      checkBody T d.body (start [(x, .natp), (y, .bool false), (z, .bool false), (w, .bool true)]) exprOk &&
      checkBody T d.body (start [(x, .natp), (w, .bool false)]) (fun _ => true) &&
      checkBody T d.body (start [(x, .natp), (w, .bool true)]) fun _ => true
    | _ => false
  | .oper m => match d.params with
    | [x] =>
      checkBody T d.body { start [(x, .node { NV.any with tc := true, ltp := true })] with t0 := m, clt := true }
        (fun v => v.nv.ltP && v.nv.tN) &&
      checkBody T d.body { start [(x, .node { NV.any with tc := true })] with t0 := m } fun v => v.nv.tN
    | _ => false

end Verif.PI
