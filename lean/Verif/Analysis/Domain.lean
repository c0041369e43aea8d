import Verif.Analysis.Allow
import Verif.Analysis.Roles
/-!
An abstract interpreter for the command language.  It follows all paths of a function body, keeping for
every live variable the possible node types, the child keys that may or must be present, the possible
tokens, and whether the current token has already been put into a node.  It is not trusted: its soundness
is proved in Verif.Proofs.Sound*, and its verdict on the program is computed by the kernel.
-/
namespace Verif.AI

/-- Sets of small numbers as bit masks. -/
abbrev Mask := Nat

/-- The mask with one element. -/
def bit (i : Nat) : Mask := 1 <<< i
/-- Inclusion of masks. -/
def Mask.le (a b : Mask) : Bool := Nat.beq (a &&& b) a
/-- Membership in a mask. -/
def Mask.has (a : Mask) (i : Nat) : Bool := Nat.testBit a i

/-- Class of a token that is no keyword or symbol. -/
def OTHER : Nat := 300
/-- Class of a node without token. -/
def NOTOK : Nat := 301
/-- All classes of tokens. -/
def TOP : Mask := 2 ^ 301 - 1

/-- Mask of a key. -/
def kbit (k : Key) : Mask := bit k.ctorIdx
/-- Mask of a list of keys. -/
def keysMask : List Key → Mask
  | [] => 0
  | k :: ks => kbit k ||| keysMask ks
/-- Mask of a list of keywords. -/
def kwMask : List Kw → Mask
  | [] => 0
  | k :: ks => bit k.ctorIdx ||| kwMask ks

/-- An abstract node: its type, the keys that may hold a single node / an array, the keys that are
present for sure, and the possible classes of its token. -/
structure Alt where
  ty : NodeType
  mN : Mask
  mV : Mask
  must : Mask
  lit : Mask
  deriving Repr, Inhabited

/-- Abstract values. -/
inductive AVal
  /-- an owned node described by one of the alternatives; everything below it is closed -/
  | node (as : List Alt)
  /-- an owned node of unknown type that is closed -/
  | closed
  /-- an owned vector of nodes; `z`, `o`, `m`: can it have zero, one, more elements? -/
  | vec (as : List Alt) (z o m : Bool)
  | bool (b : Option Bool)
  | nat
  | str
  | kws
  deriving Repr, Inhabited

/-- Has the current token been put into a node?  `fresh x`: yes, into the node in `x`, to which nothing
was added. -/
inductive Cov
  | unc
  | cov
  | fresh (x : Var)
  deriving Repr, Inhabited

/-- Abstract states. -/
structure AState where
  cov : Cov
  t0 : Mask
  t1 : Mask
  vars : List (Var × AVal)
  deriving Repr, Inhabited

/-- What the analysis knows about one function in one context. -/
structure Entry where
  /-- has the current token already been used by the caller? -/
  used : Bool
  args : List AVal
  t0 : Mask
  t1 : Mask
  res : AVal
  p0 : Mask
  p1 : Mask
  deriving Repr, Inhabited

/-- Reasons to reject; `missing` drives the (untrusted) search for contexts. -/
inductive AErr
  | msg (s : String)
  | unclosed (as : List Alt)
  | badChild (k : Key) (as : List Alt) (v : AVal)
  | badType (nt : NodeType) (as : List Alt)
  | missing (f : Fn) (used : Bool) (args : List AVal) (t0 t1 : Mask)
  deriving Repr, Inhabited

/-- Results of the analysis. -/
abbrev R := Except AErr

/-- Reject. -/
def bad {α : Type} (s : String) : R α := .error (.msg s)

/-- Equality of node types through their index. -/
def tyEq (a b : NodeType) : Bool := Nat.beq a.ctorIdx b.ctorIdx

/-- Can a node of this type with (at least) these keys have lost tokens other than semicolons? -/
def dirtyT (ty : NodeType) (m : Mask) : Bool :=
  tyEq ty .Type && m.has Key.k_primarykey.ctorIdx && m.has Key.k_references.ctorIdx &&
    m.has Key.k_enforced.ctorIdx

/-- Can a node of this type with (at least) these keys have lost tokens?  See `Spec.Lossy`. -/
def dirtyK (ty : NodeType) (m : Mask) : Bool :=
  (tyEq ty .MergeStatement && m.has Key.k_semicolon.ctorIdx) ||
  ((tyEq ty .FromStatement || tyEq ty .PipeStatement) && m.has Key.k_leading_label.ctorIdx &&
    m.has Key.k_semicolon.ctorIdx) ||
  dirtyT ty m

/-- The keys of comments. -/
def commentKeys : Mask := keysMask [.k_leading_comments, .k_trailing_comments]

namespace Alt
/-- Possibly lossy. -/
def dirtyMay (a : Alt) : Bool := dirtyK a.ty (a.mN ||| a.mV)
/-- Inclusion. -/
def le (a b : Alt) : Bool :=
  tyEq a.ty b.ty && a.mN.le b.mN && a.mV.le b.mV && b.must.le a.must && a.lit.le b.lit
/-- Does the node conform to the declared children? -/
def closeOk (a : Alt) : Bool :=
  a.mN.le (allowN a.ty) && a.mV.le (allowV a.ty) && Mask.le (needed a.ty) a.must &&
    a.lit.le (allowT a.ty)
/-- `push_node`. -/
def pushNode (k : Key) (a : Alt) : R Alt :=
  if (a.mN ||| a.mV).has k.ctorIdx && !(dirtyT a.ty (a.must ||| kbit k) ||
      (Nat.beq k.ctorIdx Key.k_semicolon.ctorIdx && dirtyK a.ty (a.must ||| kbit k))) then
    bad s!"overwrites {reprStr k} of {reprStr a.ty}"
  else .ok ⟨a.ty, a.mN ||| kbit k, a.mV, a.must ||| kbit k, a.lit⟩
/-- `push_node_vec`. -/
def pushVec (k : Key) (a : Alt) : R Alt :=
  if (a.mN ||| a.mV).has k.ctorIdx && !dirtyT a.ty (a.must ||| kbit k) then
    bad s!"overwrites {reprStr k} of {reprStr a.ty}"
  else .ok ⟨a.ty, a.mN, a.mV ||| kbit k, a.must ||| kbit k, a.lit⟩
/-- A leaf: nothing below it but comments. -/
def leaf (a : Alt) : Bool := tyEq a.ty .Symbol && Nat.beq a.mN 0 && a.mV.le commentKeys
end Alt

/-- The allowed types of a child, if restricted. -/
def lookupRestr (k : Nat) : List (Nat × Mask) → Option Mask
  | [] => none
  | (k', m) :: r => if Nat.beq k k' then some m else lookupRestr k r

/-- Does a child described by `c` fit the requirement, if it has the type? -/
def OfType.fits (c : Alt) (s : OfType) : Bool :=
  !Nat.beq s.cty c.ty.ctorIdx || (Mask.le s.must c.must && c.lit.le s.ctok)

/-- Does a child described by `c` fit the role? -/
def Role.fits (r : Role) (c : Alt) : Bool :=
  Mask.has r.ctys c.ty.ctorIdx && c.lit.le r.ctok && Mask.le (c.mN ||| c.mV) r.ckeys && r.subs.all (OfType.fits c)

/-- Does the role concern the children under key `k` of a node described by `a`? -/
def Role.applies (r : Role) (k : Nat) (lit : Mask) : Bool :=
  Nat.beq r.key k && !Nat.beq (r.ptok &&& lit) 0

/-- Is the requirement `s'` at least as strict as `s`? -/
def OfType.stricter (s s' : OfType) : Bool :=
  Nat.beq s'.cty s.cty && Mask.le s.must s'.must && Mask.le s'.ctok s.ctok

/-- Is the role `r'` at least as strict as `r`? -/
def Role.stricter (r' r : Role) : Bool :=
  Nat.beq r'.key r.key && Mask.le r'.ctys r.ctys && Mask.le r'.ctok r.ctok && Mask.le r'.ckeys r.ckeys &&
    r.subs.all fun s => !Mask.has r'.ctys s.cty || r'.subs.any s.stricter

/-- The tokens of parents for which one of the roles in the list is at least as strict as `r`. -/
def Role.covered (r : Role) : List Role → Mask
  | [] => 0
  | r' :: l => if r'.stricter r then r'.ptok ||| r.covered l else r.covered l

/-- May children described by `cs` be put under key `k` of a node described by `a`? -/
def childOk (k : Key) (cs : List Alt) (a : Alt) : Bool :=
  (match lookupRestr k.ctorIdx (restr a.ty) with
  | none => true
  | some m => cs.all fun c => m.has c.ty.ctorIdx) &&
  (roles a.ty).all fun r => !r.applies k.ctorIdx a.lit || cs.all r.fits

/-- May any closed child be put under key `k`? -/
def childAny (k : Key) (a : Alt) : Bool :=
  (match lookupRestr k.ctorIdx (restr a.ty) with
  | none => true
  | some _ => false) &&
  (roles a.ty).all fun r => !r.applies k.ctorIdx a.lit

/-- Are the children still allowed when the type changes from `old` to `nt`?  `may`: the keys, `lit`: the
classes of the token. -/
def childStay (old nt : NodeType) (may lit : Mask) : Bool :=
  ((restr nt).all fun p => !may.has p.1 || match lookupRestr p.1 (restr old) with
    | none => false
    | some m => m.le p.2) &&
  (roles nt).all fun r => !may.has r.key || !r.applies r.key lit || Mask.le (r.ptok &&& lit) (r.covered (roles old))

/-- Inclusion of lists of alternatives. -/
def altsLe (as bs : List Alt) : Bool := as.all fun a => bs.any fun b => a.le b

/-- `mapM` on lists. -/
def mapR {α β : Type} (f : α → R β) : List α → R (List β)
  | [] => .ok []
  | a :: as => match f a with
    | .error e => .error e
    | .ok b => match mapR f as with
      | .error e => .error e
      | .ok bs => .ok (b :: bs)

namespace AVal
/-- A value that owns no token. -/
def free : AVal → Bool
  | .node as => as.all fun a => a.lit.le (bit NOTOK) && Nat.beq a.mN 0 && Nat.beq a.mV 0
  | .closed => false
  | .vec _ _ o m => !o && !m
  | _ => true
/-- Inclusion. -/
def le : AVal → AVal → Bool
  | .node as, .node bs => altsLe as bs
  | .node as, .closed => as.all Alt.closeOk
  | .closed, .closed => true
  | .vec as z o m, .vec bs z' o' m' => altsLe as bs && (!z || z') && (!o || o') && (!m || m')
  | .bool _, .bool none => true
  | .bool (some a), .bool (some b) => a == b
  | .nat, .nat => true
  | .str, .str => true
  | .kws, .kws => true
  | _, _ => false
end AVal

/-- Inclusion of argument lists. -/
def argsLe : List AVal → List AVal → Bool
  | [], [] => true
  | a :: as, b :: bs => a.le b && argsLe as bs
  | _, _ => false

/-- Inclusion of variable maps; variables missing on the right must own no token. -/
def varsLe : List (Var × AVal) → List (Var × AVal) → Bool
  | [], [] => true
  | [], _ :: _ => false
  | (_, v) :: r, [] => v.free && varsLe r []
  | (x, v) :: r, (y, u) :: r' =>
    if Nat.beq x y then v.le u && varsLe r r'
    else v.free && varsLe r ((y, u) :: r')

/-- Inclusion of coverage. -/
def Cov.le : Cov → Cov → Bool
  | .unc, .unc => true
  | .cov, .cov => true
  | .fresh _, .cov => true
  | .fresh x, .fresh y => Nat.beq x y
  | _, _ => false

/-- Inclusion of states. -/
def AState.le (a b : AState) : Bool :=
  a.cov.le b.cov && a.t0.le b.t0 && a.t1.le b.t1 && varsLe a.vars b.vars

/-! ### Joins (not trusted: the result is checked with `le`). -/

/-- Keys whose presence is not blurred by joins. -/
def tracked (ty : NodeType) : Mask :=
  if tyEq ty .Type then keysMask [.k_primarykey, .k_references, .k_enforced] else kbit .k_leading_label

/-- Add an alternative, keeping the list sorted by type. -/
def addAlt (b : Alt) : List Alt → List Alt
  | [] => [b]
  | a :: r =>
    if Nat.blt b.ty.ctorIdx a.ty.ctorIdx then b :: a :: r
    else if tyEq a.ty b.ty && Nat.beq (a.mN &&& tracked a.ty) (b.mN &&& tracked a.ty) &&
        Nat.beq (a.must &&& tracked a.ty) (b.must &&& tracked a.ty) then
      ⟨a.ty, a.mN ||| b.mN, a.mV ||| b.mV, a.must &&& b.must, a.lit ||| b.lit⟩ :: r
    else a :: addAlt b r

/-- Join. -/
def joinAlts (as bs : List Alt) : List Alt := bs.foldl (fun acc b => addAlt b acc) as

/-- Join of values; `none`: no join exists (or is wanted). -/
def joinVal (weak : Bool) : AVal → AVal → Option AVal
  | .node as, .node bs => some (.node (joinAlts as bs))
  | .node as, .closed => if as.all Alt.closeOk then some .closed else none
  | .closed, .node as => if as.all Alt.closeOk then some .closed else none
  | .closed, .closed => some .closed
  | .vec as z o m, .vec bs z' o' m' => some (.vec (joinAlts as bs) (z || z') (o || o') (m || m'))
  | .bool a, .bool b => if a == b then some (.bool a) else if weak || a.isNone || b.isNone then
      some (.bool none) else none
  | .nat, .nat => some .nat
  | .str, .str => some .str
  | .kws, .kws => some .kws
  | _, _ => none

/-- Join of variable maps (sorted by variable). -/
def joinVars (weak : Bool) : Nat → List (Var × AVal) → List (Var × AVal) → Option (List (Var × AVal))
  | 0, _, _ => none
  | _ + 1, [], [] => some []
  | n + 1, (x, v) :: r, [] => if v.free then joinVars weak n r [] else none
  | n + 1, [], (y, u) :: r => if u.free then joinVars weak n [] r else none
  | n + 1, (x, v) :: r, (y, u) :: r' =>
    if Nat.beq x y then
      match joinVal weak v u with
      | none => match v with
        | .bool _ => none
        | _ => if v.free && u.free then joinVars weak n r r' else none
      | some w => match joinVars weak n r r' with
        | none => none
        | some l => some ((x, w) :: l)
    else if Nat.blt x y then
      if v.free then joinVars weak n r ((y, u) :: r') else none
    else if u.free then joinVars weak n ((x, v) :: r) r' else none

/-- Join of states. -/
def joinState (weak : Bool) (a b : AState) : Option AState :=
  let c : Option Cov := match a.cov, b.cov with
    | .unc, .unc => some .unc
    | .unc, _ => none
    | _, .unc => none
    | .fresh x, .fresh y => some (if Nat.beq x y then .fresh x else .cov)
    | _, _ => some .cov
  match c with
  | none => none
  | some c => match joinVars weak 100 a.vars b.vars with
    | none => none
    | some v => some ⟨c, a.t0 ||| b.t0, a.t1 ||| b.t1, v⟩

/-- Insert a state into a list of states, joining it with the first compatible one. -/
def insertState (weak : Bool) (s : AState) : List AState → List AState
  | [] => [s]
  | a :: r => match joinState weak a s with
    | some j => j :: r
    | none => a :: insertState weak s r

/-- Shorten a list of states. -/
def mergeRaw (weak : Bool) (l : List AState) : List AState :=
  l.foldl (fun acc s => insertState weak s acc) []

/-- Shorten a list of states and check that nothing was lost. -/
def merge (weak : Bool) (l : List AState) : R (List AState) :=
  match l with
  | [] => .ok []
  | [s] => .ok [s]
  | _ =>
    let m := mergeRaw weak l
    if l.all fun s => m.any fun t => s.le t then .ok m else bad "merge"

/-! ### Transfer functions -/

/-- Remove a variable. -/
def take (x : Var) : List (Var × AVal) → Option (AVal × List (Var × AVal))
  | [] => none
  | (y, v) :: r =>
    if Nat.beq x y then some (v, r)
    else match take x r with
      | some (u, r') => some (u, (y, v) :: r')
      | none => none

/-- Insert a variable (sorted). -/
def insertVar (x : Var) (v : AVal) : List (Var × AVal) → List (Var × AVal)
  | [] => [(x, v)]
  | (y, u) :: r => if Nat.blt x y then (x, v) :: (y, u) :: r else (y, u) :: insertVar x v r

/-- Value of a variable. -/
def get (a : AState) (x : Var) : R AVal :=
  match take x a.vars with
  | some (v, _) => .ok v
  | none => bad s!"variable {x} is not available"

/-- Forget that a node is fresh. -/
def commit (c : Cov) : Cov :=
  match c with
  | .fresh _ => .cov
  | c => c

/-- Is it fresh? -/
def isFresh (c : Cov) (x : Var) : Bool :=
  match c with
  | .fresh y => Nat.beq x y
  | _ => false

/-- Is the coverage `unc`? -/
def isUnc (c : Cov) : Bool :=
  match c with
  | .unc => true
  | _ => false

/-- Forget a variable. -/
def dropVar (x : Var) (a : AState) : R AState :=
  match take x a.vars with
  | none => .ok a
  | some (v, r) =>
    if isFresh a.cov x then
      match v with
      | .node as =>
        if as.any Alt.dirtyMay then bad s!"drops lossy variable {x}" else .ok ⟨.unc, a.t0, a.t1, r⟩
      | _ => bad "fresh"
    else if v.free then .ok ⟨a.cov, a.t0, a.t1, r⟩
    else bad s!"drops variable {x}"

/-- Assign a variable. -/
def setVar (x : Var) (v : AVal) (a : AState) : R AState :=
  match dropVar x a with
  | .error e => .error e
  | .ok a => match take x a.vars with
    | some _ => bad "duplicate"
    | none =>
      if isFresh a.cov x then bad "stale" else .ok ⟨a.cov, a.t0, a.t1, insertVar x v a.vars⟩

/-- Drop the fresh node if there is one. -/
def dropFresh (a : AState) : R AState :=
  match a.cov with
  | .fresh x => match dropVar x a with
    | .error e => .error e
    | .ok b => if isUnc b.cov then .ok b else bad "dropFresh"
  | _ => .ok a

/-- Make the current token available for a node. -/
def needUnc (a : AState) : R AState :=
  match dropFresh a with
  | .error e => .error e
  | .ok b => if isUnc b.cov then .ok b else bad "the current token is already used"

/-- Node types that `construct`, `empty` and assignments must not produce. -/
def typeOk (nt : NodeType) : Bool :=
  !(tyEq nt .EOF || tyEq nt .Comment || tyEq nt .NullLiteral || tyEq nt .BooleanLiteral ||
    tyEq nt .Parameter || tyEq nt .Template)

/-- Alternatives of `construct_node(nt)` on a token of the classes `t0`. -/
def constructAlts (nt : NodeType) (t0 : Mask) : List Alt :=
  if tyEq nt .Unknown then
    [⟨.BooleanLiteral, 0, commentKeys, 0, t0⟩, ⟨.Identifier, 0, commentKeys, 0, t0⟩,
     ⟨.NumericLiteral, 0, commentKeys, 0, t0⟩, ⟨.NullLiteral, 0, commentKeys, 0, t0⟩,
     ⟨.Parameter, 0, commentKeys, 0, t0⟩, ⟨.StringLiteral, 0, commentKeys, 0, t0⟩,
     ⟨.Template, 0, commentKeys, 0, t0⟩, ⟨.Unknown, 0, commentKeys, 0, t0⟩]
  else [⟨nt, 0, commentKeys, 0, t0⟩]

/-- `construct_node(nt)`. -/
def aconstruct (nt : NodeType) (a : AState) : R (AVal × AState) :=
  match needUnc a with
  | .error e => .error e
  | .ok a =>
    if typeOk nt && !tyEq nt .Asterisk then
      .ok (.node (constructAlts nt a.t0), ⟨.cov, a.t0, a.t1, a.vars⟩)
    else bad "construct type"

/-- Intersect the classes of the token of a fresh node. -/
def refineAlts (m : Mask) : List Alt → List Alt
  | [] => []
  | a :: r => ⟨a.ty, a.mN, a.mV, a.must, a.lit &&& m⟩ :: refineAlts m r

/-- Refine the classes of the token of the node in `x`. -/
def refineVar (x : Var) (m : Mask) : List (Var × AVal) → List (Var × AVal)
  | [] => []
  | (y, v) :: r =>
    if Nat.beq x y then
      (y, match v with
        | .node as => .node (refineAlts m as)
        | v => v) :: r
    else (y, v) :: refineVar x m r

/-- Learn that the current token is in `m`. -/
def refine0 (m : Mask) (a : AState) : List AState :=
  let t := a.t0 &&& m
  if Nat.beq t 0 then []
  else [⟨a.cov, t, a.t1, match a.cov with
    | .fresh x => refineVar x m a.vars
    | _ => a.vars⟩]

/-- Learn that the next token is in `m`. -/
def refine1 (m : Mask) (a : AState) : List AState :=
  let t := a.t1 &&& m
  if Nat.beq t 0 then [] else [⟨a.cov, a.t0, t, a.vars⟩]

/-- Learn something about the token at an offset. -/
def refineOff (o : Off) (m : Mask) (a : AState) : List AState :=
  match o with
  | .lit 0 => refine0 m a
  | .lit 1 => refine1 m a
  | _ => [a]

/-- The offset has a value. -/
def offOk (a : AState) : Off → Bool
  | .lit _ => true
  | .var x _ => match take x a.vars with
    | some (.nat, _) => true
    | _ => false

/-- Keywords that contain no letter. -/
def isSym (k : Kw) : Bool := Nat.ble k.ctorIdx Kw.sym_quest.ctorIdx || Nat.ble Kw.sym_lbrack.ctorIdx k.ctorIdx

/-- Replace the value of a variable without changing what it owns. -/
def replaceVar (x : Var) (u : AVal) : List (Var × AVal) → List (Var × AVal)
  | [] => []
  | (y, v) :: r => if Nat.beq x y then (y, u) :: r else (y, v) :: replaceVar x u r

/-- Result of assuming a condition: the states in which it is true and in which it is false. -/
abbrev TF := List AState × List AState

/-- No information. -/
def both (a : AState) : R TF := .ok ([a], [a])

/-- Apply a test to several states. -/
def assumeAll (f : AState → R TF) : List AState → R TF
  | [] => .ok ([], [])
  | a :: r => match f a with
    | .error e => .error e
    | .ok (t, s) => match assumeAll f r with
      | .error e => .error e
      | .ok (t', s') => .ok (t ++ t', s ++ s')

/-- Split a state by a condition. -/
def assume : Cond → AState → R TF
  | .up o ks, a =>
    if offOk a o then .ok (refineOff o (kwMask ks) a, refineOff o (TOP ^^^ kwMask ks) a) else bad "off"
  | .raw o ks, a =>
    if offOk a o then
      .ok (refineOff o (kwMask ks) a,
        if ks.all isSym then refineOff o (TOP ^^^ kwMask ks) a else [a])
    else bad "off"
  | .upVar o x, a => if offOk a o then match get a x with
      | .ok .kws => both a
      | _ => bad "upVar" else bad "off"
  | .isIdent o, a | .isStr o, a | .isNum o, a | .eof o, a | .hasTok o, a =>
    if offOk a o then both a else bad "off"
  | .bvar x, a => match get a x with
    | .ok (.bool (some true)) => .ok ([a], [])
    | .ok (.bool (some false)) => .ok ([], [a])
    | .ok (.bool none) => both a
    | _ => bad s!"bvar {x}"
  | .const b, a => .ok (if b then ([a], []) else ([], [a]))
  | .precLt x, a => match get a x with
    | .ok .nat => both a
    | _ => bad "precLt"
  | .lenPos x, a => match get a x with
    | .ok (.vec as z o m) =>
      .ok (if o || m then [⟨a.cov, a.t0, a.t1, replaceVar x (.vec as false o m) a.vars⟩] else [],
        if z then [⟨a.cov, a.t0, a.t1, replaceVar x (.vec as true false false) a.vars⟩] else [])
    | _ => bad "lenPos"
  | .lenOne x, a => match get a x with
    | .ok (.vec as z o m) =>
      .ok (if o then [⟨a.cov, a.t0, a.t1, replaceVar x (.vec as false true false) a.vars⟩] else [],
        if z || m then [⟨a.cov, a.t0, a.t1, replaceVar x (.vec as z false m) a.vars⟩] else [])
    | _ => bad "lenOne"
  | .strIs x _, a => match get a x with
    | .ok .str => both a
    | _ => bad "strIs"
  | .typeIs x nt, a => match get a x with
    | .ok (.node as) =>
      .ok ([⟨a.cov, a.t0, a.t1, replaceVar x (.node (as.filter fun b => tyEq b.ty nt)) a.vars⟩],
        [⟨a.cov, a.t0, a.t1, replaceVar x (.node (as.filter fun b => !tyEq b.ty nt)) a.vars⟩])
    | _ => bad "typeIs"
  | .leftmostIs x _, a => match get a x with
    | .ok (.node _) => both a
    | .ok .closed => both a
    | _ => bad "leftmostIs"
  | .hasAnyKey x ks, a => match get a x with
    | .ok (.node as) =>
      .ok ([a], [⟨a.cov, a.t0, a.t1, replaceVar x (.node
        ((as.filter fun b => Nat.beq (b.must &&& keysMask ks) 0).map fun b =>
          ⟨b.ty, b.mN &&& (b.mN ^^^ keysMask ks), b.mV &&& (b.mV ^^^ keysMask ks), b.must, b.lit⟩)) a.vars⟩])
    | _ => bad "hasAnyKey"
  | .firstCharIs _, a | .lastCharIs _, a | .adjacent, a => both a
  | .and c d, a => match assume c a with
    | .error e => .error e
    | .ok (t, f) => match assumeAll (assume d) t with
      | .error e => .error e
      | .ok (t', f') => .ok (t', f ++ f')
  | .or c d, a => match assume c a with
    | .error e => .error e
    | .ok (t, f) => match assumeAll (assume d) f with
      | .error e => .error e
      | .ok (t', f') => .ok (t ++ t', f')
  | .not c, a => match assume c a with
    | .error e => .error e
    | .ok (t, f) => .ok (f, t)

/-- Does the value own nodes? -/
def AVal.owns : AVal → Bool
  | .node _ | .closed | .vec .. => true
  | _ => false

/-- Read a variable; nodes and vectors are moved out of it. -/
def readVar (x : Var) (a : AState) : R (AVal × AState) :=
  match take x a.vars with
  | none => bad s!"variable {x} is not available"
  | some (v, r) =>
    if v.owns then .ok (v, ⟨commit a.cov, a.t0, a.t1, r⟩) else .ok (v, a)

/-- Value of an argument. -/
def aatom (t : Atom) (a : AState) : R (AVal × AState) :=
  match t with
  | .var x => readVar x a
  | .bool b => .ok (.bool (some b), a)
  | .nat _ => .ok (.nat, a)
  | .notVar x => match get a x with
    | .ok (.bool b) => .ok (.bool (b.map not), a)
    | _ => bad "notVar"
  | .kws _ => .ok (.kws, a)
  | .strEq x _ => match get a x with
    | .ok .str => .ok (.bool none, a)
    | _ => bad "strEq"

/-- Values of arguments. -/
def aatoms : List Atom → AState → R (List AVal × AState)
  | [], a => .ok ([], a)
  | t :: ts, a => match aatom t a with
    | .error e => .error e
    | .ok (v, a) => match aatoms ts a with
      | .error e => .error e
      | .ok (vs, a) => .ok (v :: vs, a)

/-- A call, looked up in the table. -/
def acall (T : Fn → List Entry) (f : Fn) (args : List Atom) (a : AState) : R (AVal × AState) :=
  match aatoms args a with
  | .error e => .error e
  | .ok (vs, b) => match dropFresh b with
    | .error e => .error e
    | .ok b =>
      match (T f).find? fun e =>
        (e.used != isUnc b.cov) && argsLe vs e.args && b.t0.le e.t0 && b.t1.le e.t1 with
      | some e => .ok (e.res, ⟨.cov, e.p0, e.p1, b.vars⟩)
      | none => .error (.missing f (!isUnc b.cov) vs b.t0 b.t1)

/-- Value of a right-hand side. -/
def aeval (T : Fn → List Entry) : Exp → AState → R (List (AVal × AState))
  | .var x, a => match readVar x a with
    | .error e => .error e
    | .ok r => .ok [r]
  | .construct nt, a => match aconstruct nt a with
    | .error e => .error e
    | .ok r => .ok [r]
  | .empty nt, a =>
    if typeOk nt && !tyEq nt .Asterisk then .ok [(.node [⟨nt, 0, 0, 0, bit NOTOK⟩], a)] else bad "empty"
  | .call f args, a => match acall T f args a with
    | .error e => .error e
    | .ok r => .ok [r]
  | .nilVec, a => .ok [(.vec [] true false false, a)]
  | .pop x, a => match get a x with
    | .ok (.vec as false o m) =>
      .ok [(.node as, ⟨a.cov, a.t0, a.t1, replaceVar x (.vec as o m m) a.vars⟩)]
    | _ => bad "pop"
  | .prec o, a => if offOk a o then .ok [(.nat, a)] else bad "off"
  | .natLit _, a => .ok [(.nat, a)]
  | .boolLit b, a => .ok [(.bool (some b), a)]
  | .kws _, a => .ok [(.kws, a)]
  | .upperLit o, a => if offOk a o then .ok [(.str, a)] else bad "off"
  | .cond c, a => match assume c a with
    | .error e => .error e
    | .ok (t, f) => .ok (t.map (fun s => (.bool (some true), s)) ++ f.map (fun s => (.bool (some false), s)))

/-- Outcome of a command: the states after it, at a `break`, and the results at `return`. -/
structure AOut where
  norm : List AState
  brk : List AState
  ret : List (AVal × Mask × Mask)
  deriving Repr, Inhabited

/-- Only a normal end. -/
def AOut.normal (l : List AState) : AOut := ⟨l, [], []⟩

/-- Union of outcomes. -/
def AOut.append (a b : AOut) : AOut := ⟨a.norm ++ b.norm, a.brk ++ b.brk, a.ret ++ b.ret⟩

/-- Shorten an outcome. -/
def AOut.merge (a : AOut) : R AOut :=
  match AI.merge false a.norm with
  | .error e => .error e
  | .ok n => match AI.merge true a.brk with
    | .error e => .error e
    | .ok b => .ok ⟨n, b, a.ret⟩

/-- Union over a list of states. -/
def runAll {α : Type} (f : α → R AOut) : List α → R AOut
  | [] => .ok ⟨[], [], []⟩
  | a :: r => match f a with
    | .error e => .error e
    | .ok o => match runAll f r with
      | .error e => .error e
      | .ok o' => .ok (o.append o')

/-- Can the value become a child under key `k`? -/
def sepOk (k : Key) : AVal → Bool
  | .node as =>
    as.all Alt.closeOk &&
    (!Nat.beq k.ctorIdx Key.k_semicolon.ctorIdx ||
      as.all fun c => c.leaf && c.lit.le (bit Kw.sym_semi.ctorIdx)) &&
    (!Nat.beq k.ctorIdx Key.k_comma.ctorIdx ||
      as.all fun c => c.leaf && c.lit.le (bit Kw.sym_comma.ctorIdx))
  | .closed => !Nat.beq k.ctorIdx Key.k_semicolon.ctorIdx && !Nat.beq k.ctorIdx Key.k_comma.ctorIdx
  | _ => false

/-- Has the value an allowed type under key `k` of all alternatives? -/
def kidOk (k : Key) (as : List Alt) : AVal → Bool
  | .node cs => as.all (childOk k cs)
  | _ => as.all (childAny k)

/-- `push_node`. -/
def apush (x : Var) (k : Key) (p : AVal × AState) : R AState :=
  let a := p.2
  if commentKeys.has k.ctorIdx then bad "comment key" else
  if sepOk k p.1 then
    match take x a.vars with
    | some (.node as, _) =>
      if kidOk k as p.1 then
        match mapR (Alt.pushNode k) as with
        | .error e => .error e
        | .ok as' => .ok ⟨commit a.cov, a.t0, a.t1, replaceVar x (.node as') a.vars⟩
      else .error (.badChild k as p.1)
    | _ => bad s!"push: {x} is no node"
  else match p.1 with
    | .node as => .error (.unclosed as)
    | _ => bad s!"push {reprStr k}: {reprStr p.1}"

/-- `push_node_vec`. -/
def apushVec (x : Var) (k : Key) (p : AVal × AState) : R AState :=
  let a := p.2
  if commentKeys.has k.ctorIdx || Nat.beq k.ctorIdx Key.k_semicolon.ctorIdx ||
    Nat.beq k.ctorIdx Key.k_comma.ctorIdx then bad "comment key" else
  match p.1 with
  | .vec cs _ _ _ =>
    if cs.all Alt.closeOk then
      match take x a.vars with
      | some (.node as, _) =>
        if !(as.all (childOk k cs)) then .error (.badChild k as (.node cs)) else
        match mapR (Alt.pushVec k) as with
        | .error e => .error e
        | .ok as' => .ok ⟨commit a.cov, a.t0, a.t1, replaceVar x (.node as') a.vars⟩
      | _ => bad s!"pushVec: {x} is no node"
    else .error (.unclosed cs)
  | _ => bad "pushVec"

/-- `push` on a vector. -/
def aappend (x : Var) (p : AVal × AState) : R AState :=
  let a := p.2
  match p.1 with
  | .node cs => match take x a.vars with
    | some (.vec as z o m, _) =>
      let js := joinAlts as cs
      if altsLe as js && altsLe cs js then
        .ok ⟨a.cov, a.t0, a.t1, replaceVar x (.vec js false z (o || m)) a.vars⟩
      else bad "append join"
    | _ => bad "append"
  | _ => bad "append"

/-- `node_type = nt`. -/
def asetType (x : Var) (nt : NodeType) (a : AState) : R AState :=
  match take x a.vars with
  | some (.node as, _) =>
    if typeOk nt && as.all fun b => !b.dirtyMay && childStay b.ty nt (b.mN ||| b.mV) b.lit &&
        (!tyEq nt .Asterisk || b.lit.le (bit Kw.sym_star.ctorIdx)) then
      .ok ⟨a.cov, a.t0, a.t1,
        replaceVar x (.node (as.map fun b => ⟨nt, b.mN, b.mV, b.must, b.lit⟩)) a.vars⟩
    else .error (.badType nt as)
  | _ => bad "setType"

/-- `next_token`. -/
def anext (a : AState) : R AState :=
  match commit a.cov with
  | .cov => .ok ⟨.unc, a.t1, TOP, a.vars⟩
  | _ => bad "skips a token"

/-- Apply a state transformer to all results of an evaluation. -/
def thenAll {α : Type} (r : R (List α)) (f : α → R AState) : R AOut :=
  match r with
  | .error e => .error e
  | .ok l => match mapR f l with
    | .error e => .error e
    | .ok l => .ok (.normal l)

/-- `x = e`. -/
def aset (T : Fn → List Entry) (x : Var) (e : Exp) (a : AState) : R AOut :=
  match e with
  | .construct nt => match aconstruct nt a with
    | .error e => .error e
    | .ok (v, a) => match setVar x v a with
      | .error e => .error e
      | .ok a => .ok (.normal [⟨.fresh x, a.t0, a.t1, a.vars⟩])
  | e => thenAll (aeval T e a) fun p => setVar x p.1 p.2

/-- A state at a `return`. -/
def aret (p : AVal × AState) : R (AVal × Mask × Mask) :=
  match commit p.2.cov with
  | .cov =>
    if p.2.vars.all fun y => y.2.free then .ok (p.1, p.2.t0, p.2.t1)
    else bad s!"return drops a variable: {reprStr (p.2.vars.filter fun y => !y.2.free)}"
  | _ => bad "return before using the current token"

/-- Iterate a loop body until the set of states is stable. -/
def fixLoop (body : List AState → R AOut) : Nat → List AState → R (List AState × AOut)
  | 0, _ => bad "no fixpoint"
  | n + 1, i =>
    match body i with
    | .error e => .error e
    | .ok o =>
      if o.norm.all fun s => i.any fun t => s.le t then .ok (i, o)
      else match merge true (i ++ o.norm) with
        | .error e => .error e
        | .ok j => fixLoop body n j

/-- The upper bound of a `for` loop is a number. -/
def hiOk (hi : Option Atom) (a : AState) : Bool :=
  match hi with
  | none => true
  | some t => match aatom t a with
    | .ok (.nat, _) => true
    | _ => false

/-- The analysis of commands. -/
def aexec (T : Fn → List Entry) : Cmd → AState → R AOut
  | .skip, a => .ok (.normal [a])
  | .seq c d, a => match aexec T c a with
    | .error e => .error e
    | .ok o => match runAll (aexec T d) o.norm with
      | .error e => .error e
      | .ok o' => (AOut.append ⟨[], o.brk, o.ret⟩ o').merge
  | .next, a => match anext a with
    | .error e => .error e
    | .ok b => .ok (.normal [b])
  | .set x e, a => aset T x e a
  | .push x k e, a => thenAll (aeval T e a) (apush x k)
  | .pushVec x k e, a => thenAll (aeval T e a) (apushVec x k)
  | .append x e, a => thenAll (aeval T e a) (aappend x)
  | .setType x nt, a => match asetType x nt a with
    | .error e => .error e
    | .ok b => .ok (.normal [b])
  | .ite c d e, a => match assume c a with
    | .error e => .error e
    | .ok (t, f) => match AI.merge false t, AI.merge false f with
      | .ok t, .ok f => match runAll (aexec T d) t with
        | .error e => .error e
        | .ok o => match runAll (aexec T e) f with
          | .error e => .error e
          | .ok o' => (o.append o').merge
      | _, _ => bad "merge"
  | .loop c, a =>
    match fixLoop (runAll (aexec T c)) 10 [a] with
    | .error e => .error e
    | .ok (_, o) => .ok ⟨o.brk, [], o.ret⟩
  | .brk, a => .ok ⟨[], [a], []⟩
  | .ret e, a => match aeval T e a with
    | .error e => .error e
    | .ok l => match mapR aret l with
      | .error e => .error e
      | .ok r => .ok ⟨[], [], r⟩
  | .fail o _, a => if offOk a o then .ok ⟨[], [], []⟩ else bad "off"
  | .scan x _ hi c, a =>
    if hiOk hi a then
      match fixLoop (runAll fun s => match setVar x .nat s with
          | .error e => .error e
          | .ok s => aexec T c s) 10 [a] with
      | .error e => .error e
      | .ok (i, o) => .ok ⟨o.brk ++ (if hi.isNone then [] else i), [], o.ret⟩
    else bad "scan"
  | .drain v x c, a => match take v a.vars with
    | some (.vec as _ _ _, _) =>
      match fixLoop (runAll fun s => match setVar x (.node as) s with
          | .error e => .error e
          | .ok s => aexec T c s) 10
          [⟨a.cov, a.t0, a.t1, replaceVar v (.vec [] true false false) a.vars⟩] with
      | .error e => .error e
      | .ok (i, o) => match o.brk, o.ret with
        | [], [] => .ok ⟨i, [], []⟩
        | _, _ => bad "drain"
    | _ => bad "drain"
  | .tryElse x f args h, a =>
    match acall T f args a with
    | .error e => .error e
    | .ok (v, b) => match setVar x v b with
      | .error e => .error e
      | .ok b => match aexec T h a with
        | .error e => .error e
        | .ok o => (AOut.append (.normal [b]) o).merge

/-- Parameters bound to abstract arguments. -/
def bindArgs : List Var → List AVal → Option (List (Var × AVal))
  | [], [] => some []
  | x :: xs, v :: vs => match bindArgs xs vs with
    | none => none
    | some r => match take x r with
      | some _ => none
      | none => some (insertVar x v r)
  | _, _ => none

/-- Analyse a function in the context of an entry. -/
def runEntry (T : Fn → List Entry) (defs : Fn → FunDef) (f : Fn) (e : Entry) : R AOut :=
  match bindArgs (defs f).params e.args with
  | none => bad "arity"
  | some vars => aexec T (defs f).body ⟨if e.used then .cov else .unc, e.t0, e.t1, vars⟩

/-- Check an entry of the table. -/
def checkEntry (T : Fn → List Entry) (defs : Fn → FunDef) (f : Fn) (e : Entry) : Bool :=
  match runEntry T defs f e with
  | .error _ => false
  | .ok o =>
    o.norm.isEmpty && o.brk.isEmpty &&
      o.ret.all fun r => r.1.le e.res && r.2.1.le e.p0 && r.2.2.le e.p1

end Verif.AI
