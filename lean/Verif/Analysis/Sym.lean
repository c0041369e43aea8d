import Verif.Model.Lib
/-!
A symbolic evaluator for the parser on a text with gaps.  Of the tokens outside of the gaps it is known which literals
they may have; a gap is an expression, or a list of expressions, of unknown length, which is known to be parsed by one
call.  Nodes are terms over the tokens and the results of the gaps.  The evaluator gives no answer where the outcome
would depend on something unknown.
-/
namespace Verif.Sym
open Core

/-- What a token may be: a literal, `NOT` before `IN`, `LIKE` or `BETWEEN`, or a token of a type that is no word and
no symbol of the parser. -/
inductive Base
  | lit (l : Str)
  | notOp
  | other (ty : NodeType)
  deriving DecidableEq

/-- A node as a term, or a vector of nodes. -/
inductive Term
  /-- the result of a gap -/
  | hole (i : Nat)
  /-- the vector that is the result of a gap -/
  | holes (i : Nat)
  | nil
  | snoc (v n : Term)
  /-- a new node for the token at `i` -/
  | new (i : Nat) (ty : NodeType)
  /-- the same, its type depends on the token and the next one -/
  | newU (i : Nat)
  | empty (ty : NodeType)
  | push (n : Term) (k : Key) (c : Term)
  | pushVec (n : Term) (k : Key) (v : Term)
  | setType (n : Term) (ty : NodeType)
  deriving DecidableEq

/-- What is known of a value. -/
inductive AVal
  | unit
  | node (n : Term)
  | vec (v : Term)
  | bool (b : Bool)
  | nat (n : Nat)
  | str (s : Str)
  /-- a string that is no word of the parser -/
  | strOther
  | kws (ks : List Kw)
  /-- a number between the bounds of the window -/
  | someNat
  /-- the flag of the window -/
  | someBool
  /-- words that begin no expression -/
  | someKws
  deriving DecidableEq

/-- Local variables. -/
abbrev AEnv := Var → AVal

/-- `x = v`. -/
def AEnv.set (env : AEnv) (x : Var) (v : AVal) : AEnv := fun y => if y = x then v else env y

/-- Position in the window, and variables. -/
structure ASt where
  pos : Nat
  env : AEnv

/-- How a command ends. -/
inductive AFlow
  | norm
  | brk
  | ret (v : AVal)

/-- A gap: an expression that is parsed with a bound for the precedence, a list of expressions, or a word with statements after
it, which end before one of the words `ks`.  `al` is the flag for names, if only one value is possible. -/
inductive Gap
  | expr (bound : Nat) (al : Option Bool) (i : Nat)
  | exprs (al : Option Bool) (i : Nat)
  | body (ks : List Kw) (i : Nat)
  deriving DecidableEq

/-- One or more tokens of the text: what the first one may be (nothing is known if the list is empty), and whether a
gap begins with it.  The next cell is then the last token of the gap. -/
structure Cell where
  bases : List Base
  gap : Option Gap

/-- Tokens that begin an expression. -/
def firsts : List Base :=
  [.other .Identifier, .other .NumericLiteral, .other .StringLiteral, .other .Parameter, .lit "TRUE".toList,
    .lit "FALSE".toList, .lit "NULL".toList, .lit "(".toList, .lit "[".toList, .lit "-".toList, .lit "+".toList,
    .lit "~".toList, .lit "NOT".toList, .lit "*".toList, .lit "CASE".toList]

/-- The text that is known.  `leftId`: is the leftmost part of the result of gap 0 an identifier?  `two`: do the lists
in the gaps have two elements at least?  `lo` and `hi` are the bounds of `someNat`. -/
structure Window where
  cells : List Cell
  leftId : Option Bool
  two : Bool
  lo : Nat
  hi : Nat

/-- What the token `k` places after position `i` may be, if something is known. -/
def Window.get (w : Window) (i k : Nat) : Option (List Base) :=
  if ((w.cells.drop i).take k).all (fun c => c.gap.isNone) then
    match w.cells[i + k]? with
    | some ⟨b :: bs, _⟩ => some (b :: bs)
    | _ => none
  else none

/-- The common value of a function. -/
def agree {α : Type} [DecidableEq α] (f : Base → Option α) : List Base → Option α
  | [] => none
  | [b] => f b
  | b :: bs => match f b, agree f bs with
    | some x, some y => if x = y then some x else none
    | _, _ => none

/-- The Unicode tables: only literals that are in upper case are used. -/
abbrev U0 : Unicode := Unicode.sample

/-- A token with this literal. -/
def tk (l : Str) : Token := ⟨0, 0, l⟩

/-- An ASCII letter or `_`, followed by letters, digits and `_`. -/
def wordy : Str → Bool
  | [] => false
  | c :: cs => Token.identStart c && cs.all Token.identRest

namespace Base
/-- The literal, if it is known. -/
def lit? : Base → Option Str
  | .lit l => some l
  | .notOp => some (Kw.lit .NOT)
  | .other _ => none
/-- `inKws`. -/
def inKws (ks : List Kw) (b : Base) : Bool := match b.lit? with
  | some l => (tk l).inKws U0 ks
  | none => false
/-- `literal == k`. -/
def raw (ks : List Kw) (b : Base) : Bool := match b.lit? with
  | some l => ks.any fun k => l == k.lit
  | none => false
/-- `isIdentifier`. -/
def ident : Base → Bool
  | .lit l => (tk l).isIdentifier U0
  | .notOp => false
  | .other ty => ty == .Identifier
/-- `isString`. -/
def str : Base → Bool
  | .lit l => (tk l).isString
  | .notOp => false
  | .other ty => ty == .StringLiteral
/-- `isNumeric`. -/
def num : Base → Bool
  | .lit l => (tk l).isNumeric
  | .notOp => false
  | .other ty => ty == .NumericLiteral
/-- `getPrecedence`. -/
def prec : Base → Option Nat
  | .lit l => if (tk l).inKws U0 [.NOT] then none else some (precTable U0 (tk l))
  | .notOp => some 109
  | .other _ => some usizeMax
/-- `upper`. -/
def upper : Base → AVal
  | .lit l => .str ((tk l).upper U0)
  | .notOp => .str (Kw.lit .NOT)
  | .other _ => .strOther
/-- `classify`, if it does not depend on the next token. -/
def classify : Base → Option NodeType
  | .lit l =>
    let t := tk l
    if t.isIdentifier U0 then some .Identifier
    else if t.isNumeric then some .NumericLiteral
    else if t.isString then some .StringLiteral
    else if t.isBoolean U0 then some .BooleanLiteral
    else if t.isParameter then some .Parameter
    else if t.isTemplate then some .Template
    else if t.upper U0 = Kw.lit .NULL then some .NullLiteral
    else none
  | .notOp => none
  | .other ty => some ty
/-- Is this a word, certainly? -/
def word : Base → Bool
  | .lit l => wordy l
  | .notOp => true
  | .other ty => ty == .Identifier
/-- Is `c` the first character? -/
def firstChar (c : Char) (b : Base) : Option Bool := match b.lit? with
  | some l => l.head?.map (· == c)
  | none => if b.word = true ∧ Token.identRest c = false then some false else none
/-- Is `c` the last character? -/
def lastChar (c : Char) (b : Base) : Option Bool := match b.lit? with
  | some l => l.getLast?.map (· == c)
  | none => if b.word = true ∧ Token.identRest c = false then some false else none
end Base

/-- `evalOff`. -/
def aoff (env : AEnv) : Off → Option Nat
  | .lit n => some n
  | .var x k => match env x with
    | .nat n => some (n + k)
    | _ => none

/-- `offTok`. -/
def atok (w : Window) (s : ASt) (o : Off) : Option (List Base) := (aoff s.env o).bind (w.get s.pos)

/-- `evalAtom`. -/
def aatom (env : AEnv) : Atom → Option AVal
  | .var x => some (env x)
  | .bool b => some (.bool b)
  | .nat n => some (.nat n)
  | .notVar x => match env x with
    | .bool b => some (.bool (!b))
    | _ => none
  | .kws ks => some (.kws ks)
  | .strEq x k => match env x with
    | .str s => some (.bool (s == k.lit))
    | .strOther => some (.bool false)
    | _ => none

/-- `evalAtoms`. -/
def aatoms (env : AEnv) : List Atom → Option (List AVal)
  | [] => some []
  | a :: as => (aatom env a).bind fun v => (aatoms env as).map (v :: ·)

/-- The length of a vector, if it is known. -/
def Term.len : Term → Option Nat
  | .nil => some 0
  | .snoc v _ => v.len.map (· + 1)
  | _ => none

/-- The type of a node, if it is known. -/
def Term.rootTy : Term → Option NodeType
  | .new _ ty => some ty
  | .empty ty => some ty
  | .push n _ _ => n.rootTy
  | .pushVec n _ _ => n.rootTy
  | .setType _ ty => some ty
  | _ => none

/-- `evalCond`. -/
def acond (w : Window) (s : ASt) : Cond → Option Bool
  | .up o ks => (atok w s o).bind (agree fun b => some (b.inKws ks))
  | .raw o ks => (atok w s o).bind (agree fun b => some (b.raw ks))
  | .upVar o x => (atok w s o).bind fun bs => match s.env x with
    | .kws ks => agree (fun b => some (b.inKws ks)) bs
    | .someKws => if bs.all (firsts.contains ·) then some false else none
    | _ => none
  | .isIdent o => (atok w s o).bind (agree fun b => some b.ident)
  | .isStr o => (atok w s o).bind (agree fun b => some b.str)
  | .isNum o => (atok w s o).bind (agree fun b => some b.num)
  | .eof o => (atok w s o).map fun _ => false
  | .hasTok o => (atok w s o).map fun _ => true
  | .bvar x => match s.env x with
    | .bool b => some b
    | _ => none
  | .const b => some b
  | .precLt x => (w.get s.pos 1).bind fun bs => match s.env x with
    | .nat n => agree (fun b => b.prec.map fun p => decide (p < n)) bs
    | .someNat => agree (fun b => b.prec.bind fun p =>
        if p < w.lo then some true else if w.hi ≤ p then some false else none) bs
    | _ => none
  | .lenPos x => match s.env x with
    | .vec (.snoc _ _) => some true
    | .vec v => v.len.map fun n => decide (0 < n)
    | _ => none
  | .lenOne x => match s.env x with
    | .vec (.holes _) => if w.two then some false else none
    | .vec v => v.len.map fun n => n == 1
    | _ => none
  | .strIs x k => match s.env x with
    | .str v => some (v == k.lit)
    | .strOther => some false
    | _ => none
  | .leftmostIs x nt => match s.env x with
    | .node (.hole 0) => if nt = .Identifier then w.leftId else none
    | _ => none
  | .typeIs x nt => match s.env x with
    | .node n => n.rootTy.map (· == nt)
    | _ => none
  | .hasAnyKey _ _ => none
  | .firstCharIs c => (w.get s.pos 0).bind (agree (Base.firstChar c))
  | .lastCharIs c => (w.get s.pos 0).bind (agree (Base.lastChar c))
  | .adjacent => (w.get s.pos 0).bind fun as => (w.get s.pos 1).bind fun bs =>
      if as.all Base.word && bs.all Base.word then some false else none
  | .and a b => (acond w s a).bind fun x => if x then acond w s b else some false
  | .or a b => (acond w s a).bind fun x => if x then some true else acond w s b
  | .not a => (acond w s a).map (!·)

/-- `construct`. -/
def aconstruct (w : Window) (i : Nat) (nt : NodeType) : Option Term :=
  (w.get i 0).bind fun bs =>
    if nt = .EOF then none
    else if nt = .Unknown then
      some (match agree Base.classify bs with
        | some ty => .new i ty
        | none => .newU i)
    else some (.new i nt)

/-- The meaning of calls. -/
abbrev ACall := Fn → List AVal → Nat → Option (AVal × Nat)

/-- `evalExp`. -/
def aexp (w : Window) (call : ACall) (s : ASt) : Exp → Option (AVal × ASt)
  | .var x => some (s.env x, s)
  | .construct nt => (aconstruct w s.pos nt).map fun n => (.node n, s)
  | .empty nt => some (.node (.empty nt), s)
  | .call f args => (aatoms s.env args).bind fun vs => (call f vs s.pos).map fun r => (r.1, { s with pos := r.2 })
  | .nilVec => some (.vec .nil, s)
  | .pop x => match s.env x with
    | .vec (.snoc v n) => some (.node n, { s with env := s.env.set x (.vec v) })
    | _ => none
  | .prec o => (atok w s o).bind fun bs => (agree Base.prec bs).map fun p => (.nat p, s)
  | .natLit n => some (.nat n, s)
  | .boolLit b => some (.bool b, s)
  | .kws ks => some (.kws ks, s)
  | .upperLit o => (atok w s o).bind fun bs => (agree (fun b => some b.upper) bs).map fun v => (v, s)
  | .cond c => (acond w s c).map fun b => (.bool b, s)

/-- `iterate`. -/
def aiterate (f : ASt → Option (AFlow × ASt)) : Nat → ASt → Option (AFlow × ASt)
  | 0, _ => none
  | n + 1, s => (f s).bind fun r => match r.1 with
    | .norm => aiterate f n r.2
    | .brk => some (.norm, r.2)
    | .ret v => some (.ret v, r.2)

/-- `scanLoop`. -/
def ascan (f : ASt → Option (AFlow × ASt)) (x : Var) (done : ASt → Option (AFlow × ASt)) :
    (n i : Nat) → ASt → Option (AFlow × ASt)
  | 0, _, s => done s
  | n + 1, i, s => (f { s with env := s.env.set x (.nat i) }).bind fun r => match r.1 with
    | .norm => ascan f x done n (i + 1) r.2
    | .brk => some (.norm, r.2)
    | .ret v => some (.ret v, r.2)

/-- The number of iterations of a loop that are tried. -/
def rounds : Nat := 4

/-- `nextToken`. -/
def anext (w : Window) (i : Nat) : Option Nat := (w.get i 1).map fun _ => i + 1

/-- `exec`. -/
def aexec (w : Window) (call : ACall) : Cmd → ASt → Option (AFlow × ASt)
  | .skip, s => some (.norm, s)
  | .seq a b, s => (aexec w call a s).bind fun r => match r.1 with
    | .norm => aexec w call b r.2
    | f => some (f, r.2)
  | .next, s => (anext w s.pos).map fun i => (.norm, { s with pos := i })
  | .set x e, s => (aexp w call s e).map fun r => (.norm, { r.2 with env := r.2.env.set x r.1 })
  | .push x k e, s => (aexp w call s e).bind fun r => match r.2.env x, r.1 with
    | .node n, .node c => some (.norm, { r.2 with env := r.2.env.set x (.node (.push n k c)) })
    | _, _ => none
  | .pushVec x k e, s => (aexp w call s e).bind fun r => match r.2.env x, r.1 with
    | .node n, .vec v => some (.norm, { r.2 with env := r.2.env.set x (.node (.pushVec n k v)) })
    | _, _ => none
  | .append x e, s => (aexp w call s e).bind fun r => match r.2.env x, r.1 with
    | .vec v, .node c => some (.norm, { r.2 with env := r.2.env.set x (.vec (.snoc v c)) })
    | _, _ => none
  | .setType x nt, s => match s.env x with
    | .node n => some (.norm, { s with env := s.env.set x (.node (.setType n nt)) })
    | _ => none
  | .ite c a b, s => match acond w s c with
    | some true => aexec w call a s
    | some false => aexec w call b s
    | none => none
  | .loop a, s => aiterate (aexec w call a) rounds s
  | .brk, s => some (.brk, s)
  | .ret e, s => (aexp w call s e).map fun r => (.ret r.1, r.2)
  | .fail .., _ => none
  | .scan x lo none body, s => ascan (aexec w call body) x (fun _ => none) rounds lo s
  | .scan x lo (some hi) body, s => (aatom s.env hi).bind fun
    | .nat h => ascan (aexec w call body) x (fun s => some (.norm, s)) (h - lo) lo s
    | _ => none
  | .drain .., _ => none
  | .tryElse x f args _, s => (aatoms s.env args).bind fun vs => (call f vs s.pos).map fun r =>
      (.norm, { pos := r.2, env := s.env.set x r.1 })

/-- Parameters bound to arguments. -/
def abind : List Var → List AVal → AEnv
  | x :: xs, v :: vs => (abind xs vs).set x v
  | _, _ => fun _ => .unit

/-- Is this a truth value? -/
def isBool : AVal → Bool
  | .bool _ => true
  | .someBool => true
  | _ => false

/-- Are these words that begin no expression? -/
def isStop : AVal → Bool
  | .kws ks => firsts.all fun b => !b.inKws ks
  | .someKws => true
  | _ => false

/-- Is this the value of the flag for names? -/
def isFlag (al : Option Bool) (a : AVal) : Bool :=
  match al with
  | none => isBool a
  | some b => a == .bool b

/-- Is this the call that parses the gap? -/
def Gap.is (g : Gap) (f : Fn) (args : List AVal) : Option AVal :=
  match g, f, args with
  | .expr p al i, .parse_expr, [.nat n, a, .bool false, .bool false, .bool true] =>
    if n = p ∧ isFlag al a = true then some (.node (.hole i)) else none
  | .exprs al i, .parse_exprs, [ks, a, .bool true] =>
    if isStop ks = true ∧ isFlag al a = true then some (.vec (.holes i)) else none
  | .body ks i, .parse_keyword_with_statements, [.kws ks'] => if ks = ks' then some (.node (.hole i)) else none
  | _, _, _ => none

/-- The result of the gap at `i`, if this is the call that parses it. -/
def gapAt (w : Window) (f : Fn) (args : List AVal) (i : Nat) : Option AVal :=
  match w.cells[i]? with
  | some ⟨_, some g⟩ => g.is f args
  | _ => none

/-- `callN`. -/
def acall (w : Window) : Nat → ACall
  | 0 => fun f args i => (gapAt w f args i).map fun v => (v, i + 1)
  | n + 1 => fun f args i => match gapAt w f args i with
    | some v => some (v, i + 1)
    | none => (aexec w (acall w n) (Program.defs f).body ⟨i, abind (Program.defs f).params args⟩).bind fun r => match r.1 with
      | .ret v => some (v, r.2.pos)
      | _ => none

/-- A new type for a node. -/
def Term.retype (ty : NodeType) : Term → Term
  | .new i _ => .new i ty
  | .newU i => .new i ty
  | .empty _ => .empty ty
  | .push n k c => .push (n.retype ty) k c
  | .pushVec n k v => .pushVec (n.retype ty) k v
  | .setType n _ => n.retype ty
  | t => .setType t ty

/-- Without changes of types. -/
def Term.norm : Term → Term
  | .snoc v n => .snoc v.norm n.norm
  | .push n k c => .push n.norm k c.norm
  | .pushVec n k v => .pushVec n.norm k v.norm
  | .setType n ty => n.norm.retype ty
  | t => t

end Verif.Sym
