import Verif.Analysis.Domain
import Verif.Spec.Grammar
/-!
An abstract interpreter for the command language that follows a function body on all token sequences
derived from a grammar (Verif.Spec.Grammar).  A state describes the tokens from the current one on by a
list of grammar symbols followed by an unknown rest.  The analysis rejects a body as soon as one of its
paths could report an error.  It is not trusted: its soundness is proved in Verif.Proofs.Accept*, and its
verdict on the program is computed by the kernel.
-/
namespace Verif.GI
open AI Spec

/-- Classes of tokens that are no words of the parser. -/
def IDENT : Nat := 302
/-- back-quoted names -/
def QID : Nat := 303
/-- numbers -/
def NUM : Nat := 304
/-- string literals -/
def STR : Nat := 305
/-- parameters starting with `@` -/
def PAR : Nat := 306
/-- the end of the input -/
def EOFC : Nat := 307
/-- All classes. -/
def ALL : Mask := 2 ^ 308 - 1

/-- Complement. -/
def cmpl (m : Mask) : Mask := ALL ^^^ (m &&& ALL)

/-- Symbols of a stream: one token of one of the given classes, or a phrase of the grammar that is empty
or begins with a token of one of the given classes. -/
inductive GSym
  | T (m : Mask)
  | N (n : NT) (m : Mask)
  deriving Repr, Inhabited

/-- Keywords that have the shape of a word. -/
def wordKws : List Kw := Kw.all.filter fun k => match k.lit with
  | c :: cs => Token.identStart c && cs.all Token.identRest
  | [] => false

/-- Mask of a terminal symbol. -/
def tmask : Term → Mask
  | .kw k => bit k.ctorIdx
  | .word _ => bit IDENT
  | .ident => bit IDENT ||| bit QID
  | .name => bit IDENT ||| bit QID ||| kwMask softWords
  | .anyWord => bit IDENT ||| bit QID ||| kwMask wordKws
  | .number => bit NUM
  | .string => bit STR
  | .param => bit PAR ||| bit Kw.sym_quest.ctorIdx

/-- A grammar symbol as a symbol of a stream. -/
def conv : Sym → GSym
  | .t a => .T (tmask a)
  | .nt n => .N n ALL

/-- Productions. -/
def rulesOf (n : NT) : List (List GSym) := (rules n).map (List.map conv)

/-- Productions, first tokens and emptiness of the nonterminals; checked by `tablesOk`. -/
structure Tables where
  prods : NT → List (List GSym)
  first : NT → Mask
  nullable : NT → Bool

/-- Equality of nonterminals through their index. -/
def ntEq (a b : NT) : Bool := Nat.beq a.ctorIdx b.ctorIdx

/-- First tokens of a stream whose rest begins with a token in `m`. -/
def firstOf (G : Tables) : List GSym → Mask → Mask
  | [], m => m
  | .T a :: _, _ => a
  | .N n a :: X, m => (G.first n &&& a) ||| (bif G.nullable n then firstOf G X m else 0)

/-- Does every phrase described by the list have a token? -/
def nonempty (G : Tables) : List GSym → Bool
  | [] => false
  | .T _ :: _ => true
  | .N n _ :: X => !G.nullable n || nonempty G X

/-- The tables are right for one production: its first tokens are recorded, and so is its emptiness. -/
def prodOk (G : Tables) (n : NT) (r : List GSym) : Bool :=
  Mask.le (firstOf G r 0) (G.first n) && (nonempty G r || G.nullable n)

/-- Equality of symbols. -/
def symEq : GSym → GSym → Bool
  | .T a, .T b => Nat.beq a b
  | .N n a, .N k b => ntEq n k && Nat.beq a b
  | _, _ => false

/-- Equality of streams. -/
def streamEq : List GSym → List GSym → Bool
  | [], [] => true
  | a :: x, b :: y => symEq a b && streamEq x y
  | _, _ => false

/-- Equality of lists of productions. -/
def prodsEq : List (List GSym) → List (List GSym) → Bool
  | [], [] => true
  | a :: x, b :: y => streamEq a b && prodsEq x y
  | _, _ => false

/-- A terminal symbol of the form `word` is no word known to the parser. -/
def symOk : Sym → Bool
  | .t (.word s) => (Kw.all.all fun k => !(k.lit == s)) && (match s with
    | c :: cs => Token.identStart c && cs.all Token.identRest
    | [] => false) && s.all fun c => c.toUpper == c
  | _ => true

/-- The tables are right. -/
def tablesOk (G : Tables) : Bool := NT.all.all fun n =>
  prodsEq (rulesOf n) (G.prods n) && (G.prods n).all (prodOk G n) && (rules n).all fun r => r.all symOk

/-- A production whose first token, if any, is in `m`. -/
def restrict (G : Tables) (m : Mask) : List GSym → Option (List GSym)
  | [] => some []
  | .T a :: X => bif Nat.beq (a &&& m) 0 then none else some (.T (a &&& m) :: X)
  | .N n a :: X =>
    bif Nat.beq (G.first n &&& a &&& m) 0 then bif G.nullable n then restrict G m X else none
    else some (.N n (a &&& m) :: X)

/-- The productions of a nonterminal, restricted. -/
def expand (G : Tables) (n : NT) (m : Mask) : List (List GSym) := (G.prods n).filterMap (restrict G m)

/-- Abstract values. -/
inductive GV
  | bool (b : Bool)
  | nat (n : Nat)
  /-- a number that is at most `n` -/
  | natB (n : Nat)
  | kws (ks : List Kw)
  /-- the text of a token of one of these classes, in upper case -/
  | str (m : Mask)
  deriving Repr, Inhabited

/-- Abstract states: known variables, the stream, and the possible first tokens of the unknown rest (0: anything,
even no rest at all). -/
structure GS where
  env : List (Var × GV)
  X : List GSym
  m : Mask
  deriving Repr, Inhabited

/-- Summary of a function: for the given arguments, on tokens that begin with `pre` and go on with a token
in `follow` (0: with anything), the function succeeds and leaves one of `post` before that rest. -/
structure Entry where
  args : List (Option GV)
  pre : List GSym
  follow : Mask
  post : List (List GSym)
  deriving Repr, Inhabited

/-- Reasons to reject. -/
inductive GErr
  | msg (s : String) (X : List GSym)
  | missing (f : Fn) (args : List (Option GV)) (X : List GSym) (m : Mask)
  deriving Repr, Inhabited

/-- Results. -/
abbrev R := Except GErr

/-- Concatenate the results for all elements. -/
def collect {α β : Type} (f : α → R (List β)) : List α → R (List β)
  | [] => .ok []
  | a :: as => match f a with
    | .error e => .error e
    | .ok bs => match collect f as with
      | .error e => .error e
      | .ok cs => .ok (bs ++ cs)

/-- Bound on the depth of expansions. -/
def FUEL : Nat := 30

/-- All ways to begin with a token. -/
def heads (G : Tables) : Nat → List GSym → R (List (List GSym))
  | 0, X => .error (.msg "heads" X)
  | _ + 1, [] => .ok [[]]
  | _ + 1, .T a :: X => .ok [.T a :: X]
  | n + 1, .N j a :: X => collect (fun r => heads G n (r ++ X)) (expand G j a)

/-- Is nothing known about the rest?  Then it must not be looked at. -/
def noRest (m : Mask) : Bool := Nat.beq m 0

/-- Decide a question about the first token: `tm`, `fm` are the classes for which the answer may be yes
or no. -/
def split0 (G : Tables) (tm fm : Mask) : Nat → List GSym → Mask → R (List (Bool × List GSym × Mask))
  | 0, X, _ => .error (.msg "split" X)
  | n + 1, X, m =>
    let f := firstOf G X m
    bif noRest m && !nonempty G X then .error (.msg "unknown rest" X)
    else bif Nat.beq (f &&& fm) 0 then .ok [(true, X, m)]
    else bif Nat.beq (f &&& tm) 0 then .ok [(false, X, m)]
    else match X with
      | [] => .ok [(true, [], m &&& tm), (false, [], m &&& fm)]
      | .T a :: X' => .ok [(true, .T (a &&& tm) :: X', m), (false, .T (a &&& fm) :: X', m)]
      | .N j a :: X' =>
        bif G.nullable j then collect (fun r => split0 G tm fm n (r ++ X') m) (expand G j a)
        else .ok [(true, .N j (a &&& tm) :: X', m), (false, .N j (a &&& fm) :: X', m)]

/-- Decide a question about the token at an offset. -/
def split (G : Tables) (tm fm : Mask) : Nat → List GSym → Mask → R (List (Bool × List GSym × Mask))
  | 0, X, m => split0 G tm fm FUEL X m
  | k + 1, X, m => match heads G FUEL X with
    | .error e => .error e
    | .ok hs => collect (fun
      | .T a :: X' => match split G tm fm k X' m with
        | .error e => .error e
        | .ok l => .ok (l.map fun x => (x.1, .T a :: x.2.1, x.2.2))
      | [] => match k with
        | 0 => bif noRest m || m.has EOFC || m.has Kw.sym_semi.ctorIdx then .error (.msg "beyond the end" []) else .ok [(true, [], m), (false, [], m)]
        | _ + 1 => .error (.msg "beyond the rest" [])
      | X' => .error (.msg "heads" X')) hs

namespace GS
/-- Value of a variable. -/
def look (x : Var) : List (Var × GV) → Option GV
  | [] => none
  | (y, v) :: l => bif Nat.beq x y then some v else look x l

/-- Forget a variable. -/
def forget (x : Var) : List (Var × GV) → List (Var × GV)
  | [] => []
  | (y, v) :: l => bif Nat.beq x y then forget x l else (y, v) :: forget x l

/-- Insert in the order of the indices. -/
def insert (x : Var) (v : GV) : List (Var × GV) → List (Var × GV)
  | [] => [(x, v)]
  | (y, w) :: l => bif Nat.ble x y then (x, v) :: (y, w) :: l else (y, w) :: insert x v l

/-- Set a variable. -/
def set : GS → Var → Option GV → GS
  | ⟨d, X, m⟩, x, some v => ⟨insert x v (forget x d), X, m⟩
  | ⟨d, X, m⟩, x, none => ⟨forget x d, X, m⟩

/-- Change the stream. -/
def withX : GS → List GSym → Mask → GS
  | ⟨d, _, _⟩, X, m => ⟨d, X, m⟩
end GS

/-- Both answers. -/
def both (s : GS) : R (List (Bool × GS)) := .ok [(true, s), (false, s)]

/-- Is there a current token? -/
def GS.current (G : Tables) (s : GS) : Bool := !noRest s.m || nonempty G s.X

/-- Is there a token after the current one? -/
def GS.following (G : Tables) (s : GS) : Bool :=
  bif noRest s.m then match s.X with
    | .T _ :: X => nonempty G X
    | _ => false
  else nonempty G s.X || !(s.m.has EOFC || s.m.has Kw.sym_semi.ctorIdx)

/-- Decide a question about the token at an offset, as a state. -/
def ask (G : Tables) (s : GS) (k : Nat) (tm fm : Mask) : R (List (Bool × GS)) :=
  match split G tm fm k s.X s.m with
  | .error e => .error e
  | .ok l => .ok (l.map fun x => (x.1, s.withX x.2.1 x.2.2))

/-- Value of an offset. -/
def evalO (s : GS) : Off → R Nat
  | .lit n => .ok n
  | .var x k => match GS.look x s.env with
    | some (.nat n) => .ok (n + k)
    | _ => .error (.msg "offset" s.X)

/-- Classes of tokens for which a comparison with keywords may hold. -/
def upT (ks : List Kw) : Mask := kwMask ks ||| bit OTHER
/-- Classes of tokens for which a comparison with keywords may fail. -/
def upF (ks : List Kw) : Mask := cmpl (kwMask ks)

/-- Keywords that have the shape of an identifier and are not reserved. -/
def identKws : Mask := kwMask (wordKws.filter fun k => !(reservedKeywords.any fun r => Nat.beq r.ctorIdx k.ctorIdx))

/-- Classes of identifiers. -/
def identT : Mask := bit IDENT ||| bit QID ||| identKws

/-- The levels of precedence, src/parser.rs 117-146, except that of `NOT`. -/
def levels : List (Nat × List Kw) :=
  [(101, [.sym_lparen, .sym_lbrack]), (102, [.sym_dot]), (103, [.sym_star, .sym_slash, .sym_concat]),
   (104, [.sym_plus, .sym_minus]), (105, [.sym_shl, .sym_shr]), (106, [.sym_amp]), (107, [.sym_caret]),
   (108, [.sym_bar]),
   (109, [.sym_eq, .sym_lt, .sym_gt, .sym_le, .sym_ge, .sym_ne, .sym_ltgt, .LIKE, .BETWEEN, .IN, .IS]),
   (111, [.AND]), (112, [.OR]), (200, [.sym_arrow])]

/-- Keywords of the levels that satisfy a condition. -/
def levelKws (p : Nat → Bool) : List (Nat × List Kw) → List Kw
  | [] => []
  | (l, ks) :: r => bif p l then ks ++ levelKws p r else levelKws p r

/-- Classes of tokens whose precedence may be below `n`. -/
def belowT (n : Nat) : Mask :=
  bif Nat.ble n usizeMax then kwMask (levelKws (fun l => Nat.blt l n) levels) ||| bit OTHER else ALL
/-- Classes of tokens whose precedence may be `n` or more. -/
def belowF (n : Nat) : Mask := cmpl (kwMask (levelKws (fun l => Nat.blt l n) levels))

/-- The words of the parser and plain identifiers. -/
def wordM : Mask := kwMask wordKws ||| bit IDENT

/-- The tokens a word may touch. -/
def touchM : Mask := kwMask (Kw.all.filter fun k => isSym k && !(Nat.beq k.ctorIdx Kw.sym_pipe.ctorIdx)) ||| bit STR

/-- Decide a condition on all states of a list of answers. -/
def onAll (f : GS → R (List (Bool × GS))) (pick : Bool) : List (Bool × GS) → R (List (Bool × GS))
  | [] => .ok []
  | (b, s) :: l => match onAll f pick l with
    | .error e => .error e
    | .ok r => match b, pick with
      | true, true | false, false => match f s with
        | .error e => .error e
        | .ok q => .ok (q ++ r)
      | _, _ => .ok ((b, s) :: r)

/-- The precedence of the token at an offset: `k` receives each value with the refined state. -/
def precAt (G : Tables) (s : GS) (off : Nat) : R (List (Nat × GS)) :=
  match ask G s off (upT [.NOT]) (upF [.NOT]) with
  | .error e => .error e
  | .ok l => collect (fun (x : Bool × GS) =>
      match x.1 with
      | true => match ask G x.2 (off + 1) (upT [.IN, .LIKE, .BETWEEN]) (upF [.IN, .LIKE, .BETWEEN]) with
        | .error e => .error e
        | .ok q => collect (fun (y : Bool × GS) =>
            match y.1 with
            | true => .ok [(109, y.2)]
            | false => match ask G y.2 (off + 1) (upT [.ENFORCED]) (upF [.ENFORCED]) with
              | .error e => .error e
              | .ok z => collect (fun (w : Bool × GS) =>
                  match w.1 with
                  | true => .ok [(usizeMax, w.2)]
                  | false => .error (.msg "precedence of NOT" w.2.X)) z) q
      | false => precLevels G off x.2 levels) l
where
  /-- Try the levels one after the other. -/
  precLevels (G : Tables) (off : Nat) (s : GS) : List (Nat × List Kw) → R (List (Nat × GS))
    | [] => .ok [(usizeMax, s)]
    | (n, ks) :: r => match ask G s off (upT ks) (upF ks) with
      | .error e => .error e
      | .ok l => collect (fun (x : Bool × GS) =>
          match x.1 with
          | true => .ok [(n, x.2)]
          | false => precLevels G off x.2 r) l

/-- Is the precedence of the next token below `n`? -/
def precBelow (G : Tables) (s : GS) (n : Nat) : R (List (Bool × GS)) :=
  match ask G s 1 (upT [.NOT]) (upF [.NOT]) with
  | .error e => .error e
  | .ok l => collect (fun (x : Bool × GS) =>
      match x.1 with
      | true => match ask G x.2 2 (upT [.IN, .LIKE, .BETWEEN]) (upF [.IN, .LIKE, .BETWEEN]) with
        | .error e => .error e
        | .ok q => collect (fun (y : Bool × GS) =>
            match y.1 with
            | true => .ok [(Nat.blt 109 n, y.2)]
            | false => match ask G y.2 2 (upT [.ENFORCED]) (upF [.ENFORCED]) with
              | .error e => .error e
              | .ok z => collect (fun (w : Bool × GS) =>
                  match w.1 with
                  | true => .ok [(Nat.blt usizeMax n, w.2)]
                  | false => .error (.msg "precedence of NOT" w.2.X)) z) q
      | false => ask G x.2 1 (belowT n) (belowF n)) l

/-- May the precedence of the next token be below some number up to `n`? -/
def precUpTo (G : Tables) (s : GS) (n : Nat) : R (List (Bool × GS)) :=
  match ask G s 1 (upT [.NOT]) (upF [.NOT]) with
  | .error e => .error e
  | .ok l => collect (fun (x : Bool × GS) =>
      match x.1 with
      | true => match ask G x.2 2 (upT [.IN, .LIKE, .BETWEEN]) (upF [.IN, .LIKE, .BETWEEN]) with
        | .error e => .error e
        | .ok q => collect (fun (y : Bool × GS) =>
            match y.1 with
            | true => both y.2
            | false => .error (.msg "precedence of NOT" y.2.X)) q
      | false => ask G x.2 1 (belowT n) ALL) l

/-- Decide a condition. -/
def evalC (G : Tables) : Cond → GS → R (List (Bool × GS))
  | .up o ks, s => match evalO s o with
    | .error e => .error e
    | .ok k => ask G s k (upT ks) (upF ks)
  | .raw o ks, s => match evalO s o with
    | .error e => .error e
    | .ok k => ask G s k (upT ks) (upF (ks.filter isSym))
  | .upVar o x, s => match evalO s o with
    | .error e => .error e
    | .ok k => match GS.look x s.env with
      | some (.kws ks) => ask G s k (upT ks) (upF ks)
      | _ => .error (.msg "words" s.X)
  | .isIdent o, s => match evalO s o with
    | .error e => .error e
    | .ok k => ask G s k (identT ||| bit OTHER) (cmpl identT)
  | .isStr o, s => match evalO s o with
    | .error e => .error e
    | .ok k => ask G s k (bit STR ||| bit OTHER) (cmpl (bit STR))
  | .isNum o, s => match evalO s o with
    | .error e => .error e
    | .ok k => ask G s k (bit NUM ||| bit OTHER) (cmpl (bit NUM))
  | .eof o, s => match evalO s o with
    | .error e => .error e
    | .ok k => match ask G s k ALL 0 with
      | .error e => .error e
      | .ok _ => ask G s k (bit EOFC) (cmpl (bit EOFC))
  | .hasTok o, s => match evalO s o with
    | .error e => .error e
    | .ok k => match ask G s k ALL 0 with
      | .error e => .error e
      | .ok _ => .ok [(true, s)]
  | .bvar x, s => match GS.look x s.env with
    | some (.bool b) => .ok [(b, s)]
    | _ => both s
  | .const b, s => .ok [(b, s)]
  | .precLt x, s => match GS.look x s.env with
    | some (.nat n) => precBelow G s n
    | some (.natB n) => precUpTo G s n
    | _ => .error (.msg "precedence" s.X)
  | .lenPos _, s => both s
  | .lenOne _, s => both s
  | .strIs x k, s => match GS.look x s.env with
    | some (.str m) =>
      bif Nat.beq (m &&& upF [k]) 0 then .ok [(true, s)]
      else bif Nat.beq (m &&& upT [k]) 0 then .ok [(false, s)]
      else .ok [(true, s.set x (some (.str (m &&& upT [k])))), (false, s.set x (some (.str (m &&& upF [k]))))]
    | _ => both s
  | .typeIs _ _, s => both s
  | .leftmostIs _ _, s => both s
  | .hasAnyKey _ _, s => both s
  | .firstCharIs c, s =>
    bif !s.current G || (firstOf G s.X s.m).has EOFC then .error (.msg "empty literal" s.X)
    else bif Nat.beq c.toNat 96 && Nat.beq (firstOf G s.X s.m &&& cmpl (wordM ||| bit QID)) 0 then
      ask G s 0 (bit QID) (cmpl (bit QID))
    else both s
  | .lastCharIs c, s =>
    bif !s.current G || (firstOf G s.X s.m).has EOFC then .error (.msg "empty literal" s.X)
    else bif !Token.identRest c && Nat.beq (firstOf G s.X s.m &&& cmpl wordM) 0 then .ok [(false, s)]
    else both s
  | .adjacent, s =>
    bif s.current G && Nat.beq (firstOf G s.X s.m &&& cmpl wordM) 0 then
      match ask G s 1 touchM (cmpl touchM) with
      | .error e => .error e
      | .ok l => collect (fun (x : Bool × GS) =>
          match x.1 with
          | true => both x.2
          | false => .ok [(false, x.2)]) l
    else .error (.msg "adjacent" s.X)
  | .and a b, s => match evalC G a s with
    | .error e => .error e
    | .ok l => onAll (evalC G b) true l
  | .or a b, s => match evalC G a s with
    | .error e => .error e
    | .ok l => onAll (evalC G b) false l
  | .not a, s => match evalC G a s with
    | .error e => .error e
    | .ok l => .ok (l.map fun x => (!x.1, x.2))

/-- Value of an argument. -/
def evalA (s : GS) : Atom → Option GV
  | .var x => GS.look x s.env
  | .bool b => some (.bool b)
  | .nat n => some (.nat n)
  | .notVar x => match GS.look x s.env with
    | some (.bool b) => some (.bool !b)
    | _ => none
  | .kws ks => some (.kws ks)
  | .strEq x k => match GS.look x s.env with
    | some (.str m) =>
      bif Nat.beq (m &&& upF [k]) 0 then some (.bool true)
      else bif Nat.beq (m &&& upT [k]) 0 then some (.bool false)
      else none
    | _ => none

/-- Equality of lists of keywords. -/
def kwsEq : List Kw → List Kw → Bool
  | [], [] => true
  | a :: as, b :: bs => Nat.beq a.ctorIdx b.ctorIdx && kwsEq as bs
  | _, _ => false

namespace GV
/-- Inclusion. -/
def le : GV → GV → Bool
  | .bool a, .bool b => a == b
  | .nat a, .nat b => Nat.beq a b
  | .nat a, .natB b => Nat.ble a b
  | .natB a, .natB b => Nat.ble a b
  | .kws a, .kws b => kwsEq a b
  | .str a, .str b => Mask.le a b
  | _, _ => false
end GV

/-- An argument is described by a pattern. -/
def argLe : Option GV → Option GV → Bool
  | _, none => true
  | some a, some b => a.le b
  | none, some _ => false

/-- Arguments are described by patterns. -/
def argsLe : List (Option GV) → List (Option GV) → Bool
  | [], [] => true
  | a :: as, b :: bs => argLe a b && argsLe as bs
  | _, _ => false

/-- Inclusion of symbols. -/
def symLe (G : Tables) : GSym → GSym → Bool
  | .T a, .T b => Mask.le a b
  | .N n a, .N k b => ntEq n k && Mask.le (G.first n &&& a) b
  | _, _ => false

/-- First success. -/
def firstSome {α β : Type} (f : α → Option β) : List α → Option β
  | [] => none
  | a :: as => match f a with
    | some b => some b
    | none => firstSome f as

/-- Does a stream begin with phrases of the given pattern?  The result is the remainder. -/
def fold (G : Tables) : Nat → List GSym → List GSym → Option (List GSym)
  | 0, _, _ => none
  | _ + 1, [], X => some X
  | n + 1, p :: ps, X =>
    let direct := match X with
      | s :: X' => bif symLe G s p then fold G n ps X' else none
      | [] => none
    match direct with
    | some Y => some Y
    | none => match p with
      | .T _ => none
      | .N j a =>
        bif !Nat.beq a ALL || (!G.nullable j && Nat.beq (G.first j &&& firstOf G X ALL) 0) then none
        else firstSome (fun r => fold G n (r ++ ps) X) (G.prods j)

/-- A call: look for a summary that applies, opening the first phrase if necessary.  `entries` are the
summaries of the function. -/
def callAt (G : Tables) (entries : List Entry) (f : Fn) (args : List (Option GV)) :
    Nat → List GSym → Mask → R (List (List GSym × Mask))
  | 0, X, m => .error (.missing f args X m)
  | n + 1, X, m =>
    match firstSome (fun (e : Entry) =>
        bif argsLe args e.args then
          match fold G FUEL e.pre X with
          | some Y => bif noRest e.follow || ((!noRest m || nonempty G Y) && Mask.le (firstOf G Y m) e.follow) then some (e.post.map fun p => (p ++ Y, m)) else none
          | none => none
        else none) entries with
    | some l => .ok l
    | none => match X with
      | .N j a :: X' => collect (fun r => callAt G entries f args n (r ++ X') m) (expand G j a)
      | _ => .error (.missing f args X m)

/-- Effect of calls: function, arguments, stream and possible first tokens of the rest. -/
abbrev Call := Fn → List (Option GV) → List GSym → Mask → R (List (List GSym × Mask))

/-- Calls described by a table of summaries. -/
def callTab (G : Tables) (tab : Fn → List Entry) : Call := fun f args X m => callAt G (tab f) f args 6 X m

/-- Value of a right-hand side. -/
def evalE (G : Tables) (call : Call) (s : GS) : Exp → R (List (Option GV × GS))
  | .var x => .ok [(GS.look x s.env, s)]
  | .construct nt =>
    bif tyEq nt .Unknown && !s.following G || !s.current G then .error (.msg "construct" s.X)
    else .ok [(none, s)]
  | .empty _ => .ok [(none, s)]
  | .call f args => match call f (args.map (evalA s)) s.X s.m with
    | .error e => .error e
    | .ok l => .ok (l.map fun x => (none, s.withX x.1 x.2))
  | .nilVec => .ok [(none, s)]
  | .pop x => .ok [(none, s.set x none)]
  | .prec o => match evalO s o with
    | .error e => .error e
    | .ok k => match precAt G s k with
      | .error e => .error e
      | .ok l => .ok (l.map fun y => (some (.nat y.1), y.2))
  | .natLit n => .ok [(some (.nat n), s)]
  | .boolLit b => .ok [(some (.bool b), s)]
  | .kws ks => .ok [(some (.kws ks), s)]
  | .upperLit o => match o with
    | .lit 0 => bif s.current G then .ok [(some (.str (firstOf G s.X s.m)), s)] else .error (.msg "upperLit" s.X)
    | _ => .error (.msg "upperLit" s.X)
  | .cond c => match evalC G c s with
    | .error e => .error e
    | .ok l => .ok (l.map fun x => (some (.bool x.1), x.2))

/-- How a command may end: normally, by leaving a loop, by returning. -/
structure Outs where
  norm : List GS
  brk : List GS
  ret : List GS
  deriving Repr, Inhabited

/-- Equality of environments. -/
def envEq : List (Var × GV) → List (Var × GV) → Bool
  | [], [] => true
  | (x, v) :: l, (y, w) :: r => Nat.beq x y && v.le w && w.le v && envEq l r
  | _, _ => false

/-- Inclusion of streams, symbol by symbol. -/
def streamLe (G : Tables) : List GSym → List GSym → Bool
  | [], [] => true
  | a :: x, b :: y => symLe G a b && streamLe G x y
  | _, _ => false

/-- Inclusion of states. -/
def stateLe (G : Tables) : GS → GS → Bool
  | ⟨d, X, m⟩, ⟨e, Y, k⟩ => streamLe G X Y && (noRest k || (!noRest m && Mask.le m k)) && envEq d e

/-- Union of two streams that differ in one symbol. -/
def mergeX : List GSym → List GSym → Option (List GSym)
  | .T a :: x, .T b :: y =>
    bif Nat.beq a b then (mergeX x y).map (List.cons (.T a))
    else bif streamEq x y then some (.T (a ||| b) :: x) else none
  | .N n a :: x, .N k b :: y =>
    bif ntEq n k then
      bif Nat.beq a b then (mergeX x y).map (List.cons (.N n a))
      else bif streamEq x y then some (.N n (a ||| b) :: x) else none
    else none
  | _, _ => none

/-- Union of two states that differ in one symbol. -/
def mergeS : GS → GS → Option GS
  | ⟨d, X, m⟩, ⟨e, Y, k⟩ =>
    bif Nat.beq m k then
      match mergeX X Y with
      | some Z => bif envEq d e then some ⟨d, Z, m⟩ else none
      | none => none
    else bif !noRest m && !noRest k && streamEq X Y && envEq d e then some ⟨d, X, m ||| k⟩ else none

/-- Add a state to a list of states. -/
def addState (G : Tables) (s : GS) : List GS → List GS
  | [] => [s]
  | t :: l =>
    bif stateLe G s t then t :: l
    else match mergeS s t with
      | some u => u :: l
      | none => t :: addState G s l

/-- Add states to a list. -/
def addStates (G : Tables) : List GS → List GS → List GS
  | [], l => l
  | s :: r, l => addStates G r (addState G s l)

/-- Is a state described by one of a list? -/
def memLe (G : Tables) (s : GS) : List GS → Bool
  | [] => false
  | t :: l => stateLe G s t || memLe G s l

/-- Enlarge a state by one of a list, if possible. -/
def widen (s : GS) : List GS → GS
  | [] => s
  | t :: l => match mergeS s t with
    | some u => u
    | none => widen s l

/-- The new states, enlarged. -/
def fresh (G : Tables) (seen : List GS) : List GS → List GS
  | [] => []
  | s :: l => bif memLe G s seen then fresh G seen l else widen s seen :: fresh G seen l

/-- Forget the variables that are unknown in another state. -/
def keepOnly (d : List (Var × GV)) : List (Var × GV) → List (Var × GV)
  | [] => []
  | (x, v) :: l => match GS.look x d with
    | some _ => (x, v) :: keepOnly d l
    | none => keepOnly d l

/-- Forget variables in states. -/
def keepAll (d : List (Var × GV)) : List GS → List GS
  | [] => []
  | ⟨e, X, m⟩ :: l => ⟨keepOnly d e, X, m⟩ :: keepAll d l

/-- The variables known in the first of the states. -/
def headEnv : List GS → List (Var × GV)
  | [] => []
  | s :: _ => s.env

/-- Iterate a loop body until no new states occur.  With `exit` the loop may end before each iteration.
Variables that are unknown at the beginning (`d` are the known ones) are forgotten. -/
def fixLoop (G : Tables) (body : List GS → R Outs) (exit : Bool) (d : List (Var × GV)) :
    Nat → List GS → List GS → Outs → R Outs
  | 0, _, _, _ => .error (.msg "loop" [])
  | _ + 1, [], _, out => .ok out
  | n + 1, s :: todo, seen, out =>
    match body (s :: todo) with
    | .error e => .error e
    | .ok o =>
      let seen' := (s :: todo) ++ seen
      fixLoop G body exit d n (addStates G (fresh G seen' (keepAll d o.norm)) []) seen'
        ⟨addStates G (keepAll d o.brk) (bif exit then addStates G (s :: todo) out.norm else out.norm), [],
          addStates G o.ret out.ret⟩

/-- Set a variable in all states. -/
def setAll (x : Var) (v : Option GV) : List GS → List GS
  | [] => []
  | s :: l => s.set x v :: setAll x v l

/-- Unroll a loop `for x in i..i+n`; without a bound it must end by itself. -/
def unroll (G : Tables) (body : List GS → R Outs) (x : Var) (bounded : Bool) (d : List (Var × GV)) :
    Nat → Nat → List GS → R Outs
  | _, _, [] => .ok ⟨[], [], []⟩
  | 0, _, s :: l => bif bounded then .ok ⟨s :: l, [], []⟩ else .error (.msg "unbounded" s.X)
  | n + 1, i, s :: l => match body (setAll x (some (.nat i)) (s :: l)) with
    | .error e => .error e
    | .ok o => match unroll G body x bounded d n (i + 1) o.norm with
      | .error e => .error e
      | .ok r => .ok ⟨addStates G (keepAll d o.brk) r.norm, [], o.ret ++ r.ret⟩

/-- Evaluate an expression in all states; `f` receives the value. -/
def evalAll (G : Tables) (call : Call) (e : Exp) (f : Option GV → GS → GS) : List GS → R (List GS)
  | [] => .ok []
  | s :: l => match evalE G call s e with
    | .error e => .error e
    | .ok r => match evalAll G call e f l with
      | .error e => .error e
      | .ok q => .ok (putAll r q)
where
  /-- Add the states after an evaluation. -/
  putAll : List (Option GV × GS) → List GS → List GS
    | [], q => q
    | (v, s) :: r, q => f v s :: putAll r q

/-- Sort answers. -/
def sortAns : List (Bool × GS) → List GS × List GS → List GS × List GS
  | [], q => q
  | (true, s) :: l, q => match sortAns l q with
    | (a, b) => (s :: a, b)
  | (false, s) :: l, q => match sortAns l q with
    | (a, b) => (a, s :: b)

/-- Decide a condition in all states: those in which it may hold, and those in which it may fail. -/
def evalCs (G : Tables) (c : Cond) : List GS → R (List GS × List GS)
  | [] => .ok ([], [])
  | s :: l => match evalC G c s with
    | .error e => .error e
    | .ok r => match evalCs G c l with
      | .error e => .error e
      | .ok q => .ok (sortAns r q)

/-- The next token in all states. -/
def nextAll (G : Tables) : List GS → R (List GS)
  | [] => .ok []
  | ⟨d, X, m⟩ :: l => match heads G FUEL X with
    | .error e => .error e
    | .ok hs => match nextAll G l with
      | .error e => .error e
      | .ok q => tails d m X q hs
where
  /-- The states after the first token. -/
  tails (d : List (Var × GV)) (m : Mask) (X : List GSym) (q : List GS) : List (List GSym) → R (List GS)
    | [] => .ok q
    | (.T _ :: Y) :: hs => bif noRest m && !nonempty G Y then .error (.msg "next" X) else match tails d m X q hs with
      | .error e => .error e
      | .ok r => .ok (⟨d, Y, m⟩ :: r)
    | _ :: _ => .error (.msg "next" X)

/-- Run from each state. -/
def eachState (f : GS → R Outs) : List GS → R Outs
  | [] => .ok ⟨[], [], []⟩
  | s :: l => match f s with
    | .error e => .error e
    | .ok o => match eachState f l with
      | .error e => .error e
      | .ok p => .ok ⟨o.norm ++ p.norm, o.brk ++ p.brk, o.ret ++ p.ret⟩

/-- Run a command on a list of states. -/
def exec (G : Tables) (call : Call) : Cmd → List GS → R Outs
  | .skip, S => .ok ⟨S, [], []⟩
  | .seq a b, S => match exec G call a S with
    | .error e => .error e
    | .ok o => match addStates G o.norm [] with
      | [] => .ok ⟨[], o.brk, o.ret⟩
      | S' => match exec G call b S' with
        | .error e => .error e
        | .ok p => .ok ⟨p.norm, o.brk ++ p.brk, o.ret ++ p.ret⟩
  | .next, S => match nextAll G S with
    | .error e => .error e
    | .ok l => .ok ⟨l, [], []⟩
  | .set x e, S => match evalAll G call e (fun v s => s.set x v) S with
    | .error e => .error e
    | .ok l => .ok ⟨l, [], []⟩
  | .push x _ e, S => match evalAll G call e (fun _ s => s.set x none) S with
    | .error e => .error e
    | .ok l => .ok ⟨l, [], []⟩
  | .pushVec x _ e, S => match evalAll G call e (fun _ s => s.set x none) S with
    | .error e => .error e
    | .ok l => .ok ⟨l, [], []⟩
  | .append x e, S => match evalAll G call e (fun _ s => s.set x none) S with
    | .error e => .error e
    | .ok l => .ok ⟨l, [], []⟩
  | .setType x _, S => .ok ⟨setAll x none S, [], []⟩
  | .ite c a b, S => match evalCs G c S with
    | .error e => .error e
    | .ok ([], F) => exec G call b F
    | .ok (T, []) => exec G call a T
    | .ok (T, F) => match exec G call a T with
      | .error e => .error e
      | .ok o => match exec G call b F with
        | .error e => .error e
        | .ok p => .ok ⟨o.norm ++ p.norm, o.brk ++ p.brk, o.ret ++ p.ret⟩
  | .loop a, S => fixLoop G (exec G call a) false (headEnv S) 100 S [] ⟨[], [], []⟩
  | .brk, S => .ok ⟨[], S, []⟩
  | .ret e, S => match evalAll G call e (fun _ s => s) S with
    | .error e => .error e
    | .ok l => .ok ⟨[], [], l⟩
  | .fail _ line, S => match S with
    | [] => .ok ⟨[], [], []⟩
    | s :: _ => .error (.msg s!"fail {line}" s.X)
  | .scan x lo none body, S => unroll G (exec G call body) x false (headEnv S) 6 lo S
  | .scan x lo (some hi) body, S => eachState (fun s => match evalA s hi with
      | some (.nat h) => unroll G (exec G call body) x true s.env (h - lo) lo [s]
      | _ => .error (.msg "scan" s.X)) S
  | .drain v x body, S =>
    fixLoop G (fun S => exec G call body (setAll x none S)) true (headEnv S) 100 (setAll v none S) [] ⟨[], [], []⟩
  | .tryElse x f args _, S => match evalAll G call (.call f args) (fun _ s => s.set x none) S with
    | .error e => .error e
    | .ok l => .ok ⟨l, [], []⟩

/-- Initial values of the parameters. -/
def bindG : List Var → List (Option GV) → List (Var × GV)
  | x :: xs, v :: vs => match v with
    | some v => GS.insert x v (GS.forget x (bindG xs vs))
    | none => GS.forget x (bindG xs vs)
  | _, _ => []

/-- The stream left by a return is described by one of the given ones. -/
def postOk (G : Tables) (X : List GSym) : List (List GSym) → Bool
  | [] => false
  | p :: ps => match fold G FUEL p X with
    | some [] => true
    | _ => postOk G X ps

/-- All returns are described by the summary. -/
def retsOk (G : Tables) (post : List (List GSym)) : List GS → Bool
  | [] => true
  | s :: l => postOk G s.X post && retsOk G post l

/-- A summary is right for a function, given the summaries of all functions. -/
def checkEntry (G : Tables) (tab : Fn → List Entry) (d : FunDef) (e : Entry) : Bool :=
  match exec G (callTab G tab) d.body [⟨bindG d.params e.args, e.pre, e.follow⟩] with
  | .ok o => retsOk G e.post o.ret
  | .error _ => false

end Verif.GI
