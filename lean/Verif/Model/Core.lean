import Verif.Model.Cst
/-! The core of src/parser.rs (lines 10-210) except `parse_code`. -/
namespace Verif

/-- src/parser.rs 10-16: `struct Parser` without the (immutable) token list. -/
structure PS where
  pos : Nat
  lead : List Nat
  trail : List Nat
  deriving DecidableEq, Repr, Inhabited

namespace Core

/-- src/parser.rs 26, 34-35, 86, 94, 157, 166, 175, 204. `self.tokens[i]`, panicking out of range. -/
def tokAt (toks : List Token) (i : Nat) : Out Token :=
  match toks[i]? with
  | some t => .ok t
  | none => .panic .index

/-- Loop of src/parser.rs 153-170: `idx` is the index of the head of the list. -/
def scanFrom (offset : Nat) : (cnt idx : Nat) → List Token → Option Nat
  | _, _, [] => none
  | cnt, idx, t :: ts =>
    if t.isComment then scanFrom offset cnt (idx + 1) ts
    else if offset ≤ cnt + 1 then some idx
    else scanFrom offset (cnt + 1) (idx + 1) ts

/-- src/parser.rs 149-172: `get_offset_index`. -/
def getOffsetIndex (toks : List Token) (s : PS) (offset : Nat) : Out Nat :=
  if offset = 0 then .ok s.pos
  else match scanFrom offset 0 (s.pos + 1) (toks.drop (s.pos + 1)) with
    | some i => .ok i
    | none => match toks.getLast? with
      | some t => .err ⟨t.line, t.column, .followedByEof⟩
      | none => .panic .index

/-- src/parser.rs 173-176: `get_token`. -/
def getToken (toks : List Token) (s : PS) (offset : Nat) : Out Token :=
  match getOffsetIndex toks s offset with
  | .ok i => tokAt toks i
  | .err e => .err e
  | .panic p => .panic p
  | .timeout => .timeout

/-- src/parser.rs 177-183: `is_eof`. -/
def isEof (toks : List Token) (s : PS) (offset : Nat) : Bool :=
  match getOffsetIndex toks s offset with
  | .ok i => toks.length - 1 ≤ i
  | _ => true

/-- Loop of src/parser.rs 202-208: trailing comments of the token at `pos`, among the indices
`idx, idx+1, ... < stop`, as long as they start on line `line`. -/
def trailing (line : Nat) (stop : Nat) : (idx : Nat) → List Token → List Nat
  | _, [] => []
  | idx, t :: ts =>
    if idx < stop ∧ line = t.line then idx :: trailing line stop (idx + 1) ts else []

/-- src/parser.rs 193-195. The indices `a, a+1, ..., b-1`. -/
def range (a b : Nat) : List Nat := List.range' a (b - a)

/-- src/parser.rs 184-210: `next_token`. -/
def nextToken (toks : List Token) (s : PS) : Out PS :=
  match getOffsetIndex toks s 1 with
  | .err e => .err e
  | .panic p => .panic p
  | .timeout => .timeout
  | .ok next =>
    let from_ := match s.trail.getLast? with
      | some n => n + 1
      | none => s.pos + 1
    let lead := range from_ next
    let s' : PS := ⟨next, lead, []⟩
    match getOffsetIndex toks s' 1 with
    | .ok next' =>
      match tokAt toks next with
      | .ok t => .ok ⟨next, lead, trailing t.line next' (next + 1) (toks.drop (next + 1))⟩
      | .err e => .err e
      | .panic p => .panic p
      | .timeout => .timeout
    | _ => .ok s'

/-- src/parser.rs 26-29. Number of comment tokens at the head of a list. -/
def leadingComments : List Token → Nat
  | [] => 0
  | t :: ts => if t.isComment then leadingComments ts + 1 else 0

/-- Loop of src/parser.rs 34-39: trailing comments of the first token. -/
def trailingNew (line : Nat) : (idx : Nat) → List Token → List Nat
  | _, [] => []
  | idx, t :: ts =>
    if t.isComment ∧ line = t.line then idx :: trailingNew line (idx + 1) ts else []

/-- src/parser.rs 19-41: `Parser::new`.  The Rust code indexes `tokens` while scanning; on a list
ending in a non-comment (the EOF token) the indices stay in range.  Otherwise the model panics. -/
def new (toks : List Token) : Out PS :=
  let n := leadingComments toks
  match toks[n]? with
  | none => .panic .index
  | some t =>
    if n = toks.length - 1 then .ok ⟨n, range 0 n, []⟩
    else .ok ⟨n, range 0 n, trailingNew t.line (n + 1) (toks.drop (n + 1))⟩

/-- Comment nodes for the given indices, src/parser.rs 84-87 and 92-95. -/
def commentNodes (toks : List Token) : List Nat → Out (List Node)
  | [] => .ok []
  | i :: is =>
    match tokAt toks i, commentNodes toks is with
    | .ok t, .ok ns => .ok (Node.new t .Comment :: ns)
    | _, _ => .panic .index

/-- src/parser.rs 83-99: attach the pending comments to a node. -/
def attachComments (toks : List Token) (s : PS) (n : Node) : Out Node :=
  match commentNodes toks s.lead, commentNodes toks s.trail with
  | .ok ls, .ok ts =>
    let n := if 0 < ls.length then n.pushVec .k_leading_comments ls else n
    let n := if 0 < ts.length then n.pushVec .k_trailing_comments ts else n
    .ok n
  | _, _ => .panic .index

/-- src/parser.rs 60-79: the type given to a node constructed as `NodeType::Unknown`. -/
def classify (U : Unicode) (toks : List Token) (s : PS) (t : Token) : Out NodeType :=
  if t.isIdentifier U then .ok .Identifier
  else if t.isNumeric then .ok .NumericLiteral
  else if t.isString then .ok .StringLiteral
  else if t.isBoolean U then .ok .BooleanLiteral
  else if t.isParameter then .ok .Parameter
  else if t.isTemplate then .ok .Template
  else if t.upper U = Kw.lit .NULL then .ok .NullLiteral
  else match getToken toks s 1 with
    | .ok t1 =>
      if t1.literal = Kw.lit .sym_lparen ∨ t1.literal = Kw.lit .sym_dot then .ok .Identifier
      else .ok .Unknown
    | .err e => .err e
    | .panic p => .panic p
    | .timeout => .timeout

/-- src/parser.rs 53-100: `construct_node`. -/
def construct (U : Unicode) (toks : List Token) (s : PS) (nt : NodeType) : Out Node :=
  match getToken toks s 0 with
  | .err e => .err e
  | .panic p => .panic p
  | .timeout => .timeout
  | .ok t =>
    if nt = .EOF then attachComments toks s (Node.empty .EOF)
    else if nt = .Unknown then
      match classify U toks s t with
      | .ok ty => attachComments toks s (Node.new t ty)
      | .err e => .err e
      | .panic p => .panic p
      | .timeout => .timeout
    else attachComments toks s (Node.new t nt)

/-- src/parser.rs 117-146, first part: the precedence of a token other than `NOT`. -/
def precTable (U : Unicode) (t : Token) : Nat :=
  if t.inKws U [.sym_lparen, .sym_lbrack] then 101
  else if t.inKws U [.sym_dot] then 102
  else if t.inKws U [.sym_star, .sym_slash, .sym_concat] then 103
  else if t.inKws U [.sym_plus, .sym_minus] then 104
  else if t.inKws U [.sym_shl, .sym_shr] then 105
  else if t.inKws U [.sym_amp] then 106
  else if t.inKws U [.sym_caret] then 107
  else if t.inKws U [.sym_bar] then 108
  else if t.inKws U [.sym_eq, .sym_lt, .sym_gt, .sym_le, .sym_ge, .sym_ne, .sym_ltgt, .LIKE, .BETWEEN,
      .IN, .IS] then 109
  else if t.inKws U [.AND] then 111
  else if t.inKws U [.OR] then 112
  else if t.inKws U [.sym_arrow] then 200
  else usizeMax

/-- src/parser.rs 101-148: `get_precedence`. -/
def getPrecedence (U : Unicode) (toks : List Token) (s : PS) (offset : Nat) : Out Nat :=
  match getToken toks s offset with
  | .err e => .err e
  | .panic p => .panic p
  | .timeout => .timeout
  | .ok t =>
    if t.inKws U [.NOT] then
      match getToken toks s (offset + 1) with
      | .err e => .err e
      | .panic p => .panic p
      | .timeout => .timeout
      | .ok t1 =>
        if t1.inKws U [.IN, .LIKE, .BETWEEN] then .ok 109
        else if t1.inKws U [.ENFORCED] then .ok usizeMax
        else .err ⟨t1.line, t1.column, .site 133 t1.literal⟩
    else .ok (precTable U t)

end Core
end Verif
