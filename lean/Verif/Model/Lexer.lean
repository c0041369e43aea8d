import Verif.Model.Token
/-!
src/lexer.rs.  The Rust lexer walks an index over `input : Vec<char>`; the model keeps the not yet
consumed suffix of the input instead.  The `read_*` functions are written as functions splitting that
suffix into the consumed part and the rest; `none` means that `next_char` hit the end of the input.
-/
namespace Verif
namespace Lex

/-- src/lexer.rs 50-57: effect of `next_char` on `(line, column)`. -/
def advance (p : Nat × Nat) (c : Char) : Nat × Nat :=
  if c = '\n' then (p.1 + 1, 1) else (p.1, p.2 + 1)

/-- src/lexer.rs 50-68. Effect of consuming a string with `next_char`. -/
def advanceAll (p : Nat × Nat) (s : Str) : Nat × Nat := s.foldl advance p

/-- src/lexer.rs 7-14: `struct Lexer`; `rest` is `input[position..]`. -/
structure State where
  rest : Str
  line : Nat
  column : Nat
  depth : Nat
  tokens : List Token
  deriving Repr, DecidableEq, Inhabited

/-- src/lexer.rs 18-28: `Lexer::new`. -/
def State.init (input : Str) : State := ⟨input, 1, 1, 0, []⟩

/-- src/lexer.rs 434-439: `is_valid_1st_char_of_ident`. -/
def identStart (U : Unicode) (c : Char) : Bool := U.isAlphabetic c || c == '_'

/-- src/lexer.rs 441-446: `is_valid_char_of_ident`. -/
def identChar (U : Unicode) (c : Char) : Bool := U.isAlphabetic c || isDigitChar c || c == '_'

/-- src/lexer.rs 263-265, 284-286, 305-307, 358-360. Longest prefix of characters satisfying `p`, and the rest: a `while p(get_char(0)) next_char()`
loop. -/
def spanP (p : Char → Bool) : Str → Str × Str
  | [] => ([], [])
  | c :: cs => if p c then (c :: (spanP p cs).1, (spanP p cs).2) else ([], c :: cs)

/-- Loop of src/lexer.rs 273-275 and 276: consume up to and including the first `q`. -/
def throughChar (q : Char) : Str → Option (Str × Str)
  | [] => none
  | c :: cs =>
    if c = q then some ([c], cs)
    else match throughChar q cs with
      | some (a, b) => some (c :: a, b)
      | none => none

/-- src/lexer.rs 269-281: `read_back_quoted`, called with the quote as the current character. -/
def readBackQuoted : Str → Option (Str × Str)
  | [] => none
  | q :: cs => match throughChar q cs with
    | some (a, b) => some (q :: a, b)
    | none => none

/-- src/lexer.rs 290. `str::trim_end`. -/
def trimEnd : Str → Str
  | [] => []
  | c :: cs =>
    match trimEnd cs with
    | [] => if isWhitespaceChar c then [] else [c]
    | r => c :: r

/-- src/lexer.rs 282-293: `read_comment`: the consumed characters (before `trim_end`) and the rest. -/
def readComment (s : Str) : Str × Str := spanP (fun c => c != '\n') s

/-- src/lexer.rs 313-324: `read_multiline_comment`. -/
def readMultilineComment : Str → Option (Str × Str)
  | [] => none
  | c :: cs =>
    if c = '*' ∧ cs.head? = some '/' then some ([c, '/'], cs.tail)
    else match readMultilineComment cs with
      | some (a, b) => some (c :: a, b)
      | none => none

/-- src/lexer.rs 401-411 and 412: loop of `read_string` after the opening quote and the final
`next_char`. -/
def stringLoop (q : Char) : Bool → Str → Option (Str × Str)
  | _, [] => none
  | odd, c :: cs =>
    if odd = false ∧ c = q then some ([c], cs)
    else
      match stringLoop q (if c = '\\' then !odd else false) cs with
      | some (a, b) => some (c :: a, b)
      | none => none

/-- src/lexer.rs 396-417: `read_string`. -/
def readString : Str → Option (Str × Str)
  | [] => none
  | q :: cs => match stringLoop q false cs with
    | some (a, b) => some (q :: a, b)
    | none => none

/-- src/lexer.rs 333-350: loop of `read_multiline_string` after the three opening quotes and the three
final `next_char`s. -/
def multilineStringLoop (q : Char) : Bool → Str → Option (Str × Str)
  | _, [] => none
  | odd, c :: cs =>
    if odd = false ∧ c = q ∧ cs.head? = some q ∧ cs.tail.head? = some q then
      some ([c, q, q], cs.tail.tail)
    else
      match multilineStringLoop q (if c = '\\' then !odd else false) cs with
      | some (a, b) => some (c :: a, b)
      | none => none

/-- src/lexer.rs 325-355: `read_multiline_string`, called when three quotes follow. -/
def readMultilineString : Str → Option (Str × Str)
  | q :: q' :: q'' :: cs => match multilineStringLoop q false cs with
    | some (a, b) => some (q :: q' :: q'' :: a, b)
    | none => none
  | _ => none

/-- src/lexer.rs 361-366: optional fraction of a number. -/
def readFraction (s : Str) : Str × Str :=
  match s with
  | '.' :: r => ('.' :: (spanP isDigitChar r).1, (spanP isDigitChar r).2)
  | _ => ([], s)

/-- src/lexer.rs 369-371: optional sign of an exponent. -/
def readSign (s : Str) : Str × Str :=
  match s with
  | c :: r => if c = '+' ∨ c = '-' then ([c], r) else ([], s)
  | [] => ([], [])

/-- src/lexer.rs 367-375: optional exponent of a number. -/
def readExponent (s : Str) : Str × Str :=
  match s with
  | c :: r =>
    if c = 'E' ∨ c = 'e' then
      (c :: (readSign r).1 ++ (spanP isDigitChar (readSign r).2).1,
        (spanP isDigitChar (readSign r).2).2)
    else ([], s)
  | [] => ([], [])

/-- src/lexer.rs 356-380: `read_number`; no `next_char` here can fail. -/
def readNumber (s : Str) : Str × Str :=
  let d := spanP isDigitChar s
  let f := readFraction d.2
  let e := readExponent f.2
  (d.1 ++ f.1 ++ e.1, e.2)

/-- src/lexer.rs 294-312: `read_identifier` on a valid first character. -/
def readIdentifier (U : Unicode) : Str → Str × Str
  | [] => ([], [])
  | c :: cs => (c :: (spanP (identChar U) cs).1, (spanP (identChar U) cs).2)

/-- Does `s` start with `n` closing braces?  src/lexer.rs 228-232. -/
def startsBraces : Nat → Str → Bool
  | 0, _ => true
  | _ + 1, [] => false
  | n + 1, c :: cs => c == '}' && startsBraces n cs

/-- src/lexer.rs 226-237: loop of the template arm (`'outer`) and the final `next_char`s. -/
def templateLoop (n : Nat) : Str → Option (Str × Str)
  | [] => none
  | c :: cs =>
    if startsBraces n cs then some (c :: cs.take n, cs.drop n)
    else match templateLoop n cs with
      | some (a, b) => some (c :: a, b)
      | none => none

/-- src/lexer.rs 70-261. Result of reading one token: what was consumed, the literal (they differ for line comments) and
what is left; or failure with the part consumed before the error and the message. -/
inductive Read
  | tok (consumed literal rest : Str)
  | fail (consumed : Str) (msg : Msg)
  deriving Repr, DecidableEq

/-- src/lexer.rs 80-259. A reader that consumes exactly the literal. -/
def Read.exact (r : Str × Str) : Read := .tok r.1 r.1 r.2

/-- src/lexer.rs 50-68, 80-259. A reader that may hit the end of input; `next_char` then fails after everything was consumed. -/
def Read.ofOption (s : Str) : Option (Str × Str) → Read
  | some (a, b) => .tok a a b
  | none => .fail s .unexpectedEof

/-- src/lexer.rs 80-259, such as 114-117. `n` characters as one token (`next_char` `n` times; they are known to exist). -/
def Read.chars (n : Nat) (s : Str) : Read := .tok (s.take n) (s.take n) (s.drop n)

/-- src/lexer.rs 381-395: `read_parameter`, starting at `@`. -/
def readParameter (U : Unicode) (s : Str) : Read :=
  let a := spanP (fun c => c == '@') s
  match a.2 with
  | [] => .fail a.1 .invalidIdent
  | c :: cs =>
    if c = '`' then
      match readBackQuoted (c :: cs) with
      | some (x, y) => .tok (a.1 ++ x) (a.1 ++ x) y
      | none => .fail s .unexpectedEof
    else if identStart U c then
      let i := readIdentifier U (c :: cs)
      .tok (a.1 ++ i.1) (a.1 ++ i.1) i.2
    else .fail a.1 .invalidIdent

/-- src/lexer.rs 216-220: after a single `{`, does a pattern quantifier (no template) follow? -/
def quantifierFollows : Str → Bool
  | c :: _ => c == '@' || isDigitChar c || c == ','
  | [] => false

/-- src/lexer.rs 209-243: the `'{'` arm. -/
def readBrace (s : Str) : Read :=
  let a := spanP (fun c => c == '{') s
  let n := a.1.length
  if n = 1 ∧ quantifierFollows a.2 = true then
    .tok a.1 ['{'] a.2
  else match templateLoop n a.2 with
    | some (x, y) => .tok (a.1 ++ x) (a.1 ++ x) y
    | none => .fail s .unexpectedEof

/-- Was the last token `ARRAY` or `STRUCT`?  src/lexer.rs 156-157. -/
def lastIsArrayOrStruct (U : Unicode) (t : Token) : Bool :=
  t.upper U == Kw.lit .ARRAY || t.upper U == Kw.lit .STRUCT

/-- src/lexer.rs 80-259: the big `match` of `next_token` on the current character `c`, with `cs` the
characters after it.  Arms `<` and `>` also change the depth, see `stepDepth`. -/
def readToken (U : Unicode) (depth : Nat) (c : Char) (cs : Str) : Read :=
  let s := c :: cs
  let c1 := cs.head?
  match c with
  | '.' =>
    match c1 with
    | some d => if isDigitChar d then Read.exact (readNumber s) else Read.chars 1 s
    | none => Read.chars 1 s
  | '#' => let r := readComment s; .tok r.1 (trimEnd r.1) r.2
  | '`' => Read.ofOption s (readBackQuoted s)
  | '"' | '\'' =>
    if c1 = some c ∧ cs.tail.head? = some c then Read.ofOption s (readMultilineString s)
    else Read.ofOption s (readString s)
  | '-' =>
    if c1 = some '-' then let r := readComment s; .tok r.1 (trimEnd r.1) r.2 else Read.chars 1 s
  | '/' => if c1 = some '*' then Read.ofOption s (readMultilineComment s) else Read.chars 1 s
  | '|' => if c1 = some '|' then Read.chars 2 s else if c1 = some '>' then Read.chars 2 s
      else Read.chars 1 s
  | '<' => if c1 = some '<' then Read.chars 2 s else if c1 = some '=' then Read.chars 2 s
      else if c1 = some '>' then Read.chars 2 s else Read.chars 1 s
  | '>' => if 0 < depth then Read.chars 1 s else if c1 = some '>' then Read.chars 2 s
      else if c1 = some '=' then Read.chars 2 s else Read.chars 1 s
  | '=' => if c1 = some '>' then Read.chars 2 s else Read.chars 1 s
  | '!' => if c1 = some '=' then Read.chars 2 s else Read.chars 1 s
  | '@' => readParameter U s
  | '{' => readBrace s
  | _ =>
    if isDigitChar c then Read.exact (readNumber s)
    else if identStart U c then Read.exact (readIdentifier U s)
    else Read.chars 1 s

/-- src/lexer.rs 155-160 and 166-167: effect of a token starting with `c` on
`type_declaration_depth`; `none` is the panic of `tokens.last().unwrap()`. -/
def stepDepth (U : Unicode) (depth : Nat) (last : Option Token) (c : Char) (cs : Str) : Option Nat :=
  if c = '<' ∧ cs.head? ≠ some '<' ∧ cs.head? ≠ some '=' ∧ cs.head? ≠ some '>' then
    match last with
    | none => none
    | some t => some (if lastIsArrayOrStruct U t then depth + 1 else depth)
  else if c = '>' ∧ 0 < depth then some (depth - 1)
  else some depth

/-- src/lexer.rs 70-261: `next_token`; `none` for the end of the input, otherwise the new state with
one more token.  `skip_whitespace` (262-267) is the first `spanP`. -/
def nextToken (U : Unicode) (st : State) : Out (Option State) :=
  let ws := spanP isWhitespaceChar st.rest
  let p := advanceAll (st.line, st.column) ws.1
  match ws.2 with
  | [] => .ok none
  | c :: cs =>
    match stepDepth U st.depth st.tokens.getLast? c cs with
    | none => .panic .noLastToken
    | some d =>
      match readToken U st.depth c cs with
      | .fail consumed m =>
        let q := advanceAll p consumed
        .err ⟨q.1, q.2, m⟩
      | .tok consumed literal rest =>
        let q := advanceAll p consumed
        .ok (some ⟨rest, q.1, q.2, d, st.tokens ++ [⟨p.1, p.2, literal⟩]⟩)

/-- src/lexer.rs 29-36: the loop of `tokenize_code`, with fuel. -/
def tokenizeLoop (U : Unicode) : Nat → State → Out (List Token)
  | 0, _ => .timeout
  | n + 1, st =>
    match nextToken U st with
    | .ok none => .ok (st.tokens ++ [Token.eof])
    | .ok (some st') => tokenizeLoop U n st'
    | .err e => .err e
    | .panic p => .panic p
    | .timeout => .timeout

/-- src/lexer.rs 29-36 and src/lib.rs 44-59: `tokenize`. -/
def tokenize (U : Unicode) (input : Str) : Out (List Token) :=
  tokenizeLoop U (input.length + 1) (State.init input)

end Lex
end Verif
