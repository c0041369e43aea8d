import Verif.Spec.Tree
/-! Where comments belong.  Only the token type, `Token.isComment` and the tree type are used. -/
namespace Verif.Spec

/-- The comments directly after the token at index `i` that start on the line of that token. -/
def trailingComments (toks : List Token) (i : Nat) : List Token :=
  match toks[i]? with
  | none => []
  | some t => (toks.drop (i + 1)).takeWhile fun c => c.isComment && c.line == t.line

/-- The number of comments directly before index `i`. -/
def commentsBefore (toks : List Token) (i : Nat) : Nat :=
  ((toks.take i).reverse.takeWhile Token.isComment).length

/-- Index of the first comment that leads the token at index `i`: the comments directly before it,
without those that trail the preceding token. -/
def leadStart (toks : List Token) (i : Nat) : Nat :=
  let n := commentsBefore toks i
  if n = i then 0 else i - n + (trailingComments toks (i - n - 1)).length

/-- The comments that lead the token at index `i`. -/
def leadingComments (toks : List Token) (i : Nat) : List Token :=
  (toks.take i).drop (leadStart toks i)

/-- A node that consists of a comment token and nothing else. -/
def IsCommentNode (n : Node) : Prop := ∃ t, n = .mk (some t) .Comment .nil

/-- The node holds the token at index `i` and, under `leading_comments` and `trailing_comments`, exactly
the comments that belong to this token; the keys are absent when there are none. -/
structure Carries (toks : List Token) (i : Nat) (n : Node) : Prop where
  token : n.tok = toks[i]?
  exists_ : i < toks.length
  leading : (childrenAt n .k_leading_comments) =
    (leadingComments toks i).map fun t => .mk (some t) .Comment .nil
  trailing : (childrenAt n .k_trailing_comments) =
    (trailingComments toks i).map fun t => .mk (some t) .Comment .nil
  no_leading : leadingComments toks i = [] → arrayAt n.kids .k_leading_comments = none
  no_trailing : trailingComments toks i = [] → arrayAt n.kids .k_trailing_comments = none

end Verif.Spec
