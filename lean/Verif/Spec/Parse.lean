import Verif.Spec.Tree
import Mathlib.Data.List.Forall2
/-! Vocabulary for statements that compare two runs of `parse`. -/
namespace Verif.Spec

/-- The literals differ at most in the case of ASCII letters (`Char.toUpper` only changes these). -/
def SameUpToCase (t t' : Token) : Prop := t.literal.map Char.toUpper = t'.literal.map Char.toUpper

/-- Only comments between the `i`-th and the `j`-th token. -/
def OnlyCommentsBetween (toks : List Token) (i j : Nat) : Prop :=
  i < j ∧ ∀ k t, i < k → k < j → toks[k]? = some t → t.isComment = true

/-- `b` starts on the line of `a`. -/
def SameLine (a b : Token) : Prop := a.line = b.line

/-- `b` starts right where `a` ends. -/
def Touches (a b : Token) : Prop := a.line = b.line ∧ a.column + a.literal.length = b.column

/-- `toks'` has tokens with the same literals up to case at other places, such that a comment starts on the line
of the token before it (there may be other comments between) in `toks'` if and only if it does in `toks`, and of
two consecutive tokens that are not comments the second touches the first in `toks'` if and only if it does in
`toks`. -/
structure Relocated (toks toks' : List Token) : Prop where
  literals : List.Forall₂ SameUpToCase toks toks'
  comment : ∀ i j a b a' b', OnlyCommentsBetween toks i j → a.isComment = false → b.isComment = true →
    toks[i]? = some a → toks[j]? = some b → toks'[i]? = some a' → toks'[j]? = some b' →
    (SameLine a b ↔ SameLine a' b')
  touch : ∀ i j a b a' b', OnlyCommentsBetween toks i j → a.isComment = false → b.isComment = false →
    toks[i]? = some a → toks[j]? = some b → toks'[i]? = some a' → toks'[j]? = some b' →
    (Touches a b ↔ Touches a' b')

/-- The two tokens stand at the same index of the two lists. -/
def Corresponds (toks toks' : List Token) (t t' : Token) : Prop :=
  ∃ i : Nat, toks[i]? = some t ∧ toks'[i]? = some t'

/-- The same message about the token `t` and about the token `t'`: the end of the input was reached, or the
message made at the same place of the program. -/
inductive SameMsg (t t' : Token) : Msg → Msg → Prop
  | eof : SameMsg t t' .followedByEof .followedByEof
  | site (n : Nat) : SameMsg t t' (.site n t.literal) (.site n t'.literal)

/-- The two outcomes correspond: trees of the same shape with corresponding tokens; errors with the
same message at corresponding tokens; the same panic. -/
inductive SameOutcome (toks toks' : List Token) : Out (List Node) → Out (List Node) → Prop
  | ok {ns ns' : List Node} (h : List.Forall₂ (SameShape (Corresponds toks toks')) ns ns') :
      SameOutcome toks toks' (.ok ns) (.ok ns')
  | err {t t' : Token} (h : Corresponds toks toks' t t') {m m' : Msg} (hm : SameMsg t t' m m') :
      SameOutcome toks toks' (.err ⟨t.line, t.column, m⟩) (.err ⟨t'.line, t'.column, m'⟩)
  | panic (p : Panic) : SameOutcome toks toks' (.panic p) (.panic p)

end Verif.Spec
