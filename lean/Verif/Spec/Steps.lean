import Verif.Spec.Script
/-! Sequences of complete statements (C41). -/
namespace Verif.Spec

/-- `n` statements of the grammar, each followed by a semicolon.  (A `PlainStep` is a `Step` other than an
`INSERT`, `CREATE TABLE`, `CREATE VIEW`, `CREATE FUNCTION` or `EXPORT DATA` statement that ends in a query with
`|>`.) -/
inductive IsSteps : Nat → List Str → Prop
  | nil : IsSteps 0 []
  | cons {n : Nat} {s rest : List Str} (h : Derives [.nt .PlainStep] s) (hr : IsSteps n rest) :
      IsSteps (n + 1) (s ++ ";".toList :: rest)

end Verif.Spec
