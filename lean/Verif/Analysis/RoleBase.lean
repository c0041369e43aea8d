import Verif.Model.Program
/-! The table of roles (Verif.Spec.Roles) in the form used by the analysis. -/
namespace Verif.AI

/-- What is required of children of the type `cty`: the keys they must have and the classes of their tokens, as
bit masks. -/
structure OfType where
  cty : Nat
  must : Nat
  ctok : Nat
  deriving Repr, Inhabited

/-- What is required of the children under one key of nodes whose token is in `ptok`: their types, the classes
of their tokens, and the keys they may have, as bit masks; and what depends on their types. -/
structure Role where
  key : Nat
  ptok : Nat
  ctys : Nat
  ctok : Nat
  ckeys : Nat
  subs : List OfType
  deriving Repr, Inhabited

end Verif.AI
