import Verif.Model.Names
import Verif.Model.Token
import Verif.Spec.Tree
import Verif.Spec.Loss
/-! What a role says about the children of a node.  The table of roles is in Spec/Roles.lean. -/
namespace Verif.Spec

/-- What is required of children of one type.
`has`: they have children under these keys.
`tokens`: their tokens are among these. -/
structure OfType where
  type : NodeType
  has : List Key := []
  tokens : Option (List Kw) := none

/-- What is required of the children under `key`.
`parent`: the requirement is only for nodes with one of these tokens.
`notParent`: it is not for nodes with one of these tokens.
`types`: the children have one of these types.
`tokens`: their tokens are among these.
`without`: they have no child under one of these keys.
`each`: what is required of those of certain types. -/
structure Role where
  key : Key
  parent : Option (List Kw) := none
  notParent : List Kw := []
  types : Option (List NodeType) := none
  tokens : Option (List Kw) := none
  without : List Key := []
  each : List OfType := []

/-- The token of the node is, up to letter case, one of the words. -/
def HasToken (U : Unicode) (m : Node) (ks : List Kw) : Prop :=
  ∃ t, m.tok = some t ∧ ∃ k ∈ ks, t.upper U = k.lit

/-- The node fits the requirement, if it has the type. -/
def OfType.Holds (U : Unicode) (s : OfType) (c : Node) : Prop :=
  c.ty = s.type → (∀ k ∈ s.has, HasChild c k) ∧ ∀ ks, s.tokens = some ks → HasToken U c ks

/-- The children of `m` play the role. -/
def Role.Holds (U : Unicode) (r : Role) (m : Node) : Prop :=
  (∀ ks, r.parent = some ks → HasToken U m ks) → ¬ HasToken U m r.notParent → ∀ c ∈ childrenAt m r.key,
    (∀ ts, r.types = some ts → c.ty ∈ ts) ∧ (∀ ks, r.tokens = some ks → HasToken U c ks) ∧
    (∀ k ∈ r.without, ¬ HasChild c k) ∧ ∀ s ∈ r.each, s.Holds U c

end Verif.Spec
