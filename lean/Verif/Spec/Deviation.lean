import Verif.Spec.Schema
import Verif.Spec.Loss
/-! Deviations of trees from the TypeScript declarations in /repo/src/types.rs. -/
namespace Verif.Spec

/-- A deviation: a child that is not declared (a single node or an array), a missing child, a child of
another type. -/
inductive Deviation
  | node (ty : NodeType) (k : Key)
  | vec (ty : NodeType) (k : Key)
  | missing (ty : NodeType) (k : Key)
  | child (ty : NodeType) (k : Key)
  deriving DecidableEq

/-- The node shows the deviation. -/
def Deviation.Holds (m : Node) : Deviation → Prop
  | .node ty k => m.ty = ty ∧ arrayAt m.kids k = some false
  | .vec ty k => m.ty = ty ∧ arrayAt m.kids k = some true
  | .missing ty k => m.ty = ty ∧ ¬ HasChild m k
  | .child ty k => m.ty = ty ∧ ∃ e ∈ childTypes ty, e.1 = k ∧ ∃ c ∈ childrenAt m k, c.ty ∉ e.2

/-- The deviation is in one of the tables of exceptions of Spec/Schema.lean. -/
def Deviation.Listed : Deviation → Prop
  | .node ty k => (k, .node) ∈ undeclared ty
  | .vec ty k => (k, .vec) ∈ undeclared ty
  | .missing ty k => k ∈ omissible ty
  | .child ty k => k ∈ otherTypes ty

/-- The declarations rule it out. -/
def Deviation.Forbidden : Deviation → Prop
  | .node ty k => (k, .node) ∉ declared ty
  | .vec ty k => (k, .vec) ∉ declared ty
  | .missing ty k => k ∈ mandatory ty
  | .child ty k => ∃ e ∈ childTypes ty, e.1 = k

end Verif.Spec
