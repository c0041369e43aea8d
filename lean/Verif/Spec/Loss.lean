import Verif.Spec.Tree
/-! The nodes in which a token can be lost.  Only the tree type is used. -/
namespace Verif.Spec

/-- The node has something stored under the key. -/
def HasChild (m : Node) (k : Key) : Prop := ∃ e ∈ children m.kids, e.1 = k

/-- A column type with a primary key, a reference and an enforcement: both clauses may bring a constraint
enforcement (`NOT ENFORCED`), stored under the same key. -/
def LossyColumn (m : Node) : Prop :=
  m.ty = .Type ∧ HasChild m .k_primarykey ∧ HasChild m .k_references ∧ HasChild m .k_enforced

/-- A `MERGE` statement with a semicolon, or a labelled `FROM` or pipe statement with a semicolon: two
semicolons may have been read into the same place. -/
def LossyStatement (m : Node) : Prop :=
  (m.ty = .MergeStatement ∧ HasChild m .k_semicolon) ∨
  ((m.ty = .FromStatement ∨ m.ty = .PipeStatement) ∧ HasChild m .k_leading_label ∧
    HasChild m .k_semicolon)

/-- No node of the tree can lose a token. -/
def NoLoss (n : Node) : Prop := ∀ m ∈ nodes n, ¬ LossyColumn m ∧ ¬ LossyStatement m

/-- No node of the tree can lose a token other than a semicolon or a comment. -/
def NoColumnLoss (n : Node) : Prop := ∀ m ∈ nodes n, ¬ LossyColumn m

end Verif.Spec
