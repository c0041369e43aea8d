import Verif.Model.Serialize
import Verif.Spec.Tree
import Verif.Spec.Schema
import Mathlib.Data.List.Forall2
/-! What it means that a JavaScript value represents a tree.  Independent of the serialiser of the model. -/
namespace Verif.Spec

/-- An object with exactly these properties, in any order, no name twice. -/
def Exactly (j : Json) (props : List (Str × Json)) : Prop :=
  ∃ fs, j = .obj fs ∧ fs.toList.Perm props ∧ (props.map Prod.fst).Nodup

/-- The value of a token. -/
def IsToken (t : Token) (j : Json) : Prop :=
  Exactly j [("line".toList, .num t.line), ("column".toList, .num t.column), ("literal".toList, .str t.literal)]

/-- The value of an error, given the wording of the messages. -/
def IsError (text : Err → Str) (e : Err) (j : Json) : Prop :=
  Exactly j [("line".toList, .num e.line), ("column".toList, .num e.column), ("message".toList, .str (text e))]

/-- The value of the field `token` of a node. -/
def IsOptToken : Option Token → Json → Prop
  | none, j => j = .null
  | some t, j => IsToken t j

mutual
/-- `IsTree n j`: the object `j` has the properties `token`, `node_type` and `children`, which represent those of
the node `n`. -/
inductive IsTree : Node → Json → Prop
  | node (t : Option Token) (ty : NodeType) (ks : Kids) (j jt jc : Json) (l : List (Str × Json))
      (tok : IsOptToken t jt) (kids : IsKids ks l) (children : Exactly jc l)
      (object : Exactly j [("token".toList, jt), ("node_type".toList, .str ty.name), ("children".toList, jc)]) :
      IsTree (.mk t ty ks) j
/-- One property per child, named after the key: an object with the property `Node` or `NodeVec`. -/
inductive IsKids : Kids → List (Str × Json) → Prop
  | nil : IsKids .nil []
  | one (k : Key) (n : Node) (r : Kids) (j w : Json) (l : List (Str × Json)) (child : IsTree n j)
      (content : Exactly w [("Node".toList, j)]) (rest : IsKids r l) : IsKids (.one k n r) ((k.name, w) :: l)
  | many (k : Key) (ns : Nodes) (r : Kids) (js : Jsons) (w : Json) (l : List (Str × Json)) (children : IsTrees ns js)
      (content : Exactly w [("NodeVec".toList, .arr js)]) (rest : IsKids r l) :
      IsKids (.many k ns r) ((k.name, w) :: l)
/-- An array of trees. -/
inductive IsTrees : Nodes → Jsons → Prop
  | nil : IsTrees .nil .nil
  | cons (n : Node) (r : Nodes) (j : Json) (js : Jsons) (elem : IsTree n j) (rest : IsTrees r js) :
      IsTrees (.cons n r) (.cons j js)
end

/-- The entries of a node: key, array or not, subtrees. -/
def entries : Kids → List (Key × Bool × Nodes)
  | .nil => []
  | .one k n r => (k, false, .cons n .nil) :: entries r
  | .many k ns r => (k, true, ns) :: entries r

mutual
/-- The same tree, except for the order in which the children of a node are listed. -/
inductive SameTree : Node → Node → Prop
  | node (t : Option Token) (ty : NodeType) (ks ks' : Kids) (es : List (Key × Bool × Nodes))
      (perm : es.Perm (entries ks')) (kids : SameEntries (entries ks) es) : SameTree (.mk t ty ks) (.mk t ty ks')
/-- The same entries, in this order. -/
inductive SameEntries : List (Key × Bool × Nodes) → List (Key × Bool × Nodes) → Prop
  | nil : SameEntries [] []
  | cons (k : Key) (b : Bool) {ns ns' : Nodes} {l l' : List (Key × Bool × Nodes)} (h : SameTrees ns ns')
      (rest : SameEntries l l') : SameEntries ((k, b, ns) :: l) ((k, b, ns') :: l')
/-- The same arrays. -/
inductive SameTrees : Nodes → Nodes → Prop
  | nil : SameTrees .nil .nil
  | cons {n n' : Node} {r r' : Nodes} (h : SameTree n n') (rest : SameTrees r r') :
      SameTrees (.cons n r) (.cons n' r')
end

/-- The property of an object. -/
def prop (j : Json) (name : Str) : Option Json :=
  match j with
  | .obj fs => (fs.toList.find? fun p => p.1 == name).map Prod.snd
  | _ => none

mutual
/-- All values inside a value, itself included. -/
def values : Json → List Json
  | .arr js => .arr js :: arrValues js
  | .obj fs => .obj fs :: fieldValues fs
  | j => [j]
/-- All values inside the elements of an array. -/
def arrValues : Jsons → List Json
  | .nil => []
  | .cons j r => values j ++ arrValues r
/-- All values inside the properties of an object. -/
def fieldValues : Fields → List Json
  | .nil => []
  | .cons _ j r => values j ++ fieldValues r
end

/-- `c` is the object, or one of the objects, in the content `v` of a child. -/
def InContent (c v : Json) : Prop :=
  Exactly v [("Node".toList, c)] ∨ ∃ js : Jsons, Exactly v [("NodeVec".toList, .arr js)] ∧ c ∈ js.toList

/-- The object `o` conforms to the TypeScript declaration of the type `ty` (src/types.rs), up to the tables of
exceptions in Spec/Schema.lean. -/
structure Conforms (ty : NodeType) (o : Json) : Prop where
  /-- `token` is null only for two types, otherwise an object with the properties of a token. -/
  token : (∃ t, ∃ j, prop o "token".toList = some j ∧ IsToken t j) ∨
    (prop o "token".toList = some .null ∧ (ty = .EOF ∨ ty = .TypeDeclaration))
  /-- `children` is an object whose properties are declared, as a single node or as an array. -/
  children : ∃ fs, prop o "children".toList = some (.obj fs) ∧ (fs.toList.map Prod.fst).Nodup ∧
    ∀ p ∈ fs.toList, ∃ k : Key, p.1 = k.name ∧
      (((k, Kind.node) ∈ declared ty ++ undeclared ty ∧ ∃ c, Exactly p.2 [("Node".toList, c)]) ∨
        ((k, Kind.vec) ∈ declared ty ++ undeclared ty ∧ ∃ js, Exactly p.2 [("NodeVec".toList, .arr js)]))
  /-- Mandatory children are there. -/
  mandatory : ∀ k ∈ mandatory ty, k ∉ omissible ty →
    ∃ j v, prop o "children".toList = some j ∧ prop j k.name = some v
  /-- Children have the declared types. -/
  types : ∀ e ∈ childTypes ty, e.1 ∉ otherTypes ty → ∀ j v, prop o "children".toList = some j →
    prop j e.1.name = some v → ∀ c, InContent c v → ∃ ty' ∈ e.2, prop c "node_type".toList = some (.str ty'.name)

end Verif.Spec
