import Verif.Model.Token
/-! src/cst.rs: the tree type. -/
namespace Verif

mutual
/-- src/cst.rs 170-175: `struct Node`.  The `HashMap<String, ContentType>` of children is an
association list (`Kids`). -/
inductive Node where
  | mk (tok : Option Token) (ty : NodeType) (kids : Kids)
/-- Children: an association list from keys to `ContentType` (src/cst.rs 9-13); `one` is
`ContentType::Node`, `many` is `ContentType::NodeVec`. -/
inductive Kids where
  | nil
  | one (k : Key) (n : Node) (rest : Kids)
  | many (k : Key) (ns : Nodes) (rest : Kids)
/-- src/cst.rs 12. `Vec<Node>`. -/
inductive Nodes where
  | nil
  | cons (n : Node) (rest : Nodes)
end

instance : Inhabited Node := ⟨.mk none .Unknown .nil⟩
instance : Inhabited Kids := ⟨.nil⟩
instance : Inhabited Nodes := ⟨.nil⟩

namespace Nodes
/-- src/cst.rs 12. `Vec<Node>` from a Lean list. -/
def ofList : List Node → Nodes
  | [] => .nil
  | n :: ns => .cons n (ofList ns)
/-- src/cst.rs 12. The elements of a `Vec<Node>`. -/
def toList : Nodes → List Node
  | .nil => []
  | .cons n ns => n :: toList ns
@[simp] theorem toList_ofList (l : List Node) : (ofList l).toList = l := by
  induction l with
  | nil => rfl
  | cons a l ih => simp [ofList, toList, ih]
end Nodes

namespace Kids
/-- src/cst.rs 231-234. `HashMap::insert` with `ContentType::Node`: replaces an existing entry. -/
def insertOne (k : Key) (n : Node) : Kids → Kids
  | .nil => .one k n .nil
  | .one k' n' r => if k = k' then .one k n r else .one k' n' (insertOne k n r)
  | .many k' ns r => if k = k' then .one k n r else .many k' ns (insertOne k n r)
/-- src/cst.rs 235-238. `HashMap::insert` with `ContentType::NodeVec`: replaces an existing entry. -/
def insertMany (k : Key) (ns : Nodes) : Kids → Kids
  | .nil => .many k ns .nil
  | .one k' n' r => if k = k' then .many k ns r else .one k' n' (insertMany k ns r)
  | .many k' ns' r => if k = k' then .many k ns r else .many k' ns' (insertMany k ns r)
/-- src/cst.rs 208. The keys, in insertion order. -/
def keys : Kids → List Key
  | .nil => []
  | .one k _ r => k :: keys r
  | .many k _ r => k :: keys r
/-- src/cst.rs 212; src/parser.rs 708-711. `HashMap::get` restricted to `ContentType::Node`. -/
def getOne (k : Key) : Kids → Option Node
  | .nil => none
  | .one k' n r => if k = k' then some n else getOne k r
  | .many k' _ r => if k = k' then none else getOne k r
end Kids

namespace Node
/-- src/cst.rs 172. The token of a node. -/
def tok : Node → Option Token | mk t _ _ => t
/-- src/cst.rs 173. The type of a node. -/
def ty : Node → NodeType | mk _ t _ => t
/-- src/cst.rs 174. The children of a node. -/
def kids : Node → Kids | mk _ _ k => k

/-- src/cst.rs 178-184: `Node::new`. -/
def new (t : Token) (ty : NodeType) : Node := mk (some t) ty .nil
/-- src/cst.rs 185-191: `Node::empty`. -/
def empty (ty : NodeType) : Node := mk none ty .nil
/-- src/cst.rs 231-234: `push_node`. -/
def pushNode (n : Node) (k : Key) (c : Node) : Node := mk n.tok n.ty (n.kids.insertOne k c)
/-- src/cst.rs 235-238: `push_node_vec`. -/
def pushVec (n : Node) (k : Key) (cs : List Node) : Node :=
  mk n.tok n.ty (n.kids.insertMany k (Nodes.ofList cs))
/-- src/cst.rs 173; src/parser.rs 62-77. Assignment to the field `node_type`. -/
def setType (n : Node) (ty : NodeType) : Node := mk n.tok ty n.kids

/-- src/parser.rs 706-712: follow `left` children through `DotOperator` nodes; the type of the node
reached. -/
def leftmostType : Node → NodeType
  | mk _ ty kids => if ty = .DotOperator then kidsLeftmost ty kids else ty
where
  /-- Walk into the child under `left`, if it is a single node. -/
  kidsLeftmost (dflt : NodeType) : Kids → NodeType
    | .nil => dflt
    | .one k n r => if k = .k_left then leftmostType n else kidsLeftmost dflt r
    | .many k _ r => if k = .k_left then dflt else kidsLeftmost dflt r
end Node

end Verif
