import Verif.Model.Cst
/-! Vocabulary for statements about trees.  No model function other than the tree type is used. -/
namespace Verif.Spec

mutual
/-- All nodes of a tree, the root first. -/
def nodes : Node → List Node
  | .mk t ty ks => .mk t ty ks :: kidsNodes ks
/-- All nodes of the subtrees of a node. -/
def kidsNodes : Kids → List Node
  | .nil => []
  | .one _ n r => nodes n ++ kidsNodes r
  | .many _ ns r => listNodes ns ++ kidsNodes r
/-- All nodes of an array of trees. -/
def listNodes : Nodes → List Node
  | .nil => []
  | .cons n r => nodes n ++ listNodes r
end

/-- The tokens stored in a tree (comments included: they are nodes). -/
def tokensOf (n : Node) : List Token := (nodes n).filterMap Node.tok

/-- The children of a node: keys with the subtrees stored under them. -/
def children : Kids → List (Key × List Node)
  | .nil => []
  | .one k n r => (k, [n]) :: children r
  | .many k ns r => (k, ns.toList) :: children r

/-- The nodes stored under a key. -/
def childrenAt (n : Node) (k : Key) : List Node :=
  (children n.kids).flatMap fun e => if e.1 = k then e.2 else []

/-- Does the key hold a single node (`some false`) or an array (`some true`)? -/
def arrayAt : Kids → Key → Option Bool
  | .nil, _ => none
  | .one k' _ r, k => if k = k' then some false else arrayAt r k
  | .many k' _ r, k => if k = k' then some true else arrayAt r k

mutual
/-- Two trees of the same shape (types, keys, arrays) whose tokens are related by `T` place by place. -/
inductive SameShape (T : Token → Token → Prop) : Node → Node → Prop
  | leaf (ty : NodeType) {ks ks' : Kids} (h : SameKids T ks ks') :
      SameShape T (.mk none ty ks) (.mk none ty ks')
  | tok {t t' : Token} (ht : T t t') (ty : NodeType) {ks ks' : Kids} (h : SameKids T ks ks') :
      SameShape T (.mk (some t) ty ks) (.mk (some t') ty ks')
/-- The same for children. -/
inductive SameKids (T : Token → Token → Prop) : Kids → Kids → Prop
  | nil : SameKids T .nil .nil
  | one (k : Key) {n n' : Node} (h : SameShape T n n') {r r' : Kids} (hr : SameKids T r r') :
      SameKids T (.one k n r) (.one k n' r')
  | many (k : Key) {ns ns' : Nodes} (h : SameArray T ns ns') {r r' : Kids} (hr : SameKids T r r') :
      SameKids T (.many k ns r) (.many k ns' r')
/-- The same for arrays. -/
inductive SameArray (T : Token → Token → Prop) : Nodes → Nodes → Prop
  | nil : SameArray T .nil .nil
  | cons {n n' : Node} (h : SameShape T n n') {r r' : Nodes} (hr : SameArray T r r') :
      SameArray T (.cons n r) (.cons n' r')
end

mutual
/-- The tree without its comments. -/
def stripComments : Node → Node
  | .mk t ty ks => .mk t ty (stripKids ks)
/-- Children without the entries `leading_comments` and `trailing_comments`, recursively. -/
def stripKids : Kids → Kids
  | .nil => .nil
  | .one k n r =>
    if k = .k_leading_comments ∨ k = .k_trailing_comments then stripKids r
    else .one k (stripComments n) (stripKids r)
  | .many k ns r =>
    if k = .k_leading_comments ∨ k = .k_trailing_comments then stripKids r
    else .many k (stripList ns) (stripKids r)
/-- Arrays without comments. -/
def stripList : Nodes → Nodes
  | .nil => .nil
  | .cons n r => .cons (stripComments n) (stripList r)
end

end Verif.Spec
