import Verif.Model.Cst
/-! src/cst.rs 192-230 and 241-245: `Node::format` and `Display`. -/
namespace Verif
namespace Node

/-- src/cst.rs 201-221. `" ".repeat(n)`. -/
def spaces (n : Nat) : Str := List.replicate n ' '

/-- src/cst.rs 209 (`keys.sort()`). Insert an entry into a list sorted by key (strings are compared through the order of `Key`,
which is the string order, see `Key.all_sorted`). -/
def insertEntry (k : Key) (ls : List Str) : List (Key × List Str) → List (Key × List Str)
  | [] => [(k, ls)]
  | (k', ls') :: r =>
    if k.ctorIdx ≤ k'.ctorIdx then (k, ls) :: (k', ls') :: r else (k', ls') :: insertEntry k ls r

/-- src/cst.rs 193-206: first line of the rendering of a node. -/
def header (tok : Option Token) (ty : NodeType) (indent : Nat) (isArray : Bool) : Str :=
  let literal := match tok with
    | some t => t.literal
    | none => "None".toList
  let self_ :=
    if isArray then spaces ((indent - 1) * 2) ++ "- self: ".toList ++ literal
    else spaces (indent * 2) ++ "self: ".toList ++ literal
  self_ ++ " (".toList ++ ty.name ++ ")".toList

mutual
/-- src/cst.rs 192-230: `format`, as a list of lines (they are joined with `"\n"`). -/
def lines : (indent : Nat) → (isArray : Bool) → Node → List Str
  | indent, isArray, .mk tok ty kids =>
    header tok ty indent isArray :: ((kidsLines indent kids).map (·.2)).flatten
/-- Lines of the children with their keys, sorted by key; src/cst.rs 208-228. -/
def kidsLines : (indent : Nat) → Kids → List (Key × List Str)
  | _, .nil => []
  | indent, .one k n r =>
    insertEntry k ((spaces (indent * 2) ++ k.name ++ ":".toList) :: lines (indent + 1) false n)
      (kidsLines indent r)
  | indent, .many k ns r =>
    insertEntry k
      ((spaces (indent * 2) ++ k.name ++ (match ns with
        | .nil => ": []".toList
        | .cons _ _ => ":".toList)) :: nodesLines (indent + 1) ns)
      (kidsLines indent r)
/-- Lines of the elements of an array child, src/cst.rs 222-224. -/
def nodesLines : (indent : Nat) → Nodes → List Str
  | _, .nil => []
  | indent, .cons n r => lines indent true n ++ nodesLines indent r
end

/-- src/cst.rs 241-245: `Display`. -/
def display (n : Node) : Str := (List.intercalate ['\n'] (lines 0 false n)) ++ ['\n']

end Node
end Verif
