import Verif.Model.Message
/-!
The conversion of results to JavaScript values: `#[derive(Serialize)]` of src/error.rs 4, src/token.rs 8 and
src/cst.rs 9, 15, 170, with `Serializer::json_compatible()` of serde-wasm-bindgen (src/lib.rs 21).  The derived
code and the serializer are not in the repository; the model follows the documentation of serde: a struct is an
object with one property per field, a unit variant is its name, any other variant is an object whose only
property is named after the variant, `None` is `null`, a `Vec` is an array, a `HashMap<String, _>` is an
object with one property per entry, a `usize` is a number.
-/
namespace Verif

mutual
/-- src/lib.rs 18, 44 (`JsValue`). JavaScript values that are made by the serializer. -/
inductive Json where
  | null
  | num (n : Nat)
  | str (s : Str)
  | arr (js : Jsons)
  | obj (fs : Fields)
/-- src/lib.rs 18, 44 (`JsValue`). Elements of an array. -/
inductive Jsons where
  | nil
  | cons (j : Json) (rest : Jsons)
/-- src/lib.rs 18, 44 (`JsValue`). Properties of an object, in the order in which they were set. -/
inductive Fields where
  | nil
  | cons (name : Str) (j : Json) (rest : Fields)
end

instance : Inhabited Json := ⟨.null⟩

/-- src/lib.rs 18, 44 (`JsValue`). Elements of an array as a list. -/
def Jsons.toList : Jsons → List Json
  | .nil => []
  | .cons j r => j :: r.toList

/-- src/lib.rs 18, 44 (`JsValue`). An array from a list. -/
def Jsons.ofList : List Json → Jsons
  | [] => .nil
  | j :: l => .cons j (ofList l)

/-- src/lib.rs 18, 44 (`JsValue`). Properties of an object as a list. -/
def Fields.toList : Fields → List (Str × Json)
  | .nil => []
  | .cons s j r => (s, j) :: r.toList

/-- src/lib.rs 18, 44 (`JsValue`). Properties from a list. -/
def Fields.ofList : List (Str × Json) → Fields
  | [] => .nil
  | (s, j) :: l => .cons s j (ofList l)

namespace Ser

/-- src/cst.rs 174 (`HashMap`). The order in which the entries of a `HashMap` are visited is not specified and differs from map to map:
`Order` gives it for the children of the node at a path (the path lists the numbers of the visited children). -/
abbrev Order := List Nat → List (Str × Json) → List (Str × Json)

/-- src/cst.rs 174 (`HashMap`). Every entry is visited once. -/
def Order.Fair (ord : Order) : Prop := ∀ path l, (ord path l).Perm l

/-- src/lib.rs 21, 47 (`json_compatible`). An object with the given properties. -/
def object (l : List (Str × Json)) : Json := .obj (Fields.ofList l)

/-- src/token.rs 8-13: `Token`. -/
def token (t : Token) : Json :=
  object [("line".toList, .num t.line), ("column".toList, .num t.column), ("literal".toList, .str t.literal)]

/-- src/cst.rs 172. `Option<Token>`. -/
def optToken : Option Token → Json
  | none => .null
  | some t => token t

mutual
/-- src/cst.rs 170-175: `Node`. -/
def node (ord : Order) (path : List Nat) : Node → Json
  | .mk t ty ks => object [("token".toList, optToken t), ("node_type".toList, .str ty.name),
      ("children".toList, object (ord path (kids ord path 0 ks)))]
/-- src/cst.rs 9-13: the entries of `children`, each a `ContentType`. -/
def kids (ord : Order) (path : List Nat) (i : Nat) : Kids → List (Str × Json)
  | .nil => []
  | .one k n r => (k.name, object [("Node".toList, node ord (i :: path) n)]) :: kids ord path (i + 1) r
  | .many k ns r =>
    (k.name, object [("NodeVec".toList, .arr (nodes ord (i :: path) 0 ns))]) :: kids ord path (i + 1) r
/-- src/cst.rs 12. `Vec<Node>`. -/
def nodes (ord : Order) (path : List Nat) (i : Nat) : Nodes → Jsons
  | .nil => .nil
  | .cons n r => .cons (node ord (i :: path) n) (nodes ord path (i + 1) r)
end

/-- src/error.rs 4-9: `BQ2CSTError`. -/
def error (esc : Char → Str) (e : Err) : Json :=
  object [("line".toList, .num e.line), ("column".toList, .num e.column), ("message".toList, .str (Message.text esc e))]

/-- src/lib.rs 18, 44 (`Result<JsValue, JsValue>`). What a call of an exported function does. -/
inductive Result where
  | value (j : Json)
  | thrown (j : Json)
  | panic (p : Panic)
  | timeout

/-- src/lib.rs 18-41: `parse`. -/
def parse (U : Unicode) (esc : Char → Str) (ord : Order) (code : Str) : Result :=
  match Verif.parse U code with
  | .ok ns => .value (.arr (nodes ord [] 0 (Nodes.ofList ns)))
  | .err e => .thrown (error esc e)
  | .panic p => .panic p
  | .timeout => .timeout

/-- src/lib.rs 44-59: `tokenize`. -/
def tokenize (U : Unicode) (esc : Char → Str) (code : Str) : Result :=
  match Verif.tokenize U code with
  | .ok ts => .value (.arr (Jsons.ofList (ts.map token)))
  | .err e => .thrown (error esc e)
  | .panic p => .panic p
  | .timeout => .timeout

end Ser
end Verif
