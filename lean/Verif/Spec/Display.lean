import Verif.Model.Cst
/-! What the textual rendering of a tree looks like, as a relation.  Independent of the rendering
function of the model. -/
namespace Verif.Spec

/-- A line: two blanks per level, then the text. -/
def indented (depth : Nat) (s : Str) : Str := List.replicate (2 * depth) ' ' ++ s

/-- What a node says about itself: its literal (or `None`) and its type. -/
def selfText (t : Option Token) (ty : NodeType) : Str :=
  "self: ".toList ++ (t.elim "None".toList (·.literal)) ++ " (".toList ++ ty.name ++ ")".toList

mutual
/-- `Renders d n ls`: the lines `ls` render `n` at depth `d`: first the node itself, then its children,
which are listed in strictly increasing order of their keys. -/
inductive Renders : Nat → Node → List Str → Prop
  | node (d : Nat) (t : Option Token) (ty : NodeType) (ks : Kids) (es : List (Key × List Str))
      (blocks : RendersKids d ks es) (order : List (Key × List Str)) (perm : order.Perm es)
      (sorted : order.Pairwise fun a b => a.1.name < b.1.name) :
      Renders d (.mk t ty ks) (indented d (selfText t ty) :: (order.map (·.2)).flatten)
/-- One block of lines per child: a line with the key, then the child one level deeper. -/
inductive RendersKids : Nat → Kids → List (Key × List Str) → Prop
  | nil (d : Nat) : RendersKids d .nil []
  | one (d : Nat) (k : Key) (n : Node) (r : Kids) (ls : List Str) (es : List (Key × List Str))
      (child : Renders (d + 1) n ls) (rest : RendersKids d r es) :
      RendersKids d (.one k n r) ((k, indented d (k.name ++ ":".toList) :: ls) :: es)
  | emptyArray (d : Nat) (k : Key) (r : Kids) (es : List (Key × List Str)) (rest : RendersKids d r es) :
      RendersKids d (.many k .nil r) ((k, [indented d (k.name ++ ": []".toList)]) :: es)
  | array (d : Nat) (k : Key) (n : Node) (ns : Nodes) (r : Kids) (ls : List Str)
      (es : List (Key × List Str)) (elems : RendersArray (d + 1) (.cons n ns) ls)
      (rest : RendersKids d r es) :
      RendersKids d (.many k (.cons n ns) r) ((k, indented d (k.name ++ ":".toList) :: ls) :: es)
/-- The elements of an array, in order; the first line of each starts with `- ` instead of the last
two blanks of its indentation. -/
inductive RendersArray : Nat → Nodes → List Str → Prop
  | nil (d : Nat) : RendersArray d .nil []
  | cons (d : Nat) (n : Node) (ns : Nodes) (text : Str) (more rest : List Str)
      (elem : Renders (d + 1) n (indented (d + 1) text :: more)) (others : RendersArray (d + 1) ns rest) :
      RendersArray (d + 1) (.cons n ns) ((indented d ("- ".toList ++ text) :: more) ++ rest)
end

end Verif.Spec
