import Verif.Spec.SourceOrder
/-! A tree written out as tokens.  Only the tree type is used. -/
namespace Verif.Spec

/-- The parts that a node has: its token, and the keys with at least one subtree. -/
def slots (n : Node) : List Slot :=
  (if n.tok.isSome then [.token] else []) ++
    ((children n.kids).filter fun e => !e.2.isEmpty).map fun e => .child e.1

/-- In a node of this type part `a` stands before part `b`. -/
def MustPrecede (ty : NodeType) (a b : Slot) : Prop :=
  [a, b].Sublist (sourceOrder ty) ∧ (a, b) ∉ swappable ty ∧ (b, a) ∉ swappable ty

mutual
/-- The node can be written out as the given tokens: every part of the node is written out once, as a
contiguous block, and no part stands after one that it must precede. -/
inductive Prints (before : NodeType → Slot → Slot → Prop) : Node → List Token → Prop
  | node (n : Node) (parts : List (Slot × List Token)) (all : (parts.map Prod.fst).Perm (slots n))
      (held : ∀ p ∈ parts, Held before n p.1 p.2)
      (order : parts.Pairwise fun p q => ¬ before n.ty q.1 p.1) :
      Prints before n (parts.flatMap Prod.snd)
/-- The part of the node can be written out as the given tokens. -/
inductive Held (before : NodeType → Slot → Slot → Prop) : Node → Slot → List Token → Prop
  | token {n : Node} {t : Token} (h : n.tok = some t) : Held before n .token [t]
  | child {n : Node} {k : Key} {w : List Token} (h : PrintsAll before (childrenAt n k) w) :
      Held before n (.child k) w
/-- The trees can be written out one after the other as the given tokens. -/
inductive PrintsAll (before : NodeType → Slot → Slot → Prop) : List Node → List Token → Prop
  | nil : PrintsAll before [] []
  | cons {n : Node} {ns : List Node} {w w' : List Token} (h : Prints before n w) (t : PrintsAll before ns w') :
      PrintsAll before (n :: ns) (w ++ w')
end

/-- The tokens of a part of a node. -/
def partTokens (n : Node) : Slot → List Token
  | .token => n.tok.toList
  | .child k => (childrenAt n k).flatMap tokensOf

/-- The first token stands before the second one in the source. -/
def Earlier (a b : Token) : Prop := a.line < b.line ∨ (a.line = b.line ∧ a.column < b.column)

end Verif.Spec
