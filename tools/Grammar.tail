/-- A sequence of literals is derived from a sequence of symbols. -/
inductive Derives : List Sym → List Str → Prop
  | nil : Derives [] []
  | term {a : Term} {l : Str} {X : List Sym} {u : List Str} (h : TermMatches a l) (hX : Derives X u) :
      Derives (.t a :: X) (l :: u)
  | rule {n : NT} {r : List Sym} {X : List Sym} {u v : List Str} (h : r ∈ rules n) (hr : Derives r u)
      (hX : Derives X v) : Derives (.nt n :: X) (u ++ v)

end Verif.Spec
