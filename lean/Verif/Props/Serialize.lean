import Verif.Props.Schema
import Verif.Proofs.Conform
/-!
Theorems about the JavaScript values that `parse` and `tokenize` return or throw (C39).  What it means that a
value represents a token, an error or a tree is defined in Spec/Json.lean; nothing is assumed about the order
in which the entries of a `HashMap` are visited.
-/
namespace Verif.Props
open Verif.Spec

theorem keys_nodup {U : Unicode} {code : Str} {ns : List Node} (h : parse U code = .ok ns) :
    ∀ n ∈ ns, ∀ m ∈ nodes n, m.kids.keys.Nodup := by
  obtain ⟨toks, _, h2⟩ := (C29_tokenizer_failures U code).2.2 ns h
  exact parse_uniqueKeys h2

theorem isTrees_ofList {ord : Ser.Order} (ho : ord.Fair) : ∀ (ns : List Node) (path : List Nat) (i : Nat),
    (∀ n ∈ ns, ∀ m ∈ nodes n, m.kids.keys.Nodup) → IsTrees (Nodes.ofList ns) (Ser.nodes ord path i (Nodes.ofList ns))
  | [], _, _, _ => .nil
  | n :: ns, path, i, h => by
    rw [Nodes.ofList, Ser.nodes]
    exact .cons _ _ _ _ (Ser.isTree ho n _ (h n List.mem_cons_self))
      (isTrees_ofList ho ns path (i + 1) fun n hn => h n (List.mem_cons_of_mem _ hn))

/-- C39, trees: `parse` returns a value just when the parser yields trees, and this value is an array that
represents the trees, one element per tree. -/
theorem C39_parse_value (U : Unicode) (esc : Char → Str) (ord : Ser.Order) (ho : ord.Fair) (code : Str) (j : Json) :
    (Ser.parse U esc ord code = .value j → ∃ ns js, parse U code = .ok ns ∧ j = .arr js ∧
      IsTrees (Nodes.ofList ns) js) ∧
    ((∃ ns, parse U code = .ok ns) → ∃ j, Ser.parse U esc ord code = .value j) := by
  unfold Ser.parse
  constructor
  · intro h
    cases hp : Verif.parse U code with
    | ok ns =>
      rw [hp] at h
      cases h
      exact ⟨ns, _, rfl, rfl, isTrees_ofList ho ns [] 0 (keys_nodup hp)⟩
    | err e => rw [hp] at h; cases h
    | panic p => rw [hp] at h; cases h
    | timeout => rw [hp] at h; cases h
  · rintro ⟨ns, hp⟩
    rw [hp]
    exact ⟨_, rfl⟩

/-- C39, nothing is lost: two lists of trees that are represented by the same value are the same, except for
the order in which the children of a node are listed. -/
theorem C39_value_determines_trees (ns ns' : List Node) (js : Jsons) (h : IsTrees (Nodes.ofList ns) js)
    (h' : IsTrees (Nodes.ofList ns') js) : SameTrees (Nodes.ofList ns) (Nodes.ofList ns') := by
  induction ns generalizing ns' js with
  | nil =>
    cases h
    cases ns' with
    | nil => exact .nil
    | cons n ns' => cases h'
  | cons n ns ih =>
    cases h with
    | cons _ _ j js h1 h2 =>
      cases ns' with
      | nil => cases h'
      | cons n' ns' =>
        cases h' with
        | cons _ _ _ _ h3 h4 => exact .cons (Ser.isTree_same n n' j h1 h3) (ih ns' js h2 h4)

/-- C39, errors and tokens: when the tokenizer or the parser reports an error `parse` throws an object with its
position and message, `tokenize` likewise, and the value of `tokenize` is the array of its tokens; the
exported functions panic just when the tokenizer or the parser does. -/
theorem C39_errors_and_tokens (U : Unicode) (esc : Char → Str) (ord : Ser.Order) (code : Str) :
    (∀ e, parse U code = .err e → ∃ j, Ser.parse U esc ord code = .thrown j ∧ IsError (Message.text esc) e j) ∧
    (∀ j, Ser.parse U esc ord code = .thrown j → ∃ e, parse U code = .err e) ∧
    (∀ p, Ser.parse U esc ord code = .panic p ↔ parse U code = .panic p) ∧
    (∀ e, tokenize U code = .err e → ∃ j, Ser.tokenize U esc code = .thrown j ∧ IsError (Message.text esc) e j) ∧
    (∀ j, Ser.tokenize U esc code = .thrown j → ∃ e, tokenize U code = .err e) ∧
    (∀ p, Ser.tokenize U esc code = .panic p ↔ tokenize U code = .panic p) ∧
    (∀ ts, tokenize U code = .ok ts → ∃ js : Jsons, Ser.tokenize U esc code = .value (.arr js) ∧
      List.Forall₂ IsToken ts js.toList) := by
  refine ⟨?_, ?_, ?_, ?_, ?_, ?_, ?_⟩
  · intro e he
    unfold Ser.parse
    rw [he]
    exact ⟨_, rfl, Ser.exactly_object (List.Perm.refl _) (by simp)⟩
  · intro j
    unfold Ser.parse
    cases Verif.parse U code <;> simp
  · intro j
    unfold Ser.parse
    cases Verif.parse U code <;> simp
  · intro e he
    unfold Ser.tokenize
    rw [he]
    exact ⟨_, rfl, Ser.exactly_object (List.Perm.refl _) (by simp)⟩
  · intro j
    unfold Ser.tokenize
    cases Verif.tokenize U code <;> simp
  · intro j
    unfold Ser.tokenize
    cases Verif.tokenize U code <;> simp
  · intro ts h
    unfold Ser.tokenize
    rw [h]
    refine ⟨_, rfl, ?_⟩
    clear h
    induction ts with
    | nil => exact .nil
    | cons t ts ih => exact .cons (Ser.isToken t) ih

theorem mem_children_childrenAt {m : Node} {k : Key} {l : List Node} (h : (k, l) ∈ children m.kids) {c : Node}
    (hc : c ∈ l) : c ∈ childrenAt m k :=
  List.mem_flatMap.2 ⟨_, h, by simp [hc]⟩

/-- C39, types: every object with a property `node_type` inside the value of `parse` conforms to the TypeScript
declaration of this type. -/
theorem C39_typescript (U : Unicode) (hU : U.Lawful) (esc : Char → Str) (ord : Ser.Order) (ho : ord.Fair)
    (code : Str) (j : Json) (h : Ser.parse U esc ord code = .value j) (o : Json) (hv : o ∈ values j) (s : Json)
    (hs : prop o "node_type".toList = some s) : ∃ ty : NodeType, s = .str ty.name ∧ Conforms ty o := by
  unfold Ser.parse at h
  cases hp : Verif.parse U code with
  | err e => rw [hp] at h; cases h
  | panic p => rw [hp] at h; cases h
  | timeout => rw [hp] at h; cases h
  | ok ns =>
    rw [hp] at h
    injection h with h
    subst h
    have hobj : ∃ n ∈ ns, ∃ m ∈ nodes n, ∃ path, o = Ser.node ord path m := by
      rw [values] at hv
      rcases List.mem_cons.1 hv with rfl | hv
      · cases hs
      · obtain ⟨m, h1, h2⟩ := Ser.values_nodes ho _ _ _ o hv ⟨s, hs⟩
        obtain ⟨n, hn, hm⟩ := (mem_listNodes_ofList ns m).1 h1
        exact ⟨n, hn, m, hm, h2⟩
    obtain ⟨n, hn, m, hm, path, rfl⟩ := hobj
    have hnd := keys_nodup hp n hn m hm
    obtain ⟨t, ty, ks⟩ := m
    have hperm := ho path (Ser.kids ord path 0 ks)
    have hnames : ((ord path (Ser.kids ord path 0 ks)).map Prod.fst).Nodup := by
      refine (hperm.map Prod.fst).nodup_iff.2 ?_
      rw [Ser.kids_names]
      exact hnd.map fun _ _ => Key.name_inj
    have hfields : (([("token".toList, Ser.optToken t), ("node_type".toList, Json.str ty.name),
      ("children".toList, Ser.object (ord path (Ser.kids ord path 0 ks)))] : List (Str × Json)).map Prod.fst).Nodup := by
      simp
    have hch : prop (Ser.node ord path (.mk t ty ks)) "children".toList =
        some (Ser.object (ord path (Ser.kids ord path 0 ks))) := by
      rw [Ser.node]
      exact Ser.prop_object hfields (by simp)
    have htok : prop (Ser.node ord path (.mk t ty ks)) "token".toList = some (Ser.optToken t) := by
      rw [Ser.node]
      exact Ser.prop_object hfields (by simp)
    have hty : prop (Ser.node ord path (.mk t ty ks)) "node_type".toList = some (.str ty.name) := by
      rw [Ser.node]
      exact Ser.prop_object hfields (by simp)
    refine ⟨ty, ?_, ?_, ?_, ?_, ?_⟩
    · exact Option.some.inj (hs.symm.trans hty)
    · cases t with
      | none => exact .inr ⟨htok, (C33_tokens U hU code ns hp n hn _ hm).1 rfl⟩
      | some t => exact .inl ⟨t, _, htok, Ser.isToken t⟩
    · refine ⟨_, hch, by rw [Ser.toList_ofList]; exact hnames, ?_⟩
      rw [Ser.toList_ofList]
      intro p hp'
      obtain ⟨k, h1, h2⟩ := Ser.mem_kids path 0 p (hperm.subset hp') hnd
      have hd := C21_children_declared U hU code ns hp n hn _ hm k
      refine ⟨k, h1, ?_⟩
      rcases h2 with ⟨h2, n', path', _, h3⟩ | ⟨h2, ns', path', _, h3⟩
      · exact .inl ⟨List.mem_append.2 (hd.1 h2), _, h3 ▸ Ser.exactly_object (List.Perm.refl _) (by simp)⟩
      · exact .inr ⟨List.mem_append.2 (hd.2 h2), _, h3 ▸ Ser.exactly_object (List.Perm.refl _) (by simp)⟩
    · intro k hk hom
      obtain ⟨e, he, hek⟩ := C34_mandatory_children U hU code ns hp n hn _ hm k hk hom
      have hmem : k ∈ ks.keys := by
        rw [← Ser.children_keys, ← hek]
        exact List.mem_map.2 ⟨e, he, rfl⟩
      have : k.name ∈ (ord path (Ser.kids ord path 0 ks)).map Prod.fst := by
        refine (hperm.map Prod.fst).mem_iff.2 ?_
        rw [Ser.kids_names]
        exact List.mem_map.2 ⟨k, hmem, rfl⟩
      obtain ⟨p, hp', hpk⟩ := List.mem_map.1 this
      refine ⟨_, p.2, hch, Ser.prop_object hnames ?_⟩
      rw [← hpk]
      exact hp'
    · intro e he hot j v hj hv' c hc
      cases hch.symm.trans hj
      obtain ⟨k, h1, h2⟩ := Ser.mem_kids path 0 _ (hperm.subset (Ser.prop_mem hv')) hnd
      cases Key.name_inj h1
      have hct := C35_types_of_children U hU code ns hp n hn _ hm e he hot
      have key : ∃ n' ∈ childrenAt (.mk t ty ks) e.1, ∃ path', c = Ser.node ord path' n' := by
        dsimp only at h2
        rcases h2 with ⟨_, n', path', h3, rfl⟩ | ⟨_, ns', path', h3, rfl⟩
        · refine ⟨n', mem_children_childrenAt h3 (List.mem_singleton.2 rfl), path', ?_⟩
          rcases hc with hc | ⟨js, hc, _⟩
          · exact Ser.exactly_content hc
          · exact absurd (Ser.exactly_name hc) (by decide)
        · rcases hc with hc | ⟨js, hc, hin⟩
          · exact absurd (Ser.exactly_name hc) (by decide)
          · cases Ser.exactly_content hc
            obtain ⟨n', h4, h5⟩ := Ser.mem_nodes hin
            exact ⟨n', mem_children_childrenAt h3 h4, h5⟩
      obtain ⟨n', h4, path', rfl⟩ := key
      refine ⟨n'.ty, hct n' h4, ?_⟩
      obtain ⟨t', ty', ks'⟩ := n'
      rw [Ser.node]
      exact Ser.prop_object (by simp) (by simp [Node.ty])

/-! ### Example -/

mutual
/-- A value as text, for the example. -/
def showJson : Json → Str
  | .null => "null".toList
  | .num n => Nat.toDigits 10 n
  | .str s => '"' :: s ++ ['"']
  | .arr js => '[' :: showElems js ++ [']']
  | .obj fs => '{' :: showFields fs ++ ['}']
/-- The elements of an array. -/
def showElems : Jsons → Str
  | .nil => []
  | .cons j .nil => showJson j
  | .cons j r => showJson j ++ ',' :: showElems r
/-- The properties of an object. -/
def showFields : Fields → Str
  | .nil => []
  | .cons s j .nil => s ++ ':' :: showJson j
  | .cons s j r => s ++ ':' :: showJson j ++ ',' :: showFields r
end

/-- A fair order that depends on the map: it turns around the entries of the maps of statements. -/
def turn : Ser.Order := fun path l => if path.length ≤ 1 then l.reverse else l

theorem turn_fair : turn.Fair := by
  intro path l
  unfold turn
  split
  · exact List.reverse_perm l
  · exact List.Perm.refl l

/-- The value of a statement, its children in both orders. -/
example :
    (match Ser.parse Unicode.sample (fun _ => []) (fun _ l => l) "SELECT 1;".toList with
      | .value j => showJson j | _ => []) =
    ("[{token:{line:1,column:1,literal:\"SELECT\"},node_type:\"SelectStatement\",children:{" ++
      "exprs:{NodeVec:[{token:{line:1,column:8,literal:\"1\"},node_type:\"NumericLiteral\",children:{}}]}," ++
      "semicolon:{Node:{token:{line:1,column:9,literal:\";\"},node_type:\"Symbol\",children:{}}}}}," ++
      "{token:null,node_type:\"EOF\",children:{}}]").toList ∧
    (match Ser.parse Unicode.sample (fun _ => []) turn "SELECT 1;".toList with
      | .value j => showJson j | _ => []) =
    ("[{token:{line:1,column:1,literal:\"SELECT\"},node_type:\"SelectStatement\",children:{" ++
      "semicolon:{Node:{token:{line:1,column:9,literal:\";\"},node_type:\"Symbol\",children:{}}}," ++
      "exprs:{NodeVec:[{token:{line:1,column:8,literal:\"1\"},node_type:\"NumericLiteral\",children:{}}]}}}," ++
      "{token:null,node_type:\"EOF\",children:{}}]").toList := by decide +kernel

/-- An error, and tokens. -/
example :
    (match Ser.parse Unicode.sample (fun c => [c]) turn "SELECT\n 'a".toList with
      | .thrown j => showJson j | _ => []) = "{line:2,column:4,message:\"Unexpected EOF.\"}".toList ∧
    (match Ser.tokenize Unicode.sample (fun _ => []) "a -- b".toList with
      | .value j => showJson j | _ => []) =
    ("[{line:1,column:1,literal:\"a\"},{line:1,column:3,literal:\"-- b\"}," ++
      "{line:4294967295,column:4294967295,literal:\"\"}]").toList := by decide +kernel

end Verif.Props
