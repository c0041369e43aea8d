import Verif.Props.Trees
import Verif.Spec.Kind
/-!
Theorems about the types of statements (C45).  `parse U code` models the exported function of src/lib.rs.
-/
namespace Verif.Props
open Verif.Spec Verif.Core Verif.AI

theorem kinds_get {U : Unicode} {rest : List Token} {ns : List Node} {parts : List (List Token)}
    (h : Kinds U rest ns parts) : ∀ (i : Nat) n, ns[i]? = some n →
      StatementType (words U ((parts.drop i).flatten ++ rest)) n.ty := by
  induction h with
  | nil => intro i n h; simp at h
  | cons h _ ih =>
    intro i n hn
    cases i with
    | zero => cases hn; exact h
    | succ i => exact ih i n hn

/-- C45: the type of the tree of a statement is the one that belongs to the words of the text from the beginning of
the statement on. -/
theorem C45_statement_types (U : Unicode) (hU : U.Lawful) (code : Str) (ns : List Node)
    (h : parse U code = .ok ns) :
    ∃ stmts eof slices, ns = stmts ++ [eof] ∧ eof.ty = .EOF ∧
      tokenize U code = .ok (slices.flatten ++ tokensOf eof ++ [Token.eof]) ∧
      List.Forall₂ (fun n ts => (tokensOf n).Subperm ts) stmts slices ∧
      ∀ (i : Nat) n, stmts[i]? = some n →
        StatementType (words U ((slices.drop i).flatten ++ tokensOf eof ++ [Token.eof])) n.ty := by
  obtain ⟨toks, stmts, eof, parts, last, h1, h2, h3⟩ := parse_parsed hU h
  refine ⟨stmts, eof, parts, h2, h3.eofTy, by rw [eof_tokens h3, ← h3.tokens, h1],
    h3.stmts.imp fun _ _ h => h.1.sub, fun i n hn => ?_⟩
  rw [eof_tokens h3, List.append_assoc]
  exact kinds_get h3.kinds i n hn

/-! ### The words determine the type -/

/-- The kinds of first words. -/
def firstClass (w : Str) : Nat :=
  if w = "CREATE".toList then 1 else if w = "ALTER".toList then 2 else if w = "DROP".toList then 3
  else if w = "BEGIN".toList then 4 else if w = "EXPORT".toList then 5
  else if statementTypes.any fun p => p.1.toList == w then 0 else 6

theorem firstClass_plain : ∀ p ∈ statementTypes, firstClass p.1.toList = 0 := by decide +kernel

theorem firstClass_label {w : Str} (h : ∀ v ∈ firstWords, w ≠ v.toList) : firstClass w = 6 := by
  unfold firstClass
  rw [if_neg (h _ (by decide +kernel)), if_neg (h _ (by decide +kernel)), if_neg (h _ (by decide +kernel)),
    if_neg (h _ (by decide +kernel)), if_neg (h _ (by decide +kernel)), if_neg]
  intro ha
  obtain ⟨p, hp, he⟩ := List.any_eq_true.1 ha
  exact h p.1 (List.mem_append_left _ (List.mem_map.2 ⟨p, hp, rfl⟩)) (beq_iff_eq.1 he).symm

theorem firstClass_fixed : firstClass "CREATE".toList = 1 ∧ firstClass "ALTER".toList = 2 ∧
    firstClass "DROP".toList = 3 ∧ firstClass "BEGIN".toList = 4 ∧ firstClass "EXPORT".toList = 5 := by decide +kernel

/-- The cases of the specification by the kind of the first word. -/
theorem types_inv {w : Str} {ws : List Str} {ty : NodeType} (h : StatementType (w :: ws) ty) :
    match firstClass w with
    | 0 => ∃ p ∈ statementTypes, w = p.1.toList ∧ ty ∈ p.2
    | 1 => ∃ skipped w' ws', ws = skipped ++ w' :: ws' ∧ NoneNamed skipped createTypes ∧
        ∃ p ∈ createTypes, w' = p.1.toList ∧
          ty = if w' = "TABLE".toList ∧ ws'.head? = some "FUNCTION".toList then .CreateFunctionStatement else p.2
    | 2 => ∃ skipped w' ws', ws = skipped ++ w' :: ws' ∧ NoneNamed skipped alterTypes ∧
        ∃ p ∈ alterTypes, w' = p.1.toList ∧ ty = p.2
    | 3 => ty = if ws.head? = some "ALL".toList ∨ ws.head? = some "ROW".toList then .DropRowAccessPolicyStatement
        else .DropStatement
    | 4 => ty = if ws.head? = some "TRANSACTION".toList ∨ ws.head? = some ";".toList ∨ ws.drop 1 = []
        then .TransactionStatement else .BeginStatement
    | 5 => ty = if ws.head? = some "DATA".toList then .ExportDataStatement else .ExportModelStatement
    | _ => StatementType (ws.drop 1) ty := by
  obtain ⟨f1, f2, f3, f4, f5⟩ := firstClass_fixed
  generalize hl : w :: ws = l at h
  cases h with
  | plain hw ht =>
    obtain ⟨rfl, rfl⟩ := List.cons.inj hl
    rw [firstClass_plain _ hw]
    exact ⟨_, hw, rfl, ht⟩
  | create hs hn hw hf =>
    obtain ⟨rfl, rfl⟩ := List.cons.inj hl
    rw [f1]
    refine ⟨_, _, _, rfl, hn, _, hw, rfl, ?_⟩
    rw [if_neg]
    rintro ⟨e1, e2⟩
    exact hf (String.toList_inj.1 e1) e2
  | tableFunction hs hn =>
    obtain ⟨rfl, rfl⟩ := List.cons.inj hl
    rw [f1]
    exact ⟨_, _, _, rfl, hn, ("TABLE", .CreateTableStatement), by decide +kernel, rfl, by simp⟩
  | alter hs hn hw =>
    obtain ⟨rfl, rfl⟩ := List.cons.inj hl
    rw [f2]
    exact ⟨_, _, _, rfl, hn, _, hw, rfl, rfl⟩
  | dropPolicy hw =>
    obtain ⟨rfl, rfl⟩ := List.cons.inj hl
    rw [f3]
    exact (if_pos (by simpa using hw)).symm
  | drop hw =>
    obtain ⟨rfl, rfl⟩ := List.cons.inj hl
    rw [f3]
    exact (if_neg (by simpa using hw)).symm
  | transaction hw =>
    obtain ⟨rfl, rfl⟩ := List.cons.inj hl
    rw [f4]
    exact (if_pos (by simpa using hw)).symm
  | block hw =>
    obtain ⟨rfl, rfl⟩ := List.cons.inj hl
    rw [f4]
    exact (if_neg (by simpa using hw)).symm
  | exportData =>
    obtain ⟨rfl, rfl⟩ := List.cons.inj hl
    rw [f5]
    exact (if_pos (by simp)).symm
  | exportModel hw =>
    obtain ⟨rfl, rfl⟩ := List.cons.inj hl
    rw [f5]
    exact (if_neg (by simpa using hw)).symm
  | labelled hw h =>
    obtain ⟨rfl, rfl⟩ := List.cons.inj hl
    rw [firstClass_label hw]
    exact h

theorem first_named {l : List (String × NodeType)} : ∀ {a b : List Str} {v w : Str} {vs ws : List Str},
    a ++ v :: vs = b ++ w :: ws → NoneNamed a l → NoneNamed b l → (∃ p ∈ l, v = p.1.toList) →
    (∃ p ∈ l, w = p.1.toList) → v = w ∧ vs = ws
  | [], [], _, _, _, _, he, _, _, _, _ => List.cons.inj he
  | [], _ :: _, _, _, _, _, he, _, hb, ⟨p, hp, hv⟩, _ => by
    obtain ⟨rfl, _⟩ := List.cons.inj he
    exact absurd hv (hb _ (List.mem_cons_self ..) p hp)
  | _ :: _, [], _, _, _, _, he, ha, _, _, ⟨p, hp, hw⟩ => by
    obtain ⟨rfl, _⟩ := List.cons.inj he
    exact absurd hw (ha _ (List.mem_cons_self ..) p hp)
  | _ :: _, _ :: _, _, _, _, _, he, ha, hb, hv, hw =>
    first_named (List.cons.inj he).2 (fun w h => ha w (List.mem_cons_of_mem _ h))
      (fun w h => hb w (List.mem_cons_of_mem _ h)) hv hw

theorem tables_det :
    (∀ p ∈ statementTypes, ∀ q ∈ statementTypes, p.1.toList = q.1.toList → ∀ a ∈ p.2, ∀ b ∈ q.2,
      a = b ∨ a ∈ queryTypes ∧ b ∈ queryTypes) ∧
    (∀ p ∈ createTypes, ∀ q ∈ createTypes, p.1.toList = q.1.toList → p.2 = q.2) ∧
    (∀ p ∈ alterTypes, ∀ q ∈ alterTypes, p.1.toList = q.1.toList → p.2 = q.2) := by decide +kernel

/-- C45: the words determine the type, except that a query can be of several types. -/
theorem C45_words_determine_type (ws : List Str) (a b : NodeType) (ha : StatementType ws a)
    (hb : StatementType ws b) : a = b ∨ a ∈ queryTypes ∧ b ∈ queryTypes := by
  suffices ∀ (n : Nat) (ws : List Str), ws.length ≤ n → ∀ a b, StatementType ws a → StatementType ws b →
      a = b ∨ a ∈ queryTypes ∧ b ∈ queryTypes from this _ ws (Nat.le_refl _) a b ha hb
  intro n
  induction n with
  | zero =>
    intro ws hn a b ha _
    have := List.length_eq_zero_iff.1 (Nat.le_zero.1 hn)
    subst this
    cases ha
  | succ n ih =>
    intro ws hn a b ha hb
    cases ws with
    | nil => cases ha
    | cons w ws =>
      have i1 := types_inv ha
      have i2 := types_inv hb
      split at i1
      · next h0 =>
        rw [h0] at i2
        obtain ⟨p, hp, rfl, hpa⟩ := i1
        obtain ⟨q, hq, he, hqb⟩ := i2
        exact tables_det.1 p hp q hq he a hpa b hqb
      · next h0 =>
        rw [h0] at i2
        obtain ⟨s1, w1, r1, e1, n1, p, hp, hw1, rfl⟩ := i1
        obtain ⟨s2, w2, r2, e2, n2, q, hq, hw2, rfl⟩ := i2
        obtain ⟨rfl, rfl⟩ := first_named (e1.symm.trans e2) n1 n2 ⟨p, hp, hw1⟩ ⟨q, hq, hw2⟩
        rw [tables_det.2.1 p hp q hq (hw1.symm.trans hw2)]
        exact .inl rfl
      · next h0 =>
        rw [h0] at i2
        obtain ⟨s1, w1, r1, e1, n1, p, hp, hw1, rfl⟩ := i1
        obtain ⟨s2, w2, r2, e2, n2, q, hq, hw2, rfl⟩ := i2
        obtain ⟨rfl, rfl⟩ := first_named (e1.symm.trans e2) n1 n2 ⟨p, hp, hw1⟩ ⟨q, hq, hw2⟩
        exact .inl (tables_det.2.2 p hp q hq (hw1.symm.trans hw2))
      · next h0 => rw [h0] at i2; exact .inl (i1.trans i2.symm)
      · next h0 => rw [h0] at i2; exact .inl (i1.trans i2.symm)
      · next h0 => rw [h0] at i2; exact .inl (i1.trans i2.symm)
      · next h1 h2 h3 h4 h5 h6 =>
        have i2' : StatementType (ws.drop 1) b := by
          split at i2
          · exact absurd (by assumption) h1
          · exact absurd (by assumption) h2
          · exact absurd (by assumption) h3
          · exact absurd (by assumption) h4
          · exact absurd (by assumption) h5
          · exact absurd (by assumption) h6
          · exact i2
        exact ih _ (by simp at hn ⊢; omega) a b i1 i2'

/-- Statements of several types, one of them labelled. -/
example : (match parse Unicode.sample
      "(SELECT 1); create or replace temp table function f() as (select 1); x: LOOP BREAK; END LOOP y; DROP ALL ROW ACCESS POLICIES ON t; begin transaction; /* a */ begin -- b".toList with
    | .ok ns => ns.map Node.ty
    | _ => []) = [.GroupedStatement, .CreateFunctionStatement, .LoopStatement, .DropRowAccessPolicyStatement,
      .TransactionStatement, .TransactionStatement, .EOF] := by decide +kernel

/-- C45: the code does not look at the token between a label and its statement: any word is taken for the colon. -/
theorem C45_label_without_colon :
    (match parse Unicode.sample "a b SELECT 1;".toList with
    | .ok [n, _] => n.ty == .SelectStatement &&
        (childrenAt n .k_leading_label).map (fun c => c.tok.map Token.literal) == [some "a".toList] &&
        (childrenAt n .k_colon).map (fun c => c.tok.map Token.literal) == [some "b".toList]
    | _ => false) = true := by decide +kernel

end Verif.Props
