import Verif.Model.Lib
import Verif.Spec.Kind
/-!
Which function reads a statement that begins with certain words, and the node types a function returns.
-/
namespace Verif.Kind
open Verif.Program

/-- The command never ends normally. -/
def ends : Cmd → Bool
  | .ret _ => true
  | .fail .. => true
  | .seq a b => ends a || ends b
  | .ite _ a b => ends a && ends b
  | _ => false

/-- The value of a condition, as far as the oracle knows it. -/
def known (q : Cond → Option Bool) : Cond → Option Bool
  | .or a b => match known q a with
    | some true => some true
    | some false => known q b
    | none => none
  | c => q c

/-- The command, with the conditions at its start decided by the oracle. -/
def prune (q : Cond → Option Bool) : Cmd → Cmd
  | .ite c a b => match known q c with
    | some true => prune q a
    | some false => prune q b
    | none => .ite c a b
  | .seq a b => match prune q a with
    | .skip => prune q b
    | a' => if ends a' then a' else .seq a' b
  | c => c

/-- The function whose result is the result of the command, called right away. -/
def calls : Cmd → Option Fn
  | .seq (.set x (.call f _)) (.ret (.var y)) => if Nat.beq x y then some f else none
  | .ret (.call f _) => some f
  | _ => none

/-- The word is in the list. -/
def mem (k : Kw) (ks : List Kw) : Bool := ks.any fun k' => Nat.beq k.ctorIdx k'.ctorIdx

/-- The first token is the given keyword, or no keyword (`none`). -/
def isWord (k : Option Kw) (ks : List Kw) : Bool :=
  match k with
  | some k => mem k ks
  | none => false

/-- Oracle: the first word. -/
def first (k : Option Kw) : Cond → Option Bool
  | .up (.lit 0) ks => some (isWord k ks)
  | _ => none

/-- Oracle: the word at the offset in a variable. -/
def atVar (x : Var) (k : Option Kw) : Cond → Option Bool
  | .up (.var y 0) ks => if Nat.beq x y then some (isWord k ks) else none
  | _ => none

/-! ### Types of results -/

/-- The types a node may have; `none`: unknown. -/
abbrev Know := Option (List NodeType)

/-- Either of the two. -/
def Know.join : Know → Know → Know
  | some a, some b => some (a ++ b)
  | _, _ => none

/-- Does the expression leave the variable as it is? -/
def keepsE (x : Var) : Exp → Bool
  | .pop y => !Nat.beq x y
  | _ => true

/-- Does the command leave the variable as it is? -/
def keeps (x : Var) : Cmd → Bool
  | .skip | .next | .brk | .fail .. => true
  | .seq a b => keeps x a && keeps x b
  | .set y e => !Nat.beq x y && keepsE x e
  | .push y _ e => !Nat.beq x y && keepsE x e
  | .pushVec y _ e => !Nat.beq x y && keepsE x e
  | .append y e => !Nat.beq x y && keepsE x e
  | .setType y _ => !Nat.beq x y
  | .ite _ a b => keeps x a && keeps x b
  | .loop a => keeps x a
  | .ret e => keepsE x e
  | .scan y _ _ a => !Nat.beq x y && keeps x a
  | .drain v y a => !Nat.beq x v && !Nat.beq x y && keeps x a
  | .tryElse y _ _ a => !Nat.beq x y && keeps x a

/-- The types of the value of an expression. -/
def expTypes (T : Fn → Know) (x : Var) (a : Know) : Exp → Know
  | .var y => if Nat.beq x y then a else none
  | .construct nt => if Nat.beq nt.ctorIdx NodeType.Unknown.ctorIdx then none else some [nt]
  | .empty nt => some [nt]
  | .call f _ => T f
  | _ => none

/-- The types are among those in the list. -/
def within (S : List NodeType) : Know → Bool
  | some l => l.all fun t => S.any fun u => Nat.beq t.ctorIdx u.ctorIdx
  | none => false

/-- What is known of the types of the node in `x` after the command, if it ends normally; `none` if a result need
not be among `S`, or if the command is too complicated.  `b`: the type must be among `S` at every `break`. -/
def flow (T : Fn → Know) (S : List NodeType) (x : Var) : (b : Bool) → Cmd → Know → Option Know
  | _, .skip, a => some a
  | _, .next, a => some a
  | b, .seq c d, a => match flow T S x b c a with
    | some a' => flow T S x b d a'
    | none => none
  | _, .set y e, a => if Nat.beq x y then some (expTypes T x a e) else if keepsE x e then some a else none
  | _, .push _ _ e, a => if keepsE x e then some a else none
  | _, .pushVec _ _ e, a => if keepsE x e then some a else none
  | _, .append y e, a => if keepsE x e && !Nat.beq x y then some a else none
  | _, .setType y nt, a => if Nat.beq x y then some (some [nt]) else some a
  | b, .ite _ c d, a => match flow T S x b c a, flow T S x b d a with
    | some a', some a'' => some (a'.join a'')
    | _, _ => none
  | _, .loop c, a =>
    if keeps x c then (match flow T S x false c a with | some _ => some a | none => none)
    else if within S a then
      (match flow T S x true c (some S) with
      | some a' => if within S a' then some (some S) else none
      | none => none)
    else none
  | b, .brk, a => if !b || within S a then some (some []) else none
  | _, .ret e, a => if within S (expTypes T x a e) then some (some []) else none
  | _, .fail .., _ => some (some [])
  | _, .scan y _ _ c, a =>
    if !Nat.beq x y && keeps x c then (match flow T S x false c a with | some _ => some a | none => none) else none
  | _, .drain v y c, a =>
    if !Nat.beq x v && !Nat.beq x y && keeps x c then
      (match flow T S x false c a with | some _ => some a | none => none)
    else none
  | _, .tryElse .., _ => none

/-- The types of the results of some functions. -/
def types : Fn → Know
  | .parse_set_operator => some [.SetOperator]
  | .parse_pipe_statement => some [.PipeStatement]
  | .parse_from_statement => some [.FromStatement, .PipeStatement]
  | .parse_select_statement =>
    some [.SelectStatement, .GroupedStatement, .FromStatement, .SetOperator, .PipeStatement]
  | .parse_insert_statement => some [.InsertStatement]
  | .parse_delete_statement => some [.DeleteStatement]
  | .parse_truncate_statement => some [.TruncateStatement]
  | .parse_update_statement => some [.UpdateStatement]
  | .parse_merge_statement => some [.MergeStatement]
  | .parse_create_schema_statement => some [.CreateSchemaStatement]
  | .parse_create_function_statement => some [.CreateFunctionStatement]
  | .parse_create_table_statement => some [.CreateTableStatement]
  | .parse_create_view_statement => some [.CreateViewStatement]
  | .parse_create_procedure_statement => some [.CreateProcedureStatement]
  | .parse_create_row_access_policy_statement => some [.CreateRowAccessPolicyStatement]
  | .parse_create_reservation_statement => some [.CreateReservationStatement]
  | .parse_create_search_index_statement => some [.CreateIndexStatement]
  | .parse_create_model_statement => some [.CreateModelStatement]
  | .parse_alter_schema_statement => some [.AlterSchemaStatement]
  | .parse_alter_table_statement => some [.AlterTableStatement]
  | .parse_alter_column_statement => some [.AlterColumnStatement]
  | .parse_alter_view_statement => some [.AlterViewStatement]
  | .parse_alter_vector_index_statement => some [.AlterVectorIndexStatement]
  | .parse_alter_organization_statement => some [.AlterOrganizationStatement]
  | .parse_alter_project_statement => some [.AlterProjectStatement]
  | .parse_alter_bicapacity_statement => some [.AlterBICapacityStatement]
  | .parse_alter_reservation_statement => some [.AlterReservationStatement]
  | .parse_alter_model_statement => some [.AlterModelStatement]
  | .parse_drop_row_access_policy_statement => some [.DropRowAccessPolicyStatement]
  | .parse_drop_statement_general => some [.DropStatement]
  | .parse_undrop_statement => some [.UndropStatement]
  | .parse_grant_statement => some [.GrantStatement]
  | .parse_revoke_statement => some [.RevokeStatement]
  | .parse_declare_statement => some [.DeclareStatement]
  | .parse_set_statement => some [.SetStatement]
  | .parse_execute_statement => some [.ExecuteStatement]
  | .parse_if_statement => some [.IfStatement]
  | .parse_transaction_statement => some [.TransactionStatement]
  | .parse_begin_statement => some [.BeginStatement]
  | .parse_case_statement => some [.CaseStatement]
  | .parse_load_statement => some [.LoadStatement]
  | .parse_loop_statement => some [.LoopStatement]
  | .parse_repeat_statement => some [.RepeatStatement]
  | .parse_while_statement => some [.WhileStatement]
  | .parse_break_continue_statement => some [.BreakContinueStatement]
  | .parse_for_statement => some [.ForStatement]
  | .parse_raise_statement => some [.RaiseStatement]
  | .parse_single_token_statement => some [.SingleTokenStatement]
  | .parse_call_statement => some [.CallStatement]
  | .parse_assert_satement => some [.AssertStatement]
  | .parse_export_data_statement => some [.ExportDataStatement]
  | .parse_export_model_statement => some [.ExportModelStatement]
  | _ => none

/-- The variable a function returns: that of the last command. -/
def resultVar : Cmd → Option Var
  | .seq _ b => resultVar b
  | .ret (.var x) => some x
  | _ => none

/-- The results of the function have the stated types. -/
def typesOk (f : Fn) : Bool :=
  match types f with
  | none => true
  | some S => match resultVar (defs f).body with
    | some x => (flow types S x false (defs f).body none).isSome
    | none => false

/-- The results of `parse_select_statement` at a first word. -/
def selectOk (k : Kw) (S : List NodeType) : Bool :=
  (flow types S v_node false (prune (first (some k)) (defs .parse_select_statement).body) none).isSome
/-- The function called for a first word is the one for the statements of that word, or the one for labels if no
statement begins with the word. -/
def dispatch (k : Kw) : Bool :=
  match calls (prune (first (some k)) (defs .parse_statement).body) with
  | some .parse_labeled_statement => Spec.firstWords.all fun w => !(w.toList == k.lit)
  | some .parse_select_statement => Spec.statementTypes.any fun p => p.1.toList == k.lit && selectOk k p.2
  | some f => Spec.statementTypes.any fun p => p.1.toList == k.lit && within p.2 (types f)
  | none => mem k [.CREATE, .ALTER, .DROP, .BEGIN, .EXPORT]

/-- One step of the search for what is created or altered, at a certain word. -/
def scanStep (body : Cmd) (tbl : List (String × NodeType)) (k : Option Kw) : Bool :=
  match prune (atVar v_offset k) body with
  | .skip => match k with
    | some k => tbl.all fun p => !(p.1.toList == k.lit)
    | none => true
  | .ret (.call f _) => match k with
    | some k => tbl.any fun p => p.1.toList == k.lit && !(k.lit == "TABLE".toList && tbl.length == 12) &&
        within [p.2] (types f)
    | none => false
  | .ite (.up (.var x 1) [.FUNCTION]) (.ret (.call f _)) (.ret (.call g _)) =>
    Nat.beq x v_offset && within [.CreateFunctionStatement] (types f) && within [.CreateTableStatement] (types g) &&
      match k with
      | some k => k.lit == "TABLE".toList && tbl.length == 12
      | none => false
  | _ => false

end Verif.Kind
