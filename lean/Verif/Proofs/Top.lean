import Verif.Analysis.Check
import Verif.Proofs.SoundCall
import Verif.Proofs.KindTop
import Verif.Model.Lib
/-! What the summaries say about `parse_code`. -/
namespace Verif.AI
open Core Spec Interp

variable {U : Unicode} {toks : List Token}

/-- The summary of `parse_statement` used by `parse_code`. -/
def stmtEntry : Entry := (Table.table .parse_statement).headD ⟨false, [], 0, 0, .nat, 0, 0⟩

/-- The alternatives of that summary. -/
def stmtAlts : List Alt := match stmtEntry.res with | .node as => as | _ => []

theorem stmtEntry_mem : stmtEntry ∈ Table.table .parse_statement := by
  unfold stmtEntry
  have h : Table.table .parse_statement ≠ [] := by
    show Table.parse_statement ≠ []
    unfold Table.parse_statement
    simp
  rcases hl : Table.table .parse_statement with _ | ⟨a, l⟩
  · exact absurd hl h
  · simp

theorem stmtEntry_spec : stmtEntry.used = false ∧ stmtEntry.args = [.bool (some true)] ∧
    stmtEntry.t0 = TOP ∧ stmtEntry.t1 = TOP ∧ stmtEntry.res = .node stmtAlts := by
  refine ⟨rfl, rfl, rfl, rfl, rfl⟩

theorem stmtAlts_close : stmtAlts.all Alt.closeOk = true := by decide +kernel

/-- A top-level statement read from the tokens in `[e, e')`. -/
structure Stmt (U : Unicode) (toks : List Token) (n : Node) (e e' : Nat) : Prop where
  closed : Closed U toks n
  is : Is U toks stmtAlts n
  step : ∀ w z, Ignores z w → Step w z toks [] e [n] e'
  kind : StatementType (words U (toks.drop e)) n.ty

/-- Comments do not matter for the words. -/
theorem words_skip {a b : Nat} (hc : AllComments toks a b) (hab : a ≤ b) :
    words U (toks.drop a) = words U (toks.drop b) := by
  obtain ⟨n, rfl⟩ := Nat.exists_eq_add_of_le hab
  clear hab
  induction n generalizing a with
  | zero => rfl
  | succ n ih =>
    rw [show a + (n + 1) = a + 1 + n by omega] at hc ⊢
    rw [← ih (fun i t h1 h2 h3 => hc i t (by omega) h2 h3)]
    cases ht : toks[a]? with
    | none =>
      have := List.getElem?_eq_none_iff.1 ht
      rw [List.drop_eq_nil_of_le this, List.drop_eq_nil_of_le (by omega)]
    | some t =>
      obtain ⟨hlt, rfl⟩ := List.getElem?_eq_some_iff.1 ht
      have := hc a _ (Nat.le_refl _) (by omega) ht
      rw [List.drop_eq_getElem_cons hlt]
      unfold words
      rw [List.filter_cons_of_neg (by simp [this])]

theorem words_lead {ps : PS} (hps : ps.WF toks) :
    words U (toks.drop (leadStart toks ps.pos)) = words U (toks.drop ps.pos) := by
  have hin := hps.inp
  unfold PS.In at hin
  obtain ⟨h1, h2⟩ := commentsBefore_all' (toks := toks) (i := ps.pos) (by omega)
  refine words_skip (fun i t h3 h4 h5 => h1 i t ?_ h4 h5) hps.le
  unfold leadStart at h3
  dsimp only at h3
  split at h3 <;> omega

/-- Consecutive statements. -/
inductive Stmts (U : Unicode) (toks : List Token) : Nat → List Node → Nat → Prop
  | nil (e : Nat) : Stmts U toks e [] e
  | cons {e e' e'' : Nat} {n : Node} {ns : List Node} (he : e' ≤ toks.length - 1)
      (h : Stmt U toks n e e') (t : Stmts U toks e' ns e'') : Stmts U toks e (n :: ns) e''

/-- The final node. -/
structure EofNode (toks : List Token) (n : Node) : Prop where
  ty : n.ty = .EOF
  tok : n.tok = none
  kids : ents n.kids = commentEnts toks (toks.length - 1)

/-- The outcome of `parse_code`. -/
def LoopOk (U : Unicode) (toks : List Token) (ps : PS) (acc : List Node) : Out (List Node) → Prop
  | .ok ns => ∃ stmts eof, ns = acc ++ stmts ++ [eof] ∧
      Stmts U toks (leadStart toks ps.pos) stmts (leadStart toks (toks.length - 1)) ∧ EofNode toks eof
  | .err _ => True
  | .panic p => p = .emptyLiteral
  | .timeout => True

theorem call_stmt (hU : U.Lawful) (hends : Ends toks) {ps : PS} (hps : ps.WF toks) (fuel depth : Nat) :
    match call U toks fuel depth .parse_statement [.bool true] ps with
    | .ok (v, ps') => ∃ n, v = .node n ∧ ps'.WF toks ∧
        Stmt U toks n (leadStart toks ps.pos) (trailEnd toks ps'.pos)
    | .err _ => True
    | .panic p => p = .emptyLiteral
    | .timeout => True := by
  obtain ⟨h1, h2, h3, h4, h5⟩ := stmtEntry_spec
  have key : ∀ w z, Ignores z w → CallOk U w z toks stmtEntry [.bool true] ps
      (call U toks fuel depth .parse_statement [.bool true] ps) := by
    intro w z hz
    refine callN_sound hU hends hz table_checked depth .parse_statement stmtEntry stmtEntry_mem _ _ ?_ hps ?_
    · rw [h2]; exact .cons (.inr rfl) .nil
    · rw [h3, h4]
      exact ⟨fun t _ => testBit_TOP (cls_lt U t), fun t _ => testBit_TOP (cls_lt U t)⟩
  have hkind : ∀ v ps', call U toks fuel depth .parse_statement [.bool true] ps = .ok (v, ps') →
      ∀ n, v = .node n → StatementType (words U (toks.drop (leadStart toks ps.pos))) n.ty := by
    intro v ps' hc n hn
    obtain ⟨m, h6, h7⟩ := Kind.statement_type hends fuel depth hps hc
    rw [hn] at h6
    cases h6
    rw [words_lead hps]
    exact h7
  generalize call U toks fuel depth .parse_statement [.bool true] ps = o at key hkind
  have k0 := key (fun _ => 0) false (by intro h; cases h)
  rcases o with ⟨v, ps'⟩ | e | p | _
  · obtain ⟨g1, g2, g3, g4⟩ := k0
    replace hkind := hkind v ps' rfl
    rw [h5] at g2
    cases v <;> try exact g2.elim
    next n =>
    refine ⟨n, rfl, g1, ?_, g2, ?_, hkind n rfl⟩
    · exact g2.1.closed (Is.close g2 stmtAlts_close)
    · intro w z hz
      have := (key w z hz).2.2.2
      unfold startOf at this
      rw [h1] at this
      exact this
  · trivial
  · exact k0
  · trivial

theorem nextToken_noPanic {ps : PS} (hps : ps.WF toks) : ∀ p, nextToken toks ps ≠ .panic p := by
  intro p h
  have hin := hps.inp
  unfold PS.In at hin
  have hne : toks.getLast? ≠ none := by
    rw [Ne, List.getLast?_eq_none_iff]
    rintro rfl; simp at hin
  unfold nextToken at h
  cases hi : getOffsetIndex toks ps 1 with
  | ok i =>
    obtain ⟨h1, h2, _⟩ := getOffsetIndex_one hi
    rw [hi] at h
    dsimp only at h
    split at h
    · unfold tokAt at h
      rw [List.getElem?_eq_getElem h2] at h
      cases h
    · cases h
  | err e => rw [hi] at h; cases h
  | panic q =>
    unfold getOffsetIndex at hi
    simp only [Nat.one_ne_zero, if_false] at hi
    split at hi
    · cases hi
    · split at hi
      · cases hi
      · next h' => exact hne h'
  | timeout => rw [hi] at h; cases h

theorem loop_sound (hU : U.Lawful) (hends : Ends toks) {fuel depth : Nat} : ∀ (n : Nat) {ps : PS}
    {acc : List Node}, ps.WF toks → LoopOk U toks ps acc (parseLoop U toks fuel depth n ps acc) := by
  intro n
  induction n with
  | zero => intro ps acc _; trivial
  | succ n ih =>
    intro ps acc hps
    have hin := hps.inp
    unfold PS.In at hin
    unfold parseLoop
    split
    · next heof =>
      have hpos : ps.pos = toks.length - 1 := by
        simp only [isEof, getOffsetIndex, if_true, decide_eq_true_eq] at heof
        omega
      obtain ⟨t, ht, _⟩ := hps.tok
      obtain ⟨ks, h1, h2⟩ := attach_spec hps none .EOF
      have hc : construct U toks ps .EOF = .ok (.mk none .EOF ks) := by
        unfold construct
        rw [getToken_zero' ht]
        exact h1
      rw [hc]
      refine ⟨[], _, by rw [List.append_nil], ?_, ⟨rfl, rfl, ?_⟩⟩
      · rw [hpos]; exact .nil _
      · rw [← hpos]; exact h2
    · have hcall := call_stmt hU hends hps fuel depth
      rcases hr : call U toks fuel depth .parse_statement [.bool true] ps with ⟨v, ps'⟩ | e | p | _ <;>
        rw [hr] at hcall <;> dsimp only at hcall ⊢
      · obtain ⟨m, rfl, hwf, hst⟩ := hcall
        dsimp only
        cases hn : nextToken toks ps' with
        | ok ps'' =>
          obtain ⟨k1, k2, k3⟩ := nextToken_wf hends hwf hn
          have := ih (acc := acc ++ [m]) k1
          dsimp only
          rcases ho : parseLoop U toks fuel depth n ps'' (acc ++ [m]) with ns | e | p | _ <;>
            rw [ho] at this
          · obtain ⟨stmts, eof, rfl, h2, h3⟩ := this
            refine ⟨m :: stmts, eof, by simp, ?_, h3⟩
            rw [k2] at h2
            refine .cons ?_ hst h2
            have := k1.inp
            unfold PS.In at this
            have := k1.le
            omega
          · trivial
          · exact this
          · trivial
        | err e => trivial
        | panic p => exact absurd hn (nextToken_noPanic hwf p)
        | timeout => trivial
      · trivial
      · exact hcall
      · trivial

/-- What is known about a successful run of `parse_code`. -/
structure Result (U : Unicode) (toks : List Token) (ns : List Node) : Prop where
  split : ∃ stmts eof, ns = stmts ++ [eof] ∧
    Stmts U toks 0 stmts (leadStart toks (toks.length - 1)) ∧ EofNode toks eof

theorem new_noPanic (hends : Ends toks) : ∀ p, Core.new toks ≠ .panic p := by
  intro p h
  unfold Core.new at h
  dsimp only at h
  split at h
  · next hn =>
    obtain ⟨t, h1, h2⟩ := hends
    obtain ⟨h3, h4⟩ := leadingComments_spec toks
    have hle := List.getElem?_eq_none_iff.1 hn
    have : toks ≠ [] := by rintro rfl; simp at h1
    have hlen := List.length_pos_iff.2 this
    rw [List.getLast?_eq_getElem?] at h1
    have := h3 _ t (Nat.zero_le _) (by omega) h1
    rw [this] at h2; cases h2
  · split at h <;> cases h

theorem parseTokens_sound (hU : U.Lawful) (hends : Ends toks) :
    match parseTokens U toks with
    | .ok ns => Result U toks ns
    | .err _ => True
    | .panic p => p = .emptyLiteral
    | .timeout => True := by
  unfold parseTokens parseTokensWith
  cases hn : Core.new toks with
  | ok ps =>
    obtain ⟨h1, h2⟩ := new_wf hn
    have := loop_sound hU hends (fuel := toks.length + 1) (depth := 4 * toks.length) (toks.length + 1)
      (acc := []) h1
    rw [Out.bind_ok]
    rcases ho : parseLoop U toks (toks.length + 1) (4 * toks.length) (toks.length + 1) ps [] with
      ns | e | p | _ <;> rw [ho] at this
    · obtain ⟨stmts, eof, h3, h4, h5⟩ := this
      rw [h2] at h4
      exact ⟨stmts, eof, by simpa using h3, h4, h5⟩
    · trivial
    · exact this
    · trivial
  | err e => trivial
  | panic p => exact absurd hn (new_noPanic hends p)
  | timeout => trivial

end Verif.AI
