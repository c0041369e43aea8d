import Verif.Analysis.OrderCheck
import Verif.Proofs.OrderFun
import Verif.Proofs.OrderTree
import Verif.Proofs.Result
/-! What the order analysis says about `parse_code`. -/
namespace Verif.OI
open Core Spec Interp

variable {U : Unicode} {toks : List Token}

/-! ### The rules contain the published order -/

/-- Some rule demands `a` before `b`. -/
def mustB (l : List (Nat × AI.Mask)) (a b : Slot) : Bool :=
  l.any fun p => Nat.beq p.1 (code a) && Nat.testBit p.2 (code b)

/-- All pairs of the list are in the rules or listed as exceptions. -/
def pairsB (l : List (Nat × AI.Mask)) (sw : List (Slot × Slot)) : List Slot → Bool
  | [] => true
  | a :: r => (r.all fun b => mustB l a b || sw.contains (a, b) || sw.contains (b, a)) && pairsB l sw r

theorem pairsB_spec {l : List (Nat × AI.Mask)} {sw : List (Slot × Slot)} {a b : Slot} :
    ∀ {o : List Slot}, pairsB l sw o = true → [a, b].Sublist o → (a, b) ∉ sw → (b, a) ∉ sw → mustB l a b = true
  | [], _, h, _, _ => by cases h
  | c :: r, hp, h, h1, h2 => by
    rw [pairsB, Bool.and_eq_true] at hp
    cases h with
    | cons _ h => exact pairsB_spec hp.2 h h1 h2
    | cons_cons _ h =>
      have := List.all_eq_true.1 hp.1 b (List.singleton_sublist.1 h)
      simp only [Bool.or_eq_true, List.contains_iff_mem] at this
      rcases this with (h3 | h3) | h3
      · exact h3
      · exact absurd h3 h1
      · exact absurd h3 h2

theorem mustB_spec {ru : Rules} {ty : NodeType} {a b : Slot} (h : mustB (ru ty) a b = true) : Must ru ty a b := by
  obtain ⟨p, hp, h⟩ := List.any_eq_true.1 h
  rw [Bool.and_eq_true] at h
  exact ⟨p, hp, Nat.eq_of_beq_eq_true h.1, h.2⟩

theorem pairs_checked : ∀ ty ∈ NodeType.all, pairsB (rules ty) (swappable ty) (sourceOrder ty) = true := by
  decide +kernel

theorem must_of_precede {ty : NodeType} {a b : Slot} (h : MustPrecede ty a b) : Must rules ty a b :=
  mustB_spec (pairsB_spec (pairs_checked ty (AI.mem_nodeType_all ty)) h.1 h.2.1 h.2.2)

theorem order_nodup : ∀ ty ∈ NodeType.all, (sourceOrder ty).Nodup := by decide +kernel

theorem precede_ne {ty : NodeType} {a b : Slot} (h : MustPrecede ty a b) : a ≠ b := by
  rintro rfl
  have := h.1.nodup (order_nodup ty (AI.mem_nodeType_all ty))
  simp at this

/-! ### Statements -/

/-- The summary of `parse_statement` used by `parse_code`. -/
def stmtEntry : Entry := (Table.table .parse_statement).headD ⟨false, [], none, .vec none⟩

/-- The alternatives of that summary. -/
def stmtAlts : List (NodeType × AI.Mask × AI.Mask) := match stmtEntry.res with | .node as => as | _ => []

theorem stmtEntry_mem : stmtEntry ∈ Table.table .parse_statement := by
  unfold stmtEntry
  have h : Table.table .parse_statement ≠ [] := by
    show Table.parse_statement ≠ []
    unfold Table.parse_statement
    simp
  rcases hl : Table.table .parse_statement with _ | ⟨a, l⟩
  · exact absurd hl h
  · simp

theorem stmtEntry_spec : stmtEntry.used = false ∧ stmtEntry.bools = [some true] ∧ stmtEntry.arg = none ∧
    stmtEntry.res = .node stmtAlts := by
  refine ⟨rfl, rfl, rfl, rfl⟩

theorem stmtAlts_noLeft : noLeft stmtAlts = true := by decide +kernel

theorem call_stmt (hends : Ends toks) {ps ps' : PS} {n : Node} (hps : ps.WF toks) {fuel depth : Nat}
    (h : call U toks fuel depth .parse_statement [.bool true] ps = .ok (.node n, ps')) :
    ps'.WF toks ∧ leadStart toks ps.pos ≤ trailEnd toks ps'.pos ∧
      ∃ w, Prints (Must rules) n w ∧ w.Sublist (slice toks (leadStart toks ps.pos) (trailEnd toks ps'.pos)) := by
  obtain ⟨h1, h2, h3, h4⟩ := stmtEntry_spec
  obtain ⟨g1, g2, g3⟩ := callN_sound (ru := rules) (U := U) hends table_checked depth .parse_statement stmtEntry
    stmtEntry_mem [.bool true] ps _ ps' [] [] hps (by rw [h3]; exact ⟨rfl, rfl⟩)
    (by
      rw [h2]
      intro i b hb
      match i, hb with
      | 0, hb =>
        obtain rfl : true = b := by simpa using hb
        rfl
      | i + 1, hb => simp at hb) h
  rw [h1] at g2
  rw [h4, h1] at g3
  obtain ⟨m, PL, PR, e, k1, k2, k3⟩ := g3
  cases e
  exact ⟨g1, g2, word PR, (noLeft_spec stmtAlts_noLeft k1).prints, k3⟩

theorem eof_prints {n : Node} {l : List Token} (h1 : n.tok = none)
    (h2 : ents n.kids = if l = [] then [] else [(.k_leading_comments, true, l.map AI.cnode)]) :
    Prints (Must rules) n l := by
  by_cases hl : l = []
  · rw [if_pos hl] at h2
    subst hl
    refine .node n [] ?_ (by intro p hp; cases hp) .nil
    rw [slots_ents, h1, h2]
    exact List.Perm.refl _
  · rw [if_neg hl] at h2
    have : Prints (Must rules) n ([(Slot.child .k_leading_comments, l)].flatMap Prod.snd) := by
      refine .node n _ ?_ ?_ (List.pairwise_singleton _ _)
      · rw [slots_ents, h1, h2]
        unfold entSlots
        rw [List.filter_cons_of_pos]
        · exact List.Perm.refl _
        · cases l with
          | nil => exact absurd rfl hl
          | cons _ _ => rfl
      · intro p hp
        rw [List.mem_singleton.1 hp]
        refine .child ?_
        rw [childrenAt_ents, h2, List.flatMap_cons, if_pos rfl, List.flatMap_nil, List.append_nil]
        exact prints_cnodes l
    simpa using this

theorem loop_prints (hends : Ends toks) {fuel depth : Nat} : ∀ (k : Nat) {ps : PS} {acc ns : List Node},
    ps.WF toks → parseLoop U toks fuel depth k ps acc = .ok ns →
    ∃ stmts eof w, ns = acc ++ stmts ++ [eof] ∧ PrintsAll (Must rules) stmts w ∧
      leadStart toks ps.pos ≤ leadStart toks (toks.length - 1) ∧
      w.Sublist (slice toks (leadStart toks ps.pos) (leadStart toks (toks.length - 1))) := by
  intro k
  induction k with
  | zero => intro ps acc ns _ h; cases h
  | succ k ih =>
    intro ps acc ns hps h
    have hin := hps.inp
    unfold PS.In at hin
    unfold parseLoop at h
    split at h
    · next heof =>
      have hpos : ps.pos = toks.length - 1 := by
        simp only [isEof, getOffsetIndex, if_true, decide_eq_true_eq] at heof
        omega
      obtain ⟨m, hm, h⟩ := PI.bind_ok h
      cases h
      refine ⟨[], m, [], by rw [List.append_nil], .nil, ?_, List.nil_sublist _⟩
      rw [hpos]
      exact Nat.le_refl _
    · split at h
      · next m ps' hc =>
        obtain ⟨h1, h2, w, h3, h4⟩ := call_stmt hends hps hc
        split at h
        · next ps'' hn =>
          obtain ⟨k1, k2, k3⟩ := nextToken_wf hends h1 hn
          obtain ⟨stmts, eof, w', rfl, h6, h7, h8⟩ := ih k1 h
          rw [k2] at h7 h8
          refine ⟨m :: stmts, eof, w ++ w', by simp, .cons h3 h6, Nat.le_trans h2 h7, ?_⟩
          rw [← slice_append h2 h7]
          exact h4.append h8
        · cases h
        · cases h
        · cases h
      · cases h
      · cases h
      · cases h
      · cases h

theorem printsAll_append {b : NodeType → Slot → Slot → Prop} {n : Node} {v : List Token} (hv : Prints b n v) :
    ∀ {ns : List Node} {w : List Token}, PrintsAll b ns w → PrintsAll b (ns ++ [n]) (w ++ v)
  | _, _, .nil => by
    have := PrintsAll.cons hv .nil
    rwa [List.append_nil] at this
  | _, _, .cons h t => by
    rw [List.append_assoc]
    exact .cons h (printsAll_append hv t)

theorem printsAll_anti {b b' : NodeType → Slot → Slot → Prop} (hb : ∀ ty x y, b' ty x y → b ty x y) :
    ∀ {ns : List Node} {w : List Token}, PrintsAll b ns w → PrintsAll b' ns w
  | _, _, .nil => .nil
  | _, _, .cons h t => .cons (Prints.anti hb h) (printsAll_anti hb t)

/-- The statements of a successful run, written out. -/
theorem parse_prints (hends : Ends toks) {ns : List Node} (h : parseTokens U toks = .ok ns) :
    ∃ stmts eof w, ns = stmts ++ [eof] ∧ PrintsAll (Must rules) stmts w ∧
      w.Sublist (slice toks 0 (leadStart toks (toks.length - 1))) := by
  unfold parseTokens parseTokensWith at h
  obtain ⟨ps, hn, h⟩ := PI.bind_ok h
  obtain ⟨h1, h2⟩ := new_wf hn
  obtain ⟨stmts, eof, w, h3, h4, _, h6⟩ := loop_prints hends _ h1 h
  rw [h2] at h6
  exact ⟨stmts, eof, w, by simpa using h3, h4, h6⟩

theorem leadStart_body (body : List Token) : leadStart (body ++ [Token.eof]) body.length ≤ body.length := by
  unfold leadStart
  dsimp only
  split
  · omega
  · next hne =>
    have hb := (AI.commentsBefore_all' (toks := body ++ [Token.eof]) (i := body.length) (by simp)).2
    generalize hi : body.length - commentsBefore (body ++ [Token.eof]) body.length - 1 = i
    have := trailEnd_le (toks := body ++ [Token.eof]) (p := i) (i := body.length) (by omega)
      (by simp) (show Token.eof.isComment = false by decide)
    unfold trailEnd at this
    omega

end Verif.OI
