import Verif.Proofs.BlockCase
/-! `FOR` statements give their trees. -/
namespace Verif.Sym
open Core Interp Spec
open Slow (StandAt)

theorem for_body : Program.parse_for_statement.body = .seq (seqL forBody) (.seq (seqL (seqR forBody)) (.seq (seqL (seqR (seqR forBody)))
  (.seq (seqL (seqR (seqR (seqR forBody)))) (.seq (seqL (seqR (seqR (seqR (seqR forBody)))))
  (.seq (seqL (seqR (seqR (seqR (seqR (seqR forBody)))))) (.seq (seqL (seqR (seqR (seqR (seqR (seqR (seqR forBody)))))))
  (.seq (seqL (seqR (seqR (seqR (seqR (seqR (seqR (seqR forBody))))))))
    (.seq .next (.seq (.push v_for_ .k_do (.call .parse_keyword_with_statements [.kws [.END]])) forPost))))))))) := rfl

theorem exec_forPre {C : Ctx} {s s' : St} (h : exec C forPre s = .ok (.norm, s')) :
    exec C Program.parse_for_statement.body s =
      exec C (.seq .next (.seq (.push v_for_ .k_do (.call .parse_keyword_with_statements [.kws [.END]])) forPost)) s' := by
  obtain ⟨s1, a1, h⟩ := seq_norm h
  obtain ⟨s2, a2, h⟩ := seq_norm h
  obtain ⟨s3, a3, h⟩ := seq_norm h
  obtain ⟨s4, a4, h⟩ := seq_norm h
  obtain ⟨s5, a5, h⟩ := seq_norm h
  obtain ⟨s6, a6, h⟩ := seq_norm h
  obtain ⟨s7, a7, a8⟩ := seq_norm h
  rw [for_body, seq_of a1, seq_of a2, seq_of a3, seq_of a4, seq_of a5, seq_of a6, seq_of a7, seq_of a8]

section
variable {U : Unicode} (hU : U.Lawful) {T : List Token} (hnc : ∀ t ∈ T, t.isComment = false) (hA : Lex.Apart T) {fuel : Nat}
  (hF : T.length + 1 ≤ fuel)
include hU hnc hA hF

/-- `FOR x IN (SELECT y)`. -/
theorem for_pre {s : Shape} {as : Args} {q M : Nat} (hs : s ∈ fors) (ha : as.Ok U (places s.items))
    (hst : StandAt T q (weave s.items as.words)) (hd : WordAt U T (q + (weave s.items as.words).length) "DO".toList)
    (hm : q + (weave s.items as.words).length + 1 < T.length) (hM : 4 * (weave s.items as.words).length + 12 ≤ M) :
    ∃ s', exec (cx U T fuel M) forPre ⟨⟨q, [], []⟩, bindParams Program.parse_for_statement.params [.bool true]⟩ = .ok (.norm, s') ∧
      s'.ps = ⟨q + (weave s.items as.words).length - 1, [], []⟩ ∧ s'.env v_semicolon = .bool true ∧
      s'.env v_for_ = .node (s.node.tree T (Node.empty .Unknown) (parts s.items (as.operands T) q)) := by
  obtain ⟨k1, k2, k3, is, k4, k5⟩ := for_facts hs
  have hwl := weave_length s.items ha
  have htk : 1 ≤ toks s.items := by rw [k4]; simp [toks]
  have hend : Follow U T (q + (weave s.items as.words).length) (.lit "DO".toList) loosest := hd.follow hm (by decide +kernel)
  let ps := parts s.items (as.operands T) q
  let I : Itp := ⟨U, T, posOf s.items (as.operands T) q ++ [q + (weave s.items as.words).length],
    holeOf (Node.empty .Unknown) ps, holesOf ps, 0, true, []⟩
  let w := forWindow s
  have hL : Lay U T I.H I.V fuel (4 * (weave s.items as.words).length) w.cells I.pos := by
    refine lay_items hU (List.mem_singleton.2 rfl) hend s.items as 1 q ha (args_good hU hnc hA hF as) k1 hst rfl ?_
      (.inl k3) ?_ ?_ ?_
    · intro bd hbd
      exact ⟨open_le s.items k1 bd hbd, lastCloses_loosest as ha, by decide⟩
    · intro j; rw [Nat.add_comm]; rfl
    · intro j; rw [Nat.add_comm]; rfl
    · exact deep_of (m := (as.words.map List.length).sum) s.items _ (Nat.le_refl _) (by omega) (.inl (by omega))
  have hr : rounds = 4 := rfl
  have hV : View w I := view_win hU hnc hA hF (I := I) rfl rfl hL rfl
  have h0 : I.at_ 0 = q := by
    have := head_pos (T := T) (q := q) ha
    rw [List.head?_eq_getElem?] at this
    show (posOf s.items (as.operands T) q ++ [q + (weave s.items as.words).length]).getD 0 0 = q
    rw [List.getD_eq_getElem?_getD, this]
    rfl
  have hchk := for_ok.2.2 s hs
  unfold checkFor at hchk
  split at hchk
  case h_2 => cases hchk
  rename_i st hae
  simp only [Bool.and_eq_true, beq_iff_eq] at hchk
  obtain ⟨⟨⟨c1, c2⟩, c3⟩, c4⟩ := hchk
  obtain ⟨fl, s', g1, g2, g3⟩ := exec_sound (C := cx U T fuel M) hV rfl rfl
    (call_sound hV (by omega) (gapOk_of hL) 12 M (by omega)) (show rounds ≤ fuel by omega) forPre
    (s := ⟨⟨q, [], []⟩, bindParams Program.parse_for_statement.params [.bool true]⟩)
    ⟨by show _ = PS.mk (I.at_ 0) [] []; rw [h0], bind_sound (avs := [.bool true]) (vs := [.bool true]) _ ⟨rfl, trivial⟩⟩ hae
  cases fl with
  | brk => exact g2.elim
  | ret v => exact g2.elim
  | norm =>
    refine ⟨s', g1, ?_, ?_, ?_⟩
    · have hcells : (posOf s.items (as.operands T) q).length + 1 = w.cells.length := by
        rw [← hL.length]
        simp [I]
      have hi : I.at_ (st.pos + 1) = q + (weave s.items as.words).length := by
        show (posOf s.items (as.operands T) q ++ [q + (weave s.items as.words).length]).getD (st.pos + 1) 0 = _
        have c1 : st.pos + 2 = w.cells.length := c1
        rw [List.getD_eq_getElem?_getD, List.getElem?_append_right (by omega)]
        rw [show st.pos + 1 - (posOf s.items (as.operands T) q).length = 0 by omega]
        rfl
      split at c2
      case h_2 => cases c2
      rename_i c hc
      have := hV.succ st.pos c hc (by simpa using c2) (by have c1 : st.pos + 2 = w.cells.length := c1; omega)
      rw [g3.ps]
      show PS.mk (I.at_ st.pos) [] [] = _
      congr 1
      omega
    · have := g3.env v_semicolon
      rw [c3] at this
      exact this
    · have := g3.env v_for_
      split at c4
      case h_2 => cases c4
      rename_i t ht
      rw [ht] at this
      have hv : s'.env v_for_ = .node ((t.ev I).1) := this
      rw [hv, ← Term.ev_norm, eq_of_beq c4]
      congr 1
      refine term_tree (I := I) (left := Node.empty .Unknown) (ps := ps) rfl rfl ?_ s.node k2
      intro j hj
      rw [Nat.zero_add]
      exact pos_item (T := T) (q := q) ha hj

/-- `END FOR;` -/
theorem for_end {N j : Nat} {n : Node} {env : Env} (hn : env v_for_ = .node n) (hsc : env v_semicolon = .bool true)
    (hs : StandAt T (j + 1) ["END".toList, "FOR".toList, ";".toList]) (hm : j + 4 < T.length) (hN : 2 ≤ N) :
    ∃ s', exec (cx U T fuel N) forPost ⟨⟨j, [], []⟩, env⟩ = .ok (.ret (.node (endNode T n .k_end_for (j + 1))), s') ∧
      s'.ps = ⟨j + 3, [], []⟩ := by
  let I : Itp := ⟨U, T, [j, j + 1, j + 2, j + 3], fun _ => n, fun _ => [], 0, true, []⟩
  have s2 := StandAt.tail hs
  have s3 := StandAt.tail s2
  have hL : Lay U T I.H I.V fuel 0 wForEnd.cells I.pos := by
    refine lay_cell bare_ok rfl (by omega) rfl rfl ?_
    refine lay_cell (wordAt_of hU hs (by decide)).cell rfl (by omega) rfl rfl ?_
    refine lay_cell (wordAt_of hU s2 for_vocab).cell rfl (by omega) rfl rfl ?_
    exact lay_last (wordAt_of hU s3 (by decide)).cell rfl (by omega)
  have hr : rounds = 4 := rfl
  have hR : RS I ⟨0, forEnv⟩ ⟨⟨j, [], []⟩, env⟩ := by
    refine ⟨rfl, ?_⟩
    intro x
    unfold forEnv
    simp only [abind, AEnv.set]
    split
    · rename_i hx; subst hx; exact hn
    · split
      · rename_i hx; subst hx; exact hsc
      · trivial
  have hchk : checkForEnd = true := for_ok.2.1
  unfold checkForEnd retAt at hchk
  split at hchk
  case h_2 => cases hchk
  rename_i t' as hae
  simp only [Bool.and_eq_true, beq_iff_eq] at hchk
  have hV := view_win hU hnc hA hF (I := I) rfl rfl hL rfl
  obtain ⟨fl, s', k1, k2, k3⟩ := exec_sound (C := cx U T fuel N) hV rfl rfl
    (call_sound hV (by omega) (gapOk_of hL) 2 N (by omega)) (show rounds ≤ fuel by omega) forPost hR hae
  cases fl with
  | norm => exact k2.elim
  | brk => exact k2.elim
  | ret w =>
    have hw : w = .node ((t'.ev I).1) := k2
    refine ⟨s', ?_, by rw [k3.ps, hchk.2]; rfl⟩
    rw [k1, hw, ← Term.ev_norm, hchk.1]
    rfl

theorem good_for (s : Shape) (as : Args) (b : Blocks) (hg : BlocksGood U T fuel b) : BlockCall U T fuel (.for s as b) := by
  intro q hok hs hm N hN
  obtain ⟨hsh, ha, hok⟩ : s ∈ fors ∧ as.Ok U (places s.items) ∧ b.Ok U := hok
  obtain ⟨_, _, _, is, k4, k5⟩ := for_facts hsh
  simp only [Block.words, List.length_cons, List.length_append, List.length_nil] at hs hm hN ⊢
  have s1 : StandAt T q (weave s.items as.words) := StandAt.left hs
  have s2 : StandAt T (q + (weave s.items as.words).length) _ := StandAt.right hs
  have s3 := StandAt.tail s2
  have s4 : StandAt T (q + (weave s.items as.words).length + 1 + b.words.length) _ := StandAt.right s3
  have hw := wordAt_of hU s4 (by decide)
  obtain ⟨M, rfl⟩ : ∃ M, N = M + 2 := ⟨N - 2, by omega⟩
  have hr : rounds = 4 := rfl
  have hfirst : WordAt U T q "FOR".toList ∧ ∃ t, T[q + 1]? = some t ∧ ∃ b ∈ [Base.other .Identifier], IsBase U T (q + 1) t b := by
    rw [k4] at ha s1
    refine ⟨wordAt_of hU s1 for_vocab, ?_⟩
    have s1' := StandAt.tail (l := "FOR".toList) (r := weave (.name :: is) as.words) s1
    cases as with
    | nil => exact ha.elim
    | cons es as =>
      cases es with
      | one e =>
        obtain ⟨l, rfl, h⟩ : ∃ l, e = .atom l .Identifier ∧ AtomIs U l .Identifier := ha.1
        obtain ⟨t, h1, h2⟩ := s1' 0 l rfl
        refine ⟨t, h1, _, List.mem_singleton.2 rfl, ?_⟩
        have hb := atom_base hU (T := T) (q := q + 1) h h2
        have he : atomBase l .Identifier = .other .Identifier := by
          cases h
          rfl
        rwa [he] at hb
      | _ => exact ha.1.elim
  have hlen : 2 ≤ (weave s.items as.words).length := by
    have := weave_length s.items ha
    have ht : toks s.items = toks is + 1 := by rw [k4]; simp [toks]
    omega
  obtain ⟨⟨ps, env⟩, p1, p2, p3, p4⟩ := for_pre hU hnc hA hF (M := M) hsh ha s1 (wordAt_of hU s2 (by decide)) (by omega) (by omega)
  dsimp only at p2 p3 p4
  subst p2
  let d := q + (weave s.items as.words).length
  let n := (s.node.tree T (Node.empty .Unknown) (parts s.items (as.operands T) q)).pushNode .k_do
    (bodyNode T .KeywordWithStatements d (b.trees T (d + 1)))
  have c1 := step_next (U := U) (fuel := fuel) (N := M) (env := env) hnc (j := d - 1) (by omega)
  rw [show d - 1 + 1 = d by omega] at c1
  have hcall := body_call hU hnc hF b hg hok (q := d) (ks := [.END]) (StandAt.left s3) hw (by decide +kernel) (by decide +kernel) (N := M)
    (by omega)
  have c2 : exec (cx U T fuel M) (.push v_for_ .k_do (.call .parse_keyword_with_statements [.kws [.END]])) ⟨⟨d, [], []⟩, env⟩ =
      .ok (.norm, ⟨⟨d + b.words.length, [], []⟩, env.set v_for_ (.node n)⟩) := by
    simp [exec, evalExp, evalAtoms, evalAtom, hcall, p4, n]
  obtain ⟨s', f1, f2⟩ := for_end hU hnc hA hF (N := M) (j := d + b.words.length) (n := n) (env := env.set v_for_ (.node n)) rfl p3
    (by rw [show d + b.words.length + 1 = d + 1 + b.words.length by omega]; exact s4) (by omega) (by omega)
  rw [show d + b.words.length + 1 = d + 1 + b.words.length by omega] at f1
  refine dispatch hnc hA (b := .lit "FOR".toList) (f := .parse_for_statement) for_ok.1 hfirst.1.cell hfirst.2 (by omega) (by omega)
    (by omega) ?_
  show runBody (cx U T fuel M) Program.parse_for_statement _ _ = _
  unfold runBody
  rw [exec_forPre p1, seq_of c1, seq_of c2, f1]
  simp only [f2]
  congr 3
  omega

end
end Verif.Sym
