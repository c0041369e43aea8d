import Verif.Proofs.Top
import Verif.Spec.Loss
import Mathlib.Data.List.Perm.Subperm
/-! From weights to lists of tokens. -/
namespace Verif.AI
open Core Spec Interp

variable {U : Unicode} {toks : List Token}

/-- The tokens at the indices `[e, e')`. -/
def slice (toks : List Token) (e e' : Nat) : List Token := (toks.take e').drop e

theorem Wt_tokens (w : Token → Nat) (l : List Node) : Wt w l = ((l.flatMap tokensOf).map w).sum := by
  induction l with
  | nil => rfl
  | cons n l ih =>
    rw [Wt_cons, ih, List.flatMap_cons, List.map_append, List.sum_append]
    congr 1
    unfold Wt tokensOf
    rw [List.flatMap_cons, List.flatMap_nil, List.append_nil]
    generalize nodes n = ms
    induction ms with
    | nil => rfl
    | cons m ms ih =>
      rw [List.map_cons, List.sum_cons, ih, List.filterMap_cons]
      unfold twt
      cases m.tok <;> simp

/-- Indicator of a token. -/
def ind (t x : Token) : Nat := if x = t then 1 else 0

theorem sum_ind (t : Token) (l : List Token) : (l.map (ind t)).sum = l.count t := by
  induction l with
  | nil => rfl
  | cons a l ih =>
    rw [List.map_cons, List.sum_cons, ih, List.count_cons]
    unfold ind
    by_cases h : a = t <;> simp [h, Nat.add_comm]

theorem pre_ind (t : Token) (i : Nat) : pre (ind t) toks i = (toks.take i).count t := by
  unfold pre; exact sum_ind t _

theorem count_slice (t : Token) {e e' : Nat} (h : e ≤ e') :
    (toks.take e').count t = (toks.take e).count t + (slice toks e e').count t := by
  have := pre_add (w := ind t) (toks := toks) h
  rwa [pre_ind, pre_ind, sum_ind] at this

theorem dirty_iff (m : Node) (z : Bool) :
    Dirty z m ↔ LossyColumn m ∨ (z = false ∧ LossyStatement m) := by
  have hk : ∀ k, HasChild m k ↔ k ∈ m.kids.keys := by
    intro k
    unfold HasChild
    rw [children_ents, keys_ents]
    simp only [List.mem_map]
    constructor
    · rintro ⟨_, ⟨a, ha, rfl⟩, rfl⟩; exact ⟨a, ha, rfl⟩
    · rintro ⟨a, ha, rfl⟩; exact ⟨_, ⟨a, ha, rfl⟩, rfl⟩
  unfold Dirty DirtyT DirtyS LossyColumn LossyStatement
  simp only [hk]

/-- The tokens of a statement, compared with the slice it was read from. -/
structure FromSlice (n : Node) (ts : List Token) : Prop where
  sub : List.Subperm (tokensOf n) ts
  all : NoLoss n → (tokensOf n).Perm ts
  most : NoColumnLoss n → ∀ t ∈ ts, t.isComment = false → t.literal ≠ [';'] → t ∈ tokensOf n

theorem Stmt.le {n : Node} {e e' : Nat} (h : Stmt U toks n e e') (h0 : e ≤ toks.length)
    (he : e' ≤ toks.length) : e ≤ e' := by
  obtain ⟨d, h1, _⟩ := h.step (fun _ => 1) false (by intro h; cases h)
  have : ∀ i, pre (fun _ => 1) toks i = min i toks.length := by
    intro i; unfold pre; simp
  rw [this, this] at h1
  rw [Wt_nil] at h1
  omega

theorem Stmt.fromSlice {n : Node} {e e' : Nat} (h : Stmt U toks n e e') (h0 : e ≤ toks.length)
    (he : e' ≤ toks.length) : FromSlice n (slice toks e e') := by
  have hle := h.le h0 he
  have key : ∀ t z, Ignores z (ind t) → ∃ d, (tokensOf n).count t + d = (slice toks e e').count t ∧
      (d ≠ 0 → DL z [n]) := by
    intro t z hz
    obtain ⟨d, h1, h2⟩ := h.step (ind t) z hz
    rw [pre_ind, pre_ind, Wt_nil, count_slice t hle, Wt_tokens, sum_ind] at h1
    rw [List.flatMap_cons, List.flatMap_nil, List.append_nil] at h1
    exact ⟨d, by omega, fun hd => h2 (.inl hd)⟩
  have hf : ∀ t, Ignores false (ind t) := by intro t h; cases h
  refine ⟨?_, ?_, ?_⟩
  · rw [List.subperm_ext_iff]
    intro t _
    obtain ⟨d, h1, _⟩ := key t false (hf t)
    omega
  · intro hn
    rw [List.perm_iff_count]
    intro t
    obtain ⟨d, h1, h2⟩ := key t false (hf t)
    have : d = 0 := by
      by_contra hd
      obtain ⟨x, hx, m, hm, hdm⟩ := h2 hd
      rw [List.mem_singleton] at hx
      subst hx
      rw [dirty_iff] at hdm
      rcases hdm with hdm | hdm
      · exact (hn m hm).1 hdm
      · exact (hn m hm).2 hdm.2
    omega
  · intro hn t ht hc hs
    have hi : Ignores true (ind t) := by
      intro _ x hx
      unfold ind
      rw [if_neg]
      rintro rfl
      rcases hx with hx | hx
      · rw [hx] at hc; cases hc
      · exact hs hx
    obtain ⟨d, h1, h2⟩ := key t true hi
    have : d = 0 := by
      by_contra hd
      obtain ⟨x, hx, m, hm, hdm⟩ := h2 hd
      rw [List.mem_singleton] at hx
      subst hx
      rw [dirty_iff] at hdm
      rcases hdm with hdm | hdm
      · exact hn m hm hdm
      · cases hdm.1
    have := List.count_pos_iff.2 ht
    exact List.count_pos_iff.1 (by omega)

/-- The types of the statements, by the words from the beginning of their slices on. -/
inductive Kinds (U : Unicode) (rest : List Token) : List Node → List (List Token) → Prop
  | nil : Kinds U rest [] []
  | cons {n : Node} {ns : List Node} {ts : List Token} {parts : List (List Token)}
      (h : StatementType (words U ((ts :: parts).flatten ++ rest)) n.ty) (t : Kinds U rest ns parts) :
      Kinds U rest (n :: ns) (ts :: parts)

/-- The statements and the slices they come from. -/
theorem Stmts.slices {e e'' : Nat} {ns : List Node} (h : Stmts U toks e ns e'') (he : e ≤ toks.length - 1) :
    ∃ parts : List (List Token), toks.take e ++ parts.flatten = toks.take e'' ∧
      List.Forall₂ (fun n ts => FromSlice n ts ∧ Closed U toks n ∧ Is U toks stmtAlts n) ns parts ∧
      Kinds U (toks.drop e'') ns parts ∧ parts.flatten ++ toks.drop e'' = toks.drop e := by
  induction h with
  | nil e => exact ⟨[], by simp, .nil, .nil, rfl⟩
  | @cons e e' e'' n ns hle h t ih =>
    obtain ⟨parts, h1, h2, h3, h4⟩ := ih hle
    have hflat : (slice toks e e' :: parts).flatten ++ toks.drop e'' = toks.drop e := by
      rw [List.flatten_cons, List.append_assoc, h4]
      unfold slice
      rw [List.drop_take]
      conv_rhs => rw [← List.take_append_drop (e' - e) (toks.drop e)]
      rw [List.drop_drop, Nat.add_sub_cancel' (h.le (by omega) (by omega))]
    refine ⟨slice toks e e' :: parts, ?_, .cons ⟨h.fromSlice (by omega) (by omega), h.closed, h.is⟩ h2,
      .cons (by rw [hflat]; exact h.kind) h3, hflat⟩
    rw [← h1, List.flatten_cons, ← List.append_assoc]
    congr 1
    unfold slice
    conv_rhs => rw [← List.take_append_drop e (toks.take e')]
    rw [List.take_take, Nat.min_eq_left (h.le (by omega) (by omega))]

theorem Stmts.closed {e e'' : Nat} {ns : List Node} (h : Stmts U toks e ns e'') :
    ∀ n ∈ ns, Closed U toks n ∧ Is U toks stmtAlts n := by
  induction h with
  | nil e => simp
  | cons _ h _ ih =>
    intro m hm
    rcases List.mem_cons.1 hm with rfl | hm
    · exact ⟨h.closed, h.is⟩
    · exact ih m hm

/-- Summary of a successful run on tokens that end in the EOF token. -/
structure Parsed (U : Unicode) (toks : List Token) (stmts : List Node) (eof : Node)
    (parts : List (List Token)) (last : List Token) : Prop where
  tokens : toks = parts.flatten ++ last ++ [Token.eof]
  kinds : Kinds U (last ++ [Token.eof]) stmts parts
  lastEq : last = Spec.leadingComments toks (toks.length - 1)
  stmts : List.Forall₂ (fun n ts => FromSlice n ts ∧ Closed U toks n ∧ Is U toks stmtAlts n) stmts parts
  eofTy : eof.ty = .EOF
  eofTok : eof.tok = none
  eofKids : ents eof.kids = if last = [] then [] else [(.k_leading_comments, true, last.map cnode)]

theorem Result.parsed {body : List Token} {ns : List Node} (h : Result U (body ++ [Token.eof]) ns) :
    ∃ stmts eof parts last, ns = stmts ++ [eof] ∧
      Parsed U (body ++ [Token.eof]) stmts eof parts last := by
  obtain ⟨stmts, eof, rfl, h1, h2⟩ := h.split
  obtain ⟨parts, h3, h4, h5, h6⟩ := h1.slices (Nat.zero_le _)
  have hlen : (body ++ [Token.eof]).length - 1 = body.length := by simp
  have hle : leadStart (body ++ [Token.eof]) body.length ≤ body.length := by
    unfold leadStart
    dsimp only
    split
    · omega
    · next hne =>
      have hb := (commentsBefore_all' (toks := body ++ [Token.eof]) (i := body.length) (by simp)).2
      generalize hi : body.length - commentsBefore (body ++ [Token.eof]) body.length - 1 = i
      have := trailEnd_le (toks := body ++ [Token.eof]) (p := i) (i := body.length) (by omega)
        (by simp) (show Token.eof.isComment = false by decide)
      unfold trailEnd at this
      omega
  have htr : trailingComments (body ++ [Token.eof]) body.length = [] := by
    unfold trailingComments
    rw [show (body ++ [Token.eof])[body.length]? = some Token.eof by simp]
    simp
  refine ⟨stmts, eof, parts, _, rfl, ?_, ?_, rfl, h4, h2.ty, h2.tok, ?_⟩
  · rw [hlen] at h3 ⊢
    rw [List.take_zero, List.nil_append] at h3
    rw [h3]
    congr 1
    unfold Spec.leadingComments
    have ht : (body ++ [Token.eof]).take body.length = body := by simp
    rw [ht, List.take_append_of_le_length hle, List.take_append_drop]
  · rw [hlen] at h5 ⊢
    have ht : (body ++ [Token.eof]).take body.length = body := by simp
    unfold Spec.leadingComments
    rw [ht, ← List.drop_append_of_le_length hle]
    exact h5
  · rw [h2.kids, hlen]
    unfold commentEnts
    rw [htr]
    simp

theorem ends_eof (body : List Token) : Ends (body ++ [Token.eof]) :=
  ⟨Token.eof, by simp, by decide⟩

end Verif.AI
