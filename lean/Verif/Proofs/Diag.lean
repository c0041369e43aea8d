import Verif.Proofs.Rel
import Verif.Proofs.Terminate
/-! Invariants of trees and errors, and independence of the bounds, from the relational theorem. -/
namespace Verif
open Core Interp

/-- Everything is admissible. -/
def Static.any : Static := ⟨fun _ => true, fun _ => true, fun _ => true⟩

mutual
theorem Cond.okBy_any : ∀ c : Cond, c.okBy .any = true
  | .up .. | .raw .. | .upVar .. | .isIdent .. | .isStr .. | .isNum .. | .eof .. | .hasTok ..
  | .bvar .. | .const .. | .precLt .. | .lenPos .. | .lenOne .. | .strIs .. | .typeIs ..
  | .leftmostIs .. | .hasAnyKey .. | .firstCharIs .. | .lastCharIs .. | .adjacent => by
    simp [Cond.okBy, Static.any]
  | .and a b => by simp [Cond.okBy, Cond.okBy_any a, Cond.okBy_any b]
  | .or a b => by simp [Cond.okBy, Cond.okBy_any a, Cond.okBy_any b]
  | .not a => by simp [Cond.okBy, Cond.okBy_any a]
end

theorem Exp.okBy_any (e : Exp) : e.okBy .any = true := by
  cases e <;> simp [Exp.okBy, Cond.okBy_any]

theorem Cmd.okBy_any (c : Cmd) : c.okBy .any = true := by
  have hk : ∀ k, Static.any.key k = true := fun _ => rfl
  induction c <;> simp_all [Cmd.okBy, Exp.okBy_any, Cond.okBy_any]

/-- The error points at a token of the list. -/
def ErrAt (toks : List Token) (e : Err) : Prop := ∃ t ∈ toks, e.line = t.line ∧ e.column = t.column

/-- An invariant of trees (`P`) and of the parser state (`Q`). -/
structure Diag (U : Unicode) (toks : List Token) where
  Q : PS → Prop
  P : Node → Prop
  inp : ∀ s, Q s → s.In toks
  next : ∀ s s', Q s → nextToken toks s = .ok s' → Q s'
  construct : ∀ s nt n, Q s → construct U toks s nt = .ok n → P n
  empty : ∀ nt, P (Node.empty nt)
  pushNode : ∀ n c k, P n → P c → P (n.pushNode k c)
  pushVec : ∀ n cs k, P n → (∀ c ∈ cs, P c) → P (n.pushVec k cs)
  setType : ∀ n nt, P n → P (n.setType nt)

theorem getLast_mem' {α : Type} {l : List α} {a : α} (h : l.getLast? = some a) : a ∈ l :=
  List.mem_of_getLast? h

theorem getToken_errAt {toks : List Token} {s : PS} {n : Nat} {e : Err}
    (h : s.In toks) (he : getToken toks s n = .err e) : ErrAt toks e := by
  rcases getToken_cases toks s h n with ⟨i, t, _, h1, _⟩ | ⟨_, t, h1, _, h2⟩
  · rw [h1] at he; cases he
  · rw [h2] at he
    cases he
    exact ⟨t, getLast_mem' h1, rfl, rfl⟩

theorem getToken_mem {toks : List Token} {s : PS} {n : Nat} {t : Token}
    (h : s.In toks) (he : getToken toks s n = .ok t) : t ∈ toks := by
  rcases getToken_cases toks s h n with ⟨i, u, _, h1, h2, _⟩ | ⟨_, u, h1, _, h2⟩
  · rw [h1] at he; cases he; exact List.mem_of_getElem? h2
  · rw [h2] at he; cases he

theorem nextToken_errAt {toks : List Token} {s : PS} {e : Err}
    (h : s.In toks) (he : nextToken toks s = .err e) : ErrAt toks e := by
  rcases nextToken_cases toks s h with ⟨i, h1, _⟩ | ⟨t, h1, h2⟩
  · rw [h1] at he; cases he
  · rw [h2] at he
    cases he
    exact ⟨t, getLast_mem' h1, rfl, rfl⟩

theorem attachComments_ne_err {toks : List Token} {s : PS} {n : Node} {e : Err} :
    attachComments toks s n ≠ .err e := by
  unfold attachComments; split <;> simp

theorem construct_errAt {U : Unicode} {toks : List Token} {s : PS} {nt : NodeType} {e : Err}
    (h : s.In toks) (he : construct U toks s nt = .err e) : ErrAt toks e := by
  unfold construct at he
  rcases getToken_cases toks s h 0 with ⟨i, u, _, h1, _⟩ | ⟨h0, _⟩
  · rw [h1] at he
    dsimp only at he
    split at he
    · exact absurd he attachComments_ne_err
    · split at he
      · split at he
        · exact absurd he attachComments_ne_err
        · rename_i e' hcl
          cases he
          unfold classify at hcl
          repeat' (split at hcl)
          all_goals cases hcl
          rename_i hh
          exact getToken_errAt h hh
        · simp at he
        · simp at he
      · exact absurd he attachComments_ne_err
  · omega

/-- Outcomes related to themselves. -/
theorem OutRel.diag {α : Type} {RE : Err → Err → Prop} {R : α → α → Prop} {x : Out α}
    (h : ∀ a, x = .ok a → R a a) (he : ∀ e, x = .err e → RE e e) : OutRel RE R x x := by
  cases x <;> simp_all [OutRel]

theorem forall₂_eq_and {P : Node → Prop} {l l' : List Node}
    (h : List.Forall₂ (fun n m => n = m ∧ P n) l l') : l = l' ∧ ∀ n ∈ l, P n := by
  induction h with
  | nil => simp
  | cons h _ ih =>
    obtain ⟨rfl, h1⟩ := h
    obtain ⟨rfl, h2⟩ := ih
    exact ⟨rfl, by simpa using ⟨h1, h2⟩⟩

/-- An invariant as a relation. -/
def Diag.rel {U : Unicode} {toks : List Token} (D : Diag U toks) : Rel where
  U := U
  S := .any
  toks := toks
  toks' := toks
  RE e e' := e = e' ∧ ErrAt toks e
  RS s s' := s = s' ∧ D.Q s
  RN n n' := n = n' ∧ D.P n
  tok := by
    rintro s s' ⟨rfl, h⟩ n
    refine OutRel.diag (fun t ht => ?_) (fun e he => ⟨rfl, getToken_errAt (D.inp _ h) he⟩)
    refine ⟨rfl, rfl, rfl, rfl, fun _ _ => rfl, Iff.rfl, fun _ _ => Iff.rfl, fun _ _ => Iff.rfl,
      fun m => ⟨rfl, t, getToken_mem (D.inp _ h) ht, rfl, rfl⟩⟩
  eof := by rintro s s' ⟨rfl, h⟩ n; rfl
  next := by
    rintro s s' ⟨rfl, h⟩
    exact OutRel.diag (fun t ht => ⟨rfl, D.next _ _ h ht⟩)
      (fun e he => ⟨rfl, nextToken_errAt (D.inp _ h) he⟩)
  construct := by
    rintro s s' ⟨rfl, h⟩ nt
    exact OutRel.diag (fun t ht => ⟨rfl, D.construct _ _ _ h ht⟩)
      (fun e he => ⟨rfl, construct_errAt (D.inp _ h) he⟩)
  adj := by
    rintro s s' ⟨rfl, h⟩ a b a' b' h1 h2 h3 h4
    rw [h1] at h3; rw [h2] at h4
    cases h3; cases h4; rfl
  empty nt := ⟨rfl, D.empty nt⟩
  pushNode := by
    rintro n _ c _ k _ ⟨rfl, h⟩ ⟨rfl, h'⟩
    exact ⟨rfl, D.pushNode _ _ _ h h'⟩
  pushVec := by
    rintro n _ cs cs' k _ ⟨rfl, h⟩ h'
    obtain ⟨rfl, h2⟩ := forall₂_eq_and h'
    exact ⟨rfl, D.pushVec _ _ _ h h2⟩
  setType := by
    rintro n _ nt ⟨rfl, h⟩
    exact ⟨rfl, D.setType _ _ h⟩
  ty := by rintro n _ ⟨rfl, _⟩; rfl
  leftmost := by rintro n _ ⟨rfl, _⟩; rfl
  hasKey := by rintro n _ k ⟨rfl, _⟩ _; rfl

theorem Diag.parse {U : Unicode} {toks : List Token} (D : Diag U toks)
    (hnew : ∀ s, Core.new toks = .ok s → D.Q s) (fuel fuel' d d' : Nat) :
    OutRel (fun e e' => e = e' ∧ ErrAt toks e) (fun ns ns' => ns = ns' ∧ ∀ n ∈ ns, D.P n)
      (parseTokensWith U fuel d toks) (parseTokensWith U fuel' d' toks) := by
  have h := Rel.parseTokensWith_rel D.rel (fun f => Cmd.okBy_any _)
    (OutRel.diag (fun s hs => ⟨rfl, hnew s hs⟩) (fun e he => by
      change Core.new toks = .err e at he
      unfold Core.new at he
      dsimp only at he
      split at he
      · simp at he
      · split at he <;> simp at he)) fuel fuel' d d'
  exact h.mono fun a b hab => forall₂_eq_and hab

/-- The trivial invariant. -/
def Diag.trivial (U : Unicode) (toks : List Token) : Diag U toks where
  Q s := s.In toks
  P _ := True
  inp _ h := h
  next s s' h hn := by
    rcases nextToken_cases toks s h with ⟨i, h1, _, _, h2⟩ | ⟨t, h1, h2⟩
    · rw [h1] at hn; cases hn; exact h2
    · rw [h2] at hn; cases hn
  construct _ _ _ _ _ := True.intro
  empty _ := True.intro
  pushNode _ _ _ _ _ := True.intro
  pushVec _ _ _ _ _ := True.intro
  setType _ _ _ := True.intro

theorem parseTokensWith_eq (U : Unicode) (toks : List Token) (fuel depth : Nat)
    (hfuel : toks.length < fuel) (hdepth : 4 * toks.length ≤ depth) :
    parseTokensWith U fuel depth toks = parseTokens U toks := by
  have h := (Diag.trivial U toks).parse (new_in toks) fuel (toks.length + 1) depth (4 * toks.length)
  have h1 := parseTokensWith_ne_timeout U toks fuel depth hfuel hdepth
  have h2 := parseTokensWith_ne_timeout U toks (toks.length + 1) (4 * toks.length) (by omega) (by omega)
  unfold parseTokens
  revert h h1 h2
  cases parseTokensWith U fuel depth toks <;>
    cases parseTokensWith U (toks.length + 1) (4 * toks.length) toks <;> simp_all [OutRel]

theorem parseTokens_errAt (U : Unicode) (toks : List Token) (e : Err)
    (h : parseTokens U toks = .err e) : ErrAt toks e := by
  have h1 := (Diag.trivial U toks).parse (new_in toks) (toks.length + 1) (toks.length + 1)
    (4 * toks.length) (4 * toks.length)
  unfold parseTokens at h
  rw [h] at h1
  exact h1.2

theorem Diag.parse_ok {U : Unicode} {toks : List Token} (D : Diag U toks)
    (hnew : ∀ s, Core.new toks = .ok s → D.Q s) {ns : List Node} (h : parseTokens U toks = .ok ns) :
    ∀ n ∈ ns, D.P n := by
  have h1 := D.parse hnew (toks.length + 1) (toks.length + 1) (4 * toks.length) (4 * toks.length)
  unfold parseTokens at h
  rw [h] at h1
  exact h1.2

end Verif
