import Verif.Analysis.Sym
import Verif.Proofs.Cut
import Verif.Proofs.Apart
import Verif.Spec.Expr
/-! The evaluator of Analysis/Sym.lean is right about the parser. -/
namespace Verif.Sym
open Core Interp
open GI hiding exec

/-- What the symbols stand for: the tokens, the positions of the cells, the results of the gaps. -/
structure Itp where
  U : Unicode
  T : List Token
  pos : List Nat
  H : Nat → Node
  V : Nat → List Node
  n : Nat
  a : Bool
  ks : List Kw

/-- The position of a cell. -/
def Itp.at_ (I : Itp) (i : Nat) : Nat := I.pos.getD i 0
/-- The state of the parser at a cell. -/
def Itp.ps (I : Itp) (i : Nat) : PS := ⟨I.at_ i, [], []⟩
/-- The token at a cell. -/
def Itp.tok (I : Itp) (i : Nat) : Token := Spec.tokenAt I.T (I.at_ i)
/-- The type that is given to a new node. -/
def Itp.ty (I : Itp) (i : Nat) : NodeType := match classify I.U I.T (I.ps i) (I.tok i) with
  | .ok ty => ty
  | _ => .Unknown

/-- The node and the vector a term stands for. -/
def Term.ev (I : Itp) : Term → Node × List Node
  | .hole i => (I.H i, [])
  | .holes i => (Node.empty .Unknown, I.V i)
  | .nil => (Node.empty .Unknown, [])
  | .snoc v n => (Node.empty .Unknown, (v.ev I).2 ++ [(n.ev I).1])
  | .new i ty => (Node.new (I.tok i) ty, [])
  | .newU i => (Node.new (I.tok i) (I.ty i), [])
  | .empty ty => (Node.empty ty, [])
  | .push n k c => ((n.ev I).1.pushNode k (c.ev I).1, [])
  | .pushVec n k v => ((n.ev I).1.pushVec k (v.ev I).2, [])
  | .setType n ty => ((n.ev I).1.setType ty, [])

theorem Term.ev_retype (I : Itp) (ty : NodeType) (t : Term) : (t.retype ty).ev I = ((t.ev I).1.setType ty, []) := by
  induction t with
  | push n k c ih _ => simp only [Term.retype, Term.ev, ih]; rfl
  | pushVec n k c ih _ => simp only [Term.retype, Term.ev, ih]; rfl
  | setType n ty' ih => simp only [Term.retype, Term.ev, ih]; rfl
  | _ => rfl

theorem Term.ev_norm (I : Itp) (t : Term) : t.norm.ev I = t.ev I := by
  induction t with
  | setType n ty ih => simp only [Term.norm, Term.ev, Term.ev_retype, ih]
  | snoc v n ihv ihn => simp only [Term.norm, Term.ev, ihv, ihn]
  | push n k c ih ihc => simp only [Term.norm, Term.ev, ih, ihc]
  | pushVec n k v ih ihv => simp only [Term.norm, Term.ev, ih, ihv]
  | _ => rfl

/-- A value of which `a` is known. -/
def RV (I : Itp) : AVal → Val → Prop
  | .unit, _ => True
  | .node t, v => v = .node (t.ev I).1
  | .vec t, v => v = .vec (t.ev I).2
  | .bool b, v => v = .bool b
  | .nat n, v => v = .nat n
  | .str s, v => v = .str s
  | .strOther, v => ∃ s, v = .str s ∧ ∀ k : Kw, s ≠ k.lit
  | .kws ks, v => v = .kws ks
  | .someNat, v => v = .nat I.n
  | .someBool, v => v = .bool I.a
  | .someKws, v => v = .kws I.ks

/-- The same for lists. -/
def RVs (I : Itp) : List AVal → List Val → Prop
  | [], [] => True
  | a :: as, v :: vs => RV I a v ∧ RVs I as vs
  | _, _ => False

/-- A token whose literal is known. -/
def LitOk (U : Unicode) (t : Token) (l : Str) : Prop := t.literal = l ∧ U.upper l = U0.upper l

/-- A token that is no word and no symbol of the parser. -/
structure OtherOk (U : Unicode) (t : Token) (ty : NodeType) : Prop where
  up : ∀ k : Kw, t.upper U ≠ k.lit
  raw : ∀ k : Kw, t.literal ≠ k.lit
  ident : t.isIdentifier U = (ty == .Identifier)
  num : t.isNumeric = (ty == .NumericLiteral)
  str : t.isString = (ty == .StringLiteral)
  par : t.isParameter = (ty == .Parameter)
  word : ty = .Identifier → wordy t.literal = true
  ty : ty ∈ [NodeType.Identifier, .NumericLiteral, .StringLiteral, .Parameter]

/-- The token at `q` is what it may be. -/
def IsBase (U : Unicode) (T : List Token) (q : Nat) (t : Token) : Base → Prop
  | .lit l => LitOk U t l
  | .notOp => LitOk U t "NOT".toList ∧ ∃ t' l, T[q + 1]? = some t' ∧ LitOk U t' l ∧
      l ∈ ["IN".toList, "LIKE".toList, "BETWEEN".toList]
  | .other ty => OtherOk U t ty

/-- The window is a part of the tokens. -/
structure View (w : Window) (I : Itp) : Prop where
  nc : ∀ t ∈ I.T, t.isComment = false
  apart : Lex.Apart I.T
  tok : ∀ i c, w.cells[i]? = some c → c.bases ≠ [] →
    ∃ t, I.T[I.at_ i]? = some t ∧ ∃ b ∈ c.bases, IsBase I.U I.T (I.at_ i) t b
  succ : ∀ i c, w.cells[i]? = some c → c.gap = none → i + 1 < w.cells.length → I.at_ (i + 1) = I.at_ i + 1
  more : ∀ i, i < w.cells.length → I.at_ i + 1 < I.T.length
  leftId : ∀ b, w.leftId = some b → ((I.H 0).leftmostType == .Identifier) = b
  two : w.two = true → ∀ i, (I.V i).length ≠ 1
  lo : w.lo ≤ I.n
  hi : I.n ≤ w.hi
  ks : firsts.all (fun b => !b.inKws I.ks) = true

theorem agree_sound {α : Type} [DecidableEq α] {f : Base → Option α} : ∀ {bs : List Base} {x : α},
    agree f bs = some x → ∀ b ∈ bs, f b = some x
  | [], _, h => by cases h
  | [b], x, h => by
    intro b' hb
    simp at hb
    subst hb
    exact h
  | b :: b2 :: bs, x, h => by
    simp only [agree] at h
    split at h
    · rename_i y z h1 h2
      split at h
      · rename_i hyz
        cases h
        intro b' hb
        rcases List.mem_cons.1 hb with rfl | hb
        · exact h1
        · rw [hyz] at *
          exact agree_sound h2 b' hb
      · cases h
    · cases h

theorem LitOk.inKws {U : Unicode} {t : Token} {l : Str} (h : LitOk U t l) (ks : List Kw) :
    t.inKws U ks = (tk l).inKws U0 ks := by
  unfold Token.inKws Token.upper
  rw [h.1, h.2]; rfl

theorem LitOk.upper {U : Unicode} {t : Token} {l : Str} (h : LitOk U t l) : t.upper U = (tk l).upper U0 := by
  unfold Token.upper
  rw [h.1, h.2]; rfl

theorem LitOk.isIdentifier {U : Unicode} {t : Token} {l : Str} (h : LitOk U t l) :
    t.isIdentifier U = (tk l).isIdentifier U0 := by
  unfold Token.isIdentifier Token.isReservedKeyword Token.quotedBy
  rw [h.inKws, h.1]; rfl

theorem LitOk.isString {U : Unicode} {t : Token} {l : Str} (h : LitOk U t l) : t.isString = (tk l).isString := by
  unfold Token.isString Token.quotedBy
  rw [h.1]; rfl

theorem LitOk.isNumeric {U : Unicode} {t : Token} {l : Str} (h : LitOk U t l) : t.isNumeric = (tk l).isNumeric := by
  unfold Token.isNumeric
  rw [h.1]; rfl

theorem LitOk.isParameter {U : Unicode} {t : Token} {l : Str} (h : LitOk U t l) :
    t.isParameter = (tk l).isParameter := by
  unfold Token.isParameter
  rw [h.1]; rfl

theorem LitOk.isTemplate {U : Unicode} {t : Token} {l : Str} (h : LitOk U t l) : t.isTemplate = (tk l).isTemplate := by
  unfold Token.isTemplate
  rw [h.1]; rfl

theorem LitOk.isBoolean {U : Unicode} {t : Token} {l : Str} (h : LitOk U t l) :
    t.isBoolean U = (tk l).isBoolean U0 := by
  unfold Token.isBoolean
  rw [h.upper]

theorem LitOk.prec {U : Unicode} {t : Token} {l : Str} (h : LitOk U t l) : precTable U t = precTable U0 (tk l) := by
  unfold precTable
  simp only [h.inKws]

theorem OtherOk.inKws {U : Unicode} {t : Token} {ty : NodeType} (h : OtherOk U t ty) (ks : List Kw) :
    t.inKws U ks = false := by
  unfold Token.inKws
  rw [List.any_eq_false]
  intro k _
  simpa using h.up k

section
variable {U : Unicode} {T : List Token} {q : Nat} {t : Token} {b : Base} (h : IsBase U T q t b)
include h

theorem IsBase.inKws (ks : List Kw) : t.inKws U ks = b.inKws ks := by
  cases b with
  | lit l => exact LitOk.inKws h ks
  | notOp => exact LitOk.inKws h.1 ks
  | other ty => exact OtherOk.inKws h ks

theorem IsBase.raw (ks : List Kw) : (ks.any fun k => t.literal == k.lit) = b.raw ks := by
  cases b with
  | lit l => unfold Base.raw; rw [show t.literal = l from h.1]; rfl
  | notOp => unfold Base.raw; rw [show t.literal = _ from h.1.1]; rfl
  | other ty =>
    show _ = false
    rw [List.any_eq_false]
    intro k _
    simpa using OtherOk.raw h k

theorem IsBase.ident : t.isIdentifier U = b.ident := by
  cases b with
  | lit l => exact LitOk.isIdentifier h
  | notOp => rw [LitOk.isIdentifier h.1]; decide
  | other ty => exact OtherOk.ident h

theorem IsBase.str : t.isString = b.str := by
  cases b with
  | lit l => exact LitOk.isString h
  | notOp => rw [LitOk.isString h.1]; decide
  | other ty => exact OtherOk.str h

theorem IsBase.num : t.isNumeric = b.num := by
  cases b with
  | lit l => exact LitOk.isNumeric h
  | notOp => rw [LitOk.isNumeric h.1]; decide
  | other ty => exact OtherOk.num h

theorem IsBase.word (hb : b.word = true) : wordy t.literal = true := by
  cases b with
  | lit l => rw [show t.literal = l from h.1]; exact hb
  | notOp => rw [show t.literal = _ from h.1.1]; decide
  | other ty => exact OtherOk.word h (by simpa [Base.word] using hb)

theorem IsBase.firstChar {c : Char} {x : Bool} (hb : b.firstChar c = some x) :
    ∃ d, t.literal.head? = some d ∧ (d == c) = x := by
  have hl : ∀ {l : Str}, t.literal = l → l.head?.map (· == c) = some x → ∃ d, t.literal.head? = some d ∧ (d == c) = x := by
    intro l hl hx
    rw [hl]
    cases hh : l.head? with
    | none => rw [hh] at hx; cases hx
    | some d => rw [hh] at hx; exact ⟨d, rfl, by simpa using hx⟩
  cases b with
  | lit l => exact hl h.1 hb
  | notOp => exact hl h.1.1 hb
  | other ty =>
    simp only [Base.firstChar, Base.lit?] at hb
    split at hb
    · rename_i hw
      cases hb
      have := IsBase.word h hw.1
      cases ht : t.literal with
      | nil => rw [ht] at this; cases this
      | cons d ds =>
        rw [ht] at this
        simp only [wordy, Bool.and_eq_true] at this
        refine ⟨d, rfl, ?_⟩
        rw [beq_eq_false_iff_ne]
        rintro rfl
        have h2 := hw.2
        unfold Token.identRest at h2
        rw [this.1] at h2
        simp at h2
    · cases hb

theorem IsBase.lastChar {c : Char} {x : Bool} (hb : b.lastChar c = some x) :
    ∃ d, t.literal.getLast? = some d ∧ (d == c) = x := by
  have hl : ∀ {l : Str}, t.literal = l → l.getLast?.map (· == c) = some x →
      ∃ d, t.literal.getLast? = some d ∧ (d == c) = x := by
    intro l hl hx
    rw [hl]
    cases hh : l.getLast? with
    | none => rw [hh] at hx; cases hx
    | some d => rw [hh] at hx; exact ⟨d, rfl, by simpa using hx⟩
  cases b with
  | lit l => exact hl h.1 hb
  | notOp => exact hl h.1.1 hb
  | other ty =>
    simp only [Base.lastChar, Base.lit?] at hb
    split at hb
    · rename_i hw
      cases hb
      have := IsBase.word h hw.1
      have hall : ∀ d ∈ t.literal, Token.identRest d = true := by
        cases ht : t.literal with
        | nil => intro d hd; cases hd
        | cons d ds =>
          rw [ht] at this
          simp only [wordy, Bool.and_eq_true] at this
          intro e he
          rcases List.mem_cons.1 he with rfl | he
          · unfold Token.identRest; rw [this.1]; rfl
          · exact List.all_eq_true.1 this.2 e he
      cases hg : t.literal.getLast? with
      | none =>
        rw [List.getLast?_eq_none_iff] at hg
        rw [hg] at this
        cases this
      | some d =>
        refine ⟨d, rfl, ?_⟩
        rw [beq_eq_false_iff_ne]
        rintro rfl
        have h2 := hw.2
        rw [hall d (List.mem_of_getLast? hg)] at h2
        cases h2
    · cases hb

theorem IsBase.upper {I : Itp} : RV I b.upper (.str (t.upper U)) := by
  cases b with
  | lit l => exact congrArg _ (LitOk.upper h)
  | notOp =>
    refine congrArg Val.str ((LitOk.upper h.1).trans ?_)
    decide
  | other ty => exact ⟨_, rfl, OtherOk.up h⟩

end

section
variable {w : Window} {I : Itp} (hV : View w I)
include hV

theorem offset {q k : Nat} (h : q + k < I.T.length) : getOffsetIndex I.T ⟨q, [], []⟩ k = .ok (q + k) := by
  unfold getOffsetIndex
  by_cases h0 : k = 0
  · subst h0; rfl
  · rw [if_neg h0]
    rw [scanFrom_nc k (I.T.drop (q + 1)) 0 (q + 1) (fun j u _ hu =>
      hV.nc u (List.mem_of_getElem? (by rw [List.getElem?_drop] at hu; exact hu))) (by omega)
      (by rw [List.length_drop]; omega)]
    simp only [Out.ok.injEq]
    omega

theorem at_add {i : Nat} : ∀ {k : Nat}, i + k < w.cells.length →
    ((w.cells.drop i).take k).all (fun c => c.gap.isNone) = true → I.at_ (i + k) = I.at_ i + k
  | 0, _, _ => rfl
  | k + 1, hk, h => by
    have h1 : ((w.cells.drop i).take k).all (fun c => c.gap.isNone) = true := by
      rw [List.all_eq_true] at h ⊢
      intro c hc
      exact h c (List.take_subset_take_left _ (by omega) hc)
    have h2 := at_add (k := k) (by omega) h1
    have hlt : i + k < w.cells.length := by omega
    have hc : w.cells[i + k]? = some w.cells[i + k] := List.getElem?_eq_getElem hlt
    have hg : (w.cells[i + k]).gap = none := by
      rw [List.all_eq_true] at h
      have := h w.cells[i + k] (by
        refine List.mem_of_getElem? (i := k) ?_
        rw [List.getElem?_take, if_pos (by omega), List.getElem?_drop]
        exact hc)
      simpa using this
    have := hV.succ (i + k) _ hc hg (by omega)
    rw [← Nat.add_assoc, this, h2]
    omega

theorem get_sound {i k : Nat} {bs : List Base} (h : w.get i k = some bs) :
    ∃ t, getToken I.T (I.ps i) k = .ok t ∧ I.T[I.at_ i + k]? = some t ∧
      (∃ b ∈ bs, IsBase I.U I.T (I.at_ i + k) t b) ∧ I.at_ i + k + 1 < I.T.length ∧ I.at_ (i + k) = I.at_ i + k := by
  unfold Window.get at h
  split at h
  · rename_i hg
    split at h
    · rename_i b bs' g hc
      cases h
      have hlt := (List.getElem?_eq_some_iff.1 hc).1
      have heq := at_add hV hlt hg
      have hm := hV.more _ hlt
      obtain ⟨t, h1, h2⟩ := hV.tok _ _ hc (by simp)
      rw [heq] at h1 h2 hm
      refine ⟨t, ?_, h1, h2, hm, heq⟩
      unfold getToken Itp.ps
      rw [offset hV (by omega)]
      simp only [tokAt, h1]
    · cases h
  · cases h

theorem next_sound {i j : Nat} (h : anext w i = some j) : nextToken I.T (I.ps i) = .ok (I.ps j) := by
  unfold anext at h
  cases hg : w.get i 1 with
  | none => rw [hg] at h; cases h
  | some bs =>
    rw [hg] at h
    cases h
    obtain ⟨t', h1, ht, _, h3, h4⟩ := get_sound hV hg
    unfold nextToken Itp.ps
    rw [offset hV (by omega)]
    simp only [List.getLast?_nil, range, Nat.sub_self, List.range'_zero]
    rw [offset hV (by omega)]
    simp only [tokAt, ht, Cut.trailing_self, h4]

theorem eof_sound {i k : Nat} {bs : List Base} (h : w.get i k = some bs) : isEof I.T (I.ps i) k = false := by
  obtain ⟨t', h1, _, _, h3, h4⟩ := get_sound hV h
  unfold isEof Itp.ps
  rw [offset hV (by omega)]
  simp only [decide_eq_false_iff_not]
  omega

theorem prec_sound {i k n : Nat} {t : Token} {b : Base} (h1 : getToken I.T (I.ps i) k = .ok t)
    (h2 : IsBase I.U I.T (I.at_ i + k) t b) (hb : b.prec = some n) (hm : I.at_ i + k + 1 < I.T.length) :
    getPrecedence I.U I.T (I.ps i) k = .ok n := by
  unfold getPrecedence
  rw [h1]
  simp only
  cases b with
  | lit l =>
    simp only [Base.prec] at hb
    rw [LitOk.inKws h2, LitOk.prec h2]
    split at hb
    · cases hb
    · cases hb
      rename_i hn
      rw [if_neg hn]
  | other ty =>
    cases hb
    rw [OtherOk.inKws h2, if_neg (by simp)]
    unfold precTable
    simp only [OtherOk.inKws h2]
    rfl
  | notOp =>
    obtain ⟨h2, t', l, h3, h4, h5⟩ := h2
    cases hb
    rw [LitOk.inKws h2, if_pos (by decide)]
    have : getToken I.T (I.ps i) (k + 1) = .ok t' := by
      unfold getToken Itp.ps
      rw [offset hV (by omega)]
      simp only [tokAt, ← Nat.add_assoc, h3]
    rw [this]
    simp only
    rw [LitOk.inKws h4]
    have hall : ∀ l ∈ ["IN".toList, "LIKE".toList, "BETWEEN".toList], (tk l).inKws U0 [.IN, .LIKE, .BETWEEN] = true := by
      decide
    rw [if_pos (hall l h5)]

theorem tokI {i : Nat} {t : Token} (h : I.T[I.at_ i]? = some t) : I.tok i = t := by
  unfold Itp.tok Spec.tokenAt
  rw [List.getD_eq_getElem?_getD, h]; rfl

theorem construct_sound {i : Nat} {nt : NodeType} {n : Term} (h : aconstruct w i nt = some n) :
    construct I.U I.T (I.ps i) nt = .ok (n.ev I).1 := by
  unfold aconstruct at h
  cases hg : w.get i 0 with
  | none => rw [hg] at h; cases h
  | some bs =>
    rw [hg] at h
    obtain ⟨t', h1, ht, ⟨b, hb, h2⟩, hm, _⟩ := get_sound hV hg
    have htok : I.tok i = t' := tokI hV ht
    unfold construct
    rw [h1]
    simp only
    dsimp only [Option.bind] at h
    have ha : ∀ n, attachComments I.T (I.ps i) n = .ok n := fun n => Cut.attach_nil _ _ _
    split at h
    · cases h
    · rename_i hn
      rw [if_neg hn]
      split at h
      · rename_i hu
        rw [if_pos hu]
        have hcl : classify I.U I.T (I.ps i) t' = .ok (I.ty i) := by
          have : ∃ ty, classify I.U I.T (I.ps i) t' = .ok ty := by
            unfold classify
            have hg1 : ∃ u, getToken I.T (I.ps i) 1 = .ok u := by
              refine ⟨I.T[I.at_ i + 1], ?_⟩
              unfold getToken Itp.ps
              rw [offset hV (by omega)]
              simp only [tokAt]
              rw [List.getElem?_eq_getElem (by omega)]
            obtain ⟨u, hu⟩ := hg1
            rw [hu]
            simp only
            repeat' split
            all_goals exact ⟨_, rfl⟩
          obtain ⟨ty, hty⟩ := this
          unfold Itp.ty
          rw [htok, hty]
        rw [hcl]
        simp only [ha]
        split at h
        · rename_i ty hag
          cases h
          have hbc := agree_sound hag b hb
          have : classify I.U I.T (I.ps i) t' = .ok ty := by
            cases b with
            | notOp => cases hbc
            | lit l =>
              simp only [Base.classify] at hbc
              unfold classify
              simp only [LitOk.isIdentifier h2, LitOk.isNumeric h2, LitOk.isString h2, LitOk.isBoolean h2,
                LitOk.isParameter h2, LitOk.isTemplate h2, LitOk.upper h2]
              repeat' split at hbc
              all_goals first
                | (cases hbc; simp_all)
                | cases hbc
            | other ty' =>
              cases hbc
              have h2 : OtherOk I.U t' ty := h2
              have hty := h2.ty
              unfold classify
              simp only [h2.ident, h2.num, h2.str, h2.par]
              have hbo : t'.isBoolean I.U = false := by
                unfold Token.isBoolean
                have g1 := h2.up .TRUE
                have g2 := h2.up .FALSE
                simp [g1, g2]
              rw [hbo]
              simp only [List.mem_cons, List.not_mem_nil, or_false] at hty
              rcases hty with rfl | rfl | rfl | rfl <;> rfl
          rw [hcl] at this
          cases this
          simp only [Term.ev, htok]
        · cases h
          simp only [Term.ev, htok]
      · rename_i hu
        cases h
        rw [if_neg hu, ha]
        simp only [Term.ev, htok]

end

/-- What is known of the variables is true. -/
def REnv (I : Itp) (a : AEnv) (e : Env) : Prop := ∀ x, RV I (a x) (e x)

theorem REnv.set {I : Itp} {a : AEnv} {e : Env} (h : REnv I a e) (x : Var) {av : AVal} {v : Val} (hv : RV I av v) :
    REnv I (a.set x av) (e.set x v) := by
  intro y
  unfold AEnv.set Env.set
  split
  · exact hv
  · exact h y

theorem off_sound {I : Itp} {a : AEnv} {e : Env} (h : REnv I a e) {o : Off} {n : Nat} (hn : aoff a o = some n) :
    evalOff e o = .ok n := by
  cases o with
  | lit k => cases hn; rfl
  | var x k =>
    simp only [aoff] at hn
    have := h x
    cases hx : a x <;> rw [hx] at hn this <;> simp only [reduceCtorEq, Option.some.injEq] at hn
    subst hn
    simp only [evalOff, show e x = _ from this]

theorem atom_sound {I : Itp} {a : AEnv} {e : Env} (h : REnv I a e) {o : Atom} {av : AVal} (hn : aatom a o = some av) :
    ∃ v, evalAtom e o = .ok v ∧ RV I av v := by
  cases o with
  | var x => cases hn; exact ⟨_, rfl, h x⟩
  | bool b => cases hn; exact ⟨_, rfl, rfl⟩
  | nat b => cases hn; exact ⟨_, rfl, rfl⟩
  | kws b => cases hn; exact ⟨_, rfl, rfl⟩
  | notVar x =>
    simp only [aatom] at hn
    have := h x
    cases hx : a x <;> rw [hx] at hn this <;> simp only [reduceCtorEq, Option.some.injEq] at hn
    subst hn
    exact ⟨_, by simp only [evalAtom, show e x = _ from this], rfl⟩
  | strEq x k =>
    simp only [aatom] at hn
    have := h x
    cases hx : a x <;> rw [hx] at hn this <;> simp only [reduceCtorEq, Option.some.injEq] at hn
    · subst hn
      exact ⟨_, by simp only [evalAtom, show e x = _ from this], rfl⟩
    · subst hn
      obtain ⟨s, h1, h2⟩ := this
      refine ⟨.bool false, ?_, rfl⟩
      simp only [evalAtom, h1]
      have : (s == k.lit) = false := by simpa using h2 k
      rw [this]

theorem atoms_sound {I : Itp} {a : AEnv} {e : Env} (h : REnv I a e) : ∀ {os : List Atom} {avs : List AVal},
    aatoms a os = some avs → ∃ vs, evalAtoms e os = .ok vs ∧ RVs I avs vs
  | [], _, hn => by cases hn; exact ⟨[], rfl, trivial⟩
  | o :: os, avs, hn => by
    simp only [aatoms] at hn
    cases h1 : aatom a o with
    | none => rw [h1] at hn; cases hn
    | some av =>
      rw [h1] at hn
      cases h2 : aatoms a os with
      | none => rw [h2] at hn; cases hn
      | some avs' =>
        rw [h2] at hn
        cases hn
        obtain ⟨v, k1, k2⟩ := atom_sound h h1
        obtain ⟨vs, k3, k4⟩ := atoms_sound h h2
        exact ⟨v :: vs, by simp only [evalAtoms, k1, k3]; rfl, k2, k4⟩

/-- What is known of a state is true. -/
structure RS (I : Itp) (a : ASt) (s : St) : Prop where
  ps : s.ps = I.ps a.pos
  env : REnv I a.env s.env

theorem len_sound (I : Itp) : ∀ {v : Term} {n : Nat}, v.len = some n → (v.ev I).2.length = n
  | .nil, n, h => by cases h; rfl
  | .snoc v c, n, h => by
    simp only [Term.len] at h
    cases hv : v.len with
    | none => rw [hv] at h; cases h
    | some m =>
      rw [hv] at h
      cases h
      simp [Term.ev, len_sound I hv]
  | .hole _, _, h => by cases h
  | .holes _, _, h => by cases h
  | .new _ _, _, h => by cases h
  | .newU _, _, h => by cases h
  | .empty _, _, h => by cases h
  | .push _ _ _, _, h => by cases h
  | .pushVec _ _ _, _, h => by cases h
  | .setType _ _, _, h => by cases h

theorem rootTy_sound (I : Itp) : ∀ {v : Term} {ty : NodeType}, v.rootTy = some ty → (v.ev I).1.ty = ty
  | .new _ _, _, h => by cases h; rfl
  | .empty _, _, h => by cases h; rfl
  | .setType _ _, _, h => by cases h; rfl
  | .push n _ _, _, h => rootTy_sound I (v := n) h
  | .pushVec n _ _, _, h => rootTy_sound I (v := n) h
  | .hole _, _, h => by cases h
  | .holes _, _, h => by cases h
  | .nil, _, h => by cases h
  | .snoc _ _, _, h => by cases h
  | .newU _, _, h => by cases h

section
variable {w : Window} {I : Itp} {C : Ctx} (hV : View w I) (hU : C.U = I.U) (hT : C.toks = I.T)
include hV hU hT

theorem tok_sound {a : ASt} {s : St} (h : RS I a s) {o : Off} {bs : List Base} (ht : atok w a o = some bs) :
    ∃ t q, offTok C s o = .ok t ∧ ∃ b ∈ bs, IsBase I.U I.T q t b := by
  unfold atok at ht
  cases h1 : aoff a.env o with
  | none => rw [h1] at ht; cases ht
  | some n =>
    rw [h1] at ht
    obtain ⟨t', g1, _, g2, _⟩ := get_sound hV ht
    refine ⟨t', _, ?_, g2⟩
    unfold offTok
    rw [off_sound h.env h1, h.ps, hT]
    exact g1

theorem cond_sound {a : ASt} {s : St} (h : RS I a s) (c : Cond) : ∀ {b : Bool}, acond w a c = some b →
    evalCond C s c = .ok b := by
  have hget : ∀ {o : Off} {f : Base → Bool} {f' : Token → Bool} {b : Bool},
      (∀ q t b, IsBase I.U I.T q t b → f' t = f b) → (atok w a o).bind (agree fun b => some (f b)) = some b →
      (offTok C s o >>= fun t => Out.ok (f' t)) = .ok b := by
    intro o f f' b hf hb
    cases ht : atok w a o with
    | none => rw [ht] at hb; cases hb
    | some bs =>
      rw [ht] at hb
      obtain ⟨t', q, k1, b', hb', k2⟩ := tok_sound hV hU hT h ht
      rw [k1]
      have := agree_sound hb b' hb'
      simp only [Option.some.injEq] at this
      rw [← this, ← hf _ _ _ k2]
      rfl
  induction c with
  | up o ks => exact fun hb => hget (fun q t b h => by rw [hU]; exact h.inKws ks) hb
  | raw o ks => exact fun hb => hget (f' := fun t => ks.any fun k => t.literal == k.lit) (fun q t b h => h.raw ks) hb
  | upVar o x =>
    intro b hb
    simp only [acond] at hb
    cases ht : atok w a o with
    | none => rw [ht] at hb; cases hb
    | some bs =>
      rw [ht] at hb
      obtain ⟨t', q, k1, b', hb', k2⟩ := tok_sound hV hU hT h ht
      simp only [evalCond, k1]
      have := h.env x
      dsimp only [Option.bind] at hb
      cases hx : a.env x <;> rw [hx] at hb this <;> simp only [reduceCtorEq] at hb
      · rw [show s.env x = _ from this]
        have := agree_sound hb b' hb'
        simp only [Option.some.injEq] at this
        rw [← this, ← k2.inKws, hU]
        rfl
      · rw [show s.env x = _ from this]
        split at hb
        · rename_i hall
          cases hb
          have hf : b' ∈ firsts := by
            have := List.all_eq_true.1 hall b' hb'
            simpa using this
          have := List.all_eq_true.1 hV.ks b' hf
          simp only [Bool.not_eq_true'] at this
          rw [← k2.inKws, ← hU] at this
          simp only [Out.bind_ok, this]
        · cases hb
  | isIdent o => exact fun hb => hget (fun q t b h => by rw [hU]; exact h.ident) hb
  | isStr o => exact fun hb => hget (fun q t b h => h.str) hb
  | isNum o => exact fun hb => hget (fun q t b h => h.num) hb
  | eof o =>
    intro b hb
    simp only [acond, atok] at hb
    cases ht : aoff a.env o with
    | none => rw [ht] at hb; cases hb
    | some n =>
      rw [ht] at hb
      cases hg : w.get a.pos n with
      | none => simp [hg] at hb
      | some t =>
        simp only [Option.bind, hg, Option.map, Option.some.injEq] at hb
        simp only [evalCond, off_sound h.env ht]
        rw [h.ps, hT]
        show Out.ok (isEof _ _ n) = _
        rw [eof_sound hV hg, hb]
  | hasTok o =>
    intro b hb
    simp only [acond, atok] at hb
    cases ht : aoff a.env o with
    | none => rw [ht] at hb; cases hb
    | some n =>
      rw [ht] at hb
      cases hg : w.get a.pos n with
      | none => simp [hg] at hb
      | some t =>
        simp only [Option.bind, hg, Option.map, Option.some.injEq] at hb
        simp only [evalCond, off_sound h.env ht]
        rw [h.ps, hT]
        obtain ⟨t', g1, _⟩ := get_sound hV hg
        simp only [Out.bind_ok, g1, hb]
  | bvar x =>
    intro b hb
    simp only [acond] at hb
    have := h.env x
    cases hx : a.env x <;> rw [hx] at hb this <;> simp only [reduceCtorEq, Option.some.injEq] at hb
    subst hb
    simp only [evalCond, show s.env x = _ from this]
  | const b => intro b hb; cases hb; rfl
  | precLt x =>
    intro b hb
    simp only [acond] at hb
    cases hg : w.get a.pos 1 with
    | none => rw [hg] at hb; cases hb
    | some bs =>
      rw [hg] at hb
      dsimp only [Option.bind] at hb
      obtain ⟨t, g1, _, ⟨b', hb', g2⟩, g3, _⟩ := get_sound hV hg
      simp only [evalCond]
      rw [h.ps, hT, hU]
      have := h.env x
      cases hx : a.env x <;> rw [hx] at hb this <;> simp only [reduceCtorEq] at hb
      · have hag := agree_sound hb b' hb'
        cases hp : b'.prec with
        | none => rw [hp] at hag; cases hag
        | some p =>
          rw [hp] at hag
          simp only [Option.map, Option.some.injEq] at hag
          rw [prec_sound hV g1 g2 hp g3]
          simp only [Out.bind_ok, show s.env x = _ from this, hag]
      · have hag := agree_sound hb b' hb'
        cases hp : b'.prec with
        | none => rw [hp] at hag; cases hag
        | some p =>
          rw [hp] at hag
          simp only [Option.bind] at hag
          rw [prec_sound hV g1 g2 hp g3]
          simp only [Out.bind_ok, show s.env x = _ from this]
          have hlo := hV.lo
          have hhi := hV.hi
          split at hag
          · cases hag
            simp only [Out.ok.injEq, decide_eq_true_eq]
            omega
          · split at hag
            · cases hag
              simp only [Out.ok.injEq, decide_eq_false_iff_not]
              omega
            · cases hag
  | lenPos x =>
    intro b hb
    have := h.env x
    simp only [acond] at hb
    split at hb
    · rename_i v n hx
      cases hb
      rw [hx] at this
      have h1 : s.env x = .vec (((Term.snoc v n).ev I).2) := this
      simp only [evalCond, h1, Term.ev]
      simp
    · rename_i v _ hx
      rw [hx] at this
      cases hl : v.len with
      | none => rw [hl] at hb; cases hb
      | some n =>
        rw [hl] at hb
        cases hb
        simp only [evalCond, show s.env x = _ from this, len_sound I hl]
    · cases hb
  | lenOne x =>
    intro b hb
    simp only [acond] at hb
    have := h.env x
    split at hb
    · rename_i i hx
      rw [hx] at this
      split at hb
      · rename_i h2
        cases hb
        simp only [evalCond, show s.env x = _ from this, Term.ev]
        have := hV.two h2 i
        simp [this]
      · cases hb
    · rename_i v _ hx
      rw [hx] at this
      cases hl : v.len with
      | none => rw [hl] at hb; cases hb
      | some n =>
        rw [hl] at hb
        cases hb
        simp only [evalCond, show s.env x = _ from this, len_sound I hl]
    · cases hb
  | strIs x k =>
    intro b hb
    simp only [acond] at hb
    have := h.env x
    cases hx : a.env x <;> rw [hx] at hb this <;> simp only [reduceCtorEq, Option.some.injEq] at hb
    · subst hb
      simp only [evalCond, show s.env x = _ from this]
    · subst hb
      obtain ⟨v, h1, h2⟩ := this
      simp only [evalCond, h1]
      have : (v == k.lit) = false := by simpa using h2 k
      rw [this]
  | typeIs x nt =>
    intro b hb
    simp only [acond] at hb
    have := h.env x
    split at hb
    · rename_i n hx
      rw [hx] at this
      cases ht : n.rootTy with
      | none => rw [ht] at hb; cases hb
      | some ty =>
        rw [ht] at hb
        cases hb
        simp only [evalCond, show s.env x = _ from this, rootTy_sound I ht]
    · cases hb
  | leftmostIs x nt =>
    intro b hb
    simp only [acond] at hb
    have := h.env x
    split at hb
    · rename_i hx
      rw [hx] at this
      split at hb
      · rename_i hn
        subst hn
        simp only [evalCond, show s.env x = _ from this, Term.ev, hV.leftId b hb]
      · cases hb
    · cases hb
  | hasAnyKey x ks => intro b hb; cases hb
  | firstCharIs c =>
    intro b hb
    simp only [acond] at hb
    cases hg : w.get a.pos 0 with
    | none => rw [hg] at hb; cases hb
    | some bs =>
      rw [hg] at hb
      obtain ⟨t, g1, _, ⟨b', hb', g2⟩, _⟩ := get_sound hV hg
      obtain ⟨d, k1, k2⟩ := g2.firstChar (agree_sound hb b' hb')
      simp only [evalCond, h.ps, hT, g1, Out.bind_ok, k1, k2]
  | lastCharIs c =>
    intro b hb
    simp only [acond] at hb
    cases hg : w.get a.pos 0 with
    | none => rw [hg] at hb; cases hb
    | some bs =>
      rw [hg] at hb
      obtain ⟨t, g1, _, ⟨b', hb', g2⟩, _⟩ := get_sound hV hg
      obtain ⟨d, k1, k2⟩ := g2.lastChar (agree_sound hb b' hb')
      simp only [evalCond, h.ps, hT, g1, Out.bind_ok, k1, k2]
  | adjacent =>
    intro b hb
    simp only [acond] at hb
    cases hg : w.get a.pos 0 with
    | none => rw [hg] at hb; cases hb
    | some as =>
      rw [hg] at hb
      cases hg' : w.get a.pos 1 with
      | none => rw [hg'] at hb; cases hb
      | some bs =>
        rw [hg'] at hb
        dsimp only [Option.bind] at hb
        split at hb
        · rename_i hw
          cases hb
          rw [Bool.and_eq_true, List.all_eq_true, List.all_eq_true] at hw
          obtain ⟨t, g1, gt, ⟨b', hb', g2⟩, _⟩ := get_sound hV hg
          obtain ⟨u, k1, ku, ⟨c', hc', k2⟩, _⟩ := get_sound hV hg'
          have := hV.apart _ t u gt ku (g2.word (hw.1 b' hb')) (k2.word (hw.2 c' hc'))
          simp only [evalCond, h.ps, hT, g1, k1, Out.bind_ok, this]
        · cases hb
  | and c d ihc ihd =>
    intro b hb
    simp only [acond] at hb
    cases hc : acond w a c with
    | none => rw [hc] at hb; cases hb
    | some x =>
      rw [hc] at hb
      simp only [evalCond, ihc hc]
      cases x
      · cases hb; rfl
      · exact ihd hb
  | or c d ihc ihd =>
    intro b hb
    simp only [acond] at hb
    cases hc : acond w a c with
    | none => rw [hc] at hb; cases hb
    | some x =>
      rw [hc] at hb
      simp only [evalCond, ihc hc]
      cases x
      · exact ihd hb
      · cases hb; rfl
  | not c ih =>
    intro b hb
    simp only [acond] at hb
    cases hc : acond w a c with
    | none => rw [hc] at hb; cases hb
    | some x =>
      rw [hc] at hb
      cases hb
      simp only [evalCond, ih hc]
      rfl

end

/-- Calls agree. -/
def RCall (I : Itp) (acall : ACall) (call : Fn → List Val → PS → Out (Val × PS)) : Prop :=
  ∀ f avs vs i r, RVs I avs vs → acall f avs i = some r →
    ∃ v, call f vs (I.ps i) = .ok (v, I.ps r.2) ∧ RV I r.1 v

section
variable {w : Window} {I : Itp} {C : Ctx} (hV : View w I) (hU : C.U = I.U) (hT : C.toks = I.T)
variable {acall : ACall} (hC : RCall I acall C.call)
include hV hU hT hC

theorem exp_sound {a : ASt} {s : St} (h : RS I a s) (e : Exp) {r : AVal × ASt} (hr : aexp w acall a e = some r) :
    ∃ v s', evalExp C s e = .ok (v, s') ∧ RV I r.1 v ∧ RS I r.2 s' := by
  cases e with
  | var x => cases hr; exact ⟨_, _, rfl, h.env x, h⟩
  | construct nt =>
    simp only [aexp] at hr
    cases hc : aconstruct w a.pos nt with
    | none => rw [hc] at hr; cases hr
    | some n =>
      rw [hc] at hr
      cases hr
      have k1 := construct_sound hV hc
      exact ⟨_, s, by simp only [evalExp]; rw [h.ps, hU, hT, k1]; rfl, rfl, h⟩
  | empty nt => cases hr; exact ⟨_, _, rfl, rfl, h⟩
  | call f args =>
    simp only [aexp] at hr
    cases hx : aatoms a.env args with
    | none => rw [hx] at hr; cases hr
    | some avs =>
      rw [hx] at hr
      obtain ⟨vs, k1, k2⟩ := atoms_sound h.env hx
      dsimp only [Option.bind] at hr
      cases hc : acall f avs a.pos with
      | none => rw [hc] at hr; cases hr
      | some r' =>
        rw [hc] at hr
        cases hr
        obtain ⟨v, k3, k4⟩ := hC f avs vs a.pos r' k2 hc
        refine ⟨v, { s with ps := I.ps r'.2 }, ?_, k4, rfl, h.env⟩
        simp only [evalExp, k1]
        rw [h.ps]
        simp only [Out.bind_ok, k3]
  | nilVec => cases hr; exact ⟨_, _, rfl, rfl, h⟩
  | pop x =>
    simp only [aexp] at hr
    have := h.env x
    split at hr
    · rename_i v n hx
      cases hr
      rw [hx] at this
      refine ⟨.node (n.ev I).1, { s with env := s.env.set x (.vec (v.ev I).2) }, ?_, rfl, h.ps, h.env.set x rfl⟩
      simp only [evalExp, show s.env x = _ from this, Term.ev]
      simp
    · cases hr
  | prec o =>
    simp only [aexp, atok] at hr
    cases ho : aoff a.env o with
    | none => rw [ho] at hr; cases hr
    | some n =>
      rw [ho] at hr
      simp only [Option.bind] at hr
      cases hg : w.get a.pos n with
      | none => rw [hg] at hr; cases hr
      | some bs =>
        rw [hg] at hr
        simp only at hr
        cases hp : agree Base.prec bs with
        | none => rw [hp] at hr; cases hr
        | some q =>
          rw [hp] at hr
          cases hr
          obtain ⟨t, g1, _, ⟨b', hb', g2⟩, g3, _⟩ := get_sound hV hg
          refine ⟨.nat q, s, ?_, rfl, h⟩
          simp only [evalExp, off_sound h.env ho, Out.bind_ok]
          rw [h.ps, hU, hT, prec_sound hV g1 g2 (agree_sound hp b' hb') g3]
          rfl
  | natLit n => cases hr; exact ⟨_, _, rfl, rfl, h⟩
  | boolLit n => cases hr; exact ⟨_, _, rfl, rfl, h⟩
  | kws n => cases hr; exact ⟨_, _, rfl, rfl, h⟩
  | upperLit o =>
    simp only [aexp] at hr
    cases ho : atok w a o with
    | none => rw [ho] at hr; cases hr
    | some bs =>
      rw [ho] at hr
      simp only [Option.bind] at hr
      cases hp : agree (fun b => some b.upper) bs with
      | none => rw [hp] at hr; cases hr
      | some v =>
        rw [hp] at hr
        cases hr
        obtain ⟨t', q, k1, b', hb', k2⟩ := tok_sound hV hU hT h ho
        have := agree_sound hp b' hb'
        simp only [Option.some.injEq] at this
        refine ⟨.str (t'.upper C.U), s, by simp only [evalExp, k1]; rfl, ?_, h⟩
        rw [← this, hU]
        exact k2.upper
  | cond c =>
    simp only [aexp] at hr
    cases ho : acond w a c with
    | none => rw [ho] at hr; cases hr
    | some b =>
      rw [ho] at hr
      cases hr
      exact ⟨.bool b, s, by simp only [evalExp, cond_sound hV hU hT h c ho]; rfl, rfl, h⟩

end

/-- What is known of the way a command ends is true. -/
def RF (I : Itp) : AFlow → Flow → Prop
  | .norm, .norm => True
  | .brk, .brk => True
  | .ret a, .ret v => RV I a v
  | _, _ => False

theorem iterate_sound {I : Itp} {af : ASt → Option (AFlow × ASt)} {f : St → Out (Flow × St)}
    (hf : ∀ a s r, RS I a s → af a = some r → ∃ fl s', f s = .ok (fl, s') ∧ RF I r.1 fl ∧ RS I r.2 s') :
    ∀ (n k : Nat), n ≤ k → ∀ a s r, RS I a s → aiterate af n a = some r →
      ∃ fl s', iterate f k s = .ok (fl, s') ∧ RF I r.1 fl ∧ RS I r.2 s'
  | 0, _, _, _, _, _, _, h => by cases h
  | n + 1, k, hk, a, s, r, h, hr => by
    obtain ⟨k, rfl⟩ : ∃ j, k = j + 1 := ⟨k - 1, by omega⟩
    simp only [aiterate] at hr
    cases ha : af a with
    | none => rw [ha] at hr; cases hr
    | some r' =>
      rw [ha] at hr
      obtain ⟨fl, s', h1, h2, h3⟩ := hf a s r' h ha
      obtain ⟨afl, ast⟩ := r'
      simp only [iterate, h1]
      simp only [Option.bind] at hr
      cases afl <;> cases fl <;> try exact h2.elim
      · exact iterate_sound hf n k (by omega) ast s' r h3 hr
      · cases hr; exact ⟨_, _, rfl, trivial, h3⟩
      · cases hr; exact ⟨_, _, rfl, h2, h3⟩

theorem scan_sound {I : Itp} {x : Var} {af ad : ASt → Option (AFlow × ASt)} {f d : St → Out (Flow × St)}
    (hf : ∀ a s r, RS I a s → af a = some r → ∃ fl s', f s = .ok (fl, s') ∧ RF I r.1 fl ∧ RS I r.2 s') :
    ∀ (n k : Nat), (∀ a s r, RS I a s → ad a = some r → n = k ∧ ∃ fl s', d s = .ok (fl, s') ∧ RF I r.1 fl ∧ RS I r.2 s') →
      n ≤ k → ∀ i a s r, RS I a s → ascan af x ad n i a = some r →
      ∃ fl s', scanLoop f x d k i s = .ok (fl, s') ∧ RF I r.1 fl ∧ RS I r.2 s'
  | 0, k, hd, hk, i, a, s, r, h, hr => by
    obtain ⟨h1, h2⟩ := hd a s r h hr
    subst h1
    exact h2
  | n + 1, k, hd, hk, i, a, s, r, h, hr => by
    obtain ⟨k, rfl⟩ : ∃ j, k = j + 1 := ⟨k - 1, by omega⟩
    simp only [ascan] at hr
    cases ha : af { a with env := a.env.set x (.nat i) } with
    | none => rw [ha] at hr; cases hr
    | some r' =>
      rw [ha] at hr
      obtain ⟨fl, s', h1, h2, h3⟩ := hf { a with env := a.env.set x (.nat i) } { s with env := s.env.set x (.nat i) } r'
        ⟨h.ps, h.env.set x (av := .nat i) (v := .nat i) rfl⟩ ha
      obtain ⟨afl, ast⟩ := r'
      simp only [scanLoop, h1]
      simp only [Option.bind] at hr
      cases afl <;> cases fl <;> try exact h2.elim
      · refine scan_sound hf n k (fun a s r h hr => ?_) (by omega) (i + 1) ast s' r h3 hr
        obtain ⟨g1, g2⟩ := hd a s r h hr
        exact ⟨by omega, g2⟩
      · cases hr; exact ⟨_, _, rfl, trivial, h3⟩
      · cases hr; exact ⟨_, _, rfl, h2, h3⟩

section
variable {w : Window} {I : Itp} {C : Ctx} (hV : View w I) (hU : C.U = I.U) (hT : C.toks = I.T)
variable {acall : ACall} (hC : RCall I acall C.call)
include hV hU hT hC

theorem exec_sound (hF : rounds ≤ C.fuel) : ∀ (c : Cmd) {a : ASt} {s : St} {r : AFlow × ASt}, RS I a s →
    aexec w acall c a = some r → ∃ fl s', exec C c s = .ok (fl, s') ∧ RF I r.1 fl ∧ RS I r.2 s' := by
  intro c
  induction c with
  | skip => intro a s r h hr; cases hr; exact ⟨_, _, rfl, trivial, h⟩
  | seq c d ihc ihd =>
    intro a s r h hr
    simp only [aexec] at hr
    cases ha : aexec w acall c a with
    | none => rw [ha] at hr; cases hr
    | some r' =>
      rw [ha] at hr
      obtain ⟨fl, s', h1, h2, h3⟩ := ihc h ha
      obtain ⟨afl, ast⟩ := r'
      simp only [exec, h1]
      simp only [Option.bind] at hr
      cases afl <;> cases fl <;> try exact h2.elim
      · exact ihd h3 hr
      · cases hr; exact ⟨_, _, rfl, trivial, h3⟩
      · cases hr; exact ⟨_, _, rfl, h2, h3⟩
  | next =>
    intro a s r h hr
    simp only [aexec] at hr
    cases hn : anext w a.pos with
    | none => rw [hn] at hr; cases hr
    | some i =>
      rw [hn] at hr
      cases hr
      refine ⟨.norm, { s with ps := I.ps i }, ?_, trivial, rfl, h.env⟩
      simp only [exec]
      rw [h.ps, hT, next_sound hV hn]
      rfl
  | set x e =>
    intro a s r h hr
    simp only [aexec] at hr
    cases he : aexp w acall a e with
    | none => rw [he] at hr; cases hr
    | some r' =>
      rw [he] at hr
      cases hr
      obtain ⟨v, s', k1, k2, k3⟩ := exp_sound hV hU hT hC h e he
      exact ⟨.norm, { s' with env := s'.env.set x v }, by simp only [exec, k1]; rfl, trivial, k3.ps, k3.env.set x k2⟩
  | push x k e =>
    intro a s r h hr
    simp only [aexec] at hr
    cases he : aexp w acall a e with
    | none => rw [he] at hr; cases hr
    | some r' =>
      rw [he] at hr
      simp only [Option.bind] at hr
      obtain ⟨v, s', k1, k2, k3⟩ := exp_sound hV hU hT hC h e he
      have hx := k3.env x
      split at hr
      · rename_i n c hn hc
        cases hr
        rw [hn] at hx
        rw [hc] at k2
        refine ⟨.norm, { s' with env := s'.env.set x (.node ((n.ev I).1.pushNode k (c.ev I).1)) }, ?_, trivial, k3.ps,
          k3.env.set x rfl⟩
        simp only [exec, k1, Out.bind_ok, show s'.env x = _ from hx, show v = _ from k2]
      · cases hr
  | pushVec x k e =>
    intro a s r h hr
    simp only [aexec] at hr
    cases he : aexp w acall a e with
    | none => rw [he] at hr; cases hr
    | some r' =>
      rw [he] at hr
      simp only [Option.bind] at hr
      obtain ⟨v, s', k1, k2, k3⟩ := exp_sound hV hU hT hC h e he
      have hx := k3.env x
      split at hr
      · rename_i n c hn hc
        cases hr
        rw [hn] at hx
        rw [hc] at k2
        refine ⟨.norm, { s' with env := s'.env.set x (.node ((n.ev I).1.pushVec k (c.ev I).2)) }, ?_, trivial, k3.ps,
          k3.env.set x rfl⟩
        simp only [exec, k1, Out.bind_ok, show s'.env x = _ from hx, show v = _ from k2]
      · cases hr
  | append x e =>
    intro a s r h hr
    simp only [aexec] at hr
    cases he : aexp w acall a e with
    | none => rw [he] at hr; cases hr
    | some r' =>
      rw [he] at hr
      simp only [Option.bind] at hr
      obtain ⟨v, s', k1, k2, k3⟩ := exp_sound hV hU hT hC h e he
      have hx := k3.env x
      split at hr
      · rename_i n c hn hc
        cases hr
        rw [hn] at hx
        rw [hc] at k2
        refine ⟨.norm, { s' with env := s'.env.set x (.vec ((n.ev I).2 ++ [(c.ev I).1])) }, ?_, trivial, k3.ps,
          k3.env.set x rfl⟩
        simp only [exec, k1, Out.bind_ok, show s'.env x = _ from hx, show v = _ from k2]
      · cases hr
  | setType x nt =>
    intro a s r h hr
    simp only [aexec] at hr
    have hx := h.env x
    split at hr
    · rename_i n hn
      cases hr
      rw [hn] at hx
      refine ⟨.norm, { s with env := s.env.set x (.node ((n.ev I).1.setType nt)) }, ?_, trivial, h.ps,
        h.env.set x rfl⟩
      simp only [exec, show s.env x = _ from hx]
    · cases hr
  | ite c d e ihd ihe =>
    intro a s r h hr
    simp only [aexec] at hr
    cases hc : acond w a c with
    | none => rw [hc] at hr; cases hr
    | some b =>
      rw [hc] at hr
      simp only [exec, cond_sound hV hU hT h c hc]
      cases b
      · exact ihe h hr
      · exact ihd h hr
  | loop c ih =>
    intro a s r h hr
    exact iterate_sound (fun a s r h hr => ih h hr) _ _ hF _ _ _ h hr
  | brk => intro a s r h hr; cases hr; exact ⟨_, _, rfl, trivial, h⟩
  | ret e =>
    intro a s r h hr
    simp only [aexec] at hr
    cases he : aexp w acall a e with
    | none => rw [he] at hr; cases hr
    | some r' =>
      rw [he] at hr
      cases hr
      obtain ⟨v, s', k1, k2, k3⟩ := exp_sound hV hU hT hC h e he
      exact ⟨.ret v, s', by simp only [exec, k1]; rfl, k2, k3⟩
  | fail o l => intro a s r h hr; cases hr
  | scan x lo hi c ih =>
    intro a s r h hr
    cases hi with
    | none =>
      exact scan_sound (ad := fun _ => none) (fun a s r h hr => ih h hr) _ _ (fun _ _ _ _ h => by cases h) hF _ _ _ _ h hr
    | some hi =>
      simp only [aexec] at hr
      cases ha : aatom a.env hi with
      | none => rw [ha] at hr; cases hr
      | some av =>
        rw [ha] at hr
        obtain ⟨v, h1, h2⟩ := atom_sound h.env ha
        cases av <;> simp only [Option.bind, reduceCtorEq] at hr
        rename_i n
        simp only [exec, h1, show v = _ from h2]
        refine scan_sound (ad := fun s => some (.norm, s)) (fun a s r h hr => ih h hr) _ _ ?_ (Nat.le_refl _) _ _ _ _ h hr
        intro a s r h hr
        cases hr
        exact ⟨rfl, _, _, rfl, trivial, h⟩
  | drain v x c ih => intro a s r h hr; cases hr
  | tryElse x f args c ih =>
    intro a s r h hr
    simp only [aexec] at hr
    cases hx : aatoms a.env args with
    | none => rw [hx] at hr; cases hr
    | some avs =>
      rw [hx] at hr
      obtain ⟨vs, k1, k2⟩ := atoms_sound h.env hx
      dsimp only [Option.bind] at hr
      cases hc : acall f avs a.pos with
      | none => rw [hc] at hr; cases hr
      | some r' =>
        rw [hc] at hr
        cases hr
        obtain ⟨v, k3, k4⟩ := hC f avs vs a.pos r' k2 hc
        refine ⟨.norm, ⟨I.ps r'.2, s.env.set x v⟩, ?_, trivial, rfl, h.env.set x k4⟩
        simp only [exec, k1]
        rw [h.ps]
        simp only [Out.bind_ok, k3]

end

/-- The gaps are parsed by the calls, when `D` levels of calls are allowed at least. -/
def GapOk (w : Window) (I : Itp) (fuel D : Nat) : Prop :=
  ∀ (i : Nat) (bs : List Base) (g : Gap), w.cells[i]? = some ⟨bs, some g⟩ → ∀ N, D ≤ N → match g with
    | .expr p al h => ∀ a : Bool, (∀ b, al = some b → a = b) → callN I.U Program.defs I.T fuel N .parse_expr
        [.nat p, .bool a, .bool false, .bool false, .bool true] (I.ps i) = .ok (.node (I.H h), I.ps (i + 1))
    | .exprs al h => ∀ (ks : List Kw) (a : Bool), (∀ b, al = some b → a = b) → firsts.all (fun b => !b.inKws ks) = true →
        callN I.U Program.defs I.T fuel N .parse_exprs [.kws ks, .bool a, .bool true] (I.ps i) =
          .ok (.vec (I.V h), I.ps (i + 1))
    | .body ks h => callN I.U Program.defs I.T fuel N .parse_keyword_with_statements [.kws ks] (I.ps i) =
          .ok (.node (I.H h), I.ps (i + 1))

theorem bind_sound {I : Itp} : ∀ (xs : List Var) {avs : List AVal} {vs : List Val}, RVs I avs vs →
    REnv I (abind xs avs) (bindParams xs vs)
  | [], avs, vs, _ => by
    intro x
    have h1 : abind [] avs = fun _ => .unit := by cases avs <;> rfl
    rw [h1]
    exact trivial
  | x :: xs, [], vs, _ => fun _ => trivial
  | x :: xs, av :: avs, [], h => h.elim
  | x :: xs, av :: avs, v :: vs, h => (bind_sound xs h.2).set x h.1

theorem gap_sound {w : Window} {I : Itp} (hV : View w I) {fuel D N : Nat} (hG : GapOk w I fuel D) (hN : D ≤ N) {f : Fn}
    {avs : List AVal} {vs : List Val} {i : Nat} {r : AVal} (hvs : RVs I avs vs) (h : gapAt w f avs i = some r) :
    ∃ v, callN I.U Program.defs I.T fuel N f vs (I.ps i) = .ok (v, I.ps (i + 1)) ∧ RV I r v := by
  unfold gapAt at h
  split at h
  · rename_i bs g hc
    have hg := hG i bs g hc N hN
    have hbool : ∀ {al a v}, isFlag al a = true → RV I a v → ∃ b, v = .bool b ∧ (∀ c, al = some c → b = c) := by
      intro al a v ha hv
      unfold isFlag at ha
      cases al with
      | some b =>
        rw [eq_of_beq ha] at hv
        exact ⟨b, hv, fun c h => by cases h; rfl⟩
      | none =>
        cases a <;> cases ha <;> exact ⟨_, hv, fun c h => by cases h⟩
    unfold Gap.is at h
    split at h
    · rename_i p al j n a
      split at h
      · rename_i hp
        cases h
        match vs, hvs with
        | [v1, v2, v3, v4, v5], ⟨h1, h2, h3, h4, h5, _⟩ =>
          obtain ⟨b, rfl, hb⟩ := hbool hp.2 h2
          rw [show v1 = _ from h1, show v3 = _ from h3, show v4 = _ from h4, show v5 = _ from h5, hp.1]
          exact ⟨_, hg b hb, rfl⟩
      · cases h
    · rename_i al j ks a
      split at h
      · rename_i hp
        cases h
        match vs, hvs with
        | [v1, v2, v3], ⟨h1, h2, h3, _⟩ =>
          obtain ⟨b, rfl, hb⟩ := hbool hp.2 h2
          have : ∃ ks', v1 = .kws ks' ∧ firsts.all (fun b => !b.inKws ks') = true := by
            have hk := hp.1
            cases ks with
            | kws ks' => exact ⟨ks', h1, hk⟩
            | someKws => exact ⟨I.ks, h1, hV.ks⟩
            | _ => exact absurd hk Bool.false_ne_true
          obtain ⟨ks', rfl, hk⟩ := this
          rw [show v3 = _ from h3]
          exact ⟨_, hg ks' b hb hk, rfl⟩
      · cases h
    · split at h
      · rename_i hk
        cases h
        subst hk
        match vs, hvs with
        | [v1], ⟨h1, _⟩ =>
          rw [show v1 = _ from h1]
          exact ⟨_, hg, rfl⟩
      · cases h
    · cases h
  · cases h

/-- Calls are evaluated rightly. -/
theorem call_sound {w : Window} {I : Itp} (hV : View w I) {fuel D : Nat} (hF : rounds ≤ fuel) (hG : GapOk w I fuel D) :
    ∀ n N, D + n ≤ N → RCall I (acall w n) (callN I.U Program.defs I.T fuel N)
  | 0, N, hN => by
    intro f avs vs i r hvs hr
    simp only [acall] at hr
    cases hg : gapAt w f avs i with
    | none => rw [hg] at hr; cases hr
    | some v =>
      rw [hg] at hr
      cases hr
      exact gap_sound hV hG (by omega) hvs hg
  | n + 1, N, hN => by
    intro f avs vs i r hvs hr
    simp only [acall] at hr
    cases hg : gapAt w f avs i with
    | some v =>
      rw [hg] at hr
      cases hr
      exact gap_sound hV hG (by omega) hvs hg
    | none =>
      rw [hg] at hr
      simp only at hr
      cases ha : aexec w (acall w n) (Program.defs f).body ⟨i, abind (Program.defs f).params avs⟩ with
      | none => rw [ha] at hr; cases hr
      | some r' =>
        rw [ha] at hr
        obtain ⟨N, rfl⟩ : ∃ j, N = j + 1 := ⟨N - 1, by omega⟩
        obtain ⟨fl, s', h1, h2, h3⟩ := exec_sound (C := ⟨I.U, I.T, fuel, callN I.U Program.defs I.T fuel N⟩) hV rfl rfl
          (call_sound hV hF hG n N (by omega)) hF _ (s := ⟨I.ps i, bindParams (Program.defs f).params vs⟩)
          ⟨rfl, bind_sound _ hvs⟩ ha
        obtain ⟨afl, ast⟩ := r'
        simp only [Option.bind] at hr
        cases afl <;> simp only [reduceCtorEq] at hr
        cases hr
        cases fl <;> try exact h2.elim
        rename_i v
        refine ⟨v, ?_, h2⟩
        simp only [callN, runBody, h1, h3.ps]

end Verif.Sym
