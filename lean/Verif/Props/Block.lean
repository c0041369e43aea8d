import Verif.Proofs.Block
import Verif.Props.Expr
/-!
The trees of scripts with statements in statements are determined (C49).  Spec/Block.lean says how such statements are written, and
which tree each of them stands for.
-/
namespace Verif.Props
open Verif.Spec

/-- C49: if the tokens of a text are the words of statements, blocks and branches at any depth, then `parse` gives their trees. -/
theorem C49_blocks_determined (U : Unicode) (hU : U.Lawful) (code : Str) (body : List Token) (bs : Blocks)
    (htok : tokenize U code = .ok (body ++ [Token.eof])) (hwords : body.map (·.literal) = bs.words) (hok : bs.Ok U) :
    parse U code = .ok (bs.trees (body ++ [Token.eof]) 0 ++ [Node.empty .EOF]) := by
  unfold parse
  rw [htok]
  exact Sym.parse_blocks hU hok hwords (Lex.tokenize_apart hU htok)

/-- C49, from the statements to the text: however the words of the statements are separated by white space, `parse` gives their
trees.  The strings among the words must end where they are closed. -/
theorem C49_every_script (U : Unicode) (hU : U.Lawful) (bs : Blocks) (hok : bs.Ok U)
    (hstr : ∀ l ∈ bs.words, ∀ q body, (q = '"' ∨ q = '\'') → l = q :: (body ++ [q]) → QuotedOnce q l body)
    (gaps : List Str) (hlen : gaps.length = bs.words.length + 1) (hws : ∀ g ∈ gaps, AllWs g)
    (hsep : ∀ g ∈ gaps.tail.dropLast, g ≠ []) :
    ∃ body, tokenize U (interleave gaps bs.words) = .ok (body ++ [Token.eof]) ∧ body.map (·.literal) = bs.words ∧
      parse U (interleave gaps bs.words) = .ok (bs.trees (body ++ [Token.eof]) 0 ++ [Node.empty .EOF]) := by
  have hg : ∀ l ∈ bs.words, Sym.Good U l := fun l hl =>
    Sym.all_blocks (P := fun l => Sym.Closed l → Sym.Good U l) (fun _ _ h hc => Sym.good_atom hU h hc)
      (fun _ h _ => Sym.good_vocab hU h) bs hok l hl (hstr l hl)
  have hhead : bs.words.head? ≠ some ['<'] := by
    cases bs with
    | nil => simp [Blocks.words]
    | cons b bs =>
      obtain ⟨l, r, hw, hl⟩ := Sym.block_head hok.1
      have hne : ∀ l ∈ Sym.blockHeads, l ≠ ['<'] := by decide
      simp only [Blocks.words, hw, List.cons_append, List.head?_cons]
      intro h
      have h : l = ['<'] := by simpa using h
      rcases hl with hl | hl
      · exact hne l hl h
      · cases hl with
        | name c cs h1 _ _ =>
          cases h
          exact absurd h1 (by decide)
  obtain ⟨body, h1, h2⟩ := (C43_tokens_exact U hU (interleave gaps bs.words) bs.words).2
    ⟨⟨gaps, Sym.tokenization hlen hws hsep hg⟩, hhead⟩
  exact ⟨body, h1, h2, C49_blocks_determined U hU _ body bs h1 h2 hok⟩

/-! A script that meets the hypotheses. -/

/-- Statements without others in them. -/
def simple (s : Stmt) : Blocks := .cons (.stmt s) .nil
/-- `SELECT c;` -/
def sampleSelect : Stmt := ⟨.select, Args.just (nm 'c')⟩
/-- `BREAK;` -/
def sampleBreak : Stmt := ⟨.word "BREAK".toList .BreakContinueStatement, .nil⟩
/-- `RETURN;` -/
def sampleReturn : Stmt := ⟨.word "RETURN".toList .SingleTokenStatement, .nil⟩
/-- `i < 9` -/
def sampleCond : Ex := .post (nm 'i') (.binary ("<".toList, 109)) (Args.just (.atom ['9'] .NumericLiteral))

/-- The script below. -/
def sampleBlocks : Blocks := .cons (.catch
  (.cons (.while .none sampleCond (.cons (.ifElse (nm 'a') (simple sample2) (.cons (nm 'd') (simple sampleBreak) .nil)
      (.cons (.loop .none (simple sampleSelect)) .nil))
    (.cons (.rep .none .nil (nm 'e')) (.cons (.if (nm 'g') .nil .nil) .nil)))) .nil)
  (simple sampleReturn)) (.cons (.begin .nil) .nil)

/-- A script. -/
def blocksCode : Str := ("BEGIN WHILE i < 9 DO IF a THEN SET n = TRUE; ELSEIF d THEN BREAK; ELSE LOOP SELECT c; END LOOP; END IF; " ++
  "REPEAT UNTIL e END REPEAT; IF g THEN END IF; END WHILE; EXCEPTION WHEN ERROR THEN RETURN; END; BEGIN END;").toList

theorem stmtB {s : Stmt} (h : (statements.contains s.shape && s.args.okB Unicode.sample (places s.shape.items)) = true) :
    s.Ok Unicode.sample := by
  simp only [Bool.and_eq_true, List.contains_iff_mem] at h
  exact ⟨h.1, s.args.okB_sound h.2⟩

theorem sampleBlocks_ok : sampleBlocks.Ok Unicode.sample := by
  have s1 : sample2.Ok Unicode.sample := stmtB (by decide +kernel)
  have s2 : sampleSelect.Ok Unicode.sample := stmtB (by decide +kernel)
  have s3 : sampleBreak.Ok Unicode.sample := stmtB (by decide +kernel)
  have s4 : sampleReturn.Ok Unicode.sample := stmtB (by decide +kernel)
  have e1 : sampleCond.Ok Unicode.sample loosest := sampleCond.okB_sound (by decide +kernel)
  have e2 : ∀ c ∈ ['a', 'd', 'e', 'g'], (nm c).Ok Unicode.sample loosest := fun c hc => (nm c).okB_sound (by
    have : ∀ c ∈ ['a', 'd', 'e', 'g'], (nm c).okB Unicode.sample loosest = true := by decide +kernel
    exact this c hc)
  exact ⟨⟨⟨⟨trivial, e1, ⟨⟨e2 'a' (by simp), ⟨s1, trivial⟩, ⟨e2 'd' (by simp), ⟨s3, trivial⟩, trivial⟩, ⟨⟨trivial, s2, trivial⟩, trivial⟩⟩,
    ⟨trivial, trivial, e2 'e' (by simp)⟩, ⟨e2 'g' (by simp), trivial, trivial⟩, trivial⟩⟩, trivial⟩, s4, trivial⟩, trivial, trivial⟩

/-- The hypotheses of C49 are met. -/
theorem sampleBlocks_tokens : ∃ body, tokenize Unicode.sample blocksCode = .ok (body ++ [Token.eof]) ∧
    body.map Token.literal = sampleBlocks.words := by
  have h : (match tokenize Unicode.sample blocksCode with
    | .ok toks => decide (toks = toks.dropLast ++ [Token.eof] ∧ toks.dropLast.map Token.literal = sampleBlocks.words)
    | _ => false) = true := by decide +kernel
  split at h
  · rename_i toks ht
    have := of_decide_eq_true h
    exact ⟨toks.dropLast, by rw [ht, ← this.1], this.2⟩
  · cases h

example : ∃ T, parse Unicode.sample blocksCode = .ok (sampleBlocks.trees T 0 ++ [Node.empty .EOF]) := by
  obtain ⟨body, h1, h2⟩ := sampleBlocks_tokens
  exact ⟨_, C49_blocks_determined _ Unicode.sample_lawful _ _ _ h1 h2 sampleBlocks_ok⟩

/-- `x`, then `c` and `t` -/
def sampleFor : Args := .cons (.one (nm 'x')) (.cons (.one (nm 'c')) (.cons (.one (nm 't')) .nil))

/-- The script below. -/
def sampleBlocks2 : Blocks := .cons (.caseElse (some (nm 'a')) (.cons (.atom ['1'] .NumericLiteral) (simple sampleBreak)
    (.cons sampleCond .nil .nil)) (simple sampleReturn))
  (.cons (.for (.for (Shape.select.from .name)) sampleFor (.cons (.case none (.cons (nm 'd') .nil .nil)) .nil)) .nil)

/-- Another script. -/
def blocksCode2 : Str := ("CASE a WHEN 1 THEN BREAK; WHEN i < 9 THEN ELSE RETURN; END CASE; " ++
  "FOR x IN (SELECT c FROM t) DO CASE WHEN d THEN END CASE; END FOR;").toList

theorem sampleBlocks2_ok : sampleBlocks2.Ok Unicode.sample := by
  have s3 : sampleBreak.Ok Unicode.sample := stmtB (by decide +kernel)
  have s4 : sampleReturn.Ok Unicode.sample := stmtB (by decide +kernel)
  have e1 : sampleCond.Ok Unicode.sample loosest := sampleCond.okB_sound (by decide +kernel)
  have e2 : (nm 'a').Ok Unicode.sample loosest := (nm 'a').okB_sound (by decide +kernel)
  have e3 : (nm 'd').Ok Unicode.sample loosest := (nm 'd').okB_sound (by decide +kernel)
  have e4 : (Ex.atom ['1'] .NumericLiteral).Ok Unicode.sample loosest := (Ex.atom ['1'] .NumericLiteral).okB_sound (by decide +kernel)
  have f1 : Shape.for (Shape.select.from .name) ∈ fors := by
    have : fors.contains (Shape.for (Shape.select.from .name)) = true := by decide +kernel
    simpa using this
  have f2 : sampleFor.Ok Unicode.sample (places (Shape.for (Shape.select.from .name)).items) :=
    sampleFor.okB_sound (by decide +kernel)
  exact ⟨⟨by rintro x ⟨⟩; exact e2, by simp, ⟨e4, ⟨s3, trivial⟩, e1, trivial, trivial⟩, s4, trivial⟩,
    ⟨f1, f2, ⟨by rintro x ⟨⟩, by simp, e3, trivial, trivial⟩, trivial⟩, trivial⟩

/-- The hypotheses of C49 are met with `CASE` and `FOR` too. -/
theorem sampleBlocks2_tokens : ∃ body, tokenize Unicode.sample blocksCode2 = .ok (body ++ [Token.eof]) ∧
    body.map Token.literal = sampleBlocks2.words := by
  have h : (match tokenize Unicode.sample blocksCode2 with
    | .ok toks => decide (toks = toks.dropLast ++ [Token.eof] ∧ toks.dropLast.map Token.literal = sampleBlocks2.words)
    | _ => false) = true := by decide +kernel
  split at h
  · rename_i toks ht
    have := of_decide_eq_true h
    exact ⟨toks.dropLast, by rw [ht, ← this.1], this.2⟩
  · cases h

example : ∃ T, parse Unicode.sample blocksCode2 = .ok (sampleBlocks2.trees T 0 ++ [Node.empty .EOF]) := by
  obtain ⟨body, h1, h2⟩ := sampleBlocks2_tokens
  exact ⟨_, C49_blocks_determined _ Unicode.sample_lawful _ _ _ h1 h2 sampleBlocks2_ok⟩

/-- A name. -/
theorem name_ok {l : Str} (h : (Ex.atom l .Identifier).okB Unicode.sample loosest = true) : AtomIs Unicode.sample l .Identifier :=
  (Ex.atom l .Identifier).okB_sound h

/-- `LEAVE x;` -/
def sampleLeave : Stmt := ⟨.jump "LEAVE".toList, Args.just (nm 'x')⟩
/-- The script below. -/
def sampleBlocks3 : Blocks := .cons (.loop (.both ['x'] ['y']) (.cons (.while (.lead ['z']) sampleCond (simple sampleLeave))
  (.cons (.rep (.both ['l'] ['l']) .nil (nm 'a')) .nil))) .nil

/-- A script with labels: the code does not ask that the labels before and after a loop are the same. -/
def blocksCode3 : Str := ("x: LOOP z: WHILE i < 9 DO LEAVE x; END WHILE; l: REPEAT UNTIL a END REPEAT l; END LOOP y;").toList

theorem sampleBlocks3_ok : sampleBlocks3.Ok Unicode.sample := by
  have s3 : sampleLeave.Ok Unicode.sample := stmtB (by decide +kernel)
  have e1 : sampleCond.Ok Unicode.sample loosest := sampleCond.okB_sound (by decide +kernel)
  have e2 : (nm 'a').Ok Unicode.sample loosest := (nm 'a').okB_sound (by decide +kernel)
  have n1 := name_ok (l := ['x']) (by decide +kernel)
  have n2 := name_ok (l := ['y']) (by decide +kernel)
  have n3 := name_ok (l := ['z']) (by decide +kernel)
  have n4 := name_ok (l := ['l']) (by decide +kernel)
  exact ⟨⟨⟨n1, n2⟩, ⟨n3, e1, s3, trivial⟩, ⟨⟨n4, n4⟩, trivial, e2⟩, trivial⟩, trivial⟩

/-- The hypotheses of C49 are met with labels too. -/
theorem sampleBlocks3_tokens : ∃ body, tokenize Unicode.sample blocksCode3 = .ok (body ++ [Token.eof]) ∧
    body.map Token.literal = sampleBlocks3.words := by
  have h : (match tokenize Unicode.sample blocksCode3 with
    | .ok toks => decide (toks = toks.dropLast ++ [Token.eof] ∧ toks.dropLast.map Token.literal = sampleBlocks3.words)
    | _ => false) = true := by decide +kernel
  split at h
  · rename_i toks ht
    have := of_decide_eq_true h
    exact ⟨toks.dropLast, by rw [ht, ← this.1], this.2⟩
  · cases h

example : ∃ T, parse Unicode.sample blocksCode3 = .ok (sampleBlocks3.trees T 0 ++ [Node.empty .EOF]) := by
  obtain ⟨body, h1, h2⟩ := sampleBlocks3_tokens
  exact ⟨_, C49_blocks_determined _ Unicode.sample_lawful _ _ _ h1 h2 sampleBlocks3_ok⟩

/-- A case of C49_every_script: a new line after each word. -/
example : ∃ body, parse Unicode.sample (interleave ([] :: List.replicate sampleBlocks.words.length "\n".toList) sampleBlocks.words) =
    .ok (sampleBlocks.trees (body ++ [Token.eof]) 0 ++ [Node.empty .EOF]) := by
  obtain ⟨body, _, _, h⟩ := C49_every_script Unicode.sample Unicode.sample_lawful sampleBlocks sampleBlocks_ok
    (closed_of (by decide +kernel)) ([] :: List.replicate sampleBlocks.words.length "\n".toList) (by simp)
    (by
      intro g hg
      rcases List.mem_cons.1 hg with rfl | hg
      · intro c hc; cases hc
      · rw [List.eq_of_mem_replicate hg]; unfold AllWs; decide)
    (by
      intro g hg
      have := List.eq_of_mem_replicate ((List.dropLast_sublist _).mem hg)
      rw [this]; decide)
  exact ⟨body, h⟩

end Verif.Props
