import Verif.Props.Lexemes
import Verif.Props.Order
import Verif.Proofs.Render
/-!
The trees hold the whole input (C46): a text made from the tokens of the trees alone gives the same trees.
-/
namespace Verif.Props
open Verif.Spec Verif.Core Verif.AI

/-- C46, tokens: a text in which the tokens stand in their places, with blanks and newlines between them, has
these tokens. -/
theorem C46_render_tokens (U : Unicode) (hU : U.Lawful) (code : Str) (body : List Token)
    (h : tokenize U code = .ok (body ++ [Token.eof])) : tokenize U (render body) = .ok (body ++ [Token.eof]) := by
  obtain ⟨⟨gaps, hg⟩, _⟩ := (C43_tokens_exact U hU code (body.map (·.literal))).1 ⟨body, h, rfl⟩
  exact Lex.tokenize_render hU h ((isTokenization_iff ..).1 hg)

theorem sorted_unique {l l' : List Token} (hp : l.Perm l') (h : l.Pairwise Earlier) (h' : l'.Pairwise Earlier) :
    l = l' := by
  refine List.Perm.eq_of_pairwise ?_ h h' hp
  intro a b _ _ h1 h2
  unfold Earlier at h1 h2
  omega

/-- C46: unless a token could have been overwritten, the tokens found in the trees, placed where they say, make a
text that parses to the same trees, positions included.  (`w` is the list of the tokens of the trees in the order of
their positions; there is exactly one.) -/
theorem C46_reparse (U : Unicode) (hU : U.Lawful) (code : Str) (ns : List Node)
    (h : parse U code = .ok ns) (hn : ∀ n ∈ ns, NoLoss n) :
    ∃ w, (∀ w', (w'.Perm (ns.flatMap tokensOf) ∧ w'.Pairwise Earlier) ↔ w' = w) ∧ parse U (render w) = .ok ns := by
  obtain ⟨body, h1, h2⟩ := C15_lossless_except U hU code ns h hn
  obtain ⟨body', h3, h4⟩ := C02_positions_increase U code _ h1
  have h5 : body = body' := List.append_cancel_right h3
  subst h5
  have hsort : body.Pairwise Earlier := by
    rw [List.pairwise_iff_getElem]
    intro i j hi hj hij
    exact h4 i j _ _ hij (List.getElem?_eq_getElem hi) (List.getElem?_eq_getElem hj)
  refine ⟨body, fun w' => ⟨fun hw => sorted_unique (hw.1.trans h2) hw.2 hsort, ?_⟩, ?_⟩
  · rintro rfl
    exact ⟨h2.symm, hsort⟩
  · have h6 := C46_render_tokens U hU code body h1
    have p1 : parse U code = parseTokens U (body ++ [Token.eof]) := by simp [parse, h1]
    have p2 : parse U (render body) = parseTokens U (body ++ [Token.eof]) := by simp [parse, h6]
    rw [p2, ← p1, h]

/-- Tabs are replaced by blanks, and the white space after the last token is left out; the parser accepts the text
and its trees lose no token. -/
example : render [⟨1, 2, "SELECT".toList⟩, ⟨1, 9, "-- a".toList⟩, ⟨2, 3, "1".toList⟩, ⟨4, 1, ";".toList⟩] =
    " SELECT -- a\n  1\n\n;".toList := by decide +kernel

example : (match parse Unicode.sample " SELECT -- a\n\t 1\n\n;\n".toList,
      parse Unicode.sample " SELECT -- a\n  1\n\n;".toList with
    | .ok ns, .ok ms => decide (ns.flatMap tokensOf = ms.flatMap tokensOf) && ns.all fun n => (nodes n).all fun m =>
        m.ty != .Type && m.ty != .MergeStatement && m.ty != .FromStatement && m.ty != .PipeStatement
    | _, _ => false) = true := by decide +kernel

end Verif.Props
