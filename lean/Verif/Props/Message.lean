import Verif.Proofs.BlameSpec
import Verif.Props.Tokenize
/-! Error messages (C40). -/
namespace Verif.Props
open Verif.Spec

/-- C40: when the tokens are fine and `parse` fails, the error points at a token and has one of the messages of the
list; if the message shows a token it is the one at the position of the error; and what the message means is true
of that token: it is really none of the words that were expected there, and so on.  `esc` says how characters are
shown inside a message. -/
theorem C40_messages_true (U : Unicode) (esc : Char → Str) (code : Str) (toks : List Token) (e : Err)
    (ht : tokenize U code = .ok toks) (h : parse U code = .err e) :
    ∃ m ∈ messages, ∃ i t, Tells U esc toks e (Message.text esc e) m i t := by
  unfold parse at h
  rw [ht] at h
  exact (Blame.parseTokens_good U toks e h).tells esc

/-- C40, the message determines its kind: no text of the list is the beginning of another one. -/
theorem C40_messages_distinct : ∀ m ∈ messages, ∀ m' ∈ messages, m.text.toList <+: m'.text.toList → m.text = m'.text := by
  have h : ∀ s ∈ messages.map (·.text), ∀ s' ∈ messages.map (·.text), s.toList <+: s'.toList → s = s' := by
    decide +kernel
  exact fun m hm m' hm' => h _ (List.mem_map.2 ⟨m, hm, rfl⟩) _ (List.mem_map.2 ⟨m', hm', rfl⟩)

/-- The first message whose text is the beginning of `s`. -/
def kindOf (s : Str) : Option Nat := messages.findIdx? fun m => m.text.toList.isPrefixOf s

/-- C40, two of the messages in the program are never seen: `Something went wrong.` and the second one about `NOT`
(the first one, which asks for the same words, comes before it). -/
theorem C40_messages_never (U : Unicode) (esc : Char → Str) (code : Str) (e : Err) (h : parse U code = .err e) :
    Message.text esc e ≠ "Something went wrong.".toList ∧
    ¬ "Expected `LIKE`, `BETWEEN` or `IN` but got: ".toList <+: Message.text esc e := by
  cases ht : tokenize U code with
  | ok toks =>
    obtain ⟨m, hm, i, t, hT⟩ := C40_messages_true U esc code toks e ht h
    have key : ∀ s ∈ messages.map (·.text), ¬ s.toList <+: "Something went wrong.".toList ∧
        ∃ n ≤ 20, s.toList.take n ≠ "Expected `LIKE`, `BETWEEN` or `IN` but got: ".toList.take n ∧ n ≤ s.toList.length := by
      decide +kernel
    obtain ⟨k1, n, hn, k2, k3⟩ := key _ (List.mem_map.2 ⟨m, hm, rfl⟩)
    have hp : m.text.toList <+: Message.text esc e := by rw [hT.text]; exact List.prefix_append _ _
    refine ⟨fun he => k1 (he ▸ hp), fun hx => k2 ?_⟩
    have hl : n ≤ "Expected `LIKE`, `BETWEEN` or `IN` but got: ".toList.length := Nat.le_trans hn (by decide +kernel)
    obtain ⟨r, hr⟩ := hp
    obtain ⟨r', hr'⟩ := hx
    have e1 : (Message.text esc e).take n = m.text.toList.take n := by
      rw [← hr, List.take_append_of_le_length k3]
    have e2 : (Message.text esc e).take n = "Expected `LIKE`, `BETWEEN` or `IN` but got: ".toList.take n := by
      rw [← hr', List.take_append_of_le_length hl]
    rw [← e1, e2]
  | err e' =>
    unfold parse at h
    rw [ht] at h
    cases h
    have h1 := C06_error_positions U code e ht
    have h2 : Message.text esc e = "Unexpected EOF.".toList ∨
        Message.text esc e = "Invalid character as an identifier.".toList := by
      rcases h1 with ⟨hm, _⟩ | ⟨hm, _⟩
      · left; unfold Message.text; rw [hm]
      · right; unfold Message.text; rw [hm]
    rcases h2 with h2 | h2 <;> rw [h2] <;> decide +kernel
  | panic p => unfold parse at h; rw [ht] at h; cases h
  | timeout => unfold parse at h; rw [ht] at h; cases h

/-- C40, messages of the tokenizer: `Unexpected EOF.` points at the end of the text, and
`Invalid character as an identifier.` at a character after `@` with which no identifier starts. -/
theorem C40_tokenizer_messages (U : Unicode) (esc : Char → Str) (code : Str) (e : Err) (h : tokenize U code = .err e) :
    (Message.text esc e = "Unexpected EOF.".toList ∧ e.line = lineAfter code ∧ e.column = columnAfter code) ∨
    (Message.text esc e = "Invalid character as an identifier.".toList ∧ ∃ x y, code = x ++ '@' :: y ∧
      e.line = lineAfter (x ++ ['@']) ∧ e.column = columnAfter (x ++ ['@']) ∧
      (y = [] ∨ ∃ c r, y = c :: r ∧ c ≠ '@' ∧ c ≠ '`' ∧ U.isAlphabetic c = false ∧ c ≠ '_')) := by
  rcases C06_error_positions U code e h with ⟨hm, h⟩ | ⟨hm, h⟩
  · left; exact ⟨by unfold Message.text; rw [hm], h⟩
  · right; exact ⟨by unfold Message.text; rw [hm], h⟩

/-- Every message of the list is seen: the number of the message, the position and the length of the text. -/
example : ["SELECT (1", "(SELECT 1 ;", "SELECT a NOT /* c */ b", "create a b c d e f", "ALTER a b c d e f", "FROM t |> x",
      "MERGE t USING u ON a WHEN MATCHED THEN SELECT", "ALTER SCHEMA s RENAME x", "ALTER TABLE t FOO",
      "ALTER COLUMN c FOO", "a: b: BEGIN SELECT 1; END ;"].map (fun s =>
      match parse Unicode.sample s.toList with
      | .err e => (kindOf (Message.text (fun c => [c]) e), e.line, e.column)
      | _ => (none, 0, 0)) =
    [(some 0, 4294967295, 4294967295), (some 1, 1, 11), (some 2, 1, 22), (some 3, 1, 1), (some 4, 1, 1), (some 5, 1, 11),
      (some 6, 1, 40), (some 7, 1, 16), (some 8, 1, 15), (some 9, 1, 16), (some 10, 1, 23)] := by
  decide +kernel

/-- A message that shows a token. -/
example : (match parse Unicode.sample "FROM t |>\n \"x\"".toList with
      | .err e => Message.text (fun c => if c = '"' then ['\\', '"'] else [c]) e
      | _ => []) = "Expected pipe operator but got: Token { line: 2, column: 2, literal: \"\\\"x\\\"\" }".toList := by
  decide +kernel

end Verif.Props
