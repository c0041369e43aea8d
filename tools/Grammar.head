import Verif.Spec.Lexer
/-!
Generated by tools/grammar.py from tools/grammar.bnf: a grammar of scripts.  It says nothing about the
parser; `Props.C37_*` shows that the parser accepts every script derived from it.
-/
namespace Verif.Spec
