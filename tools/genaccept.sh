#!/bin/sh
# grammar.bnf, pres.txt -> Spec/Grammar.lean, Analysis/GrammarTable.lean, Analysis/AcceptTable.lean
cd "$(dirname "$0")/../lean" || exit 1
SC=${SC:-/tmp/scratch}; export SC
mkdir -p $SC
python3 ../tools/grammar.py || exit 1
# the nonterminals are a type of Lean: build when they changed
sed -n '/^inductive NT/,/deriving/p' Verif/Spec/Grammar.lean | cat - ../tools/GenAccept.lean.txt > $SC/nts
if ! cmp -s $SC/nts $SC/nts.old; then
  lake build Verif.Analysis.Accept Verif.Model.Program 2>&1 | grep -A10 error | head -20
  cp ../tools/GenAccept.lean.txt $SC/GenAccept.lean
  NATIVE=$SC/native python3 ../tools/native.py $SC/GenAccept.lean $SC/genaccept || exit 1
  cp $SC/nts $SC/nts.old
fi
$SC/genaccept "$@"
