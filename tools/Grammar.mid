/-- Terminal symbols. -/
inductive Term
  /-- a word or symbol known to the parser -/
  | kw (k : Kw)
  /-- another word -/
  | word (s : Str)
  /-- a name that is no word known to the parser: `[A-Za-z_][A-Za-z0-9_]*` or a name in back quotes -/
  | ident
  /-- a name, or one of `softWords` -/
  | name
  /-- any word at all, or a name in back quotes -/
  | anyWord
  | number
  | string
  /-- a parameter, `@name` or `?` -/
  | param
  deriving DecidableEq, Repr

/-- Symbols of the grammar. -/
inductive Sym
  | t (a : Term)
  | nt (n : NT)
  deriving DecidableEq, Repr

/-- The literal is the given text in upper or lower case (`Char.toUpper` only changes ASCII letters). -/
def IsWord (l s : Str) : Prop := l.map Char.toUpper = s

/-- The literal is a name in back quotes. -/
def BackQuoted (l : Str) : Prop := ∃ b, l = '`' :: (b ++ ['`'])

/-- The literal is a string. -/
def StringText (l : Str) : Prop := ∃ q b, (q = '\'' ∨ q = '"') ∧ l = q :: (b ++ [q])

/-- A literal matches a terminal symbol. -/
def TermMatches : Term → Str → Prop
  | .kw k, l => IsWord l k.lit
  | .word s, l => IsWord l s
  | .ident, l => BackQuoted l ∨ (PlainIdentifier l ∧ ∀ k, ¬ IsWord l (Kw.lit k))
  | .name, l => BackQuoted l ∨ (PlainIdentifier l ∧ ∀ k, IsWord l (Kw.lit k) → k ∈ softWords)
  | .anyWord, l => BackQuoted l ∨ PlainIdentifier l
  | .number, l => NumericSyntax l
  | .string, l => StringText l
  | .param, l => (∃ r, l = '@' :: r) ∨ l = ['?']

/-- The rules of the grammar. -/
def rules : NT → List (List Sym)
