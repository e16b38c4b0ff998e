import Verif.Model.Token
/-!
# Exceptions of lexer and parser (`hgpl/errors.py:40-51`)
-/

namespace Verif

/-- An exception raised by lexer or parser: the fields `message`, `pos`, `token` and `rule` of `LexerError` and `ParserError`,
`hgpl/errors.py:40-51`, or one of the builtin exceptions. -/
inductive SyntaxErr where
  | lexer (msg : Str) (pos : Int) (token : Option Token)
  | parser (msg : Str) (pos : Int) (token : Token) (rule : String)
  | other (e : PyExc)
deriving DecidableEq, Repr

/-- The exception without message and token. -/
def SyntaxErr.exc : SyntaxErr → PyExc
  | .lexer _ p _ => .lexerError p
  | .parser _ p _ r => .parserError p r
  | .other e => e

end Verif
