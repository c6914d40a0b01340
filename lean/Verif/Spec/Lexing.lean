import Verif.Spec.Lexemes
/-! Histories of a lexer: what callers can do with it, and what they can observe. -/
namespace Ratel.Spec

/-- The states of a lexer over the source `src`, after any sequence of calls that returned: `Lexer::new`,
then `consume`, `read_template_kind` and `read_regular_expression` in any order. -/
inductive Lexing [Unicode] (src : Bytes) : Lex → Prop where
  | new {l : Lex} (h : Lex.new src = .ok l) : Lexing src l
  | consume {l l' : Lex} (h : Lexing src l) (h' : l.consume = .ok l') : Lexing src l'
  | template {l l' : Lex} (h : Lexing src l) (h' : l.readTemplateKind = .ok l') : Lexing src l'
  | regex {l l' : Lex} {v : Bytes} (h : Lexing src l) (h' : l.readRegularExpression = .ok (l', v)) :
      Lexing src l'

/-- The text between two positions of the source. -/
def slice (src : Bytes) (a b : Nat) : Bytes := (src.take b).drop a

/-- What a caller sees of the current token: its kind, text and span. -/
structure Seen where
  token : Token
  text : Bytes
  start : Nat
  stop : Nat
deriving DecidableEq, Repr

end Ratel.Spec

namespace Ratel
/-- What a caller sees of the current token (`lexer.token`, `token_as_str`, `loc`). -/
def Lex.seen (l : Lex) : Spec.Seen := ⟨l.token, l.tokenAsStr, l.tokenStart, l.index⟩
end Ratel

namespace Ratel.Spec

/-- `Tokens src ls`: `ls` are the states after `Lexer::new(src)` and each of some number of calls of
`consume`, last one first. -/
inductive Tokens [Unicode] (src : Bytes) : List Lex → Prop where
  | new {l : Lex} (h : Lex.new src = .ok l) : Tokens src [l]
  | consume {l l' : Lex} {ls : List Lex} (h : Tokens src (l :: ls)) (h' : l.consume = .ok l') :
      Tokens src (l' :: l :: ls)

/-- `k` calls of `consume`. -/
def consumes [Unicode] : Nat → Lex → Out Lex
  | 0, l => .ok l
  | k + 1, l => l.consume.bind (consumes k)

end Ratel.Spec
