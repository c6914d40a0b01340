import Verif.Spec.Lexemes
/-! How a text without templates and divisions is cut into tokens, without a lexer or a parser. -/
namespace Ratel.Spec

/-- `Splits src ts s`: in `src`, there are white space, comments and the tokens `ts` (last one first) in front of its end `s`. -/
inductive Splits [Unicode] (src : Bytes) : List Token → Bytes → Prop where
  | start : Splits src [] src
  | token {ts : List Token} {t : Token} {g p r : Bytes} (h : Splits src ts (g ++ (p ++ r))) (hg : Trivia g (p ++ r))
      (hx : Lexeme t p r) : Splits src (t :: ts) r

/-- No token of the text depends on what the parser expects: there are no back quotes, and no division signs (a
slash may start a comment). -/
structure ContextFree [Unicode] (src : Bytes) : Prop where
  noTick : #b'`' ∉ src
  noSlash : ∀ ts s, Splits src ts s → Token.OperatorDivision ∉ ts

end Ratel.Spec
