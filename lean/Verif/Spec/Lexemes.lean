import Verif.Lexer
/-! A lexical grammar, written without reference to the lexer: which texts are tokens of which kind,
which text may stand between tokens. -/
namespace Ratel.Spec

/-- The words with a meaning of their own and their tokens. -/
def keywords : List (Bytes × Token) := [
  (bs!"break", .Break), (bs!"case", .Case), (bs!"catch", .Catch), (bs!"class", .Class),
  (bs!"const", .DeclarationConst), (bs!"continue", .Continue), (bs!"debugger", .Debugger),
  (bs!"default", .Default), (bs!"delete", .OperatorDelete), (bs!"do", .Do), (bs!"else", .Else),
  (bs!"enum", .ReservedEnum), (bs!"export", .Export), (bs!"extends", .Extends),
  (bs!"false", .LiteralFalse), (bs!"finally", .Finally), (bs!"for", .For),
  (bs!"function", .Function), (bs!"if", .If), (bs!"implements", .ReservedImplements),
  (bs!"import", .Import), (bs!"in", .OperatorIn), (bs!"instanceof", .OperatorInstanceof),
  (bs!"interface", .ReservedInterface), (bs!"let", .DeclarationLet), (bs!"new", .OperatorNew),
  (bs!"null", .LiteralNull), (bs!"package", .ReservedPackage), (bs!"private", .ReservedPrivate),
  (bs!"protected", .ReservedProtected), (bs!"public", .ReservedPublic), (bs!"return", .Return),
  (bs!"static", .Static), (bs!"super", .Super), (bs!"switch", .Switch), (bs!"this", .This),
  (bs!"throw", .Throw), (bs!"true", .LiteralTrue), (bs!"try", .Try), (bs!"typeof", .OperatorTypeof),
  (bs!"undefined", .LiteralUndefined), (bs!"var", .DeclarationVar), (bs!"void", .OperatorVoid),
  (bs!"while", .While), (bs!"with", .With), (bs!"yield", .Yield)]

/-- The token of a word. -/
def wordToken (w : Bytes) : Token := (keywords.lookup w).getD .Identifier

/-- The punctuators and their tokens. The dot is not among them: it belongs to the property name that
follows it. -/
def puncts : List (Bytes × Token) := [
  (bs!";", .Semicolon), (bs!":", .Colon), (bs!",", .Comma), (bs!"(", .ParenOpen),
  (bs!")", .ParenClose), (bs!"[", .BracketOpen), (bs!"]", .BracketClose), (bs!"{", .BraceOpen),
  (bs!"}", .BraceClose), (bs!"=>", .OperatorFatArrow), (bs!"++", .OperatorIncrement),
  (bs!"--", .OperatorDecrement), (bs!"!", .OperatorLogicalNot), (bs!"~", .OperatorBitwiseNot),
  (bs!"*", .OperatorMultiplication), (bs!"/", .OperatorDivision), (bs!"%", .OperatorRemainder),
  (bs!"**", .OperatorExponent), (bs!"+", .OperatorAddition), (bs!"-", .OperatorSubtraction),
  (bs!"<<", .OperatorBitShiftLeft), (bs!">>", .OperatorBitShiftRight),
  (bs!">>>", .OperatorUBitShiftRight), (bs!"<", .OperatorLesser), (bs!"<=", .OperatorLesserEquals),
  (bs!">", .OperatorGreater), (bs!">=", .OperatorGreaterEquals),
  (bs!"===", .OperatorStrictEquality), (bs!"!==", .OperatorStrictInequality),
  (bs!"==", .OperatorEquality), (bs!"!=", .OperatorInequality), (bs!"&", .OperatorBitwiseAnd),
  (bs!"^", .OperatorBitwiseXor), (bs!"|", .OperatorBitwiseOr), (bs!"&&", .OperatorLogicalAnd),
  (bs!"||", .OperatorLogicalOr), (bs!"?", .OperatorConditional), (bs!"=", .OperatorAssign),
  (bs!"+=", .OperatorAddAssign), (bs!"-=", .OperatorSubtractAssign),
  (bs!"**=", .OperatorExponentAssign), (bs!"*=", .OperatorMultiplyAssign),
  (bs!"/=", .OperatorDivideAssign), (bs!"%=", .OperatorRemainderAssign),
  (bs!"<<=", .OperatorBSLAssign), (bs!">>=", .OperatorBSRAssign), (bs!">>>=", .OperatorUBSRAssign),
  (bs!"&=", .OperatorBitAndAssign), (bs!"^=", .OperatorBitXorAssign),
  (bs!"|=", .OperatorBitOrAssign), (bs!"...", .OperatorSpread)]

/-- The byte that follows: the NUL terminator at the end of the source. -/
def next (r : Bytes) : Byte := r.headD 0

def isDigit (b : Byte) : Bool := #b'0' ≤ b && b ≤ #b'9'
def isLetter (b : Byte) : Bool := (#b'a' ≤ b && b ≤ #b'z') || (#b'A' ≤ b && b ≤ #b'Z')
def isHex (b : Byte) : Bool := isDigit b || (#b'a' ≤ b && b ≤ #b'f') || (#b'A' ≤ b && b ≤ #b'F')
def isOctal (b : Byte) : Bool := #b'0' ≤ b && b ≤ #b'7'
def isBinaryDigit (b : Byte) : Bool := b == #b'0' || b == #b'1'
/-- ASCII bytes a word can start with. -/
def wordStart (b : Byte) : Bool := isLetter b || b == #b'$' || b == #b'_' || b == #b'\\'
/-- Bytes inside words: also digits and all parts of non-ASCII characters. -/
def wordByte (b : Byte) : Bool := wordStart b || isDigit b || 128 ≤ b

/-- White space: any control character and the blank, but not NUL, which ends the program. -/
def isSpace (b : Byte) : Bool := 1 ≤ b && b ≤ 0x20

/-- Inside of string literals quoted by `q`: a backslash escapes the byte behind it; an unescaped quote
or a NUL does not occur. -/
inductive StrBody (q : Byte) : Bytes → Prop where
  | nil : StrBody q []
  | plain {c : Byte} {r : Bytes} (h1 : c ≠ q) (h2 : c ≠ #b'\\') (h3 : c ≠ 0) (h : StrBody q r) :
      StrBody q (c :: r)
  | esc {c : Byte} {r : Bytes} (h1 : c ≠ 0) (h : StrBody q r) : StrBody q (#b'\\' :: c :: r)

/-- Texts of templates up to the closing back quote or `${`: a backslash escapes the byte behind it;
unescaped back quotes and `${` do not occur. -/
inductive TplBody : Bytes → Prop where
  | nil : TplBody []
  | plain {c : Byte} {r : Bytes} (h1 : c ≠ #b'`') (h2 : c ≠ #b'\\') (h3 : c ≠ #b'$') (h : TplBody r) :
      TplBody (c :: r)
  | dollar {r : Bytes} (h1 : r.head? ≠ some #b'{') (h : TplBody r) : TplBody (#b'$' :: r)
  | esc {c : Byte} {r : Bytes} (h1 : c ≠ 0) (h : TplBody r) : TplBody (#b'\\' :: c :: r)

/-- Fractions: empty or a dot and digits. -/
inductive Fraction : Bytes → Prop where
  | none : Fraction []
  | some {ds : Bytes} (h : ∀ b ∈ ds, isDigit b) : Fraction (#b'.' :: ds)

/-- The sign of an exponent. -/
inductive Sign : Bytes → Prop where
  | none : Sign []
  | plus : Sign bs!"+"
  | minus : Sign bs!"-"

/-- Exponents with what must not follow them. The digits may be missing, as in the lexer. -/
inductive Exponent : Bytes → Bytes → Prop where
  | none {r : Bytes} (h1 : next r ≠ #b'e') (h2 : next r ≠ #b'E') : Exponent [] r
  | some {e : Byte} {s ds r : Bytes} (he : e = #b'e' ∨ e = #b'E') (hs : Sign s)
      (hd : ∀ b ∈ ds, isDigit b) (hr : isDigit (next r) = false)
      (hn : s = [] → ds = [] → next r ≠ #b'+' ∧ next r ≠ #b'-') : Exponent (e :: s ++ ds) r

/-- `p` is a number literal that ends where `r` begins. -/
inductive Number : Bytes → Bytes → Prop where
  /-- `12`, `12.`, `12.5`, `12e-5`, … -/
  | decimal {ds f e r : Bytes} (h0 : ds ≠ []) (hd : ∀ b ∈ ds, isDigit b) (hf : Fraction f)
      (he : Exponent e r)
      (hr : e = [] → isDigit (next r) = false) (hn : f = [] → e = [] → next r ≠ #b'.')
      (hz : ds = bs!"0" → f = [] → e = [] → next r ∉ bs!"bBoOxX") : Number (ds ++ f ++ e) r
  /-- `.5`, `.5e7`, … -/
  | point {d : Byte} {ds e r : Bytes} (h0 : isDigit d) (hd : ∀ b ∈ ds, isDigit b)
      (he : Exponent e r) (hr : e = [] → isDigit (next r) = false) : Number (#b'.' :: d :: ds ++ e) r
  | octal {x : Byte} {ds r : Bytes} (hx : x = #b'o' ∨ x = #b'O') (hd : ∀ b ∈ ds, isOctal b)
      (hr : isOctal (next r) = false) : Number (#b'0' :: x :: ds) r
  | hex {x : Byte} {ds r : Bytes} (hx : x = #b'x' ∨ x = #b'X') (hd : ∀ b ∈ ds, isHex b)
      (hr : isHex (next r) = false) : Number (#b'0' :: x :: ds) r

/-- The text starts with the UTF-8 encoding of a character that is, or is not, alphanumeric. The decoding
and the predicate are those of the Rust standard library (`Lex.decodeFirst`, `Unicode`). -/
def AlphanumericFirst [Unicode] (r : Bytes) (b : Bool) : Prop :=
  ∃ c, Lex.decodeFirst r = some c ∧ Unicode.isAlphanumeric c = b

/-- `Lexeme t p r`: the text `p`, followed by `r`, is a token of kind `t`. The last group are the
malformed tokens the lexer reports to the parser as errors. -/
inductive Lexeme [Unicode] : Token → Bytes → Bytes → Prop where
  | eof {r : Bytes} (h : next r = 0) : Lexeme .EndOfProgram [] r
  /-- Longest match. -/
  | punct {t : Token} {p r : Bytes} (h : (p, t) ∈ puncts)
      (hmax : ∀ x ∈ puncts, x.1 <+: p ++ r → x.1.length ≤ p.length)
      (hc : p = bs!"/" → next r ≠ #b'/' ∧ next r ≠ #b'*') : Lexeme t p r
  | word {c : Byte} {w r : Bytes} (hc : wordStart c) (hw : ∀ b ∈ w, wordByte b)
      (hr : wordByte (next r) = false) : Lexeme (wordToken (c :: w)) (c :: w) r
  | unicodeWord {c : Byte} {w r : Bytes} (hc : 128 ≤ c) (hw : ∀ b ∈ w, wordByte b)
      (ha : AlphanumericFirst (c :: w ++ r) true) (hr : wordByte (next r) = false) : Lexeme .Identifier (c :: w) r
  | number {p r : Bytes} (h : Number p r) : Lexeme .LiteralNumber p r
  | binary {x : Byte} {ds r : Bytes} (hx : x = #b'b' ∨ x = #b'B') (hd : ∀ b ∈ ds, isBinaryDigit b)
      (hr : isBinaryDigit (next r) = false) : Lexeme .LiteralBinary (#b'0' :: x :: ds) r
  | string {q : Byte} {s r : Bytes} (hq : q = #b'"' ∨ q = #b'\'') (h : StrBody q s) :
      Lexeme .LiteralString (q :: s ++ [q]) r
  | templateClosed {s r : Bytes} (h : TplBody s) : Lexeme .TemplateClosed (#b'`' :: s ++ bs!"`") r
  | templateOpen {s r : Bytes} (h : TplBody s) : Lexeme .TemplateOpen (#b'`' :: s ++ bs!"${") r
  /-- `.name`, with anything up to the blank (even a NUL) after the dot. -/
  | accessor {s : Bytes} {c : Byte} {w r : Bytes} (hs : ∀ b ∈ s, b ≤ 0x20) (hc : wordStart c)
      (hw : ∀ b ∈ w, wordByte b) (hr : wordByte (next r) = false) :
      Lexeme .Accessor (#b'.' :: s ++ c :: w) r
  -- malformed tokens
  | badByte {c : Byte} {r : Bytes} (h : c = #b'#' ∨ c = #b'@' ∨ c = 0x7f) :
      Lexeme .UnexpectedToken [c] r
  | badChar {r : Bytes} (h : 128 ≤ next r) (ha : AlphanumericFirst r false) : Lexeme .UnexpectedToken [] r
  | badDots {r : Bytes} (h : next r ≠ #b'.') : Lexeme .UnexpectedToken bs!".." r
  | badDot {s r : Bytes} (hs : ∀ b ∈ s, b ≤ 0x20) (hr : 0x20 < next r)
      (hr' : wordStart (next r) = false) (h128 : next r < 128)
      (h0 : s = [] → isDigit (next r) = false ∧ next r ≠ #b'.') :
      Lexeme .UnexpectedToken (#b'.' :: s) r
  | openString {q : Byte} {s r : Bytes} (hq : q = #b'"' ∨ q = #b'\'') (h : StrBody q s)
      (hr : next r = 0) : Lexeme .UnexpectedEndOfProgram (q :: s) r
  | openStringEsc {q : Byte} {s r : Bytes} (hq : q = #b'"' ∨ q = #b'\'') (h : StrBody q s)
      (hr : next r = 0) : Lexeme .UnexpectedEndOfProgram (q :: s ++ [#b'\\']) r
  | openTemplate {s r : Bytes} (h : TplBody s) (hr : next r = 0) :
      Lexeme .UnexpectedEndOfProgram (#b'`' :: s ++ [#b'\\']) r
  | openComment {s r : Bytes} (h : ∀ b ∈ s, b ≠ 0) (h' : ¬ bs!"*/" <:+: s) (hr : next r = 0) :
      Lexeme .UnexpectedEndOfProgram (#b'/' :: #b'*' :: s) r

/-- One piece of trivia: a white space byte, a line comment up to (not including) the line break, NUL
or end that follows, a closed block comment. -/
inductive TriviaPiece : Bytes → Bytes → Prop where
  | space {b : Byte} {r : Bytes} (h : isSpace b) : TriviaPiece [b] r
  | line {s r : Bytes} (h : ∀ b ∈ s, b ≠ 0 ∧ b ≠ #b'\n') (hr : next r = 0 ∨ next r = #b'\n') :
      TriviaPiece (#b'/' :: #b'/' :: s) r
  | block {s r : Bytes} (h : ∀ b ∈ s, b ≠ 0) (h' : ¬ bs!"*/" <:+: s) :
      TriviaPiece (#b'/' :: #b'*' :: s ++ bs!"*/") r

/-- `Trivia g r`: the text `g` in front of `r` is white space and comments. -/
inductive Trivia : Bytes → Bytes → Prop where
  | nil {r : Bytes} : Trivia [] r
  | cons {p g r : Bytes} (hp : TriviaPiece p (g ++ r)) (hg : Trivia g r) : Trivia (p ++ g) r

/-- Trivia without block comments. -/
inductive LineTrivia : Bytes → Bytes → Prop where
  | nil {r : Bytes} : LineTrivia [] r
  | space {b : Byte} {g r : Bytes} (h : isSpace b) (hg : LineTrivia g r) : LineTrivia (b :: g) r
  | line {s g r : Bytes} (h : ∀ b ∈ s, b ≠ 0 ∧ b ≠ #b'\n') (hr : next (g ++ r) = 0 ∨ next (g ++ r) = #b'\n')
      (hg : LineTrivia g r) : LineTrivia (#b'/' :: #b'/' :: s ++ g) r

/-- The tokens in front of which a semicolon may always be inserted. -/
def closes : Token → Bool
  | .Semicolon | .ParenClose | .BraceClose | .EndOfProgram => true
  | _ => false

/-- The number of continuation bytes announced by the first byte of a non-ASCII character. -/
def announced (x : Byte) : Nat := if x < 0xE0 then 1 else if x < 0xF0 then 2 else 3

/-- A non-ASCII first byte that is not followed by the continuation bytes it announces: this does not
occur in valid UTF-8. -/
def BadUtf8 : Bytes → Prop
  | [] => False
  | x :: r => 0x80 ≤ x ∧ (x < 0xC0 ∨ r.length < announced x ∨ ∃ b ∈ r.take (announced x), b < 0x80 ∨ 0xC0 ≤ b)

/-- Texts at which the lexer reads behind the end of the source: a template that is never closed, a dot
with nothing but white space or NULs behind it (and, not in valid UTF-8, a truncated character). -/
inductive ReadsBehind : Bytes → Prop where
  | template {s : Bytes} (h : TplBody s) : ReadsBehind (#b'`' :: s)
  | dot {s : Bytes} (h : ∀ b ∈ s, b ≤ 0x20) : ReadsBehind (#b'.' :: s)
  | char {s : Bytes} (h : BadUtf8 s) : ReadsBehind s

/-- Texts at which the lexer panics: a dot followed, after white space or NULs, by a non-ASCII byte. -/
inductive Panics : Bytes → Prop where
  | dot {s : Bytes} {c : Byte} {r : Bytes} (h : ∀ b ∈ s, b ≤ 0x20) (hc : 128 ≤ c) :
      Panics (#b'.' :: s ++ c :: r)

/-- `RegexScan a p b`: the text `p` has no unescaped slash outside of a character class and no line break;
`a` and `b` tell whether its start and end are inside a class. -/
inductive RegexScan : Bool → Bytes → Bool → Prop where
  | nil {a : Bool} : RegexScan a [] a
  | openClass {a b : Bool} {r : Bytes} (h : RegexScan true r b) : RegexScan a (#b'[' :: r) b
  | closeClass {a b : Bool} {r : Bytes} (h : RegexScan false r b) : RegexScan a (#b']' :: r) b
  | slash {b : Bool} {r : Bytes} (h : RegexScan true r b) : RegexScan true (#b'/' :: r) b
  | esc {a b : Bool} {c : Byte} {r : Bytes} (hc : c ≠ 0) (h : RegexScan a r b) :
      RegexScan a (#b'\\' :: c :: r) b
  | plain {a b : Bool} {c : Byte} {r : Bytes} (hc : c ∉ [#b'[', #b']', #b'/', #b'\\', #b'\n'])
      (h : RegexScan a r b) : RegexScan a (c :: r) b

/-- The flags of regular expressions. -/
def isFlag (b : Byte) : Bool := b ∈ bs!"gimuy"

end Ratel.Spec
