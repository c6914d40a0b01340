import Verif.Spec.Grammar
import Verif.Spec.Lexemes
/-! How the items of the grammar are spelled in a source. -/
namespace Ratel.Spec
open Ratel

/-- `Gap a g r b`: the text `g` in front of `r` is white space and comments. The flag tells whether there
has been a line break since the previous token; a comment clears it. `a` is its value before, `b` after `g`. -/
inductive Gap : Bool → Bytes → Bytes → Bool → Prop where
  | nil {a : Bool} {r : Bytes} : Gap a [] r a
  | space {a b : Bool} {c : Byte} {g r : Bytes} (h : isSpace c) (hg : Gap (a || c == #b'\n') g r b) : Gap a (c :: g) r b
  | comment {a b : Bool} {p g r : Bytes} (hp : TriviaPiece p (g ++ r)) (hc : ∀ c, p ≠ [c]) (hg : Gap false g r b) :
      Gap a (p ++ g) r b

/-- May a semicolon be inserted before the token: after a line break, and before `)`, `}` and the end. -/
def asiBefore (t : Token) (newline : Bool) : Asi :=
  if t = .Semicolon then .ExplicitSemicolon else if newline || closes t then .ImplicitSemicolon else .NoSemicolon

/-- The tokens whose text is not the whole lexeme. -/
def special : Token → Bool
  | .EndOfProgram | .Accessor | .TemplateOpen | .TemplateClosed => true
  | _ => false

/-- What follows a piece of a template: the back quote if it is the last one. -/
def tplEnd (closed : Bool) : Bytes := if closed then bs!"`" else bs!"${"
def tplToken (closed : Bool) : Token := if closed then .TemplateClosed else .TemplateOpen

/-- `Spells src i`: the source `src` consists of the items `i`, with white space and comments before them
and at the end. -/
inductive Spells [Unicode] : Bytes → List Item → Prop where
  | eof {g r : Bytes} {b : Bool} (hg : Gap false g r b) (hr : next r = 0) : Spells (g ++ r) []
  | tok {g p r : Bytes} {b : Bool} {t : Token} {i : List Item} (hg : Gap false g (p ++ r) b) (hp : Lexeme t p r)
      (ht : special t = false) (h : Spells r i) : Spells (g ++ (p ++ r)) (.tok t p (asiBefore t b) :: i)
  /-- `.name`. -/
  | accessor {g s w r : Bytes} {b : Bool} {c : Byte} {i : List Item} (hg : Gap false g (#b'.' :: s ++ c :: w ++ r) b)
      (hs : ∀ b ∈ s, b ≤ 0x20) (hc : wordStart c) (hw : ∀ b ∈ w, wordByte b) (hr : wordByte (next r) = false)
      (h : Spells r i) :
      Spells (g ++ (#b'.' :: s ++ c :: w ++ r)) (.tok .Accessor (c :: w) (asiBefore .Accessor b) :: i)
  /-- The first piece of a template. -/
  | template {g s r : Bytes} {b closed : Bool} {i : List Item} (hg : Gap false g (#b'`' :: s ++ tplEnd closed ++ r) b)
      (hs : TplBody s) (h : Spells r i) :
      Spells (g ++ (#b'`' :: s ++ tplEnd closed ++ r)) (.tok (tplToken closed) s (asiBefore (tplToken closed) b) :: i)
  /-- A further piece of a template. -/
  | resume {g s r : Bytes} {b closed : Bool} {i : List Item} (hg : Gap false g (#b'}' :: s ++ tplEnd closed ++ r) b)
      (hs : TplBody s) (h : Spells r i) :
      Spells (g ++ (#b'}' :: s ++ tplEnd closed ++ r)) (.resume closed s :: i)
  /-- `/re/flags`; the expression is not empty and does not start with `=`. -/
  | regex {g p f r : Bytes} {b : Bool} {c : Byte} {i : List Item} (hg : Gap false g (#b'/' :: c :: p ++ #b'/' :: f ++ r) b)
      (hc : c ∉ bs!"=/*") (hp : RegexScan false (c :: p) false) (hf : ∀ b ∈ f, isFlag b) (hr : isFlag (next r) = false)
      (h : Spells r i) :
      Spells (g ++ (#b'/' :: c :: p ++ #b'/' :: f ++ r))
        (.regex (#b'/' :: c :: p ++ #b'/' :: f) (asiBefore .OperatorDivision b) :: i)

end Ratel.Spec
