import Verif.Spec.Lexing
/-! UTF-8: a Rust `&str` is a byte string that encodes a list of characters. The encoding is the one of Lean's
library (`String.utf8EncodeChar`); `Char` is the type of Unicode scalar values, as in Rust. -/
namespace Ratel.Spec

/-- The encoding of a list of characters. -/
def utf8 (cs : List Char) : Bytes := cs.flatMap String.utf8EncodeChar

/-- The invariant of `&str` and `String`. -/
def Utf8 (s : Bytes) : Prop := ∃ cs, s = utf8 cs

/-- `str::is_char_boundary`: the text can be cut at position `p`. -/
def Boundary (s : Bytes) (p : Nat) : Prop := ∃ cs ds, s = utf8 cs ++ utf8 ds ∧ p = (utf8 cs).length

end Ratel.Spec
