import Verif.AstGen
import Verif.Base
/-! Specification for C71: 32-bit positions, and the positions in a document. -/
namespace Ratel.Spec
open Ratel

/-- `n as u32`. -/
def asU32 (n : Nat) : Nat := n % 2 ^ 32

/-- `x` is the document `j` or a part of it. -/
inductive Inside (x : Json) : Json → Prop where
  | self : Inside x x
  | item {xs : List Json} {y : Json} : y ∈ xs → Inside x y → Inside x (.arr xs)
  | member {fs : List (String × Json)} {k : String} {y : Json} : (k, y) ∈ fs → Inside x y → Inside x (.obj fs)

end Ratel.Spec
