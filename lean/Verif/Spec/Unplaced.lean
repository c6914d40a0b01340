import Verif.AstGen
/-! Documents without positions. -/
namespace Ratel.Spec
open Ratel

mutual

/-- The document without the fields `start` and `end` of its objects. -/
def unplaced : Json → Json
  | .arr xs => .arr (unplacedAll xs)
  | .obj fs => .obj (unplacedFields fs)
  | j => j

def unplacedAll : List Json → List Json
  | [] => []
  | x :: xs => unplaced x :: unplacedAll xs

def unplacedFields : List (String × Json) → List (String × Json)
  | [] => []
  | (k, x) :: fs => if k = "start" ∨ k = "end" then unplacedFields fs else (k, unplaced x) :: unplacedFields fs

end

end Ratel.Spec
