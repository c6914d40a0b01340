import Verif.AstGen
/-! Documents with all positions moved. -/
namespace Ratel.Spec
open Ratel

/-- A position, moved. -/
def movedInt (k : Nat) : Json → Json
  | .int i => .int (i + k)
  | j => j

mutual

/-- The document with `k` added to the fields `start` and `end` of its objects. -/
def moved (k : Nat) : Json → Json
  | .arr xs => .arr (movedAll k xs)
  | .obj fs => .obj (movedFields k fs)
  | j => j

def movedAll (k : Nat) : List Json → List Json
  | [] => []
  | x :: xs => moved k x :: movedAll k xs

def movedFields (k : Nat) : List (String × Json) → List (String × Json)
  | [] => []
  | (n, x) :: fs => (if n = "start" ∨ n = "end" then (n, movedInt k x) else (n, moved k x)) :: movedFields k fs

end

end Ratel.Spec
