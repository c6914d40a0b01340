import Verif.Buffer
/-! What the code generators have to write (C62). -/
namespace Ratel.Spec

/-- The text that a call stands for in minified code. -/
def minText : Call → Bytes
  | .writeByte b => [b]
  | .writeBytes bs => bs
  | _ => []

/-- How much deeper a call indents. -/
def deeper : Call → Int
  | .indent => 1
  | .dedent => -1
  | _ => 0

/-- The indentation depth after some calls. -/
def depthAfter (cs : List Call) : Int := (cs.map deeper).sum

/-- The text that a call stands for in pretty printed code, at a depth. -/
def prettyText (depth : Nat) : Call → Bytes
  | .writeByte b | .writePretty b => [b]
  | .writeBytes bs => bs
  | .newLine => #b'\n' :: List.replicate (4 * depth) #b' '
  | _ => []

/-- The pretty printed code of some calls: the `k`-th call is printed at the depth after the `k` calls in front of it. -/
def prettyCode (cs : List Call) : Bytes :=
  (cs.mapIdx fun k c => prettyText (depthAfter (cs.take k)).toNat c).flatten

/-- The calls write these pieces: a text is written in one call, as a byte or as a slice. -/
inductive Writes : List Piece → List Call → Prop
  | nil : Writes [] []
  | byte {b ps cs} : Writes ps cs → Writes (.text [b] :: ps) (.writeByte b :: cs)
  | bytes {s ps cs} : Writes ps cs → Writes (.text s :: ps) (.writeBytes s :: cs)
  | pretty {b ps cs} : Writes ps cs → Writes (.pretty b :: ps) (.writePretty b :: cs)
  | newLine {ps cs} : Writes ps cs → Writes (.newLine :: ps) (.newLine :: cs)
  | indent {ps cs} : Writes ps cs → Writes (.indent :: ps) (.indent :: cs)
  | dedent {ps cs} : Writes ps cs → Writes (.dedent :: ps) (.dedent :: cs)

end Ratel.Spec
