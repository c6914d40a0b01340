import Verif.Codegen
import Verif.Spec.Tree
/-! Specification of the code generator. -/
namespace Ratel.Spec
open Ratel

/-- The texts a node itself contributes to the tree: names and literals as they appear in the
source. -/
def Node.texts : Node → List Bytes
  | .expr (.ident _ n) => [n]
  | .expr (.lit _ (.Number v)) => [v]
  | .expr (.lit _ (.Binary v)) => [v]
  | .expr (.lit _ (.String v)) => [v]
  | .expr (.lit _ (.RegEx v)) => [v]
  | .expr (.member _ _ p) => [p.name]
  | .expr (.metaProp _ m p) => [m.name, p.name]
  | .expr (.template _ _ qs) => qs.map (·.name)
  | .expr (.tagged _ _ _ _ qs) => qs.map (·.name)
  | .key (.literal _ v) => [v]
  | .key (.binary _ v) => [v]
  | .prop (.shorthand _ n) => [n]
  | .pat (.ident _ n) => [n]
  | .pat (.rest _ a) => [a.name]
  | .func (.mk (.optional (some n)) _ _ _) => [n.name]
  | .func (.mk (.mandatory n) _ _ _) => [n.name]
  | .cls (.mk (.optional (some n)) _ _ _) => [n.name]
  | .cls (.mk (.mandatory n) _ _ _) => [n.name]
  | .stmt (.brk _ (some l)) => [l.name]
  | .stmt (.cont _ (some l)) => [l.name]
  | .stmt (.labeled _ l _) => [l]
  | .stmt (.import _ specs source) => source :: specs.flatMap fun
      | .named _ i l => [i.name, l.name]
      | .default _ l => [l.name]
      | .namespace _ l => [l.name]
  | _ => []

/-- The texts a generator is asked to write, in order, without layout. -/
def written : List Piece → List Bytes
  | [] => []
  | .text t :: r => t :: written r
  | _ :: r => written r

/-- Blanks and line breaks. -/
def isBlank (b : Byte) : Bool := b == #b' ' || b == #b'\n'

/-- `Spread ts y`: `y` consists of the texts `ts` in order, none of them broken, and blanks between
them. -/
inductive Spread : List Bytes → Bytes → Prop
  | nil : Spread [] []
  | text (t : Bytes) {ts : List Bytes} {y : Bytes} : Spread ts y → Spread (t :: ts) (t ++ y)
  | blank {b : Byte} {ts : List Bytes} {y : Bytes} : isBlank b = true → Spread ts y → Spread ts (b :: y)

/-- `s` in parentheses. -/
def parens (s : Bytes) : Bytes := bs!"(" ++ s ++ bs!")"

/-- `s` in parentheses if `c`. -/
def parensIf (c : Bool) (s : Bytes) : Bytes := if c then parens s else s

end Ratel.Spec
