import Verif.AstGen
import Verif.Spec.Tree
/-! Specification of the ESTree serialisation: which trees can be serialised and what the result
looks like. -/
namespace Ratel.Spec
open Ratel

/-- A JSON value in which every object is a node (its `type` first, `start` and `end` last) or one of
the two auxiliary records for regular expressions and template texts. -/
inductive Estree : Json → Prop where
  | null : Estree .null
  | bool (b) : Estree (.bool b)
  | int (i) : Estree (.int i)
  | float (t) : Estree (.float t)
  | str (s) : Estree (.str s)
  | sym (s) : Estree (.sym s)
  | arr {xs : List Json} (h : ∀ x ∈ xs, Estree x) : Estree (.arr xs)
  | node (ty : String) {fs : List (String × Json)} (start stop : Nat) (h : ∀ f ∈ fs, Estree f.2) :
      Estree (.obj ([("type", .sym ty)] ++ fs ++ [("start", .int start), ("end", .int stop)]))
  | regex (p f) : Estree (.obj [("pattern", .str p), ("flags", .str f)])
  | text (r c) : Estree (.obj [("raw", .str r), ("cooked", .str c)])

/-- Value of a text of digits. -/
def valueOf (radix : Nat) (s : Bytes) : Nat :=
  s.foldl (fun acc b => acc * radix + (digitValue b).getD 0) 0

/-- A non-empty text of digits of the radix whose value is at most `limit`. -/
def fitsInt (limit radix : Nat) (s : Bytes) : Prop :=
  s ≠ [] ∧ (∀ b ∈ s, ∃ d, digitValue b = some d ∧ d < radix) ∧ valueOf radix s ≤ limit

/-- The value of a literal can be represented. -/
def literalFits : Literal → Prop
  | .Number v =>
    if 2 < v.length ∧ (v.take 2 = bs!"0x" ∨ v.take 2 = bs!"0X") then fitsInt maxI32 16 (v.drop 2)
    else if 2 < v.length ∧ (v.take 2 = bs!"0o" ∨ v.take 2 = bs!"0O") then fitsInt maxI32 8 (v.drop 2)
    else if #b'.' ∈ v then parsesAsFloat v = true
    else fitsInt maxI64 10 v
  | .Binary v => fitsInt maxI32 2 (v.drop 2)
  | .RegEx v => #b'/' ∈ v.drop 1 ∨ (#b'/' ∉ v ∧ 2 ≤ v.length)
  | .String v => 2 ≤ v.length
  | _ => True

/-- The text of the literal is long enough for its delimiters: the quotes of a string, `0b` of a binary
number. -/
def literalDelimited : Literal → Prop
  | .Binary v => 2 ≤ v.length
  | .String v => 2 ≤ v.length
  | _ => True

/-- The delimiters of a literal are there. -/
def Node.delimited : Node → Prop
  | .expr (.lit _ v) => literalDelimited v
  | _ => True

/-- A hole: the missing element of an array. -/
def Node.isJsonHole : Node → Bool
  | .expr (.void _) => true
  | _ => false

/-- An array literal. -/
def Node.isJsonArray : Node → Bool
  | .expr (.array _ _) => true
  | _ => false

/-- What the node itself needs in order to be serialised. -/
def Node.supported : Node → Prop
  | .expr (.lit _ v) => literalFits v
  | .expr (.prefix _ .New (.call _ _ _)) => True
  | .expr (.prefix _ .New (.lit _ _)) => True
  | .expr (.prefix _ .New _) => False
  | .expr (.template _ _ qs) => ∀ q ∈ qs, q.loc.stop ≠ 0
  | .expr (.tagged _ _ _ _ qs) => ∀ q ∈ qs, q.loc.stop ≠ 0
  | .pat (.void _) => False
  | .member (.error _) => False
  | .member (.literal _ _ _ _) => False
  | _ => True

/-- The node and its direct children can be serialised: holes only in array literals. -/
def Node.serialisable (n : Node) : Prop :=
  n.supported ∧ (n.isJsonArray = true ∨ ∀ c ∈ n.children, c.isJsonHole = false)

/-- What can go wrong in a tree that comes from a source: `new` in front of anything but a call or a literal,
fields of classes, holes in array patterns, and numbers that are not representable. -/
def Node.exportable : Node → Prop
  | .expr (.lit _ (.Number v)) => literalFits (.Number v)
  | .expr (.lit _ (.Binary v)) => literalFits (.Binary v)
  | .expr (.prefix _ .New (.call _ _ _)) => True
  | .expr (.prefix _ .New (.lit _ _)) => True
  | .expr (.prefix _ .New _) => False
  | .pat (.void _) => False
  | .member (.literal _ _ _ _) => False
  | _ => True

end Ratel.Spec
