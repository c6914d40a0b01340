import Verif.JsonText
import Verif.Spec.Utf8
import Verif.Debug
/-! A reader of JSON texts (RFC 8259), as anyone who receives the text has it. It is strict: no control characters in
strings, no leading zeros, no escapes of surrogates. Strings are read as `.str`, numbers without fraction and exponent as
`.int`, others as `.float` with their text. -/
namespace Ratel.Spec.Rfc8259
open Ratel Ratel.Spec

def isSpace (b : Byte) : Bool := b == 32 || b == 9 || b == 10 || b == 13

def isDigit (b : Byte) : Bool := 48 ≤ b && b ≤ 57

/-- Bytes of numbers and of `null`, `true`, `false`. -/
def isAtom (b : Byte) : Bool := isDigit b || (97 ≤ b && b ≤ 122) || (65 ≤ b && b ≤ 90) || b == 43 || b == 45 || b == 46

def skipSpace (s : Bytes) : Bytes := s.dropWhile isSpace

/-- The value of four hexadecimal digits. -/
def hexValue (s : Bytes) : Option Nat :=
  s.foldl (fun acc b => acc >>= fun n =>
      if isDigit b then some (n * 16 + (b.toNat - 48))
      else if 97 ≤ b ∧ b ≤ 102 then some (n * 16 + (b.toNat - 87))
      else if 65 ≤ b ∧ b ≤ 70 then some (n * 16 + (b.toNat - 55))
      else none) (some 0)

/-- The byte of an escape of one letter. -/
def escapes : List (Byte × Byte) :=
  [(#b'"', #b'"'), (#b'\\', #b'\\'), (#b'/', #b'/'), (#b'b', 8), (#b'f', 12), (#b'n', 10), (#b'r', 13), (#b't', 9)]

/-- A string behind its quotation mark, and what follows it. -/
def readString : Bytes → Option (Bytes × Bytes)
  | [] => none
  | b :: r =>
    if b = #b'"' then some ([], r)
    else if b = #b'\\' then
      match r with
      | [] => none
      | c :: r =>
        if c = #b'u' then
          match r with
          | h1 :: h2 :: h3 :: h4 :: r =>
            match hexValue [h1, h2, h3, h4] with
            | some n =>
              if 0xD800 ≤ n ∧ n ≤ 0xDFFF then none
              else (readString r).map fun x => (String.utf8EncodeChar (Char.ofNat n) ++ x.1, x.2)
            | none => none
          | _ => none
        else
          match escapes.lookup c with
          | some e => (readString r).map fun x => (e :: x.1, x.2)
          | none => none
    else if b < 32 then none
    else (readString r).map fun x => (b :: x.1, x.2)

/-- A number: sign, digits without leading zeros, fraction, exponent. -/
def readNumber (s : Bytes) : Option Json :=
  let negative := s.take 1 == [#b'-']
  let t := if negative then s.drop 1 else s
  let whole := t.takeWhile isDigit
  let t := t.dropWhile isDigit
  let fraction := if t.take 1 == [#b'.'] then some ((t.drop 1).takeWhile isDigit) else none
  let t := if t.take 1 == [#b'.'] then (t.drop 1).dropWhile isDigit else t
  let hasExponent := t.take 1 == [#b'e'] || t.take 1 == [#b'E']
  let t := if hasExponent then t.drop 1 else t
  let t := if hasExponent && (t.take 1 == [#b'+'] || t.take 1 == [#b'-']) then t.drop 1 else t
  let exponent := if hasExponent then some (t.takeWhile isDigit) else none
  let t := if hasExponent then t.dropWhile isDigit else t
  if t ≠ [] then none
  else if whole = [] ∨ (whole.take 1 = [#b'0'] ∧ whole ≠ [#b'0']) then none
  else if fraction = some [] ∨ exponent = some [] then none
  else if fraction = none ∧ exponent = none then
    let n : Nat := whole.foldl (fun acc b => acc * 10 + (b.toNat - 48)) 0
    some (.int (if negative then -(n : Int) else n))
  else some (.float s)

/-- A number or one of the three words. -/
def readAtom (s : Bytes) : Option Json :=
  if s = bs!"null" then some .null
  else if s = bs!"true" then some (.bool true)
  else if s = bs!"false" then some (.bool false)
  else readNumber s

mutual
/-- A value, and what follows it. The first argument bounds the number of values. -/
def readValue : Nat → Bytes → Option (Json × Bytes)
  | 0, _ => none
  | n + 1, s =>
    match skipSpace s with
    | [] => none
    | c :: r =>
      if c = #b'[' then
        if (skipSpace r).take 1 = [#b']'] then some (.arr [], (skipSpace r).drop 1)
        else (readItems n r).map fun x => (.arr x.1, x.2)
      else if c = #b'{' then
        if (skipSpace r).take 1 = [#b'}'] then some (.obj [], (skipSpace r).drop 1)
        else (readMembers n r).map fun x => (.obj x.1, x.2)
      else if c = #b'"' then (readString r).map fun x => (.str x.1, x.2)
      else (readAtom ((c :: r).takeWhile isAtom)).map fun j => (j, (c :: r).dropWhile isAtom)
/-- The elements of an array and its bracket. -/
def readItems : Nat → Bytes → Option (List Json × Bytes)
  | 0, _ => none
  | n + 1, s =>
    match readValue n s with
    | none => none
    | some (x, r) =>
      match skipSpace r with
      | [] => none
      | c :: r =>
        if c = #b']' then some ([x], r)
        else if c = #b',' then (readItems n r).map fun y => (x :: y.1, y.2)
        else none
/-- The members of an object and its bracket. -/
def readMembers : Nat → Bytes → Option (List (String × Json) × Bytes)
  | 0, _ => none
  | n + 1, s =>
    match skipSpace s with
    | [] => none
    | q :: r =>
      if q ≠ #b'"' then none
      else
        match readString r with
        | none => none
        | some (l, r) =>
          match skipSpace r with
          | [] => none
          | c :: r =>
            if c ≠ #b':' then none
            else
              match readValue n r with
              | none => none
              | some (x, r) =>
                match skipSpace r with
                | [] => none
                | c :: r =>
                  if c = #b'}' then some ([(String.ofList (chars l), x)], r)
                  else if c = #b',' then (readMembers n r).map fun y => ((String.ofList (chars l), x) :: y.1, y.2)
                  else none
end

/-- The document of a text. -/
def readJson (s : Bytes) : Option Json :=
  match readValue (s.length + 1) s with
  | some (j, r) => if skipSpace r = [] then some j else none
  | none => none

/-- What is assumed about the text of an `f64`: it is a number with a fraction or an exponent, or `null`. -/
class LawfulFloats [Floats] : Prop where
  number : ∀ v, Floats.text v = bs!"null" ∨
    (readNumber (Floats.text v) = some (.float (Floats.text v)) ∧ (Floats.text v).all isAtom = true)

variable [Floats]

mutual
/-- The value that a document is in JSON, where constants are strings and infinite numbers are `null`. -/
def plain : Json → Json
  | .sym s => .str (utf8 s.toList)
  | .float v => if Floats.text v = bs!"null" then .null else .float (Floats.text v)
  | .arr xs => .arr (plainAll xs)
  | .obj fs => .obj (plainFields fs)
  | j => j

def plainAll : List Json → List Json
  | [] => []
  | x :: xs => plain x :: plainAll xs

def plainFields : List (String × Json) → List (String × Json)
  | [] => []
  | (l, x) :: fs => (l, plain x) :: plainFields fs
end

/-! ### From JSON to the documents of `Spec.ReadEstree`

JSON has strings only, and the text of an `f64` is not the text of the numeral. A consumer of ESTree knows that `type` and
`kind` are constants and that the text of a numeral is its `raw`. -/

/-- The text of the member `raw`. -/
def rawOf (fs : List (String × Json)) : Option Bytes :=
  match fs.lookup "raw" with
  | some (.str s) => some s
  | _ => none

/-- The numeral of a member `value`, if it is a number with a fraction, or `null` beside a numeral. -/
def numeralOf (raw : Option Bytes) : Json → Option Bytes
  | .float _ => raw
  | .null => if raw = some bs!"null" then none else raw
  | _ => none

/-- A string that is a constant. -/
def constantOf : Json → Json
  | .str s => .sym (String.ofList (chars s))
  | j => j

mutual
/-- The document that is meant. -/
def typed : Json → Json
  | .arr xs => .arr (typedAll xs)
  | .obj fs => .obj (typedFields (rawOf fs) fs)
  | j => j

def typedAll : List Json → List Json
  | [] => []
  | x :: xs => typed x :: typedAll xs

def typedFields (raw : Option Bytes) : List (String × Json) → List (String × Json)
  | [] => []
  | (l, x) :: fs =>
    (l, if l = "type" ∨ l = "kind" then constantOf x
        else match (if l = "value" then numeralOf raw x else none) with
          | some v => .float v
          | none => typed x) :: typedFields raw fs
end

end Ratel.Spec.Rfc8259
