import Verif.AstGen
/-! The text of a JSON document, as `serde_json::to_string` and `serde_json::to_string_pretty` write it
(`ratel-wasm/src/lib.rs:55-59`, `ffi/native/src/lib.rs:28-34`). Modelled after the source of serde_json 1.0: `ser.rs`
(`CompactFormatter`, `PrettyFormatter`, `format_escaped_str`, `ESCAPE`). -/
namespace Ratel

/-- What serde_json writes for the `f64` that a numeral is parsed to: the shortest decimal text, or `null` if it is infinite.
A parameter, as `f64` arithmetic is not modelled. -/
class Floats where
  text : Bytes → Bytes

/-- The digits of a number (`itoa`, called by serde_json at `ratel-wasm/src/lib.rs:56,58`); the first argument bounds their number. -/
def decimalGo : Nat → Nat → Bytes
  | 0, n => [UInt8.ofNat (48 + n % 10)]
  | g + 1, n => if n < 10 then [UInt8.ofNat (48 + n)] else decimalGo g (n / 10) ++ [UInt8.ofNat (48 + n % 10)]

/-- `serialize_u32`, `serialize_i64`, … of serde_json with `itoa`, `ratel-wasm/src/lib.rs:56,58`. -/
def decimal (n : Nat) : Bytes := decimalGo n n

/-- A hexadecimal digit: `HEX_DIGITS` in `write_char_escape` of serde_json, `ratel-wasm/src/lib.rs:56,58`. -/
def hexDigit (d : Nat) : Byte := if d < 10 then UInt8.ofNat (48 + d) else UInt8.ofNat (87 + d)

/-- The table `ESCAPE` and `write_char_escape` of serde_json, one byte of a string; `ratel-wasm/src/lib.rs:56,58`. -/
def escapeJson (b : Byte) : Bytes :=
  if b = #b'"' then bs!"\\\""
  else if b = #b'\\' then bs!"\\\\"
  else if b = 8 then bs!"\\b"
  else if b = 12 then bs!"\\f"
  else if b = 10 then bs!"\\n"
  else if b = 13 then bs!"\\r"
  else if b = 9 then bs!"\\t"
  else if b < 32 then bs!"\\u00" ++ [hexDigit (b.toNat / 16), hexDigit (b.toNat % 16)]
  else [b]

/-- `format_escaped_str` of serde_json, `ratel-wasm/src/lib.rs:56,58`. -/
def writeString (s : Bytes) : Bytes := #b'"' :: s.flatMap escapeJson ++ [#b'"']

/-- The bytes of a Rust string constant, such as the names of members at `ratel/src/astgen/mod.rs:13-38`. -/
def constant (s : String) : Bytes := s.toList.flatMap String.utf8EncodeChar

/-- A line break and the indentation inside of `k` arrays and objects (`indent` of `PrettyFormatter`, two blanks each,
`ratel-wasm/src/lib.rs:58`); nothing in compact texts (56). -/
def breakLine (pretty : Bool) (k : Nat) : Bytes := if pretty then #b'\n' :: List.replicate (2 * k) #b' ' else []

variable [Floats]

mutual
/-- A value, inside of `k` arrays and objects: `Serializer` of serde_json, `ratel-wasm/src/lib.rs:56,58`. -/
def writeJson (pretty : Bool) (k : Nat) : Json → Bytes
  | .null => bs!"null"
  | .bool true => bs!"true"
  | .bool false => bs!"false"
  | .int (.ofNat n) => decimal n
  | .int (.negSucc n) => #b'-' :: decimal (n + 1)
  | .float v => Floats.text v
  | .str s => writeString s
  | .sym s => writeString (constant s)
  | .arr [] => bs!"[]"
  | .arr (x :: xs) =>
    #b'[' :: breakLine pretty (k + 1) ++ writeJson pretty (k + 1) x ++ writeItems pretty k xs ++ breakLine pretty k ++ [#b']']
  | .obj [] => bs!"{}"
  | .obj ((l, x) :: fs) =>
    #b'{' :: breakLine pretty (k + 1) ++ writeString (constant l) ++ (if pretty then bs!": " else bs!":") ++
      writeJson pretty (k + 1) x ++ writeMembers pretty k fs ++ breakLine pretty k ++ [#b'}']
/-- The other elements of an array: `begin_array_value` of the formatters, `ratel-wasm/src/lib.rs:56,58`. -/
def writeItems (pretty : Bool) (k : Nat) : List Json → Bytes
  | [] => []
  | x :: xs => #b',' :: breakLine pretty (k + 1) ++ writeJson pretty (k + 1) x ++ writeItems pretty k xs
/-- The other members of an object: `begin_object_key`, `begin_object_value` of the formatters, `ratel-wasm/src/lib.rs:56,58`. -/
def writeMembers (pretty : Bool) (k : Nat) : List (String × Json) → Bytes
  | [] => []
  | (l, x) :: fs =>
    #b',' :: breakLine pretty (k + 1) ++ writeString (constant l) ++ (if pretty then bs!": " else bs!":") ++
      writeJson pretty (k + 1) x ++ writeMembers pretty k fs
end

/-- `serde_json::to_string` (`minify`) and `serde_json::to_string_pretty`, as chosen at `ratel-wasm/src/lib.rs:55-59` and
`ffi/native/src/lib.rs:28-34`. -/
def jsonText (minify : Bool) (j : Json) : Bytes := writeJson (!minify) 0 j

end Ratel
