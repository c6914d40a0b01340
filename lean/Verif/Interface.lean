import Verif.Parser
import Verif.Codegen
import Verif.AstGen
import Verif.ErrorDisplay
import Verif.Debug
import Verif.JsonText
/-! The entry points of the two bindings: `ratel-wasm/src/lib.rs` and `ffi/native/src/lib.rs`. A JavaScript string that
reaches Rust is a list of characters, and its UTF-8 encoding is what `parse` sees. Not modelled: `neon` and
`wasm_bindgen` themselves (conversion of strings between JavaScript and Rust, the messages of `neon`). -/
namespace Ratel

/-- The bytes of a string. -/
def encode (cs : List Char) : Bytes := cs.flatMap String.utf8EncodeChar

/-- `format_errors` up to the list of messages, `ffi/native/src/lib.rs:13-25` and `ratel-wasm/src/lib.rs:11-21`. -/
def errorMessages (source : List Char) : List Err → Out (List (List Char))
  | [] => .ok []
  | e :: es =>
    displayUnexpectedToken source e.start e.stop >>= fun x =>
    errorMessages source es >>= fun xs => .ok (x :: xs)

/-- `[String]::join("\n")`. -/
def joinLines : List (List Char) → List Char
  | [] => []
  | [x] => x
  | x :: y :: r => x ++ '\n' :: joinLines (y :: r)

/-- `format_errors` of `ratel-wasm/src/lib.rs:10-25`. -/
def wasmErrors (source : List Char) (es : List Err) : Out (List Char) :=
  errorMessages source es >>= fun ms => .ok ("Error: ".toList ++ joinLines ms)

variable [Unicode]

/-- `transform` of `ratel-wasm/src/lib.rs:28-35`. The result is the bytes of the string it returns. -/
def wasmTransform (fuel : Nat) (source : List Char) (minify : Bool) : Out Bytes :=
  parse fuel (encode source) >>= fun
    | .ok m => codegen m minify
    | .error es => wasmErrors source es >>= fun s => .ok (encode s)

/-- `generate_ast_estree` of `ratel-wasm/src/lib.rs:52-63`; `unwrap` has nothing to do, as the serialisation fails in no
other way than by a panic. -/
def wasmEstree [Floats] (fuel : Nat) (source : List Char) (minify : Bool) : Out Bytes :=
  parse fuel (encode source) >>= fun
    | .ok m => genModule m >>= fun j => .ok (jsonText minify j)
    | .error es => wasmErrors source es >>= fun s => .ok (encode s)

/-- What a function of the native module does: return a string or throw a `TypeError`, with a message of its own or (`refused`)
with one of `neon`, which is not modelled. -/
inductive Reply (α : Type) where
  | value (x : α)
  | thrown (message : List Char)
  | refused
  deriving DecidableEq, Repr

/-- JavaScript values, as far as the native module looks at them: `JsString`, `JsBoolean` and all others. -/
inductive JsValue where
  | string (s : List Char)
  | boolean (b : Bool)
  | other
  deriving DecidableEq, Repr

/-- `cx.argument::<JsString>(i)?` of `neon`: a `TypeError` if there is no such argument or if it is no string. -/
def argString (args : List JsValue) (i : Nat) (f : List Char → Out (Reply α)) : Out (Reply α) :=
  match args[i]? with
  | some (.string s) => f s
  | _ => .ok .refused

/-- `cx.argument::<JsBoolean>(i)?` of `neon`. -/
def argBoolean (args : List JsValue) (i : Nat) (f : Bool → Out (Reply α)) : Out (Reply α) :=
  match args[i]? with
  | some (.boolean b) => f b
  | _ => .ok .refused

/-- `transform` of `ffi/native/src/lib.rs:57-76`; `args` are the arguments of the call. -/
def nativeTransform (fuel : Nat) (args : List JsValue) : Out (Reply Bytes) :=
  if args.length = 0 then .ok (.thrown "First argument must be a string".toList)
  else
    argString args 0 fun source =>
    argBoolean args 1 fun minify =>
    parse fuel (encode source) >>= fun
      | .ok m => codegen m minify >>= fun x => .ok (.value x)
      | .error es => errorMessages source es >>= fun ms => .ok (.thrown (joinLines ms))

/-- `ast` of `ffi/native/src/lib.rs:36-55` with `generate_ast`, 28-34. -/
def nativeAst [Floats] (fuel : Nat) (args : List JsValue) : Out (Reply Bytes) :=
  if args.length = 0 then .ok (.thrown "First argument must be a string".toList)
  else
    argString args 0 fun source =>
    argBoolean args 1 fun minify =>
    parse fuel (encode source) >>= fun
      | .ok m => genModule m >>= fun j => .ok (.value (jsonText minify j))
      | .error es => errorMessages source es >>= fun ms => .ok (.thrown (joinLines ms))

/-- `generate_ast` of `ratel-wasm/src/lib.rs:38-49`. -/
def wasmAst [Printing] (fuel : Nat) (source : List Char) (minify : Bool) : Out (List Char) :=
  parse fuel (encode source) >>= fun
    | .ok m => if minify then dumpBody false m else dumpBody true m
    | .error es => wasmErrors source es

/-- `parse` of `ffi/native/src/lib.rs:78-97`. -/
def nativeParse [Printing] (fuel : Nat) (args : List JsValue) : Out (Reply (List Char)) :=
  if args.length = 0 then .ok (.thrown "First argument must be a string".toList)
  else
    argString args 0 fun source =>
    parse fuel (encode source) >>= fun
      | .ok m => dumpBody false m >>= fun x => .ok (.value x)
      | .error es => errorMessages source es >>= fun ms => .ok (.thrown (joinLines ms))

end Ratel
