import Verif.Token
import Verif.Base
/-! The lexer: `ratel/src/lexer/{mod,labels,util}.rs`.

The Rust lexer walks over a raw pointer to a NUL terminated copy of the source. The model keeps
the suffix of the source that starts at `index`; at its end it reads the terminating NUL, and
moving behind that NUL (always followed by a read there in the Rust code) is the outcome `oob`. -/
namespace Ratel

/-- `char::is_alphanumeric` of the Rust standard library, on code points. It is left
uninterpreted: every theorem holds for any such predicate. Used by `UNI`,
`ratel/src/lexer/mod.rs:459-476`. -/
class Unicode where
  isAlphanumeric : Nat → Bool

/-- `Asi`, `ratel/src/lexer/mod.rs:40-54`. -/
inductive Asi where
  | ExplicitSemicolon | ImplicitSemicolon | NoSemicolon
deriving DecidableEq, Repr, Inhabited

/-- `Lexer`, `ratel/src/lexer/mod.rs:602-621`. The pointer is modelled by the whole source `src`
(for slices) and its suffix `rest` at `index`. -/
structure Lex where
  src : Bytes
  rest : Bytes
  index : Nat
  tokenStart : Nat
  accessorStart : Nat
  token : Token
  asi : Asi
  quasi : Bytes
deriving DecidableEq, Repr

/-- `legal_in_label`, `ratel/src/lexer/util.rs:1-33`: digits, letters, `$`, `_`, backslash and all
non-ASCII bytes. -/
def legalInLabel (b : Byte) : Bool :=
  b == #b'$' || (#b'0' ≤ b && b ≤ #b'9') || (#b'A' ≤ b && b ≤ #b'Z') || b == #b'\\' ||
  b == #b'_' || (#b'a' ≤ b && b ≤ #b'z') || 128 ≤ b

/-- The ASCII table of `read_accessor`, `ratel/src/lexer/mod.rs:857-874`: bytes that can start a
property name. -/
def accessorStartTable (b : Byte) : Bool :=
  b == #b'$' || (#b'A' ≤ b && b ≤ #b'Z') || b == #b'\\' || b == #b'_' || (#b'a' ≤ b && b ≤ #b'z')

/-- Names of the byte handlers, `ratel/src/lexer/mod.rs:80-600` and
`ratel/src/lexer/labels.rs:39-246`. `WS` is the empty table entry `___`. -/
inductive Handler where
  | WS | ERR | EOF | SEM | COL | COM | PNO | PNC | BTO | BTC | BEO | BEC
  | EQL | EXL | LSS | MOR | QST | TLD | CRT | AMP | PIP | PLS | MIN | ATR | SLH | PRC
  | UNI | ZER | DIG | PRD | QOT | TPL | IDT
  | L_B | L_C | L_D | L_E | L_F | L_I | L_L | L_N | L_P | L_R | L_S | L_T | L_U | L_V | L_W | L_Y
deriving DecidableEq, Repr

open Handler in
/-- `BYTE_HANDLERS`, `ratel/src/lexer/mod.rs:59-78`, rows 0 to 7 (the rows 8 to F are all `UNI`). -/
def byteHandlers : List Handler := [
  EOF, WS,  WS,  WS,  WS,  WS,  WS,  WS,  WS,  WS,  WS,  WS,  WS,  WS,  WS,  WS,
  WS,  WS,  WS,  WS,  WS,  WS,  WS,  WS,  WS,  WS,  WS,  WS,  WS,  WS,  WS,  WS,
  WS,  EXL, QOT, ERR, IDT, PRC, AMP, QOT, PNO, PNC, ATR, PLS, COM, MIN, PRD, SLH,
  ZER, DIG, DIG, DIG, DIG, DIG, DIG, DIG, DIG, DIG, COL, SEM, LSS, EQL, MOR, QST,
  ERR, IDT, IDT, IDT, IDT, IDT, IDT, IDT, IDT, IDT, IDT, IDT, IDT, IDT, IDT, IDT,
  IDT, IDT, IDT, IDT, IDT, IDT, IDT, IDT, IDT, IDT, IDT, BTO, IDT, BTC, CRT, IDT,
  TPL, IDT, L_B, L_C, L_D, L_E, L_F, IDT, IDT, L_I, IDT, IDT, L_L, IDT, L_N, IDT,
  L_P, IDT, L_R, L_S, L_T, L_U, L_V, L_W, IDT, L_Y, IDT, BEO, PIP, BEC, TLD, ERR]

/-- `Lexer::handler_from_byte`, `ratel/src/lexer/mod.rs:693-696`. -/
def handlerOf (b : Byte) : Handler := byteHandlers.getD b.toNat .UNI

/-- The byte tries written with `match_label!`, `ratel/src/lexer/labels.rs:4-37`:
`leaf bs t` is `[bs => t]`, `node none brs` is `{ brs }` and `node (some t) brs` is
`{ [=> t] brs }`. -/
inductive Trie where
  | leaf (bs : Bytes) (t : Token)
  | node (dflt : Option Token) (brs : List (Byte × Trie))

open Trie Token in
/-- The tries of the handlers `L_B` … `L_Y`, `ratel/src/lexer/labels.rs:46-246`. -/
def labelTrie : Handler → Option Trie
  | .L_B => some (leaf bs!"reak" Break)
  | .L_C => some (node none [
      (#b'o', node none [(#b'n', node none [
        (#b's', leaf bs!"t" DeclarationConst), (#b't', leaf bs!"inue" Continue)])]),
      (#b'a', node none [(#b's', leaf bs!"e" Case), (#b't', leaf bs!"ch" Catch)]),
      (#b'l', leaf bs!"ass" Class)])
  | .L_D => some (node none [
      (#b'o', leaf [] Do),
      (#b'e', node none [
        (#b'l', leaf bs!"ete" OperatorDelete), (#b'f', leaf bs!"ault" Default),
        (#b'b', leaf bs!"ugger" Debugger)])])
  | .L_E => some (node none [
      (#b'l', leaf bs!"se" Else),
      (#b'x', node none [(#b'p', leaf bs!"ort" Export), (#b't', leaf bs!"ends" Extends)]),
      (#b'n', leaf bs!"um" ReservedEnum)])
  | .L_F => some (node none [
      (#b'i', leaf bs!"nally" Finally), (#b'o', leaf bs!"r" For),
      (#b'u', leaf bs!"nction" Function), (#b'a', leaf bs!"lse" LiteralFalse)])
  | .L_I => some (node none [
      (#b'n', node (some OperatorIn) [
        (#b's', leaf bs!"tanceof" OperatorInstanceof),
        (#b't', leaf bs!"erface" ReservedInterface)]),
      (#b'f', leaf [] If),
      (#b'm', node none [(#b'p', node none [
        (#b'o', leaf bs!"rt" Import), (#b'l', leaf bs!"ements" ReservedImplements)])])])
  | .L_L => some (leaf bs!"et" DeclarationLet)
  | .L_N => some (node none [(#b'e', leaf bs!"w" OperatorNew), (#b'u', leaf bs!"ll" LiteralNull)])
  | .L_P => some (node none [
      (#b'a', leaf bs!"ckage" ReservedPackage), (#b'u', leaf bs!"blic" ReservedPublic),
      (#b'r', node none [
        (#b'o', leaf bs!"tected" ReservedProtected), (#b'i', leaf bs!"vate" ReservedPrivate)])])
  | .L_R => some (leaf bs!"eturn" Return)
  | .L_S => some (node none [
      (#b'u', leaf bs!"per" Super), (#b'w', leaf bs!"itch" Switch), (#b't', leaf bs!"atic" Static)])
  | .L_T => some (node none [
      (#b'y', leaf bs!"peof" OperatorTypeof),
      (#b'h', node none [(#b'i', leaf bs!"s" This), (#b'r', leaf bs!"ow" Throw)]),
      (#b'r', node none [(#b'y', leaf [] Try), (#b'u', leaf bs!"e" LiteralTrue)])])
  | .L_U => some (leaf bs!"ndefined" LiteralUndefined)
  | .L_V => some (node none [
      (#b'a', leaf bs!"r" DeclarationVar), (#b'o', leaf bs!"id" OperatorVoid)])
  | .L_W => some (node none [(#b'h', leaf bs!"ile" While), (#b'i', leaf bs!"th" With)])
  | .L_Y => some (leaf bs!"ield" Yield)
  | _ => none

namespace Lex

/-- `Lexer::read_byte`, `ratel/src/lexer/mod.rs:812-815`. -/
def readByte (l : Lex) : Byte := l.rest.headD 0

/-- `Lexer::bump`, `ratel/src/lexer/mod.rs:819-822`; behind the NUL it is `oob`. -/
def bump (l : Lex) : Out Lex :=
  match l.rest with
  | [] => .oob
  | _ :: r => .ok { l with rest := r, index := l.index + 1 }

/-- `lex.token = t` -/
def setToken (l : Lex) (t : Token) : Lex := { l with token := t }

/-- Move to a later position whose suffix is `rest`. -/
def moveTo (l : Lex) (rest : Bytes) (index : Nat) : Lex := { l with rest := rest, index := index }

/-- `Lexer::slice_source`, `ratel/src/lexer/mod.rs:912-921`. -/
def sliceSource (l : Lex) (start stop : Nat) : Bytes := (l.src.drop start).take (stop - start)

/-- `Lexer::token_as_str`, `ratel/src/lexer/mod.rs:679-682`. -/
def tokenAsStr (l : Lex) : Bytes := l.sliceSource l.tokenStart l.index

/-- `Lexer::accessor_as_str`, `ratel/src/lexer/mod.rs:687-690`. -/
def accessorAsStr (l : Lex) : Bytes := l.sliceSource l.accessorStart l.index

/-- Skip over bytes satisfying `p`; all uses have `p 0 = false`, so the loop stops at the NUL. -/
def skipWhileGo (p : Byte → Bool) : Bytes → Nat → Bytes × Nat
  | [], i => ([], i)
  | c :: r, i => if p c then skipWhileGo p r (i + 1) else (c :: r, i)

/-- The loop `while p(self.read_byte()) { self.bump() }`. -/
def skipWhile (p : Byte → Bool) (l : Lex) : Lex :=
  let (r, i) := skipWhileGo p l.rest l.index
  l.moveTo r i

/-- `Lexer::read_label`, `ratel/src/lexer/mod.rs:899-904`. -/
def readLabel (l : Lex) : Lex := l.skipWhile legalInLabel

/-- `b'0'..=b'9'` -/
def isDigit (b : Byte) : Bool := #b'0' ≤ b && b ≤ #b'9'

/-- `Lexer::read_binary`, `ratel/src/lexer/mod.rs:830-845`. -/
def readBinary (l : Lex) : Lex :=
  (l.skipWhile fun b => b == #b'0' || b == #b'1').setToken .LiteralBinary

/-- `Lexer::read_octal`, `ratel/src/lexer/mod.rs:923-933`. -/
def readOctal (l : Lex) : Lex :=
  (l.skipWhile fun b => #b'0' ≤ b && b ≤ #b'7').setToken .LiteralNumber

/-- `Lexer::read_hexadec`, `ratel/src/lexer/mod.rs:935-947`. -/
def readHexadec (l : Lex) : Lex :=
  (l.skipWhile fun b => isDigit b || (#b'a' ≤ b && b ≤ #b'f') || (#b'A' ≤ b && b ≤ #b'F')).setToken
    .LiteralNumber

/-- `Lexer::read_scientific`, `ratel/src/lexer/mod.rs:965-981`. -/
def readScientific (l : Lex) : Out Lex := do
  let l ← if l.readByte = #b'-' ∨ l.readByte = #b'+' then l.bump else .ok l
  .ok ((l.skipWhile isDigit).setToken .LiteralNumber)

/-- `Lexer::read_float`, `ratel/src/lexer/mod.rs:949-963`. -/
def readFloat (l : Lex) : Out Lex := do
  let l := l.skipWhile isDigit
  if l.readByte = #b'e' ∨ l.readByte = #b'E' then
    let l ← l.bump
    l.readScientific
  else .ok (l.setToken .LiteralNumber)

/-- The loop of `read_accessor`, `ratel/src/lexer/mod.rs:876-896`: skip bytes up to `0x20`
(including the NUL: then the read is out of bounds), return the position of the name. -/
def accessorGo : Bytes → Nat → Option (Byte × Bytes × Nat)
  | [], _ => none
  | c :: r, i => if 0x20 < c then some (c, c :: r, i) else accessorGo r (i + 1)

/-- `Lexer::read_accessor`, `ratel/src/lexer/mod.rs:847-897`. -/
def readAccessor (l : Lex) : Out Lex :=
  match accessorGo l.rest l.index with
  | none => .oob
  | some (c, r, i) =>
    let l := { l.moveTo r i with accessorStart := i }
    if 127 < c then .panic
    else if accessorStartTable c then .ok (l.readLabel.setToken .Accessor)
    else .ok (l.setToken .UnexpectedToken)

/-- The loop of `read_template_kind`, `ratel/src/lexer/mod.rs:742-780`. The result is the token,
the end of the quasi and the new position; `none` is a read behind the NUL. -/
def templateGo : Bytes → Nat → Option (Token × Nat × Bytes × Nat)
  | [], _ => none
  | c :: r, i =>
    if c = #b'`' then some (.TemplateClosed, i, r, i + 1)
    else if c = #b'$' then
      match r with
      | [] => none
      | d :: r' => if d = #b'{' then some (.TemplateOpen, i, r', i + 2) else templateGo (d :: r') (i + 1)
    else if c = #b'\\' then
      match r with
      | [] => some (.UnexpectedEndOfProgram, 0, [], i + 1)
      | d :: r' => if d = 0 then some (.UnexpectedEndOfProgram, 0, d :: r', i + 1) else templateGo r' (i + 2)
    else templateGo r (i + 1)

/-- `Lexer::read_template_kind`, `ratel/src/lexer/mod.rs:738-781`. -/
def readTemplateKind (l : Lex) : Out Lex :=
  match templateGo l.rest l.index with
  | none => .oob
  | some (t, e, r, i) =>
    let l' := (l.moveTo r i).setToken t
    .ok (if t = .UnexpectedEndOfProgram then l' else { l' with quasi := l.sliceSource l.index e })

/-- The loop of `read_regular_expression`, `ratel/src/lexer/mod.rs:987-1019`: the token to report
and the new position; `none` is a read behind the NUL. -/
def regexGo : Bool → Bytes → Nat → Option (Token × Bytes × Nat)
  | _, [], _ => none
  | inClass, c :: r, i =>
    if c = #b'[' then regexGo true r (i + 1)
    else if c = #b']' then regexGo false r (i + 1)
    else if c = #b'/' then if inClass then regexGo inClass r (i + 1) else some (.LiteralRegEx, r, i + 1)
    else if c = #b'\\' then
      match r with
      | [] => some (.UnexpectedEndOfProgram, [], i + 1)
      | d :: r' => if d = 0 then some (.UnexpectedEndOfProgram, d :: r', i + 1) else regexGo inClass r' (i + 2)
    else if c = #b'\n' then some (.UnexpectedToken, r, i + 1)
    else regexGo inClass r (i + 1)

/-- Flags accepted after a regular expression, `ratel/src/lexer/mod.rs:1021`. -/
def regexFlag (b : Byte) : Bool :=
  b == #b'g' || b == #b'i' || b == #b'm' || b == #b'u' || b == #b'y'

/-- `Lexer::read_regular_expression`, `ratel/src/lexer/mod.rs:983-1028`: new state and text. -/
def readRegularExpression (l : Lex) : Out (Lex × Bytes) :=
  match regexGo false l.rest l.index with
  | none => .oob
  | some (.LiteralRegEx, r, i) =>
    let l' := ((l.moveTo r i).skipWhile regexFlag).setToken .LiteralRegEx
    .ok (l', l'.sliceSource (l.index - 1) l'.index)
  | some (t, r, i) => .ok ((l.moveTo r i).setToken t, [])

/-- The loop of `QOT`, `ratel/src/lexer/mod.rs:577-592`. -/
def quoteGo (style : Byte) : Bytes → Nat → Token × Bytes × Nat
  | [], i => (.UnexpectedEndOfProgram, [], i)
  | c :: r, i =>
    if c = style then (.LiteralString, r, i + 1)
    else if c = #b'\\' then
      match r with
      | [] => (.UnexpectedEndOfProgram, [], i + 1)
      | d :: r' => if d = 0 then (.UnexpectedEndOfProgram, d :: r', i + 1) else quoteGo style r' (i + 2)
    else if c = 0 then (.UnexpectedEndOfProgram, c :: r, i)
    else quoteGo style r (i + 1)

/-- The loop of a block comment in `SLH`, `ratel/src/lexer/mod.rs:419-436`: whether the comment was
closed, and the new position. -/
def blockCommentGo : Bytes → Nat → Bool × Bytes × Nat
  | [], i => (false, [], i)
  | c :: r, i =>
    if c = #b'*' then
      match r with
      | [] => (false, [], i + 1)
      | d :: r' =>
        if d = #b'/' then (true, r', i + 2)
        else if d = 0 then (false, d :: r', i + 1)
        else blockCommentGo (d :: r') (i + 1)
    else if c = 0 then (false, c :: r, i)
    else blockCommentGo r (i + 1)

/-- The chain of byte comparisons of a leaf of `match_label!`, `ratel/src/lexer/labels.rs:5-11`:
the new position and whether the keyword matched. -/
def matchLeaf : Bytes → Lex → Out (Lex × Bool)
  | [], l => do
    let l ← l.bump
    .ok (l, !legalInLabel l.readByte)
  | b :: bs, l => do
    let l ← l.bump
    if l.readByte = b then matchLeaf bs l else .ok (l, false)

mutual
/-- `match_label!`, `ratel/src/lexer/labels.rs:4-37`: the new position and the keyword, if any. -/
def matchLabel : Trie → Lex → Out (Lex × Option Token)
  | .leaf bs t, l => do
    let (l, b) ← matchLeaf bs l
    .ok (l, if b then some t else none)
  | .node dflt brs, l => do
    let l ← l.bump
    matchBranches dflt brs l
/-- The arms of the `match` generated by `match_label!`, `ratel/src/lexer/labels.rs:14-35`. -/
def matchBranches : Option Token → List (Byte × Trie) → Lex → Out (Lex × Option Token)
  | dflt, [], l =>
    .ok (l, match dflt with
      | some t => if legalInLabel l.readByte then none else some t
      | none => none)
  | dflt, (b, t) :: brs, l =>
    if l.readByte = b then matchLabel t l else matchBranches dflt brs l
end

/-- The body shared by the handlers `L_B` … `L_Y`, `ratel/src/lexer/labels.rs:46-51` etc. -/
def labelHandler (t : Trie) (l : Lex) : Out Lex := do
  let (l, tok) ← matchLabel t l
  match tok with
  | some tok => .ok (l.setToken tok)
  | none => .ok (l.readLabel.setToken .Identifier)

/-- Continuation bytes of UTF-8. -/
def isCont (b : Byte) : Bool := 0x80 ≤ b && b < 0xC0

/-- Decoding of the first character by `str::chars`, as used in `UNI`
(`ratel/src/lexer/mod.rs:463`): the code point; only the bytes announced by the first byte are
read. `none` when these bytes are not there or not continuation bytes, which does not happen for the
valid UTF-8 of a Rust `&str` (otherwise the behaviour of `chars` is undefined). -/
def decodeFirst : Bytes → Option Nat
  | [] => none
  | x :: r =>
    if x < 0x80 then some x.toNat
    else if x < 0xC0 then none
    else match r with
      | [] => none
      | y :: r =>
        if !isCont y then none
        else if x < 0xE0 then some ((x.toNat % 32) * 64 + y.toNat % 64)
        else match r with
          | [] => none
          | z :: r =>
            if !isCont z then none
            else if x < 0xF0 then some ((x.toNat % 16) * 4096 + (y.toNat % 64) * 64 + z.toNat % 64)
            else match r with
              | [] => none
              | w :: _ =>
                if !isCont w then none
                else some ((x.toNat % 8) * 262144 + (y.toNat % 64) * 4096 + (z.toNat % 64) * 64 + w.toNat % 64)

/-- `char::len_utf8`. -/
def lenUtf8 (c : Nat) : Nat :=
  if c < 0x80 then 1 else if c < 0x800 then 2 else if c < 0x10000 then 3 else 4

section
variable [Unicode]

/-- `UNI`, `ratel/src/lexer/mod.rs:459-476`. -/
def uni (l : Lex) : Out Lex :=
  match decodeFirst l.rest with
  | none => .oob
  | some c =>
    if Unicode.isAlphanumeric c then
      let k := lenUtf8 c - 1
      .ok ((l.moveTo (l.rest.drop k) (l.index + k)).readLabel.setToken .Identifier)
    else .ok (l.setToken .UnexpectedToken)

/-- `bump` and set a one byte token, `ratel/src/lexer/mod.rs:82-160` etc. -/
def single (t : Token) (l : Lex) : Out Lex := do
  let l ← l.bump
  .ok (l.setToken t)

/-- `EQL`, `ratel/src/lexer/mod.rs:163-187`. -/
def eql (l : Lex) : Out Lex := do
  let l ← l.bump
  if l.readByte = #b'=' then
    let l ← l.bump
    if l.readByte = #b'=' then l.single .OperatorStrictEquality
    else .ok (l.setToken .OperatorEquality)
  else if l.readByte = #b'>' then l.single .OperatorFatArrow
  else .ok (l.setToken .OperatorAssign)

/-- `EXL`, `ratel/src/lexer/mod.rs:190-206`. -/
def exl (l : Lex) : Out Lex := do
  let l ← l.bump
  if l.readByte = #b'=' then
    let l ← l.bump
    if l.readByte = #b'=' then l.single .OperatorStrictInequality
    else .ok (l.setToken .OperatorInequality)
  else .ok (l.setToken .OperatorLogicalNot)

/-- `LSS`, `ratel/src/lexer/mod.rs:209-231`. -/
def lss (l : Lex) : Out Lex := do
  let l ← l.bump
  if l.readByte = #b'<' then
    let l ← l.bump
    if l.readByte = #b'=' then l.single .OperatorBSLAssign
    else .ok (l.setToken .OperatorBitShiftLeft)
  else if l.readByte = #b'=' then l.single .OperatorLesserEquals
  else .ok (l.setToken .OperatorLesser)

/-- `MOR`, `ratel/src/lexer/mod.rs:234-270`. -/
def mor (l : Lex) : Out Lex := do
  let l ← l.bump
  if l.readByte = #b'>' then
    let l ← l.bump
    if l.readByte = #b'>' then
      let l ← l.bump
      if l.readByte = #b'=' then l.single .OperatorUBSRAssign
      else .ok (l.setToken .OperatorUBitShiftRight)
    else if l.readByte = #b'=' then l.single .OperatorBSRAssign
    else .ok (l.setToken .OperatorBitShiftRight)
  else if l.readByte = #b'=' then l.single .OperatorGreaterEquals
  else .ok (l.setToken .OperatorGreater)

/-- `CRT`, `ratel/src/lexer/mod.rs:287-297`. -/
def crt (l : Lex) : Out Lex := do
  let l ← l.bump
  if l.readByte = #b'=' then l.single .OperatorBitXorAssign
  else .ok (l.setToken .OperatorBitwiseXor)

/-- The common shape of `AMP`, `PIP`, `PLS` and `MIN`, `ratel/src/lexer/mod.rs:300-369`:
`cc` gives `twice`, `c=` gives `assign`, `c` alone gives `one`. -/
def doubled (c : Byte) (twice assign one : Token) (l : Lex) : Out Lex := do
  let l ← l.bump
  if l.readByte = c then l.single twice
  else if l.readByte = #b'=' then l.single assign
  else .ok (l.setToken one)

/-- `ATR`, `ratel/src/lexer/mod.rs:372-394`. -/
def atr (l : Lex) : Out Lex := do
  let l ← l.bump
  if l.readByte = #b'*' then
    let l ← l.bump
    if l.readByte = #b'=' then l.single .OperatorExponentAssign
    else .ok (l.setToken .OperatorExponent)
  else if l.readByte = #b'=' then l.single .OperatorMultiplyAssign
  else .ok (l.setToken .OperatorMultiplication)

/-- `PRC`, `ratel/src/lexer/mod.rs:446-456`. -/
def prc (l : Lex) : Out Lex := do
  let l ← l.bump
  if l.readByte = #b'=' then l.single .OperatorRemainderAssign
  else .ok (l.setToken .OperatorRemainder)

/-- `SLH`, `ratel/src/lexer/mod.rs:397-443`; `again` stands for the call of `lex.consume()` after a
comment. -/
def slh (again : Lex → Out Lex) (l : Lex) : Out Lex := do
  let l ← l.bump
  if l.readByte = #b'/' then
    let l ← l.bump
    again (l.skipWhile fun b => b != 0 && b != #b'\n')
  else if l.readByte = #b'*' then
    let l ← l.bump
    match blockCommentGo l.rest l.index with
    | (true, r, i) => again (l.moveTo r i)
    | (false, r, i) => .ok ((l.moveTo r i).setToken .UnexpectedEndOfProgram)
  else if l.readByte = #b'=' then l.single .OperatorDivideAssign
  else .ok (l.setToken .OperatorDivision)

/-- The digits loop of `ZER` (`ratel/src/lexer/mod.rs:502-518`) and, after the first digit, of
`DIG` (`ratel/src/lexer/mod.rs:525-541`). -/
def digitsLoop (l : Lex) : Out Lex := do
  let l := l.skipWhile isDigit
  if l.readByte = #b'.' then
    let l ← l.bump
    l.readFloat
  else if l.readByte = #b'e' ∨ l.readByte = #b'E' then
    let l ← l.bump
    l.readScientific
  else .ok (l.setToken .LiteralNumber)

/-- `ZER`, `ratel/src/lexer/mod.rs:479-521`. -/
def zer (l : Lex) : Out Lex := do
  let l ← l.bump
  if l.readByte = #b'b' ∨ l.readByte = #b'B' then
    let l ← l.bump
    .ok l.readBinary
  else if l.readByte = #b'o' ∨ l.readByte = #b'O' then
    let l ← l.bump
    .ok l.readOctal
  else if l.readByte = #b'x' ∨ l.readByte = #b'X' then
    let l ← l.bump
    .ok l.readHexadec
  else l.digitsLoop

/-- `DIG`, `ratel/src/lexer/mod.rs:524-542`. -/
def dig (l : Lex) : Out Lex := do
  let l ← l.bump
  l.digitsLoop

/-- `PRD`, `ratel/src/lexer/mod.rs:545-569`. -/
def prd (l : Lex) : Out Lex := do
  let l ← l.bump
  if isDigit l.readByte then
    let l ← l.bump
    l.readFloat
  else if l.readByte = #b'.' then
    let l ← l.bump
    if l.readByte = #b'.' then l.single .OperatorSpread
    else .ok (l.setToken .UnexpectedToken)
  else l.readAccessor

/-- `QOT`, `ratel/src/lexer/mod.rs:572-593`. -/
def qot (l : Lex) : Out Lex := do
  let style := l.readByte
  let l ← l.bump
  let (t, r, i) := quoteGo style l.rest l.index
  .ok ((l.moveTo r i).setToken t)

/-- `IDT`, `ratel/src/lexer/labels.rs:39-44`. -/
def idt (l : Lex) : Out Lex := do
  let l ← l.bump
  .ok (l.readLabel.setToken .Identifier)

/-- Dispatch to the byte handlers, `ratel/src/lexer/mod.rs:80-600`. `WS` is handled in `scan`. -/
def runHandler (again : Lex → Out Lex) (h : Handler) (l : Lex) : Out Lex :=
  match h with
  | .WS => .ok l
  | .ERR => l.single .UnexpectedToken
  | .EOF => .ok { l with asi := .ImplicitSemicolon, token := .EndOfProgram }
  | .SEM => do let l ← l.bump; .ok { l with asi := .ExplicitSemicolon, token := .Semicolon }
  | .COL => l.single .Colon
  | .COM => l.single .Comma
  | .PNO => l.single .ParenOpen
  | .PNC => do let l ← l.bump; .ok { l with asi := .ImplicitSemicolon, token := .ParenClose }
  | .BTO => l.single .BracketOpen
  | .BTC => l.single .BracketClose
  | .BEO => l.single .BraceOpen
  | .BEC => do let l ← l.bump; .ok { l with asi := .ImplicitSemicolon, token := .BraceClose }
  | .EQL => l.eql
  | .EXL => l.exl
  | .LSS => l.lss
  | .MOR => l.mor
  | .QST => l.single .OperatorConditional
  | .TLD => l.single .OperatorBitwiseNot
  | .CRT => l.crt
  | .AMP => l.doubled #b'&' .OperatorLogicalAnd .OperatorBitAndAssign .OperatorBitwiseAnd
  | .PIP => l.doubled #b'|' .OperatorLogicalOr .OperatorBitOrAssign .OperatorBitwiseOr
  | .PLS => l.doubled #b'+' .OperatorIncrement .OperatorAddAssign .OperatorAddition
  | .MIN => l.doubled #b'-' .OperatorDecrement .OperatorSubtractAssign .OperatorSubtraction
  | .ATR => l.atr
  | .SLH => l.slh again
  | .PRC => l.prc
  | .UNI => l.uni
  | .ZER => l.zer
  | .DIG => l.dig
  | .PRD => l.prd
  | .QOT => l.qot
  | .TPL => do let l ← l.bump; l.readTemplateKind
  | .IDT => l.idt
  | h => match labelTrie h with
    | some t => l.labelHandler t
    | none => .ok l

/-- The loop of `Lexer::consume`, `ratel/src/lexer/mod.rs:662-675`. The number bounds the steps;
`consume` passes one that is always sufficient. -/
def scan : Nat → Lex → Out Lex
  | 0, _ => .timeout
  | n + 1, l =>
    let c := l.readByte
    if handlerOf c = .WS then do
      let l ← l.bump
      scan n (if c = #b'\n' then { l with asi := .ImplicitSemicolon } else l)
    else
      runHandler (fun l => scan n { l with asi := .NoSemicolon }) (handlerOf c)
        { l with tokenStart := l.index }

/-- `Lexer::consume`, `ratel/src/lexer/mod.rs:656-676`. -/
def consume (l : Lex) : Out Lex :=
  scan (l.rest.length + 1) { l with asi := .NoSemicolon }

/-- The state before the first `consume` in `Lexer::new` and `Lexer::from_ptr`,
`ratel/src/lexer/mod.rs:626-649`. -/
def init (src : Bytes) : Lex :=
  { src, rest := src, index := 0, tokenStart := 0, accessorStart := 0,
    token := .UnexpectedToken, asi := .NoSemicolon, quasi := [] }

/-- `Lexer::new`, `ratel/src/lexer/mod.rs:626-654`. -/
def new (src : Bytes) : Out Lex := (init src).consume

end

end Lex

/-- `Error`, `ratel/src/error.rs:5-11`. -/
structure Err where
  token : Token
  start : Nat
  stop : Nat
  raw : Bytes
deriving DecidableEq, Repr

/-- `Lexer::invalid_token`, `ratel/src/lexer/mod.rs:789-804`. -/
def Lex.invalidToken [Unicode] (l : Lex) : Out (Err × Lex) := do
  let l' ← if l.token = .EndOfProgram then .ok l else l.consume
  .ok ({ token := l.token, start := l.tokenStart, stop := l.index,
         raw := l'.sliceSource l.tokenStart l.index }, l')

end Ratel
