import Verif.Codegen
/-! The buffers of the code generators: `ratel-codegen/src/lib.rs` with its unsafe append to a `Vec<u8>`. `Codegen.lean`
is the same with the texts as values. -/
namespace Ratel

/-- `Vec<u8>` as it lies in memory: the cells of the allocated block (`none`: not written since the allocation), and the length.
The capacity is the number of cells. -/
structure Buf where
  cells : List (Option Byte)
  len : Nat
deriving Repr, DecidableEq

/-- How a `Vec` grows is up to the standard library: from the capacity and the number of cells that are needed, it chooses any
number of cells that is sufficient. (A capacity over `isize::MAX`, a panic, is not modelled.) -/
structure Growth where
  grow : Nat → Nat → Nat
  enough : ∀ c n, n ≤ grow c n

namespace Buf
variable (g : Growth)

/-- `Vec::with_capacity`. -/
def withCapacity (n : Nat) : Buf := ⟨List.replicate (g.grow 0 n) none, 0⟩

/-- `Vec::reserve`: if there is no room for `n` more bytes, the content is moved to a larger block. -/
def reserve (b : Buf) (n : Nat) : Buf :=
  if b.len + n ≤ b.cells.length then b
  else
    let c := g.grow b.cells.length (b.len + n)
    ⟨b.cells.take b.len ++ List.replicate (c - b.len) none, b.len⟩

/-- `Vec::set_len`: a length over the capacity is undefined behaviour. -/
def setLen (b : Buf) (n : Nat) : Out Buf :=
  if n ≤ b.cells.length then .ok { b with len := n } else .oob

/-- `ptr::copy_nonoverlapping(src, dst.as_mut_ptr().add(at), src.len())`: writing behind the block is undefined behaviour.
(`src` is a shared and `dst` an exclusive reference, so they do not overlap.) -/
def copyTo (b : Buf) (at_ : Nat) (src : Bytes) : Out Buf :=
  if at_ + src.length ≤ b.cells.length then
    .ok { b with cells := b.cells.take at_ ++ src.map some ++ b.cells.drop (at_ + src.length) }
  else .oob

/-- `extend_from_slice`, `ratel-codegen/src/lib.rs:327-342`. -/
def extendFromSlice (b : Buf) (src : Bytes) : Out Buf :=
  let dstLen := b.len
  let srcLen := src.length
  let b := b.reserve g srcLen
  (b.setLen (dstLen + srcLen)).bind fun b => b.copyTo dstLen src

/-- `Vec::push`. -/
def push (b : Buf) (x : Byte) : Out Buf :=
  let b := if b.len = b.cells.length then b.reserve g 1 else b
  (b.copyTo b.len [x]).bind fun b => .ok { b with len := b.len + 1 }

/-- The bytes that `String::from_utf8_unchecked` gets, `ratel-codegen/src/lib.rs:108-110,143-145`: reading a byte that was not
written is undefined behaviour. -/
def bytes (b : Buf) : Out Bytes :=
  if b.len ≤ b.cells.length then
    (b.cells.take b.len).foldr (fun c r => match c with | some x => r.bind fun r => .ok (x :: r) | none => .oob) (.ok [])
  else .oob

end Buf

/-- A call of a method of `Generator`, `ratel-codegen/src/lib.rs:13-90`. -/
inductive Call where
  | writeByte (b : Byte)
  | writeBytes (bs : Bytes)
  | writePretty (b : Byte)
  | newLine
  | indent
  | dedent
deriving Repr, DecidableEq

variable (g : Growth)

/-- `MinifyingGenerator`, `ratel-codegen/src/lib.rs:92-124`, with the empty default methods `82-89`. -/
def minCall (code : Buf) : Call → Out Buf
  | .writeByte b => code.push g b
  | .writeBytes bs => code.extendFromSlice g bs
  | _ => .ok code

/-- Any number of calls, from `MinifyingGenerator::default()` on. -/
def minCalls (code : Buf) : List Call → Out Buf
  | [] => .ok code
  | c :: r => (minCall g code c).bind fun code => minCalls code r

/-- `MinifyingGenerator::default()`, the calls, and `consume`. -/
def minGenerator (cs : List Call) : Out Bytes := (minCalls g (.withCapacity g 128) cs).bind Buf.bytes

/-- `PrettyGenerator`, `ratel-codegen/src/lib.rs:126-138`. -/
structure PrettyGen where
  code : Buf
  dent : Nat
deriving Repr, DecidableEq

/-- The loop of `PrettyGenerator::new_line`, `ratel-codegen/src/lib.rs:165-167`. -/
def indentation (code : Buf) : Nat → Out Buf
  | 0 => .ok code
  | n + 1 => (code.extendFromSlice g bs!"    ").bind fun code => indentation code n

/-- `impl Generator for PrettyGenerator`, `ratel-codegen/src/lib.rs:140-179`; `self.dent -= 1` at depth 0 is a panic (in debug
builds). -/
def prettyCall (p : PrettyGen) : Call → Out PrettyGen
  | .writeByte b | .writePretty b => (p.code.push g b).bind fun code => .ok { p with code := code }
  | .writeBytes bs => (p.code.extendFromSlice g bs).bind fun code => .ok { p with code := code }
  | .newLine => (p.code.push g #b'\n').bind fun code => (indentation g code p.dent).bind fun code => .ok { p with code := code }
  | .indent => .ok { p with dent := p.dent + 1 }
  | .dedent => if p.dent = 0 then .panic else .ok { p with dent := p.dent - 1 }

/-- Any number of calls. -/
def prettyCalls (p : PrettyGen) : List Call → Out PrettyGen
  | [] => .ok p
  | c :: r => (prettyCall g p c).bind fun p => prettyCalls p r

/-- `PrettyGenerator::default()`, the calls, and `consume`. -/
def prettyGenerator (cs : List Call) : Out Bytes :=
  (prettyCalls g ⟨.withCapacity g 128, 0⟩ cs).bind fun p => p.code.bytes

end Ratel
