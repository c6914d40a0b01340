/-! Bytes, byte literals and outcomes of a run. -/
namespace Ratel

/-- A byte of the source (`u8`). -/
abbrev Byte := UInt8

/-- Source text and `&str` slices are byte strings. -/
abbrev Bytes := List UInt8

/-- `#b'x'` is the byte literal `b'x'` of the Rust source. -/
macro:max "#b" c:char : term => do
  let n := Lean.Syntax.mkNumLit (toString c.getChar.toNat)
  `(($n : UInt8))

/-- `bs!"abc"` is the byte string literal `b"abc"` (UTF-8). -/
macro:max "bs!" s:str : term => do
  let bs := s.getString.toUTF8.toList
  let elems ← bs.mapM fun b => do
    let n := Lean.Syntax.mkNumLit (toString b.toNat)
    `(($n : UInt8))
  let elems := elems.toArray
  `(([$elems,*] : List UInt8))

/-- Outcome of running a piece of the Rust program.
`oob` is a read behind the NUL that terminates the source buffer (undefined behaviour),
`panic` a Rust panic, `timeout` means that the fuel of the model was used up. -/
inductive Out (α : Type u) where
  | ok (a : α)
  | oob
  | panic
  | timeout
deriving DecidableEq, Repr

namespace Out

/-- Sequencing: stops at the first abnormal outcome. -/
@[inline] protected def bind (x : Out α) (f : α → Out β) : Out β :=
  match x with
  | .ok a => f a
  | .oob => .oob
  | .panic => .panic
  | .timeout => .timeout

instance : Monad Out where
  pure := .ok
  bind := Out.bind

@[simp] theorem pure_eq (a : α) : (pure a : Out α) = .ok a := rfl
@[simp] theorem bind_ok (a : α) (f : α → Out β) : ((Out.ok a) >>= f) = f a := rfl
@[simp] theorem bind_oob (f : α → Out β) : ((Out.oob : Out α) >>= f) = .oob := rfl
@[simp] theorem bind_panic (f : α → Out β) : ((Out.panic : Out α) >>= f) = .panic := rfl
@[simp] theorem bind_timeout (f : α → Out β) : ((Out.timeout : Out α) >>= f) = .timeout := rfl

theorem bind_eq_ok {x : Out α} {f : α → Out β} {b : β} :
    (x >>= f) = .ok b ↔ ∃ a, x = .ok a ∧ f a = .ok b := by
  cases x <;> simp

end Out
end Ratel
