import Verif.Props.Debug
import Verif.Props.JsonText
/-! C74: the functions of the native module check their arguments. -/
namespace Ratel
open Spec

section
variable [Unicode]

/-- The call was answered with a `TypeError`, whatever the source. -/
def Reply.isError : Reply α → Bool
  | .value _ => false
  | _ => true

/-- C74: `transform` gets to the parser only if the first argument is a string and the second one a boolean; otherwise it throws. What
follows these two is ignored. -/
theorem C74_transform (fuel : Nat) (args : List JsValue) :
    (∃ source minify more, args = .string source :: .boolean minify :: more ∧
      nativeTransform fuel args = nativeTransform fuel [.string source, .boolean minify]) ∨
    ((¬ ∃ source minify more, args = .string source :: .boolean minify :: more) ∧
      ∃ r, nativeTransform fuel args = .ok r ∧ r.isError = true) := by
  rcases args with _ | ⟨_ | _ | _, _ | ⟨_ | _ | _, more⟩⟩
  case cons.string.cons.boolean s b => exact .inl ⟨s, b, more, rfl, rfl⟩
  all_goals exact .inr ⟨by simp, _, rfl, rfl⟩

/-- C74: the same for `ast`. -/
theorem C74_ast [Floats] (fuel : Nat) (args : List JsValue) :
    (∃ source minify more, args = .string source :: .boolean minify :: more ∧
      nativeAst fuel args = nativeAst fuel [.string source, .boolean minify]) ∨
    ((¬ ∃ source minify more, args = .string source :: .boolean minify :: more) ∧
      ∃ r, nativeAst fuel args = .ok r ∧ r.isError = true) := by
  rcases args with _ | ⟨_ | _ | _, _ | ⟨_ | _ | _, more⟩⟩
  case cons.string.cons.boolean s b => exact .inl ⟨s, b, more, rfl, rfl⟩
  all_goals exact .inr ⟨by simp, _, rfl, rfl⟩

/-- C74: `parse` needs a string only. -/
theorem C74_parse [Printing] (fuel : Nat) (args : List JsValue) :
    (∃ source more, args = .string source :: more ∧ nativeParse fuel args = nativeParse fuel [.string source]) ∨
    ((¬ ∃ source more, args = .string source :: more) ∧ ∃ r, nativeParse fuel args = .ok r ∧ r.isError = true) := by
  rcases args with _ | ⟨_ | _ | _, more⟩
  case cons.string s => exact .inl ⟨s, more, rfl, rfl⟩
  all_goals exact .inr ⟨by simp, _, rfl, rfl⟩

/-- C74: without arguments, the message says what is missing. -/
theorem C74_no_arguments [Floats] [Printing] (fuel : Nat) :
    nativeTransform fuel [] = .ok (.thrown "First argument must be a string".toList) ∧
    nativeAst fuel [] = .ok (.thrown "First argument must be a string".toList) ∧
    nativeParse fuel [] = .ok (.thrown "First argument must be a string".toList) := ⟨rfl, rfl, rfl⟩

/-- C74: exactly the accepted sources, with the right arguments, are answered with a value by `transform` (if `parse` returns). -/
theorem C74_value_iff {fuel : Nat} {args : List JsValue} :
    (∃ x, nativeTransform fuel args = .ok (.value x)) ↔
    ∃ source minify more m, args = .string source :: .boolean minify :: more ∧ parse fuel (utf8 source) = .ok (.ok m) := by
  constructor
  · rintro ⟨x, hx⟩
    rcases C74_transform fuel args with ⟨s, b, more, rfl, -⟩ | ⟨-, r, hr, he⟩
    · rw [nativeTransform_args, encode_eq] at hx
      cases hp : parse fuel (utf8 s) with
      | ok r =>
        cases r with
        | ok m => exact ⟨s, b, more, m, rfl, hp⟩
        | error es =>
          obtain ⟨ms, h1, -⟩ := errorMessages_parse hp
          simp only [hp, Out.bind_ok, h1] at hx
          cases hx
      | _ => rw [hp] at hx; cases hx
    · rw [hx] at hr
      cases hr
      cases he
  · rintro ⟨s, b, more, m, rfl, hm⟩
    obtain ⟨x, -, -, -, hx⟩ := C49_accepted (more := more) hm b
    exact ⟨x, hx⟩

end

/-! ### Examples -/

section
local instance uniArguments : Unicode := ⟨fun _ => true⟩

/-- `transform('Math.pow(2, 2)', true)`, and with another argument. -/
example : nativeTransform 60 [.string "Math.pow(2, 2)".toList, .boolean true] = .ok (.value bs!"Math.pow(2,2);") := by decide +kernel
example : nativeTransform 60 [.string "a".toList, .boolean true, .other] = .ok (.value bs!"a;") := by decide +kernel

/-- The second argument is not optional. -/
example : nativeTransform 60 [.string "".toList] = .ok .refused ∧ nativeTransform 60 [.boolean true, .string "".toList] = .ok .refused :=
  ⟨rfl, rfl⟩

/-- A source that is not accepted. -/
example : (match nativeTransform 60 [.string "function function () {}".toList, .boolean true] with
    | .ok r => r.isError | _ => false) = true := by decide +kernel
end

end Ratel
