import Verif.Interface
import Verif.Props.Utf8
import Verif.Props.Message
import Verif.Props.RoundTripExamples
import Verif.Lemmas.Decode
/-! C48: the errors of `parse` can be shown. C49: the functions of the bindings. -/
namespace Ratel
open Spec

theorem encode_eq (cs : List Char) : encode cs = utf8 cs := rfl

/-! ### C48 -/

theorem cutAt_append (a b : List Char) : cutAt (a ++ b) (utf8 a).length = .ok (a, b) := by
  induction a with
  | nil => cases b <;> rfl
  | cons c a ih =>
    have hl : (utf8 (c :: a)).length = c.utf8Size + (utf8 a).length := by
      rw [utf8_cons, List.length_append, String.length_utf8EncodeChar]
    have hp : 0 < c.utf8Size := Char.utf8Size_pos c
    obtain ⟨p, hq⟩ : ∃ p, c.utf8Size + (utf8 a).length = p + 1 := ⟨c.utf8Size + (utf8 a).length - 1, by omega⟩
    rw [hl, hq, List.cons_append, cutAt, if_pos (by omega)]
    have : p + 1 - c.utf8Size = (utf8 a).length := by omega
    rw [this, ih]
    rfl

theorem displayUnexpectedToken_ok (a b c : List Char) :
    displayUnexpectedToken (a ++ b ++ c) (utf8 a).length (utf8 (a ++ b)).length = .ok (displayError a b c) := by
  have hl : (utf8 (a ++ b)).length = (utf8 a).length + (utf8 b).length := by rw [utf8_append, List.length_append]
  unfold displayUnexpectedToken
  rw [if_neg (by omega), List.append_assoc, cutAt_append, Out.bind_ok, hl, Nat.add_sub_cancel_left, cutAt_append, Out.bind_ok]

theorem cutAt_ok : ∀ {cs : List Char} {p : Nat} {a b : List Char}, cutAt cs p = .ok (a, b) → cs = a ++ b ∧ (utf8 a).length = p
  | cs, 0, a, b, h => by
    have : cutAt cs 0 = .ok ([], cs) := by cases cs <;> rfl
    rw [this] at h
    cases h
    exact ⟨rfl, rfl⟩
  | [], _ + 1, _, _, h => by cases h
  | c :: cs, p + 1, a, b, h => by
    rw [cutAt] at h
    split at h
    · obtain ⟨⟨a', b'⟩, h1, h2⟩ := Out.bind_eq_ok.1 h
      obtain ⟨e, hl⟩ := cutAt_ok h1
      cases h2
      refine ⟨by rw [e]; rfl, ?_⟩
      rw [utf8_cons, List.length_append, String.length_utf8EncodeChar, hl]
      omega
    · cases h

/-- C48: an error with any start and end can be shown exactly if both are borders of characters of the source, in order,
and then the message is about the text between them. -/
theorem C48_shown_iff (source : List Char) (start stop : Nat) (m : List Char) :
    displayUnexpectedToken source start stop = .ok m ↔
      ∃ a b c, source = a ++ b ++ c ∧ start = (utf8 a).length ∧ stop = (utf8 (a ++ b)).length ∧ m = displayError a b c := by
  constructor
  · intro h
    unfold displayUnexpectedToken at h
    split at h
    · cases h
    · obtain ⟨⟨a, r⟩, h1, h2⟩ := Out.bind_eq_ok.1 h
      obtain ⟨⟨b, c⟩, h3, h4⟩ := Out.bind_eq_ok.1 h2
      obtain ⟨e1, l1⟩ := cutAt_ok h1
      obtain ⟨e2, l2⟩ := cutAt_ok h3
      cases h4
      refine ⟨a, b, c, ?_, l1.symm, ?_, rfl⟩
      · dsimp only at e2
        rw [e1, e2, List.append_assoc]
      · rw [utf8_append, List.length_append, l1, l2]
        omega
  · rintro ⟨a, b, c, rfl, rfl, rfl, rfl⟩
    exact displayUnexpectedToken_ok a b c

section
variable [Unicode]
set_option linter.unusedSectionVars false

/-- C48: every error that `parse` reports can be shown, without a panic: the source is cut into what is in front of the
error, its text and what is behind it. -/
theorem C48_rendered {fuel : Nat} {source : List Char} {es : List Err} (h : parse fuel (utf8 source) = .ok (.error es))
    {e : Err} (he : e ∈ es) :
    ∃ before token after, source = before ++ token ++ after ∧ e.start = (utf8 before).length ∧
      e.stop = (utf8 (before ++ token)).length ∧ e.raw = utf8 token ∧
      displayUnexpectedToken source e.start e.stop = .ok (displayError before token after) := by
  obtain ⟨h1, h2, -⟩ := C46_errors ⟨source, rfl⟩ h he
  obtain ⟨h3, -, h5, -⟩ := C12_errors_point_into_source h e he
  obtain ⟨a, b, rfl, ha⟩ := h1.split
  have hb : Boundary (utf8 b) (e.stop - e.start) := by
    rw [boundary_iff] at h2 ⊢
    obtain ⟨h6, h7, h8⟩ := h2
    rw [utf8_append, List.length_append] at h6
    rw [utf8_append, List.take_append, List.take_of_length_le (by omega), ← ha] at h7
    rw [utf8_append, List.drop_append, List.drop_eq_nil_of_le (by omega), List.nil_append, ← ha] at h8
    refine ⟨by omega, ?_, h8⟩
    obtain ⟨cs, hc⟩ := h7
    exact (Utf8.cut (p := utf8 a) (r := (utf8 b).take (e.stop - e.start)) ⟨cs, hc⟩ (by
      have := Utf8.head (s := utf8 b) ⟨b, rfl⟩
      cases hx : e.stop - e.start with
      | zero => rfl
      | succ k => cases hy : utf8 b with
        | nil => rfl
        | cons x y => rw [hy] at this; exact this)).2
  obtain ⟨t, c, rfl, ht⟩ := hb.split
  have hst : e.stop = (utf8 (a ++ t)).length := by rw [utf8_append, List.length_append]; omega
  refine ⟨a, t, c, by simp, ha, hst, ?_, ?_⟩
  · rw [h5, slice, hst, ha, utf8_append, utf8_append, utf8_append, ← List.append_assoc]
    rw [List.take_left, List.drop_left]
  · rw [ha, hst, ← List.append_assoc, displayUnexpectedToken_ok]

/-- C48: and, unless the error starts directly behind a line break (C34), the message is as specified. -/
theorem C48_error_message {fuel : Nat} {source : List Char} {es : List Err} (h : parse fuel (utf8 source) = .ok (.error es))
    {e : Err} (he : e ∈ es) {before token after : List Char} (hs : source = before ++ token ++ after)
    (h1 : e.start = (utf8 before).length) (h2 : e.raw = utf8 token) (hl : before.getLast? ≠ some '\n') (hne : source ≠ []) :
    displayUnexpectedToken source e.start e.stop = .ok (message before token after) := by
  obtain ⟨a, t, c, h3, h4, h5, h6, h7⟩ := C48_rendered h he
  have hsplit : ∀ {a b c d : List Char}, a ++ b = c ++ d → (utf8 a).length = (utf8 c).length → a = c ∧ b = d := by
    intro a b c d e hlen
    have e' := congrArg utf8 e
    rw [utf8_append, utf8_append] at e'
    obtain ⟨e1, e2⟩ := List.append_inj e' hlen
    exact ⟨utf8_injective e1, utf8_injective e2⟩
  have ht : t = token := utf8_injective (h6.symm.trans h2)
  subst ht
  rw [h3] at hs
  simp only [List.append_assoc] at hs
  obtain ⟨rfl, h8⟩ := hsplit hs (h4.symm.trans h1)
  have := List.append_cancel_left h8
  subst this
  rw [h7, C48_message a t c hl (by rw [← h3]; exact hne)]

/-! ### C49 -/

theorem errorMessages_ok {source : List Char} {es : List Err} {f : Err → List Char}
    (h : ∀ e ∈ es, displayUnexpectedToken source e.start e.stop = .ok (f e)) : errorMessages source es = .ok (es.map f) := by
  induction es with
  | nil => rfl
  | cons e es ih =>
    rw [errorMessages, h e (by simp), Out.bind_ok, ih fun e he => h e (by simp [he])]
    rfl

theorem joinLines_eq (ms : List (List Char)) : joinLines ms = ['\n'].intercalate ms := by
  induction ms with
  | nil => rfl
  | cons x ms ih =>
    cases ms with
    | nil => simp [joinLines]
    | cons y ms => rw [joinLines, ih]; simp [List.intercalate]

/-- The errors of `parse` have messages, one for each and in the same order. -/
theorem errorMessages_parse {fuel : Nat} {source : List Char} {es : List Err} (h : parse fuel (utf8 source) = .ok (.error es)) :
    ∃ ms, errorMessages source es = .ok ms ∧ ms.length = es.length ∧
      ∀ (i : Nat) (e : Err) x, es[i]? = some e → ms[i]? = some x → displayUnexpectedToken source e.start e.stop = .ok x := by
  have key : ∀ e ∈ es, ∃ x, displayUnexpectedToken source e.start e.stop = .ok x := by
    intro e he
    obtain ⟨_, _, _, -, -, -, -, hx⟩ := C48_rendered h he
    exact ⟨_, hx⟩
  clear h
  induction es with
  | nil => exact ⟨[], rfl, rfl, by simp⟩
  | cons e es ih =>
    obtain ⟨x, hx⟩ := key e (by simp)
    obtain ⟨ms, h1, h2, h3⟩ := ih fun e he => key e (by simp [he])
    refine ⟨x :: ms, by rw [errorMessages, hx, Out.bind_ok, h1]; rfl, by simp [h2], ?_⟩
    intro i e' y he hy
    cases i with
    | zero => simp at he hy; rw [← he, ← hy, hx]
    | succ i => exact h3 i e' y (by simpa using he) (by simpa using hy)

/-- The native functions with arguments of the right types. -/
theorem nativeTransform_args {fuel : Nat} {source : List Char} {minify : Bool} {more : List JsValue} :
    nativeTransform fuel (.string source :: .boolean minify :: more) = (parse fuel (encode source) >>= fun
      | .ok m => codegen m minify >>= fun x => .ok (.value x)
      | .error es => errorMessages source es >>= fun ms => .ok (.thrown (joinLines ms))) := rfl

theorem nativeAst_args [Floats] {fuel : Nat} {source : List Char} {minify : Bool} {more : List JsValue} :
    nativeAst fuel (.string source :: .boolean minify :: more) = (parse fuel (encode source) >>= fun
      | .ok m => genModule m >>= fun j => .ok (.value (jsonText minify j))
      | .error es => errorMessages source es >>= fun ms => .ok (.thrown (joinLines ms))) := rfl

theorem nativeParse_args [Printing] {fuel : Nat} {source : List Char} {more : List JsValue} :
    nativeParse fuel (.string source :: more) = (parse fuel (encode source) >>= fun
      | .ok m => dumpBody false m >>= fun x => .ok (.value x)
      | .error es => errorMessages source es >>= fun ms => .ok (.thrown (joinLines ms))) := rfl

/-- C49: on an accepted source, `transform` returns the generated code. -/
theorem C49_accepted {fuel : Nat} {more : List JsValue} {source : List Char} {m : List Stmt} (h : parse fuel (utf8 source) = .ok (.ok m)) (minify : Bool) :
    ∃ x, codegen m minify = .ok x ∧ Utf8 x ∧ wasmTransform fuel source minify = .ok x ∧
      nativeTransform fuel (.string source :: .boolean minify :: more) = .ok (.value x) := by
  obtain ⟨x, hx⟩ := C22_accepted_no_panic h minify
  refine ⟨x, hx, C47_accepted ⟨source, rfl⟩ h hx, ?_, ?_⟩
  · simp only [wasmTransform, encode_eq, h, Out.bind_ok, hx]
  · simp only [nativeTransform_args, encode_eq, h, Out.bind_ok, hx]

/-- C49: on a rejected source, `transform` returns (or throws, in the native module) the messages for all errors, in the order
of the errors, separated by line breaks. -/
theorem C49_rejected {fuel : Nat} {more : List JsValue} {source : List Char} {es : List Err} (h : parse fuel (utf8 source) = .ok (.error es)) (minify : Bool) :
    ∃ ms : List (List Char), ms ≠ [] ∧ ms.length = es.length ∧
      (∀ (i : Nat) (e : Err) x, es[i]? = some e → ms[i]? = some x → displayUnexpectedToken source e.start e.stop = .ok x) ∧
      wasmTransform fuel source minify = .ok (utf8 ("Error: ".toList ++ ['\n'].intercalate ms)) ∧
      nativeTransform fuel (.string source :: .boolean minify :: more) = .ok (.thrown (['\n'].intercalate ms)) := by
  obtain ⟨ms, h1, h2, h3⟩ := errorMessages_parse h
  have hne : es ≠ [] := by
    obtain ⟨_, _, -, -, he⟩ := (C11_error_iff_errors fuel _ es).1 h
    exact he
  refine ⟨ms, ?_, h2, h3, ?_, ?_⟩
  · rintro rfl
    exact hne (List.length_eq_zero_iff.1 h2.symm)
  · simp only [wasmTransform, encode_eq, h, Out.bind_ok, wasmErrors, h1, joinLines_eq]
  · simp only [nativeTransform_args, encode_eq, h, Out.bind_ok, h1, joinLines_eq]

/-- C49: `transform` fails in no other way than `parse`: if `parse` returns, so does `transform`. -/
theorem C49_returns {fuel : Nat} {source : List Char} (minify : Bool) :
    (∃ x, wasmTransform fuel source minify = .ok x) ↔ ∃ r, parse fuel (utf8 source) = .ok r := by
  constructor
  · rintro ⟨x, h⟩
    simp only [wasmTransform, encode_eq, Out.bind_eq_ok] at h
    obtain ⟨r, hr, -⟩ := h
    exact ⟨r, hr⟩
  · rintro ⟨r, h⟩
    cases r with
    | ok m => obtain ⟨x, -, -, hx, -⟩ := C49_accepted (more := []) h minify; exact ⟨x, hx⟩
    | error es => obtain ⟨ms, -, -, -, hx, -⟩ := C49_rejected (more := []) h minify; exact ⟨_, hx⟩

/-- C49: the syntax tree, in both bindings, is the text of the serialised module (C70), or the same messages. -/
theorem C49_estree [Floats] {fuel : Nat} {more : List JsValue} {source : List Char} (minify : Bool) :
    (∀ m, parse fuel (utf8 source) = .ok (.ok m) →
      wasmEstree fuel source minify = (genModule m >>= fun j => .ok (jsonText minify j)) ∧
      nativeAst fuel (.string source :: .boolean minify :: more) = (genModule m >>= fun j => .ok (.value (jsonText minify j)))) ∧
    (∀ es, parse fuel (utf8 source) = .ok (.error es) → ∃ ms : List (List Char), ms.length = es.length ∧
      (∀ (i : Nat) (e : Err) x, es[i]? = some e → ms[i]? = some x → displayUnexpectedToken source e.start e.stop = .ok x) ∧
      wasmEstree fuel source minify = .ok (utf8 ("Error: ".toList ++ ['\n'].intercalate ms)) ∧
      nativeAst fuel (.string source :: .boolean minify :: more) = .ok (.thrown (['\n'].intercalate ms))) := by
  refine ⟨fun m h => ⟨?_, ?_⟩, fun es h => ?_⟩
  · simp only [wasmEstree, encode_eq, h, Out.bind_ok]
  · simp only [nativeAst_args, encode_eq, h, Out.bind_ok]
  · obtain ⟨ms, h1, h2, h3⟩ := errorMessages_parse h
    refine ⟨ms, h2, h3, ?_, ?_⟩
    · simp only [wasmEstree, encode_eq, h, Out.bind_ok, wasmErrors, h1, joinLines_eq]
    · simp only [nativeAst_args, encode_eq, h, Out.bind_ok, h1, joinLines_eq]

/-- C49: minifying is idempotent: minified code of a module without what the generator writes wrongly (`Safe`, C21) is a string
that `transform` minifies to itself. -/
theorem C49_minify_again {fuel : Nat} {source : List Char} {m : List Stmt} (h : parse fuel (utf8 source) = .ok (.ok m))
    (hs : ∀ n ∈ moduleNodes m, Safe true n) :
    ∃ code : List Char, wasmTransform fuel source true = .ok (utf8 code) ∧
      ∃ fuel', wasmTransform fuel' code true = .ok (utf8 code) := by
  obtain ⟨x, hx, ⟨cs, rfl⟩, hw, -⟩ := C49_accepted (more := []) h true
  refine ⟨cs, hw, ?_⟩
  obtain ⟨fuel', m', h1, h2⟩ := C21_minify_again_partial h hs hx
  obtain ⟨y, hy, -, hy', -⟩ := C49_accepted (more := []) h1 true
  rw [h2] at hy
  cases hy
  exact ⟨fuel', hy'⟩

end

/-! ### The hypotheses are met -/

section
local instance interfaceAlpha : Unicode := ⟨fun _ => true⟩

/-- Two errors, in two lines, behind non-ASCII text. -/
def wrongSource : List Char := "é = 1;\n  ß )\nx y".toList

example : errorsOf (parse 60 (utf8 wrongSource)) = some [⟨.ParenClose, 13, 14, bs!")"⟩, ⟨.Identifier, 17, 18, bs!"y"⟩] := by
  decide +kernel

example : wasmTransform 60 wrongSource true = .ok (utf8 ("Error: Unexpected token at 2:5\n\n" ++
    "  1 | é = 1;\n> 2 |   ß )\n    |     ^\n  3 | x y\n\nUnexpected token at 3:3\n\n" ++
    "  1 | é = 1;\n  2 |   ß )\n> 3 | x y\n    |   ^\n").toList) := by decide +kernel

/-- C49, the answers of the WebAssembly binding are ambiguous: pretty printed code can start like an error message. -/
theorem C49_ambiguous : wasmTransform 60 "Error:a".toList false = .ok bs!"Error: a;" := by decide +kernel

end
end Ratel
