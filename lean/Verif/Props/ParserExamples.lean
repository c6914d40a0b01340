import Verif.Props.Termination
/-! Concrete cases for the parser theorems, and counterexamples to those parts of the properties that are false in
the code. -/
namespace Ratel
open Spec

/-- Any interpretation of `char::is_alphanumeric` will do. -/
local instance parserExamplesUnicode : Unicode := ⟨fun _ => true⟩

/-- The errors of a run of `parse`, if it returned some. -/
def errorsOf (r : Out (Except (List Err) (List Stmt))) : Option (List Err) :=
  match r with
  | .ok (.error es) => some es
  | _ => none

theorem of_errorsOf {r : Out (Except (List Err) (List Stmt))} {es : List Err} (h : errorsOf r = some es) :
    r = .ok (.error es) := by
  unfold errorsOf at h
  split at h
  · simp at h; rw [h]
  · simp at h

/-- Was the source accepted? -/
def accepted (r : Out (Except (List Err) (List Stmt))) : Bool :=
  match r with
  | .ok (.ok _) => true
  | _ => false

theorem of_accepted {r : Out (Except (List Err) (List Stmt))} (h : accepted r = true) : ∃ m, r = .ok (.ok m) := by
  unfold accepted at h
  split at h
  · exact ⟨_, rfl⟩
  · simp at h

/-- Which kind of outcome is it? -/
def outKind {α : Type} : Out α → Nat
  | .ok _ => 0
  | .oob => 1
  | .timeout => 2
  | .panic => 3

theorem of_bad {α : Type} {x y : Out α} (h : outKind x ≠ 0 ∧ outKind x = outKind y) : x = y := by
  cases x <;> cases y <;> simp_all [outKind]

/-- C11, C12: two errors. -/
example : parse 20 bs!"a b; let x = ;\n y" =
    .ok (.error [⟨.Identifier, 2, 3, bs!"b"⟩, ⟨.Semicolon, 13, 14, bs!";"⟩]) :=
  of_errorsOf (by decide +kernel)

/-! ### What is false in the code -/

/-- C17 is false: a dot followed by a non-ASCII character panics. -/
theorem C17_parse_panics : parse 20 bs!"a.é" = .panic := of_bad (by decide +kernel)

/-- C10 is false: a dot at the end, a template and a regular expression that are not closed make `parse` read
behind the buffer. -/
theorem C10_parse_reads_outside : parse 20 bs!"a." = .oob ∧ parse 20 bs!"`a" = .oob ∧ parse 20 bs!"x = /b" = .oob ∧
    parse 20 bs!"`a${b}c" = .oob :=
  ⟨of_bad (by decide +kernel), of_bad (by decide +kernel), of_bad (by decide +kernel),
    of_bad (by decide +kernel)⟩

/-- C36: what follows the NUL does not matter, here an unclosed string. -/
example : parse 20 (bs!"a = b" ++ 0 :: bs!"'") = parse 20 bs!"a = b" := by
  obtain ⟨m, hm⟩ := of_accepted (r := parse 20 bs!"a = b") (by decide +kernel)
  exact C36_nul_ends_source (by rw [hm]; simp) (by rw [hm]; simp)

/-- C36, the hypothesis is necessary: an unclosed template reads behind the NUL. -/
example : parse 20 bs!"`a" = .oob ∧ accepted (parse 20 (bs!"`a" ++ 0 :: bs!"`")) = true :=
  ⟨C10_parse_reads_outside.2.1, by decide +kernel⟩

/-- C16 is false: `parse` never returns on a source that starts with a non-ASCII character that is not
alphanumeric, such as the euro sign. -/
theorem C16_euro_diverges : @Diverges ⟨fun c => decide (c ≠ 0x20AC)⟩ bs!"€" :=
  @diverges_of_stuck ⟨fun c => decide (c ≠ 0x20AC)⟩ _
    { Lex.init bs!"€" with asi := .NoSemicolon, token := .UnexpectedToken } (by decide +kernel) rfl (by decide +kernel)

/-- C16 is false: `parse` never returns on a source that ends in the body of a switch case. -/
theorem C16_switch_diverges : Diverges bs!"switch(x){case 1:" := by
  refine diverges_of_large 8 fun n hn => ?_
  obtain ⟨n, rfl⟩ : ∃ k, n = k + 8 := ⟨n - 8, by omega⟩
  have hle := procs_le (n := 7) (n' := n + 7) (by omega)
  let st : Nat → Nat → Token → Asi → PState := fun i a t m =>
    ⟨⟨bs!"switch(x){case 1:", bs!"switch(x){case 1:".drop i, i, a, 0, t, m, []⟩, []⟩
  have h0 : Lex.new bs!"switch(x){case 1:" = .ok (st 6 0 .Switch .NoSemicolon).lex := by decide +kernel
  unfold parse runParser
  rw [h0]
  suffices (procs (n + 8)).stmt (st 6 0 .Switch .NoSemicolon) = .timeout by
    simp only [Out.bind]
    unfold program
    rw [P.bind_eq (a := .Switch) (t := st 6 0 .Switch .NoSemicolon) rfl, if_neg (by decide), P.bind_run, this]
    rfl
  have h1 : (procs (n + 8)).stmt = statement (n + 7) (procs (n + 7)) := rfl
  rw [h1]
  unfold statement
  rw [P.bind_eq (a := .Switch) (t := st 6 0 .Switch .NoSemicolon) rfl, show stmtHandler .Switch = .SWCH from rfl]
  simp only [runSH]
  unfold switchStatement
  rw [P.bind_eq (a := 0) (t := st 7 6 .ParenOpen .NoSemicolon) (by decide +kernel)]
  rw [P.bind_eq (a := ()) (t := st 8 7 .Identifier .NoSemicolon) (by decide +kernel)]
  obtain ⟨e, he⟩ := of_stateOf (x := (procs 7).expr .DEF .ANY (st 8 7 .Identifier .NoSemicolon))
    (s := st 9 8 .ParenClose .ImplicitSemicolon) (by decide +kernel)
  rw [P.bind_eq ((hle.expr _ _).ok he)]
  rw [P.bind_eq (a := ()) (t := st 10 9 .BraceOpen .NoSemicolon) (by decide +kernel)]
  rw [P.bind_run]
  suffices block (n + 7) (switchCase (n + 7) (procs (n + 7))) (st 10 9 .BraceOpen .NoSemicolon) = .timeout by
    rw [this]; rfl
  unfold block
  rw [P.bind_eq (a := 9) (t := st 10 9 .BraceOpen .NoSemicolon) rfl]
  rw [P.bind_eq (a := ()) (t := st 14 10 .Case .NoSemicolon) (by decide +kernel), P.bind_run]
  suffices rawBlock (n + 7) (switchCase (n + 7) (procs (n + 7))) (st 14 10 .Case .NoSemicolon) = .timeout by
    rw [this]; rfl
  unfold rawBlock
  rw [P.bind_eq (a := .Case) (t := st 14 10 .Case .NoSemicolon) rfl, if_neg (by decide), P.bind_run]
  suffices switchCase (n + 7) (procs (n + 7)) (st 14 10 .Case .NoSemicolon) = .timeout by
    rw [this]; rfl
  unfold switchCase
  rw [P.bind_eq (a := 10) (t := st 14 10 .Case .NoSemicolon) rfl]
  obtain ⟨e, he⟩ := of_stateOf (x := (procs 7).expr .DEF .ANY (st 16 15 .LiteralNumber .NoSemicolon))
    (s := st 17 16 .Colon .NoSemicolon) (by decide +kernel)
  rw [P.bind_eq (a := some e) (t := st 17 16 .Colon .NoSemicolon)]
  · rw [P.bind_eq (a := 17) (t := st 17 16 .Colon .NoSemicolon) rfl]
    rw [P.bind_eq (a := ()) (t := st 17 17 .EndOfProgram .ImplicitSemicolon) (by decide +kernel)]
    exact P.bind_timeout (caseBody_stuck _ _ _ _ rfl)
  · rw [P.bind_eq (a := .Case) (t := st 14 10 .Case .NoSemicolon) rfl]
    simp only
    rw [P.bind_eq (a := ()) (t := st 16 15 .LiteralNumber .NoSemicolon) (by decide +kernel)]
    rw [P.bind_eq ((hle.expr _ _).ok he)]
    rfl
end Ratel
