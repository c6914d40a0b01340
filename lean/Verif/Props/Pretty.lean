import Verif.Lemmas.Pretty
import Verif.Props.Breadth
import Verif.Props.Census
import Verif.Props.RoundTrip
/-! C76: pretty printed code is at most quadratic in the size of its source. -/
namespace Ratel
open Spec

section
set_option linter.unusedSectionVars false
variable [Unicode]

theorem prettyCounts (m : List Stmt) :
    minLen (codeModulePretty m) = minLen (codeModuleMin m) ∧ Loose (codeModulePretty m) (moduleNodes m).length := by
  have h := writeLines_loose codeStmt .stmt m fun s _ => codeOf_airy (.stmt s)
  have h1 := writeLines_len (codeStmts m)
  rw [show (moduleNodes m).length = censuses (m.map .stmt) by rw [← censuses_flatMap, List.flatMap_map]; rfl]
  rw [codeModuleMin, flatten_len, codeModulePretty]
  rw [codeStmts_eq] at *
  cases m with
  | nil => exact ⟨rfl, by simp [Loose, blankCount, lineCount, indentCount]⟩
  | cons s m =>
    simp only [Loose, List.map_cons, writeLines, List.cons_append, blankCount, lineCount, indentCount, minLen, minLen_append] at *
    omega

/-- C76: generating pretty printed code for an accepted program succeeds, and the length of the code is at most quadratic in the
length of the source. -/
theorem C76_pretty_length {fuel : Nat} {src : Bytes} {m : List Stmt} (h : parse fuel src = .ok (.ok m)) :
    ∃ x, codegen m false = .ok x ∧ x.length ≤ 10 * src.length + 16 * (src.length * src.length) := by
  obtain ⟨x, hx⟩ := C22_accepted_no_panic h false
  refine ⟨x, hx, ?_⟩
  obtain ⟨y, hy, h1⟩ := C67_minified_length h
  have h2 := C68_nodes h
  rw [runMin_length (ps := codeModuleMin m) hy] at h1
  obtain ⟨h3, h4, h5, h6⟩ := prettyCounts m
  obtain ⟨⟨x', d⟩, h7, h8⟩ := Out.bind_eq_ok.1 (show (runPretty 0 (codeModulePretty m) >>= fun r => Out.ok r.1) = .ok x from hx)
  cases h8
  have h9 := runPretty_length h7
  have h10 : lineCount (codeModulePretty m) * (1 + 4 * (0 + indentCount (codeModulePretty m))) ≤ 4 * src.length * (1 + 4 * src.length) :=
    Nat.mul_le_mul (by omega) (by omega)
  have h11 : 4 * src.length * (1 + 4 * src.length) = 4 * src.length + 16 * (src.length * src.length) := by
    rw [Nat.mul_add, Nat.mul_one, Nat.mul_mul_mul_comm]
  show x'.length ≤ _
  omega

/-! The bound is reached, up to a constant factor, by blocks in blocks. -/

/-- `k + 1` blocks, one in the other. -/
def nested : Nat → Stmt
  | 0 => .block ⟨0, 0⟩ []
  | k + 1 => .block ⟨0, 0⟩ [nested k]

/-- `k` braces and `k` closing braces. -/
def braces (k : Nat) : Bytes := List.replicate k #b'{' ++ List.replicate k #b'}'

theorem braces_length (k : Nat) : (braces k).length = 2 * k := by simp [braces]; omega

theorem code_nested (k : Nat) : codeStmt (nested (k + 1)) =
    [.text bs!"{", .indent, .newLine] ++ codeStmt (nested k) ++ [.dedent, .newLine, .text bs!"}"] := by
  simp [nested, codeStmt, codeStmts, writeBraces, writeBlock, writeLines]

theorem min_nested (k : Nat) (r : List Piece) (y : Bytes) (h : runMin r = .ok y) :
    runMin (codeStmt (nested k) ++ r) = .ok (List.replicate (k + 1) #b'{' ++ (List.replicate (k + 1) #b'}' ++ y)) := by
  induction k generalizing r y with
  | zero => simp [nested, codeStmt, codeStmts, writeBraces, writeBlock, runMin, h]
  | succ k ih =>
    have h1 := ih ([.dedent, .newLine, .text bs!"}"] ++ r) (#b'}' :: y) (by simp [runMin, h])
    rw [code_nested, List.append_assoc, List.append_assoc]
    simp only [List.cons_append, List.nil_append, runMin] at h1 ⊢
    rw [h1]
    have : ∀ k (y : Bytes), List.replicate (k + 1) #b'}' ++ #b'}' :: y = List.replicate (k + 1 + 1) #b'}' ++ y := by
      intro k y
      rw [List.replicate_succ' (n := k + 1), List.append_assoc]
      rfl
    rw [this]
    simp [List.replicate_succ]

theorem pretty_nested (k : Nat) : ∀ (d d' : Nat) (r : List Piece) (y : Bytes), runPretty d r = .ok (y, d') →
    ∃ x, runPretty d (codeStmt (nested k) ++ r) = .ok (x, d') ∧ x.length = 4 * (k * k) + 4 * k + 2 + 8 * (d * k) + y.length := by
  induction k with
  | zero =>
    intro d d' r y h
    refine ⟨bs!"{" ++ (bs!"}" ++ y), ?_, ?_⟩
    · simp [nested, codeStmt, codeStmts, writeBraces, writeBlock, runPretty, h]
    · simp
      omega
  | succ k ih =>
    intro d d' r y h
    obtain ⟨x, h1, h2⟩ := ih (d + 1) d' ([.dedent, .newLine, .text bs!"}"] ++ r) (newLineText d ++ (bs!"}" ++ y)) (by simp [runPretty, h])
    refine ⟨bs!"{" ++ (newLineText (d + 1) ++ x), ?_, ?_⟩
    · rw [code_nested, List.append_assoc, List.append_assoc]
      simp only [List.cons_append, List.nil_append, runPretty] at h1 ⊢
      rw [h1]
      rfl
    · simp only [List.length_append, newLineText, List.length_cons, List.length_replicate, List.length_nil] at h2 ⊢
      rw [h2]
      simp only [Nat.add_mul, Nat.mul_add, Nat.one_mul, Nat.mul_one]
      omega

theorem nested_nodes (k : Nat) : ∀ n ∈ (Node.stmt (nested k)).all, ∃ l b, n = .stmt (.block l b) := by
  induction k with
  | zero =>
    intro n hn
    rw [Node.all_eq] at hn
    simp [nested, Node.children] at hn
    exact ⟨_, _, hn⟩
  | succ k ih =>
    intro n hn
    rw [Node.all_eq] at hn
    simp [nested, Node.children] at hn
    rcases hn with rfl | hn
    · exact ⟨_, _, rfl⟩
    · exact ih n hn

theorem nested_tidy (k : Nat) : isEmptyStmt (nested k) = false ∧ tidyStmt (nested k) = nested k := by
  induction k with
  | zero => exact ⟨rfl, by simp [nested, tidyStmt, tidyStmts, z]⟩
  | succ k ih => exact ⟨rfl, by simp [nested, tidyStmt, tidyStmts, ih, z]⟩

theorem braces_accepted (k : Nat) : Accepts parse (braces (k + 1)) [nested k] := by
  have h1 : tidyStmts [nested k] = [nested k] := by simp [tidyStmts, nested_tidy]
  have h2 : ∀ n ∈ moduleNodes [nested k], ∃ l b, n = .stmt (.block l b) := fun n hn => nested_nodes k n (by simpa [moduleNodes] using hn)
  have h3 : codegen [nested k] true = .ok (braces (k + 1)) := by
    have := min_nested k [] [] rfl
    simp only [List.append_nil] at this
    have e : (codeStmts [nested k]).flatten = codeStmt (nested k) := by simp [codeStmts]
    simp only [codegen, codeModuleMin, if_true, e]
    exact this
  have := C21_tree_partial (minify := true) (fun n hn => by obtain ⟨l, b, rfl⟩ := h2 n hn; simp [WellFormed])
    (fun n hn => by obtain ⟨l, b, rfl⟩ := h2 n hn; simp [Safe, Legible, Ordinary]) h3
  rwa [h1] at this

/-- C76, a lower bound: the bound is quadratic for a reason. Two times `k + 1` braces are a program, and its pretty printed code
is as long as the square of the source less two times its length, plus two. -/
theorem C76_quadratic (k : Nat) : ∃ src N m x, src.length = 2 * (k + 1) ∧ (∀ fuel, N ≤ fuel → parse fuel src = .ok (.ok m)) ∧
    codegen m false = .ok x ∧ x.length + 2 * src.length = src.length * src.length + 2 := by
  obtain ⟨N, m, hm, hp⟩ := braces_accepted k
  obtain ⟨x, h1, h2⟩ := pretty_nested k 0 0 [] [] rfl
  refine ⟨_, N, m, x, braces_length (k + 1), hp, ?_, ?_⟩
  · rw [← codegen_bare, hm]
    rw [List.append_nil] at h1
    show (runPretty 0 (codeStmt (nested k) ++ writeLines []) >>= fun r => Out.ok r.1) = .ok x
    rw [writeLines, List.append_nil, h1]
    rfl
  · rw [braces_length, h2]
    simp only [Nat.add_mul, Nat.mul_add, Nat.mul_one, Nat.zero_mul, Nat.mul_zero, List.length_nil]
    rw [Nat.mul_mul_mul_comm]
    omega

end

section
local instance prettyUnicode : Unicode := ⟨fun _ => true⟩

/-- The length of the pretty printed code of a source. -/
def prettyLength (src : Bytes) : Nat :=
  match parse 100 src with
  | .ok (.ok m) => (match codegen m false with | .ok y => y.length | _ => 0)
  | _ => 0

example : prettyLength bs!"{{{{{}}}}}" = 10 * 10 - 2 * 10 + 2 := by decide +kernel
example : prettyLength bs!"if(a){b}else c" = 25 := by decide +kernel

end
end Ratel
