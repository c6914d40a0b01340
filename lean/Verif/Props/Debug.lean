import Verif.Lemmas.DebugTree
import Verif.Lemmas.DebugText
import Verif.Props.Interface
/-! C69: debugging dumps show the whole tree. -/
namespace Ratel
open Spec

section
variable [Unicode] [Printing]
set_option linter.unusedSectionVars false

/-- A dump does not fail if (and only if, up to the shape of names) all texts are UTF-8. -/
theorem dump_sound {fuel : Nat} {src : Bytes} {m : List Stmt} (hu : Utf8 src) (h : parse fuel src = .ok (.ok m)) :
    (Dbg.list (dbgStmts m)).sound = true :=
  checked_body m fun _ hn _ ht => (sound_str _).mpr (C46_texts hu h hn _ ht)

theorem dump_shaped (m : List Stmt) : (Dbg.list (dbgStmts m)).shaped = true := checked_body m fun _ _ _ _ => rfl

theorem dumpBody_ok {pretty : Bool} {m : List Stmt} {x : List Char} :
    dumpBody pretty m = .ok x ↔ (Dbg.list (dbgStmts m)).sound = true ∧ (Dbg.list (dbgStmts m)).render pretty 0 = x := by
  unfold dumpBody Dbg.format
  split <;> simp_all

/-- C69: every accepted source has a dump, in both layouts. -/
theorem C69_total {fuel : Nat} {source : List Char} {m : List Stmt} (h : parse fuel (utf8 source) = .ok (.ok m)) (pretty : Bool) :
    ∃ x, dumpBody pretty m = .ok x :=
  ⟨_, dumpBody_ok.mpr ⟨dump_sound ⟨source, rfl⟩ h, rfl⟩⟩

/-- C69: a dump tells everything about the tree: two trees with the same dump are the same, positions included. -/
theorem C69_faithful {pretty : Bool} {m m' : List Stmt} {x : List Char} (h : dumpBody pretty m = .ok x)
    (h' : dumpBody pretty m' = .ok x) : m = m' := by
  rw [dumpBody_ok] at h h'
  have := Dbg.render_unique pretty 0 _ _ [] [] (dump_shaped m) (dump_shaped m') h.1 h'.1 (.inl rfl) (.inl rfl)
    (by rw [h.2, h'.2])
  exact (dbgStmts_iff _ _).mp (Dbg.list.inj this.1)

/-! ### `Debug for Module` -/

theorem sound_stmts {m : List Stmt} (h : (Dbg.list (dbgStmts m)).sound = true) : ∀ s ∈ m, (dbgStmt s).sound = true := by
  induction m with
  | nil => simp
  | cons s m ih =>
    simp only [Dbg.sound, dbgStmts, DbgItems.sound, Bool.and_eq_true] at h ih
    simp only [List.mem_cons, forall_eq_or_imp]
    exact ⟨h.1, ih h.2⟩

theorem dumpStmts_ok : ∀ {m : List Stmt}, (∀ s ∈ m, (dbgStmt s).sound = true) → ∃ x, dumpStmts m = .ok x
  | [], _ => ⟨[], rfl⟩
  | s :: m, h => by
    simp only [List.mem_cons, forall_eq_or_imp] at h
    obtain ⟨x, hx⟩ := dumpStmts_ok h.2
    simp only [dumpStmts, Dbg.format, h.1, if_true, Out.bind_ok, hx]
    exact ⟨_, rfl⟩

theorem dumpStmts_cons {s : Stmt} {m : List Stmt} {x : List Char} (h : dumpStmts (s :: m) = .ok x) :
    (dbgStmt s).sound = true ∧ ∃ r, dumpStmts m = .ok r ∧ x = '\n' :: '\t' :: ((dbgStmt s).render false 0 ++ r) := by
  simp only [dumpStmts, Out.bind_eq_ok, Dbg.format] at h
  obtain ⟨y, hy, r, hr, e⟩ := h
  split at hy
  · cases hy
    cases e
    exact ⟨‹_›, r, hr, rfl⟩
  · cases hy

theorem dumpStmts_tail {m : List Stmt} {x : List Char} (h : dumpStmts m = .ok x) : DumpTail x := by
  cases m with
  | nil => cases h; exact .inl rfl
  | cons s m =>
    obtain ⟨-, r, -, rfl⟩ := dumpStmts_cons h
    exact .inr (.inl ⟨'\n', _, rfl, by simp⟩)

theorem dbgStmt_shaped (s : Stmt) : (dbgStmt s).shaped = true := checked_tree (.stmt s) fun _ _ _ _ => rfl

theorem dumpStmts_unique : ∀ {m m' : List Stmt} {x : List Char}, dumpStmts m = .ok x → dumpStmts m' = .ok x → m = m'
  | [], [], _, _, _ => rfl
  | [], s :: m, _, h, h' => by
    cases h
    obtain ⟨-, r, -, e⟩ := dumpStmts_cons h'
    cases e
  | s :: m, [], _, h, h' => by
    cases h'
    obtain ⟨-, r, -, e⟩ := dumpStmts_cons h
    cases e
  | s :: m, s' :: m', _, h, h' => by
    obtain ⟨h1, r, hr, rfl⟩ := dumpStmts_cons h
    obtain ⟨h1', r', hr', e⟩ := dumpStmts_cons h'
    simp only [List.cons.injEq, true_and] at e
    obtain ⟨e1, rfl⟩ := Dbg.render_unique false 0 _ _ _ _ (dbgStmt_shaped s) (dbgStmt_shaped s') h1 h1' (dumpStmts_tail hr)
      (dumpStmts_tail hr') e
    rw [(dbgStmt_iff _ _).mp e1, dumpStmts_unique hr hr']

/-- C69: `{:?}` of a module succeeds, too, and tells everything about the tree. -/
theorem C69_module {fuel : Nat} {source : List Char} {m : List Stmt} (h : parse fuel (utf8 source) = .ok (.ok m)) :
    ∃ x, dumpModule m = .ok x ∧ ∀ m', dumpModule m' = .ok x → m' = m := by
  obtain ⟨x, hx⟩ := dumpStmts_ok (sound_stmts (dump_sound ⟨source, rfl⟩ h))
  refine ⟨"Module:".toList ++ x, by simp only [dumpModule, hx, Out.bind_ok], fun m' hm => ?_⟩
  simp only [dumpModule, Out.bind_eq_ok] at hm
  obtain ⟨y, hy, e⟩ := hm
  have : x = y := (List.append_cancel_left (Out.ok.inj e)).symm
  exact dumpStmts_unique hy (this ▸ hx)

/-! ### Bindings -/

/-- C69: the reply of `generateAST` and of the native `parse`. -/
theorem C69_bindings {fuel : Nat} {more : List JsValue} {source : List Char} :
    (∀ m, parse fuel (utf8 source) = .ok (.ok m) → ∀ minify, ∃ x, dumpBody (!minify) m = .ok x ∧
      wasmAst fuel source minify = .ok x ∧ (minify = true → nativeParse fuel (.string source :: more) = .ok (.value x))) ∧
    (∀ es, parse fuel (utf8 source) = .ok (.error es) → ∃ ms : List (List Char), ms ≠ [] ∧ ms.length = es.length ∧
      (∀ (i : Nat) (e : Err) x, es[i]? = some e → ms[i]? = some x → displayUnexpectedToken source e.start e.stop = .ok x) ∧
      (∀ minify, wasmAst fuel source minify = .ok ("Error: ".toList ++ ['\n'].intercalate ms)) ∧
      nativeParse fuel (.string source :: more) = .ok (.thrown (['\n'].intercalate ms))) := by
  refine ⟨fun m h minify => ?_, fun es h => ?_⟩
  · obtain ⟨x, hx⟩ := C69_total h (!minify)
    refine ⟨x, hx, ?_, ?_⟩
    · simp only [wasmAst, encode_eq, h, Out.bind_ok]
      cases minify <;> exact hx
    · rintro rfl
      simp only [Bool.not_true] at hx
      simp only [nativeParse_args, encode_eq, h, Out.bind_ok, hx]
  · obtain ⟨ms, h0, h2, h3, hw, hn⟩ := C49_rejected (more := []) h true
    obtain ⟨ms', h1, h2', h3'⟩ := errorMessages_parse h
    refine ⟨ms', ?_, h2', h3', fun minify => ?_, ?_⟩
    · rintro rfl
      apply h0
      simpa [← h2'] using h2
    · simp only [wasmAst, encode_eq, h, Out.bind_ok, wasmErrors, h1, joinLines_eq]
    · simp only [nativeParse_args, encode_eq, h, Out.bind_ok, h1, joinLines_eq]

theorem dumpBody_bracket {pretty : Bool} {m : List Stmt} {x : List Char} (h : dumpBody pretty m = .ok x) :
    ∃ r, x = '[' :: r := by
  obtain ⟨-, rfl⟩ := dumpBody_ok.mp h
  cases m with
  | nil => exact ⟨_, rfl⟩
  | cons s m => cases pretty <;> exact ⟨_, rfl⟩

/-- C69: the reply of `generateAST` is unambiguous: it begins with a bracket exactly for the accepted sources, and then equal
replies mean equal trees. -/
theorem C69_unambiguous {fuel fuel' : Nat} {source source' : List Char} {minify : Bool} {x : List Char}
    (h : wasmAst fuel source minify = .ok x) (h' : wasmAst fuel' source' minify = .ok x) :
    (∃ m, parse fuel (utf8 source) = .ok (.ok m) ∧ parse fuel' (utf8 source') = .ok (.ok m) ∧ ∃ r, x = '[' :: r) ∨
    (∃ es es', parse fuel (utf8 source) = .ok (.error es) ∧ parse fuel' (utf8 source') = .ok (.error es') ∧
      ∃ r, x = "Error: ".toList ++ r) := by
  have key : ∀ {fuel : Nat} {source : List Char}, wasmAst fuel source minify = .ok x →
      (∃ m, parse fuel (utf8 source) = .ok (.ok m) ∧ dumpBody (!minify) m = .ok x) ∨
      (∃ es, parse fuel (utf8 source) = .ok (.error es) ∧ ∃ r, x = "Error: ".toList ++ r) := by
    intro fuel source h
    cases hp : parse fuel (utf8 source) with
    | ok r =>
      cases r with
      | ok m =>
        obtain ⟨y, hy, hw, -⟩ := (C69_bindings (more := [])).1 m hp minify
        rw [hw] at h
        cases h
        exact .inl ⟨m, rfl, hy⟩
      | error es =>
        obtain ⟨ms, -, -, -, hw, -⟩ := (C69_bindings (more := [])).2 es hp
        rw [hw] at h
        cases h
        exact .inr ⟨es, rfl, _, rfl⟩
    | _ => simp only [wasmAst, encode_eq, hp] at h; cases h
  rcases key h with ⟨m, hm, hx⟩ | ⟨es, he, r, hr⟩ <;> rcases key h' with ⟨m', hm', hx'⟩ | ⟨es', he', r', hr'⟩
  · cases C69_faithful hx hx'
    exact .inl ⟨m, hm, hm', dumpBody_bracket hx⟩
  · obtain ⟨y, hy⟩ := dumpBody_bracket hx
    rw [hy] at hr'
    cases hr'
  · obtain ⟨y, hy⟩ := dumpBody_bracket hx'
    rw [hy] at hr
    cases hr
  · exact .inr ⟨es, es', he, he', r, hr⟩

end

/-! ### The hypotheses are met -/

section
local instance debugAlpha : Unicode := ⟨fun _ => true⟩
local instance debugPrinting : Printing := ⟨fun c => c.toNat < 32⟩

/-- One statement, with a quotation mark and a control character in its string. -/
def dumpSource : List Char := "f('\"\x01ß')".toList

example : wasmAst 60 dumpSource true = .ok ("[Loc { start: 0, end: 9, item: Expression(Loc { start: 1, end: 9, item: " ++
    "Call(CallExpression { callee: Loc { start: 0, end: 1, item: Identifier(\"f\") }, arguments: [Loc { start: 2, end: 8, " ++
    "item: Literal(String(\"'\\\"\\u{1}ß'\")) }] }) }) }]").toList := by decide +kernel

example : wasmAst 60 "x".toList false = .ok
    ("[\n    Loc {\n        start: 0,\n        end: 1,\n        item: Expression(\n            Loc {\n" ++
    "                start: 0,\n                end: 1,\n                item: Identifier(\n" ++
    "                    \"x\",\n                ),\n            },\n        ),\n    },\n]").toList := by decide +kernel

example : nativeParse 60 [.string "".toList] = .ok (.value "[]".toList) := by decide +kernel

end

end Ratel
