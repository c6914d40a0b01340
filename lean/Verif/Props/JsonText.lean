import Verif.Lemmas.JsonBytes
import Verif.Props.Interface
import Verif.Props.Estree
import Verif.Props.ReadEstree
/-! C70: the JSON text of a syntax tree. -/
namespace Ratel
open Spec Spec.Rfc8259

section
variable [Floats] [LawfulFloats]
set_option linter.unusedSectionVars false

/-- C70: the text is JSON, and what it says is the document: compact or pretty, whatever strings the document has. -/
theorem C70_reads_back (minify : Bool) (j : Json) : readJson (jsonText minify j) = some (plain j) := by
  have := readValue_write (!minify) j ((jsonText minify j).length + 1) 0 [] (by simp [jsonText]) (fun _ _ h => by simp at h)
  simp only [List.append_nil] at this
  unfold readJson
  have e : jsonText minify j = writeJson (!minify) 0 j := rfl
  rw [e] at this ⊢
  rw [this]
  rfl

/-- C70: what is written is determined by what is read: documents with the same text, however it is laid out, are the same
in JSON. -/
theorem C70_unique {p p' : Bool} {j j' : Json} (h : jsonText p j = jsonText p' j') : plain j = plain j' := by
  have h1 := C70_reads_back p j
  rw [h, C70_reads_back p' j'] at h1
  exact (Option.some.inj h1).symm

/-- C70: compact text is a single line: it has no control characters. Pretty text has line feeds only. -/
theorem C70_lines (minify : Bool) (j : Json) : ∀ b ∈ jsonText minify j, 32 ≤ b ∨ (minify = false ∧ b = 10) := by
  intro b hb
  have := writeJson_lines (!minify) j 0 b hb
  simpa using this

end

section
variable [Unicode]
set_option linter.unusedSectionVars false

/-- The document of a module is determined by its value in JSON. -/
theorem genModule_plainly {S : Bytes → Prop} (hS : ∀ s : Bytes, (∀ b ∈ s, b < 128) → S s) {m : List Stmt} {j : Json}
    (h : ∀ n ∈ moduleNodes m, NodeSafe S n) (hj : genModule m = .ok j) : Plainly S j := by
  unfold genModule at hj
  rw [genStmts_eq] at hj
  exact Yields.withLoc (Yields.inLoc (Yields.fieldsCons (by simp) (Yields.array fun s hs => Yields.node hS (.stmt s)
    fun n hn => h n (List.mem_flatMap.2 ⟨s, hs, hn⟩)) Yields.fieldsNil)) j hj

theorem node_safe_all (n : Node) : NodeSafe (fun _ => True) n :=
  ⟨fun _ _ => trivial, fun _ v _ => by cases v <;> simp [litSafe]⟩

theorem accepted_node_safe {fuel : Nat} {src : Bytes} {m : List Stmt} (hu : Utf8 src) (h : parse fuel src = .ok (.ok m))
    {n : Node} (hn : n ∈ moduleNodes m) : NodeSafe Utf8 n := by
  refine ⟨C46_texts hu h hn, ?_⟩
  rintro l v rfl
  have ht := C46_texts hu h hn
  have hs := @C50_slices _ fuel src m hu h l
  cases v <;> simp only [litSafe]
  case Number v => exact ht v (by simp [Node.texts])
  case Binary v => exact ht v (by simp [Node.texts])
  case String v => exact ⟨ht v (by simp [Node.texts]), hs.1 hn⟩
  case RegEx v =>
    refine ⟨ht v (by simp [Node.texts]), ?_⟩
    intro p f hp
    obtain ⟨p', f', h1, -, h2, h3, -⟩ := hs.2 hn
    rw [hp] at h1
    simp only [Out.ok.injEq, Prod.mk.injEq] at h1
    obtain ⟨rfl, rfl⟩ := h1
    exact ⟨h2, h3⟩

variable [Floats] [LawfulFloats]

/-- C70: the text of a module determines its document: constants are told by the names of the members, and the numeral of
a number with a fraction is beside its value. -/
theorem C70_document (minify : Bool) {m : List Stmt} {j : Json} (hj : genModule m = .ok j) :
    ∃ d, readJson (jsonText minify j) = some d ∧ typed d = j :=
  ⟨plain j, C70_reads_back minify j, typed_plain (genModule_plainly (fun _ _ => trivial) (fun n _ => node_safe_all n) hj)⟩

/-- C70: from the text back to the tree: the text of an accepted module is read as JSON, and the document as a tree. -/
theorem C70_tree (minify : Bool) {fuel : Nat} {src : Bytes} {m : List Stmt} {j : Json} (h : parse fuel src = .ok (.ok m))
    (hj : genModule m = .ok j) :
    ∃ d depth, readJson (jsonText minify j) = some d ∧ ∀ k, depth ≤ k → readProgram k (typed d) = some (keptStmts m) := by
  obtain ⟨d, h1, h2⟩ := C70_document minify hj
  obtain ⟨depth, h3⟩ := C51_reads_back h hj
  exact ⟨d, depth, h1, h2 ▸ h3⟩

/-- C70: accepted modules with the same text, compact or pretty, have the same tree, up to what `keptStmts` says. -/
theorem C70_same_text {p p' : Bool} {fuel fuel' : Nat} {src src' : Bytes} {m m' : List Stmt} {j j' : Json}
    (h : parse fuel src = .ok (.ok m)) (h' : parse fuel' src' = .ok (.ok m')) (hj : genModule m = .ok j)
    (hj' : genModule m' = .ok j') (he : jsonText p j = jsonText p' j') : j = j' ∧ keptStmts m = keptStmts m' := by
  obtain ⟨d, h1, h2⟩ := C70_document p hj
  obtain ⟨d', h1', h2'⟩ := C70_document p' hj'
  rw [he, h1'] at h1
  have hd : d' = d := Option.some.inj h1
  have : j = j' := by rw [← h2, ← h2', hd]
  subst this
  exact ⟨rfl, C52_same_kept h h' hj hj'⟩

/-- C70: the text of an accepted module is valid UTF-8. -/
theorem C70_utf8 (minify : Bool) {fuel : Nat} {src : Bytes} {m : List Stmt} {j : Json} (hu : Utf8 src)
    (h : parse fuel src = .ok (.ok m)) (hj : genModule m = .ok j) : Utf8 (jsonText minify j) :=
  writeJson_utf8 _ (genModule_plainly (fun _ hs => Utf8.ascii hs) (fun _ hn => accepted_node_safe hu h hn) hj).texts 0

/-- C70, the bindings: if `parse` accepts, the functions return the text of the document, or panic if there is none. -/
theorem C70_bindings (minify : Bool) {fuel : Nat} {more : List JsValue} {source : List Char} {m : List Stmt}
    (h : parse fuel (utf8 source) = .ok (.ok m)) :
    (∃ j, genModule m = .ok j ∧ Utf8 (jsonText minify j) ∧ wasmEstree fuel source minify = .ok (jsonText minify j) ∧
      nativeAst fuel (.string source :: .boolean minify :: more) = .ok (.value (jsonText minify j))) ∨
    ((∃ n ∈ moduleNodes m, ¬n.exportable) ∧ wasmEstree fuel source minify = .panic ∧
      nativeAst fuel (.string source :: .boolean minify :: more) = .panic) := by
  obtain ⟨h1, h2⟩ := (C49_estree (fuel := fuel) (source := source) (more := more) minify).1 m h
  rcases C50_memory_safe h with hp | ⟨j, hj, -⟩
  · refine .inr ⟨(C50_panics_iff h).1 hp, ?_, ?_⟩
    · rw [h1, hp]; rfl
    · rw [h2, hp]; rfl
  · refine .inl ⟨j, hj, C70_utf8 minify ⟨source, rfl⟩ h hj, ?_, ?_⟩
    · rw [h1, hj]; rfl
    · rw [h2, hj]; rfl

/-- C70: what the WebAssembly function returns tells whether the source was accepted: only then is it JSON, which starts with
a bracket; messages start with `Error: `. -/
theorem C70_accepted_iff (minify : Bool) {fuel : Nat} {source : List Char} {t : Bytes} (h : wasmEstree fuel source minify = .ok t) :
    ((∃ m, parse fuel (utf8 source) = .ok (.ok m)) ↔ t.head? = some #b'{') ∧
    ((∃ m, parse fuel (utf8 source) = .ok (.ok m)) ↔ (readJson t).isSome = true) := by
  have h0 := h
  simp only [wasmEstree, encode_eq, Out.bind_eq_ok] at h0
  obtain ⟨r, hr, -⟩ := h0
  cases r with
  | ok m =>
    obtain ⟨h1, -⟩ := (C49_estree (fuel := fuel) (source := source) (more := []) minify).1 m hr
    rw [h1, Out.bind_eq_ok] at h
    obtain ⟨j, hj, h⟩ := h
    simp only [Out.ok.injEq] at h
    subst h
    have hb : (jsonText minify j).head? = some #b'{' := by
      simp only [genModule, withLoc, inLoc, fields, array, Out.bind_eq_ok] at hj
      obtain ⟨⟨ty, fs⟩, -, h2⟩ := hj
      simp only [Out.ok.injEq] at h2
      subst h2
      simp [jsonText, writeJson]
    exact ⟨⟨fun _ => hb, fun _ => ⟨m, hr⟩⟩, ⟨fun _ => by rw [C70_reads_back]; rfl, fun _ => ⟨m, hr⟩⟩⟩
  | error es =>
    obtain ⟨ms, -, -, h1, -⟩ := (C49_estree (more := []) (fuel := fuel) (source := source) minify).2 es hr
    rw [h] at h1
    simp only [Out.ok.injEq] at h1
    subst h1
    have hno : ¬∃ m, parse fuel (utf8 source) = .ok (.ok m) := by
      rintro ⟨m, hm⟩
      rw [hr] at hm
      simp at hm
    have e : utf8 ("Error: ".toList ++ ['\n'].intercalate ms) = #b'E' :: utf8 ("rror: ".toList ++ ['\n'].intercalate ms) := rfl
    refine ⟨⟨fun h => absurd h hno, fun h => ?_⟩, ⟨fun h => absurd h hno, fun h => ?_⟩⟩
    · rw [e] at h
      simp at h
    · have e' : utf8 ("Error: ".toList ++ ['\n'].intercalate ms) = bs!"Error: " ++ utf8 (['\n'].intercalate ms) := by
        rw [utf8_append]; rfl
      rw [e'] at h
      generalize utf8 (['\n'].intercalate ms) = t at h
      have : readJson (bs!"Error: " ++ t) = none := by
        unfold readJson
        have : readValue ((bs!"Error: " ++ t).length + 1) (bs!"Error: " ++ t) = none := by
          rw [readValue]
          simp only [List.cons_append, List.nil_append]
          rw [skipSpace_cons _ (by decide)]
          rfl
        rw [this]
      rw [this] at h
      simp at h

end

/-! ### The hypotheses are met -/

section
local instance jsonAlpha : Unicode := ⟨fun _ => true⟩
/-- Numerals are written as they are if they are numbers in JSON, as `null` otherwise. -/
local instance jsonFloats : Floats := ⟨fun v =>
  match readNumber v with
  | some (.float w) => if w = v ∧ v.all isAtom = true then v else bs!"null"
  | _ => bs!"null"⟩

/-- The assumption about the text of numbers can be met. -/
local instance jsonLawful : LawfulFloats := ⟨fun v => by
  simp only [Floats.text]
  split
  · rename_i w h
    split
    · rename_i hw
      rw [hw.1] at h
      exact .inr ⟨h, hw.2⟩
    · exact .inl rfl
  · exact .inl rfl⟩

/-- A string with a quote, a tab, a backslash and a non-ASCII character, and a number with a fraction. -/
def jsonSource : List Char := "a='\"\té\\n'+1.5".toList

/-- Compact. -/
example : wasmEstree 60 jsonSource true = .ok (utf8 ("{\"type\":\"Program\",\"body\":[{\"type\":\"ExpressionStatement\"" ++
    ",\"expression\":{\"type\":\"AssignmentExpression\",\"operator\":\"=\",\"left\":{\"type\":\"Identifier\",\"name\":\"a\",\"start\":0,\"end\":1}" ++
    ",\"right\":{\"type\":\"BinaryExpression\",\"operator\":\"+\",\"left\":{\"type\":\"Literal\",\"value\":\"\\\"\\té\\\\n\",\"raw\":\"'\\\"\\té\\\\n'\",\"start\":2,\"end\":10}" ++
    ",\"right\":{\"type\":\"Literal\",\"value\":1.5,\"raw\":\"1.5\",\"start\":11,\"end\":14},\"start\":2,\"end\":14},\"start\":0,\"end\":14},\"start\":0,\"end\":14}],\"start\":0,\"end\":14}").toList) := by
  decide +kernel

/-- Pretty. -/
example : wasmEstree 60 "0".toList false = .ok (utf8 ("{\n  \"type\": \"Program\",\n  \"body\": [\n    {\n" ++
    "      \"type\": \"ExpressionStatement\",\n      \"expression\": {\n        \"type\": \"Literal\",\n" ++
    "        \"value\": 0,\n        \"raw\": \"0\",\n        \"start\": 0,\n        \"end\": 1\n      },\n" ++
    "      \"start\": 0,\n      \"end\": 1\n    }\n  ],\n  \"start\": 0,\n  \"end\": 1\n}").toList) := by
  decide +kernel

/-- A source that is not serialised. -/
example : wasmEstree 60 "new a".toList true = .panic := by decide +kernel

/-- What the reader does with escapes, signs and fractions. -/
example : ((readJson (utf8 "{\"a\": [1.5, \"\\u000f\\/\", -3, 2e9]}".toList)).map fun d =>
    d.same (.obj [("a", .arr [.float bs!"1.5", .str [15, 47], .int (-3), .float bs!"2e9"])])) = some true := by decide +kernel

/-- Texts that are not JSON: a leading zero, a comma too many, a control character in a string, a missing bracket. -/
example : ["01", "[1,]", "\"\n\"", "{\"a\":1", "1.", "[1] 2", "nul"].all (fun s => (readJson (utf8 s.toList)).isNone) = true := by
  decide +kernel

end
end Ratel
