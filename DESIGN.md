# Formal model of ratel-core in Lean 4 — design

## Layout

* `lean/Verif/*.lean` — the model: one Lean definition per Rust function, each with the file and lines it models.
* `lean/Verif/Spec/*.lean` — small specifications used in the statements of theorems (grammar, spelling of tokens,
  shapes of lexemes, printable trees, UTF-8, ESTree reader, error message layout, …). They do not mention the parser,
  the lexer or the generator.
* `lean/Verif/Lemmas/*.lean` — proofs.
* `lean/Verif/Props/*.lean` — the theorems named in MANIFEST.json, and beside them concrete cases that meet their
  hypotheses and witnesses for what is false in the code. Theorem names start with the property's id.
* `tools/manifest.py` writes MANIFEST.json; `seeded/LOG.jsonl` records the tests with wrong programs.

## What is modelled

| Lean module | Code in /repo | Style |
|---|---|---|
| `Base` | outcome of a run: `ok`, `oob` (a read behind the terminating NUL, undefined behaviour in Rust), `panic`, `timeout` (fuel used up) | data |
| `Token`, `Operator` | `ratel/src/lexer/token.rs`, `ratel/src/ast/operator.rs` | enums and tables |
| `Lexer` | `ratel/src/lexer/{mod,labels,util}.rs` | state machine over bytes, one function per byte handler |
| `Ast` | `ratel/src/ast/*.rs` | mutual inductive types with spans |
| `ParserTables`, `Parser` | `ratel/src/parser/*.rs`, `ratel/src/module.rs` | state+outcome monad, one definition per Rust function, open recursion with fuel |
| `Codegen` | `ratel-codegen/src/*.rs` | output as a list of pieces; the minified and the pretty generator interpret it |
| `Buffer` | `ratel-codegen/src/lib.rs` (generators, `extend_from_slice`) | blocks of cells that may not be written yet, any growth policy |
| `Visitor` | `ratel-visitor/src/*.rs` | trace of visitor callbacks |
| `Scope`, `ScopeMem` | `ratel-transformer/src/scope.rs` | machine over the callbacks; with trees, and with the allocated scopes and their pointers |
| `AstEq` | derived `PartialEq` in `ratel/src/ast/*.rs` | structural recursion on two trees |
| `Transform` | `ratel-transformer/src/{lib,es2015/arrow}.rs`, `ratel/src/ast/node.rs` | memory with objects and cells; a `Node` passed by value is a new cell |
| `ErrorDisplay` | `ratel/src/error.rs` | lines, columns, the rendered message |
| `AstGen` | `ratel/src/astgen/*.rs` | JSON value, with panics and unsafe slices as outcomes |
| `Interface` | `ratel-wasm/src/lib.rs`, `ffi/native/src/lib.rs` | the functions offered to JavaScript, on strings of characters |
| `Debug` | `derive(Debug)` of `ratel/src/ast/*.rs`, `ast/node.rs:48-53`, `module.rs:39-47`, and the parts of `std::fmt` it calls | dumps of trees, in one line and indented |
| `JsonText` | `serde_json::to_string`, `to_string_pretty` as called at `ratel-wasm/src/lib.rs:55-59`, `ffi/native/src/lib.rs:28-34` | text of ESTree documents; the text of an `f64` is a parameter (`Floats`) |

### Not modelled

* `neon`, `wasm_bindgen` (conversion of strings and results, messages about arguments of wrong types); the conversion of numerals to `f64` and of `f64` to text.
* Lifetimes: trees are values in the model. (`Module::body(&self)` returns a `StatementList<'ast>` that is not tied to the borrow of the module, so
  safe code can keep the list when the module and its arena are gone; `Module::arena` is not affected. `ratel/src/module.rs:28-36`.)
* `f64` arithmetic: the value of a number with a fraction is its text (`Json.float`); what is written for it is a parameter. Integers are exact, with Rust's
  overflow behaviour (`i32`/`i64` parsing fails → panic).
* Positions are unbounded naturals: `as u32` truncation for sources over 4 GiB (below that, nothing is truncated: C71).
* Time, allocation and memory management of the arena. Recursion depth is counted (C16), the stack is not bounded.
* Dead code: `ratel-transformer/{statement.rs,es2016,transformer_old.rs}` (not compiled), `ratel/src/ast/types.rs`;
  benches; tests; the mock builder in `parser/mod.rs`.

### Modelling decisions

* Source text is a list of bytes (`UInt8`). `Lexer::new` copies the source and appends NUL; the model keeps the
  remaining suffix, reading at its end gives NUL and moving behind the NUL is the outcome `oob`, so undefined behaviour
  is a result that theorems talk about. Theorems hold for all byte strings, UTF-8 or not, unless they say `Utf8`.
* `decodeFirst` (`str::from_utf8_unchecked(..).chars().next()` on four bytes, `lexer/mod.rs` UNI handler): bytes that
  are not UTF-8 give `oob` (undefined behaviour in Rust).
* Unicode's `char::is_alphanumeric` is an arbitrary predicate (type class `Unicode`): theorems hold for every such
  predicate. Concrete cases fix one.
* `unwind_loop!` is a plain loop.
* toolshed's `Arena`, `List`, `ListBuilder`, `GrowableList` are lists; `BloomMap` is an association list. `CopyCell` is
  a cell that is copied by value.
* `str::lines` as documented for current Rust: a final `\r` without `\n` stays in its line (older versions of std strip
  it).
* Recursion of the parser: all procedures are parameterised by the record of recursive procedures and by a loop bound;
  the knot is tied `fuel` times. `timeout` is distinct from every real outcome. Theorems on results hold for every
  fuel (`parse_fuel`: more fuel never changes a result); non-termination is "timeout for every fuel"; the termination
  theorem gives a fuel bound computed from the source length.

## Trusted base

Lean's kernel; of the axioms only `propext`, `Classical.choice`, `Quot.sound` (checked with `#print axioms` for every
theorem of MANIFEST.json: some use only `propext`, some `propext` and `Quot.sound`, most all three; none
uses another one, in particular not `Lean.ofReduceBool`). `decide +kernel` is evaluated by the kernel. Faithfulness of the
model to the Rust text rests on reading (each definition cites its lines), as do the descriptions of toolshed and of the Rust standard
library above.

## Plan per property

Lexer
* C01–C03, C08: invariants of the lexer state (`Lexing`, reached through the entry points of the lexer) and a
  specification of every handler (`Lemmas/Handlers`, `Scan`, `Consume`). C02: consumed text plus rest is the source.
* C04–C07, C38: what is lexed is described by the inductive `Spec.Lexeme`; longest match and the keyword table are stated
  independently of the byte tries.
* C09 (false as stated): witnesses; `_partial` for all gaps without the two comment forms that lose the line break, and `C09_exactly_partial` says exactly when the flag is set.
* C10 (false): an exact description of the texts on which each entry point reads outside, witnesses.

Parser, for every run
* C11, C12, C36: induction over `IsProg`, a deep description of what the parser may do with the lexer.
* C16 (false): two sources with non-termination proved for all fuel; `_partial`: without the two causes `parse` returns within
  `src.length + 3` levels. For every source: a simulation between the runs with two different bounds shows that a run that has
  not returned by then never does. C17 (false): witness; `_partial`: only a dot followed by a non-ASCII byte panics.
  C10, C16, C17 exactly (`Props/Alone`), for texts without templates and divisions (and `switch`, for C16): what `parse` does is decided by
  cutting the text into tokens (`Spec/Splits`).
* C53, C54: a simulation between the runs on two sources with a common beginning.

Parser, accepted sources
* C13–C15, C20, C39–C41, C45: a program logic for error-free runs (`W`, `Lemmas/Walk`), one lemma per parser
  procedure, closed over the fuel by induction.
* C42, C43: `Spec/Grammar.lean` is a grammar over items (token, line break before it), `Spec/Spelling.lean` relates items to text. Completeness and
  soundness by induction over derivations and over runs. C18, C19 follow for all operands and continuations.
* C46: UTF-8 validity is tracked through the lexer and the parser.

Generator
* C22–C26: structural induction on trees. C44: the code depends only on the bare tree (`Spec/Bare`).
* C21 (false as stated): printing a tree gives a spelling of a derivation of the same tree, then C42. `Safe` (`Spec/Printable`)
  lists what the generator gets wrong; every item has a witness (`C21_misprints`).
  Generators are not part of the excluded items for `C21_generators_*`: the claims about the printer are about `rereadStmts`
  (`Spec/Reread`), which replaces them by ordinary functions. `C21_determines_partial`, `C21_same_code_partial`: reading is a
  function, so equal codes have equal trees.
* C60: `AstEq` is the derived `==`, compared with equality of bare trees by induction on both trees.
* C62: an invariant of the buffer (it starts with the written bytes) under every call.
* C63: renaming commutes with every rule of the grammar (induction over derivations), then C42 and C43.
* C64: the traversal commutes with erasing positions and with renaming (induction over trees), and the analyzer with both.
* C65: a potential: each procedure of the parser is shown to add at most nine errors for each byte by which it moves on (plus a constant that depends on the procedure and is paid for by the token that led to it); by induction over fuel. The quoted texts are disjoint parts of the source (C12).
* C66: the serialisation of a tree is compared with that of the tree with all spans replaced by 1..1 (induction over trees); C50 says when it succeeds.
* C67: by induction over the grammar (C43), the code of a phrase with its semicolon and the parentheses it may need costs at most two bytes for each byte of its tokens (Lemmas/Breadth.lean); the tokens are at most as long as the source.
* C68: the same induction, with the number of nodes of a phrase for the length of its code (Lemmas/Census.lean); visits by C55, scopes by C61.
* C69: a dump is a tree of builder calls (`Dbg`); it determines the syntax tree (Lemmas/DebugTree.lean), and its text determines it, by induction with any text behind that cannot continue a dump (Lemmas/DebugText.lean); strings are UTF-8 by C46.
* C70: a strict reader of RFC 8259 (Spec/ReadJson.lean) inverts the writer, by induction over documents with any text behind (Lemmas/JsonText.lean); documents of modules have constants and fractions only where the member names tell (Lemmas/TypedJson.lean, induction over nodes), so C51 applies to what was read; UTF-8 by C46 and C50.
* C71: from C01, C12 and C15; for documents an induction over nodes (Lemmas/PlacedJson.lean) carries a predicate on spans from the tree to the document, the computed spans follow from C14 (delimiters of template pieces) and C41 (order of statements).
* C72: the induction of C71 with a claim on literals and template pieces, which holds in the tree by C14 and C45.
* C73: the traversal commutes with erasing positions and with renaming (Lemmas/VisitMap.lean, mutual induction over trees); layouts by C58, names by C63.
* C74: arguments are a list of JavaScript values (string, boolean, other); case analysis.
* C75: C21 with C64, C66 and C73; a traversal commutes with dropping empty statements
  (Lemmas/VisitTidy.lean, mutual induction over trees).
* C76: induction over the tree: optional blanks, new lines and indentations against the text and the number of nodes (`Lemmas/Pretty.lean`); with C67, C68. The lower bound by C21 for nested blocks.
* C77: two runs of the parser are compared, one on the source and one on the text with the source behind it (`Lemmas/Sim.lean`, a logic
  of two programs; `Lemmas/SimRun.lean`, every procedure of the parser by induction over the recursion): as long as the first has
  reported no error, the two lexers are in the same state up to positions, and what is read is the same up to positions. The
  tree moved is `Spec/Shift.lean`. Only of accepted sources: the placeholders after an error have the span `0..0` in both runs.
  The converse through the grammar (C42, C43): the white space in front of the first token of the longer text starts with the text put in
  front (`Lemmas/SpellBack.lean`). The ESTree document by induction over the tree (`Lemmas/MovedDoc.lean`, `Spec/Moved.lean`).
* C78: induction over the statements (C24 gives that every statement ends at the depth it was started at); indentation by the induction
  over the code of trees (`Lemmas/Code.lean`) with the claim that printing one deeper puts four blanks behind every line break.
  For sources with C59.
* C47: output of valid sources is valid UTF-8.

The text as a whole (corollaries of C42 and C43, by induction over the grammar)
* C57: a stack of open brackets is run over the items of the source (`Spec/Brackets`). C58: two texts that spell the same items; the
  flag of the first item plays no role. C59: a phrase of the grammar is also one with other items behind it, if these do not continue it
  (`Lemmas/Join`); that no brace is left open is counted by the level of brackets. False if a comment is in front of the second script
  (`C59_comment`): a comment hides the line break before it.

Visitor, scope, transform
* C27–C32: structural induction about traces of callbacks. C28, C30 are false for some forms: witnesses, `_partial`, and exact conditions (`C28_balanced_iff_partial`, `C30_exactly_partial`).
* C33 (false): the memory is modelled with its objects and cells, and `Spec/Memory` says which tree is in a memory. The
  transform writes no cell that was there, for all memories; so the module is the same before and after, for all modules. The functions
  that should have replaced the arrow functions are characterised too (made in order, then dropped).
* C61: the analyzer with its pointers (`ScopeMem`) simulates the one without (`Scope`); `Spec/ScopeMem` says which tree of scopes is in
  an arena.
* C55: the events for all nodes are the nodes of the tree in source order, each once. C56 (false for the program's body): which lists of
  statements are announced.

Errors, bindings, ESTree
* C34 (false directly after a line break): line and column are specified by counting. C48: layout of the message.
* C35: closed statement over all tokens and operators, computed by the kernel over the whole finite domain.
* C37, C50: which modules serialise and that no slice is out of bounds. C51, C52: an independent reader
  (`Spec/ReadEstree`) recovers from the document everything the document records.
* C49: composition for the functions offered to JavaScript.
