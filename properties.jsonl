{"id": "C01", "title": "Token spans are ordered and inside the source", "statement": "Whenever Lexer::consume returns, the reported span (start,end) of the new token satisfies old end <= start <= end <= length of the source.", "quantifier": "all sources (any byte string) and all lexer states reached from them", "why_tests_cant": "the source and the position in it are unbounded; a test samples a few token sequences", "anchors": ["ratel/src/lexer/mod.rs: Lexer::consume, Lexer::loc, BYTE_HANDLERS"]}
{"id": "C02", "title": "Lexing loses no source text", "statement": "Between the end of one token and the start of the next there is only trivia: white space bytes and complete comments, so trivia and token texts concatenate back to the source.", "quantifier": "all sources and all lexer states", "why_tests_cant": "needs every byte string and every nesting of white space and comments", "anchors": ["ratel/src/lexer/mod.rs: Lexer::consume, SLH, Lexer::token_as_str"]}
{"id": "C03", "title": "The end of the program is stable", "statement": "Once the lexer reports EndOfProgram, any further number of consume calls report EndOfProgram with the same empty span and allow semicolon insertion; EndOfProgram is reported only at the terminating NUL.", "quantifier": "all sources, any number of further calls", "why_tests_cant": "an unbounded number of further calls", "anchors": ["ratel/src/lexer/mod.rs: EOF, Lexer::consume"]}
{"id": "C04", "title": "A word is a keyword exactly when its whole text is that keyword", "statement": "A run of identifier bytes is lexed as one token covering the whole run; the token is the keyword K iff the run spells exactly K, and Identifier otherwise.", "quantifier": "all ASCII identifier runs, all following bytes", "why_tests_cant": "the set of words is infinite; the hand written byte tries can fail on any prefix or extension of a keyword", "anchors": ["ratel/src/lexer/labels.rs: match_label, IDT, L_B..L_Y", "ratel/src/lexer/util.rs: legal_in_label"]}
{"id": "C05", "title": "Operators are lexed by longest match and print back to themselves", "statement": "Lexing the spelling of any punctuator or word operator followed by a byte that cannot extend it yields exactly that operator's token covering exactly its spelling; from_token and as_str are mutually inverse on operators.", "quantifier": "all operators, all following bytes and rests", "why_tests_cant": "all follow bytes and rests", "anchors": ["ratel/src/lexer/mod.rs: EQL, EXL, LSS, MOR, AMP, PIP, PLS, MIN, ATR, SLH, PRC, CRT", "ratel/src/ast/operator.rs: from_token, as_str"]}
{"id": "C06", "title": "String literals end at the first unescaped matching quote", "statement": "A quote starts a LiteralString token that ends right after the first matching quote that is not preceded by an escaping backslash; if there is none before the NUL the token is UnexpectedEndOfProgram.", "quantifier": "all string bodies and rests", "why_tests_cant": "bodies are unbounded, escapes can nest arbitrarily", "anchors": ["ratel/src/lexer/mod.rs: QOT, expect_byte"]}
{"id": "C07", "title": "Numbers are lexed by longest match", "statement": "A decimal literal (digits, optional fraction, optional exponent) followed by a byte that cannot extend it is one LiteralNumber token with exactly that text; 0x/0o/0b forms likewise.", "quantifier": "all digit strings and all following rests", "why_tests_cant": "unbounded digit strings", "anchors": ["ratel/src/lexer/mod.rs: ZER, DIG, PRD, read_float, read_scientific, read_binary, read_octal, read_hexadec"]}
{"id": "C08", "title": "White space and comments never change the following token", "statement": "Inserting white space or a complete comment in front of a token changes neither the kind nor the text of that token.", "quantifier": "all white space runs, all comment bodies, all rests", "why_tests_cant": "unbounded comments and rests", "anchors": ["ratel/src/lexer/mod.rs: Lexer::consume, SLH"]}
{"id": "C09", "title": "A line break between tokens enables semicolon insertion", "statement": "If a line break occurs between two tokens the lexer reports that a semicolon may be inserted before the second one. (False in this code when a block comment follows or contains the break.)", "quantifier": "all trivia between two tokens", "why_tests_cant": "all mixtures of white space and comments", "anchors": ["ratel/src/lexer/mod.rs: Lexer::consume, SLH, Asi"]}
{"id": "C10", "title": "Lexing never reads outside the source buffer", "statement": "No lexer entry point used by parse reads a byte beyond the terminating NUL of the copied source. (False in this code: unterminated template, unterminated regular expression, trailing dot.)", "quantifier": "all sources", "why_tests_cant": "memory safety for every input; out of bounds reads often go unnoticed in tests", "anchors": ["ratel/src/lexer/mod.rs: read_template_kind, read_regular_expression, read_accessor, read_byte"]}
{"id": "C11", "title": "parse reports success exactly when no error was found", "statement": "parse returns Ok(module) iff parsing recorded no error, and otherwise returns Err with a non-empty list; it never returns both or drops an error once recorded.", "quantifier": "all sources", "why_tests_cant": "every source and every error position", "anchors": ["ratel/src/parser/mod.rs: parse, Parser::error"]}
{"id": "C12", "title": "Every reported error points into the source", "statement": "For each error returned by parse: start <= end <= source length and raw equals the text of the source between start and end.", "quantifier": "all sources, all errors in the result", "why_tests_cant": "unbounded sources and error counts", "anchors": ["ratel/src/lexer/mod.rs: Lexer::invalid_token", "ratel/src/error.rs: Error"]}
{"id": "C13", "title": "An accepted module contains no error placeholders", "statement": "If parse returns Ok, the tree contains none of the dummies produced by error recovery: no empty identifier or property name, no ClassMember::Error, no hole outside an array literal or array pattern.", "quantifier": "all sources accepted by parse", "why_tests_cant": "all accepted programs", "anchors": ["ratel/src/parser/error.rs: ToError", "ratel/src/parser/mod.rs: parse"]}
{"id": "C14", "title": "Names and literals in the tree are verbatim source text", "statement": "In the tree of an accepted module every identifier, literal (string, number, binary, regular expression, true/false/null/undefined), binding, function and class name, property key, label and import name with a span of its own carries exactly the source text at that span; every template text is the source text at its span without its delimiters; property names behind a dot, getter and setter names and import sources (whose recorded spans differ) are source text at the place the grammar puts them.", "quantifier": "all accepted sources and all nodes of the resulting tree", "why_tests_cant": "all trees", "anchors": ["ratel/src/parser/expression.rs: IDEN, STR, NUM, BIN, regular_expression", "ratel/src/lexer/mod.rs: token_as_str, slice_source"]}
{"id": "C15", "title": "Node spans lie in the source", "statement": "Every node of a parsed tree has start <= end <= source length.", "quantifier": "all sources and all nodes of the resulting tree", "why_tests_cant": "all trees", "anchors": ["ratel/src/parser/mod.rs: alloc_at_loc, in_loc", "ratel/src/parser/nested.rs: CALL, ACCS, SEQ"]}
{"id": "C16", "title": "Parsing terminates", "statement": "parse returns for every source. (False in this code: a non alphanumeric non-ASCII character, or a switch case body cut off by the end of the source, makes it loop forever.)", "quantifier": "all sources", "why_tests_cant": "non-termination cannot be observed by a test and all sources must be covered", "anchors": ["ratel/src/parser/mod.rs: Parser::parse, raw_block", "ratel/src/parser/statement.rs: SwitchCase::parse", "ratel/src/lexer/mod.rs: UNI"]}
{"id": "C17", "title": "Parsing never panics", "statement": "parse never reaches a Rust panic. (False in this code: a non-ASCII byte after a dot hits unimplemented!().)", "quantifier": "all sources", "why_tests_cant": "all sources", "anchors": ["ratel/src/lexer/mod.rs: read_accessor", "ratel/src/parser/expression.rs: OP"]}
{"id": "C18", "title": "Binary operators nest by precedence and associativity", "statement": "For operands a,b,c and binary operators p,q: `a p b q c` parses as (a p b) q c if q does not bind tighter than p and as a p (b q c) otherwise; in general every tree of binary operators is what parse returns for its minimal spelling. (** is left associative in this code.)", "quantifier": "all operator trees of any depth", "why_tests_cant": "infinitely many trees", "anchors": ["ratel/src/parser/nested.rs: BindingPower, nested_expression, binary!", "ratel/src/ast/operator.rs: binding_power"]}
{"id": "C19", "title": "A line break ends a restricted statement", "statement": "After return, break or continue a line break (or `;`, `}`, `)` or the end of the program) ends the statement, whatever follows; ++ or -- after a line break never applies to the previous operand.", "quantifier": "all following sources", "why_tests_cant": "all continuations", "anchors": ["ratel/src/parser/statement.rs: return_statement, break_statement, continue_statement, expect_semicolon", "ratel/src/parser/nested.rs: BindingPower::handler"]}
{"id": "C20", "title": "Only assignable expressions are assigned to", "statement": "In an accepted module the left side of every assignment operator and the operand of every postfix ++/-- is an identifier, member, computed member, object, array or spread expression.", "quantifier": "all sources accepted by parse", "why_tests_cant": "all accepted programs", "anchors": ["ratel/src/parser/nested.rs: postfix!, assign!", "ratel/src/ast/expression.rs: is_lvalue"]}
{"id": "C21", "title": "Generated code parses back to the same tree", "statement": "For every module, parse(codegen(module, minify)) succeeds with a tree equal to the module (spans ignored, as ast equality does). (False in this code for several forms: missing parentheses for operands of unary operators and call targets, dropped `finally`, generator star, empty bodies, nested signs.)", "quantifier": "all trees / all accepted sources", "why_tests_cant": "all trees", "anchors": ["ratel-codegen/src/lib.rs: codegen, write_expression", "ratel-codegen/src/expression.rs", "ratel-codegen/src/statement.rs", "ratel-codegen/src/function.rs", "ratel/src/parser/mod.rs: parse"]}
{"id": "C22", "title": "Code generation never panics on an accepted module", "statement": "codegen returns for every module produced by a successful parse.", "quantifier": "all accepted sources, minify on and off", "why_tests_cant": "all modules", "anchors": ["ratel-codegen/src/lib.rs: codegen", "ratel-codegen/src/function.rs: ClassMember"]}
{"id": "C23", "title": "Pretty printing only adds white space", "statement": "The pretty printed output and the minified output of a module consist of the same text pieces in the same order; the pretty one has additional blanks, tabs and line breaks between pieces and nothing else.", "quantifier": "all modules", "why_tests_cant": "all modules", "anchors": ["ratel-codegen/src/lib.rs: Generator, MinifyingGenerator, PrettyGenerator"]}
{"id": "C24", "title": "Pretty printing keeps indentation balanced", "statement": "After printing any node the indentation depth is the same as before; it never underflows.", "quantifier": "all modules and all initial depths", "why_tests_cant": "all modules", "anchors": ["ratel-codegen/src/lib.rs: indent, dedent, write_block"]}
{"id": "C25", "title": "Minified output contains no line breaks of its own", "statement": "Every line break in minified output comes from a literal or template of the module.", "quantifier": "all modules", "why_tests_cant": "all modules", "anchors": ["ratel-codegen/src/lib.rs: MinifyingGenerator"]}
{"id": "C26", "title": "Operands of binary operators are parenthesised by binding power", "statement": "In generated code an operand of a binary operator is wrapped in parentheses exactly when its binding power is lower than the one demanded by the operator and side.", "quantifier": "all binary expressions", "why_tests_cant": "all operand trees", "anchors": ["ratel-codegen/src/lib.rs: write_expression", "ratel-codegen/src/expression.rs: BinaryExpression"]}
{"id": "C27", "title": "Scope enter and leave events are balanced", "statement": "Visiting any module emits enter-scope and leave-scope events that form a balanced bracket sequence; at no point are there more leaves than enters.", "quantifier": "all modules", "why_tests_cant": "unbounded nesting", "anchors": ["ratel-visitor/src/lib.rs: Visitor, ScopeKind", "ratel-visitor/src/function.rs", "ratel-visitor/src/statement.rs"]}
{"id": "C28", "title": "Parent pushes and pops are balanced", "statement": "Visiting any module, every child is visited between the push and the pop of its parent and the parent stack is restored afterwards. (False in this code for import declarations, which pop without push.)", "quantifier": "all modules", "why_tests_cant": "unbounded nesting", "anchors": ["ratel-visitor/src/lib.rs: ParentNode, push_parent, pop_parent", "ratel-visitor/src/statement.rs"]}
{"id": "C29", "title": "Every identifier expression is visited once and in source order", "statement": "The sequence of identifier use events is the left to right sequence of the identifier expressions of the module (with the additional names listed in the theorem).", "quantifier": "all modules", "why_tests_cant": "all modules", "anchors": ["ratel-visitor/src/expression.rs: IdentifierExpression, on_reference_use"]}
{"id": "C30", "title": "Every binding is declared", "statement": "Every name bound by a parameter, declarator, function or class declaration yields exactly one declare event with its kind. (False for rest parameters, object pattern shorthands, imports.)", "quantifier": "all modules", "why_tests_cant": "all modules", "anchors": ["ratel-visitor/src/function.rs", "ratel-visitor/src/statement.rs: on_reference_declaration"]}
{"id": "C31", "title": "Scope analysis never fails and mirrors the nesting", "statement": "Scope analysis of any module finishes without panic and its tree of scopes mirrors the nesting of functions, blocks and switches.", "quantifier": "all modules", "why_tests_cant": "unbounded nesting", "anchors": ["ratel-transformer/src/scope.rs: analyze, ScopeAnalyzer"]}
{"id": "C32", "title": "Scope analysis records names in the innermost scope", "statement": "Each use or declaration is recorded in the scope that is open when the visitor reports it, and nowhere else.", "quantifier": "all modules", "why_tests_cant": "unbounded nesting", "anchors": ["ratel-transformer/src/scope.rs: on_reference_use, on_reference_declaration"]}
{"id": "C33", "title": "The ES2015 transform replaces arrow functions", "statement": "After transform with the ES2015 target no arrow function is left in the module; the function expression in its place has its parameters, its span and its body (`{ return e }` for an expression e). (False in this code: the replacement is made but written to a copy of the node's cell, so transform changes nothing: the module, the generated code and the visitor's events are what they were.)", "quantifier": "all modules in all memories", "why_tests_cant": "a test shows one module; that no module is ever changed is a statement about all writes to all cells", "anchors": ["ratel-transformer/src/es2015/arrow.rs", "ratel-transformer/src/lib.rs: transform", "ratel/src/ast/node.rs: Node::set"]}
{"id": "C34", "title": "Error messages name the right line and column", "statement": "The line:column shown for an error is the line and column of the error start in the source. (False in this code when the error starts right after a line break.)", "quantifier": "all sources and error positions", "why_tests_cant": "all positions", "anchors": ["ratel/src/error.rs: Display for UnexpectedToken"]}
{"id": "C35", "title": "Operator tables agree", "statement": "Every token that starts a prefix expression is a prefix operator, every token handled as a binary or assignment operator in the expression tables is an infix operator with the matching binding power, and assignment() holds exactly for the assignment handlers.", "quantifier": "all tokens and operators (108 x 48, closed)", "why_tests_cant": "a complete cross check of the tables, for all tokens and levels, is not in the test suite", "anchors": ["ratel/src/ast/operator.rs", "ratel/src/parser/nested.rs", "ratel/src/parser/expression.rs"]}
{"id": "C36", "title": "Anything after an embedded NUL is ignored", "statement": "If parse(s) neither loops nor reads outside its buffer, then parse(s + NUL + t) gives the same result for every t.", "quantifier": "all sources s and all t", "why_tests_cant": "two unbounded strings", "anchors": ["ratel/src/lexer/mod.rs: EOF, Lexer::new"]}
{"id": "C37", "title": "ESTree serialisation succeeds exactly on supported modules", "statement": "Serialising a module panics exactly when it contains an unsupported node: a class property or class error member, `new` applied to anything but a call or literal, a hole outside an array literal, a number or binary literal whose value does not parse into i32/i64/f64, a template text whose span ends at 0. Otherwise it yields a Program object in which every node object carries type, start and end.", "quantifier": "all modules (trees of any size)", "why_tests_cant": "all modules", "anchors": ["ratel/src/astgen/*.rs"]}
{"id": "C38", "title": "Regular expression literals end at the first free slash", "statement": "read_regular_expression, called behind the opening slash, returns the text from that slash to the first unescaped slash outside of a character class, followed by the longest run of flag letters (g, i, m, u, y).", "quantifier": "all sources and all states of a lexer over them", "why_tests_cant": "arbitrary long bodies with arbitrary nesting of classes and escapes", "anchors": ["ratel/src/lexer/mod.rs: read_regular_expression"]}
{"id": "C39", "title": "Operators in the tree fit their place", "statement": "In an accepted module the operator of every binary expression is one of the 24 infix or 13 assignment operators, that of every prefix expression one of the ten prefix operators, that of every postfix expression ++ or --.", "quantifier": "all accepted sources and all nodes of the resulting tree", "why_tests_cant": "all accepted programs", "anchors": ["ratel/src/parser/nested.rs: binary!, assign!, postfix!", "ratel/src/parser/expression.rs: prefix!"]}
{"id": "C40", "title": "Nodes of an accepted module have shapes the grammar allows", "statement": "In an accepted module: sequences have two or more expressions; templates have one more text than expressions; rest elements occur only as last parameter of a function; declarations and for-initialisers declare something; try has a handler or a finaliser; function and class declarations are named, methods are not; constructors are not static and are called constructor; an import clause is a default binding and/or a list of names or a namespace; the only meta property is new.target.", "quantifier": "all accepted sources and all nodes of the resulting tree", "why_tests_cant": "all accepted programs", "anchors": ["ratel/src/parser/statement.rs", "ratel/src/parser/function.rs", "ratel/src/parser/expression.rs"]}
{"id": "C41", "title": "Spans nest and are ordered", "statement": "In an accepted module the span of a child ends in that of its parent and starts in it (except for the callee of a call, whose span starts at its parenthesis); children start in source order and do not overlap, each stops before the next one starts (except for statements, class members and switch cases in lists, as some spans end with the token behind the node: `a.b` and `ccc` on the next line overlap); the spans of braced bodies enclose their contents; the statements of the module start in source order.", "quantifier": "all accepted sources and all nodes of the resulting tree", "why_tests_cant": "all accepted programs", "anchors": ["ratel/src/parser/mod.rs: in_loc, alloc_at_loc", "ratel/src/parser/nested.rs"]}
{"id": "C42", "title": "Every program of the grammar is accepted with its tree", "statement": "If a source is spelled by items (tokens with white space and comments between them) that form a program of the grammar with a tree, then parse succeeds and returns that tree (up to spans); so the grammar is unambiguous.", "quantifier": "all sources of the grammar: all statements and expressions of any size and nesting, all gaps between tokens", "why_tests_cant": "infinitely many programs", "anchors": ["ratel/src/parser/mod.rs: parse, Parser", "ratel/src/parser/expression.rs", "ratel/src/parser/statement.rs", "ratel/src/parser/nested.rs", "ratel/src/parser/function.rs"]}
{"id": "C43", "title": "Only programs of the grammar are accepted", "statement": "If parse accepts a source, then the source is spelled by items (tokens with white space and comments between them) that form a program of the grammar, and the returned tree is (up to spans) the tree the grammar gives it. Together with C42: parse accepts exactly the grammar.", "quantifier": "all sources, all accepted modules", "why_tests_cant": "every byte string that is not a program would have to be tried", "anchors": ["ratel/src/parser/mod.rs: parse, Parser", "ratel/src/parser/expression.rs", "ratel/src/parser/statement.rs", "ratel/src/parser/nested.rs", "ratel/src/parser/function.rs", "ratel/src/lexer/mod.rs: consume"]}
{"id": "C44", "title": "Generated code depends only on the tree, not on positions", "statement": "codegen gives the same text for two modules that differ only in the positions (start, end) of their nodes; minified code is also the same if empty statements are removed from lists of statements.", "quantifier": "all modules, minified or not", "why_tests_cant": "all trees and all positions", "anchors": ["ratel-codegen/src/lib.rs: codegen", "ratel-codegen/src/expression.rs", "ratel-codegen/src/statement.rs", "ratel-codegen/src/function.rs"]}
{"id": "C45", "title": "Spans are the exact extents of their nodes", "statement": "In an accepted module the span of a node starts and stops where its text does: the span of an array is from `[` to `]`, of an object from `{` to `}`, of a binary expression from the start of its left to the stop of its right operand, of a function from the word function to its closing brace, of each statement from its keyword to the stop of its last part, and so on for every kind of node. Documented exceptions, each with a witness: the stop of property accesses, prefix operators, sequences, arrow functions, declarations and spread properties is the stop of the next token; a call starts at its parenthesis; an import without bindings starts at its string; the closing brace of a block may be missing at the end of the source.", "quantifier": "all sources, all accepted modules, all nodes", "why_tests_cant": "every node of every program", "anchors": ["ratel/src/parser/expression.rs: array_expression, object_expression", "ratel/src/parser/statement.rs", "ratel/src/parser/nested.rs", "ratel/src/parser/function.rs", "ratel/src/parser/mod.rs: node_at, alloc_at_loc"]}
{"id": "C46", "title": "Positions are between characters", "statement": "For every source that is valid UTF-8 (every &str), every position the API hands out is between two characters: start and end of every token of the lexer, of every node of an accepted module and of every error. So slicing the source there cannot panic, and every name, literal and error text is itself valid UTF-8 (the lexer builds them with from_utf8_unchecked).", "quantifier": "all valid UTF-8 sources, all states of the lexer, all accepted modules and all lists of errors", "why_tests_cant": "a position in the middle of a character needs one particular mix of tokens and non-ASCII text; all texts", "anchors": ["ratel/src/lexer/mod.rs: slice_from, token_as_str, loc, UNI", "ratel/src/parser/mod.rs", "ratel/src/error.rs: Error"]}
{"id": "C47", "title": "Generated code is valid UTF-8", "statement": "The string that codegen returns, minified or not, is valid UTF-8 if the names and literals of the module are; so for every accepted module of a valid source. (codegen builds it with String::from_utf8_unchecked, so otherwise its result would be undefined behaviour.)", "quantifier": "all modules, minified or not", "why_tests_cant": "all modules", "anchors": ["ratel-codegen/src/lib.rs: Generator::consume"]}
{"id": "C48", "title": "Errors can be shown", "statement": "Formatting an error that parse reported never panics; the message has the position, the line of the error with one caret under each of its characters, and the (at most) two lines above and below it with their line numbers, aligned. (For an error that does not start directly behind a line break; for those see C34.)", "quantifier": "all sources that are rejected, all their errors", "why_tests_cant": "all sources, all positions", "anchors": ["ratel/src/error.rs: Display for ParseError", "ratel-wasm/src/lib.rs: format_errors", "ffi/native/src/lib.rs: format_errors"]}
{"id": "C49", "title": "transform returns the code or all error messages", "statement": "transform(source, minify), in the WebAssembly and the native binding, returns the code generated for the module if the source is accepted, and otherwise returns 'Error: ' and (or throws) one message per error in source order, joined by line breaks. If parse returns, transform returns. Minifying minified code again gives the same code (for modules that avoid the known errors of the generator, C21). generateASTEstree and ast do the same with the serialised tree.", "quantifier": "all sources, minified or not", "why_tests_cant": "all sources", "anchors": ["ratel-wasm/src/lib.rs: transform, generate_ast_estree, format_errors", "ffi/native/src/lib.rs: transform, ast, format_errors"]}
{"id": "C50", "title": "ESTree serialisation of accepted sources is memory safe, and fails on four forms only", "statement": "Serialising the module of an accepted source reads no slice out of range (the unchecked slices of strings and numbers), cuts strings and regular expressions only between characters, and terminates. It succeeds exactly if the module has no 'new' in front of anything but a call or a literal, no class field, no hole in an array pattern, and no number that does not fit; otherwise it panics.", "quantifier": "all accepted sources", "why_tests_cant": "all sources; undefined behaviour may stay unnoticed in a test", "anchors": ["ratel/src/astgen/value.rs: SerializeInLoc for Literal, parse_regex", "ratel/src/astgen/expression.rs: PrefixExpression", "ratel/src/astgen/function.rs: ClassMember", "ratel/src/astgen/value.rs: Pattern"]}
{"id": "C51", "title": "The ESTree document contains the whole tree", "statement": "A consumer that reads the ESTree document of an accepted source by field names and node types gets back the tree: every node with its kind, operands, operators, names, flags, literal values (each `value` is the value of its `raw` text) and span, in the right places. What the document does not record is: holes at the end of an array, whether `new` of a literal has parentheses, whether the plain name of a method stands in brackets, and the spans of: holes, the call behind `new`, the brackets of a computed key, the braces of a `switch`, an expression in the head of a loop (it has the span of the head).", "quantifier": "all accepted sources whose serialisation succeeds", "why_tests_cant": "all trees of any depth; a field may be swapped or dropped for one combination of node kinds only", "anchors": ["ratel/src/astgen/mod.rs: Serialize for Loc, Module", "ratel/src/astgen/expression.rs", "ratel/src/astgen/function.rs", "ratel/src/astgen/statement.rs", "ratel/src/astgen/value.rs"]}
{"id": "C52", "title": "Equal ESTree documents come from equal programs", "statement": "If the ESTree documents of two accepted sources are equal, their trees are equal up to what C51 says is not recorded; without holes at the end of arrays, `new` of literals and methods named by a plain name in brackets the trees are equal up to positions, and both sources generate the same code, minified or not. The three exceptions are real: `class A{static [a](){}}` and `class A{static  a (){}}` have the same document and different code, and so have `[a,,]` and `[a, ]`, and `(new 1())` and `(new 1  )`.", "quantifier": "all pairs of accepted sources", "why_tests_cant": "ranges over all pairs of programs", "anchors": ["ratel/src/astgen/mod.rs: generate_ast", "ratel/src/astgen/function.rs: ClassMember", "ratel/src/astgen/expression.rs: ArrayExpression, PrefixExpression"]}
{"id": "C53", "title": "Errors do not depend on what follows", "statement": "Two sources with the same beginning are reported with the same errors in it: for all p, x, y, if parsing p x and parsing p y both return, then the errors that end at least four bytes in front of the end of p are the same and in the same order. So an error is final: once a source has an error that ends four bytes in front of the end of p, no continuation of p is accepted, and each continuation that returns reports this error too. Some distance is needed: `a b` has the error `b`, `a bc` has not.", "quantifier": "all pairs of byte strings with a common prefix", "why_tests_cant": "ranges over all pairs of sources and all continuations of a source", "anchors": ["ratel/src/parser/mod.rs: parse, Parser::error", "ratel/src/lexer/mod.rs: Lexer::consume, invalid_token"]}
{"id": "C54", "title": "Statements do not depend on what follows", "statement": "Two accepted sources with the same beginning p have the same statements in it, with the same positions: if a statement of the first ends at least four bytes in front of the end of p, then all statements in front of it are also the first statements of the second source. (The statement itself may be continued by what follows p, as `b` in `a; b /* */ ` by `+ c`.)", "quantifier": "all pairs of accepted sources with a common prefix", "why_tests_cant": "ranges over all pairs of programs and all continuations", "anchors": ["ratel/src/parser/mod.rs: Parser::parse", "ratel/src/parser/statement.rs", "ratel/src/lexer/mod.rs: Lexer::consume"]}
{"id": "C55", "title": "A visitor sees every node once, in order", "statement": "Visiting any module calls, for every expression and statement that has a callback method, the method of its kind exactly once, parents before children and in source order, and calls nothing else. Visiting panics exactly on modules with the placeholder of a broken class member, so never on an accepted source.", "quantifier": "all modules (trees), and all accepted sources", "why_tests_cant": "ranges over all trees; each of the some forty node kinds can occur below each other", "anchors": ["ratel-visitor/src/lib.rs: Visitor, Visitable", "ratel-visitor/src/expression.rs", "ratel-visitor/src/statement.rs", "ratel-visitor/src/function.rs"]}
{"id": "C56", "title": "A visitor is told every statement list before its statements", "statement": "on_statement_list is called exactly once for every statement list (program body, block body, function body, switch case), immediately before the statements of the list are visited. Not so for the program body in this code.", "quantifier": "all modules (trees)", "why_tests_cant": "ranges over all trees", "anchors": ["ratel-visitor/src/lib.rs: Visitor::on_statement_list, Visitable for Module, Visitable for StatementList", "ratel-visitor/src/statement.rs: BlockStatement, SwitchCase"]}
{"id": "C57", "title": "Brackets match in accepted sources", "statement": "In an accepted source, split into the tokens that its tree stands for, every closing parenthesis, bracket, brace and the brace that ends an expression in a template closes the innermost open one of its kind, and nothing but braces is open at the end.", "quantifier": "all accepted sources", "why_tests_cant": "ranges over all sources, with brackets nested to any depth", "anchors": ["ratel/src/parser/mod.rs: Parser::parse, block, unchecked_block", "ratel/src/parser/expression.rs: paren_expression, array_expression, object_expression, template_expression", "ratel/src/parser/statement.rs"]}
{"id": "C58", "title": "White space and comments do not matter", "statement": "An accepted source can be laid out in any other way with the same tokens and line breaks in front of the same tokens: it remains accepted, with the same tree up to positions, and the same code is generated from it. White space and comments of any kind can be put in front of any accepted source.", "quantifier": "all accepted sources and all their layouts", "why_tests_cant": "ranges over all sources and all ways to put white space and comments between their tokens", "anchors": ["ratel/src/lexer/mod.rs: Lexer::consume, WHT, DIV", "ratel/src/parser/mod.rs: parse", "ratel-codegen/src/lib.rs: codegen"]}
{"id": "C59", "title": "Scripts can be put one behind the other", "statement": "If two scripts are accepted, and every bracket of the first is closed, then the first, a line break and the second are accepted, and the body is that of the first followed by that of the second, provided that the first ends with a semicolon, or that the second starts with a token that cannot continue a statement and has no comment in front of it that is not followed by a line break.", "quantifier": "all pairs of accepted sources", "why_tests_cant": "ranges over all pairs of programs; which statement is last and what it may be continued by depends on all nested phrases that end there", "anchors": ["ratel/src/parser/mod.rs: Parser::parse, asi", "ratel/src/parser/nested.rs", "ratel/src/parser/statement.rs: expect_semicolon", "ratel/src/lexer/mod.rs: Lexer::asi"]}
{"id": "C60", "title": "Equality of trees ignores positions and nothing else", "statement": "Two bodies compare equal with == exactly when their trees are the same up to source positions. So == is an equivalence relation; equal bodies have the same code, pretty or minified; and two layouts of the same tokens, with line breaks in front of the same tokens, give equal bodies.", "quantifier": "all pairs (triples) of trees; all accepted sources and their layouts", "why_tests_cant": "ranges over all pairs of trees, of any depth; a comparison that skips one field is wrong only for trees that differ exactly there", "anchors": ["ratel/src/ast/mod.rs: Loc, PartialEq", "ratel/src/ast/node.rs: Node, PartialEq", "ratel/src/ast/expression.rs", "ratel/src/ast/statement.rs", "ratel/src/ast/function.rs", "ratel/src/ast/literal.rs"]}
{"id": "C61", "title": "Scopes point to their parents and children", "statement": "Analysis of an accepted module allocates one scope for each scope of the tree and no others, in the order in which they are opened. Each scope refers to the scope around it as its parent and lists the scopes directly in it as its children, in order; the scope that is returned is the outermost one and has no parent. A parent was always allocated before its children, so the way up from any scope ends at the returned one.", "quantifier": "all accepted modules (all trees without error members)", "why_tests_cant": "ranges over all trees, with any nesting of scopes; the links are set by mutation while the tree is walked", "anchors": ["ratel-transformer/src/scope.rs: Scope, ScopeAnalyzer, analyze", "ratel-visitor/src/lib.rs"]}
{"id": "C62", "title": "Generators append exactly what they are told, inside their buffer", "statement": "Whatever methods of a Generator are called and in whatever order, and however the buffer is grown by the allocator: the unchecked append of slices writes only inside the allocated block, no byte is read that was not written, and the string that is returned is exactly the concatenation of the texts that were written (minified), with a line break and four blanks for each level of indentation for every new_line (pretty printed); the pretty printer panics only if dedent is called more often than indent. So codegen gives the same text on real buffers.", "quantifier": "all sequences of calls, all growth policies of the allocator, all accepted modules", "why_tests_cant": "ranges over all sequences of calls and all capacities of the buffer; a write behind the buffer is undefined behaviour and need not show", "anchors": ["ratel-codegen/src/lib.rs: extend_from_slice, MinifyingGenerator, PrettyGenerator, codegen"]}
{"id": "C63", "title": "Names do not matter", "statement": "If the names in an accepted source (variables, labels, properties, functions, classes, imports) are replaced consistently, where keywords and the contextual words as, of, from, get, set, constructor and target stay and no other name becomes one of them, then the renamed source is accepted too, and its tree is the tree of the source with the same names replaced and nothing else changed.", "quantifier": "all accepted sources, all such replacements of names, all ways to spell the renamed tokens", "why_tests_cant": "ranges over all programs and all replacements of names; a parser that looks at a name it should not look at fails for that name only", "anchors": ["ratel/src/parser/*.rs: all comparisons of token slices", "ratel/src/lexer/mod.rs: keyword recognition"]}
{"id": "C64", "title": "Scope analysis depends neither on layout nor on the choice of names", "statement": "Two modules that are equal up to positions have the same scopes (kinds, nesting, order, used and declared names, use of this), as a tree and as allocated with parents and children; so do all layouts of an accepted source. If the names of a source are replaced consistently, its scopes are the same with those names, provided that the replacement leaves the sources of imports alone (they are recorded as used names).", "quantifier": "all modules, all accepted sources, all layouts, all replacements of names", "why_tests_cant": "ranges over pairs of programs", "anchors": ["ratel-transformer/src/scope.rs: analyze, ScopeAnalyzer", "ratel-visitor/src/*.rs: Visitable"]}
{"id": "C65", "title": "The number and the text of errors are bounded by the source", "statement": "Whenever parse returns errors, there are at most nine for each byte of the source, and the texts quoted in all of them together are not longer than the source; so recovery from errors cannot blow up, however broken the source is.", "quantifier": "all sources that parse rejects", "why_tests_cant": "a worst case over all sources: after an error the parser goes on, and only a potential argument over its recursion shows that errors cannot pile up at one place", "anchors": ["ratel/src/parser/mod.rs: Parser::error, parse", "ratel/src/parser/*.rs: all users of Parser::error", "ratel/src/error.rs: Error"]}
{"id": "C66", "title": "ESTree documents depend on positions only in start and end", "statement": "Modules that are equal up to positions have the same ESTree document up to the fields start and end. For accepted sources with the same tree up to positions, in particular for all layouts of a source (white space, comments, line breaks that do not matter), either both are serialised, to the same document up to start and end, or neither is.", "quantifier": "all pairs of modules, all layouts of all accepted sources", "why_tests_cant": "ranges over pairs of programs", "anchors": ["ratel/src/astgen/*.rs: Serialize, SerializeInLoc", "ratel/src/ast/loc.rs: Loc"]}
{"id": "C67", "title": "Minified code is at most twice as long as its source", "statement": "For every source that parse accepts, generating minified code succeeds and the code has at most twice as many bytes as the source. (The bound is reached: `a` gives `a;`, and every further member in a.b.c.d is paid for with a pair of parentheses.)", "quantifier": "all accepted sources", "why_tests_cant": "a worst case over all programs: the generator adds blanks, semicolons and parentheses and closes blocks, and only an induction over the grammar shows that each addition is paid for by a token of the source", "anchors": ["ratel-codegen/src/lib.rs: codegen, Generator::write_expression", "ratel-codegen/src/expression.rs: ToCode", "ratel-codegen/src/statement.rs: ToCode", "ratel/src/parser/mod.rs: parse"]}
{"id": "C68", "title": "Trees, visits and scopes are linear in the source", "statement": "The tree of an accepted source has at most two nodes for each byte of the source; a visitor is called for at most that many nodes; and scope analysis allocates at most that many scopes, plus the one of the module. (The bound on nodes is reached, for instance by `a`.)", "quantifier": "all accepted sources", "why_tests_cant": "a worst case over all programs", "anchors": ["ratel/src/parser/mod.rs: parse, Parser::alloc", "ratel-visitor/src/lib.rs: Visitable", "ratel-transformer/src/scope.rs: analyze, ScopeAnalyzer"]}
{"id": "C69", "title": "Debug dumps show the whole tree", "statement": "For every accepted source, the debugging dump of the tree can be written, in one line ({:?}) or indented ({:#?}), and it is faithful: two trees with the same dump are the same tree, names, literals, structure and positions included. The reply of generateAST in the WebAssembly binding begins with '[' exactly for accepted sources and with 'Error: ' otherwise, so the two cannot be confused, and the native parse returns the same one-line dump or throws the messages. The same holds for {:?} of a Module.", "quantifier": "all accepted sources; all pairs of trees; any table of characters that Debug escapes", "why_tests_cant": "that no two different trees share a dump is a statement about all pairs of trees, and depends on how quotes, backslashes, brackets and numbers in names and strings are escaped", "anchors": ["ratel/src/ast/mod.rs: Loc", "ratel/src/ast/node.rs: Debug for Node", "ratel/src/ast/expression.rs, statement.rs, function.rs: derive(Debug)", "ratel/src/module.rs: Debug for Module", "ratel-wasm/src/lib.rs: generate_ast", "ffi/native/src/lib.rs: parse"]}
{"id": "C70", "title": "The ESTree text is JSON and says what the tree is", "statement": "The text that generateASTEstree (WebAssembly) and ast (native) return for an accepted source is JSON (RFC 8259) and valid UTF-8, compact or pretty; reading it gives the document that was serialised, whatever characters are in strings and names, and from the document the tree (in the sense of C51). Two accepted sources with the same text have the same document, even if one text is compact and the other pretty. Compact text has no control characters, so it is one line. The functions panic exactly for the sources that cannot be serialised (C50); otherwise the WebAssembly reply is JSON, and starts with '{', exactly if the source was accepted.", "quantifier": "all accepted sources; all documents; both layouts; any rendering of f64 that is a JSON number with a fraction or exponent, or null", "why_tests_cant": "escaping has to be right for every string and nesting for every document; that reading inverts writing is a statement about all of them", "anchors": ["ratel-wasm/src/lib.rs: generate_ast_estree", "ffi/native/src/lib.rs: generate_ast, ast", "ratel/src/astgen/mod.rs: Serialize for Module, Loc", "ratel/src/astgen/value.rs: SerializeInLoc for Literal"]}
{"id": "C71", "title": "Positions fit 32 bits and those in documents are ranges of the source", "statement": "For a source of less than 4 GiB, converting a position to 32 bits loses nothing: not for any token the lexer shows, any span of an accepted tree, or any error. In the ESTree document of an accepted source every object that has a type, a start or an end has all three, and start <= end <= length of the source; this includes the program (which starts with its first and ends with its last statement), the pieces of templates and the bodies of functions and classes, whose positions are computed and not copied.", "quantifier": "all sources; all states of the lexer; all nodes of the tree; all parts of the document, at any depth", "why_tests_cant": "an off-by-one in a computed position (start + 1, end - 1, first start to last end) or an overflow shows only for particular sources", "anchors": ["ratel/src/lexer/mod.rs: start, end, start_then_consume, end_then_consume", "ratel/src/ast/node.rs: Node, NodeInner", "ratel/src/astgen/mod.rs: Serialize for Module, Serialize for Node", "ratel/src/astgen/expression.rs: TemplateLiteral"]}
{"id": "C72", "title": "Literals and template pieces of a document are in the source at their positions", "statement": "In the ESTree document of an accepted source, the raw text of every literal is exactly the text of the source from its start to its end. For every piece of a template that text is the raw value of the piece, or, in front of an embedded expression, the raw value followed by the dollar sign (the end is one byte late there: the code subtracts one byte for the two-byte delimiter).", "quantifier": "all accepted sources; all literals and template pieces at any depth of the document", "why_tests_cant": "the positions of every literal in every source have to agree with its text", "anchors": ["ratel/src/astgen/value.rs: SerializeInLoc for Literal", "ratel/src/astgen/expression.rs: TemplateLiteral", "ratel/src/parser/expression.rs: template_literal", "ratel/src/lexer/mod.rs: read_template_kind"]}
{"id": "C73", "title": "What a visitor is told depends neither on layout nor on the choice of names", "statement": "For two modules that are equal up to positions, and for all layouts of an accepted source, a visitor gets the same calls in the same order, up to the positions in the nodes it is given; so it enters and leaves the same scopes and hears of the same uses and declarations. If the names of a source are replaced consistently, it gets the same calls with those names, provided that the replacement leaves the sources of imports alone (they are reported as used names).", "quantifier": "all modules, all accepted sources, all layouts, all replacements of names", "why_tests_cant": "a traversal that looks at positions (or at particular names) goes wrong only for some layouts (or names)", "anchors": ["ratel-visitor/src/lib.rs: Visitor, Visitable", "ratel-visitor/src/expression.rs", "ratel-visitor/src/function.rs", "ratel-visitor/src/statement.rs"]}
{"id": "C74", "title": "The native functions check their arguments", "statement": "transform and ast of the native module read the source only if they are called with a string and a boolean as the first two arguments, parse only if it is called with a string as first argument; they ignore further arguments, and in every other call they throw a TypeError (without arguments: 'First argument must be a string') without parsing anything. transform returns a string exactly for an accepted source with arguments of these types.", "quantifier": "all lists of arguments, all sources", "why_tests_cant": "all combinations of number and types of arguments", "anchors": ["ffi/native/src/lib.rs: ast, transform, parse", "ffi/test/01-ratel.js"]}
{"id": "C75", "title": "Generated code means the same to scope analysis, visitors and ESTree consumers", "statement": "Take an accepted source whose tree avoids what the generator writes wrongly (the list of C21), generate code from it, pretty or minified, and parse that code. Scope analysis finds the same scopes (kinds, nesting, order, names used and declared, use of this), and a visitor gets the same calls in the same order, up to positions and empty statements (which are not written) in the nodes it is given. If there were no empty statements, the ESTree document is the same up to the fields start and end (or neither source can be serialised).", "quantifier": "all accepted sources with printable trees, both kinds of code", "why_tests_cant": "a chain parse, generate, parse, analyse over all programs", "anchors": ["ratel-codegen/src/lib.rs: codegen", "ratel/src/parser/mod.rs: parse", "ratel-transformer/src/scope.rs: analyze", "ratel-visitor/src/lib.rs", "ratel/src/astgen/mod.rs: generate_ast"]}
{"id": "C76", "title": "Pretty printed code is at most quadratic in the size of its source", "statement": "For an accepted source of L bytes, pretty printing succeeds and yields at most 10 L + 16 L^2 bytes: each of at most linearly many lines is indented by at most linearly many blanks. It can be quadratic: k nested pairs of braces, a source of L = 2k bytes, are accepted, and their pretty printed code has exactly L^2 - 2L + 2 bytes.", "quantifier": "all accepted sources; all depths k of nesting", "why_tests_cant": "a bound over all programs, and growth with unbounded depth", "anchors": ["ratel-codegen/src/lib.rs: codegen, PrettyGenerator::new_line, write_block, write_list", "ratel-codegen/src/expression.rs", "ratel-codegen/src/statement.rs", "ratel-codegen/src/function.rs"]}
{"id": "C77", "title": "Positions move with the text", "statement": "If white space and comments (also with line breaks) are put in front of an accepted source, the new source is accepted, with the same amount of recursion, and the tree read from it is the one read before with every position (start and end of every statement, expression, pattern, name, property, template piece, label and import) greater by exactly the number of bytes put in front, and nothing else changed. The other way round, if the new source is accepted, so is the one without the text in front, and its tree is the one that was moved. The ESTree document changes accordingly: that number is added to all its fields start and end (but those of a program without statements are 0 in any case).", "quantifier": "all accepted sources, all sequences of white space and comments in front", "why_tests_cant": "all programs and all texts in front, and every position of every node", "anchors": ["ratel/src/lexer/mod.rs: Lexer::new, consume, loc, start, end", "ratel/src/parser/mod.rs: parse, Parser::loc", "ratel/src/parser/expression.rs", "ratel/src/parser/statement.rs", "ratel/src/parser/function.rs"]}
{"id": "C78", "title": "Code is composed of the code of its parts", "statement": "For a module without error members in its classes (every accepted one), the minified code is that of its statements, each printed on its own, one directly behind the other; the pretty printed code is that of its statements one below the other, with one line break between two and none at the end. So printing two modules one behind the other gives the code of the first, a line break if it is pretty printed and neither is empty, and the code of the second. A non-empty block, and the body of a function declaration, is in braces: directly when minified; pretty printed on lines of its own, with four blanks behind every line break, if no name or literal text in it holds a line break (a template with a line break is not changed). The code of if, while, do, throw and labelled statements is composed of the code of their parts and fixed texts, so that a part can be replaced by another with the same code. Two accepted scripts put into one text as in C59 have the code of the first, a line break if it is pretty printed and neither is empty, and the code of the second.", "quantifier": "all modules without error members, in particular all accepted ones; all ways of splitting them; all functions", "why_tests_cant": "all trees at all depths of nesting", "anchors": ["ratel-codegen/src/lib.rs: codegen, write_block, MinifyingGenerator, PrettyGenerator::new_line, indent, dedent", "ratel-codegen/src/statement.rs", "ratel-codegen/src/function.rs"]}
