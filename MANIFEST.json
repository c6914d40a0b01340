{
 "claims": [
  {
   "property": "C01",
   "status": "proved",
   "theorems": [
    "Ratel.C01_token_spans",
    "Ratel.C01_first_token_span"
   ],
   "note": ""
  },
  {
   "property": "C02",
   "status": "proved",
   "theorems": [
    "Ratel.C02_only_trivia_between_tokens",
    "Ratel.C02_only_trivia_before_first_token",
    "Ratel.C02_tokens_tile_source",
    "Ratel.C02_tokens_nonempty"
   ],
   "note": "also proved: every token text is a lexeme of its kind in an independent lexical grammar"
  },
  {
   "property": "C03",
   "status": "proved",
   "theorems": [
    "Ratel.C03_end_of_program_stable",
    "Ratel.C03_end_of_program_iff"
   ],
   "note": ""
  },
  {
   "property": "C04",
   "status": "proved",
   "theorems": [
    "Ratel.C04_word_token",
    "Ratel.C04_keyword_iff_text"
   ],
   "note": ""
  },
  {
   "property": "C05",
   "status": "proved",
   "theorems": [
    "Ratel.C05_longest_match",
    "Ratel.C05_punctuator_text",
    "Ratel.C05_operator_spelling",
    "Ratel.C05_operator_token_text"
   ],
   "note": ""
  },
  {
   "property": "C06",
   "status": "proved",
   "theorems": [
    "Ratel.C06_string",
    "Ratel.C06_open_string",
    "Ratel.C06_string_text"
   ],
   "note": ""
  },
  {
   "property": "C07",
   "status": "proved",
   "theorems": [
    "Ratel.C07_number",
    "Ratel.C07_binary",
    "Ratel.C07_number_text"
   ],
   "note": ""
  },
  {
   "property": "C08",
   "status": "proved",
   "theorems": [
    "Ratel.C08_trivia_does_not_matter",
    "Ratel.C08_consume_finds_lexeme"
   ],
   "note": ""
  },
  {
   "property": "C09",
   "status": "partial",
   "theorems": [
    "Ratel.C09_exactly_partial",
    "Ratel.C09_line_break_partial",
    "Ratel.C09_only_after_line_break",
    "Ratel.C09_closing_tokens",
    "Ratel.C09_block_comment_hides_line_break",
    "Ratel.C09_block_comment_with_line_break"
   ],
   "note": "false in this code when a block comment follows or contains the line break (witnesses proved); proved for all other gaps, and exactly when the flag is set"
  },
  {
   "property": "C10",
   "status": "partial",
   "theorems": [
    "Ratel.C10_consume_reads_outside_iff",
    "Ratel.C10_template_reads_outside_iff",
    "Ratel.C10_regex_reads_outside_iff",
    "Ratel.C10_reads_outside",
    "Ratel.C10_parse_partial",
    "Ratel.C10_utf8_partial",
    "Ratel.C10_exact_partial",
    "Ratel.C10_returns_exact_partial",
    "Ratel.C10_parse_reads_outside"
   ],
   "note": "false in this code; proved exactly which texts make each lexer entry point read outside; for texts without templates and divisions on which parse ends, exactly which make parse read outside"
  },
  {
   "property": "C11",
   "status": "proved",
   "theorems": [
    "Ratel.C11_ok_iff_no_error",
    "Ratel.C11_error_iff_errors",
    "Ratel.C11_errors_never_dropped",
    "Ratel.C11_error_recorded"
   ],
   "note": ""
  },
  {
   "property": "C12",
   "status": "proved",
   "theorems": [
    "Ratel.C12_errors_point_into_source",
    "Ratel.C12_errors_in_source_order"
   ],
   "note": ""
  },
  {
   "property": "C13",
   "status": "proved",
   "theorems": [
    "Ratel.C13_no_placeholders"
   ],
   "note": ""
  },
  {
   "property": "C14",
   "status": "proved",
   "theorems": [
    "Ratel.C14_verbatim",
    "Ratel.C14_identifier",
    "Ratel.C14_literal"
   ],
   "note": ""
  },
  {
   "property": "C15",
   "status": "proved",
   "theorems": [
    "Ratel.C15_spans_in_source"
   ],
   "note": ""
  },
  {
   "property": "C16",
   "status": "partial",
   "theorems": [
    "Ratel.C16_consume_terminates",
    "Ratel.C16_bounded",
    "Ratel.C16_decided",
    "Ratel.C16_within",
    "Ratel.C16_terminates_partial",
    "Ratel.C16_text_terminates_partial",
    "Ratel.C16_chars_terminates_partial",
    "Ratel.C16_ascii_terminates_partial",
    "Ratel.C16_returns_partial",
    "Ratel.C16_returns_utf8_partial",
    "Ratel.C16_exact_partial",
    "Ratel.C16_stalls_partial",
    "Ratel.C16_never_returns_partial",
    "Ratel.C16_euro_diverges",
    "Ratel.C16_switch_diverges"
   ],
   "note": "false in this code: two sources proved to make parse loop forever; proved that only these two causes exist: without a non-ASCII character that is not alphanumeric and without the word switch parse returns (exactly when, for texts without templates, divisions and switch: C16_exact_partial), within src.length + 3 levels of recursion and rounds of each loop; for every source whatsoever it is proved that parse has returned within src.length + 3 levels or never returns (C16_bounded, C16_decided); every lexer call returns"
  },
  {
   "property": "C17",
   "status": "partial",
   "theorems": [
    "Ratel.C17_no_panic_partial",
    "Ratel.C17_ascii_no_panic_partial",
    "Ratel.C17_consume_panics_iff",
    "Ratel.C17_exact_partial",
    "Ratel.C17_parse_panics"
   ],
   "note": "false in this code (witness proved); proved that only a dot followed by a non-ASCII byte can panic, and for texts without templates and divisions on which parse ends, exactly when it does"
  },
  {
   "property": "C18",
   "status": "proved",
   "theorems": [
    "Ratel.C18_ordered",
    "Ratel.C18_minimal",
    "Ratel.C18_chain",
    "Ratel.C18_two"
   ],
   "note": "operands are names; ** associates to the left in this code. C42 covers all other operands"
  },
  {
   "property": "C19",
   "status": "proved",
   "theorems": [
    "Ratel.C19_line_break",
    "Ratel.C19_semicolon",
    "Ratel.C19_end",
    "Ratel.C19_brace",
    "Ratel.C19_increment",
    "Ratel.C19_newline",
    "Ratel.C19_semicolon'",
    "Ratel.C19_closing",
    "Ratel.C19_prefix"
   ],
   "note": "what follows is anything that is accepted on its own (C19_newline, C19_semicolon', C19_closing, C19_prefix)"
  },
  {
   "property": "C20",
   "status": "proved",
   "theorems": [
    "Ratel.C20_assignment",
    "Ratel.C20_postfix"
   ],
   "note": ""
  },
  {
   "property": "C21",
   "status": "partial",
   "theorems": [
    "Ratel.C21_round_trip_partial",
    "Ratel.C21_same_tree_partial",
    "Ratel.C21_equal_partial",
    "Ratel.C21_minify_again_partial",
    "Ratel.C21_generate_again_partial",
    "Ratel.C21_tree_partial",
    "Ratel.C21_generators_partial",
    "Ratel.C21_generators_exact_partial",
    "Ratel.C21_generators_tree_partial",
    "Ratel.C21_minify_generated_partial",
    "Ratel.C21_determines_partial",
    "Ratel.C21_same_code_partial",
    "Ratel.C21_misprints",
    "Ratel.C21_misprints_minified"
   ],
   "note": "false in this code (witnesses C21_misprints, C21_misprints_minified). Proved for all accepted sources whose trees avoid the listed errors of the generator (Safe in Spec/Printable.lean); empty statements in lists are dropped; generators are read as ordinary functions, and the tree survives exactly if there are none (C21_generators_exact_partial); the minified code determines the tree up to positions and empty statements (C21_same_code_partial)"
  },
  {
   "property": "C22",
   "status": "proved",
   "theorems": [
    "Ratel.C22_accepted_no_panic",
    "Ratel.C22_codegen_no_panic",
    "Ratel.C22_error_member_panics"
   ],
   "note": ""
  },
  {
   "property": "C23",
   "status": "proved",
   "theorems": [
    "Ratel.C23_pretty_adds_blanks",
    "Ratel.C23_accepted"
   ],
   "note": ""
  },
  {
   "property": "C24",
   "status": "proved",
   "theorems": [
    "Ratel.C24_statement_balanced",
    "Ratel.C24_expression_balanced",
    "Ratel.C24_module_balanced",
    "Ratel.C24_accepted"
   ],
   "note": ""
  },
  {
   "property": "C25",
   "status": "proved",
   "theorems": [
    "Ratel.C25_minified_lines",
    "Ratel.C25_accepted"
   ],
   "note": ""
  },
  {
   "property": "C26",
   "status": "proved",
   "theorems": [
    "Ratel.C26_binary_parens"
   ],
   "note": ""
  },
  {
   "property": "C27",
   "status": "proved",
   "theorems": [
    "Ratel.C27_scopes_balanced"
   ],
   "note": ""
  },
  {
   "property": "C28",
   "status": "partial",
   "theorems": [
    "Ratel.C28_parents_partial",
    "Ratel.C28_balanced_iff_partial",
    "Ratel.C28_imports_pop",
    "Ratel.C28_import_unbalanced"
   ],
   "note": "false for import declarations (witness proved); proved for all modules without them, and exactly the modules without imports are balanced: every import pops once too often"
  },
  {
   "property": "C29",
   "status": "proved",
   "theorems": [
    "Ratel.C29_uses"
   ],
   "note": ""
  },
  {
   "property": "C30",
   "status": "partial",
   "theorems": [
    "Ratel.C30_declares",
    "Ratel.C30_bindings_declared_partial",
    "Ratel.C30_exactly_partial",
    "Ratel.C30_declared_bound",
    "Ratel.C30_rest_not_declared",
    "Ratel.C30_shorthand_not_declared",
    "Ratel.C30_import_not_declared"
   ],
   "note": "false for rest elements, object patterns and imports (witnesses proved); proved for all other modules, and exactly for those; nothing is declared that is not bound"
  },
  {
   "property": "C31",
   "status": "proved",
   "theorems": [
    "Ratel.C31_C32_analyze",
    "Ratel.C31_C32_accepted"
   ],
   "note": ""
  },
  {
   "property": "C32",
   "status": "proved",
   "theorems": [
    "Ratel.C31_C32_analyze",
    "Ratel.C31_C32_accepted"
   ],
   "note": ""
  },
  {
   "property": "C33",
   "status": "partial",
   "theorems": [
    "Ratel.C33_no_arrows_partial",
    "Ratel.C33_arrows_remain",
    "Ratel.C33_transform_keeps_cells",
    "Ratel.C33_transform_changes_nothing",
    "Ratel.C33_functions_dropped",
    "Ratel.C33_stored",
    "Ratel.C33_output_unchanged"
   ],
   "note": "the property is false in this code: proved that transform writes no cell of any module, so every arrow function remains, and that exactly the right functions are made for all of them, in order, and dropped"
  },
  {
   "property": "C34",
   "status": "partial",
   "theorems": [
    "Ratel.C34_position_partial",
    "Ratel.C34_after_line_break",
    "Ratel.C34_after_line_break_wrong"
   ],
   "note": "false directly after a line break (proved for all such positions); proved for every other position"
  },
  {
   "property": "C35",
   "status": "proved",
   "theorems": [
    "Ratel.C35_token_of_operator",
    "Ratel.C35_binary",
    "Ratel.C35_assignment",
    "Ratel.C35_continuation",
    "Ratel.C35_prefix",
    "Ratel.C35_statement_prefix",
    "Ratel.C35_statement_expression",
    "Ratel.C35_contexts",
    "Ratel.C35_asi",
    "Ratel.C35_exponent_disagrees"
   ],
   "note": "closed finite domain, computed completely; ** is the one exception and is stated"
  },
  {
   "property": "C36",
   "status": "proved",
   "theorems": [
    "Ratel.C36_nul_ends_source"
   ],
   "note": ""
  },
  {
   "property": "C37",
   "status": "proved",
   "theorems": [
    "Ratel.C37_serialise",
    "Ratel.C37_panic",
    "Ratel.C37_program",
    "Ratel.C37_statement_span",
    "Ratel.C37_unsupported_forms"
   ],
   "note": ""
  },
  {
   "property": "C38",
   "status": "proved",
   "theorems": [
    "Ratel.C38_regex",
    "Ratel.C38_regex_text"
   ],
   "note": ""
  },
  {
   "property": "C39",
   "status": "proved",
   "theorems": [
    "Ratel.C39_binary_operator",
    "Ratel.C39_prefix_operator",
    "Ratel.C39_postfix_operator"
   ],
   "note": ""
  },
  {
   "property": "C40",
   "status": "proved",
   "theorems": [
    "Ratel.C40_shapes"
   ],
   "note": ""
  },
  {
   "property": "C41",
   "status": "proved",
   "theorems": [
    "Ratel.C41_spans_nest",
    "Ratel.C41_operands",
    "Ratel.C41_arguments"
   ],
   "note": ""
  },
  {
   "property": "C42",
   "status": "proved",
   "theorems": [
    "Ratel.C42_accepts",
    "Ratel.C42_unique"
   ],
   "note": "grammar in Spec/Grammar.lean and Spec/Spelling.lean, independent of the parser"
  },
  {
   "property": "C43",
   "status": "proved",
   "theorems": [
    "Ratel.C43_program",
    "Ratel.C43_iff",
    "Ratel.C43_rejected"
   ],
   "note": "with C42: exactly the grammar of Spec/Grammar.lean and Spec/Spelling.lean"
  },
  {
   "property": "C44",
   "status": "proved",
   "theorems": [
    "Ratel.C44_positions",
    "Ratel.C44_empty_statements"
   ],
   "note": ""
  },
  {
   "property": "C45",
   "status": "proved",
   "theorems": [
    "Ratel.C45_extents",
    "Ratel.C45_array",
    "Ratel.C45_binary",
    "Ratel.C45_function",
    "Ratel.C45_if"
   ],
   "note": "the exceptions named in the statement are left out of the tables Node.opens/closes/starts/stops; witnesses are beside the theorems"
  },
  {
   "property": "C46",
   "status": "proved",
   "theorems": [
    "Ratel.C46_tokens",
    "Ratel.C46_spans",
    "Ratel.C46_texts",
    "Ratel.C46_errors"
   ],
   "note": "the lexer states quantified over are those reached through consume, read_template_kind and read_regular_expression as the parser calls them (Lexing)"
  },
  {
   "property": "C47",
   "status": "proved",
   "theorems": [
    "Ratel.C47_generated_code",
    "Ratel.C47_accepted"
   ],
   "note": ""
  },
  {
   "property": "C48",
   "status": "proved",
   "theorems": [
    "Ratel.C48_rendered",
    "Ratel.C48_shown_iff",
    "Ratel.C48_error_message",
    "Ratel.C48_message",
    "Ratel.C48_aligned",
    "Ratel.C48_lines"
   ],
   "note": ""
  },
  {
   "property": "C49",
   "status": "proved",
   "theorems": [
    "Ratel.C49_accepted",
    "Ratel.C49_rejected",
    "Ratel.C49_returns",
    "Ratel.C49_estree",
    "Ratel.C49_minify_again",
    "Ratel.C49_ambiguous"
   ],
   "note": "neon and wasm_bindgen are not modelled; C49_ambiguous: pretty printed code can start with 'Error: ' like a message"
  },
  {
   "property": "C50",
   "status": "proved",
   "theorems": [
    "Ratel.C50_memory_safe",
    "Ratel.C50_succeeds_iff",
    "Ratel.C50_panics_iff",
    "Ratel.C50_slices"
   ],
   "note": ""
  },
  {
   "property": "C51",
   "status": "proved",
   "theorems": [
    "Ratel.C51_reads_back",
    "Ratel.C51_reads_back_bare"
   ],
   "note": "The reader and keptStmts (what is recorded) are in Spec/ReadEstree.lean. Numbers with a fraction are compared by their text: f64 is not modelled."
  },
  {
   "property": "C52",
   "status": "proved",
   "theorems": [
    "Ratel.C52_same_kept",
    "Ratel.C52_same_tree",
    "Ratel.C52_confused"
   ],
   "note": ""
  },
  {
   "property": "C53",
   "status": "proved",
   "theorems": [
    "Ratel.C53_errors_local",
    "Ratel.C53_error_final"
   ],
   "note": ""
  },
  {
   "property": "C54",
   "status": "proved",
   "theorems": [
    "Ratel.C54_statements_local"
   ],
   "note": ""
  },
  {
   "property": "C55",
   "status": "proved",
   "theorems": [
    "Ratel.C55_every_node_once",
    "Ratel.C55_panics_iff",
    "Ratel.C55_accepted_no_panic"
   ],
   "note": ""
  },
  {
   "property": "C56",
   "status": "partial",
   "theorems": [
    "Ratel.C56_lists_once_partial",
    "Ratel.C56_list_first_partial",
    "Ratel.C56_program_not_announced"
   ],
   "note": "false in this code for the program body (proved for all modules); proved for all other statement lists"
  },
  {
   "property": "C57",
   "status": "proved",
   "theorems": [
    "Ratel.C57_brackets_match"
   ],
   "note": ""
  },
  {
   "property": "C58",
   "status": "proved",
   "theorems": [
    "Ratel.C58_layout",
    "Ratel.C58_leading",
    "Ratel.C58_leading_iff"
   ],
   "note": ""
  },
  {
   "property": "C59",
   "status": "proved",
   "theorems": [
    "Ratel.C59_line_break",
    "Ratel.C59_semicolon",
    "Ratel.C59_comment"
   ],
   "note": "C59_comment: without the line break behind a comment it is false"
  },
  {
   "property": "C60",
   "status": "proved",
   "theorems": [
    "Ratel.C60_equal_iff",
    "Ratel.C60_equivalence",
    "Ratel.C60_same_code",
    "Ratel.C60_same_tokens"
   ],
   "note": ""
  },
  {
   "property": "C61",
   "status": "proved",
   "theorems": [
    "Ratel.C61_pointers",
    "Ratel.C61_parents",
    "Ratel.C61_count",
    "Ratel.C61_accepted"
   ],
   "note": "the flag for super is never set"
  },
  {
   "property": "C62",
   "status": "proved",
   "theorems": [
    "Ratel.C62_minify",
    "Ratel.C62_pretty",
    "Ratel.C62_codegen",
    "Ratel.C62_accepted"
   ],
   "note": "Vec itself (with_capacity, reserve, push, set_len) is modelled after its documentation, with any growth policy; set_len in front of the copy is accepted if it is within the capacity"
  },
  {
   "property": "C63",
   "status": "proved",
   "theorems": [
    "Ratel.C63_rename",
    "Ratel.C63_programs"
   ],
   "note": "trees are compared without positions, as names may have other lengths; that only the seven contextual words matter is part of the claim"
  },
  {
   "property": "C64",
   "status": "proved",
   "theorems": [
    "Ratel.C64_positions",
    "Ratel.C64_layout",
    "Ratel.C64_rename",
    "Ratel.C64_renamed_source"
   ],
   "note": "the condition on import sources is needed: an example shows what happens without it"
  },
  {
   "property": "C65",
   "status": "proved",
   "theorems": [
    "Ratel.C65_errors_bounded",
    "Ratel.C65_quoted_text"
   ],
   "note": "nine is what the parser's recovery needs (the head of a for statement); examples show that fewer than three per byte would be false"
  },
  {
   "property": "C66",
   "status": "proved",
   "theorems": [
    "Ratel.C66_positions",
    "Ratel.C66_accepted",
    "Ratel.C66_layout"
   ],
   "note": ""
  },
  {
   "property": "C67",
   "status": "proved",
   "theorems": [
    "Ratel.C67_minified_length"
   ],
   "note": ""
  },
  {
   "property": "C68",
   "status": "proved",
   "theorems": [
    "Ratel.C68_nodes",
    "Ratel.C68_visits",
    "Ratel.C68_scopes"
   ],
   "note": ""
  },
  {
   "property": "C69",
   "status": "proved",
   "theorems": [
    "Ratel.C69_total",
    "Ratel.C69_faithful",
    "Ratel.C69_module",
    "Ratel.C69_bindings",
    "Ratel.C69_unambiguous"
   ],
   "note": "std::fmt (builders, Debug for str) is modelled after its source; which characters char::escape_debug writes as numbers is a parameter"
  },
  {
   "property": "C70",
   "status": "proved",
   "theorems": [
    "Ratel.C70_reads_back",
    "Ratel.C70_unique",
    "Ratel.C70_lines",
    "Ratel.C70_document",
    "Ratel.C70_tree",
    "Ratel.C70_same_text",
    "Ratel.C70_utf8",
    "Ratel.C70_bindings",
    "Ratel.C70_accepted_iff"
   ],
   "note": "serde_json's formatters are modelled after their source; the text of an f64 is a parameter, assumed to be a JSON number with fraction or exponent, or null (class LawfulFloats; an instance is given)"
  },
  {
   "property": "C71",
   "status": "proved",
   "theorems": [
    "Ratel.C71_lexer",
    "Ratel.C71_tree",
    "Ratel.C71_errors",
    "Ratel.C71_document",
    "Ratel.C71_program"
   ],
   "note": "the model computes with unbounded positions; the theorems say that the conversions as u32 are identities for sources under 4 GiB"
  },
  {
   "property": "C72",
   "status": "proved",
   "theorems": [
    "Ratel.C72_literals",
    "Ratel.C72_templates"
   ],
   "note": "identifiers are left out: the recorded spans of property names in a.b and of the keys of getters and setters are not those of the names (C14)"
  },
  {
   "property": "C73",
   "status": "proved",
   "theorems": [
    "Ratel.C73_positions",
    "Ratel.C73_names",
    "Ratel.C73_rename",
    "Ratel.C73_layout",
    "Ratel.C73_renamed_source"
   ],
   "note": ""
  },
  {
   "property": "C74",
   "status": "proved",
   "theorems": [
    "Ratel.C74_transform",
    "Ratel.C74_ast",
    "Ratel.C74_parse",
    "Ratel.C74_no_arguments",
    "Ratel.C74_value_iff"
   ],
   "note": "neon's argument conversion is modelled as documented: a TypeError if the argument is missing or of another type"
  },
  {
   "property": "C75",
   "status": "proved",
   "theorems": [
    "Ratel.C75_empty_statements",
    "Ratel.C75_scopes",
    "Ratel.C75_visitor",
    "Ratel.C75_document"
   ],
   "note": "the restriction to printable trees (Safe in Spec/Printable.lean) is part of the statement; C21 shows it is needed for reading code back"
  },
  {
   "property": "C76",
   "status": "proved",
   "theorems": [
    "Ratel.C76_pretty_length",
    "Ratel.C76_quadratic"
   ],
   "note": ""
  },
  {
   "property": "C77",
   "status": "proved",
   "theorems": [
    "Ratel.C77_positions_move",
    "Ratel.C77_iff",
    "Ratel.C77_spaces",
    "Ratel.C77_same_tree",
    "Ratel.C77_document"
   ],
   "note": "Of accepted sources; the tree moved is defined in Spec/Shift.lean."
  },
  {
   "property": "C78",
   "status": "proved",
   "theorems": [
    "Ratel.C78_minified",
    "Ratel.C78_pretty",
    "Ratel.C78_append",
    "Ratel.C78_block",
    "Ratel.C78_function",
    "Ratel.C78_while",
    "Ratel.C78_if",
    "Ratel.C78_if_else",
    "Ratel.C78_do",
    "Ratel.C78_labeled",
    "Ratel.C78_throw",
    "Ratel.C78_expression",
    "Ratel.C78_sources_semicolon",
    "Ratel.C78_sources_line_break",
    "Ratel.C78_accepted",
    "Ratel.C78_template"
   ],
   "note": "C78_template: a template with a line break is not indented"
  }
 ]
}