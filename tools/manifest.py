#!/usr/bin/env python3
"""Writes MANIFEST.json from the table below."""
import json
C = {
 "C01": ("proved", ["Ratel.C01_token_spans", "Ratel.C01_first_token_span"], ""),
 "C02": ("proved", ["Ratel.C02_only_trivia_between_tokens", "Ratel.C02_only_trivia_before_first_token", "Ratel.C02_tokens_tile_source", "Ratel.C02_tokens_nonempty"], "also proved: every token text is a lexeme of its kind in an independent lexical grammar"),
 "C03": ("proved", ["Ratel.C03_end_of_program_stable", "Ratel.C03_end_of_program_iff"], ""),
 "C04": ("proved", ["Ratel.C04_word_token", "Ratel.C04_keyword_iff_text"], ""),
 "C05": ("proved", ["Ratel.C05_longest_match", "Ratel.C05_punctuator_text", "Ratel.C05_operator_spelling", "Ratel.C05_operator_token_text"], ""),
 "C06": ("proved", ["Ratel.C06_string", "Ratel.C06_open_string", "Ratel.C06_string_text"], ""),
 "C07": ("proved", ["Ratel.C07_number", "Ratel.C07_binary", "Ratel.C07_number_text"], ""),
 "C08": ("proved", ["Ratel.C08_trivia_does_not_matter", "Ratel.C08_consume_finds_lexeme"], ""),
 "C09": ("partial", ["Ratel.C09_exactly_partial", "Ratel.C09_line_break_partial", "Ratel.C09_only_after_line_break", "Ratel.C09_closing_tokens", "Ratel.C09_block_comment_hides_line_break", "Ratel.C09_block_comment_with_line_break"], "false in this code when a block comment follows or contains the line break (witnesses proved); proved for all other gaps, and exactly when the flag is set"),
 "C10": ("partial", ["Ratel.C10_consume_reads_outside_iff", "Ratel.C10_template_reads_outside_iff", "Ratel.C10_regex_reads_outside_iff", "Ratel.C10_reads_outside", "Ratel.C10_parse_partial", "Ratel.C10_utf8_partial", "Ratel.C10_exact_partial", "Ratel.C10_returns_exact_partial", "Ratel.C10_parse_reads_outside"], "false in this code; proved exactly which texts make each lexer entry point read outside; for texts without templates and divisions on which parse ends, exactly which make parse read outside"),
 "C38": ("proved", ["Ratel.C38_regex", "Ratel.C38_regex_text"], ""),
 "C11": ("proved", ["Ratel.C11_ok_iff_no_error", "Ratel.C11_error_iff_errors", "Ratel.C11_errors_never_dropped", "Ratel.C11_error_recorded"], ""),
 "C12": ("proved", ["Ratel.C12_errors_point_into_source", "Ratel.C12_errors_in_source_order"], ""),
 "C16": ("partial", ["Ratel.C16_consume_terminates", "Ratel.C16_bounded", "Ratel.C16_decided", "Ratel.C16_within", "Ratel.C16_terminates_partial", "Ratel.C16_text_terminates_partial", "Ratel.C16_chars_terminates_partial", "Ratel.C16_ascii_terminates_partial", "Ratel.C16_returns_partial", "Ratel.C16_returns_utf8_partial", "Ratel.C16_exact_partial", "Ratel.C16_stalls_partial", "Ratel.C16_never_returns_partial", "Ratel.C16_euro_diverges", "Ratel.C16_switch_diverges"], "false in this code: two sources proved to make parse loop forever; proved that only these two causes exist: without a non-ASCII character that is not alphanumeric and without the word switch parse returns (exactly when, for texts without templates, divisions and switch: C16_exact_partial), within src.length + 3 levels of recursion and rounds of each loop; for every source whatsoever it is proved that parse has returned within src.length + 3 levels or never returns (C16_bounded, C16_decided); every lexer call returns"),
 "C17": ("partial", ["Ratel.C17_no_panic_partial", "Ratel.C17_ascii_no_panic_partial", "Ratel.C17_consume_panics_iff", "Ratel.C17_exact_partial", "Ratel.C17_parse_panics"], "false in this code (witness proved); proved that only a dot followed by a non-ASCII byte can panic, and for texts without templates and divisions on which parse ends, exactly when it does"),
 "C36": ("proved", ["Ratel.C36_nul_ends_source"], ""),
 "C13": ("proved", ["Ratel.C13_no_placeholders"], ""),
 "C14": ("proved", ["Ratel.C14_verbatim", "Ratel.C14_identifier", "Ratel.C14_literal"], ""),
 "C15": ("proved", ["Ratel.C15_spans_in_source"], ""),
 "C20": ("proved", ["Ratel.C20_assignment", "Ratel.C20_postfix"], ""),
 "C18": ("proved", ["Ratel.C18_ordered", "Ratel.C18_minimal", "Ratel.C18_chain", "Ratel.C18_two"], "operands are names; ** associates to the left in this code. C42 covers all other operands"),
 "C19": ("proved", ["Ratel.C19_line_break", "Ratel.C19_semicolon", "Ratel.C19_end", "Ratel.C19_brace", "Ratel.C19_increment", "Ratel.C19_newline", "Ratel.C19_semicolon'", "Ratel.C19_closing", "Ratel.C19_prefix"], "what follows is anything that is accepted on its own (C19_newline, C19_semicolon', C19_closing, C19_prefix)"),
 "C43": ("proved", ["Ratel.C43_program", "Ratel.C43_iff", "Ratel.C43_rejected"], "with C42: exactly the grammar of Spec/Grammar.lean and Spec/Spelling.lean"),
 "C42": ("proved", ["Ratel.C42_accepts", "Ratel.C42_unique"], "grammar in Spec/Grammar.lean and Spec/Spelling.lean, independent of the parser"),
 "C39": ("proved", ["Ratel.C39_binary_operator", "Ratel.C39_prefix_operator", "Ratel.C39_postfix_operator"], ""),
 "C40": ("proved", ["Ratel.C40_shapes"], ""),
 "C41": ("proved", ["Ratel.C41_spans_nest", "Ratel.C41_operands", "Ratel.C41_arguments"], ""),
 "C21": ("partial", ["Ratel.C21_round_trip_partial", "Ratel.C21_same_tree_partial", "Ratel.C21_equal_partial", "Ratel.C21_minify_again_partial", "Ratel.C21_generate_again_partial", "Ratel.C21_tree_partial", "Ratel.C21_generators_partial", "Ratel.C21_generators_exact_partial", "Ratel.C21_generators_tree_partial", "Ratel.C21_minify_generated_partial", "Ratel.C21_determines_partial", "Ratel.C21_same_code_partial", "Ratel.C21_misprints", "Ratel.C21_misprints_minified"], "false in this code (witnesses C21_misprints, C21_misprints_minified). Proved for all accepted sources whose trees avoid the listed errors of the generator (Safe in Spec/Printable.lean); empty statements in lists are dropped; generators are read as ordinary functions, and the tree survives exactly if there are none (C21_generators_exact_partial); the minified code determines the tree up to positions and empty statements (C21_same_code_partial)"),
 "C44": ("proved", ["Ratel.C44_positions", "Ratel.C44_empty_statements"], ""),
 "C45": ("proved", ["Ratel.C45_extents", "Ratel.C45_array", "Ratel.C45_binary", "Ratel.C45_function", "Ratel.C45_if"], "the exceptions named in the statement are left out of the tables Node.opens/closes/starts/stops; witnesses are beside the theorems"),
 "C22": ("proved", ["Ratel.C22_accepted_no_panic", "Ratel.C22_codegen_no_panic", "Ratel.C22_error_member_panics"], ""),
 "C23": ("proved", ["Ratel.C23_pretty_adds_blanks", "Ratel.C23_accepted"], ""),
 "C24": ("proved", ["Ratel.C24_statement_balanced", "Ratel.C24_expression_balanced", "Ratel.C24_module_balanced", "Ratel.C24_accepted"], ""),
 "C25": ("proved", ["Ratel.C25_minified_lines", "Ratel.C25_accepted"], ""),
 "C26": ("proved", ["Ratel.C26_binary_parens"], ""),
 "C27": ("proved", ["Ratel.C27_scopes_balanced"], ""),
 "C28": ("partial", ["Ratel.C28_parents_partial", "Ratel.C28_balanced_iff_partial", "Ratel.C28_imports_pop", "Ratel.C28_import_unbalanced"], "false for import declarations (witness proved); proved for all modules without them, and exactly the modules without imports are balanced: every import pops once too often"),
 "C29": ("proved", ["Ratel.C29_uses"], ""),
 "C30": ("partial", ["Ratel.C30_declares", "Ratel.C30_bindings_declared_partial", "Ratel.C30_exactly_partial", "Ratel.C30_declared_bound", "Ratel.C30_rest_not_declared", "Ratel.C30_shorthand_not_declared", "Ratel.C30_import_not_declared"], "false for rest elements, object patterns and imports (witnesses proved); proved for all other modules, and exactly for those; nothing is declared that is not bound"),
 "C33": ("partial", ["Ratel.C33_no_arrows_partial", "Ratel.C33_arrows_remain", "Ratel.C33_transform_keeps_cells", "Ratel.C33_transform_changes_nothing", "Ratel.C33_functions_dropped", "Ratel.C33_stored", "Ratel.C33_output_unchanged"], "the property is false in this code: proved that transform writes no cell of any module, so every arrow function remains, and that exactly the right functions are made for all of them, in order, and dropped"),
 "C34": ("partial", ["Ratel.C34_position_partial", "Ratel.C34_after_line_break", "Ratel.C34_after_line_break_wrong"], "false directly after a line break (proved for all such positions); proved for every other position"),
 "C35": ("proved", ["Ratel.C35_token_of_operator", "Ratel.C35_binary", "Ratel.C35_assignment", "Ratel.C35_continuation", "Ratel.C35_prefix", "Ratel.C35_statement_prefix", "Ratel.C35_statement_expression", "Ratel.C35_contexts", "Ratel.C35_asi", "Ratel.C35_exponent_disagrees"], "closed finite domain, computed completely; ** is the one exception and is stated"),
 "C37": ("proved", ["Ratel.C37_serialise", "Ratel.C37_panic", "Ratel.C37_program", "Ratel.C37_statement_span", "Ratel.C37_unsupported_forms"], ""),
 "C31": ("proved", ["Ratel.C31_C32_analyze", "Ratel.C31_C32_accepted"], ""),
 "C32": ("proved", ["Ratel.C31_C32_analyze", "Ratel.C31_C32_accepted"], ""),
 "C46": ("proved", ["Ratel.C46_tokens", "Ratel.C46_spans", "Ratel.C46_texts", "Ratel.C46_errors"], "the lexer states quantified over are those reached through consume, read_template_kind and read_regular_expression as the parser calls them (Lexing)"),
 "C47": ("proved", ["Ratel.C47_generated_code", "Ratel.C47_accepted"], ""),
 "C48": ("proved", ["Ratel.C48_rendered", "Ratel.C48_shown_iff", "Ratel.C48_error_message", "Ratel.C48_message", "Ratel.C48_aligned", "Ratel.C48_lines"], ""),
 "C49": ("proved", ["Ratel.C49_accepted", "Ratel.C49_rejected", "Ratel.C49_returns", "Ratel.C49_estree", "Ratel.C49_minify_again", "Ratel.C49_ambiguous"], "neon and wasm_bindgen are not modelled; C49_ambiguous: pretty printed code can start with 'Error: ' like a message"),
 "C50": ("proved", ["Ratel.C50_memory_safe", "Ratel.C50_succeeds_iff", "Ratel.C50_panics_iff", "Ratel.C50_slices"], ""),
 "C51": ("proved", ["Ratel.C51_reads_back", "Ratel.C51_reads_back_bare"], "The reader and keptStmts (what is recorded) are in Spec/ReadEstree.lean. Numbers with a fraction are compared by their text: f64 is not modelled."),
 "C53": ("proved", ["Ratel.C53_errors_local", "Ratel.C53_error_final"], ""),
 "C54": ("proved", ["Ratel.C54_statements_local"], ""),
 "C55": ("proved", ["Ratel.C55_every_node_once", "Ratel.C55_panics_iff", "Ratel.C55_accepted_no_panic"], ""),
 "C56": ("partial", ["Ratel.C56_lists_once_partial", "Ratel.C56_list_first_partial", "Ratel.C56_program_not_announced"], "false in this code for the program body (proved for all modules); proved for all other statement lists"),
 "C52": ("proved", ["Ratel.C52_same_kept", "Ratel.C52_same_tree", "Ratel.C52_confused"], ""),
 "C57": ("proved", ["Ratel.C57_brackets_match"], ""),
 "C58": ("proved", ["Ratel.C58_layout", "Ratel.C58_leading", "Ratel.C58_leading_iff"], ""),
 "C59": ("proved", ["Ratel.C59_line_break", "Ratel.C59_semicolon", "Ratel.C59_comment"], "C59_comment: without the line break behind a comment it is false"),
 "C60": ("proved", ["Ratel.C60_equal_iff", "Ratel.C60_equivalence", "Ratel.C60_same_code", "Ratel.C60_same_tokens"], ""),
 "C61": ("proved", ["Ratel.C61_pointers", "Ratel.C61_parents", "Ratel.C61_count", "Ratel.C61_accepted"], "the flag for super is never set"),
 "C62": ("proved", ["Ratel.C62_minify", "Ratel.C62_pretty", "Ratel.C62_codegen", "Ratel.C62_accepted"], "Vec itself (with_capacity, reserve, push, set_len) is modelled after its documentation, with any growth policy; set_len in front of the copy is accepted if it is within the capacity"),
 "C63": ("proved", ["Ratel.C63_rename", "Ratel.C63_programs"], "trees are compared without positions, as names may have other lengths; that only the seven contextual words matter is part of the claim"),
 "C64": ("proved", ["Ratel.C64_positions", "Ratel.C64_layout", "Ratel.C64_rename", "Ratel.C64_renamed_source"], "the condition on import sources is needed: an example shows what happens without it"),
 "C65": ("proved", ["Ratel.C65_errors_bounded", "Ratel.C65_quoted_text"], "nine is what the parser's recovery needs (the head of a for statement); examples show that fewer than three per byte would be false"),
 "C66": ("proved", ["Ratel.C66_positions", "Ratel.C66_accepted", "Ratel.C66_layout"], ""),
 "C67": ("proved", ["Ratel.C67_minified_length"], ""),
 "C68": ("proved", ["Ratel.C68_nodes", "Ratel.C68_visits", "Ratel.C68_scopes"], ""),
 "C69": ("proved", ["Ratel.C69_total", "Ratel.C69_faithful", "Ratel.C69_module", "Ratel.C69_bindings", "Ratel.C69_unambiguous"], "std::fmt (builders, Debug for str) is modelled after its source; which characters char::escape_debug writes as numbers is a parameter"),
 "C70": ("proved", ["Ratel.C70_reads_back", "Ratel.C70_unique", "Ratel.C70_lines", "Ratel.C70_document", "Ratel.C70_tree", "Ratel.C70_same_text", "Ratel.C70_utf8", "Ratel.C70_bindings", "Ratel.C70_accepted_iff"], "serde_json's formatters are modelled after their source; the text of an f64 is a parameter, assumed to be a JSON number with fraction or exponent, or null (class LawfulFloats; an instance is given)"),
 "C71": ("proved", ["Ratel.C71_lexer", "Ratel.C71_tree", "Ratel.C71_errors", "Ratel.C71_document", "Ratel.C71_program"], "the model computes with unbounded positions; the theorems say that the conversions as u32 are identities for sources under 4 GiB"),
 "C72": ("proved", ["Ratel.C72_literals", "Ratel.C72_templates"], "identifiers are left out: the recorded spans of property names in a.b and of the keys of getters and setters are not those of the names (C14)"),
 "C73": ("proved", ["Ratel.C73_positions", "Ratel.C73_names", "Ratel.C73_rename", "Ratel.C73_layout", "Ratel.C73_renamed_source"], ""),
 "C74": ("proved", ["Ratel.C74_transform", "Ratel.C74_ast", "Ratel.C74_parse", "Ratel.C74_no_arguments", "Ratel.C74_value_iff"], "neon's argument conversion is modelled as documented: a TypeError if the argument is missing or of another type"),
 "C75": ("proved", ["Ratel.C75_empty_statements", "Ratel.C75_scopes", "Ratel.C75_visitor", "Ratel.C75_document"], "the restriction to printable trees (Safe in Spec/Printable.lean) is part of the statement; C21 shows it is needed for reading code back"),
 "C76": ("proved", ["Ratel.C76_pretty_length", "Ratel.C76_quadratic"], ""),
 "C77": ("proved", ["Ratel.C77_positions_move", "Ratel.C77_iff", "Ratel.C77_spaces", "Ratel.C77_same_tree", "Ratel.C77_document"], "Of accepted sources; the tree moved is defined in Spec/Shift.lean."),
 "C78": ("proved", ["Ratel.C78_minified", "Ratel.C78_pretty", "Ratel.C78_append", "Ratel.C78_block", "Ratel.C78_function", "Ratel.C78_while", "Ratel.C78_if", "Ratel.C78_if_else", "Ratel.C78_do", "Ratel.C78_labeled", "Ratel.C78_throw", "Ratel.C78_expression", "Ratel.C78_sources_semicolon", "Ratel.C78_sources_line_break", "Ratel.C78_accepted", "Ratel.C78_template"], "C78_template: a template with a line break is not indented"),
}
json.dump({"claims": [{"property": k, "status": s, "theorems": t, "note": n} for k, (s, t, n) in sorted(C.items())]},
          open('/verif/MANIFEST.json', 'w'), indent=1)
