{"claims": [
 {"property": "C01", "status": "proved", "theorems": ["Verif.C01_generated_code", "Verif.C01_no_error_in_grammar", "Verif.C01_grammar_is_atn"], "note": ""},
 {"property": "C02", "status": "proved", "theorems": ["Verif.C02_generated_code", "Verif.C02_sentences_accepted", "Verif.C02_no_syntax_error", "Verif.C02_others_rejected"], "note": ""},
 {"property": "C03", "status": "proved", "theorems": ["Verif.C03_one_meaning", "Verif.C03_one_program_meaning"], "note": ""},
 {"property": "C04", "status": "proved", "theorems": ["Verif.C04_maximal_munch", "Verif.C04_lossless", "Verif.C04_each_token"], "note": ""},
 {"property": "C05", "status": "proved", "theorems": ["Verif.C05_layout_insensitive", "Verif.C05_rejected_stay_rejected"], "note": "C05_layout_insensitive: for texts that tokenise. The excluded boundaries (directly after an SQL statement or a line comment; a comment directly after `/`) are real: there the inserted characters become part of the neighbouring token."},
 {"property": "C06", "status": "proved", "theorems": ["Verif.C06_exact", "Verif.C06_parse"], "note": ""},
 {"property": "C07", "status": "proved", "theorems": ["Verif.C07_top_level_order", "Verif.C07_table_order", "Verif.C07_action_order", "Verif.C07_init_last", "Verif.C07_interleaving"], "note": ""},
 {"property": "C08", "status": "proved", "theorems": ["Verif.C08_multi_init", "Verif.C08_init_signature"], "note": ""},
 {"property": "C09", "status": "proved", "theorems": ["Verif.C09_modifiers", "Verif.C09_repeated"], "note": ""},
 {"property": "C10", "status": "proved", "theorems": ["Verif.C10_top_level_names_unique"], "note": ""},
 {"property": "C11", "status": "proved", "theorems": ["Verif.C11_table_names_unique"], "note": ""},
 {"property": "C12", "status": "proved", "theorems": ["Verif.C12_params_events_receivers_unique"], "note": ""},
 {"property": "C13", "status": "partial", "theorems": ["Verif.C13_violated", "Verif.C13_index_columns_partial"], "note": "The property is false of the code: C13_violated exhibits an accepted schema whose index names another index. C13_index_columns_partial proves what does hold: every index column is a column or an index name of the table."},
 {"property": "C14", "status": "partial", "theorems": ["Verif.C14_violated", "Verif.C14_foreign_keys_partial"], "note": "The property is false of the code: C14_violated exhibits an accepted schema whose foreign key names an index instead of a column. C14_foreign_keys_partial: parent table is declared, keys are column or index names."},
 {"property": "C15", "status": "proved", "theorems": ["Verif.C15_attributes_fit"], "note": ""},
 {"property": "C16", "status": "proved", "theorems": ["Verif.C16_calls_resolve"], "note": ""},
 {"property": "C17", "status": "partial", "theorems": ["Verif.C17_violated", "Verif.C17_variables_defined_partial"], "note": "The property is false of the code: C17_violated (a variable nested in a larger argument expression is not checked). C17_variables_defined_partial: it holds for variables that are a whole argument."},
 {"property": "C18", "status": "proved", "theorems": ["Verif.C18_valid_accepted", "Verif.C18_accepted_iff_valid"], "note": ""},
 {"property": "C19", "status": "proved", "theorems": ["Verif.C19_truthful", "Verif.C19_panics"], "note": ""},
 {"property": "C20", "status": "proved", "theorems": ["Verif.C20_generated_halts", "Verif.C20_result_or_error", "Verif.C20_syntax_error", "Verif.C20_visitor_error", "Verif.C20_validation_error", "Verif.C20_error_has_text"], "note": ""},
 {"property": "C21", "status": "proved", "theorems": ["Verif.C21_no_crash"], "note": ""},
 {"property": "C22", "status": "partial", "theorems": ["Verif.C22_error_list_partial", "Verif.C22_all_recorded", "Verif.C22_list_text", "Verif.C22_count_off_by_one", "Verif.C22_violated"], "note": "The count clause is false of the code: C22_violated; C22_count_off_by_one gives the exact printed count. The other clauses are proved in C22_error_list_partial."},
 {"property": "C23", "status": "proved", "theorems": ["Verif.C23_used_listener", "Verif.C23_history"], "note": ""},
 {"property": "C24", "status": "proved", "theorems": ["Verif.C24_mode", "Verif.C24_quiet", "Verif.C24_parse", "Verif.C24_history"], "note": ""},
 {"property": "C25", "status": "proved", "theorems": ["Verif.C25_sql_verbatim"], "note": ""},
 {"property": "C26", "status": "proved", "theorems": ["Verif.C26_call_tokens"], "note": ""},
 {"property": "C27", "status": "partial", "theorems": ["Verif.C27_reads_back_partial", "Verif.C27_violated"], "note": "The property is false of the code: C27_violated exhibits an accepted call whose stored text tokenises differently. The _partial theorem(s) say when it holds."},
 {"property": "C28", "status": "proved", "theorems": ["Verif.C28_names"], "note": ""},
 {"property": "C29", "status": "partial", "theorems": ["Verif.C29_annotations_partial", "Verif.C29_violated"], "note": "The property is false of the code: C29_violated exhibits an accepted annotation that ParseAnnotation reads differently (or not at all). C29_annotations_partial says when it holds."},
 {"property": "C30", "status": "proved", "theorems": ["Verif.C30_total", "Verif.C30_result", "Verif.C30_well_typed"], "note": ""},
 {"property": "C31", "status": "proved", "theorems": ["Verif.C31_faithful", "Verif.C31_parsed", "Verif.C31_nodes"], "note": ""},
 {"property": "C32", "status": "proved", "theorems": ["Verif.C32_injective", "Verif.C32_parsed"], "note": ""},
 {"property": "C33", "status": "proved", "theorems": ["Verif.C33_escape_safe", "Verif.C33_string"], "note": ""},
 {"property": "C34", "status": "proved", "theorems": ["Verif.C34_schema", "Verif.C34_extension", "Verif.C34_table", "Verif.C34_action"], "note": ""},
 {"property": "C35", "status": "proved", "theorems": ["Verif.C35_exit_code", "Verif.C35_other", "Verif.C35_untouched", "Verif.C35_no_output", "Verif.C35_exits"], "note": ""},
 {"property": "C36", "status": "partial", "theorems": ["Verif.C36_output_partial", "Verif.C36_violated"], "note": "The property is false of the code (no O_TRUNC): C36_violated. C36_output_partial gives the exact content, and that it is the JSON if and only if the old file was not longer."},
 {"property": "C37", "status": "partial", "theorems": ["Verif.C37_open_close_partial", "Verif.C37_violated"], "note": "The property is false of the code (the deferred Close overwrites the error of Write): C37_violated. C37_open_close_partial covers failing open and close."},
 {"property": "C38", "status": "proved", "theorems": ["Verif.C38_output_path", "Verif.C38_every_argument", "Verif.C38_no_element"], "note": "Directories are an arbitrary graph; with symbolic links the output directory must not contain `..` (filepath.Join cleans it lexically), without them any output directory is covered."},
 {"property": "C39", "status": "partial", "theorems": ["Verif.C39_violated", "Verif.C39_trace_partial"], "note": "The property is false of the code (the flag is not bound to the variable): C39_violated, for every command line. C39_trace_partial: the flag is accepted and changes nothing."},
 {"property": "C40", "status": "proved", "theorems": ["Verif.C40_accepted", "Verif.C40_rejected", "Verif.C40_arguments", "Verif.C40_members"], "note": ""},
 {"property": "C41", "status": "proved", "theorems": ["Verif.C41_column", "Verif.C41_attribute", "Verif.C41_index", "Verif.C41_errors", "Verif.C41_ascii"], "note": ""},
 {"property": "C42", "status": "proved", "theorems": ["Verif.C42_spelling", "Verif.C42_constants"], "note": ""},
 {"property": "C43", "status": "proved", "theorems": ["Verif.C43_program", "Verif.C43_program_exact", "Verif.C43_schema", "Verif.C43_image", "Verif.C43_reformat"], "note": ""},
 {"property": "C44", "status": "proved", "theorems": ["Verif.C44_word", "Verif.C44_keyword", "Verif.C44_verb", "Verif.C44_identifier", "Verif.C44_sql"], "note": ""},
 {"property": "C45", "status": "partial", "theorems": ["Verif.C45_no_missing_partial", "Verif.C45_violated"], "note": "The property is false of the code: C45_violated (a leading comma is accepted). The _partial theorem(s) say what holds."},
 {"property": "C46", "status": "proved", "theorems": ["Verif.C46_any_history", "Verif.C46_reuse_unsound", "Verif.C46_validator_single_use"], "note": "C46_reuse_unsound: a reused validator can even accept an invalid schema, so single use is needed; C46_any_history covers any mix of earlier Accept calls."},
 {"property": "C47", "status": "proved", "theorems": ["Verif.C47_decoding", "Verif.C47_valid", "Verif.C47_contained", "Verif.C47_accepted", "Verif.C47_first", "Verif.C47_first_byte", "Verif.C47_total"], "note": ""},
 {"property": "C48", "status": "proved", "theorems": ["Verif.C48_messages", "Verif.C48_kinds"], "note": "The position and message of the first syntax report come from the antlr runtime and are arbitrary in the model; C48_messages says they are passed on."},
 {"property": "C49", "status": "proved", "theorems": ["Verif.C49_reading", "Verif.C49_one_meaning", "Verif.C49_unreadable", "Verif.C49_effect", "Verif.C49_no_effect"], "note": "pflag 1.0.5 and cobra 1.7.0 are not in the repository; the part of them that reads these flags is modelled from their documented behaviour. The texts of usage and flag errors are not modelled."},
 {"property": "C50", "status": "proved", "theorems": ["Verif.C50_layout", "Verif.C50_nodes"], "note": "J is the type of JSON values; the theorem says the output is the layout (Spec/JsonLayout) of the value an independent reader finds in it."},
 {"property": "C51", "status": "proved", "theorems": ["Verif.C51_trace"], "note": "Lines are as printed by fmt.Printf of the rule context type and its text (the concatenated tokens)."},
 {"property": "C52", "status": "proved", "theorems": ["Verif.C52_no_interference", "Verif.C52_progress", "Verif.C52_shared"], "note": "Appends to a listener and printed lines are atomic steps (unsynchronised appends to a shared listener are a data race in Go; claims about unshared listeners do not depend on that)."},
 {"property": "C53", "status": "proved", "theorems": ["Verif.C53_any_moment", "Verif.C53_rerun", "Verif.C53_torn"], "note": "A killed process leaves the bytes it has written; loss of power is not modelled. C53_torn: the file may really be torn. C53_rerun needs the output not to be the input file."},
 {"property": "C54", "status": "proved", "theorems": ["Verif.C54_statement_forms", "Verif.C54_no_other_sql"], "note": ""},
 {"property": "C55", "status": "partial", "theorems": ["Verif.C55_order_partial", "Verif.C55_violated"], "note": "The property is false of the code: C55_violated (exchanging two indexes, one of which lists the name of the other). C55_order_partial: it holds for all other reorderings."},
 {"property": "C56", "status": "partial", "theorems": ["Verif.C56_input_kept_partial", "Verif.C56_violated"], "note": "The property is false of the code: C56_violated (`-o . x.json` overwrites x.json). C56_input_kept_partial: it holds if the input is not called *.json."},
 {"property": "C57", "status": "partial", "theorems": ["Verif.C57_parts_partial", "Verif.C57_truthful", "Verif.C57_index", "Verif.C57_foreign_key", "Verif.C57_violated", "Verif.C57_panics"], "note": "The property is false of the code: C57_violated (VisitExtension panics with \"implement me\"). C57_parts_partial and the other theorems cover all other parts."},
 {"property": "C58", "status": "proved", "theorems": ["Verif.C58_first", "Verif.C58_accepted", "Verif.C58_parseKF"], "note": ""},
 {"property": "C59", "status": "proved", "theorems": ["Verif.C59_add", "Verif.C59_add_extension", "Verif.C59_remove", "Verif.C59_remove_extension"], "note": ""},
 {"property": "C60", "status": "proved", "theorems": ["Verif.C60_generated_parser", "Verif.C60_model_parser"], "note": "The rule functions are translated statement by statement by a script (Model/GoCode). Of the ANTLR runtime it is assumed that Match/Consume compare token types, that Sync accepts at least what NextTokens allows, and that AdaptivePredict answers right where the next two tokens tell (TwoTokens in Spec/Predict, on the tables only; ALL(*) promises more, and C67 shows it of the modelled algorithm); runs are followed up to the first error. C01_generated_code needs nothing of AdaptivePredict but that its answers are in range."},
 {"property": "C61", "status": "partial", "theorems": ["Verif.C61_values_partial", "Verif.C61_violated"], "note": "The property is false of the code: C61_violated breaks every clause with one accepted text. C61_values_partial: acceptance never depends on the values of literals, on the database name, on names and configuration of extensions or on annotations."},
 {"property": "C62", "status": "partial", "theorems": ["Verif.C62_context_free_partial", "Verif.C62_violated"], "note": "The property is false of the code: C62_violated. C62_context_free_partial: an SQL statement is judged by itself; if it is part of one accepted text it can be added to any action of any other."},
 {"property": "C63", "status": "partial", "theorems": ["Verif.C63_violated", "Verif.C63_caller_partial"], "note": "The property is false of the code: C63_violated (@block_height as a whole argument is rejected). C63_caller_partial: @caller is accepted everywhere."},
 {"property": "C64", "status": "partial", "theorems": ["Verif.C64_documented_partial", "Verif.C64_writable_partial", "Verif.C64_violated"], "note": "The property is false of the code: C64_violated (an index written above a column is a syntax error). C64_documented_partial: it holds for texts in which the columns of each table come first; C64_writable_partial: all of those can be written."},
 {"property": "C65", "status": "proved", "theorems": ["Verif.C65_rename", "Verif.C65_writable"], "note": ""},
 {"property": "C66", "status": "proved", "theorems": ["Verif.C66_next_token", "Verif.C66_all_tokens", "Verif.C66_model_lexer", "Verif.C66_terminates"], "note": "The tables are decoded from the array in kuneiform_lexer.go; the algorithm of LexerATNSimulator (v4.13.0) is modelled in Model/LexSim (DFA cache left out).  C04 and everything else that reads text rests on the same lexer by C66_model_lexer."},
 {"property": "C67", "status": "proved", "theorems": ["Verif.C67_two_tokens", "Verif.C67_first_viable", "Verif.C67_tables_parser", "Verif.C67_front_end", "Verif.C67_front_end_exact"], "note": "The algorithm of ParserATNSimulator (v4.13.0), first stage, is modelled in Model/Predict (DFA cache left out; merging of different contexts, canDropLoopEntryEdgeInLeftRecursiveRule and the second stage are not modelled, and the theorem shows that they are never reached: the modelled algorithm would give none). C67_front_end joins it with C60 and C66: no contract of the prediction service is assumed any more."},
 {"property": "C68", "status": "proved", "theorems": ["Verif.C68_position", "Verif.C68_lexical", "Verif.C68_before_lexical", "Verif.C68_unique", "Verif.C68_message", "Verif.C68_message_lexical"], "note": "Positions are those of Model/Report: run of the generated code (Model/GoCode) with the modelled prediction up to its first error. C68_message/_lexical assume that the runtime reports a place this model allows (World.Points); if the offending token is the last one before characters that are no token, either of the two may come first (C68_before_lexical). Message texts are not modelled."},
 {"property": "C69", "status": "proved", "theorems": ["Verif.C69_ends", "Verif.C69_steps", "Verif.C69_count", "Verif.C69_silent", "Verif.C69_where", "Verif.C69_first", "Verif.C69_errors_bounded", "Verif.C69_located", "Verif.C69_message"], "note": "The recovery of the ANTLR runtime is modelled with all its token sets left open (Strategy). The theorems on parseAll are about that model; C69_errors_bounded, C69_located and C69_message assume that the reports of the runtime come from it (World.Recovers). A panic of the runtime during recovery stays possible there (it adds the last entry of the list)."},
 {"property": "C70", "status": "proved", "theorems": ["Verif.C70_first_declarations", "Verif.C70_boundaries", "Verif.C70_truncated"], "note": ""},
 {"property": "C71", "status": "partial", "theorems": ["Verif.C71_usable_partial", "Verif.C71_exact", "Verif.C71_violated"], "note": "The property is false of the code: C71_violated (a semicolon or a closing brace inside a string). C71_usable_partial: every other statement can be used; C71_exact: exactly those."},
 {"property": "C72", "status": "proved", "theorems": ["Verif.C72_names", "Verif.C72_getters", "Verif.C72_nothing_hidden", "Verif.C72_expressions", "Verif.C72_types", "Verif.C72_visit", "Verif.C72_dispatch"], "note": "C72_dispatch and C72_getters hold for all trees, C72_visit for all texts of the language. The parser model flattens argument expressions; C72_expressions covers their nodes as the generated code builds them (ExprNode). Labels of Fn_arg_exprContext are not modelled."},
 {"property": "C73", "status": "partial", "theorems": ["Verif.C73_crlf_partial", "Verif.C73_one_line_partial", "Verif.C73_violated"], "note": "False of the code for a line end after a backslash in a string (C73_violated); C73_crlf_partial covers all other files, C73_one_line_partial those whose statements have no line ends."},
 {"property": "C74", "status": "partial", "theorems": ["Verif.C74_all_partial", "Verif.C74_same_stem", "Verif.C74_violated"], "note": "False of the code: C74_violated (files whose names differ only in the directory or the extension have the same output file; the second run overwrites the first and both exit with 0). C74_all_partial: for different output files, none of them an input, every list of calls leaves all the JSON texts."},
 {"property": "C75", "status": "proved", "theorems": ["Verif.C75_truthful", "Verif.C75_match_states", "Verif.C75_names", "Verif.C75_listed", "Verif.C75_message"], "note": "Expected sets are those of GetExpectedTokens (v4.13.0) in the state where the modelled run of the generated code reports (Model/Expected). C75_message assumes that the runtime puts this set into its message (World.Names) and reports at the place of the model (World.Points). The list need not name every token that would be right: after the end of a list, Match names only the closing token."},
 {"property": "C76", "status": "proved", "theorems": ["Verif.C76_errors", "Verif.C76_json"], "note": "Both programs are assumed to be built from the same versions of the imported packages (one World); strings of JavaScript are sequences of characters (lone surrogates are not modelled)."},
 {"property": "C77", "status": "proved", "theorems": ["Verif.C77_found", "Verif.C77_block", "Verif.C77_lines", "Verif.C77_deleted", "Verif.C77_same", "Verif.C77_accepted", "Verif.C77_accepted_extension"], "note": "Line comments: a declaration with carriage returns is excluded (C73 says what they do)."},
 {"property": "C78", "status": "proved", "theorems": ["Verif.C78_text", "Verif.C78_schema", "Verif.C78_accepted"], "note": "A text that ends inside a line comment needs a line end first; that is the condition on the last line."},
 {"property": "C79", "status": "proved", "theorems": ["Verif.C79_nested", "Verif.C79_missing", "Verif.C79_extra"], "note": "Brackets inside SQL statements are SQL text and are not counted; a bracket put directly after an SQL statement becomes part of it."},
 {"property": "C80", "status": "proved", "theorems": ["Verif.C80_missing", "Verif.C80_extra"], "note": "Semicolons that end SQL statements are excluded by the statement of the property: without them the SQL text goes on."}
]}
