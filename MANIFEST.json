{"claims": [
  {"property": "C01", "status": "proved", "theorems": ["Verif.Props.tri_ops_rank", "Verif.Props.rank_injective", "Verif.Props.evalTri_rank", "Verif.Props.tri_laws", "Verif.Props.evalTri_mono", "Verif.Props.evalTri_classical"], "note": "Connectives are min/max/reversal of the rank for every formula tree; monotone in the information order."},
  {"property": "C02", "status": "proved", "theorems": ["Verif.Props.truth_iff", "Verif.Props.truth_ops"], "note": "Truthiness is exactly rank 2."},
  {"property": "C03", "status": "proved", "theorems": ["Verif.Props.lexer_refines_grammar", "Verif.Props.tokenize_unfold", "Verif.Props.tokenize_terminates", "Verif.Props.tokens_bracketed", "Verif.Props.tokenize_idempotent"], "note": "The token list is exactly what a declarative tokenization relation allows; the fuel of the model is never exhausted."},
  {"property": "C04", "status": "proved", "theorems": ["Verif.Props.token_positions"], "note": "Positions relative to the lexeme relation."},
  {"property": "C05", "status": "proved", "theorems": ["Verif.Props.lex_render", "Verif.Props.lex_spaced", "Verif.Props.whitespace_insensitive"], "note": "Re-spacing around lexemes changes positions only."},
  {"property": "C06", "status": "proved", "theorems": ["Verif.Props.keyword_case_insensitive", "Verif.Props.attclass_case_insensitive"], "note": "For every ASCII spelling at a token position."},
  {"property": "C07", "status": "partial", "theorems": ["Verif.Props.lexer_failures", "Verif.Props.lexer_errors_partial", "Verif.Props.lexer_attribute_error", "Verif.Props.lexer_value_error"], "note": "False as stated: texts ending in a dot raise AttributeError, digits without decimal value raise ValueError. Exact list of failures proved; the partial theorem excludes those texts."},
  {"property": "C08", "status": "proved", "theorems": ["Verif.Props.att_list_eq"], "note": "The attribute list is the sequence of attribute tokens with their prefixes."},
  {"property": "C09", "status": "proved", "theorems": ["Verif.Props.parse_refines_grammar", "Verif.Props.parse_state_iff", "Verif.Props.parse_lexed", "Verif.Props.parse_sound_documented", "Verif.Props.documented_rejected"], "note": "Accepts exactly the implemented grammar; the documented ABNF additionally allows boolean atomics, documented_rejected is a witness of that gap."},
  {"property": "C10", "status": "proved", "theorems": ["Verif.Props.grammar_unambiguous", "Verif.Props.and_over_or", "Verif.Props.chains_left_assoc", "Verif.Props.not_and_parens"], "note": ""},
  {"property": "C100", "status": "proved", "theorems": ["Verif.Props.edit_value", "Verif.Props.edit_no_value", "Verif.Props.edit_unlisted", "Verif.Props.edit_atts", "Verif.Props.run_setsOk", "Verif.Props.run_filed"], "note": ""},
  {"property": "C101", "status": "proved", "theorems": ["Verif.Props.step_sent", "Verif.Props.requests_shown", "Verif.Props.requests_elsewhere", "Verif.Props.request_sends", "Verif.Props.typed", "Verif.Props.new_window", "Verif.Props.info_shown", "Verif.Props.unreachable_raises"], "note": ""},
  {"property": "C102", "status": "proved", "theorems": ["Verif.Props.add_iff", "Verif.Props.run_lists", "Verif.Props.shown_key", "Verif.Props.request_answered", "Verif.Props.request_not_retried", "Verif.Props.key_shown", "Verif.Props.added", "Verif.Props.deleted", "Verif.Props.cleared", "Verif.Props.run_waits"], "note": ""},
  {"property": "C103", "status": "partial", "theorems": ["Verif.Props.verify_click", "Verif.Props.step_label", "Verif.Props.label_right_partial", "Verif.Props.label_right_run_partial", "Verif.Props.label_stale", "Verif.Props.label_forged", "Verif.Props.sameCert_step", "Verif.Props.undecodable", "Verif.Props.views", "Verif.Props.view_events", "Verif.Props.view_imports", "Verif.Props.issued_shown"], "note": "False: requests do not reset the label, so it goes on to say TRUE of an unsigned certificate (label_forged); after an attachment that is no certificate the bytes are new and the certificate is the old one (undecodable). Proved: the label is right until the next request, and certificates of the attribute authority verify."},
  {"property": "C104", "status": "proved", "theorems": ["Verif.Props.concurrent_serial", "Verif.Props.concurrent_consistent", "Verif.Props.call_ends"], "note": ""},
  {"property": "C105", "status": "proved", "theorems": ["Verif.Props.ended_alone", "Verif.Props.refused_alone", "Verif.Props.commit_alone", "Verif.Props.commit_lost", "Verif.Props.race"], "note": ""},
  {"property": "C106", "status": "proved", "theorems": ["Verif.Props.expand_iff", "Verif.Props.expands_unique", "Verif.Props.expand_fuel", "Verif.Props.expand_escape", "Verif.Props.expand_escape_append", "Verif.Props.escape_plain", "Verif.Props.expand_plain", "Verif.Props.expand_lone", "Verif.Props.expand_ref", "Verif.Props.expand_missing", "Verif.Props.expand_self", "Verif.Props.getText_eq", "Verif.Props.getText_resolve", "Verif.Props.resolve_escaped", "Verif.Props.file_setting", "Verif.Props.file_raises", "Verif.Props.lower_section_ignored"], "note": "exact meaning of a value as a relation; which values raise; the other theorems' form of the configuration is justified by getText_resolve and file_setting"},
  {"property": "C107", "status": "proved", "theorems": ["Verif.Props.read_document", "Verif.Props.value_single", "Verif.Props.value_noted", "Verif.Props.read_newline", "Verif.Props.read_crlf", "Verif.Props.read_missing", "Verif.Props.read_duplicate_section", "Verif.Props.read_duplicate_option", "Verif.Props.read_no_header", "Verif.Props.read_bad_line", "Verif.Props.read_ok", "Verif.Props.readConfig_ok"], "note": "all documents with unindented headers and options; read_ok for every text"},
  {"property": "C108", "status": "proved", "theorems": ["Verif.Props.shipped_read", "Verif.Props.shipped_resolved", "Verif.Props.shipped_pauth", "Verif.Props.shipped_aauth", "Verif.Props.shipped_client", "Verif.Props.shipped_pclient", "Verif.Props.shipped_connected", "Verif.Props.shipped_enabled", "Verif.Props.shipped_engine"], "note": "for every lawful Uni; limits of int on digits, if any, must allow four digits"},
  {"property": "C109", "status": "partial", "theorems": ["Verif.Props.next_step", "Verif.Props.next_later", "Verif.Props.nexts_keep", "Verif.Props.new_keep", "Verif.Props.ended_stays", "Verif.Props.tokenString_eq", "Verif.Props.error_token", "Verif.Props.tokenize_new", "Verif.Props.parse_new", "Verif.Props.open_string", "Verif.Props.stuck_partial", "Verif.Props.parse_after_error"], "note": "All but the last sentence is proved. The last sentence is false: after the exception for an unclosed string the next call gives END, and after an unknown word or a malformed number the lexer reads on from the middle of it, so Parser(lexer) can make a tree of a text that is not a policy (parse_after_error). It holds for characters that begin no token and for a lone '!' (stuck_partial). The services make a new lexer for every text."},
  {"property": "C11", "status": "proved", "theorems": ["Verif.Props.print_parse", "Verif.Props.spelling_exists", "Verif.Props.parse_tree"], "note": ""},
  {"property": "C110", "status": "proved", "theorems": ["Verif.Props.import_ok", "Verif.Props.importSettings_exist", "Verif.Props.import_opened", "Verif.Props.import_untouched", "Verif.Props.import_kept", "Verif.Props.import_wiped", "Verif.Props.client_wipes_service", "Verif.Props.makeLogger_ok", "Verif.Props.makeForeign_ok"], "note": "For directories whose paths do not spell NONE or FALSE (LogDirOk), as LOG_DIR does."},
  {"property": "C111", "status": "proved", "theorems": ["Verif.Props.import_ready", "Verif.Props.Ready.log", "Verif.Props.Ready.made", "Verif.Props.record_routing", "Verif.Props.ready_ancestors", "Verif.Props.makeLogger_parent"], "note": "For log names without dots; an example shows what a dot does."},
  {"property": "C112", "status": "proved", "theorems": ["Verif.Props.log_history", "Verif.Props.error_lines", "Verif.Props.import_sound", "Verif.Props.made_sound", "Verif.Props.one_line", "Verif.Props.overwritten", "Verif.Props.gap_after_wipe", "Verif.Props.builtin_clobbered", "Verif.Props.shipped_sound"], "note": "The condition is needed: builtin_clobbered shows the file without configuration files."},
  {"property": "C113", "status": "proved", "theorems": ["Verif.Props.engine_records", "Verif.Props.engine_secret", "Verif.Props.engine_password", "Verif.Props.password_in_file", "Verif.Props.password_kept", "Verif.Props.record_shown", "Verif.Props.log_dropped"], "note": "The password is in the log at level DEBUG, which is the level of the shipped files."},
  {"property": "C114", "status": "proved", "theorems": ["Verif.Props.request_result", "Verif.Props.request_records", "Verif.Props.login_record", "Verif.Props.login_recorded", "Verif.Props.unknown_recorded", "Verif.Props.refused_recorded", "Verif.Props.issued_recorded", "Verif.Props.secrets_kept", "Verif.Props.hash_recorded", "Verif.Props.hash_in_file", "Verif.Props.forged_line", "Verif.Props.not_assigned_texts"], "note": "Messages contain user names as given, so lines can be forged."},
  {"property": "C115", "status": "proved", "theorems": ["Verif.Props.parse_limit", "Verif.Props.parse_limited"], "note": "Only frames of the three recursive rules are counted."},
  {"property": "C116", "status": "proved", "theorems": ["Verif.Props.evaluate_limit", "Verif.Props.check_limit", "Verif.Props.encode_limit", "Verif.Props.eq_limit", "Verif.Props.height_exists"], "note": "Only frames of the recursive functions are counted."},
  {"property": "C117", "status": "proved", "theorems": ["Verif.Props.chain_limit", "Verif.Props.long_evaluate", "Verif.Props.long_check", "Verif.Props.long_encode"], "note": "Only frames of the recursive functions are counted."},
  {"property": "C118", "status": "proved", "theorems": ["Verif.Props.token_repr", "Verif.Props.token_repr_exact", "Verif.Props.node_repr", "Verif.Props.node_repr_exact", "Verif.Props.node_repr_injective", "Verif.Props.parsed_repr", "Verif.Props.parsed_repr_injective", "Verif.Props.sample_lawful"], "note": "Evaluating is a reader of constructor calls and literals, Spec/PyExpr."},
  {"property": "C119", "status": "proved", "theorems": ["Verif.Props.tree_str_same", "Verif.Props.tree_str_error", "Verif.Props.tree_str_forged", "Verif.Props.result_texts"], "note": "Line breaks in values are the only way to the same text; tree_str_forged has a witness."},
  {"property": "C12", "status": "partial", "theorems": ["Verif.Props.parse_errors_partial", "Verif.Props.parse_failures", "Verif.Props.parse_text_failures", "Verif.Props.expExpected_last", "Verif.Props.parse_index_error"], "note": "False of the code as stated: parse_index_error gives texts that raise IndexError. parse_errors_partial excludes texts that end where an expression must follow; parse_text_failures shows that these are the only other failures."},
  {"property": "C120", "status": "proved", "theorems": ["Verif.Props.token_str_same", "Verif.Props.lexed_str_same", "Verif.Props.lexed_typed", "Verif.Props.table_str"], "note": ""},
  {"property": "C121", "status": "proved", "theorems": ["Verif.Props.never_raises", "Verif.Props.never_raises_iff", "Verif.Props.robust_truth", "Verif.Props.emptyEnv_listsOk"], "note": "Collections in the table are assumed to hold hashable values (a Python set always does; a list need not). The table of the raising direction is emptyEnv: every attribute of the policy is a SET without elements."},
  {"property": "C122", "status": "proved", "theorems": ["Verif.Props.reevaluate_exact", "Verif.Props.policyAgain_one", "Verif.Props.true_kept", "Verif.Props.and_kept", "Verif.Props.or_kept", "Verif.Props.not_kept", "Verif.Props.cmp_kept", "Verif.Props.set_exact", "Verif.Props.set_cut"], "note": "The tables of the calls may differ; the symbol objects they refer to are the same and unchanged between the calls. set_exact and set_cut cover set nodes of hand-made trees."},
  {"property": "C123", "status": "proved", "theorems": ["Verif.Props.start_trail", "Verif.Props.start_records", "Verif.Props.start_result", "Verif.Props.start_one_record", "Verif.Props.session_recorded", "Verif.Props.start_secret", "Verif.Props.record_without_session", "Verif.Props.history_records", "Verif.Props.evaluate_trail", "Verif.Props.pauth_info_trail", "Verif.Props.trusted_trail", "Verif.Props.pauth_init_trail"], "note": "The random number is below 2^160, as getrandbits(160) gives, and the tables have the primary keys of the schema. The text of an exception in the record of an invalid policy is a parameter; C127 says what it is."},
  {"property": "C124", "status": "proved", "theorems": ["Verif.Props.lex_error_iff", "Verif.Props.lex_or_error", "Verif.Props.lex_error_place", "Verif.Props.tokenize_error_token", "Verif.Props.lexTokensM_exc"], "note": "Exact list of errors with message, position and token. Character tables of Python enter through the lawful abstraction Uni."},
  {"property": "C125", "status": "proved", "theorems": ["Verif.Props.parse_error_iff", "Verif.Props.parse_text_error_iff", "Verif.Props.verdict_none_iff", "Verif.Props.parse_error_first", "Verif.Props.parse_error_paren", "Verif.Props.parse_error_text", "Verif.Props.parseTokensM_exc", "Verif.Props.parseTextM_exc"], "note": "The automaton is Spec/ParseErrors.lean. Recursion limits are C115."},
  {"property": "C126", "status": "proved", "theorems": ["Verif.Props.check_messages", "Verif.Props.says_unique", "Verif.Props.shown_unique", "Verif.Props.shown_ascii"], "note": "FoldsAll is the condition on attribute names; it holds for all ASCII policies."},
  {"property": "C127", "status": "proved", "theorems": ["Verif.Props.fault_iff", "Verif.Props.fault_none", "Verif.Props.fault_recorded", "Verif.Props.fault_shape", "Verif.Props.around_part", "Verif.Props.fault_forged", "Verif.Props.fault_identifier"], "note": "The texts of builtin exceptions (ValueError, AttributeError, IndexError) are a parameter."},
  {"property": "C128", "status": "proved", "theorems": ["Verif.Props.interp_forget", "Verif.Props.remarks_pos", "Verif.Props.evaluate_says"], "note": "Model/InterpMessages is the interpreter with its messages; interp_forget ties it to Model/Interpreter for every state."},
  {"property": "C129", "status": "proved", "theorems": ["Verif.Props.warnings_tell_kinds", "Verif.Props.par_policy", "Verif.Props.operators_match", "Verif.Props.remarksAtt_sort"], "note": "Prefix in general, equality when neither evaluation fails; whether IN with a literal holding NULL raises depends on values, so a failing run can say less."},
  {"property": "C13", "status": "proved", "theorems": ["Verif.Props.parse_tokens", "Verif.Props.parse_state_iff", "Verif.Props.parse_twice"], "note": ""},
  {"property": "C130", "status": "proved", "theorems": ["Verif.Props.console_step", "Verif.Props.console_run", "Verif.Props.paragraph_unique", "Verif.Props.wroteTokenize_says", "Verif.Props.wroteParse_says", "Verif.Props.wroteCheck_says", "Verif.Props.wroteInterpret_says"], "note": "Stated against Spec/Transcript; console_run ties the text to the state machine of C99."},
  {"property": "C131", "status": "proved", "theorems": ["Verif.Props.calls_apart", "Verif.Props.other_files", "Verif.Props.answer_own", "Verif.Props.answer_alone", "Verif.Props.raised_own", "Verif.Props.fault_own", "Verif.Props.issue_ends", "Verif.Props.issueSeen_same"], "note": "The database and the file system are parameters of the schedule; nobody else writes to the directory."},
  {"property": "C132", "status": "proved", "theorems": ["Verif.Props.serial_swapped", "Verif.Props.serial_mixed"], "note": "Serial numbers have 160 random bits, so this is a matter of design, not of likelihood."},
  {"property": "C133", "status": "proved", "theorems": ["Verif.Props.nodes_read", "Verif.Props.nodes_full_iff", "Verif.Props.literal_node"], "note": "First evaluation; C122 covers repeated ones."},
  {"property": "C134", "status": "proved", "theorems": ["Verif.Props.trees_show", "Verif.Props.lastTable_unique", "Verif.Props.run_drew", "Verif.Props.checked_rows", "Verif.Props.draw_shows"], "note": "The table with which Interpret last found a value is a relation on histories, which has exactly one answer for each (lastTable_unique). Rows of symbols are stated for policies whose attribute names fold consistently (FoldsAll; all ASCII policies, foldsAll_ascii)."},
  {"property": "C135", "status": "proved", "theorems": ["Verif.Props.rows_agree", "Verif.Props.row_edited", "Verif.Props.rows_kept", "Verif.Props.row_unlisted", "Verif.Props.mistaken"], "note": "Rows hold the objects inserted into the tree. The hypothesis Unmistaken is needed: mistaken is a table in which editing one row changes the value of another."},
  {"property": "C136", "status": "proved", "theorems": ["Verif.Props.numbers_compared", "Verif.Props.numbers_sound", "Verif.Props.numbers_exact", "Verif.Props.short_numbers", "Verif.Props.integers_exact", "Verif.Props.operands_compared", "Verif.Props.read_alike", "Verif.Props.integer_swapped", "Verif.Props.read_extremes"], "note": "For tables `Uni` whose rounding is `f64`, proved to be correct rounding (`Proofs.f64_reads`, `Proofs.reads64_iff`)."},
  {"property": "C137", "status": "proved", "theorems": ["Verif.Props.parse_counted", "Verif.Props.decode_counted", "Verif.Props.counter_bounds", "Verif.Props.worn_out", "Verif.Props.never_again", "Verif.Props.still_room", "Verif.Props.decoded_ids_repeat", "Verif.Props.failed_parse_counts"], "note": "The counter is kept through exceptions in a second model of the parser and decoder that is proved to agree with the first."},
  {"property": "C138", "status": "proved", "theorems": ["Verif.Props.template_gives", "Verif.Props.law_sound", "Verif.Props.law_complete", "Verif.Props.law_iff", "Verif.Props.law_place", "Verif.Props.law_expand", "Verif.Props.law_congr", "Verif.Props.named_laws", "Verif.Props.shortening_laws", "Verif.Props.not_laws"], "note": "forms are rendered with brackets around every part; a form that is a bare place is treated separately (law_place, law_expand), since a literal alone is refused"},
  {"property": "C139", "status": "proved", "theorems": ["Verif.Props.ids_distinct_iff", "Verif.Props.taken_round_trip", "Verif.Props.calm_round_trip", "Verif.Props.forgets_left", "Verif.Props.race_forgets"], "note": "a step is the read or the write of the counter by one thread; the tree parsed is that of the parser alone with the ids the thread got"},
  {"property": "C14", "status": "proved", "theorems": ["Verif.Props.parse_shape"], "note": ""},
  {"property": "C140", "status": "proved", "theorems": ["Verif.Props.tree_reads", "Verif.Props.tree_same_iff", "Verif.Props.tree_error", "Verif.Props.tree_complete_iff", "Verif.Props.tree_prefix", "Verif.Props.received_tree", "Verif.Props.window_tree", "Verif.Props.issued_tree", "Verif.Props.tree_hides", "Verif.Props.tree_hides_empty", "Verif.Props.serial_reads", "Verif.Props.hexlify_shows", "Verif.Props.reads_unique"], "note": "The rows are the objects given to the widget; that the platform knows the dates of all times of 32 bits is a hypothesis of the theorems about received certificates."},
  {"property": "C141", "status": "proved", "theorems": ["Verif.Props.sample_stored", "Verif.Props.sample_pstored", "Verif.Props.sample_user", "Verif.Props.sample_assigned", "Verif.Props.sample_selected", "Verif.Props.sample_issued", "Verif.Props.sample_trusted", "Verif.Props.sample_session", "Verif.Props.sample_refused", "Verif.Props.sample_policies_unknown"], "note": "Requests are ASCII, the instances given to populate_db are not yet saved, and the database has no faults. Tests/SampleCerts.lean compares with two certificate files of the repository; time, serial number, keys, signature and order of attributes are taken from the files."},
  {"property": "C142", "status": "proved", "theorems": ["Verif.Props.strict_iff", "Verif.Props.room_iff", "Verif.Props.strict_cases", "Verif.Props.strict_2038", "Verif.Props.strict_fitting", "Verif.Props.issued_2038", "Verif.Props.issued_room", "Verif.Props.sample_fits"], "note": "The limits are those of MySQL in strict mode for the types SQLAlchemy makes of the columns, as understood from their documentation; SQLite has none. Texts too long only by blanks at the end count as too long, and characters unknown to the character set of the server are not considered."},
  {"property": "C143", "status": "proved", "theorems": ["Verif.Props.v1_rows", "Verif.Props.v2_rows", "Verif.Props.v1_texts", "Verif.Props.row_tokens_inj", "Verif.Props.v1_unambiguous", "Verif.Props.written_row", "Verif.Props.written_unique", "Verif.Props.v1_defined", "Verif.Props.v1_same", "Verif.Props.v1_below", "Verif.Props.v1_allows", "Verif.Props.v1_differs", "Verif.Props.v1_negated"], "note": "Both grammars are compared over the tokens of the lexer; that version 1 writes integers without leading zeros and strings without escapes is not considered. The second alternative of line 2 of version 1 is read as parenthesis tokens around a policy."},
  {"property": "C144", "status": "proved", "theorems": ["Verif.Props.genatts_linked", "Verif.Props.genatts_unlinked", "Verif.Props.delete_children_first", "Verif.Props.delete_parents_first", "Verif.Props.wipe_linked", "Verif.Props.populate_linked", "Verif.Props.sample_unrefused", "Verif.Props.popAndGen_linked", "Verif.Props.tools_linked", "Verif.Props.genatts_keeps", "Verif.Props.genatts_orphans", "Verif.Props.visible_assignments", "Verif.Props.all_visible"], "note": "That MySQL checks foreign keys in this way, that SQLite does not unless told to, and the order of sorted_tables are taken from their documentation."},
  {"property": "C145", "status": "proved", "theorems": ["Verif.Props.typed_decides", "Verif.Props.untyped_fails", "Verif.Props.promiseEnv_ok", "Verif.Props.typed_iff", "Verif.Props.plain_passes", "Verif.Props.plain_decides", "Verif.Props.missed", "Verif.Props.set_never", "Verif.Props.warned"], "note": "Promises and typing rules are those of Spec/Typing.lean; the code has none."},
  {"property": "C146", "status": "proved", "theorems": ["Verif.Props.run_furnished", "Verif.Props.demo_decides", "Verif.Props.default_policies", "Verif.Props.default_table", "Verif.Props.default_typed", "Verif.Props.defaults_decide", "Verif.Props.defaults_reached", "Verif.Props.defaults_true", "Verif.Props.first_says", "Verif.Props.second_says", "Verif.Props.third_says"], "note": "The theorems on the example data are for the Unicode tables of cpythonUni."},
  {"property": "C147", "status": "proved", "theorems": ["Verif.Props.startSettings_exist", "Verif.Props.handler_import", "Verif.Props.handler_main", "Verif.Props.handler_noport", "Verif.Props.handler_noapp", "Verif.Props.handler_serves", "Verif.Props.handler_urls", "Verif.Props.shipped_serves"], "note": "Exceptions of Ladon and of make_server are inputs; serve_forever is taken to return. For the shipped configuration the limit of int on digits is assumed to be at least 4."},
  {"property": "C148", "status": "proved", "theorems": ["Verif.Props.start_unrefused", "Verif.Props.run_unrefused", "Verif.Props.run_calls", "Verif.Props.delete_in_order", "Verif.Props.wipe_empties", "Verif.Props.delete_parents_refused", "Verif.Props.traffic_sound", "Verif.Props.traffic_consistent", "Verif.Props.unwiped_consistent", "Verif.Props.wiped_orphan", "Verif.Props.wiped_trust"], "note": "The tables are those start_session reads; populate_db reaches them if the sections PAUTH and AAUTH name the same database (C96). pauth_attributes is left out, and additions are authorities and policies."},
  {"property": "C149", "status": "proved", "theorems": ["Verif.Props.populate_output", "Verif.Props.populate_done", "Verif.Props.build_output", "Verif.Props.genkey_output", "Verif.Props.genkey_truncates", "Verif.Props.genatts_output", "Verif.Props.main_output", "Verif.Props.accepted_prints", "Verif.Props.secrets_unsaid", "Verif.Props.wiped_schema"], "note": "The logger that makes a record is not told. The configuration has no section named like the defaults. RSA, files and bcrypt are inputs."},
  {"property": "C15", "status": "proved", "theorems": ["Verif.Props.evaluate_refines", "Verif.Props.evaluate_policy"], "note": "For lawful Unicode tables and symbol tables whose Python sets hold hashable values; the semantics is Spec/Semantics.lean."},
  {"property": "C150", "status": "proved", "theorems": ["Verif.Props.bearer", "Verif.Props.any_caller", "Verif.Props.pooled"], "note": "That two lists start one session is for calls during which the clock does not change."},
  {"property": "C151", "status": "proved", "theorems": ["Verif.Props.setup_fails", "Verif.Props.setup_records", "Verif.Props.setup_printable", "Verif.Props.setup_secrets", "Verif.Props.bytesRepr_printable", "Verif.Props.bytesRepr_inj", "Verif.Props.info_records"], "note": "The configuration has no section named like the defaults; that the public key is the same for the two key files compared is a hypothesis."},
  {"property": "C152", "status": "proved", "theorems": ["Verif.Props.aclient_init", "Verif.Props.pclient_init", "Verif.Props.aclient_update", "Verif.Props.pclient_updates", "Verif.Props.aclient_info", "Verif.Props.pclient_ask", "Verif.Props.pclient_start", "Verif.Props.aclient_request", "Verif.Props.aclient_out", "Verif.Props.pclient_out", "Verif.Props.credentials_unrecorded", "Verif.Props.aclient_honest", "Verif.Props.pclient_honest", "Verif.Props.new_honest", "Verif.Props.misnamed"], "note": "What the JSON-WSP client of Ladon records is not modelled."},
  {"property": "C153", "status": "proved", "theorems": ["Verif.Props.body_size", "Verif.Props.cert_size", "Verif.Props.export_size", "Verif.Props.issued_size", "Verif.Props.certificate_fits", "Verif.Props.issuable_iff", "Verif.Props.issued_room_iff", "Verif.Props.tree_size", "Verif.Props.tree_encodes_iff", "Verif.Props.policy_size", "Verif.Props.policy_encodes_iff", "Verif.Props.value_issued"], "note": "What fits a column is taken from the documentation of MySQL, as in C142."},
  {"property": "C154", "status": "proved", "theorems": ["Verif.Props.others_irrelevant", "Verif.Props.others_irrelevant_response", "Verif.Props.rows_added", "Verif.Props.nothing_learned", "Verif.Props.joined_only", "Verif.Props.long_password", "Verif.Props.key_unchecked", "Verif.Props.key_chosen"], "note": "That bcrypt reads 72 bytes is a hypothesis of long_password only."},
  {"property": "C155", "status": "proved", "theorems": ["Verif.Props.algo_determines", "Verif.Props.uid_iff", "Verif.Props.uid_unique", "Verif.Props.uid_same_authority", "Verif.Props.holder_uid_iff", "Verif.Props.holder_determines"], "note": ""},
  {"property": "C156", "status": "proved", "theorems": ["Verif.Props.has_value", "Verif.Props.certain_iff", "Verif.Props.undecided_iff", "Verif.Props.completion_keeps", "Verif.Props.twice_open"], "note": ""},
  {"property": "C157", "status": "proved", "theorems": ["Verif.Props.every_attribute_matters", "Verif.Props.no_replacement", "Verif.Props.same_attributes"], "note": ""},
  {"property": "C158", "status": "proved", "theorems": ["Verif.Props.constant_iff", "Verif.Props.nothing_known", "Verif.Props.every_attribute_needed"], "note": ""},
  {"property": "C159", "status": "proved", "theorems": ["Verif.Props.passed_certain", "Verif.Props.passed_matters", "Verif.Props.failed_open"], "note": "The names of attributes are lowered alike alone and in their full names (FoldsAll)."},
  {"property": "C16", "status": "proved", "theorems": ["Verif.Props.evaluate_local"], "note": "Results, warnings and errors on fresh ASTs."},
  {"property": "C160", "status": "proved", "theorems": ["Verif.Props.raised_for", "Verif.Props.never_lost", "Verif.Props.raised_against", "Verif.Props.never_gained", "Verif.Props.equality_lost"], "note": ""},
  {"property": "C161", "status": "proved", "theorems": ["Verif.Props.grown", "Verif.Props.growth_keeps", "Verif.Props.growth_refuses", "Verif.Props.growth_lost"], "note": ""},
  {"property": "C162", "status": "proved", "theorems": ["Verif.Props.expressible_iff", "Verif.Props.bare_expressible_iff", "Verif.Props.classical_expressible", "Verif.Props.certain_expressible", "Verif.Props.missing_untestable"], "note": ""},
  {"property": "C163", "status": "proved", "theorems": ["Verif.Props.rising_expressible_iff"], "note": ""},
  {"property": "C164", "status": "proved", "theorems": ["Verif.Props.numbers_settle", "Verif.Props.parity_untestable"], "note": ""},
  {"property": "C165", "status": "proved", "theorems": ["Verif.Props.texts_settle", "Verif.Props.only_listed_texts", "Verif.Props.start_untestable"], "note": ""},
  {"property": "C166", "status": "proved", "theorems": ["Verif.Props.settled_writable", "Verif.Props.number_decisions", "Verif.Props.number_decisions_limited", "Verif.Props.number_decisions_cpython"], "note": ""},
  {"property": "C167", "status": "proved", "theorems": ["Verif.Props.listed_writable", "Verif.Props.text_decisions", "Verif.Props.empty_untestable"], "note": ""},
  {"property": "C168", "status": "proved", "theorems": ["Verif.Props.float_decisions", "Verif.Props.double_literal", "Verif.Props.doubles_listed"], "note": ""},
  {"property": "C169", "status": "proved", "theorems": ["Verif.Props.sets_writable", "Verif.Props.set_decisions", "Verif.Props.size_untestable"], "note": ""},
  {"property": "C17", "status": "partial", "theorems": ["Verif.Props.reevaluate_same_partial", "Verif.Props.reevaluate_stale", "Verif.Props.reevaluate_exact", "Verif.Props.policyAgain_one"], "note": "False of the code: reevaluate_stale evaluates one AST with two tables and gets the stale answer. The partial theorem: any number of evaluations with one table repeat the outcome. reevaluate_exact (C122) says exactly what evaluate gives after calls with other tables, and policyAgain_one what a fresh Interpreter gives."},
  {"property": "C170", "status": "proved", "theorems": ["Verif.Props.matched_results", "Verif.Props.matched_gives", "Verif.Props.scale_free", "Verif.Props.names_free"], "note": ""},
  {"property": "C171", "status": "proved", "theorems": ["Verif.Props.pairs_writable", "Verif.Props.pair_decisions", "Verif.Props.difference_untestable"], "note": ""},
  {"property": "C172", "status": "proved", "theorems": ["Verif.Props.text_pairs_writable", "Verif.Props.text_pair_decisions", "Verif.Props.prefix_untestable"], "note": ""},
  {"property": "C18", "status": "partial", "theorems": ["Verif.Props.unusable_undef", "Verif.Props.unusable_never_grants"], "note": "The comparison is UNDEF with a warning unless the other operand is a literal 0, 0.0 or empty string (or a set containing one), in which case evaluation raises InterpreterError; it never returns TRUE."},
  {"property": "C19", "status": "proved", "theorems": ["Verif.Props.evaluate_mono"], "note": "For evaluations that return in both tables."},
  {"property": "C20", "status": "proved", "theorems": ["Verif.Props.cmp_negations", "Verif.Props.cmp_duals", "Verif.Props.op_negations"], "note": "For operands that denote, at operator and comparison level."},
  {"property": "C21", "status": "proved", "theorems": ["Verif.Props.subset_iff", "Verif.Props.subset_refl", "Verif.Props.subset_trans", "Verif.Props.subset_order", "Verif.Props.in_iff_mem", "Verif.Props.in_iff_overlap"], "note": "On operands that denote sets of hashable values."},
  {"property": "C22", "status": "partial", "theorems": ["Verif.Props.evaluate_safe_partial", "Verif.Props.evaluate_crashes", "Verif.Props.never_raises_iff", "Verif.Props.robust_truth"], "note": "False of the code: evaluate_crashes lists accepted policies that raise. never_raises_iff (C121) gives exactly the policies that never raise under tables with hashable values; evaluate_safe_partial gives a condition on policy and table together."},
  {"property": "C23", "status": "proved", "theorems": ["Verif.Props.warning_threshold"], "note": ""},
  {"property": "C24", "status": "proved", "theorems": ["Verif.Props.evaluate_only_results"], "note": ""},
  {"property": "C25", "status": "partial", "theorems": ["Verif.Props.policy_case_partial", "Verif.Props.table_case_partial", "Verif.Props.sigma_lost", "Verif.Props.type_case_lost"], "note": "False of the code beyond ASCII (sigma_lost) and for keys of the types dictionary (type_case_lost). The partial theorems cover every change of case of ASCII letters outside string literals in policies, and in names of the attribute dictionaries."},
  {"property": "C26", "status": "proved", "theorems": ["Verif.Props.table_refines_map", "Verif.Props.map_laws"], "note": ""},
  {"property": "C27", "status": "proved", "theorems": ["Verif.Props.builder_builds", "Verif.Props.builder_entry", "Verif.Props.builder_lookup", "Verif.Props.load_spec", "Verif.Props.key_class", "Verif.Props.builder_case_clash"], "note": ""},
  {"property": "C28", "status": "proved", "theorems": ["Verif.Props.check_result", "Verif.Props.result_none", "Verif.Props.raiseIssues_some", "Verif.Props.raiseIssues_none"], "note": "check_result for every tree and history of the checker; result_none for every sequence of calls."},
  {"property": "C29", "status": "proved", "theorems": ["Verif.Props.check_no_internal", "Verif.Props.check_sigma", "Verif.Props.check_refines"], "note": "For ASCII policies. check_sigma shows that a final sigma in an attribute name makes check() raise Exception."},
  {"property": "C30", "status": "proved", "theorems": ["Verif.Props.check_table", "Verif.Props.check_refines"], "note": "check_table for ASCII policies by token positions; check_refines relates the whole table to the specification when lower-casing is stable."},
  {"property": "C31", "status": "proved", "theorems": ["Verif.Props.check_errors", "Verif.Props.clash_literals", "Verif.Props.check_refines"], "note": "check_errors describes all errors of a policy; clash_literals gives the table for literals."},
  {"property": "C32", "status": "proved", "theorems": ["Verif.Props.check_infers", "Verif.Props.typeAt_first", "Verif.Props.tells_iff", "Verif.Props.check_refines"], "note": "The statement was made precise: NULL, strings in inequalities and sets are special cases of the code."},
  {"property": "C33", "status": "proved", "theorems": ["Verif.Props.encode_format", "Verif.Props.encode_decode", "Verif.Props.encode_decode_iff", "Verif.Props.unfolds_unique", "Verif.Props.fresh_eq", "Verif.Props.base64_transparent"], "note": "Decoding an encoded tree gives exactly that tree (unique unfolding of the decoded graph), for every tree with distinct ids and fields in range, if and only if all values survive; base64 is transparent. binary32 rounding, UTF-8 and base64 are concrete."},
  {"property": "C34", "status": "proved", "theorems": ["Verif.Props.text_round_trip", "Verif.Props.parsed_round_trip", "Verif.Props.empty_string_lost", "Verif.Props.float_rounded", "Verif.Props.encode_fails", "Verif.Props.non_ascii_lost"], "note": "Exact condition for parsed texts, with witnesses for each way to lose something."},
  {"property": "C35", "status": "proved", "theorems": ["Verif.Props.decode_iff", "Verif.Props.decode_closed", "Verif.Props.decode_nodes", "Verif.Props.decode_ignores", "Verif.Props.stored_unique", "Verif.Props.decode_failures", "Verif.Props.decode_cycle", "Verif.Props.cycle_no_tree"], "note": "Decodable byte strings are characterised by an unambiguous format; decoded graphs are closed but need not be trees; a number at the very end may claim more bytes than it has, which is the one case where trailing bytes matter."},
  {"property": "C36", "status": "proved", "theorems": ["Verif.Props.encode_succeeds_iff", "Verif.Props.round_trip", "Verif.Props.round_trip_iff"], "note": "ASCII strings; which certificates fit is characterised exactly."},
  {"property": "C37", "status": "proved", "theorems": ["Verif.Props.issuer_delimited", "Verif.Props.holder_delimited", "Verif.Props.info_delimited", "Verif.Props.attribute_delimited", "Verif.Props.revocation_delimited", "Verif.Props.delegation_delimited", "Verif.Props.extension_delimited", "Verif.Props.signature_delimited", "Verif.Props.body_delimited"], "note": "Strings ASCII; info needs no condition."},
  {"property": "C38", "status": "proved", "theorems": ["Verif.Props.signed_bytes_bind", "Verif.Props.non_ascii_same_bytes", "Verif.Props.non_ascii_signature_moves"], "note": "For ASCII strings, with a counterexample for others."},
  {"property": "C39", "status": "proved", "theorems": ["Verif.Props.verify_iff", "Verif.Props.unsigned_fails", "Verif.Props.rejected_fails", "Verif.Props.sign_verifies", "Verif.Props.content_verifies", "Verif.Props.signed_export_imports", "Verif.Props.algorithm_names_ignored", "Verif.Props.import_formats"], "note": "For every scheme in which signatures verify and are not empty (Crypto.Lawful); unforgeability is not modelled."},
  {"property": "C40", "status": "proved", "theorems": ["Verif.Props.decode_accepts", "Verif.Props.import_verified", "Verif.Props.bad_signature_refused", "Verif.Props.extra_bytes_refused", "Verif.Props.prefix_accepted", "Verif.Props.encoded_prefix_accepted", "Verif.Props.unsigned_prefix_refused", "Verif.Props.cut_signature_accepted", "Verif.Props.bytes_malleable"], "note": ""},
  {"property": "C41", "status": "proved", "theorems": ["Verif.Props.round_trip_iff", "Verif.Props.text_cut", "Verif.Props.non_ascii_changed", "Verif.Props.non_ascii_unreadable", "Verif.Props.non_ascii_same_bytes", "Verif.Props.non_ascii_signature_moves"], "note": "The naive claim is false of the code; the exact condition is proved with witnesses."},
  {"property": "C42", "status": "proved", "theorems": ["Verif.Props.verify_time_iff", "Verif.Props.verify_time_clock"], "note": ""},
  {"property": "C43", "status": "proved", "theorems": ["Verif.Props.eqv_iff", "Verif.Props.eqv_error_iff", "Verif.Props.eqv_distinct", "Verif.Props.eqv_refl", "Verif.Props.eqv_symm", "Verif.Props.eqv_trans", "Verif.Props.eqv_order", "Verif.Props.eqv_not_refl", "Verif.Props.eqv_not_symm", "Verif.Props.eqv_decoded_raises"], "note": ""},
  {"property": "C44", "status": "proved", "theorems": ["Verif.Props.export_formats", "Verif.Props.import_formats", "Verif.Props.import_leaves", "Verif.Props.formats_unsupported", "Verif.Props.export_needs_key", "Verif.Props.exportFormat_values", "Verif.Props.export_without_key"], "note": ""},
  {"property": "C45", "status": "proved", "theorems": ["Verif.Props.issue_iff", "Verif.Props.issued_only_assigned", "Verif.Props.findUser_iff"], "note": "bcrypt is a parameter."},
  {"property": "C46", "status": "proved", "theorems": ["Verif.Props.selection", "Verif.Props.selection_all", "Verif.Props.issued_selection"], "note": "Under the primary keys of the schema; if several assigned attributes share a name, the last one returned by the database is meant."},
  {"property": "C47", "status": "proved", "theorems": ["Verif.Props.issued_certificate", "Verif.Props.issued_parts", "Verif.Props.issue_iff"], "note": "For every scheme in which signatures verify (Crypto.Lawful)."},
  {"property": "C48", "status": "partial", "theorems": ["Verif.Props.issued_ids_partial", "Verif.Props.issued_ids_repeat", "Verif.Props.eqv_self_ok"], "note": "False of the code: issued_ids_repeat proves that every issued certificate repeats the id of the weekday and is not equal to itself. The partial theorem proves that this is the only repeated id."},
  {"property": "C49", "status": "proved", "theorems": ["Verif.Props.session_bounds"], "note": "For every database with its primary keys, request, clock and signature scheme; also that the end is attained and later than the start if the clock does not run backwards."},
  {"property": "C50", "status": "partial", "theorems": ["Verif.Props.start_iff", "Verif.Props.start_errors", "Verif.Props.start_refused", "Verif.Props.unknown_format", "Verif.Props.formats_accepted", "Verif.Props.start_reason", "Verif.Props.reason_or_accepted"], "note": "start_iff is the exact condition, and start_reason says which message each refusal carries and that the reason holds. Refusals are ClientFaults if the format numbers exist and the transport gives the address; as worded the property is false, since an unknown format number gives a ValueError (unknown_format)."},
  {"property": "C51", "status": "partial", "theorems": ["Verif.Props.signed_partial", "Verif.Props.keys_ignored", "Verif.Props.forged", "Verif.Props.forged_session"], "note": "False of the code: keys_ignored shows that stored keys have no influence, forged that anyone can make an accepted certificate for any lawful signature scheme. signed_partial: the signature verifies under the key inside the certificate."},
  {"property": "C52", "status": "proved", "theorems": ["Verif.Props.start_atomic", "Verif.Props.start_rows", "Verif.Props.start_iff"], "note": "Commit failures of any kind are a parameter of the model."},
  {"property": "C53", "status": "partial", "theorems": ["Verif.Props.reuse_detected_partial", "Verif.Props.history_reuse_partial", "Verif.Props.bytes_hash", "Verif.Props.bytes_reuse", "Verif.Props.bytes_reuse_example"], "note": "Proved for BASE64 up to hash collisions, over all histories; false for BYTES (bytes_reuse, bytes_reuse_example)."},
  {"property": "C54", "status": "proved", "theorems": ["Verif.Props.evaluate_raises", "Verif.Props.evaluate_declared"], "note": ""},
  {"property": "C55", "status": "proved", "theorems": ["Verif.Props.getConf_precedence", "Verif.Props.getConf_ascii", "Verif.Props.getConf_terminates", "Verif.Props.getConf_case", "Verif.Props.getConf_section_unread", "Verif.Props.getConf_dbType"], "note": "The precedence is proved for names whose upper case is stable (every ASCII name) and files without a [DEFAULT] section read by configparser itself. Section names in the file are case-sensitive: one that is not in upper case is never read."},
  {"property": "C56", "status": "proved", "theorems": ["Verif.Props.engine_cached", "Verif.Props.engine_count", "Verif.Props.engine_per_name", "Verif.Props.engine_unsupported", "Verif.Props.engine_new"], "note": "For every history of calls with varying configurations and drivers."},
  {"property": "C57", "status": "proved", "theorems": ["Verif.Props.near_window", "Verif.Props.near_contiguous", "Verif.Props.near_none", "Verif.Props.str_spec", "Verif.Props.lexer_error_excerpt", "Verif.Props.parser_str"], "note": "Widths are non-negative; an example shows what a negative width does."},
  {"property": "C58", "status": "partial", "theorems": ["Verif.Props.lastKey_iff", "Verif.Props.lastKey_success", "Verif.Props.lastKey_partial", "Verif.Props.lastKey_without_result", "Verif.Props.history_lastKey", "Verif.Props.receive_error"], "note": "False as worded: an answer of status 200 with neither fault nor result raises KeyError yet replaces last_key (lastKey_without_result). lastKey_iff is the exact condition, lastKey_partial the property for services that answer with a fault or a result, history_lastKey the invariant over call histories."},
  {"property": "C59", "status": "proved", "theorems": ["Verif.Props.parse_ids", "Verif.Props.ids_increase", "Verif.Props.parse_num_nodes"], "note": ""},
  {"property": "C60", "status": "proved", "theorems": ["Verif.Props.ast_eq_structural", "Verif.Props.ast_eq_equivalence", "Verif.Props.parse_same_eq"], "note": ""},
  {"property": "C61", "status": "proved", "theorems": ["Verif.Props.lexer_failures"], "note": "First disjunct bounds the position of every LexerError."},
  {"property": "C62", "status": "proved", "theorems": ["Verif.Props.parse_error_position"], "note": ""},
  {"property": "C63", "status": "proved", "theorems": ["Verif.Props.parse_twice"], "note": ""},
  {"property": "C64", "status": "proved", "theorems": ["Verif.Props.parse_ignores_positions", "Verif.Props.parse_whitespace_insensitive"], "note": ""},
  {"property": "C65", "status": "proved", "theorems": ["Verif.Props.evaluate_returns"], "note": ""},
  {"property": "C66", "status": "proved", "theorems": ["Verif.Props.set_literal_eq_undef"], "note": ""},
  {"property": "C67", "status": "proved", "theorems": ["Verif.Props.connective_needs_bool"], "note": ""},
  {"property": "C68", "status": "proved", "theorems": ["Verif.Props.load_latest", "Verif.Props.reset_values", "Verif.Props.load_spec"], "note": "Found by mutation testing of Dict.put and resetValues."},
  {"property": "C69", "status": "proved", "theorems": ["Verif.Props.check_again", "Verif.Props.typeAt_again", "Verif.Props.check_step"], "note": "An example shows a second call with more warnings than the first."},
  {"property": "C70", "status": "proved", "theorems": ["Verif.Props.text_succeeds_iff", "Verif.Props.text_shows", "Verif.Props.text_determines", "Verif.Props.text_forged", "Verif.Props.text_export", "Verif.Props.type_names", "Verif.Props.text_no_issuer"], "note": ""},
  {"property": "C71", "status": "proved", "theorems": ["Verif.Props.default_validity", "Verif.Props.revocation_make", "Verif.Props.attribute_make", "Verif.Props.attribute_make_clean", "Verif.Props.info_make"], "note": "Random numbers and clock are arguments."},
  {"property": "C72", "status": "proved", "theorems": ["Verif.Props.decoded_values", "Verif.Props.float_overflow"], "note": "Rounding is specified by mantissa and exponent, independently of bit patterns."},
  {"property": "C73", "status": "proved", "theorems": ["Verif.Props.build_prefix", "Verif.Props.build_other_engine", "Verif.Props.build_same_database"], "note": "The second theorem records a defect: tables are created through an engine no service uses. The third shows that it matters for memory databases only."},
  {"property": "C74", "status": "proved", "theorems": ["Verif.Props.log_level_case", "Verif.Props.log_level_iff", "Verif.Props.ladon_level_some", "Verif.Props.ladon_level_swapped", "Verif.Props.logger_setup"], "note": "ladon_level_swapped records a defect. logger_setup assumes that LOG_DIR contains a slash."},
  {"property": "C75", "status": "proved", "theorems": ["Verif.Props.enabled_services"], "note": "For every list of services; the list itself is imported from an empty package, see DESIGN.md."},
  {"property": "C76", "status": "proved", "theorems": ["Verif.Props.issue_iff", "Verif.Props.issued_certificate", "Verif.Props.connection_names"], "note": "The table is Spec.ConnectionRows."},
  {"property": "C77", "status": "proved", "theorems": ["Verif.Props.address_refused", "Verif.Props.address_numbers"], "note": "Numbers within the interpreter's limit on digits."},
  {"property": "C78", "status": "proved", "theorems": ["Verif.Props.invalid_credentials", "Verif.Props.credential_type", "Verif.Props.response_stored", "Verif.Props.file_names", "Verif.Props.history_stored"], "note": "Faults of the file system are not modelled."},
  {"property": "C79", "status": "proved", "theorems": ["Verif.Props.info_iff", "Verif.Props.info_fault", "Verif.Props.signed_as_told"], "note": ""},
  {"property": "C80", "status": "proved", "theorems": ["Verif.Props.holder_case"], "note": "ASCII inputs."},
  {"property": "C81", "status": "proved", "theorems": ["Verif.Props.password_none"], "note": ""},
  {"property": "C82", "status": "proved", "theorems": ["Verif.Props.init_iff", "Verif.Props.serviceUrl_ok"], "note": "Reading the key is a parameter."},
  {"property": "C83", "status": "proved", "theorems": ["Verif.Props.trusted_iff", "Verif.Props.untrusted_listed"], "note": ""},
  {"property": "C84", "status": "proved", "theorems": ["Verif.Props.history_consistent", "Verif.Props.empty_consistent"], "note": ""},
  {"property": "C85", "status": "proved", "theorems": ["Verif.Props.pauth_init_iff", "Verif.Props.pauth_info_iff"], "note": ""},
  {"property": "C86", "status": "proved", "theorems": ["Verif.Props.numberText_inj", "Verif.Props.serial_stored", "Verif.Props.serial_case_clash"], "note": ""},
  {"property": "C87", "status": "proved", "theorems": ["Verif.Props.evaluate_outcomes", "Verif.Props.evaluate_uid", "Verif.Props.evaluate_without_policy"], "note": ""},
  {"property": "C88", "status": "proved", "theorems": ["Verif.Props.update_iff", "Verif.Props.call_cli", "Verif.Props.history_cli", "Verif.Props.update_failed"], "note": ""},
  {"property": "C89", "status": "proved", "theorems": ["Verif.Props.sent_size"], "note": ""},
  {"property": "C90", "status": "proved", "theorems": ["Verif.Props.client_init_iff", "Verif.Props.client_without_size", "Verif.Props.pclient_init_iff", "Verif.Props.makeCli_ok", "Verif.Props.makeCli_error"], "note": ""},
  {"property": "C91", "status": "proved", "theorems": ["Verif.Props.ask_iff", "Verif.Props.ask_fault", "Verif.Props.ask_error", "Verif.Props.pclient_update", "Verif.Props.start_answer"], "note": ""},
  {"property": "C92", "status": "proved", "theorems": ["Verif.Props.issued_accepted", "Verif.Props.issued_session"], "note": "For the services' ASCII inputs (AsciiInputs); other texts lose characters when encoded, see C40."},
  {"property": "C93", "status": "proved", "theorems": ["Verif.Props.client_certified", "Verif.Props.serviceReply_wellFormed"], "note": "The transport's conversion of credentials is a parameter; generated keys are assumed to have the size asked for."},
  {"property": "C94", "status": "proved", "theorems": ["Verif.Props.populate_rows", "Verif.Props.populate_without_engine", "Verif.Props.populate_engine_fails", "Verif.Props.populate_lost"], "note": ""},
  {"property": "C95", "status": "proved", "theorems": ["Verif.Props.populate_first", "Verif.Props.populate_again", "Verif.Props.populate_stored", "Verif.Props.populate_not_stored"], "note": ""},
  {"property": "C96", "status": "proved", "theorems": ["Verif.Props.same_connection", "Verif.Props.test_is_production", "Verif.Props.populate_elsewhere", "Verif.Props.sectionName_eq"], "note": ""},
  {"property": "C97", "status": "proved", "theorems": ["Verif.Props.genAtts_rows", "Verif.Props.genAtts_again", "Verif.Props.popAndGen_rows", "Verif.Props.popAndGen_assigned"], "note": "Under the hypothesis that the database does not confuse the generated ids, which holds for comparison of texts and for comparison ignoring case."},
  {"property": "C98", "status": "proved", "theorems": ["Verif.Props.tool_iff", "Verif.Props.tool_refused", "Verif.Props.tool_genkey", "Verif.Props.tool_password"], "note": ""},
  {"property": "C99", "status": "proved", "theorems": ["Verif.Props.step_staged", "Verif.Props.opened_staged", "Verif.Props.text_locked", "Verif.Props.interpretable", "Verif.Props.pipeline", "Verif.Props.interpret_shows", "Verif.Props.opened_interpret", "Verif.Props.step_ids", "Verif.Props.ids_fresh"], "note": ""}
]}
