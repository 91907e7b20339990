{
 "claims": [
  {
   "property": "C01",
   "status": "proved",
   "theorems": [
    "Spasm.Props.C01_literal_value"
   ],
   "note": "parse_num on every literal, at any end of word"
  },
  {
   "property": "C02",
   "status": "partial",
   "theorems": [
    "Spasm.Props.C02_overflow",
    "Spasm.Props.C02_bad_digit_partial",
    "Spasm.Props.C02_0x_accepted",
    "Spasm.Props.C02_bad_binary_accepted"
   ],
   "note": "overflow complete; bad digits rejected except where strtoll itself accepts a 0x prefix ($0x1F = 31, C02_0x_accepted) Malformed binary numbers are accepted too (C02_bad_binary_accepted)."
  },
  {
   "property": "C03",
   "status": "proved",
   "theorems": [
    "Spasm.Props.C03_value"
   ],
   "note": "against the grammar and semantics of Spec/Expr.lean"
  },
  {
   "property": "C04",
   "status": "proved",
   "theorems": [
    "Spasm.Props.C04_never_traps",
    "Spasm.Props.C04_division_errors"
   ],
   "note": ""
  },
  {
   "property": "C05",
   "status": "partial",
   "theorems": [
    "Spasm.Props.C05_failure_recorded_partial"
   ],
   "note": "Proved for every text and state inside an error session, except evaluations during which the ghost variable stale is set."
  },
  {
   "property": "C06",
   "status": "partial",
   "theorems": [
    "Spasm.Props.C03_value",
    "Spasm.Props.C06_too_deep",
    "Spasm.Props.C06_terminates_partial",
    "Spasm.Props.C06_fails_function_recursion"
   ],
   "note": "deep nesting is rejected and allowed nesting is not (C03_value, C06_too_deep); evaluation ends whenever no text with parameters, getc or # is involved (C06_terminates_partial); for functions that call themselves termination is violated for every budget (C06_fails_function_recursion)"
  },
  {
   "property": "C07",
   "status": "proved",
   "theorems": [
    "Spasm.Props.C07_characters"
   ],
   "note": ""
  },
  {
   "property": "C08",
   "status": "proved",
   "theorems": [
    "Spasm.Props.C08_forward",
    "Spasm.Props.C08_backward",
    "Spasm.Props.C08_next",
    "Spasm.Props.C08_defined",
    "Spasm.Props.C08_too_many"
   ],
   "note": "Both directions, for every list of anonymous labels, every point of use and every number of signs, as an expression of its own; the 4097th label is undefined behaviour (C08_too_many)."
  },
  {
   "property": "C09",
   "status": "proved",
   "theorems": [
    "Spasm.Props.C09_argument",
    "Spasm.Props.C09_label",
    "Spasm.Props.C09_define",
    "Spasm.Props.C09_unknown",
    "Spasm.Props.C09_case"
   ],
   "note": "Arguments, labels and defines without parameters in this order, unknown names, and case, for every state."
  },
  {
   "property": "C10",
   "status": "proved",
   "theorems": [
    "Spasm.Props.C10_num8"
   ],
   "note": "write_arg, complete final state"
  },
  {
   "property": "C11",
   "status": "proved",
   "theorems": [
    "Spasm.Props.C11_num16",
    "Spasm.Props.C11_num24"
   ],
   "note": "write_arg, complete final state"
  },
  {
   "property": "C12",
   "status": "proved",
   "theorems": [
    "Spasm.Props.C12_relative_jump"
   ],
   "note": "both directions, complete final state"
  },
  {
   "property": "C13",
   "status": "proved",
   "theorems": [
    "Spasm.Props.C13_index"
   ],
   "note": ""
  },
  {
   "property": "C14",
   "status": "proved",
   "theorems": [
    "Spasm.Props.C14_bit",
    "Spasm.Props.C14_tables"
   ],
   "note": "the table theorem discharges the hypothesis of the first for every built-in entry"
  },
  {
   "property": "C15",
   "status": "partial",
   "theorems": [
    "Spasm.Props.C15_rst_partial",
    "Spasm.Props.C15_deferred_rejected",
    "Spasm.Props.C15_forward_vector"
   ],
   "note": "First pass: exact. Second pass: the code rejects every deferred RST operand, which is proved; the property is violated there (C15_forward_vector is a concrete legal program)."
  },
  {
   "property": "C16",
   "status": "partial",
   "theorems": [
    "Spasm.Props.C16_place_reserved",
    "Spasm.Props.C16_second_pass_partial",
    "Spasm.Props.C16_preprocessor_moves_code"
   ],
   "note": "Proved when no define that is a macro with preprocessor lines is evaluated in operands; C16_preprocessor_moves_code shows the property is violated otherwise."
  },
  {
   "property": "C17",
   "status": "partial",
   "theorems": [
    "Spasm.Props.C17_recorded",
    "Spasm.Props.C17_second_pass_partial",
    "Spasm.Props.C17_expansion_changes_value",
    "Spasm.Props.C17_expansion_cuts_labels",
    "Spasm.Props.C17_expansion_rewrites_digits",
    "Spasm.Props.C17_expansion_rewrites_characters",
    "Spasm.Props.C17_expansion_doubles_signs"
   ],
   "note": "Place, position and symbols are exact and the encoding of the stored text's value is what is in the output. Stored text is the expanded one, and expansion changes values: five negation witnesses. For programs in which no constant contains the name of a symbol and label values have at most nine digits, C54 proves that deferred operands get the value they would have had."
  },
  {
   "property": "C18",
   "status": "partial",
   "theorems": [
    "Spasm.Props.C18_tables",
    "Spasm.Props.C18_emitted_partial",
    "Spasm.Props.C18_fails_addinstr"
   ],
   "note": "Every entry of both shipped instruction tables has the recorded size its encoding needs; what an accepted instruction statement emits has the encoded length. Missing: instructions added by .addinstr with inconsistent sizes, which the code does not check (violated: C18_fails_addinstr), and statements during which a preprocessor line ran or a multi-operand define was spread."
  },
  {
   "property": "C19",
   "status": "proved",
   "theorems": [
    "Spasm.Props.C19_encodings"
   ],
   "note": "Decoder written independently in Spec/Decode; covers all 832 entries and every operand value for which the entry has bytes. The bytes are those of the table entry (Spec.instructionBytes)."
  },
  {
   "property": "C20",
   "status": "partial",
   "theorems": [
    "Spasm.Props.C20_chosen",
    "Spasm.Props.C20_selected_partial",
    "Spasm.Props.C20_none",
    "Spasm.Props.C20_swallows_line",
    "Spasm.Props.C20_blank_in_register"
   ],
   "note": "C20_chosen: for every operand list that can be scanned, whatever the operands mean, the first entry that fits is carried out with exactly the operand texts. C20_selected_partial: the bytes and the final state if the operands have values in the first pass; operands with labels defined later get their values in whole runs by C54. C20_none: otherwise INVALID_OPERANDS and nothing else. The operand list must have complete parentheses, strings and character constants and no comma directly followed by a comma or closing parenthesis: for other texts the property is false, because the program reads into the following lines (C20_swallows_line). Blanks inside of registers are ignored (C20_blank_in_register)."
  },
  {
   "property": "C21",
   "status": "proved",
   "theorems": [
    "Spasm.Props.C21_suffix",
    "Spasm.Props.C21_unsuffixed",
    "Spasm.Props.C21_unknown"
   ],
   "note": "All suffixes in any case: prefix byte and immediate length (C21_suffix), no suffix (C21_unsuffixed); any other text behind the dot, or any suffix outside eZ80 mode, is an unknown opcode (C21_unknown)."
  },
  {
   "property": "C22",
   "status": "partial",
   "theorems": [
    "Spasm.Props.C22_instruction_partial",
    "Spasm.Props.C22_data_partial"
   ],
   "note": "Instruction statements and data directives move the address counter by exactly the number of bytes written, unless the statement reported a fatal error, used a stale session, ran a preprocessor line or spread a multi-operand define. Missing: those excluded cases and whole-file composition."
  },
  {
   "property": "C23",
   "status": "proved",
   "theorems": [
    "Spasm.Props.C23_labels_stay",
    "Spasm.Props.C23_label",
    "Spasm.Props.C23_conflict",
    "Spasm.Props.C23_equ",
    "Spasm.Props.C23_assign",
    "Spasm.Props.C23_equate_without_label"
   ],
   "note": "Labels never disappear; the value given by a label definition and by equates, and the warning on redefinition, for every state (outside -C mode, which keeps no labels) in which the name is not a define or macro argument (C23_conflict: then an error is shown and nothing changes). An equate without a label changes the label defined last (C23_equate_without_label)."
  },
  {
   "property": "C24",
   "status": "proved",
   "theorems": [
    "Spasm.Props.C24_nested",
    "Spasm.Props.C24_seen",
    "Spasm.Props.C24_outermost"
   ],
   "note": "Every properly nested sequence of session operations, with replays at any point; inner sessions, what a session sees, and the outermost session."
  },
  {
   "property": "C25",
   "status": "partial",
   "theorems": [
    "Spasm.Props.C25_never_improves",
    "Spasm.Props.C25_status_covers_partial",
    "Spasm.Props.C25_printed_status_zero",
    "Spasm.Props.C25_commandline_forgotten"
   ],
   "note": "Holds for everything shown by show_warning/show_error/show_fatal_error during assembly; fails (proved) for errors only printed on replay and for diagnostics shown while reading the command line."
  },
  {
   "property": "C26",
   "status": "partial",
   "theorems": [
    "Spasm.Props.C26_first_pass_partial",
    "Spasm.Props.C26_second_pass_partial",
    "Spasm.Props.C26_stale_session_writes",
    "Spasm.Props.C26_shown_fatal_writes"
   ],
   "note": "Proved for recorded fatal errors of either pass unless a finished session was reused; false for reused sessions and for fatal errors that are shown instead of recorded (witnesses)."
  },
  {
   "property": "C27",
   "status": "partial",
   "theorems": [
    "Spasm.Props.C27_group_partial",
    "Spasm.Props.C27_missing_partial",
    "Spasm.Props.C27_parenthesis_hangs",
    "Spasm.Props.C27_forward_condition",
    "Spasm.Props.C27_apostrophe_hides",
    "Spasm.Props.C27_comment_hides",
    "Spasm.Props.C27_second_else",
    "Spasm.Props.C27_no_blank"
   ],
   "note": "The loop of the first pass, from any state: a group with any number of #elif, with or without #else, whose branches are any statements with complete groups in them, at any depth, is passed with exactly the chosen branch assembled, and everything else only counts lines; in whole runs by C54. A group without #endif is reported, and the run ends with status 3 and without output. Missing: conditions whose expressions have no value in the specification of C03, groups spread over lines with backslashes, names of macro arguments that the assembler maintains. Negations: C27_parenthesis_hangs, C27_forward_condition, C27_apostrophe_hides, C27_comment_hides. Two #else branches are both assembled (C27_second_else), and #if( is not recognised (C27_no_blank)."
  },
  {
   "property": "C28",
   "status": "partial",
   "theorems": [
    "Spasm.Props.C28_history_partial",
    "Spasm.Props.C28_define",
    "Spasm.Props.C28_undef",
    "Spasm.Props.C28_conflict",
    "Spasm.Props.C28_never_both",
    "Spasm.Props.C28_label_frozen",
    "Spasm.Props.C28_self_frozen",
    "Spasm.Props.C28_semicolon_cut",
    "Spasm.Props.C28_comment_kept"
   ],
   "note": "Proved: after any sequence of #define and #undef statements a name has the text of the latest definition not undone since (C28_history_partial, C28_define, C28_undef); a label is never redefined (C28_conflict); however a run goes no name is both or stored twice, and unless case matters names are stored in capital letters (C28_never_both). The exceptions are shown to be real: a repeated definition stores the values of labels (C28_label_frozen) and its own old text (C28_self_frozen), semicolons in character constants cut the text (C28_semicolon_cut) and a string ending with a backslash swallows the comment (C28_comment_kept). Redefinitions with labels or the name itself, eval, concat and #defcont are the subject of C63, macros of C62. Missing: texts of more than 254 characters."
  },
  {
   "property": "C29",
   "status": "partial",
   "theorems": [
    "Spasm.Props.C29_C51_balanced_partial",
    "Spasm.Props.C29_none_left_partial",
    "Spasm.Props.C29_values_change"
   ],
   "note": "Depth and names of the argument sets are restored by every statement, expression and pass that returns; values bound by outer sets can change (witness); reused finished sessions excluded."
  },
  {
   "property": "C30",
   "status": "proved",
   "theorems": [
    "Spasm.Props.Spasm.Props.C30_every_run",
    "Spasm.Props.Spasm.Props.C30_symbol_file",
    "Spasm.Props.Spasm.Props.C28_never_both"
   ],
   "note": "C30_every_run: every run with -L that comes to its end wrote the symbol file, named like the output file with the extension lab; one line per label the program has at the end, with its value, sorted ignoring case, no name twice; the other lines are names with texts. Its hypothesis is that no text that was evaluated ran a preprocessor line of its own. C30_symbol_file: the same for every table of labels and defines without double names (C28_never_both: all that a run can produce), without that hypothesis."
  },
  {
   "property": "C31",
   "status": "proved",
   "theorems": [
    "Spasm.Props.C31_hex_file",
    "Spasm.Props.C31_app_file",
    "Spasm.Props.C31_too_large"
   ],
   "note": "Reader in Spec/Hex.lean. C31_too_large: above 256 pages a page record has a wrong checksum."
  },
  {
   "property": "C32",
   "status": "partial",
   "theorems": [
    "Spasm.Props.C32_lengths_partial",
    "Spasm.Props.C32_one_page_boundary"
   ],
   "note": "False for programs of 16289..16384 bytes (C32_one_page_boundary) and above 255 pages."
  },
  {
   "property": "C33",
   "status": "proved",
   "theorems": [
    "Spasm.Props.C33_checksum"
   ],
   "note": "Every program file type."
  },
  {
   "property": "C34",
   "status": "partial",
   "theorems": [
    "Spasm.Props.C34_lengths_partial",
    "Spasm.Props.C34_ti85_partial",
    "Spasm.Props.C34_ti85_long_name",
    "Spasm.Props.C34_86S",
    "Spasm.Props.C34_85S"
   ],
   "note": "Holds for 73P 82P 83P 8XP 8XV 86P and short 85P names; false for 86S, 85S and long 85P names (proved)."
  },
  {
   "property": "C35",
   "status": "proved",
   "theorems": [
    "Spasm.Props.C35_squished"
   ],
   "note": "Whole file: header, text, trailer."
  },
  {
   "property": "C36",
   "status": "partial",
   "theorems": [
    "Spasm.Props.C36_rom_partial",
    "Spasm.Props.C36_oversize_silent"
   ],
   "note": "Oversize programs are accepted silently (proved)."
  },
  {
   "property": "C37",
   "status": "proved",
   "theorems": [
    "Spasm.Props.C37_memory_safe"
   ],
   "note": "Includes the signature block."
  },
  {
   "property": "C38",
   "status": "proved",
   "theorems": [
    "Spasm.Props.C38_siggen",
    "Spasm.Props.C38_app_file"
   ],
   "note": "siggen over the stored constants, whose primality is certified in Lemmas/Pratt.lean; MD5 (OpenSSL) is any function returning 16 bytes; GMP's mpz functions are Lean's Nat/Int operations and the Jacobi symbol"
  },
  {
   "property": "C39",
   "status": "proved",
   "theorems": [
    "Spasm.Props.C39_round_trip"
   ],
   "note": "every NUL-free string (C strings)"
  },
  {
   "property": "C40",
   "status": "proved",
   "theorems": [
    "Spasm.Props.C40_buffer",
    "Spasm.Props.C40_erase_wrong"
   ],
   "note": "append and insert; realloc failure and size overflow are outside the model; eb_erase is wrong (C40_erase_wrong) but is not part of the claim"
  },
  {
   "property": "C41",
   "status": "proved",
   "theorems": [
    "Spasm.Props.C41_upper",
    "Spasm.Props.C41_lower",
    "Spasm.Props.C41_print"
   ],
   "note": ""
  },
  {
   "property": "C42",
   "status": "proved",
   "theorems": [
    "Spasm.Props.C42_argument",
    "Spasm.Props.C42_last_argument",
    "Spasm.Props.C42_split"
   ],
   "note": "For every list of balanced arguments with any blanks around them, each at most 254 characters long (the program's own limit). StringBody covers strings of any length."
  },
  {
   "property": "C43",
   "status": "proved",
   "theorems": [
    "Spasm.Props.C43_extension",
    "Spasm.Props.C43_directory_dot",
    "Spasm.Props.C43_separators"
   ],
   "note": "also shows that a dot in a directory name is taken for the extension"
  },
  {
   "property": "C44",
   "status": "partial",
   "theorems": [
    "Spasm.Props.C44_mark_partial",
    "Spasm.Props.C44_empty",
    "Spasm.Props.C44_prefix",
    "Spasm.Props.C44_whole_partial"
   ],
   "note": "proved for the function that reads source files, and for whole runs of the programs of C54 (C44_whole_partial); false for empty files and files that are a prefix of the mark"
  },
  {
   "property": "C45",
   "status": "partial",
   "theorems": [
    "Spasm.Props.C45_defined_partial",
    "Spasm.Props.C45_emits",
    "Spasm.Props.C45_plain",
    "Spasm.Props.C45_fails_five_bytes",
    "Spasm.Props.C45_fails_two_words",
    "Spasm.Props.C45_fails_rest_of_line"
   ],
   "note": "Definitions with up to four opcode bytes and one * in the pattern, and instructions using them; five bytes or more are undefined behaviour and two * give wrong sizes, both proved as failures."
  },
  {
   "property": "C46",
   "status": "partial",
   "theorems": [
    "Spasm.Props.C46_data_partial",
    "Spasm.Props.C46_fill",
    "Spasm.Props.C46_escaped_nul"
   ],
   "note": "Data directives with any operand list of expressions and strings, and .fill/.block, at statement level with the exact final state. Names that stand for operands are in C73, operands with labels defined later in C16-C18 and C54. Missing: strings with an escaped NUL, for which the program is wrong (C46_escaped_nul is the witness)."
  },
  {
   "property": "C47",
   "status": "proved",
   "theorems": [
    "Spasm.Props.C47_import",
    "Spasm.Props.C47_whole_run",
    "Spasm.Props.C47_missing_file"
   ],
   "note": "For every file found directly or through the include directories (backslashes read as slashes), any case of the keyword, any blanks; nothing but output and address changes. A file that cannot be found is undefined behaviour (C47_missing_file). C47_whole_run: in whole runs of the programs of C54 the bytes of the file stand in the output file between those of the lines around."
  },
  {
   "property": "C48",
   "status": "partial",
   "theorems": [
    "Spasm.Props.C48_org",
    "Spasm.Props.C48_seek_partial",
    "Spasm.Props.C48_seek_gap"
   ],
   "note": "Origin: full. Seek: offsets inside the output buffer proved; the code accepts offsets beyond the output produced so far and writes after reporting out-of-range ones (C48_seek_gap is the witness)."
  },
  {
   "property": "C49",
   "status": "partial",
   "theorems": [
    "Spasm.Props.C49_separation_partial",
    "Spasm.Props.C49_define_swallows"
   ],
   "note": "Whole runs: for every list of statements, every layout of them with backslashes, line ends and comments gives the same file. Covers the statements of C54; preprocessor lines, where a backslash does not end a #define, are not covered. The exception is real: C49_define_swallows."
  },
  {
   "property": "C50",
   "status": "partial",
   "theorems": [
    "Spasm.Props.C50_options_partial",
    "Spasm.Props.C50_final",
    "Spasm.Props.C50_order",
    "Spasm.Props.C50_stops",
    "Spasm.Props.C50_no_input",
    "Spasm.Props.C50_define_without_value",
    "Spasm.Props.C50_fails_case_define"
   ],
   "note": "Every command line whose -D arguments have the form name=value: the run starts with exactly the modes, case sensitivity, instruction table, include directories, defines, input and output that the options ask for, in any order and with repetitions, and nothing else changed; the modes stay so to the end; unknown options, help, missing line and missing input end the program with their status and write nothing. Missing: -D arguments of other forms; -DNAME without a value reads past the end of the argument (C50_define_without_value, negation). With -A a name given with -D is stored in capitals and not found (C50_fails_case_define)."
  },
  {
   "property": "C51",
   "status": "partial",
   "theorems": [
    "Spasm.Props.C51_options_fixed",
    "Spasm.Props.C51_statement_options",
    "Spasm.Props.C29_C51_balanced_partial",
    "Spasm.Props.C51_session_lost"
   ],
   "note": "Options never change, whatever happens. Sessions and argument sets are balanced unless a finished session was reused, where it is false (witness)."
  },
  {
   "property": "C52",
   "status": "proved",
   "theorems": [
    "Spasm.Props.C52_complete"
   ],
   "note": "Every decodable instruction has a table entry and operand values that write it; the documented and the undocumented Z80 instructions of the decoder."
  },
  {
   "property": "C53",
   "status": "proved",
   "theorems": [
    "Spasm.Props.C53_assembles",
    "Spasm.Props.C53_assembles_ez80_partial"
   ],
   "note": "For operand expressions with a value in the first pass; the decoders are the independent ones of C19 and C57. Operand lists must be complete (parentheses, strings). For the eZ80 the four entries excluded by C57 are missing."
  },
  {
   "property": "C54",
   "status": "partial",
   "theorems": [
    "Spasm.Props.C54_assembles_partial",
    "Spasm.Props.C54_hex_partial",
    "Spasm.Props.C54_rom_partial",
    "Spasm.Props.C54_not_equal_behind_name"
   ],
   "note": "Whole runs from the command line to the written file, for programs of labels, .equ, =, instructions of either processor, data, fills, origins, comments, several statements per line, #define and #undef without parameters, texts given by -D, macros with and without parameters and their calls (behind labels and next to other statements of the line or not, nested as deep as one likes, with labels, groups and definitions in their lines), conditional groups with #if, #elif, #ifdef, #ifndef in any nesting, included files, imported files, block comments, marker lines, names that stand for lists of data operands, and functions (#define with parameters) with calls in operands of data, instructions, fills, origins, equates, conditions and arguments of macros, with forward references in data and instruction operands. Missing: anonymous labels, .seek, .addinstr, .assume, instruction operands enclosed in parentheses as a whole (they draw an advice), truncated values, labels above 999999999, output other than bare bytes, Intel hex, ROM images, the program files of C67 and the applications of C68, options O T C L (S is in C72). != directly behind a name is taken for a part of it (C54_not_equal_behind_name)."
  },
  {
   "property": "C55",
   "status": "partial",
   "theorems": [
    "Spasm.Props.C55_call",
    "Spasm.Props.C55_plain_call",
    "Spasm.Props.C55_parameter",
    "Spasm.Props.C55_passed_name",
    "Spasm.Props.C55_other",
    "Spasm.Props.C55_data",
    "Spasm.Props.C55_prefix_of_built_in",
    "Spasm.Props.C55_arguments_see_parameters",
    "Spasm.Props.C55_missing_argument"
   ],
   "note": "C55_call and C55_plain_call follow the call for every body whose lines run; C55_parameter, C55_passed_name and C55_other say what names mean in the body; C55_data gives the bytes for bodies of data lines. Missing: arguments that mention a parameter in front of their own (violated: C55_arguments_see_parameters), wrong argument counts (violated: C55_missing_argument), names that begin a built-in statement (violated: C55_prefix_of_built_in); arguments with value -2147483648."
  },
  {
   "property": "C56",
   "status": "partial",
   "theorems": [
    "Spasm.Props.C56_value",
    "Spasm.Props.C56_nested_partial",
    "Spasm.Props.C56_built_in_name",
    "Spasm.Props.C56_arguments_see_parameters",
    "Spasm.Props.C56_eval_takes_rest",
    "Spasm.Props.C56_getc_fails"
   ],
   "note": "C56_nested_partial covers every expression with calls anywhere: as operands, in parentheses, in arguments, in the texts of functions and of names, nested at most 18 deep. The property is violated by arguments that mention an earlier parameter and by functions named like built-in ones (witness theorems). The built-in eval takes the rest of the expression with it, getc does not give a byte of its file (C56_eval_takes_rest, C56_getc_fails)."
  },
  {
   "property": "C57",
   "status": "partial",
   "theorems": [
    "Spasm.Props.C57_encodings_partial",
    "Spasm.Props.C57_fails_same_register"
   ],
   "note": "All entries of the eZ80 table but four, all suffixes, both modes, all operand values. LD B,B, LD C,C, LD D,D and LD E,E violate the property and are proved to."
  },
  {
   "property": "C58",
   "status": "proved",
   "theorems": [
    "Spasm.Props.C58_complete"
   ],
   "note": "Every byte sequence the eZ80 decoder accepts, with or without size prefix, in both modes."
  },
  {
   "property": "C59",
   "status": "partial",
   "theorems": [
    "Spasm.Props.C59_echo_partial",
    "Spasm.Props.C59_printed_partial",
    "Spasm.Props.C59_error",
    "Spasm.Props.C59_file_partial",
    "Spasm.Props.C59_later_labels",
    "Spasm.Props.C59_file_loses_letter",
    "Spasm.Props.C59_fails_long"
   ],
   "note": "Proved for operands whose values are known at the statement. Missing: labels that are defined later (they print an empty line, C59_later_labels), a file name directly behind > (C59_file_loses_letter), operands with problems, messages whose quoted form is longer than 254 characters. (.show is C70.) Long messages fail: C59_fails_long."
  },
  {
   "property": "C60",
   "status": "partial",
   "theorems": [
    "Spasm.Props.C60_bitmap_partial",
    "Spasm.Props.C60_named_partial",
    "Spasm.Props.C60_same_luminance",
    "Spasm.Props.C60_sixteen_bits",
    "Spasm.Props.C60_top_down",
    "Spasm.Props.C60_three_shades",
    "Spasm.Props.C60_inverted_colour",
    "Spasm.Props.C60_header",
    "Spasm.Props.C60_ignored"
   ],
   "note": "Proved for complete bitmaps of 1, 2, 4, 8 or 24 bits stored from the bottom up, at most 32767 columns and rows, 1 to 99 shades. Missing: inverted colours; 16 bits, top-down files, quoted header formats, announced sizes and colours exactly between two shades are violated (witness theorems). Image maps are C75."
  },
  {
   "property": "C61",
   "status": "partial",
   "theorems": [
    "Spasm.Props.C61_include",
    "Spasm.Props.C61_pasted_partial",
    "Spasm.Props.C61_mode_forgotten",
    "Spasm.Props.C61_text_taken_for_picture",
    "Spasm.Props.C61_endless"
   ],
   "note": "Statement level: any file, any state. Whole programs: those of C54, and an included file of whole lines. The fuel of the model only bounds the nesting of files and macros: the theorems hold for all fuel from some number on. Violations: ADL mode reset, texts beginning with BM, self-inclusion."
  },
  {
   "property": "C62",
   "status": "partial",
   "theorems": [
    "Spasm.Props.C62_macro",
    "Spasm.Props.C62_rest_lost",
    "Spasm.Props.C62_inside"
   ],
   "note": "proved for names that are not labels or macro arguments at that point, up to 16 different parameters, and texts in which conditional groups are complete; macros named like a label lose the rest of the file, macros do not nest"
  },
  {
   "property": "C63",
   "status": "partial",
   "theorems": [
    "Spasm.Props.C63_redefine",
    "Spasm.Props.C63_defcont",
    "Spasm.Props.C63_eval",
    "Spasm.Props.C63_concat",
    "Spasm.Props.C63_digit_for_label",
    "Spasm.Props.C63_digit_for_itself",
    "Spasm.Props.C63_comment_kept",
    "Spasm.Props.C63_value_cut",
    "Spasm.Props.C63_fails_undef"
   ],
   "note": "Proved: the text after a second #define (C63_redefine), after #defcont (C63_defcont), of eval (C63_eval) and of concat (C63_concat), for old texts without the name itself or labels in them and labels of up to nine characters. The exceptions are shown to be real: hexadecimal digits taken for names, comments kept by #defcont, values cut to nine characters. Missing: texts of more than 254 characters, character constants in redefined texts, a string directly behind another. #defcont behind an #undef of the latest define is undefined behaviour (C63_fails_undef)."
  },
  {
   "property": "C64",
   "status": "partial",
   "theorems": [
    "Spasm.Props.C64_buf",
    "Spasm.Props.C64_clr",
    "Spasm.Props.C64_wr",
    "Spasm.Props.C64_run",
    "Spasm.Props.C64_history",
    "Spasm.Props.C64_data",
    "Spasm.Props.C64_no_such_buffer",
    "Spasm.Props.C64_released_twice",
    "Spasm.Props.C64_later_label",
    "Spasm.Props.C64_endless"
   ],
   "note": "Proved: each statement (C64_buf, C64_clr, C64_wr, C64_run), any sequence of them (C64_history), and the bytes of run() for buffers of data lines (C64_data). The exceptions are shown to be real: numbers other than 0 to 9 (C64_no_such_buffer), a text that selects another buffer (C64_released_twice), labels defined later (C64_later_label), a buffer that runs itself (C64_endless). Missing: operands of wr that are texts of defines."
  },
  {
   "property": "C65",
   "status": "proved",
   "theorems": [
    "Spasm.Props.C65_assume",
    "Spasm.Props.C65_assume_alone",
    "Spasm.Props.C65_refused"
   ],
   "note": "Every expression with a value, every state; operands of up to 254 characters, as the program reads no longer ones."
  },
  {
   "property": "C66",
   "status": "partial",
   "theorems": [
    "Spasm.Props.C66_budget",
    "Spasm.Props.C66_outcome_unique",
    "Spasm.Props.C66_outcome",
    "Spasm.Props.C66_reproducible_partial",
    "Spasm.Props.C66_outcome_reproducible_partial",
    "Spasm.Props.C66_seek_gap",
    "Spasm.Props.C66_random",
    "Spasm.Props.C66_short_program"
   ],
   "note": "Proved: the result does not depend on the recursion budget of the model, a run has at most one outcome, and whole runs of the program on the same input agree in status, messages and files whatever the output memory and the random numbers, if no '\\# was evaluated, no .seek executed and no .8xp file of fewer than two bytes written. Missing: those three cases, in which the property is false (C66_seek_gap, C66_random, C66_short_program)."
  },
  {
   "property": "C67",
   "status": "partial",
   "theorems": [
    "Spasm.Props.C67_file_partial",
    "Spasm.Props.C67_root",
    "Spasm.Props.C67_whole_partial"
   ],
   "note": "The exporter writes exactly the specified file for every program in the formats of the property, and a whole run writes it and nothing else. The property is violated for output files in the root directory, where the slash becomes part of the name (C67_root)."
  },
  {
   "property": "C68",
   "status": "partial",
   "theorems": [
    "Spasm.Props.C68_file",
    "Spasm.Props.C68_whole_partial",
    "Spasm.Props.C68_refused_partial"
   ],
   "note": "C68_file holds for every good application that reaches the exporter. The whole runs are partial only in the programs they cover (those of C54)."
  },
  {
   "property": "C69",
   "status": "proved",
   "theorems": [
    "Spasm.Props.C69_option",
    "Spasm.Props.C69_refused",
    "Spasm.Props.C69_label"
   ],
   "note": "For names that are not labels: the program dereferences a null pointer when __name is a label (C69_label)."
  },
  {
   "property": "C70",
   "status": "proved",
   "theorems": [
    "Spasm.Props.C70_show",
    "Spasm.Props.C70_later",
    "Spasm.Props.C70_printed"
   ],
   "note": ""
  },
  {
   "property": "C71",
   "status": "proved",
   "theorems": [
    "Spasm.Props.C71_defined",
    "Spasm.Props.C71_line",
    "Spasm.Props.C71_show",
    "Spasm.Props.C71_rgb"
   ],
   "note": ""
  },
  {
   "property": "C72",
   "status": "partial",
   "theorems": [
    "Spasm.Props.C72_every_run",
    "Spasm.Props.C72_statistics_partial",
    "Spasm.Props.C72_fails_import",
    "Spasm.Props.C53_assembles",
    "Spasm.Props.C53_assembles_ez80_partial",
    "Spasm.Props.C72_fails_counter"
   ],
   "note": "C72_every_run: every run that ends normally shows the statistics last. C72_statistics_partial: for the programs of C54 without #import the total is the size of the file, and the labels and the names with texts are counted right; missing: the division into code and data for whole programs, and the whole run with -C (under which labels are never entered). The length and the times that an instruction adds are in C53_assembles and C53_assembles_ez80_partial. C72_fails_import: bytes of #import are not counted. C72_fails_counter: with -C a program with labels is assembled to other bytes, silently."
  },
  {
   "property": "C73",
   "status": "partial",
   "theorems": [
    "Spasm.Props.C73_named_partial",
    "Spasm.Props.C73_fails_warning",
    "Spasm.Props.C73_fails_error",
    "Spasm.Props.C73_fails_later_label"
   ],
   "note": "C73_named_partial: the bytes, for lists without parameters whose names are known; the warnings of the list are lost, which C73_fails_warning and C73_fails_error show to break the full statement. Labels that are not known yet violate the property (C73_fails_later_label). Missing: texts with parameters."
  },
  {
   "property": "C74",
   "status": "partial",
   "theorems": [
    "Spasm.Props.C74_marker",
    "Spasm.Props.C74_comment_partial",
    "Spasm.Props.C74_removed_partial",
    "Spasm.Props.C74_fails_if",
    "Spasm.Props.C74_fails_unclosed",
    "Spasm.Props.C74_fails_parenthesis",
    "Spasm.Props.C74_fails_comment"
   ],
   "note": "Marker lines: C74_marker, every text. Block comments: every text that reads as statements with complete conditional groups (C74_comment_partial, C74_removed_partial for whole runs of the programs of C54). The negations show that the full statement is false of the program. Missing: comments with quotes that are not closed."
  },
  {
   "property": "C75",
   "status": "partial",
   "theorems": [
    "Spasm.Props.C75_map_partial",
    "Spasm.Props.C75_map_uneven",
    "Spasm.Props.C75_map_semicolon"
   ],
   "note": "Proved for complete bitmaps as in C60 that the map divides evenly, with up to 9999999 images and new or equal labels. Missing: expressions in the text of the map; maps that do not divide the bitmap and a semicolon as separator are violated (witness theorems)."
  },
  {
   "property": "C76",
   "status": "proved",
   "theorems": [
    "Spasm.Props.C76_only_statistics"
   ],
   "note": "For every non-empty command line, every file system and every way a run can end. That the statistics are indeed shown when the run comes to its end is C72_every_run."
  },
  {
   "property": "C77",
   "status": "partial",
   "theorems": [
    "Spasm.Props.C77_function",
    "Spasm.Props.C77_empty",
    "Spasm.Props.C77_visible",
    "Spasm.Props.C77_label_frozen"
   ],
   "note": "Proved for every name, parameter list and text; the missing part is a redefinition whose new text mentions a label or the name itself (the text is then rewritten while it is stored). The exception is real: C77_label_frozen."
  },
  {
   "property": "C78",
   "status": "partial",
   "theorems": [
    "Spasm.Props.C78_symbol_file_only_partial",
    "Spasm.Props.C78_fails_output",
    "Spasm.Props.C78_fails_crash"
   ],
   "note": "Whole runs, any command line and files, also with -S and -C. It fails when evaluating a define for the symbol file runs a preprocessor line (C78_fails_output, C78_fails_crash); the theorem excludes that. Also missing: runs with -L that do not come to their end, runs that write no output file (-O), runs in which a session number was used twice."
  }
 ]
}