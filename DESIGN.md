# Design

Formal model of alberthdev/spasm-ng (a Z80/eZ80 assembler, C++) in Lean 4.

## Approach

The modelled build is the Unix one of the Makefile (`-DUSE_REUSABLES -DUNIXVER -DUSE_BUILTIN_FCREATE`,
application signing on). `char` is signed, `int` has 32 bits, lines end in `\n`.

* A C string is the list of its bytes without the terminating NUL; `char *` is the remaining suffix.
  Reading `*p` at the end gives 0. Moving past the NUL is undefined behaviour.
* `int` is a Lean `Int` kept in the 32-bit range. Signed overflow, out-of-range shifts and the trapping
  divisions are a distinct outcome (undefined behaviour), never assumed away. Left shifts wrap as GCC documents.
* The output buffer is a function from offsets to bytes plus a write position; a write outside the
  8000000-byte buffer is undefined behaviour.
* Global variables are the fields of one state record. Functions are state transformers with outcomes
  value / process exit / undefined behaviour / fuel exhausted.
* Mutual recursion (evaluator -> macro -> preprocessor -> evaluator ...) is tied by a record of callbacks
  with a fuel number; theorems hold for every fuel.

## Plan per property

* **C01 Numeric literals denote their value** — `conv_generic` and the literal part of `parse_single_num` as total functions on byte lists; `Nat` positional value as specification; induction over the digit list.
* **C02 Bad or oversized literals are rejected, never truncated** — Same functions; rejection cases by induction; converse direction of C01.
* **C03 Expressions evaluate left to right without precedence** — `parse_num_full` with the local fuel argument; specification is an inductive AST, a printer with arbitrary spacing and a direct left-to-right evaluator; induction over the AST.
* **C04 Division never traps** — Operator application step of `parse_num_full`; case analysis with the hardware trap as a separate undefined-behaviour outcome.
* **C05 Expression failure is never silent** — Whole evaluator including macros through the recursion knot; relational invariant 'failure implies the error list grew' proved by induction on the knot depth.
* **C06 Expression nesting is bounded** — `parse_depth` counter; induction over nesting. Termination: by induction on the budget with the measure budget + `parse_depth` > 20, for texts without parameters (Spec/Plain, Lemmas/Ends, Props/Terminate).
* **C07 Character constants denote the character code** — Character branch of `parse_single_num`.
* **C08 Anonymous labels resolve by distance** — Reusable-label branch; specification counts entries of the address list before/after the point of use.
* **C09 Name resolution order** — Lookup functions over association tables; decision-logic theorem.
* **C10 8-bit operands** — `write_arg` over `Int`, memory as function; arithmetic.
* **C11 16-bit and 24-bit operands are little-endian** — As C10.
* **C12 Relative jumps land on their target** — As C10; specification: sign-extended byte plus next address.
* **C13 Index displacements** — As C10.
* **C14 Bit numbers** — As C10 with bit operations.
* **C15 RST vectors** — `write_arg` and the second-pass driver. The code violates the property for deferred vectors: prove the negation and the first-pass half.
* **C16 Forward references do not move code** — `run_second_pass` over the queue; frame theorem by induction over the queue.
* **C17 Deferred operands get the value they would have had** — `run_second_pass`; characterisation of the write of each queue element. `expand_expr` changes meaning in some cases (unparenthesised substitution): negation with witness.
* **C18 Instruction sizes are exact** — Both opcode tables translated mechanically; `decide +kernel` over the table lifted to all operand values.
* **C19 Instruction encodings are right** — Independent decoder (octal x/y/z/p/q scheme of the Z80) as specification; kernel check over the whole table, lifted to all operand values.
* **C20 Instruction selection** — `match_opcode_args` as function; specification as a relation between pattern and text. `C20_chosen` holds whatever the operands mean; `C20_swallows_line` shows that an unclosed parenthesis makes the program read, and drop, the following lines.
* **C21 eZ80 suffixes** — `parse_suffix` and the prefix byte formula.
* **C22 Output position and program counter advance together** — `write_instruction_data`, data directives; invariant relating program counter and output pointer.
* **C23 Labels take the program counter** — `add_label` and the statement driver.
* **C24 Error sessions nest and lose nothing** — errors.cpp as a state machine; specification as a stack of error lists (refinement).
* **C25 Exit status only gets worse** — Monotonicity invariant over the whole model.
* **C26 No output after fatal errors** — `run_assembly` with exit as an outcome; theorem about the order of file-write events.
* **C27 Conditional assembly selects one branch** — `skip_until` and the conditional branch handlers; specification of groups as an inductive relation between the text of a group and the branch chosen, with the nesting of the statements passed over (Spec/Cond.lean); the scanner is related to it by induction over the statements (Lemmas/Skip.lean), the groups by induction over their clauses (Lemmas/Cond.lean), groups in whole programs by induction over the program (Lemmas/Block.lean).
* **C28 Define table behaves as a map** — Tables refine a map; induction over operation lists.
* **C29 Macro arguments are scoped** — Invariant over the whole model: argument-set stack equal before and after.
* **C30 Symbol file is sorted and complete** — Insertion sort over the enumeration; sortedness and permutation. For every run with -L (Props/SymbolRun.lean): the tables are in order when the file is written, and the rest of the run leaves them alone (Lemmas/Static.lean).
* **C31 Intel HEX output decodes to the program** — `intelhex` as byte list; independent decoder; induction over chunks.
* **C32 Application length fields** — `makeapp` size arithmetic. The code violates the property for 16288 < size <= 16384: negation with witness, partial theorem elsewhere.
* **C33 Calculator file checksum** — `makeprgm` as byte list; sum.
* **C34 Calculator file length fields** — As C33. Violated for some types: negation and partial.
* **C35 TI-83 squished hex** — As C33.
* **C36 ROM image has fixed size** — `makerom`.
* **C37 Application header field search is memory-safe** — `findfield` over a bounded buffer; reads outside are undefined behaviour.
* **C38 Application signature verifies** — `siggen` over `Int`/`ZMod`; p, q primality by certificate or as explicit hypothesis.
* **C39 Quoted string escaping** — `escape_string`, `reduce_string`.
* **C40 Expandable buffers behave as strings** — expand_buf.cpp as allocation + content; refinement to list append/insert.
* **C41 Fast upper-casing is correct** — SWAR on `BitVec 32` by per-byte decomposition; induction over words.
* **C42 Argument splitting respects quotes and brackets** — `read_expr_impl`, `extract_arg_string`.
* **C43 Output names** — Path functions.
* **C44 Byte order mark is invisible** — `get_file_contents`.
* **C45 User-defined instructions** — `.addinstr` parser and `write_instruction_data`; specification of definitions (Spec/Addinstr.lean): bytes from right to left, the entry that a definition stands for; theorems for the definition (only the table changes), and for instructions that use an entry with any recorded size.
* **C46 Data directives emit their operands in order** — `parse_emit_string` and fill loop.
* **C47 Imported files are copied verbatim** — `handle_preop_import`. The statement (`C47_import`), and whole runs of programs that import files (`C47_whole_run`, through C54).
* **C48 Origin and seek** — `.org`, `.seek` branches.
* **C49 Statement separation** — `skip_to_code_line_end`, `next_code_line`, `run_first_pass`.
* **C50 Command line options set exactly their mode** — Option loop of `main`.
* **C51 Mode and source do not change during assembly** — Whole-model invariant by induction on the recursion knot.
* **C52 Every Z80 instruction can be assembled** — The decoder of C19 enumerated by its own forms; each form has a table entry; kernel check over the forms, lifted to all operand values.
* **C53 An instruction statement assembles to the instruction it names** — Composition of C20, the operand encodings and C19.
* **C54 A program assembles to its bytes** — Specification of programs as an inductive relation between text and bytes that reads every expression with the final labels (Spec/Program.lean), including defines from the command line and the source, functions and their calls in operands, equates and conditions, conditional groups, macros and included files; induction over the program for the first pass with an invariant that says which bytes are written and which are due (Lemmas/Deferred.lean, Lemmas/Program.lean), induction over the queue for the second pass (Lemmas/Whole.lean), composed with the command line (C50) and the exporter (C31).
* **C55 Macro calls** — Specification of parameters, argument values and bindings (Spec/Macro.lean). The call is followed through the name lookup, the argument loop (induction over the argument list: each argument is evaluated and stored as a number text), the lines of the body (an inductive relation of line runs) and the return. Parameters are then shown to be labels with the argument values, and data lines in a body to give the bytes of the specification. Partial: an argument does not mention a parameter in front of its own (it may mention its own and later ones, so a macro may pass its parameter on to another macro with the same parameter), and bodies in closed form are data lines.
* **C56 Function calls in expressions** — Specification of calls and of expressions with calls as operands (Spec/Function.lean). The call is followed through the argument loop (lemmas of C55), the evaluation of the text in the state with the parameters bound (the evaluator theorem of C03) and the return; induction over the expression. Names whose text contains calls are followed. Spec/Calls.lean describes calls anywhere (in arguments, in the texts of functions, in parentheses) relative to a scope, which says what names stand for; a call evaluates its arguments in the scope of the call and its text in that scope with the parameters bound. `C56_nested_partial` proves the evaluation by one induction over all scopes and all states that show them (Lemmas/Calls.lean). Partial: arguments that mention an earlier parameter and functions named like built-in ones violate the property; nesting is at most 18.
* **C57 eZ80 instruction encodings** — The decoder of C19 generalised over the processor; the eZ80 opcode maps as a second instance (Spec/DecodeEz80.lean), with size prefixes and suffixes; kernel check over the whole eZ80 table in both sizes of immediates, lifted to all operand values. Four entries fail. C53 is stated for the eZ80 too.
* **C58 Every eZ80 instruction can be written** — As C52 with the eZ80 decoder.
* **C59 Messages** — `.echo`, `.echo >`, `.echo >>` and `.error` with any list of operands: what is kept for the second pass (and printed there), written to the file or
  put on record, against the message spelled out in Spec/Message.lean. `.show` is not covered.
* **C60 Included bitmaps** — Specification of bitmap files, shades, bit planes, settings and headers (Spec/Bitmap.lean), independent of the order in which the program fills its tables. The conversion to `double` is followed with error bounds (Lemmas/Double.lean): the shade is exact except exactly between two shades. Pixels, planes, strips and header by induction, settings through the evaluator theorems of C03 and C56. Partial: the inversion of a colour (image maps are C75).
* **C61 Including a source file is like writing its text in its place** — At the level of statements an equation: `#include` is a pass over the text of the file in the present state, with the file and line restored behind it. For whole programs inclusion is a case of the specification of C54 (Spec/Program.lean); two programs, one with the statement and one with the lines of the file, have the same bytes by it. Partial: as C54. On an eZ80 the mode is reset, texts that begin with `BM` are taken for pictures, and a file that includes itself is never read to the end.
* **C62 #macro defines a macro with its parameters and lines** — An equation for the statement: from the first line to the `#endmacro`, whose text is described by the same grammar of statements and groups as in C27 (Spec/Cond.lean), the run ends with the name bound to the parameters and the text, everything else but the line unchanged.
* **C63 Redefinitions, #defcont, eval and concat give the text they describe** — A relation between the written and the stored text, word by word (`Rewritten`, Spec/Computed.lean), and one between arguments and joined text (`Concat`); equations for the four kinds of statement in any state, with the loop over the text done by induction over the relation.
* **C64 Text buffers collect lines and run() assembles them** — The statements as operations on ten texts (Spec/Buffer.lean); the lines of any sequence of them lead to the texts the operations give, by induction over the sequence. `run()` is a pass over the text in the present state; for lines of data the bytes follow from C46.
* **C65 .assume selects the mode of the eZ80** — Equations for the directive in any state and with any expression.
* **C66 A program has one result, and assembling it again reproduces it** — Two relational invariants over every function of the model, down to `main`. Lemmas/Fuel.lean: a run with a smaller recursion budget gives the same result or uses the budget up, so all budgets that suffice agree. Lemmas/Repro.lean, ReproMain.lean: two runs that differ in the output memory and the random numbers stay in step, and the memory agrees below the output position, as long as no random number is drawn and no `.seek` skips bytes. The ghost field `sought` of the state records that `.seek` was executed.
* **C67 Program files hold exactly the program** — Spec/ProgramFile.lean writes down the file of each format as one list of bytes, without the model's functions. The exporter is proved to write exactly that list for any program, also when it warns. Together with the whole-run result of C54 this gives the file of a whole command line (`C67_whole_partial`). The formats 82P, 85P, 85S and 86S are not part of the property; the exporter's code for them is modelled.
* **C68 A well-formed application is signed, a malformed one refused** — Spec/AppFile.lean describes an application as length field, list of header fields and code, and what a good header is, by operations on that list. The exporter's searches through the bytes are proved to agree with searches in the list (Lemmas/AppFile.lean). `C68_file` gives the file of every good application, `C68_whole_partial` the same from the command line, `C68_refused_partial` the refusals, one case for each thing that can be missing.
* **C69 .option sets exactly the options it lists** — Spec/Option.lean says what an operand sets (`Sets`) and the text of a name after a list of settings (`optionText`). `C69_option` by induction over the operands, for any spelling of the directive; `C69_refused` for the invalid operand.
* **C70 .show prints the define as it is** — `C70_show` for a name that is known at the statement, `C70_later` and `C70_printed` for one that is not: the request is kept, and the second pass prints the define of the end of the source or reports the error.
* **C71 The predefined names have their values** — Spec/Predefined.lean lists them. `C71_defined` is about the storage as it is set up, `C71_line` about `__LINE` in expressions, `C71_show` about the texts of `__LINE` and `__FILE`, `C71_rgb` about `RGB` (through the function calls of C56).
* **C72 The statistics count what is assembled** — Spec/Statistics.lean has the texts, `takes` in Spec/Instr.lean the times of an instruction. `C72_every_run` holds for every program: the texts come last and count the tables at the end. `C72_statistics_partial` is about the programs of C54: their invariant carries that the two counters together grow as the output, and that the table has one label for each name; the names with texts are counted by comparing the final table, which `C28_never_both` shows to be free of repetitions, with the texts that the program leaves. The times are part of the result of every instruction in C53. The bytes of `#import` and of bitmaps are not counted (`C72_fails_import`).
* **C73 A name in a data directive stands for the operands in its text** — `Listed` in Spec/Named.lean reads operands with names whose texts are lists of operands. `C73_named_partial` proves the bytes by induction on it: the number parser is shown to fail on the list without moving anything, then the directive is started again on the text. The program drops the problems of the inner list (`C73_fails_warning`, `C73_fails_error`).
* **C74 Block comments and marker lines stand for nothing** — `MarkerLine` and `BlockComment` in Spec/Ignored.lean describe the lines. `C74_marker` and `C74_comment_partial` prove that the first pass goes from such lines to the text behind them and changes only the line number; the search for `#endcomment` is the one of C27. They are a case of the programs of C54, so `C74_removed_partial` compares whole runs. An `#if` in a comment, an unclosed comment and a line with a leading parenthesis break the full statement (`C74_fails_if`, `C74_fails_unclosed`, `C74_fails_parenthesis`).
* **C75 Several images in one bitmap** — Spec/ImageMap.lean gives the texts of maps, the areas of the images in order, their bytes and their labels. The loop of the program is followed by induction along the order of the areas (`Order`, `loop_images`), with the labels added so far as the invariant; the planes of an area come from C60. That the text of a map is no expression, so that its value is that of a failure nobody reports, is proved in Lemmas/MapText.lean. Partial: maps that divide the bitmap, with numbers written in digits. The buffer of eight bytes for the number of an image is not modelled, hence fewer than 10^7 images.
* **C76 Asking for statistics changes nothing else** — Two runs are compared: every function of the model is shown to commute with setting the flag of -S in the state (`Blind`, Lemmas/Veil.lean, induction on the recursion knot as for C66), up to the function that prints the statistics. Proved for every command line that is not empty.
* **C77 #define with parameters makes a function** — At the level of statements, like C28 and C62: the parameters are read by the lemmas of C62, the text by those of C28. Spec/FunctionDef.lean says what a definition looks like and what it changes. `C77_visible` joins it to C56, which says what calls are worth. Redefinitions whose new text mentions a label or the name itself are left out: the text is then rewritten while it is stored.
* **C78 Asking for the symbol file changes nothing else** — Everything before the symbol file does not look at the option (the lemmas of C76, made for both options). Behind it two states that differ in the log, the status and the names are followed through the output file and the counters (Lemmas/SymOnly.lean). Runs that stop early, runs with -O and runs in which a preprocessor line was run inside an expression are left out; for the last the property is violated.

## Layout of the Lean project

* `Model/`: the program. One definition per C++ function, with file and lines.
* `Spec/`: vocabulary of the properties. These files do not use functions of the model, except that they name its state
  record and, in a few places stated there, its character functions.
* `Props/`: the property theorems, named after the property, each with an example that meets its hypotheses.
* `Lemmas/`: everything else. Three invariant families run over the whole model by induction on the recursion knot:
  which primitive steps a computation can make (Steps, Keeps), how sessions and argument sets balance (Balance), and how
  output position and address move together (Lined). `Auto.lean` has the tactic that walks through the definitions.

Four ghost fields of the state are written by the model and never read by it: `stale` is set when an error is put on
record for a session that has already ended (the code keeps a session number in a variable and uses it too late);
`ranPreop` is set when a preprocessor line is executed; `spread` is set when a define with several operands is spread
over the operands of an instruction; `sought` is set when .seek is executed. Some theorems exclude runs in which they are set, and say so.

## Where the code does not have the property

Each of these is proved with a concrete witness, beside the theorem that holds for the rest.

| Property | Disagreement | Theorem |
| --- | --- | --- |
| C02 | `$0x1F` is accepted, because strtoll accepts a prefix | `C02_0x_accepted` |
| C02 | `%-1`, `%` and `0x1Fh` are accepted as numbers | `C02_bad_binary_accepted` |
| C08 | the 4097th anonymous label is written outside its array | `C08_too_many` |
| C15 | a restart vector that needs the second pass is always rejected | `C15_deferred_rejected`, `C15_forward_vector` |
| C16 | a macro with preprocessor lines used in an operand moves code | `C16_preprocessor_moves_code` |
| C17 | expanding a deferred operand can change its value | `C17_expansion_changes_value`, `C17_expansion_cuts_labels`, `C17_expansion_rewrites_digits`, `C17_expansion_rewrites_characters`, `C17_expansion_doubles_signs` |
| C18 | `.addinstr` with a wrong size moves the labels behind the instruction | `C18_fails_addinstr` |
| C20 | `ld h l,5` is assembled as `ld hl,5` | `C20_blank_in_register` |
| C23 | `.equ` without a label changes the label defined last | `C23_equate_without_label` |
| C25 | errors that are only printed do not count; diagnostics of the command line are forgotten | `C25_printed_status_zero`, `C25_commandline_forgotten` |
| C26 | output after a fatal error in a finished session, or one that was shown, not recorded | `C26_stale_session_writes`, `C26_shown_fatal_writes` |
| C27 | in a branch passed over, a statement that starts with `)` hangs the program and an apostrophe before a backslash hides the next statement; a comment directly behind `#endif` hides it; a condition with a label defined later is silently false | `C27_parenthesis_hangs`, `C27_apostrophe_hides`, `C27_comment_hides`, `C27_forward_condition` |
| C27 | with two `#else` two branches are assembled; `#if(1)` is not recognised | `C27_second_else`, `C27_no_blank` |
| C45 | five opcode bytes or more shift a 32-bit number too far, which is undefined; with two `*` in a pattern the number of bytes written is not the size; statements behind a backslash after `.addinstr` are lost (also against C49) | `C45_fails_five_bytes`, `C45_fails_two_words`, `C45_fails_rest_of_line` |
| C28 | a repeated `#define` freezes labels and its own old text; `';'` cuts it; `"\\"` swallows the comment | `C28_label_frozen`, `C28_self_frozen`, `C28_semicolon_cut`, `C28_comment_kept` |
| C29 | a macro call can change the values of outer arguments | `C29_values_change` |
| C31 | above 256 pages the page record has a wrong checksum | `C31_too_large` |
| C32 | the length fields are wrong for programs of 16289 to 16384 bytes | `C32_one_page_boundary` |
| C34 | length fields of 86S and 85S files and of 85P files with long names are wrong | `C34_86S`, `C34_85S`, `C34_ti85_long_name` |
| C36 | a program larger than the ROM is accepted silently | `C36_oversize_silent` |
| C40 | `eb_erase` erases the wrong part | `C40_erase_wrong` |
| C43 | a dot in a directory name is taken for the extension | `C43_directory_dot` |
| C44 | empty files and files that are a prefix of the mark cannot be read | `C44_empty`, `C44_prefix` |
| C46 | a string with an escaped NUL is cut there | `C46_escaped_nul` |
| C47 | importing a missing file dereferences a null pointer | `C47_missing_file` |
| C48 | `.seek` behind the output is accepted, and an out-of-range one is executed after the error | `C48_seek_gap` |
| C49 | a statement behind a `#define` and a backslash is lost | `C49_define_swallows` |
| C50 | `-DNAME` without a value reads past the end of the argument | `C50_define_without_value` |
| C50 | with -A, a name given with -D is stored in capitals, and the program does not find it | `C50_fails_case_define` |
| C51 | an error session can be lost | `C51_session_lost` |
| C06 | a function that calls itself (`#define f(x) f(1)`) resets the nesting counter, so the program recurses until its stack is exhausted | `C06_fails_function_recursion` |
| C54 | `foo!=3`: the exclamation mark is taken for a part of the name | `C54_not_equal_behind_name` |
| C55 | a macro named like the beginning of `buf`, `clr`, `wr` or `run` cannot be called | `C55_prefix_of_built_in` |
| C55 | an argument that mentions a parameter's name sees the parameter bound before, not the caller's symbol | `C55_arguments_see_parameters` |
| C55 | a missing argument drops the operands that use it, silently and with exit status 0; with one too many nothing is written | `C55_missing_argument` |
| C56 | a function named `eval` or `getc` cannot be called; an argument that mentions an earlier parameter sees it | `C56_built_in_name`, `C56_arguments_see_parameters` |
| C56 | `2*eval(1+2)+1` is 8; `getc` does not give a byte of its file | `C56_eval_takes_rest`, `C56_getc_fails` |
| C57 | `LD B,B`, `LD C,C`, `LD D,D` and `LD E,E` are accepted for the eZ80, where their bytes are the size prefixes: they change the next instruction | `C57_fails_same_register` |
| C59 | `.echo` of a label that is defined later prints an empty line | `C59_later_labels` |
| C59 | `.echo >name` loses the first letter of the file name | `C59_file_loses_letter` |
| C59 | a message whose quoted form has more than 254 characters is not shown, and the assembly fails | `C59_fails_long` |
| C60 | colours of the same luminance can have different shades; with a number of shades that is not a power of two, dark pixels become bright | `C60_same_luminance`, `C60_three_shades` |
| C60 | bitmaps of 16 bits for a pixel get wrong colours; those stored from the top down, a colour to invert and a map with one number are undefined behaviour | `C60_sixteen_bits`, `C60_top_down`, `C60_inverted_colour`, `C60_ignored` |
| C60 | a header format in quotes is not understood, and the announced size is wrong with a mask or eight shades | `C60_header` |
| C60 | a bitmap whose pixels do not follow its headers directly is ignored with exit status 0 | `C60_ignored` |
| C75 | a map that does not divide the bitmap gives more images than it says; a semicolon between the numbers divides by zero | `C75_map_uneven`, `C75_map_semicolon` |
| C61 | on an eZ80 an included file switches to ADL mode, whatever `.assume` selected before | `C61_mode_forgotten` |
| C61 | a source file that begins with `BM` is taken for a picture; one that includes itself recurses without end | `C61_text_taken_for_picture`, `C61_endless` |
| C62 | a macro with the name of a label: the rest of the file is not assembled | `C62_rest_lost` |
| C62 | a macro ends at the `#endmacro` of a macro inside it | `C62_inside` |
| C62 | a macro with a name defined before keeps the file and line of the old definition (plus one) for its messages | part of `C62_macro` |
| C63 | the hexadecimal digits of an `eval` value are taken for labels, and for the name itself | `C63_digit_for_label`, `C63_digit_for_itself` |
| C63 | a comment behind `#defcont` becomes part of the text, later continuations are lost in it | `C63_comment_kept` |
| C63 | ten-digit values of labels are cut to nine characters in redefinitions | `C63_value_cut` |
| C63 | `#defcont` behind an `#undef` of the latest define reads a define that is gone | `C63_fails_undef` |
| C64 | `buf` accepts any number; the next statement reaches behind the array of ten buffers | `C64_no_such_buffer` |
| C64 | a buffer whose text selects another one: `run` releases the other, a null pointer | `C64_released_twice` |
| C64 | `wr` with a label defined later writes `(error)` without a message | `C64_later_label` |
| C64 | a buffer that runs itself is assembled without end | `C64_endless` |
| C66 | the bytes skipped by `.seek` are whatever the memory held | `C66_seek_gap` |
| C66 | `'\#'` is a random byte | `C66_random` |
| C66 | whether a `.8xp` program of one byte gets a warning depends on the byte behind it | `C66_short_program` |
| C67 | for an output file in the root directory the slash becomes part of the stored name | `C67_root` |
| C69 | `.option x` with a label `__x` dereferences a null pointer | `C69_label` |
| C72 | with -C no label is entered: operands with labels are assembled as 0 and an equate ends the program, both without a message | `C72_fails_counter` |
| C73 | warnings about numbers in a list behind a name are lost | `C73_fails_warning` |
| C73 | a wrong operand in a list behind a name is left out, the run succeeds | `C73_fails_error` |
| C73 | a label that is defined later stops the program in a list behind a name, a sum that begins with a string is undefined behaviour | `C73_fails_later_label` |
| C74 | an `#if` in a block comment hides its end, the rest of the program is lost silently | `C74_fails_if` |
| C74 | a block comment that is not closed swallows the rest silently | `C74_fails_unclosed` |
| C74 | a line of a block comment that starts with `)` makes the run endless | `C74_fails_parenthesis` |
| C74 | `.list;x` is an error, `.list ;x` is not | `C74_fails_comment` |
| C77 | a function that replaces another has the labels in its text replaced by their present values | `C77_label_frozen` |
| C78 | a macro with `#import` used in a define adds its bytes to the output file when -L is given | `C78_fails_output` |
| C78 | the same with a relative path passes a null pointer for the path when -L is given | `C78_fails_crash` |

## Trusted base

* Lean's kernel. No axioms of our own; every theorem depends at most on `propext`, `Classical.choice` and `Quot.sound`.
  No `native_decide` or `bv_decide`; `decide +kernel` is evaluated by the kernel.
* The reading of the C++ source that produced the model; every definition cites its lines. The two instruction tables
  were translated by a script from `opcodes.cpp` and `opcodes_ez80.cpp`.
* The specification files under `Spec/`: a property means what its theorem says with these definitions.
* Libraries as parameters or by their contract: MD5 (OpenSSL) is an arbitrary function, GMP integers are Lean integers
  with the Jacobi symbol of Mathlib, `strtoll`, `isspace` and other C library functions are written out for the C locale;
  the file system is a function from names to contents, `rand` a sequence; memory allocation never fails.

## Modelled

parser.cpp, pass_one.cpp, pass_two.cpp, directive.cpp, preop.cpp, storage.cpp, hash.cpp (as an association list),
list.cpp (as lists), errors.cpp, utils.cpp (text functions), expand_buf.cpp, modp_ascii.cpp, export.cpp, main.cpp, bitmap.cpp
(`double` as integers in units of 2^-64, every operation rounded to 53 bits), both instruction tables. The recursion of the program is bounded by a fuel number in the model; all theorems hold for every
fuel, or for every fuel above a stated number when they say that a run succeeds.

## Not modelled

* The listing file (`-T`); the mode itself is modelled.
* bitmap.cpp: rectangles outside the bitmap (negative `__BM_PAD` or `__BM_MIN_W` in some combinations) end the model with a
  distinct outcome. A file that starts like a bitmap and is shorter than its headers is undefined behaviour.
* Console colours, Windows-only code, the COM interface (CTextStream, Z80Assembler, dll).
* The wording of diagnostics: an event has the kind, the code and for texts of `.echo` the text.
* Memory leaks and running out of memory.
