{"id": "C01", "title": "Numeric literals denote their value", "statement": "A hexadecimal ($..., ...h), binary (%..., ...b) or decimal (..., ...d) literal whose digits are all valid for its base evaluates to the positional value of its digits, reduced to a 32-bit signed integer, whenever that value is at most 4294967295.", "quantifier": "every digit string of every length in each of the five literal syntaxes", "why_tests_cant": "The set of digit strings is infinite; a test fixes a few strings and a few lengths.", "anchors": ["parser.cpp: parse_single_num, conv_generic, conv_hex, conv_dec, conv_bin"]}
{"id": "C02", "title": "Bad or oversized literals are rejected, never truncated", "statement": "A literal that contains a character that is not a digit of its base is rejected with an invalid-digit error, and one whose value exceeds 4294967295 is rejected with an overflow error; neither produces a value.", "quantifier": "every alphanumeric string in each literal syntax", "why_tests_cant": "Silent wrap-around shows up only for particular lengths and digits; tests sample a handful.", "anchors": ["parser.cpp: conv_generic, parse_single_num", "errors.h"]}
{"id": "C03", "title": "Expressions evaluate left to right without precedence", "statement": "The value of an expression built from numbers, unary minus and complement, the binary operators and parentheses is the strict left-to-right fold of its operators over its operands in 32-bit arithmetic, with parentheses evaluated first, whatever white space separates the tokens.", "quantifier": "every expression tree of every size whose bracket nesting is within the documented limit, and every spacing of it", "why_tests_cant": "Expression trees are unboundedly many; precedence mistakes only appear for particular operator pairs and nestings.", "anchors": ["parser.cpp: parse_num_full, parse_single_num"]}
{"id": "C04", "title": "Division never traps", "statement": "Division or remainder by zero, and INT_MIN divided by -1, are reported as errors and give no value; evaluation never performs the trapping machine operation.", "quantifier": "every pair of 32-bit operands and every expression that reaches such a division", "why_tests_cant": "2^64 operand pairs; the trapping ones are isolated points.", "anchors": ["parser.cpp: parse_num_full"]}
{"id": "C05", "title": "Expression failure is never silent", "statement": "Whenever the evaluator reports, inside some error session, that it could not evaluate an expression, at least one error was recorded in that session, and no error that was on record before is lost.", "quantifier": "every expression text and every assembler state (labels, defines, macro arguments, sessions)", "why_tests_cant": "The failure paths run through macro expansion, nested evaluation and file access; tests cannot enumerate texts and symbol tables.", "anchors": ["parser.cpp: parse_num, parse_num_full, parse_single_num, parse_define", "errors.cpp"]}
{"id": "C06", "title": "Expression nesting is bounded", "statement": "An expression whose parentheses nest more than the limit is rejected with the recursion error, and one within the limit is not rejected for that reason; scanning of one expression always terminates.", "quantifier": "every nesting depth", "why_tests_cant": "Tests try a few depths; the claim is about all of them and about termination.", "anchors": ["parser.cpp: parse_num_full (parse_depth)"]}
{"id": "C07", "title": "Character constants denote the character code", "statement": "A quoted character constant evaluates to its character code; the escapes \\n \\r \\t \\0 \\\\ \\' evaluate to 10, 13, 9, 0, 92 and 39, regardless of the letter case of the escape.", "quantifier": "every byte value between the quotes and every continuation of the line", "why_tests_cant": "Depends on the sign of char and on every possible following text.", "anchors": ["parser.cpp: parse_single_num"]}
{"id": "C08", "title": "Anonymous labels resolve by distance", "statement": "_ and +_ ... resolve to the first, second, ... anonymous label defined after the point of use, -_ and --_ ... to the nearest, second nearest, ... one defined before it, and a reference beyond the first or last anonymous label is reported instead of resolving.", "quantifier": "every list of anonymous label addresses, every point of use, every number of + or - signs", "why_tests_cant": "The reference distance and the number of labels are unbounded.", "anchors": ["parser.cpp: parse_single_num", "storage.cpp: add_reusable, get_reusable, get_curr_reusable, get_num_reusables"]}
{"id": "C09", "title": "Name resolution order", "statement": "A name in an expression resolves to the innermost macro argument of that name, otherwise to the label of that name, otherwise to the define of that name; if there is none the unknown-label error is recorded. Upper and lower case are interchangeable unless case sensitivity was requested.", "quantifier": "every symbol table, argument stack and name", "why_tests_cant": "Shadowing mistakes need particular combinations of tables; there are infinitely many.", "anchors": ["parser.cpp: parse_single_num", "storage.cpp: search_local_defines, search_labels, search_defines"]}
{"id": "C10", "title": "8-bit operands", "statement": "An 8-bit operand emits exactly one byte congruent to the value modulo 256, and a truncation warning is recorded exactly when the value is outside -128..255.", "quantifier": "every 32-bit value and assembler state", "why_tests_cant": "2^32 values; boundary mistakes are single points.", "anchors": ["pass_two.cpp: write_arg", "pass_one.cpp: write_out"]}
{"id": "C11", "title": "16-bit and 24-bit operands are little-endian", "statement": "A 16-bit operand emits the two bytes, and a 24-bit operand the three bytes, of the value modulo 2^16 or 2^24 in little-endian order; in eZ80 mode a 16-bit operand outside -32768..65535 is warned about, otherwise nothing is reported.", "quantifier": "every 32-bit value, both processor modes, every state", "why_tests_cant": "2^32 values per width.", "anchors": ["pass_two.cpp: write_arg"]}
{"id": "C12", "title": "Relative jumps land on their target", "statement": "When a relative-jump operand is accepted, the emitted displacement byte, read as a signed 8-bit number and added to the address after the instruction, gives the target address; when the target is not reachable the jump-range error is recorded.", "quantifier": "every target value, program counter, instruction size and processor mode", "why_tests_cant": "Quadratically many pairs of addresses, boundary cases at +127/-128 and at the wrap-around of the address space.", "anchors": ["pass_two.cpp: write_arg (ARG_ADDR_OFFSET)"]}
{"id": "C13", "title": "Index displacements", "statement": "An (IX+d)/(IY+d) displacement emits one byte whose signed value is d when -128 <= d <= 127 and is rejected with an error otherwise.", "quantifier": "every 32-bit value", "why_tests_cant": "2^32 values, boundary points.", "anchors": ["pass_two.cpp: write_arg (ARG_IX_IY_OFFSET)"]}
{"id": "C14", "title": "Bit numbers", "statement": "The bit operand of BIT/SET/RES is placed in bits 3..5 of the final opcode byte without disturbing the other bits when it is in 0..7, and is rejected with an error otherwise.", "quantifier": "every 32-bit value and every template byte", "why_tests_cant": "2^32 values times 256 template bytes.", "anchors": ["pass_two.cpp: write_arg (ARG_BIT_NUM)"]}
{"id": "C15", "title": "RST vectors", "statement": "RST n emits the single byte C7h+n for the eight legal vectors and is rejected otherwise, whether or not n is already known on the first pass.", "quantifier": "every value, evaluated on the first or on the second pass", "why_tests_cant": "The second-pass path is only taken by forward references; tests rarely combine the two.", "anchors": ["pass_two.cpp: write_arg (ARG_RST), run_second_pass"]}
{"id": "C16", "title": "Forward references do not move code", "statement": "The place reserved on the first pass for an operand that cannot be evaluated yet has exactly the size of the operand written on the second pass, and the second pass changes no output byte outside the reserved places and neither the length of the output nor any label.", "quantifier": "every list of deferred operands and every assembler state at the start of the second pass", "why_tests_cant": "Layout errors require particular interleavings of deferred operands; the list is unbounded.", "anchors": ["pass_two.cpp: add_pass_two_expr, run_second_pass, write_arg"]}
{"id": "C17", "title": "Deferred operands get the value they would have had", "statement": "An operand deferred to the second pass is written, at the place where it occurred and with the program counter, line, file and anonymous-label position it had there, as the value its text has under the final symbol table.", "quantifier": "every operand text, deferral state and final symbol table", "why_tests_cant": "Needs every history between the two passes.", "anchors": ["pass_two.cpp: add_pass_two_expr, run_second_pass", "utils.cpp: expand_expr"]}
{"id": "C18", "title": "Instruction sizes are exact", "statement": "For every entry of the built-in Z80 and eZ80 instruction tables the number of bytes the assembler emits for the instruction (opcode bytes, operands, trailing byte) equals the size the assembler uses to advance the program counter.", "quantifier": "every entry of both tables, every operand value", "why_tests_cant": "Tests cover a few dozen of more than a thousand entries and a few operand values.", "anchors": ["opcodes.cpp", "opcodes_ez80.cpp", "pass_one.cpp: write_instruction_data"]}
{"id": "C19", "title": "Instruction encodings are right", "statement": "Every entry of the Z80 table encodes the Z80 instruction it is named after: an independent Z80 decoder applied to the emitted bytes gives back the mnemonic and operands.", "quantifier": "every table entry and every operand value", "why_tests_cant": "A wrong table byte survives unless its very entry is tested.", "anchors": ["opcodes.cpp: opcode_list"]}
{"id": "C20", "title": "Instruction selection", "statement": "The instruction written is the first table entry of the mnemonic whose operand pattern matches the operand text, where register names match without regard to case and spaces, and operands standing for a value are captured exactly; if none matches, an operand error is recorded and nothing is emitted.", "quantifier": "every mnemonic, operand text and table", "why_tests_cant": "Pattern matching over all texts.", "anchors": ["pass_one.cpp: match_opcode_args, handle_opcode_or_macro"]}
{"id": "C21", "title": "eZ80 suffixes", "statement": "The suffixes .SIS, .LIS, .SIL, .LIL (and the short forms S, L, IS, IL under the current ADL mode) emit the prefix bytes 40h, 49h, 52h, 5Bh and select 16- or 24-bit immediates accordingly.", "quantifier": "every suffix text and ADL mode", "why_tests_cant": "All strings; partial matches and case variants.", "anchors": ["pass_one.cpp: parse_suffix, write_instruction_data"]}
{"id": "C22", "title": "Output position and program counter advance together", "statement": "Every data directive and every accepted instruction advances the program counter by exactly the number of bytes it appends to the output.", "quantifier": "every directive, operand list and state", "why_tests_cant": "Operand lists are unbounded and failures part-way through are the interesting case.", "anchors": ["directive.cpp: handle_directive, parse_emit_string", "pass_one.cpp: write_instruction_data"]}
{"id": "C23", "title": "Labels take the program counter", "statement": "A label definition gives the label the program counter at that point; defining it again with a different value updates it and warns; labels never disappear.", "quantifier": "every statement sequence", "why_tests_cant": "Histories are unbounded.", "anchors": ["pass_one.cpp: run_first_pass_line_sec", "storage.cpp: add_label"]}
{"id": "C24", "title": "Error sessions nest and lose nothing", "statement": "Opening an error session, performing any error operations inside properly nested inner sessions and closing it leaves the errors of the outer sessions unchanged, except that replayed errors are handed to the enclosing session; the number of errors seen by a session is the number recorded in it.", "quantifier": "every properly nested sequence of session operations", "why_tests_cant": "Sequences are unbounded; leaks need particular nestings.", "anchors": ["errors.cpp: StartSPASMErrorSession, EndSPASMErrorSession, ReplaySPASMErrorSession, GetSPASMErrorSessionErrorCount"]}
{"id": "C25", "title": "Exit status only gets worse", "statement": "The process exit status never improves during a run, and it is at least the severity of every diagnostic shown.", "quantifier": "every execution", "why_tests_cant": "A property of all execution prefixes.", "anchors": ["utils.cpp: show_error, show_warning, show_fatal_error", "errors.cpp: EndSPASMErrorSession", "main.cpp: run_assembly"]}
{"id": "C26", "title": "No output after fatal errors", "statement": "If a fatal error was recorded in the first or in the second pass, the run ends with status 3 before any output file is written.", "quantifier": "every source text and file system", "why_tests_cant": "All programs; error paths of every directive.", "anchors": ["main.cpp: run_assembly", "errors.cpp: EndSPASMErrorSession"]}
{"id": "C27", "title": "Conditional assembly selects one branch", "statement": "In a properly nested #if/#ifdef/#ifndef ... #elif ... #else ... #endif group exactly the lines of the first branch whose condition is true (or of #else) are assembled, at any nesting depth; a missing #endif is reported.", "quantifier": "every nesting of conditional groups and every truth assignment", "why_tests_cant": "Unbounded nesting and branch combinations.", "anchors": ["preop.cpp: handle_preop, handle_preop_if, do_if, skip_until"]}
{"id": "C28", "title": "Define table behaves as a map", "statement": "After any sequence of define, redefine and undefine operations, looking up a name gives the most recent definition not undefined since, ignoring case; a name is never both a label and a define.", "quantifier": "every operation sequence and name", "why_tests_cant": "Sequences are unbounded.", "anchors": ["storage.cpp: add_define, set_define, remove_define, search_defines, add_label", "hash.cpp"]}
{"id": "C29", "title": "Macro arguments are scoped", "statement": "Argument bindings of a macro or function-style define are visible only during its expansion: afterwards the stack of argument sets is what it was before, whatever happened in between.", "quantifier": "every expression or statement and every state", "why_tests_cant": "Error paths and early returns are many; nesting unbounded.", "anchors": ["utils.cpp: parse_args", "storage.cpp: add_arg_set, remove_arg_set", "parser.cpp", "pass_one.cpp: handle_opcode_or_macro"]}
{"id": "C30", "title": "Symbol file is sorted and complete", "statement": "The symbol file lists every label exactly once, with its value, in case-insensitive alphabetical order.", "quantifier": "every label table", "why_tests_cant": "All tables; ordering faults need particular key sets.", "anchors": ["storage.cpp: write_labels"]}
{"id": "C31", "title": "Intel HEX output decodes to the program", "statement": "The Intel HEX text written for a hex file or inside an application file decodes, with an independent decoder, to exactly the assembled bytes at addresses 4000h.. of consecutive pages; each record's checksum makes its bytes sum to 0 modulo 256.", "quantifier": "every byte sequence of up to 256 pages (4194304 bytes; a calculator has fewer); above that the claim is false and proved false", "why_tests_cant": "All lengths and contents; page and record boundaries.", "anchors": ["export.cpp: intelhex"]}
{"id": "C32", "title": "Application length fields", "statement": "The length and page count stored in an application file equal the length of the emitted hex text and the number of 16 KB pages it fills.", "quantifier": "every application size", "why_tests_cant": "Off-by-one at each 16 KB boundary.", "anchors": ["export.cpp: makeapp"]}
{"id": "C33", "title": "Calculator file checksum", "statement": "The two bytes at the end of a calculator program file are the little-endian sum modulo 65536 of all bytes after the 55-byte header.", "quantifier": "every program, file type and name", "why_tests_cant": "All contents.", "anchors": ["export.cpp: makeprgm"]}
{"id": "C34", "title": "Calculator file length fields", "statement": "The data-length, variable-length and program-size fields of a calculator program file agree with the number of bytes that follow them.", "quantifier": "every program size, name and file type", "why_tests_cant": "Sizes are unbounded and every file type has its own arithmetic.", "anchors": ["export.cpp: makeprgm"]}
{"id": "C35", "title": "TI-83 squished hex", "statement": "The body of a TI-83 program is the upper-case hexadecimal text of the program bytes, from which the bytes can be recovered.", "quantifier": "every program", "why_tests_cant": "All byte sequences.", "anchors": ["export.cpp: makeprgm"]}
{"id": "C36", "title": "ROM image has fixed size", "statement": "A ROM image is the program followed by FFh bytes up to 524288 bytes, and larger programs are not silently accepted.", "quantifier": "every program size", "why_tests_cant": "All sizes.", "anchors": ["export.cpp: makerom"]}
{"id": "C37", "title": "Application header field search is memory-safe", "statement": "Searching and patching header fields of an application never touches memory outside the buffer holding it.", "quantifier": "every application image", "why_tests_cant": "Adversarial header contents are unboundedly many.", "anchors": ["export.cpp: findfield, findfield_flex, makeapp"]}
{"id": "C38", "title": "Application signature verifies", "statement": "The signature appended to an application satisfies the TI Rabin verification equation for the application's hash.", "quantifier": "every hash value", "why_tests_cant": "2^128 hash values.", "anchors": ["export.cpp: siggen"]}
{"id": "C39", "title": "Quoted string escaping", "statement": "Escaping a string and reducing the quoted result gives the string back.", "quantifier": "every string", "why_tests_cant": "All strings.", "anchors": ["utils.cpp: escape_string, reduce_string"]}
{"id": "C40", "title": "Expandable buffers behave as strings", "statement": "Every sequence of append and insert operations on an expandable buffer leaves the same text as on an ordinary string, whatever reallocation happens, and never writes outside the allocated block.", "quantifier": "every operation sequence", "why_tests_cant": "Sequences and growth points are unbounded.", "anchors": ["expand_buf.cpp"]}
{"id": "C41", "title": "Fast upper-casing is correct", "statement": "The word-at-a-time upper- and lower-case conversions change exactly the ASCII letters and leave every other byte alone.", "quantifier": "every byte string of every length and alignment", "why_tests_cant": "All 2^32 word values and every length.", "anchors": ["modp_ascii.cpp: modp_toupper_copy, modp_tolower_copy"]}
{"id": "C42", "title": "Argument splitting respects quotes and brackets", "statement": "Splitting an argument list at commas returns exactly the arguments it was joined from when each is balanced: commas inside parentheses or quotes do not split.", "quantifier": "every list of balanced arguments", "why_tests_cant": "Unbounded nesting and list length.", "anchors": ["utils.cpp: read_expr_impl, extract_arg_string"]}
{"id": "C43", "title": "Output names", "statement": "Replacing the extension of a path keeps everything before the last dot, appends the new extension, and yields a path whose extension is the new one.", "quantifier": "every path", "why_tests_cant": "All strings.", "anchors": ["utils.cpp: change_extension, fix_filename, is_abs_path"]}
{"id": "C44", "title": "Byte order mark is invisible", "statement": "A source file that begins with a UTF-8 byte order mark assembles exactly like the file without it, and a file without one is read unchanged.", "quantifier": "every file content", "why_tests_cant": "All contents, including partial marks.", "anchors": ["utils.cpp: get_file_contents"]}
{"id": "C45", "title": "User-defined instructions", "statement": "An instruction added with .addinstr emits the given bytes, least significant (rightmost) byte first, with the values of its operands behind them, and advances the program counter by the given size; it takes precedence over earlier instructions of the same name that its operands also fit, and the definition has no other effect.", "quantifier": "every byte string and size", "why_tests_cant": "All definitions.", "anchors": ["directive.cpp: handle_directive (.addinstr)", "pass_one.cpp: write_instruction_data"]}
{"id": "C46", "title": "Data directives emit their operands in order", "statement": ".db/.dw/.dl emit each operand in order with the width of the directive, strings as their characters; .fill/.block emit the given number of fill bytes.", "quantifier": "every operand list and count", "why_tests_cant": "Lists and counts are unbounded.", "anchors": ["directive.cpp: handle_directive, parse_emit_string"]}
{"id": "C47", "title": "Imported files are copied verbatim", "statement": "Importing a binary file appends exactly its bytes to the output and advances the program counter by its length.", "quantifier": "every file content", "why_tests_cant": "All contents and lengths.", "anchors": ["preop.cpp: handle_preop_import"]}
{"id": "C48", "title": "Origin and seek", "statement": ".org sets the program counter without emitting bytes; .seek moves the output position to the given offset and rejects offsets outside the output produced so far.", "quantifier": "every value", "why_tests_cant": "2^32 values.", "anchors": ["directive.cpp: handle_directive (.org, .seek)"]}
{"id": "C49", "title": "Statement separation", "statement": "Statements separated by backslash or newline are processed as the same sequence as if each were on its own line, with quoted separators and comments not splitting.", "quantifier": "every source text", "why_tests_cant": "All texts.", "anchors": ["utils.cpp: skip_to_code_line_end, next_code_line", "pass_one.cpp: run_first_pass"]}
{"id": "C50", "title": "Command line options set exactly their mode", "statement": "Each recognised option changes exactly the documented mode flags, in any order and combination.", "quantifier": "every option sequence", "why_tests_cant": "All sequences.", "anchors": ["main.cpp: main"]}
{"id": "C51", "title": "Mode and source do not change during assembly", "statement": "Assembling never changes the selected options, and it never uses more or fewer error sessions or argument sets after a statement than before it.", "quantifier": "every program", "why_tests_cant": "All programs.", "anchors": ["pass_one.cpp", "directive.cpp", "preop.cpp"]}
{"id": "C52", "title": "Every Z80 instruction can be written", "statement": "For every byte sequence that an independent Z80 decoder reads as an instruction there is a way to write it: the instruction table has an entry of that mnemonic and operand values for which the written operands are the decoded ones and which has bytes.", "quantifier": "every decodable byte sequence", "why_tests_cant": "A missing table entry is noticed only by someone who needs that very instruction.", "anchors": ["opcodes.cpp: opcode_list"]}
{"id": "C53", "title": "An instruction statement assembles to the instruction it names", "statement": "For every instruction statement of a Z80 source, the bytes appended to the output are the machine code of the mnemonic and operands written: decoding them by the processor's opcode map gives back the mnemonic and the operands with the values of the operand expressions, and the decoder stops right behind them.", "quantifier": "every mnemonic of the Z80, every operand list with complete parentheses and strings, every spelling in upper and lower case and with blanks, every value of the operand expressions, every state of the assembler", "why_tests_cant": "The texts, the values and the states are unbounded, and the selection of the table entry depends on all entries of the mnemonic.", "anchors": ["pass_one.cpp: handle_opcode_or_macro, match_opcode_args, write_instruction_data", "opcodes.cpp: all_opcodes", "pass_two.cpp: write_arg"]}
{"id": "C54", "title": "A program assembles to its bytes", "statement": "For a source text made of labels, equates, instructions, data, fills, origins and comments, a run ends with status 0, shows nothing and writes exactly one file whose contents are the bytes that the statements stand for, one after the other; every expression has the value that follows from the final addresses of the labels, whether these stand before or after it.", "quantifier": "every program text of this kind of any length, every command line that asks for it, every contents of the disk and of the memory", "why_tests_cant": "Programs are unbounded, and a byte can depend on any later statement through a forward reference.", "anchors": ["main.cpp: main, run_assembly", "pass_one.cpp: run_first_pass, run_first_pass_line_sec", "pass_two.cpp: run_second_pass", "export.cpp: write_file"]}
{"id": "C55", "title": "A macro call assembles the macro's lines with the arguments", "statement": "Calling a macro with one argument for each parameter assembles the lines of its body one after the other, at the current address, with each parameter standing for the value its argument has at the call (or for the name itself when it means nothing yet) and every other name keeping its meaning; after the call the parameters are gone, and the file, line and symbols are those of the caller plus what the body defined.", "quantifier": "every macro, every parameter list, every argument list, every body, every state of the assembler including calls inside calls", "why_tests_cant": "Bodies, argument texts and the nesting of calls are unbounded.", "anchors": ["pass_one.cpp: handle_opcode_or_macro", "preop.cpp: parse_arguments, handle_preop_macro", "storage.cpp: add_arg, add_arg_set, remove_arg_set", "parser.cpp: parse_args, eval"]}
{"id": "C56", "title": "A function call in an expression has the value of the function's text", "statement": "When a text with parameters is used in an expression, followed by one argument for each parameter in parentheses, its value is that of the text in which each parameter stands for the value of its argument (not for the argument's text) and every other name keeps its meaning; evaluation leaves the symbols and the parameters in force as they were.", "quantifier": "every function text, every list of parameters and argument expressions, every position of the call in an expression, every state of the assembler", "why_tests_cant": "Texts, arguments and surrounding expressions are unbounded.", "anchors": ["parser.cpp: parse_single_num, parse_num_full", "utils.cpp: parse_args, eval", "storage.cpp: add_arg_set, add_arg, remove_arg_set"]}
{"id": "C57", "title": "eZ80 instruction encodings are right", "statement": "With the eZ80 instruction set, every table entry encodes the eZ80 instruction it is named after: an independent eZ80 decoder applied to the suffix byte, if any, and the emitted bytes gives back the suffix, the mnemonic and the operands, with 24-bit or 16-bit immediates as the mode or the suffix says, and stops exactly at the end.", "quantifier": "every table entry, every suffix, both modes and every operand value", "why_tests_cant": "A wrong table byte survives unless its very entry is tested in its very mode.", "anchors": ["opcodes_ez80.cpp: opcode_list", "directive.cpp: parse_emit_string", "pass_one.cpp: write_arg"]}
{"id": "C58", "title": "Every eZ80 instruction can be written", "statement": "For every byte sequence that an independent eZ80 decoder reads as an instruction, with or without a size prefix, there is a way to write it: the eZ80 table has an entry of that mnemonic and operand values for which the written operands are the decoded ones and which has bytes.", "quantifier": "every decodable byte sequence in both modes", "why_tests_cant": "A missing table entry is noticed only by someone who needs that very instruction.", "anchors": ["opcodes_ez80.cpp: opcode_list"]}
{"id": "C59", "title": "Messages", "statement": "`.echo` with a list of operands prints one line: strings as their characters, expressions as the decimal number they have at the statement, with nothing between them. The lines of several statements come in the order of the statements. With `> \"file\"` the message is written to the file (relative to the directory of the source file) instead, with `>> \"file\"` it is appended. `.error` puts an error on record, so that the assembly fails. None of these statements places bytes, moves the address or changes a label or a define.", "quantifier": "every list of operands, every state", "why_tests_cant": "Operands are arbitrary expressions and strings, quoted again between the two passes.", "anchors": ["directive.cpp: handle_directive, parse_emit_string", "pass_two.cpp: add_pass_two_output, run_second_pass", "utils.cpp: escape_string"]}
{"id": "C60", "title": "Included bitmaps", "statement": "`#include` of an uncompressed bitmap file places at the current address the header that the settings ask for (`__BM_HDR`, `__BM_HDR_FMT`) and the picture as bit planes: the rows from the top down, each filled up to whole bytes and to `__BM_MIN_W` columns, a wider picture cut into strips; the bits of a pixel are those of its shade among `__BM_SHD`, which follows from its luminance; with `__BM_MSK` a further plane marks the pixels of the colour `__BM_MSK_RGB`, before or behind the others, inverted or not. If the last label has the current address, two labels with its name and `_WIDTH` and `_HEIGHT` get the size of the picture. The address moves by the number of bytes and nothing else changes.", "quantifier": "every bitmap file with any number of bits for a pixel, every setting, every state", "why_tests_cant": "Pictures, palettes and settings combine freely, and the shades are computed with rounded numbers for each of 2^24 colours.", "anchors": ["bitmap.cpp: handle_bitmap, handle_bitmap_internal, handle_bitmap_header, LUMINANCE", "preop.cpp: handle_preop_include"]}
{"id": "C61", "title": "Including a source file is like writing its text in its place", "statement": "`#include \"file\"` assembles the text of the file that is found under this name, with the labels, defines and address of the place where the statement stands; behind it assembly goes on in the including file with those the file leaves. A program with the statement and the same program with the lines of the file instead of it produce the same bytes.", "quantifier": "every program, every file, every nesting of inclusions", "why_tests_cant": "What a file defines and uses combines freely with what stands before and behind its inclusion, and files include files to any depth.", "anchors": ["preop.cpp: handle_preop_include", "pass_one.cpp: run_first_pass"]}
{"id": "C62", "title": "#macro defines a macro with its parameters and lines", "statement": "`#macro name(parameters)` \u2026 `#endmacro` makes the name a macro whose parameters are those in parentheses, in their order, and whose text is exactly the lines between the two statements, conditional groups inside included. No line of it is assembled, no other name changes, and assembly goes on behind `#endmacro` on the right line.", "quantifier": "every macro name, every list of up to 16 different parameters, every text of complete statements and conditional groups, every state", "why_tests_cant": "The text of a macro is arbitrary, with groups nested to any depth, comments and quotes that may contain the closing word.", "anchors": ["preop.cpp: handle_preop_macro", "preop.cpp: parse_arg_defs", "utils.cpp: skip_until", "storage.cpp: add_define, set_define"]}
{"id": "C63", "title": "Redefinitions, #defcont, eval and concat give the text they describe", "statement": "When a name is defined a second time, its own name in the new text stands for the text it had and the names of labels stand for their values, words inside strings stay as they are. `#defcont` adds the rest of its line to the text of the latest define, by the same rule. `#define name eval(expression)` gives the name the value the expression has at that point, whatever happens later to the names in it. `#define name concat(a, b, ...)` gives it the characters of its strings, the texts of the defines it names and the values of its expressions in decimal notation, one behind the other. No other name changes.", "quantifier": "every name, every text with any words, strings and labels, every old text, every expression, every list of arguments, every state", "why_tests_cant": "Texts are arbitrary sequences of words, strings and other characters, and any of the words may or may not be a label or the name itself.", "anchors": ["preop.cpp: handle_preop_define", "preop.cpp: handle_preop_defcont", "storage.cpp: set_define", "utils.cpp: expand_expr", "directive.cpp: handle_echo"]}
{"id": "C64", "title": "Text buffers collect lines and run() assembles them", "statement": "`buf(n)` selects one of ten text buffers, `clr()` empties the selected one, `wr(...)` adds a line made of its strings and of the values its expressions have at that point, and `run()` assembles the lines of the selected buffer, in their order, as those of a file, at the present address, and empties it. After any sequence of these statements the buffers hold exactly what was written since they were cleared; nothing else changes, and assembly goes on behind the statement on the right line.", "quantifier": "every sequence of statements, every list of operands, every text, every state", "why_tests_cant": "The number and order of the statements, the operands and the lines collected are arbitrary.", "anchors": ["pass_one.cpp: handle_opcode_or_macro", "directive.cpp: parse_emit_string", "pass_one.cpp: run_first_pass"]}
{"id": "C65", "title": ".assume selects the mode of the eZ80", "statement": "On an eZ80 `.assume adl = expression` selects ADL mode if the value is not 0 and Z80 mode if it is 0, for the instructions behind it; `.assume adl` selects ADL mode. On a Z80, and with any other word, it is an error and nothing changes.", "quantifier": "every expression, every spelling, every state", "why_tests_cant": "The value comes from an arbitrary expression in an arbitrary state.", "anchors": ["directive.cpp: handle_directive (ASSUME)"]}
{"id": "C66", "title": "A program has one result, and assembling it again reproduces it", "statement": "Running the program twice with the same command line, files and working directory gives the same exit status, the same messages in the same order and the same files, byte for byte: the output is determined by the input alone. It does not depend on what the memory allocated for the output held before or on random numbers, unless the program asks for a random character with '\\#'.", "quantifier": "every command line, every file system, every initial content of the output memory, every sequence of random numbers, every recursion depth", "why_tests_cant": "A test sees one content of uninitialised memory and one run; that no byte of it can reach a file or decide about a message is a statement about all pairs of runs.", "anchors": ["main.cpp: main, run_assembly", "pass_one.cpp: run_first_pass", "pass_two.cpp: run_second_pass", "export.cpp: write_file, makeprgm", "directive.cpp: write_out, handle_directive (SEEK)"]}
{"id": "C67", "title": "Program files hold exactly the program", "statement": "A program assembled to .73p, .83p, .8xp, .8xv or .86p is written as the file the calculator's link software expects, byte for byte: the mark of the format, the comment, the entry with its lengths and the name taken from the last part of the output path (spelt as the format asks, at most 8 characters), the program's bytes in the format's own wrapping, and the 16-bit sum of the entry. Nothing else is written and no byte of the program is changed, left out or added.", "quantifier": "every program that the format has room for, every output path, every one of these formats, every memory content", "why_tests_cant": "A test compares one file of one program; that every byte of every program arrives at its place with right lengths and checksum is a statement about all programs and all names.", "anchors": ["export.cpp: makeprgm, write_file", "main.cpp: main, run_assembly"]}
{"id": "C68", "title": "A well-formed application is signed, a malformed one refused", "statement": "An application (.8xk output) whose header has the length field, the program type field for the shareware key 0104, a page count field and a name field, and whose size leaves room for the signature, is always accepted: the file carries its name, and its hex text holds the program unchanged except for the length and the page count, which are filled in correctly, followed by a valid signature. An application that lacks one of these is never signed: the run ends with status 3, shows the error that names what is missing, and the file is empty.", "quantifier": "every application, with any fields in any order before and between the required ones, any contents, any size up to 255 pages; every hash function with 16-byte results", "why_tests_cant": "Headers are open-ended sequences of fields of any length; a test tries a few of them.", "anchors": ["export.cpp: makeapp, findfield, findfield_flex, intelhex, siggen", "main.cpp: run_assembly"]}
{"id": "C69", "title": ".option sets exactly the options it lists", "statement": "An .option statement defines, for every operand name=text, the name with two underscores before it as exactly that text (1 if the operand is a bare name). Spacing around the equals sign does not matter, a text may hold parentheses with commas, the last of several operands for a name wins, and no other define, label or byte of the program changes. An operand that does not start with a letter is reported as an invalid option and defines nothing.", "quantifier": "every list of operands of any length, every name and text, every spelling of the directive in upper and lower case, every state of the assembler", "why_tests_cant": "Operand lists are unbounded, and that nothing else changes is a statement about every other name.", "anchors": ["directive.cpp: handle_directive", "storage.cpp: add_define, set_define"]}
{"id": "C70", "title": ".show prints the define as it is", "statement": "A .show statement prints the name, the parameters and the text of the define or macro argument that its operand names at this point of the source; when the name is not defined yet, it prints the define that the name has at the end of the source, or reports that there is none. Apart from the printed line it changes nothing.", "quantifier": "every define with any parameters and text, every place in the source, defined before or after", "why_tests_cant": "A test shows a few defines at a few places; that every one is shown with all its parameters and that showing has no effect holds only by proof.", "anchors": ["directive.cpp: handle_directive", "pass_two.cpp: add_pass_two_output, run_second_pass, show_define"]}
{"id": "C71", "title": "The predefined names have their values", "statement": "Before the source is read, SPASM, SPASMVER, TRUE, FALSE, __BM_SHD, __BM_MSK_RGB, RGB, GETC, __LINE and __FILE are defined, whether or not case is distinguished, and no other name changes. __LINE in an expression is always the number of the line it stands in, __FILE the path of the file in quotes, and RGB(r, g, b) with values from 0 to 255 is the number with the bytes r, g and b.", "quantifier": "every line number up to 2^31-1, every file path, every three argument expressions, every state of the assembler", "why_tests_cant": "The texts of __LINE and __FILE depend on the place of each use; a test sees a few places.", "anchors": ["storage.cpp: init_storage, search_defines", "parser.cpp: parse_num, parse_f"]}
{"id": "C72", "title": "The statistics count what is assembled", "statement": "With -S a run writes the same file as without it and then shows how many labels there are, how many names have texts, and how many bytes of code and data there are; the two sizes add up to the size of the file. With -C it shows the size of the code and its least and greatest execution times: every instruction adds its length and its times, which are those of the table plus one for a prefix byte and, in ADL mode, what the table says.", "quantifier": "every program, every processor, every command line with -S or -C", "why_tests_cant": "The counters are updated by every statement in both processors and modes; a test sees a few programs.", "anchors": ["main.cpp: run_assembly", "pass_one.cpp: handle_opcode_match, write_instruction_data", "directive.cpp: parse_emit_string", "opcodes.cpp, opcodes_ez80.cpp"]}
{"id": "C73", "title": "A name in a data directive stands for the operands in its text", "statement": "If the text of a name is a list of operands of a data directive, with strings, numbers and such names again, then a data directive with the name as an operand places the bytes of these operands, in order, at the place of the name, and every problem with one of them is reported as if it had been written in place of the name.", "quantifier": "every data directive, every list of operands, every nesting of names less than 20 deep, every state of the assembler", "why_tests_cant": "The lists and the nesting of names are unbounded; a test sees a few of them.", "anchors": ["directive.cpp: parse_emit_string", "parser.cpp: parse_num, parse_num_full, extract_arg_string", "storage.cpp: search_defines"]}
{"id": "C74", "title": "Block comments and marker lines stand for nothing", "statement": "The lines from #comment to #endcomment, whatever is written between them, and the lines that begin with #region, #endregion, .list, .nolist or .end have no effect on what is assembled: a program with such lines gives the same files and messages as the program without them, apart from line numbers, and a comment that is not closed is reported.", "quantifier": "every program, every text of a comment or marker line, every place between two lines", "why_tests_cant": "The text of comments is arbitrary, and the scanner that looks for the end of it also counts conditional directives and quotes; a test sees a few texts.", "anchors": ["preop.cpp: handle_preop", "pass_one.cpp: skip_until, run_first_pass", "directive.cpp: handle_directive"]}
{"id": "C75", "title": "Several images in one bitmap", "statement": "With `__BM_MAP` set to two numbers, the columns and rows of images in a bitmap, between which there is a comma, an x or a blank, `#include` of the bitmap writes one image after the other, column by column from the left and each column from the top down: each with its header and its bit planes, without the margin of `__BM_PAD` pixels on each side. With a third number, at most that many images are written. If the last label has the current address, labels with its name give the width and height of the images, the address of each image (`name1`, `name2`, ...) and their number (`name_COUNT`), and no other label changes. Afterwards `__BM_MAP` is 0, so that the map holds for one bitmap only; no other define changes.", "quantifier": "every bitmap file, every map, margin, header format and setting, every state", "why_tests_cant": "Maps, margins, limits and settings combine freely with pictures of any size, and each image gets its own label whose address depends on the sizes of all images before.", "anchors": ["bitmap.cpp: handle_bitmap, handle_bitmap_internal, handle_bitmap_header", "preop.cpp: handle_preop_include"]}
{"id": "C76", "title": "Asking for statistics changes nothing else", "statement": "With -S in front of the other arguments the program ends in the same way and with the same status as without it, writes the same files with the same bytes and shows the same messages in the same order; if it comes to its end, one text with statistics may follow.", "quantifier": "every command line, every content of the file system, every program, also wrong ones, and every way a run can end", "why_tests_cant": "It compares two runs of every program; a test compares them for a few.", "anchors": ["main.cpp: main, run_assembly", "pass_one.cpp, pass_two.cpp, parser.cpp, directive.cpp, preop.cpp, storage.cpp, export.cpp: everything that could look at the mode"]}
{"id": "C77", "title": "#define with parameters makes a function", "statement": "`#define name(parameters) text` on a line makes the name a function with these parameters and this text, whatever it was before; expressions behind it that mention the name mean that function. No other define, label or anything else changes, and no message is shown. Without a text an error is shown, and the name keeps the text it had.", "quantifier": "every name, every list of at most 16 different parameters, every text of a line and what follows it, every state in which the name is free for it", "why_tests_cant": "Names, parameter lists, blanks, quotation marks and earlier definitions combine freely.", "anchors": ["preop.cpp: handle_preop_define", "parser.cpp: parse_arg_defs, parse_arguments", "storage.cpp: add_define, set_define"]}
{"id": "C78", "title": "Asking for the symbol file changes nothing else", "statement": "If the program comes to its end with -L in front of the other arguments, it comes to its end without it too, with a status that is not worse. The output file has the same bytes and the same messages are shown in the same order; with -L the symbol file is written in between, and only what evaluating the names for it shows stands beside it.", "quantifier": "every command line, every content of the file system and every program, also wrong ones, that comes to its end", "why_tests_cant": "It compares two runs of every program, and the symbol file evaluates every name the program ever defined, any of which could leave something behind; a test compares a few runs.", "anchors": ["main.cpp: main, run_assembly", "storage.cpp: write_labels, write_labels_callback, write_defines_callback", "export.cpp: write_file"]}
