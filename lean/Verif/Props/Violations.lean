import Verif.Spec.Run
import Verif.Props.Run

/-
Whole runs that show where the full statement of a property fails, beside the partial theorems about it.
-/

namespace Spasm.Props
open Spasm Spec

/-- C02 fails for binary numbers: a percent sign with a negative number of one digit, or with nothing behind it, is accepted, as
are a dollar sign, or an h at the end, together with 0x. -/
theorem C02_bad_binary_accepted :
    (asm (b! " .db %-1\n") [b! "a.asm"]).state.log = [.wrote (b! "a.bin") [254]] ∧
    (asm (b! " .db %\n") [b! "a.asm"]).state.log = [.wrote (b! "a.bin") [0]] ∧
    (asm (b! " .db 0x1Fh\n") [b! "a.asm"]).state.log = [.wrote (b! "a.bin") [31]] := by decide +kernel

/-- C18 fails for instructions that the program defines with a wrong size: the label behind one byte of code is at address 3. -/
theorem C18_fails_addinstr :
    (asm (b! ".addinstr foo \"\" 11 3 nop 1\n foo\nx: .db x\n") [b! "a.asm"]).state.log = [.wrote (b! "a.bin") [0x11, 3]] ∧
    (asm (b! ".addinstr foo \"\" 11 1 nop 1\n foo\nx: .db x\n") [b! "a.asm"]).state.log = [.wrote (b! "a.bin") [0x11, 1]] := by decide +kernel

/-- C20 fails for registers: blanks inside of them are ignored. -/
theorem C20_blank_in_register :
    (asm (b! " ld h l,5\n") [b! "a.asm"]).state.log = [.wrote (b! "a.bin") [0x21, 5, 0]] ∧
    (asm (b! " ld hl,5\n") [b! "a.asm"]).state.log = [.wrote (b! "a.bin") [0x21, 5, 0]] := by decide +kernel

/-- C27 fails for groups with two `#else`: two branches are assembled. -/
theorem C27_second_else :
    (asm (b! "#if 1\n .db 1\n#else\n .db 2\n#else\n .db 3\n#endif\n") [b! "a.asm"]).state.log = [.wrote (b! "a.bin") [1, 3]] ∧
    exitStatus (asm (b! "#if 1\n .db 1\n#else\n .db 2\n#else\n .db 3\n#endif\n") [b! "a.asm"]) = some 0 := by decide +kernel

/-- C27 fails without a blank in front of the condition: the statement is not known. -/
theorem C27_no_blank :
    (asm (b! "#if(1)\n .db 1\n#endif\n") [b! "a.asm"]).state.log = [.printed 273 false, .printed 279 false] ∧
    (asm (b! "#if (1)\n .db 1\n#endif\n") [b! "a.asm"]).state.log = [.wrote (b! "a.bin") [1]] := by decide +kernel

/-- C49 fails behind `#define`: the statement behind the backslash becomes part of the text, and is lost. -/
theorem C49_define_swallows :
    (asm (b! "#define a 1\\ .db 2\n .db a\n") [b! "a.asm"]).state.log = [.wrote (b! "a.bin") [1]] ∧
    (asm (b! "#define a 1\n .db 2\n .db a\n") [b! "a.asm"]).state.log = [.wrote (b! "a.bin") [2, 1]] := by decide +kernel

/-- C73 fails for labels that are defined later: written out the operands are assembled, as the text of a name they stop the
program. A sum that begins with a string is undefined behaviour. -/
theorem C73_fails_later_label :
    (asm (b! "#define msg l,1\n .db msg\nl:\n") [b! "a.asm"]).state.log = [.printed 259 false] ∧
    (asm (b! " .db l,1\nl:\n") [b! "a.asm"]).state.log = [.wrote (b! "a.bin") [2, 1]] ∧
    (match asm (b! "#define msg \"ab\"+1\n .db msg\n") [b! "a.asm"] with
     | .stop (.ub .uninitialised) _ => true
     | _ => false) = true := by decide +kernel

/-- C77 fails for definitions that replace another one: labels in the text get the value they have at that point, and the name
itself its old text. -/
theorem C77_label_frozen :
    (asm (b! "x = 1\n#define f(a) a\n#define f(a) a+x\nx = 2\n .db f(0)\n") [b! "a.asm"]).state.log =
      [.warning .labelRedefined, .wrote (b! "a.bin") [1]] ∧
    (asm (b! "x = 1\n#define f(a) a+x\nx = 2\n .db f(0)\n") [b! "a.asm"]).state.log =
      [.warning .labelRedefined, .wrote (b! "a.bin") [2]] := by decide +kernel

/-- C50 fails for -A together with -D: the name is stored in capitals, so that the program does not find it. Without -A it does. -/
theorem C50_fails_case_define :
    (asm (b! " .db Foo\n") [b! "-A", b! "-DFoo=7", b! "a.asm"]).state.log = [.printed 262 false, .wrote (b! "a.bin") [0]] ∧
    (asm (b! " .db FOO\n") [b! "-A", b! "-DFoo=7", b! "a.asm"]).state.log = [.wrote (b! "a.bin") [7]] ∧
    (asm (b! " .db Foo\n") [b! "-DFoo=7", b! "a.asm"]).state.log = [.wrote (b! "a.bin") [7]] := by decide +kernel

/-- C54 fails for `!=` directly behind a name: the exclamation mark is taken for a part of the name. -/
theorem C54_not_equal_behind_name :
    (asm (b! "foo = 4\n .db foo!=3\n") [b! "a.asm"]).state.log = [.printed 262 false, .wrote (b! "a.bin") [0]] ∧
    (asm (b! "foo = 4\n .db foo != 3\n") [b! "a.asm"]).state.log = [.wrote (b! "a.bin") [1]] := by decide +kernel

/-- C56 fails for `eval` in an expression: what follows it is evaluated before what precedes it. For a function that gives the
value of its argument it is the other way round. -/
theorem C56_eval_takes_rest :
    (asm (b! " .db 2*eval(1+2)+1\n") [b! "a.asm"]).state.log = [.wrote (b! "a.bin") [8]] ∧
    (asm (b! "#define f(x) (x)\n .db 2*f(1+2)+1\n") [b! "a.asm"]).state.log = [.wrote (b! "a.bin") [7]] := by decide +kernel

/-- C56 fails for `getc`, which should give a byte of a file: its position is not found, and for a file that does not exist the
value is undefined. -/
theorem C56_getc_fails :
    (asm (b! " ld a,getc(\"a.asm\",2)\n") [b! "a.asm"]).state.log = [.printed 259 false] ∧
    (match asm (b! " ld a,getc(\"no.txt\",2)\n") [b! "a.asm"] with
     | .stop (.ub .uninitialised) _ => true
     | _ => false) = true := by decide +kernel

/-- C59 fails for a message of 255 letters: nothing of it is shown, and the assembly fails. -/
theorem C59_fails_long :
    (match asm (b! " .echo \"" ++ List.replicate 255 65 ++ b! "\"\n") [b! "a.asm"] with
     | .ok 3 s => s.log == [.fatal .exprTooLong, .text [48, 10], .wrote (b! "a.bin") []]
     | _ => false) = true := by decide +kernel

/-- C63 fails for `#defcont` behind an `#undef` of the latest define: the program reads a define that is gone. -/
theorem C63_fails_undef :
    (match asm (b! "#define x 1\n#undef x\n#defcont +2\n .db x\n") [b! "a.asm"] with
     | .stop (.ub .nullDeref) _ => true
     | _ => false) = true := by decide +kernel

/-- C72 fails for -C: labels are not entered, so that the program is assembled with other values, without a message and with exit
status 0; an equate makes the program end with status 3, also without a message. -/
theorem C72_fails_counter :
    (asm (b! " .org 100\nl: jp l\n") [b! "a.asm"]).state.log = [.wrote (b! "a.bin") [195, 100, 0]] ∧
    (match asm (b! " .org 100\nl: jp l\n") [b! "-C", b! "a.asm"] with
     | .ok 0 s => s.log == [.wrote (b! "a.bin") [195, 0, 0],
         .text (b! "Size: 3\nMin. execution time: 10\nMax. execution time: 10\n")]
     | _ => false) = true ∧
    (match asm (b! "l = 5\n jp l\n") [b! "-C", b! "a.asm"] with
     | .stop (.exit 3) s => s.log == []
     | _ => false) = true := by decide +kernel

end Spasm.Props
