import Verif.Lemmas.SymOnly
import Verif.Props.Run
import Verif.Props.Statistics

/-
C78: asking for the symbol file changes nothing else.
-/

namespace Spasm.Props
open Spasm Spec

/-- C78: -L in front of any command line, for any files. If the run comes to its end, the run without -L comes to its end, with a status
that is not worse. What the run with -L shows and writes is the same, in the same order, except for one block: what evaluating the names
shows, the symbol file, and the problems found then. Proved for runs that write an output file, in which no session number was used
twice and no preprocessor line was run inside an expression. -/
theorem C78_symbol_file_only_partial (fuel : Nat) (md5 : List Nat → List Nat) (fs : Str → Option (List Nat)) (mem rand : Nat → Nat)
    (cwd : Str) (args : List Str) (h : args ≠ []) (c' : Nat) (s' : S)
    (e : spasm fuel md5 fs mem rand cwd (b! "-L" :: args) = .ok c' s')
    (hp : s'.ranPreop = false) (hs : s'.stale = false) (hn : s'.mode.normal = true) :
    ∃ c s, spasm fuel md5 fs mem rand cwd args = .ok c s ∧ c ≤ c' ∧
      (s'.log = s.log ∨ ∃ before said output lines shown after, s.log = before ++ after ∧
        s'.log = before ++ (said ++ [.wrote (changeExtension output (b! "lab")) lines] ++ shown) ++ after) :=
  besides_mainBody fuel md5 cwd args h (startState fs mem rand) c' s' e hp hs hn

/-- A program with a label, an equate and an unknown name: with -L the same output file and status, and the symbol file before it. -/
example : let p := asm (b! "a: .db 30,a\nb = 7\n .dw a\n ld a,q\n") [b! "a.asm"]
    let q := asm (b! "a: .db 30,a\nb = 7\n .dw a\n ld a,q\n") [b! "-L", b! "a.asm"]
    (match q with | .ok c' s' => !s'.ranPreop && !s'.stale && s'.mode.normal && c' == 0 | _ => false) = true ∧
    p.state.log = [.printed E.LABEL_NOT_FOUND false, .wrote (b! "a.bin") [30, 0, 0, 0, 62, 0]] ∧
      q.state.log = [.printed E.LABEL_NOT_FOUND false] ++ [.wrote (b! "a.lab") (b! "__BM_MSK_RGB = $FF00\n__BM_SHD = $0002\n" ++
        b! "__LINE = $0000\nA = $0000\nB = $0007\nFALSE = $0000\nSPASM = $0001\nSPASMVER = $0002\nTRUE = $0001\n")] ++ [.wrote (b! "a.bin") [30, 0, 0, 0, 62, 0]] := by
  decide +kernel

/-- The same with -S. -/
example : let p := asm (b! "a: .db 30,a\n ld a,a\n") [b! "-S", b! "a.asm"]
    let q := asm (b! "a: .db 30,a\n ld a,a\n") [b! "-L", b! "-S", b! "a.asm"]
    (match q with | .ok c' s' => !s'.ranPreop && !s'.stale && s'.mode.normal && c' == 0 | _ => false) = true ∧
    p.state.log = [.wrote (b! "a.bin") [30, 0, 127], .text (statistics 1 10 1 2)] ∧
      q.state.log.drop 1 = p.state.log ∧ q.state.log.length = 3 := by
  decide +kernel

/-- A program that includes bytes where the value of a name is wanted, for the two theorems below. -/
def importing (file : Str) (args : List Str) : Res Nat :=
  spasm 9 (fun _ => [])
    (fun p => if p = b! "/a.asm" then some (b! "#macro m()\n#import \"" ++ file ++ b! "\"\n5\n#endmacro\n#define y m()\n nop\n")
      else if p = b! "/d" then some [1, 2, 3] else none)
    (fun _ => 0) (fun _ => 0) (b! "/") args

/-- C78 fails in general: to write the symbol file the program evaluates every define, and a macro with `#import` used in one adds
its bytes to the output file. -/
theorem C78_fails_output :
    (match importing (b! "/d") [b! "/a.asm"] with
     | .ok 0 s => s.log == [.wrote (b! "/a.bin") [0]]
     | _ => false) = true ∧
    (match importing (b! "/d") [b! "-L", b! "/a.asm"] with
     | .ok 0 s => s.log.getLast? == some (.wrote (b! "/a.bin") [0, 1, 2, 3])
     | _ => false) = true := by decide +kernel

/-- C78 fails in general: with a relative path the same program passes a null pointer for the path when the symbol file is asked for, because
the list of directories was given up after the first pass. Without -L it is assembled. -/
theorem C78_fails_crash :
    (match importing (b! "d") [b! "/a.asm"] with
     | .ok 0 s => s.log == [.wrote (b! "/a.bin") [0]]
     | _ => false) = true ∧
    (match importing (b! "d") [b! "-L", b! "/a.asm"] with
     | .stop (.ub .nullDeref) s => s.log == []
     | _ => false) = true := by decide +kernel

end Spasm.Props
