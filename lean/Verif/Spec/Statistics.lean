import Verif.Spec.Message

/-
Specification vocabulary: the statistics that are shown at the end of a run.
-/

namespace Spasm.Spec

/-- What -S shows: how many labels and names with texts there are, and how many bytes of code and of data. The sum is shown
without multiples of 2^32. -/
def statistics (labels defines code data : Nat) : List Nat :=
  b! "Number of labels: " ++ decimalDigits labels ++ [10] ++ b! "Number of defines: " ++ decimalDigits defines ++ [10] ++
    b! "Code size: " ++ decimalDigits code ++ [10] ++ b! "Data size: " ++ decimalDigits data ++ [10] ++
    b! "Total size: " ++ decimalDigits ((code + data) % 4294967296) ++ [10]

/-- What -C shows: how many bytes the instructions have, and how long they take. -/
def timings (size least most : Nat) : List Nat :=
  b! "Size: " ++ decimalDigits size ++ [10] ++ b! "Min. execution time: " ++ decimalDigits least ++ [10] ++
    b! "Max. execution time: " ++ decimalDigits most ++ [10]

end Spasm.Spec
