import Verif.Model.Basic

/-
expand_buf.cpp: growable character buffers over an explicit allocated block.
-/

namespace Spasm

/-- expand_buf_t, expand_buf.h: `block` is the malloc'ed memory (its length is `size`), `len` is
`end - start`. realloc may move the block: pointers are offsets, so that is invisible here. -/
structure EBuf where
  block : List Nat
  len : Nat
  deriving DecidableEq, Repr

/-- eb_init, expand_buf.cpp:12-22; the argument `none` is -1. malloc'ed memory has arbitrary contents:
`junk i` is the byte at offset i. -/
def ebInit (size : Option Nat) (junk : Nat → Nat) : EBuf :=
  ⟨(List.range (size.getD 64)).map junk, 0⟩

/-- `while (need > size) size *= 2`, expand_buf.cpp:56-59. The fuel `need` is always enough. -/
def ebGrow (need : Nat) : Nat → Nat → Nat
  | 0, size => size
  | f + 1, size => if need > size then ebGrow need f (size * 2) else size

/-- A store into the block; none is a write outside it. -/
def ebStore (b : List Nat) (i v : Nat) : Option (List Nat) := if i < b.length then some (b.set i v) else none

/-- `for (p = end - 1; p >= ptr; p--) *(p + length) = *p`, expand_buf.cpp:71-76: `n` bytes are still to
be moved, from offset `ptr + n - 1` down. -/
def ebShift (ptr length : Nat) : Nat → List Nat → Option (List Nat)
  | 0, b => some b
  | n + 1, b =>
    match b[ptr + n]? with
    | none => none
    | some v =>
      match ebStore b (ptr + n + length) v with
      | none => none
      | some b => ebShift ptr length n b

/-- `strncpy(ptr, text, length)`: copies up to the NUL of the text, then writes zeros. -/
def ebCopy (ptr : Nat) : Nat → List Nat → List Nat → Option (List Nat)
  | 0, _, b => some b
  | n + 1, [], b =>
    match ebStore b ptr 0 with
    | none => none
    | some b => ebCopy (ptr + 1) n [] b
  | n + 1, c :: t, b =>
    match ebStore b ptr c with
    | none => none
    | some b => ebCopy (ptr + 1) n t b

/-- eb_insert, expand_buf.cpp:37-82. `offset = none` is -1, `length = none` is -1; the text is not
NULL. Result: the returned offset and the buffer; none is a memory error. -/
def ebInsert (b : EBuf) (offset : Option Nat) (text : Str) (length : Option Nat) (junk : Nat → Nat) :
    Option (Int × EBuf) :=
  let ptr := offset.getD b.len
  let n := length.getD text.length
  if n = 0 then some (0, b)
  else
    let size := b.block.length
    let size' := if b.len + n > size then ebGrow (b.len + n) (b.len + n) (if size = 0 then 1 else size) else size
    let block := b.block ++ (List.range (size' - size)).map junk
    match (if ptr < b.len then ebShift ptr n (b.len - ptr) block else some block) with
    | none => none
    | some block =>
      match ebCopy ptr n text block with
      | none => none
      | some block => some ((match offset with | some o => (o : Int) | none => -1) + n, ⟨block, b.len + n⟩)

/-- eb_append, expand_buf.cpp:25-27 -/
def ebAppend (b : EBuf) (text : Str) (length : Option Nat) (junk : Nat → Nat) : Option (Int × EBuf) :=
  ebInsert b none text length junk

/-- eb_overwrite, expand_buf.cpp:91-99 -/
def ebOverwrite (b : EBuf) (offset : Nat) (text : Str) (length : Option Nat) : Option EBuf :=
  match ebCopy offset (length.getD text.length) text b.block with
  | none => none
  | some block => some ⟨block, b.len⟩

/-- The copying loop of eb_erase, expand_buf.cpp:108-109: `n` more steps allowed. -/
def ebEraseLoop (len length : Nat) : Nat → Nat → List Nat → Option (List Nat)
  | 0, _, b => some b
  | n + 1, i, b =>
    if i + length < len then
      match b[i + length]? with
      | none => none
      | some v =>
        match ebStore b i v with
        | none => none
        | some b => ebEraseLoop len length n (i + 1) b
    else some b

/-- eb_erase, expand_buf.cpp:106-113 -/
def ebErase (b : EBuf) (offset length : Nat) : Option EBuf :=
  match ebEraseLoop b.len length length offset b.block with
  | none => none
  | some block => some ⟨block, b.len - length⟩

/-- eb_extract, expand_buf.cpp:131-133: strndup stops at a NUL. -/
def ebExtract (b : EBuf) : Str := (b.block.take b.len).takeWhile (fun c => c != 0)

end Spasm
