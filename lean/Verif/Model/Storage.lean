import Verif.Model.Scan

/-
storage.cpp and hash.cpp: symbol tables, macro argument sets, anonymous labels.
-/

namespace Spasm

namespace Table
variable {α : Type}

/-- hash_lookup, hash.cpp:36-43 -/
def lookup (t : Table α) (k : Str) : Option α := (t.find? (fun p => p.1 == k)).map (·.2)

/-- hash_insert, hash.cpp:26-29: std::map operator[] assignment -/
def insert (k : Str) (v : α) : Table α → Table α
  | [] => [(k, v)]
  | (k', v') :: t =>
    if k == k' then (k', v) :: t
    else if strLt k k' then (k, v) :: (k', v') :: t
    else (k', v') :: insert k v t

/-- hash_remove, hash.cpp:51-60 -/
def erase (k : Str) (t : Table α) : Table α := t.filter (fun p => p.1 != k)

/-- Assignment through a pointer to a stored value. -/
def update (k : Str) (f : α → α) (t : Table α) : Table α :=
  t.map (fun p => if p.1 == k then (p.1, f p.2) else p)

end Table

/-- The key under which a name is stored and searched: storage.cpp:277, 348, 388, 453, 567, 636, 683 -/
def keyOf (s : S) (name : Str) : Str := if s.caseSens then name else strup name

/-- A pointer to a define_t: in the i-th argument set from the top, or in the global table. -/
inductive DRef
  | arg (i : Nat) (key : Str)
  | glob (key : Str)
  deriving DecidableEq, Repr

/-- The first argument set, from the top of the stack, that binds the key; storage.cpp:354-360 -/
def findArg (key : Str) : List (Table Define) → Nat → Option (DRef × Define)
  | [], _ => none
  | t :: ts, i =>
    match t.lookup key with
    | some d => some (.arg i key, d)
    | none => findArg key ts (i + 1)

/-- search_local_defines, storage.cpp:343-374 -/
def searchLocal (name : Str) (s : S) : Option Define :=
  (findArg (keyOf s name) s.argSets 0).map (·.2)

/-- search_labels, storage.cpp:680-691 -/
def searchLabels (name : Str) (s : S) : Option Label := s.labels.lookup (keyOf s name)

/-- Update the i-th argument set. -/
def updAt (f : Table Define → Table Define) : Nat → List (Table Define) → List (Table Define)
  | _, [] => []
  | 0, t :: ts => f t :: ts
  | i + 1, t :: ts => t :: updAt f i ts

/-- `*ref`: read a define through a pointer. -/
def derefDef (r : DRef) (s : S) : Option Define :=
  match r with
  | .arg i k => (s.argSets[i]?).bind (fun t => t.lookup k)
  | .glob k => s.defines.lookup k

/-- Write a define through a pointer. -/
def writeDef (r : DRef) (f : Define → Define) (s : S) : S :=
  match r with
  | .arg i k => { s with argSets := updAt (Table.update k f) i s.argSets }
  | .glob k => { s with defines := s.defines.update k f }

/-- `"__FILE"` contents, storage.cpp:418-431: the quoted file name with backslashes doubled. -/
def fileDefine (f : Str) : Str :=
  [34] ++ f.flatMap (fun c => if c == 92 then [92, 92] else [c]) ++ [34]

/-- The contents refreshed by search_defines for `__LINE` and `__FILE`, storage.cpp:409-436 -/
def refreshed (key : Str) (s : S) : Option Str :=
  if key == b! "__LINE" then some (fmtInt s.lineNum)
  else if key == b! "__FILE" then some (fileDefine s.currFile)
  else none

/-- search_defines, storage.cpp:382-445. set_define is called with redefined = false, so it only
stores the contents (storage.cpp:479-484). -/
def searchDefines (name : Str) (local_ : Bool := true) : M (Option (DRef × Define)) := fun s =>
  let key := keyOf s name
  let inArgs := if local_ then findArg key s.argSets 0 else none
  let found := match inArgs with
    | some p => some p
    | none => (s.defines.lookup key).map (fun d => (DRef.glob key, d))
  match found with
  | none => .ok none s
  | some (r, d) =>
    match refreshed key s with
    | none => .ok (some (r, d)) s
    | some c => .ok (some (r, { d with contents := some c }))
        (writeDef r (fun d => { d with contents := some c }) s)

/-- add_define, storage.cpp:267-340. Result: the define and whether it already existed; none is NULL. -/
def addDefine (name : Str) (local_ : Bool := true) : M (Option (DRef × Bool)) := do
  if name.isEmpty then
    setError E.NAME_EXPECTED
    pure none
  else do
    let s ← M.get
    let key := keyOf s name
    match s.labels.lookup key with
    | some _ => do
      showError .labelConflict
      pure none
    | none => do
      match ← searchDefines key local_ with
      | some (r, _) => do
        M.modify (writeDef r (fun d => { d with args := [] }))
        pure (some (r, true))
      | none => do
        M.modify fun s => { s with
          defines := s.defines.insert key
            { name := key, contents := none, args := [], line := s.lineNum, file := s.currFile } }
        pure (some (.glob key, false))

/-- remove_define, storage.cpp:452-462 -/
def removeDefine (name : Str) : M Unit :=
  M.modify fun s => { s with defines := s.defines.erase (keyOf s name) }

/-- add_reusable, storage.cpp:513-516; the array has 4096 elements and no bounds check. -/
def addReusable : M Unit := fun s =>
  if s.currReusable < 0 ∨ s.currReusable ≥ 4096 then .stop (.ub .outOfBounds) s
  else .ok () { s with
    reusables := fun i => if i = s.currReusable then s.pc else s.reusables i,
    currReusable := s.currReusable + 1, totalReusables := s.currReusable + 1 }

/-- get_curr_reusable, storage.cpp:522-524 -/
def getCurrReusable (s : S) : Int := s.currReusable - 1

/-- set_curr_reusable, storage.cpp:529-531 -/
def setCurrReusable (i : Int) : M Unit := M.modify fun s => { s with currReusable := i + 1 }

/-- search_reusables, storage.cpp:536-543; the `unsigned int` result is stored into an `int`. -/
def searchReusables (i : Int) : M Int := fun s =>
  if i = -1 ∨ i ≥ s.totalReusables then
    match showError (.misc 1) s with
    | .ok _ s => .ok 0 s
    | .stop e s => .stop e s
  else if i < 0 then .stop (.ub .outOfBounds) s
  else .ok (toI32 (s.reusables i)) s

/-- add_label, storage.cpp:558-609; none is NULL. The result is the key of the label. -/
def addLabel (name : Str) (value : Int) : M (Option Str) := do
  let s ← M.get
  if s.mode.codeCounter then pure none
  else do
    let key := keyOf s name
    match ← searchDefines key with
    | some _ => do
      showError .labelConflict
      pure none
    | none => do
      match s.labels.lookup key with
      | some l =>
        if value ≠ l.value then do
          M.modify fun s => { s with labels := s.labels.update key (fun l => { l with value := value }) }
          showWarning .labelRedefined
          pure (some key)
        else pure (some key)
      | none => do
        M.modify fun s => { s with
          labels := s.labels.insert key ⟨key, value, s.lineNum, s.currFile⟩ }
        pure (some key)

/-- add_arg_set, storage.cpp:617-620 -/
def addArgSet : M Unit := M.modify fun s => { s with argSets := [] :: s.argSets }

/-- add_arg, storage.cpp:628-652. The only caller passes the set it has just added, which is the top
one again after the (balanced) evaluation of the argument. -/
def addArg (name : Str) (value : Option Str) : M Unit := M.modify fun s =>
  let key := keyOf s name
  { s with argSets := updAt (Table.insert key
      { name := key, contents := value, args := [], line := s.lineNum, file := s.currFile }) 0 s.argSets }

/-- remove_arg_set, storage.cpp:660-671: does nothing for NULL. The set to remove is the top one. -/
def removeArgSet (present : Bool) : M Unit :=
  M.when present (M.modify fun s => { s with argSets := s.argSets.tail })

end Spasm
