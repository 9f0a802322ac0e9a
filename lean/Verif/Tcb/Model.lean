/-!
# The table of tracees: src/strace.c (alloctcb, droptcb, pid2tcb, maybe_switch_tcbs) and src/xmalloc.c

A record is a slot of the table; records are never moved (src/strace.c:983-987), so a pointer to a record
is its slot number.  A record carries a payload `α` standing for everything except the pid; `z` is the
payload of a zeroed record.  `none` is "bug in alloctcb" or an out-of-memory exit.
-/
namespace Strace.Tcb

/-- `die_out_of_memory` condition and size of `xreallocarray`, src/xmalloc.c:75-90; `H` is `HALF_SIZE_T`,
`size_t` has `H * H` values -/
def reallocBytes (H nmemb size : Nat) : Option Nat :=
  if (nmemb ||| size) ≥ H ∧ size ≠ 0 ∧ nmemb * size % (H * H) / size ≠ nmemb then none
  else some (nmemb * size % (H * H))

/-- `grow_memb` of `xgrowarray`, src/xmalloc.c:98-104; `isNull` says that the pointer is NULL,
`SIZEOF_LONG` is 8 -/
def growMemb (isNull : Bool) (nmemb membSize : Nat) : Nat :=
  if isNull then (if nmemb ≠ 0 then 0 else (128 + membSize - 1) / membSize)
  else nmemb / 2 + 1

/-- `xgrowarray`, src/xmalloc.c:92-112: the new number of members and of bytes -/
def growArray (H : Nat) (isNull : Bool) (nmemb membSize : Nat) : Option (Nat × Nat) :=
  if (nmemb + growMemb isNull nmemb membSize) % (H * H) < nmemb then none
  else
    match reallocBytes H ((nmemb + growMemb isNull nmemb membSize) % (H * H)) membSize with
    | none => none
    | some b => some ((nmemb + growMemb isNull nmemb membSize) % (H * H), b)

/-- a record: pid 0 marks a free one -/
structure Slot (α : Type) where
  pid : Nat
  data : α

/-- `tcbtab`, `tcbtabsize` (the length), `nprocs`, and the static cache of `pid2tcb` -/
structure St (α : Type) where
  tab : List (Slot α)
  nprocs : Nat
  cache : Nat → Option Nat

variable {α : Type}

/-- `expand_tcbtab`, src/strace.c:980-1000: a pointer takes 8 bytes -/
def expand (z : α) (st : St α) : Option (St α) :=
  match growArray (2 ^ 32) st.tab.isEmpty st.tab.length 8 with
  | none => none
  | some (n, _) => some { st with tab := st.tab ++ List.replicate (n - st.tab.length) ⟨0, z⟩ }

/-- the search of `alloctcb`, src/strace.c:1054-1056, from slot `i` on -/
def findFree : List (Slot α) → Nat → Option Nat
  | [], _ => none
  | s :: l, i => if s.pid = 0 then some i else findFree l (i + 1)

/-- src/strace.c:1057-1070: fill the free record -/
def occupy (st : St α) (i pid : Nat) (a : α) : St α :=
  { st with tab := st.tab.set i ⟨pid, a⟩, nprocs := st.nprocs + 1 }

/-- src/strace.c:1051-1052 -/
def ensure (z : α) (st : St α) : Option (St α) :=
  if st.nprocs = st.tab.length then expand z st else some st

/-- `alloctcb`, src/strace.c:1048-1074; `a` is what the caller puts into the new record -/
def alloctcb (z : α) (st : St α) (pid : Nat) (a : α) : Option (St α × Nat) :=
  match ensure z st with
  | none => none
  | some st' =>
    match findFree st'.tab 0 with
    | none => none
    | some i => some (occupy st' i pid a, i)

/-- `droptcb`, src/strace.c:1107-1167, as far as the table is concerned -/
def droptcb (z : α) (st : St α) (i : Nat) : St α :=
  match st.tab[i]? with
  | none => st
  | some s => if s.pid = 0 then st else { st with tab := st.tab.set i ⟨0, z⟩, nprocs := st.nprocs - 1 }

/-- the search of `pid2tcb`, src/strace.c:3192-3196, from slot `i` on -/
def findPid (pid : Nat) : List (Slot α) → Nat → Option Nat
  | [], _ => none
  | s :: l, i => if s.pid = pid then some i else findPid pid l (i + 1)

/-- the cached pointer, if it is of use, src/strace.c:3186-3190 -/
def cached (st : St α) (pid : Nat) : Option Nat :=
  match st.cache (pid % 1024) with
  | none => none
  | some i =>
    match st.tab[i]? with
    | none => none
    | some s => if s.pid = pid then some i else none

/-- `pid2tcb`, src/strace.c:3176-3199 (negative pids are not modelled) -/
def pid2tcb (st : St α) (pid : Nat) : St α × Option Nat :=
  if pid = 0 then (st, none)
  else
    match cached st pid with
    | some i => (st, some i)
    | none =>
      match findPid pid st.tab 0 with
      | none => (st, none)
      | some i => ({ st with cache := fun k => if k = pid % 1024 then some i else st.cache k }, some i)

/-- src/strace.c:3423-3426: drop the leader's record, give its pid to the thread's -/
def rename (z : α) (st : St α) (leader thread pid : Nat) : St α :=
  match (droptcb z st leader).tab[thread]? with
  | none => droptcb z st leader
  | some s => { droptcb z st leader with tab := (droptcb z st leader).tab.set thread ⟨pid, s.data⟩ }

/-- `maybe_switch_tcbs`, src/strace.c:3375-3445, as far as the table is concerned: `leader` is the record of
`pid`, `oldPid` is the event message.  Kernels before 3.0 are not modelled. -/
def switchTcbs (z : α) (st : St α) (leader pid oldPid : Nat) : St α × Option Nat :=
  if oldPid = 0 ∨ oldPid = pid ∨ oldPid > 2 ^ 32 - 1 then (st, none)
  else
    match pid2tcb st oldPid with
    | (st', none) => (st', none)
    | (st', some t) => (rename z st' leader t pid, some t)

/-- what happens to the table -/
inductive Op (α : Type)
  /-- a wait status for `pid`: looked up, allocated if unknown (src/strace.c:3767-3773) -/
  | seen (pid : Nat) (a : α)
  /-- the tracee `pid` is gone or detached: looked up and dropped -/
  | gone (pid : Nat)
  /-- `pid` reports an exec that was made by thread `oldPid` (src/strace.c:4092) -/
  | exec (pid oldPid : Nat)
  /-- the record of `pid` is changed -/
  | update (pid : Nat) (f : α → α)

/-- one operation -/
def step (z : α) (st : St α) : Op α → Option (St α)
  | .seen pid a =>
    match pid2tcb st pid with
    | (st', some _) => some st'
    | (st', none) =>
      match alloctcb z st' pid a with
      | none => none
      | some (st'', _) => some st''
  | .gone pid =>
    match pid2tcb st pid with
    | (st', some i) => some (droptcb z st' i)
    | (st', none) => some st'
  | .exec pid old =>
    match pid2tcb st pid with
    | (st', some i) => some (switchTcbs z st' i pid old).1
    | (st', none) => some st'
  | .update pid f =>
    match pid2tcb st pid with
    | (st', none) => some st'
    | (st', some i) =>
      match st'.tab[i]? with
      | none => none
      | some s => some { st' with tab := st'.tab.set i ⟨s.pid, f s.data⟩ }

/-- a history -/
def steps (z : α) : St α → List (Op α) → Option (St α)
  | st, [] => some st
  | st, o :: os =>
    match step z st o with
    | none => none
    | some st' => steps z st' os

/-- nothing traced yet -/
def init : St α := ⟨[], 0, fun _ => none⟩

end Strace.Tcb
