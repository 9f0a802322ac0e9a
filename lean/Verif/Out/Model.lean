/-!
# What is printed, and where: src/strace.c (printleader, line_ended, droptcb, maybe_switch_tcbs,
print_event_exit), src/syscall.c (print_syscall_resume, syscall_entering_trace, syscall_exiting_trace),
src/stage_output.c

Text is abstracted to tokens.  Each token also says which tracee it is about (`who`); the code does not print
that, it is there for stating properties.  Not modelled: -c, stack traces, -e read/write dumps, output errors.
-/
namespace Strace.Out

/-- pieces of text -/
inductive Kind
  /-- the leader of a line: pid, time, ... -/
  | lead (pid : Nat)
  /-- name of the call, parenthesis, and the arguments printed on entry -/
  | call (n : Nat)
  /-- `<... name resumed>` -/
  | resumed (n : Nat)
  /-- arguments printed on exit -/
  | rest
  /-- closing parenthesis and result -/
  | ret
  /-- ` <unfinished ...>` -/
  | unfin
  /-- ` <unfinished ...>` (maybe) and `) = ?` -/
  | never
  /-- a line of its own: signal, exit, ... -/
  | note (k : Nat)
  /-- ` <detached ...>` -/
  | detached
  /-- ` <pid changed to N ...>` -/
  | pidChanged (pid : Nat)
  | nl
  deriving DecidableEq, Repr

/-- a piece of text and whom it is about -/
structure Tok where
  who : Nat
  kind : Kind
  deriving DecidableEq, Repr

/-- the parts of `struct tcb` that matter here.  `out` is the file `outf` writes to (`real_outf` when staged),
`staged` the memory stream. -/
structure Rec where
  pid : Nat
  out : Nat
  /-- `curcol`, counting tokens instead of characters -/
  col : Nat
  staged : Option (List Tok)
  insys : Bool
  filtered : Bool
  reprint : Bool
  n : Nat
  deriving Repr

/-- `enum` of statuses, src/number_set.h -/
inductive Status
  | successful | failed | unfinished | unavailable | detached
  deriving DecidableEq, Repr

/-- settings -/
structure Cfg where
  /-- `output_separately` -/
  sep : Bool
  /-- `!is_complete_set(status_set, NUMBER_OF_STATUSES)` -/
  staging : Bool
  /-- `status_set` -/
  set : Status → Bool
  /-- QUIET_THREAD_EXECVE -/
  quiet : Bool
  /-- width of a leader; 0 if it is empty -/
  lw : Nat

/-- the records, the files, `current_tcp`, `printing_tcp` -/
structure St where
  recs : Nat → Rec
  files : Nat → List Tok
  cur : Option Nat
  prt : Option Nat

/-- change of a record -/
def St.upd (st : St) (i : Nat) (f : Rec → Rec) : St :=
  { st with recs := fun j => if j = i then f (st.recs i) else st.recs j }

/-- change of a file -/
def St.app (st : St) (k : Nat) (l : List Tok) : St :=
  { st with files := fun j => if j = k then st.files k ++ l else st.files j }

/-- writing to the `outf` of record `i` -/
def St.write (st : St) (i : Nat) (l : List Tok) : St :=
  match (st.recs i).staged with
  | some buf => st.upd i fun r => { r with staged := some (buf ++ l) }
  | none => st.app (st.recs i).out l

/-- `tprintf_string` and the like, src/strace.c:742-785: to the current tracee; `w` is the width -/
def St.put (st : St) (who : Nat) (k : Kind) (w : Nat) : St :=
  match st.cur with
  | none => st
  | some c => (st.write c [⟨who, k⟩]).upd c fun r => { r with col := r.col + w }

/-- `set_current_tcp`, src/strace.c:829-837 -/
def St.setCur (st : St) (i : Nat) : St := { st with cur := some i }

/-- `line_ended` for `current_tcp`, src/strace.c:819-822 -/
def St.endCur (st : St) : St :=
  match st.cur with
  | none => st
  | some c => st.upd c fun r => { r with col := 0 }

/-- `line_ended` for `printing_tcp`, src/strace.c:823-826 -/
def St.endPrt (st : St) : St :=
  match st.prt with
  | none => st
  | some p => { st.upd p (fun r => { r with col := 0 }) with prt := none }

/-- `line_ended`, src/strace.c:816-827 -/
def St.lineEnded (st : St) : St := st.endCur.endPrt

/-- the text that closes the line of record `j`, src/strace.c:870-874 and 3561-3566 -/
def St.closeLine (st : St) (j : Nat) : St :=
  (((st.setCur j).put j .unfin 1).put j .nl 1).upd j fun r => { r with col := 0 }

/-- whether `printleader` closes the line of record `j`, src/strace.c:860-863 -/
def St.mustClose (c : Cfg) (st : St) (i j : Nat) : Bool :=
  decide ((st.recs j).col ≠ 0) && (decide (j = i) || (!c.sep && (st.recs j).staged.isNone))

/-- src/strace.c:856-876 -/
def St.cut (c : Cfg) (st : St) (i : Nat) : St :=
  match (if c.sep = true then some i else st.prt) with
  | none => st
  | some j => if st.mustClose c i j = true then st.closeLine j else st

/-- `printleader`, src/strace.c:850-950 -/
def St.leader (c : Cfg) (st : St) (i : Nat) : St :=
  (({ st.cut c i with prt := some i, cur := some i } : St).upd i fun r => { r with col := 0 }).put i
    (.lead (st.recs i).pid) c.lw

/-- `print_syscall_resume`, src/syscall.c:743-762 -/
def St.resume (c : Cfg) (st : St) (i : Nat) : St :=
  { (if ((!c.sep && decide (st.prt ≠ some i) && (st.recs i).staged.isNone) || (st.recs i).reprint) = true then
      ((st.upd i fun r => { r with reprint := false }).leader c i).put i (.resumed (st.recs i).n) 1
     else st) with prt := some i }

/-- `strace_open_memstream`, src/stage_output.c:24-47 -/
def St.openMem (st : St) (i : Nat) : St := st.upd i fun r => { r with staged := some [] }

/-- `strace_close_memstream`, src/stage_output.c:49-76 -/
def St.closeMem (st : St) (i : Nat) (publish : Bool) : St :=
  match (st.recs i).staged with
  | none => st
  | some buf =>
    if publish = true then (st.upd i fun r => { r with staged := none }).app (st.recs i).out buf
    else st.upd i fun r => { r with staged := none }

/-- a new tracee: `alloctcb`, `after_successful_attach`; `out` is its file -/
def St.start (st : St) (i pid out : Nat) : St :=
  st.upd i fun _ => ⟨pid, out, 0, none, false, false, false, 0⟩

/-- the entry of a call: src/syscall.c:593-662; `filtered` says whether the call is filtered out -/
def St.enter (c : Cfg) (st : St) (i n : Nat) (filtered : Bool) : St :=
  if filtered = true then (st.setCur i).upd i fun r => { r with insys := true, filtered := true, n := n }
  else
    ((((if c.staging = true then (st.setCur i).openMem i else st.setCur i).upd i fun r => { r with n := n, filtered := false }).leader c i).put
      i (.call n) 1).upd i fun r => { r with insys := true }

/-- the entry of a call that could not be read: src/syscall.c:577-590, 664-668 -/
def St.enterErr (c : Cfg) (st : St) (i n : Nat) : St :=
  ((((st.setCur i).upd i fun r => { r with n := n }).leader c i).put i (.call n) 1).upd i
    fun r => { r with insys := true }

/-- the exit of a call: src/syscall.c:714-741, 787-1046.  `res` is none if the result could not be read. -/
def St.exit (c : Cfg) (st : St) (i : Nat) (res : Option Status) : St :=
  (if (st.recs i).filtered = true then st.setCur i
   else
     match res with
     | none =>
       (if c.staging = true then
          ((((st.setCur i).resume c i).put i .ret 1).put i .nl 1).closeMem i (c.set .unavailable)
        else (((st.setCur i).resume c i).put i .ret 1).put i .nl 1).lineEnded
     | some s =>
       if c.staging = true then
         (if c.set s = true then
            ((((((st.setCur i).resume c i).put i .rest 1).closeMem i true).put i .ret 1).put i .nl 1).lineEnded
          else ((((st.setCur i).resume c i).put i .rest 1).closeMem i false).lineEnded)
       else (((((st.setCur i).resume c i).put i .rest 1).put i .ret 1).put i .nl 1).lineEnded).upd i
    fun r => { r with insys := false }

/-- a line of its own: `print_signalled`, `print_exited`, `print_stopped`, `update_personality`,
src/strace.c:3466-3474, 3485-3491, 3497-3509, src/syscall.c:256-261 -/
def St.note (c : Cfg) (st : St) (i k : Nat) : St :=
  (((((st.setCur i).leader c i).put i (.note k) 1).put i .nl 1)).lineEnded

/-- src/strace.c:3559-3568 -/
def St.cutOther (c : Cfg) (st : St) (i : Nat) : St :=
  match st.prt with
  | none => st
  | some j =>
    if c.sep = false ∧ j ≠ i ∧ (st.recs j).col ≠ 0 ∧ (st.recs j).staged.isNone = true then
      (st.closeLine j).setCur i
    else st

/-- `print_event_exit`, src/strace.c:3551-3593 -/
def St.eventExit (c : Cfg) (st : St) (i : Nat) : St :=
  if (st.recs i).insys = false ∨ (st.recs i).filtered = true then st.setCur i
  else
    (if c.staging = true then
       (((((st.setCur i).cutOther c i).resume c i).put i .never 1).put i .nl 1).closeMem i (c.set .unfinished)
     else ((((st.setCur i).cutOther c i).resume c i).put i .never 1).put i .nl 1).lineEnded

/-- the closing text of `droptcb`, src/strace.c:1142-1156 -/
def St.dropText (c : Cfg) (st : St) (i : Nat) (publish : Bool) : St :=
  if (if c.sep = true then (st.recs i).col ≠ 0 else st.prt = some i ∧ (st.recs i).col ≠ 0) ∧ publish = true then
    st.write i [⟨i, .detached⟩, ⟨i, .nl⟩]
  else st

/-- `droptcb`, src/strace.c:1107-1167 -/
def St.drop (c : Cfg) (st : St) (i : Nat) : St :=
  let st' := (if c.staging = true then st.closeMem i (c.set .detached) else st).dropText c i
    (if c.staging = true then c.set .detached else true)
  { st'.upd i (fun _ => ⟨0, 0, 0, none, false, false, false, 0⟩) with
    cur := if st'.cur = some i then none else st'.cur
    prt := if st'.prt = some i then none else st'.prt }

/-- src/strace.c:3397-3405 -/
def St.pidChanged (st : St) (t pid : Nat) : St :=
  if (st.recs t).col ≠ 0 then st.write t [⟨t, .pidChanged pid⟩, ⟨t, .nl⟩] else st

/-- src/strace.c:3406-3421: the records exchange files and streams; the thread gets the leader's column -/
def St.swap (st : St) (l t : Nat) : St :=
  (st.upd t fun r => { r with
      out := (st.recs l).out, staged := (st.recs l).staged, col := (st.recs l).col }).upd l fun r => { r with
      out := (st.recs t).out, staged := (st.recs t).staged, col := 0 }

/-- src/strace.c:3427-3441 -/
def St.superseded (c : Cfg) (st : St) (t k : Nat) : St :=
  (if c.staging = true then
     (if c.quiet = true then st else (((st.leader c t).put t (.note k) 1).put t .nl 1).lineEnded).openMem t
   else (if c.quiet = true then st else (((st.leader c t).put t (.note k) 1).put t .nl 1).lineEnded)).upd t
    fun r => { r with reprint := true }

/-- `maybe_switch_current_tcp`, src/strace.c:3375-3456: leader `l`, thread `t`; note `k` says that the thread
supersedes -/
def St.switch (c : Cfg) (st : St) (l t k : Nat) : St :=
  let pid := (st.recs l).pid
  let st' := ((((st.setCur l).pidChanged t pid).swap l t).drop c l).upd t fun r => { r with pid := pid }
  (st'.superseded c t k).setCur t

/-- events that print -/
inductive Op
  | start (i pid out : Nat)
  | enter (i n : Nat) (filtered : Bool)
  | enterErr (i n : Nat)
  | exit (i : Nat) (res : Option Status)
  | note (i k : Nat)
  | eventExit (i : Nat)
  | drop (i : Nat)
  | switch (l t k : Nat)
  deriving DecidableEq, Repr

def St.step (c : Cfg) (st : St) : Op → St
  | .start i pid out => st.start i pid out
  | .enter i n f => st.enter c i n f
  | .enterErr i n => st.enterErr c i n
  | .exit i res => st.exit c i res
  | .note i k => st.note c i k
  | .eventExit i => st.eventExit c i
  | .drop i => st.drop c i
  | .switch l t k => st.switch c l t k

def St.run (c : Cfg) (st : St) (l : List Op) : St := l.foldl (St.step c) st

/-- nothing traced, nothing printed -/
def St.init : St := ⟨fun _ => ⟨0, 0, 0, none, false, false, false, 0⟩, fun _ => [], none, none⟩

end Strace.Out
