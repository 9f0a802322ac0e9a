import Verif.StringToUint.Model
/-
Model of the fault injection schedule: src/filter_qualify.c (the `when=` parser) and src/syscall.c
(`tamper_with_syscall_entering`, `tamper_with_syscall_exiting`, `get_syscall_result`,
`syscall_exiting_finish`).
-/
namespace Strace.Inject
open StringToUint

/-- src/defs.h:262 INJECT_LAST_INF -/
def lastInf : Nat := 0xffff

/-- src/defs.h:255-260 `struct inject_opts`, the schedule (all `uint16_t`). -/
structure Sched where
  first : Nat
  last : Nat
  step : Nat
deriving Repr, DecidableEq

/-- src/filter_qualify.c:305-327: the part of `when=` after F or F..L; `rest` is the text at `end`. -/
def parseStep (first last : Nat) (rest : List Nat) : Option Sched :=
  match rest with
  | [] => if last = lastInf then some ⟨first, last, 0⟩ else some ⟨first, last, 1⟩
  | _ :: val =>
    if val = [] then some ⟨first, last, 1⟩
    else match stringToUintUpto val 0xffff with
      | none => none
      | some v => if v < 1 then none else some ⟨first, last, v.toNat⟩

/-- src/filter_qualify.c:283-303: the part of `when=` after F. -/
def parseLast (first : Nat) (rest : List Nat) : Option Sched :=
  match rest with
  | c :: t =>
    if c = 46 then
      match t with
      | c2 :: val =>
        if c2 ≠ 46 then none
        else match stringToUintEx val 0xffff (some [43]) with
          | none => none
          | some (v, rest') =>
            if v < first ∨ v = lastInf then none else parseStep first v.toNat rest'
      | [] => none
    else parseStep first lastInf (c :: t)
  | [] => parseStep first lastInf []

/-- src/filter_qualify.c:267-327: `when=`; the argument is the text after the prefix, `none` is
"return false". -/
def parseWhen (val : List Nat) : Option Sched :=
  match stringToUintEx val 0xffff (some [43, 46]) with
  | none => none
  | some (v, rest) => if v < 1 then none else parseLast v.toNat rest

/-! ### The counters -/

/-- `--x` on a `uint16_t` -/
def dec16 (x : Nat) : Nat := (x + 65535) % 65536

/-- src/syscall.c:485-499: the counters of `tamper_with_syscall_entering`; the Boolean is "this
invocation is due". -/
def tick (o : Sched) : Sched × Bool :=
  if o.first = 0 ∨ o.last = 0 then (o, false)
  else
    let last := if o.last ≠ lastInf then dec16 o.last else o.last
    let first := dec16 o.first
    if first ≠ 0 then (⟨first, last, o.step⟩, false)
    else (⟨o.step, last, o.step⟩, true)

/-- src/defs.h:291 `tcp->inject_vec[pers]` of every tracee: NULL (`none`) or a private copy of the
rules, by syscall number. -/
abbrev Vecs := Nat → Nat → Option (Nat → Sched)

/-- src/syscall.c:477-499 `tamper_with_syscall_entering` for tracee `pid` entering system call `scno`
under personality `pers`; `rules` is the global `inject_vec` (its length test `scno_in_range` holds
for the numbers that are in the injection set).  Returns whether the invocation is due. -/
def tamper (rules : Nat → Nat → Sched) (st : Vecs) (pid pers scno : Nat) : Vecs × Bool :=
  let v := (st pid pers).getD (rules pers)
  let r := tick (v scno)
  ((fun q p => if q = pid ∧ p = pers then some (fun i => if i = scno then r.1 else v i) else st q p),
    r.2)

/-! ### What is reported at exit -/

/-- src/defs.h:354,369: TCB_TAMPERED and TCB_TAMPERED_NO_FAIL -/
structure Flags where
  tampered : Bool
  nofail : Bool
deriving Repr, DecidableEq

/-- One system call as the exit code sees it.  `inj` is what the due rule asks for: `none`, or
`some (isRetval, value)`; `subst` is INJECT_F_SYSCALL; `setOk` is the success of `arch_set_scno`; `raw`
is the value the kernel leaves in the return register; `neverFails` is SYSCALL_NEVER_FAILS. -/
structure Call where
  inj : Option (Bool × Nat)
  subst : Bool
  setOk : Bool
  raw : Int
  neverFails : Bool
deriving Repr, DecidableEq

structure Res where
  uError : Nat
  uRval : Int
deriving Repr, DecidableEq

/-- `is_negated_errno` (src/negated_errno.h), MAX_ERRNO_VALUE = 4095 (defs.h:264) -/
def isNegatedErrno (r : Int) : Bool := decide (-4095 ≤ r ∧ r < 0)

/-- src/syscall.c:1537-1552 `get_error`; `sci` is `ptrace_syscall_info_is_exit()`, whose `is_error` is
set by the kernel for exactly the negated errno values (kernel contract).  Without it, the
architectures without a dedicated error register use `is_negated_errno` (linux/x86_64/get_error.c). -/
def getError (sci checkErrno : Bool) (raw : Int) : Res :=
  if sci then
    if isNegatedErrno raw then ⟨(-raw).toNat, -1⟩ else ⟨0, raw⟩
  else
    if checkErrno && isNegatedErrno raw then ⟨(-raw).toNat, -1⟩ else ⟨0, raw⟩

/-- src/syscall.c:1554-1579 `set_error`, register writes succeeding -/
def setError (sci neverFails : Bool) (r : Res) (e : Nat) : Res :=
  if e = r.uError ∨ e > 4095 then r
  else if sci then ⟨e, -1⟩ else getError false (!neverFails) (-(e : Int))

/-- src/syscall.c:1581-1603 `set_success`, register writes succeeding -/
def setSuccess (sci neverFails : Bool) (v : Nat) : Res :=
  if sci then ⟨0, v⟩ else getError false (!neverFails) v

/-- src/syscall.c:505-513: the flags after the entry of the call -/
def entering (f : Flags) (c : Call) : Flags :=
  match c.inj with
  | none => f
  | some _ => if c.setOk then ⟨true, f.nofail || c.subst⟩ else f

/-- what the user sees: the error/return value, the "(INJECTED)" note, the "Failed to tamper" message -/
structure Report where
  res : Res
  injected : Bool
  failed : Bool
deriving Repr, DecidableEq

/-- src/syscall.c:1524-1535 `get_syscall_result`, 537-569 `tamper_with_syscall_exiting`,
764-774 `print_injected_note` -/
def exiting (sci : Bool) (f : Flags) (c : Call) : Report :=
  let r := getError sci ((!c.neverFails || f.tampered) && !f.nofail) c.raw
  if !f.tampered then ⟨r, false, false⟩
  else if (r.uError == 0) ^^ f.nofail then ⟨r, true, true⟩
  else match c.inj with
    | some (true, v) => ⟨setSuccess sci c.neverFails v, true, false⟩
    | some (false, v) => ⟨setError sci c.neverFails r v, true, false⟩
    | none => ⟨setError sci c.neverFails r 0, true, false⟩

/-- src/syscall.c:1031-1045 `syscall_exiting_finish`: TCB_TAMPERED is cleared, TCB_TAMPERED_NO_FAIL is
not -/
def finish (f : Flags) : Flags := { f with tampered := false }

/-- one complete system call of a tracee -/
def call (sci : Bool) (f : Flags) (c : Call) : Flags × Report :=
  let f1 := entering f c
  (finish f1, exiting sci f1 c)

/-- the flags after a history of calls of a fresh tracee -/
def after (sci : Bool) (h : List Call) : Flags :=
  h.foldl (fun f c => (call sci f c).1) ⟨false, false⟩

end Strace.Inject
