import Verif.Xlat.Model
/-
Decoders of words that pack several parts: what they print, as a list of tokens.

The tables are parameters.  `st` is the style chosen with `-X` (`xlat_verbosity`).  The format of a
number (decimal, hex, octal) is left out.  Constants are those of Linux on x86_64.
-/
namespace Strace.Pack
open Strace.Xlat

/-- the printed pieces -/
inductive Tok
  | p (x : Piece)
  | shl               -- src/print_fields.h:222-226 `tprint_shift`
  | call (f : String) -- src/print_fields.h `tprints_arg_begin`: the name and "("
  | comma             -- `tprint_arg_next`
  | endc              -- `tprint_arg_end`: ")"
deriving Repr, DecidableEq

def ps (l : List Piece) : List Tok := l.map Tok.p

/-- PRINT_VAL_U, PRINT_VAL_X, PRINT_VAL_D -/
def num (v : BitVec 64) : List Tok := [.p (.num v)]

/-- src/print_fields.h:233-237 `tprint_flags_or` -/
def bar : List Tok := [.p .bar]

/-- `tprints_comment` -/
def note (s : String) : List Tok := ps (comment (some s))

/-- src/xlat.c:489-520 `print_xlat_ex` with a string and without PXF_DEFAULT_STR; `print_xlat` and
`print_xlat_u` are it with the name of the constant -/
def lit (st : Verb) (v : BitVec 64) (s : String) : List Tok :=
  match st with
  | .abbrev => [.p (.name s)]
  | .raw => num v
  | .verbose => num v ++ note s

/-- `printxvals_ex`, what it prints -/
def xval (v : BitVec 64) (dflt : Option String) (st : Verb) (ts : List Table) : List Tok :=
  ps (printxvals v dflt st ts).1

/-- `printflags_ex`, what it prints -/
def flagsT (v : BitVec 64) (dflt : Option String) (st : Verb) (ts : List Table) : List Tok :=
  ps (printflags v dflt st ts).1

/-- src/signal.c:235-246 `printsignal` (`str` is the result of `signame`) -/
def signalT (st : Verb) (v : BitVec 64) (str : Option String) : List Tok :=
  (if str = none ∨ st ≠ .abbrev then num v else []) ++
    (match str with
     | none => []
     | some s => if st = .raw then [] else if st = .verbose then note s else [.p (.name s)])

/-- a comment around a symbolic form, after the number: src/mem.c:59-66, 99-100 and the same lines in
the functions below.  `bare` is the text in symbolic form. -/
def styled (st : Verb) (v : BitVec 64) (bare : List Tok) : List Tok :=
  match st with
  | .raw => num v
  | .abbrev => bare
  | .verbose => num v ++ [.p .open_] ++ bare ++ [.p .close]

/-- src/mem.c:56-101 `print_mmap_flags` (MAP_TYPE is 0xf, `mask` is the `unsigned int` 0xfc000000, so
that `~mask` is 0x3ffffff) -/
def mmapFlags (st : Verb) (t : Table) (flags : BitVec 64) : List Tok :=
  styled st flags <|
    let ty := flags &&& 0xf#64
    let rest := flags &&& ~~~0xf#64
    let huge := rest &&& 0xfc000000#64
    let fl := rest &&& 0x3ffffff#64
    xval ty (some "MAP_???") .abbrev [t] ++
    (if fl ≠ 0 then bar ++ flagsT fl none .abbrev [t] else []) ++
    (if huge ≠ 0 then bar ++ num (huge >>> 26) ++ [.shl] ++ [.p (.name "MAP_HUGE_SHIFT")] else [])

/-- src/memfd_create.c:24-62, the flags argument -/
def memfdFlags (st : Verb) (t : Table) (arg : BitVec 32) : List Tok :=
  let flags := arg.setWidth 64
  if flags = 0 then num 0
  else styled st flags <|
    let huge := flags &&& 0xfc000000#64
    let fl := flags &&& 0x3ffffff#64
    (if fl ≠ 0 ∨ huge = 0 then flagsT fl (some "MFD_???") .abbrev [t] else []) ++
    (if huge ≠ 0 then
      (if fl ≠ 0 then bar else []) ++ num (huge >>> 26) ++ [.shl] ++ [.p (.name "MFD_HUGE_SHIFT")]
     else [])

/-- src/mount.c:26-32, 55-64, the flags argument (`~MS_MGC_MSK` is the `unsigned int` 0xffff) -/
def mountFlags (st : Verb) (t : Table) (arg : BitVec 64) : List Tok :=
  let old := decide (arg &&& 0xffff0000#64 = 0xc0ed0000#64)
  let flags := if old = true then arg &&& 0xffff#64 else arg
  (if old = true then lit st 0xc0ed0000#64 "MS_MGC_VAL" ++ (if flags ≠ 0 then bar else []) else []) ++
  (if flags ≠ 0 ∨ old = false then flagsT flags (some "MS_???") st [t] else [])

/-- src/futex.c:114-146, the last argument of FUTEX_WAKE_OP -/
def futexOp (st : Verb) (ops cmps : Table) (val3 : BitVec 32) : List Tok :=
  let v := val3.setWidth 64
  let op := printxvals ((v >>> 28) &&& 7#64) none st [ops]
  let cmp := printxvals ((v >>> 24) &&& 0xf#64) none st [cmps]
  (if (v >>> 28) &&& 8#64 ≠ 0 then lit st 8 "FUTEX_OP_OPARG_SHIFT" ++ [.shl] ++ num 28 ++ bar else []) ++
  ps op.1 ++ [.shl] ++ num 28 ++ (if op.2 = 0 then note "FUTEX_OP_???" else []) ++ bar ++
  num ((v >>> 12) &&& 0xfff#64) ++ [.shl] ++ num 12 ++ bar ++
  ps cmp.1 ++ [.shl] ++ num 24 ++ (if cmp.2 = 0 then note "FUTEX_OP_CMP_???" else []) ++ bar ++
  num (v &&& 0xfff#64)

/-- src/clone.c:149, 157, 172-182, the flags argument of `clone`; `~CSIGNAL` is an `int` and is
extended with its sign -/
def cloneFlags (st : Verb) (t : Table) (signame : BitVec 64 → Option String) (arg : BitVec 64) : List Tok :=
  let flags := arg &&& ~~~0xff#64
  let sig := arg &&& 0xff#64
  if flags ≠ 0 then
    flagsT flags (some "CLONE_???") st [t] ++ (if sig ≠ 0 then bar ++ signalT st sig (signame sig) else [])
  else signalT st sig (signame sig)

/-- src/ipc_shm.c:40-63, the flags argument of `shmget` -/
def shmgetFlags (st : Verb) (t : Table) (arg : BitVec 32) : List Tok :=
  let a := arg.setWidth 64
  let f0 := a &&& 0xfffffe00#64
  let huge := f0 &&& 0xfc000000#64
  let flags := f0 &&& 0x3ffffff#64
  (if flags ≠ 0 ∨ huge = 0 then flagsT flags none st [t] else []) ++
  (if huge ≠ 0 then
    (if flags ≠ 0 then bar else []) ++ num (huge >>> 26) ++ [.shl] ++ lit st 26 "SHM_HUGE_SHIFT"
   else []) ++
  (if flags ≠ 0 ∨ huge ≠ 0 then bar else []) ++
  num (a &&& 0x1ff#64)

/-- src/ipc_msg.c:29-34, src/ipc_sem.c:114-119: the flags argument of `msgget` and `semget` -/
def getFlags (st : Verb) (t : Table) (arg : BitVec 32) : List Tok :=
  let a := arg.setWidth 64
  let f := printflags (a &&& 0xfffffe00#64) none st [t]
  ps f.1 ++ (if f.2 ≠ 0 then bar else []) ++ num (a &&& 0x1ff#64)

/-- src/net.c:91-106 `tprint_sock_type` -/
def sockType (st : Verb) (types flagsTbl : Table) (arg : BitVec 32) : List Tok :=
  let flags := arg.setWidth 64
  match xlookup types (flags &&& 0xf#64) with
  | some s =>
    let rest := flags &&& 0xfffffff0#64
    lit st (flags &&& 0xf#64) s ++
      (if rest = 0 then [] else bar ++ flagsT rest (some "SOCK_???") st [flagsTbl])
  | none => flagsT flags (some "SOCK_???") st [flagsTbl]

/-- src/personality.c:19-31, the argument of `personality` -/
def personality (st : Verb) (types flagsTbl : Table) (arg : BitVec 32) : List Tok :=
  let pers := arg.setWidth 64
  if pers = 0xffffffff#64 then num pers
  else
    let rest := pers &&& 0xffffff00#64
    xval (pers &&& 0xff#64) (some "PER_???") st [types] ++
      (if rest ≠ 0 then bar ++ flagsT rest none st [flagsTbl] else [])

/-- src/nlattr.c:55-66, the type of a netlink attribute -/
def nlaType (st : Verb) (ts : List Table) (dflt : Option String) (ty : BitVec 16) : List Tok :=
  let v := ty.setWidth 64
  (if v &&& 0x8000#64 ≠ 0 then lit st 0x8000 "NLA_F_NESTED" ++ bar else []) ++
  (if v &&& 0x4000#64 ≠ 0 then lit st 0x4000 "NLA_F_NET_BYTEORDER" ++ bar else []) ++
  xval (v &&& 0x3fff#64) dflt st ts

/-- src/netlink.c:162-195 `decode_nlmsg_type_netfilter`; `sub` gives the tables of a subsystem, for
the subsystems of `nf_nlmsg_types` -/
def nfType (st : Verb) (msgs subsys : Table) (dflt : Option String)
    (sub : BitVec 64 → Option (List Table × Option String)) (ty : BitVec 16) : List Tok :=
  let v := ty.setWidth 64
  match xlookup msgs v with
  | some s => lit st v s
  | none =>
    xval (v >>> 8) dflt st [subsys] ++ [.shl] ++ num 8 ++ bar ++
    (match sub (v >>> 8) with
     | some (ts, d) => xval (v &&& 0xff#64) d st ts
     | none => num (v &&& 0xff#64))

/-- src/ipc.c:14-28, the first argument of `ipc` -/
def ipcCall (st : Verb) (t : Table) (arg : BitVec 32) : List Tok :=
  let a := arg.setWidth 64
  (if a >>> 16 ≠ 0 then num (a >>> 16) ++ [.shl] ++ num 16 ++ bar else []) ++
  xval (a &&& 0xffff#64) none st [t]

/-- src/kd_ioctl.c:90-105, the argument of KDMKTONE (the comment after it is left out) -/
def tone (arg : BitVec 32) : List Tok :=
  let a := arg.setWidth 64
  (if a >>> 16 ≠ 0 then num (a >>> 16) ++ [.shl] ++ num 16 ++ bar else []) ++ num (a &&& 0xffff#64)

/-- src/perf.c:158-172, `config` of a hardware event -/
def perfHw (st : Verb) (t : Table) (c : BitVec 64) : List Tok :=
  (if c >>> 32 ≠ 0 then num (c >>> 32) ++ [.shl] ++ num 32 ++ bar else []) ++
  xval (c &&& 0xffffffff#64) (some "PERF_COUNT_HW_???") st [t]

/-- src/perf.c:195-234, `config` of a cache event -/
def perfCache (st : Verb) (res op ids : Table) (c : BitVec 64) : List Tok :=
  (if c >>> 32 ≠ 0 then num (c >>> 32) ++ [.shl] ++ num 32 ++ bar else []) ++
  (if (c &&& 0xffffffff#64) >>> 24 ≠ 0 then
    num ((c &&& 0xffffffff#64) >>> 24) ++ [.shl] ++ num 24 ++ bar else []) ++
  xval ((c >>> 16) &&& 0xff#64) (some "PERF_COUNT_HW_CACHE_RESULT_???") st [res] ++ [.shl] ++ num 16 ++ bar ++
  xval ((c >>> 8) &&& 0xff#64) (some "PERF_COUNT_HW_CACHE_OP_???") st [op] ++ [.shl] ++ num 8 ++ bar ++
  xval (c &&& 0xff#64) (some "PERF_COUNT_HW_CACHE_???") st [ids]

/-- src/bpf_seccomp_filter.c:21-31, the operand of a return statement -/
def seccompK (st : Verb) (t : Table) (k : BitVec 32) : List Tok :=
  let v := k.setWidth 64
  let action := v &&& 0xffff0000#64
  let data := v &&& (~~~(k &&& 0xffff0000#32)).setWidth 64
  xval action (some "SECCOMP_RET_???") st [t] ++ (if data ≠ 0 then bar ++ num data else [])

/-- src/term.c:62-67, the loop of `decode_oflag` over masks with their tables -/
def oflagLoop (st : Verb) : List (BitVec 64 × Table × String) → BitVec 64 → List Tok
  | [], _ => []
  | (m, t, d) :: l, v => xval (v &&& m) (some d) st [t] ++ bar ++ oflagLoop st l (v &&& ~~~m)

/-- the word left after the loop -/
def oflagRest : List (BitVec 64 × Table × String) → BitVec 64 → BitVec 64
  | [], v => v
  | (m, _, _) :: l, v => oflagRest l (v &&& ~~~m)

/-- src/term.c:45-71 `decode_oflag` (the list of masks and tables is a parameter) -/
def oflag (st : Verb) (l : List (BitVec 64 × Table × String)) (t : Table) (v : BitVec 64) : List Tok :=
  oflagLoop st l v ++ flagsT (oflagRest l v) none st [t]

/-- src/term.c:73-95 `decode_cflag` (CBAUD 0x100f, CIBAUD 0x100f0000, IBSHIFT 16, CSIZE 0x30) -/
def cflag (st : Verb) (baud csize t : Table) (v : BitVec 64) : List Tok :=
  xval (v &&& 0x100f#64) (some "B???") st [baud] ++ bar ++
  (if v &&& 0x100f0000#64 ≠ 0 then
    xval ((v &&& 0x100f0000#64) >>> 16) (some "B???") st [baud] ++ [.shl] ++ lit st 16 "IBSHIFT" ++ bar
   else []) ++
  xval (v &&& 0x30#64) (some "CS?") st [csize] ++ bar ++
  flagsT (v &&& ~~~0x100f103f#64) none st [t]

/-- the tables of src/bpf_filter.c:16-31; the lists hold the classic table and, for eBPF, the table of
the extension -/
structure BpfTables where
  cls : Table
  size : List Table
  mode : Table
  miscop : Table
  src : Table
  opAlu : List Table
  opJmp : List Table
  rval : Table

/-- src/bpf_filter.c:33-111 `print_bpf_filter_code`: BPF_CLASS is 0x07, BPF_SIZE 0x18, BPF_MODE 0xe0,
BPF_OP 0xf0, BPF_SRC 0x08, BPF_RVAL 0x18 and BPF_MISCOP 0xf8 (linux/bpf_common.h, linux/filter.h) -/
def bpfCode (st : Verb) (b : BpfTables) (ext : Bool) (code : BitVec 16) : List Tok :=
  let c := code.setWidth 64
  let d := some "BPF_???"
  let cls := c &&& 7#64
  let i := c &&& 0xfff8#64
  let ldSt := bar ++ xval (c &&& 0x18#64) d st b.size ++ bar ++ xval (c &&& 0xe0#64) d st [b.mode]
  let alu := bar ++ xval (c &&& 8#64) d st [b.src] ++ bar ++ xval (c &&& 0xf0#64) d st b.opAlu
  let jmp := bar ++ xval (c &&& 8#64) d st [b.src] ++ bar ++ xval (c &&& 0xf0#64) d st b.opJmp
  let rest (j : BitVec 64) := if j ≠ 0 then bar ++ num j ++ note "BPF_???" else []
  xval cls d st [b.cls] ++
  (if cls = 2 ∨ cls = 3 then (if ext = true then ldSt else rest i)
   else if cls = 0 ∨ cls = 1 then ldSt
   else if cls = 7 then
     (if ext = true then alu
      else bar ++ xval (c &&& 0xf8#64) d st [b.miscop] ++ rest (i &&& 0xff07#64))
   else if cls = 4 then alu
   else if cls = 5 then jmp
   else
     (if ext = true then rest i
      else bar ++ xval (c &&& 0x18#64) d st [b.rval] ++ rest (i &&& 0xffe7#64)))

/-- src/open.c:70-106 `tprint_open_modes64`.  The table of access modes names all four values of the
two low bits (src/xlat/open_access_modes.in), so the lookup does not fail; a miss is shown as a bare
number here. -/
def openFlags (st : Verb) (modes : Table) (t : Table) (flags : BitVec 64) : List Tok :=
  let rest := flags &&& ~~~3#64
  match xlookup modes (flags &&& 3#64) with
  | none => num flags
  | some s =>
    let str := [.p (.name s)] ++
      (if rest = 0 then []
       else match sprintflags [] t.data rest (some .bar) .abbrev false with
        | some l => ps l
        | none => [])
    match st with
    | .abbrev => str
    | .raw => num flags
    | .verbose => num flags ++ [.p .open_] ++ str ++ [.p .close]

/-- src/quota.c:16-19, 443-466 `print_qcmd` -/
def qcmd (st : Verb) (cmds types : Table) (arg : BitVec 32) : List Tok :=
  let q := arg.setWidth 64
  styled st q <|
    [.call "QCMD"] ++ xval (q >>> 8) (some "Q_???") .abbrev [cmds] ++ [.comma] ++
      xval (q &&& 0xff#64) (some "???QUOTA") .abbrev [types] ++ [.endc]

/-- src/ioprio.c:15-50 `print_ioprio`, `sprint_ioprio`; `sprintxval` (src/xlat.c:264-288) puts the
same pieces into a string as `printxvals` prints -/
def ioprio (st : Verb) (t : Table) (arg : BitVec 32) : List Tok :=
  let v := arg.setWidth 64
  styled st v <|
    [.call "IOPRIO_PRIO_VALUE"] ++ xval (v >>> 13) (some "IOPRIO_CLASS_???") st [t] ++ [.comma] ++
      num (v &&& 0x1fff#64) ++ [.endc]

/-- src/print_dev_t.c:13-38 `print_dev_t`, with `major` and `minor` of glibc's bits/sysmacros.h -/
def devT (st : Verb) (dev : BitVec 64) : List Tok :=
  styled st dev <|
    [.call "makedev"] ++
      num (((dev &&& 0x00000000000fff00#64) >>> 8) ||| ((dev &&& 0xfffff00000000000#64) >>> 32)) ++ [.comma] ++
      num ((dev &&& 0x00000000000000ff#64) ||| ((dev &&& 0x00000ffffff00000#64) >>> 12)) ++ [.endc]

/-- what `printstatus` says first -/
inductive Cond
  | stopped (sig : BitVec 32) (x80 : Bool)  -- WIFSTOPPED(s) && WSTOPSIG(s) == sig [| 0x80]
  | signaled (sig : BitVec 32) (core : Bool)
  | exited (code : BitVec 32)
  | continued
  | number (v : BitVec 32)
deriving Repr, DecidableEq

/-- and after it -/
structure Status where
  cond : Cond
  event : Option (BitVec 32)
  rest : Option (BitVec 32)
deriving Repr, DecidableEq

/-- src/wait.c:24-86 `printstatus`, with the macros of glibc's bits/waitstatus.h: WIFSTOPPED
`(s & 0xff) == 0x7f`, WSTOPSIG `(s & 0xff00) >> 8`, WIFSIGNALED `(signed char) ((s & 0x7f) + 1) >> 1 > 0`
(that is, `s & 0x7f` is neither 0 nor 0x7f), WIFEXITED `(s & 0x7f) == 0`, WIFCONTINUED `s == 0xffff`,
W_STOPCODE `sig << 8 | 0x7f`, W_EXITCODE `ret << 8 | sig`, WCOREFLAG 0x80 -/
def printstatus (s : BitVec 32) : Status :=
  let step : Option (Cond × BitVec 32) :=
    if s &&& 0xff#32 = 0x7f#32 then
      let sig := (s &&& 0xff00#32) >>> 8
      some (.stopped (sig &&& 0x7f#32) (decide (sig &&& 0x80#32 ≠ 0)), s &&& ~~~((sig <<< 8) ||| 0x7f#32))
    else if s &&& 0x7f#32 ≠ 0 ∧ s &&& 0x7f#32 ≠ 0x7f#32 then
      some (.signaled (s &&& 0x7f#32) (decide (s &&& 0x80#32 ≠ 0)), s &&& ~~~((s &&& 0x7f#32) ||| 0x80#32))
    else if s &&& 0x7f#32 = 0 then
      some (.exited ((s &&& 0xff00#32) >>> 8), s &&& ~~~(((s &&& 0xff00#32) >>> 8) <<< 8))
    else if s = 0xffff#32 then some (.continued, s &&& ~~~0xffff#32)
    else none
  match step with
  | none => ⟨.number s, none, none⟩
  | some (c, r) =>
    let ev := r >>> 16
    let r' := if ev ≠ 0 then r &&& 0xffff#32 else r
    ⟨c, if ev ≠ 0 then some ev else none, if r' ≠ 0 then some r' else none⟩

end Strace.Pack
