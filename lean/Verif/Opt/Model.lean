/-!
# Options and how they combine: src/strace.c (init)

An option is what `getopt_long` returned, with its argument already turned into a value (the parsing of arguments is modelled in
`Verif/Num`, `Verif/Time`, `Verif/Qual` and others); `bad` is an option that is not known or an argument that is refused.  The build
has stack traces with libdw and `open_memstream`.  Options that set something on their own and take part in no check (`-a`, `-d`,
`-e`, `-E`, `-O`, `-P`, `-s`, `-v`, `-X`, `-Y` and the other long forms of `-e`) are `other`.
-/
namespace Strace.Opt

/-- what `--absolute-timestamps` asks for: the format if one is given (`none` in it is no time stamps), and the digits of the
fraction if a precision is given -/
structure Ts where
  format : Option (Option Bool)
  width : Option Nat
  deriving DecidableEq, Repr

inductive Opt
  /-- `-A` -/
  | append
  /-- `-b execve` -/
  | detachOn
  /-- `-c` -/
  | onlyStats
  /-- `-C` -/
  | stats
  /-- `-D` -/
  | daemon
  /-- `--daemonize`, 1 to 3 -/
  | daemonize (v : Fin 3)
  /-- `-f` -/
  | follow
  | followForks
  | separately
  /-- `-F` -/
  | oldFollow
  /-- `-i` -/
  | ip
  /-- `-I`, 1 to 4 -/
  | intr (v : Fin 4)
  /-- `-k` -/
  | stack
  /-- `--stack-trace`, with `=source` or without -/
  | stackTrace (source : Bool)
  | frameLimit
  | killOnExit
  /-- `-n` -/
  | nr
  /-- `-o` -/
  | out (name : List Nat)
  /-- `-p` with a list of so many processes -/
  | attach (n : Nat)
  /-- `-q` -/
  | quietly
  /-- `--quiet` or `-e quiet` -/
  | quiet
  /-- `-r` -/
  | relative
  /-- `-S` -/
  | sortBy
  /-- `-t` -/
  | time
  /-- `--absolute-timestamps` -/
  | timestamps (t : Ts)
  /-- `-T` -/
  | times
  /-- `-u` -/
  | user
  /-- `-U` -/
  | columns
  /-- `-V` -/
  | version
  /-- `-w` -/
  | wall
  /-- `-x` -/
  | hex
  /-- `--strings-in-hex`, 0 to 3 -/
  | hexStr (v : Fin 4)
  /-- `-y` -/
  | paths
  /-- `--decode-fds` or `-e decode-fds`, and whether it asks for anything -/
  | decodeFds (some : Bool)
  /-- `-z` -/
  | ok
  /-- `-Z` -/
  | failed
  /-- `--status` or `-e status` -/
  | status
  | seccomp
  /-- `--syscall-limit` -/
  | limit
  /-- `--tips`, and whether it asks for one -/
  | tips (on : Bool)
  | argv0
  | showPid
  /-- `-h` -/
  | help
  | other
  | bad
  deriving DecidableEq, Repr

/-- `cflag_t` -/
inductive Stats
  | none
  | only
  | both
  deriving DecidableEq, Repr

/-- which statuses are shown: as `-e status` says, or only one kind -/
inductive Shown
  | selected
  | ok
  | failed
  deriving DecidableEq, Repr

/-- how `init` ends -/
inductive End (α : Type)
  /-- with a message -/
  | died
  /-- after having printed the help -/
  | help
  /-- after having printed the version -/
  | version
  /-- after having printed a tip -/
  | tip
  | run (c : α)
  deriving DecidableEq, Repr

/-- going on unless strace ends -/
def End.bind {α β : Type} : End α → (α → End β) → End β
  | .died, _ => .died
  | .help, _ => .help
  | .version, _ => .version
  | .tip, _ => .tip
  | .run c, f => f c

/-- the variables set by the loop over options, src/strace.c:70-165, 2264-2277 -/
structure St where
  openAppend : Bool := false
  detachOn : Bool := false
  cflag : Stats := .none
  daemon : Nat := 0
  daemonLong : Nat := 0
  followShort : Nat := 0
  follow : Bool := false
  separate : Bool := false
  optF : Bool := false
  iflag : Bool := false
  intr : Nat := 0
  stack : Nat := 0
  frameLimit : Bool := false
  kill : Bool := false
  nflag : Bool := false
  out : Option (List Nat) := none
  nprocs : Nat := 0
  qShort : Nat := 0
  quietUpdated : Bool := false
  rflag : Bool := false
  sortSet : Bool := false
  tShort : Nat := 0
  tLong : Bool := false
  /-- `tflag_format`: `some true` is seconds since the Epoch, `some false` the time of day -/
  tFormat : Option Bool := none
  tWidth : Nat := 0
  Tflag : Bool := false
  user : Bool := false
  columnsSet : Bool := false
  version : Bool := false
  wall : Bool := false
  xflag : Nat := 0
  xLong : Option Nat := none
  yShort : Nat := 0
  fdUpdated : Bool := false
  fdSome : Bool := false
  zflags : Nat := 0
  shown : Shown := .selected
  seccomp : Bool := false
  limit : Bool := false
  tips : Bool := false
  argv0 : Bool := false
  showPid : Bool := false
  deriving DecidableEq, Repr

/-- `parse_ts_arg` after its tokens, src/strace.c:2023-2042 -/
def setTs (s : St) (t : Ts) : St :=
  let s := match t.format with
    | none => if s.tFormat = none then { s with tFormat := some false } else s
    | some f => { s with tFormat := f }
  match t.width with
  | some w => { s with tWidth := w }
  | none => s

/-- one option, src/strace.c:2441-2769 -/
def step (s : St) : Opt → End St
  | .append => .run { s with openAppend := true }
  | .detachOn => .run { s with detachOn := true }
  | .onlyStats => if s.cflag = .both then .died else .run { s with cflag := .only }
  | .stats => if s.cflag = .only then .died else .run { s with cflag := .both }
  | .daemon => .run { s with daemon := s.daemon + 1 }
  | .daemonize v => .run { s with daemonLong := v.val + 1 }
  | .follow => .run { s with followShort := s.followShort + 1 }
  | .followForks => .run { s with follow := true }
  | .separately => .run { s with separate := true }
  | .oldFollow => .run { s with optF := true }
  | .ip => .run { s with iflag := true }
  | .intr v => .run { s with intr := v.val + 1 }
  | .stack => if s.stack = 0 then .run { s with stack := 1 } else if s.stack = 1 then .run { s with stack := 2 } else .died
  | .stackTrace src => .run { s with stack := if src = true then 2 else 1 }
  | .frameLimit => .run { s with frameLimit := true }
  | .killOnExit => .run { s with kill := true }
  | .nr => .run { s with nflag := true }
  | .out n => .run { s with out := some n }
  | .attach n => .run { s with nprocs := s.nprocs + n }
  | .quietly => .run { s with qShort := s.qShort + 1 }
  | .quiet => .run { s with quietUpdated := true }
  | .relative => .run { s with rflag := true }
  | .sortBy => .run { s with sortSet := true }
  | .time => .run { s with tShort := s.tShort + 1 }
  | .timestamps t => .run (setTs { s with tLong := true } t)
  | .times => .run { s with Tflag := true }
  | .user => .run { s with user := true }
  | .columns => .run { s with columnsSet := true }
  | .version => .run { s with version := true }
  | .wall => .run { s with wall := true }
  | .hex => .run { s with xflag := min (s.xflag + 1) 2 }
  | .hexStr v => .run { s with xLong := some v.val }
  | .paths => .run { s with yShort := s.yShort + 1 }
  | .decodeFds b => .run { s with fdUpdated := true, fdSome := b }
  | .ok => .run { s with shown := .ok, zflags := s.zflags + 1 }
  | .failed => .run { s with shown := .failed, zflags := s.zflags + 1 }
  | .status => .run { s with shown := .selected }
  | .seccomp => .run { s with seccomp := true }
  | .limit => .run { s with limit := true }
  | .tips b => .run { s with tips := b }
  | .argv0 => .run { s with argv0 := true }
  | .showPid => .run { s with showPid := true }
  | .help => .help
  | .other => .run s
  | .bad => .died

/-- the loop, src/strace.c:2440-2770 -/
def parse (s : St) : List Opt → End St
  | [] => .run s
  | o :: l => (step s o).bind fun s => parse s l

/-- what does not depend on options -/
structure Env where
  /-- a program is given -/
  prog : Bool
  /-- run by root -/
  root : Bool
  /-- PTRACE_O_EXITKILL is supported by the kernel -/
  exitKill : Bool
  /-- `check_seccomp_filter` leaves `seccomp_filtering` set -/
  seccompOk : Bool
  deriving DecidableEq, Repr

/-- messages that do not end strace -/
inductive Warn
  | seccompFollow
  | seccompDetach
  | seccompLimit
  | seccompAttach
  | oldFollow
  | sortBy
  /-- a time stamp or another part of lines that are not shown -/
  | noEffect (what : Opt)
  | separately
  | append
  | lastStatus
  | frameLimit
  deriving DecidableEq, Repr

/-- where the lines go -/
inductive Dest
  | stderr
  | pipe (cmd : List Nat)
  | file (name : List Nat)
  /-- a file for every process -/
  | files (name : List Nat)
  deriving DecidableEq, Repr

/-- which messages are suppressed: those of `--quiet`, or those of so many `-q` -/
inductive Quiet
  | listed
  | level (n : Nat)
  deriving DecidableEq, Repr

/-- what strace runs with -/
structure Conf where
  dest : Dest
  append : Bool
  stats : Stats
  daemon : Nat
  follow : Bool
  intr : Nat
  stack : Nat
  kill : Bool
  seccomp : Bool
  quiet : Quiet
  tFormat : Option Bool
  tWidth : Nat
  hex : Nat
  /-- descriptors: as `--decode-fds` says, or paths, or all -/
  paths : Nat
  shown : Shown
  warns : List Warn
  deriving DecidableEq, Repr

/-- `-D`, src/strace.c:2791-2808 -/
def checkDaemon (e : Env) (s : St) : Option St :=
  (if s.daemonLong ≠ 0 then (if s.daemon ≠ 0 then none else some { s with daemon := s.daemonLong }) else some s).bind fun s =>
    if e.prog = false ∧ s.daemon ≠ 0 then none
    else if s.daemon > 3 then none
    else some s

/-- `-t`, src/strace.c:2810-2818 -/
def checkTime (s : St) : Option St :=
  if s.tShort ≠ 0 then
    (if s.tLong = true then none
     else some (setTs s (if s.tShort = 1 then ⟨some (some false), none⟩
       else if s.tShort = 2 then ⟨some (some false), some 6⟩ else ⟨some (some true), some 6⟩)))
  else some s

/-- `-x`, src/strace.c:2820-2827 -/
def checkHex (s : St) : Option St :=
  match s.xLong with
  | some v => if s.xflag ≠ 0 then none else some { s with xflag := v }
  | none => some s

/-- `-y`, src/strace.c:2829-2836 -/
def checkPaths (s : St) : Option St :=
  if s.yShort ≠ 0 then (if s.fdUpdated = true then none else some { s with fdSome := true }) else some s

/-- `-f`, src/strace.c:2851-2862 -/
def checkFollow (s : St) : Option St :=
  if s.followShort ≠ 0 then
    if s.follow = true then none
    else if s.followShort ≥ 2 ∧ s.separate = true then none
    else some { s with follow := true, separate := decide (s.followShort ≥ 2) }
  else some s

/-- `--seccomp-bpf`, src/strace.c:2864-2887: the new value and the messages -/
def checkSeccomp (e : Env) (s : St) : Bool × List Warn :=
  if s.seccomp = false then (false, [])
  else if s.follow = false then (false, [.seccompFollow])
  else if s.detachOn = true then (false, [.seccompDetach])
  else if s.limit = true then (false, [.seccompLimit])
  else if s.nprocs ≠ 0 then (e.prog, [.seccompAttach])
  else (true, [])

/-- statistics, src/strace.c:2899-2914 -/
def checkStats (s : St) : Bool :=
  !(s.separate && decide (s.cflag ≠ .none)) && !(s.wall && decide (s.cflag = .none)) &&
    !(s.columnsSet && decide (s.cflag = .none))

/-- a message if an option is given -/
def warnIf (b : Bool) (w : Warn) : List Warn := if b = true then [w] else []

/-- messages about options without an effect, src/strace.c:2889-2897 and 2915-2967, 2986-2989 -/
def warns (s : St) : List Warn :=
  warnIf s.optF .oldFollow ++
  warnIf (s.sortSet && decide (s.cflag = .none)) .sortBy ++
  (if s.cflag = .only then
    warnIf s.iflag (.noEffect .ip) ++ warnIf (decide (s.stack ≠ 0)) (.noEffect .stack) ++ warnIf s.nflag (.noEffect .nr) ++
    warnIf s.rflag (.noEffect .relative) ++ warnIf s.tFormat.isSome (.noEffect .time) ++ warnIf s.Tflag (.noEffect .times) ++
    warnIf s.fdSome (.noEffect .paths)
   else []) ++
  (if s.out = none then
    warnIf (s.separate && !(s.follow || s.optF)) .separately ++ warnIf s.openAppend .append
   else []) ++
  warnIf (decide (s.zflags > 1)) .lastStatus ++
  warnIf (decide (s.stack = 0) && s.frameLimit) .frameLimit

/-- PTRACE_O_EXITKILL, src/strace.c:3026-3043; `none`: strace ends with a message -/
def checkKill (e : Env) (s : St) (seccomp : Bool) : Option Bool :=
  let k := seccomp && decide (s.nprocs = 0) && e.exitKill
  if s.kill = true then (if s.nprocs ≠ 0 then none else if e.exitKill = false then none else some true) else some k

/-- `-o`, src/strace.c:3060-3085; `PATH_MAX` is 4096 -/
def destOf (s : St) : Option Dest :=
  match s.out with
  | none => some .stderr
  | some n =>
    if n.head? = some 124 ∨ n.head? = some 33 then (if s.separate = true then none else some (.pipe n.tail))
    else if s.separate = false then some (.file n)
    else if n.length ≥ 4096 - 12 then none
    else some (.files n)

/-- `-I`, src/strace.c:3096-3105 -/
def intrOf (e : Env) (s : St) : Nat :=
  if s.intr ≠ 0 then s.intr
  else if s.daemon ≠ 0 then 4
  else if s.out ≠ none ∧ e.prog = true then 3
  else 2

/-- `-q`, src/strace.c:3098-3115 -/
def quietOf (e : Env) (s : St) : Option Quiet :=
  let q := if s.out ≠ none ∧ e.prog = true ∧ s.qShort = 0 ∧ s.quietUpdated = false then 1 else s.qShort
  if q ≠ 0 then (if s.quietUpdated = true then none else some (.level (min q 3)))
  else some (if s.quietUpdated = true then .listed else .level 0)

/-- with a message unless everything is right -/
def orDie {α : Type} : Option α → End α
  | none => .died
  | some c => .run c

/-- after the loop, src/strace.c:2772-3115 -/
def finish (e : Env) (s : St) : End Conf :=
  if s.version = true then .version
  else if s.nprocs = 0 ∧ e.prog = false then (if s.tips = true then .tip else .died)
  else if e.prog = false ∧ s.argv0 = true then .died
  else
    orDie ((checkDaemon e s).bind fun s => (checkTime s).bind fun s => (checkHex s).bind fun s => (checkPaths s).bind fun s =>
      (checkFollow s).bind fun s =>
      if checkStats s = false ∨ (s.user = true ∧ e.root = false) then none
      else
        (checkKill e s ((checkSeccomp e s).1 && e.seccompOk)).bind fun k => (destOf s).bind fun d => (quietOf e s).map fun q =>
          ⟨d, s.openAppend, s.cflag, s.daemon, s.follow || s.optF, intrOf e s, s.stack, k,
            (checkSeccomp e s).1 && e.seccompOk, q, s.tFormat, s.tWidth, s.xflag, min s.yShort 2, s.shown,
            (checkSeccomp e s).2 ++ warns s⟩)

/-- `init`, src/strace.c:2249-3174, as far as options go -/
def init (e : Env) (l : List Opt) : End Conf := (parse {} l).bind (finish e)

/-- `print_pid_pfx`, src/strace.c:3171-3173: `n` is `nprocs` then -/
def pidPfx (c : Conf) (showPid : Bool) (n : Nat) : Bool :=
  match c.dest with
  | .stderr => showPid
  | .files _ => showPid
  | _ => (c.follow || decide (n > 1)) || showPid

end Strace.Opt
