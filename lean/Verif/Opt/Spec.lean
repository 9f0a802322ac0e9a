import Verif.Opt.Model
/-!
# Options: what they mean together

Everything is said of the list of options as given: which options are in it, how often, and which argument of an option comes last.
-/
namespace Strace.Opt

/-! ### Arguments -/

def outArg : Opt → Option (List Nat)
  | .out n => some n
  | _ => none

def intrArg : Opt → Option Nat
  | .intr v => some (v.val + 1)
  | _ => none

def daemonArg : Opt → Option Nat
  | .daemonize v => some (v.val + 1)
  | _ => none

def hexArg : Opt → Option Nat
  | .hexStr v => some v.val
  | _ => none

def stackArg : Opt → Option Nat
  | .stackTrace b => some (if b = true then 2 else 1)
  | _ => none

def fdArg : Opt → Option Bool
  | .decodeFds b => some b
  | _ => none

def tipArg : Opt → Option Bool
  | .tips b => some b
  | _ => none

def stampArg : Opt → Option Ts
  | .timestamps t => some t
  | _ => none

def pidsArg : Opt → Option Nat
  | .attach n => some n
  | _ => none

def shownArg : Opt → Option Shown
  | .ok => some .ok
  | .failed => some .failed
  | .status => some .selected
  | _ => none

/-- the arguments of an option, in order -/
def args {α : Type} (f : Opt → Option α) (l : List Opt) : List α := l.filterMap f

/-- the last argument of an option -/
def last {α : Type} (f : Opt → Option α) (l : List Opt) : Option α := (args f l).getLast?

/-! ### Settings -/

/-- stack traces: 1 for names, 2 for source lines.  `--stack-trace` says which, and every `-k` after it asks for one more -/
def level (l : List Opt) : Nat :=
  (last stackArg l).getD 0 + (l.reverse.takeWhile fun o => (stackArg o).isNone).count .stack

/-- children are followed -/
def Follows (l : List Opt) : Prop := .follow ∈ l ∨ .followForks ∈ l ∨ .oldFollow ∈ l

/-- every process has a file of its own -/
def Separates (l : List Opt) : Prop := 2 ≤ l.count .follow ∨ .separately ∈ l

/-- the processes attached to -/
def attached (l : List Opt) : Nat := (args pidsArg l).sum

/-- statistics are shown -/
def Summary (l : List Opt) : Prop := .onlyStats ∈ l ∨ .stats ∈ l

/-- the output goes to a command: `|` or `!` comes first -/
def Piped (n : List Nat) : Prop := ∃ r, n = 124 :: r ∨ n = 33 :: r

/-- the time stamps of `--absolute-timestamps`, the last option first: one without a format keeps the format that is set -/
def stampFormat : List Ts → Option Bool
  | [] => none
  | t :: r => t.format.getD (some ((stampFormat r).getD false))

/-- the digits of the fraction: those of the last precision given -/
def stampWidth (l : List Ts) : Nat := ((l.filterMap fun t => t.width).getLast?).getD 0

/-! ### What is refused -/

/-- every option is known, none asks for help, not both `-c` and `-C` are given, and never more than `-kk` -/
def Fine (l : List Opt) : Prop :=
  .bad ∉ l ∧ .help ∉ l ∧ ¬ (.onlyStats ∈ l ∧ .stats ∈ l) ∧ ∀ p, p <+: l → level p ≤ 2

/-- options that exclude each other, or need something that is not there -/
def Conflict (e : Env) (l : List Opt) : Prop :=
  (e.prog = false ∧ .argv0 ∈ l) ∨
  ((∃ v, .daemonize v ∈ l) ∧ .daemon ∈ l) ∨
  (e.prog = false ∧ ((∃ v, .daemonize v ∈ l) ∨ .daemon ∈ l)) ∨
  3 < l.count .daemon ∨
  ((∃ t, .timestamps t ∈ l) ∧ .time ∈ l) ∨
  ((∃ v, .hexStr v ∈ l) ∧ .hex ∈ l) ∨
  ((∃ b, .decodeFds b ∈ l) ∧ .paths ∈ l) ∨
  (.followForks ∈ l ∧ .follow ∈ l) ∨
  (.separately ∈ l ∧ 2 ≤ l.count .follow) ∨
  (.quiet ∈ l ∧ .quietly ∈ l) ∨
  (Separates l ∧ Summary l) ∨
  (.wall ∈ l ∧ ¬ Summary l) ∨
  (.columns ∈ l ∧ ¬ Summary l) ∨
  (.user ∈ l ∧ e.root = false) ∨
  (.killOnExit ∈ l ∧ (0 < attached l ∨ e.exitKill = false)) ∨
  (Separates l ∧ ∃ n, last outArg l = some n ∧ (Piped n ∨ 4084 ≤ n.length))

/-! ### What strace runs with -/

/-- only calls that are traced stop the tracees: this needs `-f` and a program, and does not go with `-b` and `--syscall-limit` -/
def Filtering (e : Env) (l : List Opt) : Prop :=
  .seccomp ∈ l ∧ (.follow ∈ l ∨ .followForks ∈ l) ∧ .detachOn ∉ l ∧ .limit ∉ l ∧ e.prog = true

/-- lines are shown, but not this part of them -/
def NoEffect (l : List Opt) : Opt → Prop
  | .ip => .ip ∈ l
  | .stack => .stack ∈ l ∨ ∃ b, .stackTrace b ∈ l
  | .nr => .nr ∈ l
  | .relative => .relative ∈ l
  | .time => .time ∈ l ∨ stampFormat (args stampArg l).reverse ≠ none
  | .times => .times ∈ l
  | .paths => .paths ∈ l ∨ last fdArg l = some true
  | _ => False

/-- there is a message about something that is not done -/
def Warned (e : Env) (l : List Opt) : Warn → Prop
  | .seccompFollow => .seccomp ∈ l ∧ .follow ∉ l ∧ .followForks ∉ l
  | .seccompDetach => .seccomp ∈ l ∧ (.follow ∈ l ∨ .followForks ∈ l) ∧ .detachOn ∈ l
  | .seccompLimit => .seccomp ∈ l ∧ (.follow ∈ l ∨ .followForks ∈ l) ∧ .detachOn ∉ l ∧ .limit ∈ l
  | .seccompAttach => .seccomp ∈ l ∧ (.follow ∈ l ∨ .followForks ∈ l) ∧ .detachOn ∉ l ∧ .limit ∉ l ∧ 0 < attached l
  | .oldFollow => .oldFollow ∈ l
  | .sortBy => .sortBy ∈ l ∧ ¬ Summary l
  | .noEffect o => .onlyStats ∈ l ∧ NoEffect l o
  | .separately => Separates l ∧ ¬ Follows l ∧ last outArg l = none
  | .append => .append ∈ l ∧ last outArg l = none
  | .lastStatus => 2 ≤ l.count .ok + l.count .failed
  | .frameLimit => .frameLimit ∈ l ∧ .stack ∉ l ∧ ¬ ∃ b, .stackTrace b ∈ l

/-- where lines go -/
def Goes (l : List Opt) (d : Dest) : Prop :=
  (last outArg l = none ∧ d = .stderr) ∨
  ∃ n, last outArg l = some n ∧
    ((∃ r, (n = 124 :: r ∨ n = 33 :: r) ∧ d = .pipe r) ∨
     (¬ Piped n ∧ ¬ Separates l ∧ d = .file n) ∨
     (¬ Piped n ∧ Separates l ∧ d = .files n))

/-- what strace runs with is what the options say -/
structure Told (e : Env) (l : List Opt) (c : Conf) : Prop where
  dest : Goes l c.dest
  append : c.append = true ↔ .append ∈ l
  only : c.stats = .only ↔ .onlyStats ∈ l
  both : c.stats = .both ↔ .stats ∈ l
  daemon : c.daemon = (last daemonArg l).getD (l.count .daemon)
  follow : c.follow = true ↔ Follows l
  intr : c.intr = (last intrArg l).getD (if c.daemon ≠ 0 then 4 else if last outArg l ≠ none ∧ e.prog = true then 3 else 2)
  stack : c.stack = level l
  seccomp : c.seccomp = true ↔ Filtering e l ∧ e.seccompOk = true
  kill : c.kill = true ↔ .killOnExit ∈ l ∨ (c.seccomp = true ∧ attached l = 0 ∧ e.exitKill = true)
  /-- `-q` by default if a program is run with its output in a file -/
  quiet : c.quiet = if .quiet ∈ l then .listed
    else if .quietly ∈ l then .level (min (l.count .quietly) 3)
    else if last outArg l ≠ none ∧ e.prog = true then .level 1 else .level 0
  /-- time of day, with microseconds for `-tt`; seconds since the Epoch with microseconds for `-ttt` -/
  tFormat : c.tFormat = if .time ∈ l then some (decide (3 ≤ l.count .time)) else stampFormat (args stampArg l).reverse
  tWidth : c.tWidth = if .time ∈ l then (if l.count .time = 1 then 0 else 6) else stampWidth (args stampArg l)
  hex : c.hex = (last hexArg l).getD (min (l.count .hex) 2)
  paths : c.paths = min (l.count .paths) 2
  shown : c.shown = (last shownArg l).getD .selected
  warns : ∀ w, w ∈ c.warns ↔ Warned e l w

/-- options that have an argument of which the last counts -/
def ordered : Opt → Bool
  | .out _ => true
  | .intr _ => true
  | .daemonize _ => true
  | .hexStr _ => true
  | .stackTrace _ => true
  | .stack => true
  | .decodeFds _ => true
  | .tips _ => true
  | .timestamps _ => true
  | .ok => true
  | .failed => true
  | .status => true
  | _ => false

end Strace.Opt
