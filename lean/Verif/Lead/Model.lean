import Verif.Base.Dec
import Verif.Quote.Model
import Verif.Time.Model
import Verif.Opt.Model
/-!
# What comes first in a line: src/strace.c (printleader), src/print_syscall_number.c, src/print_instruction_pointer.c

Texts are lists of character codes.  Security contexts (`selinux_printpidcon`) are not part of the model: strace is built without them.
-/
namespace Strace.Lead
open Strace.Base

/-- printf `%5u` (libc contract) -/
def padL (w n : Nat) : List Nat := List.replicate (w - (dec n).length) 32 ++ dec n

/-- printf `%-5u` (libc contract) -/
def padR (w n : Nat) : List Nat := dec n ++ List.replicate (w - (dec n).length) 32

/-- printf `%x` (libc contract) -/
def hex (n : Nat) : List Nat :=
  if h : n < 16 then [Quote.hexChar n] else hex (n / 16) ++ [Quote.hexChar (n % 16)]
termination_by n
decreasing_by omega

/-- printf `%016x` (libc contract) -/
def hexPad (w n : Nat) : List Nat := List.replicate (w - (hex n).length) 48 ++ hex n

/-- printf `%ld` (libc contract) -/
def decI (x : Int) : List Nat := if x < 0 then 45 :: dec x.natAbs else dec x.natAbs

/-- printf `%6ld` (libc contract) -/
def padI (w : Nat) (x : Int) : List Nat := List.replicate (w - (decI x).length) 32 ++ decI x

/-- a precision: the digits of the fraction, and the nanoseconds of a unit -/
structure Prec where
  width : Nat
  scale : Nat
  deriving DecidableEq, Repr

/-- what `printleader` looks at besides the tracee: src/strace.c:81-97 -/
structure Cfg where
  /-- `print_pid_pfx` -/
  pidPfx : Bool
  /-- `outfname` is set -/
  outf : Bool
  /-- DECODE_PID_COMM is in `decode_pid_set` -/
  comm : Bool
  /-- the style of quoting, `-x` -/
  x : Quote.XStyle
  /-- `tflag_format`: none, `%T` or (`true`) `%s` -/
  tflag : Option Bool
  t : Prec
  rflag : Bool
  r : Prec
  nflag : Bool
  iflag : Bool
  deriving DecidableEq, Repr

/-- the tracee, the clocks and the number of tracees when a line is begun -/
structure Ev where
  /-- `nprocs` -/
  nprocs : Nat
  pid : Nat
  /-- `comm`, the bytes before the first NUL -/
  comm : List Nat
  /-- CLOCK_REALTIME -/
  real : Time.Ts
  /-- CLOCK_MONOTONIC -/
  mono : Time.Ts
  /-- `true_scno`, `none` if it is -1 -/
  nr : Option Nat
  /-- `get_instruction_pointer` -/
  ip : Option Nat
  /-- `current_wordsize` is 4 -/
  w4 : Bool
  deriving DecidableEq, Repr

/-- `print_comm_str`, src/strace.c:838-848 -/
def commText (x : Quote.XStyle) (comm : List Nat) : List Nat :=
  if comm = [] then []
  else [60] ++ (Quote.stringQuote comm 0 ⟨false, true, false, false, false, x⟩ [60, 62]).1 ++ [62]

/-- whether the pid is shown, src/strace.c:882 -/
def pidShown (c : Cfg) (e : Ev) : Bool := c.pidPfx || (decide (e.nprocs > 1) && !c.outf)

/-- src/strace.c:882-901 -/
def pidText (c : Cfg) (e : Ev) : List Nat :=
  if pidShown c e = true then
    let comm := if c.comm = true then e.comm else []
    (if c.pidPfx = true then (if comm = [] then padR 5 e.pid else dec e.pid) else [91, 112, 105, 100, 32] ++ padL 5 e.pid) ++
      commText c.x comm ++ (if c.pidPfx = true then [] else [93]) ++ [32]
  else []

/-- the fraction, src/strace.c:917-919 and 938-941 -/
def fracText (p : Prec) (nsec : Int) : List Nat :=
  if p.width ≠ 0 then [46] ++ decPad p.width (nsec / p.scale).toNat else []

/-- src/strace.c:905-922; `clock` is the text of the local time in the format `%T`, `none` if there is no local time.  `strftime` with
`%s` writes the seconds since the Epoch (libc contract). -/
def stampText (clock : Int → Option (List Nat)) (c : Cfg) (e : Ev) : List Nat :=
  match c.tflag with
  | none => []
  | some unix => (if unix = true then decI e.real.sec else (clock e.real.sec).getD (decI e.real.sec)) ++
      fracText c.t e.real.nsec ++ [32]

/-- src/strace.c:924-943, the text -/
def relText (c : Cfg) (dts : Time.Ts) : List Nat :=
  if c.rflag = true then
    (if c.tflag ≠ none then [40, 43] else []) ++ padI 6 dts.sec ++ fracText c.r dts.nsec ++
      (if c.tflag ≠ none then [41, 32] else [32])
  else []

/-- src/strace.c:928-935: the difference, and the new value of `ots`; `none` is an overflow -/
def relStep (ots mono : Time.Ts) : Option (Time.Ts × Time.Ts) :=
  let o := if ots.sec = 0 ∧ ots.nsec = 0 then mono else ots
  (Time.tsSub mono o).map fun d => (d, mono)

/-- `print_syscall_number`, src/print_syscall_number.c:10-20 -/
def nrText (c : Cfg) (e : Ev) : List Nat :=
  if c.nflag = true then
    [91] ++ (match e.nr with
      | some n => padL 4 n
      | none => [63, 63, 63]) ++ [93, 32]
  else []

/-- `print_instruction_pointer`, src/print_instruction_pointer.c:10-27 -/
def ipText (c : Cfg) (e : Ev) : List Nat :=
  if c.iflag = true then
    [91] ++ (match e.ip with
      | some n => hexPad (if e.w4 = true then 8 else 16) n
      | none => List.replicate (if e.w4 = true then 8 else 16) 63) ++ [93, 32]
  else []

/-- `printleader`, src/strace.c:880-950: the text, with the difference -/
def leadText (clock : Int → Option (List Nat)) (c : Cfg) (e : Ev) (dts : Time.Ts) : List Nat :=
  pidText c e ++ stampText clock c e ++ relText c dts ++ nrText c e ++ ipText c e

/-- `printleader` with the variable `ots`, src/strace.c:880-950 -/
def lead (clock : Int → Option (List Nat)) (c : Cfg) (ots : Time.Ts) (e : Ev) : Option (List Nat × Time.Ts) :=
  if c.rflag = true then (relStep ots e.mono).map fun d => (leadText clock c e d.1, d.2)
  else some (leadText clock c e ⟨0, 0⟩, ots)

/-- a line that is begun: the file it goes to, and whether it gets there or is dropped because of the status of the call -/
structure Line where
  file : Nat
  published : Bool
  ev : Ev
  deriving DecidableEq, Repr

/-- the differences computed for a history of lines: `ots` is static, there is one for all files and all lines, src/strace.c:928-935 -/
def diffs (ots : Time.Ts) : List Line → Option (List Time.Ts)
  | [] => some []
  | l :: r => (relStep ots l.ev.mono).bind fun d => (diffs d.2 r).map (d.1 :: ·)

/-- the beginnings of lines, for a history of them: src/strace.c:880-950 -/
def leads (clock : Int → Option (List Nat)) (c : Cfg) (ots : Time.Ts) : List Line → Option (List (List Nat))
  | [] => some []
  | l :: r => (lead clock c ots l.ev).bind fun t => (leads clock c t.2 r).map (t.1 :: ·)

/-- the differences that can be read in a file, next to the lines they are in -/
def inFile (f : Nat) (ls : List Line) (ds : List Time.Ts) : List (Line × Time.Ts) :=
  (ls.zip ds).filter fun p => p.1.published && decide (p.1.file = f)

/-! ### The arguments of --absolute-timestamps and --relative-timestamps -/

/-- `str2timescale_optarg`, src/util.c:61-82 and src/defs.h:1567, with an argument: `none` is -1 -/
def timescale (arg : List Nat) : Option Prec :=
  if arg = [] then none
  else if Time.caseEq arg [115] = true then some ⟨0, 1000000000⟩
  else if Time.caseEq arg [109, 115] = true then some ⟨3, 1000000⟩
  else if Time.caseEq arg [117, 115] = true then some ⟨6, 1000⟩
  else if Time.caseEq arg [110, 115] = true then some ⟨9, 1⟩
  else none

/-- the tokens of `strtok_r` (libc contract): the pieces between commas that are not empty -/
def tokens (s : List Nat) : List (List Nat) := (s.splitOn 44).filter fun t => t ≠ []

/-- "format:" -/
def formatPfx : List Nat := [102, 111, 114, 109, 97, 116, 58]

/-- "precision:" -/
def scalePfx : List Nat := [112, 114, 101, 99, 105, 115, 105, 111, 110, 58]

/-- `strncasecmp` with a prefix (libc contract) -/
def hasPfx (pfx t : List Nat) : Bool := Time.caseEq (t.take pfx.length) pfx

/-- formats, src/strace.c:1998-2008 -/
def formatOf (t : List Nat) : Option (Option Bool) :=
  if Time.caseEq t [110, 111, 110, 101] = true then some none
  else if Time.caseEq t [116, 105, 109, 101] = true then some (some false)
  else if Time.caseEq t [117, 110, 105, 120] = true then some (some true)
  else none

/-- the value of a token: a format, a precision, or (`none`) neither; src/strace.c:1987-2021 -/
inductive Val
  | format (f : Option Bool)
  | prec (p : Prec)
  deriving DecidableEq, Repr

/-- one token, src/strace.c:1987-2021 -/
def tokenVal (t : List Nat) : Option Val :=
  if hasPfx formatPfx t = true then (formatOf (t.drop formatPfx.length)).map .format
  else if hasPfx scalePfx t = true then (timescale (t.drop scalePfx.length)).map .prec
  else
    match formatOf t with
    | some f => some (.format f)
    | none => (timescale t).map .prec

/-- the loop over tokens: the last format and the last precision; `none` is an error.  src/strace.c:1984-2021 -/
def tokenLoop (f : Option (Option Bool)) (p : Option Prec) : List (List Nat) → Option (Option (Option Bool) × Option Prec)
  | [] => some (f, p)
  | t :: r =>
    match tokenVal t with
    | none => none
    | some (.format g) => tokenLoop (some g) p r
    | some (.prec q) => tokenLoop f (some q) r

/-- `parse_ts_arg`, src/strace.c:1963-2046, as the argument that `Opt.setTs` takes -/
def parseTs (s : List Nat) : Option Opt.Ts :=
  (tokenLoop none none (tokens s)).map fun r => ⟨r.1, r.2.map fun p => p.width⟩

end Strace.Lead
