/-!
# The request of ioctl: src/ioctl.c:75-302, 497-540, src/term.c:471-490
-/
namespace Strace.Ioc

/-- how an architecture encodes requests: the number of bits of the size and the values of the directions (asm-generic/ioctl.h; others
in asm/ioctl.h). The two encodings of Linux are `generic` and `three`; SPARC, which overlays a direction bit, is left out. -/
structure Abi where
  sizeBits : Nat
  dirBits : Nat
  none : Nat
  read : Nat
  write : Nat
  deriving DecidableEq

/-- asm-generic/ioctl.h -/
def generic : Abi := ⟨14, 2, 0, 2, 1⟩
/-- asm/ioctl.h of Alpha, MIPS and PowerPC -/
def three : Abi := ⟨13, 3, 1, 2, 4⟩

/-- `_IOC_NR` -/
def nr (code : Nat) : Nat := code % 256
/-- `_IOC_TYPE` -/
def type (code : Nat) : Nat := code / 256 % 256
/-- `_IOC_SIZE` -/
def size (a : Abi) (code : Nat) : Nat := code / 65536 % 2 ^ a.sizeBits
/-- `_IOC_DIR` -/
def dir (a : Abi) (code : Nat) : Nat := code / 2 ^ (16 + a.sizeBits) % 2 ^ a.dirBits

/-- an argument of a macro as printed: a number, a value printed with a table of names (`printxval_ex`, modelled in `Xlat`), flags -/
inductive Arg where
  | num (n : Nat)
  | named (table : String) (n : Nat)
  | flags (names : List String) (rest : Nat)
  deriving DecidableEq

/-- an expression as printed -/
inductive Expr where
  | macro (name : String) (args : List Arg)
  | sym (name : String)
  deriving DecidableEq

/-- one turn of the loop of `printflags_ex`, src/xlat.c:446-462: the names so far and the flags left; leaving the loop when no flags are left makes no
difference, as only the first entry can be 0 -/
def flagStep (s : List String × Nat) (e : String × Nat) : List String × Nat :=
  if (s.2 ≠ 0 ∨ s.1 = []) ∧ (s.2 = e.2 ∨ (e.2 ≠ 0 ∧ s.2 &&& e.2 = e.2)) then (s.1 ++ [e.1], s.2 - e.2) else s

/-- `printflags_ex` of a direction, with src/xlat/ioctl_dirs.in; the flags left are printed as a number -/
def dirArg (a : Abi) (d : Nat) : Arg :=
  let r := [("_IOC_NONE", a.none), ("_IOC_READ", a.read), ("_IOC_WRITE", a.write)].foldl flagStep ([], d)
  .flags r.1 r.2

/-- `ioctl_print_code`, src/ioctl.c:74-96 -/
def printCode (a : Abi) (code : Nat) : Expr :=
  .macro "_IOC" [dirArg a (dir a code), .num (type code), .num (nr code), .num (size a code)]

/-- the switch of `evdev_decode_number`, src/ioctl.c:140-188 -/
def evdevName : Nat → Option String
  | 0x06 => some "EVIOCGNAME"
  | 0x07 => some "EVIOCGPHYS"
  | 0x08 => some "EVIOCGUNIQ"
  | 0x09 => some "EVIOCGPROP"
  | 0x0a => some "EVIOCGMTSLOTS"
  | 0x18 => some "EVIOCGKEY"
  | 0x19 => some "EVIOCGLED"
  | 0x1a => some "EVIOCGSND"
  | 0x1b => some "EVIOCGSW"
  | _ => none

/-- a macro of the size -/
def ofSize (a : Abi) (code : Nat) (name : String) : Expr := .macro name [.num (size a code)]

/-- `evdev_decode_number`, src/ioctl.c:98-189 -/
def evdevNumber (a : Abi) (code : Nat) : Option Expr :=
  if dir a code = a.write ∧ nr code ≥ 0xc0 ∧ nr code ≤ 0xc0 + 0x3f then
    some (.macro "EVIOCSABS" [.named "evdev_abs" (nr code - 0xc0)])
  else if dir a code ≠ a.read then none
  else if nr code ≥ 0x20 ∧ nr code ≤ 0x20 + 0x1f then
    some (.macro "EVIOCGBIT" [if nr code = 0x20 then .num 0 else .named "evdev_ev" (nr code - 0x20), .num (size a code)])
  else if nr code ≥ 0x40 ∧ nr code ≤ 0x40 + 0x3f then
    some (.macro "EVIOCGABS" [.named "evdev_abs" (nr code - 0x40)])
  else (evdevName (nr code)).map (ofSize a code)

/-- the first switch of `hiddev_decode_number`, src/ioctl.c:195-223 -/
def hidRead : Nat → Option String
  | 0x04 => some "HIDIOCGRAWNAME"
  | 0x05 => some "HIDIOCGRAWPHYS"
  | 0x06 => some "HIDIOCSFEATURE"
  | 0x08 => some "HIDIOCGRAWUNIQ"
  | 0x12 => some "HIDIOCGPHYS"
  | _ => none

/-- the second switch of `hiddev_decode_number`, src/ioctl.c:225-238 -/
def hidBoth : Nat → Option String
  | 0x06 => some "HIDIOCSFEATURE"
  | 0x07 => some "HIDIOCGFEATURE"
  | _ => none

/-- `hiddev_decode_number`, src/ioctl.c:191-242 -/
def hidNumber (a : Abi) (code : Nat) : Option Expr :=
  if dir a code = a.read then (hidRead (nr code)).map (ofSize a code)
  else if dir a code = a.read + a.write then (hidBoth (nr code)).map (ofSize a code)
  else none

/-- what strace found out about the descriptor: not looked for or not found, a character device with this major number, something else -/
inductive Finfo where
  | unknown
  | chr (major : Nat)
  | other
  deriving DecidableEq

/-- src/xlat/term_cmds_overlapping.in with the values of asm-generic/ioctls.h -/
def termCmds : Nat → Option String
  | 0x5401 => some "TCGETS"
  | 0x5402 => some "TCSETS"
  | 0x5403 => some "TCSETSW"
  | 0x5404 => some "TCSETSF"
  | 0x5405 => some "TCGETA"
  | 0x5406 => some "TCSETA"
  | 0x5407 => some "TCSETAW"
  | 0x5408 => some "TCSETAF"
  | _ => none

/-- what `ioctl_decode_command_number` printed, and whether it returned IOCTL_NUMBER_STOP_LOOKUP -/
structure Number where
  expr : Option Expr
  stop : Bool
  deriving DecidableEq

/-- a number that is printed without ending the search -/
def handled (e : Option Expr) : Number := ⟨e, false⟩

/-- `term_ioctl_decode_command_number`, src/term.c:471-490 -/
def termNumber (f : Finfo) (code : Nat) : Number :=
  match f with
  | .chr major =>
    if (3 ≤ major ∧ major ≤ 5) ∨ (136 ≤ major ∧ major ≤ 143) then
      match termCmds code with
      | some s => ⟨some (.sym s), true⟩
      | none => ⟨none, false⟩
    else ⟨none, false⟩
  | _ => ⟨none, false⟩

/-- the case 'M', src/ioctl.c:261-272 -/
def mixerNumber (a : Abi) (code : Nat) : Option Expr :=
  if dir a code = a.write then some (.macro "MIXER_WRITE" [.num (nr code)])
  else if dir a code = a.read then some (.macro "MIXER_READ" [.num (nr code)])
  else none

/-- `_IOC(_IOC_READ, '!', 2, sizeof(uint64_t))` -/
def wrongDir (a : Abi) : Nat := a.read * 2 ^ (16 + a.sizeBits) + 8 * 65536 + 0x21 * 256 + 2

/-- `ioctl_decode_command_number`, src/ioctl.c:244-302 -/
def commandNumber (a : Abi) (f : Finfo) (code : Nat) : Number :=
  if type code = 0x21 then
    handled (if code = wrongDir a then some (.sym "SECCOMP_IOCTL_NOTIF_ID_VALID_WRONG_DIR") else none)
  else if type code = 0x45 then handled (evdevNumber a code)
  else if type code = 0x48 then handled (hidNumber a code)
  else if type code = 0x4d then handled (mixerNumber a code)
  else if type code = 0x54 then termNumber f code
  else if type code = 0x55 then
    handled (if dir a code = a.read ∧ nr code = 0x2c then some (ofSize a code "UI_GET_SYSNAME") else none)
  else if type code = 0x6a then
    handled (if dir a code = a.read ∧ nr code = 0x13 then some (ofSize a code "JSIOCGNAME") else none)
  else if type code = 0x6b then
    handled (if dir a code = a.write ∧ nr code = 0 then some (ofSize a code "SPI_IOC_MESSAGE") else none)
  else handled none

/-- the symbols of the table with this code: `ioctl_lookup` and `ioctl_next_match`, src/ioctl.c:47-72 (that the binary search finds
exactly these is `Misc.ioctl_names`) -/
def symbols (table : List (String × Nat)) (code : Nat) : List Expr :=
  (table.filter (fun e => e.2 == code)).map fun e => .sym e.1

/-- the expressions printed for the request by `SYS_FUNC(ioctl)`, src/ioctl.c:528-544, with " or " between them -/
def exprs (a : Abi) (table : List (String × Nat)) (f : Finfo) (code : Nat) : List Expr :=
  let n := commandNumber a f code
  if n.stop = true then n.expr.toList
  else
    let s := symbols table code
    if s ≠ [] then n.expr.toList ++ s
    else match n.expr with
      | some e => [e]
      | none => [printCode a code]

/-- `-X` -/
inductive Style where
  | raw | abbrv | verbose
  deriving DecidableEq

/-- what is printed: a number, and expressions -/
structure Shown where
  number : Option Nat
  exprs : List Expr
  deriving DecidableEq

/-- the request as printed on entering, src/ioctl.c:508-546: what is known of the descriptor is looked for only if
`ioctl_command_overlaps`, src/ioctl.c:496-501; the argument of the call may be wider than the request -/
def request (a : Abi) (table : List (String × Nat)) (fd : Finfo) (st : Style) (arg : Nat) : Shown :=
  let code := arg % 2 ^ 32
  let f := if 0x5401 ≤ code ∧ code ≤ 0x5408 then fd else .unknown
  ⟨if st = .abbrv then none else some code, if st = .raw then [] else exprs a table f code⟩

end Strace.Ioc
