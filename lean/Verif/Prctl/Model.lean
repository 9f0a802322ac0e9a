/-!
# Model of the decoders of prctl and arch_prctl

What each option of prctl shows of its arguments, when the call begins and when it ends.

Simplifications: a number that is shown as flags, as a name, or in decimal or hexadecimal form is in the model the number
itself (the forms are modelled in `Xlat`, and those of the four control values in `Ctrl`); strings are shown in full up to the
limit that the decoder gives (`-s` is at least that); `-e verbose` is on and `-e raw` is off; the programs are 64-bit ones.
-/
namespace Strace.Prctl

/-- The phase of a call (defs.h:384-385, `entering` and `exiting`). -/
inductive Phase | entering | exiting
deriving DecidableEq, Repr

/-- Memory of the traced process: the byte at each address, if it can be read. -/
abbrev Mem := Nat → Option Nat

/-- A call: the arguments, the option being argument 0, memory when the call begins and when it ends, and whether it has
failed. -/
structure Call where
  arg : Nat → Nat
  before : Mem
  after : Mem
  failed : Bool

/-- The options that the decoder knows (prctl.c:243-797), and those that it does not. -/
inductive Opt
  | getKeepcaps | getTiming | getSeccomp | getTimerslack | perfDisable | perfEnable
  | getFpemu | getFpexc | getEndian | getChildSubreaper
  | setKeepcaps | setFpemu | setFpexc | setTiming | setEndian | setChildSubreaper
  | setNoNewPrivs | setThpDisable | setIoFlusher
  | getPdeathsig | setPdeathsig | getDumpable | setDumpable | getUnalign | setUnalign | setName | getName
  | setSeccomp | capbsetRead | capbsetDrop | getTsc | setTsc | getSecurebits | setSecurebits | setTimerslack
  | mceKill | mceKillGet | setMm | getTidAddress | setFpMode | getFpMode | capAmbient | sveSetVl | sveGetVl
  | getSpeculationCtrl | setSpeculationCtrl | pacResetKeys | setTaggedAddrCtrl | getTaggedAddrCtrl
  | setSyscallUserDispatch | pacSetEnabledKeys | pacGetEnabledKeys | schedCore | smeSetVl | smeGetVl
  | setMdwe | getMdwe | riscvVSetControl | riscvVGetControl | riscvSetIcacheFlushCtx | ppcGetDexcr | ppcSetDexcr
  | setVma | setPtracer
  | getNoNewPrivs | getThpDisable | mpxEnable | mpxDisable | getIoFlusher | setMemoryMerge | getMemoryMerge
  | other
deriving DecidableEq, Repr

/-- The numbers of the options (linux/prctl.h and the comments in prctl.c:246-794). -/
def numbers : List (Nat × Opt) :=
  [(1, .setPdeathsig), (2, .getPdeathsig), (3, .getDumpable), (4, .setDumpable), (5, .getUnalign), (6, .setUnalign),
   (7, .getKeepcaps), (8, .setKeepcaps), (9, .getFpemu), (10, .setFpemu), (11, .getFpexc), (12, .setFpexc),
   (13, .getTiming), (14, .setTiming), (15, .setName), (16, .getName), (19, .getEndian), (20, .setEndian),
   (21, .getSeccomp), (22, .setSeccomp), (23, .capbsetRead), (24, .capbsetDrop), (25, .getTsc), (26, .setTsc),
   (27, .getSecurebits), (28, .setSecurebits), (29, .setTimerslack), (30, .getTimerslack), (31, .perfDisable),
   (32, .perfEnable), (33, .mceKill), (34, .mceKillGet), (35, .setMm), (36, .setChildSubreaper),
   (37, .getChildSubreaper), (38, .setNoNewPrivs), (39, .getNoNewPrivs), (40, .getTidAddress), (41, .setThpDisable),
   (42, .getThpDisable), (43, .mpxEnable), (44, .mpxDisable), (45, .setFpMode), (46, .getFpMode), (47, .capAmbient),
   (50, .sveSetVl), (51, .sveGetVl), (52, .getSpeculationCtrl), (53, .setSpeculationCtrl), (54, .pacResetKeys),
   (55, .setTaggedAddrCtrl), (56, .getTaggedAddrCtrl), (57, .setIoFlusher), (58, .getIoFlusher),
   (59, .setSyscallUserDispatch), (60, .pacSetEnabledKeys), (61, .pacGetEnabledKeys), (62, .schedCore),
   (63, .smeSetVl), (64, .smeGetVl), (65, .setMdwe), (66, .getMdwe), (67, .setMemoryMerge), (68, .getMemoryMerge),
   (69, .riscvVSetControl), (70, .riscvVGetControl), (71, .riscvSetIcacheFlushCtx), (72, .ppcGetDexcr),
   (73, .ppcSetDexcr), (0x53564d41, .setVma), (0x59616d61, .setPtracer)]

/-- prctl.c:229: the option is an unsigned int. -/
def optOf (arg0 : Nat) : Opt := ((numbers.find? fun e => e.1 == arg0 % 2 ^ 32).map (·.2)).getD .other

/-- What is shown of the argument `i`. -/
inductive Item
  /-- a number, or its name or flags -/
  | val (i : Nat) (v : Nat)
  /-- a number of type int, a signal or a process -/
  | int (i : Nat) (v : Int)
  /-- an address -/
  | addr (i : Nat) (v : Nat)
  /-- a number in memory, in brackets -/
  | mem (i : Nat) (v : Nat)
  /-- a string in memory -/
  | str (i : Nat) (s : List Nat)
  /-- the program of a filter: its length and where it is (bpf_seccomp_filter.c:46-50) -/
  | fprog (i : Nat) (len filter : Nat)
deriving DecidableEq, Repr

/-- ucopy.c, `umoven`: `n` bytes from address `a` on, if all of them can be read. -/
def umoven (m : Mem) (a : Nat) : Nat → Option (List Nat)
  | 0 => some []
  | n + 1 =>
    match m a, umoven m (a + 1) n with
    | some b, some l => some (b :: l)
    | _, _ => none

/-- The number in bytes, the least significant first. -/
def number : List Nat → Nat
  | [] => 0
  | b :: l => b + 256 * number l

/-- ucopy.c, `umovestr`: at most `n` bytes up to a zero byte. -/
def umovestr (m : Mem) (a : Nat) : Nat → Option (List Nat)
  | 0 => some []
  | n + 1 =>
    match m a with
    | none => none
    | some b => if b = 0 then some [] else (umovestr m (a + 1) n).map (b :: ·)

/-- The memory of a phase. -/
def memAt (ph : Phase) (c : Call) : Mem := if ph = .entering then c.before else c.after

/-- util.c:1733-1757: `umove_or_printaddr`, then the number in brackets (also util.c, `printnum_*`). -/
def printnum (ph : Phase) (c : Call) (i n : Nat) : Item :=
  if c.arg i = 0 ∨ (ph = .exiting ∧ c.failed = true) then .addr i (c.arg i)
  else
    match umoven (memAt ph c) (c.arg i) n with
    | some l => .mem i (number l)
    | none => .addr i (c.arg i)

/-- util.c, `printstr_ex` of a string that ends with a zero byte, of at most `n` bytes. -/
def printstr (ph : Phase) (c : Call) (i n : Nat) : Item :=
  if c.arg i = 0 then .addr i 0
  else
    match umovestr (memAt ph c) (c.arg i) n with
    | some l => .str i l
    | none => .addr i (c.arg i)

/-- bpf_seccomp_filter.c:46-50 and bpf_filter.c, `decode_bpf_fprog`: the length in the first two bytes, the address in bytes 8 to 15. -/
def printFprog (ph : Phase) (c : Call) (i : Nat) : Item :=
  if c.arg i = 0 then .addr i 0
  else
    match umoven (memAt ph c) (c.arg i) 16 with
    | some l => .fprog i (number (l.take 2)) (number (l.drop 8))
    | none => .addr i (c.arg i)

/-- A word as `int`. -/
def toInt (v : Nat) : Int := if v % 2 ^ 32 < 2 ^ 31 then (v % 2 ^ 32 : Nat) else (v % 2 ^ 32 : Nat) - 2 ^ 32

/-- prctl.c:66-73: the arguments from `first` to the last, which is 4. -/
def restFrom (c : Call) (first : Nat) : List Item := ((List.range 5).drop first).map fun i => .val i (c.arg i)

/-- prctl.c:227-799, without the option itself, which is shown on entering: what is shown, and whether the decoder is
finished.  The result is shown in ways that are not in this model. -/
def sysPrctl (ph : Phase) (c : Call) (o : Opt) : List Item × Bool :=
  match o with
  -- prctl.c:246-252
  | .getKeepcaps => ([], true)
  | .getTiming => ([], true)
  | .getSeccomp => ([], true)
  | .getTimerslack => ([], true)
  | .perfDisable => ([], true)
  | .perfEnable => ([], true)
  -- prctl.c:255-263
  | .getFpemu => (if ph = .entering then [] else [printnum ph c 1 4], false)
  | .getFpexc => (if ph = .entering then [] else [printnum ph c 1 4], false)
  | .getEndian => (if ph = .entering then [] else [printnum ph c 1 4], false)
  | .getChildSubreaper => (if ph = .entering then [] else [printnum ph c 1 4], false)
  -- prctl.c:266-274
  | .setKeepcaps => ([.val 1 (c.arg 1)], true)
  | .setFpemu => ([.val 1 (c.arg 1)], true)
  | .setFpexc => ([.val 1 (c.arg 1)], true)
  | .setTiming => ([.val 1 (c.arg 1)], true)
  | .setEndian => ([.val 1 (c.arg 1)], true)
  | .setChildSubreaper => ([.val 1 (c.arg 1)], true)
  -- prctl.c:277-283
  | .setNoNewPrivs => (.val 1 (c.arg 1) :: restFrom c 2, true)
  | .setThpDisable => (.val 1 (c.arg 1) :: restFrom c 2, true)
  | .setIoFlusher => (.val 1 (c.arg 1) :: restFrom c 2, true)
  -- prctl.c:285-293
  | .getPdeathsig => (if ph = .entering then [] else [printnum ph c 1 4], false)
  -- prctl.c:295-301
  | .setPdeathsig => ([if c.arg 1 > 128 then .val 1 (c.arg 1) else .int 1 (toInt (c.arg 1))], true)
  -- prctl.c:303-309
  | .getDumpable => ([], false)
  -- prctl.c:311-314
  | .setDumpable => ([.val 1 (c.arg 1)], true)
  -- prctl.c:316-324
  | .getUnalign => (if ph = .entering then [] else [printnum ph c 1 4], false)
  -- prctl.c:326-329: `printflags` takes an unsigned int
  | .setUnalign => ([.val 1 (c.arg 1 % 2 ^ 32)], true)
  -- prctl.c:340-344
  | .setName => ([printstr ph c 1 15], true)
  -- prctl.c:346-356
  | .getName =>
    (if ph = .entering then [] else if c.failed = true then [.addr 1 (c.arg 1)] else [printstr ph c 1 16], false)
  -- prctl.c:363-375
  | .setSeccomp =>
    if c.arg 1 = 1 then ([.val 1 (c.arg 1)], true)
    else if c.arg 1 = 2 then ([.val 1 (c.arg 1), printFprog ph c 2], true)
    else (.val 1 (c.arg 1) :: restFrom c 2, true)
  -- prctl.c:377-381
  | .capbsetRead => ([.val 1 (c.arg 1)], true)
  | .capbsetDrop => ([.val 1 (c.arg 1)], true)
  -- prctl.c:383-391
  | .getTsc => (if ph = .entering then [] else [printnum ph c 1 4], false)
  -- prctl.c:393-396
  | .setTsc => ([.val 1 (c.arg 1 % 2 ^ 32)], true)
  -- prctl.c:398-406
  | .getSecurebits => ([], false)
  -- prctl.c:408-411
  | .setSecurebits => ([.val 1 (c.arg 1)], true)
  -- prctl.c:413-416
  | .setTimerslack => ([.val 1 (c.arg 1)], true)
  -- prctl.c:422-432
  | .mceKill => (.val 1 (c.arg 1) :: .val 2 (c.arg 2) :: restFrom c 3, true)
  -- prctl.c:434-443
  | .mceKillGet => (if ph = .entering then restFrom c 1 else [], false)
  -- prctl.c:445-449
  | .setMm => (.val 1 (c.arg 1 % 2 ^ 32) :: restFrom c 2, true)
  -- prctl.c:456-461
  | .getTidAddress => (if ph = .entering then [] else [printnum ph c 1 8], false)
  -- prctl.c:468-471
  | .setFpMode => ([.val 1 (c.arg 1 % 2 ^ 32)], true)
  -- prctl.c:473-481
  | .getFpMode => ([], false)
  -- prctl.c:483-499
  | .capAmbient =>
    if c.arg 1 = 2 ∨ c.arg 1 = 3 ∨ c.arg 1 = 1 then (.val 1 (c.arg 1) :: .val 2 (c.arg 2) :: restFrom c 3, true)
    else (.val 1 (c.arg 1) :: restFrom c 2, true)
  -- prctl.c:503-519
  | .sveSetVl => (if ph = .entering then [.val 1 (c.arg 1)] else [], false)
  | .sveGetVl => ([], false)
  -- prctl.c:521-543
  | .getSpeculationCtrl => (if ph = .entering then [.val 1 (c.arg 1)] else [], false)
  -- prctl.c:545-562
  | .setSpeculationCtrl => ([.val 1 (c.arg 1), .val 2 (c.arg 2)], true)
  -- prctl.c:564-570
  | .pacResetKeys => (.val 1 (c.arg 1) :: restFrom c 2, true)
  -- prctl.c:572-576
  | .setTaggedAddrCtrl => (.val 1 (c.arg 1) :: restFrom c 2, true)
  -- prctl.c:578-587
  | .getTaggedAddrCtrl => (if ph = .entering then restFrom c 1 else [], false)
  -- prctl.c:592-602
  | .setSyscallUserDispatch => ([.val 1 (c.arg 1), .val 2 (c.arg 2), .val 3 (c.arg 3), .addr 4 (c.arg 4)], true)
  -- prctl.c:604-611
  | .pacSetEnabledKeys => (.val 1 (c.arg 1) :: .val 2 (c.arg 2) :: restFrom c 3, true)
  -- prctl.c:613-623
  | .pacGetEnabledKeys => (if ph = .entering then restFrom c 1 else [], false)
  -- prctl.c:625-665
  | .schedCore =>
    if ph = .entering then
      if c.arg 1 % 2 ^ 32 = 0 then
        ([.val 1 (c.arg 1 % 2 ^ 32), .int 2 (toInt (c.arg 2)), .val 3 (c.arg 3 % 2 ^ 32)], false)
      else
        ([.val 1 (c.arg 1 % 2 ^ 32), .int 2 (toInt (c.arg 2)), .val 3 (c.arg 3 % 2 ^ 32), .addr 4 (c.arg 4)], true)
    else if c.failed = true then ([.addr 4 (c.arg 4)], true)
    else ([printnum ph c 4 8], true)
  -- prctl.c:667-683
  | .smeSetVl => (if ph = .entering then [.val 1 (c.arg 1)] else [], false)
  | .smeGetVl => ([], false)
  -- prctl.c:685-689: `printflags` takes an unsigned int
  | .setMdwe => (.val 1 (c.arg 1 % 2 ^ 32) :: restFrom c 2, true)
  -- prctl.c:691-701
  | .getMdwe => (if ph = .entering then restFrom c 1 else [], false)
  -- prctl.c:706-713
  | .riscvVSetControl => ([.val 1 (c.arg 1)], true)
  -- prctl.c:715-722
  | .riscvVGetControl => ([], false)
  -- prctl.c:724-735
  | .riscvSetIcacheFlushCtx => ([.val 1 (c.arg 1), .val 2 (c.arg 2)], true)
  -- prctl.c:737-749; what it returns on entering has no effect
  | .ppcGetDexcr => (if ph = .entering then .val 1 (c.arg 1) :: restFrom c 2 else [], false)
  -- prctl.c:751-758
  | .ppcSetDexcr => (.val 1 (c.arg 1) :: .val 2 (c.arg 2) :: restFrom c 3, true)
  -- prctl.c:760-775; the limit of the string is that of -s
  | .setVma =>
    if c.arg 1 = 0 then ([.val 1 (c.arg 1), .addr 2 (c.arg 2), .val 3 (c.arg 3), printstr ph c 4 32], true)
    else (.val 1 (c.arg 1) :: restFrom c 2, true)
  -- prctl.c:777-785
  | .setPtracer => ([.int 1 (toInt (c.arg 1))], true)
  -- prctl.c:787-797
  | .getNoNewPrivs => (restFrom c 1, true)
  | .getThpDisable => (restFrom c 1, true)
  | .mpxEnable => (restFrom c 1, true)
  | .mpxDisable => (restFrom c 1, true)
  | .getIoFlusher => (restFrom c 1, true)
  | .setMemoryMerge => (restFrom c 1, true)
  | .getMemoryMerge => (restFrom c 1, true)
  | .other => (restFrom c 1, true)

/-- What is shown when the call begins and what is shown when it ends. -/
structure Shown where
  early : List Item
  late : List Item
deriving DecidableEq, Repr

/-- syscall.c:673, 682 and 830-839: the decoder is called on entering, and on exiting unless it has said that it is
finished. -/
def run (c : Call) : Shown :=
  let e := sysPrctl .entering c (optOf (c.arg 0))
  if e.2 = true then ⟨e.1, []⟩ else ⟨e.1, (sysPrctl .exiting c (optOf (c.arg 0))).1⟩

/-! ## arch_prctl -/

/-- The codes of arch_prctl that have a case of their own (prctl.c:816-850, xlat/archvals.in). -/
def archGetters : List Nat := [0x1003, 0x1004]
def archXcompGetters : List Nat := [0x1021, 0x1022, 0x1024]
def archXcompSetters : List Nat := [0x1023, 0x1025]
def archNoArgument : List Nat := [0x1011]

/-- prctl.c:807-886 -/
def sysArchPrctl (ph : Phase) (c : Call) : List Item × Bool :=
  let o := c.arg 0 % 2 ^ 32
  if o ∈ archGetters then (if ph = .entering then [] else [printnum ph c 1 8], false)
  else if o ∈ archNoArgument then ([], true)
  else if o ∈ archXcompGetters then (if ph = .entering then [] else [printnum ph c 1 8], false)
  else if o ∈ archXcompSetters then (if ph = .entering then [.val 1 (c.arg 1)] else [], false)
  else ([.val 1 (c.arg 1)], true)

/-- The same for arch_prctl. -/
def runArch (c : Call) : Shown :=
  let e := sysArchPrctl .entering c
  if e.2 = true then ⟨e.1, []⟩ else ⟨e.1, (sysArchPrctl .exiting c).1⟩

end Strace.Prctl
