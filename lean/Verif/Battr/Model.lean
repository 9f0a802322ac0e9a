import Verif.Prctl.Model

/-!
# Model of the decoder of bpf

What bpf() shows of its attributes: a structure whose length the program gives, of which the kernel takes what is there and
the rest as zeros.

Simplifications: a number that is shown as a name, as flags, as a descriptor, as an interface or in decimal or hexadecimal
form is in the model the number itself with the offset and length of its field; a field that says where a string, an array or a
program is (and is shown as what is there) is in the model its number; what is at the address of `info` of
BPF_OBJ_GET_INFO_BY_FD (bpf.c:609-1087) is not modelled beyond that; brackets and names of fields are left out.
-/
namespace Strace.Battr

open Strace.Prctl (Mem umoven)

/-- A call of bpf: its three arguments, the length of a page, memory when the call begins and when it ends, and whether calls
are abbreviated (`-e abbrev`). -/
structure Call where
  cmd : Nat
  addr : Nat
  size : Nat
  page : Nat
  before : Mem
  after : Mem
  brief : Bool

/-- What is shown. -/
inductive Tok
  /-- the command -/
  | cmd (v : Nat)
  /-- the field of `n` bytes at offset `off` -/
  | field (off n : Nat) (v : Nat)
  /-- the field as it was when the call began, where its change is shown next -/
  | was (off n : Nat) (v : Nat)
  /-- ` => ` and the field as it is when the call ends -/
  | changed (off n : Nat) (v : Nat)
  /-- a name at offset `off`, and whether dots follow -/
  | str (off : Nat) (s : List Nat) (dots : Bool)
  /-- `extra_data`, from the given offset on -/
  | extra (start : Nat) (bytes : List Nat)
  /-- dots in place of `extra_data` -/
  | more
  | addr (v : Nat)
  | size (v : Nat)
deriving DecidableEq, Repr

/-- When a field is shown. -/
inductive Cond
  | always
  /-- if bit `k` of the byte at `off` is set -/
  | bit (off k : Nat)
  /-- if the field is not zero -/
  | nonzero
deriving DecidableEq, Repr

/-- One field of a decoder: `if (len <= guard) break;` and what is shown (guard 0: nothing is tested, as `len` is not 0). -/
structure Fld where
  guard : Nat
  off : Nat
  n : Nat
  isStr : Bool := false
  cond : Cond := .always
deriving DecidableEq, Repr

/-- What is shown when the call ends. -/
inductive Late
  | fld (f : Fld)
  /-- the field, if it is not what it was -/
  | changed (off n : Nat)
  /-- what the field was, if it is not that any more, and what it is (bpf.c:1157-1164) -/
  | both (off n : Nat)
deriving DecidableEq, Repr

/-- How a decoder goes about the two phases. -/
inductive Kind
  /-- all is shown when the call begins -/
  | once
  /-- the structure is ended when the call ends -/
  | twice
  /-- the structure is ended when the call begins, and its count may be shown again (bpf.c:1264-1386) -/
  | batch
deriving DecidableEq, Repr

/-- A decoder: the length of its structure (`attr_size`) and what it shows. -/
structure Dec where
  size : Nat
  kind : Kind := .once
  early : List Fld
  late : List Late := []
deriving DecidableEq, Repr

/-- A field that is shown if it is there. -/
def at_ (guard off n : Nat) : Fld := { guard := guard, off := off, n := n }

/-- bpf.c:172-265 and bpf_attr.h:39-58 -/
def mapCreate : Dec :=
  { size := 72
    early := [at_ 0 0 4, at_ 0 4 4, at_ 0 8 4, at_ 0 12 4, at_ 16 16 4, at_ 20 20 4,
      { guard := 24, off := 24, n := 4, cond := .bit 16 2 },
      { guard := 28, off := 28, n := 16, isStr := true },
      at_ 44 44 4, at_ 48 48 4, at_ 48 52 4, at_ 48 56 4, at_ 60 60 4, at_ 64 64 8] }

/-- bpf.c:267-281 and bpf_attr.h:60-69 -/
def lookupElem : Dec := { size := 32, early := [at_ 0 0 4, at_ 0 8 8, at_ 0 16 8, at_ 24 24 8] }

/-- bpf.c:285-296 and bpf_attr.h:71-80 -/
def updateElem : Dec := { size := 32, early := [at_ 0 0 4, at_ 0 8 8, at_ 0 16 8, at_ 0 24 8] }

/-- bpf.c:298-305 and bpf_attr.h:82-89 -/
def deleteElem : Dec := { size := 16, early := [at_ 0 0 4, at_ 0 8 8] }

/-- bpf.c:307-316 and bpf_attr.h:91-99 -/
def getNextKey : Dec := { size := 24, early := [at_ 0 0 4, at_ 0 8 8, at_ 0 16 8] }

/-- bpf.c:318-323 and bpf_attr.h:101-107 -/
def freeze : Dec := { size := 4, early := [at_ 0 0 4] }

/-- bpf.c:325-432 and bpf_attr.h:109-137 -/
def progLoad : Dec :=
  { size := 128
    early := [at_ 0 0 4, at_ 0 4 4, at_ 0 8 8, at_ 0 16 8, at_ 24 24 4, at_ 24 28 4, at_ 24 32 8, at_ 40 40 4, at_ 44 44 4,
      { guard := 48, off := 48, n := 16, isStr := true },
      at_ 64 64 4, at_ 68 68 4, at_ 72 72 4, at_ 72 76 4, at_ 72 80 8, at_ 72 88 4, at_ 72 92 4, at_ 72 96 8,
      at_ 72 104 4, at_ 108 108 4, at_ 112 112 4, at_ 120 120 8] }

/-- bpf.c:434-456 and bpf_attr.h:139-148 -/
def objPin : Dec := { size := 20, early := [at_ 0 0 8, at_ 0 8 4, at_ 12 12 4, at_ 16 16 4] }

/-- bpf.c:460-480 and bpf_attr.h:153-163 -/
def progAttach : Dec := { size := 20, early := [at_ 0 0 4, at_ 0 4 4, at_ 0 8 4, at_ 0 12 4, at_ 16 16 4] }

/-- bpf.c:482-489 and bpf_attr.h:165-173 -/
def progDetach : Dec := { size := 12, early := [at_ 0 0 4, at_ 0 8 4] }

/-- bpf.c:491-545 and bpf_attr.h:175-196 -/
def testRun : Dec :=
  { size := 76
    early := [at_ 0 0 4, at_ 0 4 4, at_ 0 8 4, at_ 0 12 4, at_ 0 16 8, at_ 0 24 8, at_ 0 32 4, at_ 0 36 4,
      at_ 40 40 4, at_ 40 44 4, at_ 40 48 8, at_ 40 56 8, at_ 64 64 4, at_ 64 68 4, at_ 72 72 4] }

/-- bpf.c:547-573 and bpf_attr.h:198-206 -/
def getNextId : Dec :=
  { size := 12, kind := .twice, early := [at_ 0 0 4, at_ 0 4 4], late := [.changed 4 4, .fld (at_ 8 8 4)] }

/-- bpf.c:579-607 and bpf_attr.h:214-232 -/
def getFdById : Dec := { size := 12, early := [at_ 0 0 4, at_ 0 4 4, at_ 8 8 4] }

/-- bpf.c:1089-1123 and bpf_attr.h:234-242 -/
def getInfo : Dec :=
  { size := 16, kind := .twice, early := [at_ 0 0 4, at_ 0 4 4], late := [.changed 4 4, .fld (at_ 0 8 8)] }

/-- bpf.c:1125-1167 and bpf_attr.h:244-255 -/
def progQuery : Dec :=
  { size := 28, kind := .twice, early := [at_ 0 0 4, at_ 0 4 4, at_ 0 8 4, at_ 0 12 4],
    late := [.fld (at_ 0 16 8), .both 24 4] }

/-- bpf.c:1169-1194 and bpf_attr.h:257-266: the test of the last field is `len >= 24` -/
def rawTracepointOpen : Dec := { size := 24, early := [at_ 0 0 8, at_ 0 8 4, at_ 23 16 8] }

/-- bpf.c:1196-1211 and bpf_attr.h:268-278 -/
def btfLoad : Dec := { size := 28, early := [at_ 0 0 8, at_ 0 8 8, at_ 0 16 4, at_ 0 20 4, at_ 0 24 4] }

/-- bpf.c:1213-1218 and bpf_attr.h:280-286 (and bpf.c:1556-1571, 1585-1593 and bpf_attr.h:444-458, 469-475) -/
def idOnly : Dec := { size := 4, early := [at_ 0 0 4] }

/-- bpf.c:1220-1262 and bpf_attr.h:288-302 -/
def taskFdQuery : Dec :=
  { size := 48, kind := .twice, early := [at_ 0 0 4, at_ 0 4 4, at_ 0 8 4, at_ 0 12 4],
    late := [.changed 12 4, .fld (at_ 0 16 8), .fld (at_ 0 24 4), .fld (at_ 0 28 4), .fld (at_ 0 32 8), .fld (at_ 0 40 8)] }

/-- bpf.c:1264-1306 and bpf_attr.h:378-391 -/
def lookupBatch : Dec :=
  { size := 56, kind := .batch
    early := [at_ 0 0 8, at_ 0 8 8, at_ 0 16 8, at_ 0 24 8, at_ 0 32 4, at_ 0 36 4, at_ 0 40 8, at_ 0 48 8]
    late := [.changed 32 4] }

/-- bpf.c:1310-1348 -/
def updateBatch : Dec :=
  { size := 56, kind := .batch
    early := [at_ 0 16 8, at_ 0 24 8, at_ 0 32 4, at_ 0 36 4, at_ 0 40 8, at_ 0 48 8]
    late := [.changed 32 4] }

/-- bpf.c:1350-1386 -/
def deleteBatch : Dec :=
  { size := 56, kind := .batch
    early := [at_ 0 16 8, at_ 0 32 4, at_ 0 36 4, at_ 0 40 8, at_ 0 48 8]
    late := [.changed 32 4] }

/-- The four fields that BPF_LINK_CREATE begins with (bpf.c:1425-1434). -/
def linkHead : List Fld := [at_ 0 0 4, at_ 0 4 4, at_ 0 8 4, at_ 0 12 4]

/-- bpf.c:1423-1536 and bpf_attr.h:402-431: what the attributes are from offset 16 on depends on the attach type `ty`, and only
the fields that are shown count as known. -/
def linkCreate (len ty : Nat) : Dec :=
  if len ≤ 16 then { size := 48, early := linkHead }
  else if ty = 0 then { size := 20, early := linkHead ++ [{ guard := 0, off := 16, n := 4, cond := .nonzero }] }
  else if ty = 28 then { size := 28, early := linkHead ++ [at_ 0 16 8, at_ 0 24 4] }
  else if ty = 41 then { size := 24, early := linkHead ++ [at_ 0 16 8] }
  else if ty = 42 then
    { size := 48, early := linkHead ++ [at_ 0 16 4, at_ 0 20 4, at_ 0 24 8, at_ 0 32 8, at_ 0 40 8] }
  else { size := 16, early := linkHead }

/-- bpf.c:1538-1554 and bpf_attr.h:433-442 -/
def linkUpdate : Dec :=
  { size := 16, early := [at_ 0 0 4, at_ 0 4 4, at_ 0 8 4, { guard := 0, off := 12, n := 4, cond := .bit 8 2 }] }

/-- bpf.c:1573-1583 and bpf_attr.h:460-467 (and, with the names the other way round, bpf.c:1609-1619 and bpf_attr.h:487-494) -/
def two : Dec := { size := 8, early := [at_ 0 0 4, at_ 0 4 4] }

/-- bpf.c:1595-1607 and bpf_attr.h:477-485 -/
def progBindMap : Dec := { size := 12, early := [at_ 0 0 4, at_ 0 4 4, at_ 0 8 4] }

/-- A number of `n` bytes, the lowest first. -/
def num (b : Nat → Nat) (off : Nat) : Nat → Nat
  | 0 => 0
  | n + 1 => b off + 256 * num b (off + 1) n

/-- bpf.c:53-56: the structure is zeros, and `len` bytes of the data are copied to it. -/
def attr (data : List Nat) (len i : Nat) : Nat := if i < len then data.getD i 0 else 0

/-- bpf.c:1623-1661, `bpf_cmd_decoders`: the decoders by command. The full length of the structure of BPF_LINK_CREATE is 48. -/
def decoder (cmd : Nat) (data : List Nat) : Option Dec :=
  match cmd with
  | 0 => some mapCreate
  | 1 => some lookupElem
  | 2 => some updateElem
  | 3 => some deleteElem
  | 4 => some getNextKey
  | 5 => some progLoad
  | 6 => some objPin
  | 7 => some objPin
  | 8 => some progAttach
  | 9 => some progDetach
  | 10 => some testRun
  | 11 => some getNextId
  | 12 => some getNextId
  | 13 => some getFdById
  | 14 => some getFdById
  | 15 => some getInfo
  | 16 => some progQuery
  | 17 => some rawTracepointOpen
  | 18 => some btfLoad
  | 19 => some idOnly
  | 20 => some taskFdQuery
  | 21 => some lookupElem
  | 22 => some freeze
  | 23 => some getNextId
  | 24 => some lookupBatch
  | 25 => some lookupBatch
  | 26 => some updateBatch
  | 27 => some deleteBatch
  | 28 => some (linkCreate (min data.length 48) (num (attr data (min data.length 48)) 8 4))
  | 29 => some linkUpdate
  | 30 => some idOnly
  | 31 => some getNextId
  | 32 => some idOnly
  | 33 => some two
  | 34 => some idOnly
  | 35 => some progBindMap
  | 36 => some two
  | _ => none

/-- util.c:1303-1304 and 1126-1287, `string_quote` with QUOTE_0_TERMINATED for a buffer of `size` bytes at `off`: the bytes
before the first NUL among the first `size - 1`, and whether there is none and the next is not NUL either. -/
def cstring (b : Nat → Nat) (off size : Nat) : List Nat × Bool :=
  let l := (List.range (size - 1)).map fun k => b (off + k)
  (l.takeWhile (· ≠ 0), (l.takeWhile (· ≠ 0)).length == size - 1 && b (off + (size - 1)) ≠ 0)

/-- What is shown of one field, the structure holding `b`, of which `len` bytes have been given (bpf.c:217-223). -/
def show1 (b : Nat → Nat) (len : Nat) (f : Fld) : List Tok :=
  match f.cond with
  | .bit o k => if (b o).testBit k then [.field f.off f.n (num b f.off f.n)] else []
  | .nonzero => if num b f.off f.n ≠ 0 then [.field f.off f.n (num b f.off f.n)] else []
  | .always =>
    if f.isStr then
      let s := cstring b f.off (min f.n (len - f.off))
      [.str f.off s.1 s.2]
    else [.field f.off f.n (num b f.off f.n)]

/-- The fields in order, up to the first that is beyond what has been given. -/
def shows (b : Nat → Nat) (len : Nat) : List Fld → List Tok
  | [] => []
  | f :: r => if len ≤ f.guard then [] else show1 b len f ++ shows b len r

/-- What is shown when the call ends; `w` is what the structure was (`set_tcb_priv_ulong` keeps the field in question). -/
def showsLate (w b : Nat → Nat) (len : Nat) : List Late → List Tok
  | [] => []
  | .fld f :: r => if len ≤ f.guard then [] else show1 b len f ++ showsLate w b len r
  | .changed o n :: r =>
    (if num w o n ≠ num b o n then [.changed o n (num b o n)] else []) ++ showsLate w b len r
  | .both o n :: r =>
    (if num w o n ≠ num b o n then [.was o n (num w o n), .changed o n (num b o n)] else [.field o n (num b o n)])
      ++ showsLate w b len r

/-- bpf.c:82-111, `decode_attr_extra_data` -/
def extraData (brief : Bool) (data : List Nat) (size : Nat) : List Tok :=
  if (data.drop size).any (· ≠ 0) then
    if brief then [.more] else [.extra size (data.drop size)]
  else []

/-- bpf.c:50-65 in the first phase: what is shown, and whether that is all (RVAL_DECODED). -/
def decodeEarly (brief : Bool) (d : Dec) (data : List Nat) : List Tok × Bool :=
  let len := min data.length d.size
  let l := shows (attr data len) len d.early
  match d.kind with
  | .once => (l ++ extraData brief data d.size, true)
  | .twice => (l, false)
  | .batch => (l ++ extraData brief data d.size, false)

/-- bpf.c:50-65 in the second phase; `was` is the data that was read in the first. -/
def decodeLate (brief : Bool) (d : Dec) (was data : List Nat) : List Tok :=
  let len := min data.length d.size
  let l := showsLate (attr was len) (attr data len) len d.late
  match d.kind with
  | .twice => l ++ extraData brief data d.size
  | _ => l

/-- bpf.c:1674-1688: the attributes, if they are read: there are some, no more than a page of them, the command is known, and
memory can be read (`umoven_or_printaddr_ignore_syserror`). -/
def fetch (c : Call) (m : Mem) : Option (List Nat) :=
  if 0 < c.size % 2 ^ 32 ∧ c.size % 2 ^ 32 ≤ c.page ∧ (decoder (c.cmd % 2 ^ 32) []).isSome then
    umoven m c.addr (c.size % 2 ^ 32)
  else none

/-- bpf.c:1621-1697 in the first phase: what is shown, and whether that is all. -/
def enter (c : Call) : List Tok × Bool :=
  let rest : List Tok × Bool :=
    match fetch c c.before with
    | none => ([.addr c.addr], true)
    | some data =>
      match decoder (c.cmd % 2 ^ 32) data with
      | none => ([.addr c.addr], true)
      | some d => decodeEarly c.brief d data
  (.cmd (c.cmd % 2 ^ 32) :: rest.1 ++ (if rest.2 then [.size (c.size % 2 ^ 32)] else []), rest.2)

/-- bpf.c:1621-1697 in the second phase, after a first phase that did not show all. -/
def exit (c : Call) : List Tok :=
  (match fetch c c.after with
    | none => [.addr c.addr]
    | some data =>
      match decoder (c.cmd % 2 ^ 32) data with
      | none => [.addr c.addr]
      | some d => decodeLate c.brief d ((fetch c c.before).getD []) data) ++ [.size (c.size % 2 ^ 32)]

/-- The two phases: what is shown when the call begins, and when it ends. -/
def run (c : Call) : List Tok × List Tok := ((enter c).1, if (enter c).2 then [] else exit c)

end Strace.Battr
