import Verif.Arr.Model
import Verif.Sock.Model
/-!
# Messages and vectors of messages: src/msghdr.c, src/mmsghdr.c, src/io.c (vectors of buffers)

`mem a` is the byte of the tracee at an address, `none` if it cannot be read.  The machine is little-endian; the words of the
tracee have `w` = 4 or 8 bytes.  A buffer shown is its address, the number of its bytes that are shown and whether they are decoded
as netlink messages; the names of constants and flags, the list of control messages (`Verif/Walk`) and the text of a timeout are
not modelled here.
-/
namespace Strace.Msg
open Strace.Sized (Byte moven le fld)
open Strace.Arr (Cfg Src)

abbrev Mem := Nat → Option Byte

/-- `struct msghdr`; `namelen` is used as an `int` -/
structure Hdr where
  name : Nat
  namelen : Int
  iov : Nat
  iovlen : Nat
  control : Nat
  controllen : Nat
  flags : Nat
  deriving DecidableEq, Repr

/-- `struct mmsghdr` -/
structure MHdr where
  hdr : Hdr
  len : Nat
  deriving DecidableEq, Repr

/-- what the calls depend on besides their arguments: `-X`, `--secontext` and the size of a word (in `sock`), the limits of arrays
and strings, whether structures are decoded, and whether the socket given as first argument is a netlink socket (`getfdproto`) -/
structure Env where
  sock : Sock.Env
  w : Nat
  arr : Option Nat
  vb : Bool
  nlsock : Bool

/-- a buffer shown: `iov_base` with the number of bytes shown of it and whether as netlink messages, and `iov_len` -/
structure Buf where
  base : Nat
  shown : Nat
  netlink : Bool
  len : Nat
  deriving DecidableEq, Repr

/-- the part of a message that is shown -/
structure MsgTok where
  /-- `msg_name` and `msg_namelen` -/
  name : List Sock.Tok
  iov : List (Arr.Tok Buf)
  iovlen : Nat
  /-- `msg_control`: address and length, if there are control data -/
  control : Option (Nat × Nat)
  controllen : Nat
  flags : Nat
  deriving DecidableEq, Repr

/-- an element of a vector of messages: the message, and `msg_len` if it is shown -/
structure Elem where
  msg : MsgTok
  len : Option Nat
  deriving DecidableEq, Repr

/-- what is printed for an element of a vector of messages: the element, or `...`; or there is undefined behaviour -/
inductive Piece
  | shown (x : Elem)
  | dots
  | undef
  deriving DecidableEq, Repr

/-- an argument shown -/
inductive Arg
  | addr (a : Nat)
  | num (v : Nat)
  /-- a message -/
  | msg (m : MsgTok)
  /-- `{msg_namelen=v}` -/
  | namelen (v : Int)
  | vec (l : List (Arr.Tok Elem))
  | flags (v : Nat)
  /-- a timeout, as text -/
  | text (s : String)
  deriving DecidableEq, Repr

/-- the members of `struct msghdr` in its bytes -/
def hdrOf (w : Nat) (b : List Byte) : Hdr :=
  if w = 4 then ⟨fld b 0 4, Sock.sint (fld b 4 4), fld b 8 4, fld b 12 4, fld b 16 4, fld b 20 4, fld b 24 4⟩
  else ⟨fld b 0 8, Sock.sint (fld b 8 4), fld b 16 8, fld b 24 8, fld b 32 8, fld b 40 8, fld b 48 4⟩

/-- `sizeof(struct_msghdr)` -/
def hdrSize (w : Nat) : Nat := if w = 4 then 28 else 56

/-- `sizeof_struct_mmsghdr`, src/fetch_struct_mmsghdr.c:65-68 -/
def mhdrSize (w : Nat) : Nat := if w = 4 then 32 else 64

/-- `fetch_struct_msghdr`, src/fetch_struct_msghdr.c:25-60 -/
def fetchHdr (w : Nat) (mem : Mem) (a : Nat) : Option Hdr := (moven mem a (hdrSize w)).map (hdrOf w)

/-- `fetch_struct_mmsghdr`, src/fetch_struct_mmsghdr.c:25-63; `none` is the result 0, otherwise the result is the size -/
def fetchMHdr (w : Nat) (mem : Mem) (a : Nat) : Option MHdr :=
  (moven mem a (mhdrSize w)).map fun b => ⟨hdrOf w b, fld b (hdrSize w) 4⟩

/-- `print_iovec_klong`, src/io.c:72-95; the state is `data_size` -/
def iovElem (netlink : Bool) (size : Nat) (e : Nat × Nat) : Buf × Nat × Bool :=
  let len := if e.2 > size then size else e.2
  (⟨e.1, len, netlink, e.2⟩, if size ≠ 2 ^ 64 - 1 then size - len else size, true)

/-- an element of a vector of buffers, `tfetch_mem64_ignore_syserror` (src/util.c:1741-1747) and src/io.c:97-115 -/
def iovAt (w : Nat) (mem : Mem) (vb : Bool) (a : Nat) : Option (Nat × Nat) :=
  if vb = true ∧ a ≠ 0 then (moven mem a (2 * w)).map fun b => (fld b 0 w, fld b w w) else none

/-- `tprint_iov_upto`, src/io.c:121-147 -/
def iovUpto (e : Env) (mem : Mem) (fuel len a size : Nat) (netlink : Bool) : Option (List (Arr.Tok Buf)) :=
  (Arr.printArray ⟨e.arr, false, false⟩ (.tracee (iovAt e.w mem e.vb)) (iovElem netlink) fuel a len (2 * e.w) size).map (·.1)

/-- the result of `decode_sockaddr`, src/sockaddr.c:1076-1101: the family of the address, `none` if it is not decoded (-1) -/
def family (mem : Mem) (vb : Bool) (a : Nat) (addrlen : Int) : Option Nat :=
  if addrlen < 2 then none
  else (Sized.fetch mem vb a (if addrlen > 128 then 128 else addrlen.toNat)).map fun l => fld l 0 2

/-- the length of the name that is decoded, src/msghdr.c:424-426 -/
def usedLen (ulen : Option Int) (namelen : Int) : Int :=
  match ulen with
  | some u => if namelen > u then u else namelen
  | none => namelen

/-- `print_struct_msghdr`, src/msghdr.c:419-463: `ulen` is what `p_user_msg_namelen` points to -/
def printHdr (e : Env) (mem : Mem) (fuel : Nat) (h : Hdr) (ulen : Option Int) (size : Nat) : Option MsgTok :=
  (Sock.msgName e.sock mem e.vb h.name ulen h.namelen).bind fun name =>
    let fam := family mem e.vb h.name (usedLen ulen h.namelen)
    let netlink := if fam = none then e.nlsock else decide (fam = some 16)
    (iovUpto e mem fuel h.iovlen h.iov size netlink).map fun iov =>
      ⟨name, iov, h.iovlen, if h.controllen = 0 then none else some (h.control, h.controllen), h.controllen, h.flags⟩

/-- `decode_msghdr`, src/msghdr.c:479-489 -/
def decodeHdr (e : Env) (mem : Mem) (fuel : Nat) (ulen : Option Int) (a size : Nat) : Option Arg :=
  match if a ≠ 0 ∧ e.vb = true then fetchHdr e.w mem a else none with
  | some h => (printHdr e mem fuel h ulen size).map .msg
  | none => some (.addr a)

/-- `sendmsg`, src/msghdr.c:503-517, without the descriptor -/
def sendmsg (e : Env) (mem : Mem) (fuel a flags : Nat) : Option (List Arg) :=
  (decodeHdr e mem fuel none a (2 ^ 64 - 1)).map fun m => [m, .flags flags]

/-- `fetch_msghdr_namelen`, src/msghdr.c:465-477 -/
def hdrNamelen (e : Env) (mem : Mem) (a : Nat) : Option Int :=
  if a ≠ 0 ∧ e.vb = true then (fetchHdr e.w mem a).map (·.namelen) else none

/-- how a call ended: with an error, or with a value -/
inductive Ret
  | err
  | ok (v : Nat)
  deriving DecidableEq, Repr

/-- `recvmsg`, src/msghdr.c:519-554, without the descriptor: `pre` is the memory on entering, `post` on exiting -/
def recvmsg (e : Env) (pre post : Mem) (fuel a flags : Nat) (r : Ret) : Option (List Arg) :=
  match hdrNamelen e pre a with
  | none => some [.addr a, .flags flags]
  | some u =>
    match r with
    | .err => some [.namelen u, .flags flags]
    | .ok v => (decodeHdr e post fuel (some u) a v).map fun m => [m, .flags flags]

/-- `struct print_struct_mmsghdr_config`, src/mmsghdr.c:26-31; `p_user_msg_namelen` is a table and an index into it -/
structure Conf where
  table : Option (List Int × Nat)
  msgLenVlen : Nat
  count : Nat
  useMsgLen : Bool

/-- the int that `p_user_msg_namelen` points to: a read beyond the table is undefined behaviour, `none` -/
def Conf.ulen (c : Conf) : Option (Option Int) :=
  match c.table with
  | none => some none
  | some (t, i) => (t[i]?).map some

/-- the message printed, or undefined behaviour -/
def piece : Option Elem → Piece
  | some x => .shown x
  | none => .undef

/-- `print_struct_mmsghdr`, src/mmsghdr.c:33-61 -/
def printMHdr (e : Env) (mem : Mem) (fuel : Nat) (c : Conf) (m : MHdr) : Piece × Conf × Bool :=
  if c.count = 0 then (.dots, c, false)
  else
    (piece (c.ulen.bind fun u =>
      (printHdr e mem fuel m.hdr u (if c.useMsgLen = true then m.len else 2 ^ 64 - 1)).map fun t =>
        ⟨t, if c.msgLenVlen ≠ 0 then some m.len else none⟩),
     { c with table := c.table.map fun t => (t.1, t.2 + 1), msgLenVlen := c.msgLenVlen - 1, count := c.count - 1 }, true)

/-- `IOV_MAX` -/
def iovMax : Nat := 1024

/-- the loop of `save_mmsgvec_namelen`, src/mmsghdr.c:93-101: the lengths saved -/
def saveLoop (w : Nat) (pre : Mem) : Nat → Nat → List Int
  | _, 0 => []
  | a, n + 1 =>
    match fetchMHdr w pre a with
    | none => []
    | some m => m.hdr.namelen :: saveLoop w pre ((a + mhdrSize w) % 2 ^ 64) n

/-- `save_mmsgvec_namelen`, src/mmsghdr.c:79-104 -/
def saveNamelen (w : Nat) (pre : Mem) (a len : Nat) : List Int := saveLoop w pre a (if len > iovMax then iovMax else len)

/-- everything printed, if there is no undefined behaviour -/
def whole : List (Arr.Tok Piece) → Option (List (Arr.Tok Elem))
  | [] => some []
  | .elem .undef :: _ => none
  | .elem .dots :: l => (whole l).map (.more :: ·)
  | .elem (.shown a) :: l => (whole l).map (.elem a :: ·)
  | .null :: l => (whole l).map (.null :: ·)
  | .opened :: l => (whole l).map (.opened :: ·)
  | .closed :: l => (whole l).map (.closed :: ·)
  | .next :: l => (whole l).map (.next :: ·)
  | .more :: l => (whole l).map (.more :: ·)
  | .index i :: l => (whole l).map (.index i :: ·)
  | .addr a :: l => (whole l).map (.addr a :: ·)
  | .comment a :: l => (whole l).map (.comment a :: ·)
  | .unavailable :: l => (whole l).map (.unavailable :: ·)

/-- `count`, src/mmsghdr.c:114 and 119-121 -/
def countOf : Option (List Int) → Nat
  | some t => if t.length < iovMax then t.length else iovMax
  | none => iovMax

/-- `decode_mmsgvec`, src/mmsghdr.c:106-128: `saved` is the table of `save_mmsgvec_namelen`, `err` is `syserror` as
`fetch_struct_mmsghdr_for_print` (src/mmsghdr.c:17-24) sees it -/
def decodeVec (e : Env) (mem : Mem) (fuel : Nat) (saved : Option (List Int)) (err : Bool) (a vlen msgLenVlen : Nat)
    (useMsgLen : Bool) : Option Arg :=
  let c : Conf := ⟨saved.map fun t => (t, 0), msgLenVlen, countOf saved, useMsgLen⟩
  (Arr.printArray ⟨e.arr, false, false⟩ (.tracee fun x => if err = true then none else fetchMHdr e.w mem x)
    (printMHdr e mem fuel) fuel a vlen (mhdrSize e.w) c).bind fun r => (whole r.1).map .vec

/-- an `unsigned int` -/
def u32 (v : Nat) : Nat := v % 2 ^ 32

/-- `msg_len_vlen`, src/mmsghdr.c:170-171 -/
def msgLenVlenOf : Ret → Nat
  | .err => 0
  | .ok v => u32 v

/-- `sendmmsg`, src/mmsghdr.c:149-187, without the descriptor; on exiting, `syserror` is cleared for the decoding -/
def sendmmsg (e : Env) (mem : Mem) (fuel a vlen flags : Nat) (r : Ret) : Option (List Arg) :=
  if e.vb = false then some [.addr a, .num (u32 vlen), .flags flags]
  else
    (decodeVec e mem fuel none false a (u32 vlen) (msgLenVlenOf r) false).map fun t =>
      [t, .num (u32 vlen), .flags flags]

/-- what follows the result of a call, `auxstr` -/
inductive Aux
  | none
  | timeout
  /-- `left` and a timeout -/
  | left (s : String)
  deriving DecidableEq, Repr

/-- `u_rval`; that of a call that failed is -1 -/
def Ret.val : Ret → Nat
  | .err => 2 ^ 64 - 1
  | .ok v => v

/-- `syserror` -/
def Ret.failed : Ret → Bool
  | .err => true
  | .ok _ => false

/-- what `do_recvmmsg` adds to the result, src/mmsghdr.c:236-248 -/
def auxOf (e : Env) (ts : Mem → Nat → String) (post : Mem) (tmo : Nat) (r : Ret) : Aux :=
  if r.failed = true then .none
  else if r.val = 0 then .timeout
  else if e.vb = false ∨ tmo = 0 then .none
  else .left (ts post tmo)

/-- `do_recvmmsg`, src/mmsghdr.c:189-250, without the descriptor: `ts` is the text of a timeout at an address (`sprint_ts`,
`print_ts`) -/
def recvmmsg (e : Env) (ts : Mem → Nat → String) (pre post : Mem) (fuel a vlen flags tmo : Nat) (r : Ret) :
    Option (List Arg × Aux) :=
  if e.vb = true then
    (decodeVec e post fuel (some (saveNamelen e.w pre a (u32 vlen))) r.failed a (u32 r.val) (u32 r.val) true).map fun t =>
      ([t, .num (u32 vlen), .flags flags, .text (ts pre tmo)], auxOf e ts post tmo r)
  else some ([.addr a, .num (u32 vlen), .flags flags, .text (ts pre tmo)], auxOf e ts post tmo r)

end Strace.Msg
