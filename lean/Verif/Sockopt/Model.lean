/-!
# Socket options: src/net.c

Levels and options have the numbers of x86 (xlat/socketlayers.in, xlat/sock_options.in). `mem` gives the bytes of the tracee from the
address of the option value on, which is not NULL; the calls are subject to -e verbose.
-/
namespace Strace.Sockopt

/-- the memory of the tracee from the address of the value on -/
abbrev Mem := Nat → Option Nat

/-- `umoven`: all of the bytes or nothing (src/ucopy.c is C19) -/
def bytesAt (mem : Mem) (a : Nat) : Nat → Option (List Nat)
  | 0 => some []
  | n + 1 =>
    match mem a, bytesAt mem (a + 1) n with
    | some b, some r => some (b :: r)
    | _, _ => none

def fetch (mem : Mem) (n : Nat) : Option (List Nat) := bytesAt mem 0 n

/-- a little-endian number -/
def val (bs : List Nat) : Nat := bs.foldr (fun b r => b + 256 * r) 0

/-- how a number is spelled: plain, as an error, as a constant, as a descriptor, as a range of ports, as a protocol -/
inductive Style where
  | plain | err | txrehash | fd | ports | proto
  deriving DecidableEq

/-- a member: the whole of it, or the bytes of it that are there -/
inductive Part where
  | whole (w : Nat) (v : Nat)
  | part (bs : List Nat)
  deriving DecidableEq

/-- what is printed for the value -/
inductive Out where
  | addr
  | num (s : Style) (v : Nat)
  | str (hex : Bool) (bs : List Nat) (more : Bool)
  | fields (l : List (String × Part))
  | bits (neg : Bool) (l : List Nat)
  | words (l : List Nat) (more : Bool)
  | prog (n : Nat)
  | progPtr
  | aoKey
  deriving DecidableEq

/-- `printstr_ex`, src/util.c:1424-1492, of `len` bytes, a `kernel_ulong_t`; `max` is `max_strlen` -/
def str (mem : Mem) (max : Nat) (hex : Bool) (len : Nat) : Out :=
  match fetch mem (min (max + 1) len) with
  | none => .addr
  | some bs => .str hex (bs.take max) (decide (len ≠ 0 ∧ len > max))

/-- `printnum_int`, `print_err`, `printfd` and others of 4 bytes, as the style tells -/
def num4 (mem : Mem) (s : Style) : Out :=
  match fetch mem 4 with
  | none => .addr
  | some bs => .num s (val bs)

/-- `MAYBE_PRINT_FIELD_LEN`, src/print_fields.h:794-811, for each of the members of a structure of which `len` bytes `bs` are there -/
def maybe (len : Nat) (bs : List Nat) : Nat → List (String × Nat) → List (String × Part)
  | _, [] => []
  | start, (name, w) :: rest =>
    (if len > start then
      [(name, if len ≥ start + w then Part.whole w (val ((bs.drop start).take w)) else Part.part ((bs.drop start).take (len - start)))]
    else []) ++ maybe len bs (start + w) rest

/-- a structure of which as many bytes are fetched as are there: `print_get_linger`, src/net.c:644-664, `print_get_ucred`,
src/net.c:666-690, and `print_tpacket_stats`, src/net.c:800-825 -/
def prefixOf (mem : Mem) (size : Nat) (l : List (String × Nat)) (len : Nat) : Out :=
  let len := if len > size then size else len
  match fetch mem len with
  | none => .addr
  | some bs => .fields (maybe len bs 0 l)

/-- `print_get_error`, `print_txrehash` on exiting, `print_get_fd`, src/net.c:692-751, and the integers of SOL_SOCKET,
src/net.c:1018-1022 -/
def int4 (mem : Mem) (max : Nat) (s : Style) (len : Nat) : Out := if len < 4 then str mem max true len else num4 mem s

/-- `print_port_range` and `print_ip_protocol`, src/net.c:753-797 -/
def exact4 (mem : Mem) (max : Nat) (s : Style) (len : Nat) : Out := if len ≠ 4 then str mem max true len else num4 mem s

/-- the members of a set of 32 bits: `next_set_bit` in a loop, src/net.c:867-876 (its search is C40) -/
def members (v : Nat) : List Nat := (List.range 32).filter fun i => v.testBit i

/-- `print_icmp_filter`, src/net.c:829-878; what is not there is all ones -/
def icmp (mem : Mem) (len : Int) : Out :=
  if len ≤ 0 then .addr
  else
    match fetch mem (min len.toNat 4) with
    | none => .addr
    | some bs =>
      let v := val (bs ++ List.replicate (4 - bs.length) 255)
      if (members v).length > 16 then .bits true (members (2 ^ 32 - 1 - v)) else .bits false (members v)

/-- the elements of `print_array`, src/util.c:1880-1991, of 4-byte words from word `k` on; it stops where memory cannot be read -/
def wordsFrom (mem : Mem) : Nat → Nat → List Nat
  | 0, _ => []
  | n + 1, k =>
    match bytesAt mem (4 * k) 4 with
    | none => []
    | some bs => val bs :: wordsFrom mem n (k + 1)

/-- the array of NETLINK_LIST_MEMBERSHIPS, src/net.c:1054-1060 -/
def words (mem : Mem) (max n : Nat) : Out := .words (wordsFrom mem (min n max) 0) (decide (n > max))

/-- the options that are integers, src/net.c:973-1017: SO_DEBUG, SO_REUSEADDR, SO_DONTROUTE, SO_BROADCAST, SO_SNDBUF, SO_RCVBUF,
SO_KEEPALIVE, SO_OOBINLINE, SO_NO_CHECK, SO_PRIORITY, SO_BSDCOMPAT, SO_REUSEPORT, SO_PASSCRED, SO_RCVLOWAT, SO_SNDLOWAT,
SO_DETACH_FILTER, SO_TIMESTAMP_OLD, SO_ACCEPTCONN, SO_SNDBUFFORCE, SO_RCVBUFFORCE, SO_PASSSEC, SO_TIMESTAMPNS_OLD, SO_MARK,
SO_TIMESTAMPING_OLD, SO_RXQ_OVFL, SO_WIFI_STATUS, SO_PEEK_OFF, SO_NOFCS, SO_LOCK_FILTER, SO_SELECT_ERR_QUEUE, SO_BUSY_POLL,
SO_INCOMING_CPU, SO_CNX_ADVICE, SO_INCOMING_NAPI_ID, SO_ZEROCOPY, SO_TIMESTAMP_NEW, SO_TIMESTAMPNS_NEW, SO_TIMESTAMPING_NEW,
SO_DETACH_REUSEPORT_BPF, SO_PREFER_BUSY_POLL, SO_BUSY_POLL_BUDGET, SO_RESERVE_MEM, SO_RCVMARK, SO_PASSPIDFD -/
def ints : List Nat :=
  [1, 2, 5, 6, 7, 8, 9, 10, 11, 12, 14, 15, 16, 18, 19, 27, 29, 30, 32, 33, 34, 35, 36, 37, 40, 41, 42, 43, 44, 45, 46, 49, 53, 56, 60,
   63, 64, 65, 68, 69, 70, 73, 75, 76]

/-- the end of `print_getsockopt` and of `print_setsockopt`, src/net.c:1069-1079 and 1388-1398; the length is an int that becomes a
`kernel_ulong_t` -/
def dflt (mem : Mem) (max : Nat) (len : Int) : Out :=
  if len = 4 then num4 mem .plain else str mem max false (len % 2 ^ 64).toNat

/-- `print_getsockopt`, src/net.c:925-1080, with the length given and the length returned -/
def get (mem : Mem) (max : Nat) (level name : Nat) (ulen rlen : Int) : Out :=
  if ulen ≤ 0 ∨ rlen ≤ 0 then .addr
  else
    let len := rlen.toNat
    match level with
    | 1 =>
      if name = 13 then prefixOf mem 8 [("l_onoff", 4), ("l_linger", 4)] len
      else if name = 17 then prefixOf mem 12 [("pid", 4), ("uid", 4), ("gid", 4)] len
      else if name = 26 then (if len < 65536 then .prog len else .addr)
      else if name = 4 then int4 mem max .err len
      else if name = 74 then int4 mem max .txrehash len
      else if name = 77 then int4 mem max .fd len
      else if name ∈ ints then int4 mem max .plain len
      else dflt mem max rlen
    | 0 =>
      if name = 51 then exact4 mem max .ports len
      else if name = 52 then exact4 mem max .proto len
      else dflt mem max rlen
    | 263 => if name = 6 then prefixOf mem 12 [("tp_packets", 4), ("tp_drops", 4), ("tp_freeze_q_cnt", 4)] len else dflt mem max rlen
    | 255 => if name = 1 then icmp mem rlen else dflt mem max rlen
    | 270 => if name = 9 then words mem max ((min ulen rlen).toNat / 4) else num4 mem .plain
    | _ => dflt mem max rlen

/-- a structure of fixed size with its members one after another, as `print_tpacket_req`, src/net.c:1199-1218, shows it -/
def struct (mem : Mem) (size : Nat) (l : List (String × Nat)) : Out :=
  match fetch mem size with
  | none => .addr
  | some bs => .fields (maybe size bs 0 l)

/-- structures that must be there as a whole: `print_set_linger`, `print_mreq` and `print_mreq6`, src/net.c:1148-1197 -/
def atLeast (mem : Mem) (size : Nat) (l : List (String × Nat)) (len : Int) : Out := if len < size then .addr else struct mem size l

/-- `print_packet_mreq`, src/net.c:1222-1242: of the address as many bytes as `mr_alen` tells are shown -/
def packetMreq (mem : Mem) (len : Int) : Out :=
  if len ≠ 16 then .addr
  else
    match fetch mem 16 with
    | none => .addr
    | some bs =>
      .fields [("mr_ifindex", .whole 4 (val (bs.take 4))), ("mr_type", .whole 2 (val ((bs.drop 4).take 2))),
        ("mr_alen", .whole 2 (val ((bs.drop 6).take 2))), ("mr_address", .part ((bs.drop 8).take (min (val ((bs.drop 6).take 2)) 8)))]

/-- `print_group_req`, src/print_group_req.c:16-30: the group follows four bytes of padding -/
def groupReq (mem : Mem) (len : Int) : Out :=
  if len < 136 then .addr
  else
    match fetch mem 136 with
    | none => .addr
    | some bs => .fields [("gr_interface", .whole 4 (val (bs.take 4))), ("gr_group", .part (bs.drop 8))]

/-- `print_setsockopt`, src/net.c:1244-1399, with the length given, an int -/
def set (mem : Mem) (max : Nat) (level name : Nat) (len : Int) : Out :=
  match level with
  | 1 =>
    if name = 13 then atLeast mem 8 [("l_onoff", 4), ("l_linger", 4)] len
    else if name = 26 ∨ name = 51 then (if len = 16 then .progPtr else .addr)
    else if name = 74 then (if len < 4 then .addr else num4 mem .txrehash)
    else if name ∈ ints then (if len < 4 then .addr else num4 mem .plain)
    else dflt mem max len
  | 0 =>
    if name = 35 ∨ name = 36 then atLeast mem 8 [("imr_multiaddr", 4), ("imr_interface", 4)] len
    else if name = 42 ∨ name = 45 then groupReq mem len
    else if name = 51 then exact4 mem max .ports (len % 2 ^ 32).toNat
    else dflt mem max len
  | 41 =>
    if name = 20 ∨ name = 21 ∨ name = 27 ∨ name = 28 then atLeast mem 20 [("ipv6mr_multiaddr", 16), ("ipv6mr_interface", 4)] len
    else if name = 42 ∨ name = 45 then groupReq mem len
    else dflt mem max len
  | 263 =>
    if name = 5 ∨ name = 13 then
      (if len = 16 then struct mem 16 [("tp_block_size", 4), ("tp_block_nr", 4), ("tp_frame_size", 4), ("tp_frame_nr", 4)] else .addr)
    else if name = 1 ∨ name = 2 then packetMreq mem len
    else dflt mem max len
  | 255 => if name = 1 then icmp mem len else dflt mem max len
  | 270 => if len < 4 then .addr else num4 mem .plain
  | 6 => if name = 38 then .aoKey else dflt mem max len
  | _ => dflt mem max len

/-! ## the length of getsockopt -/

/-- what is printed for the length: an address, or one number, or two -/
inductive Len where
  | addr
  | one (n : Int)
  | two (before after : Int)
  deriving DecidableEq

/-- `SYS_FUNC(getsockopt)`, src/net.c:1082-1146: `before` and `after` are the length in memory on entering and on exiting, if it can
be read -/
def getsockopt (mem : Mem) (max level name : Nat) (before after : Option Int) (failed : Bool) : Out × Len :=
  match before with
  | none => (.addr, .addr)
  | some ulen =>
    match after with
    | none => (.addr, .one ulen)
    | some rlen =>
      if failed then (.addr, if ulen ≠ rlen then .two ulen rlen else .one rlen)
      else (get mem max level name ulen rlen, if ulen ≠ rlen then .two ulen rlen else .one rlen)

end Strace.Sockopt
