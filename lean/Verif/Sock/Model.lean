import Verif.Sized.Model
/-!
# Socket addresses: src/sockaddr.c, and the lengths of addresses in src/net.c and src/msghdr.c

An address is decoded out of a buffer, a list of bytes.  A read beyond the buffer is undefined behaviour: the result is `none`.
A field shown is its name and its value; the separators between fields, the braces of a structure, the names of constants and the
way flags, interfaces and descriptors are written out of a number are not modelled here.  The machine is little-endian and its
words have 8 bytes unless stated otherwise.
-/
namespace Strace.Sock
open Strace.Sized (Byte moven fetch le)

/-- an AX.25 address as written: its bytes, its text, or its bytes with the text in a comment -/
inductive Call
  | bytes (l : List Byte)
  | text (s : List Char)
  | both (l : List Byte) (s : List Char)
  deriving DecidableEq, Repr

inductive Tok
  /-- an address of the tracee instead of the structure -/
  | addr (a : Nat)
  /-- a number -/
  | num (name : String) (v : Nat)
  /-- a number in network byte order, written with `htons` or `htonl` -/
  | net (name : String) (v : Nat)
  /-- bytes that are all written: an internet or a hardware address, an array of bytes -/
  | raw (name : String) (l : List Byte)
  /-- a quoted string, and whether `...` follows -/
  | str (name : String) (l : List Byte) (more : Bool)
  /-- a quoted string with `@` in front -/
  | abstr (name : String) (l : List Byte)
  /-- an array of bytes, and whether its last element is `...` -/
  | arr (name : String) (l : List Byte) (more : Bool)
  /-- an AX.25 address -/
  | call (name : String) (c : Call)
  /-- an array of AX.25 addresses, and whether its last element is `...` -/
  | calls (name : String) (l : List Call) (more : Bool)
  /-- `...` as the last field -/
  | more
  /-- a structure within the structure -/
  | opened (name : String)
  | closed
  /-- the length of an address: `[v]` or `[u => v]` -/
  | len (v : Int)
  | lens (u v : Int)
  deriving DecidableEq, Repr

/-- `n` bytes of the buffer -/
def rd (b : List Byte) (off n : Nat) : Option (List Byte) :=
  if off + n ≤ b.length then some ((b.drop off).take n) else none

/-- a number of the buffer -/
def rdNum (b : List Byte) (off n : Nat) : Option Nat := (rd b off n).map le

/-- a number field -/
def num (b : List Byte) (name : String) (off n : Nat) : Option (List Tok) := (rd b off n).map fun l => [.num name (le l)]

/-- a number field in network byte order -/
def net (b : List Byte) (name : String) (off n : Nat) : Option (List Tok) := (rd b off n).map fun l => [.net name (le l.reverse)]

/-- a field of bytes -/
def raw (b : List Byte) (name : String) (off n : Nat) : Option (List Tok) := (rd b off n).map fun l => [.raw name l]

/-- a number field that is only shown if it is not 0 -/
def num0 (b : List Byte) (name : String) (off n : Nat) : Option (List Tok) :=
  (rd b off n).map fun l => if le l = 0 then [] else [.num name (le l)]

/-- one thing after the other -/
def cat : List (Option (List Tok)) → Option (List Tok)
  | [] => some []
  | x :: r => x.bind fun l => (cat r).map fun m => l ++ m

/-- the bytes that `string_quote` (src/util.c:1126-1273) writes of a NUL-terminated string of at most `n` bytes, and whether the
NUL was seen; if it is not among the `n` bytes, the next byte is read too, src/util.c:1257-1263 -/
def quote0 (b : List Byte) : Nat → Nat → Option (List Byte × Bool)
  | off, 0 => (b[off]?).map fun c => ([], c == 0)
  | off, n + 1 =>
    match b[off]? with
    | none => none
    | some c => if c = 0 then some ([], true) else (quote0 b (off + 1) n).map fun r => (c :: r.1, r.2)

/-- `print_quoted_cstring`, src/util.c:1355-1366, and `print_quoted_string` with QUOTE_EXPECT_TRAILING_0, src/util.c:1333-1336:
`size` includes the NUL -/
def cstr (b : List Byte) (name : String) (off size : Nat) : Option (List Tok) :=
  (quote0 b off (size - 1)).map fun r => [.str name r.1 (!r.2)]

/-- `print_sockaddr_data_un`, src/sockaddr.c:108-125.  With `sec` the path is also looked up as a C string by
`selinux_printfilecon`; the context it prints is not modelled. -/
def unData (sec : Bool) (b : List Byte) (addrlen : Nat) : Option (List Tok) :=
  let pathLen := (if addrlen > 110 then 110 else addrlen) - 2
  match b[2]? with
  | none => none
  | some c =>
    if c = 0 then (rd b 3 (pathLen - 1)).map fun l => [.abstr "sun_path" l]
    else if sec = true ∧ (b.drop 2).all (· != 0) = true then none
    else (quote0 b 2 pathLen).map fun r => [.str "sun_path" r.1 false]

/-- `print_sockaddr_data_in`, src/sockaddr.c:241-250; `o` is the offset of the structure in the buffer -/
def inData (b : List Byte) (o : Nat) : Option (List Tok) := cat [net b "sin_port" (o + 2) 2, raw b "sin_addr" (o + 4) 4]

/-- `print_sockaddr_data_in6`, src/sockaddr.c:254-297 -/
def in6Data (b : List Byte) (o addrlen : Nat) : Option (List Tok) :=
  cat [net b "sin6_port" (o + 2) 2, net b "sin6_flowinfo" (o + 4) 4, raw b "sin6_addr" (o + 8) 16,
    if addrlen ≤ 24 then some [] else num b "sin6_scope_id" (o + 24) 4]

/-- the result of `check_ax25_address` -/
inductive Style | dflt | verbose | raw
  deriving DecidableEq, Repr

/-- the loop of `check_ax25_address`, src/sockaddr.c:310-334: the result so far, whether a space and whether another character
was seen; `none` is the return in the loop -/
def checkLoop : List Byte → Style → Bool → Bool → Option (Style × Bool)
  | [], s, _, chr => some (s, chr)
  | x :: l, s, space, chr =>
    let s := if x.val % 2 = 1 then .verbose else s
    let c := x.val / 2
    let space := if c = 32 then true else space
    let chr := if c = 32 then chr else true
    let s := if (c < 48 ∨ c > 57) ∧ (c < 65 ∨ c > 90) ∧ c ≠ 32 then .verbose else s
    let s := if c ≠ 32 ∧ space = true then .verbose else s
    if c < 32 ∨ c > 126 ∨ c = 42 ∨ c = 47 then none else checkLoop l s space chr

/-- `check_ax25_address`, src/sockaddr.c:303-344; the address has 7 bytes -/
def check (l : List Byte) : Style :=
  match checkLoop (l.take 6) .dflt false false with
  | none => .raw
  | some (s, chr) =>
    let last := (l.getD 6 0).val
    let s := if last / 32 ≠ 0 ∨ last % 2 = 1 then .verbose else s
    if chr = false ∧ last ≠ 0 then .verbose else s

/-- the first loop of `ax25_addr2str`, src/sockaddr.c:354-356 -/
def callEnd (l : List Byte) : Nat → Nat
  | 0 => 0
  | n + 1 => if (l.getD n 0).val / 2 ≠ 32 then n + 1 else callEnd l n

/-- a stored character; `none` beyond the buffer of 11 bytes -/
def store (s : List Char) (c : Nat) : Option (List Char) :=
  if s.length < 11 then some (s ++ [Char.ofNat c]) else none

def storeAll : List Nat → List Char → Option (List Char)
  | [], s => some s
  | c :: l, s => (store s c).bind fun s => storeAll l s

/-- `ax25_addr2str`, src/sockaddr.c:347-378, and the terminating NUL that must fit -/
def addr2str (l : List Byte) : Option (List Char) :=
  let ssid := (l.getD 6 0).val / 2 % 16
  let chars := ((l.take (callEnd l 6)).map fun x => x.val / 2) ++ [45] ++
    (if ssid > 9 then [49, ssid - 10 + 48] else [ssid + 48])
  (storeAll chars []).bind fun s =>
    if s.length < 11 then
      some (if s.head? = some '-' ∧ s.tail.head? = some '0' then ['*'] else s)
    else none

/-- the ways of writing constants, `-X` -/
inductive Xl | abbrv | verbose | raw
  deriving DecidableEq, Repr

/-- `print_ax25_addr`, src/sockaddr.c:388-406 -/
def callTok (x : Xl) (l : List Byte) : Option Call :=
  match check l, x with
  | .raw, _ => some (.bytes l)
  | .verbose, _ => (addr2str l).map fun s => .both l s
  | .dflt, .raw => some (.bytes l)
  | .dflt, .verbose => (addr2str l).map fun s => .both l s
  | .dflt, .abbrv => (addr2str l).map fun s => .text s

/-- the elements of the array of digipeaters -/
def callList (x : Xl) (b : List Byte) : Nat → Nat → Option (List Call)
  | _, 0 => some []
  | off, n + 1 => (rd b off 7).bind fun l => (callTok x l).bind fun c => (callList x b (off + 7) n).map fun r => c :: r

/-- the number of elements that `print_array_ex` shows of `n` (src/util.c:1917-1952), with a limit if abbreviating -/
def cut (limit : Option Nat) (n : Nat) : Nat :=
  match limit with
  | none => n
  | some m => if n > m then m else n

/-- the signed 32-bit number -/
def sint (v : Nat) : Int := if v < 2 ^ 31 then v else (v : Int) - 2 ^ 32

/-- `print_sockaddr_data_ax25`, src/sockaddr.c:417-465 -/
def ax25Data (x : Xl) (limit : Option Nat) (b : List Byte) (addrlen : Nat) : Option (List Tok) :=
  (rdNum b 12 4).bind fun nd =>
  (rd b 2 7).bind fun cl =>
  (callTok x cl).bind fun c =>
    let head := [Tok.call "sax25_call" c, .num "sax25_ndigis" nd]
    if nd = 0 ∧ addrlen ≤ 16 then some head
    else
      let has := min ((addrlen - 16) / 7) 8
      let want := min (sint nd).toNat 8
      let digis := min has want
      ((if want = 0 then some []
        else (callList x b 16 (cut limit digis)).map fun l =>
          [.calls "fsa_digipeater" l (decide (want > has ∨ cut limit digis < digis))])).map fun d =>
        [.opened "fsa_ax25"] ++ head ++ [.closed] ++ d ++ (if addrlen > has * 7 + 16 then [.more] else [])

/-- `print_sockaddr_data_ipx`, src/sockaddr.c:467-487 -/
def ipxData (b : List Byte) : Option (List Tok) :=
  cat [net b "sipx_port" 2 2, net b "sipx_network" 4 4, raw b "sipx_node" 8 6, num b "sipx_type" 14 1, num0 b "sipx_zero" 15 1]

/-- `print_sockaddr_data_x25`, src/sockaddr.c:499-506 -/
def x25Data (b : List Byte) : Option (List Tok) := cstr b "x25_addr" 2 16

/-- `print_sockaddr_data_nl`, src/sockaddr.c:508-520 -/
def nlData (b : List Byte) : Option (List Tok) := cat [num0 b "nl_pad" 2 2, num b "nl_pid" 4 4, num b "nl_groups" 8 4]

/-- the loop of `print_sockaddr_data_ll`, src/sockaddr.c:570-578: `k` bytes are left to be shown from `i` on -/
def llLoop (b : List Byte) (oob : Nat) : Nat → Nat → Option (List Byte × Bool)
  | _, 0 => some ([], false)
  | i, k + 1 =>
    if i ≥ oob then some ([], true)
    else
      match b[12 + i]? with
      | none => none
      | some c => (llLoop b oob (i + 1) k).map fun r => (c :: r.1, r.2)

/-- `print_sockaddr_data_ll`, src/sockaddr.c:548-581 -/
def llData (b : List Byte) (addrlen : Nat) : Option (List Tok) :=
  (rdNum b 11 1).bind fun halen =>
    cat [net b "sll_protocol" 2 2, num b "sll_ifindex" 4 4, num b "sll_hatype" 8 2, num b "sll_pkttype" 10 1,
      num b "sll_halen" 11 1,
      if halen = 0 then some [] else (llLoop b (addrlen - 12) 0 halen).map fun r => [.arr "sll_addr" r.1 r.2]]

/-- `print_sockaddr_data_raw`, src/sockaddr.c:583-591 -/
def rawData (b : List Byte) (addrlen : Nat) : Option (List Tok) := (rd b 2 (addrlen - 2)).map fun l => [.str "sa_data" l false]

/-- `print_sockaddr_data_bt`, src/sockaddr.c:676-765 -/
def btData (b : List Byte) (addrlen : Nat) : Option (List Tok) :=
  if addrlen = 4 ∨ addrlen = 6 then
    cat [num b "hci_dev" 2 2, if addrlen = 6 then num b "hci_channel" 4 2 else some []]
  else if addrlen = 8 then raw b "sco_bdaddr" 2 6
  else if addrlen = 10 then cat [raw b "rc_bdaddr" 2 6, num b "rc_channel" 8 1]
  else if addrlen = 12 ∨ addrlen = 14 then
    cat [num b "l2_psm" 2 2, raw b "l2_bdaddr" 4 6, num b "l2_cid" 10 2,
      if addrlen = 14 then num b "l2_bdaddr_type" 12 1 else some []]
  else rawData b addrlen

/-- the rest of the transport address of `print_sockaddr_data_rxrpc` -/
def rest (b : List Byte) (n : Nat) : Option (List Tok) :=
  if n > 0 then (rd b 10 n).map fun l => [.str "" l false] else some []

/-- `print_sockaddr_data_rxrpc`, src/sockaddr.c:767-834 -/
def rxrpcData (b : List Byte) (len : Nat) : Option (List Tok) :=
  (rdNum b 6 2).bind fun tl =>
  (rdNum b 8 2).bind fun family =>
    let tlen := min tl (len - 8)
    cat [num b "srx_service" 2 2, num b "transport_type" 4 2, num b "transport_len" 6 2, some [.opened "transport"],
      if family = 2 then
        cat [some [.opened "sin"], num b "sin_family" 8 2,
          if tl ≥ 16 then inData b 8 else rest b (tlen - 2), some [.closed]]
      else if family = 10 then
        cat [some [.opened "sin6"], num b "sin6_family" 8 2,
          if tl ≥ 24 then in6Data b 8 tlen else rest b (tlen - 2), some [.closed]]
      else cat [num b "family" 8 2, rest b (tlen - 2)],
      some [.closed]]

/-- `print_sockaddr_data_ieee802154`, src/sockaddr.c:836-863 -/
def ieeeData (b : List Byte) : Option (List Tok) :=
  (rdNum b 4 4).bind fun type =>
    cat [some [.opened "addr"], num b "addr_type" 4 4, num b "pan_id" 8 2,
      if type = 0 then some [] else if type = 2 then num b "short_addr" 10 2 else raw b "hwaddr" 10 8,
      some [.closed]]

/-- `print_sockaddr_data_alg`, src/sockaddr.c:865-883 -/
def algData (b : List Byte) (len : Nat) : Option (List Tok) :=
  cat [cstr b "salg_type" 2 14, num b "salg_feat" 16 4, num b "salg_mask" 20 4, cstr b "salg_name" 24 (len - 24)]

/-- `print_sockaddr_data_nfc`, src/sockaddr.c:885-944; `w` is the size of a word of the tracee, 4 or 8 -/
def nfcData (w : Nat) (b : List Byte) (addrlen : Nat) : Option (List Tok) :=
  cat [num b "dev_idx" 4 4, num b "target_idx" 8 4, num b "nfc_protocol" 12 4,
    if addrlen < (if w = 8 then 96 else 88) then some (if addrlen > 16 then [.more] else [])
    else
      (if w = 8 then rdNum b 88 8 else rdNum b 84 4).bind fun snsz =>
        cat [num b "dsap" 16 1, num b "ssap" 17 1,
          (rd b 18 (min 63 snsz)).map fun l => [.str "service_name" l false],
          some [.num "service_name_len" snsz]]]

/-- `print_sockaddr_data_vsock`, src/sockaddr.c:946-965 -/
def vsockData (b : List Byte) : Option (List Tok) :=
  (rd b 13 3).bind fun z =>
    cat [num0 b "svm_reserved1" 2 2, num b "svm_cid" 8 4, num b "svm_port" 4 4, num b "svm_flags" 12 1,
      if z.all (· == 0) = true then some [] else raw b "svm_zero" 13 3]

/-- `print_sockaddr_data_qrtr`, src/sockaddr.c:967-976 -/
def qrtrData (b : List Byte) : Option (List Tok) := cat [num b "sq_node" 4 4, num b "sq_port" 8 4]

/-- `print_sockaddr_data_xdp`, src/sockaddr.c:978-997; XDP_SHARED_UMEM is bit 0 -/
def xdpData (b : List Byte) : Option (List Tok) :=
  (rdNum b 2 2).bind fun flags =>
    cat [num b "sxdp_flags" 2 2, num b "sxdp_ifindex" 4 4, num b "sxdp_queue_id" 8 4,
      if flags % 2 = 1 then num b "sxdp_shared_umem_fd" 12 4 else num0 b "sxdp_shared_umem_fd" 12 4]

/-- `print_sockaddr_data_mctp`, src/sockaddr.c:999-1024 -/
def mctpData (b : List Byte) : Option (List Tok) :=
  cat [num0 b "__smctp_pad0" 2 2, num b "smctp_network" 4 4, some [.opened "smctp_addr"], num b "s_addr" 8 1, some [.closed],
    num b "smctp_type" 9 1, num b "smctp_tag" 10 1, num0 b "__smctp_pad1" 11 1]

/-- what the decoding depends on besides the bytes -/
structure Env where
  /-- `--secontext` -/
  sec : Bool
  /-- `-X` -/
  x : Xl
  /-- `max_strlen` if abbreviating -/
  limit : Option Nat
  /-- the size of a word of the tracee -/
  w : Nat

/-- `sa_printers`, src/sockaddr.c:1026-1051 -/
def printer (e : Env) (family : Nat) (b : List Byte) (addrlen : Nat) : Option (Nat × Option (List Tok)) :=
  match family with
  | 1 => some (3, unData e.sec b addrlen)
  | 2 => some (16, inData b 0)
  | 3 => some (16, ax25Data e.x e.limit b addrlen)
  | 4 => some (16, ipxData b)
  | 9 => some (18, x25Data b)
  | 10 => some (24, in6Data b 0 addrlen)
  | 16 => some (12, nlData b)
  | 17 => some (20, llData b addrlen)
  | 31 => some (3, btData b addrlen)
  | 33 => some (36, rxrpcData b addrlen)
  | 36 => some (20, ieeeData b)
  | 38 => some (25, algData b addrlen)
  | 39 => some (16, nfcData e.w b addrlen)
  | 40 => some (16, vsockData b)
  | 42 => some (12, qrtrData b)
  | 44 => some (16, xdpData b)
  | 45 => some (12, mctpData b)
  | _ => none

/-- `print_sockaddr`, src/sockaddr.c:1053-1074 -/
def printSockaddr (e : Env) (b : List Byte) (addrlen : Nat) : Option (List Tok) :=
  (rdNum b 0 2).bind fun family =>
    cat [some [.num "sa_family" family],
      if addrlen > 2 then
        match printer e family b addrlen with
        | some (minLen, t) => if addrlen ≥ minLen then t else rawData b addrlen
        | none => rawData b addrlen
      else some []]

/-- `decode_sockaddr`, src/sockaddr.c:1076-1101: the buffer has 129 bytes, those behind the bytes read are 0.  `addrlen` is an
`int`. -/
def decodeSockaddr (e : Env) (mem : Nat → Option Byte) (vb : Bool) (a : Nat) (addrlen : Int) : Option (List Tok) :=
  if addrlen < 2 then some [.addr a]
  else
    let n := if addrlen > 128 then 128 else addrlen.toNat
    match fetch mem vb a n with
    | none => some [.addr a]
    | some l => printSockaddr e (l ++ List.replicate (129 - n) 0) n

/-- a length read with `umove` -/
def lenAt (mem : Nat → Option Byte) (a : Nat) : Option Int := (moven mem a 4).map fun l => sint (le l)

/-- `fetch_socklen`, src/net.c:190-196 -/
def fetchSocklen (mem : Nat → Option Byte) (vb : Bool) (a l : Nat) : Option Int :=
  if vb = true ∧ a ≠ 0 ∧ l ≠ 0 then lenAt mem l else none

/-- the length of the address in brackets, src/net.c:239-246 and 406-413 -/
def lenTok (ulen rlen : Int) : Tok := if ulen ≠ rlen then .lens ulen rlen else .len rlen

/-- `decode_sockname`, src/net.c:198-250 (accept, getsockname, getpeername): `pre` is the memory on entering, `mem` on exiting; the
address lies at `a`, its length at `l` -/
def sockname (e : Env) (pre mem : Nat → Option Byte) (vb err : Bool) (a l : Nat) : Option (List Tok) :=
  match fetchSocklen pre vb a l with
  | none => some [.addr a, .addr l]
  | some ulen =>
    match if err = true then none else lenAt mem l with
    | none => some [.addr a, .len ulen]
    | some rlen =>
      (decodeSockaddr e mem vb a (if ulen > rlen then rlen else ulen)).map fun t => t ++ [lenTok ulen rlen]

/-- the last two arguments of `recvfrom`, src/net.c:376-414; a length that is not fetched on entering is 0 (get_tcb_priv_ulong of
no private data) -/
def recvfrom (e : Env) (pre mem : Nat → Option Byte) (vb err : Bool) (a l : Nat) : Option (List Tok) :=
  let ulen := (fetchSocklen pre vb a l).getD 0
  match fetchSocklen mem vb a l with
  | none => some [.addr a, .addr l]
  | some rlen =>
    if err = true then some [.addr a, .len ulen]
    else (decodeSockaddr e mem vb a (if ulen > rlen then rlen else ulen)).map fun t => t ++ [lenTok ulen rlen]

/-- the name of a message, src/msghdr.c:424-446: `ulen` is the length given on entering `recvmsg`, if any -/
def msgName (e : Env) (mem : Nat → Option Byte) (vb : Bool) (a : Nat) (ulen : Option Int) (namelen : Int) : Option (List Tok) :=
  match ulen with
  | none => (decodeSockaddr e mem vb a namelen).map fun t => t ++ [.len namelen]
  | some u =>
    (decodeSockaddr e mem vb a (if namelen > u then u else namelen)).map fun t => t ++ [lenTok u namelen]

/-- the address in a control message IP_ORIGDSTADDR, src/msghdr.c:213-222, 258 and 284-290: `b` are the bytes from the start of the
data of the control message to the end of the buffer -/
def origDst (e : Env) (b : List Byte) (dataLen : Nat) : Option (List Tok) :=
  if dataLen ≥ 16 then printSockaddr e b (if dataLen > 128 then 128 else dataLen) else some []

end Strace.Sock
