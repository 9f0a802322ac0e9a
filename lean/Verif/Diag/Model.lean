import Verif.Base.Dec
import Verif.Sized.Model
/-!
# Details of sockets: src/socketutils.c, src/dyxlat.c and src/netlink.c (get_fd_nl_family)

With `-yy` a descriptor of a socket is shown with its protocol and addresses, which strace asks the kernel for over netlink.  A
datagram received is a list of bytes; memory is little-endian.  `none` is a read outside of the message received (or, for the
table of names, outside of an allocated string).  Sending a query and allocating memory succeed.
-/
namespace Strace.Diag
open Strace.Sized Strace.Base

/-- a number read from a message -/
def rd (b : List Byte) (off len : Nat) : Option Nat := if off + len ≤ b.length then some (fld b off len) else none

/-- a number in network byte order: `ntohs` of a field of 16 bits -/
def rdBe (b : List Byte) (off : Nat) : Option Nat :=
  match rd b off 1, rd b (off + 1) 1 with
  | some h, some l => some (h * 256 + l)
  | _, _ => none

/-- an array of bytes of a message -/
def rdBytes (b : List Byte) (off len : Nat) : Option (List Byte) :=
  if off + len ≤ b.length then some ((b.drop off).take len) else none

inductive Details
  /-- `NAME:[ADDRESS:PORT]` or `NAME:[ADDRESS:PORT->ADDRESS:PORT]` -/
  | inet (name : String) (v6 : Bool) (src : List Byte) (sport : Nat) (peer : Option (List Byte × Nat))
  /-- `NAME:[INODE->PEER,"PATH"]`; of an abstract name, which is shown after `@`, the first byte is left out -/
  | unix (name : String) (inode : Nat) (peer : Option Nat) (path : Option (Bool × List Byte))
  /-- `NAME:[PROTOCOL:PORT]` or `NAME:[NUMBER]` -/
  | netlink (name : String) (proto : Nat) (port : Option Nat)
  deriving DecidableEq, Repr

/-- the cache: an inode and its details in each of 1024 places, src/socketutils.c:33-40 -/
structure Cache where
  slot : Nat → Nat × Option Details

/-- static memory -/
def Cache.empty : Cache := ⟨fun _ => (0, none)⟩

/-- `cache_inode_details`, src/socketutils.c:42-51 -/
def cacheAdd (c : Cache) (inode : Nat) (d : Details) : Cache :=
  ⟨fun k => if k = inode % 1024 then (inode, some d) else c.slot k⟩

/-- `get_sockaddr_by_inode_cached`, src/socketutils.c:53-58 -/
def cached (c : Cache) (inode : Nat) : Option Details :=
  if inode = (c.slot (inode % 1024)).1 then (c.slot (inode % 1024)).2 else none

/-- `inet_parse_response`, src/socketutils.c:109-168: the cache afterwards and the result; `p` is the payload of the message, whose
length is `data_len` with that of the header.  The text of the addresses (inet_ntop) is not modelled. -/
def inetParse (name : String) (inode : Nat) (c : Cache) (p : List Byte) : Option (Cache × Int) :=
  if p.length + 16 < 16 + 72 then some (c, -1)
  else
    (rd p 68 4).bind fun ino =>
    if ino ≠ inode then some (c, 0)
    else
      (rd p 0 1).bind fun fam =>
      if fam ≠ 2 ∧ fam ≠ 10 then some (c, -1)
      else
        (rdBytes p 8 (if fam = 2 then 4 else 16)).bind fun src =>
        (rdBytes p 24 (if fam = 2 then 4 else 16)).bind fun dst =>
        (rdBe p 4).bind fun sport =>
        (rdBe p 6).bind fun dport =>
        if dport ≠ 0 ∨ dst ≠ List.replicate (if fam = 2 then 4 else 16) 0 then
          some (cacheAdd c inode (.inet name (decide (fam = 10)) src sport (some (dst, dport))), 1)
        else some (cacheAdd c inode (.inet name (decide (fam = 10)) src sport none), 1)

/-- the attributes of a unix_diag_msg, src/socketutils.c:271-289: the peer and the path found so far and in the rest.  RTA_OK and
RTA_NEXT work on signed lengths; a rest shorter than nothing is empty here. -/
def unixAttrs (rest : List Byte) (peer : Nat) (path : List Byte) : Option (Nat × List Byte) :=
  if h : 4 ≤ rest.length ∧ 4 ≤ fld rest 0 2 ∧ fld rest 0 2 ≤ rest.length then
    let payload := (rest.take (fld rest 0 2)).drop 4
    let next := rest.drop ((fld rest 0 2 + 3) / 4 * 4)
    if fld rest 2 2 = 0 then
      unixAttrs next peer (if path.length = 0 then payload.take (if payload.length > 108 then 108 else payload.length) else path)
    else if fld rest 2 2 = 2 then
      if payload.length ≥ 4 then
        match rd payload 0 4 with
        | none => none
        | some v => unixAttrs next v path
      else unixAttrs next peer path
    else unixAttrs next peer path
  else some (peer, path)
termination_by rest.length
decreasing_by all_goals (rw [List.length_drop]; omega)

/-- a path as it is shown, src/socketutils.c:305-320: up to a NUL byte; an abstract one begins with a NUL byte.  Quoting is that of
`string_quote` (C01). -/
def pathShown (path : List Byte) : Option (Bool × List Byte) :=
  match path with
  | [] => none
  | b :: l => if b = 0 then some (true, l.takeWhile (· ≠ 0)) else some (false, (b :: l).takeWhile (· ≠ 0))

/-- `unix_parse_response`, src/socketutils.c:253-328 -/
def unixParse (name : String) (inode : Nat) (c : Cache) (p : List Byte) : Option (Cache × Int) :=
  if p.length + 16 < 16 + 16 then some (c, -1)
  else
    (rd p 4 4).bind fun ino =>
    if ino ≠ inode then some (c, 0)
    else
      (rd p 0 1).bind fun fam =>
      if fam ≠ 1 then some (c, -1)
      else
        (unixAttrs (p.drop 16) 0 []).bind fun r =>
        if r.1 = 0 ∧ r.2.length = 0 then some (c, -1)
        else some (cacheAdd c inode (.unix name inode (if r.1 ≠ 0 then some r.1 else none) (pathShown r.2)), 1)

/-- the names of the protocols, src/xlat/netlink_protocols.in:3-24 with the values of <linux/netlink.h> and without the prefix -/
def nlNames : List (Nat × String) :=
  [(0, "ROUTE"), (1, "UNUSED"), (2, "USERSOCK"), (3, "FIREWALL"), (4, "SOCK_DIAG"), (5, "NFLOG"), (6, "XFRM"), (7, "SELINUX"),
    (8, "ISCSI"), (9, "AUDIT"), (10, "FIB_LOOKUP"), (11, "CONNECTOR"), (12, "NETFILTER"), (13, "IP6_FW"), (14, "DNRTMSG"),
    (15, "KOBJECT_UEVENT"), (16, "GENERIC"), (18, "SCSITRANSPORT"), (19, "ECRYPTFS"), (20, "RDMA"), (21, "CRYPTO"), (22, "SMC")]

/-- `netlink_parse_response`, src/socketutils.c:350-382 -/
def netlinkParse (name : String) (inode : Nat) (c : Cache) (p : List Byte) : Option (Cache × Int) :=
  if p.length + 16 < 16 + 28 then some (c, -1)
  else
    (rd p 16 4).bind fun ino =>
    if ino ≠ inode then some (c, 0)
    else
      (rd p 0 1).bind fun fam =>
      if fam ≠ 16 then some (c, -1)
      else
        (rd p 2 1).bind fun proto =>
        if (nlNames.lookup proto).isSome = true then
          (rd p 4 4).bind fun portid => some (cacheAdd c inode (.netlink name proto (some portid)), 1)
        else some (cacheAdd c inode (.netlink name proto none), 1)

/-- `is_nlmsg_ok`, src/netlink.h:22-28 -/
def nlmsgOk (rest : List Byte) : Bool :=
  decide (rest.length ≥ 16) && decide (fld rest 0 4 ≥ 16) && decide (rest.length ≥ fld rest 0 4)

/-- the messages of a datagram, src/socketutils.c:209-218, given a parser that works on a state: the state afterwards, and the
result if there is one -/
def walk {S : Type} (typ : Nat) (parse : S → List Byte → Option (S × Int)) (s : S) (rest : List Byte) : Option (S × Option Bool) :=
  if h : nlmsgOk rest = true then
    if fld rest 4 2 ≠ typ then some (s, some false)
    else
      match parse s ((rest.take (fld rest 0 4)).drop 16) with
      | none => none
      | some (s', rc) =>
        if rc > 0 then some (s', some true)
        else if rc < 0 then some (s', some false)
        else walk typ parse s' (rest.drop ((fld rest 0 4 + 3) / 4 * 4))
  else some (s, none)
termination_by rest.length
decreasing_by
  simp only [nlmsgOk, Bool.and_eq_true, decide_eq_true_eq] at h
  rw [List.length_drop]; omega

/-- `receive_responses`, src/socketutils.c:170-221: the state, the result and the datagrams that are left; after the last one
recvmsg fails.  Calls that are interrupted are repeated. -/
def receive {S : Type} (typ : Nat) (parse : S → List Byte → Option (S × Int)) : S → List (List Byte) →
    Option (S × Bool × List (List Byte))
  | s, [] => some (s, false, [])
  | s, d :: ds =>
    if nlmsgOk (d.take 8192) = true then
      match walk typ parse s (d.take 8192) with
      | none => none
      | some (s', none) => receive typ parse s' ds
      | some (s', some r) => some (s', r, ds)
    else some (s, false, ds)

inductive Kind
  | unix
  | inet
  | netlink
  deriving DecidableEq, Repr

/-- `protocols`, src/socketutils.c:415-463, in the order of `enum sock_proto`, src/defs.h:488-509, which begins with the unknown
one; the families and numbers are those of the query, which is not modelled -/
def protocols : List (String × Kind) :=
  [("UNIX", .unix), ("UNIX-STREAM", .unix), ("TCP", .inet), ("UDP", .inet), ("UDPLITE", .inet), ("DCCP", .inet), ("SCTP", .inet),
    ("L2TP/IP", .inet), ("PING", .inet), ("RAW", .inet), ("TCPv6", .inet), ("UDPv6", .inet), ("UDPLITEv6", .inet),
    ("DCCPv6", .inet), ("L2TP/IPv6", .inet), ("SCTPv6", .inet), ("PINGv6", .inet), ("RAWv6", .inet), ("NETLINK", .netlink)]

/-- `get_proto_by_name`, src/socketutils.c:465-474 -/
def protoByName (name : String) : Option (String × Kind) := protocols.find? fun pr => pr.1 == name

/-- the parser of a protocol, src/socketutils.c:384-413 -/
def parser (pr : String × Kind) (inode : Nat) : Cache → List Byte → Option (Cache × Int) :=
  match pr.2 with
  | .unix => unixParse pr.1 inode
  | .inet => inetParse pr.1 inode
  | .netlink => netlinkParse pr.1 inode

/-- `unix_get`, `inet_get` and `netlink_get`, src/socketutils.c:384-413; `queue` are the datagrams that can be received.
SOCK_DIAG_BY_FAMILY is 20. -/
def get (pr : String × Kind) (inode : Nat) (c : Cache) (queue : List (List Byte)) :
    Option (Cache × Option Details × List (List Byte)) :=
  match receive 20 (parser pr inode) c queue with
  | none => none
  | some (c', ok, left) => some (c', if ok = true then cached c' inode else none, left)

/-- the loop over protocols, src/socketutils.c:503-514; `ans` are the datagrams the kernel sends for a protocol, and `queue` those
left before -/
def tryAll (ans : String → List (List Byte)) (inode : Nat) : List (String × Kind) → Cache → List (List Byte) →
    Option (Cache × Option Details)
  | [], c, _ => some (c, none)
  | pr :: prs, c, queue =>
    match get pr inode c (queue ++ ans pr.1) with
    | none => none
    | some (c', some d, _) => some (c', some d)
    | some (c', none, left) => tryAll ans inode prs c' left

/-- `get_sockaddr_by_inode_lookup`, src/socketutils.c:485-519; the protocol is unknown (`none`) or one of the table.  The socket
used for the query is new. -/
def lookupDetails (ans : String → List (List Byte)) (inode : Nat) (proto : Option (String × Kind)) (c : Cache) :
    Option (Cache × Option Details) :=
  match proto with
  | none => tryAll ans inode protocols c []
  | some pr => tryAll ans inode [pr] c []

/-- what is shown for a socket -/
inductive Shown
  | details (d : Details)
  /-- `NAME:[INODE]` -/
  | named (name : String) (inode : Nat)
  /-- the path of the descriptor, `socket:[INODE]` -/
  | path
  deriving DecidableEq, Repr

/-- `get_sockaddr_by_inode` and `get_sockaddr_by_inode_uncached`, src/socketutils.c:521-550, and `printsocket`,
src/util.c:635-646; `name` is what getxattr says (`none`: it fails) -/
def getDetails (c : Cache) (ans : String → List (List Byte)) (inode : Nat) (name : Option String) : Option (Cache × Shown) :=
  match cached c inode with
  | some d => some (c, .details d)
  | none =>
    match lookupDetails ans inode (name.bind protoByName) c with
    | none => none
    | some (c', some d) => some (c', .details d)
    | some (c', none) =>
      match name.bind protoByName with
      | some pr => some (c', .named pr.1 inode)
      | none => some (c', .path)

/-! ### The inode of a socket and the family of a netlink socket -/

def chars (s : String) : List Nat := s.toList.map Char.toNat

/-- `strncmp(s, name, strlen(name)) == 0` -/
def startsWith (s name : List Nat) : Bool := s.take name.length == name

def digit (c : Nat) : Bool := decide (48 ≤ c) && decide (c ≤ 57)

/-- `strtoul` of a text that is not preceded by white space or a sign: the value, at most `ULONG_MAX`, and the rest -/
def strtoul (s : List Nat) : Nat × List Nat := (min (readDec (s.takeWhile digit)) (2 ^ 64 - 1), s.dropWhile digit)

/-- `get_inode_of_socket_path`, src/util.c:598-614; white space and signs, which no link has there, are not modelled -/
def inodeOfPath (path : List Nat) : Nat :=
  if startsWith path (chars "socket:[") = true ∧ (path.drop 8).length ≠ 0 ∧ (path.drop 8).getLast? = some 93 ∧
    (strtoul (path.drop 8)).1 ≠ 0 ∧ (strtoul (path.drop 8)).2.length = 1 then (strtoul (path.drop 8)).1 else 0

/-- the text of what is shown for a netlink socket, src/socketutils.c:370-379 and 534-536 -/
def nlText : Shown → List Nat
  | .details (.netlink name proto port) =>
    match nlNames.lookup proto, port with
    | some n, some p => chars name ++ chars ":[" ++ chars n ++ chars ":" ++ dec p ++ chars "]"
    | _, _ => chars name ++ chars ":[" ++ dec proto ++ chars "]"
  | .named name inode => chars name ++ chars ":[" ++ dec inode ++ chars "]"
  | _ => []

/-- `atoi` of a text that begins with a digit -/
def atoi (s : List Nat) : Nat := readDec (s.takeWhile digit)

/-- the loop over the names, src/netlink.c:98-105 -/
def nlFind (s : List Nat) : List (Nat × String) → Option Nat
  | [] => none
  | (v, n) :: l => if startsWith s (chars n) = true then some v else nlFind s l

/-- `get_fd_nl_family`, src/netlink.c:82-111, from the text of the details; `none` is -1 -/
def nlFamily (details : List Nat) : Option Nat :=
  if startsWith details (chars "NETLINK:[") = true then
    match nlFind (details.drop 9) nlNames with
    | some v => some v
    | none => if digit ((details.drop 9).headD 0) = true then some (atoi (details.drop 9)) else none
  else none

/-! ### Tables of names made while running -/

/-- a string copied by `xstrndup`, src/xmalloc.c:128-151, which ends before a NUL byte -/
def ndup (str : List Nat) (len : Nat) : List Nat := (str.take len).takeWhile (· ≠ 0)

/-- the character of an allocated string at an index, which is within it or at the NUL byte that ends it -/
def charAt (s : List Nat) (i : Nat) : Option Nat := if i < s.length then s[i]? else if i = s.length then some 0 else none

/-- `strncmp(s, t, n) == 0`, where `s` is a string and `t` holds at least `n` bytes -/
def sameN (s t : List Nat) (n : Nat) : Bool := s.take n == (t.take n).takeWhile (· ≠ 0)

/-- `dyxlat_add_pair`, src/dyxlat.c:48-72; growing the array (C49) is not modelled -/
def addPair : List (Nat × List Nat) → Nat → List Nat → Nat → Option (List (Nat × List Nat))
  | [], val, str, len => some [(val, ndup str len)]
  | (v, s) :: l, val, str, len =>
    if v = val then
      if sameN s str len = true then
        match charAt s len with
        | none => none
        | some ch => if ch = 0 then some ((v, s) :: l) else some ((v, ndup str len) :: l)
      else some ((v, ndup str len) :: l)
    else (addPair l val str len).map ((v, s) :: ·)

/-- the attributes of a message about a family, src/socketutils.c:600-621: CTRL_ATTR_FAMILY_ID is 1 and CTRL_ATTR_FAMILY_NAME 2 -/
def genlAttrs (rest : List Byte) (name : Option (List Byte)) (id : Option Nat) (t : List (Nat × List Nat)) :
    Option (List (Nat × List Nat)) :=
  if h : 4 ≤ rest.length ∧ 4 ≤ fld rest 0 2 ∧ fld rest 0 2 ≤ rest.length then
    let payload := (rest.take (fld rest 0 2)).drop 4
    let next := rest.drop ((fld rest 0 2 + 3) / 4 * 4)
    let name' := if fld rest 2 2 = 2 ∧ name.isNone then some payload else name
    let id' := if fld rest 2 2 = 1 ∧ id.isNone ∧ payload.length = 2 then some (fld payload 0 2) else id
    match name', id' with
    | some n, some i =>
      match addPair t i (n.map (·.val)) n.length with
      | none => none
      | some t' => genlAttrs next none none t'
    | _, _ => genlAttrs next name' id' t
  else some t
termination_by rest.length
decreasing_by all_goals (rw [List.length_drop]; omega)

/-- `genl_parse_families_response`, src/socketutils.c:580-624: the table afterwards and the result; CTRL_CMD_NEWFAMILY is 1 -/
def genlParse (t : List (Nat × List Nat)) (p : List Byte) : Option (List (Nat × List Nat) × Int) :=
  if p.length + 16 < 16 + 4 then some (t, -1)
  else
    (rd p 0 1).bind fun cmd =>
    if cmd ≠ 1 then some (t, -1)
    else
      (rd p 1 1).bind fun ver =>
      if ver ≠ 2 then some (t, -1) else (genlAttrs (p.drop 4) none none t).map fun t' => (t', 0)

/-- `genl_families_xlat`, src/socketutils.c:626-646, when it is called first; GENL_ID_CTRL is 16 -/
def genlFamilies (ans : List (List Byte)) : Option (List (Nat × List Nat)) := (receive 16 genlParse [] ans).map (·.1)

end Strace.Diag
