import Verif.Diag.Model
/-!
# What details of sockets should say

The messages of the kernel are written down here byte by byte, from what is true of a socket; the types of the model that are used
are those of its input and output.
-/
namespace Strace.Diag
open Strace.Sized

def byte (k : Nat) : Byte := ⟨k % 256, Nat.mod_lt _ (by decide)⟩

/-- a number in `n` bytes, the low one first -/
def leBytes : Nat → Nat → List Byte
  | 0, _ => []
  | n + 1, k => byte k :: leBytes n (k / 256)

/-- a port -/
def port (k : Nat) : List Byte := [byte (k / 256), byte k]

/-- bytes up to the next multiple of four -/
def fill (n : Nat) : List Byte := List.replicate ((4 - n % 4) % 4) 0

/-- a message of netlink: its length, type, and 10 more bytes (`m`: flags, number and port) -/
def message (typ : Nat) (m payload : List Byte) : List Byte :=
  leBytes 4 (16 + payload.length) ++ leBytes 2 typ ++ m ++ payload ++ fill payload.length

/-- an attribute -/
def attr (a : Nat × List Byte) : List Byte := leBytes 2 (4 + a.2.length) ++ leBytes 2 a.1 ++ a.2 ++ fill a.2.length

/-- an attribute fits -/
def AttrOk (a : Nat × List Byte) : Prop := a.1 < 65536 ∧ 4 + a.2.length < 65536

/-- an internet socket; `a`, `b`, ... are the bytes of its message that do not matter -/
structure InetSock where
  v6 : Bool
  src : List Byte
  sport : Nat
  dst : List Byte
  dport : Nat
  inode : Nat
  m : List Byte
  a : List Byte
  b : List Byte
  c : List Byte
  d : List Byte
  e : List Byte

/-- the message about an internet socket, `struct inet_diag_msg` -/
def InetSock.payload (s : InetSock) : List Byte :=
  [if s.v6 then 10 else 2] ++ s.a ++ port s.sport ++ port s.dport ++ s.src ++ s.b ++ s.dst ++ s.c ++ s.d ++ leBytes 4 s.inode ++ s.e

structure InetSock.Ok (s : InetSock) : Prop where
  src : s.src.length = if s.v6 then 16 else 4
  dst : s.dst.length = if s.v6 then 16 else 4
  sport : s.sport < 65536
  dport : s.dport < 65536
  inode : s.inode < 2 ^ 32
  m : s.m.length = 10
  a : s.a.length = 3
  b : s.b.length = if s.v6 then 0 else 12
  c : s.c.length = if s.v6 then 0 else 12
  d : s.d.length = 28
  len : s.payload.length < 2 ^ 31

/-- the socket is connected: it has an address or a port to send to -/
def InetSock.Connected (s : InetSock) : Prop := s.dport ≠ 0 ∨ ∃ x ∈ s.dst, x ≠ 0

open Classical in
/-- what is to be shown -/
noncomputable def InetSock.details (name : String) (s : InetSock) : Details :=
  .inet name s.v6 s.src s.sport (if s.Connected then some (s.dst, s.dport) else none)

/-- a netlink socket -/
structure NlSock where
  proto : Nat
  portid : Nat
  inode : Nat
  m : List Byte
  a : Byte
  b : Byte
  c : List Byte
  d : List Byte

/-- `struct netlink_diag_msg` -/
def NlSock.payload (s : NlSock) : List Byte :=
  [16, s.a] ++ leBytes 1 s.proto ++ [s.b] ++ leBytes 4 s.portid ++ s.c ++ leBytes 4 s.inode ++ s.d

structure NlSock.Ok (s : NlSock) : Prop where
  proto : s.proto < 256
  portid : s.portid < 2 ^ 32
  inode : s.inode < 2 ^ 32
  m : s.m.length = 10
  c : s.c.length = 8
  d : 8 ≤ s.d.length
  len : s.payload.length < 2 ^ 31

/-- the protocols of netlink that have names -/
def Named (proto : Nat) : Prop := proto ≤ 22 ∧ proto ≠ 17

open Classical in
noncomputable def NlSock.details (name : String) (s : NlSock) : Details :=
  .netlink name s.proto (if Named s.proto then some s.portid else none)

/-- a socket of the file system -/
structure UnixSock where
  inode : Nat
  attrs : List (Nat × List Byte)
  m : List Byte
  a : List Byte
  b : List Byte

/-- `struct unix_diag_msg` and the attributes -/
def UnixSock.payload (s : UnixSock) : List Byte := [1] ++ s.a ++ leBytes 4 s.inode ++ s.b ++ (s.attrs.map attr).flatten

structure UnixSock.Ok (s : UnixSock) : Prop where
  inode : s.inode < 2 ^ 32
  attrs : ∀ x ∈ s.attrs, AttrOk x
  m : s.m.length = 10
  a : s.a.length = 3
  b : s.b.length = 8
  len : s.payload.length < 2 ^ 31

/-- the name the socket is bound to: at most 108 bytes of attribute 0 -/
def UnixSock.name (s : UnixSock) : List Byte := (((s.attrs.filter (·.1 = 0)).map (·.2)).find? (fun l => l ≠ [])).getD [] |>.take 108

/-- the number in four bytes -/
def num4 : List Byte → Nat
  | a :: b :: c :: d :: _ => a.val + 256 * b.val + 65536 * c.val + 16777216 * d.val
  | _ => 0

/-- the inode of the other end: attribute 2 -/
def UnixSock.peer (s : UnixSock) : Nat :=
  (((s.attrs.filter (·.1 = 2)).map (·.2)).filter (fun l => 4 ≤ l.length)).getLast?.elim 0 num4

/-- the part of a name before a NUL byte -/
def upTo0 : List Byte → List Byte
  | [] => []
  | b :: l => if b = 0 then [] else b :: upTo0 l

/-- what is to be shown: nothing of a socket with neither name nor peer.  A path ends at a NUL byte; an abstract name, which begins
with one, is all of the bytes. -/
def UnixSock.details (name : String) (s : UnixSock) : Option Details :=
  if s.peer = 0 ∧ s.name = [] then none
  else
    some (.unix name s.inode (if s.peer = 0 then none else some s.peer)
      (if s.name = [] then none
      else if s.name.head? = some 0 then some (true, s.name.tail)
      else some (false, upTo0 s.name)))

/-- the answer of the kernel: messages of a type, as many in a datagram as it likes, and perhaps a message of another type at the
end (the end of a list, or an error) -/
def Answer (typ : Nat) (msgs datagrams : List (List Byte)) : Prop :=
  ∃ groups : List (List (List Byte)), ∃ fin : List (List Byte), datagrams = groups.map List.flatten ∧ groups.flatten = msgs ++ fin ∧
    (∀ g ∈ groups, g ≠ [] ∧ g.flatten.length ≤ 8192) ∧
    (fin = [] ∨ ∃ (t : Nat) (m p : List Byte), t ≠ typ ∧ t < 65536 ∧ m.length = 10 ∧ p.length < 8192 ∧ fin = [message t m p])

def InetSock.message (s : InetSock) : List Byte := Diag.message 20 s.m s.payload
def NlSock.message (s : NlSock) : List Byte := Diag.message 20 s.m s.payload
def UnixSock.message (s : UnixSock) : List Byte := Diag.message 20 s.m s.payload

/-- the sockets there are: internet ones by protocol, netlink ones, and the one that is asked for -/
structure Kernel where
  inet : String → List InetSock
  nl : List NlSock
  unix : Option UnixSock

structure Kernel.Ok (k : Kernel) (inode : Nat) : Prop where
  inet : ∀ name, ∀ s ∈ k.inet name, s.Ok
  nl : ∀ s ∈ k.nl, s.Ok
  unix : ∀ s ∈ k.unix, s.Ok ∧ s.inode = inode

def unixNames : List String := ["UNIX", "UNIX-STREAM"]
def inetNames : List String :=
  ["TCP", "UDP", "UDPLITE", "DCCP", "SCTP", "L2TP/IP", "PING", "RAW", "TCPv6", "UDPv6", "UDPLITEv6", "DCCPv6", "L2TP/IPv6",
    "SCTPv6", "PINGv6", "RAWv6"]
def allNames : List String := unixNames ++ inetNames ++ ["NETLINK"]

/-- the kernel answers for every protocol; about a socket of the file system, only with its message -/
def Answers (k : Kernel) (ans : String → List (List Byte)) : Prop :=
  (∀ n ∈ unixNames, match k.unix with
    | some s => s.message.length ≤ 8192 ∧ ans n = [s.message]
    | none => Answer 20 [] (ans n)) ∧
  (∀ n ∈ inetNames, Answer 20 ((k.inet n).map InetSock.message) (ans n)) ∧
  Answer 20 (k.nl.map NlSock.message) (ans "NETLINK")

open Classical in
/-- what there is to say of an inode under the name of a protocol -/
noncomputable def Kernel.says (k : Kernel) (inode : Nat) (name : String) : Option Details :=
  if name ∈ unixNames then k.unix.bind (UnixSock.details name)
  else if name = "NETLINK" then (k.nl.find? (·.inode = inode)).map (NlSock.details name)
  else ((k.inet name).find? (·.inode = inode)).map (InetSock.details name)

/-- what is to be shown of an inode: of the protocol, if it is known, or else of the first that has something to say -/
noncomputable def Kernel.shown (k : Kernel) (inode : Nat) (name : Option String) : Shown :=
  match name with
  | some n =>
    if n ∈ allNames then
      match k.says inode n with
      | some d => .details d
      | none => .named n inode
    else (allNames.findSome? (k.says inode)).elim .path .details
  | none => (allNames.findSome? (k.says inode)).elim .path .details

/-! ### Families -/

/-- a message about a family of generic netlink -/
structure Family where
  id : Nat
  name : List Byte
  attrs : List (Nat × List Byte)
  m : List Byte
  r : List Byte

def Family.message (f : Family) : List Byte := Diag.message 16 f.m ([1, 2] ++ f.r ++ (f.attrs.map attr).flatten)

/-- it has one name, with a NUL byte after it, and one number, among other attributes -/
structure Family.Ok (f : Family) : Prop where
  id : f.id < 65536
  name : ∀ b ∈ f.name, b ≠ 0
  attrs : ∀ x ∈ f.attrs, AttrOk x
  theName : (f.attrs.filter (·.1 = 2)).map (·.2) = [f.name ++ [0]]
  theId : (f.attrs.filter (·.1 = 1)).map (·.2) = [leBytes 2 f.id]
  m : f.m.length = 10
  r : f.r.length = 2
  len : f.message.length < 2 ^ 31

end Strace.Diag
