import Verif.Prctl.Model
import Verif.Net.Tables

/-!
# Model of the calls that make sockets and pairs, and that send

socket, socketpair, pipe, pipe2, send and sendto.

Simplifications: the names of families and types of sockets and flags are the numbers that they are shown from (types are modelled
in `Pack`); a protocol is shown by its name in the tables, or a number with the text that says that it is unknown (the styles are
modelled in `Xlat`); of a buffer and of an address of a socket the address and length are kept. pipe is that of architectures that
return the descriptors in memory.
-/
namespace Strace.Net

open Strace.Prctl (Mem umoven number)

/-- A call: arguments, memory when it begins and when it ends, whether it has failed, `-e verbose`, and the limit of arrays. -/
structure Call where
  arg : Nat → Nat
  before : Mem
  after : Mem
  failed : Bool
  verbose : Bool
  limit : Option Nat

/-- What is printed. -/
inductive Tok
  /-- a number, its name or its flags -/
  | num (v : Nat)
  | int (v : Int)
  | fd (v : Int)
  | addr (a : Nat)
  /-- a protocol: its name, if it has one, the text for unknown ones, and the number -/
  | proto (name : Option String) (dflt : String) (v : Nat)
  /-- the same, in the argument of htons -/
  | htons (name : Option String) (dflt : String) (v : Nat)
  /-- the message at `a` of length `n` -/
  | message (a n : Nat)
  /-- the address of a socket at `a` of length `n` -/
  | sockaddr (a : Nat) (n : Int)
  /-- `[`, `]`, `...`, NULL -/
  | first | last | more | null
deriving DecidableEq, Repr

/-- The conversion to `int`. -/
def int (v : Nat) : Int := if v % 2 ^ 32 < 2 ^ 31 then (v % 2 ^ 32 : Nat) else (v % 2 ^ 32 : Nat) - 2 ^ 32

/-- src/xlat.c, `xlookup`: the name of a number in a table (the search is modelled in `Xlat`) -/
def lookup (t : List (Nat × String)) (v : Nat) : Option String := (t.find? fun e => e.1 == v).map Prod.snd

/-- src/defs.h:1637-1641, `printxval`, whose number is an `unsigned int` -/
def named (t : List (Nat × String)) (dflt : String) (v : Nat) : Tok := .proto (lookup t (v % 2 ^ 32)) dflt (v % 2 ^ 32)

/-- The C function `ntohs`, of a little-endian machine. -/
def ntohs (v : Nat) : Nat := v % 256 * 256 + v / 256 % 256

/-- src/net.c:119-185: the protocol `p` for the domain `d` -/
def protocol (d p : Nat) : Tok :=
  match d with
  | 2 => named inet "IPPROTO_???" p
  | 10 => named inet "IPPROTO_???" p
  | 3 => named ax25 "AX25_P_???" p
  | 16 => named netlink "NETLINK_???" p
  | 17 => .htons (lookup ethernet (ntohs p)) "ETH_P_???" (ntohs p)
  | 23 => named can "IRDAPROTO_???" p
  | 29 => named can "CAN_???" p
  | 31 => named bt "BTPROTO_???" p
  | 33 => named addrfams "AF_???" p
  | 34 => named isdn "ISDN_P_???" p
  | 35 => named phonet "PN_PROTO_???" p
  | 37 => named caif "CAIFPROTO_???" p
  | 39 => named nfc "NFC_SOCKPROTO_???" p
  | 41 => named kcm "KCMPROTO_???" p
  | 43 => named smc "SMCPROTO_???" p
  | _ => .num p

/-- src/util.c:1733-1739, `tfetch_mem64`, of an int when the call ends -/
def get (c : Call) (a : Nat) : Option Int :=
  if a ≠ 0 ∧ c.verbose = true ∧ c.failed = false then (umoven c.after a 4).map fun l => int (number l) else none

/-- src/net.c:424-429, `decode_pair_fd`: src/util.c:1880-1991 for two elements of four bytes -/
def pair (c : Call) (a : Nat) : List Tok :=
  if a = 0 then [.null]
  else if 2 ^ 64 ≤ a + 8 then [.addr a]
  else
    match get c a with
    | none => [.addr a]
    | some x =>
      if c.limit.any (fun l => decide (l = 0)) then [.first, .more, .last]
      else
        [.first, .fd x] ++
        match get c (a + 4) with
        | none => [.more, .addr (a + 4), .last]
        | some y => if c.limit.any (fun l => decide (l ≤ 1)) then [.more, .last] else [.fd y, .last]

inductive Sys | socket | socketpair | pipe | pipe2 | send | sendto
deriving DecidableEq, Repr

/-- src/net.c:108-188 (socket), 270-317 (send, sendto), 432-486 (pipe, pipe2, socketpair) -/
def run (s : Sys) (c : Call) : List Tok :=
  match s with
  | .socket => [.num (c.arg 0 % 2 ^ 32), .num (c.arg 1 % 2 ^ 32), protocol (c.arg 0) (c.arg 2)]
  | .socketpair => [.num (c.arg 0 % 2 ^ 32), .num (c.arg 1 % 2 ^ 32), .num (c.arg 2)] ++ pair c (c.arg 3)
  | .pipe => pair c (c.arg 0)
  | .pipe2 => pair c (c.arg 0) ++ [.num (c.arg 1 % 2 ^ 32)]
  | .send => [.fd (int (c.arg 0)), .message (c.arg 1) (c.arg 2), .num (c.arg 2), .num (c.arg 3 % 2 ^ 32)]
  | .sendto =>
    [.fd (int (c.arg 0)), .message (c.arg 1) (c.arg 2), .num (c.arg 2), .num (c.arg 3 % 2 ^ 32),
     .sockaddr (c.arg 4) (int (c.arg 5)), .int (int (c.arg 5))]

end Strace.Net
