import Verif.Net.Model

/-!
# What the calls that make sockets and pairs, and that send, are asked

The names by which the protocols of the families are known; what the kernel takes from the registers.
-/
namespace Strace.Net.Spec

open Strace.Net

/-- What the names of the protocols of a family begin with: AF_INET and AF_INET6, AF_AX25, AF_NETLINK, AF_PACKET, AF_IRDA, AF_CAN,
AF_BLUETOOTH, AF_RXRPC (whose protocol is a family), AF_ISDN, AF_PHONET, AF_CAIF, AF_NFC, AF_KCM, AF_SMC. -/
def prefixes : List (Nat × String) :=
  [(2, "IPPROTO_"), (10, "IPPROTO_"), (3, "AX25_P_"), (16, "NETLINK_"), (17, "ETH_P_"), (23, "IRDAPROTO_"), (29, "CAN_"),
   (31, "BTPROTO_"), (33, "AF_"), (34, "ISDN_P_"), (35, "PN_PROTO_"), (37, "CAIFPROTO_"), (39, "NFC_SOCKPROTO_"),
   (41, "KCMPROTO_"), (43, "SMCPROTO_")]

/-- A text begins with another. -/
def Begins (p s : String) : Prop := p.toList <+: s.toList

/-- A protocol is shown as one of the family that has names with the prefix `pre`: by such a name, or such a text for unknown
ones. -/
def ShownAs (pre : String) (t : Tok) : Prop :=
  ∃ n d v, (t = .proto n d v ∨ t = .htons n d v) ∧ Begins pre d ∧ ∀ s, n = some s → Begins pre s

/-- The number that is shown. -/
def numberOf : Tok → Option Nat
  | .proto _ _ v => some v
  | .htons _ _ v => some v
  | .num v => some v
  | _ => none

/-- What a reader sees of a protocol: its name if it has one, or else the number. -/
def seen : Tok → Option String × Option Nat
  | .proto (some s) _ _ => (some s, none)
  | .proto none _ v => (none, some v)
  | .htons (some s) _ _ => (some s, none)
  | .htons none _ v => (none, some v)
  | .num v => (none, some v)
  | _ => (none, none)

/-- The number of `w` bytes at address `a`. -/
def word (m : Nat → Option Nat) (a w : Nat) : Nat := ((List.range w).map fun k => (m (a + k)).getD 0 * 256 ^ k).sum

/-- The `n` bytes at `p` can be read. -/
def Readable (m : Nat → Option Nat) (p n : Nat) : Prop := p ≠ 0 ∧ ∀ i, i < n → (m (p + i)).isSome

/-- `v` is what a parameter of type `int` is if the register, or the word in memory, holds `a`. -/
def IsInt (a : Nat) (v : Int) : Prop := -2 ^ 31 ≤ v ∧ v < 2 ^ 31 ∧ ∃ q : Int, (a : Int) = v + q * 2 ^ 32

/-- What is to be shown of the pair of descriptors that a call has put at `a`. -/
def Pair (m : Nat → Option Nat) (a : Nat) (l : List Tok) : Prop :=
  ∃ x y, l = [.first, .fd x, .fd y, .last] ∧ IsInt (word m a 4) x ∧ IsInt (word m (a + 4) 4) y

end Strace.Net.Spec
