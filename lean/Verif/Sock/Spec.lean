import Verif.Sock.Model
/-!
# What the text of a socket address says

The layouts are those of the kernel headers (bundled/linux/include/uapi/linux and the C library).  An address is a list of bytes.
-/
namespace Strace.Sock
open Strace.Sized (Byte)

/-- the bytes at an offset; the kernel clears what was not passed -/
def bytesAt (b : List Byte) (off n : Nat) : List Byte := (List.range n).map fun i => b.getD (off + i) 0

/-- the little-endian number at an offset -/
def leAt (b : List Byte) (off n : Nat) : Nat := ((List.range n).map fun i => (b.getD (off + i) 0).val * 256 ^ i).sum

/-- the big-endian number at an offset -/
def beAt (b : List Byte) (off n : Nat) : Nat := ((List.range n).map fun i => (b.getD (off + i) 0).val * 256 ^ (n - 1 - i)).sum

inductive Kind | host | network | bytes
  deriving DecidableEq

/-- a field of a structure: `quiet` fields are reserved and shown only if they are not 0 -/
structure Fld where
  name : String
  kind : Kind
  off : Nat
  width : Nat
  quiet : Bool := false

/-- how a field is shown -/
def Fld.tok (f : Fld) (b : List Byte) : Tok :=
  match f.kind with
  | .host => .num f.name (leAt b f.off f.width)
  | .network => .net f.name (beAt b f.off f.width)
  | .bytes => .raw f.name (bytesAt b f.off f.width)

/-- the smallest length with which an address of a family is taken apart -/
def minLen : Nat → Option Nat
  | 1 => some 3 | 2 => some 16 | 3 => some 16 | 4 => some 16 | 9 => some 18 | 10 => some 24 | 16 => some 12 | 17 => some 20
  | 31 => some 3 | 33 => some 36 | 36 => some 20 | 38 => some 25 | 39 => some 16 | 40 => some 16 | 42 => some 12 | 44 => some 16
  | 45 => some 12 | _ => none

/-- the fields of `struct sockaddr_in` and `struct sockaddr_in6` at an offset -/
def inet4 (o : Nat) : List Fld := [⟨"sin_port", .network, o + 2, 2, false⟩, ⟨"sin_addr", .bytes, o + 4, 4, false⟩]
def inet6 (o : Nat) : List Fld :=
  [⟨"sin6_port", .network, o + 2, 2, false⟩, ⟨"sin6_flowinfo", .network, o + 4, 4, false⟩, ⟨"sin6_addr", .bytes, o + 8, 16, false⟩]
def scope (o : Nat) : List Fld := [⟨"sin6_scope_id", .host, o + 24, 4, false⟩]

/-- the fields of fixed size, behind the family, of an address of `b.length` bytes -/
def famAbi (b : List Byte) : Nat → List Fld
  | 2 => inet4 0
  | 3 => [⟨"sax25_ndigis", .host, 12, 4, false⟩]
  | 4 => [⟨"sipx_port", .network, 2, 2, false⟩, ⟨"sipx_network", .network, 4, 4, false⟩, ⟨"sipx_node", .bytes, 8, 6, false⟩,
      ⟨"sipx_type", .host, 14, 1, false⟩, ⟨"sipx_zero", .host, 15, 1, true⟩]
  | 10 => inet6 0 ++ (if b.length > 24 then scope 0 else [])
  | 16 => [⟨"nl_pad", .host, 2, 2, true⟩, ⟨"nl_pid", .host, 4, 4, false⟩, ⟨"nl_groups", .host, 8, 4, false⟩]
  | 17 => [⟨"sll_protocol", .network, 2, 2, false⟩, ⟨"sll_ifindex", .host, 4, 4, false⟩, ⟨"sll_hatype", .host, 8, 2, false⟩,
      ⟨"sll_pkttype", .host, 10, 1, false⟩, ⟨"sll_halen", .host, 11, 1, false⟩]
  | 31 =>
    if b.length = 4 then [⟨"hci_dev", .host, 2, 2, false⟩]
    else if b.length = 6 then [⟨"hci_dev", .host, 2, 2, false⟩, ⟨"hci_channel", .host, 4, 2, false⟩]
    else if b.length = 8 then [⟨"sco_bdaddr", .bytes, 2, 6, false⟩]
    else if b.length = 10 then [⟨"rc_bdaddr", .bytes, 2, 6, false⟩, ⟨"rc_channel", .host, 8, 1, false⟩]
    else if b.length = 12 then
      [⟨"l2_psm", .host, 2, 2, false⟩, ⟨"l2_bdaddr", .bytes, 4, 6, false⟩, ⟨"l2_cid", .host, 10, 2, false⟩]
    else if b.length = 14 then
      [⟨"l2_psm", .host, 2, 2, false⟩, ⟨"l2_bdaddr", .bytes, 4, 6, false⟩, ⟨"l2_cid", .host, 10, 2, false⟩,
        ⟨"l2_bdaddr_type", .host, 12, 1, false⟩]
    else []
  | 33 => [⟨"srx_service", .host, 2, 2, false⟩, ⟨"transport_type", .host, 4, 2, false⟩, ⟨"transport_len", .host, 6, 2, false⟩] ++
      (if leAt b 8 2 = 2 then
        ⟨"sin_family", .host, 8, 2, false⟩ :: (if leAt b 6 2 ≥ 16 then inet4 8 else [])
      else if leAt b 8 2 = 10 then
        ⟨"sin6_family", .host, 8, 2, false⟩ :: (if leAt b 6 2 ≥ 24 then inet6 8 else []) ++
          (if leAt b 6 2 > 24 ∧ b.length > 32 then scope 8 else [])
      else [⟨"family", .host, 8, 2, false⟩])
  | 36 => [⟨"addr_type", .host, 4, 4, false⟩, ⟨"pan_id", .host, 8, 2, false⟩] ++
      (if leAt b 4 4 = 0 then [] else if leAt b 4 4 = 2 then [⟨"short_addr", .host, 10, 2, false⟩]
       else [⟨"hwaddr", .bytes, 10, 8, false⟩])
  | 38 => [⟨"salg_feat", .host, 16, 4, false⟩, ⟨"salg_mask", .host, 20, 4, false⟩]
  | 39 => [⟨"dev_idx", .host, 4, 4, false⟩, ⟨"target_idx", .host, 8, 4, false⟩, ⟨"nfc_protocol", .host, 12, 4, false⟩]
  | 40 => [⟨"svm_reserved1", .host, 2, 2, true⟩, ⟨"svm_port", .host, 4, 4, false⟩, ⟨"svm_cid", .host, 8, 4, false⟩,
      ⟨"svm_flags", .host, 12, 1, false⟩, ⟨"svm_zero", .bytes, 13, 3, true⟩]
  | 42 => [⟨"sq_node", .host, 4, 4, false⟩, ⟨"sq_port", .host, 8, 4, false⟩]
  | 44 => [⟨"sxdp_flags", .host, 2, 2, false⟩, ⟨"sxdp_ifindex", .host, 4, 4, false⟩, ⟨"sxdp_queue_id", .host, 8, 4, false⟩,
      ⟨"sxdp_shared_umem_fd", .host, 12, 4, true⟩]
  | 45 => [⟨"__smctp_pad0", .host, 2, 2, true⟩, ⟨"smctp_network", .host, 4, 4, false⟩, ⟨"s_addr", .host, 8, 1, false⟩,
      ⟨"smctp_type", .host, 9, 1, false⟩, ⟨"smctp_tag", .host, 10, 1, false⟩, ⟨"__smctp_pad1", .host, 11, 1, true⟩]
  | _ => []

/-- the fields of fixed size of an address of `b.length` bytes -/
def abi (b : List Byte) : List Fld := ⟨"sa_family", .host, 0, 2, false⟩ :: famAbi b (leAt b 0 2)

/-- the address is taken apart -/
def Known (b : List Byte) : Prop := ∃ m, minLen (leAt b 0 2) = some m ∧ m ≤ b.length ∧ 2 < b.length

/-- the name of what is shown -/
def nameOf : Tok → Option String
  | .num n _ | .net n _ | .raw n _ | .str n _ _ | .abstr n _ | .arr n _ _ | .call n _ | .calls n _ _ => some n
  | _ => none

/-- bytes up to a NUL -/
def upToNul (l : List Byte) : List Byte := l.takeWhile (· != 0)

end Strace.Sock
