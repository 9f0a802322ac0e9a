/-!
# Loops over records in tracee memory: src/netlink.c, src/nlattr.c, src/msghdr.c, src/xgetdents.c

Addresses and lengths are numbers; 64-bit wrap-around is written out.  What reading a header of the tracee gives is an
arbitrary function of the address.  A loop takes a bound on its iterations and gives `none` if that is reached.
-/
namespace Strace.Walk

/-- `kernel_ulong_t` addition -/
def add64 (a b : Nat) : Nat := (a + b) % 2 ^ 64

/-! ### decode_netlink, decode_nlattr -/

/-- what is printed -/
inductive Tok
  /-- a header at an address, and the address and length of the payload handed to a decoder -/
  | elem (addr : Nat) (payload : Option (Nat × Nat))
  /-- too short for a header: the bytes in hexadecimal -/
  | raw (addr len : Nat)
  /-- the header cannot be read: the address, as a comment after `...` inside of an array -/
  | bad (addr : Nat) (inArray : Bool)
  /-- `...` -/
  | more
  /-- `[` -/
  | opened
  /-- `, ` -/
  | next
  /-- `]` -/
  | closed
  deriving DecidableEq, Repr

/-- `NLMSG_ALIGN` of a 32-bit value, bundled/linux/include/uapi/linux/netlink.h:98-99 -/
def nlmsgAlign (n : Nat) : Nat := (n + 3) % 2 ^ 32 / 4 * 4

/-- `NLA_ALIGN` of a 16-bit value, bundled/linux/include/uapi/linux/netlink.h:244-245 -/
def nlaAlign (n : Nat) : Nat := (n + 3) / 4 * 4

/-- `sequence_truncation_needed`, src/util.c:2083-2086; `none` if not abbreviating -/
def over : Option Nat → Nat → Bool
  | none, _ => false
  | some m, k => decide (k > m)

/-- the payload: `decode_nlmsghdr_with_payload`, src/netlink.c:661-682; `decode_nlattr_with_data`, src/nlattr.c:71-107 -/
def payloadOf (hsize addr len n : Nat) : Option (Nat × Nat) :=
  if min n len > hsize then some (add64 addr hsize, min n len - hsize) else none

/-- the next length, src/netlink.c:714, src/nlattr.c:143 -/
def nextLen (len sz : Nat) : Nat := if len ≥ sz then len - sz else 0

/-- the next header: src/netlink.c:709-718, src/nlattr.c:138-147; `sz` is the aligned length -/
def nextHdr (hsize addr len n sz : Nat) : Option (Nat × Nat) :=
  if n ≥ hsize ∧ nextLen len sz ≠ 0 ∧ add64 addr sz > addr then some (add64 addr sz, nextLen len sz)
  else none

/-- the end, src/netlink.c:736-738, src/nlattr.c:165-167 -/
def fin (arr : Bool) : List Tok := if arr = true then [.closed] else []

/-- the loop of `decode_netlink`, src/netlink.c:700-738, with `fetch_nlmsghdr` 59-80, and that of `decode_nlattr`,
src/nlattr.c:129-167, with `fetch_nlattr` 21-42.  `get` reads the length field of the header at an address, or fails. -/
def nlLoop (hsize : Nat) (align : Nat → Nat) (limit : Option Nat) (get : Nat → Option Nat) :
    Nat → Nat → Bool → Nat → Nat → Option (List Tok)
  | 0, _, _, _, _ => none
  | fuel + 1, elt, arr, addr, len =>
    if len < hsize then some (.raw addr len :: fin arr)
    else
      match get addr with
      | none => some (.bad addr arr :: fin arr)
      | some n =>
        if over limit (elt + 1) = true then some (.more :: fin arr)
        else
          match nextHdr hsize addr len n (align n) with
          | none => some (.elem addr (payloadOf hsize addr len n) :: fin arr)
          | some (a, l) =>
            (nlLoop hsize align limit get fuel (elt + 1) true a l).map fun t =>
              (if arr = true then [] else [.opened]) ++ .elem addr (payloadOf hsize addr len n) :: .next :: t

/-- `decode_netlink` for families other than kobject-uevent -/
def decodeNetlink (limit : Option Nat) (get : Nat → Option Nat) (fuel addr len : Nat) : Option (List Tok) :=
  nlLoop 16 nlmsgAlign limit get fuel 0 false addr len

/-- `decode_nlattr` -/
def decodeNlattr (limit : Option Nat) (get : Nat → Option Nat) (fuel addr len : Nat) : Option (List Tok) :=
  nlLoop 4 nlaAlign limit get fuel 0 false addr len

/-- which of the decoders is used for an attribute, src/nlattr.c:82, 90-97: `size` is their number, 0 and 2^32-1
stand for one decoder for all types; `given` says which are not NULL -/
def decoderFor (size type : Nat) (given : Nat → Bool) : Option Nat :=
  let useType := decide (size ≠ 2 ^ 32 - 1)
  let idx := if useType = true ∧ size ≠ 0 then type % 2 ^ 14 else 0
  if useType = true ∧ size ≠ 0 ∧ idx ≥ size then none
  else if given idx = true then some idx else none

/-! ### decode_msg_control -/

/-- a control message shown: offset of its header, offset and length of its data -/
structure CMsg where
  off : Nat
  dataOff : Nat
  dataLen : Nat
  deriving DecidableEq, Repr

/-- the aligned length, src/msghdr.c:390-391; `w` is the word size of the tracee -/
def cmsgAlign (w n : Nat) : Nat := (n + w - 1) % 2 ^ 64 / w * w

/-- the loop of `decode_msg_control`, src/msghdr.c:351-399: `get` is the `cmsg_len` at an offset in the buffer, `hsize` is
`cmsg_size`.  Gives the messages shown and the number of bytes left over. -/
def cmsgLoop (w hsize : Nat) (get : Nat → Nat) : Nat → Nat → Nat → Option (List CMsg × Nat)
  | 0, _, _ => none
  | fuel + 1, off, left =>
    if left ≥ hsize then
      if min (get off) left < hsize then some ([⟨off, off + hsize, 0⟩], left - hsize)
      else if cmsgAlign w (get off) ≥ left then some ([⟨off, off + hsize, min (get off) left - hsize⟩], 0)
      else
        (cmsgLoop w hsize get fuel (off + cmsgAlign w (get off)) (left - cmsgAlign w (get off))).map fun r =>
          (⟨off, off + hsize, min (get off) left - hsize⟩ :: r.1, r.2)
    else some ([], left)

/-- what ends the list, src/msghdr.c:399-406 -/
inductive CEnd
  /-- `... /* address */`: the offset at which the rest begins -/
  | rest (off : Nat)
  /-- `...` -/
  | cut
  | nothing
  deriving DecidableEq, Repr

/-- `decode_msg_control`, src/msghdr.c:323-409, where the buffer can be read: `given` is the length given, `opt` is the
system's limit -/
def decodeControl (w hsize opt : Nat) (get : Nat → Nat) (fuel given : Nat) : Option (List CMsg × CEnd) :=
  (cmsgLoop w hsize get fuel 0 (min given opt)).map fun r =>
    (r.1, if r.2 ≠ 0 then .rest (min given opt - r.2) else if min given opt < given then .cut else .nothing)

/-! ### decode_dents -/

/-- what is shown in a comment about a bad entry -/
inductive Odd
  | none
  | overflow (n : Nat)
  | underflow (n : Nat)
  | wraps
  deriving DecidableEq, Repr

/-- an entry: the address of its header, of its tail, and the length of that -/
structure Dent where
  addr : Nat
  tail : Nat
  tailLen : Nat
  odd : Odd
  deriving DecidableEq, Repr

/-- how the loop ends -/
inductive DEnd
  /-- everything was shown -/
  | all
  /-- too short for an entry -/
  | raw (addr len : Nat)
  /-- the header cannot be read -/
  | bad (addr len : Nat)
  /-- no way to go on: the number of bytes not shown -/
  | stuck (len : Nat)
  /-- showing the name failed -/
  | tailFailed (len : Nat)
  deriving DecidableEq, Repr

/-- `d_reclen` as used, the comment, the next length and address; src/xgetdents.c:60-89 -/
def dentStep (hsize addr len reclen : Nat) : Nat × Odd × Nat × Option Nat :=
  if reclen > len then (len, .overflow (reclen - len), 0, none)
  else if reclen < hsize then (hsize, .underflow (hsize - reclen), len - hsize, none)
  else if len - reclen = 0 then (reclen, .none, 0, none)
  else if add64 addr reclen > addr then (reclen, .none, len - reclen, some (add64 addr reclen))
  else (reclen, .wraps, len - reclen, none)

/-- the loop of `decode_dents`, src/xgetdents.c:26-108: `get` reads the header, and gives `d_reclen`; `tailOk` says whether
showing the name succeeds, which is not tried when abbreviating.  Separators are left out. -/
def dentLoop (hsize : Nat) (brief : Bool) (get : Nat → Option Nat) (tailOk : Nat → Nat → Bool) :
    Nat → Nat → Nat → Option (List Dent × DEnd)
  | 0, _, _ => none
  | fuel + 1, addr, len =>
    if len < hsize then some ([], if len = 0 then .all else .raw addr len)
    else
      match get addr with
      | none => some ([], .bad addr len)
      | some reclen =>
        match dentStep hsize addr len reclen with
        | (r, odd, l, none) => some ([⟨addr, add64 addr hsize, r - hsize, odd⟩], if l = 0 then .all else .stuck l)
        | (r, odd, l, some a) =>
          if brief = false ∧ tailOk (add64 addr hsize) (r - hsize) = false then
            some ([⟨addr, add64 addr hsize, r - hsize, odd⟩], .tailFailed l)
          else
            (dentLoop hsize brief get tailOk fuel a l).map fun t =>
              (⟨addr, add64 addr hsize, r - hsize, odd⟩ :: t.1, t.2)

/-- the number of bytes left over, `len` at the end of the loop -/
def DEnd.left : DEnd → Nat
  | .all => 0
  | .raw _ len => len
  | .bad _ len => len
  | .stuck len => len
  | .tailFailed len => len

/-- the summary when abbreviating, src/xgetdents.c:114: the number, and whether `+` follows -/
def dentSummary (r : List Dent × DEnd) : Nat × Bool := (r.1.length, decide (r.2.left ≠ 0))

end Strace.Walk
