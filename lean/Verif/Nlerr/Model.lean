/-!
# Error messages of netlink

An NLMSG_ERROR message holds an error number and the header of the request it is about, then the rest of the request (unless
NLM_F_CAPPED is set), then attributes.  `decode_nlmsgerr`, `decode_payload` and `decode_nlmsghdr_with_payload` call each other: the
quoted request is decoded as any message is, and may be an error message itself.  What the decoders of the families do with a
payload is left out, as is the printing of headers; addresses are numbers.
-/

namespace Strace.Nlerr

/-- `struct nlmsghdr`: the members the decoding depends on -/
structure Hdr where
  len : Nat
  type : Nat
  flags : Nat
  deriving DecidableEq, Repr

/-- where the decoding takes place -/
structure Env where
  /-- the header at an address; none if the memory cannot be read.  The 4 bytes of the error before it are read with it. -/
  hdr : Nat → Option Hdr
  /-- whether the decoder of the socket's family, if there is one, takes the payload of a message of this type at this address and
  of this length -/
  accepts : Nat → Nat → Nat → Bool
  /-- whether the memory at an address can be read as an int -/
  int : Nat → Bool

/-- what is shown of a payload -/
inductive Out
  /-- as a string of hexadecimal escapes -/
  | bytes (addr len : Nat)
  /-- just the address -/
  | addr (addr : Nat)
  /-- an integer -/
  | num (addr : Nat)
  /-- by the decoder of the family -/
  | family (addr len : Nat)
  /-- the error at `addr`, the header after it, the payload that follows, and the address and size of attributes -/
  | err (addr : Nat) (msg : Hdr) (payload : Option Out) (attrs : Option (Nat × Nat))
  deriving Repr

/-- `NLM_F_CAPPED` -/
def cappedBit : Nat := 0x100

/-- `MAX(sizeof(err.msg), err.msg.nlmsg_len)`, src/netlink.c:574-575 -/
def msgLen (h : Hdr) : Nat := max 16 h.len

/-- `payload` in `decode_nlmsgerr`, src/netlink.c:581-582; `len` is that left after the error -/
def quoted (len : Nat) (capped : Bool) (h : Hdr) : Nat := min len (if capped then 16 else msgLen h)

/-- the attributes, src/netlink.c:598-607 -/
def attrs (addr len payload : Nat) : Option (Nat × Nat) := if len > payload then some (addr + payload, len - payload) else none

/-- the payloads other than those of error messages, src/netlink.c:642-658 -/
def other (e : Env) (h : Hdr) (addr len : Nat) : Out :=
  if (h.type ≥ 16 ∨ h.type = 3) ∧ e.accepts h.type addr len = true then .family addr len
  else if h.type = 3 ∧ len = 4 then (if e.int addr then .num addr else .addr addr)
  else .bytes addr len

/-- `decode_payload`, src/netlink.c:619-659, with `decode_nlmsgerr`, src/netlink.c:549-608, and
`decode_nlmsghdr_with_payload`, src/netlink.c:661-682, in place of the calls -/
def payload (e : Env) (h : Hdr) (addr len : Nat) : Out :=
  if h.type = 2 then
    if len < 20 then .bytes addr len
    else
      match e.hdr (addr + 4) with
      | none => .addr addr
      | some m =>
        let n := quoted (len - 4) (h.flags &&& cappedBit != 0) m
        let nlmsgLen := min m.len n
        .err addr m
          (if nlmsgLen > 16 then some (payload e m (addr + 4 + 16) (nlmsgLen - 16)) else none)
          (attrs (addr + 4) (len - 4) n)
  else other e h addr len
termination_by len
decreasing_by
  simp only [quoted] at *
  omega

/-- `decode_nlmsghdr_with_payload`, src/netlink.c:661-682, for a message in `len` bytes at `addr`: its payload -/
def message (e : Env) (h : Hdr) (addr len : Nat) : Option Out :=
  if min h.len len > 16 then some (payload e h (addr + 16) (min h.len len - 16)) else none

end Strace.Nlerr
