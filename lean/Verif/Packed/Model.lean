/-!
# Records packed one after another: src/lsm.c, src/btrfs.c
-/
namespace Strace.Packed

/-- the memory of the tracee: the bytes that can be read -/
abbrev Mem := Nat → Option Nat

/-- `umoven` of `n` bytes: all of them or nothing. Simplification: the address space ends at 2^64, src/ucopy.c is C19 -/
def bytes (mem : Mem) (a : Nat) : Nat → Option (List Nat)
  | 0 => some []
  | n + 1 =>
    match mem a, bytes mem (a + 1) n with
    | some b, some r => some (b :: r)
    | _, _ => none

/-- `tfetch_mem64`, src/util.c:1732-1739: nothing is read at address 0. Simplification: the call has not failed and -e verbose
applies to it -/
def fetch (mem : Mem) (a n : Nat) : Option (List Nat) := if a = 0 ∨ a + n > 2 ^ 64 then none else bytes mem a n

/-- a little-endian number of `w` bytes at offset `off` -/
def num (b : List Nat) (off : Nat) : Nat → Nat
  | 0 => 0
  | w + 1 => b[off]?.getD 0 + 256 * num b (off + 1) w

/-! ## struct lsm_ctx -/

/-- the header of `struct lsm_ctx`, bundled/linux/include/uapi/linux/lsm.h:35-41 -/
structure Ctx where
  id : Nat
  flags : Nat
  len : Nat
  ctxLen : Nat
  deriving DecidableEq

/-- the header read from memory -/
def ctxAt (mem : Mem) (a : Nat) : Option Ctx :=
  (fetch mem a 32).map fun b => ⟨num b 0 8, num b 8 8, num b 16 8, num b 24 8⟩

/-- what is printed -/
inductive Out where
  /-- a structure; `ctx` is the part of memory that is printed as a string -/
  | ctx (c : Ctx) (text : Option (Nat × Nat))
  /-- `...` -/
  | more
  /-- `... /* address */` -/
  | moreAt (a : Nat)
  /-- an address -/
  | addr (a : Nat)
  deriving DecidableEq

/-- `sequence_truncation_needed`, src/util.c:2082-2086: `lim` is `max_strlen` if the output is abbreviated -/
def trunc (lim : Option Nat) (n : Nat) : Bool :=
  match lim with
  | some m => decide (n > m)
  | none => false

/-- the end of `fetch_lsm_ctx_header`, src/lsm.c:38-43 -/
def noHeader (isSeq : Bool) (a : Nat) : Out := if isSeq then .moreAt a else .addr a

/-- `decode_lsm_ctx`, src/lsm.c:48-79 -/
def showCtx (c : Ctx) (a len : Nat) : Out :=
  let msgLen := min c.len len
  let msgCtx := if msgLen > 32 then msgLen - 32 else 0
  let n := min c.ctxLen msgCtx
  .ctx c (if n > 0 then some ((a + 32) % 2 ^ 64, n) else none)

/-- `next_len`, src/lsm.c:97-101 -/
def nextLen (c : Ctx) (len : Nat) : Nat := if c.len ≥ 32 then (if len ≥ c.len then len - c.len else 0) else 0

/-- `next_addr`, src/lsm.c:96 and 99-105; 0 is the end -/
def nextAddr (c : Ctx) (a len : Nat) : Nat :=
  if c.len ≥ 32 then (if nextLen c len > 0 ∧ (a + c.len) % 2 ^ 64 > a then (a + c.len) % 2 ^ 64 else 0) else 0

theorem nextLen_lt (c : Ctx) (a len : Nat) (h : nextAddr c a len ≠ 0) : nextLen c len < len := by
  unfold nextAddr at h
  unfold nextLen at h ⊢
  split
  · split
    · omega
    · rename_i h1 h2
      simp [h1, h2] at h
  · rename_i h1
    simp [h1] at h

/-- the loop of `decode_lsm_ctx_sequence`, src/lsm.c:81-120; `elt` is the number of structures printed so far -/
def seq (mem : Mem) (lim : Option Nat) (isSeq : Bool) (elt a len : Nat) : List Out :=
  match if len ≥ 32 then ctxAt mem a else none with
  | none => [noHeader isSeq a]
  | some c =>
    if trunc lim (elt + 1) then [.more]
    else
      showCtx c a len ::
        if h : nextAddr c a len = 0 then []
        else seq mem lim true (elt + 1) (nextAddr c a len) (nextLen c len)
termination_by len
decreasing_by exact nextLen_lt c a len h

/-! ## struct btrfs_ioctl_search_header -/

/-- `struct btrfs_ioctl_search_header`, bundled/linux/include/uapi/linux/btrfs.h:570-576 -/
structure Hdr where
  transid : Nat
  objectid : Nat
  offset : Nat
  type : Nat
  len : Nat
  deriving DecidableEq

/-- the header read from memory -/
def hdrAt (mem : Mem) (a : Nat) : Option Hdr :=
  (fetch mem a 32).map fun b => ⟨num b 0 8, num b 8 8, num b 16 8, num b 24 4, num b 28 4⟩

/-- what is printed -/
inductive Item where
  | hdr (h : Hdr)
  | more
  | moreAt (a : Nat)
  deriving DecidableEq

/-- the loop of `decode_search_arg_buf`, src/btrfs.c:365-398, from offset `off` with `n` items left; the output is not abbreviated,
so that it is never truncated -/
def search (mem : Mem) (buf size : Nat) : Nat → Nat → List Item
  | 0, _ => []
  | n + 1, off =>
    if (buf + off) % 2 ^ 64 < buf ∨ (off + 32) % 2 ^ 64 > size then [.more]
    else
      match hdrAt mem ((buf + off) % 2 ^ 64) with
      | none => [.moreAt ((buf + off) % 2 ^ 64)]
      | some h => .hdr h :: search mem buf size n ((off + (32 + h.len)) % 2 ^ 64)

end Strace.Packed
