/-!
# Access to tracee memory, src/ucopy.c

A state `Sys` holds the tracee memory, the page cache of `vm_read_mem`, and an oracle that may make any
kernel call fail with any `errno`.  The kernel contract is in `readv`, `peek`, `poke`, `writev`: a call
that does not fail transfers the true bytes; `process_vm_readv` transfers the longest accessible prefix and
fails with `EFAULT` if it is empty; a failing call changes nothing.  Addresses are `uint64_t`
(`kernel_ulong_t` and `unsigned long` of a 64-bit build); `P` is the page size, `W` is `sizeof(long)`.
`none` is an endless loop or an access outside an array.
-/
namespace Strace.UCopy

/-- values of `errno` that the code tells apart -/
inductive Errno
  | ENOSYS | EPERM | ESRCH | EFAULT | EIO | EINVAL | other
  deriving DecidableEq

/-- the byte at each address, `none` where inaccessible -/
abbrev Mem := Nat → Option Nat

/-- the static data of src/ucopy.c and the world -/
structure Sys where
  mem : Mem
  /-- `errno` with which the k-th kernel call fails, if it is made to fail -/
  oracle : Nat → Option Errno
  /-- how many bytes the k-th kernel call may write -/
  quota : Nat → Nat
  calls : Nat
  noReadv : Bool
  noWritev : Bool
  /-- `cached_idx`, src/ucopy.c:84 (`none` is -1) -/
  idx : Option Nat
  /-- `cached_raddr`, src/ucopy.c:85 -/
  raddr : List Nat
  /-- `buf`, src/ucopy.c:153 -/
  buf : List (List Nat)

/-- the longest accessible run of bytes -/
def run (mem : Mem) : Nat → Nat → List Nat
  | _, 0 => []
  | a, n + 1 => match mem a with
    | none => []
    | some b => b :: run mem (a + 1) n

/-- result of a transfer into strace: bytes stored, or failure -/
inductive Res
  | ok (l : List Nat)
  | fail (e : Errno)

/-- `process_vm_readv` -/
def readv (s : Sys) (addr len : Nat) : Res :=
  match s.oracle s.calls with
  | some e => .fail e
  | none => if len ≠ 0 ∧ run s.mem addr len = [] then .fail .EFAULT else .ok (run s.mem addr len)

/-- `process_read_mem`, src/ucopy.c:64-82 -/
def processRead (s : Sys) (addr len : Nat) : Sys × Res :=
  match readv s addr len with
  | .ok l => ({ s with calls := s.calls + 1 }, .ok l)
  | .fail e => ({ s with calls := s.calls + 1, noReadv := s.noReadv || decide (e = .ENOSYS) }, .fail e)

/-- `invalidate_umove_cache`, src/ucopy.c:87-91 -/
def invalidate (s : Sys) : Sys := { s with idx := none }

/-- `ARRAY_SIZE(cached_raddr)` -/
def NC : Nat := 4

/-- `get_next_unused_idx`, src/ucopy.c:93-97 -/
def nextIdx (s : Sys) : Nat :=
  match s.idx with
  | none => 0
  | some i => (i + 1) % NC

/-- the order of the loops of `lookup_cached_raddr_idx`, src/ucopy.c:103-109 -/
def order (c : Nat) : List Nat := (List.range (c + 1)).reverse ++ ((List.range NC).filter (c < ·)).reverse

/-- `lookup_cached_raddr_idx`, src/ucopy.c:99-112 -/
def lookup (s : Sys) (page : Nat) : Option Nat :=
  match s.idx with
  | none => none
  | some c => (order c).find? fun i => decide (s.raddr[i]? = some page)

/-- src/ucopy.c:117-118 -/
def clearedRaddr (s : Sys) : List Nat :=
  match s.idx with
  | none => List.replicate NC 0
  | some _ => s.raddr

/-- `set_cached_raddr_idx`, src/ucopy.c:114-121, after the page has been read into `buf[idx]` -/
def setCached (s : Sys) (page i : Nat) (l : List Nat) : Sys :=
  { s with raddr := (clearedRaddr s).set i page, idx := some i, buf := s.buf.set i l }

/-- src/ucopy.c:154-169: the page buffer, or the error of the read -/
def fetch (P : Nat) (s : Sys) (page : Nat) : Option (Sys × Res) :=
  match lookup s page with
  | some i =>
    match s.buf[i]? with
    | none => none
    | some l => some (s, .ok l)
  | none =>
    match processRead s page P with
    | (s', .fail e) => some (s', .fail e)
    | (s', .ok l) => if nextIdx s < NC then some (setCached s' page (nextIdx s) l, .ok l) else none

/-- the loop of `vm_read_mem`, src/ucopy.c:152-192; `acc` is what is in `laddr` so far, the first argument
bounds the number of rounds -/
def readLoop (P : Nat) : Nat → Sys → Nat → Nat → Nat → List Nat → Option (Sys × Res)
  | 0, _, _, _, _, _ => none
  | n + 1, s, page, taddr, len, acc =>
    match fetch P s page with
    | none => none
    | some (s', .fail e) => some (s', if acc.length ≠ 0 then .ok acc else .fail e)
    | some (s', .ok b) =>
      if len ≤ P - (taddr - page) then some (s', .ok (acc ++ (b.drop (taddr - page)).take len))
      else
        readLoop P n s' ((page + P) % 2 ^ 64) ((page + P) % 2 ^ 64) (len - (P - (taddr - page)))
          (acc ++ (b.drop (taddr - page)).take (P - (taddr - page)))

/-- `x & ~page_mask` -/
def pageOf (P x : Nat) : Nat := x - x % P

/-- `vm_read_mem`, src/ucopy.c:123-195 -/
def vmRead (P : Nat) (s : Sys) (addr len : Nat) : Option (Sys × Res) :=
  if len = 0 then some (s, .ok [])
  else if pageOf P addr = 0 ∨ pageOf P ((addr + len + (P - 1)) % 2 ^ 64) < pageOf P addr ∨
      pageOf P ((addr + len + (P - 1)) % 2 ^ 64) - pageOf P addr > NC * P then
    some (processRead s addr len)
  else readLoop P len s (pageOf P addr) addr len []

/-- `ptrace(PTRACE_PEEKDATA)`: a word -/
def peek (W : Nat) (s : Sys) (addr : Nat) : Sys × Res :=
  ({ s with calls := s.calls + 1 },
   match s.oracle s.calls with
   | some e => .fail e
   | none => if (run s.mem addr W).length = W then .ok (run s.mem addr W) else .fail .EIO)

/-- the loop of `umoven_peekdata`, src/ucopy.c:251-288.  All errors give -1. -/
def peekLoop (W : Nat) : Nat → Sys → Nat → Nat → Nat → List Nat → Option (Sys × Option (List Nat))
  | 0, s, _, _, len, acc => if len = 0 then some (s, some acc) else none
  | n + 1, s, addr, residue, len, acc =>
    if len = 0 then some (s, some acc)
    else
      match peek W s (pageOf W addr) with
      | (s', .fail _) => some (s', none)
      | (s', .ok u) =>
        peekLoop W n s' ((pageOf W addr + W) % 2 ^ 64) 0 (len - min (W - residue) len)
          (acc ++ (u.drop residue).take (min (W - residue) len))

/-- `umoven_peekdata`, src/ucopy.c:244-291: `some` bytes is 0, `none` is -1 -/
def umovenPeek (W : Nat) (s : Sys) (addr len : Nat) : Option (Sys × Option (List Nat)) :=
  peekLoop W len s addr (addr % W) len []

/-- `tracee_addr_is_invalid`, src/ucopy.c:227-236; `w4` says that the tracee has 4-byte words -/
def addrInvalid (w4 : Bool) (addr : Nat) : Bool := w4 && decide (addr ≥ 2 ^ 32)

/-- errors of `vm_read_mem` after which `umoven` falls back to `PTRACE_PEEKDATA` -/
def fallsBack : Errno → Bool
  | .ENOSYS => true
  | .EPERM => true
  | _ => false

/-- `umoven`, src/ucopy.c:297-333: `some` is 0 and the bytes stored in `our_addr`, `none` is -1.  The result
-1 of `vm_read_mem`, as `unsigned int`, is compared with `len` first. -/
def umoven (P W : Nat) (w4 : Bool) (s : Sys) (addr len : Nat) : Option (Sys × Option (List Nat)) :=
  if addrInvalid w4 addr then some (s, none)
  else if s.noReadv then umovenPeek W s addr len
  else
    match vmRead P s addr len with
    | none => none
    | some (s', .ok l) => some (s', if l.length = len then some l else none)
    | some (s', .fail e) =>
      if len = 2 ^ 32 - 1 then some (s', some [])
      else if fallsBack e then umovenPeek W s' addr len
      else some (s', none)

/-! ### strings -/

/-- result of `umovestr`: -1, or the count returned and the bytes in `laddr` -/
inductive Str
  | fail
  | ret (n : Nat) (l : List Nat)

/-- position after the first NUL of `u` at or after `residue`, src/ucopy.c:379-381 -/
def nulFrom (u : List Nat) (residue : Nat) : Option Nat :=
  match (u.drop residue).findIdx? (· = 0) with
  | none => none
  | some j => some (residue + j + 1)

/-- the loop of `umovestr_peekdata`, src/ucopy.c:347-387 -/
def strPeekLoop (W : Nat) : Nat → Sys → Nat → Nat → Nat → List Nat → Option (Sys × Str)
  | 0, s, _, _, len, acc => if len = 0 then some (s, .ret 0 acc) else none
  | n + 1, s, addr, residue, len, acc =>
    if len = 0 then some (s, .ret 0 acc)
    else
      match peek W s (pageOf W addr) with
      | (s', .fail _) => some (s', .fail)
      | (s', .ok u) =>
        match nulFrom u residue with
        | some r => some (s', .ret (acc.length + r) (acc ++ (u.drop residue).take (min (W - residue) len)))
        | none =>
          strPeekLoop W n s' ((pageOf W addr + W) % 2 ^ 64) 0 (len - min (W - residue) len)
            (acc ++ (u.drop residue).take (min (W - residue) len))

/-- `umovestr_peekdata`, src/ucopy.c:339-390 -/
def umovestrPeek (W : Nat) (s : Sys) (addr len : Nat) : Option (Sys × Str) :=
  strPeekLoop W len s addr (addr % W) len []

/-- `chunk_len`, src/ucopy.c:425-428 -/
def chunkLen (P addr len : Nat) : Nat :=
  if (if len > P then P else len) > (addr + (if len > P then P else len)) % P then
    (if len > P then P else len) - (addr + (if len > P then P else len)) % P
  else (if len > P then P else len)

/-- the loop of `umovestr`, src/ucopy.c:419-466 -/
def strLoop (P W : Nat) : Nat → Sys → Nat → Nat → List Nat → Option (Sys × Str)
  | 0, s, _, len, acc => if len = 0 then some (s, .ret 0 acc) else none
  | n + 1, s, addr, len, acc =>
    if len = 0 then some (s, .ret 0 acc)
    else
      match vmRead P s addr (chunkLen P addr len) with
      | none => none
      | some (s', .ok l) =>
        if l.length = 0 then some (s', .fail)
        else
          match l.findIdx? (· = 0) with
          | some j => some (s', .ret (acc.length + j + 1) (acc ++ l))
          | none => strLoop P W n s' ((addr + l.length) % 2 ^ 64) (len - l.length) (acc ++ l)
      | some (s', .fail e) =>
        if fallsBack e ∧ acc.length = 0 then umovestrPeek W s' addr len
        else some (s', .fail)

/-- `umovestr`, src/ucopy.c:403-469.  The count is returned as an `int`; exact for `len` below 2^31.  A
`vm_read_mem` that stores nothing leaves `errno` unset; it is taken as a failure. -/
def umovestr (P W : Nat) (w4 : Bool) (s : Sys) (addr len : Nat) : Option (Sys × Str) :=
  if addrInvalid w4 addr then some (s, .fail)
  else if s.noReadv then umovestrPeek W s addr len
  else strLoop P W len s addr len []

/-! ### writing -/

/-- memory with `l` stored at `addr` -/
def store (mem : Mem) (addr : Nat) (l : List Nat) : Mem :=
  fun a => if addr ≤ a ∧ a < addr + l.length then l[a - addr]? else mem a

/-- `ptrace(PTRACE_POKEDATA)`; the flag is success -/
def poke (W : Nat) (s : Sys) (addr : Nat) (u : List Nat) : Sys × Bool :=
  match s.oracle s.calls with
  | some _ => ({ s with calls := s.calls + 1 }, false)
  | none =>
    if (run s.mem addr W).length = W then
      ({ s with calls := s.calls + 1, mem := store s.mem addr u }, true)
    else ({ s with calls := s.calls + 1 }, false)

/-- `memcpy(u.data + offset, our_addr, len)`, src/ucopy.c:483 -/
def overlay (u : List Nat) (offset : Nat) (l : List Nat) : List Nat := u.take offset ++ l ++ u.drop (offset + l.length)

/-- `upoken_peekpoke`, src/ucopy.c:471-487 -/
def peekpoke (W : Nat) (s : Sys) (addr : Nat) (l : List Nat) (offset : Nat) : Sys × Bool :=
  match peek W s addr with
  | (s', .fail _) => (s', false)
  | (s', .ok u) => poke W s' addr (overlay u offset l)

/-- src/ucopy.c:509-528: whole words, then the rest; `nw` is `nwritten` -/
def pokeLoop (W : Nat) : Nat → Sys → Nat → List Nat → Nat → Option (Sys × Nat)
  | 0, _, _, _, _ => none
  | n + 1, s, addr, l, nw =>
    if l.length ≥ W then
      match poke W s addr (l.take W) with
      | (s', false) => some (s', nw)
      | (s', true) => pokeLoop W n s' ((addr + W) % 2 ^ 64) (l.drop W) (nw + W)
    else if l.length ≠ 0 then
      match peekpoke W s addr l 0 with
      | (s', false) => some (s', nw)
      | (s', true) => some (s', nw + l.length)
    else some (s, nw)

/-- `upoken_pokedata`, src/ucopy.c:489-551: the number of bytes written -/
def pokeData (W : Nat) (s : Sys) (addr : Nat) (l : List Nat) : Option (Sys × Nat) :=
  if l.length ≠ 0 ∧ addr % W ≠ 0 then
    match peekpoke W s (pageOf W addr) (l.take (min (W - addr % W) l.length)) (addr % W) with
    | (s', false) => some (s', 0)
    | (s', true) =>
      pokeLoop W (l.length + 1) s' ((pageOf W addr + W) % 2 ^ 64) (l.drop (min (W - addr % W) l.length))
        (min (W - addr % W) l.length)
  else pokeLoop W (l.length + 1) s addr l 0

/-- `process_vm_writev` as called by `vm_write_mem`, src/ucopy.c:197-224 -/
def vmWrite (s : Sys) (addr : Nat) (l : List Nat) : Sys × Except Errno Nat :=
  match s.oracle s.calls with
  | some e => ({ s with calls := s.calls + 1, noWritev := s.noWritev || decide (e = .ENOSYS) }, .error e)
  | none =>
    if l.length ≠ 0 ∧ min (s.quota s.calls) (run s.mem addr l.length).length = 0 then
      ({ s with calls := s.calls + 1 }, .error .EFAULT)
    else
      ({ s with
          calls := s.calls + 1
          mem := store s.mem addr (l.take (min (s.quota s.calls) (run s.mem addr l.length).length)) },
       .ok (min (s.quota s.calls) (run s.mem addr l.length).length))

/-- errors of `vm_write_mem` after which `upoken` falls back to `PTRACE_POKEDATA` -/
def pokesBack : Errno → Bool
  | .ENOSYS => true
  | .EPERM => true
  | .EFAULT => true
  | .EIO => true
  | _ => false

/-- `upoken`, src/ucopy.c:557-590: the number of bytes written -/
def upoken (W : Nat) (w4 : Bool) (s : Sys) (addr : Nat) (l : List Nat) : Option (Sys × Nat) :=
  if addrInvalid w4 addr then some (s, 0)
  else if s.noWritev then pokeData W s addr l
  else
    match vmWrite s addr l with
    | (s', .ok n) => some (s', n)
    | (s', .error e) =>
      if l.length = 2 ^ 32 - 1 then some (s', l.length)
      else if pokesBack e then pokeData W s' addr l
      else some (s', 0)

end Strace.UCopy
