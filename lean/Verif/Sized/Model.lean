/-!
# Structures that carry their size: src/util.c (print_nonzero_bytes), src/open.c, src/mount_setattr.c, src/xattr.c, src/listmount.c,
src/statmount.c, src/clone.c (clone3), src/sched.c (sched_attr)

`mem a` is the byte of the tracee at an address, `none` if it cannot be read.  A field shown is its name and its value as a
number; how flags, descriptors and signals are written out of that number is not modelled here.  Numbers are little-endian.
-/
namespace Strace.Sized

abbrev Byte := Fin 256

inductive Tok
  /-- `{` -/
  | opened
  /-- `}` -/
  | closed
  /-- `, ` -/
  | next
  /-- ` => ` -/
  | changed
  /-- an address instead of the structure -/
  | addr (a : Nat)
  | field (name : String) (v : Nat)
  /-- a field written as parts, each with the number of bits it is shifted by -/
  | parts (name : String) (l : List (Nat × Nat))
  /-- a field written as an array of numbers at an address, as written by print_array (src/util.c:1880-1991) -/
  | array (name text : String)
  /-- a field written as what it points to: a number or an address -/
  | deref (name : String) (a : Nat) (v : Option Nat)
  /-- a value shown in a comment -/
  | comment (name : String) (v : Nat)
  /-- the bytes from `lo` to `hi`: those written in hexadecimal -/
  | bytes (lo hi : Nat) (l : List Byte)
  /-- `...` -/
  | more
  /-- `???` -/
  | unavailable
  deriving DecidableEq, Repr

/-- `umoven` (src/ucopy.c), all or nothing -/
def moven (mem : Nat → Option Byte) (a : Nat) : Nat → Option (List Byte)
  | 0 => some []
  | n + 1 =>
    match mem a, moven mem ((a + 1) % 2 ^ 64) n with
    | some b, some l => some (b :: l)
    | _, _ => none

/-- `tfetch_mem64`, src/util.c:1732-1739, on entering: nothing is read at address 0 or if structures are not to be decoded -/
def fetch (mem : Nat → Option Byte) (vb : Bool) (a n : Nat) : Option (List Byte) :=
  if a = 0 ∨ vb = false then none else moven mem a n

/-- the number in a list of bytes -/
def le : List Byte → Nat
  | [] => 0
  | b :: l => b.val + 256 * le l

/-- a field of a structure held in a buffer that is 0 beyond the bytes read into it -/
def fld (buf : List Byte) (off len : Nat) : Nat := le ((buf.drop off).take len)

/-- something shown on a condition -/
def opt (c : Bool) (l : List Tok) : List Tok := if c = true then l else []

/-- `print_nonzero_bytes`, src/util.c:1494-1538, and its result; the allocation succeeds -/
def nonzeroBytes (mem : Nat → Option Byte) (maxStr : Nat) (pre : List Tok) (start off total : Nat) : List Tok × Bool :=
  if off ≥ total then ([], false)
  else
    match moven mem ((start + off) % 2 ^ 64) (total - off) with
    | none => (pre ++ [.unavailable], true)
    | some l =>
      if l.all (· == 0) = true then ([], false)
      else
        (pre ++ .bytes off (total - 1) (l.take (min (total - off) maxStr)) ::
          opt (decide (min (total - off) maxStr < total - off)) [.more], true)

/-- `print_open_how`, src/open.c:138-167; `page` is the size of a page.  O_CREAT | __O_TMPFILE is 0x400040. -/
def openHow (mem : Nat → Option Byte) (vb : Bool) (page maxStr a size : Nat) : List Tok :=
  if size < 24 then [.addr a]
  else
    match fetch mem vb a (min size 24) with
    | none => [.addr a]
    | some b =>
      [.opened, .field "flags" (fld b 0 8)] ++
      opt (decide (fld b 0 8 &&& 0x400040 ≠ 0 ∨ fld b 8 8 ≠ 0)) [.next, .field "mode" (fld b 8 8)] ++
      [.next, .field "resolve" (fld b 16 8)] ++
      opt (decide (size > 24)) (nonzeroBytes mem maxStr [.next] a 24 (min size page)).1 ++
      [.closed]

/-- `print_mount_attr`, src/mount_setattr.c:15-54 -/
def mountAttr (mem : Nat → Option Byte) (vb : Bool) (page maxStr a size : Nat) : List Tok :=
  if size < 32 then [.addr a]
  else
    match fetch mem vb a (min 32 size) with
    | none => [.addr a]
    | some b =>
      [.opened, .field "attr_set" (fld b 0 8), .next, .field "attr_clr" (fld b 8 8), .next,
        .field "propagation" (fld b 16 8), .next, .field "userns_fd" (fld b 24 8)] ++
      opt (decide (size > 32)) (nonzeroBytes mem maxStr [.next] a 32 (min size page)).1 ++
      [.closed]

/-- `umove_xattr_args_or_printaddr` and `print_xattr_args`, src/xattr.c:212-258, as called by setxattrat (260-279).  What the
value points to is not modelled: it is shown as an address. -/
def xattrArgs (mem : Nat → Option Byte) (vb : Bool) (page maxStr a size : Nat) : List Tok :=
  if size < 16 then [.addr a]
  else
    match fetch mem vb a (min size 16) with
    | none => [.addr a]
    | some b =>
      [.opened, .field "value" (fld b 0 8), .next, .field "size" (fld b 8 4), .next, .field "flags" (fld b 12 4)] ++
      opt (decide (size > 16)) (nonzeroBytes mem maxStr [.next] a 16 (min size page)).1 ++
      [.closed]

/-- `print_mnt_id_req`, src/listmount.c:13-62; the one in src/statmount.c:24-73 differs only in how the fields are written.
The structure is not changed between the two reads. -/
def mntIdReq (mem : Nat → Option Byte) (vb : Bool) (page maxStr a : Nat) : List Tok :=
  match fetch mem vb a 4 with
  | none => [.addr a]
  | some s =>
    [.opened, .field "size" (fld s 0 4)] ++
    (if fld s 0 4 < 24 then []
     else
      match moven mem a (min 32 (fld s 0 4)) with
      | none => [.next, .unavailable]
      | some b =>
        opt (decide (fld b 4 4 ≠ 0)) [.next, .field "spare" (fld b 4 4)] ++
        [.next, .field "mnt_id" (fld b 8 8), .next, .field "param" (fld b 16 8)] ++
        opt (decide (fld s 0 4 ≥ 32)) [.next, .field "mnt_ns_id" (fld b 24 8)] ++
        opt (decide (fld s 0 4 > 32)) (nonzeroBytes mem maxStr [.next] a 32 (min (fld s 0 4) page)).1) ++
    [.closed]

/-! ### clone3 -/

/-- `set_tid` and `set_tid_size`, src/clone.c:308-326; `arr a n` is what print_array writes for `n` numbers at `a` -/
def cloneTids (arr : Nat → Nat → String) (b : List Byte) : List Tok :=
  opt (decide (fld b 64 8 ≠ 0 ∨ fld b 72 8 ≠ 0))
    ((if fld b 64 8 = 0 ∨ fld b 72 8 = 0 ∨ fld b 72 8 > 32 then [.next, .field "set_tid" (fld b 64 8)]
      else [.next, .array "set_tid" (arr (fld b 64 8) (fld b 72 8))]) ++
     [.next, .field "set_tid_size" (fld b 72 8)])

/-- the fields of clone_args shown on entering, src/clone.c:267-332, for a structure of `n` bytes read; the two ways of
writing the exit signal (289-295) are not told apart, and the TLS (302-306) is shown as an address -/
def cloneFields (arr : Nat → Nat → String) (b : List Byte) (n : Nat) : List Tok :=
  [.opened, .field "flags" (fld b 0 8)] ++
  opt (decide (fld b 0 8 &&& 0x1000 ≠ 0)) [.next, .field "pidfd" (fld b 8 8)] ++
  opt (decide (fld b 0 8 &&& 0x1200000 ≠ 0)) [.next, .field "child_tid" (fld b 16 8)] ++
  opt (decide (fld b 0 8 &&& 0x100000 ≠ 0)) [.next, .field "parent_tid" (fld b 24 8)] ++
  [.next, .field "exit_signal" (fld b 32 8), .next, .field "stack" (fld b 40 8), .next,
    .field "stack_size" (fld b 48 8)] ++
  opt (decide (fld b 0 8 &&& 0x80000 ≠ 0)) [.next, .field "tls" (fld b 56 8)] ++
  cloneTids arr b ++
  opt (decide (n > 80) && decide (fld b 80 8 ≠ 0 ∨ fld b 0 8 &&& 0x200000000 ≠ 0)) [.next, .field "cgroup" (fld b 80 8)]

/-- `SYS_FUNC(clone3)` on entering, src/clone.c:241-347, 399-401: what is shown, and whether the rest is left to the exit.  `ns` is
`nsflags`.  The second argument, shown at `out:`, is the field "size". -/
def clone3Enter (mem : Nat → Option Byte) (vb : Bool) (arr : Nat → Nat → String) (page maxStr ns a size : Nat) :
    List Tok × Bool :=
  if min size 88 < 64 then ([.addr a, .next, .field "size" size], false)
  else
    match fetch mem vb a (min size 88) with
    | none => ([.addr a, .next, .field "size" size], false)
    | some b =>
      let shown := cloneFields arr b (min size 88) ++
        opt (decide (size > min size 88)) (nonzeroBytes mem maxStr [.next] a (min size 88) (min size page)).1 ++ [.closed]
      if fld b 0 8 &&& (0x1000 ||| 0x100000 ||| ns) ≠ 0 ∨ size > min size 88 then (shown, true)
      else (shown ++ [.next, .field "size" size], false)

/-- `printnum_fd` and `printnum_pid`, src/util.c:459-481: a 32-bit number, or the address if it cannot be read -/
def num32 (mem : Nat → Option Byte) (vb : Bool) (a : Nat) : Option Nat := (fetch mem vb a 4).map le

/-- `SYS_FUNC(clone3)` on exiting, src/clone.c:349-401, without the names of namespaces (393-397); `err` says that the call
failed -/
def clone3Exit (mem : Nat → Option Byte) (vb err : Bool) (page maxStr a size : Nat) : List Tok :=
  (if err = true then []
   else
    match moven mem a (min size 88) with
    | none => [.changed, .addr a]
    | some b =>
      let p1 := fld b 0 8 &&& 0x1000 ≠ 0
      let p2 := fld b 0 8 &&& 0x100000 ≠ 0
      let t := if size > min size 88 then
          nonzeroBytes mem maxStr (if p1 ∨ p2 then [.next] else [.changed, .opened]) a (min size 88) (min size page)
        else ([], false)
      (if p1 then [.changed, .opened, .deref "pidfd" (fld b 8 8) (num32 mem vb (fld b 8 8))] else []) ++
      (if p2 then (if p1 then [.next] else [.changed, .opened]) ++
        [.deref "parent_tid" (fld b 24 8) (num32 mem vb (fld b 24 8))] else []) ++
      t.1 ++
      (if p1 ∨ p2 ∨ t.2 = true then [.closed] else [])) ++
  [.next, .field "size" size]

/-! ### sched_attr -/

/-- the fields of sched_attr, src/sched.c:141-184: `size` is the number of bytes the fields are taken from, `total` the number
compared with it at the end -/
def schedFields (b : List Byte) (isSet : Bool) (size total : Nat) : List Tok :=
  [.opened, .field "size" (fld b 0 4)] ++
  (if size < 48 then []
   else
    opt (!isSet || decide (fld b 4 4 ≥ 2 ^ 31) || decide (fld b 8 8 &&& 0x18 = 0)) [.next, .field "sched_policy" (fld b 4 4)] ++
    [.next, .field "sched_flags" (fld b 8 8)] ++
    opt (!isSet || decide (fld b 8 8 &&& 0x10 = 0))
      [.next, .field "sched_nice" (fld b 16 4), .next, .field "sched_priority" (fld b 20 4), .next,
        .field "sched_runtime" (fld b 24 8), .next, .field "sched_deadline" (fld b 32 8), .next,
        .field "sched_period" (fld b 40 8)] ++
    (if size < 56 then []
     else [.next, .field "sched_util_min" (fld b 48 4), .next, .field "sched_util_max" (fld b 52 4)])) ++
  opt (decide (total > size)) [.next, .more] ++
  [.closed]

/-- `print_sched_attr` as called by sched_setattr, src/sched.c:125-139; the structure is not changed between the two reads -/
def schedSet (mem : Nat → Option Byte) (vb : Bool) (a : Nat) : List Tok :=
  match fetch mem vb a 4 with
  | none => [.addr a]
  | some s =>
    let usize := if fld s 0 4 = 0 then 48 else fld s 0 4
    let size := if usize ≤ 56 then usize else 56
    if size ≥ 48 then
      match fetch mem vb a size with
      | none => [.addr a]
      | some b => schedFields b true size usize
    else schedFields s true size usize

/-- `print_sched_attr` as called by sched_getattr after success with a third argument that is not 0, src/sched.c:118-125 -/
def schedGet (mem : Nat → Option Byte) (vb : Bool) (a usize : Nat) : List Tok :=
  match fetch mem vb a (if usize ≤ 56 then usize else 56) with
  | none => [.addr a]
  | some b => schedFields b false (fld b 0 4) (fld b 0 4)

end Strace.Sized
