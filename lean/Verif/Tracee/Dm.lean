/-!
# Lists of the device mapper: src/dm.c

The data lies at `addr` in the tracee, from `data_start` to `data_size`, both 32-bit offsets.  `mem a` is the byte at an
address, `none` if it cannot be read.  A structure shown is its offset, with the offset and the maximal length of the string
after it.  The lists are shown only if not abbreviating, so `sequence_truncation_needed` does not hold in the loops
(src/dm.c:193-197, 327-331, 418-422).
-/
namespace Strace.Tracee

inductive DTok
  /-- `, ` -/
  | next
  /-- `...` -/
  | more
  /-- a structure, and the string after it -/
  | item (off str max : Nat)
  /-- the event number at an address, as a part of the structure before -/
  | event (a : Nat)
  /-- an array of numbers -/
  | array (off count : Nat)
  /-- a string -/
  | string (off max : Nat)
  /-- the address of a structure that cannot be read -/
  | addr (a : Nat)
  /-- `???` and a comment -/
  | misplaced
  deriving DecidableEq, Repr

/-- whether `n` bytes can be read (`umove`) -/
def readable (mem : Nat → Option Nat) (a : Nat) : Nat → Bool
  | 0 => true
  | n + 1 => (mem a).isSome && readable mem ((a + 1) % 2 ^ 64) n

/-- a byte, 0 if it cannot be read -/
def byteAt (mem : Nat → Option Nat) (a : Nat) : Nat := (mem (a % 2 ^ 64)).getD 0

/-- a 32-bit number (little-endian) -/
def u32At (mem : Nat → Option Nat) (a : Nat) : Nat :=
  (byteAt mem a + 2 ^ 8 * byteAt mem (a + 1) + 2 ^ 16 * byteAt mem (a + 2) + 2 ^ 24 * byteAt mem (a + 3)) % 2 ^ 32

/-- the next offset, src/dm.c:223-226 -/
def specNext (entering : Bool) (ds off next : Nat) : Nat :=
  if entering = true then (off + next) % 2 ^ 32 else (ds + next) % 2 ^ 32

/-- the loop of `dm_decode_dm_target_spec`, src/dm.c:182-227; `next` is at offset 20 of a structure of 40 bytes -/
def specLoop (mem : Nat → Option Nat) (entering : Bool) (addr ds size count : Nat) : Nat → Nat → Nat → Nat → Option (List DTok)
  | 0, _, _, _ => none
  | fuel + 1, i, off, offEnd =>
    if i < count then
      if i ≠ 0 ∧ off ≤ offEnd then some [.next, .misplaced]
      else if (off + 40) % 2 ^ 32 ≤ off ∨ (off + 40) % 2 ^ 32 > size then some [.next, .misplaced]
      else if readable mem ((addr + off) % 2 ^ 64) 40 = false then some [.next, .addr ((addr + off) % 2 ^ 64)]
      else
        (specLoop mem entering addr ds size count fuel (i + 1) (specNext entering ds off (u32At mem (addr + off + 20)))
          ((off + 40) % 2 ^ 32)).map fun r =>
            .next :: .item off ((off + 40) % 2 ^ 32) (size - (off + 40) % 2 ^ 32) :: r
    else some []

/-- `dm_decode_dm_target_spec`, src/dm.c:164-234 -/
def targetSpec (mem : Nat → Option Nat) (ab entering : Bool) (addr ds size count fuel : Nat) : Option (List DTok) :=
  if ab = true then some (if count ≠ 0 then [.next, .more] else [])
  else specLoop mem entering addr ds size count fuel 0 ds 0

/-- `dm_decode_dm_target_deps`, src/dm.c:246-294; the number of devices is at offset 0, the devices at offset 8 -/
def targetDeps (mem : Nat → Option Nat) (ab : Bool) (addr ds size : Nat) : List DTok :=
  if ds = size then []
  else if ab = true then [.next, .more]
  else if (ds + 8) % 2 ^ 32 ≤ ds ∨ (ds + 8) % 2 ^ 32 > size then [.next, .misplaced]
  else if readable mem ((addr + ds) % 2 ^ 64) 8 = false then [.next, .addr ((addr + ds) % 2 ^ 64)]
  else if u32At mem (addr + ds) > (size - (ds + 8) % 2 ^ 32) / 8 then [.next, .misplaced]
  else [.next, .array ((ds + 8) % 2 ^ 32) (u32At mem (addr + ds))]

/-- the length of a string with its NUL as `umovestr` returns it, 0 if there is no NUL in `n` bytes -/
def strlen1 (mem : Nat → Option Nat) (a : Nat) : Nat → Nat → Nat
  | 0, _ => 0
  | n + 1, k => if byteAt mem (a + k) = 0 then k + 1 else strlen1 mem a n (k + 1)

/-- the event number after the name, src/dm.c:359-371.  `rc` is the result of `printstr_ex`, `ver` is `version[1]`. -/
def eventTok (mem : Nat → Option Nat) (ver addr off offEnd rc next : Nat) : List DTok :=
  if rc > 0 ∧ ver ≥ 37 then
    let ea := (addr + offEnd + rc + 7) % 2 ^ 64 / 8 * 8
    if (ea + 4) % 2 ^ 64 ≤ (addr + off + next) % 2 ^ 64 ∧ readable mem ea 4 = true then [.event ea] else []
  else []

/-- the loop of `dm_decode_dm_name_list`, src/dm.c:316-379: `next` is at offset 8 of a structure of 16 bytes whose name is at
offset 12; `rc off` is the result of `printstr_ex` for the name of a structure -/
def nameLoop (mem : Nat → Option Nat) (rc : Nat → Nat) (ver addr size : Nat) : Nat → Nat → Nat → Nat → Option (List DTok)
  | 0, _, _, _ => none
  | fuel + 1, count, off, offEnd =>
    if count ≠ 0 ∧ off ≤ offEnd then some [.next, .misplaced]
    else if (off + 12) % 2 ^ 32 ≤ off ∨ (off + 12) % 2 ^ 32 > size then some [.next, .misplaced]
    else if readable mem ((addr + off) % 2 ^ 64) 16 = false then some [.next, .addr ((addr + off) % 2 ^ 64)]
    else
      let next := u32At mem (addr + off + 8)
      let shown := .next :: .item off ((off + 12) % 2 ^ 32) (size - (off + 12) % 2 ^ 32) ::
        eventTok mem ver addr off ((off + 12) % 2 ^ 32) (rc off) next
      if next = 0 then some shown
      else (nameLoop mem rc ver addr size fuel (count + 1) ((off + next) % 2 ^ 32) ((off + 12) % 2 ^ 32)).map fun r => shown ++ r

/-- `dm_decode_dm_name_list`, src/dm.c:296-386.  `rc` is the result of `printstr_ex`, src/util.c:1454-1459, whose limit is
`maxlen` characters. -/
def nameList (mem : Nat → Option Nat) (ab : Bool) (maxlen ver addr ds size fuel : Nat) : Option (List DTok) :=
  if ds = size then some []
  else if ab = true then some [.next, .more]
  else nameLoop mem (fun off => strlen1 mem (addr + off + 12) (min (maxlen + 1) (size - (off + 12) % 2 ^ 32)) 0) ver addr size
    fuel 0 ds 0

/-- the loop of `dm_decode_dm_target_versions`, src/dm.c:407-439: `next` is at offset 0, the name at offset 16 -/
def versLoop (mem : Nat → Option Nat) (addr size : Nat) : Nat → Nat → Nat → Nat → Option (List DTok)
  | 0, _, _, _ => none
  | fuel + 1, count, off, offEnd =>
    if count ≠ 0 ∧ off ≤ offEnd then some [.next, .misplaced]
    else if (off + 16) % 2 ^ 32 ≤ off ∨ (off + 16) % 2 ^ 32 > size then some [.next, .misplaced]
    else if readable mem ((addr + off) % 2 ^ 64) 16 = false then some [.next, .addr ((addr + off) % 2 ^ 64)]
    else
      let next := u32At mem (addr + off)
      if next = 0 then some [.next, .item off ((off + 16) % 2 ^ 32) (size - (off + 16) % 2 ^ 32)]
      else (versLoop mem addr size fuel (count + 1) ((off + next) % 2 ^ 32) ((off + 16) % 2 ^ 32)).map fun r =>
        .next :: .item off ((off + 16) % 2 ^ 32) (size - (off + 16) % 2 ^ 32) :: r

/-- `dm_decode_dm_target_versions`, src/dm.c:388-446 -/
def targetVersions (mem : Nat → Option Nat) (ab : Bool) (addr ds size fuel : Nat) : Option (List DTok) :=
  if ds = size then some []
  else if ab = true then some [.next, .more]
  else versLoop mem addr size fuel 0 ds 0

/-- `dm_decode_dm_target_msg`, src/dm.c:448-484: the message is at offset 8 -/
def targetMsg (mem : Nat → Option Nat) (ab : Bool) (addr ds size : Nat) : List DTok :=
  if ds = size then []
  else if ab = true then [.next, .more]
  else if (ds + 8) % 2 ^ 32 > ds ∧ (ds + 8) % 2 ^ 32 ≤ size then
    if readable mem ((addr + ds) % 2 ^ 64) 8 = false then [.next, .addr ((addr + ds) % 2 ^ 64)]
    else [.next, .item ds ((ds + 8) % 2 ^ 32) (size - (ds + 8) % 2 ^ 32)]
  else [.next, .misplaced]

/-- `dm_decode_string`, src/dm.c:486-509 -/
def dmString (ab : Bool) (ds size : Nat) : List DTok :=
  if ab = true then [.next, .more]
  else if ds ≤ size then [.next, .string ds (size - ds)]
  else [.next, .misplaced]

end Strace.Tracee
