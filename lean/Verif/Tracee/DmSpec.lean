import Verif.Tracee.Dm
/-!
# What the lists of the device mapper should show

Independent of the model, except for the tokens.
-/
namespace Strace.Tracee

/-- the offsets of the structures shown -/
def itemOffs (l : List DTok) : List Nat :=
  l.filterMap fun t => match t with
    | .item off _ _ => some off
    | _ => none

/-- what is shown of the data between `start` and `size`: structures with a header of `hdr` bytes, none of them over another
one or over the start of its string, and strings that end where the data does -/
structure Placed (hdr start size : Nat) (l : List DTok) : Prop where
  inside : ∀ off str max, .item off str max ∈ l → str = off + hdr ∧ str + max = size
  ordered : (itemOffs l).Pairwise fun a b => a + hdr < b
  first : ∀ o ∈ (itemOffs l).head?, o = start

/-- the bytes at an address are these -/
def Stored (mem : Nat → Option Nat) (a : Nat) (bs : List Nat) : Prop := ∀ i (h : i < bs.length), mem (a + i) = some bs[i]

/-- a 32-bit number in memory -/
def le4 (n : Nat) : List Nat := [n % 256, n / 256 % 256, n / 65536 % 256, n / 16777216 % 256]

/-- the versions of targets as the kernel leaves them, by offset: `next`, three numbers and a name.  `next` is the distance
to the next one, 0 in the last one. -/
inductive Versions (mem : Nat → Option Nat) (addr size : Nat) : Nat → List Nat → Prop
  | last (off : Nat) : off + 16 ≤ size → (∀ i, i < 16 → (mem (addr + off + i)).isSome) →
      Stored mem (addr + off) (le4 0) → Versions mem addr size off [off]
  | cons (off next : Nat) (l : List Nat) : off + 16 ≤ size → (∀ i, i < 16 → (mem (addr + off + i)).isSome) →
      Stored mem (addr + off) (le4 next) → 16 < next → off + next < 2 ^ 32 → Versions mem addr size (off + next) l →
      Versions mem addr size off (off :: l)

/-- a device in a list -/
structure Dev where
  off : Nat
  name : List Nat
  next : Nat

/-- a device in memory: 8 bytes, `next`, and the name at offset 12.  All bytes up to the next one can be read; 16 of the last
one, as with padding. -/
structure DevAt (mem : Nat → Option Nat) (addr size : Nat) (d : Dev) : Prop where
  fits : d.off + 12 + d.name.length < size
  read : ∀ i, i < max 16 d.next → (mem (addr + d.off + i)).isSome
  next : Stored mem (addr + d.off + 8) (le4 d.next)
  name : Stored mem (addr + d.off + 12) (d.name ++ [0])
  nonzero : ∀ c ∈ d.name, c ≠ 0
  small : d.off + d.next < 2 ^ 32

/-- the devices as the kernel leaves them: `next` is the distance to the next one, 0 in the last one -/
inductive Devices (mem : Nat → Option Nat) (addr size : Nat) : Nat → List Dev → Prop
  | last (d : Dev) : DevAt mem addr size d → d.next = 0 → Devices mem addr size d.off [d]
  | cons (d : Dev) (l : List Dev) : DevAt mem addr size d → 12 < d.next → Devices mem addr size (d.off + d.next) l →
      Devices mem addr size d.off (d :: l)

/-- where the event number of a device is: after the name, its address a multiple of 8 -/
def eventAddr (addr : Nat) (d : Dev) : Nat := (addr + d.off + 12 + d.name.length + 1 + 7) / 8 * 8

/-- a device shown: with its event number if the version is new enough, the name is shown in full and the number lies before
the next device -/
def devToks (maxlen ver addr size : Nat) (d : Dev) : List DTok :=
  [.next, .item d.off (d.off + 12) (size - (d.off + 12))] ++
    if 37 ≤ ver ∧ d.name.length ≤ maxlen ∧ eventAddr addr d + 4 ≤ addr + d.off + d.next then [.event (eventAddr addr d)] else []

/-- the targets of a table: as many as the header says.  `next` is the distance to the next one when a table is loaded, and
its distance from the first one when a table is read. -/
inductive Table (mem : Nat → Option Nat) (load : Bool) (addr start size : Nat) : Nat → List Nat → Prop
  | last (off : Nat) : off + 40 ≤ size → (∀ i, i < 40 → (mem (addr + off + i)).isSome) →
      Table mem load addr start size off [off]
  | cons (off off' : Nat) (l : List Nat) : off + 40 ≤ size → (∀ i, i < 40 → (mem (addr + off + i)).isSome) →
      Stored mem (addr + off + 20) (le4 (off' - if load then off else start)) → off + 40 < off' → start ≤ off →
      off' < 2 ^ 32 → Table mem load addr start size off' l → Table mem load addr start size off (off :: l)

/-- structures shown one after the other -/
def itemsOf (hdr size : Nat) (offs : List Nat) : List DTok :=
  offs.flatMap fun off => [.next, .item off (off + hdr) (size - (off + hdr))]

end Strace.Tracee
