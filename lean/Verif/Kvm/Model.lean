import Verif.StringToUint.Model
/-!
# KVM_RUN with -e kvm=vcpu: src/kvm.c

Of the memory of the tracee only the exit reason at the beginning of a `struct kvm_run` matters.  The cache of mappings is that
of C45 and C65: it holds the mappings with a name in ascending order, it is dropped after every call that changes mappings, and
`mmap_cache_search` finds the mapping that contains an address.  Each tracee has its own list of `vcpu_info`.
-/
namespace Strace.Kvm
open Strace.StringToUint

/-- a mapping in the cache, as far as it is used here: `struct mmap_cache_entry_t`, src/mmap_cache.h -/
structure Map where
  start : Nat
  stop : Nat
  major : Nat
  name : List Nat
  deriving DecidableEq

/-- `struct vcpu_info`, src/kvm.c:20-27 -/
structure Info where
  fd : Nat
  cpu : Nat
  addr : Nat
  len : Nat
  resolved : Bool
  deriving DecidableEq

/-- what strace keeps of a tracee: `vcpu_info_list` and the cache of mappings if it is valid -/
structure S where
  infos : List Info
  cache : Option (List Map)

/-- `vcpu_find`, src/kvm.c:31-41 -/
def find (l : List Info) (fd : Nat) : Option Info := l.find? fun i => i.fd = fd

/-- assigning to the members of the record found -/
def update : List Info → Info → List Info
  | [], _ => []
  | i :: l, j => if i.fd = j.fd then j :: l else i :: update l j

/-- the record of `j.fd` becomes `j`: `vcpu_alloc`, src/kvm.c:43-55, puts a new one in front -/
def put (l : List Info) (j : Info) : List Info :=
  match find l j.fd with
  | none => j :: l
  | some _ => update l j

/-- `vcpu_register`, src/kvm.c:70-84; the descriptor is not negative -/
def register (s : S) (fd cpu : Nat) : S :=
  match find s.infos fd with
  | none => { s with infos := ⟨fd, cpu, 0, 0, false⟩ :: s.infos }
  | some i => if i.cpu ≠ cpu then { s with infos := put s.infos { i with cpu := cpu, resolved := false } } else s

/-- `is_map_for_file`, src/kvm.c:86-98 -/
def isMapFor (p : List Nat) (m : Map) : Bool := decide (m.major = 0) && decide (m.name = p)

/-- `map_len`, src/kvm.c:100-106 -/
def mapLen (m : Map) : Nat := if m.start < m.stop then m.stop - m.start else 0

/-- `VCPU_DENTRY_PREFIX`, src/kvm.c:108: "anon_inode:kvm-vcpu:" -/
def pfx : List Nat := [97, 110, 111, 110, 95, 105, 110, 111, 100, 101, 58, 107, 118, 109, 45, 118, 99, 112, 117, 58]

/-- `STR_STRIP_PREFIX`, src/xstring.h: `none` if the text does not begin so -/
def strip (p : List Nat) : Option (List Nat) := if p.take pfx.length = pfx then some (p.drop pfx.length) else none

/-- `string_to_uint`, src/string_to_uint.h: `none` is -1 -/
def toUint (t : List Nat) : Option Nat :=
  match stringToUintEx t (2 ^ 31 - 1) none with
  | some (n, _) => some n.toNat
  | none => none

/-- the slow path, src/kvm.c:145-169 -/
def slow (s : S) (ms : List Map) (path : Option (List Nat)) (fd : Nat) : S × Option Info :=
  match path with
  | none => (s, none)
  | some p =>
    match strip p with
    | none => (s, none)
    | some t =>
      match ms.find? (isMapFor p) with
      | none => (s, none)
      | some m =>
        match toUint t with
        | none => (s, none)
        | some c => ({ s with infos := put s.infos ⟨fd, c, m.start, mapLen m, true⟩ }, some ⟨fd, c, m.start, mapLen m, true⟩)

/-- what the mapping at the address kept says, src/kvm.c:126-139: `some true` is the same vCPU, `some false` another mapping or
none, `none` a name that is no number -/
def same (ms : List Map) (i : Info) : Option Bool :=
  match ms.find? (fun m => decide (m.start ≤ i.addr) && decide (i.addr < m.stop)) with
  | none => some false
  | some m =>
    match strip m.name with
    | none => some false
    | some t =>
      match toUint t with
      | none => none
      | some c => some (decide (i.cpu = c))

/-- after the cache was found valid or read again, src/kvm.c:122-169 -/
def look (s : S) (ready : Bool) (ms : List Map) (path : Option (List Nat)) (fd : Nat) : S × Option Info :=
  match find s.infos fd with
  | none => slow s ms path fd
  | some i =>
    if i.resolved = false then slow s ms path fd
    else if ready = true then (s, some i)
    else
      match same ms i with
      | none => (s, none)
      | some true => (s, some i)
      | some false => slow { s with infos := put s.infos { i with resolved := false } } ms path fd

/-- another user of the cache, as `unwind_tcb_print` for -k, src/unwind.c: `mmap_cache_rebuild_if_invalid`, src/mmap_cache.c:70-186 -/
def reread (s : S) (file : Option (List Map)) : S :=
  match s.cache, file with
  | none, some (m :: ms) => { s with cache := some (m :: ms) }
  | _, _ => s

/-- `vcpu_get_info`, src/kvm.c:110-170; `file` are the named mappings of /proc/PID/maps, `none` if it cannot be read -/
def vcpuGet (s : S) (file : Option (List Map)) (path : Option (List Nat)) (fd : Nat) : S × Option Info :=
  match s.cache, file with
  | some ms, _ => look s true ms path fd
  | none, some (m :: ms) => look { s with cache := some (m :: ms) } false (m :: ms) path fd
  | none, _ => (s, none)

/-- `kvm_ioctl_run_attach_auxstr`, src/kvm.c:328-344: the exit reason; `mem` is `umove` of the structure,
whose size is that in linux/kvm.h -/
def attach (size : Nat) (mem : Nat → Option Nat) (i : Info) : Option Nat := if i.len < size then none else mem i.addr

/-- `kvm_ioctl_decode_run` of a call that succeeded, src/kvm.c:346-371: the exit reason shown, if any -/
def decodeRun (size : Nat) (s : S) (file : Option (List Map)) (path : Option (List Nat)) (mem : Nat → Option Nat) (fd : Nat) : S × Option Nat :=
  ((vcpuGet s file path fd).1, (vcpuGet s file path fd).2.bind (attach size mem))

end Strace.Kvm
