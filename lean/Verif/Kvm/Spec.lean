import Verif.Kvm.Model
import Verif.Base.Dec
/-!
# C106: virtual machines of a process and what happens to them

A virtual CPU has a descriptor, and its `struct kvm_run` is seen at the beginning of every mapping of that descriptor.  In
/proc/PID/fd and in /proc/PID/maps it is called `anon_inode:kvm-vcpu:N` with the number N that it has within its virtual machine.
-/
namespace Strace.Kvm
open Strace.Base

/-- a virtual CPU: its virtual machine and its number there -/
structure V where
  vm : Nat
  idx : Nat
  deriving DecidableEq

/-- what is mapped -/
inductive Obj
  | vcpu (v : V)
  | other (major : Nat) (name : List Nat)
  deriving DecidableEq

/-- a mapping; `off` is the offset into what is mapped -/
structure KMap where
  start : Nat
  stop : Nat
  off : Nat
  obj : Obj
  deriving DecidableEq

/-- `anon_inode:kvm-vcpu:N` -/
def vcpuName (n : Nat) : List Nat := ("anon_inode:kvm-vcpu:".toList.map Char.toNat) ++ dec n

/-- how a mapping is listed -/
def KMap.view (m : KMap) : Map :=
  match m.obj with
  | .vcpu v => ⟨m.start, m.stop, 0, vcpuName v.idx⟩
  | .other j n => ⟨m.start, m.stop, j, n⟩

/-- a process: what its descriptors refer to if it is a vCPU, and its mappings -/
structure K where
  fds : Nat → Option V
  maps : List KMap

/-- what happens -/
inductive Ev
  /-- the tracee creates a vCPU -/
  | create (fd : Nat) (v : V)
  /-- the descriptor is closed, or made by other means: duplicated, received, or created by another thread -/
  | setfd (fd : Nat) (o : Option V)
  /-- a call changes the mappings -/
  | remap (ms : List KMap)
  /-- the cache of mappings is used for something else, as a stack trace -/
  | other (readable : Bool)
  /-- KVM_RUN returns: `readable` is whether /proc/PID/maps can be read now, `reason` what is in each `kvm_run`, `junk` the rest of the memory -/
  | run (fd : Nat) (readable : Bool) (reason : V → Nat) (junk : Nat → Option Nat)

/-- the process after an event -/
def K.step (k : K) : Ev → K
  | .create fd v => { k with fds := fun n => if n = fd then some v else k.fds n }
  | .setfd fd o => { k with fds := fun n => if n = fd then o else k.fds n }
  | .remap ms => { k with maps := ms }
  | .other _ => k
  | .run .. => k

/-- the process after a history -/
def K.after (h : List Ev) : K := h.foldl K.step ⟨fun _ => none, []⟩

/-- the word at an address where `kvm_run` might be -/
def mem (ms : List KMap) (reason : V → Nat) (junk : Nat → Option Nat) (a : Nat) : Option Nat :=
  match ms.find? fun m => decide (m.start ≤ a) && decide (a < m.stop) with
  | some ⟨s, _, off, .vcpu v⟩ => if a = s ∧ off = 0 then some (reason v) else junk a
  | _ => junk a

/-- strace along with it -/
def step (size : Nat) (k : K) (s : S) : Ev → S × Option Nat
  | .create fd v => (register s fd v.idx, none)
  | .setfd _ _ => (s, none)
  | .remap _ => ({ s with cache := none }, none)
  | .other readable => (reread s (if readable then some (k.maps.map KMap.view) else none), none)
  | .run fd readable reason junk =>
    decodeRun size s (if readable then some (k.maps.map KMap.view) else none) ((k.fds fd).map fun v => vcpuName v.idx)
      (mem k.maps reason junk) fd

/-- the process and strace after a history -/
def after (size : Nat) (h : List Ev) : K × S :=
  h.foldl (fun ks e => (ks.1.step e, (step size ks.1 ks.2 e).1)) (⟨fun _ => none, []⟩, ⟨[], none⟩)

/-- what the last event of a history shows -/
def shown (size : Nat) (h : List Ev) (e : Ev) : Option Nat := (step size (after size h).1 (after size h).2 e).2

/-! ### What is asked of a history -/

/-- a mapping of a vCPU is of all of it, there is no overlap, and nothing else has a name like that of a vCPU -/
structure MapsOk (size : Nat) (ms : List KMap) : Prop where
  whole : ∀ m ∈ ms, ∀ v, m.obj = .vcpu v → m.off = 0 ∧ m.start + size ≤ m.stop ∧ m.start < m.stop ∧ v.idx < 2 ^ 31
  apart : ∀ m ∈ ms, ∀ m' ∈ ms, ∀ a, m.start ≤ a → a < m.stop → m'.start ≤ a → a < m'.stop → m = m'
  others : ∀ m ∈ ms, ∀ j n, m.obj = .other j n → ¬ ("anon_inode:kvm-vcpu:".toList.map Char.toNat) <+: n

/-- the process has a descriptor or a mapping of the vCPU -/
def Live (k : K) (v : V) : Prop := (∃ fd, k.fds fd = some v) ∨ ∃ m ∈ k.maps, m.obj = .vcpu v

/-- the descriptor was made to refer to the vCPU -/
def Gives (h : List Ev) (fd : Nat) (v : V) : Prop := Ev.create fd v ∈ h ∨ Ev.setfd fd (some v) ∈ h

/-- a mapping of a vCPU stays where it is -/
def Fixed (h : List Ev) : Prop :=
  ∀ pre ms', (pre ++ [Ev.remap ms']) <+: h → ∀ ms, Ev.remap ms ∈ pre → ∀ m ∈ ms, ∀ v, m.obj = .vcpu v →
    ∃ m' ∈ ms', m'.start = m.start ∧ ∃ v', m'.obj = .vcpu v' ∧ v'.idx = v.idx

/-- the tracee runs only one descriptor, and nothing else uses the cache -/
def OneOnly (h : List Ev) : Prop := (∃ f, ∀ fd a b c, Ev.run fd a b c ∈ h → fd = f) ∧ ∀ b, Ev.other b ∉ h

/-- one virtual machine at a time, as far as numbers of vCPUs tell; a descriptor number does not get another vCPU behind the back of
the tracee; and mappings are not moved, or only by more than their size while the tracee runs only one vCPU -/
structure Good (size : Nat) (h : List Ev) : Prop where
  shape : ∀ ms, Ev.remap ms ∈ h → MapsOk size ms
  uniq : ∀ pre, pre <+: h → ∀ v v', Live (K.after pre) v → Live (K.after pre) v' → v.idx = v'.idx → v = v'
  own : ∀ pre fd v, (pre ++ [Ev.setfd fd (some v)]) <+: h → ∀ w, Gives pre fd w → w.idx = v.idx
  still : ∀ ms ms', Ev.remap ms ∈ h → Ev.remap ms' ∈ h → ∀ m ∈ ms, ∀ m' ∈ ms', ∀ v v', m.obj = .vcpu v → m'.obj = .vcpu v' →
    v.idx = v'.idx → m'.start ≤ m.start → m.start < m'.stop → m.start = m'.start
  turns : Fixed h ∨ OneOnly h

end Strace.Kvm
