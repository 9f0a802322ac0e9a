import Verif.Sized.Spec
import Verif.Sized.Perf
/-!
# What the text of a perf_event_attr says

The layout is that of struct perf_event_attr, bundled/linux/include/uapi/linux/perf_event.h:389-534.
-/
namespace Strace.Sized

/-- the numbers in the structure; two names at the same offset are the members of a union -/
def perfLayout : List (String × Nat × Nat) :=
  [("type", 0, 4), ("size", 4, 4), ("config", 8, 8), ("sample_freq", 16, 8), ("sample_period", 16, 8),
   ("sample_type", 24, 8), ("read_format", 32, 8), ("wakeup_watermark", 48, 4), ("wakeup_events", 48, 4),
   ("bp_type", 52, 4), ("bp_addr", 56, 8), ("config1", 56, 8), ("bp_len", 64, 8), ("config2", 64, 8),
   ("branch_sample_type", 72, 8), ("sample_regs_user", 80, 8), ("sample_stack_user", 88, 4), ("clockid", 92, 4),
   ("sample_regs_intr", 96, 8), ("aux_watermark", 104, 4), ("sample_max_stack", 108, 2), ("bytes 110..111", 110, 2),
   ("aux_sample_size", 112, 4), ("sig_data", 120, 8), ("config3", 128, 8)]

/-- the bit fields of the word at offset 40, from the lowest bit on: name and width, perf_event.h:414-463 -/
def perfFlagWidths : List (String × Nat) :=
  [("disabled", 1), ("inherit", 1), ("pinned", 1), ("exclusive", 1), ("exclude_user", 1), ("exclude_kernel", 1),
   ("exclude_hv", 1), ("exclude_idle", 1), ("mmap", 1), ("comm", 1), ("freq", 1), ("inherit_stat", 1),
   ("enable_on_exec", 1), ("task", 1), ("watermark", 1), ("precise_ip", 2), ("mmap_data", 1), ("sample_id_all", 1),
   ("exclude_host", 1), ("exclude_guest", 1), ("exclude_callchain_kernel", 1), ("exclude_callchain_user", 1),
   ("mmap2", 1), ("comm_exec", 1), ("use_clockid", 1), ("context_switch", 1), ("write_backward", 1), ("namespaces", 1),
   ("ksymbol", 1), ("bpf_event", 1), ("aux_output", 1), ("cgroup", 1), ("text_poke", 1), ("build_id", 1),
   ("inherit_thread", 1), ("remove_on_exec", 1), ("sigtrap", 1), ("__reserved_1", 26)]

/-- those of the word at offset 116, perf_event.h:518-521 -/
def perfAuxWidths : List (String × Nat) :=
  [("aux_start_paused", 1), ("aux_pause", 1), ("aux_resume", 1), ("__reserved_3", 29)]

/-- name, lowest bit and width of each bit field -/
def bitFields : Nat → List (String × Nat) → List (String × Nat × Nat)
  | _, [] => []
  | k, (n, w) :: l => (n, k, w) :: bitFields (k + w) l

/-- the size of a structure: 0 stands for that of the first version -/
def perfLen (b : List Byte) : Nat := if numAt b 4 4 = 0 then 64 else numAt b 4 4

/-- the fields left out of the full text: members of unions that the type or the flags do not choose, what the flags do not ask
for, reserved bytes that are 0 -/
def perfLeft (b : List Byte) (n : String) : Prop :=
  n = "sample_freq" ∧ ¬ flagSet (numAt b 40 8) 10 ∨ n = "sample_period" ∧ flagSet (numAt b 40 8) 10 ∨
  n = "wakeup_watermark" ∧ ¬ flagSet (numAt b 40 8) 14 ∨ n = "wakeup_events" ∧ flagSet (numAt b 40 8) 14 ∨
  (n = "bp_type" ∨ n = "bp_addr" ∨ n = "bp_len") ∧ numAt b 0 4 ≠ 5 ∨
  (n = "config1" ∨ n = "config2") ∧ numAt b 0 4 = 5 ∨
  n = "branch_sample_type" ∧ ¬ flagSet (numAt b 24 8) 11 ∨
  n = "sample_stack_user" ∧ ¬ flagSet (numAt b 24 8) 13 ∨
  n = "clockid" ∧ ¬ flagSet (numAt b 40 8) 25 ∨
  n = "bytes 110..111" ∧ numAt b 110 2 = 0

/-- a bit field (name, lowest bit, width) of a number is shown with its value; those reserved are left out if they are 0, all
single flags if `brief` and they are 0 -/
def bitShown (brief : Bool) (w : Nat) (e : String × Nat × Nat) (l : List Nat) : Prop :=
  if w / 2 ^ e.2.1 % 2 ^ e.2.2 = 0 ∧ (e.1 = "__reserved_1" ∨ e.1 = "__reserved_3" ∨ brief = true ∧ e.2.2 = 1) then l = []
  else l = [w / 2 ^ e.2.1 % 2 ^ e.2.2]

/-- the names of the fields of the structure, and that of a changed size -/
def perfNames : List String :=
  perfLayout.map (·.1) ++ perfFlagWidths.map (·.1) ++ perfAuxWidths.map (·.1) ++ ["new_size"]

end Strace.Sized
