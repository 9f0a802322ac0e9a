import Verif.Sized.Model
/-!
# struct perf_event_attr: src/perf.c

The structure is read on entering and shown on exiting.  Comments (the meaning of `precise_ip`, the numbers of reserved bits)
are not modelled.
-/
namespace Strace.Sized

/-- `fetch_perf_event_attr`, src/perf.c:43-89: the bytes read, and the size kept with them -/
def perfFetch (mem : Nat → Option Byte) (vb ab : Bool) (a : Nat) : Option (List Byte × Nat) :=
  match moven mem ((a + 4) % 2 ^ 64) 4 with
  | none => none
  | some s =>
    let size := if le s > 136 then 136 else le s
    let size := if size = 0 then 64 else size
    if size < 64 then none
    else
      let size := if ab = true then 48 else size
      (fetch mem vb a size).map fun b => (b, size)

/-- the flags before `precise_ip` and their bits, src/perf.c:282-296 -/
def flags1 : List (String × Nat) :=
  [("disabled", 0), ("inherit", 1), ("pinned", 2), ("exclusive", 3), ("exclude_user", 4), ("exclude_kernel", 5),
   ("exclude_hv", 6), ("exclude_idle", 7), ("mmap", 8), ("comm", 9), ("freq", 10), ("inherit_stat", 11),
   ("enable_on_exec", 12), ("task", 13), ("watermark", 14)]

/-- the flags after it, src/perf.c:300-320 -/
def flags2 : List (String × Nat) :=
  [("mmap_data", 17), ("sample_id_all", 18), ("exclude_host", 19), ("exclude_guest", 20),
   ("exclude_callchain_kernel", 21), ("exclude_callchain_user", 22), ("mmap2", 23), ("comm_exec", 24),
   ("use_clockid", 25), ("context_switch", 26), ("write_backward", 27), ("namespaces", 28), ("ksymbol", 29),
   ("bpf_event", 30), ("aux_output", 31), ("cgroup", 32), ("text_poke", 33), ("build_id", 34), ("inherit_thread", 35),
   ("remove_on_exec", 36), ("sigtrap", 37)]

/-- a bit field of a number -/
def bits (w lo n : Nat) : Nat := w / 2 ^ lo % 2 ^ n

/-- STRACE_PERF_PRINT_FLAG, src/perf.c:273-280 -/
def flagToks (ab : Bool) (w : Nat) : List (String × Nat) → List Tok
  | [] => []
  | (n, k) :: l => opt (!ab || decide (bits w k 1 ≠ 0)) [.next, .field n (bits w k 1)] ++ flagToks ab w l

/-- `config`, src/perf.c:151-256 -/
def configTok (type config : Nat) : Tok :=
  match type with
  | 0 => .parts "config" ((if config / 2 ^ 32 ≠ 0 then [(config / 2 ^ 32, 32)] else []) ++ [(config % 2 ^ 32, 0)])
  | 3 => .parts "config" ((if config / 2 ^ 32 ≠ 0 then [(config / 2 ^ 32, 32)] else []) ++
      (if config % 2 ^ 32 / 2 ^ 24 ≠ 0 then [(config % 2 ^ 32 / 2 ^ 24, 24)] else []) ++
      [(config / 2 ^ 16 % 2 ^ 8, 16), (config / 2 ^ 8 % 2 ^ 8, 8), (config % 2 ^ 8, 0)])
  | _ => .field "config" config

/-- the size the kernel left in the structure if it failed with E2BIG, `some none` if that cannot be read, src/perf.c:127-149 -/
def newToks : Option (Option Nat) → List Tok
  | none => []
  | some (some n) => [.changed, .field "new_size" n]
  | some none => [.changed, .unavailable]

/-- the part that is always shown, src/perf.c:136-330 -/
def perfHead (b : List Byte) (ab : Bool) (newSize : Option (Option Nat)) : List Tok :=
  [.opened, .field "type" (fld b 0 4), .next, .field "size" (fld b 4 4)] ++
  newToks newSize ++
  [.next, configTok (fld b 0 4) (fld b 8 8), .next,
   .field (if bits (fld b 40 8) 10 1 ≠ 0 then "sample_freq" else "sample_period") (fld b 16 8), .next,
   .field "sample_type" (fld b 24 8), .next, .field "read_format" (fld b 32 8)] ++
  flagToks ab (fld b 40 8) flags1 ++ [.next, .field "precise_ip" (bits (fld b 40 8) 15 2)] ++
  flagToks ab (fld b 40 8) flags2 ++
  opt (decide (bits (fld b 40 8) 38 26 ≠ 0)) [.next, .field "__reserved_1" (bits (fld b 40 8) 38 26)]

/-- STRACE_PERF_CHECK_FIELD, src/perf.c:116-120 -/
def chk (off size : Nat) (rest : List Tok) : List Tok := if off ≥ size then [] else rest

/-- the fields from `sample_regs_intr` on, src/perf.c:409-449 -/
def perfLast (b : List Byte) (size : Nat) : List Tok :=
  chk 96 size ([.next, .field "sample_regs_intr" (fld b 96 8)] ++
  chk 104 size ([.next, .field "aux_watermark" (fld b 104 4)] ++
  chk 108 size ([.next, .field "sample_max_stack" (fld b 108 2)] ++
  chk 110 size (opt (decide (fld b 110 2 ≠ 0)) [.comment "bytes 110..111" (fld b 110 2)] ++
  chk 112 size ([.next, .field "aux_sample_size" (fld b 112 4)] ++
  chk 116 size (flagToks false (fld b 116 4) [("aux_start_paused", 0), ("aux_pause", 1), ("aux_resume", 2)] ++
    opt (decide (bits (fld b 116 4) 3 29 ≠ 0)) [.next, .field "__reserved_3" (bits (fld b 116 4) 3 29)] ++
  chk 120 size ([.next, .field "sig_data" (fld b 120 8)] ++
  chk 128 size [.next, .field "config3" (fld b 128 8)])))))))

/-- the fields shown if not abbreviating, src/perf.c:332-407.  PERF_TYPE_BREAKPOINT is 5, PERF_SAMPLE_BRANCH_STACK 0x800,
PERF_SAMPLE_STACK_USER 0x2000. -/
def perfBody (b : List Byte) (size : Nat) : List Tok :=
  [.next, .field (if bits (fld b 40 8) 14 1 ≠ 0 then "wakeup_watermark" else "wakeup_events") (fld b 48 4)] ++
  opt (decide (fld b 0 4 = 5)) [.next, .field "bp_type" (fld b 52 4)] ++
  [.next, .field (if fld b 0 4 = 5 then "bp_addr" else "config1") (fld b 56 8)] ++
  chk 64 size ([.next, .field (if fld b 0 4 = 5 then "bp_len" else "config2") (fld b 64 8)] ++
  chk 72 size (opt (decide (fld b 24 8 &&& 0x800 ≠ 0)) [.next, .field "branch_sample_type" (fld b 72 8)] ++
  chk 80 size ([.next, .field "sample_regs_user" (fld b 80 8)] ++
  chk 88 size (opt (decide (fld b 24 8 &&& 0x2000 ≠ 0)) [.next, .field "sample_stack_user" (fld b 88 4)] ++
  (if bits (fld b 40 8) 25 1 ≠ 0 then chk 92 size ([.next, .field "clockid" (fld b 92 4)] ++ perfLast b size)
   else perfLast b size)))))

/-- `print_perf_event_attr`, src/perf.c:91-459, of what was read on entering -/
def perfAttr (b : List Byte) (size : Nat) (ab : Bool) (newSize : Option (Option Nat)) : List Tok :=
  perfHead b ab newSize ++ (if ab = true then [] else perfBody b size) ++
  opt (decide (fld b 4 4 ≠ 0 ∧ fld b 4 4 > size ∨ fld b 4 4 = 0 ∧ size < 64)) [.next, .more] ++ [.closed]

/-- the first argument of perf_event_open, src/perf.c:461-476: the address on entering or the structure on exiting; `after` is
the memory on exiting and `big` says that the call failed with E2BIG -/
def perfOpen (mem after : Nat → Option Byte) (vb ab big : Bool) (a : Nat) : List Tok :=
  match perfFetch mem vb ab a with
  | none => [.addr a]
  | some (b, size) =>
    perfAttr b size ab (if big = true then some ((moven after ((a + 4) % 2 ^ 64) 4).map le) else none)

end Strace.Sized
