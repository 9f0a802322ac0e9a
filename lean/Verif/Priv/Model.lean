/-!
# What is kept between entering and exiting of a call: src/strace.c, src/syscall.c

A decoder that needs on exiting what it saw on entering keeps it in the one slot that each tracee has.  The same slot holds the
description of a call with an unknown number and the version of an ipc call.  Memory is a list of what is allocated; the
allocator is a parameter.  A tracee is followed from its first stop until it is dropped; stops that strace ignores and calls
of decoders that do not touch the slot do not appear.
-/
namespace Strace.Priv

/-- who allocated something, and which function releases it: `free_sysent_buf`, src/syscall.c:1286-1292, or that of a decoder -/
inductive Owner where
  | sysent
  | decoder
  deriving DecidableEq

/-- something allocated -/
structure Obj where
  owner : Owner
  text : List Nat
  deriving DecidableEq

/-- `_priv_data` and `_free_priv_data` of `struct tcb`, src/defs.h; what is allocated, and whether something was released that
was not allocated or with the function of another owner -/
structure S where
  data : Nat
  fn : Option Owner
  heap : List (Nat × Obj)
  bad : Bool
  deriving DecidableEq

/-- a new tracee: `alloctcb`, src/strace.c:1049-1074 -/
def S.new : S := ⟨0, none, [], false⟩

/-- `malloc`: the address for a number that stands for everything it depends on, and the addresses in use -/
abbrev Alloc := Nat → List Nat → Nat

/-- `set_tcb_priv_data`, src/strace.c:1082-1093: its result is never used -/
def set (s : S) (v : Nat) (fn : Option Owner) : S :=
  if s.data ≠ 0 then s else { s with data := v, fn := fn }

/-- what is allocated at an address -/
def at? (h : List (Nat × Obj)) (a : Nat) : Option Obj := (h.find? fun p => p.1 = a).map (·.2)

/-- `free_tcb_priv_data`, src/strace.c:1095-1105 -/
def release (s : S) : S :=
  if s.data = 0 then s
  else
    match s.fn with
    | none => { s with data := 0 }
    | some o =>
      ⟨0, none, s.heap.filter (fun p => p.1 ≠ s.data),
        s.bad || !(match at? s.heap s.data with | some x => decide (x.owner = o) | none => false)⟩

/-- allocating something and putting it in the slot, as src/syscall.c:1459-1469 and src/mmsghdr.c:79-103 do -/
def setObj (al : Alloc) (s : S) (seed : Nat) (x : Obj) : S :=
  let a := al seed (s.heap.map (·.1))
  set { s with heap := (a, x) :: s.heap } a (some x.owner)

/-- what `get_scno` makes of the number, src/syscall.c:1431-1486 -/
inductive Number where
  | failed
  | valid
  | invalid (seed : Nat)
  deriving DecidableEq

/-- `get_scno`, as far as the slot goes, src/syscall.c:1456-1473; the text stands for the name made up -/
def getScno (al : Alloc) (s : S) : Number → S
  | .failed => s
  | .valid => s
  | .invalid seed => setObj al s seed ⟨.sysent, []⟩

/-- what a decoder keeps when the call is entered: a number, see `set_tcb_priv_ulong`, src/defs.h:670-673, or something allocated -/
inductive Keep where
  | nothing
  | num (n : Nat)
  | obj (seed : Nat) (text : List Nat)
  deriving DecidableEq

/-- a decoder keeps something, as `decode_sockname`, src/net.c:209, or `save_mmsgvec_namelen`, src/mmsghdr.c:103 -/
def keep (al : Alloc) (s : S) : Keep → S
  | .nothing => s
  | .num n => set s n none
  | .obj seed t => setObj al s seed ⟨.decoder, t⟩

/-- a call: the number, the version in case of ipc (0 without), what its decoder keeps, whether the decoder runs on exiting -/
structure Call where
  number : Number
  version : Nat
  kept : Keep
  asked : Bool

/-- `decode_ipc_subcall`, src/syscall.c:306-335, as far as the slot goes -/
def ipc (s : S) (v : Nat) : S := if v ≠ 0 then set s v none else s

/-- entering: `syscall_entering_decode` and `syscall_entering_trace`, src/syscall.c:580-676 -/
def enter (al : Alloc) (s : S) (c : Call) : S := keep al (ipc (getScno al s c.number) c.version) c.kept

/-- what a decoder gets on exiting: `get_tcb_priv_data`, src/strace.c:1076-1080, and what it finds there -/
structure Seen where
  word : Nat
  obj : Option Obj
  deriving DecidableEq

def seen (s : S) : Seen := ⟨s.data, at? s.heap s.data⟩

/-- the calls that are entered and left: `trace_syscall`, src/strace.c:3923-3944, with `syscall_exiting_finish`,
src/syscall.c:1031-1046 -/
def calls (al : Alloc) (s : S) : List Call → List Seen × S
  | [] => ([], s)
  | c :: cs =>
    let s1 := enter al s c
    let r := calls al (release s1) cs
    (if c.asked then seen s1 :: r.1 else r.1, r.2)

/-- a tracee: what `get_scno` finds at its first stop if strace attached to it, the calls, one that is not left -/
structure Life where
  attached : Option Number
  done : List Call
  last : Option Call

/-- `startup_tcb`, src/strace.c:3517-3548 -/
def startup (al : Alloc) (l : Life) : S :=
  match l.attached with
  | some n => getScno al S.new n
  | none => S.new

/-- everything until `droptcb`, src/strace.c:1107-1124 -/
def life (al : Alloc) (l : Life) : List Seen × S :=
  let r := calls al (startup al l) l.done
  (r.1, release (match l.last with | some c => enter al r.2 c | none => r.2))

end Strace.Priv
