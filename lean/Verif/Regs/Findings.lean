import Verif.Regs.History
import Verif.Regs.Modes
/-!
# Findings and examples
-/
namespace Strace.Regs

open Strace.Result (Pers)
open Strace.Regs.Spec

/-- with PTRACE_GET_SYSCALL_INFO; number 59 of x32 is marked COMPAT_SYSCALL_TYPES -/
def envInfo : Env := ⟨true, false, false, fun p n => decide (p = .x32) && decide (n = 59#64)⟩

/-- without it -/
def envRegs : Env := ⟨false, false, false, fun p n => decide (p = .x32) && decide (n = 59#64)⟩

/-- a task with a number and registers that hold 100 plus their index -/
def task (ia32 cs32 : Bool) (orig : BitVec 64) : Task :=
  ⟨ia32, cs32, fun n => if n = 15 then orig else if n = 17 then (if cs32 then 0x23#64 else 0x33#64) else BitVec.ofNat 64 (100 + n)⟩

/-- **Finding 78.** Without PTRACE_GET_SYSCALL_INFO, a 64-bit program that uses the 32-bit entry is shown with calls it does
not make: here `exit` (number 1 of i386) appears as call 1 of the 64-bit table, `write`, with the arguments of that. -/
theorem int80_as_64 :
    (run envRegs start ([.new 7 false, .enter 7 (task true false 1#64) false].map (SEv.ev true))).out.filter isCall =
      [.call 7 .x64 1#64 [114#64, 113#64, 112#64, 107#64, 109#64, 108#64]] ∧
    lines envRegs.cst (fun _ => .x64) [.new 7 false, .enter 7 (task true false 1#64) false] =
      [.call 7 .i386 1#64 [105#64, 111#64, 112#64, 113#64, 114#64, 104#64]] := by
  decide +kernel

/-- **Finding 79.** The number -1 is written by programs as 32 bits (`mov $-1, %eax`).  Without PTRACE_GET_SYSCALL_INFO the
check for it, which compares 64 bits, does not apply: a 64-bit program is announced to run in x32 mode. -/
theorem minus_one_as_x32 :
    (run envRegs start ([.new 7 false, .enter 7 (task false false 0xffffffff#64) false].map (SEv.ev true))).out =
      [.new 7 .x64, .mode 7 .x32, .call 7 .x32 0xbfffffff#64 [114#64, 113#64, 112#64, 107#64, 109#64, 108#64]] ∧
    lines envRegs.cst (fun _ => .x64) [.new 7 false, .enter 7 (task false false 0xffffffff#64) false] =
      [.call 7 .x64 0xffffffffffffffff#64 [114#64, 113#64, 112#64, 107#64, 109#64, 108#64]] := by
  decide +kernel

/-- a task that makes a 32-bit call with garbage in the high half of rbx -/
def garbage : Task := ⟨true, false, fun n => if n = 15 then 4#64 else if n = 5 then 0xdead00000001#64 else 0#64⟩

/-- **Finding 80.** With PTRACE_GET_SYSCALL_INFO the arguments of 32-bit calls are used as the kernel reports them, while
the code for registers cuts them to 32 bits: if the report has high halves, descriptor 1 is shown as 0xdead00000001. -/
theorem high_half_kept :
    (run envInfo start ([.new 7 false, .enter 7 garbage false].map (SEv.ev true))).out.filter isCall =
      [.call 7 .i386 4#64 [0xdead00000001#64, 0#64, 0#64, 0#64, 0#64, 0#64]] ∧
    lines envInfo.cst (fun _ => .x64) [.new 7 false, .enter 7 garbage false] =
      [.call 7 .i386 4#64 [1#64, 0#64, 0#64, 0#64, 0#64, 0#64]] := by
  decide +kernel

/-- three tracees in three modes, whose stops are mixed; one has been attached to -/
def mixed : List SEv :=
  [.new 1 true, .other 1 (task true true 3#64) false, .new 2 false, .enter 2 (task false false 0#64) false,
   .enter 1 (task true true 3#64) true, .new 3 false, .leave 2 (task false false 0#64),
   .enter 3 (task false false 0x4000003b#64) false, .other 2 (task false false 0#64) true, .leave 1 (task true true 3#64),
   .dead 3, .enter 2 (task false false 59#64) false, .leave 2 (task true true 59#64), .enter 2 (task true true 4#64) false]

theorem mixed_turns : Turns (fun _ => false) mixed := by
  simp [Turns, mixed]

theorem mixed_readable (E : Env) (R : Bool) (pid : Nat) (t : Task) (sec : Bool) (h : SEv.enter pid t sec ∈ mixed) :
    Readable E R t := by
  simp only [mixed, List.mem_cons, reduceCtorEq, SEv.enter.injEq, List.mem_nil_iff, or_false, false_or] at h
  have h0 : t = task false false 0#64 ∨ t = task true true 3#64 ∨ t = task false false 0x4000003b#64 ∨
      t = task false false 59#64 ∨ t = task true true 4#64 := by
    rcases h with h | h | h | h | h
    · exact Or.inl h.2.1
    · exact Or.inr (Or.inl h.2.1)
    · exact Or.inr (Or.inr (Or.inl h.2.1))
    · exact Or.inr (Or.inr (Or.inr (Or.inl h.2.1)))
    · exact Or.inr (Or.inr (Or.inr (Or.inr h.2.1)))
  unfold Readable
  rcases h0 with rfl | rfl | rfl | rfl | rfl
  · split
    · intro h; cases h
    · refine ⟨rfl, by decide, fun _ => by decide⟩
  · split
    · intro _; decide
    · refine ⟨rfl, by decide, fun _ => by decide⟩
  · split
    · intro h; cases h
    · refine ⟨rfl, by decide, fun _ => by decide⟩
  · split
    · intro h; cases h
    · refine ⟨rfl, by decide, fun _ => by decide⟩
  · split
    · intro _; decide
    · refine ⟨rfl, by decide, fun _ => by decide⟩

/-- The hypotheses of `calls_read_partial` are met, and what it says for registers read the old way. -/
theorem mixed_example :
    (run envRegs start (mixed.map (SEv.ev false))).out.filter isCall =
      [.call 2 .x64 0#64 [114#64, 113#64, 112#64, 107#64, 109#64, 108#64],
       .call 1 .i386 3#64 [105#64, 111#64, 112#64, 113#64, 114#64, 104#64],
       .ret 2 .x64,
       .call 3 .x32 59#64 [114#64, 113#64, 112#64, 107#64, 109#64, 108#64],
       .ret 1 .i386, .lost 3,
       .call 2 .x64 59#64 [114#64, 113#64, 112#64, 107#64, 109#64, 108#64],
       .ret 2 .x64,
       .call 2 .i386 4#64 [105#64, 111#64, 112#64, 113#64, 114#64, 104#64]] := by
  rw [calls_read_partial envRegs false mixed mixed_turns (mixed_readable envRegs false)]
  decide +kernel

/-- The messages about modes in that history. -/
theorem mixed_modes :
    (run envInfo start (mixed.map (SEv.ev true))).out.filter (fun l : Line => match l with | .mode _ _ => true | .new _ _ => true | _ => false) =
      [.new 1 .x64, .mode 1 .i386, .new 2 .i386, .mode 2 .x64, .new 3 .i386, .mode 3 .x32, .mode 2 .i386] ∧
    Present (fun _ => false) (mixed.map (SEv.ev true)) := by
  constructor
  · decide +kernel
  · simp [Present, mixed, SEv.ev]

end Strace.Regs
