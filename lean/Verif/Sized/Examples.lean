import Verif.Sized.CloneProps
import Verif.Sized.PerfShown
/-!
# Structures that meet the hypotheses of the theorems
-/
namespace Strace.Sized

/-- a structure for openat2 of 28 bytes: O_CREAT, mode 0644, no resolve flags, and two bytes that are not 0 behind -/
def exampleHow : List Byte :=
  [0x40, 0, 0, 0, 0, 0, 0, 0, 0xa4, 1, 0, 0, 0, 0, 0, 0, 0, 0, 0, 0, 0, 0, 0, 0, 0, 7, 0, 9]

/-- hypotheses of openHow_shown and openHow_determines -/
example : Passed (memOf 4096 exampleHow) 4096 exampleHow ∧ 24 ≤ exampleHow.length ∧ exampleHow.length ≤ 4096 ∧
    exampleHow.length - 24 ≤ 32 ∧ ¬ openHowLeft exampleHow "mode" ∧
    openHow (memOf 4096 exampleHow) true 4096 32 4096 exampleHow.length =
      [.opened, .field "flags" 64, .next, .field "mode" 420, .next, .field "resolve" 0, .next,
       .bytes 24 27 [0, 7, 0, 9], .closed] := by
  refine ⟨memOf_passed _ _ (by decide), by decide, by decide, by decide, ?_, by decide +kernel⟩
  unfold openHowLeft flagSet
  decide +kernel

/-- a structure for mount_setattr of 36 bytes; only 2 bytes of a string may be shown -/
def exampleMount : List Byte := [1, 0, 0, 0, 0, 0, 0, 0] ++ List.replicate 16 0 ++ [3, 0, 0, 0, 0, 0, 0, 0, 5, 6, 7, 8]

/-- hypotheses of mountAttr_shown, with bytes left out -/
example : Passed (memOf 4096 exampleMount) 4096 exampleMount ∧ 32 ≤ exampleMount.length ∧
    mountAttr (memOf 4096 exampleMount) true 4096 2 4096 exampleMount.length =
      [.opened, .field "attr_set" 1, .next, .field "attr_clr" 0, .next, .field "propagation" 0, .next, .field "userns_fd" 3,
       .next, .bytes 32 35 [5, 6], .more, .closed] := by
  exact ⟨memOf_passed _ _ (by decide), by decide, by decide +kernel⟩

/-- a structure for setxattrat of 17 bytes -/
def exampleXattr : List Byte := [0, 0x20, 0, 0, 0, 0, 0, 0, 5, 0, 0, 0, 1, 0, 0, 0, 9]

/-- hypotheses of xattrArgs_shown -/
example : Passed (memOf 4096 exampleXattr) 4096 exampleXattr ∧ 16 ≤ exampleXattr.length ∧
    marks (xattrArgs (memOf 4096 exampleXattr) true 4096 32 4096 exampleXattr.length) = [.bytes 16 16 [9]] := by
  exact ⟨memOf_passed _ _ (by decide), by decide, by decide +kernel⟩

/-- a request of 32 bytes -/
def exampleMnt : List Byte := [32, 0, 0, 0, 1, 0, 0, 0, 2, 0, 0, 0, 0, 0, 0, 0] ++ List.replicate 8 0 ++ [4, 0, 0, 0, 0, 0, 0, 0]

/-- hypotheses of mntIdReq_shown and mntIdReq_determines_partial -/
example : Passed (memOf 4096 exampleMnt) 4096 exampleMnt ∧ numAt exampleMnt 0 4 = exampleMnt.length ∧
    shownAs "spare" (mntIdReq (memOf 4096 exampleMnt) true 4096 32 4096) = [1] ∧
    shownAs "mnt_ns_id" (mntIdReq (memOf 4096 exampleMnt) true 4096 32 4096) = [4] := by
  exact ⟨memOf_passed _ _ (by decide), by decide +kernel, by decide +kernel, by decide +kernel⟩

/-- a structure for clone3 of 89 bytes: CLONE_PIDFD | CLONE_PARENT_SETTID, two IDs, and a byte behind -/
def exampleClone : List Byte :=
  [0, 0x10, 0x10, 0, 0, 0, 0, 0, 0, 0x30, 0, 0, 0, 0, 0, 0] ++ List.replicate 8 0 ++ [0, 0x30, 0, 0, 0, 0, 0, 0] ++
  [17, 0, 0, 0, 0, 0, 0, 0] ++ List.replicate 24 0 ++ [0, 0x40, 0, 0, 0, 0, 0, 0, 2, 0, 0, 0, 0, 0, 0, 0] ++
  List.replicate 8 0 ++ [1]

/-- hypotheses of clone3_shown and clone3_exit_shown: a field that is shown, one that is not, the array, the byte behind and
what is shown on exiting -/
example : Passed (memOf 4096 exampleClone) 4096 exampleClone ∧ 64 ≤ exampleClone.length ∧
    shownAs "pidfd" (clone3Enter (memOf 4096 exampleClone) true (fun _ _ => "[5, 6]") 4096 32 0 4096 89).1 = [0x3000] ∧
    shownAs "tls" (clone3Enter (memOf 4096 exampleClone) true (fun _ _ => "[5, 6]") 4096 32 0 4096 89).1 = [] ∧
    arrays (clone3Enter (memOf 4096 exampleClone) true (fun _ _ => "[5, 6]") 4096 32 0 4096 89).1 = [("set_tid", "[5, 6]")] ∧
    marks (clone3Enter (memOf 4096 exampleClone) true (fun _ _ => "[5, 6]") 4096 32 0 4096 89).1 = [.bytes 88 88 [1]] ∧
    derefs (clone3Exit (memOf 4096 exampleClone) true false 4096 32 4096 89) =
      [("pidfd", 0x3000, none), ("parent_tid", 0x3000, none)] := by
  exact ⟨memOf_passed _ _ (by decide), by decide, by decide +kernel, by decide +kernel, by decide +kernel, by decide +kernel,
    by decide +kernel⟩

/-- a sched_attr of 60 bytes: SCHED_FIFO with priority 7 -/
def exampleSched : List Byte := [60, 0, 0, 0, 1, 0, 0, 0] ++ List.replicate 12 0 ++ [7] ++ List.replicate 39 0

/-- hypotheses of schedSet_shown and schedGet_shown_partial -/
example : Passed (memOf 4096 exampleSched) 4096 exampleSched ∧ exampleSched.length = schedLen exampleSched ∧
    48 ≤ exampleSched.length ∧ shownAs "sched_priority" (schedSet (memOf 4096 exampleSched) true 4096) = [7] ∧
    marks (schedSet (memOf 4096 exampleSched) true 4096) = [.more] ∧
    shownAs "sched_priority" (schedGet (memOf 4096 exampleSched) true 4096 60) = [7] := by
  exact ⟨memOf_passed _ _ (by decide), by decide +kernel, by decide, by decide +kernel, by decide +kernel, by decide +kernel⟩

end Strace.Sized
