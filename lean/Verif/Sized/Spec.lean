import Verif.Sized.Model
/-!
# What the text of a structure says

A structure is passed as a list of bytes lying at an address; the kernel takes bytes beyond its size as 0.
-/
namespace Strace.Sized

/-- the bytes lie at an address of the tracee -/
def Passed (mem : Nat → Option Byte) (a : Nat) (b : List Byte) : Prop :=
  ∀ i, i < b.length → mem ((a + i) % 2 ^ 64) = b[i]?

/-- the number the kernel sees in `len` bytes at an offset -/
def numAt (b : List Byte) (off len : Nat) : Nat :=
  ((List.range len).map fun i => (b.getD (off + i) 0).val * 256 ^ i).sum

/-- the values shown under a name -/
def shownAs (name : String) : List Tok → List Nat
  | [] => []
  | .field n v :: l => if n = name then v :: shownAs name l else shownAs name l
  | .comment n v :: l => if n = name then v :: shownAs name l else shownAs name l
  | .parts n p :: l => if n = name then (p.map fun q => q.1 * 2 ^ q.2).sum :: shownAs name l else shownAs name l
  | _ :: l => shownAs name l

/-- the names of the fields shown -/
def names : List Tok → List String
  | [] => []
  | .field n _ :: l => n :: names l
  | .comment n _ :: l => n :: names l
  | .parts n _ :: l => n :: names l
  | .array n _ :: l => n :: names l
  | .deref n _ _ :: l => n :: names l
  | _ :: l => names l

/-- the bytes shown without a name, and the marks of what is not shown -/
def marks : List Tok → List Tok
  | [] => []
  | .bytes lo hi d :: l => .bytes lo hi d :: marks l
  | .more :: l => .more :: marks l
  | .unavailable :: l => .unavailable :: marks l
  | .addr a :: l => .addr a :: marks l
  | _ :: l => marks l

/-- states of a reader of the text -/
inductive St | start | want | have | done | wantArg | doneArg | bad
  deriving DecidableEq

def step : St → Tok → St
  | .start, .opened => .want
  | .start, .addr _ => .done
  | .want, .field _ _ | .want, .parts _ _ | .want, .array _ _ | .want, .deref _ _ _ | .want, .bytes _ _ _
  | .want, .more | .want, .unavailable => .have
  | .have, .next => .want
  | .have, .changed => .want
  | .have, .comment _ _ => .have
  | .have, .more => .have
  | .have, .closed => .done
  | .done, .changed => .start
  | .done, .next => .wantArg
  | .wantArg, .field _ _ => .doneArg
  | _, _ => .bad

/-- the text is `{` items separated by commas `}` -/
def Structure (l : List Tok) : Prop := l.foldl step .start = .done

/-- ... possibly changed by the call, and one more argument -/
def StructureArg (l : List Tok) : Prop := l.foldl step .start = .doneArg

/-- the texts of the arrays shown -/
def arrays : List Tok → List (String × String)
  | [] => []
  | .array n t :: l => (n, t) :: arrays l
  | _ :: l => arrays l

/-- what is shown behind pointers -/
def derefs : List Tok → List (String × Nat × Option Nat)
  | [] => []
  | .deref n a v :: l => (n, a, v) :: derefs l
  | _ :: l => derefs l

/-- Each field of a layout (name, offset, length) is shown once with the value the kernel sees, or not at all if it is one of
those `left` out; nothing else is shown by name. -/
def Shows (out : List Tok) (layout : List (String × Nat × Nat)) (left : String → Prop) (b : List Byte) : Prop :=
  (∀ e ∈ layout, left e.1 → shownAs e.1 out = []) ∧
  (∀ e ∈ layout, ¬ left e.1 → shownAs e.1 out = [numAt b e.2.1 e.2.2]) ∧
  (∀ n ∈ names out, n ∈ layout.map (·.1))

/-- what is shown of the bytes a structure has from `lo` on -/
def tailMarks (b : List Byte) (lo page maxStr : Nat) : List Tok → Prop := fun l =>
  (∀ x ∈ (b.take page).drop lo, x = 0) ∧ l = [] ∨
  (∃ x ∈ (b.take page).drop lo, x ≠ 0) ∧
    ((min b.length page - lo ≤ maxStr ∧ l = [.bytes lo (min b.length page - 1) ((b.take page).drop lo)]) ∨
     (min b.length page - lo > maxStr ∧
       l = [.bytes lo (min b.length page - 1) (((b.take page).drop lo).take maxStr), .more]))

/-! ### Layouts, from the headers of the kernel (bundled/linux/include/uapi/linux) -/

/-- struct open_how, openat2.h:19-23 -/
def openHowLayout : List (String × Nat × Nat) := [("flags", 0, 8), ("mode", 8, 8), ("resolve", 16, 8)]

/-- struct mount_attr, mount.h:131-136 -/
def mountAttrLayout : List (String × Nat × Nat) :=
  [("attr_set", 0, 8), ("attr_clr", 8, 8), ("propagation", 16, 8), ("userns_fd", 24, 8)]

/-- struct xattr_args, xattr.h:25-29 -/
def xattrLayout : List (String × Nat × Nat) := [("value", 0, 8), ("size", 8, 4), ("flags", 12, 4)]

/-- struct mnt_id_req, mount.h:193-199 -/
def mntLayout : List (String × Nat × Nat) :=
  [("size", 0, 4), ("spare", 4, 4), ("mnt_id", 8, 8), ("param", 16, 8), ("mnt_ns_id", 24, 8)]

/-- struct clone_args, sched.h:92-104 -/
def cloneLayout : List (String × Nat × Nat) :=
  [("flags", 0, 8), ("pidfd", 8, 8), ("child_tid", 16, 8), ("parent_tid", 24, 8), ("exit_signal", 32, 8),
   ("stack", 40, 8), ("stack_size", 48, 8), ("tls", 56, 8), ("set_tid", 64, 8), ("set_tid_size", 72, 8),
   ("cgroup", 80, 8)]

/-- struct sched_attr, sched/types.h:98-119 -/
def schedLayout : List (String × Nat × Nat) :=
  [("size", 0, 4), ("sched_policy", 4, 4), ("sched_flags", 8, 8), ("sched_nice", 16, 4), ("sched_priority", 20, 4),
   ("sched_runtime", 24, 8), ("sched_deadline", 32, 8), ("sched_period", 40, 8), ("sched_util_min", 48, 4),
   ("sched_util_max", 52, 4)]

/-- a flag of a number -/
def flagSet (n k : Nat) : Prop := n / 2 ^ k % 2 = 1

end Strace.Sized
