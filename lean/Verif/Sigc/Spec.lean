import Verif.Sigc.Model
/-!
# What the calls about signals do with their arguments

From the kernel's interface and the manual pages, not from the decoders.  Words are of `w` bytes, 8 or 4.
-/
namespace Strace.Sigc.Spec
open Strace.Prctl (Mem)
open Strace.Ops (Call)

/-- What a call does with an argument. -/
inductive Use
  /-- it takes all the bits as a number -/
  | num (i : Nat)
  /-- it takes the low 32 bits as a number -/
  | low (i : Nat)
  /-- it takes the number itself as a set of signals, one in each of `n` bits -/
  | mask (i n : Nat)
  /-- it reads, or fills, a set of signals of `n` bytes -/
  | rdSet (i n : Nat)
  | wrSet (i n : Nat)
  /-- it reads, or fills, an action of the old kind: handler, mask, flags, restorer, of a word each -/
  | rdOld (i : Nat)
  | wrOld (i : Nat)
  /-- it reads, or fills, an action of the new kind: handler, flags, restorer of a word each, a mask of 8 bytes -/
  | rdNew (i : Nat)
  | wrNew (i : Nat)
  /-- it reads, or fills, a siginfo, which has 128 bytes -/
  | rdInfo (i : Nat)
  | wrInfo (i : Nat)
  /-- it reads a time of `n` bytes -/
  | rdTime (i n : Nat)
deriving DecidableEq, Repr

/-- The calls.  Sets of those with rt_ have 8 bytes; another length is refused before anything is read, except that
rt_sigpending takes lengths up to 8.  The first arguments of sigsuspend are not used. -/
def uses (w : Nat) (s : Sys) (arg : Nat → Nat) : List Use :=
  match s with
  | .kill => [.low 0, .low 1]
  | .tkill => [.low 0, .low 1]
  | .tgkill => [.low 0, .low 1, .low 2]
  | .ssetmask => [.mask 0 32]
  | .sgetmask => []
  | .signal => [.low 0, .num 1]
  | .sigaction => [.low 0, .rdOld 1, .wrOld 2]
  | .sigsuspend => [.mask 2 (8 * w)]
  | .sigprocmask => [.low 0, .rdSet 1 w, .wrSet 2 w]
  | .sigpending => [.wrSet 0 w]
  | .rtSigprocmask => [.low 0, .num 3] ++ if arg 3 = 8 then [.rdSet 1 8, .wrSet 2 8] else []
  | .rtSigaction => [.low 0, .num 3] ++ if arg 3 = 8 then [.rdNew 1, .wrNew 2] else []
  | .rtSigpending => [.num 1] ++ if 0 < arg 1 ∧ arg 1 ≤ 8 then [.wrSet 0 (arg 1)] else []
  | .rtSigsuspend => [.num 1] ++ if arg 1 = 8 then [.rdSet 0 8] else []
  | .rtSigqueueinfo => [.low 0, .low 1, .rdInfo 2]
  | .rtTgsigqueueinfo => [.low 0, .low 1, .low 2, .rdInfo 3]
  | .pidfdSendSignal => [.low 0, .low 1, .rdInfo 2, .low 3]
  | .rtSigtimedwait t =>
    [.num 3] ++ if arg 3 = 8 then [.rdSet 0 8, .wrInfo 1, .rdTime 2 (if t then 8 else 16)] else []

/-- The arguments that a call has, in their order; of sigsuspend the one it uses. -/
def arguments : Sys → List Nat
  | .kill => [0, 1]
  | .tkill => [0, 1]
  | .tgkill => [0, 1, 2]
  | .ssetmask => [0]
  | .sgetmask => []
  | .signal => [0, 1]
  | .sigaction => [0, 1, 2]
  | .sigsuspend => [2]
  | .sigprocmask => [0, 1, 2]
  | .sigpending => [0]
  | .rtSigprocmask => [0, 1, 2, 3]
  | .rtSigaction => [0, 1, 2, 3]
  | .rtSigpending => [0, 1]
  | .rtSigsuspend => [0, 1]
  | .rtSigqueueinfo => [0, 1, 2]
  | .rtTgsigqueueinfo => [0, 1, 2, 3]
  | .pidfdSendSignal => [0, 1, 2, 3]
  | .rtSigtimedwait _ => [0, 1, 2, 3]

/-- The argument that a token is of; a separator is of none. -/
def idx : Tok → Option Nat
  | .sep => none
  | .num i _ => some i
  | .int i _ => some i
  | .addr i _ => some i
  | .set i _ => some i
  | .act i _ _ _ _ => some i
  | .info i _ => some i
  | .time i _ => some i

/-- The 32 bits of an argument as a signed number. -/
def signed (x : Nat) : Int := if x % 2 ^ 32 < 2 ^ 31 then (x % 2 ^ 32 : Nat) else (x % 2 ^ 32 : Nat) - 2 ^ 32

/-- `n` bytes at address `a` can be read. -/
def Readable (m : Mem) (a n : Nat) : Prop := ∀ k, k < n → (m (a + k)).isSome = true

/-- The bytes `l` are in memory at address `a`. -/
def BytesAt (m : Mem) (a : Nat) (l : List Nat) : Prop := ∀ k, k < l.length → m (a + k) = some (l.getD k 0)

/-- The number in `n` bytes of memory from address `a` on, the byte `k` counting 256^k. -/
def le (m : Mem) (a : Nat) : Nat → Nat
  | 0 => 0
  | n + 1 => le m a n + 256 ^ n * (m (a + n)).getD 0

/-- The signals of a set of `n` bits: the signal `k + 1` is in it when the bit `k` of the number is set. -/
def SameSet (n shown x : Nat) : Prop := ∀ k, shown.testBit k = (decide (k < n) && x.testBit k)

/-- An action of the old kind at address `a`, as it is to be shown: the restorer only with SA_RESTORER (0x4000000). -/
def OldAction (w : Nat) (m : Mem) (a i : Nat) (t : Tok) : Prop :=
  t = .act i (le m a w) (le m (a + w) w) (le m (a + 2 * w) w)
    (if (le m (a + 2 * w) w).testBit 26 then some (le m (a + 3 * w) w) else none)

/-- An action of the new kind. -/
def NewAction (w : Nat) (m : Mem) (a i : Nat) (t : Tok) : Prop :=
  t = .act i (le m a w) (le m (a + 3 * w) 8) (le m (a + w) w)
    (if (le m (a + w) w).testBit 26 then some (le m (a + 2 * w) w) else none)

/-- If `ok` and the `n` bytes at argument `i` can be read, `P` holds of the token; else it is the address. -/
def At (m : Mem) (c : Call) (ok : Prop) (i n : Nat) (P : Tok → Prop) (t : Tok) : Prop :=
  (ok ∧ Readable m (c.arg i) n → P t) ∧ (¬ (ok ∧ Readable m (c.arg i) n) → t = .addr i (c.arg i))

/-- What is read is to be shown as it was when the call began. -/
def Rd (c : Call) (early late : List Tok) (i n : Nat) (P : Tok → Prop) : Prop :=
  ∃ t ∈ early ++ late, At c.before c (c.arg i ≠ 0 ∧ c.verbose = true) i n P t

/-- What is filled is to be shown as the call has left it, unless it has failed. -/
def Wr (c : Call) (early late : List Tok) (i n : Nat) (P : Tok → Prop) : Prop :=
  ∃ t ∈ early ++ late, At c.after c (c.arg i ≠ 0 ∧ c.verbose = true ∧ c.failed = false) i n P t

/-- What is shown at the beginning and at the end shows what the call does with an argument.  An action of the new kind has
`act` bytes that are looked at. -/
def Shown (act w : Nat) (c : Call) (early late : List Tok) : Use → Prop
  | .num i => .num i (c.arg i) ∈ early ++ late ∨ .addr i (c.arg i) ∈ early ++ late
  | .low i => .num i (c.arg i % 2 ^ 32) ∈ early ++ late ∨ .int i (signed (c.arg i)) ∈ early ++ late
  | .mask i n => ∃ v, .set i v ∈ early ∧ SameSet n v (c.arg i)
  | .rdSet i n => Rd c early late i n (· = .set i (le c.before (c.arg i) n))
  | .wrSet i n => Wr c early late i n (· = .set i (le c.after (c.arg i) n))
  | .rdOld i => Rd c early late i (4 * w) (OldAction w c.before (c.arg i) i)
  | .wrOld i => Wr c early late i (4 * w) (OldAction w c.after (c.arg i) i)
  | .rdNew i => Rd c early late i act (NewAction w c.before (c.arg i) i)
  | .wrNew i => Wr c early late i act (NewAction w c.after (c.arg i) i)
  | .rdInfo i => Rd c early late i 128 fun t => ∃ l, t = .info i l ∧ l.length = 128 ∧ BytesAt c.before (c.arg i) l
  | .wrInfo i => Wr c early late i 128 fun t => ∃ l, t = .info i l ∧ l.length = 128 ∧ BytesAt c.after (c.arg i) l
  | .rdTime i n => Rd c early late i n fun t => ∃ l, t = .time i l ∧ l.length = n ∧ BytesAt c.before (c.arg i) l

/-- What the kernel looks at of an action of the new kind. -/
def actionSize (w : Nat) : Nat := 3 * w + 8

/-- What is printed when the call begins, or when it ends, is of the time at which it is printed: nothing that the call fills is
shown before it has ended. -/
def isFilled (s : Sys) (i : Nat) : Bool :=
  match s, i with
  | .sigaction, 2 => true
  | .sigprocmask, 2 => true
  | .sigpending, 0 => true
  | .rtSigprocmask, 2 => true
  | .rtSigaction, 2 => true
  | .rtSigpending, 0 => true
  | .rtSigtimedwait _, 1 => true
  | _, _ => false

/-- A token that is more than the argument itself: something from memory. -/
def fromMemory : Tok → Bool
  | .set _ _ => true
  | .act _ _ _ _ _ => true
  | .info _ _ => true
  | .time _ _ => true
  | _ => false

end Strace.Sigc.Spec
