import Verif.Rreg.Model

/-!
# The structures that are registered
-/
namespace Strace.Rreg.Spec

open Strace.Rreg

/-- The number of `w` bytes at address `a`. -/
def word (m : Nat → Option Nat) (a w : Nat) : Nat := ((List.range w).map fun k => (m (a + k)).getD 0 * 256 ^ k).sum

/-- The `n` bytes at `p` can be read. -/
def Readable (m : Nat → Option Nat) (p n : Nat) : Prop := p ≠ 0 ∧ ∀ i, i < n → (m (p + i)).isSome

/-- Types of the interface. -/
inductive Ty | u8 | u16 | u32 | u64 | s32 | s64
deriving DecidableEq

/-- The bytes of a type. -/
def Ty.size : Ty → Nat
  | .u8 => 1 | .u16 => 2 | .u32 => 4 | .u64 => 8 | .s32 => 4 | .s64 => 8

/-- The type has a sign. -/
def Ty.signed : Ty → Bool
  | .s32 => true | .s64 => true | _ => false

/-- `v` is the value of the type at address `a`. -/
def IsAt (m : Nat → Option Nat) (t : Ty) (a : Nat) (v : Int) : Prop :=
  if t.signed = true then
    -(256 ^ t.size : Nat) ≤ 2 * v ∧ 2 * v < (256 ^ t.size : Nat)
      ∧ ((word m a t.size : Int) = v ∨ (word m a t.size : Int) = v + (256 ^ t.size : Nat))
  else v = word m a t.size

/-- `v` is what a parameter of type `int` is if the register holds `a`. -/
def IsInt (a : Nat) (v : Int) : Prop := -2 ^ 31 ≤ v ∧ v < 2 ^ 31 ∧ ∃ q : Int, (a : Int) = v + q * 2 ^ 32

/-- A declaration of a structure of the interface: name, type, number of elements, and whether it is reserved. -/
structure Decl where
  name : String
  ty : Ty
  count : Nat
  reserved : Bool

/-- linux/io_uring.h, what the structure of an operation is; nothing if it has none of its own. -/
def decls : Nat → List Decl
  | 22 => [⟨"ring_addr", .u64, 1, false⟩, ⟨"ring_entries", .u32, 1, false⟩, ⟨"bgid", .u16, 1, false⟩, ⟨"flags", .u16, 1, false⟩,
           ⟨"resv", .u64, 3, true⟩]
  | 23 => [⟨"ring_addr", .u64, 1, false⟩, ⟨"ring_entries", .u32, 1, false⟩, ⟨"bgid", .u16, 1, false⟩, ⟨"flags", .u16, 1, false⟩,
           ⟨"resv", .u64, 3, true⟩]
  | 24 => [⟨"addr", .u64, 1, false⟩, ⟨"fd", .s32, 1, false⟩, ⟨"flags", .u32, 1, false⟩, ⟨"tv_sec", .s64, 1, false⟩,
           ⟨"tv_nsec", .s64, 1, false⟩, ⟨"opcode", .u8, 1, false⟩, ⟨"pad", .u8, 7, true⟩, ⟨"pad2", .u64, 3, true⟩]
  | 25 => [⟨"off", .u32, 1, false⟩, ⟨"len", .u32, 1, false⟩, ⟨"resv", .u64, 1, true⟩]
  | 26 => [⟨"buf_group", .u32, 1, false⟩, ⟨"head", .u32, 1, false⟩, ⟨"resv", .u32, 8, true⟩]
  | 27 => [⟨"busy_poll_to", .u32, 1, false⟩, ⟨"prefer_busy_poll", .u8, 1, false⟩, ⟨"opcode", .u8, 1, false⟩, ⟨"pad", .u8, 2, true⟩,
           ⟨"op_param", .u32, 1, false⟩, ⟨"resv", .u32, 1, true⟩]
  | 28 => [⟨"busy_poll_to", .u32, 1, false⟩, ⟨"prefer_busy_poll", .u8, 1, false⟩, ⟨"opcode", .u8, 1, false⟩, ⟨"pad", .u8, 2, true⟩,
           ⟨"op_param", .u32, 1, false⟩, ⟨"resv", .u32, 1, true⟩]
  | 29 => [⟨"clockid", .u32, 1, false⟩, ⟨"__resv", .u32, 3, true⟩]
  | 30 => [⟨"src_fd", .s32, 1, false⟩, ⟨"flags", .u32, 1, false⟩, ⟨"src_off", .u32, 1, false⟩, ⟨"dst_off", .u32, 1, false⟩,
           ⟨"nr", .u32, 1, false⟩, ⟨"pad", .u32, 3, true⟩]
  | _ => []

/-- The bytes of declarations. -/
def bytes (ds : List Decl) : Nat := (ds.map fun d => d.count * d.ty.size).sum

/-- The number of arguments that an operation has to be given. -/
def wanted (o : Nat) : Nat := if o = 29 then 0 else 1

/-- `vs` is what the declaration holds in the structure at `p`. -/
def Holds (m : Nat → Option Nat) (p : Nat) (d : Decl) (vs : List Int) : Prop :=
  vs.length = d.count ∧ ∀ i v, vs[i]? = some v → IsAt m d.ty (p + i * d.ty.size) v

/-- The tokens show the declarations from address `p` on, each after the one before it; reserved ones are left out if they are
zero. -/
inductive Shows (m : Nat → Option Nat) : Nat → List Decl → List Tok → Prop
  | nil {p} : Shows m p [] []
  | shown {p d ds vs ts} : Holds m p d vs → ¬ (d.reserved = true ∧ ∀ v ∈ vs, v = 0) →
      Shows m (p + d.count * d.ty.size) ds ts → Shows m p (d :: ds) (.fld d.name vs :: ts)
  | zero {p d ds vs ts} : Holds m p d vs → d.reserved = true → (∀ v ∈ vs, v = 0) →
      Shows m (p + d.count * d.ty.size) ds ts → Shows m p (d :: ds) ts

/-- The tokens are the structure at `p`, with its brackets, or its address if it cannot be read. -/
def Struct (m : Nat → Option Nat) (p : Nat) (ds : List Decl) (ts : List Tok) : Prop :=
  (Readable m p (bytes ds) → ∃ t, ts = .opened :: (t ++ [.closed]) ∧ Shows m p ds t)
  ∧ (¬ Readable m p (bytes ds) → ts = [.addr p])

/-- The tokens are the probe at `p` with its first `k` operations. -/
def Probe (m : Nat → Option Nat) (p k : Nat) (more : Bool) (ts : List Tok) : Prop :=
  ∃ r l, ts = .opened :: .fld "last_op" [(word m p 1 : Int)] :: .fld "ops_len" [(word m (p + 1) 1 : Int)] :: (r ++ [.ops l more, .closed])
    ∧ Shows m (p + 2) [⟨"resv", .u16, 1, true⟩, ⟨"resv2", .u32, 3, true⟩] r
    ∧ l.length = k
    ∧ ∀ i e, l[i]? = some e →
        e = (word m (p + 16 + 8 * i) 1, word m (p + 17 + 8 * i) 1, word m (p + 18 + 8 * i) 2, word m (p + 20 + 8 * i) 4)

end Strace.Rreg.Spec
