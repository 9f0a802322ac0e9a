import Verif.Packed.Model
/-!
# C110: records packed one after another
-/
namespace Strace.Packed

/-- a number in `w` bytes, little-endian -/
def leb : Nat → Nat → List Nat
  | 0, _ => []
  | w + 1, v => v % 256 :: leb w (v / 256)

/-- the memory holds these bytes from `a` on -/
def Holds (mem : Mem) (a : Nat) (bs : List Nat) : Prop := ∀ i, ∀ h : i < bs.length, mem (a + i) = some bs[i]

/-- a context as a security module gives it: its id, flags, the text, and padding after it -/
structure Rec where
  id : Nat
  flags : Nat
  ctx : List Nat
  pad : List Nat

/-- the bytes of a context -/
def Rec.enc (r : Rec) : List Nat :=
  leb 8 r.id ++ leb 8 r.flags ++ leb 8 (32 + r.ctx.length + r.pad.length) ++ leb 8 r.ctx.length ++ r.ctx ++ r.pad

def encAll (rs : List Rec) : List Nat := rs.flatMap Rec.enc

/-- what is to be shown of contexts that lie in memory from `a` on: each with the place of its text -/
def wantCtx : Nat → List Rec → List Out
  | _, [] => []
  | a, r :: rs =>
    .ctx ⟨r.id, r.flags, 32 + r.ctx.length + r.pad.length, r.ctx.length⟩
      (if r.ctx = [] then none else some (a + 32, r.ctx.length)) :: wantCtx (a + 32 + r.ctx.length + r.pad.length) rs

/-- an item found by a search: its key, and its data -/
structure Found where
  transid : Nat
  objectid : Nat
  offset : Nat
  type : Nat
  data : List Nat

def Found.enc (f : Found) : List Nat :=
  leb 8 f.transid ++ leb 8 f.objectid ++ leb 8 f.offset ++ leb 4 f.type ++ leb 4 f.data.length ++ f.data

def foundAll (fs : List Found) : List Nat := fs.flatMap Found.enc

/-- the fields fit -/
def Rec.Fits (r : Rec) : Prop := r.id < 2 ^ 64 ∧ r.flags < 2 ^ 64
def Found.Fits (f : Found) : Prop :=
  f.transid < 2 ^ 64 ∧ f.objectid < 2 ^ 64 ∧ f.offset < 2 ^ 64 ∧ f.type < 2 ^ 32 ∧ f.data.length < 2 ^ 32

/-- two memories that agree on a range -/
def Agree (m m' : Mem) (a n : Nat) : Prop := ∀ i, i < n → m (a + i) = m' (a + i)

end Strace.Packed
