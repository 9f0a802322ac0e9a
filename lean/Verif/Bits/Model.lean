import Verif.Base.Dec
import Verif.Base.Bits
/-
Model of bit array search (src/util.c), signal set printing (src/signal.c) and the result text of
select (src/desc.c).  Bytes are `Nat`; reading outside an array is the outcome `none`, and so is a write
outside a static buffer or the fatal error of the bounds-checking helpers of src/xstring.h.
-/
namespace Strace.Bits
open Strace.Base

/-! ### next_set_bit -/

/-- outcome of the inner loop: return a value, or go on with the next byte -/
inductive Inner
  | ret (r : Option Nat)
  | cont (cur : Nat)
deriving Repr, DecidableEq

/-- src/util.c:308-318, the inner loop of `next_set_bit`; `mask` is `uint8_t` -/
def inner (byte size cur mask : Nat) : Inner :=
  if byte &&& mask ≠ 0 then .ret (some cur)
  else if cur + 1 ≥ size then .ret none
  else if mask * 2 % 256 = 0 then .cont (cur + 1)
  else inner byte size (cur + 1) (mask * 2 % 256)
termination_by size - cur
decreasing_by omega

theorem inner_cont_gt {byte size cur mask c : Nat} (h : inner byte size cur mask = .cont c) : cur < c := by
  fun_induction inner byte size cur mask with
  | case1 => cases h
  | case2 => cases h
  | case3 cur mask h1 h2 h3 => injection h with h; omega
  | case4 cur mask h1 h2 h3 ih => have := ih h; omega

theorem inner_ret_ge {byte size cur mask c : Nat} (h : inner byte size cur mask = .ret (some c)) : cur ≤ c := by
  fun_induction inner byte size cur mask with
  | case1 => injection h with h; injection h with h; omega
  | case2 => injection h with h; cases h
  | case3 cur mask h1 h2 h3 => cases h
  | case4 cur mask h1 h2 h3 ih => have := ih h; omega

/-- src/util.c:295-320, the outer loop.  `xm` is `pos_xor_mask`: 0 on little-endian machines, else the
word size minus one.  `some none` is the return value -1.  Unsigned arithmetic is exact here: callers
pass sizes of at most 2^20 + 64 bits. -/
def outer (arr : List Nat) (xm size cur pos : Nat) : Option (Option Nat) :=
  if h : cur ≥ size then some none
  else
    match arr[pos ^^^ xm]? with
    | none => none
    | some byte =>
      if byte = 0 then outer arr xm size ((cur + 8) / 8 * 8) (pos + 1)
      else
        match hi : inner byte size cur (2 ^ (cur % 8)) with
        | .ret r => some r
        | .cont c => outer arr xm size c (pos + 1)
termination_by size - cur
decreasing_by
  · omega
  · have := inner_cont_gt hi; omega

/-- src/util.c:286-321 `next_set_bit` -/
def nextSetBit (arr : List Nat) (xm cur size : Nat) : Option (Option Nat) := outer arr xm size cur (cur / 8)

theorem outer_ge {arr : List Nat} {xm size cur pos j : Nat} (h : outer arr xm size cur pos = some (some j)) :
    cur ≤ j ∧ j < size := by
  fun_induction outer arr xm size cur pos with
  | case1 => injection h with h; cases h
  | case2 => cases h
  | case3 cur pos hlt hb ih => have := ih h; omega
  | case4 cur pos hlt byte hb h0 r hr =>
    injection h with h; subst h
    refine ⟨inner_ret_ge hr, ?_⟩
    clear hb h0
    revert hr
    generalize 2 ^ (cur % 8) = mask
    intro hr
    fun_induction inner byte size cur mask with
    | case1 => injection hr with hr; injection hr with hr; omega
    | case2 => injection hr with hr; cases hr
    | case3 => cases hr
    | case4 cur mask h1 h2 h3 ih => exact ih (by omega) hr
  | case5 cur pos hlt byte hb h0 c hc ih => have := ih h; have := inner_cont_gt hc; omega

/-- the loops `for (i = 0; (i = next_set_bit(mask, i, size)) >= 0; ) { ++i; ... }` (src/signal.c:175) and
`for (j = 0;; ++j) { j = next_set_bit(fds, j, nfds); ... }` (src/desc.c:62, 102): the bits found, in order. -/
def scan (arr : List Nat) (xm size cur : Nat) : Option (List Nat) :=
  match h : nextSetBit arr xm cur size with
  | none => none
  | some none => some []
  | some (some j) => (scan arr xm size (j + 1)).map (j :: ·)
termination_by size - cur
decreasing_by
  have := outer_ge h; omega

/-! ### text buffers -/

/-- a static buffer of `cap` bytes being filled from its start: `*s++ = c` (no check in the code; a
write outside the buffer is undefined behaviour) -/
def put (cap : Nat) (s : List Nat) (c : Nat) : Option (List Nat) :=
  if s.length < cap then some (s ++ [c]) else none

/-- `stpcpy` (no check) and `xappendstr` (src/xstring.h: fatal error): room for the text and NUL is needed -/
def app (cap : Nat) (s t : List Nat) : Option (List Nat) :=
  if s.length + t.length < cap then some (s ++ t) else none

/-- a conditional `*s++ = c` -/
def putIf (c : Prop) [Decidable c] (cap : Nat) (s : List Nat) (x : Nat) : Option (List Nat) :=
  if c then put cap s x else some s

/-- a conditional append -/
def appIf (c : Prop) [Decidable c] (cap : Nat) (s t : List Nat) : Option (List Nat) :=
  if c then app cap s t else some s

/-! ### signal sets -/

/-- xlat_verbose(xlat_verbosity) -/
inductive Style
  | raw | abbrev | verbose
deriving Repr, DecidableEq

/-- The target's signal names: `std` is the table `signalent` without "SIG" (index 0 unused), RT signals
range over [rtmin, rtmax]. -/
structure Names where
  std : List (List Nat)
  rtmin : Nat
  rtmax : Nat

/-- src/signal.c:182-196, the text of signal `i` unless the style is raw -/
def sigText (n : Names) (st : Style) (i : Nat) : List Nat :=
  if i < n.std.length then n.std[i]?.getD []
  else if i ≥ n.rtmin ∧ i ≤ n.rtmax then [82, 84, 95] ++ dec (i - n.rtmin)   -- "RT_"
  else if st ≠ .abbrev then dec i
  else []

/-- src/signal.c:176-199: one signal -/
def sigItem (cap : Nat) (n : Names) (st : Style) (s : List Nat) (sep i : Nat) : Option (List Nat) := do
  let s ← put cap s sep
  let s ← appIf (st ≠ .abbrev) cap s (dec i)
  let s ← appIf (st = .verbose) cap s [32, 47, 42, 32]
  let s ← appIf (st ≠ .raw) cap s (sigText n st i)
  appIf (st = .verbose) cap s [32, 42, 47]

/-- src/signal.c:174-200: the loop -/
def sigItems (cap : Nat) (n : Names) (st : Style) : List Nat → List Nat → Nat → Option (List Nat × Nat)
  | [], s, sep => some (s, sep)
  | i :: is, s, sep => do
    let s ← sigItem cap n st s sep i
    sigItems cap n st is s 32

/-- src/defs.h:1932-1948 `popcount32`, the portable loop for one word -/
def kernighan (x : Nat) : Nat := if h : x = 0 then 0 else 1 + kernighan (x &&& (x - 1))
termination_by x
decreasing_by
  have : x &&& (x - 1) ≤ x - 1 := Nat.and_le_right
  omega

/-- src/defs.h:1932-1948 `popcount32` over an array of words -/
def popcount32 (ws : List Nat) : Nat := ws.foldl (fun c w => c + kernighan w) 0

/-- the bytes of 32-bit words in memory (little-endian) -/
def wordBytes (ws : List Nat) : List Nat :=
  ws.flatMap fun w => [w % 256, w / 256 % 256, w / 65536 % 256, w / 16777216 % 256]

/-- src/signal.c:141-206 `sprintsigmask_n` on a little-endian machine; `nb` is NSIG_BYTES, `ws` the mask's
words (at least `(min bytes nb + 3) / 4` of them). -/
def sprintsigmask (nb : Nat) (n : Names) (st : Style) (pre ws : List Nat) (bytes : Nat) : Option (List Nat) :=
  let cap := 128 + 8 * (nb * 8 * 2 / 3)
  let size := (min bytes nb + 4 - 1) / 4
  let m := ws.take size
  do
  let s ← app cap [] pre
  let inv := decide (popcount32 m ≥ size * (4 * 8) * 2 / 3)
  let m := if inv then m.map (fun w => 4294967295 - w) else m
  let s ← putIf (inv = true) cap s 126
  let bits ← scan (wordBytes m) 0 (size * (4 * 8)) 0
  let r ← sigItems cap n st (bits.map (· + 1)) s 91
  let s ← putIf (r.2 = 91) cap r.1 91
  let s ← put cap s 93
  if s.length < cap then some s else none

/-! ### select -/

/-- state of the loops of src/desc.c:92-129 -/
structure Sel where
  out : List Nat
  sep : List Nat
  ready : Int
deriving Repr, DecidableEq

/-- src/desc.c:110 "in", "out", "except" -/
def selName (i : Nat) : List Nat :=
  if i = 0 then [105, 110] else if i = 1 then [111, 117, 116] else [101, 120, 99, 101, 112, 116]

/-- src/desc.c:107-122: one descriptor; `first` says if it is the first of its set -/
def selBit (i : Nat) (first : Bool) (s : Sel) (j : Nat) : Option (Sel × Bool) :=
  if s.out.length < 1024 - (11 + 4 * 3 + 2) then
    if first then
      (app 1024 s.out (s.sep ++ selName i ++ [32, 91] ++ dec j)).map fun o => (⟨o, [44, 32], s.ready⟩, false)
    else (app 1024 s.out ([32] ++ dec j)).map fun o => (⟨o, s.sep, s.ready⟩, false)
  else some (s, first)

/-- src/desc.c:102-126, the loop over the descriptors of one set -/
def selBits (i : Nat) : List Nat → Bool → Sel → Option Sel
  | [], _, s => some s
  | j :: js, first, s =>
    match selBit i first s j with
    | none => none
    | some (s', first') =>
      if s'.ready - 1 = 0 then some ⟨s'.out, s'.sep, s'.ready - 1⟩
      else selBits i js first' ⟨s'.out, s'.sep, s'.ready - 1⟩

/-- src/desc.c:127-128 `if (outptr != outstr) *outptr++ = ']'` -/
def selClose (s : Sel) : Option Sel :=
  if s.out ≠ [] then (put 1024 s.out 93).map fun o => ⟨o, s.sep, s.ready⟩ else some s

/-- src/desc.c:95-129, the loop over the sets; a set is its index and the descriptors in it, `none` if its
address is NULL or unreadable -/
def selSets : List (Nat × Option (List Nat)) → Sel → Option Sel
  | [], s => some s
  | (i, b) :: rest, s =>
    if s.ready > 0 then
      match b with
      | none => selSets rest s
      | some bits =>
        match selBits i bits true s with
        | none => none
        | some s' =>
          match selClose s' with
          | none => none
          | some s'' => selSets rest s''
    else some s

/-- src/desc.c:132-139: the remaining time -/
def selLeft (s : Sel) (left : Option (List Nat)) : Option (List Nat) :=
  match left with
  | none => some s.out
  | some str =>
    if s.out.length + 6 + s.sep.length + str.length < 1024 then
      app 1024 s.out (s.sep ++ [108, 101, 102, 116, 32] ++ str)
    else some s.out

/-- src/desc.c:77-143, the exiting part of `decode_select` for a non-error result: the auxiliary text.
`left` is the text of the remaining time if a timeout was given. -/
def selectText (sets : List (Option (List Nat))) (ready : Int) (left : Option (List Nat)) : Option (List Nat) :=
  if ready = 0 then some [84, 105, 109, 101, 111, 117, 116]
  else
    match selSets (sets.mapIdx fun i b => (i, b)) ⟨[], [], ready⟩ with
    | none => none
    | some s =>
      match selLeft s left with
      | none => none
      | some out => if out.length < 1024 then some out else none

end Strace.Bits
