/-
Reading a C string literal (ISO C 6.4.4.4, 6.4.5), independent of the model of the printer.
-/
namespace Strace.Quote

def isOctDigit (c : Nat) : Bool := decide (48 ≤ c) && decide (c ≤ 55)
def isHexDigit (c : Nat) : Bool :=
  (decide (48 ≤ c) && decide (c ≤ 57)) || (decide (97 ≤ c) && decide (c ≤ 102)) ||
  (decide (65 ≤ c) && decide (c ≤ 70))
def hexDigitVal (c : Nat) : Nat := if c ≤ 57 then c - 48 else if c ≤ 70 then c - 55 else c - 87

/-- at most `n` octal digits, as many as there are -/
def octRun : Nat → Nat → List Nat → Nat × List Nat
  | 0, acc, t => (acc, t)
  | _ + 1, acc, [] => (acc, [])
  | n + 1, acc, d :: t => if isOctDigit d then octRun n (acc * 8 + (d - 48)) t else (acc, d :: t)

/-- at most `n` hex digits, as many as there are -/
def hexRun : Nat → Nat → List Nat → Nat × List Nat
  | 0, acc, t => (acc, t)
  | _ + 1, acc, [] => (acc, [])
  | n + 1, acc, d :: t => if isHexDigit d then hexRun n (acc * 16 + hexDigitVal d) t else (acc, d :: t)

/-- the hex digits after `\x`; there must be at least one -/
def hexEscape (greedy : Bool) (r : List Nat) : Option (Nat × List Nat) :=
  let v := hexRun (if greedy then r.length else 2) 0 r
  if v.2.length = r.length then none else some v

/-- The escape after a backslash: the byte it denotes and the rest.  `greedy` is the C rule for `\x`
(as many hex digits as there are); otherwise exactly two are taken. -/
def escape (greedy : Bool) (t : List Nat) : Option (Nat × List Nat) :=
  match t with
  | [] => none
  | c :: r =>
    if c = 34 then some (34, r)
    else if c = 92 then some (92, r)
    else if c = 102 then some (12, r)
    else if c = 110 then some (10, r)
    else if c = 114 then some (13, r)
    else if c = 116 then some (9, r)
    else if c = 118 then some (11, r)
    else if isOctDigit c then some (octRun 3 0 (c :: r))
    else if c = 120 then hexEscape greedy r
    else none

theorem octRun_length (n acc : Nat) (t : List Nat) : (octRun n acc t).2.length ≤ t.length := by
  induction n generalizing acc t with
  | zero => simp [octRun]
  | succ n ih =>
    cases t with
    | nil => simp [octRun]
    | cons d t =>
      unfold octRun
      split
      · have := ih (acc * 8 + (d - 48)) t; simp only [List.length_cons]; omega
      · simp

theorem hexRun_length (n acc : Nat) (t : List Nat) : (hexRun n acc t).2.length ≤ t.length := by
  induction n generalizing acc t with
  | zero => simp [hexRun]
  | succ n ih =>
    cases t with
    | nil => simp [hexRun]
    | cons d t =>
      unfold hexRun
      split
      · have := ih (acc * 16 + hexDigitVal d) t; simp only [List.length_cons]; omega
      · simp

theorem hexEscape_length {g : Bool} {t r : List Nat} {v : Nat} (h : hexEscape g t = some (v, r)) :
    r.length ≤ t.length := by
  unfold hexEscape at h
  revert h
  generalize (if g = true then t.length else 2) = n
  intro h
  have x := hexRun_length n 0 t
  dsimp only at h
  split at h
  · cases h
  · injection h with h
    rw [h] at x
    exact x

theorem escape_length {g : Bool} {t r : List Nat} {v : Nat} (h : escape g t = some (v, r)) :
    r.length ≤ t.length := by
  cases t with
  | nil => cases h
  | cons c u =>
    have o := octRun_length 3 0 (c :: u)
    have simple : ∀ w, some (w, u) = some (v, r) → r.length ≤ (c :: u).length := by
      intro w h; injection h with h; injection h with _ h; subst h; simp
    simp only [escape] at h
    split at h
    · exact simple _ h
    split at h
    · exact simple _ h
    split at h
    · exact simple _ h
    split at h
    · exact simple _ h
    split at h
    · exact simple _ h
    split at h
    · exact simple _ h
    split at h
    · exact simple _ h
    split at h
    · injection h with h; rw [h] at o; exact o
    split at h
    · have := hexEscape_length h; simp only [List.length_cons]; omega
    · cases h

/-- The literal after its opening quote: the bytes it denotes and the text after the closing quote;
`none` if it is not a literal of bytes. -/
def decodeBody (greedy : Bool) (t : List Nat) : Option (List Nat × List Nat) :=
  match t with
  | [] => none
  | c :: r =>
    if c = 34 then some ([], r)
    else if c = 92 then
      match _h : escape greedy r with
      | none => none
      | some (v, r') => if v > 255 then none else (decodeBody greedy r').map fun p => (v :: p.1, p.2)
    else (decodeBody greedy r).map fun p => (c :: p.1, p.2)
termination_by t.length
decreasing_by
  · have := escape_length _h; simp only [List.length_cons]; omega
  · simp

/-- a whole literal -/
def decodeLit (greedy : Bool) (t : List Nat) : Option (List Nat × List Nat) :=
  match t with
  | [] => none
  | c :: r => if c = 34 then decodeBody greedy r else none

end Strace.Quote
