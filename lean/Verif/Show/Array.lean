/-!
# Printing arrays: src/util.c (print_array_ex)

Elements and their values are shown by a function given by the caller; here an element shown is its index and address.
Indices in front of elements (PAF_PRINT_INDICES) are not modelled.
-/
namespace Strace.Show

inductive Tok
  | null
  /-- `[` -/
  | opened
  /-- `]` -/
  | closed
  /-- `, ` -/
  | next
  /-- `...` -/
  | more
  | elem (idx addr : Nat)
  | addr (a : Nat)
  /-- the address as a comment -/
  | comment (a : Nat)
  /-- `???` -/
  | unavailable
  deriving DecidableEq, Repr

/-- `sequence_truncation_needed`, src/util.c:2083-2086, whose argument is an `unsigned int`; `none` if not abbreviating,
otherwise `max_strlen` -/
def truncates (limit : Option Nat) (n : Nat) : Bool :=
  match limit with
  | none => false
  | some m => decide (n % 2 ^ 32 > m)

/-- whether the element at an address can be read; `none` if the array is in strace's own memory -/
def readable (fetch : Option (Nat → Bool)) (a : Nat) : Bool :=
  match fetch with
  | none => true
  | some f => f a

/-- the loop, src/util.c:1925-1979: what is printed, `cur` and `truncated` at the end.  `stops` says that the print function
asks to stop after an element. -/
def arrLoop (start es stop abbrevEnd : Nat) (fetch : Option (Nat → Bool)) (stops : Nat → Bool) :
    Nat → Nat → Nat → Option (List Tok × Nat × Bool)
  | 0, _, _ => none
  | fuel + 1, cur, idx =>
    if cur < stop then
      if readable fetch cur = false then
        some (if cur = start then ([.addr cur], cur, false) else ([.next, .more, .comment cur], cur, true))
      else if cur ≥ abbrevEnd then
        some ((if cur = start then [.opened] else [.next]) ++ [.more], stop, true)
      else if stops idx = true then
        some ((if cur = start then [.opened] else [.next]) ++ [.elem idx cur], stop, false)
      else
        (arrLoop start es stop abbrevEnd fetch stops fuel ((cur + es) % 2 ^ 64) (idx + 1)).map fun r =>
          ((if cur = start then [.opened] else [.next]) ++ .elem idx cur :: r.1, r.2)
    else some ([], cur, false)

/-- after the loop, src/util.c:1979-1990 -/
def arrTail (start : Nat) (loc trunc : Bool) (cur : Nat) (truncated : Bool) : List Tok :=
  if cur ≠ start ∨ loc = true then
    (if trunc = true ∧ truncated = false then (if cur ≠ start then [.next] else []) ++ [.more] else []) ++ [.closed]
  else []

/-- `abbrev_end`, src/util.c:1917-1919 -/
def abbrevEnd (limit : Option Nat) (start n es stop : Nat) : Nat :=
  match limit with
  | some m => if truncates limit n = true then (start + es * m % 2 ^ 64) % 2 ^ 64 else stop
  | none => stop

/-- `print_array_ex`, src/util.c:1880-1991: what is printed, and the result.  `n` is `nmemb`, `trunc` is
PAF_ARRAY_TRUNCATED. -/
def printArray (limit : Option Nat) (trunc : Bool) (fetch : Option (Nat → Bool)) (stops : Nat → Bool)
    (fuel start n es : Nat) : Option (List Tok × Bool) :=
  if start = 0 then some ([.null], false)
  else if n = 0 then some ([.opened] ++ (if trunc = true then [.more] else []) ++ [.closed], false)
  else
    let size := n * es % 2 ^ 64
    let stop := (start + size) % 2 ^ 64
    if stop ≤ start ∨ size / es ≠ n then
      some ([if fetch.isSome = true then .addr start else .unavailable], false)
    else
      (arrLoop start es stop (abbrevEnd limit start n es stop) fetch stops fuel start 0).map fun r =>
        (r.1 ++ arrTail start fetch.isNone trunc r.2.1 r.2.2, decide (r.2.1 ≥ stop))

/-! ### Vectors -/

/-- `print_iovec_klong`, src/io.c:72-95: for the lengths of the elements shown, the number of bytes of each that are shown.
`size` is `data_size`; -1 stands for no limit. -/
def iovShares : Nat → List Nat → List Nat
  | _, [] => []
  | size, n :: l =>
    (if n > size then size else n) ::
      iovShares (if size ≠ 2 ^ 64 - 1 then size - (if n > size then size else n) else size) l

/-- the loop of `dumpiov_upto`, src/util.c:1577-1589: index and number of bytes dumped of each element dumped.  The vector
has been read in full. -/
def dumpShares : Nat → Nat → List Nat → List (Nat × Nat)
  | _, _, [] => []
  | i, size, n :: l =>
    if (if n > size then size else n) = 0 then []
    else (i, if n > size then size else n) :: dumpShares (i + 1) (size - (if n > size then size else n)) l

end Strace.Show
