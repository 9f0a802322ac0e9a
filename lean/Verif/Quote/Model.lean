/-
Model of `string_quote` and of the functions that print quoted strings (src/util.c), with
src/print_utils.h.  Bytes and characters are `Nat` (bytes are below 256).
-/
namespace Strace.Quote

/-- src/defs.h `enum xflag_opts` -/
inductive XStyle
  | none | nonAscii | all | nonAsciiChars
deriving Repr, DecidableEq

/-- src/defs.h:893-911, the style bits that `string_quote` reads; `x` is the resolved `xstyle`
(util.c:1133-1136: the override bits or the -x option). -/
structure Style where
  term : Bool       -- QUOTE_0_TERMINATED
  omitQuotes : Bool -- QUOTE_OMIT_LEADING_TRAILING_QUOTES
  omit0 : Bool      -- QUOTE_OMIT_TRAILING_0
  expect0 : Bool    -- QUOTE_EXPECT_TRAILING_0
  comment : Bool    -- QUOTE_EMIT_COMMENT
  x : XStyle
deriving Repr, DecidableEq

/-- src/print_utils.h:33-37 `is_print` -/
def isPrint (c : Nat) : Bool := decide (32 ≤ c) && decide (c < 127)

/-- src/print_utils.h `hex_chars` -/
def hexChar (n : Nat) : Nat := if n < 10 then 48 + n else 87 + n

/-- src/print_utils.h:62-69 `sprint_byte_hex` -/
def byteHex (c : Nat) : List Nat := [hexChar (c / 16), hexChar (c % 16)]

/-- src/print_utils.h:42-60 `sprint_byte_oct` -/
def byteOct (c : Nat) (unabbrev : Bool) : List Nat :=
  if unabbrev then [48 + c / 64, 48 + c / 8 % 8, 48 + c % 8]
  else if c / 8 ≠ 0 then
    if c / 64 ≠ 0 then [48 + c / 64, 48 + c / 8 % 8, 48 + c % 8]
    else [48 + c / 8 % 8, 48 + c % 8]
  else [48 + c % 8]

/-- `ustr[i + 1] >= '0' && ustr[i + 1] <= '7'` with `i + 1 < size` (util.c:1239-1241); the list is the
unread rest of the first `size` bytes. -/
def nextIsOct (t : List Nat) : Bool :=
  match t with
  | [] => false
  | d :: _ => decide (48 ≤ d) && decide (d ≤ 55)

/-- src/util.c:1200-1244: one byte of the non-hex loop. -/
def escOne (x : XStyle) (esc : List Nat) (c : Nat) (t : List Nat) : List Nat :=
  if c = 34 ∨ c = 92 then [92, c]
  else if c = 12 then [92, 102]
  else if c = 10 then [92, 110]
  else if c = 13 then [92, 114]
  else if c = 9 then [92, 116]
  else if c = 11 then [92, 118]
  else if isPrint c && !esc.contains c then [c]
  else if x = .nonAsciiChars then 92 :: 120 :: byteHex c
  else 92 :: byteOct c (nextIsOct t)

/-- src/util.c:1192-1246, the loop over the first `size` bytes; the Boolean is `goto asciz_ended`. -/
def plainLoop (s : Style) (esc : List Nat) : List Nat → List Nat × Bool
  | [] => ([], false)
  | c :: t =>
    if s.term && c == 0 then ([], true)
    else if t.isEmpty && s.omit0 && c == 0 then ([], true)
    else (escOne s.x esc c t ++ (plainLoop s esc t).1, (plainLoop s esc t).2)

/-- src/util.c:1178-1190, the loop that hex-quotes the whole string. -/
def hexLoop (s : Style) : List Nat → List Nat × Bool
  | [] => ([], false)
  | c :: t =>
    if s.term && c == 0 then ([], true)
    else (92 :: 120 :: byteHex c ++ (hexLoop s t).1, (hexLoop s t).2)

/-- src/util.c:1149-1168: does the string require hex (HEXSTR_NON_ASCII)? -/
def needHex (s : Style) : List Nat → Bool
  | [] => false
  | c :: t =>
    if s.term && c == 0 then false
    else if c > 126 then true
    else if c < 32 && !(9 ≤ c && c ≤ 13) then true
    else needHex s t

/-- src/util.c:1144-1169 `usehex` -/
def useHex (s : Style) (bs : List Nat) : Bool :=
  match s.x with
  | .all => true
  | .nonAscii => needHex s bs
  | _ => false

/-- src/util.c:1125-1275 `string_quote`: `bs` are the first `size` bytes of `instr`, `peek` the byte
after them (read only when QUOTE_0_TERMINATED is set); `esc` is `escape_chars` (empty for NULL).
Returns the text written (without the final NUL) and the return value. -/
def stringQuote (bs : List Nat) (peek : Nat) (s : Style) (esc : List Nat) : List Nat × Nat :=
  let r := if useHex s bs then hexLoop s bs else plainLoop s esc bs
  let pre := (if s.comment then [32, 47, 42, 32] else []) ++ (if s.omitQuotes then [] else [34])
  let post := (if s.omitQuotes then [] else [34]) ++ (if s.comment then [32, 42, 47] else [])
  (pre ++ r.1 ++ post, if r.2 then 0 else if s.term && peek == 0 then 0 else 1)

/-- src/util.c:1301-1315 `print_quoted_string_ex`: the buffer size computed for `size` bytes to quote,
in `unsigned int` arithmetic; `none` when the overflow check refuses. -/
def quoteAlloc (size : Nat) (s : Style) : Option Nat :=
  let a := 4 * size % 2 ^ 32
  if a / 4 ≠ size then none
  else some ((a + (1 + (if s.omitQuotes then 0 else 2)) + (if s.comment then 7 else 0)) % 2 ^ 32)

/-- what a printing function puts out: text, then "..." or not -/
structure Out where
  text : List Nat
  ellipsis : Bool
deriving Repr, DecidableEq

/-- src/util.c:1295-1340 `print_quoted_string_ex` on a buffer `buf` whose first `size` bytes are
given, when the buffer allocation succeeds. -/
def printQuotedStringEx (buf : List Nat) (size : Nat) (s : Style) (esc : List Nat) : Out × Nat :=
  let size' := if size ≠ 0 ∧ s.term then size - 1 else size
  let r := stringQuote (buf.take size') (buf.getD size' 255) s esc
  (⟨r.1, s.term && s.expect0 && r.2 != 0⟩, r.2)

/-- src/util.c:1355-1364 `print_quoted_cstring`; `x` is the -x option -/
def printQuotedCstring (buf : List Nat) (size : Nat) (x : XStyle) : Out :=
  let r := printQuotedStringEx buf size ⟨true, false, false, false, false, x⟩ []
  ⟨r.1.text, r.1.ellipsis || r.2 != 0⟩

/-- What `umovestr` leaves in a buffer of `size` bytes, given the tracee's bytes (src/ucopy.c, C20):
the bytes up to and including the first NUL, the rest as before. -/
def fetchStr (mem : Nat → Nat) (size : Nat) (old : List Nat) : List Nat :=
  let got := (List.range size).map mem
  match got.findIdx? (· == 0) with
  | some k => got.take (k + 1) ++ old.drop (k + 1)
  | none => got ++ old.drop size

/-- the return value of `umovestr`: 0 if no NUL was seen, else the number of bytes including it -/
def fetchStrRc (mem : Nat → Nat) (size : Nat) : Nat :=
  match ((List.range size).map mem).findIdx? (· == 0) with
  | some k => k + 1
  | none => 0

/-- src/util.c:1374-1404 `printpathn`, readable non-NULL address: `mem i` is the tracee's byte at
`addr + i`; `old` is the initial content of the local array (4096 bytes). -/
def printpathn (mem : Nat → Nat) (n : Nat) (old : List Nat) (x : XStyle) : Out :=
  let n := if n > 4096 then 4096 else n
  let rc := fetchStrRc mem n
  printQuotedCstring (fetchStr mem n old) (if rc = 0 then n else rc) x

/-- src/util.c:1454-1477 `printstr_ex`: the number of bytes handed to `string_quote` -/
def printstrSize (maxStrlen len : Nat) (s : Style) : Nat :=
  let size := if maxStrlen + 1 > len then len else maxStrlen + 1
  let size2 := if size > maxStrlen then maxStrlen else size
  if s.term && s.expect0 && size2 == len && size2 != 0 then size2 - 1 else size2

/-- src/util.c:1454-1471 `printstr_ex`: the buffer handed to `string_quote` -/
def printstrBuf (maxStrlen : Nat) (mem : Nat → Nat) (len : Nat) (s : Style) (old : List Nat) : List Nat :=
  let size := if maxStrlen + 1 > len then len else maxStrlen + 1
  let buf := if s.term then fetchStr mem size old else (List.range size).map mem ++ old.drop size
  if size > maxStrlen then buf else buf.set size 255

/-- src/util.c:1424-1491 `printstr_ex`, readable non-NULL address; `old` is the previous content of the
static buffer (`maxStrlen + 1` bytes). -/
def printstrEx (maxStrlen : Nat) (mem : Nat → Nat) (len : Nat) (s : Style) (old : List Nat) : Out :=
  let n := printstrSize maxStrlen len s
  let buf := printstrBuf maxStrlen mem len s old
  let r := stringQuote (buf.take n) (buf.getD n 255) s []
  ⟨r.1, r.2 != 0 && len != 0 && (s.term || s.expect0 || decide (len > maxStrlen))⟩

end Strace.Quote
