/-!
# The hex dump: src/util.c (dumpstr) and src/defs.h (ilog2_64)
-/
namespace Strace.Show

/-- `ILOG2_ITER_`, src/defs.h:2057-2065: value and result -/
def ilogIter (bit : Nat) (p : Nat × Nat) : Nat × Nat :=
  let shift := (if p.1 > 2 ^ 2 ^ bit - 1 then 1 else 0) * 2 ^ bit
  (p.1 / 2 ^ shift, p.2 ||| shift)

/-- `ilog2_64`, src/defs.h:2071-2084 -/
def ilog2 (v : Nat) : Nat :=
  (ilogIter 0 (ilogIter 1 (ilogIter 2 (ilogIter 3 (ilogIter 4 (ilogIter 5 (v, 0))))))).2

/-- a digit as `sprint_byte_hex`, src/print_utils.h:62-69, writes it -/
def hexDigit (d : Nat) : Char :=
  ['0', '1', '2', '3', '4', '5', '6', '7', '8', '9', 'a', 'b', 'c', 'd', 'e', 'f'].getD d '?'

/-- the digits of `%lx` -/
def hexNum (n : Nat) : List Char :=
  if n < 16 then [hexDigit n] else hexNum (n / 16) ++ [hexDigit (n % 16)]

/-- `%0*lx` -/
def hexPad (w n : Nat) : List Char := List.replicate (w - (hexNum n).length) '0' ++ hexNum n

/-- `is_print`, src/defs.h, and the character shown for a byte -/
def shownChar (b : Nat) : Char := if 0x20 ≤ b ∧ b < 0x7f then Char.ofNat b else '.'

/-- the hex loop, src/util.c:1697-1710: `i`, `dst`, `src` and `outbuf` -/
def hexPut (len : Nat) (str : List Nat) : Nat → Nat → Nat → Nat → List Char → Nat × Nat × Nat × List Char
  | 0, i, dst, src, buf => (i, dst, src, buf)
  | fuel + 1, i, dst, src, buf =>
    let buf1 :=
      if i < len then (buf.set dst (hexDigit (str.getD src 0 / 16))).set (dst + 1) (hexDigit (str.getD src 0 % 16))
      else (buf.set dst ' ').set (dst + 1) ' '
    let dst1 := if (i + 1) % 8 = 0 then dst + 2 + 1 + 1 else dst + 2 + 1
    if (i + 1) % 16 ≠ 0 then hexPut len str fuel (i + 1) dst1 (src + 1) buf1
    else (i + 1, dst1, src + 1, buf1)

/-- the ASCII loop, src/util.c:1715-1725: `i`, `src` and `outbuf` -/
def ascPut (len : Nat) (str : List Nat) : Nat → Nat → Nat → Nat → List Char → Nat × Nat × List Char
  | 0, i, _, src, buf => (i, src, buf)
  | fuel + 1, i, dst, src, buf =>
    let buf1 := buf.set dst (if i < len then shownChar (str.getD src 0) else ' ')
    if (i + 1) % 16 ≠ 0 then ascPut len str fuel (i + 1) (dst + 1) (src + 1) buf1
    else (i + 1, src + 1, buf1)

/-- what is printed -/
inductive Item
  | line (s : List Char)
  /-- `<Cannot fetch n bytes from pid @addr>` -/
  | cannot (n addr : Nat)
  deriving DecidableEq, Repr

/-- `umoven`: all the bytes, or a failure -/
def readMem (mem : Nat → Option Nat) (a n : Nat) : Option (List Nat) := (List.range' a n).mapM mem

/-- the bytes to use, src/util.c:1672-1694: fetched at each chunk boundary -/
def fetchChunk (mem : Nat → Option Nat) (addr len alloc i : Nat) (str : List Nat) (src : Nat) :
    Option (List Nat × Nat) :=
  if i = 0 ∨ i % 65536 = 0 then (readMem mem (addr + i) (min (len - i) alloc)).map fun s => (s, 0) else some (str, src)

/-- the loop, src/util.c:1660-1729.  The buffer is static and kept between lines and calls; both inner loops run until `i`
is a multiple of 16, that is 16 times.  `i` cannot overflow because of the check at the top of `dumpstr`. -/
def dumpLoop (mem : Nat → Option Nat) (addr len alloc width : Nat) :
    Nat → Nat → List Nat → Nat → List Char → Option (List Item × List Char)
  | 0, _, _, _, _ => none
  | fuel + 1, i, str, src, buf =>
    if i < len then
      match fetchChunk mem addr len alloc i str src with
      | none => some (if i ≠ 0 then [.cannot (min (len - i) alloc) (addr + i)] else [], buf)
      | some (str, src) =>
        let h := hexPut len str 16 i 0 src buf
        let a := ascPut len str 16 (h.1 - 16) h.2.1 (h.2.2.1 - 16) h.2.2.2
        (dumpLoop mem addr len alloc width fuel a.1 str a.2.1 a.2.2).map fun r =>
          (.line ([' ', '|', ' '] ++ hexPad width (a.1 - 16) ++ [' ', ' '] ++ a.2.2 ++ [' ', '|', '\n']) :: r.1, r.2)
    else some ([], buf)

/-- `offs_chars`, src/util.c:1660-1661 -/
def offsChars (len : Nat) : Nat := if len > 2 ^ 20 then 1 + ilog2 (len - 1) / 4 else 5

/-- `dumpstr`, src/util.c:1598-1730; memory is not exhausted.  `buf` is the static `outbuf` before. -/
def dumpStr (mem : Nat → Option Nat) (fuel addr len : Nat) (buf : List Char) : Option (List Item × List Char) :=
  if len > (len + 16) % 2 ^ 64 ∨ (addr + len) % 2 ^ 64 < addr then some ([], buf)
  else dumpLoop mem addr len (min ((len + 15) / 16 * 16) 65536) (offsChars len) fuel 0 [] 0 buf

end Strace.Show
