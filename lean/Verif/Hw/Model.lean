/-!
# Hardware addresses

`print_mac_addr` and `print_hwaddr` with the static buffer their text is made in, and their callers: the multicast request of
packet sockets, the requests for interfaces, the attributes of links, bridges and neighbours.  Bytes are numbers below 256.  That
`print_quoted_string` writes a string the bytes can be read from is the subject of `Quote`; here the quoted bytes are kept.
-/

namespace Strace.Hw

/-- how values are shown: the option -X, `xlat_verbosity` -/
inductive Style | abbrev' | verbose | raw
  deriving DecidableEq, Repr

/-- `MAX_ADDR_LEN`, src/defs.h:1042-1044 -/
def maxLen : Nat := 32

/-- `hwaddr_sizes`, src/print_mac.c:19-90, by the numbers in src/xlat/arp_hardware_types.in:2-64 -/
def sizeOf : Nat → Nat
  | 0 => 7 | 1 => 6 | 3 => 7 | 6 => 6 | 7 => 1 | 15 => 2 | 24 => 16 | 27 => 8 | 32 => 20
  | 256 => 0 | 270 => 5 | 271 => 0 | 280 => 0 | 290 => 1
  | 512 => 0 | 518 => 0 | 519 => 0
  | 768 => 4 | 769 => 16 | 772 => 6 | 773 => 1 | 774 => 6 | 776 => 4 | 777 => 0 | 778 => 4 | 779 => 0 | 780 => 6 | 783 => 4
  | 801 => 6 | 802 => 6 | 803 => 6 | 804 => 8 | 805 => 8
  | 820 => 1 | 821 => 1 | 822 => 0 | 823 => 16 | 824 => 0 | 825 => 8 | 826 => 0
  | _ => 255

/-- a digit of %02x -/
def digit (n : Nat) : Char := if n < 10 then Char.ofNat (48 + n) else Char.ofNat (87 + n)

/-- what "%s%02x" writes in `sprint_mac_addr`, src/print_mac.c:109 -/
def piece (i b : Nat) : List Char := (if i ≠ 0 then [':'] else []) ++ [digit (b / 16), digit (b % 16)]

/-- the size of `res`, src/print_mac.c:97 -/
def resSize : Nat := maxLen * 3

/-- `xappendstr`, src/xstring.h:95-112 with `xsnprintf_`, src/xstring.h:32-48: write `s` and a NUL at `pos`; strace ends (`none`)
if they do not fit -/
def append (res : List Char) (pos : Nat) (s : List Char) : Option (List Char × Nat) :=
  if s.length ≥ resSize - pos then none
  else some (res.take pos ++ s ++ ['\x00'] ++ res.drop (pos + s.length + 1), pos + s.length)

/-- the loop of `sprint_mac_addr`, src/print_mac.c:108-109, with `k` turns to go; `none` also where `addr` is read beyond its end -/
def loop (addr : List Nat) : Nat → Nat → List Char × Nat → Option (List Char)
  | 0, _, (res, _) => some res
  | k + 1, i, (res, pos) =>
    match addr[i]? with
    | none => none
    | some b =>
      match append res pos (piece i b) with
      | none => none
      | some r => loop addr k (i + 1) r

/-- `sprint_mac_addr`, src/print_mac.c:94-112: the buffer afterwards.  Not called with a size above `MAX_ADDR_LEN`. -/
def sprintMac (res : List Char) (addr : List Nat) (size : Nat) : Option (List Char) :=
  if size > maxLen then none else loop addr size 0 (res, 0)

/-- the string in the buffer, up to the NUL -/
def cstr (res : List Char) : List Char := res.takeWhile (fun c => decide (c ≠ '\x00'))

/-- the buffer at the start of strace, src/print_mac.c:97 -/
def fresh : List Char := List.replicate resSize '\x00'

/-- what is printed: bytes in quotes, text, and text in a comment -/
inductive Tok
  | quoted (bs : List Nat)
  | text (s : List Char)
  | comment (s : List Char)
  deriving DecidableEq, Repr

/-- the body shared by `print_mac_addr`, src/print_mac.c:114-127, and `print_hwaddr`, src/print_mac.c:138-153 (the prefix
aside): `size` bytes are in `addr`, `n` of them are to be formatted.  Gives what is printed and the buffer. -/
def printAddr (st : Style) (res : List Char) (addr : List Nat) (size n : Nat) : Option (List Tok × List Char) :=
  let q := if st ≠ .abbrev' ∨ size > maxLen then [Tok.quoted (addr.take size)] else []
  if st = .raw ∨ size > maxLen then some (q, res)
  else
    match sprintMac res addr n with
    | none => none
    | some r => some (q ++ [if st = .verbose then .comment (cstr r) else .text (cstr r)], r)

/-- `print_mac_addr`, src/print_mac.c:114-127 -/
def printMac (st : Style) (res : List Char) (addr : List Nat) (size : Nat) : Option (List Tok × List Char) :=
  printAddr st res addr size size

/-- the size of `sprint_hwaddr`, src/print_mac.c:129-136; ARPHRD_VSOCKMON is the last index of the table -/
def cut (size devtype : Nat) : Nat := min size (if devtype < 827 then sizeOf devtype else 255)

/-- `print_hwaddr`, src/print_mac.c:138-153 -/
def printHw (st : Style) (res : List Char) (addr : List Nat) (size devtype : Nat) : Option (List Tok × List Char) :=
  printAddr st res addr size (cut size devtype)

/-- the places addresses are printed at -/
inductive Place
  /-- a field of 6 bytes: src/rtnl_link.c:167, 727, src/sockaddr.c:732-749; or of 32: src/rtnl_link.c:1039 -/
  | field (addr : List Nat)
  /-- `mr_address`, an array of 8 bytes, with `mr_alen`, src/net.c:1239 -/
  | mreq (addr : List Nat) (alen : Nat)
  /-- `ifr_hwaddr`, 14 bytes, with the type of the device, src/sock.c:32-40 -/
  | ifr (addr : List Nat) (type : Nat)
  /-- an address of a link: the attribute and `ifi_family` of the message, src/rtnl_link.c:63-72 -/
  | link (payload : List Nat) (family : Nat)
  /-- an address of a neighbour or of a group of bridges: src/nlattr.h:134-142, src/rtnl_neigh.c:139, src/rtnl_link.c:556 -/
  | neigh (payload : List Nat)
  deriving Repr

/-- `decode_nla_hwaddr`, src/nlattr.c:308-322, with `opaque_data`; the payload as a string of hexadecimal escapes if it refuses,
src/nlattr.c:95-104 -/
def nlaHwaddr (st : Style) (res : List Char) (payload : List Nat) (data : Nat) : Option (List Tok × List Char) :=
  if payload.length > maxLen then some ([.quoted payload], res)
  else printHw st res payload payload.length
    (if data.testBit 10 then data - 1024 else 2 ^ 32 - 1)

/-- `decode_nla_hwaddr_family`, src/nlattr.h:122-132 -/
def nlaHwaddrFamily (st : Style) (res : List Char) (payload : List Nat) (arphrd : Nat) : Option (List Tok × List Char) :=
  nlaHwaddr st res payload (if arphrd > 1024 then 0 else 1024 ||| arphrd)

/-- what is printed at a place.  `PRINT_FIELD_MAC_SZ`, src/print_fields.h:740-747, takes no more than the array has. -/
def printAt (st : Style) (res : List Char) : Place → Option (List Tok × List Char)
  | .field a => printMac st res a a.length
  | .mreq a n => printMac st res a (min n a.length)
  | .ifr a t => printHw st res a a.length t
  | .link p f => nlaHwaddrFamily st res p f
  | .neigh p => nlaHwaddr st res p 0

/-- the buffer after some addresses have been printed -/
def after (st : Style) : List Place → List Char → Option (List Char)
  | [], res => some res
  | p :: ps, res =>
    match printAt st res p with
    | none => none
    | some (_, r) => after st ps r

/-- what is printed at a place, after others -/
def shown (st : Style) (before : List Place) (p : Place) : Option (List Tok) :=
  match after st before fresh with
  | none => none
  | some res => (printAt st res p).map (·.1)

end Strace.Hw
