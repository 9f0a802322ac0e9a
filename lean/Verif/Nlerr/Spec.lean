import Verif.Nlerr.Model
/-!
# What an error message of netlink consists of

By the kernel's `netlink_ack`: the error, the header of the request, the rest of the request padded to a multiple of four bytes
(`nlmsg_append`), and the attributes.  If the message is capped, the attributes follow the header.
-/

namespace Strace.Nlerr

/-- a piece of a message that is shown: its address and size -/
abbrev Piece := Nat × Nat

/-- the pieces of what is shown: an error and header are the 20 bytes at their address -/
def Out.pieces : Out → Option (List Piece)
  | .bytes a n => some [(a, n)]
  | .addr _ => none
  | .num a => some [(a, 4)]
  | .family a n => some [(a, n)]
  | .err a _ p at' =>
    match p with
    | none => some ((a, 20) :: at'.toList)
    | some o =>
      match o.pieces with
      | none => none
      | some l => some ((a, 20) :: (l ++ at'.toList))

/-- the pieces follow one another from `a` on, and are `n` bytes together -/
def Tile : Nat → Nat → List Piece → Prop
  | _, n, [] => n = 0
  | a, n, (b, m) :: l => b = a ∧ m ≤ n ∧ Tile (a + m) (n - m) l

/-- how deep error messages quote error messages -/
def Out.depth : Out → Nat
  | .err _ _ (some o) _ => o.depth + 1
  | .err _ _ none _ => 1
  | _ => 0

/-- The message with the answer to a request, as the kernel makes it: `request` is its header (with its length), which is at
`a + 4`; the message has `size` bytes from `a` on, of which `tlv` are attributes at `at'`. -/
structure Answer (e : Env) (request : Hdr) (capped : Bool) (a size at' tlv : Nat) : Prop where
  header : e.hdr (a + 4) = some request
  whole : 16 ≤ request.len
  start : at' = a + 4 + if capped then 16 else 4 * ((request.len + 3) / 4)
  rest : a + size = at' + tlv

/-- the attributes shown -/
def Out.attributes : Out → Option (Nat × Nat)
  | .err _ _ _ at' => at'
  | _ => none

/-- the request shown: its header, and where its payload is taken from -/
def Out.request : Out → Option (Hdr × Option Out)
  | .err _ m p _ => some (m, p)
  | _ => none

end Strace.Nlerr
