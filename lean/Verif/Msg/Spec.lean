import Verif.Msg.Model
import Verif.Arr.Spec
/-!
# Messages: what is to be shown

A message header has seven members; each but `msg_namelen` and `msg_flags`, which have 4 bytes, is a word, and each starts a word
behind the one before.  In a vector of messages, a header and the 4 bytes of `msg_len` take eight words.
-/
namespace Strace.Msg
open Strace.Sized (Byte)

/-- the byte at an address -/
def byteAt (mem : Mem) (a : Nat) : Nat := ((mem (a % 2 ^ 64)).getD 0).val

/-- the number in `n` bytes at an address -/
def word (mem : Mem) (a n : Nat) : Nat := ((List.range n).map fun i => byteAt mem (a + i) * 256 ^ i).sum

/-- `n` bytes can be read at an address -/
def Readable (mem : Mem) (a n : Nat) : Prop := ∀ i, i < n → mem ((a + i) % 2 ^ 64) ≠ none

instance (mem : Mem) (a n : Nat) : Decidable (Readable mem a n) := by unfold Readable; infer_instance

/-- the number in 4 bytes as an `int` -/
def int (v : Nat) : Int := (BitVec.ofNat 32 v).toInt

/-- the message header at an address -/
def hdrAt (w : Nat) (mem : Mem) (a : Nat) : Hdr where
  name := word mem a w
  namelen := int (word mem (a + w) 4)
  iov := word mem (a + 2 * w) w
  iovlen := word mem (a + 3 * w) w
  control := word mem (a + 4 * w) w
  controllen := word mem (a + 5 * w) w
  flags := word mem (a + 6 * w) 4

/-- the address of message `i` of a vector -/
def nth (w a i : Nat) : Nat := a + i * (8 * w)

/-- `msg_len` of the message at an address -/
def lenAt (w : Nat) (mem : Mem) (a : Nat) : Nat := word mem (a + 7 * w) 4

/-- the name is shown: as many bytes of it as there are according to the kernel, but not more than the caller has room for (`ulen`,
if the call writes the name), and its length, or both lengths if they differ -/
def NameShown (e : Env) (mem : Mem) (h : Hdr) (ulen : Option Int) (t : List Sock.Tok) : Prop :=
  match ulen with
  | none => ∃ l, Sock.decodeSockaddr e.sock mem e.vb h.name h.namelen = some l ∧ t = l ++ [.len h.namelen]
  | some u => ∃ l, Sock.decodeSockaddr e.sock mem e.vb h.name (min h.namelen u) = some l ∧
      t = l ++ [if u = h.namelen then .len h.namelen else .lens u h.namelen]

/-- the bytes of the name that are looked at for its family -/
def room (h : Hdr) (ulen : Option Int) : Int := match ulen with | none => h.namelen | some u => min h.namelen u

/-- the name can be read -/
def Named (e : Env) (mem : Mem) (h : Hdr) (ulen : Option Int) : Prop :=
  2 ≤ room h ulen ∧ h.name ≠ 0 ∧ e.vb = true ∧ Readable mem h.name (min (room h ulen) 128).toNat

/-- the data are netlink messages: the name is that of a netlink socket, or there is no name and the socket is one -/
def Netlink (e : Env) (mem : Mem) (h : Hdr) (ulen : Option Int) : Prop :=
  (Named e mem h ulen ∧ word mem h.name 2 = 16) ∨ (¬ Named e mem h ulen ∧ e.nlsock = true)

/-- the number of bytes transferred to or from buffer `i`, if `size` bytes are transferred in all and the buffers have the given
lengths; no limit if `size` is `none` -/
def share (lens : Nat → Nat) (size : Option Nat) (i : Nat) : Nat :=
  match size with
  | none => lens i
  | some n => min (lens i) (n - ((List.range i).map lens).sum)

/-- the length of buffer `i` of a vector at an address -/
def bufLen (w : Nat) (mem : Mem) (a i : Nat) : Nat := word mem (a + i * (2 * w) + w) w

/-- buffer `i` of a vector, as shown -/
def buf (w : Nat) (mem : Mem) (a : Nat) (size : Option Nat) (netlink : Bool) (i : Nat) : Buf where
  base := word mem (a + i * (2 * w)) w
  shown := share (bufLen w mem a) size i
  netlink := netlink
  len := bufLen w mem a i

/-- what follows the elements shown of an array -/
inductive Mark
  | nothing
  | more
  /-- `...` and an address -/
  | moreAt (a : Nat)
  deriving DecidableEq, Repr

def Mark.toks {α : Type} : Mark → List (List (Arr.Tok α))
  | .nothing => []
  | .more => [[.more]]
  | .moreAt a => [[.more, .comment a]]

/-- an array as text -/
def listed {α : Type} (l : List α) (k : Mark) : List (Arr.Tok α) :=
  .opened :: Arr.join (l.map (fun a => [.elem a]) ++ k.toks) ++ [.closed]

/-- the vector of buffers is shown: `n` buffers at `a` of which `size` bytes in all are transferred -/
def IovShown (e : Env) (mem : Mem) (a n : Nat) (size : Option Nat) (netlink : Bool) (t : List (Arr.Tok Buf)) : Prop :=
  if a = 0 then t = [.null]
  else if n = 0 then t = [.opened, .closed]
  else if a + n * (2 * e.w) ≥ 2 ^ 64 ∨ e.vb = false ∨ ¬ Readable mem a (2 * e.w) then t = [.addr a]
  else ∃ j k, j ≤ n ∧ (∀ i, i < j → Readable mem (a + i * (2 * e.w)) (2 * e.w)) ∧
    t = listed ((List.range j).map (buf e.w mem a size netlink)) k ∧
    ((j = n ∧ k = .nothing) ∨
     (j < n ∧ e.arr = some j ∧ k = .more) ∨
     (j < n ∧ ¬ Readable mem (a + j * (2 * e.w)) (2 * e.w) ∧ k = .moreAt (a + j * (2 * e.w)))) ∧
    (n < 2 ^ 32 → ∀ m, e.arr = some m → j ≤ m)

/-- a message is shown -/
def MsgShown (e : Env) (mem : Mem) (h : Hdr) (ulen : Option Int) (size : Option Nat) (t : MsgTok) : Prop :=
  NameShown e mem h ulen t.name ∧
  (∃ nl : Bool, (nl = true ↔ Netlink e mem h ulen) ∧ IovShown e mem h.iov h.iovlen size nl t.iov) ∧
  t.iovlen = h.iovlen ∧ t.controllen = h.controllen ∧ t.flags = h.flags ∧
  t.control = (if h.controllen = 0 then none else some (h.control, h.controllen))

/-- the first messages of a vector of `n` messages at `a` are shown, each as `ok` says; at most `most` of them -/
def VecShown (e : Env) (mem : Mem) (a n most : Nat) (ok : Nat → Elem → Prop) (t : List (Arr.Tok Elem)) : Prop :=
  if ¬ Readable mem a (8 * e.w) then t = [.addr a]
  else ∃ l k, l.length ≤ n ∧ l.length ≤ most ∧ (∀ m, e.arr = some m → l.length ≤ m) ∧
    (∀ i, i < l.length → Readable mem (nth e.w a i) (8 * e.w)) ∧
    (∀ i x, l[i]? = some x → ok i x) ∧
    t = listed l k ∧
    ((l.length = n ∧ k = .nothing) ∨
     (l.length < n ∧ (e.arr = some l.length ∨ l.length = most) ∧ k = .more) ∨
     (l.length < n ∧ ¬ Readable mem (nth e.w a l.length) (8 * e.w) ∧ k = .moreAt (nth e.w a l.length)))

/-- the lengths of the names of the first `k` messages of a vector are known from entering the call: `k` is the number of messages
of the vector, at most 1024, or the first that could not be read -/
def Kept (w : Nat) (pre : Mem) (a vlen k : Nat) : Prop :=
  k ≤ min vlen 1024 ∧ (∀ i, i < k → Readable pre (nth w a i) (8 * w)) ∧
  (k < min vlen 1024 → ¬ Readable pre (nth w a k) (8 * w))

/-- message `i` of a vector that is received, as shown: the members as they are on exiting, the name limited to the length it was
given on entering, the data limited to the number of bytes received, and this number -/
def Received (e : Env) (pre post : Mem) (a i : Nat) (x : Elem) : Prop :=
  MsgShown e post (hdrAt e.w post (nth e.w a i)) (some (hdrAt e.w pre (nth e.w a i)).namelen)
    (some (lenAt e.w post (nth e.w a i))) x.msg ∧
  x.len = some (lenAt e.w post (nth e.w a i))

/-- message `i` of a vector that is sent, as shown: with the number of bytes sent if it is one of the first `sent` messages -/
def Sent (e : Env) (mem : Mem) (a sent i : Nat) (x : Elem) : Prop :=
  MsgShown e mem (hdrAt e.w mem (nth e.w a i)) none none x.msg ∧
  x.len = if i < sent then some (lenAt e.w mem (nth e.w a i)) else none

end Strace.Msg
