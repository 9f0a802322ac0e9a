import Verif.Sock.Texts
/-!
# Socket addresses: where the code departs from what one would expect, and examples
-/
namespace Strace.Sock
open Strace.Sized (Byte moven fetch le Passed)

/-! ### Addresses in control messages

They are printed where they lie in the copy of the control data, without padding (src/msghdr.c:213-222). -/

/-- an IPv6 address of 25 bytes, the last bytes of the control data -/
def shortV6 : List Byte := [10, 0, 0, 80, 0, 0, 0, 0] ++ List.replicate 16 1 ++ [7]

/-- The printer reads beyond the control data: an IPv6 address of 25 bytes at its end. -/
theorem origDst_beyond_in6 (e : Env) : shortV6.length = 25 ∧ origDst e shortV6 25 = none := by
  refine ⟨by decide, ?_⟩
  rfl

/-- an unterminated path of 16 bytes, the last bytes of the control data -/
def shortUn : List Byte := [1, 0] ++ List.replicate 14 97

/-- The printer reads beyond the control data: a path that is not terminated at its end. -/
theorem origDst_beyond_un (e : Env) : shortUn.length = 16 ∧ origDst e shortUn 16 = none := by
  refine ⟨by decide, ?_⟩
  rcases e with ⟨sec, x, limit, w⟩
  cases sec <;> rfl

/-- Bytes behind the data of the control message are shown as a part of the address. -/
theorem origDst_leak (e : Env) :
    origDst e (shortV6 ++ [0, 0, 0]) 25 ≠ origDst e (shortV6 ++ [0, 0, 9]) 25 := by
  have h : ∀ (l : List Byte), l.length = 3 → origDst e (shortV6 ++ l) 25 = some
      [.num "sa_family" 10, .net "sin6_port" 80, .net "sin6_flowinfo" 0, .raw "sin6_addr" (List.replicate 16 1),
        .num "sin6_scope_id" (le (7 :: l))] := by
    intro l hl
    match l, hl with
    | [x, y, z], _ => rfl
  rw [h _ rfl, h _ rfl]
  decide

theorem view_self (b : List Byte) : View b.length b b := ⟨rfl, fun _ _ => rfl⟩

/-- An address of another family is printed out of its own bytes.

What is missing: AF_UNIX and AF_INET6, for which it is false (`origDst_beyond_in6`, `origDst_beyond_un`, `origDst_leak`). -/
theorem origDst_safe_partial (e : Env) (b : List Byte) (n : Nat) (hn : n ≤ b.length) (h1 : leAt b 0 2 ≠ 1) (h10 : leAt b 0 2 ≠ 10) :
    ∃ t, origDst e b n = some t := by
  unfold origDst
  by_cases h : n ≥ 16
  · rw [if_pos h]
    have : (if n > 128 then 128 else n) = min n 128 := by split <;> omega
    rw [this]
    exact ⟨_, print_form (view_self b) e (min n 128) (by omega) (by omega) ⟨fun hc => absurd hc h1, fun hc => absurd hc h10⟩⟩
  · rw [if_neg h]; exact ⟨_, rfl⟩

/-- and so is an IPv6 address of at least 28 bytes, or of 24 or less -/
theorem origDst_in6 (e : Env) (b : List Byte) (n : Nat) (hn : n ≤ b.length) (h10 : leAt b 0 2 = 10) (h : n ≤ 24 ∨ 28 ≤ n) :
    ∃ t, origDst e b n = some t := by
  unfold origDst
  by_cases h16 : n ≥ 16
  · rw [if_pos h16]
    have : (if n > 128 then 128 else n) = min n 128 := by split <;> omega
    rw [this]
    exact ⟨_, print_form (view_self b) e (min n 128) (by omega) (by omega)
      ⟨fun hc => absurd (h10.symm.trans hc) (by decide), fun _ hc => by omega⟩⟩
  · rw [if_neg h16]; exact ⟨_, rfl⟩

/-! ### Digipeaters that are not shown -/

/-- an AX.25 address that says it has no digipeater, with one behind it -/
def hidden (x : Byte) : List Byte := [3, 0, 150, 96, 130, 130, 64, 64, 0, 0, 0, 0, 0, 0, 0, 0] ++ [x, 96, 130, 130, 64, 64, 0]

/-- the memory of a tracee with some bytes at 4096 -/
def memOf (b : List Byte) : Nat → Option Byte := fun i => if 4096 ≤ i then b[i - 4096]? else none

theorem memOf_passed (b : List Byte) (h : b.length ≤ 4096) : Passed (memOf b) 4096 b := by
  intro i hi
  have : (4096 + i) % 2 ^ 64 = 4096 + i := Nat.mod_eq_of_lt (by omega)
  rw [this, memOf, if_pos (by omega)]
  rw [Nat.add_sub_cancel_left]

theorem hidden_len (x : Byte) : (hidden x).length = 23 := rfl

theorem hidden_family (x : Byte) : leAt (hidden x) 0 2 = 3 := by
  simp [leAt, hidden, List.range_succ]; rfl

/-- Bytes of an AX.25 address can be hidden without a `...`: the digipeater is passed, but not counted. -/
theorem ax25_hidden (e : Env) :
    decodeSockaddr e (memOf (hidden 150)) true 4096 23 = decodeSockaddr e (memOf (hidden 152)) true 4096 23 ∧
    ∀ t, decodeSockaddr e (memOf (hidden 150)) true 4096 23 = some t → Tok.more ∉ t ∧ ∀ k ∈ t, nameOf k ≠ some "fsa_digipeater" := by
  have hg : ∀ x, Given (memOf (hidden x)) 4096 23 (hidden x) := fun x =>
    ⟨memOf_passed _ (by rw [hidden_len]; decide), by decide, by decide, by rw [hidden_len]; decide, by rw [hidden_len]; decide⟩
  have h : ∀ x, decodeSockaddr e (memOf (hidden x)) true 4096 23 = some
      [.num "sa_family" 3, .opened "fsa_ax25", .call "sax25_call" (callOf e.x [150, 96, 130, 130, 64, 64, 0]), .num "sax25_ndigis" 0,
        .closed] := by
    intro x
    rw [given_form e (hg x), tail_known e 3 16 (hidden_family x) rfl (by rw [hidden_len]; decide) (by rw [hidden_len]; decide)]
    have h1 : leAt (hidden x) 12 4 = 0 := by simp [leAt, hidden, List.range_succ]
    have h2 : bytesAt (hidden x) 2 7 = [150, 96, 130, 130, 64, 64, 0] := rfl
    have h3 : wantDigis (hidden x) = 0 := by rw [wantDigis, h1]; rfl
    simp only [famTail, Nat.reduceEqDiff, if_true, if_false]
    rw [ax25Shown, h1, h2, h3, hidden_len, fam, hidden_family]
    rfl
  refine ⟨by rw [h, h], fun t ht => ?_⟩
  rw [h, Option.some.injEq] at ht
  subst ht
  simp [nameOf]

/-! ### Examples -/

/-- `bind(fd, {sa_family=AF_INET, sin_port=htons(80), sin_addr=inet_addr("127.0.0.1")}, 16)` -/
def exIn : List Byte := [2, 0, 0, 80, 127, 0, 0, 1, 0, 0, 0, 0, 0, 0, 0, 0]

example : Given (memOf exIn) 4096 16 exIn := ⟨memOf_passed _ (by decide), by decide, by decide, rfl, by decide⟩
example : Known exIn := ⟨16, by decide +kernel, by decide, by decide⟩
example : decodeSockaddr ⟨true, .abbrv, none, 8⟩ (memOf exIn) true 4096 16 =
    some [.num "sa_family" 2, .net "sin_port" 80, .raw "sin_addr" [127, 0, 0, 1]] := by decide +kernel

/-- a path without a NUL in an address of 5 bytes -/
def exUn : List Byte := [1, 0, 47, 97, 98]
example : Given (memOf exUn) 4096 5 exUn := ⟨memOf_passed _ (by decide), by decide, by decide, rfl, by decide⟩
example : decodeSockaddr ⟨true, .abbrv, none, 8⟩ (memOf exUn) true 4096 5 =
    some [.num "sa_family" 1, .str "sun_path" [47, 97, 98] false] := by decide +kernel

/-- an abstract name with a NUL in it -/
def exAbs : List Byte := [1, 0, 0, 97, 0, 98]
example : decodeSockaddr ⟨true, .abbrv, none, 8⟩ (memOf exAbs) true 4096 6 =
    some [.num "sa_family" 1, .abstr "sun_path" [97, 0, 98]] := by decide +kernel

/-- a family that is not taken apart -/
example : ¬ Known [99, 0, 5, 6] := by
  rintro ⟨m, hm, -⟩
  rw [show minLen (leAt [99, 0, 5, 6] 0 2) = none from by decide +kernel] at hm
  cases hm

/-- an address that is too short for its family -/
example : ¬ Known [2, 0, 0, 80] := by
  rintro ⟨m, hm, hl, -⟩
  rw [show minLen (leAt [2, 0, 0, 80] 0 2) = some 16 from by decide +kernel] at hm
  cases hm
  simp at hl

/-- an AF_ALG address whose type has no NUL -/
def exAlg : List Byte := [38, 0] ++ List.replicate 14 120 ++ [0, 0, 0, 0, 0, 0, 0, 0] ++ [115, 104, 97, 0]
example : (0 : Byte) ∉ bytesAt exAlg 2 14 ∧ (0 : Byte) ∈ bytesAt exAlg 24 4 ∧ Known exAlg :=
  ⟨by decide, by decide, 25, by decide +kernel, by decide, by decide⟩
example : decodeSockaddr ⟨false, .abbrv, none, 8⟩ (memOf exAlg) true 4096 28 =
    some [.num "sa_family" 38, .str "salg_type" (List.replicate 13 120) true, .num "salg_feat" 0, .num "salg_mask" 0,
      .str "salg_name" [115, 104, 97] false] := by decide +kernel

/-- a packet socket address with 6 bytes of hardware address, and one that claims 9 of them -/
def exLl (n : Byte) : List Byte := [17, 0, 8, 0, 2, 0, 0, 0, 1, 0, 0, n, 1, 2, 3, 4, 5, 6, 7, 8]
example : decodeSockaddr ⟨false, .abbrv, none, 8⟩ (memOf (exLl 6)) true 4096 20 =
    some [.num "sa_family" 17, .net "sll_protocol" 2048, .num "sll_ifindex" 2, .num "sll_hatype" 1, .num "sll_pkttype" 0,
      .num "sll_halen" 6, .arr "sll_addr" [1, 2, 3, 4, 5, 6] false] := by decide +kernel
example : decodeSockaddr ⟨false, .abbrv, none, 8⟩ (memOf (exLl 9)) true 4096 20 =
    some [.num "sa_family" 17, .net "sll_protocol" 2048, .num "sll_ifindex" 2, .num "sll_hatype" 1, .num "sll_pkttype" 0,
      .num "sll_halen" 9, .arr "sll_addr" [1, 2, 3, 4, 5, 6, 7, 8] true] := by decide +kernel

/-- an AX.25 address with two digipeaters -/
def exAx : List Byte := [3, 0, 150, 96, 130, 130, 64, 64, 0, 0, 0, 0, 2, 0, 0, 0] ++ [150, 96, 130, 130, 64, 64, 0] ++ [152, 96, 130, 130, 64, 64, 22]
example : leAt exAx 12 4 = 2 ∧ 16 + 7 * 2 ≤ exAx.length := by decide
example : decodeSockaddr ⟨false, .abbrv, none, 8⟩ (memOf exAx) true 4096 30 =
    some [.num "sa_family" 3, .opened "fsa_ax25", .call "sax25_call" (.text ['K', '0', 'A', 'A', '-', '0']), .num "sax25_ndigis" 2, .closed,
      .calls "fsa_digipeater" [.text ['K', '0', 'A', 'A', '-', '0'], .text ['L', '0', 'A', 'A', '-', '1', '1']] false] := by
  decide +kernel

/-- an accepted connection: there was room for 28 bytes, the kernel wrote 16 -/
def exPre : Nat → Option Byte := fun i => if i = 8192 then some 28 else if 8193 ≤ i ∧ i < 8196 then some 0 else some 0
def exPost : Nat → Option Byte := fun i =>
  if i = 8192 then some 16 else if 4096 ≤ i ∧ i < 4112 then exIn[i - 4096]? else some 0
example : lenAt exPre 8192 = some 28 ∧ lenAt exPost 8192 = some 16 := by decide +kernel
example : sockname ⟨false, .abbrv, none, 8⟩ exPre exPost true false 4096 8192 =
    some [.num "sa_family" 2, .net "sin_port" 80, .raw "sin_addr" [127, 0, 0, 1], .lens 28 16] := by decide +kernel

end Strace.Sock
