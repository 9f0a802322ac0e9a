import Verif.Msg.Main
/-!
# Messages: a vector of two messages that meets the hypotheses, and what is shown of it
-/
namespace Strace.Msg
open Strace.Sized (Byte)

/-- a number in 4 bytes -/
def ex4 (v : Nat) : List Byte := [Fin.ofNat 256 v, Fin.ofNat 256 (v / 256), Fin.ofNat 256 (v / 65536), Fin.ofNat 256 (v / 16777216)]

/-- a memory with some regions -/
def exMem (l : List (Nat × List Byte)) : Mem := fun a =>
  (l.find? fun r => decide (r.1 ≤ a ∧ a < r.1 + r.2.length)).bind fun r => r.2[a - r.1]?

/-- two messages at 4096, with room for a name of 32 bytes in the first; its buffer has 16 bytes, those of the second have 4 each -/
def exBuf : List (Nat × List Byte) :=
  [(12288, ex4 100 ++ ex4 16 ++ ex4 200 ++ ex4 4 ++ ex4 300 ++ ex4 4),
   (8192, [2, 0, 0, 80, 127, 0, 0, 1, 0, 0, 0, 0, 0, 0, 0, 0])]

def exPre : Mem := exMem ((4096,
  ex4 8192 ++ ex4 32 ++ ex4 12288 ++ ex4 1 ++ ex4 0 ++ ex4 0 ++ ex4 0 ++ ex4 0 ++
  ex4 0 ++ ex4 0 ++ ex4 12296 ++ ex4 2 ++ ex4 0 ++ ex4 0 ++ ex4 0 ++ ex4 0) :: exBuf)

/-- the same after 3 bytes have been received in the first and 6 in the second message -/
def exPost : Mem := exMem ((4096,
  ex4 8192 ++ ex4 16 ++ ex4 12288 ++ ex4 1 ++ ex4 0 ++ ex4 0 ++ ex4 0 ++ ex4 3 ++
  ex4 0 ++ ex4 0 ++ ex4 12296 ++ ex4 2 ++ ex4 0 ++ ex4 0 ++ ex4 32 ++ ex4 6) :: exBuf)

def exEnv : Env := ⟨⟨true, .abbrv, some 32, 4⟩, 4, some 32, true, false⟩

/-- the hypotheses of `recvmmsg_all` are met -/
example (ts : Mem → Nat → String) (fuel : Nat) (hf : 2 ^ 64 ≤ fuel) :
    ∃ l : List Elem, l.length = 2 ∧ (∀ i x, l[i]? = some x → Received exEnv exPre exPost 4096 i x) ∧
      recvmmsg exEnv ts exPre exPost fuel 4096 5 0 0 (.ok 2) =
        some ([.vec (listed l .nothing), .num 5, .flags 0, .text (ts exPre 0)], .none) :=
  recvmmsg_all exEnv ts exPre exPost fuel 4096 5 0 0 2 (Or.inl rfl) rfl (by decide) (by decide) (by decide) (by decide)
    (by decide) (by decide) hf (by decide +kernel) (by decide +kernel) (by intro m h; cases h; decide)

/-- what is shown of it: of the buffers of the second message 4 and 2 bytes -/
example : recvmmsg exEnv (fun _ _ => "NULL") exPre exPost 3 4096 5 0 0 (.ok 2) =
    some ([.vec [.opened,
        .elem ⟨⟨[.num "sa_family" 2, .net "sin_port" 80, .raw "sin_addr" [127, 0, 0, 1], .lens 32 16],
          [.opened, .elem ⟨100, 3, false, 16⟩, .closed], 1, none, 0, 0⟩, some 3⟩,
        .next,
        .elem ⟨⟨[.addr 0, .len 0], [.opened, .elem ⟨200, 4, false, 4⟩, .next, .elem ⟨300, 2, false, 4⟩, .closed], 2, none, 0, 32⟩,
          some 6⟩,
        .closed],
      .num 5, .flags 0, .text "NULL"], .none) := by decide +kernel

/-- the hypotheses of `sendmmsg_shown` are met, by a call that has sent one of two messages -/
example (fuel : Nat) (hf : 2 ^ 64 ≤ fuel) :
    ∃ t, VecShown exEnv exPost 4096 2 1024 (Sent exEnv exPost 4096 1) t ∧
      sendmmsg exEnv exPost fuel 4096 2 0 (.ok 1) = some [.vec t, .num 2, .flags 0] :=
  sendmmsg_shown exEnv exPost fuel 4096 2 0 (.ok 1) (Or.inl rfl) rfl (by decide) (by decide) (by decide) (by decide) (by decide) hf

example : sendmmsg exEnv exPost 3 4096 2 0 (.ok 1) =
    some [.vec [.opened,
        .elem ⟨⟨[.num "sa_family" 2, .net "sin_port" 80, .raw "sin_addr" [127, 0, 0, 1], .len 16],
          [.opened, .elem ⟨100, 16, false, 16⟩, .closed], 1, none, 0, 0⟩, some 3⟩,
        .next,
        .elem ⟨⟨[.addr 0, .len 0], [.opened, .elem ⟨200, 4, false, 4⟩, .next, .elem ⟨300, 4, false, 4⟩, .closed], 2, none, 0, 32⟩,
          none⟩,
        .closed],
      .num 2, .flags 0] := by decide +kernel

/-- the hypotheses of `recvmsg_shown` and `sendmsg_shown` are met -/
example (fuel : Nat) (hf : 2 ^ 64 ≤ fuel) :
    ∃ t, MsgShown exEnv exPost (hdrAt 4 exPost 4096) (some (hdrAt 4 exPre 4096).namelen) (some 3) t ∧
      recvmsg exEnv exPre exPost fuel 4096 0 (.ok 3) = some [.msg t, .flags 0] :=
  recvmsg_shown exEnv exPre exPost fuel 4096 0 3 (Or.inl rfl) rfl (by decide) (by decide) (by decide +kernel) (by decide +kernel)
    (by decide) hf

example (fuel : Nat) (hf : 2 ^ 64 ≤ fuel) :
    ∃ t, MsgShown exEnv exPost (hdrAt 4 exPost 4096) none none t ∧ sendmsg exEnv exPost fuel 4096 0 = some [.msg t, .flags 0] :=
  sendmsg_shown exEnv exPost fuel 4096 0 (Or.inl rfl) rfl (by decide) (by decide) (by decide +kernel) hf

/-- a vector whose second message cannot be read, and one that is longer than the limit for arrays -/
example : sendmmsg exEnv exPost 9 4128 2 0 (.ok 0) =
    some [.vec [.opened,
        .elem ⟨⟨[.addr 0, .len 0], [.opened, .elem ⟨200, 4, false, 4⟩, .next, .elem ⟨300, 4, false, 4⟩, .closed], 2, none, 0, 32⟩,
          none⟩,
        .next, .more, .comment 4160, .closed], .num 2, .flags 0] := by decide +kernel

example : sendmmsg { exEnv with arr := some 1 } exPost 9 4096 2 0 (.ok 0) =
    some [.vec [.opened,
        .elem ⟨⟨[.num "sa_family" 2, .net "sin_port" 80, .raw "sin_addr" [127, 0, 0, 1], .len 16],
          [.opened, .elem ⟨100, 16, false, 16⟩, .closed], 1, none, 0, 0⟩, none⟩,
        .next, .more, .closed], .num 2, .flags 0] := by decide +kernel

end Strace.Msg
