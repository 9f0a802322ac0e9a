import Verif.Show.Dumpio
import Mathlib.Tactic.Tauto
/-!
# Which data are dumped: specification and proofs

The specification says which bytes of the tracee's memory a call transfers, in terms of addresses.
-/
namespace Strace.Show.Dumpio

/-! ## Specification -/

/-- the addresses of the bytes of a buffer -/
def bytes (addr n : Nat) : List Nat := (List.range n).map (addr + ·)

/-- the bytes of a vector, one buffer after the other -/
def vecBytes (v : List (Nat × Nat)) : List Nat := v.flatMap fun b => bytes b.1 b.2

/-- where the data of a call are -/
inductive Place
  /-- one buffer -/
  | buffer
  /-- a vector -/
  | vector
  /-- a message header -/
  | message
  /-- an array of message headers -/
  | messages
  deriving DecidableEq

/-- does the call send data (true) or get them (false), and where are they? -/
inductive Does : Sen → Bool → Place → Prop
  | write : Does .write true .buffer
  | pwrite : Does .pwrite true .buffer
  | send : Does .send true .buffer
  | sendto : Does .sendto true .buffer
  | mqTimedsend : Does .mqTimedsend true .buffer
  | writev : Does .writev true .vector
  | pwritev : Does .pwritev true .vector
  | pwritev2 : Does .pwritev2 true .vector
  | vmsplice : Does .vmsplice true .vector
  | sendmsg : Does .sendmsg true .message
  | sendmmsg : Does .sendmmsg true .messages
  | read : Does .read false .buffer
  | pread : Does .pread false .buffer
  | recv : Does .recv false .buffer
  | recvfrom : Does .recvfrom false .buffer
  | mqTimedreceive : Does .mqTimedreceive false .buffer
  | readv : Does .readv false .vector
  | preadv : Does .preadv false .vector
  | preadv2 : Does .preadv2 false .vector
  | recvmsg : Does .recvmsg false .message
  | recvmmsg : Does .recvmmsg false .messages

/-- there is a vector of `n` buffers at an address, none of them empty, as the kernel accepts it: at most 1024 buffers and
less than 2^63 bytes -/
def Vector (m : Mem) (addr n : Nat) (v : List (Nat × Nat)) : Prop :=
  m.iov addr n = some v ∧ n ≤ 1024 ∧ (∀ b ∈ v, b.2 ≠ 0) ∧ (v.map Prod.snd).sum < 2 ^ 63

/-- the vectors and lengths of an array of messages -/
def Messages (m : Mem) : Nat → List (List (Nat × Nat) × Nat) → Prop
  | _, [] => True
  | addr, (v, len) :: l =>
    (∃ iov n, m.mmsg addr = some (iov, n, len) ∧ Vector m iov n v) ∧
      Messages m ((addr + m.mmsgSize) % 2 ^ 64) l

/-- the bytes of the call `c`: sent, those it was asked to send, or if there is more than one message those of the messages
sent; got, as many as its result says -/
inductive Transfers (m : Mem) (c : Call) : Bool → List Nat → Prop
  | send : Does c.sen true .buffer → Transfers m c true (bytes c.u1 c.u2)
  | sendVec (v : List (Nat × Nat)) : Does c.sen true .vector → Vector m c.u1 c.u2 v → Transfers m c true (vecBytes v)
  | sendMsg (iov n : Nat) (v : List (Nat × Nat)) : Does c.sen true .message → m.msg c.u1 = some (iov, n) →
      Vector m iov n v → Transfers m c true (vecBytes v)
  | sendMsgs (l : List (List (Nat × Nat) × Nat)) : Does c.sen true .messages → c.failed = false → c.rval = l.length →
      l.length < 2 ^ 32 → Messages m c.u1 l → Transfers m c true (l.flatMap fun p => (vecBytes p.1).take p.2)
  | get : Does c.sen false .buffer → c.rval ≤ c.u2 → Transfers m c false (bytes c.u1 c.rval)
  | getVec (v : List (Nat × Nat)) : Does c.sen false .vector → Vector m c.u1 c.u2 v →
      Transfers m c false ((vecBytes v).take c.rval)
  | getMsg (iov n : Nat) (v : List (Nat × Nat)) : Does c.sen false .message → m.msg c.u1 = some (iov, n) →
      Vector m iov n v → Transfers m c false ((vecBytes v).take c.rval)
  | getMsgs (l : List (List (Nat × Nat) × Nat)) : Does c.sen false .messages → c.rval = l.length →
      l.length < 2 ^ 32 → Messages m c.u1 l → Transfers m c false (l.flatMap fun p => (vecBytes p.1).take p.2)

/-- the addresses dumped -/
def dumped (l : List Item) : List Nat :=
  l.flatMap fun
    | .data a n => bytes a n
    | _ => []

/-! ## Proofs -/

theorem dumped_append (l k : List Item) : dumped (l ++ k) = dumped l ++ dumped k := by
  simp [dumped]

theorem bytes_length (a n : Nat) : (bytes a n).length = n := by simp [bytes]

theorem bytes_take (a n k : Nat) : (bytes a n).take k = bytes a (min k n) := by
  unfold bytes
  rw [← List.map_take, List.take_range]

theorem iovLoop_dumped (v : List (Nat × Nat)) : ∀ (i size : Nat), (∀ b ∈ v, b.2 ≠ 0) →
    dumped (iovLoop i size v) = (vecBytes v).take size := by
  induction v with
  | nil => intro i size _; simp [iovLoop, dumped, vecBytes]
  | cons b v ih =>
    intro i size hb
    obtain ⟨base, len⟩ := b
    have hlen : len ≠ 0 := hb (base, len) (by simp)
    have hv := fun i s => ih i s (fun b hb' => hb b (by simp [hb']))
    unfold iovLoop
    simp only [vecBytes, List.flatMap_cons, List.take_append, bytes_take, bytes_length]
    by_cases hs : size = 0
    · subst hs
      have : (if len > 0 then 0 else len) = 0 := by split <;> omega
      simp [this, dumped, bytes]
    · by_cases hl : len > size
      · have h1 : (if len > size then size else len) = size := if_pos hl
        rw [h1, if_neg hs]
        have h2 : min size len = size := by omega
        have h3 : size - len = 0 := by omega
        have := hv (i + 1) (size - size)
        simp only [Nat.sub_self, List.take_zero] at this
        rw [h2, h3, List.take_zero, List.append_nil]
        rw [Nat.sub_self]
        show [] ++ (bytes base size ++ dumped (iovLoop (i + 1) 0 v)) = _
        rw [this]; simp
      · have h1 : (if len > size then size else len) = len := if_neg hl
        rw [h1, if_neg hlen]
        have h2 : min size len = len := by omega
        rw [h2]
        show [] ++ (bytes base len ++ dumped (iovLoop (i + 1) (size - len) v)) = _
        rw [hv (i + 1) (size - len)]; rfl

theorem vecBytes_length (v : List (Nat × Nat)) : (vecBytes v).length = (v.map Prod.snd).sum := by
  induction v with
  | nil => rfl
  | cons b v ih => 
    have : vecBytes (b :: v) = bytes b.1 b.2 ++ vecBytes v := rfl
    rw [this, List.length_append, bytes_length, ih]; simp

theorem dumpiov_dumped (m : Mem) (hm : m.iovSize = 8 ∨ m.iovSize = 16) (addr n size : Nat) (v : List (Nat × Nat))
    (h : Vector m addr n v) : dumped (dumpiov m n addr size) = (vecBytes v).take size := by
  obtain ⟨h1, h2, h3, _⟩ := h
  unfold dumpiov
  have hn : n % 2 ^ 32 = n := Nat.mod_eq_of_lt (by omega)
  have hq : ¬ (m.iovSize * n % 2 ^ 32 / m.iovSize ≠ n) := by
    rcases hm with hm | hm <;> rw [hm] <;> omega
  simp only [hn]
  rw [if_neg hq, h1]
  exact iovLoop_dumped v 0 size h3

theorem mmsg_dumped (m : Mem) (hm : m.iovSize = 8 ∨ m.iovSize = 16) (l : List (List (Nat × Nat) × Nat)) :
    ∀ (i addr : Nat), Messages m addr l →
      dumped (mmsgLoop m l.length i addr) = l.flatMap fun p => (vecBytes p.1).take p.2 := by
  induction l with
  | nil => intro i addr _; rfl
  | cons p l ih =>
    intro i addr h
    obtain ⟨v, len⟩ := p
    obtain ⟨⟨iov, n, h1, h2⟩, h3⟩ := h
    rw [List.length_cons]
    unfold mmsgLoop
    rw [h1]
    show [] ++ dumped (dumpiov m n iov len ++ mmsgLoop m l.length (i + 1) ((addr + m.mmsgSize) % 2 ^ 64)) = _
    rw [dumped_append, dumpiov_dumped m hm iov n len v h2, ih (i + 1) _ h3]; rfl

/-- all the bytes of a vector the kernel accepts -/
theorem take_all (m : Mem) (addr n : Nat) (v : List (Nat × Nat)) (h : Vector m addr n v) :
    (vecBytes v).take (2 ^ 64 - 1) = vecBytes v := by
  apply List.take_of_length_le
  rw [vecBytes_length]
  have := h.2.2.2
  omega

/-- a call does one thing only -/
theorem written_of_get (m : Mem) (c : Call) (p : Place) (h : Does c.sen false p) : written m c = [] := by
  unfold written
  generalize c.sen = s at h ⊢
  cases h <;> rfl

theorem received_of_send (m : Mem) (c : Call) (p : Place) (h : Does c.sen true p) : received m c = [] := by
  unfold received
  generalize c.sen = s at h ⊢
  cases h <;> rfl

/-- what the first switch does, by place -/
def writtenAt (m : Mem) (c : Call) : Place → List Item
  | .buffer => [.data c.u1 c.u2]
  | .vector => dumpiov m c.u2 c.u1 (2 ^ 64 - 1)
  | .message => dumpMsg m c.u1 (2 ^ 64 - 1)
  | .messages => dumpMmsg m c c.u1

/-- what the second switch does, by place -/
def receivedAt (m : Mem) (c : Call) : Place → List Item
  | .buffer => [.data c.u1 c.rval]
  | .vector => dumpiov m c.u2 c.u1 c.rval
  | .message => dumpMsg m c.u1 c.rval
  | .messages => dumpMmsg m c c.u1

theorem written_eq (m : Mem) (c : Call) (p : Place) (h : Does c.sen true p) : written m c = writtenAt m c p := by
  unfold written
  generalize c.sen = s at h ⊢
  cases h <;> rfl

theorem received_eq (m : Mem) (c : Call) (p : Place) (h : Does c.sen false p) : received m c = receivedAt m c p := by
  unfold received
  generalize c.sen = s at h ⊢
  cases h <;> rfl

theorem dumped_data (a n : Nat) : dumped [.data a n] = bytes a n := by simp [dumped]

/-- which of the two switches shows the data -/
theorem transfers_dumped (m : Mem) (hm : m.iovSize = 8 ∨ m.iovSize = 16) (c : Call) (d : Bool) (l : List Nat)
    (h : Transfers m c d l) :
    (d = true → dumped (written m c) = l ∧ received m c = []) ∧
    (d = false → dumped (received m c) = l ∧ written m c = []) := by
  cases h with
  | send hd =>
    refine ⟨fun _ => ⟨?_, received_of_send m c _ hd⟩, fun h => (by cases h)⟩
    rw [written_eq m c _ hd]; exact dumped_data _ _
  | sendVec v hd hv =>
    refine ⟨fun _ => ⟨?_, received_of_send m c _ hd⟩, fun h => (by cases h)⟩
    rw [written_eq m c _ hd]
    show dumped (dumpiov m c.u2 c.u1 (2 ^ 64 - 1)) = _
    rw [dumpiov_dumped m hm _ _ _ v hv, take_all m _ _ v hv]
  | sendMsg iov n v hd hmsg hv =>
    refine ⟨fun _ => ⟨?_, received_of_send m c _ hd⟩, fun h => (by cases h)⟩
    rw [written_eq m c _ hd]
    show dumped (dumpMsg m c.u1 (2 ^ 64 - 1)) = _
    unfold dumpMsg; rw [hmsg]
    show dumped (dumpiov m n iov (2 ^ 64 - 1)) = _
    rw [dumpiov_dumped m hm _ _ _ v hv, take_all m _ _ v hv]
  | sendMsgs k hd _ hr hk hms =>
    refine ⟨fun _ => ⟨?_, received_of_send m c _ hd⟩, fun h => (by cases h)⟩
    rw [written_eq m c _ hd]
    show dumped (mmsgLoop m (c.rval % 2 ^ 32) 0 c.u1) = _
    rw [hr, Nat.mod_eq_of_lt hk]
    exact mmsg_dumped m hm k 0 c.u1 hms
  | get hd _ =>
    refine ⟨fun h => (by cases h), fun _ => ⟨?_, written_of_get m c _ hd⟩⟩
    rw [received_eq m c _ hd]; exact dumped_data _ _
  | getVec v hd hv =>
    refine ⟨fun h => (by cases h), fun _ => ⟨?_, written_of_get m c _ hd⟩⟩
    rw [received_eq m c _ hd]
    exact dumpiov_dumped m hm _ _ _ v hv
  | getMsg iov n v hd hmsg hv =>
    refine ⟨fun h => (by cases h), fun _ => ⟨?_, written_of_get m c _ hd⟩⟩
    rw [received_eq m c _ hd]
    show dumped (dumpMsg m c.u1 c.rval) = _
    unfold dumpMsg; rw [hmsg]
    exact dumpiov_dumped m hm _ _ _ v hv
  | getMsgs k hd hr hk hms =>
    refine ⟨fun h => (by cases h), fun _ => ⟨?_, written_of_get m c _ hd⟩⟩
    rw [received_eq m c _ hd]
    show dumped (mmsgLoop m (c.rval % 2 ^ 32) 0 c.u1) = _
    rw [hr, Nat.mod_eq_of_lt hk]
    exact mmsg_dumped m hm k 0 c.u1 hms

/-! ## C81 -/

/-- **The bytes dumped are those the call transfers**: data sent if the descriptor is in the set of `-e write`, whether
the call failed or not, and data got if it is in that of `-e read` and the call did not fail.  Missing: vectors with empty
buffers, calls that send several messages and fail, and results above the size of the buffer. -/
theorem dumped_partial (wset rset : Nat → Bool) (m : Mem) (hm : m.iovSize = 8 ∨ m.iovSize = 16) (c : Call) (fd : Nat)
    (hfd : c.u0 % 2 ^ 32 = fd) (hpos : fd < 2 ^ 31) (sends : Bool) (l : List Nat) (h : Transfers m c sends l) :
    dumped (dumpio wset rset m c) =
      if (sends = true ∧ wset fd = true) ∨ (sends = false ∧ rset fd = true ∧ c.failed = false) then l else [] := by
  obtain ⟨h1, h2⟩ := transfers_dumped m hm c sends l h
  unfold dumpio
  simp only [hfd]
  rw [if_neg (by omega), dumped_append]
  have hnil : dumped [] = [] := rfl
  cases sends with
  | true =>
    obtain ⟨h3, h4⟩ := h1 rfl
    rw [h4]
    have : (if c.failed = true then [] else if rset fd = true then ([] : List Item) else []) = [] := by
      split
      · rfl
      · split <;> rfl
    rw [this]
    by_cases hw : wset fd = true <;> simp [hw, h3, hnil]
  | false =>
    obtain ⟨h3, h4⟩ := h2 rfl
    rw [h4]
    have : (if wset fd = true then ([] : List Item) else []) = [] := by split <;> rfl
    rw [this]
    cases hf : c.failed <;> by_cases hr : rset fd = true <;> simp [hr, h3, hnil]

/-- **Nothing is dumped for a negative descriptor, for a descriptor in neither set, or for a call that transfers no
data**. -/
theorem nothing_dumped (wset rset : Nat → Bool) (m : Mem) (c : Call)
    (h : 2 ^ 31 ≤ c.u0 % 2 ^ 32 ∨ (wset (c.u0 % 2 ^ 32) = false ∧ rset (c.u0 % 2 ^ 32) = false) ∨
      ∀ d p, ¬ Does c.sen d p) :
    dumpio wset rset m c = [] := by
  unfold dumpio
  rcases h with h | ⟨h1, h2⟩ | h
  · simp only [if_pos h]
  · simp [h1, h2]
  · have hs : c.sen = .other := by
      generalize c.sen = s at h
      cases s <;> first | rfl | exact absurd (by constructor) (h true .buffer) |
        exact absurd (by constructor) (h true .vector) | exact absurd (by constructor) (h true .message) |
        exact absurd (by constructor) (h true .messages) | exact absurd (by constructor) (h false .buffer) |
        exact absurd (by constructor) (h false .vector) | exact absurd (by constructor) (h false .message) |
        exact absurd (by constructor) (h false .messages)
    simp [written, received, hs]

/-- the numbers written with the buffers are those of the buffers of the vector, in order -/
theorem buffers_numbered (v : List (Nat × Nat)) : ∀ (i size n k : Nat), .buffer n k ∈ iovLoop i size v →
    i ≤ k ∧ ∃ b, v[k - i]? = some b ∧ n ≤ b.2 ∧ .data b.1 n ∈ iovLoop i size v := by
  induction v with
  | nil => intro i size n k h; simp [iovLoop] at h
  | cons b v ih =>
    intro i size n k h
    obtain ⟨base, len⟩ := b
    unfold iovLoop at h ⊢
    by_cases h0 : (if len > size then size else len) = 0
    · simp [h0] at h
    · simp only [h0, if_false, List.mem_cons, Item.buffer.injEq, reduceCtorEq, false_or, Item.data.injEq] at h ⊢
      rcases h with ⟨rfl, rfl⟩ | h
      · refine ⟨Nat.le_refl _, (base, len), by simp, ?_, ?_⟩
        · show (if len > size then size else len) ≤ len
          split <;> omega
        · left; exact ⟨rfl, rfl⟩
      · obtain ⟨h1, b, h2, h3, h4⟩ := ih _ _ n k h
        refine ⟨by omega, b, ?_, h3, Or.inr h4⟩
        have : k - i = (k - (i + 1)) + 1 := by omega
        rw [this, List.getElem?_cons_succ]; exact h2

theorem no_vector_iov (v : List (Nat × Nat)) : ∀ (i size n k : Nat), .vector n k ∉ iovLoop i size v := by
  induction v with
  | nil => intro i size n k h; simp [iovLoop] at h
  | cons b v ih =>
    intro i size n k h
    unfold iovLoop at h
    by_cases h0 : (if b.2 > size then size else b.2) = 0
    · simp [h0] at h
    · simp only [h0, if_false, List.mem_cons, reduceCtorEq, false_or] at h
      exact ih _ _ _ _ h

/-- the numbers written with the vectors are those of the messages of the array: message `k` is at `k` times the size of
a message from the start, and the number of buffers written is its own -/
theorem vectors_numbered (m : Mem) (left : Nat) : ∀ (i addr n k : Nat), .vector n k ∈ mmsgLoop m left i addr →
    i ≤ k ∧ k < i + left ∧
      ∃ iov len, m.mmsg (if k = i then addr else (addr + (k - i) * m.mmsgSize) % 2 ^ 64) = some (iov, n, len) := by
  induction left with
  | zero => intro i addr n k h; simp [mmsgLoop] at h
  | succ left ih =>
    intro i addr n k h
    unfold mmsgLoop at h
    cases hm : m.mmsg addr with
    | none => rw [hm] at h; simp at h
    | some p =>
      obtain ⟨iov, c, len⟩ := p
      rw [hm] at h
      simp only [List.mem_cons, Item.vector.injEq, List.mem_append] at h
      rcases h with ⟨rfl, rfl⟩ | h | h
      · exact ⟨Nat.le_refl _, by omega, iov, len, by rw [if_pos rfl]; exact hm⟩
      · exfalso
        unfold dumpiov at h
        dsimp only at h
        split at h
        · simp at h
        · split at h
          · simp at h
          · exact no_vector_iov _ _ _ _ _ h
      · obtain ⟨h1, h2, iov', len', h3⟩ := ih _ _ n k h
        refine ⟨by omega, by omega, iov', len', ?_⟩
        rw [if_neg (by omega), ← h3]
        congr 1
        by_cases hk : k = i + 1
        · rw [if_pos hk, hk]
          have : i + 1 - i = 1 := by omega
          rw [this, Nat.one_mul]
        · rw [if_neg hk, Nat.mod_add_mod]
          have : k - i = (k - (i + 1)) + 1 := by omega
          rw [this, Nat.add_mul, Nat.one_mul]
          congr 1; omega

/-- memory with three messages of one buffer each, then nothing -/
def mem3 : Mem where
  iov a n := if n = 1 then some [(a + 1000, 4)] else if n = 2 then some [(a + 1000, 4), (a + 2000, 3)] else none
  msg a := if a = 64 then some (5000, 2) else none
  mmsg a := if a = 64 ∨ a = 128 ∨ a = 192 then some (a * 100, 1, 4) else none
  mmsgSize := 64
  iovSize := 16

/-- finding 52: a sendmmsg that fails is dumped as if it had sent every message up to the first address that cannot be
read, here three messages although it was given one -/
theorem failed_sendmmsg :
    dumpio (fun _ => true) (fun _ => false) mem3 ⟨.sendmmsg, 3, 64, 1, true, 2 ^ 64 - 1⟩ =
      [.vector 1 0, .buffer 4 0, .data 7400 4, .vector 1 1, .buffer 4 0, .data 13800 4,
       .vector 1 2, .buffer 4 0, .data 20200 4] := by
  have : (2 ^ 64 - 1) % 2 ^ 32 = 4294967291 + 1 + 1 + 1 + 1 := by decide
  simp [dumpio, written, dumpMmsg, mmsgLoop, dumpiov, mem3, iovLoop]

/-- finding 53: a recv whose result is the size of the datagram (MSG_TRUNC) and not of the buffer is dumped beyond the
buffer -/
theorem recv_beyond_buffer :
    dumpio (fun _ => false) (fun _ => true) mem3 ⟨.recv, 3, 100, 2, false, 5⟩ = [.data 100 5] := by decide +kernel

/-- the hypotheses of `dumped_partial` are met: a vector of which five bytes were read, and two messages sent -/
example :
    Transfers mem3 ⟨.readv, 3, 5000, 2, false, 5⟩ false [6000, 6001, 6002, 6003, 7000] ∧
    dumpio (fun _ => false) (fun n => n == 3) mem3 ⟨.readv, 3, 5000, 2, false, 5⟩ =
      [.buffer 4 0, .data 6000 4, .buffer 1 1, .data 7000 1] ∧
    Transfers mem3 ⟨.sendmmsg, 3, 64, 3, false, 2⟩ true [7400, 7401, 7402, 7403, 13800, 13801, 13802, 13803] ∧
    dumpio (fun n => n == 3) (fun _ => false) mem3 ⟨.sendmmsg, 3, 64, 3, false, 2⟩ =
      [.vector 1 0, .buffer 4 0, .data 7400 4, .vector 1 1, .buffer 4 0, .data 13800 4] := by
  refine ⟨?_, by decide +kernel, ?_, by decide +kernel⟩
  · exact Transfers.getVec [(6000, 4), (7000, 3)] .readv (by unfold Vector; decide +kernel)
  · refine Transfers.sendMsgs [([(7400, 4)], 4), ([(13800, 4)], 4)] .sendmmsg rfl rfl (by decide) ?_
    refine ⟨⟨6400, 1, by decide +kernel, by unfold Vector; decide +kernel⟩, ⟨12800, 1, by decide +kernel, by unfold Vector; decide +kernel⟩, trivial⟩

end Strace.Show.Dumpio
