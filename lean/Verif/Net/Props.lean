import Verif.Net.Spec
import Verif.Memc.Props

/-!
# Proofs about the calls that make sockets and pairs, and that send
-/
namespace Strace.Net

open Strace.Prctl (Mem umoven number)
open Strace.Net.Spec

/-- The names of a table begin with a text. -/
def allBegin (pre : String) (t : List (Nat × String)) : Bool := t.all fun e => pre.toList.isPrefixOf e.2.toList

theorem lookup_mem {t : List (Nat × String)} {v : Nat} {s : String} (h : lookup t v = some s) : (v, s) ∈ t := by
  unfold lookup at h
  cases hf : t.find? (fun e => e.1 == v) with
  | none => rw [hf] at h; cases h
  | some e =>
    rw [hf] at h
    cases h
    have h1 := List.find?_some hf
    have h2 := List.mem_of_find?_eq_some hf
    simp only [beq_iff_eq] at h1
    rw [← h1]
    exact h2

theorem lookup_begins {pre : String} {t : List (Nat × String)} (h : allBegin pre t = true) {v : Nat} {s : String}
    (hs : lookup t v = some s) : Begins pre s := by
  have := List.all_eq_true.mp h _ (lookup_mem hs)
  exact List.isPrefixOf_iff_prefix.mp this

theorem named_as {pre dflt : String} {t : List (Nat × String)} (h : allBegin pre t = true)
    (hd : pre.toList.isPrefixOf dflt.toList = true) (v : Nat) : ShownAs pre (named t dflt v) :=
  ⟨_, _, _, Or.inl rfl, List.isPrefixOf_iff_prefix.mp hd, fun _ hs => lookup_begins h hs⟩

/-- **The protocol of a socket is shown as one of its family**, but for AF_IRDA (23). -/
theorem protocol_family_partial {d : Nat} {pre : String} (h : (d, pre) ∈ prefixes) (hd : d ≠ 23) (p : Nat) :
    ShownAs pre (protocol d p) := by
  simp only [prefixes, List.mem_cons, List.not_mem_nil, or_false, Prod.mk.injEq] at h
  rcases h with ⟨rfl, rfl⟩ | ⟨rfl, rfl⟩ | ⟨rfl, rfl⟩ | ⟨rfl, rfl⟩ | ⟨rfl, rfl⟩ | ⟨rfl, rfl⟩ | ⟨rfl, rfl⟩ | ⟨rfl, rfl⟩ | ⟨rfl, rfl⟩
    | ⟨rfl, rfl⟩ | ⟨rfl, rfl⟩ | ⟨rfl, rfl⟩ | ⟨rfl, rfl⟩ | ⟨rfl, rfl⟩ | ⟨rfl, rfl⟩
  · exact named_as (by decide +kernel) (by decide +kernel) p
  · exact named_as (by decide +kernel) (by decide +kernel) p
  · exact named_as (by decide +kernel) (by decide +kernel) p
  · exact named_as (by decide +kernel) (by decide +kernel) p
  · exact ⟨_, _, _, Or.inr rfl, List.isPrefixOf_iff_prefix.mp (by decide +kernel), fun _ hs => lookup_begins (by decide +kernel) hs⟩
  · exact absurd rfl hd
  · exact named_as (by decide +kernel) (by decide +kernel) p
  · exact named_as (by decide +kernel) (by decide +kernel) p
  · exact named_as (by decide +kernel) (by decide +kernel) p
  · exact named_as (by decide +kernel) (by decide +kernel) p
  · exact named_as (by decide +kernel) (by decide +kernel) p
  · exact named_as (by decide +kernel) (by decide +kernel) p
  · exact named_as (by decide +kernel) (by decide +kernel) p
  · exact named_as (by decide +kernel) (by decide +kernel) p
  · exact named_as (by decide +kernel) (by decide +kernel) p

/-- The protocol 1 of AF_IRDA is IRDAPROTO_ULTRA; it is shown as CAN_RAW (src/net.c:146-148). -/
theorem irda_wrong : (1, "IRDAPROTO_ULTRA") ∈ irda ∧ protocol 23 1 = .proto (some "CAN_RAW") "IRDAPROTO_???" 1
    ∧ ¬ ShownAs "IRDAPROTO_" (protocol 23 1) := by
  have h : protocol 23 1 = .proto (some "CAN_RAW") "IRDAPROTO_???" 1 := by decide +kernel
  refine ⟨by decide, h, ?_⟩
  rintro ⟨n, d, v, ht, -, hn⟩
  rw [h] at ht
  rcases ht with ht | ht
  · cases ht
    have := List.isPrefixOf_iff_prefix.mpr (hn "CAN_RAW" rfl)
    revert this
    decide
  · cases ht

theorem named_number (t : List (Nat × String)) (dflt : String) (p : Nat) : numberOf (named t dflt p) = some (p % 2 ^ 32) := rfl

/-- **The number of the protocol is the one that the kernel takes**: 32 bits of the register; of AF_PACKET (17) the number whose
bytes in the order of the network are the lowest two; of families without names all of the register. -/
theorem protocol_number (d p : Nat) :
    (d ∈ prefixes.map Prod.fst → d ≠ 17 → numberOf (protocol d p) = some (p % 2 ^ 32))
    ∧ (d = 17 → ∃ x y q, x < 256 ∧ y < 256 ∧ p = x + 256 * y + 65536 * q ∧ numberOf (protocol d p) = some (256 * x + y))
    ∧ (d ∉ prefixes.map Prod.fst → protocol d p = .num p) := by
  refine ⟨?_, ?_, ?_⟩
  · intro h h17
    simp only [prefixes, List.map_cons, List.map_nil, List.mem_cons, List.not_mem_nil, or_false] at h
    rcases h with rfl | rfl | rfl | rfl | rfl | rfl | rfl | rfl | rfl | rfl | rfl | rfl | rfl | rfl | rfl <;>
      first | exact absurd rfl h17 | exact named_number _ _ p
  · rintro rfl
    refine ⟨p % 256, p / 256 % 256, p / 65536, by omega, by omega, by omega, ?_⟩
    show some (ntohs p) = _
    unfold ntohs
    congr 1
    omega
  · intro h
    simp only [prefixes, List.map_cons, List.map_nil, List.mem_cons, List.not_mem_nil, or_false, not_or] at h
    unfold protocol
    split <;> first | (exfalso; omega) | rfl

/-! ## Different protocols are shown differently -/

/-- No name is in a table twice. -/
def distinct : List (Nat × String) → Bool
  | [] => true
  | e :: t => t.all (fun f => decide (e.2.toList ≠ f.2.toList)) && distinct t

theorem distinct_inj : ∀ {t : List (Nat × String)}, distinct t = true → ∀ {a b : Nat} {s : String}, (a, s) ∈ t → (b, s) ∈ t → a = b
  | [], _, _, _, _, h, _ => absurd h (List.not_mem_nil)
  | e :: t, hd, a, b, s, h1, h2 => by
    simp only [distinct, Bool.and_eq_true, List.all_eq_true, decide_eq_true_eq] at hd
    rcases List.mem_cons.mp h1 with h1 | h1 <;> rcases List.mem_cons.mp h2 with h2 | h2
    · rw [h1.symm] at h2
      exact (Prod.mk.inj h2).1.symm
    · exact absurd (by rw [← h1]) (hd.1 _ h2)
    · exact absurd (by rw [← h2]) (hd.1 _ h1)
    · exact distinct_inj hd.2 h1 h2

theorem lookup_inj {t : List (Nat × String)} (hd : distinct t = true) {a b : Nat} {s : String} (h1 : lookup t a = some s)
    (h2 : lookup t b = some s) : a = b := distinct_inj hd (lookup_mem h1) (lookup_mem h2)

theorem named_inj {t : List (Nat × String)} (hd : distinct t = true) {dflt : String} {a b : Nat}
    (h : seen (named t dflt a) = seen (named t dflt b)) : a % 2 ^ 32 = b % 2 ^ 32 := by
  unfold named at h
  cases h1 : lookup t (a % 2 ^ 32) <;> cases h2 : lookup t (b % 2 ^ 32) <;> rw [h1, h2] at h <;>
    simp only [seen, Prod.mk.injEq, Option.some.injEq, reduceCtorEq, false_and, and_false, and_true, true_and] at h
  · exact h
  · subst h
    exact lookup_inj hd h1 h2

/-- **Different protocols of a family are shown differently**: if the same is seen of two, they are the same for the kernel. -/
theorem protocol_injective {d : Nat} (h : d ∈ prefixes.map Prod.fst) (h17 : d ≠ 17) {a b : Nat}
    (hs : seen (protocol d a) = seen (protocol d b)) : a % 2 ^ 32 = b % 2 ^ 32 := by
  simp only [prefixes, List.map_cons, List.map_nil, List.mem_cons, List.not_mem_nil, or_false] at h
  rcases h with rfl | rfl | rfl | rfl | rfl | rfl | rfl | rfl | rfl | rfl | rfl | rfl | rfl | rfl | rfl <;>
    first
    | exact absurd rfl h17
    | exact named_inj (by decide +kernel) hs

/-- Those of AF_PACKET are told apart by their lowest two bytes. -/
theorem packet_injective {a b : Nat} (hs : seen (protocol 17 a) = seen (protocol 17 b)) : a % 65536 = b % 65536 := by
  have key : ntohs a = ntohs b := by
    simp only [protocol] at hs
    cases h1 : lookup ethernet (ntohs a) <;> cases h2 : lookup ethernet (ntohs b) <;> rw [h1, h2] at hs <;>
      simp only [seen, Prod.mk.injEq, Option.some.injEq, reduceCtorEq, false_and, and_false, and_true, true_and] at hs
    · exact hs
    · subst hs
      exact lookup_inj (by decide +kernel) h1 h2
  unfold ntohs at key
  have e : ∀ x : Nat, x % 65536 = x % 256 + 256 * (x / 256 % 256) := by intro x; omega
  have h1 : a % 256 = b % 256 ∧ a / 256 % 256 = b / 256 % 256 := by
    have := Nat.mod_lt a (show 0 < 256 by decide)
    have := Nat.mod_lt b (show 0 < 256 by decide)
    have := Nat.mod_lt (a / 256) (show 0 < 256 by decide)
    have := Nat.mod_lt (b / 256) (show 0 < 256 by decide)
    generalize a % 256 = x at *
    generalize b % 256 = y at *
    generalize a / 256 % 256 = u at *
    generalize b / 256 % 256 = v at *
    omega
  rw [e a, e b, h1.1, h1.2]

/-- The kernel takes the domain as an `int`, and so is it shown; but what the protocol is shown as depends on all the register:
if it holds more, the name of the protocol is not shown (src/net.c:119). -/
theorem domain_high : ∃ c : Call, c.arg 0 % 2 ^ 32 = 2 ∧ run .socket c = [.num 2, .num 1, .num 6]
    ∧ run .socket { c with arg := fun i => c.arg i % 2 ^ 32 } = [.num 2, .num 1, .proto (some "IPPROTO_TCP") "IPPROTO_???" 6] :=
  ⟨⟨fun i => if i = 0 then 2 ^ 32 + 2 else if i = 1 then 1 else 6, fun _ => none, fun _ => none, false, true, none⟩, by decide,
    by decide +kernel, by decide +kernel⟩

/-- **socket shows its domain, its type and its protocol.** -/
theorem socket_shown (c : Call) :
    run .socket c = [.num (c.arg 0 % 2 ^ 32), .num (c.arg 1 % 2 ^ 32), protocol (c.arg 0) (c.arg 2)] := rfl

/-! ## Pairs -/

theorem is_int (a : Nat) : IsInt a (int a) := Memc.is_int a

theorem get_some {c : Call} {a : Nat} (hv : c.verbose = true) (hf : c.failed = false) (h : Readable c.after a 4) :
    get c a = some (int (word c.after a 4)) := by
  obtain ⟨l, hl, -⟩ := Prctl.umoven_le (m := c.after) (n := 4) (a := a) h.2
  rw [get, if_pos ⟨h.1, hv, hf⟩, hl, Option.map_some, Memc.number_word hl]
  rfl

theorem pair_shown {c : Call} {a : Nat} (hv : c.verbose = true) (hf : c.failed = false) (h : Readable c.after a 8)
    (he : a + 8 < 2 ^ 64) (hl : ∀ l, c.limit = some l → 2 ≤ l) : Pair c.after a (pair c a) := by
  have h1 := get_some hv hf (a := a) ⟨h.1, fun i hi => h.2 i (by omega)⟩
  have h2 := get_some hv hf (a := a + 4) ⟨by omega, fun i hi => by rw [Nat.add_assoc]; exact h.2 (4 + i) (by omega)⟩
  have l0 : c.limit.any (fun l => decide (l = 0)) = false := by
    cases hc : c.limit with
    | none => rfl
    | some l => have := hl l hc; simp; omega
  have l1 : c.limit.any (fun l => decide (l ≤ 1)) = false := by
    cases hc : c.limit with
    | none => rfl
    | some l => have := hl l hc; simp; omega
  refine ⟨_, _, ?_, is_int _, is_int _⟩
  rw [pair, if_neg h.1, if_neg (by omega), h1]
  simp only [l0, Bool.false_eq_true, if_false, h2, l1]
  rfl

theorem pair_failed {c : Call} {a : Nat} (ha : a ≠ 0) (hf : c.failed = true) : pair c a = [.addr a] := by
  have : get c a = none := by simp [get, hf]
  rw [pair, if_neg ha, this]
  split <;> rfl

/-- **pipe, pipe2 and socketpair show the two descriptors that they have made**, and the address if they have failed; before or
after them, what they are asked. -/
theorem pairs {c : Call} (hv : c.verbose = true) (hl : ∀ l, c.limit = some l → 2 ≤ l) :
    (c.failed = false → Readable c.after (c.arg 0) 8 → c.arg 0 + 8 < 2 ^ 64 →
      Pair c.after (c.arg 0) (run .pipe c) ∧ ∃ l, run .pipe2 c = l ++ [.num (c.arg 1 % 2 ^ 32)] ∧ Pair c.after (c.arg 0) l)
    ∧ (c.failed = false → Readable c.after (c.arg 3) 8 → c.arg 3 + 8 < 2 ^ 64 →
      ∃ l, run .socketpair c = [.num (c.arg 0 % 2 ^ 32), .num (c.arg 1 % 2 ^ 32), .num (c.arg 2)] ++ l
        ∧ Pair c.after (c.arg 3) l)
    ∧ (c.failed = true → c.arg 0 ≠ 0 →
      run .pipe c = [.addr (c.arg 0)] ∧ run .pipe2 c = [.addr (c.arg 0), .num (c.arg 1 % 2 ^ 32)])
    ∧ (c.failed = true → c.arg 3 ≠ 0 →
      run .socketpair c = [.num (c.arg 0 % 2 ^ 32), .num (c.arg 1 % 2 ^ 32), .num (c.arg 2), .addr (c.arg 3)]) := by
  refine ⟨?_, ?_, ?_, ?_⟩
  · intro hf hr he
    exact ⟨pair_shown hv hf hr he hl, _, rfl, pair_shown hv hf hr he hl⟩
  · intro hf hr he
    exact ⟨_, rfl, pair_shown hv hf hr he hl⟩
  · intro hf h0
    simp only [run, pair_failed h0 hf]
    exact ⟨trivial, rfl⟩
  · intro hf h0
    simp only [run, pair_failed h0 hf]
    rfl

/-- **send and sendto show the message with the length that is given**, the descriptor and the length of the address with their
signs, and the flags. -/
theorem sends (c : Call) :
    ∃ f n, IsInt (c.arg 0) f ∧ IsInt (c.arg 5) n
      ∧ run .send c = [.fd f, .message (c.arg 1) (c.arg 2), .num (c.arg 2), .num (c.arg 3 % 2 ^ 32)]
      ∧ run .sendto c = run .send c ++ [.sockaddr (c.arg 4) n, .int n] :=
  ⟨_, _, is_int _, is_int _, rfl, rfl⟩

/-! ## Concrete cases -/

def aCall : Call := ⟨fun i => if i = 0 then 2 else if i = 1 then 2 ^ 19 + 1 else if i = 2 then 17 else 64, fun _ => none,
  fun a => if a < 100 then some (if a % 4 = 0 then a / 4 else 0) else none, false, true, some 32⟩

example : run .socket aCall = [.num 2, .num (2 ^ 19 + 1), .proto (some "IPPROTO_UDP") "IPPROTO_???" 17] := by decide +kernel
example : protocol 17 0x0300 = .htons (some "ETH_P_ALL") "ETH_P_???" 3 := by decide +kernel
example : run .socketpair aCall = [.num 2, .num (2 ^ 19 + 1), .num 17, .first, .fd 16, .fd 17, .last] := by decide +kernel
example : (16, "NETLINK_") ∈ prefixes := by decide

end Strace.Net
