import Verif.Diag.Family
/-! # Details of sockets: findings and examples -/
namespace Strace.Diag
open Strace.Sized

/-- a UDP socket bound to 127.0.0.1:53, and connected or not -/
def udp (dst : List Byte) (dport : Nat) : InetSock :=
  { v6 := false, src := [127, 0, 0, 1], sport := 53, dst := dst, dport := dport, inode := 7, m := List.replicate 10 0,
    a := [7, 0, 0], b := List.replicate 12 0, c := List.replicate 12 0, d := List.replicate 28 0, e := [] }

/-- the end of a list -/
def done : List Byte := message 3 (List.replicate 10 0) [0, 0, 0, 0]

def before : String → List (List Byte) := fun n => if n = "UDP" then [(udp [0, 0, 0, 0] 0).message ++ done] else [done]
def after : String → List (List Byte) := fun n => if n = "UDP" then [(udp [8, 8, 8, 8] 99).message ++ done] else [done]

/-- **Finding: details are never brought up to date.**  A UDP socket is bound, and a call that shows it is traced; then it is
connected.  Every later call shows it as if it were not connected. -/
theorem connect_not_shown :
    run Cache.empty [⟨before, 7, some "UDP"⟩, ⟨after, 7, some "UDP"⟩] =
      some [.details (.inet "UDP" false [127, 0, 0, 1] 53 none), .details (.inet "UDP" false [127, 0, 0, 1] 53 none)] ∧
    run Cache.empty [⟨after, 7, some "UDP"⟩] =
      some [.details (.inet "UDP" false [127, 0, 0, 1] 53 (some ([8, 8, 8, 8], 99)))] := by
  decide +kernel

/-- a socket with an abstract name -/
def named (n : List Byte) : UnixSock :=
  { inode := 9, attrs := [(0, n)], m := List.replicate 10 0, a := [1, 10, 0], b := List.replicate 8 0 }

/-- **Finding: abstract names are cut at a NUL byte.**  Sockets bound to different abstract names are shown alike. -/
theorem abstract_cut :
    (named [0, 97]).name ≠ (named [0, 97, 0, 98]).name ∧
    (getDetails Cache.empty (fun _ => [(named [0, 97]).message]) 9 (some "UNIX")).map (·.2) =
      some (.details (.unix "UNIX" 9 none (some (true, [97])))) ∧
    (getDetails Cache.empty (fun _ => [(named [0, 97, 0, 98]).message]) 9 (some "UNIX")).map (·.2) =
      some (.details (.unix "UNIX" 9 none (some (true, [97])))) := by
  decide +kernel

/-- **Finding: an inode is taken for a family.**  If the kernel tells the protocol of a descriptor but has no details (sockets of
netlink cannot be listed), the family that decides how messages are decoded is the inode, whatever the family of the socket. -/
theorem inode_as_family (ans : String → List (List Byte)) (hans : ans "NETLINK" = [done]) (i : Nat) (c : Cache) (hc : cached c i = none) :
    ∃ s, getDetails c ans i (some "NETLINK") = some (c, s) ∧ nlFamily (nlText s) = some i := by
  have h1 : protoByName "NETLINK" = some ("NETLINK", .netlink) := by decide +kernel
  have h3 := receive_answer 20 (netlinkParse "NETLINK" i) c [] (by simp) [done]
    ⟨[[done]], [done], by simp, by simp, by decide +kernel, Or.inr ⟨3, List.replicate 10 0, [0, 0, 0, 0], by decide, by decide,
      by decide, by decide, rfl⟩⟩
  simp only [seq] at h3
  refine ⟨.named "NETLINK" i, ?_, ?_⟩
  · rw [getDetails, hc]
    simp only [Option.bind_some, h1, lookupDetails, tryAll, List.nil_append, hans, get, parser, h3]
    rfl
  · simp only [nlText]
    rw [chars_netlink.1, chars_netlink.2.2.2, List.append_assoc, Strace.Diag.nlFamily_number]

/-- a family -/
def fam (name : List Byte) : Family :=
  { id := 16, name := name, attrs := [(2, name ++ [0]), (1, leBytes 2 16), (3, [2, 0, 0, 0])], m := List.replicate 10 0, r := [0, 0] }

/-- **Finding: beyond the end of a name.**  If a family is listed twice, a byte behind its copied name is read. -/
theorem family_twice : genlFamilies [(fam [110, 108]).message, (fam [110, 108]).message, done] = none ∧
    genlFamilies [(fam [110, 108]).message, done] = some [(16, [110, 108])] := by
  decide +kernel

/-! ### The hypotheses are met -/

theorem udp_ok : (udp [8, 8, 8, 8] 99).Ok := by
  refine ⟨?_, ?_, ?_, ?_, ?_, ?_, ?_, ?_, ?_, ?_, ?_⟩ <;> decide +kernel

theorem fam_ok : (fam [110, 108]).Ok := by
  refine ⟨by decide +kernel, by decide +kernel, ?_, by decide +kernel, by decide +kernel, by decide +kernel, by decide +kernel, by decide +kernel⟩
  intro x hx
  simp only [fam, List.mem_cons, List.not_mem_nil, or_false] at hx
  rcases hx with rfl | rfl | rfl <;> constructor <;> decide +kernel

/-- a netlink socket -/
def route : NlSock :=
  { proto := 0, portid := 1234, inode := 8, m := List.replicate 10 0, a := 3, b := 0, c := List.replicate 8 0, d := List.replicate 8 0 }

theorem route_ok : route.Ok := by
  refine ⟨?_, ?_, ?_, ?_, ?_, ?_, ?_⟩ <;> decide +kernel

def someKernel : Kernel := { inet := fun n => if n = "UDP" then [udp [8, 8, 8, 8] 99] else [], nl := [route], unix := none }

def someAns : String → List (List Byte) := fun n =>
  if n = "UDP" then [(udp [8, 8, 8, 8] 99).message ++ done] else if n = "NETLINK" then [route.message, done] else [done]

theorem someKernel_answers : someKernel.Ok 7 ∧ Answers someKernel someAns := by
  have hfin : ∀ fin, fin = [done] → fin = [] ∨ ∃ (t : Nat) (m p : List Byte), t ≠ 20 ∧ t < 65536 ∧ m.length = 10 ∧ p.length < 8192 ∧
      fin = [message t m p] := fun fin h => Or.inr ⟨3, List.replicate 10 0, [0, 0, 0, 0], by decide, by decide, by decide, by decide, h⟩
  have hempty : Answer 20 [] [done] := ⟨[[done]], [done], by simp, by simp, by decide +kernel, hfin _ rfl⟩
  refine ⟨⟨fun n s hs => ?_, fun s hs => ?_, fun s hs => by cases hs⟩, fun n hn => ?_, fun n hn => ?_, ?_⟩
  · by_cases h : n = "UDP"
    · simp only [someKernel, h, if_true, List.mem_singleton] at hs
      subst hs; exact udp_ok
    · simp [someKernel, h] at hs
  · simp only [someKernel, List.mem_singleton] at hs
    subst hs; exact route_ok
  · have h1 : ∀ n ∈ unixNames, n ≠ "UDP" ∧ n ≠ "NETLINK" := by decide +kernel
    obtain ⟨h2, h3⟩ := h1 n hn
    show Answer 20 [] (someAns n)
    simp only [someAns, h2, h3, if_false]
    exact hempty
  · have h1 : ∀ n ∈ inetNames, n ≠ "NETLINK" := by decide +kernel
    have h3 := h1 n hn
    by_cases h : n = "UDP"
    · subst h
      show Answer 20 [(udp [8, 8, 8, 8] 99).message] [(udp [8, 8, 8, 8] 99).message ++ done]
      exact ⟨[[(udp [8, 8, 8, 8] 99).message, done]], [done], by simp, by simp, by decide +kernel, hfin _ rfl⟩
    · simp only [someKernel, someAns, h, h3, if_false]
      exact hempty
  · show Answer 20 [route.message] [route.message, done]
    exact ⟨[[route.message], [done]], [done], by simp, by simp, by decide +kernel, hfin _ rfl⟩

/-- what is shown of that socket is its addresses -/
theorem someKernel_shown : ∃ c', getDetails Cache.empty someAns 7 none =
    some (c', .details (.inet "UDP" false [127, 0, 0, 1] 53 (some ([8, 8, 8, 8], 99)))) := by
  have : (getDetails Cache.empty someAns 7 none).map (·.2) =
    some (.details (.inet "UDP" false [127, 0, 0, 1] 53 (some ([8, 8, 8, 8], 99)))) := by decide +kernel
  obtain ⟨⟨c', s⟩, h1, h2⟩ := Option.map_eq_some_iff.1 this
  exact ⟨c', by rw [h1]; simp at h2; rw [h2]⟩

theorem fam_table : genlFamilies [(fam [110, 108]).message, done] = some [(16, [110, 108])] :=
  families_table_partial [fam [110, 108]] (by simpa using fam_ok) (by decide) _
    ⟨[[(fam [110, 108]).message], [done]], [done], by simp, by simp, by decide +kernel,
      Or.inr ⟨3, List.replicate 10 0, [0, 0, 0, 0], by decide, by decide, by decide, by decide, rfl⟩⟩

theorem pair_example : addPair [(16, [110, 108]), (17, [97])] 16 [110, 108, 56, 0] 4 = some [(16, [110, 108, 56]), (17, [97])] := by
  decide +kernel

theorem route_family : nlFamily (nlText (.details (route.details "NETLINK"))) = some 0 := family_of_socket route route_ok

end Strace.Diag
