import Verif.Sock.Fields
import Verif.Sock.Ax25
/-!
# Socket addresses: theorems
-/
namespace Strace.Sock
open Strace.Sized (Byte moven fetch le Passed)

variable {N : Nat} {b buf : List Byte}

/-- the text of an AX.25 address -/
def callOf (x : Xl) (l : List Byte) : Call := (callTok x l).getD (.bytes [])

theorem callTok_eq (x : Xl) (l : List Byte) : callTok x l = some (callOf x l) := by
  obtain ⟨c, hc⟩ := callTok_some x l
  rw [callOf, hc]; rfl

theorem callList_form (v : View N b buf) (x : Xl) : ∀ (k off : Nat), off + 7 * k ≤ N →
    callList x buf off k = some ((List.range k).map fun i => callOf x (bytesAt b (off + 7 * i) 7))
  | 0, off, _ => rfl
  | k + 1, off, h => by
    rw [callList, view_rd v _ _ (by omega), Option.bind_some, callTok_eq, Option.bind_some,
      callList_form v x k (off + 7) (by omega), Option.map_some, List.range_succ_eq_map, List.map_cons, List.map_map]
    congr 2
    apply List.map_congr_left; intro i _
    simp only [Function.comp, Nat.succ_eq_add_one]
    congr 2; omega

/-- the digipeaters passed, and those the address says it has -/
def hasDigis (n : Nat) : Nat := min ((n - 16) / 7) 8
def wantDigis (b : List Byte) : Nat := min (sint (leAt b 12 4)).toNat 8

def ax25Shown (x : Xl) (limit : Option Nat) (b : List Byte) (n : Nat) : List Tok :=
  if leAt b 12 4 = 0 ∧ n ≤ 16 then [.call "sax25_call" (callOf x (bytesAt b 2 7)), .num "sax25_ndigis" (leAt b 12 4)]
  else
    [.opened "fsa_ax25", .call "sax25_call" (callOf x (bytesAt b 2 7)), .num "sax25_ndigis" (leAt b 12 4), .closed] ++
      (if wantDigis b = 0 then []
       else [.calls "fsa_digipeater"
         ((List.range (cut limit (min (hasDigis n) (wantDigis b)))).map fun i => callOf x (bytesAt b (16 + 7 * i) 7))
         (decide (wantDigis b > hasDigis n ∨ cut limit (min (hasDigis n) (wantDigis b)) < min (hasDigis n) (wantDigis b)))]) ++
      (if n > hasDigis n * 7 + 16 then [.more] else [])

theorem cut_le (limit : Option Nat) (n : Nat) : cut limit n ≤ n := by
  unfold cut; split
  · omega
  · split <;> omega

theorem ax25_form (v : View N b buf) (x : Xl) (limit : Option Nat) (n : Nat) (hn : n ≤ N) (h : 16 ≤ n) :
    ax25Data x limit buf n = some (ax25Shown x limit b n) := by
  rw [ax25Data, view_rdNum v _ _ (by omega), Option.bind_some, view_rd v _ _ (by omega), Option.bind_some, callTok_eq,
    Option.bind_some, ax25Shown]
  simp only
  by_cases h1 : leAt b 12 4 = 0 ∧ n ≤ 16
  · rw [if_pos h1, if_pos h1]
  · rw [if_neg h1, if_neg h1]
    change (Option.map _ (if wantDigis b = 0 then some [] else
      (callList x buf 16 (cut limit (min (hasDigis n) (wantDigis b)))).map _)) = _
    have hc := cut_le limit (min (hasDigis n) (wantDigis b))
    have hd : hasDigis n * 7 + 16 ≤ n ∨ hasDigis n = 0 := by unfold hasDigis; omega
    rw [callList_form v x _ 16 (by omega)]
    by_cases hw : wantDigis b = 0
    · rw [if_pos hw, if_pos hw]; rfl
    · rw [if_neg hw, if_neg hw]; rfl

/-- the path of a UNIX socket -/
def unShown (b : List Byte) (n : Nat) : Tok :=
  if b.getD 2 0 = 0 then .abstr "sun_path" (bytesAt b 3 (min n 110 - 3))
  else .str "sun_path" (upToNul (bytesAt b 2 (min n 110 - 2))) false

theorem un_form (v : View N b buf) (sec : Bool) (n : Nat) (hn : n < N) (h : 3 ≤ n) (hs : sec = true → (0 : Byte) ∈ buf.drop 2) :
    unData sec buf n = some [unShown b n] := by
  unfold unData unShown
  have e : (if n > 110 then 110 else n) = min n 110 := by split <;> omega
  rw [view_get v 2 (by omega), e]
  simp only
  by_cases h0 : b.getD 2 0 = 0
  · rw [if_pos h0, if_pos h0, view_rd v _ _ (by omega)]
    simp only [Option.map_some]
    rw [show min n 110 - 2 - 1 = min n 110 - 3 by omega]
  · rw [if_neg h0, if_neg h0, if_neg, view_quote0 v _ _ (by omega)]
    · rfl
    · rintro ⟨h1, h2⟩
      rw [List.all_eq_true] at h2
      have := h2 0 (hs h1)
      simp at this

/-- what an address that is taken apart shows behind the family -/
def famTail (e : Env) (b : List Byte) (n f : Nat) : List Tok :=
  if f = 1 then [unShown b n]
  else if f = 2 then [.net "sin_port" (beAt b 2 2), .raw "sin_addr" (bytesAt b 4 4)]
  else if f = 3 then ax25Shown e.x e.limit b n
  else if f = 4 then [.net "sipx_port" (beAt b 2 2), .net "sipx_network" (beAt b 4 4), .raw "sipx_node" (bytesAt b 8 6),
      .num "sipx_type" (leAt b 14 1)] ++ quietNum b "sipx_zero" 15 1
  else if f = 9 then [strTok b "x25_addr" 2 16]
  else if f = 10 then [.net "sin6_port" (beAt b 2 2), .net "sin6_flowinfo" (beAt b 4 4), .raw "sin6_addr" (bytesAt b 8 16)] ++
      (if n ≤ 24 then [] else [.num "sin6_scope_id" (leAt b 24 4)])
  else if f = 16 then quietNum b "nl_pad" 2 2 ++ [.num "nl_pid" (leAt b 4 4), .num "nl_groups" (leAt b 8 4)]
  else if f = 17 then [.net "sll_protocol" (beAt b 2 2), .num "sll_ifindex" (leAt b 4 4), .num "sll_hatype" (leAt b 8 2),
      .num "sll_pkttype" (leAt b 10 1), .num "sll_halen" (leAt b 11 1)] ++
      (if leAt b 11 1 = 0 then [] else
        [.arr "sll_addr" (bytesAt b 12 (min (leAt b 11 1) (n - 12))) (decide (leAt b 11 1 > n - 12))])
  else if f = 31 then btShown b n
  else if f = 33 then [.num "srx_service" (leAt b 2 2), .num "transport_type" (leAt b 4 2), .num "transport_len" (leAt b 6 2),
      .opened "transport"] ++ transport b n ++ [.closed]
  else if f = 36 then [.opened "addr", .num "addr_type" (leAt b 4 4), .num "pan_id" (leAt b 8 2)] ++
      (if leAt b 4 4 = 0 then [] else if leAt b 4 4 = 2 then [.num "short_addr" (leAt b 10 2)]
       else [.raw "hwaddr" (bytesAt b 10 8)]) ++ [.closed]
  else if f = 38 then [strTok b "salg_type" 2 14, .num "salg_feat" (leAt b 16 4), .num "salg_mask" (leAt b 20 4),
      strTok b "salg_name" 24 (n - 24)]
  else if f = 39 then [.num "dev_idx" (leAt b 4 4), .num "target_idx" (leAt b 8 4), .num "nfc_protocol" (leAt b 12 4)] ++
      (if n < (if e.w = 8 then 96 else 88) then (if n > 16 then [.more] else [])
       else [.num "dsap" (leAt b 16 1), .num "ssap" (leAt b 17 1), .str "service_name" (bytesAt b 18 (min 63 (nameLen e.w b))) false,
        .num "service_name_len" (nameLen e.w b)])
  else if f = 40 then quietNum b "svm_reserved1" 2 2 ++ [.num "svm_cid" (leAt b 8 4), .num "svm_port" (leAt b 4 4), .num "svm_flags" (leAt b 12 1)] ++
      (if (bytesAt b 13 3).all (· == 0) = true then [] else [.raw "svm_zero" (bytesAt b 13 3)])
  else if f = 42 then [.num "sq_node" (leAt b 4 4), .num "sq_port" (leAt b 8 4)]
  else if f = 44 then [.num "sxdp_flags" (leAt b 2 2), .num "sxdp_ifindex" (leAt b 4 4), .num "sxdp_queue_id" (leAt b 8 4)] ++
      (if leAt b 2 2 % 2 = 1 then [.num "sxdp_shared_umem_fd" (leAt b 12 4)] else quietNum b "sxdp_shared_umem_fd" 12 4)
  else if f = 45 then quietNum b "__smctp_pad0" 2 2 ++ [.num "smctp_network" (leAt b 4 4), .opened "smctp_addr", .num "s_addr" (leAt b 8 1),
      .closed, .num "smctp_type" (leAt b 9 1), .num "smctp_tag" (leAt b 10 1)] ++ quietNum b "__smctp_pad1" 11 1
  else []

/-- what is shown behind the family -/
def tail (e : Env) (b : List Byte) (n : Nat) : List Tok :=
  if n ≤ 2 then []
  else if (minLen (leAt b 0 2)).any (· ≤ n) = false then [.str "sa_data" (bytesAt b 2 (n - 2)) false]
  else famTail e b n (leAt b 0 2)

/-- what the printer of a family needs of the buffer besides the bytes passed -/
def Enough (sec : Bool) (N : Nat) (b buf : List Byte) (n : Nat) : Prop :=
  (leAt b 0 2 = 1 → 3 ≤ n → n < N ∧ (sec = true → (0 : Byte) ∈ buf.drop 2)) ∧
  (leAt b 0 2 = 10 → 24 < n → 28 ≤ N)

theorem minLen_cases (f m : Nat) (h : minLen f = some m) :
    (f = 1 ∧ m = 3) ∨ (f = 2 ∧ m = 16) ∨ (f = 3 ∧ m = 16) ∨ (f = 4 ∧ m = 16) ∨ (f = 9 ∧ m = 18) ∨ (f = 10 ∧ m = 24) ∨
    (f = 16 ∧ m = 12) ∨ (f = 17 ∧ m = 20) ∨ (f = 31 ∧ m = 3) ∨ (f = 33 ∧ m = 36) ∨ (f = 36 ∧ m = 20) ∨ (f = 38 ∧ m = 25) ∨
    (f = 39 ∧ m = 16) ∨ (f = 40 ∧ m = 16) ∨ (f = 42 ∧ m = 12) ∨ (f = 44 ∧ m = 16) ∨ (f = 45 ∧ m = 12) := by
  have hf : f ≤ 45 := by
    by_contra hc
    obtain ⟨k, rfl⟩ : ∃ k, f = k + 46 := ⟨f - 46, by omega⟩
    have : minLen (k + 46) = none := rfl
    rw [this] at h; simp at h
  interval_cases f <;> cases h <;> decide

theorem printer_form (v : View N b buf) (e : Env) (n f m : Nat) (hn : n ≤ N) (hb : 2 < n) (hf : leAt b 0 2 = f)
    (hm : minLen f = some m) (hle : m ≤ n) (hE : Enough e.sec N b buf n) :
    printer e f buf n = some (m, some (famTail e b n f)) := by
  rcases minLen_cases f m hm with ⟨rfl, rfl⟩ | ⟨rfl, rfl⟩ | ⟨rfl, rfl⟩ | ⟨rfl, rfl⟩ | ⟨rfl, rfl⟩ | ⟨rfl, rfl⟩ | ⟨rfl, rfl⟩ | ⟨rfl, rfl⟩ |
    ⟨rfl, rfl⟩ | ⟨rfl, rfl⟩ | ⟨rfl, rfl⟩ | ⟨rfl, rfl⟩ | ⟨rfl, rfl⟩ | ⟨rfl, rfl⟩ | ⟨rfl, rfl⟩ | ⟨rfl, rfl⟩ | ⟨rfl, rfl⟩
  · simp only [printer, famTail, Nat.reduceEqDiff, if_false, if_true]; exact congrArg (fun t => some (3, t)) (un_form v e.sec n (hE.1 hf (by omega)).1 (by omega) (hE.1 hf (by omega)).2)
  · simp only [printer, famTail, Nat.reduceEqDiff, if_false, if_true]; exact congrArg (fun t => some (16, t)) (by have h := in_form v 0 (by omega : 0 + 8 ≤ N); simp only [Nat.zero_add] at h; exact h)
  · simp only [printer, famTail, Nat.reduceEqDiff, if_false, if_true]; exact congrArg (fun t => some (16, t)) (ax25_form v _ _ n hn (by omega))
  · simp only [printer, famTail, Nat.reduceEqDiff, if_false, if_true]; exact congrArg (fun t => some (16, t)) (ipx_form v (by omega))
  · simp only [printer, famTail, Nat.reduceEqDiff, if_false, if_true]; exact congrArg (fun t => some (18, t)) (x25_form v (by omega))
  · simp only [printer, famTail, Nat.reduceEqDiff, if_false, if_true]; exact congrArg (fun t => some (24, t)) (by have h := in6_form v 0 n (by omega) (by simpa using fun h => hE.2 hf h); simp only [Nat.zero_add] at h; exact h)
  · simp only [printer, famTail, Nat.reduceEqDiff, if_false, if_true]; exact congrArg (fun t => some (12, t)) (nl_form v (by omega))
  · simp only [printer, famTail, Nat.reduceEqDiff, if_false, if_true]; exact congrArg (fun t => some (20, t)) (ll_form v n (by omega) hn)
  · simp only [printer, famTail, Nat.reduceEqDiff, if_false, if_true]; exact congrArg (fun t => some (3, t)) (bt_form v n hn (by omega))
  · simp only [printer, famTail, Nat.reduceEqDiff, if_false, if_true]; exact congrArg (fun t => some (36, t)) (rxrpc_form v n hn (by omega))
  · simp only [printer, famTail, Nat.reduceEqDiff, if_false, if_true]; exact congrArg (fun t => some (20, t)) (ieee_form v (by omega))
  · simp only [printer, famTail, Nat.reduceEqDiff, if_false, if_true]; exact congrArg (fun t => some (25, t)) (alg_form v n hn (by omega))
  · simp only [printer, famTail, Nat.reduceEqDiff, if_false, if_true]; exact congrArg (fun t => some (16, t)) (nfc_form v _ n hn (by omega))
  · simp only [printer, famTail, Nat.reduceEqDiff, if_false, if_true]; exact congrArg (fun t => some (16, t)) (vsock_form v (by omega))
  · simp only [printer, famTail, Nat.reduceEqDiff, if_false, if_true]; exact congrArg (fun t => some (12, t)) (qrtr_form v (by omega))
  · simp only [printer, famTail, Nat.reduceEqDiff, if_false, if_true]; exact congrArg (fun t => some (16, t)) (xdp_form v (by omega))
  · simp only [printer, famTail, Nat.reduceEqDiff, if_false, if_true]; exact congrArg (fun t => some (12, t)) (mctp_form v (by omega))

theorem printer_none (e : Env) (f : Nat) (buf : List Byte) (n : Nat) (h : minLen f = none) : printer e f buf n = none := by
  by_cases hf : f ≤ 45
  · interval_cases f <;> first | rfl | (simp only [minLen, reduceCtorEq] at h)
  · obtain ⟨k, rfl⟩ : ∃ k, f = k + 46 := ⟨f - 46, by omega⟩
    rfl

theorem printer_min (e : Env) (f m : Nat) (buf : List Byte) (n : Nat) (h : minLen f = some m) :
    ∃ t, printer e f buf n = some (m, t) := by
  rcases minLen_cases f m h with ⟨rfl, rfl⟩ | ⟨rfl, rfl⟩ | ⟨rfl, rfl⟩ | ⟨rfl, rfl⟩ | ⟨rfl, rfl⟩ | ⟨rfl, rfl⟩ | ⟨rfl, rfl⟩ | ⟨rfl, rfl⟩ |
    ⟨rfl, rfl⟩ | ⟨rfl, rfl⟩ | ⟨rfl, rfl⟩ | ⟨rfl, rfl⟩ | ⟨rfl, rfl⟩ | ⟨rfl, rfl⟩ | ⟨rfl, rfl⟩ | ⟨rfl, rfl⟩ | ⟨rfl, rfl⟩ <;> exact ⟨_, rfl⟩

theorem print_form (v : View N b buf) (e : Env) (n : Nat) (hn : n ≤ N) (h2 : 2 ≤ n) (hE : Enough e.sec N b buf n) :
    printSockaddr e buf n = some (fam b :: tail e b n) := by
  rw [printSockaddr, view_rdNum v _ _ (by omega), Option.bind_some]
  have hcat : ∀ (t : List Tok), cat [some [Tok.num "sa_family" (leAt b 0 2)], some t] = some (fam b :: t) := by
    intro t; simp [cat, fam]
  by_cases hb : n > 2
  · rw [if_pos hb]
    rcases hm : minLen (leAt b 0 2) with _ | m
    · rw [printer_none e _ buf n hm]
      simp only
      rw [raw_form v n hn h2, hcat, tail, if_neg (by omega), hm]
      simp
    · by_cases hle : m ≤ n
      · rw [printer_form v e n _ m hn hb rfl hm hle hE]
        simp only
        rw [if_pos hle, hcat, tail, if_neg (by omega), hm, if_neg (by simpa using hle)]
      · obtain ⟨t, ht⟩ := printer_min e _ m buf n hm
        rw [ht]
        simp only
        rw [if_neg (by omega), raw_form v n hn h2, hcat, tail, if_neg (by omega), hm]
        simp; omega
  · rw [if_neg hb, hcat, tail, if_pos (by omega)]

end Strace.Sock
