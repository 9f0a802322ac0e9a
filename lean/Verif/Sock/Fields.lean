import Verif.Sock.Props
/-!
# Socket addresses: the fields shown
-/
namespace Strace.Sock
open Strace.Sized (Byte moven fetch le Passed)

variable {N : Nat} {b buf : List Byte}

/-- a field is 0 -/
def Fld.Zero (f : Fld) (b : List Byte) : Prop := ∀ i, i < f.width → b.getD (f.off + i) 0 = 0

/-- each field is shown with its value, and nothing else is shown under its name -/
def Fits (b : List Byte) (l : List Fld) (t : List Tok) : Prop :=
  ∀ f ∈ l, (f.quiet = false ∨ ¬ f.Zero b → f.tok b ∈ t) ∧ ∀ k ∈ t, nameOf k = some f.name → k = f.tok b

theorem sum_zero : ∀ (l : List Nat), l.sum = 0 → ∀ x ∈ l, x = 0
  | [], _, x, h => by simp at h
  | y :: l, hs, x, h => by
    rw [List.sum_cons] at hs
    rcases List.mem_cons.1 h with h | h
    · omega
    · exact sum_zero l (by omega) x h

theorem leAt_zero (b : List Byte) (off n : Nat) (h : leAt b off n = 0) : ∀ i, i < n → b.getD (off + i) 0 = 0 := by
  intro i hi
  have h1 : (b.getD (off + i) 0).val * 256 ^ i = 0 := by
    rw [leAt] at h
    exact sum_zero _ h _ (List.mem_map.2 ⟨i, List.mem_range.2 hi, rfl⟩)
  have h2 : (b.getD (off + i) 0).val = 0 := by
    rcases Nat.mul_eq_zero.1 h1 with h | h
    · exact h
    · exact absurd h (Nat.pos_iff_ne_zero.1 (Nat.pow_pos (by decide)))
  exact Fin.ext h2

theorem fits_cons (f : Fld) (l : List Fld) (t : List Tok) : Fits b (f :: l) t ↔
    ((f.quiet = false ∨ ¬ f.Zero b → f.tok b ∈ t) ∧ ∀ k ∈ t, nameOf k = some f.name → k = f.tok b) ∧ Fits b l t := by
  constructor
  · intro h; exact ⟨h f (by simp), fun g hg => h g (by simp [hg])⟩
  · intro h g hg
    rcases List.mem_cons.1 hg with h1 | h1
    · subst h1; exact h.1
    · exact h.2 g h1

theorem fits_nil (t : List Tok) : Fits b [] t := by intro f hf; simp at hf

theorem fits_append (l m : List Fld) (t : List Tok) : Fits b (l ++ m) t ↔ Fits b l t ∧ Fits b m t := by
  constructor
  · intro h; exact ⟨fun f hf => h f (by simp [hf]), fun f hf => h f (by simp [hf])⟩
  · rintro ⟨h1, h2⟩ f hf
    rcases List.mem_append.1 hf with h | h
    · exact h1 f h
    · exact h2 f h

/-- the text of a number that is shown only if it is not 0 -/
def quietNum (b : List Byte) (name : String) (off n : Nat) : List Tok :=
  if leAt b off n = 0 then [] else [.num name (leAt b off n)]

theorem mem_quiet (k : Tok) (name : String) (off n : Nat) :
    k ∈ quietNum b name off n ↔ leAt b off n ≠ 0 ∧ k = .num name (leAt b off n) := by
  unfold quietNum; split <;> simp_all

/-- the family in front -/
def fam (b : List Byte) : Tok := .num "sa_family" (leAt b 0 2)

/-! ### What each family shows -/

theorem in_form (v : View N b buf) (o : Nat) (h : o + 8 ≤ N) : inData buf o =
    some [.net "sin_port" (beAt b (o + 2) 2), .raw "sin_addr" (bytesAt b (o + 4) 4)] := by
  rw [inData, view_net v _ _ _ (by omega), view_raw v _ _ _ (by omega)]; rfl

theorem in6_form (v : View N b buf) (o n : Nat) (h : o + 24 ≤ N) (hn : 24 < n → o + 28 ≤ N) : in6Data buf o n =
    some ([.net "sin6_port" (beAt b (o + 2) 2), .net "sin6_flowinfo" (beAt b (o + 4) 4), .raw "sin6_addr" (bytesAt b (o + 8) 16)] ++
      (if n ≤ 24 then [] else [.num "sin6_scope_id" (leAt b (o + 24) 4)])) := by
  rw [in6Data, view_net v _ _ _ (by omega), view_net v _ _ _ (by omega), view_raw v _ _ _ (by omega)]
  by_cases h1 : n ≤ 24
  · rw [if_pos h1, if_pos h1]; rfl
  · rw [if_neg h1, if_neg h1, view_num v _ _ _ (by omega)]; rfl

theorem ipx_form (v : View N b buf) (h : 16 ≤ N) : ipxData buf =
    some ([.net "sipx_port" (beAt b 2 2), .net "sipx_network" (beAt b 4 4), .raw "sipx_node" (bytesAt b 8 6),
      .num "sipx_type" (leAt b 14 1)] ++ quietNum b "sipx_zero" 15 1) := by
  rw [ipxData, view_net v _ _ _ (by omega), view_net v _ _ _ (by omega), view_raw v _ _ _ (by omega),
    view_num v _ _ _ (by omega), view_num0 v _ _ _ (by omega)]
  simp [cat, quietNum]

theorem nl_form (v : View N b buf) (h : 12 ≤ N) : nlData buf =
    some (quietNum b "nl_pad" 2 2 ++ [.num "nl_pid" (leAt b 4 4), .num "nl_groups" (leAt b 8 4)]) := by
  rw [nlData, view_num0 v _ _ _ (by omega), view_num v _ _ _ (by omega), view_num v _ _ _ (by omega)]
  rfl

theorem ll_loop (v : View N b buf) (oob : Nat) : ∀ (k i : Nat), 12 + min oob (i + k) ≤ N →
    llLoop buf oob i k = some (bytesAt b (12 + i) (min k (oob - i)), decide (i + k > oob ∧ 0 < k)) := by
  intro k
  induction k with
  | zero => intro i _; simp [llLoop, bytesAt]
  | succ k ih =>
    intro i h
    rw [llLoop]
    by_cases hi : i ≥ oob
    · rw [if_pos hi]
      have h1 : min (k + 1) (oob - i) = 0 := by omega
      have h2 : i + (k + 1) > oob ∧ 0 < k + 1 := ⟨by omega, by omega⟩
      simp [h1, bytesAt]; omega
    · rw [if_neg hi, view_get v _ (by omega)]
      simp only
      rw [ih (i + 1) (by omega), Option.map_some]
      have hb : bytesAt b (12 + i) (min (k + 1) (oob - i)) = b.getD (12 + i) 0 :: bytesAt b (12 + (i + 1)) (min k (oob - (i + 1))) := by
        have : min (k + 1) (oob - i) = min k (oob - (i + 1)) + 1 := by omega
        rw [this, bytesAt, List.range_succ_eq_map, List.map_cons, List.map_map, bytesAt, Nat.add_zero]
        congr 1
        apply List.map_congr_left; intro j _
        simp only [Function.comp, Nat.succ_eq_add_one]
        congr 1; omega
      rw [hb]
      congr 2
      apply decide_eq_decide.2
      omega

theorem ll_form (v : View N b buf) (n : Nat) (h : 20 ≤ N) (hn : n ≤ N) : llData buf n =
    some ([.net "sll_protocol" (beAt b 2 2), .num "sll_ifindex" (leAt b 4 4), .num "sll_hatype" (leAt b 8 2),
      .num "sll_pkttype" (leAt b 10 1), .num "sll_halen" (leAt b 11 1)] ++
      (if leAt b 11 1 = 0 then [] else
        [.arr "sll_addr" (bytesAt b 12 (min (leAt b 11 1) (n - 12))) (decide (leAt b 11 1 > n - 12))])) := by
  rw [llData, view_rdNum v _ _ (by omega), Option.bind_some, view_net v _ _ _ (by omega), view_num v _ _ _ (by omega),
    view_num v _ _ _ (by omega), view_num v _ _ _ (by omega), view_num v _ _ _ (by omega)]
  by_cases hz : leAt b 11 1 = 0
  · rw [if_pos hz, if_pos hz]; rfl
  · rw [if_neg hz, if_neg hz, ll_loop v _ _ _ (by omega)]
    simp only [Option.map_some, cat, Option.bind_some, List.append_nil, Nat.add_zero, Nat.sub_zero, Nat.zero_add]
    have : (leAt b 11 1 > n - 12 ∧ 0 < leAt b 11 1) ↔ leAt b 11 1 > n - 12 := by omega
    simp only [this]; rfl

theorem raw_form (v : View N b buf) (n : Nat) (hn : n ≤ N) (h2 : 2 ≤ n) : rawData buf n =
    some [.str "sa_data" (bytesAt b 2 (n - 2)) false] := by
  rw [rawData, view_rd v _ _ (by omega)]; rfl

/-- what a Bluetooth address shows -/
def btShown (b : List Byte) (n : Nat) : List Tok :=
  if n = 4 then [.num "hci_dev" (leAt b 2 2)]
  else if n = 6 then [.num "hci_dev" (leAt b 2 2), .num "hci_channel" (leAt b 4 2)]
  else if n = 8 then [.raw "sco_bdaddr" (bytesAt b 2 6)]
  else if n = 10 then [.raw "rc_bdaddr" (bytesAt b 2 6), .num "rc_channel" (leAt b 8 1)]
  else if n = 12 then [.num "l2_psm" (leAt b 2 2), .raw "l2_bdaddr" (bytesAt b 4 6), .num "l2_cid" (leAt b 10 2)]
  else if n = 14 then
    [.num "l2_psm" (leAt b 2 2), .raw "l2_bdaddr" (bytesAt b 4 6), .num "l2_cid" (leAt b 10 2),
      .num "l2_bdaddr_type" (leAt b 12 1)]
  else [.str "sa_data" (bytesAt b 2 (n - 2)) false]

theorem bt_form (v : View N b buf) (n : Nat) (hn : n ≤ N) (h2 : 2 ≤ n) : btData buf n = some (btShown b n) := by
  unfold btData btShown
  by_cases h4 : n = 4
  · subst h4; rw [if_pos (by simp), if_pos rfl, view_num v _ _ _ (by omega), if_neg (by decide)]; rfl
  · by_cases h6 : n = 6
    · subst h6
      rw [if_pos (by simp), view_num v _ _ _ (by omega), if_pos rfl, view_num v _ _ _ (by omega)]
      rfl
    · rw [if_neg (by omega), if_neg h4, if_neg h6]
      by_cases h8 : n = 8
      · subst h8; rw [if_pos rfl, if_pos rfl, view_raw v _ _ _ (by omega)]
      · rw [if_neg h8, if_neg h8]
        by_cases h10 : n = 10
        · subst h10; rw [if_pos rfl, if_pos rfl, view_raw v _ _ _ (by omega), view_num v _ _ _ (by omega)]; rfl
        · rw [if_neg h10, if_neg h10]
          by_cases h12 : n = 12
          · subst h12
            rw [if_pos (by simp), if_pos rfl, view_num v _ _ _ (by omega), view_raw v _ _ _ (by omega),
              view_num v _ _ _ (by omega), if_neg (by decide)]
            rfl
          · by_cases h14 : n = 14
            · subst h14
              rw [if_pos (by simp), view_num v _ _ _ (by omega), view_raw v _ _ _ (by omega),
                view_num v _ _ _ (by omega), if_pos rfl, view_num v _ _ _ (by omega)]
              rfl
            · rw [if_neg (by omega), if_neg h12, if_neg h14, raw_form v n hn h2]

/-- the rest of an RxRPC transport address -/
def restShown (b : List Byte) (n : Nat) : List Tok := if n > 0 then [.str "" (bytesAt b 10 n) false] else []

theorem rest_form (v : View N b buf) (n : Nat) (hn : 10 + n ≤ N) : rest buf n = some (restShown b n) := by
  unfold rest restShown
  split
  · rw [view_rd v _ _ hn]; rfl
  · rfl

/-- the transport address of RxRPC -/
def transport (b : List Byte) (n : Nat) : List Tok :=
  if leAt b 8 2 = 2 then
    [.opened "sin", .num "sin_family" (leAt b 8 2)] ++
      (if leAt b 6 2 ≥ 16 then [.net "sin_port" (beAt b 10 2), .raw "sin_addr" (bytesAt b 12 4)]
       else restShown b (min (leAt b 6 2) (n - 8) - 2)) ++ [.closed]
  else if leAt b 8 2 = 10 then
    [.opened "sin6", .num "sin6_family" (leAt b 8 2)] ++
      (if leAt b 6 2 ≥ 24 then
        [.net "sin6_port" (beAt b 10 2), .net "sin6_flowinfo" (beAt b 12 4), .raw "sin6_addr" (bytesAt b 16 16)] ++
          (if min (leAt b 6 2) (n - 8) ≤ 24 then [] else [.num "sin6_scope_id" (leAt b 32 4)])
       else restShown b (min (leAt b 6 2) (n - 8) - 2)) ++ [.closed]
  else .num "family" (leAt b 8 2) :: restShown b (min (leAt b 6 2) (n - 8) - 2)

theorem rxrpc_form (v : View N b buf) (n : Nat) (hn : n ≤ N) (h2 : 36 ≤ n) : rxrpcData buf n =
    some ([.num "srx_service" (leAt b 2 2), .num "transport_type" (leAt b 4 2), .num "transport_len" (leAt b 6 2),
      .opened "transport"] ++ transport b n ++ [.closed]) := by
  rw [rxrpcData, view_rdNum v _ _ (by omega), Option.bind_some, view_rdNum v _ _ (by omega), Option.bind_some,
    view_num v _ _ _ (by omega), view_num v _ _ _ (by omega), view_num v _ _ _ (by omega)]
  simp only
  rw [view_num v _ _ _ (by omega), view_num v _ _ _ (by omega), view_num v _ _ _ (by omega), in_form v 8 (by omega),
    in6_form v 8 _ (by omega) (by omega), rest_form v _ (by omega)]
  unfold transport
  by_cases h4 : leAt b 8 2 = 2
  · rw [if_pos h4, if_pos h4]
    by_cases h : leAt b 6 2 ≥ 16
    · rw [if_pos h, if_pos h]; rfl
    · rw [if_neg h, if_neg h]; simp [cat]
  · rw [if_neg h4, if_neg h4]
    by_cases h6 : leAt b 8 2 = 10
    · rw [if_pos h6, if_pos h6]
      by_cases h : leAt b 6 2 ≥ 24
      · rw [if_pos h, if_pos h]; simp [cat]
      · rw [if_neg h, if_neg h]; simp [cat]
    · rw [if_neg h6, if_neg h6]; simp [cat]

theorem ieee_form (v : View N b buf) (hn : 20 ≤ N) : ieeeData buf =
    some ([.opened "addr", .num "addr_type" (leAt b 4 4), .num "pan_id" (leAt b 8 2)] ++
      (if leAt b 4 4 = 0 then [] else if leAt b 4 4 = 2 then [.num "short_addr" (leAt b 10 2)]
       else [.raw "hwaddr" (bytesAt b 10 8)]) ++ [.closed]) := by
  rw [ieeeData, view_rdNum v _ _ (by omega), Option.bind_some, view_num v _ _ _ (by omega), view_num v _ _ _ (by omega),
    view_num v _ _ _ (by omega), view_raw v _ _ _ (by omega)]
  split
  · rfl
  · split <;> rfl

/-- a string with its terminating NUL in a field of `size` bytes -/
def strTok (b : List Byte) (name : String) (off size : Nat) : Tok :=
  .str name (upToNul (bytesAt b off (size - 1))) (decide (¬ ∃ i, i < size ∧ b.getD (off + i) 0 = 0))

theorem x25_form (v : View N b buf) (hn : 18 ≤ N) : x25Data buf = some [strTok b "x25_addr" 2 16] := by
  rw [x25Data, view_cstr v _ _ _ (by omega) (by omega)]; rfl

theorem alg_form (v : View N b buf) (n : Nat) (hn : n ≤ N) (h : 25 ≤ n) : algData buf n =
    some [strTok b "salg_type" 2 14, .num "salg_feat" (leAt b 16 4), .num "salg_mask" (leAt b 20 4),
      strTok b "salg_name" 24 (n - 24)] := by
  rw [algData, view_cstr v _ _ _ (by omega) (by omega), view_num v _ _ _ (by omega), view_num v _ _ _ (by omega),
    view_cstr v _ _ _ (by omega) (by omega)]; rfl

/-- the length of an NFC service name -/
def nameLen (w : Nat) (b : List Byte) : Nat := if w = 8 then leAt b 88 8 else leAt b 84 4

theorem nfc_form (v : View N b buf) (w n : Nat) (hn : n ≤ N) (h : 16 ≤ n) : nfcData w buf n =
    some ([.num "dev_idx" (leAt b 4 4), .num "target_idx" (leAt b 8 4), .num "nfc_protocol" (leAt b 12 4)] ++
      (if n < (if w = 8 then 96 else 88) then (if n > 16 then [.more] else [])
       else [.num "dsap" (leAt b 16 1), .num "ssap" (leAt b 17 1), .str "service_name" (bytesAt b 18 (min 63 (nameLen w b))) false,
        .num "service_name_len" (nameLen w b)])) := by
  rw [nfcData, view_num v _ _ _ (by omega), view_num v _ _ _ (by omega), view_num v _ _ _ (by omega)]
  by_cases h1 : n < (if w = 8 then 96 else 88)
  · rw [if_pos h1, if_pos h1]; simp [cat]
  · rw [if_neg h1, if_neg h1]
    have hl : (if w = 8 then rdNum buf 88 8 else rdNum buf 84 4) = some (nameLen w b) := by
      unfold nameLen
      split
      · rename_i hw; rw [if_pos hw] at h1; exact view_rdNum v _ _ (by omega)
      · rename_i hw; rw [if_neg hw] at h1; exact view_rdNum v _ _ (by omega)
    have h88 : 88 ≤ n := by split at h1 <;> omega
    rw [hl, Option.bind_some, view_num v _ _ _ (by omega), view_num v _ _ _ (by omega), view_rd v _ _ (by omega)]
    rfl

theorem bytes_all_zero (b : List Byte) (off n : Nat) : (bytesAt b off n).all (· == 0) = true ↔
    ∀ i, i < n → b.getD (off + i) 0 = 0 := by
  simp [bytesAt]

theorem vsock_form (v : View N b buf) (h : 16 ≤ N) : vsockData buf =
    some (quietNum b "svm_reserved1" 2 2 ++ [.num "svm_cid" (leAt b 8 4), .num "svm_port" (leAt b 4 4), .num "svm_flags" (leAt b 12 1)] ++
      (if (bytesAt b 13 3).all (· == 0) = true then [] else [.raw "svm_zero" (bytesAt b 13 3)])) := by
  rw [vsockData, view_rd v _ _ (by omega), Option.bind_some, view_num0 v _ _ _ (by omega), view_num v _ _ _ (by omega),
    view_num v _ _ _ (by omega), view_num v _ _ _ (by omega), view_raw v _ _ _ (by omega)]
  generalize (bytesAt b 13 3).all (· == 0) = z
  cases z <;> simp [cat, quietNum]

theorem qrtr_form (v : View N b buf) (h : 12 ≤ N) : qrtrData buf =
    some [.num "sq_node" (leAt b 4 4), .num "sq_port" (leAt b 8 4)] := by
  rw [qrtrData, view_num v _ _ _ (by omega), view_num v _ _ _ (by omega)]; rfl

theorem xdp_form (v : View N b buf) (h : 16 ≤ N) : xdpData buf =
    some ([.num "sxdp_flags" (leAt b 2 2), .num "sxdp_ifindex" (leAt b 4 4), .num "sxdp_queue_id" (leAt b 8 4)] ++
      (if leAt b 2 2 % 2 = 1 then [.num "sxdp_shared_umem_fd" (leAt b 12 4)] else quietNum b "sxdp_shared_umem_fd" 12 4)) := by
  rw [xdpData, view_rdNum v _ _ (by omega), Option.bind_some, view_num v _ _ _ (by omega), view_num v _ _ _ (by omega),
    view_num v _ _ _ (by omega), view_num v _ _ _ (by omega), view_num0 v _ _ _ (by omega)]
  split <;> simp [cat, quietNum]

theorem mctp_form (v : View N b buf) (h : 12 ≤ N) : mctpData buf =
    some (quietNum b "__smctp_pad0" 2 2 ++ [.num "smctp_network" (leAt b 4 4), .opened "smctp_addr", .num "s_addr" (leAt b 8 1),
      .closed, .num "smctp_type" (leAt b 9 1), .num "smctp_tag" (leAt b 10 1)] ++ quietNum b "__smctp_pad1" 11 1) := by
  rw [mctpData, view_num0 v _ _ _ (by omega), view_num v _ _ _ (by omega), view_num v _ _ _ (by omega),
    view_num v _ _ _ (by omega), view_num v _ _ _ (by omega), view_num0 v _ _ _ (by omega)]
  simp [cat, quietNum]

end Strace.Sock
