import Verif.Sock.Shown
/-!
# Socket addresses: theorems
-/
namespace Strace.Sock
open Strace.Sized (Byte moven fetch le Passed)

variable {N : Nat} {b buf : List Byte}

/-! ### The fields of each family -/

theorem quiet_nz (off n : Nat) (name : String) :
    (¬ (⟨name, .host, off, n, true⟩ : Fld).Zero b → ¬ leAt b off n = 0) ↔ True :=
  iff_true_intro fun h hz => h (leAt_zero b off n hz)

macro "fields" : tactic => `(tactic|
  simp [abi, famAbi, inet4, inet6, scope, fits_cons, fits_nil, fits_append, Fld.tok, nameOf, fam, famTail, mem_quiet, or_imp, forall_and,
    unShown, strTok, quiet_nz])

theorem fits_in (e : Env) (h : leAt b 0 2 = 2) : Fits b (abi b) (fam b :: famTail e b b.length 2) := by
  rw [abi, h]; fields

theorem fits_ipx (e : Env) (h : leAt b 0 2 = 4) : Fits b (abi b) (fam b :: famTail e b b.length 4) := by
  rw [abi, h]; fields

theorem fits_nl (e : Env) (h : leAt b 0 2 = 16) : Fits b (abi b) (fam b :: famTail e b b.length 16) := by
  rw [abi, h]; fields

theorem fits_qrtr (e : Env) (h : leAt b 0 2 = 42) : Fits b (abi b) (fam b :: famTail e b b.length 42) := by
  rw [abi, h]; fields

theorem fits_mctp (e : Env) (h : leAt b 0 2 = 45) : Fits b (abi b) (fam b :: famTail e b b.length 45) := by
  rw [abi, h]; fields

theorem fits_x25 (e : Env) (h : leAt b 0 2 = 9) : Fits b (abi b) (fam b :: famTail e b b.length 9) := by
  rw [abi, h]; fields

theorem fits_un (e : Env) (h : leAt b 0 2 = 1) : Fits b (abi b) (fam b :: famTail e b b.length 1) := by
  rw [abi, h]
  by_cases h2 : b.getD 2 0 = 0
  · simp only [famTail, unShown, h2, if_true]; fields
  · simp only [famTail, unShown, h2, if_true, if_false]; fields

theorem fits_alg (e : Env) (h : leAt b 0 2 = 38) : Fits b (abi b) (fam b :: famTail e b b.length 38) := by
  rw [abi, h]; fields

theorem fits_in6 (e : Env) (h : leAt b 0 2 = 10) : Fits b (abi b) (fam b :: famTail e b b.length 10) := by
  rw [abi, h]
  by_cases hn : b.length > 24
  · have : ¬ b.length ≤ 24 := by omega
    simp only [famAbi, famTail, hn, this, if_true, if_false]; fields
  · have : b.length ≤ 24 := by omega
    simp only [famAbi, famTail, hn, this, if_true, if_false]; fields

theorem fits_ll (e : Env) (h : leAt b 0 2 = 17) : Fits b (abi b) (fam b :: famTail e b b.length 17) := by
  rw [abi, h]
  by_cases hn : leAt b 11 1 = 0
  · simp only [famTail, hn, if_true]; fields; simp [hn]
  · simp only [famTail, hn, if_false]; fields

theorem fits_nfc (e : Env) (h : leAt b 0 2 = 39) : Fits b (abi b) (fam b :: famTail e b b.length 39) := by
  rw [abi, h]
  by_cases hn : b.length < (if e.w = 8 then 96 else 88)
  · simp only [famTail, hn, if_true]
    by_cases h16 : b.length > 16
    · simp only [h16, if_true]; fields
    · simp only [h16, if_false]; fields
  · simp only [famTail, hn, if_false]; fields

theorem fits_xdp (e : Env) (h : leAt b 0 2 = 44) : Fits b (abi b) (fam b :: famTail e b b.length 44) := by
  rw [abi, h]
  by_cases hn : leAt b 2 2 % 2 = 1
  · simp only [famTail, hn, if_true]; fields
  · simp only [famTail, hn, if_false]; fields

theorem fits_ieee (e : Env) (h : leAt b 0 2 = 36) : Fits b (abi b) (fam b :: famTail e b b.length 36) := by
  rw [abi, h]
  by_cases h0 : leAt b 4 4 = 0
  · simp only [famAbi, famTail, h0, if_true]; fields; simp [h0]
  · by_cases h2 : leAt b 4 4 = 2
    · simp only [famAbi, famTail, h0, h2, if_true, if_false]; fields; simp [h2]
    · simp only [famAbi, famTail, h0, h2, if_true, if_false]; fields

theorem fits_vsock (e : Env) (h : leAt b 0 2 = 40) : Fits b (abi b) (fam b :: famTail e b b.length 40) := by
  rw [abi, h]
  by_cases hz : (bytesAt b 13 3).all (· == 0) = true
  · have hz' : (⟨"svm_zero", .bytes, 13, 3, true⟩ : Fld).Zero b := (bytes_all_zero b 13 3).1 hz
    simp only [famTail, hz, if_true]; fields
    exact hz'
  · simp only [famTail, hz, if_false]; fields

theorem fits_ax25 (e : Env) (h : leAt b 0 2 = 3) : Fits b (abi b) (fam b :: famTail e b b.length 3) := by
  rw [abi, h]
  by_cases hs : leAt b 12 4 = 0 ∧ b.length ≤ 16
  · simp only [famTail, ax25Shown, hs, if_true]; fields; simp [hs]
  · simp only [famTail, ax25Shown, hs, if_false]
    by_cases hw : wantDigis b = 0 <;> by_cases hm : b.length > hasDigis b.length * 7 + 16 <;>
      simp only [hw, hm, if_true, if_false] <;> fields

theorem fits_bt (e : Env) (h : leAt b 0 2 = 31) : Fits b (abi b) (fam b :: famTail e b b.length 31) := by
  rw [abi, h]
  generalize hn : b.length = n
  by_cases h4 : n = 4
  · simp only [famAbi, famTail, btShown, hn, h4, if_true, Nat.reduceEqDiff, if_false]; fields
  by_cases h6 : n = 6
  · simp only [famAbi, famTail, btShown, hn, h6, if_true, Nat.reduceEqDiff, if_false]; fields
  by_cases h8 : n = 8
  · simp only [famAbi, famTail, btShown, hn, h8, if_true, Nat.reduceEqDiff, if_false]; fields
  by_cases h10 : n = 10
  · simp only [famAbi, famTail, btShown, hn, h10, if_true, Nat.reduceEqDiff, if_false]; fields
  by_cases h12 : n = 12
  · simp only [famAbi, famTail, btShown, hn, h12, if_true, Nat.reduceEqDiff, if_false]; fields
  by_cases h14 : n = 14
  · simp only [famAbi, famTail, btShown, hn, h14, if_true, Nat.reduceEqDiff, if_false]; fields
  simp only [famAbi, famTail, btShown, hn, h4, h6, h8, h10, h12, h14, if_false]; fields

set_option maxHeartbeats 1600000 in
theorem fits_rxrpc (e : Env) (h : leAt b 0 2 = 33) (hl : 36 ≤ b.length) : Fits b (abi b) (fam b :: famTail e b b.length 33) := by
  rw [abi, h]
  by_cases h4 : leAt b 8 2 = 2
  · by_cases ht : leAt b 6 2 ≥ 16
    · simp only [famAbi, famTail, transport, h4, ht, if_true, Nat.reduceEqDiff, if_false]; fields; simp [h4]
    · simp only [famAbi, famTail, transport, h4, ht, if_true, Nat.reduceEqDiff, if_false]
      by_cases hr : min (leAt b 6 2) (b.length - 8) - 2 > 0
      · simp only [restShown, hr, if_true]; fields; simp [h4]
      · simp only [restShown, hr, if_false]; fields; simp [h4]
  · by_cases h6 : leAt b 8 2 = 10
    · by_cases ht : leAt b 6 2 ≥ 24
      · by_cases hs : leAt b 6 2 > 24 ∧ b.length > 32
        · have : ¬ min (leAt b 6 2) (b.length - 8) ≤ 24 := by omega
          simp only [famAbi, famTail, transport, h4, h6, ht, hs, this, if_true, Nat.reduceEqDiff, if_false]; fields; simp [h6]
        · have : min (leAt b 6 2) (b.length - 8) ≤ 24 := by omega
          simp only [famAbi, famTail, transport, h4, h6, ht, hs, this, if_true, Nat.reduceEqDiff, if_false]; fields; simp [h6]
      · have hs : ¬ (leAt b 6 2 > 24 ∧ b.length > 32) := by omega
        simp only [famAbi, famTail, transport, h4, h6, ht, hs, if_true, Nat.reduceEqDiff, if_false]
        by_cases hr : min (leAt b 6 2) (b.length - 8) - 2 > 0
        · simp only [restShown, hr, if_true]; fields; simp [h6]
        · simp only [restShown, hr, if_false]; fields; simp [h6]
    · simp only [famAbi, famTail, transport, h4, h6, if_false]
      by_cases hr : min (leAt b 6 2) (b.length - 8) - 2 > 0
      · simp only [restShown, hr, if_true]; fields
      · simp only [restShown, hr, if_false]; fields

theorem fits_known (e : Env) (hk : Known b) : Fits b (abi b) (fam b :: tail e b b.length) := by
  obtain ⟨m, hm, hle, h2⟩ := hk
  rw [tail, if_neg (by omega), hm, if_neg (by simpa using hle)]
  generalize hf : leAt b 0 2 = f at *
  rcases minLen_cases f m hm with ⟨rfl, rfl⟩ | ⟨rfl, rfl⟩ | ⟨rfl, rfl⟩ | ⟨rfl, rfl⟩ | ⟨rfl, rfl⟩ | ⟨rfl, rfl⟩ | ⟨rfl, rfl⟩ | ⟨rfl, rfl⟩ |
    ⟨rfl, rfl⟩ | ⟨rfl, rfl⟩ | ⟨rfl, rfl⟩ | ⟨rfl, rfl⟩ | ⟨rfl, rfl⟩ | ⟨rfl, rfl⟩ | ⟨rfl, rfl⟩ | ⟨rfl, rfl⟩ | ⟨rfl, rfl⟩
  · exact fits_un e hf
  · exact fits_in e hf
  · exact fits_ax25 e hf
  · exact fits_ipx e hf
  · exact fits_x25 e hf
  · exact fits_in6 e hf
  · exact fits_nl e hf
  · exact fits_ll e hf
  · exact fits_bt e hf
  · exact fits_rxrpc e hf hle
  · exact fits_ieee e hf
  · exact fits_alg e hf
  · exact fits_nfc e hf
  · exact fits_vsock e hf
  · exact fits_qrtr e hf
  · exact fits_xdp e hf
  · exact fits_mctp e hf

/-! ### Decoding -/

theorem view_buffer (l : List Byte) (h : l.length ≤ 128) : View 129 l (l ++ List.replicate (129 - l.length) 0) where
  len := by simp; omega
  val := by
    intro i hi
    simp only [List.getD_eq_getElem?_getD]
    by_cases h1 : i < l.length
    · rw [List.getElem?_append_left h1]
    · rw [List.getElem?_append_right (by omega), List.getElem?_replicate, if_pos (by omega), List.getElem?_eq_none (by omega)]
      rfl

theorem moven_len (mem : Nat → Option Byte) : ∀ (n a : Nat) (l : List Byte), moven mem a n = some l → l.length = n
  | 0, _, l, h => by simp [moven] at h; simp [h]
  | n + 1, a, l, h => by
    rw [moven] at h
    rcases h1 : mem a with _ | x
    · rw [h1] at h; simp at h
    · rcases h2 : moven mem ((a + 1) % 2 ^ 64) n with _ | r
      · rw [h1, h2] at h; simp at h
      · rw [h1, h2] at h; simp at h; subst h; simp [moven_len mem n _ r h2]

theorem fetch_len (mem : Nat → Option Byte) (vb : Bool) (a n : Nat) (l : List Byte) (h : fetch mem vb a n = some l) : l.length = n := by
  unfold fetch at h
  split at h
  · simp at h
  · exact moven_len mem n a l h

theorem decode_of_fetch (e : Env) (mem : Nat → Option Byte) (vb : Bool) (a : Nat) (addrlen : Int) (h2 : 2 ≤ addrlen) (l : List Byte)
    (h : fetch mem vb a (min addrlen 128).toNat = some l) :
    decodeSockaddr e mem vb a addrlen = some (fam l :: tail e l l.length) := by
  have hl := fetch_len mem vb a _ l h
  have hn : (if addrlen > 128 then 128 else addrlen.toNat) = (min addrlen 128).toNat := by split <;> omega
  rw [decodeSockaddr, if_neg (by omega)]
  simp only
  rw [hn, h]
  simp only
  rw [← hl]
  apply print_form (view_buffer l (by omega)) e l.length (by omega) (by omega)
  refine ⟨fun _ _ => ⟨by omega, fun _ => ?_⟩, fun _ _ => by decide⟩
  rw [List.drop_append]
  apply List.mem_append_right
  rw [List.drop_replicate, List.mem_replicate]
  exact ⟨by omega, rfl⟩

theorem decode_form (e : Env) (mem : Nat → Option Byte) (a : Nat) (addrlen : Int) (h : Passed mem a b) (h0 : a ≠ 0) (ha : a < 2 ^ 64)
    (h2 : 2 ≤ addrlen) (hl : b.length = (min addrlen 128).toNat) :
    decodeSockaddr e mem true a addrlen = some (fam b :: tail e b b.length) := by
  apply decode_of_fetch e mem true a addrlen h2 b
  rw [Strace.Sized.fetch_passed mem b _ a h h0 ha (by omega), ← hl, List.take_length]

/-- Decoding a socket address never reads beyond its buffer, whatever bytes the tracee passes and whatever length it claims. -/
theorem decode_safe (e : Env) (mem : Nat → Option Byte) (vb : Bool) (a : Nat) (addrlen : Int) :
    ∃ t, decodeSockaddr e mem vb a addrlen = some t := by
  by_cases h2 : addrlen < 2
  · exact ⟨_, by rw [decodeSockaddr, if_pos h2]⟩
  · rcases h : fetch mem vb a (min addrlen 128).toNat with _ | l
    · have hn : (if addrlen > 128 then 128 else addrlen.toNat) = (min addrlen 128).toNat := by split <;> omega
      refine ⟨[.addr a], ?_⟩
      rw [decodeSockaddr, if_neg h2]
      simp only
      rw [hn, h]
    · exact ⟨_, decode_of_fetch e mem vb a addrlen (by omega) l h⟩

/-- An address that is too short, or that cannot be read, is shown as a number. -/
theorem decode_not (e : Env) (mem : Nat → Option Byte) (vb : Bool) (a : Nat) (addrlen : Int)
    (h : addrlen < 2 ∨ a = 0 ∨ vb = false ∨ mem a = none) : decodeSockaddr e mem vb a addrlen = some [.addr a] := by
  by_cases h2 : addrlen < 2
  · rw [decodeSockaddr, if_pos h2]
  · have hf : ∀ n, 0 < n → fetch mem vb a n = none := by
      intro n hpos
      unfold fetch
      by_cases h1 : a = 0 ∨ vb = false
      · rw [if_pos h1]
      · rw [if_neg h1]
        have hm : mem a = none := by
          rcases h with h | h | h | h
          · exact absurd h h2
          · exact absurd (Or.inl h) h1
          · exact absurd (Or.inr h) h1
          · exact h
        cases n with
        | zero => omega
        | succ n => rw [moven, hm]
    rw [decodeSockaddr, if_neg h2]
    simp only
    rw [hf _ (by split <;> omega)]

/-- **Each field of an address is shown with the value it has at the place the kernel headers give it, and nothing else is shown under
its name.**  A length beyond 128 counts as 128. -/
theorem fields_shown (e : Env) (mem : Nat → Option Byte) (a : Nat) (addrlen : Int) (h : Passed mem a b) (h0 : a ≠ 0) (ha : a < 2 ^ 64)
    (hl : b.length = (min addrlen 128).toNat) (hk : Known b) :
    ∃ t, decodeSockaddr e mem true a addrlen = some t ∧
      ∀ f ∈ abi b, (f.quiet = false ∨ ¬ f.Zero b → f.tok b ∈ t) ∧ ∀ k ∈ t, nameOf k = some f.name → k = f.tok b := by
  have h2 : 2 < b.length := hk.choose_spec.2.2
  exact ⟨_, decode_form e mem a addrlen h h0 ha (by omega) hl, fits_known e hk⟩

/-- An address of another family, or one that is too short for its family, is shown with all its bytes. -/
theorem raw_shown (e : Env) (mem : Nat → Option Byte) (a : Nat) (addrlen : Int) (h : Passed mem a b) (h0 : a ≠ 0) (ha : a < 2 ^ 64)
    (hl : b.length = (min addrlen 128).toNat) (h2 : 2 < b.length) (hk : ¬ Known b) :
    decodeSockaddr e mem true a addrlen =
      some [.num "sa_family" (leAt b 0 2), .str "sa_data" (b.drop 2) false] := by
  rw [decode_form e mem a addrlen h h0 ha (by omega) hl, tail, if_neg (by omega), if_pos]
  · rw [bytesAt, ← drop_take_eq b _ 2 (by omega), List.take_of_length_le (by simp)]; rfl
  · rcases hm : minLen (leAt b 0 2) with _ | m
    · rfl
    · have : ¬ m ≤ b.length := fun hc => hk ⟨m, hm, hc, h2⟩
      simpa using this

/-- Two addresses of the same length that are shown alike have the same values in all fields. -/
theorem fields_determined (e : Env) (mem mem' : Nat → Option Byte) (a : Nat) (addrlen : Int) (b b' : List Byte) (h : Passed mem a b)
    (h' : Passed mem' a b') (h0 : a ≠ 0) (ha : a < 2 ^ 64) (hl : b.length = (min addrlen 128).toNat)
    (hl' : b'.length = (min addrlen 128).toNat) (hk : Known b) (hk' : Known b')
    (he : decodeSockaddr e mem true a addrlen = decodeSockaddr e mem' true a addrlen) :
    ∀ f ∈ abi b, f ∈ abi b' → f.tok b = f.tok b' := by
  obtain ⟨t, ht, hs⟩ := fields_shown e mem a addrlen h h0 ha hl hk
  obtain ⟨t', ht', hs'⟩ := fields_shown e mem' a addrlen h' h0 ha hl' hk'
  rw [ht, ht', Option.some.injEq] at he
  subst he
  have hname : ∀ (f : Fld) (c : List Byte), nameOf (f.tok c) = some f.name := by
    intro f c; unfold Fld.tok; split <;> rfl
  have hzero : ∀ (f : Fld) (c c' : List Byte), f.Zero c → f.Zero c' → f.tok c = f.tok c' := by
    intro f c c' hc hc'
    have hb : bytesAt c f.off f.width = bytesAt c' f.off f.width := by
      unfold bytesAt
      apply List.map_congr_left
      intro i hi
      rw [hc i (List.mem_range.1 hi), hc' i (List.mem_range.1 hi)]
    unfold Fld.tok
    rw [← le_bytesAt, ← le_bytesAt, ← le_reverse, ← le_reverse, hb]
  intro f hf hf'
  by_cases hq : f.quiet = false ∨ ¬ f.Zero b
  · exact (hs' f hf').2 _ ((hs f hf).1 hq) (hname f b)
  · by_cases hq' : f.quiet = false ∨ ¬ f.Zero b'
    · exact ((hs f hf).2 _ ((hs' f hf').1 hq') (hname f b')).symm
    · push Not at hq hq'
      exact hzero f b b' hq.2 hq'.2

end Strace.Sock
