import Verif.Sock.Main
/-!
# Socket addresses: paths, names, arrays and lengths
-/
namespace Strace.Sock
open Strace.Sized (Byte moven fetch le Passed)

variable {b : List Byte}

/-- the address `b` is passed at `a` with a length -/
structure Given (mem : Nat → Option Byte) (a : Nat) (addrlen : Int) (b : List Byte) : Prop where
  passed : Passed mem a b
  ne : a ≠ 0
  lt : a < 2 ^ 64
  len : b.length = (min addrlen 128).toNat
  more : 2 < b.length

theorem given_form (e : Env) {mem : Nat → Option Byte} {a : Nat} {addrlen : Int} (g : Given mem a addrlen b) :
    decodeSockaddr e mem true a addrlen = some (fam b :: tail e b b.length) :=
  decode_form e mem a addrlen g.passed g.ne g.lt (by have := g.len; have := g.more; omega) g.len

theorem tail_known (e : Env) (f m : Nat) (hf : leAt b 0 2 = f) (hm : minLen f = some m) (hl : m ≤ b.length) (h2 : 2 < b.length) :
    tail e b b.length = famTail e b b.length f := by
  rw [tail, if_neg (by omega), hf, hm, if_neg (by simpa using hl)]

theorem bytesAt_eq (b : List Byte) (off n : Nat) (h : off + n ≤ b.length) : bytesAt b off n = (b.drop off).take n := by
  rw [bytesAt, drop_take_eq b n off h]

/-- **A path is shown up to its NUL; at most 108 bytes belong to it.** -/
theorem unix_path (e : Env) (mem : Nat → Option Byte) (a : Nat) (addrlen : Int) (g : Given mem a addrlen b) (hf : leAt b 0 2 = 1)
    (h0 : b.getD 2 0 ≠ 0) : decodeSockaddr e mem true a addrlen =
      some [.num "sa_family" 1, .str "sun_path" (upToNul ((b.drop 2).take 108)) false] := by
  have := g.more
  rw [given_form e g, tail_known e 1 3 hf rfl (by omega) g.more, famTail, if_pos rfl, unShown, if_neg h0, fam, hf,
    bytesAt_eq b _ _ (by omega)]
  have e1 : (b.drop 2).take (min b.length 110 - 2) = (b.drop 2).take 108 := by
    rw [List.take_eq_take_iff]; simp; omega
  rw [e1]

/-- An abstract name is shown with all its bytes, NULs included. -/
theorem unix_abstract (e : Env) (mem : Nat → Option Byte) (a : Nat) (addrlen : Int) (g : Given mem a addrlen b) (hf : leAt b 0 2 = 1)
    (h0 : b.getD 2 0 = 0) : decodeSockaddr e mem true a addrlen =
      some [.num "sa_family" 1, .abstr "sun_path" ((b.drop 3).take 107)] := by
  have := g.more
  rw [given_form e g, tail_known e 1 3 hf rfl (by omega) g.more, famTail, if_pos rfl, unShown, if_pos h0, fam, hf,
    bytesAt_eq b _ _ (by omega)]
  have e1 : (b.drop 3).take (min b.length 110 - 3) = (b.drop 3).take 107 := by
    rw [List.take_eq_take_iff]; simp; omega
  rw [e1]

/-- Two paths, or two abstract names, of addresses of at most 110 bytes that are shown alike are the same: a path up to its NUL. -/
theorem unix_determined (e : Env) (mem mem' : Nat → Option Byte) (a : Nat) (addrlen : Int) (b b' : List Byte) (g : Given mem a addrlen b)
    (g' : Given mem' a addrlen b') (hf : leAt b 0 2 = 1) (hf' : leAt b' 0 2 = 1) (hl : addrlen ≤ 110)
    (h : decodeSockaddr e mem true a addrlen = decodeSockaddr e mem' true a addrlen) :
    (b.getD 2 0 = 0 ↔ b'.getD 2 0 = 0) ∧ (b.getD 2 0 = 0 → b.drop 2 = b'.drop 2) ∧ upToNul (b.drop 2) = upToNul (b'.drop 2) := by
  have l1 := g.len; have l2 := g'.len
  have hdrop : ∀ (c : List Byte), 2 < c.length → c.drop 2 = c.getD 2 0 :: c.drop 3 := by
    intro c hc
    rw [List.drop_eq_getElem_cons hc, List.getD_eq_getElem?_getD, List.getElem?_eq_getElem hc]; rfl
  have hup : ∀ (c : List Byte), 2 < c.length → c.getD 2 0 = 0 → upToNul (c.drop 2) = [] := by
    intro c hc h0
    rw [hdrop c hc, h0]; rfl
  by_cases h0 : b.getD 2 0 = 0 <;> by_cases h0' : b'.getD 2 0 = 0
  · rw [unix_abstract e mem a addrlen g hf h0, unix_abstract e mem' a addrlen g' hf' h0'] at h
    simp only [Option.some.injEq, List.cons.injEq, Tok.abstr.injEq, true_and, and_true] at h
    rw [List.take_of_length_le (by simp; omega), List.take_of_length_le (by simp; omega)] at h
    refine ⟨iff_of_true h0 h0', fun _ => ?_, by rw [hup b g.more h0, hup b' g'.more h0']⟩
    rw [hdrop b g.more, hdrop b' g'.more, h0, h0', h]
  · rw [unix_abstract e mem a addrlen g hf h0, unix_path e mem' a addrlen g' hf' h0'] at h
    simp at h
  · rw [unix_path e mem a addrlen g hf h0, unix_abstract e mem' a addrlen g' hf' h0'] at h
    simp at h
  · rw [unix_path e mem a addrlen g hf h0, unix_path e mem' a addrlen g' hf' h0'] at h
    simp only [Option.some.injEq, List.cons.injEq, Tok.str.injEq, true_and, and_true] at h
    rw [List.take_of_length_le (by simp; omega), List.take_of_length_le (by simp; omega)] at h
    exact ⟨iff_of_false h0 h0', fun hc => absurd hc h0, h⟩

/-! ### Strings in fields -/

/-- the fields that hold a string: name, offset and size -/
def strFields (b : List Byte) : List (String × Nat × Nat) :=
  if leAt b 0 2 = 9 then [("x25_addr", 2, 16)]
  else if leAt b 0 2 = 38 then [("salg_type", 2, 14), ("salg_name", 24, b.length - 24)]
  else []

theorem takeWhile_self (p : Byte → Bool) : ∀ (l : List Byte), (∀ x ∈ l, p x = true) → l.takeWhile p = l
  | [], _ => rfl
  | y :: l, h => by
    rw [List.takeWhile_cons, if_pos (h y (by simp)), takeWhile_self p l (fun x hx => h x (by simp [hx]))]

theorem takeWhile_self_all (p : Byte → Bool) : ∀ (l : List Byte), l.takeWhile p = l → ∀ x ∈ l, p x = true
  | [], _, x, hx => by simp at hx
  | y :: l, h, x, hx => by
    rw [List.takeWhile_cons] at h
    by_cases hy : p y = true
    · rw [if_pos hy, List.cons.injEq] at h
      rcases List.mem_cons.1 hx with h1 | h1
      · rw [h1]; exact hy
      · exact takeWhile_self_all p l h.2 x h1
    · rw [if_neg hy] at h; simp at h

theorem upToNul_append (l m : List Byte) (h : (0 : Byte) ∈ l) : upToNul (l ++ m) = upToNul l := by
  unfold upToNul
  rw [List.takeWhile_append]
  split
  · rename_i hh
    have : l.takeWhile (· != 0) = l := (List.takeWhile_prefix _).eq_of_length hh
    have := takeWhile_self_all _ l this 0 h
    simp at this
  · rfl

theorem upToNul_none (l : List Byte) (h : (0 : Byte) ∉ l) : upToNul l = l := by
  unfold upToNul
  apply takeWhile_self
  intro x hx
  simp only [bne_iff_ne, ne_eq]
  rintro rfl
  exact h hx

theorem mem_bytesAt (b : List Byte) (off n : Nat) : (0 : Byte) ∈ bytesAt b off n ↔ ∃ i, i < n ∧ b.getD (off + i) 0 = 0 := by
  simp [bytesAt]

theorem bytesAt_succ (b : List Byte) (off n : Nat) : bytesAt b off (n + 1) = bytesAt b off n ++ [b.getD (off + n) 0] := by
  simp [bytesAt, List.range_succ]

theorem strTok_nul (b : List Byte) (name : String) (off size : Nat) (hs : 0 < size) (h : (0 : Byte) ∈ bytesAt b off size) :
    strTok b name off size = .str name (upToNul (bytesAt b off size)) false := by
  rw [strTok]
  have h1 := (mem_bytesAt b off size).1 h
  simp only [h1, not_true, decide_false]
  congr 1
  obtain ⟨k, rfl⟩ : ∃ k, size = k + 1 := ⟨size - 1, by omega⟩
  rw [bytesAt_succ, Nat.add_sub_cancel]
  by_cases h2 : (0 : Byte) ∈ bytesAt b off k
  · rw [upToNul_append _ _ h2]
  · rw [bytesAt_succ, List.mem_append] at h
    rcases h with h | h
    · exact absurd h h2
    · simp only [List.mem_singleton] at h
      rw [← h]
      unfold upToNul
      rw [List.takeWhile_append, if_pos (by rw [show (bytesAt b off k).takeWhile (· != 0) = bytesAt b off k from upToNul_none _ h2])]
      have := upToNul_none _ h2
      unfold upToNul at this
      rw [this]; simp

theorem strTok_no (b : List Byte) (name : String) (off size : Nat) (h : (0 : Byte) ∉ bytesAt b off size) (hs : 0 < size) :
    strTok b name off size = .str name (bytesAt b off (size - 1)) true := by
  obtain ⟨k, rfl⟩ : ∃ k, size = k + 1 := ⟨size - 1, by omega⟩
  rw [strTok]
  have h1 : ¬ ∃ i, i < k + 1 ∧ b.getD (off + i) 0 = 0 := fun hc => h ((mem_bytesAt b off (k + 1)).2 hc)
  simp only [h1, not_false_eq_true, decide_true, Nat.add_sub_cancel]
  rw [upToNul_none]
  intro hc
  exact h (by rw [bytesAt_succ]; simp [hc])

/-- A string in a field is shown up to its NUL.  If it has none, `...` follows all its bytes but the last. -/
theorem strings_shown (e : Env) (mem : Nat → Option Byte) (a : Nat) (addrlen : Int) (g : Given mem a addrlen b) (hk : Known b) :
    ∃ t, decodeSockaddr e mem true a addrlen = some t ∧ ∀ s ∈ strFields b,
      ((0 : Byte) ∈ bytesAt b s.2.1 s.2.2 → .str s.1 (upToNul (bytesAt b s.2.1 s.2.2)) false ∈ t) ∧
      ((0 : Byte) ∉ bytesAt b s.2.1 s.2.2 → .str s.1 (bytesAt b s.2.1 (s.2.2 - 1)) true ∈ t) := by
  refine ⟨_, given_form e g, ?_⟩
  obtain ⟨m, hm, hle, h2⟩ := hk
  have key : ∀ (name : String) (off size : Nat) (t : List Tok), 0 < size → strTok b name off size ∈ t →
      ((0 : Byte) ∈ bytesAt b off size → Tok.str name (upToNul (bytesAt b off size)) false ∈ t) ∧
      ((0 : Byte) ∉ bytesAt b off size → Tok.str name (bytesAt b off (size - 1)) true ∈ t) := by
    intro name off size t hs ht
    exact ⟨fun h => strTok_nul b name off size hs h ▸ ht, fun h => strTok_no b name off size h hs ▸ ht⟩
  intro s hs
  unfold strFields at hs
  by_cases h9 : leAt b 0 2 = 9
  · rw [if_pos h9] at hs
    rw [tail_known e 9 18 h9 rfl (by rw [h9] at hm; cases hm; exact hle) h2]
    simp only [List.mem_singleton] at hs
    subst hs
    exact key _ _ _ _ (by decide) (by simp [famTail])
  · rw [if_neg h9] at hs
    by_cases h38 : leAt b 0 2 = 38
    · rw [if_pos h38] at hs
      have hl : 25 ≤ b.length := by rw [h38] at hm; cases hm; exact hle
      rw [tail_known e 38 25 h38 rfl hl h2]
      simp only [List.mem_cons, List.not_mem_nil, or_false] at hs
      rcases hs with rfl | rfl
      · exact key _ _ _ _ (by decide) (by simp [famTail])
      · exact key _ _ _ _ (by show 0 < b.length - 24; omega) (by simp [famTail])
    · rw [if_neg h38] at hs; simp at hs

/-! ### Arrays -/

/-- The hardware address of a packet socket is shown with as many bytes as it says it has, as far as they were passed; if they were
not all passed, `...` follows. -/
theorem ll_shown (e : Env) (mem : Nat → Option Byte) (a : Nat) (addrlen : Int) (g : Given mem a addrlen b) (hf : leAt b 0 2 = 17)
    (hl : 20 ≤ b.length) : ∃ t, decodeSockaddr e mem true a addrlen = some t ∧
      (leAt b 11 1 ≤ b.length - 12 → leAt b 11 1 ≠ 0 → .arr "sll_addr" ((b.drop 12).take (leAt b 11 1)) false ∈ t) ∧
      (leAt b 11 1 > b.length - 12 → .arr "sll_addr" (b.drop 12) true ∈ t) ∧
      (leAt b 11 1 = 0 → ∀ k ∈ t, nameOf k ≠ some "sll_addr") := by
  refine ⟨_, given_form e g, ?_⟩
  rw [tail_known e 17 20 hf rfl hl g.more]
  simp only [famTail, Nat.reduceEqDiff, if_true, if_false]
  refine ⟨fun h1 h0 => ?_, fun h1 => ?_, fun h0 => ?_⟩
  · have hb : (b.drop 12).take (leAt b 11 1) = bytesAt b 12 (min (leAt b 11 1) (b.length - 12)) := by
      rw [Nat.min_eq_left h1, bytesAt_eq b _ _ (by omega)]
    have hd : decide (leAt b 11 1 > b.length - 12) = false := by simp; omega
    rw [if_neg h0, hb, hd]; simp
  · have h0 : leAt b 11 1 ≠ 0 := by omega
    have hb : b.drop 12 = bytesAt b 12 (min (leAt b 11 1) (b.length - 12)) := by
      rw [Nat.min_eq_right (by omega), bytesAt_eq b _ _ (by omega), List.take_of_length_le (by simp)]
    have hd : decide (leAt b 11 1 > b.length - 12) = true := by simp; omega
    rw [if_neg h0, hb, hd]; simp
  · rw [if_pos h0]
    intro k hk
    simp only [fam, List.append_nil, List.mem_cons, List.not_mem_nil, or_false] at hk
    rcases hk with rfl | rfl | rfl | rfl | rfl | rfl <;> simp [nameOf]

/-- the call sign of an AX.25 address is shown, with a text that determines its bytes (`call_determines`) -/
theorem ax25_call (e : Env) (mem : Nat → Option Byte) (a : Nat) (addrlen : Int) (g : Given mem a addrlen b) (hf : leAt b 0 2 = 3)
    (hl : 16 ≤ b.length) : ∃ t c, decodeSockaddr e mem true a addrlen = some t ∧ callTok e.x ((b.drop 2).take 7) = some c ∧
      .call "sax25_call" c ∈ t := by
  have hc : callTok e.x ((b.drop 2).take 7) = some (callOf e.x (bytesAt b 2 7)) := by
    rw [← bytesAt_eq b 2 7 (by omega)]; exact callTok_eq _ _
  refine ⟨_, callOf e.x (bytesAt b 2 7), given_form e g, hc, ?_⟩
  rw [tail_known e 3 16 hf rfl hl g.more]
  simp only [famTail, Nat.reduceEqDiff, if_true, if_false]
  unfold ax25Shown
  by_cases h : leAt b 12 4 = 0 ∧ b.length ≤ 16
  · rw [if_pos h]; exact List.mem_cons_of_mem _ List.mem_cons_self
  · rw [if_neg h]
    exact List.mem_cons_of_mem _ (List.mem_append_left _ (List.mem_append_left _ (List.mem_cons_of_mem _ List.mem_cons_self)))

/-- The digipeaters of an AX.25 address: if it says it has `k` of them, `1 ≤ k ≤ 8`, and they are all passed, they are all shown in
their order, `...` follows only if they are abbreviated. -/
theorem ax25_digis (e : Env) (mem : Nat → Option Byte) (a : Nat) (addrlen : Int) (g : Given mem a addrlen b) (hf : leAt b 0 2 = 3)
    (k : Nat) (hk : leAt b 12 4 = k) (h1 : 1 ≤ k) (h8 : k ≤ 8) (hl : 16 + 7 * k ≤ b.length) :
    ∃ t l, decodeSockaddr e mem true a addrlen = some t ∧ .calls "fsa_digipeater" l (decide (l.length < k)) ∈ t ∧
      (∀ i (_ : i < l.length), callTok e.x ((b.drop (16 + 7 * i)).take 7) = l[i]?) ∧
      (l.length = k ∨ ∃ m, e.limit = some m ∧ l.length = m ∧ m < k) := by
  have hw : wantDigis b = k := by rw [wantDigis, hk, sint, if_pos (by omega)]; omega
  have hh : k ≤ hasDigis b.length := by rw [hasDigis]; omega
  have hmin : min (hasDigis b.length) (wantDigis b) = k := by rw [hw]; omega
  have hc := cut_le e.limit k
  refine ⟨_, (List.range (cut e.limit k)).map fun i => callOf e.x (bytesAt b (16 + 7 * i) 7), given_form e g, ?_, ?_, ?_⟩
  · rw [tail_known e 3 16 hf rfl (by omega) g.more]
    simp only [famTail, Nat.reduceEqDiff, if_true, if_false]
    unfold ax25Shown
    rw [if_neg (show ¬ (leAt b 12 4 = 0 ∧ b.length ≤ 16) by omega), if_neg (show ¬ wantDigis b = 0 by omega), hmin, hw]
    have hd : decide (k > hasDigis b.length ∨ cut e.limit k < k) =
        decide (((List.range (cut e.limit k)).map fun i => callOf e.x (bytesAt b (16 + 7 * i) 7)).length < k) := by
      rw [decide_eq_decide]; simp; omega
    rw [hd]
    exact List.mem_cons_of_mem _ (List.mem_append_left _ (List.mem_append_right _ List.mem_cons_self))
  · intro i hi
    simp only [List.length_map, List.length_range] at hi
    rw [List.getElem?_map, List.getElem?_range hi, Option.map_some, ← bytesAt_eq b _ _ (by omega), callTok_eq]
  · simp only [List.length_map, List.length_range]
    unfold cut
    split
    · left; rfl
    · rename_i m hm
      split
      · right; exact ⟨m, hm, rfl, by omega⟩
      · left; rfl

/-! ### Lengths -/

/-- The address that a call returns is decoded out of no more bytes than the kernel wrote and no more than there was room for: two
memories that agree on these bytes, and on the length, give the same text. -/
theorem moven_agree (mem mem' : Nat → Option Byte) : ∀ (n a : Nat), (∀ i, i < n → mem ((a + i) % 2 ^ 64) = mem' ((a + i) % 2 ^ 64)) →
    a < 2 ^ 64 → moven mem a n = moven mem' a n
  | 0, a, _, _ => rfl
  | n + 1, a, h, ha => by
    have h0 := h 0 (by omega)
    rw [Nat.add_zero, Nat.mod_eq_of_lt ha] at h0
    rw [moven, moven, h0, moven_agree mem mem' n _ (fun i hi => ?_) (Nat.mod_lt _ (by decide))]
    have h1 := h (i + 1) (by omega)
    have : ((a + 1) % 2 ^ 64 + i) % 2 ^ 64 = (a + (i + 1)) % 2 ^ 64 := by omega
    rw [this]; exact h1

theorem decode_agree (e : Env) (mem mem' : Nat → Option Byte) (vb : Bool) (a : Nat) (ha : a < 2 ^ 64) (n : Int)
    (h : ∀ i : Nat, (i : Int) < n → mem ((a + i) % 2 ^ 64) = mem' ((a + i) % 2 ^ 64)) :
    decodeSockaddr e mem vb a n = decodeSockaddr e mem' vb a n := by
  unfold decodeSockaddr fetch
  by_cases h2 : n < 2
  · rw [if_pos h2, if_pos h2]
  · rw [if_neg h2, if_neg h2]
    simp only
    rw [moven_agree mem mem' _ a (fun i hi => h i (by split at hi <;> omega)) ha]

/-- what is shown of the address and of its length when a call has returned them -/
structure Returned (e : Env) (mem : Nat → Option Byte) (vb : Bool) (a : Nat) (room len : Int) (t : List Tok) : Prop where
  /-- the length is shown, and the room there was if it differs -/
  length : t.getLast? = some (if room = len then .len len else .lens room len)
  /-- the address has the smaller of the two lengths -/
  address : decodeSockaddr e mem vb a (min room len) = some t.dropLast

theorem returned_of (e : Env) (mem : Nat → Option Byte) (vb : Bool) (a : Nat) (room len : Int) (t : List Tok) (u : Tok)
    (hu : u = if room = len then .len len else .lens room len) (h : decodeSockaddr e mem vb a (min room len) = some t) :
    Returned e mem vb a room len (t ++ [u]) :=
  ⟨by simp [hu], by simp [h]⟩

theorem lenTok_eq (room len : Int) : lenTok room len = if room = len then .len len else .lens room len := by
  unfold lenTok
  by_cases h : room = len
  · rw [if_neg (by simp [h]), if_pos h]
  · rw [if_pos h, if_neg h]

theorem pick_min (room len : Int) : (if room > len then len else room) = min room len := by split <;> omega

/-- accept, getsockname, getpeername: if the length can be read before and after a successful call, the address has the smaller of
the two lengths, and both are shown if they differ. -/
theorem sockname_returned (e : Env) (pre mem : Nat → Option Byte) (a l : Nat) (h0 : a ≠ 0) (hl : l ≠ 0) (room len : Int)
    (hr : lenAt pre l = some room) (hn : lenAt mem l = some len) :
    ∃ t, sockname e pre mem true false a l = some t ∧ Returned e mem true a room len t := by
  obtain ⟨t, ht⟩ := decode_safe e mem true a (min room len)
  refine ⟨t ++ [lenTok room len], ?_, returned_of e mem true a room len t _ (lenTok_eq room len) ht⟩
  rw [sockname, fetchSocklen, if_pos ⟨rfl, h0, hl⟩, hr]
  simp only [Bool.false_eq_true, if_false]
  rw [hn]
  simp only
  rw [pick_min, ht, Option.map_some]

/-- After a failed call nothing is decoded: the address is a number and the length is the room there was. -/
theorem sockname_failed (e : Env) (pre mem : Nat → Option Byte) (a l : Nat) (h0 : a ≠ 0) (hl : l ≠ 0) (room : Int)
    (hr : lenAt pre l = some room) : sockname e pre mem true true a l = some [.addr a, .len room] := by
  rw [sockname, fetchSocklen, if_pos ⟨rfl, h0, hl⟩, hr]; rfl

/-- recvfrom: the same -/
theorem recvfrom_returned (e : Env) (pre mem : Nat → Option Byte) (a l : Nat) (h0 : a ≠ 0) (hl : l ≠ 0) (room len : Int)
    (hr : lenAt pre l = some room) (hn : lenAt mem l = some len) :
    ∃ t, recvfrom e pre mem true false a l = some t ∧ Returned e mem true a room len t := by
  obtain ⟨t, ht⟩ := decode_safe e mem true a (min room len)
  refine ⟨t ++ [lenTok room len], ?_, returned_of e mem true a room len t _ (lenTok_eq room len) ht⟩
  rw [recvfrom, fetchSocklen, if_pos ⟨rfl, h0, hl⟩, fetchSocklen, if_pos ⟨rfl, h0, hl⟩, hr, hn]
  simp only [Bool.false_eq_true, if_false, Option.getD_some]
  rw [pick_min, ht, Option.map_some]

/-- recvmsg: the same; `room` is what the message header said before the call -/
theorem msgName_returned (e : Env) (mem : Nat → Option Byte) (vb : Bool) (a : Nat) (room len : Int) :
    ∃ t, msgName e mem vb a (some room) len = some t ∧ Returned e mem vb a room len t := by
  obtain ⟨t, ht⟩ := decode_safe e mem vb a (min room len)
  refine ⟨t ++ [lenTok room len], ?_, returned_of e mem vb a room len t _ (lenTok_eq room len) ht⟩
  have : (if len > room then room else len) = min room len := by split <;> omega
  rw [msgName]
  rw [this, ht, Option.map_some]

/-- sendmsg: the address has the length of the message header -/
theorem msgName_sent (e : Env) (mem : Nat → Option Byte) (vb : Bool) (a : Nat) (len : Int) :
    ∃ t, msgName e mem vb a none len = some (t ++ [.len len]) ∧ decodeSockaddr e mem vb a len = some t := by
  obtain ⟨t, ht⟩ := decode_safe e mem vb a len
  exact ⟨t, by simp [msgName, ht], ht⟩

/-- What is shown of a returned address depends on no byte beyond the length that the kernel returned or the room there was. -/
theorem returned_agree (e : Env) (pre mem mem' : Nat → Option Byte) (a l : Nat) (h0 : a ≠ 0) (ha : a < 2 ^ 64) (hl : l ≠ 0)
    (room len : Int) (hr : lenAt pre l = some room) (hn : lenAt mem l = some len) (hn' : lenAt mem' l = some len)
    (h : ∀ i : Nat, (i : Int) < min room len → mem ((a + i) % 2 ^ 64) = mem' ((a + i) % 2 ^ 64)) :
    sockname e pre mem true false a l = sockname e pre mem' true false a l ∧
    recvfrom e pre mem true false a l = recvfrom e pre mem' true false a l := by
  have hd := decode_agree e mem mem' true a ha (min room len) h
  constructor
  · rw [sockname, sockname, fetchSocklen, if_pos ⟨rfl, h0, hl⟩, hr]
    simp only [Bool.false_eq_true, if_false]
    rw [hn, hn']
    simp only
    rw [pick_min, hd]
  · simp only [recvfrom, fetchSocklen, hr, hn, hn', ne_eq, h0, hl, not_false_eq_true, and_self, if_true, Option.getD_some,
      Bool.false_eq_true, if_false]
    rw [pick_min, hd]

end Strace.Sock
