import Verif.Msg.Props
/-!
# C96: messages and vectors of messages
-/
namespace Strace.Msg

/-! ### The lengths of names kept from entering -/

theorem readable_mod (mem : Mem) (a n : Nat) : Readable mem (a % 2 ^ 64) n ↔ Readable mem a n := by
  have h : ∀ i, (a % 2 ^ 64 + i) % 2 ^ 64 = (a + i) % 2 ^ 64 := by intro i; omega
  unfold Readable
  simp only [h]

theorem word_mod (mem : Mem) (a n : Nat) (d : Nat) : word mem (a % 2 ^ 64 + d) n = word mem (a + d) n := by
  unfold word byteAt
  have h : ∀ i, (a % 2 ^ 64 + d + i) % 2 ^ 64 = (a + d + i) % 2 ^ 64 := by intro i; omega
  simp only [h]

theorem namelen_mod (w : Nat) (mem : Mem) (a : Nat) : (hdrAt w mem (a % 2 ^ 64)).namelen = (hdrAt w mem a).namelen := by
  simp only [hdrAt, word_mod]

theorem saveLoop_eq (w : Nat) (pre : Mem) (hw : w = 4 ∨ w = 8) : ∀ (n a i : Nat), ∃ k, k ≤ n ∧
    (∀ j, j < k → Readable pre (nth w a (i + j)) (8 * w)) ∧ (k < n → ¬ Readable pre (nth w a (i + k)) (8 * w)) ∧
    saveLoop w pre (nth w a i % 2 ^ 64) n = (List.range k).map fun j => (hdrAt w pre (nth w a (i + j))).namelen := by
  obtain ⟨f, hf⟩ : ∃ f : Nat → Int, ∀ x, (hdrAt w pre x).namelen = f x := ⟨fun x => (hdrAt w pre x).namelen, fun _ => rfl⟩
  simp only [hf]
  intro n
  induction n with
  | zero => intro a i; exact ⟨0, Nat.le_refl _, by omega, by omega, by simp [saveLoop]⟩
  | succ n ih =>
    intro a i
    obtain ⟨A, hA⟩ : ∃ A, A = nth w a i % 2 ^ 64 := ⟨_, rfl⟩
    have hA64 : A < 2 ^ 64 := by rw [hA]; exact Nat.mod_lt _ (by omega)
    have hread : Readable pre A (8 * w) ↔ Readable pre (nth w a i) (8 * w) := by rw [hA, readable_mod]
    have hlen : (hdrAt w pre A).namelen = f (nth w a i) := by rw [hA, namelen_mod, hf]
    have hnext : (A + mhdrSize w) % 2 ^ 64 = nth w a (i + 1) % 2 ^ 64 := by
      rw [hA, mhdrSize_eq w hw, show nth w a (i + 1) = nth w a i + 8 * w from by simp [nth, Nat.add_mul]; omega]
      omega
    rw [← hA, saveLoop, fetchMHdr_eq w pre A hw hA64, hnext]
    clear hnext hA hA64
    by_cases h : Readable pre A (8 * w)
    · obtain ⟨k, h1, h2, h3, h4⟩ := ih a (i + 1)
      rw [if_pos h, h4]
      refine ⟨k + 1, by omega, ?_, ?_, ?_⟩
      · intro j hj
        cases j with
        | zero => rw [Nat.add_zero]; exact hread.mp h
        | succ j =>
          have := h2 j (by omega)
          rwa [show i + 1 + j = i + (j + 1) from by omega] at this
      · intro hk
        have := h3 (by omega)
        rwa [show i + 1 + k = i + (k + 1) from by omega] at this
      · rw [List.range_succ_eq_map, List.map_cons, List.map_map]
        have htail : (List.range k).map (fun j => f (nth w a (i + 1 + j))) =
            (List.range k).map ((fun j => f (nth w a (i + j))) ∘ Nat.succ) := by
          apply List.map_congr_left
          intro j _
          exact congrArg (fun x => f (nth w a x)) (show i + 1 + j = i + Nat.succ j from by omega)
        rw [htail]
        simp only [Nat.add_zero]
        rw [hlen]
    · rw [if_neg h]
      refine ⟨0, by omega, by omega, fun _ => ?_, by simp⟩
      rw [Nat.add_zero, ← hread]
      exact h

theorem save_kept (w : Nat) (pre : Mem) (a vlen : Nat) (hw : w = 4 ∨ w = 8) (ha : a < 2 ^ 64) :
    ∃ k, Kept w pre a vlen k ∧
      saveNamelen w pre a vlen = (List.range k).map fun i => (hdrAt w pre (nth w a i)).namelen := by
  have hn : (if vlen > iovMax then iovMax else vlen) = min vlen 1024 := by
    show (if vlen > 1024 then 1024 else vlen) = _
    split <;> omega
  obtain ⟨k, h1, h2, h3, h4⟩ := saveLoop_eq w pre hw (min vlen 1024) a 0
  rw [nth, Nat.zero_mul, Nat.add_zero, Nat.mod_eq_of_lt ha] at h4
  simp only [Nat.zero_add] at h2 h3 h4
  exact ⟨k, ⟨h1, h2, h3⟩, by rw [saveNamelen, hn, h4]⟩

/-! ### The calls -/

theorem vec_mono (e : Env) (mem : Mem) (a n most : Nat) (p q : Nat → Elem → Prop) (t : List (Arr.Tok Elem))
    (h : VecShown e mem a n most p t) (hpq : ∀ i x, i < n → i < most → p i x → q i x) : VecShown e mem a n most q t := by
  unfold VecShown at *
  split
  · rename_i hr
    rwa [if_pos hr] at h
  · rename_i hr
    rw [if_neg hr] at h
    obtain ⟨l, k, h1, h2, h3, h4, h5, h6⟩ := h
    refine ⟨l, k, h1, h2, h3, h4, ?_, h6⟩
    intro i x hx
    have : i < l.length := by
      by_contra hc
      rw [List.getElem?_eq_none (by omega)] at hx
      cases hx
    exact hpq i x (by omega) (by omega) (h5 i x hx)

/-- C96: what is shown of a vector of messages that has been received.  `v` messages were received; those shown are the first ones,
each with its members as they are on exiting, its name limited to the room it was given on entering and its data limited to the
number of bytes received, and if one is left out this is marked.  `k` is the number of messages whose room for the name is known. -/
theorem recvmmsg_shown (e : Env) (ts : Mem → Nat → String) (pre post : Mem) (fuel a vlen flags tmo v : Nat)
    (hw : e.w = 4 ∨ e.w = 8) (hvb : e.vb = true) (h0 : a ≠ 0) (hv : 0 < v) (hv32 : v < 2 ^ 32)
    (hend : a + v * (8 * e.w) < 2 ^ 64) (hlen : vlen < 2 ^ 32) (hf : 2 ^ 64 ≤ fuel) :
    ∃ k t, Kept e.w pre a vlen k ∧ VecShown e post a v k (Received e pre post a) t ∧
      recvmmsg e ts pre post fuel a vlen flags tmo (.ok v) =
        some ([.vec t, .num vlen, .flags flags, .text (ts pre tmo)], if tmo = 0 then .none else .left (ts post tmo)) := by
  obtain ⟨k, hk, hsave⟩ := save_kept e.w pre a vlen hw (by omega)
  obtain ⟨t, ht, hshown⟩ := vec_shown e post fuel (some (saveNamelen e.w pre a vlen)) a v v true hw h0 hv hv32 hend hf
  have hmost : most (some (saveNamelen e.w pre a vlen)) = k := by
    rw [hsave]
    show min ((List.range k).map _).length 1024 = k
    have := hk.1
    simp
    omega
  rw [hmost] at hshown
  refine ⟨k, t, hk, ?_, ?_⟩
  · refine vec_mono e post a v k _ _ t hshown ?_
    rintro i x hi hik ⟨h1, h2⟩
    have hu : ulenAt (some (saveNamelen e.w pre a vlen)) i = some (hdrAt e.w pre (nth e.w a i)).namelen := by
      rw [hsave]
      simp [ulenAt, List.getElem?_range hik]
    rw [hu, if_pos rfl] at h1
    rw [if_pos hi] at h2
    exact ⟨h1, h2⟩
  · have hu32 : u32 v = v := Nat.mod_eq_of_lt hv32
    have hul : u32 vlen = vlen := Nat.mod_eq_of_lt hlen
    rw [recvmmsg, if_pos hvb, hul, show (Ret.ok v).val = v from rfl, hu32, show (Ret.ok v).failed = false from rfl, ht,
      Option.map_some, auxOf, if_neg (by simp [Ret.failed]), if_neg (by show ¬ v = 0; omega)]
    by_cases h : tmo = 0
    · rw [if_pos (Or.inr h), if_pos h]
    · rw [if_neg (by simp [hvb, h]), if_neg h]

/-- C96: a call that received nothing in time -/
theorem recvmmsg_timeout (e : Env) (ts : Mem → Nat → String) (pre post : Mem) (fuel a vlen flags tmo : Nat) (hvb : e.vb = true)
    (h0 : a ≠ 0) (hlen : vlen < 2 ^ 32) :
    recvmmsg e ts pre post fuel a vlen flags tmo (.ok 0) =
      some ([.vec [.opened, .closed], .num vlen, .flags flags, .text (ts pre tmo)], .timeout) := by
  have hul : u32 vlen = vlen := Nat.mod_eq_of_lt hlen
  rw [recvmmsg, if_pos hvb, hul, decodeVec, Arr.printArray, if_neg h0, if_pos (show u32 (Ret.ok 0).val = 0 from rfl)]
  simp [whole, auxOf, Ret.failed, Ret.val]

/-- C96: a call that failed shows the address of the vector and the timeout it was given -/
theorem recvmmsg_failed (e : Env) (ts : Mem → Nat → String) (pre post : Mem) (fuel a vlen flags tmo : Nat)
    (hw : e.w = 4 ∨ e.w = 8) (hvb : e.vb = true) (h0 : a ≠ 0) (ha : a < 2 ^ 64) (hlen : vlen < 2 ^ 32) (hf : 2 ^ 32 ≤ fuel) :
    recvmmsg e ts pre post fuel a vlen flags tmo .err =
      some ([.vec [.addr a], .num vlen, .flags flags, .text (ts pre tmo)], .none) := by
  have hul : u32 vlen = vlen := Nat.mod_eq_of_lt hlen
  have hes : 0 < 8 * e.w := by omega
  have hdv : decodeVec e post fuel (some (saveNamelen e.w pre a vlen)) true a (2 ^ 32 - 1) (2 ^ 32 - 1) true =
      some (.vec [.addr a]) := by
    unfold decodeVec
    rw [mhdrSize_eq e.w hw]
    dsimp only
    by_cases hend : a + (2 ^ 32 - 1) * (8 * e.w) ≥ 2 ^ 64
    · rw [(Arr.array_not _ _ _ a (2 ^ 32 - 1) (8 * e.w) fuel _ hes ha).2.2 h0 (by omega) hend]
      rfl
    · obtain ⟨l, j, why, s', ⟨hjn, hlim, hwhy⟩, hp⟩ := Arr.array_shown ⟨e.arr, false, false⟩
        (.tracee fun x => if true = true then none else fetchMHdr e.w post x) (printMHdr e post fuel) a (2 ^ 32 - 1) (8 * e.w) fuel
        (⟨(some (saveNamelen e.w pre a vlen)).map fun t => (t, 0), 2 ^ 32 - 1, countOf (some (saveNamelen e.w pre a vlen)), true⟩)
        h0 (by omega) hes (by omega) (by omega)
      have hno : ∀ i, Arr.at' (.tracee fun x => if true = true then none else fetchMHdr e.w post x) a (8 * e.w) i = none :=
        fun i => rfl
      have hrun : ∀ {i s l j s'}, Arr.Run (Arr.at' (.tracee fun x => if true = true then none else fetchMHdr e.w post x) a (8 * e.w))
          (printMHdr e post fuel) i s l j s' → j = i := by
        intro i s l j s' hr
        cases hr with
        | nil => rfl
        | cons _ _ _ s1 _ b x l he hp hr => rw [hno] at he; cases he
      rw [hp]
      cases why with
      | done => have := hrun hwhy.2; omega
      | unreadable =>
        have := hrun hwhy.2.2
        rw [Option.bind_some, Arr.text, if_pos ⟨this, rfl⟩]
        rfl
      | limit => exact absurd (hno j) hwhy.2.2.1
      | stopped x =>
        obtain ⟨_, b, t, _, he, _⟩ := hwhy
        rw [hno] at he; cases he
  rw [recvmmsg, if_pos hvb, hul, show u32 Ret.err.val = 2 ^ 32 - 1 from by decide, show Ret.err.failed = true from rfl, hdv,
    Option.map_some, auxOf, if_pos (show Ret.err.failed = true from rfl)]

/-- the number of messages sent -/
def sentOf : Ret → Nat
  | .err => 0
  | .ok v => v

/-- C96: what is shown of a vector of messages that is sent, whether or not the call failed: the first messages, at most 1024, and
for those that were sent the number of bytes sent -/
theorem sendmmsg_shown (e : Env) (mem : Mem) (fuel a vlen flags : Nat) (r : Ret) (hw : e.w = 4 ∨ e.w = 8) (hvb : e.vb = true)
    (h0 : a ≠ 0) (hn : 0 < vlen) (hlen : vlen < 2 ^ 32) (hr : sentOf r < 2 ^ 32) (hend : a + vlen * (8 * e.w) < 2 ^ 64)
    (hf : 2 ^ 64 ≤ fuel) :
    ∃ t, VecShown e mem a vlen 1024 (Sent e mem a (sentOf r)) t ∧
      sendmmsg e mem fuel a vlen flags r = some [.vec t, .num vlen, .flags flags] := by
  obtain ⟨t, ht, hshown⟩ := vec_shown e mem fuel none a vlen (sentOf r) false hw h0 hn hlen hend hf
  refine ⟨t, hshown, ?_⟩
  have hul : u32 vlen = vlen := Nat.mod_eq_of_lt hlen
  have hrr : msgLenVlenOf r = sentOf r := by
    cases r with
    | err => rfl
    | ok v => exact Nat.mod_eq_of_lt hr
  unfold sendmmsg
  rw [if_neg (by simp [hvb]), hul, hrr, ht]
  rfl

/-- C96: if structures are not decoded, only addresses and numbers are shown -/
theorem mmsg_raw (e : Env) (ts : Mem → Nat → String) (pre post : Mem) (fuel a vlen flags tmo : Nat) (r : Ret) (hvb : e.vb = false)
    (hlen : vlen < 2 ^ 32) :
    sendmmsg e post fuel a vlen flags r = some [.addr a, .num vlen, .flags flags] ∧
    (recvmmsg e ts pre post fuel a vlen flags tmo r).map (·.1) =
      some [.addr a, .num vlen, .flags flags, .text (ts pre tmo)] := by
  have hul : u32 vlen = vlen := Nat.mod_eq_of_lt hlen
  refine ⟨by rw [sendmmsg, if_pos hvb, hul], ?_⟩
  rw [recvmmsg, if_neg (by simp [hvb]), hul]
  rfl

/-- C96: all the messages received are shown, in order, if the kernel has received no more than asked for and than it ever does, if
they can be read, and if this many elements of an array are to be shown -/
theorem recvmmsg_all (e : Env) (ts : Mem → Nat → String) (pre post : Mem) (fuel a vlen flags tmo v : Nat)
    (hw : e.w = 4 ∨ e.w = 8) (hvb : e.vb = true) (h0 : a ≠ 0) (hv : 0 < v) (hvl : v ≤ vlen) (hv1024 : v ≤ 1024)
    (hend : a + v * (8 * e.w) < 2 ^ 64) (hlen : vlen < 2 ^ 32) (hf : 2 ^ 64 ≤ fuel)
    (hpre : ∀ i, i < v → Readable pre (nth e.w a i) (8 * e.w)) (hpost : ∀ i, i < v → Readable post (nth e.w a i) (8 * e.w))
    (harr : ∀ m, e.arr = some m → v ≤ m) :
    ∃ l : List Elem, l.length = v ∧ (∀ i x, l[i]? = some x → Received e pre post a i x) ∧
      recvmmsg e ts pre post fuel a vlen flags tmo (.ok v) =
        some ([.vec (listed l .nothing), .num vlen, .flags flags, .text (ts pre tmo)],
          if tmo = 0 then .none else .left (ts post tmo)) := by
  obtain ⟨k, t, hk, hvec, heq⟩ :=
    recvmmsg_shown e ts pre post fuel a vlen flags tmo v hw hvb h0 hv (by omega) hend hlen hf
  have hkv : v ≤ k := by
    by_contra hc
    have h1 := hk.2.2 (by omega)
    exact h1 (hpre k (by omega))
  unfold VecShown at hvec
  have hr0 : Readable post a (8 * e.w) := by
    have := hpost 0 hv
    rwa [nth, Nat.zero_mul, Nat.add_zero] at this
  rw [if_neg (by simp [hr0])] at hvec
  obtain ⟨l, m, h1, h2, h3, h4, h5, h6, h7⟩ := hvec
  have hl : l.length = v ∧ m = .nothing := by
    rcases h7 with h | ⟨h, h8 | h8, _⟩ | ⟨h, h8, _⟩
    · exact h
    · have := harr _ h8; omega
    · omega
    · exact absurd (hpost _ h) h8
  refine ⟨l, hl.1, h5, ?_⟩
  rw [heq, h6, hl.2]

/-- C96: a single message that is sent -/
theorem sendmsg_shown (e : Env) (mem : Mem) (fuel a flags : Nat) (hw : e.w = 4 ∨ e.w = 8) (hvb : e.vb = true) (h0 : a ≠ 0)
    (ha : a < 2 ^ 64) (hr : Readable mem a (7 * e.w)) (hf : 2 ^ 64 ≤ fuel) :
    ∃ t, MsgShown e mem (hdrAt e.w mem a) none none t ∧ sendmsg e mem fuel a flags = some [.msg t, .flags flags] := by
  obtain ⟨b1, b2, b3⟩ := hdrAt_bounds e.w mem a hw
  obtain ⟨t, ht, hsh⟩ := hdr_shown e mem fuel (hdrAt e.w mem a) none (2 ^ 64 - 1) hw b1 b2 (by omega) (by omega)
  refine ⟨t, hsh, ?_⟩
  unfold sendmsg decodeHdr
  rw [if_pos ⟨h0, hvb⟩, fetchHdr_eq e.w mem a hw ha, if_pos hr]
  dsimp only
  rw [ht]
  rfl

/-- C96: a single message that has been received: `n` bytes of data in all -/
theorem recvmsg_shown (e : Env) (pre post : Mem) (fuel a flags n : Nat) (hw : e.w = 4 ∨ e.w = 8) (hvb : e.vb = true) (h0 : a ≠ 0)
    (ha : a < 2 ^ 64) (hr1 : Readable pre a (7 * e.w)) (hr2 : Readable post a (7 * e.w)) (hn : n < 2 ^ 64 - 1)
    (hf : 2 ^ 64 ≤ fuel) :
    ∃ t, MsgShown e post (hdrAt e.w post a) (some (hdrAt e.w pre a).namelen) (some n) t ∧
      recvmsg e pre post fuel a flags (.ok n) = some [.msg t, .flags flags] := by
  obtain ⟨b1, b2, b3⟩ := hdrAt_bounds e.w post a hw
  obtain ⟨t, ht, hsh⟩ := hdr_shown e post fuel (hdrAt e.w post a) (some (hdrAt e.w pre a).namelen) n hw b1 b2 (by omega) (by omega)
  rw [limitOf, if_neg (by omega)] at hsh
  refine ⟨t, hsh, ?_⟩
  unfold recvmsg hdrNamelen decodeHdr
  rw [if_pos ⟨h0, hvb⟩, fetchHdr_eq e.w pre a hw ha, if_pos hr1]
  simp only [Option.map_some]
  rw [if_pos ⟨h0, hvb⟩, fetchHdr_eq e.w post a hw ha, if_pos hr2]
  dsimp only
  rw [ht]
  rfl

/-- C96: a single message whose header cannot be read, or that has not been received -/
theorem recvmsg_not (e : Env) (pre post : Mem) (fuel a flags : Nat) (r : Ret) (hw : e.w = 4 ∨ e.w = 8) (ha : a < 2 ^ 64) :
    (a = 0 ∨ e.vb = false ∨ ¬ Readable pre a (7 * e.w) → recvmsg e pre post fuel a flags r = some [.addr a, .flags flags]) ∧
    (a ≠ 0 → e.vb = true → Readable pre a (7 * e.w) →
      recvmsg e pre post fuel a flags .err = some [.namelen (hdrAt e.w pre a).namelen, .flags flags]) := by
  refine ⟨?_, ?_⟩
  · intro h
    have : hdrNamelen e pre a = none := by
      unfold hdrNamelen
      split
      · rename_i hc
        rw [fetchHdr_eq e.w pre a hw ha]
        rcases h with h | h | h
        · exact absurd h hc.1
        · rw [h] at hc; cases hc.2
        · rw [if_neg h]; rfl
      · rfl
    rw [recvmsg, this]
  · intro h0 hvb hr
    rw [recvmsg, hdrNamelen, if_pos ⟨h0, hvb⟩, fetchHdr_eq e.w pre a hw ha, if_pos hr]
    rfl

/-! ### The bytes shown are the bytes received -/

/-- C96: of `n` bytes received, as many are shown as the buffers hold, and no more -/
theorem share_sum (lens : Nat → Nat) (n : Nat) : ∀ j, ((List.range j).map (share lens (some n))).sum =
    min n ((List.range j).map lens).sum := by
  intro j
  induction j with
  | zero => simp
  | succ j ih =>
    simp only [List.range_succ, List.map_append, List.sum_append, List.map_cons, List.map_nil, List.sum_cons, List.sum_nil,
      Nat.add_zero, ih]
    unfold share
    simp only
    omega

/-- C96: a buffer is shown in part or not at all only if all the bytes have been shown -/
theorem share_prefix (lens : Nat → Nat) (n i : Nat) (h : share lens (some n) i < lens i) :
    ((List.range (i + 1)).map (share lens (some n))).sum = n := by
  rw [share_sum]
  simp only [List.range_succ, List.map_append, List.sum_append, List.map_cons, List.map_nil, List.sum_cons, List.sum_nil,
    Nat.add_zero]
  unfold share at h
  simp only at h
  omega

end Strace.Msg
