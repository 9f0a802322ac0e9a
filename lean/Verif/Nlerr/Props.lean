import Verif.Nlerr.Spec
/-!
# An error message shows the request it quotes and the attributes after it (C117)
-/

namespace Strace.Nlerr

theorem payload_err (e : Env) (h : Hdr) (a len : Nat) (m : Hdr) (ht : h.type = 2) (hl : 20 ≤ len) (hm : e.hdr (a + 4) = some m) :
    payload e h a len = .err a m
      (if min m.len (quoted (len - 4) (h.flags &&& cappedBit != 0) m) > 16 then
        some (payload e m (a + 4 + 16) (min m.len (quoted (len - 4) (h.flags &&& cappedBit != 0) m) - 16)) else none)
      (attrs (a + 4) (len - 4) (quoted (len - 4) (h.flags &&& cappedBit != 0) m)) := by
  rw [payload, if_pos ht, if_neg (by omega), hm]

theorem payload_short (e : Env) (h : Hdr) (a len : Nat) (ht : h.type = 2) (hl : len < 20) :
    payload e h a len = .bytes a len := by
  rw [payload, if_pos ht, if_pos hl]

theorem payload_none (e : Env) (h : Hdr) (a len : Nat) (ht : h.type = 2) (hl : 20 ≤ len) (hm : e.hdr (a + 4) = none) :
    payload e h a len = .addr a := by
  rw [payload, if_pos ht, if_neg (by omega), hm]

theorem payload_other (e : Env) (h : Hdr) (a len : Nat) (ht : h.type ≠ 2) : payload e h a len = other e h a len := by
  rw [payload, if_neg ht]

/-! ## Every byte is shown once -/

theorem tile_append (l l' : List Piece) : ∀ (a n : Nat) (k : Nat), k ≤ n → Tile a k l → Tile (a + k) (n - k) l' →
    Tile a n (l ++ l') := by
  induction l with
  | nil => intro a n k hk h h'; simp only [Tile] at h; subst h; simpa using h'
  | cons p l ih =>
    intro a n k hk h h'
    obtain ⟨b, m⟩ := p
    simp only [List.cons_append, Tile] at h ⊢
    obtain ⟨h1, h2, h3⟩ := h
    refine ⟨h1, by omega, ih (a + m) (n - m) (k - m) (by omega) h3 ?_⟩
    have e1 : a + m + (k - m) = a + k := by omega
    have e2 : n - m - (k - m) = n - k := by omega
    rw [e1, e2]; exact h'

theorem tile_attrs (a len n : Nat) (h : n ≤ len) : Tile (a + n) (len - n) (attrs a len n).toList := by
  unfold attrs
  split
  · simp [Tile]
  · simp [Tile]; omega

/-- Whatever the memory holds and however messages are nested: if nothing is shown just by its address, what is shown are pieces
that follow one another and are the whole payload. -/
theorem every_byte (e : Env) (n : Nat) : ∀ (h : Hdr) (a len : Nat) (l : List Piece), len ≤ n →
    (payload e h a len).pieces = some l → Tile a len l := by
  induction n with
  | zero =>
    intro h a len l hn hp
    have : len = 0 := by omega
    subst this
    by_cases ht : h.type = 2
    · rw [payload_short e h a 0 ht (by omega)] at hp
      cases hp
      simp [Tile]
    · rw [payload_other e h a 0 ht] at hp
      unfold other at hp
      split at hp
      · cases hp; simp [Tile]
      · rw [if_neg (by omega)] at hp
        cases hp; simp [Tile]
  | succ n ih =>
    intro h a len l hn hp
    by_cases ht : h.type = 2
    · by_cases hl : len < 20
      · rw [payload_short e h a len ht hl] at hp
        cases hp
        simp [Tile]
      · cases hm : e.hdr (a + 4) with
        | none => rw [payload_none e h a len ht (by omega) hm] at hp; cases hp
        | some m =>
          rw [payload_err e h a len m ht (by omega) hm] at hp
          have hq : quoted (len - 4) (h.flags &&& cappedBit != 0) m ≤ len - 4 := by unfold quoted; omega
          have hq16 : 16 ≤ quoted (len - 4) (h.flags &&& cappedBit != 0) m := by
            unfold quoted msgLen; split <;> omega
          have hq2 : quoted (len - 4) (h.flags &&& cappedBit != 0) m ≤ max 16 m.len := by
            unfold quoted msgLen; split <;> omega
          generalize quoted (len - 4) (h.flags &&& cappedBit != 0) m = q at *
          have hta := tile_attrs (a + 4) (len - 4) q hq
          have e1 : a + 4 + q = a + 20 + (q - 16) := by omega
          have e2 : len - 4 - q = len - 20 - (q - 16) := by omega
          rw [e1, e2] at hta
          by_cases hc : min m.len q > 16
          · rw [if_pos hc] at hp
            cases ho : (payload e m (a + 4 + 16) (min m.len q - 16)).pieces with
            | none => simp [Out.pieces, ho] at hp
            | some l' =>
              simp only [Out.pieces, ho, Option.some.injEq] at hp
              subst hp
              have := ih m (a + 4 + 16) (min m.len q - 16) l' (by omega) ho
              refine ⟨rfl, by omega, ?_⟩
              have e3 : min m.len q - 16 = q - 16 := by omega
              rw [e3] at this
              exact tile_append _ _ _ _ (q - 16) (by omega) this hta
          · rw [if_neg hc] at hp
            simp only [Out.pieces, Option.some.injEq] at hp
            subst hp
            refine ⟨rfl, by omega, ?_⟩
            have e4 : q - 16 = 0 := by omega
            rw [e4] at hta
            simpa using hta
    · rw [payload_other e h a len ht] at hp
      unfold other at hp
      split at hp
      · cases hp; simp [Tile]
      · split at hp
        · next hd =>
          split at hp
          · cases hp; simp [Tile, hd.2]
          · cases hp
        · cases hp; simp [Tile]

/-- the same for a whole message with its header: the payload is all that is left of the message's length, or of the memory if that
is less -/
theorem message_every_byte (e : Env) (h : Hdr) (a len : Nat) (o : Out) (l : List Piece) (hm : message e h a len = some o)
    (hp : o.pieces = some l) : Tile (a + 16) (min h.len len - 16) l := by
  unfold message at hm
  split at hm
  · cases hm
    exact every_byte e _ h _ _ l (Nat.le_refl _) hp
  · cases hm

/-- the payload of any message that has one is shown -/
theorem message_shown (e : Env) (h : Hdr) (a len : Nat) : (message e h a len).isSome = true ↔ 16 < h.len ∧ 16 < len := by
  unfold message
  split
  · simp; omega
  · simp; omega

/-! ## Answers of the kernel -/

theorem bit_test (f : Nat) : (f &&& cappedBit != 0) = f.testBit 8 := by
  have h : cappedBit = 2 ^ 8 := rfl
  cases hb : f.testBit 8 with
  | true =>
    have : (f &&& cappedBit).testBit 8 = true := by rw [h, Nat.testBit_and, hb, Nat.testBit_two_pow_self]; rfl
    rw [bne_iff_ne]
    intro h0
    rw [h0] at this
    simp at this
  | false =>
    have : f &&& cappedBit = 0 := by
      apply Nat.eq_of_testBit_eq
      intro i
      rw [h, Nat.testBit_and, Nat.testBit_two_pow, Nat.zero_testBit]
      by_cases hi : 8 = i
      · subst hi; rw [hb]; rfl
      · simp [hi]
    rw [this]; rfl

/-- the request quoted in an answer of the kernel is shown: its header, and if the answer is not capped the rest of it is decoded as
the payload of a message with that header -/
theorem request_shown (e : Env) (h r : Hdr) (a size at' tlv : Nat) (ht : h.type = 2)
    (hk : Answer e r (h.flags.testBit 8) a size at' tlv) :
    (payload e h a size).request = some (r,
      if h.flags.testBit 8 = false ∧ 16 < r.len then some (payload e r (a + 20) (r.len - 16)) else none) := by
  obtain ⟨h1, h2, h3, h4⟩ := hk
  have hs : 20 ≤ size := by split at h3 <;> omega
  rw [payload_err e h a size r ht hs h1, bit_test]
  simp only [Out.request]
  cases hb : h.flags.testBit 8 with
  | true =>
    rw [if_neg, if_neg (by simp)]
    simp only [quoted, if_true]; omega
  | false =>
    rw [hb] at h3
    simp only [Bool.false_eq_true, if_false] at h3
    have hq : min r.len (quoted (size - 4) false r) = r.len := by
      simp only [quoted, Bool.false_eq_true, if_false, msgLen]; omega
    rw [hq]
    by_cases hr : 16 < r.len
    · rw [if_pos hr, if_pos ⟨rfl, hr⟩]
    · rw [if_neg hr, if_neg (fun hh => hr hh.2)]

/-- The attributes shown are those of the answer if and only if the answer is capped or the length of the request is a multiple
of four: the padding of the request is not skipped. -/
theorem attributes_iff_partial (e : Env) (h r : Hdr) (a size at' tlv : Nat) (ht : h.type = 2) (htlv : tlv ≠ 0)
    (hk : Answer e r (h.flags.testBit 8) a size at' tlv) :
    (payload e h a size).attributes = some (at', tlv) ↔ h.flags.testBit 8 = true ∨ r.len % 4 = 0 := by
  obtain ⟨h1, h2, h3, h4⟩ := hk
  have hs : 20 ≤ size := by split at h3 <;> omega
  rw [payload_err e h a size r ht hs h1, bit_test]
  simp only [Out.attributes]
  cases hb : h.flags.testBit 8 with
  | true =>
    rw [hb] at h3
    simp only [if_true] at h3
    simp only [true_or, iff_true, quoted, if_true, attrs]
    rw [if_pos (by omega)]
    simp only [Option.some.injEq, Prod.mk.injEq]; omega
  | false =>
    rw [hb] at h3
    simp only [Bool.false_eq_true, if_false] at h3
    simp only [Bool.false_eq_true, false_or, quoted, if_false, msgLen, attrs]
    rw [if_pos (by omega)]
    simp only [Option.some.injEq, Prod.mk.injEq]; omega

/-- in an answer without attributes none are shown, if the request needs no padding -/
theorem no_attributes (e : Env) (h r : Hdr) (a size at' : Nat) (ht : h.type = 2) (hr : r.len % 4 = 0)
    (hk : Answer e r (h.flags.testBit 8) a size at' 0) : (payload e h a size).attributes = none := by
  obtain ⟨h1, h2, h3, h4⟩ := hk
  have hs : 20 ≤ size := by split at h3 <;> omega
  rw [payload_err e h a size r ht hs h1, bit_test]
  simp only [Out.attributes]
  cases hb : h.flags.testBit 8 with
  | true =>
    rw [hb] at h3
    simp only [if_true] at h3
    simp only [quoted, if_true, attrs]
    rw [if_neg (by omega)]
  | false =>
    rw [hb] at h3
    simp only [Bool.false_eq_true, if_false] at h3
    simp only [quoted, Bool.false_eq_true, if_false, msgLen, attrs]
    rw [if_neg (by omega)]

/-! ## Nesting -/

/-- error messages are nested no deeper than there is room for their 20 bytes -/
theorem depth_le (e : Env) (n : Nat) : ∀ (h : Hdr) (a len : Nat), len ≤ n → 20 * (payload e h a len).depth ≤ len := by
  induction n with
  | zero =>
    intro h a len hn
    by_cases ht : h.type = 2
    · rw [payload_short e h a len ht (by omega)]; simp [Out.depth]
    · rw [payload_other e h a len ht]; unfold other; repeat' split
      all_goals simp [Out.depth]
  | succ n ih =>
    intro h a len hn
    by_cases ht : h.type = 2
    · by_cases hl : len < 20
      · rw [payload_short e h a len ht hl]; simp [Out.depth]
      · cases hm : e.hdr (a + 4) with
        | none => rw [payload_none e h a len ht (by omega) hm]; simp [Out.depth]
        | some m =>
          rw [payload_err e h a len m ht (by omega) hm]
          have hq : quoted (len - 4) (h.flags &&& cappedBit != 0) m ≤ len - 4 := by unfold quoted; omega
          generalize quoted (len - 4) (h.flags &&& cappedBit != 0) m = q at *
          by_cases hc : min m.len q > 16
          · rw [if_pos hc]
            have := ih m (a + 4 + 16) (min m.len q - 16) (by omega)
            simp only [Out.depth]; omega
          · rw [if_neg hc]; simp only [Out.depth]; omega
    · rw [payload_other e h a len ht]; unfold other; repeat' split
      all_goals simp [Out.depth]

/-- memory full of headers of error messages -/
def nest : Env := ⟨fun _ => some ⟨2 ^ 32 - 1, 2, 0⟩, fun _ _ _ => false, fun _ => true⟩

/-- There is no other bound: 20 bytes for each level are enough, and each level is a level of calls in strace. -/
theorem depth_unbounded (n : Nat) : ∀ a, 20 * n < 2 ^ 32 → (payload nest ⟨2 ^ 32 - 1, 2, 0⟩ a (20 * n)).depth = n := by
  induction n with
  | zero => intro a _; rw [payload_short _ _ _ _ rfl (by omega)]; rfl
  | succ n ih =>
    intro a hn
    rw [payload_err nest _ a (20 * (n + 1)) ⟨2 ^ 32 - 1, 2, 0⟩ rfl (by omega) rfl]
    have hq : min (2 ^ 32 - 1) (quoted (20 * (n + 1) - 4) ((0 : Nat) &&& cappedBit != 0) ⟨2 ^ 32 - 1, 2, 0⟩) = 20 * n + 16 := by
      simp only [quoted, msgLen, Nat.zero_and, bne_self_eq_false, Bool.false_eq_true, if_false]; omega
    simp only [hq]
    by_cases h0 : n = 0
    · subst h0; rw [if_neg (by omega)]; rfl
    · rw [if_pos (by omega)]
      have e : 20 * n + 16 - 16 = 20 * n := by omega
      rw [e]
      simp only [Out.depth, ih (a + 4 + 16) (by omega)]

/-! ## Witnesses -/

/-- an answer to a request of 17 bytes, such as RTM_GETLINK with a `struct rtgenmsg`: three bytes of padding, then an attribute of
8 bytes.  The request is quoted from 0 on. -/
def getlink : Env := ⟨fun a => if a = 4 then some ⟨17, 18, 5⟩ else none, fun _ _ _ => false, fun _ => true⟩

/-- the attributes are looked for three bytes before them -/
theorem padding_not_skipped :
    Answer getlink ⟨17, 18, 5⟩ false 0 32 24 8 ∧ (payload getlink ⟨48, 2, 0x200⟩ 0 32).attributes = some (21, 11) := by
  refine ⟨⟨rfl, by decide, by decide, by decide⟩, ?_⟩
  rw [payload_err getlink _ 0 32 ⟨17, 18, 5⟩ rfl (by omega) rfl]
  rfl

/-- an ordinary answer: a request of 32 bytes quoted whole, and attributes after it -/
def ordinary : Env := ⟨fun a => if a = 104 then some ⟨32, 16, 5⟩ else none, fun t _ _ => t == 16, fun _ => true⟩

example : Answer ordinary ⟨32, 16, 5⟩ (Nat.testBit 0x200 8) 100 44 136 8 := ⟨rfl, by decide, by decide, by decide⟩

example : (payload ordinary ⟨60, 2, 0x200⟩ 100 44).pieces = some [(100, 20), (120, 16), (136, 8)] ∧
    (payload ordinary ⟨60, 2, 0x200⟩ 100 44).attributes = some (136, 8) := by
  rw [payload_err ordinary _ 100 44 ⟨32, 16, 5⟩ rfl (by omega) rfl]
  have h : min 32 (quoted (44 - 4) ((0x200 : Nat) &&& cappedBit != 0) ⟨32, 16, 5⟩) = 32 := by decide
  simp only [h]
  rw [if_pos (by omega), payload_other _ _ _ _ (by decide)]
  decide

example : Answer ordinary ⟨32, 16, 5⟩ (Nat.testBit 0x300 8) 100 28 120 8 := ⟨rfl, by decide, by decide, by decide⟩

/-- what must not be confused with a capped answer: the last message of a dump -/
example : payload ordinary ⟨20, 3, 2⟩ 0 4 = .num 0 := by
  rw [payload_other _ _ _ _ (by decide)]; rfl

end Strace.Nlerr
