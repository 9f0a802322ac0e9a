import Verif.Msg.Spec
import Verif.Arr.Props
import Verif.Sock.Main
import Mathlib.Tactic.Common
/-!
# Messages: reading memory, and the two arrays
-/
namespace Strace.Msg
open Strace.Sized (Byte moven le fld)

/-! ### Memory -/

/-- the bytes at an address -/
def bytes (mem : Mem) (a n : Nat) : List Byte := (List.range n).map fun i => (mem ((a + i) % 2 ^ 64)).getD 0

theorem moven_bytes (mem : Mem) : ∀ (n a : Nat), a < 2 ^ 64 →
    moven mem a n = if Readable mem a n then some (bytes mem a n) else none := by
  intro n
  induction n with
  | zero => intro a _; rw [if_pos (by intro i hi; omega)]; rfl
  | succ n ih =>
    intro a ha
    have hb : bytes mem a (n + 1) = (mem a).getD 0 :: bytes mem ((a + 1) % 2 ^ 64) n := by
      unfold bytes
      rw [List.range_succ_eq_map, List.map_cons, List.map_map, Nat.add_zero, Nat.mod_eq_of_lt ha]
      congr 1
      apply List.map_congr_left
      intro i _
      simp only [Function.comp, Nat.succ_eq_add_one]
      congr 2
      omega
    have hr : Readable mem a (n + 1) ↔ mem a ≠ none ∧ Readable mem ((a + 1) % 2 ^ 64) n := by
      constructor
      · intro h
        refine ⟨?_, ?_⟩
        · have := h 0 (by omega)
          rwa [Nat.add_zero, Nat.mod_eq_of_lt ha] at this
        · intro i hi
          have := h (i + 1) (by omega)
          rwa [show ((a + 1) % 2 ^ 64 + i) % 2 ^ 64 = (a + (i + 1)) % 2 ^ 64 from by omega]
      · rintro ⟨h0, h⟩ i hi
        cases i with
        | zero => rwa [Nat.add_zero, Nat.mod_eq_of_lt ha]
        | succ i =>
          have := h i (by omega)
          rwa [show ((a + 1) % 2 ^ 64 + i) % 2 ^ 64 = (a + (i + 1)) % 2 ^ 64 from by omega] at this
    rw [moven, ih _ (Nat.mod_lt _ (by omega)), hb]
    cases hm : mem a with
    | none =>
      have : ¬ Readable mem a (n + 1) := by rw [hr]; simp [hm]
      rw [if_neg this]
    | some x =>
      by_cases h : Readable mem ((a + 1) % 2 ^ 64) n
      · rw [if_pos h, if_pos (by rw [hr]; exact ⟨by simp [hm], h⟩)]
        rfl
      · rw [if_neg h, if_neg (by rw [hr]; exact fun h' => h h'.2)]

theorem le_range : ∀ (n : Nat) (f : Nat → Byte),
    le ((List.range n).map f) = ((List.range n).map fun i => (f i).val * 256 ^ i).sum := Sock.le_map_range

theorem fld_bytes (mem : Mem) (a n off len : Nat) (h : off + len ≤ n) : fld (bytes mem a n) off len = word mem (a + off) len := by
  have h1 : ((bytes mem a n).drop off).take len = bytes mem (a + off) len := by
    apply List.ext_getElem
    · simp [bytes]; omega
    · intro i h1 h2
      simp [bytes, Nat.add_assoc]
  rw [fld, h1, bytes, le_range, word]
  rfl

theorem sint_int (v : Nat) (h : v < 2 ^ 32) : Sock.sint v = int v := by
  have hv : (BitVec.ofNat 32 v).toNat = v := by rw [BitVec.toNat_ofNat, Nat.mod_eq_of_lt h]
  rw [Sock.sint, int, BitVec.toInt_eq_toNat_cond, hv]
  split
  · rw [if_pos (by omega)]
  · rw [if_neg (by omega)]
    rfl

theorem word_lt (mem : Mem) : ∀ (n a : Nat), word mem a n < 256 ^ n := by
  intro n
  induction n with
  | zero => intro a; simp [word]
  | succ n ih =>
    intro a
    have h1 : word mem a (n + 1) = word mem a n + byteAt mem (a + n) * 256 ^ n := by
      simp [word, List.range_succ]
    have h2 := ih a
    have h3 : byteAt mem (a + n) < 256 := ((mem ((a + n) % 2 ^ 64)).getD 0).isLt
    have h4 : byteAt mem (a + n) * 256 ^ n ≤ 255 * 256 ^ n := Nat.mul_le_mul_right _ (by omega)
    rw [h1, Nat.pow_succ]
    omega

theorem hdrOf_bytes (w : Nat) (mem : Mem) (a n : Nat) (hw : w = 4 ∨ w = 8) (hn : hdrSize w ≤ n) :
    hdrOf w (bytes mem a n) = hdrAt w mem a := by
  rcases hw with rfl | rfl
  · have hn : 28 ≤ n := hn
    rw [hdrOf, if_pos rfl]
    rw [fld_bytes mem a n 0 4 (by omega), fld_bytes mem a n 4 4 (by omega), fld_bytes mem a n 8 4 (by omega),
      fld_bytes mem a n 12 4 (by omega), fld_bytes mem a n 16 4 (by omega), fld_bytes mem a n 20 4 (by omega),
      fld_bytes mem a n 24 4 (by omega), sint_int _ (word_lt mem 4 _)]
    rfl
  · have hn : 56 ≤ n := hn
    rw [hdrOf, if_neg (by decide)]
    rw [fld_bytes mem a n 0 8 (by omega), fld_bytes mem a n 8 4 (by omega), fld_bytes mem a n 16 8 (by omega),
      fld_bytes mem a n 24 8 (by omega), fld_bytes mem a n 32 8 (by omega), fld_bytes mem a n 40 8 (by omega),
      fld_bytes mem a n 48 4 (by omega), sint_int _ (word_lt mem 4 _)]
    rfl

theorem hdrSize_eq (w : Nat) (hw : w = 4 ∨ w = 8) : hdrSize w = 7 * w := by rcases hw with rfl | rfl <;> rfl

theorem mhdrSize_eq (w : Nat) (hw : w = 4 ∨ w = 8) : mhdrSize w = 8 * w := by rcases hw with rfl | rfl <;> rfl

theorem fetchHdr_eq (w : Nat) (mem : Mem) (a : Nat) (hw : w = 4 ∨ w = 8) (ha : a < 2 ^ 64) :
    fetchHdr w mem a = if Readable mem a (7 * w) then some (hdrAt w mem a) else none := by
  rw [fetchHdr, moven_bytes mem _ a ha, hdrSize_eq w hw]
  split
  · rw [Option.map_some, hdrOf_bytes w mem a _ hw (by rw [hdrSize_eq w hw])]
  · rfl

theorem fetchMHdr_eq (w : Nat) (mem : Mem) (a : Nat) (hw : w = 4 ∨ w = 8) (ha : a < 2 ^ 64) :
    fetchMHdr w mem a = if Readable mem a (8 * w) then some ⟨hdrAt w mem a, lenAt w mem a⟩ else none := by
  rw [fetchMHdr, moven_bytes mem _ a ha, mhdrSize_eq w hw]
  split
  · rw [Option.map_some, hdrOf_bytes w mem a _ hw (by rw [hdrSize_eq w hw]; omega), hdrSize_eq w hw,
      fld_bytes mem a _ _ 4 (by omega)]
    rfl
  · rfl

theorem iovAt_eq (w : Nat) (mem : Mem) (a : Nat) (ha : a < 2 ^ 64) (h0 : a ≠ 0) :
    iovAt w mem true a = if Readable mem a (2 * w) then some (word mem a w, word mem (a + w) w) else none := by
  rw [iovAt, if_pos ⟨rfl, h0⟩, moven_bytes mem _ a ha]
  split
  · rw [Option.map_some, fld_bytes mem a _ 0 w (by omega), fld_bytes mem a _ w w (by omega)]
    rfl
  · rfl

/-! ### Runs of elements -/

variable {α β σ : Type}

theorem run_det {elem : Nat → Option β} {print : σ → β → α × σ × Bool} (st : Nat → σ) (it : Nat → α)
    (h : ∀ i b, elem i = some b → print (st i) b = (it i, st (i + 1), true) ∨ (print (st i) b).2.2 = false)
    {i j : Nat} {s s' : σ} {l : List α} (hr : Arr.Run elem print i s l j s') :
    s = st i → l = (List.range' i (j - i)).map it ∧ s' = st j := by
  induction hr with
  | nil i s => intro hs; simp [hs]
  | cons i j s s1 s' b a l he hp hr ih =>
    intro hs
    subst hs
    rcases h i b he with h1 | h1
    · rw [h1] at hp
      cases hp
      obtain ⟨h2, h3⟩ := ih rfl
      refine ⟨?_, h3⟩
      have hlen := Arr.run_length hr
      have : j - i = (j - (i + 1)) + 1 := by omega
      rw [h2, this, List.range'_succ]
      rfl
    · rw [hp] at h1
      cases h1

theorem run_at {elem : Nat → Option β} {print : σ → β → α × σ × Bool} (st : Nat → σ) (it : Nat → α)
    (h : ∀ i b, elem i = some b → print (st i) b = (it i, st (i + 1), true) ∨ (print (st i) b).2.2 = false)
    {i j : Nat} {s s' : σ} {l : List α} (hr : Arr.Run elem print i s l j s') :
    s = st i → ∀ k, i ≤ k → k < j → ∃ b, elem k = some b ∧ print (st k) b = (it k, st (k + 1), true) := by
  induction hr with
  | nil i s => intro _ k h1 h2; omega
  | cons i j s s1 s' b a l he hp hr ih =>
    intro hs k h1 h2
    subst hs
    rcases h i b he with h3 | h3
    · by_cases hk : k = i
      · subst hk; exact ⟨b, he, h3⟩
      · rw [h3] at hp
        cases hp
        exact ih rfl k (by omega) h2
    · rw [hp] at h3
      cases h3

theorem items_map (l : List α) : ∀ i, Arr.items false i l = l.map fun a => [Arr.Tok.elem a] := by
  induction l with
  | nil => intro i; rfl
  | cons a l ih => intro i; simp [Arr.items, ih]

/-! ### Buffers -/

/-- the bytes left for the buffers from `i` on -/
def leftover (lens : Nat → Nat) (size i : Nat) : Nat :=
  if size = 2 ^ 64 - 1 then size else size - ((List.range i).map lens).sum

/-- `size` as the limit of the specification -/
def limitOf (size : Nat) : Option Nat := if size = 2 ^ 64 - 1 then none else some size

theorem iovElem_eq (nl : Bool) (lens : Nat → Nat) (size i base : Nat) (hs : size < 2 ^ 64) (hl : lens i < 2 ^ 64) :
    iovElem nl (leftover lens size i) (base, lens i) =
      (⟨base, share lens (limitOf size) i, nl, lens i⟩, leftover lens size (i + 1), true) := by
  unfold iovElem leftover limitOf
  by_cases h : size = 2 ^ 64 - 1
  · simp only [if_pos h, share]
    rw [if_neg (by omega), if_neg (by omega)]
  · simp only [if_neg h, share, List.range_succ, List.map_append, List.sum_append, List.map_cons, List.map_nil, List.sum_cons,
      List.sum_nil, Nat.add_zero]
    generalize ((List.range i).map lens).sum = q
    have h2 : ¬ (size - q = 2 ^ 64 - 1) := by omega
    have h3 : (if lens i > size - q then size - q else lens i) = min (lens i) (size - q) := by split <;> omega
    rw [h3, if_pos h2]
    congr 2
    omega

theorem iov_shown (e : Env) (mem : Mem) (fuel n a size : Nat) (nl : Bool) (hw : e.w = 4 ∨ e.w = 8) (ha : a < 2 ^ 64)
    (hs : size < 2 ^ 64) (hf : n < fuel) :
    ∃ t, iovUpto e mem fuel n a size nl = some t ∧ IovShown e mem a n (limitOf size) nl t := by
  unfold iovUpto IovShown
  have hes : 0 < 2 * e.w := by omega
  obtain ⟨n1, n2, n3⟩ := Arr.array_not ⟨e.arr, false, false⟩ (.tracee (iovAt e.w mem e.vb)) (iovElem nl) a n (2 * e.w) fuel size
    hes ha
  by_cases h0 : a = 0
  · rw [n1 h0]
    exact ⟨_, rfl, by rw [if_pos h0]⟩
  simp only [if_neg h0]
  by_cases hn : n = 0
  · rw [n2 h0 hn]
    exact ⟨_, rfl, by rw [if_pos hn]; rfl⟩
  simp only [if_neg hn]
  by_cases hov : a + n * (2 * e.w) ≥ 2 ^ 64
  · rw [n3 h0 hn hov]
    exact ⟨_, rfl, by rw [if_pos (Or.inl hov)]; rfl⟩
  obtain ⟨l, j, why, s', hends, hp⟩ := Arr.array_shown ⟨e.arr, false, false⟩ (.tracee (iovAt e.w mem e.vb)) (iovElem nl) a n
    (2 * e.w) fuel size h0 (by omega) hes (by omega) hf
  rw [hp]
  refine ⟨_, rfl, ?_⟩
  dsimp only
  obtain ⟨hjn, hlim, hwhy⟩ := hends
  cases hvb : e.vb with
  | false =>
    rw [if_pos (Or.inr (Or.inl rfl))]
    have hno : ∀ i, Arr.at' (.tracee (iovAt e.w mem e.vb)) a (2 * e.w) i = none := by
      intro i
      simp [Arr.at', Arr.Src.get, iovAt, hvb]
    have hrun : ∀ {i s l j s'}, Arr.Run (Arr.at' (.tracee (iovAt e.w mem e.vb)) a (2 * e.w)) (iovElem nl) i s l j s' →
        j = i := by
      intro i s l j s' hr
      cases hr with
      | nil => rfl
      | cons _ _ _ s1 _ b x l he hp hr => rw [hno] at he; cases he
    cases why with
    | done => have := hrun hwhy.2; omega
    | unreadable =>
      have := hrun hwhy.2.2
      rw [Arr.text, if_pos ⟨this, rfl⟩]
    | limit => exact absurd (hno j) hwhy.2.2.1
    | stopped x =>
      obtain ⟨_, b, t, _, he, _⟩ := hwhy
      rw [hno] at he; cases he
  | true =>
    rw [hvb] at hwhy hp
    have hadr : ∀ i, i ≤ n → a + i * (2 * e.w) ≠ 0 ∧ a + i * (2 * e.w) < 2 ^ 64 := by
      intro i hi
      have : i * (2 * e.w) ≤ n * (2 * e.w) := Nat.mul_le_mul_right _ hi
      omega
    have hat : ∀ i, i < n → Arr.at' (.tracee (iovAt e.w mem true)) a (2 * e.w) i =
        if Readable mem (a + i * (2 * e.w)) (2 * e.w) then
          some (word mem (a + i * (2 * e.w)) e.w, bufLen e.w mem a i) else none := by
      intro i hi
      obtain ⟨h1, h2⟩ := hadr i (by omega)
      rw [Arr.at', Arr.Src.get, iovAt_eq e.w mem _ h2 h1]
      rfl
    -- elements beyond the array do not matter
    have hstep : ∀ i b, (if i < n then Arr.at' (.tracee (iovAt e.w mem true)) a (2 * e.w) i else none) = some b →
        iovElem nl (leftover (bufLen e.w mem a) size i) b =
          (buf e.w mem a (limitOf size) nl i, leftover (bufLen e.w mem a) size (i + 1), true) ∨
        (iovElem nl (leftover (bufLen e.w mem a) size i) b).2.2 = false := by
      intro i b hb
      left
      split at hb
      · rename_i hi
        rw [hat i hi] at hb
        split at hb
        · cases hb
          have hl : bufLen e.w mem a i < 2 ^ 64 := by
            have := word_lt mem e.w (a + i * (2 * e.w) + e.w)
            unfold bufLen
            rcases hw with h | h <;> rw [h] at this ⊢ <;> omega
          rw [iovElem_eq nl _ size i _ hs hl]
          rfl
        · cases hb
      · cases hb
    have hcut : ∀ {i s l j s'}, Arr.Run (Arr.at' (.tracee (iovAt e.w mem true)) a (2 * e.w)) (iovElem nl) i s l j s' → j ≤ n →
        Arr.Run (fun i => if i < n then Arr.at' (.tracee (iovAt e.w mem true)) a (2 * e.w) i else none) (iovElem nl) i s l j s' := by
      intro i s l j s' hr
      induction hr with
      | nil i s => intro _; exact .nil i s
      | cons i j s s1 s' b x l he hp hr ih =>
        intro hj
        have := Arr.run_length hr
        exact .cons i j s s1 s' b x l (by rw [if_pos (by omega)]; exact he) hp (ih hj)
    have hs0 : size = leftover (bufLen e.w mem a) size 0 := by
      unfold leftover; split <;> simp
    have hmain : ∀ {l j s'}, Arr.Run (Arr.at' (.tracee (iovAt e.w mem true)) a (2 * e.w)) (iovElem nl) 0 size l j s' → j ≤ n →
        l = (List.range j).map (buf e.w mem a (limitOf size) nl) ∧
        ∀ i, i < j → Readable mem (a + i * (2 * e.w)) (2 * e.w) := by
      intro l j s' hr hj
      have h1 := run_det (leftover (bufLen e.w mem a) size) (buf e.w mem a (limitOf size) nl) hstep (hcut hr hj) hs0
      have h2 := run_at (leftover (bufLen e.w mem a) size) (buf e.w mem a (limitOf size) nl) hstep (hcut hr hj) hs0
      refine ⟨by rw [h1.1, Nat.sub_zero, List.range_eq_range'], ?_⟩
      intro i hi
      obtain ⟨b, hb, _⟩ := h2 i (by omega) hi
      rw [if_pos (by omega), hat i (by omega)] at hb
      split at hb
      · assumption
      · cases hb
    by_cases hr0 : Readable mem a (2 * e.w)
    · rw [if_neg (by simp [hr0]; omega)]
      have happ : n < 2 ^ 32 → ∀ m, e.arr = some m → j ≤ m := by
        intro hn32 m hm
        by_cases h : n % 2 ^ 32 > m
        · exact hlim m (by simp [Arr.applies, hm, Option.filter]; omega)
        · omega
      have hun : ∀ i, i < n → Arr.at' (.tracee (iovAt e.w mem true)) a (2 * e.w) i = none →
          ¬ Readable mem (a + i * (2 * e.w)) (2 * e.w) := by
        intro i hi h hr
        rw [hat i hi, if_pos hr] at h
        cases h
      cases why with
      | done =>
        obtain ⟨hj, hr⟩ := hwhy
        obtain ⟨h1, h2⟩ := hmain hr hjn
        refine ⟨j, .nothing, hjn, h2, ?_, Or.inl ⟨hj, rfl⟩, happ⟩
        rw [Arr.text, if_neg (by simp [Arr.Why.isUnreadable]), items_map, h1]
        rfl
      | unreadable =>
        obtain ⟨hj, hu, hr⟩ := hwhy
        obtain ⟨h1, h2⟩ := hmain hr hjn
        have hj0 : j ≠ 0 := by
          rintro rfl
          have := hun 0 (by omega) hu
          rw [Nat.zero_mul, Nat.add_zero] at this
          exact this hr0
        refine ⟨j, .moreAt (a + j * (2 * e.w)), hjn, h2, ?_, Or.inr (Or.inr ⟨hj, hun j hj hu, rfl⟩), happ⟩
        rw [Arr.text, if_neg (by simp [hj0]), items_map, h1]
        rfl
      | limit =>
        obtain ⟨hj, hl, hu, hr⟩ := hwhy
        obtain ⟨h1, h2⟩ := hmain hr hjn
        have hl' : e.arr = some j := by
          unfold Arr.applies at hl
          cases he : e.arr with
          | none => rw [show Arr.Cfg.limit ⟨e.arr, false, false⟩ = e.arr from rfl, he] at hl; cases hl
          | some m =>
            rw [show Arr.Cfg.limit ⟨e.arr, false, false⟩ = e.arr from rfl, he] at hl
            simp only [Option.filter] at hl
            split at hl
            · exact hl
            · cases hl
        refine ⟨j, .more, hjn, h2, ?_, Or.inr (Or.inl ⟨hj, hl', rfl⟩), happ⟩
        rw [Arr.text, if_neg (by simp [Arr.Why.isUnreadable]), items_map, h1]
        rfl
      | stopped x =>
        obtain ⟨hj, b, t, hr, he, hpr, _⟩ := hwhy
        simp [iovElem] at hpr
    · rw [if_pos (Or.inr (Or.inr hr0))]
      have hz : Arr.at' (.tracee (iovAt e.w mem true)) a (2 * e.w) 0 = none := by
        rw [hat 0 (by omega), Nat.zero_mul, Nat.add_zero, if_neg hr0]
      have hrun : ∀ {s l j s'}, Arr.Run (Arr.at' (.tracee (iovAt e.w mem true)) a (2 * e.w)) (iovElem nl) 0 s l j s' →
          j = 0 := by
        intro s l j s' hr
        cases hr with
        | nil => rfl
        | cons _ _ _ s1 _ b x l he hp hr => rw [hz] at he; cases he
      cases why with
      | done => have := hrun hwhy.2; omega
      | unreadable =>
        have := hrun hwhy.2.2
        rw [Arr.text, if_pos ⟨this, rfl⟩]
      | limit =>
        have := hrun hwhy.2.2.2
        subst this
        exact absurd hz hwhy.2.2.1
      | stopped x =>
        obtain ⟨hj, b, t, hr, he, hpr, _⟩ := hwhy
        simp [iovElem] at hpr

end Strace.Msg
