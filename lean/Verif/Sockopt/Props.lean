import Verif.Sockopt.Spec
import Mathlib.Data.List.Basic
/-!
# C111: the value of a socket option
-/
namespace Strace.Sockopt

theorem bytesAt_holds (mem : Mem) : ∀ (n a : Nat) (bs : List Nat), (∀ i, ∀ h : i < bs.length, mem (a + i) = some bs[i]) → n ≤ bs.length →
    bytesAt mem a n = some (bs.take n)
  | 0, _, _, _, _ => by simp [bytesAt]
  | n + 1, a, [], _, h => by simp at h
  | n + 1, a, b :: bs, hm, h => by
    have h0 := hm 0 (by simp)
    have ht : ∀ i, ∀ h : i < bs.length, mem (a + 1 + i) = some bs[i] := by
      intro i hi
      have := hm (i + 1) (by simpa using hi)
      rw [show a + 1 + i = a + (i + 1) by omega, this]; rfl
    simp only [bytesAt, bytesAt_holds mem n (a + 1) bs ht (by simpa using h), List.take_succ_cons]
    simp only [Nat.add_zero] at h0
    rw [h0]; rfl

theorem fetch_holds (mem : Mem) (bs : List Nat) (n : Nat) (h : Holds mem bs) (hn : n ≤ bs.length) : fetch mem n = some (bs.take n) :=
  bytesAt_holds mem n 0 bs (fun i hi => by rw [Nat.zero_add]; exact h.1 i hi) hn

theorem leb_val : ∀ (bs : List Nat), (∀ b ∈ bs, b < 256) → leb bs.length (val bs) = bs
  | [], _ => rfl
  | b :: bs, h => by
    have hb := h b (by simp)
    have ih := leb_val bs (fun x hx => h x (by simp [hx]))
    simp only [List.length_cons, leb]
    have e : val (b :: bs) = b + 256 * val bs := rfl
    rw [e, show (b + 256 * val bs) % 256 = b by omega, show (b + 256 * val bs) / 256 = val bs by omega, ih]

theorem leb_val' (w : Nat) (bs : List Nat) (hl : bs.length = w) (h : ∀ b ∈ bs, b < 256) : leb w (val bs) = bs := hl ▸ leb_val bs h

theorem val_lt : ∀ (bs : List Nat), (∀ b ∈ bs, b < 256) → val bs < 256 ^ bs.length
  | [], _ => by simp [val]
  | b :: bs, h => by
    have hb := h b (by simp)
    have ih := val_lt bs (fun x hx => h x (by simp [hx]))
    have e : val (b :: bs) = b + 256 * val bs := rfl
    rw [e, List.length_cons, Nat.pow_succ]
    omega

theorem str_bytes (mem : Mem) (max : Nat) (hex : Bool) (bs : List Nat) (h : Holds mem bs) :
    str mem max hex bs.length = .str hex (bs.take max) (decide (bs.length > max)) := by
  unfold str
  rw [fetch_holds mem bs _ h (by omega)]
  simp only [List.take_take]
  congr 1
  · by_cases hm : max ≤ bs.length
    · congr 1; omega
    · rw [List.take_of_length_le (by omega), List.take_of_length_le (by omega)]
  · have e : (bs.length ≠ 0 ∧ bs.length > max) ↔ bs.length > max := ⟨And.right, fun h => ⟨by omega, h⟩⟩
    exact decide_eq_decide.mpr e

theorem num4_bytes (mem : Mem) (s : Style) (bs : List Nat) (h : Holds mem bs) (hl : 4 ≤ bs.length) :
    (num4 mem s).bytes = some (bs.take 4) := by
  unfold num4
  rw [fetch_holds mem bs 4 h hl]
  simp only [Out.bytes]
  rw [leb_val' 4 _ (by simp; omega) (fun b hb => h.2 b (List.mem_of_mem_take hb))]

/-- the members give back the bytes -/
theorem maybe_bytes (bs : List Nat) (hb : ∀ b ∈ bs, b < 256) (l : List (String × Nat)) : ∀ start,
    bs.length ≤ start + (l.map Prod.snd).sum →
    (maybe bs.length bs start l).flatMap (fun m => m.2.bytes) = bs.drop start := by
  induction l with
  | nil =>
    intro start h
    simp at h
    simp [maybe, List.drop_of_length_le h]
  | cons m l ih =>
    obtain ⟨name, w⟩ := m
    intro start h
    simp only [List.map_cons, List.sum_cons] at h
    simp only [maybe, List.flatMap_append]
    rw [ih (start + w) (by omega)]
    by_cases h1 : bs.length > start
    · rw [if_pos h1]
      simp only [List.flatMap_cons, List.flatMap_nil, List.append_nil]
      by_cases h2 : bs.length ≥ start + w
      · rw [if_pos h2]
        simp only [Part.bytes]
        rw [leb_val' w _ (by simp; omega) (fun b hb' => hb b (List.mem_of_mem_drop (List.mem_of_mem_take hb'))), ← List.drop_drop,
          List.take_append_drop]
      · rw [if_neg h2]
        simp only [Part.bytes]
        rw [List.drop_of_length_le (by omega : bs.length ≤ start + w), List.append_nil, List.take_of_length_le (by simp)]
    · rw [if_neg h1]
      rw [List.drop_of_length_le (by omega : bs.length ≤ start + w), List.drop_of_length_le (by omega : bs.length ≤ start)]
      rfl

theorem prefix_bytes (mem : Mem) (size : Nat) (l : List (String × Nat)) (bs : List Nat) (h : Holds mem bs)
    (hl : (l.map Prod.snd).sum = size) : (prefixOf mem size l bs.length).bytes = some (bs.take (min bs.length size)) := by
  unfold prefixOf
  have e : (if bs.length > size then size else bs.length) = min bs.length size := by split <;> omega
  simp only [e]
  rw [fetch_holds mem bs _ h (by omega)]
  simp only [Out.bytes, Option.some.injEq]
  have hlen : (bs.take (min bs.length size)).length = min bs.length size := by simp
  have := maybe_bytes (bs.take (min bs.length size)) (fun b hb => h.2 b (List.mem_of_mem_take hb)) l 0 (by rw [hlen, hl]; omega)
  rw [hlen] at this
  rw [this, List.drop_zero]

theorem struct_bytes (mem : Mem) (size : Nat) (l : List (String × Nat)) (bs : List Nat) (h : Holds mem bs)
    (hl : (l.map Prod.snd).sum = size) (hs : size ≤ bs.length) : (struct mem size l).bytes = some (bs.take size) := by
  unfold struct
  rw [fetch_holds mem bs _ h hs]
  simp only [Out.bytes, Option.some.injEq]
  have hlen : (bs.take size).length = size := by simp; omega
  have := maybe_bytes (bs.take size) (fun b hb => h.2 b (List.mem_of_mem_take hb)) l 0 (by rw [hlen, hl]; omega)
  rw [hlen] at this
  rw [this, List.drop_zero]

theorem members_sum (v : Nat) : ∀ n, (((List.range n).filter fun i => v.testBit i).map (2 ^ ·)).sum = v % 2 ^ n
  | 0 => by simp [Nat.mod_one]
  | n + 1 => by
    rw [List.range_succ, List.filter_append, List.map_append, List.sum_append, members_sum v n, Nat.mod_pow_succ, ← Nat.toNat_testBit]
    cases h : v.testBit n <;> simp [h]

theorem icmp_bytes (mem : Mem) (bs : List Nat) (h : Holds mem bs) (hl : 4 ≤ bs.length) :
    (icmp mem bs.length).bytes = some (bs.take 4) := by
  unfold icmp
  rw [if_neg (by omega)]
  have e : min (bs.length : Int).toNat 4 = 4 := by simp; omega
  rw [e, fetch_holds mem bs 4 h hl]
  have hlen : (bs.take 4).length = 4 := by simp; omega
  have hb : ∀ b ∈ bs.take 4, b < 256 := fun b hb => h.2 b (List.mem_of_mem_take hb)
  simp only [hlen, Nat.sub_self, List.replicate_zero, List.append_nil]
  have hv := val_lt (bs.take 4) hb
  rw [hlen] at hv
  have e4 : (256 : Nat) ^ 4 = 2 ^ 32 := by decide
  rw [e4] at hv
  split
  · simp only [Out.bytes, if_true, Option.some.injEq]
    rw [members, members_sum, Nat.mod_eq_of_lt (by omega),
      show 2 ^ 32 - 1 - (2 ^ 32 - 1 - val (bs.take 4)) = val (bs.take 4) by omega, leb_val' 4 _ hlen hb]
  · simp only [Out.bytes, Option.some.injEq, Bool.false_eq_true, if_false]
    rw [members, members_sum, Nat.mod_eq_of_lt hv, leb_val' 4 _ hlen hb]

theorem words_bytes (mem : Mem) (bs : List Nat) (h : Holds mem bs) : ∀ (n k : Nat), 4 * (k + n) ≤ bs.length →
    (wordsFrom mem n k).flatMap (leb 4) = (bs.drop (4 * k)).take (4 * n) := by
  intro n
  induction n with
  | zero => intro k _; simp [wordsFrom]
  | succ n ih =>
    intro k hk
    have hm : ∀ i, ∀ hi : i < (bs.drop (4 * k)).length, mem (4 * k + i) = some (bs.drop (4 * k))[i] := by
      intro i hi
      rw [List.getElem_drop]
      exact h.1 _ (by simp at hi; omega)
    rw [wordsFrom, bytesAt_holds mem 4 (4 * k) (bs.drop (4 * k)) hm (by simp; omega)]
    simp only [List.flatMap_cons]
    rw [ih (k + 1) (by omega), leb_val' 4 _ (by simp; omega) (fun b hb => h.2 b (List.mem_of_mem_drop (List.mem_of_mem_take hb)))]
    rw [show 4 * (k + 1) = 4 * k + 4 by omega, ← List.drop_drop, show 4 * (n + 1) = 4 + 4 * n by omega, List.take_add]

theorem dflt_bytes (mem : Mem) (max : Nat) (bs : List Nat) (h : Holds mem bs) (hl : bs.length < 2 ^ 31) :
    (dflt mem max bs.length).bytes = some (bs.take (if bs.length = 4 then 4 else min bs.length max)) := by
  unfold dflt
  by_cases h4 : bs.length = 4
  · rw [if_pos (by omega), num4_bytes mem _ bs h (by omega), if_pos h4]
  · rw [if_neg (by omega), if_neg h4]
    have e : ((bs.length : Int) % 2 ^ 64).toNat = bs.length := by omega
    rw [e, str_bytes mem max false bs h]
    simp only [Out.bytes, Option.some.injEq]
    by_cases hm : max ≤ bs.length
    · rw [Nat.min_eq_right hm]
    · rw [Nat.min_eq_left (by omega), List.take_of_length_le (by omega), List.take_of_length_le (by omega)]

theorem int4_bytes (mem : Mem) (max : Nat) (s : Style) (bs : List Nat) (h : Holds mem bs) :
    (int4 mem max s bs.length).bytes = some (bs.take (if 4 ≤ bs.length then 4 else min bs.length max)) := by
  unfold int4
  by_cases h4 : bs.length < 4
  · rw [if_pos h4, if_neg (by omega), str_bytes mem max true bs h]
    simp only [Out.bytes, Option.some.injEq]
    by_cases hm : max ≤ bs.length
    · rw [Nat.min_eq_right hm]
    · rw [Nat.min_eq_left (by omega), List.take_of_length_le (by omega), List.take_of_length_le (by omega)]
  · rw [if_neg h4, if_pos (by omega), num4_bytes mem _ bs h (by omega)]

theorem exact4_bytes (mem : Mem) (max : Nat) (s : Style) (bs : List Nat) (h : Holds mem bs) :
    (exact4 mem max s bs.length).bytes = some (bs.take (if bs.length = 4 then 4 else min bs.length max)) := by
  unfold exact4
  by_cases h4 : bs.length ≠ 4
  · rw [if_pos h4, if_neg h4, str_bytes mem max true bs h]
    simp only [Out.bytes, Option.some.injEq]
    by_cases hm : max ≤ bs.length
    · rw [Nat.min_eq_right hm]
    · rw [Nat.min_eq_left (by omega), List.take_of_length_le (by omega), List.take_of_length_le (by omega)]
  · rw [if_neg h4, if_pos (by omega), num4_bytes mem _ bs h (by omega)]

/-- the integers of SOL_SOCKET -/
theorem kind_int : ∀ name, name ≤ 77 → name ≠ 13 → name ≠ 17 → name ≠ 26 →
    getKind 1 name = if name = 4 ∨ name = 74 ∨ name = 77 ∨ name ∈ ints then .int else .any := by decide +kernel

theorem kind_big (name : Nat) (h : 77 < name) : getKind 1 name = .any ∧ name ∉ ints := by
  constructor
  · unfold getKind
    rw [if_pos rfl, if_neg (by omega), if_neg (by omega), if_neg (by omega), if_pos (by omega)]
  · intro hm
    have : ∀ x ∈ ints, x ≤ 77 := by decide
    have := this _ hm
    omega

/-- **C111** what is shown of the value that getsockopt returned stands for exactly the bytes returned, as many of them as the type of
the option has or the limit of strings allows. (Of a short ICMP filter and of a short value of a netlink option it does not:
`short_filter`, `netlink_past_end`.) -/
theorem get_back_partial (mem : Mem) (max level name ulen : Nat) (bs : List Nat) (h : Holds mem bs) (hu : 0 < ulen) (h0 : 0 < bs.length)
    (hl : bs.length < 2 ^ 31) (hp : getKind level name ≠ .prog)
    (h4 : (level = 255 ∧ name = 1) ∨ (level = 270 ∧ name ≠ 9) → 4 ≤ bs.length) :
    (get mem max level name ulen bs.length).bytes = some (bs.take (getAmount max (getKind level name) ulen bs.length)) := by
  have hn : ¬ ((ulen : Int) ≤ 0 ∨ (bs.length : Int) ≤ 0) := by omega
  have et : (bs.length : Int).toNat = bs.length := by simp
  by_cases l1 : level = 1
  · subst l1
    simp only [get, if_neg hn, et]
    by_cases n13 : name = 13
    · subst n13
      rw [if_pos rfl, prefix_bytes mem 8 _ bs h (by decide)]; rfl
    rw [if_neg n13]
    by_cases n17 : name = 17
    · subst n17
      rw [if_pos rfl, prefix_bytes mem 12 _ bs h (by decide)]; rfl
    rw [if_neg n17]
    by_cases n26 : name = 26
    · subst n26
      exact absurd (by decide) hp
    rw [if_neg n26]
    by_cases big : 77 < name
    · obtain ⟨k1, k2⟩ := kind_big name big
      rw [if_neg (by omega), if_neg (by omega), if_neg (by omega), if_neg k2, k1, dflt_bytes mem max bs h hl]
      rfl
    · rw [kind_int name (by omega) n13 n17 n26]
      by_cases n4 : name = 4
      · rw [if_pos n4, if_pos (Or.inl n4), int4_bytes mem max _ bs h]; rfl
      rw [if_neg n4]
      by_cases n74 : name = 74
      · rw [if_pos n74, if_pos (Or.inr (Or.inl n74)), int4_bytes mem max _ bs h]; rfl
      rw [if_neg n74]
      by_cases n77 : name = 77
      · rw [if_pos n77, if_pos (Or.inr (Or.inr (Or.inl n77))), int4_bytes mem max _ bs h]; rfl
      rw [if_neg n77]
      by_cases ni : name ∈ ints
      · rw [if_pos ni, if_pos (Or.inr (Or.inr (Or.inr ni))), int4_bytes mem max _ bs h]; rfl
      · rw [if_neg ni, if_neg (by rintro (a | a | a | a) <;> contradiction), dflt_bytes mem max bs h hl]; rfl
  by_cases l0 : level = 0
  · subst l0
    simp only [get, if_neg hn, et]
    by_cases n51 : name = 51
    · subst n51; rw [if_pos rfl, exact4_bytes mem max _ bs h]; rfl
    rw [if_neg n51]
    by_cases n52 : name = 52
    · subst n52; rw [if_pos rfl, exact4_bytes mem max _ bs h]; rfl
    rw [if_neg n52, dflt_bytes mem max bs h hl]
    simp [getKind, getAmount, n51, n52]
  by_cases l263 : level = 263
  · subst l263
    simp only [get, if_neg hn, et]
    by_cases n6 : name = 6
    · subst n6; rw [if_pos rfl, prefix_bytes mem 12 _ bs h (by decide)]; rfl
    rw [if_neg n6, dflt_bytes mem max bs h hl]
    simp [getKind, getAmount, n6]
  by_cases l255 : level = 255
  · subst l255
    simp only [get, if_neg hn]
    by_cases n1 : name = 1
    · subst n1
      have := h4 (Or.inl ⟨rfl, rfl⟩)
      rw [if_pos rfl, icmp_bytes mem bs h this]
      simp only [getKind, getAmount]
      simp
      omega
    rw [if_neg n1, dflt_bytes mem max bs h hl]
    simp [getKind, getAmount, n1]
  by_cases l270 : level = 270
  · subst l270
    simp only [get, if_neg hn]
    by_cases n9 : name = 9
    · subst n9
      rw [if_pos rfl]
      have e : (min (ulen : Int) (bs.length : Int)).toNat = min ulen bs.length := by omega
      simp only [words, Out.bytes, e]
      rw [words_bytes mem bs h _ 0 (by omega)]
      simp [getKind, getAmount]
    · have := h4 (Or.inr ⟨rfl, n9⟩)
      rw [if_neg n9, num4_bytes mem _ bs h this]
      simp [getKind, getAmount, n9, this]
  · have e : get mem max level name ulen bs.length = dflt mem max bs.length := by
      unfold get
      rw [if_neg hn]
      split <;> first | contradiction | rfl
    rw [e, dflt_bytes mem max bs h hl]
    simp [getKind, getAmount, l1, l0, l263, l255, l270]

/-- a value shown as a string is followed by dots exactly if it is not all of the value -/
theorem get_dots (mem : Mem) (max level name ulen : Nat) (bs : List Nat) (h : Holds mem bs) (hl : bs.length < 2 ^ 31)
    (hex : Bool) (l : List Nat) (more : Bool) (hs : get mem max level name ulen bs.length = .str hex l more) :
    more = true ↔ l ≠ bs := by
  have et : (bs.length : Int).toNat = bs.length := by simp
  have key : ∀ hx, str mem max hx bs.length = .str hex l more → (more = true ↔ l ≠ bs) := by
    intro hx e
    rw [str_bytes mem max hx bs h] at e
    injection e with _ e2 e3
    subst e2; subst e3
    simp only [decide_eq_true_eq, ne_eq]
    constructor
    · intro hm e
      have := congrArg List.length e
      simp at this
      omega
    · intro hm
      by_cases c : bs.length > max
      · exact c
      · exact absurd (List.take_of_length_le (by omega)) hm
  have kn : ∀ s, num4 mem s = .str hex l more → (more = true ↔ l ≠ bs) := by
    intro s e; unfold num4 at e; split at e <;> cases e
  have kd : dflt mem max bs.length = .str hex l more → (more = true ↔ l ≠ bs) := by
    intro e
    unfold dflt at e
    by_cases c : (bs.length : Int) = 4
    · rw [if_pos c] at e; exact kn _ e
    · have em : ((bs.length : Int) % 2 ^ 64).toNat = bs.length := by omega
      rw [if_neg c, em] at e
      exact key _ e
  have ki : ∀ s, int4 mem max s bs.length = .str hex l more → (more = true ↔ l ≠ bs) := by
    intro s e
    unfold int4 at e
    split at e
    · exact key _ e
    · exact kn _ e
  have ke : ∀ s, exact4 mem max s bs.length = .str hex l more → (more = true ↔ l ≠ bs) := by
    intro s e
    unfold exact4 at e
    split at e
    · exact key _ e
    · exact kn _ e
  have kp : ∀ n f, prefixOf mem n f bs.length = .str hex l more → (more = true ↔ l ≠ bs) := by
    intro n f e
    simp only [prefixOf] at e
    split at e <;> cases e
  have kc : ∀ n, icmp mem n = .str hex l more → (more = true ↔ l ≠ bs) := by
    intro n e
    unfold icmp at e
    split at e
    · cases e
    · split at e
      · cases e
      · simp only at e
        split at e <;> cases e
  unfold get at hs
  rw [et] at hs
  simp only at hs
  split at hs
  · cases hs
  · split at hs
    · repeat' split at hs
      all_goals first | exact kd hs | exact ki _ hs | exact kp _ _ hs | cases hs
    · repeat' split at hs
      all_goals first | exact kd hs | exact ke _ hs
    · repeat' split at hs
      all_goals first | exact kd hs | exact kp _ _ hs
    · repeat' split at hs
      all_goals first | exact kd hs | exact kc _ hs
    · repeat' split at hs
      · cases hs
      · exact kn _ hs
    · exact kd hs

theorem bytesAt_same (mem mem' : Mem) : ∀ (n a : Nat), (∀ i, i < n → mem (a + i) = mem' (a + i)) → bytesAt mem a n = bytesAt mem' a n
  | 0, _, _ => rfl
  | n + 1, a, h => by
    have h0 := h 0 (by omega)
    have ht := bytesAt_same mem mem' n (a + 1) (fun i hi => by rw [show a + 1 + i = a + (i + 1) by omega]; exact h _ (by omega))
    simp only [Nat.add_zero] at h0
    simp only [bytesAt, h0, ht]

theorem fetch_same (mem mem' : Mem) (len n : Nat) (h : Same len mem mem') (hn : n ≤ len) : fetch mem n = fetch mem' n :=
  bytesAt_same mem mem' n 0 (fun i hi => by rw [Nat.zero_add]; exact h i (by omega))

theorem str_same (mem mem' : Mem) (max len : Nat) (hex : Bool) (h : Same len mem mem') : str mem max hex len = str mem' max hex len := by
  unfold str
  rw [fetch_same mem mem' len _ h (by omega)]

theorem num4_same (mem mem' : Mem) (s : Style) (len : Nat) (h : Same len mem mem') (hl : 4 ≤ len) : num4 mem s = num4 mem' s := by
  unfold num4
  rw [fetch_same mem mem' len 4 h hl]

theorem int4_same (mem mem' : Mem) (max : Nat) (s : Style) (len : Nat) (h : Same len mem mem') :
    int4 mem max s len = int4 mem' max s len := by
  unfold int4
  split
  · exact str_same mem mem' max len true h
  · exact num4_same mem mem' s len h (by omega)

theorem exact4_same (mem mem' : Mem) (max : Nat) (s : Style) (len : Nat) (h : Same len mem mem') :
    exact4 mem max s len = exact4 mem' max s len := by
  unfold exact4
  split
  · exact str_same mem mem' max len true h
  · exact num4_same mem mem' s len h (by omega)

theorem prefix_same (mem mem' : Mem) (size : Nat) (l : List (String × Nat)) (len : Nat) (h : Same len mem mem') :
    prefixOf mem size l len = prefixOf mem' size l len := by
  unfold prefixOf
  simp only
  rw [fetch_same mem mem' len _ h (by split <;> omega)]

theorem icmp_same (mem mem' : Mem) (len : Int) (h : Same len.toNat mem mem') : icmp mem len = icmp mem' len := by
  unfold icmp
  rw [fetch_same mem mem' len.toNat _ h (by omega)]

theorem dflt_same (mem mem' : Mem) (max : Nat) (len : Int) (h : Same len.toNat mem mem') (h0 : 0 ≤ len) (hl : len < 2 ^ 31) :
    dflt mem max len = dflt mem' max len := by
  have em : (len % 2 ^ 64).toNat = len.toNat := by omega
  unfold dflt
  rw [em, str_same mem mem' max len.toNat false h]
  by_cases c : len = 4
  · rw [if_pos c, if_pos c]
    exact num4_same mem mem' _ len.toNat h (by omega)
  · rw [if_neg c, if_neg c]

theorem wordsFrom_same (mem mem' : Mem) (len : Nat) (h : Same len mem mem') : ∀ (n k : Nat), 4 * (k + n) ≤ len →
    wordsFrom mem n k = wordsFrom mem' n k := by
  intro n
  induction n with
  | zero => intro k _; rfl
  | succ n ih =>
    intro k hk
    rw [wordsFrom, wordsFrom, bytesAt_same mem mem' 4 (4 * k) (fun i hi => h _ (by omega)), ih (k + 1) (by omega)]

/-- **C111** what is shown does not depend on memory that getsockopt did not write: memories that agree in the bytes returned give the
same output, whether all of it can be read or not. (For a short value of a netlink option it is not so: `netlink_past_end`.) -/
theorem get_local_partial (mem mem' : Mem) (max level name : Nat) (ulen rlen : Int) (hl : rlen < 2 ^ 31)
    (h : Same rlen.toNat mem mem') (h4 : level = 270 → name ≠ 9 → 4 ≤ rlen) :
    get mem max level name ulen rlen = get mem' max level name ulen rlen := by
  unfold get
  by_cases h0 : ulen ≤ 0 ∨ rlen ≤ 0
  · rw [if_pos h0, if_pos h0]
  rw [if_neg h0, if_neg h0]
  have kd := dflt_same mem mem' max rlen h (by omega) hl
  simp only [kd, int4_same mem mem' max _ _ h, exact4_same mem mem' max _ _ h, prefix_same mem mem' _ _ _ h, icmp_same mem mem' rlen h]
  by_cases l270 : level = 270
  · subst l270
    simp only
    by_cases n9 : name = 9
    · rw [if_pos n9, if_pos n9]
      unfold words
      rw [wordsFrom_same mem mem' rlen.toNat h _ 0 (by omega)]
    · rw [if_neg n9, if_neg n9]
      exact num4_same mem mem' _ rlen.toNat h (by have := h4 rfl n9; omega)
  · split <;> first | rfl | exact absurd rfl l270

/-- an option that is an integer is shown as a number, whatever follows the four bytes, and so is any value of four bytes but a filter -/
theorem get_number (mem : Mem) (max level name ulen : Nat) (bs : List Nat) (h : Holds mem bs) (hu : 0 < ulen) (hl : 4 ≤ bs.length)
    (hk : getKind level name = .int ∨ (bs.length = 4 ∧ (getKind level name = .four ∨ getKind level name = .any))) :
    get mem max level name ulen bs.length = .num (styleOf level name) (val (bs.take 4)) := by
  have hn : ¬ ((ulen : Int) ≤ 0 ∨ (bs.length : Int) ≤ 0) := by omega
  have et : (bs.length : Int).toNat = bs.length := by simp
  have kn : ∀ s, num4 mem s = .num s (val (bs.take 4)) := by
    intro s; unfold num4; rw [fetch_holds mem bs 4 h hl]
  have ki : ∀ s, int4 mem max s bs.length = .num s (val (bs.take 4)) := by
    intro s; unfold int4; rw [if_neg (by omega), kn]
  have kd : bs.length = 4 → dflt mem max bs.length = .num .plain (val (bs.take 4)) := by
    intro e; unfold dflt; rw [if_pos (by omega), kn]
  have ke : bs.length = 4 → ∀ s, exact4 mem max s bs.length = .num s (val (bs.take 4)) := by
    intro e s; unfold exact4; rw [if_neg (by omega), kn]
  by_cases l1 : level = 1
  · subst l1
    simp only [get, if_neg hn, et]
    by_cases n13 : name = 13
    · subst n13; rcases hk with e | ⟨_, e | e⟩ <;> exact absurd e (by decide)
    rw [if_neg n13]
    by_cases n17 : name = 17
    · subst n17; rcases hk with e | ⟨_, e | e⟩ <;> exact absurd e (by decide)
    rw [if_neg n17]
    by_cases n26 : name = 26
    · subst n26; rcases hk with e | ⟨_, e | e⟩ <;> exact absurd e (by decide)
    rw [if_neg n26]
    by_cases big : 77 < name
    · obtain ⟨k1, k2⟩ := kind_big name big
      rw [if_neg (by omega), if_neg (by omega), if_neg (by omega), if_neg k2]
      rw [k1] at hk
      rcases hk with e | ⟨e, _⟩
      · cases e
      · have es : styleOf 1 name = .plain := by
          have a1 : name ≠ 4 := by omega
          have a2 : name ≠ 74 := by omega
          have a3 : name ≠ 77 := by omega
          simp [styleOf, a1, a2, a3]
        rw [kd e, es]
    · rw [kind_int name (by omega) n13 n17 n26] at hk
      by_cases c : name = 4 ∨ name = 74 ∨ name = 77 ∨ name ∈ ints
      · by_cases n4 : name = 4
        · subst n4; rw [if_pos rfl, ki]; rfl
        rw [if_neg n4]
        by_cases n74 : name = 74
        · subst n74; rw [if_pos rfl, ki]; rfl
        rw [if_neg n74]
        by_cases n77 : name = 77
        · subst n77; rw [if_pos rfl, ki]; rfl
        rw [if_neg n77, if_pos (by rcases c with a | a | a | a <;> first | contradiction | exact a)]
        rw [ki]; simp [styleOf, n4, n74, n77]
      · rw [if_neg c] at hk
        have c' := not_or.mp c
        have c'' := not_or.mp c'.2
        have c3 := not_or.mp c''.2
        rw [if_neg c'.1, if_neg c''.1, if_neg c3.1, if_neg c3.2]
        rcases hk with e | ⟨e, _⟩
        · cases e
        · rw [kd e]; simp [styleOf, c'.1, c''.1, c3.1]
  by_cases l0 : level = 0
  · subst l0
    have h4 : bs.length = 4 := by
      rcases hk with e | ⟨e, _⟩
      · unfold getKind at e
        rw [if_neg (by decide)] at e
        split at e
        · cases e
        · simp at e
      · exact e
    simp only [get, if_neg hn, et]
    by_cases n51 : name = 51
    · subst n51; rw [if_pos rfl, ke h4]; rfl
    rw [if_neg n51]
    by_cases n52 : name = 52
    · subst n52; rw [if_pos rfl, ke h4]; rfl
    rw [if_neg n52, kd h4]
    simp [styleOf, n51, n52]
  by_cases l263 : level = 263
  · subst l263
    simp only [get, if_neg hn, et]
    by_cases n6 : name = 6
    · subst n6; rcases hk with e | ⟨_, e | e⟩ <;> exact absurd e (by decide)
    rw [if_neg n6]
    simp [getKind, n6] at hk
    rw [kd hk]; rfl
  by_cases l255 : level = 255
  · subst l255
    simp only [get, if_neg hn]
    by_cases n1 : name = 1
    · subst n1; rcases hk with e | ⟨_, e | e⟩ <;> exact absurd e (by decide)
    rw [if_neg n1]
    simp [getKind, n1] at hk
    rw [kd hk]; rfl
  by_cases l270 : level = 270
  · subst l270
    simp only [get, if_neg hn]
    by_cases n9 : name = 9
    · subst n9; rcases hk with e | ⟨_, e | e⟩ <;> exact absurd e (by decide)
    rw [if_neg n9]
    rw [kn]; rfl
  · have e : get mem max level name ulen bs.length = dflt mem max bs.length := by
      unfold get
      rw [if_neg hn]
      split <;> first | contradiction | rfl
    simp [getKind, l1, l0, l263, l255, l270] at hk
    rw [e, kd hk]; simp [styleOf, l1, l0]

/-- the credentials are shown as three numbers if all of them were returned -/
theorem get_ucred (mem : Mem) (max ulen : Nat) (bs : List Nat) (h : Holds mem bs) (hu : 0 < ulen) (hl : 12 ≤ bs.length) :
    get mem max 1 17 ulen bs.length = .fields [("pid", .whole 4 (val (bs.take 4))), ("uid", .whole 4 (val ((bs.drop 4).take 4))),
      ("gid", .whole 4 (val ((bs.drop 8).take 4)))] := by
  have hn : ¬ ((ulen : Int) ≤ 0 ∨ (bs.length : Int) ≤ 0) := by omega
  have et : (bs.length : Int).toNat = bs.length := by simp
  have e : (if bs.length > 12 then 12 else bs.length) = 12 := by split <;> omega
  simp only [get, if_neg hn, et, prefixOf, e]
  rw [if_neg (by decide), if_pos trivial, fetch_holds mem bs 12 h hl]
  simp [maybe, List.take_take, List.drop_take]

/-- **finding** of a netlink option that returned one byte four are shown -/
theorem netlink_past_end : ∃ mem mem' : Mem, Same 1 mem mem' ∧ get mem 32 270 4 4 1 ≠ get mem' 32 270 4 4 1 := by
  refine ⟨fun _ => some 1, fun i => some (if i = 0 then 1 else 2), ?_, by decide⟩
  intro i hi
  have : i = 0 := by omega
  subst this; rfl

/-- **finding** a filter of one byte is shown as if the others were all ones: it cannot be told from one of four bytes -/
theorem short_filter : ∃ mem : Mem, ∃ a b, a ≠ b ∧ Holds mem a ∧ Holds mem b ∧
    get mem 32 255 1 4 a.length = get mem 32 255 1 4 b.length ∧ (get mem 32 255 1 4 a.length).bytes ≠ some a := by
  refine ⟨fun i => [5, 255, 255, 255][i]?, [5], [5, 255, 255, 255], by decide, ⟨?_, by decide⟩, ⟨?_, by decide⟩, by decide, by decide⟩
  · intro i h; simp at h; subst h; rfl
  · intro i h; exact List.getElem?_eq_getElem h

theorem setKind_one (name : Nat) (h : name ≤ 77) : name ≠ 13 → name ≠ 26 → name ≠ 51 →
    setKind 1 name = if name = 74 ∨ name ∈ ints then .int else .any := by
  have : ∀ name, name ≤ 77 → name ≠ 13 → name ≠ 26 → name ≠ 51 →
      setKind 1 name = if name = 74 ∨ name ∈ ints then .int else .any := by decide +kernel
  exact this name h

theorem atLeast_bytes (mem : Mem) (size : Nat) (l : List (String × Nat)) (bs : List Nat) (h : Holds mem bs)
    (hl : (l.map Prod.snd).sum = size) :
    (atLeast mem size l bs.length).bytes = (if size ≤ bs.length then some size else none).map bs.take := by
  unfold atLeast
  by_cases c : size ≤ bs.length
  · rw [if_neg (by omega), if_pos c, struct_bytes mem size l bs h hl c]; rfl
  · rw [if_pos (by omega), if_neg c]; rfl

/-- **C111** what is shown of the value given to setsockopt stands for exactly the bytes given, as many of them as the type of the
option has or the limit of strings allows; if fewer are given than the type has, there is the address alone -/
theorem set_back_partial (mem : Mem) (max level name : Nat) (bs : List Nat) (h : Holds mem bs) (hl : bs.length < 2 ^ 31)
    (hp : setKind level name ≠ .other) (h4 : level = 255 ∧ name = 1 → 4 ≤ bs.length) :
    (set mem max level name bs.length).bytes = (setAmount max (setKind level name) bs.length).map bs.take := by
  have kd := dflt_bytes mem max bs h hl
  have ki : ∀ s, (if (bs.length : Int) < 4 then Out.addr else num4 mem s).bytes = (setAmount max .int bs.length).map bs.take := by
    intro s
    by_cases c : 4 ≤ bs.length
    · rw [if_neg (by omega), num4_bytes mem s bs h c]; simp [setAmount, c]
    · rw [if_pos (by omega)]; simp [setAmount, c, Out.bytes]
  have ka : (dflt mem max bs.length).bytes = (setAmount max .any bs.length).map bs.take := by rw [kd]; rfl
  by_cases l1 : level = 1
  · subst l1
    simp only [set]
    by_cases n13 : name = 13
    · subst n13; rw [if_pos rfl, atLeast_bytes mem 8 _ bs h (by decide)]; rfl
    rw [if_neg n13]
    by_cases n26 : name = 26 ∨ name = 51
    · rcases n26 with n | n <;> subst n <;> exact absurd (by decide) hp
    rw [if_neg n26]
    by_cases big : 77 < name
    · obtain ⟨k1, k2⟩ := kind_big name big
      have e : setKind 1 name = .any := by
        unfold setKind
        rw [if_pos rfl, if_neg n13, if_neg n26, if_neg (by omega), k1]; rfl
      rw [if_neg (by omega), if_neg k2, ka, e]
    · rw [setKind_one name (by omega) n13 (fun x => n26 (Or.inl x)) (fun x => n26 (Or.inr x))]
      by_cases n74 : name = 74
      · rw [if_pos n74, if_pos (Or.inl n74)]; exact ki _
      rw [if_neg n74]
      by_cases ni : name ∈ ints
      · rw [if_pos ni, if_pos (Or.inr ni)]; exact ki _
      · rw [if_neg ni, if_neg (by rintro (a | a) <;> contradiction)]; exact ka
  by_cases l0 : level = 0
  · subst l0
    simp only [set]
    by_cases n35 : name = 35 ∨ name = 36
    · rw [if_pos n35, atLeast_bytes mem 8 _ bs h (by decide)]
      simp [setKind, setAmount, n35]
    rw [if_neg n35]
    by_cases n42 : name = 42 ∨ name = 45
    · rcases n42 with n | n <;> subst n <;> exact absurd (by decide) hp
    rw [if_neg n42]
    by_cases n51 : name = 51
    · have em : ((bs.length : Int) % 2 ^ 32).toNat = bs.length := by omega
      rw [if_pos n51, em, exact4_bytes mem max _ bs h]
      simp [setKind, setAmount, n51]
    rw [if_neg n51, ka]
    simp [setKind, n35, n42]
  by_cases l41 : level = 41
  · subst l41
    simp only [set]
    by_cases n20 : name = 20 ∨ name = 21 ∨ name = 27 ∨ name = 28
    · rw [if_pos n20, atLeast_bytes mem 20 _ bs h (by decide)]
      have : ¬ (name = 42 ∨ name = 45) := by omega
      simp [setKind, setAmount, n20, this]
    rw [if_neg n20]
    by_cases n42 : name = 42 ∨ name = 45
    · rcases n42 with n | n <;> subst n <;> exact absurd (by decide) hp
    rw [if_neg n42, ka]
    simp [setKind, n20, n42]
  by_cases l263 : level = 263
  · subst l263
    simp only [set]
    by_cases n5 : name = 5 ∨ name = 13
    · rw [if_pos n5]
      have e : setKind 263 name = .exact 16 := by simp [setKind, n5]
      rw [e]
      by_cases c : bs.length = 16
      · rw [if_pos (by omega), struct_bytes mem 16 _ bs h (by decide) (by omega)]; simp [setAmount, c]
      · rw [if_neg (by omega)]; simp [setAmount, Out.bytes, Ne.symm c]
    rw [if_neg n5]
    by_cases n1 : name = 1 ∨ name = 2
    · rcases n1 with n | n <;> subst n <;> exact absurd (by decide) hp
    rw [if_neg n1, ka]
    simp [setKind, n5, n1]
  by_cases l255 : level = 255
  · subst l255
    simp only [set]
    by_cases n1 : name = 1
    · have := h4 ⟨rfl, n1⟩
      rw [if_pos n1, icmp_bytes mem bs h this]
      simp [setKind, setAmount, n1, this]
    rw [if_neg n1, ka]
    simp [setKind, n1]
  by_cases l270 : level = 270
  · subst l270
    simp only [set]
    rw [ki]
    simp [setKind]
  by_cases l6 : level = 6
  · subst l6
    simp only [set]
    by_cases n38 : name = 38
    · subst n38; exact absurd (by decide) hp
    rw [if_neg n38, ka]
    simp [setKind, n38]
  · have e : set mem max level name bs.length = dflt mem max bs.length := by
      unfold set
      split <;> first | contradiction | rfl
    rw [e, ka]
    simp [setKind, l1, l0, l41, l263, l255, l270, l6]

theorem struct_same (mem mem' : Mem) (size : Nat) (l : List (String × Nat)) (len : Int) (h : Same len.toNat mem mem')
    (hl : (size : Int) ≤ len) : struct mem size l = struct mem' size l := by
  unfold struct
  rw [fetch_same mem mem' len.toNat _ h (by omega)]

theorem atLeast_same (mem mem' : Mem) (size : Nat) (l : List (String × Nat)) (len : Int) (h : Same len.toNat mem mem') :
    atLeast mem size l len = atLeast mem' size l len := by
  unfold atLeast
  split
  · rfl
  · exact struct_same mem mem' size l len h (by omega)

/-- **C111** what is shown does not depend on memory that is not of the value given to setsockopt -/
theorem set_local_partial (mem mem' : Mem) (max level name : Nat) (len : Int) (h0 : 0 ≤ len) (hl : len < 2 ^ 31)
    (h : Same len.toNat mem mem') : set mem max level name len = set mem' max level name len := by
  have kd := dflt_same mem mem' max len h h0 hl
  have ki : ∀ s, (if len < 4 then Out.addr else num4 mem s) = if len < 4 then Out.addr else num4 mem' s := by
    intro s
    by_cases c : len < 4
    · rw [if_pos c, if_pos c]
    · rw [if_neg c, if_neg c]; exact num4_same mem mem' s len.toNat h (by omega)
  have ks : ∀ l, (if len = 16 then struct mem 16 l else .addr) = if len = 16 then struct mem' 16 l else .addr := by
    intro l
    by_cases c : len = 16
    · rw [if_pos c, if_pos c]; exact struct_same mem mem' 16 l len h (by omega)
    · rw [if_neg c, if_neg c]
  have km : packetMreq mem len = packetMreq mem' len := by
    unfold packetMreq
    by_cases c : len ≠ 16
    · rw [if_pos c, if_pos c]
    · rw [if_neg c, if_neg c, fetch_same mem mem' len.toNat 16 h (by omega)]
  have kg : groupReq mem len = groupReq mem' len := by
    unfold groupReq
    by_cases c : len < 136
    · rw [if_pos c, if_pos c]
    · rw [if_neg c, if_neg c, fetch_same mem mem' len.toNat 136 h (by omega)]
  have em : (len % 2 ^ 32).toNat = len.toNat := by omega
  unfold set
  rw [em]
  simp only [kd, ki, ks, km, kg, exact4_same mem mem' max _ _ h, icmp_same mem mem' len h, atLeast_same mem mem' _ _ len h]

/-- **finding** with a negative length, which the kernel rejects without a look at the value, the memory at the address is shown -/
theorem negative_length : ∃ mem mem' : Mem, set mem 32 1 25 (-1) ≠ set mem' 32 1 25 (-1) :=
  ⟨fun _ => some 1, fun _ => some 2, by decide⟩

/-- the value of PACKET_ADD_MEMBERSHIP: the address has as many bytes as the structure tells, at most 8 -/
theorem packet_back (mem : Mem) (max name : Nat) (hn : name = 1 ∨ name = 2) (bs : List Nat) (h : Holds mem bs) (hl : bs.length = 16) :
    (set mem max 263 name 16).bytes = some (bs.take (8 + min (bs[6] + 256 * bs[7]) 8)) := by
  have e : set mem max 263 name 16 = packetMreq mem 16 := by
    simp only [set]
    rw [if_neg (by omega), if_pos hn]
  rw [e]
  unfold packetMreq
  rw [if_neg (by decide), fetch_holds mem bs 16 h (by omega)]
  match bs, hl with
  | [a0, a1, a2, a3, a4, a5, a6, a7, a8, a9, a10, a11, a12, a13, a14, a15], _ =>
    have hb := h.2
    simp only [List.mem_cons, List.not_mem_nil, or_false, forall_eq_or_imp, forall_eq] at hb
    obtain ⟨h0, h1, h2, h3, h4, h5, h6, h7, _⟩ := hb
    have e1 := leb_val [a0, a1, a2, a3] (by simp; omega)
    have e2 := leb_val [a4, a5] (by simp; omega)
    have e3 := leb_val [a6, a7] (by simp; omega)
    simp only [List.length_cons, List.length_nil] at e1 e2 e3
    simp only [Out.bytes, List.take_succ_cons, List.take_zero, List.drop_succ_cons, List.drop_zero, List.flatMap_cons, Part.bytes,
      List.flatMap_nil, List.append_nil, e1, e2, e3, List.getElem_cons_succ, List.getElem_cons_zero]
    have ev : val [a6, a7] = a6 + 256 * a7 := by simp [val]
    rw [ev, show 8 + min (a6 + 256 * a7) 8 = min (a6 + 256 * a7) 8 + 8 by omega]
    simp [List.take_succ_cons]

/-- the value of MCAST_JOIN_GROUP: the interface and all of the address, and nothing of the padding -/
theorem group_back (mem : Mem) (max level name : Nat) (hv : level = 0 ∨ level = 41) (hn : name = 42 ∨ name = 45) (bs : List Nat)
    (h : Holds mem bs) (hl : bs.length < 2 ^ 31) :
    (136 ≤ bs.length → ∃ v, leb 4 v = bs.take 4 ∧
      set mem max level name bs.length = .fields [("gr_interface", .whole 4 v), ("gr_group", .part ((bs.drop 8).take 128))]) ∧
    (bs.length < 136 → set mem max level name bs.length = .addr) := by
  have e : set mem max level name bs.length = groupReq mem bs.length := by
    rcases hv with v | v <;> subst v <;> simp only [set] <;> rw [if_neg (by omega), if_pos hn]
  rw [e]
  unfold groupReq
  constructor
  · intro hb
    refine ⟨val (bs.take 4), leb_val' 4 _ (by simp; omega) (fun b hb => h.2 b (List.mem_of_mem_take hb)), ?_⟩
    rw [if_neg (by omega), fetch_holds mem bs 136 h hb]
    simp only [List.take_take, List.drop_take]
    rfl
  · intro hb
    rw [if_pos (by omega)]

/-- the lengths that a reader can tell from what is shown: before the call and, if it was read again, after it -/
theorem lengths (mem : Mem) (max level name : Nat) (before after : Int) (failed : Bool) :
    ((getsockopt mem max level name (some before) (some after) failed).2 = .two before after ∧ before ≠ after) ∨
    ((getsockopt mem max level name (some before) (some after) failed).2 = .one after ∧ before = after) := by
  unfold getsockopt
  by_cases c : before = after
  · right; cases failed <;> simp [c]
  · left; cases failed <;> simp [c]

/-- of a call that failed or whose length cannot be read no value is shown -/
theorem no_value (mem : Mem) (max level name : Nat) (before after : Option Int) (failed : Bool)
    (h : failed = true ∨ before = none ∨ after = none) : (getsockopt mem max level name before after failed).1 = .addr := by
  unfold getsockopt
  rcases h with h | h | h
  · subst h; cases before <;> cases after <;> rfl
  · subst h; rfl
  · subst h; cases before <;> rfl

/-! ## Examples -/

/-- SO_PEERCRED cut in the middle of the uid -/
example : get (fun i => [1, 1, 0, 0, 232, 3, 0, 0, 7, 0, 0, 0][i]?) 32 1 17 6 6 = .fields [("pid", .whole 4 257), ("uid", .part [232, 3])] := by
  decide
/-- SO_BINDTODEVICE with a limit of 3 -/
example : get (fun i => [101, 116, 104, 48, 0][i]?) 3 1 25 16 5 = .str false [101, 116, 104] true := by decide
/-- a filter with one bit missing -/
example : get (fun i => [247, 255, 255, 255][i]?) 32 255 1 4 4 = .bits true [3] := by decide +kernel
/-- the hypotheses of `get_back_partial` and `set_back_partial` hold of a value of 5 bytes -/
example : Holds (fun i => [101, 116, 104, 48, 0][i]?) [101, 116, 104, 48, 0] ∧ getKind 1 25 = .any ∧ setKind 1 25 = .any :=
  ⟨⟨fun _ h => List.getElem?_eq_getElem h, by decide⟩, by decide, by decide⟩

end Strace.Sockopt
