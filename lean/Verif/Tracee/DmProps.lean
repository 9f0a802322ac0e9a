import Verif.Tracee.DmSpec
/-!
C86: lists of the device mapper
-/
namespace Strace.Tracee

theorem itemOffs_cons (off str max : Nat) (l : List DTok) : itemOffs (.item off str max :: l) = off :: itemOffs l := rfl
theorem itemOffs_next (l : List DTok) : itemOffs (.next :: l) = itemOffs l := rfl

/-- what holds of the rest of a list: all structures are after `lo` -/
structure Rest (hdr lo size : Nat) (l : List DTok) : Prop where
  inside : ∀ off str max, .item off str max ∈ l → str = off + hdr ∧ str + max = size
  ordered : (itemOffs l).Pairwise fun a b => a + hdr < b
  after : ∀ o ∈ itemOffs l, lo < o

theorem rest_none (hdr lo size : Nat) (l : List DTok) (h : ∀ t ∈ l, ∀ a b c, t ≠ .item a b c) : Rest hdr lo size l := by
  have h0 : itemOffs l = [] := by
    unfold itemOffs
    rw [List.filterMap_eq_nil_iff]
    intro t ht
    have := h t ht
    cases t <;> simp at this ⊢
  refine ⟨fun off str max hm => absurd rfl (h _ hm off str max), by rw [h0]; simp, by rw [h0]; simp⟩

theorem rest_cons (hdr lo size off : Nat) (ev l : List DTok) (he : ∀ t ∈ ev, ∀ a b c, t ≠ .item a b c)
    (h : Rest hdr (off + hdr) size l) (hlo : lo < off) (hs : off + hdr ≤ size) :
    Rest hdr lo size (.next :: .item off (off + hdr) (size - (off + hdr)) :: (ev ++ l)) := by
  have h0 : itemOffs (ev ++ l) = itemOffs l := by
    have : itemOffs ev = [] := by
      unfold itemOffs
      rw [List.filterMap_eq_nil_iff]
      intro t ht
      have := he t ht
      cases t <;> simp at this ⊢
    unfold itemOffs at this ⊢
    rw [List.filterMap_append, this]
    rfl
  refine ⟨?_, ?_, ?_⟩
  · intro o s m hm
    simp only [List.mem_cons, List.mem_append, reduceCtorEq, false_or, DTok.item.injEq] at hm
    rcases hm with ⟨rfl, rfl, rfl⟩ | hm | hm
    · omega
    · exact absurd rfl (he _ hm o s m)
    · exact h.inside _ _ _ hm
  · rw [itemOffs_next, itemOffs_cons, h0, List.pairwise_cons]
    exact ⟨fun o ho => h.after o ho, h.ordered⟩
  · rw [itemOffs_next, itemOffs_cons, h0]
    intro o ho
    rcases List.mem_cons.1 ho with rfl | ho
    · exact hlo
    · have := h.after o ho; omega

/-- the first structure: at the start of the data -/
theorem placed_cons (hdr size off : Nat) (ev l : List DTok) (he : ∀ t ∈ ev, ∀ a b c, t ≠ .item a b c)
    (h : Rest hdr (off + hdr) size l) (hs : off + hdr ≤ size) :
    Placed hdr off size (.next :: .item off (off + hdr) (size - (off + hdr)) :: (ev ++ l)) := by
  have hr : Rest (hdr) (off + hdr) size l := h
  have h0 : itemOffs (ev ++ l) = itemOffs l := by
    have : itemOffs ev = [] := by
      unfold itemOffs
      rw [List.filterMap_eq_nil_iff]
      intro t ht
      have := he t ht
      cases t <;> simp at this ⊢
    unfold itemOffs at this ⊢
    rw [List.filterMap_append, this]
    rfl
  refine ⟨?_, ?_, ?_⟩
  · intro o s m hm
    simp only [List.mem_cons, List.mem_append, reduceCtorEq, false_or, DTok.item.injEq] at hm
    rcases hm with ⟨rfl, rfl, rfl⟩ | hm | hm
    · omega
    · exact absurd rfl (he _ hm o s m)
    · exact h.inside _ _ _ hm
  · rw [itemOffs_next, itemOffs_cons, h0, List.pairwise_cons]
    exact ⟨fun o ho => h.after o ho, h.ordered⟩
  · rw [itemOffs_next, itemOffs_cons]
    simp

theorem placed_none (hdr start size : Nat) (l : List DTok) (h : ∀ t ∈ l, ∀ a b c, t ≠ .item a b c) :
    Placed hdr start size l := by
  have hr := rest_none hdr start size l h
  have h0 : itemOffs l = [] := by
    unfold itemOffs
    rw [List.filterMap_eq_nil_iff]
    intro t ht
    have := h t ht
    cases t <;> simp at this ⊢
  exact ⟨hr.inside, hr.ordered, by rw [h0]; simp⟩

theorem eventTok_none (mem : Nat → Option Nat) (ver addr off offEnd rc next : Nat) :
    ∀ t ∈ eventTok mem ver addr off offEnd rc next, ∀ a b c, t ≠ .item a b c := by
  intro t ht a b c
  unfold eventTok at ht
  dsimp only at ht
  split at ht
  · split at ht
    · simp at ht; rw [ht]; simp
    · simp at ht
  · simp at ht

/-! ### whatever the memory holds -/

theorem specLoop_rest (mem : Nat → Option Nat) (entering : Bool) (addr ds size count : Nat) :
    ∀ (fuel i off lo : Nat), i ≠ 0 → off < 2 ^ 32 → 0 < fuel → (off ≤ lo ∨ size + 2 - off ≤ fuel) →
      ∃ r, specLoop mem entering addr ds size count fuel i off lo = some r ∧ Rest 40 lo size r := by
  intro fuel
  induction fuel with
  | zero => intro i off lo hi ho hf; omega
  | succ fuel ih =>
    intro i off lo hi ho hf hm
    unfold specLoop
    by_cases hc : i < count
    · rw [if_pos hc]
      by_cases h1 : off ≤ lo
      · rw [if_pos ⟨hi, h1⟩]
        exact ⟨_, rfl, rest_none _ _ _ _ (by simp)⟩
      · rw [if_neg (by simp [h1])]
        by_cases h2 : (off + 40) % 2 ^ 32 ≤ off ∨ (off + 40) % 2 ^ 32 > size
        · rw [if_pos h2]
          exact ⟨_, rfl, rest_none _ _ _ _ (by simp)⟩
        · rw [if_neg h2]
          have h40 : (off + 40) % 2 ^ 32 = off + 40 := by omega
          split
          · exact ⟨_, rfl, rest_none _ _ _ _ (by simp)⟩
          · rw [h40] at h2 ⊢
            obtain ⟨r, hr, hrest⟩ := ih (i + 1) (specNext entering ds off (u32At mem (addr + off + 20))) (off + 40)
              (by omega) (by unfold specNext; split <;> omega) (by omega) (by omega)
            rw [hr]
            exact ⟨_, rfl, rest_cons 40 lo size off [] r (by simp) hrest (by omega) (by omega)⟩
    · rw [if_neg hc]
      exact ⟨_, rfl, rest_none _ _ _ _ (by simp)⟩

/-- C86: targets of a table, for every content of the memory: the decoding ends, and what is shown lies in the data -/
theorem targetSpec_placed (mem : Nat → Option Nat) (ab entering : Bool) (addr ds size count : Nat) (hds : ds < 2 ^ 32)
    (hsz : size < 2 ^ 32) :
    ∃ r, targetSpec mem ab entering addr ds size count (size + 3) = some r ∧ Placed 40 ds size r := by
  unfold targetSpec
  split
  · refine ⟨_, rfl, placed_none _ _ _ _ ?_⟩
    split <;> simp
  · unfold specLoop
    by_cases hc : 0 < count
    · rw [if_pos hc, if_neg (by simp)]
      by_cases h2 : (ds + 40) % 2 ^ 32 ≤ ds ∨ (ds + 40) % 2 ^ 32 > size
      · rw [if_pos h2]
        exact ⟨_, rfl, placed_none _ _ _ _ (by simp)⟩
      · rw [if_neg h2]
        have h40 : (ds + 40) % 2 ^ 32 = ds + 40 := by omega
        split
        · exact ⟨_, rfl, placed_none _ _ _ _ (by simp)⟩
        · rw [h40] at h2 ⊢
          obtain ⟨r, hr, hrest⟩ := specLoop_rest mem entering addr ds size count (size + 2) (0 + 1)
            (specNext entering ds ds (u32At mem (addr + ds + 20))) (ds + 40)
            (by omega) (by unfold specNext; split <;> omega) (by omega) (by omega)
          rw [hr]
          exact ⟨_, rfl, placed_cons 40 size ds [] r (by simp) hrest (by omega)⟩
    · rw [if_neg hc]
      exact ⟨_, rfl, placed_none _ _ _ _ (by simp)⟩

theorem nameLoop_rest (mem : Nat → Option Nat) (rc : Nat → Nat) (ver addr size : Nat) :
    ∀ (fuel i off lo : Nat), i ≠ 0 → off < 2 ^ 32 → 0 < fuel → (off ≤ lo ∨ size + 2 - off ≤ fuel) →
      ∃ r, nameLoop mem rc ver addr size fuel i off lo = some r ∧ Rest 12 lo size r := by
  intro fuel
  induction fuel with
  | zero => intro i off lo hi ho hf; omega
  | succ fuel ih =>
    intro i off lo hi ho hf hm
    unfold nameLoop
    by_cases h1 : off ≤ lo
    · rw [if_pos ⟨hi, h1⟩]
      exact ⟨_, rfl, rest_none _ _ _ _ (by simp)⟩
    · rw [if_neg (by simp [h1])]
      by_cases h2 : (off + 12) % 2 ^ 32 ≤ off ∨ (off + 12) % 2 ^ 32 > size
      · rw [if_pos h2]
        exact ⟨_, rfl, rest_none _ _ _ _ (by simp)⟩
      · rw [if_neg h2]
        have h40 : (off + 12) % 2 ^ 32 = off + 12 := by omega
        split
        · exact ⟨_, rfl, rest_none _ _ _ _ (by simp)⟩
        · dsimp only
          rw [h40] at h2 ⊢
          have hev := eventTok_none mem ver addr off (off + 12) (rc off) (u32At mem (addr + off + 8))
          split
          · refine ⟨_, rfl, ?_⟩
            have := rest_cons 12 lo size off _ [] hev (rest_none _ _ _ _ (by simp)) (by omega) (by omega)
            rwa [List.append_nil] at this
          · obtain ⟨r, hr, hrest⟩ := ih (i + 1) ((off + u32At mem (addr + off + 8)) % 2 ^ 32) (off + 12)
              (by omega) (by omega) (by omega) (by omega)
            rw [hr]
            exact ⟨_, rfl, rest_cons 12 lo size off _ r hev hrest (by omega) (by omega)⟩

/-- C86: names of devices, for every content of the memory -/
theorem nameList_placed (mem : Nat → Option Nat) (ab : Bool) (maxlen ver addr ds size : Nat) (hds : ds < 2 ^ 32)
    (hsz : size < 2 ^ 32) :
    ∃ r, nameList mem ab maxlen ver addr ds size (size + 3) = some r ∧ Placed 12 ds size r := by
  unfold nameList
  split
  · exact ⟨_, rfl, placed_none _ _ _ _ (by simp)⟩
  split
  · exact ⟨_, rfl, placed_none _ _ _ _ (by simp)⟩
  · generalize (fun off => strlen1 mem (addr + off + 12) (min (maxlen + 1) (size - (off + 12) % 2 ^ 32)) 0) = rc
    unfold nameLoop
    rw [if_neg (by simp)]
    by_cases h2 : (ds + 12) % 2 ^ 32 ≤ ds ∨ (ds + 12) % 2 ^ 32 > size
    · rw [if_pos h2]
      exact ⟨_, rfl, placed_none _ _ _ _ (by simp)⟩
    · rw [if_neg h2]
      have h40 : (ds + 12) % 2 ^ 32 = ds + 12 := by omega
      split
      · exact ⟨_, rfl, placed_none _ _ _ _ (by simp)⟩
      · dsimp only
        rw [h40] at h2 ⊢
        have hev := eventTok_none mem ver addr ds (ds + 12) (rc ds) (u32At mem (addr + ds + 8))
        split
        · refine ⟨_, rfl, ?_⟩
          have := placed_cons 12 size ds _ [] hev (rest_none _ _ _ _ (by simp)) (by omega)
          rwa [List.append_nil] at this
        · obtain ⟨r, hr, hrest⟩ := nameLoop_rest mem rc ver addr size (size + 2) (0 + 1)
            ((ds + u32At mem (addr + ds + 8)) % 2 ^ 32) (ds + 12) (by omega) (by omega) (by omega) (by omega)
          rw [hr]
          exact ⟨_, rfl, placed_cons 12 size ds _ r hev hrest (by omega)⟩

theorem versLoop_rest (mem : Nat → Option Nat) (addr size : Nat) :
    ∀ (fuel i off lo : Nat), i ≠ 0 → off < 2 ^ 32 → 0 < fuel → (off ≤ lo ∨ size + 2 - off ≤ fuel) →
      ∃ r, versLoop mem addr size fuel i off lo = some r ∧ Rest 16 lo size r := by
  intro fuel
  induction fuel with
  | zero => intro i off lo hi ho hf; omega
  | succ fuel ih =>
    intro i off lo hi ho hf hm
    unfold versLoop
    by_cases h1 : off ≤ lo
    · rw [if_pos ⟨hi, h1⟩]
      exact ⟨_, rfl, rest_none _ _ _ _ (by simp)⟩
    · rw [if_neg (by simp [h1])]
      by_cases h2 : (off + 16) % 2 ^ 32 ≤ off ∨ (off + 16) % 2 ^ 32 > size
      · rw [if_pos h2]
        exact ⟨_, rfl, rest_none _ _ _ _ (by simp)⟩
      · rw [if_neg h2]
        have h40 : (off + 16) % 2 ^ 32 = off + 16 := by omega
        split
        · exact ⟨_, rfl, rest_none _ _ _ _ (by simp)⟩
        · dsimp only
          rw [h40] at h2 ⊢
          split
          · exact ⟨_, rfl, rest_cons 16 lo size off [] [] (by simp) (rest_none _ _ _ _ (by simp)) (by omega) (by omega)⟩
          · obtain ⟨r, hr, hrest⟩ := ih (i + 1) ((off + u32At mem (addr + off)) % 2 ^ 32) (off + 16)
              (by omega) (by omega) (by omega) (by omega)
            rw [hr]
            exact ⟨_, rfl, rest_cons 16 lo size off [] r (by simp) hrest (by omega) (by omega)⟩

/-- C86: versions of targets, for every content of the memory -/
theorem targetVersions_placed (mem : Nat → Option Nat) (ab : Bool) (addr ds size : Nat) (hds : ds < 2 ^ 32)
    (hsz : size < 2 ^ 32) :
    ∃ r, targetVersions mem ab addr ds size (size + 3) = some r ∧ Placed 16 ds size r := by
  unfold targetVersions
  split
  · exact ⟨_, rfl, placed_none _ _ _ _ (by simp)⟩
  split
  · exact ⟨_, rfl, placed_none _ _ _ _ (by simp)⟩
  · unfold versLoop
    rw [if_neg (by simp)]
    by_cases h2 : (ds + 16) % 2 ^ 32 ≤ ds ∨ (ds + 16) % 2 ^ 32 > size
    · rw [if_pos h2]
      exact ⟨_, rfl, placed_none _ _ _ _ (by simp)⟩
    · rw [if_neg h2]
      have h40 : (ds + 16) % 2 ^ 32 = ds + 16 := by omega
      split
      · exact ⟨_, rfl, placed_none _ _ _ _ (by simp)⟩
      · dsimp only
        rw [h40] at h2 ⊢
        split
        · exact ⟨_, rfl, placed_cons 16 size ds [] [] (by simp) (rest_none _ _ _ _ (by simp)) (by omega)⟩
        · obtain ⟨r, hr, hrest⟩ := versLoop_rest mem addr size (size + 2) (0 + 1)
            ((ds + u32At mem (addr + ds)) % 2 ^ 32) (ds + 16) (by omega) (by omega) (by omega) (by omega)
          rw [hr]
          exact ⟨_, rfl, placed_cons 16 size ds [] r (by simp) hrest (by omega)⟩

/-! ### well-formed data is shown in full -/

theorem readable_of (mem : Nat → Option Nat) (n a : Nat) (h : ∀ i, i < n → (mem (a + i)).isSome) (ha : a + n ≤ 2 ^ 64) :
    readable mem a n = true := by
  induction n generalizing a with
  | zero => rfl
  | succ n ih =>
    unfold readable
    rw [Bool.and_eq_true]
    refine ⟨h 0 (by omega), ?_⟩
    by_cases h0 : n = 0
    · subst h0; rfl
    · rw [Nat.mod_eq_of_lt (by omega)]
      apply ih
      · intro i hi
        have := h (i + 1) (by omega)
        rwa [show a + 1 + i = a + (i + 1) by omega]
      · omega

theorem byteAt_of {mem : Nat → Option Nat} {a b : Nat} (h : mem a = some b) (ha : a < 2 ^ 64) : byteAt mem a = b := by
  unfold byteAt
  rw [Nat.mod_eq_of_lt ha, h]
  rfl

theorem u32At_of (mem : Nat → Option Nat) (a n : Nat) (h : Stored mem a (le4 n)) (ha : a + 4 ≤ 2 ^ 64) (hn : n < 2 ^ 32) :
    u32At mem a = n := by
  have h0 := byteAt_of (h 0 (by simp [le4])) (by omega)
  have h1 := byteAt_of (h 1 (by simp [le4])) (by omega)
  have h2 := byteAt_of (h 2 (by simp [le4])) (by omega)
  have h3 := byteAt_of (h 3 (by simp [le4])) (by omega)
  simp only [le4, Nat.add_zero, List.getElem_cons_zero, List.getElem_cons_succ] at h0 h1 h2 h3
  unfold u32At
  rw [h0, h1, h2, h3]
  omega

theorem versLoop_chain (mem : Nat → Option Nat) (addr size : Nat) (hsz : size < 2 ^ 32) (ha : addr + 2 ^ 32 + 16 ≤ 2 ^ 64) :
    ∀ (off : Nat) (l : List Nat), Versions mem addr size off l → ∀ fuel i lo, size + 1 - off ≤ fuel → (i ≠ 0 → lo < off) →
      versLoop mem addr size fuel i off lo = some (itemsOf 16 size l) := by
  intro off l h
  induction h with
  | last off h1 h2 h3 =>
    intro fuel i lo hf hlo
    obtain ⟨fuel, rfl⟩ : ∃ k, fuel = k + 1 := ⟨fuel - 1, by omega⟩
    unfold versLoop
    have h16 : (off + 16) % 2 ^ 32 = off + 16 := by omega
    have hao : (addr + off) % 2 ^ 64 = addr + off := by omega
    rw [if_neg (by intro h; have := hlo h.1; omega), h16, if_neg (by omega), hao,
      readable_of mem 16 (addr + off) h2 (by omega), u32At_of mem _ 0 h3 (by omega) (by decide)]
    simp [itemsOf]
  | cons off next l h1 h2 h3 h4 h5 _ ih =>
    intro fuel i lo hf hlo
    obtain ⟨fuel, rfl⟩ : ∃ k, fuel = k + 1 := ⟨fuel - 1, by omega⟩
    unfold versLoop
    have h16 : (off + 16) % 2 ^ 32 = off + 16 := by omega
    have hao : (addr + off) % 2 ^ 64 = addr + off := by omega
    rw [if_neg (by intro h; have := hlo h.1; omega), h16, if_neg (by omega), hao,
      readable_of mem 16 (addr + off) h2 (by omega), u32At_of mem _ next h3 (by omega) (by omega)]
    rw [if_neg (by decide)]
    dsimp only
    rw [if_neg (by omega), Nat.mod_eq_of_lt h5, ih fuel (i + 1) (off + 16) (by omega) (by omega)]
    simp [itemsOf]

/-- C86: all versions of targets are shown, in order -/
theorem targetVersions_shown (mem : Nat → Option Nat) (addr ds size : Nat) (l : List Nat) (hsz : size < 2 ^ 32)
    (ha : addr + 2 ^ 32 + 16 ≤ 2 ^ 64) (h : Versions mem addr size ds l) :
    targetVersions mem false addr ds size (size + 3) = some (itemsOf 16 size l) := by
  have hlt : ds < size := by cases h <;> omega
  unfold targetVersions
  rw [if_neg (by omega), if_neg (by decide)]
  exact versLoop_chain mem addr size hsz ha ds l h (size + 3) 0 0 (by omega) (by simp)

theorem strlen1_of (mem : Nat → Option Nat) (a : Nat) (name : List Nat) (hs : Stored mem a (name ++ [0]))
    (hz : ∀ c ∈ name, c ≠ 0) (ha : a + name.length < 2 ^ 64) :
    ∀ (n k : Nat), k ≤ name.length → strlen1 mem a n k = if name.length < n + k then name.length + 1 else 0 := by
  intro n
  induction n with
  | zero => intro k hk; rw [if_neg (by omega)]; rfl
  | succ n ih =>
    intro k hk
    unfold strlen1
    have hb := hs k (by simp; omega)
    by_cases hlt : k < name.length
    · rw [List.getElem_append_left hlt] at hb
      rw [byteAt_of hb (by omega), if_neg (hz _ (List.getElem_mem hlt)), ih (k + 1) (by omega)]
      congr 1
      simp only [eq_iff_iff]
      omega
    · have hk : k = name.length := by omega
      subst hk
      rw [List.getElem_append_right (by omega)] at hb
      simp only [Nat.sub_self, List.getElem_cons_zero] at hb
      rw [byteAt_of hb (by omega), if_pos rfl, if_pos (by omega)]

/-- the result of `printstr_ex` in `nameList` -/
theorem rc_of (mem : Nat → Option Nat) (addr size maxlen : Nat) (d : Dev) (hd : DevAt mem addr size d) (hsz : size < 2 ^ 32)
    (ha : addr + 2 ^ 32 + 16 ≤ 2 ^ 64) :
    strlen1 mem (addr + d.off + 12) (min (maxlen + 1) (size - (d.off + 12) % 2 ^ 32)) 0 =
      if d.name.length ≤ maxlen then d.name.length + 1 else 0 := by
  have hf := hd.fits
  rw [strlen1_of mem _ d.name hd.name hd.nonzero (by omega) _ 0 (by omega)]
  congr 1
  simp only [eq_iff_iff]
  omega

theorem eventTok_of (mem : Nat → Option Nat) (addr size maxlen ver : Nat) (d : Dev) (hd : DevAt mem addr size d)
    (hsz : size < 2 ^ 32) (ha : addr + 2 ^ 32 + 16 ≤ 2 ^ 64) :
    [.next, .item d.off (d.off + 12) (size - (d.off + 12))] ++
      eventTok mem ver addr d.off (d.off + 12) (if d.name.length ≤ maxlen then d.name.length + 1 else 0) d.next =
      devToks maxlen ver addr size d := by
  unfold devToks
  congr 1
  have hf := hd.fits
  have hsm := hd.small
  unfold eventTok
  by_cases hn : d.name.length ≤ maxlen
  · rw [if_pos hn]
    by_cases hv : 37 ≤ ver
    · rw [if_pos ⟨by omega, hv⟩]
      dsimp only
      have hea : (addr + (d.off + 12) + (d.name.length + 1) + 7) % 2 ^ 64 / 8 * 8 = eventAddr addr d := by
        unfold eventAddr
        rw [Nat.mod_eq_of_lt (by omega)]
        congr 2
      rw [hea]
      have hb1 : eventAddr addr d ≤ addr + d.off + 12 + d.name.length + 1 + 7 := Nat.div_mul_le_self _ 8
      have hb2 : addr + d.off + 12 + d.name.length + 1 ≤ eventAddr addr d := by unfold eventAddr; omega
      by_cases hroom : eventAddr addr d + 4 ≤ addr + d.off + d.next
      · have hc1 : (eventAddr addr d + 4) % 2 ^ 64 ≤ (addr + d.off + d.next) % 2 ^ 64 := by omega
        rw [if_pos (show 37 ≤ ver ∧ d.name.length ≤ maxlen ∧ eventAddr addr d + 4 ≤ addr + d.off + d.next from ⟨hv, hn, hroom⟩)]
        rw [if_pos]
        refine ⟨hc1, ?_⟩
        apply readable_of
        · intro i hi
          have := hd.read (eventAddr addr d + i - (addr + d.off)) (by omega)
          rwa [show addr + d.off + (eventAddr addr d + i - (addr + d.off)) = eventAddr addr d + i by omega] at this
        · omega
      · have hc1 : ¬ (eventAddr addr d + 4) % 2 ^ 64 ≤ (addr + d.off + d.next) % 2 ^ 64 := by omega
        rw [if_neg (fun h => hc1 h.1), if_neg (fun h => hroom h.2.2)]
    · rw [if_neg (by omega), if_neg (by omega)]
  · rw [if_neg hn, if_neg (by omega), if_neg (by simp [hn])]

theorem nameLoop_chain (mem : Nat → Option Nat) (maxlen ver addr size : Nat) (hsz : size < 2 ^ 32)
    (ha : addr + 2 ^ 32 + 16 ≤ 2 ^ 64) (rc : Nat → Nat)
    (hrc : rc = fun off => strlen1 mem (addr + off + 12) (min (maxlen + 1) (size - (off + 12) % 2 ^ 32)) 0) :
    ∀ (off : Nat) (l : List Dev), Devices mem addr size off l → ∀ fuel i lo, size + 1 - off ≤ fuel → (i ≠ 0 → lo < off) →
      nameLoop mem rc ver addr size fuel i off lo = some (l.flatMap (devToks maxlen ver addr size)) := by
  intro off l h
  induction h with
  | last d hd hn =>
    intro fuel i lo hf hlo
    have hfits := hd.fits
    obtain ⟨fuel, rfl⟩ : ∃ k, fuel = k + 1 := ⟨fuel - 1, by omega⟩
    unfold nameLoop
    have h16 : (d.off + 12) % 2 ^ 32 = d.off + 12 := by omega
    have hao : (addr + d.off) % 2 ^ 64 = addr + d.off := by omega
    rw [if_neg (by intro h; have := hlo h.1; omega), h16, if_neg (by omega), hao,
      readable_of mem 16 (addr + d.off) (fun i hi => hd.read i (by omega)) (by omega),
      u32At_of mem _ d.next hd.next (by omega) (by have := hd.small; omega)]
    rw [if_neg (by decide)]
    dsimp only
    rw [if_pos hn]
    have hev := eventTok_of mem addr size maxlen ver d hd hsz ha
    rw [← rc_of mem addr size maxlen d hd hsz ha] at hev
    rw [hrc]
    simp only [List.flatMap_cons, List.flatMap_nil, List.append_nil]
    rw [← hev]
    rfl
  | cons d l hd hn _ ih =>
    intro fuel i lo hf hlo
    have hfits := hd.fits
    have hsm := hd.small
    obtain ⟨fuel, rfl⟩ : ∃ k, fuel = k + 1 := ⟨fuel - 1, by omega⟩
    unfold nameLoop
    have h16 : (d.off + 12) % 2 ^ 32 = d.off + 12 := by omega
    have hao : (addr + d.off) % 2 ^ 64 = addr + d.off := by omega
    rw [if_neg (by intro h; have := hlo h.1; omega), h16, if_neg (by omega), hao,
      readable_of mem 16 (addr + d.off) (fun i hi => hd.read i (by omega)) (by omega),
      u32At_of mem _ d.next hd.next (by omega) (by omega)]
    rw [if_neg (by decide)]
    dsimp only
    rw [if_neg (by omega), Nat.mod_eq_of_lt hsm, ih fuel (i + 1) (d.off + 12) (by omega) (by omega)]
    have hev := eventTok_of mem addr size maxlen ver d hd hsz ha
    rw [← rc_of mem addr size maxlen d hd hsz ha] at hev
    rw [hrc]
    simp only [List.flatMap_cons, Option.map_some]
    rw [← hev]
    rfl

/-- C86: all devices are shown, in order, with their event numbers where the format has room for them -/
theorem nameList_shown (mem : Nat → Option Nat) (maxlen ver addr ds size : Nat) (l : List Dev) (hsz : size < 2 ^ 32)
    (ha : addr + 2 ^ 32 + 16 ≤ 2 ^ 64) (h : Devices mem addr size ds l) :
    nameList mem false maxlen ver addr ds size (size + 3) = some (l.flatMap (devToks maxlen ver addr size)) := by
  have hlt : ds < size := by
    cases h with
    | last d hd _ => have := hd.fits; omega
    | cons d l hd _ _ => have := hd.fits; omega
  unfold nameList
  rw [if_neg (by omega), if_neg (by decide)]
  exact nameLoop_chain mem maxlen ver addr size hsz ha _ rfl ds l h (size + 3) 0 0 (by omega) (by simp)

theorem specLoop_chain (mem : Nat → Option Nat) (load : Bool) (addr ds size count : Nat) (hsz : size < 2 ^ 32)
    (ha : addr + 2 ^ 32 + 16 ≤ 2 ^ 64) :
    ∀ (off : Nat) (l : List Nat), Table mem load addr ds size off l → ∀ fuel i lo, size + 2 - off ≤ fuel →
      (i ≠ 0 → lo < off) → i + l.length = count →
      specLoop mem load addr ds size count fuel i off lo = some (itemsOf 40 size l) := by
  intro off l h
  induction h with
  | last off h1 h2 =>
    intro fuel i lo hf hlo hc
    obtain ⟨fuel, rfl⟩ : ∃ k, fuel = k + 1 := ⟨fuel - 1, by omega⟩
    simp only [List.length_singleton] at hc
    unfold specLoop
    have h16 : (off + 40) % 2 ^ 32 = off + 40 := by omega
    have hao : (addr + off) % 2 ^ 64 = addr + off := by omega
    rw [if_pos (by omega), if_neg (by intro h; have := hlo h.1; omega), h16, if_neg (by omega), hao,
      readable_of mem 40 (addr + off) h2 (by omega)]
    rw [if_neg (by decide)]
    obtain ⟨fuel, rfl⟩ : ∃ k, fuel = k + 1 := ⟨fuel - 1, by omega⟩
    unfold specLoop
    rw [if_neg (by omega)]
    simp [itemsOf]
  | cons off off' l h1 h2 h3 h4 h5 h6 _ ih =>
    intro fuel i lo hf hlo hc
    obtain ⟨fuel, rfl⟩ : ∃ k, fuel = k + 1 := ⟨fuel - 1, by omega⟩
    simp only [List.length_cons] at hc
    unfold specLoop
    have h16 : (off + 40) % 2 ^ 32 = off + 40 := by omega
    have hao : (addr + off) % 2 ^ 64 = addr + off := by omega
    have hnext : specNext load ds off (off' - if load = true then off else ds) = off' := by
      unfold specNext
      cases load <;> simp <;> omega
    have hu := u32At_of mem _ _ h3 (by omega) (by split <;> omega)
    rw [if_pos (by omega), if_neg (by intro h; have := hlo h.1; omega), h16, if_neg (by omega), hao,
      readable_of mem 40 (addr + off) h2 (by omega), hu, hnext]
    rw [if_neg (by decide), ih fuel (i + 1) (off + 40) (by omega) (by omega) (by omega)]
    simp [itemsOf]

/-- C86: all targets of a table are shown, in order, both when it is loaded and when it is read -/
theorem targetSpec_shown (mem : Nat → Option Nat) (load : Bool) (addr ds size : Nat) (l : List Nat) (hsz : size < 2 ^ 32)
    (ha : addr + 2 ^ 32 + 16 ≤ 2 ^ 64) (h : Table mem load addr ds size ds l) :
    targetSpec mem false load addr ds size l.length (size + 3) = some (itemsOf 40 size l) := by
  unfold targetSpec
  rw [if_neg (by decide)]
  exact specLoop_chain mem load addr ds size l.length hsz ha ds l h (size + 3) 0 0 (by omega) (by simp) (by simp)

/-- C86: the devices a device depends on: an array is shown only if it lies in the data, and a well-formed one is -/
theorem targetDeps_shown (mem : Nat → Option Nat) (addr ds size : Nat) (hds : ds < 2 ^ 32) (hsz : size < 2 ^ 32) :
    (∀ off n, .array off n ∈ targetDeps mem false addr ds size → off = ds + 8 ∧ off + 8 * n ≤ size) ∧
    ∀ n, n < 2 ^ 32 → ds + 8 + 8 * n ≤ size → addr + 2 ^ 32 + 16 ≤ 2 ^ 64 →
      (∀ i, i < 8 → (mem (addr + ds + i)).isSome) → Stored mem (addr + ds) (le4 n) →
      targetDeps mem false addr ds size = [.next, .array (ds + 8) n] := by
  constructor
  · intro off n h
    unfold targetDeps at h
    split at h
    · simp at h
    split at h
    · simp at h
    split at h
    · simp at h
    split at h
    · simp at h
    split at h
    · simp at h
    · simp at h
      omega
  · intro n hn hs ha hr hst
    unfold targetDeps
    have h8 : (ds + 8) % 2 ^ 32 = ds + 8 := by omega
    rw [if_neg (by omega), if_neg (by decide), h8, if_neg (by omega), Nat.mod_eq_of_lt (by omega : addr + ds < 2 ^ 64),
      readable_of mem 8 _ hr (by omega), if_neg (by decide), u32At_of mem _ n hst (by omega) hn, if_neg (by omega)]

/-- C86: a message to a target and a string: what is shown lies in the data -/
theorem message_shown (mem : Nat → Option Nat) (ab : Bool) (addr ds size : Nat) (hds : ds < 2 ^ 32) :
    Placed 8 ds size (targetMsg mem ab addr ds size) ∧
    (∀ off max, .string off max ∈ dmString ab ds size → off = ds ∧ off + max = size) := by
  constructor
  · unfold targetMsg
    split
    · exact placed_none _ _ _ _ (by simp)
    split
    · exact placed_none _ _ _ _ (by simp)
    split
    · rename_i h
      have h8 : (ds + 8) % 2 ^ 32 = ds + 8 := by omega
      split
      · exact placed_none _ _ _ _ (by simp)
      · rw [h8]
        exact placed_cons 8 size ds [] [] (by simp) (rest_none _ _ _ _ (by simp)) (by omega)
    · exact placed_none _ _ _ _ (by simp)
  · intro off max h
    unfold dmString at h
    split at h
    · simp at h
    split at h
    · simp at h
      omega
    · simp at h

/-- C86: with abbreviation nothing of the data is read -/
theorem dm_abbreviated (mem mem' : Nat → Option Nat) (entering : Bool) (maxlen ver addr ds size count fuel : Nat) :
    targetSpec mem true entering addr ds size count fuel = targetSpec mem' true entering addr ds size count fuel ∧
    nameList mem true maxlen ver addr ds size fuel = nameList mem' true maxlen ver addr ds size fuel ∧
    targetVersions mem true addr ds size fuel = targetVersions mem' true addr ds size fuel ∧
    targetDeps mem true addr ds size = targetDeps mem' true addr ds size ∧
    targetMsg mem true addr ds size = targetMsg mem' true addr ds size := by
  refine ⟨rfl, rfl, rfl, rfl, rfl⟩

/-- Finding: the event number of the last device of a list, hence of the only one, is never shown: there is no next device
that it could lie in front of -/
theorem last_event_hidden (maxlen ver addr size : Nat) (d : Dev) (h : d.next = 0) :
    ∀ a, .event a ∉ devToks maxlen ver addr size d := by
  intro a
  unfold devToks
  rw [if_neg]
  · simp
  · intro hc
    have : addr + d.off + 12 + d.name.length + 1 ≤ eventAddr addr d := by unfold eventAddr; omega
    omega

/-- bytes in memory at 4096 -/
def exBytes (bs : List Nat) (a : Nat) : Option Nat := if 4096 ≤ a then bs[a - 4096]? else none

/-- two devices, "ab" with event number 7 at 40 bytes before the second, "c" -/
def exDevs : List Nat :=
  List.replicate 8 0 ++ le4 24 ++ [97, 98, 0, 0] ++ le4 7 ++ le4 0 ++
  List.replicate 8 0 ++ le4 0 ++ [99, 0, 0, 0] ++ le4 9 ++ le4 0

example : nameList (exBytes exDevs) false 32 48 4096 0 48 51 =
    some [.next, .item 0 12 36, .event 4112, .next, .item 24 36 12] := by decide +kernel

/-- Finding: an event number is shown although it lies after the data, if `next` says that the next device does -/
theorem event_outside :
    nameList (exBytes (List.replicate 8 0 ++ le4 100 ++ [97, 98, 0, 0] ++ le4 7 ++ List.replicate 100 1)) false 32 48 4096 0 16 19 =
      some [.next, .item 0 12 4, .event 4112, .next, .misplaced] := by decide +kernel

/-- Finding: a device whose name ends less than 4 bytes before the end of what can be read is not shown -/
theorem short_name_unread :
    nameList (exBytes (List.replicate 8 0 ++ le4 0 ++ [97, 0])) false 32 48 4096 0 14 17 = some [.next, .addr 4096] := by
  decide +kernel

/-- the hypotheses are met -/
example : Devices (exBytes exDevs) 4096 48 0 [⟨0, [97, 98], 24⟩, ⟨24, [99], 0⟩] := by
  refine Devices.cons ⟨0, [97, 98], 24⟩ _ ⟨by decide, by decide +kernel, ?_, ?_, by decide, by decide⟩ (by decide)
    (Devices.last ⟨24, [99], 0⟩ ⟨by decide, by decide +kernel, ?_, ?_, by decide, by decide⟩ rfl)
  all_goals
    unfold Stored
    decide +kernel

example : Table (exBytes (List.replicate 20 0 ++ le4 48 ++ List.replicate 64 0)) true 4096 0 88 0 [0, 48] := by
  refine Table.cons 0 48 _ (by decide) (by decide +kernel) (by unfold Stored; decide +kernel) (by decide) (by decide)
    (by decide) (Table.last 48 (by decide) (by decide +kernel))

example : Versions (exBytes (le4 20 ++ le4 1 ++ le4 2 ++ le4 3 ++ [97, 0, 0, 0] ++ le4 0 ++ le4 1 ++ le4 2 ++ le4 3 ++ [97, 0]))
    4096 38 0 [0, 20] := by
  refine Versions.cons 0 20 _ (by decide) (by decide +kernel) (by unfold Stored; decide +kernel) (by decide)
    (by decide) (Versions.last 20 (by decide) (by decide +kernel) (by unfold Stored; decide +kernel))

/-- The data that is not shown is marked: with `...` if abbreviating, and as misplaced if there is no room for it behind its start.
Only data that starts at the end, which is empty, shows nothing. -/
theorem dm_marked (mem : Nat → Option Nat) (maxlen ver addr ds size fuel : Nat) (hf : 0 < fuel) (hds : ds < 2 ^ 32) (hsz : size < 2 ^ 32)
    (h : ds ≠ size) :
    (nameList mem true maxlen ver addr ds size fuel = some [.next, .more] ∧ targetVersions mem true addr ds size fuel = some [.next, .more] ∧
      targetDeps mem true addr ds size = [.next, .more] ∧ targetMsg mem true addr ds size = [.next, .more]) ∧
    (size < ds + 12 → nameList mem false maxlen ver addr ds size fuel = some [.next, .misplaced]) ∧
    (size < ds + 16 → targetVersions mem false addr ds size fuel = some [.next, .misplaced]) ∧
    (size < ds + 8 → targetDeps mem false addr ds size = [.next, .misplaced] ∧ targetMsg mem false addr ds size = [.next, .misplaced]) := by
  obtain ⟨k, rfl⟩ : ∃ k, fuel = k + 1 := ⟨fuel - 1, by omega⟩
  refine ⟨⟨?_, ?_, ?_, ?_⟩, fun hl => ?_, fun hl => ?_, fun hl => ⟨?_, ?_⟩⟩
  · rw [nameList, if_neg h, if_pos rfl]
  · rw [targetVersions, if_neg h, if_pos rfl]
  · rw [targetDeps, if_neg h, if_pos rfl]
  · rw [targetMsg, if_neg h, if_pos rfl]
  · rw [nameList, if_neg h, if_neg (by decide), nameLoop, if_neg (by simp), if_pos (by omega)]
  · rw [targetVersions, if_neg h, if_neg (by decide), versLoop, if_neg (by simp), if_pos (by omega)]
  · rw [targetDeps, if_neg h, if_neg (by decide), if_pos (by omega)]
  · rw [targetMsg, if_neg h, if_neg (by decide), if_neg (by omega)]

/-- A string is shown from its start to the end of the data, also if it is empty; one that starts beyond the end is misplaced. -/
theorem dmString_shown (ds size : Nat) :
    dmString true ds size = [.next, .more] ∧ (ds ≤ size → dmString false ds size = [.next, .string ds (size - ds)]) ∧
    (size < ds → dmString false ds size = [.next, .misplaced]) := by
  refine ⟨rfl, fun h => ?_, fun h => ?_⟩
  · rw [dmString, if_neg (by decide), if_pos h]
  · rw [dmString, if_neg (by decide), if_neg (by omega)]

end Strace.Tracee
