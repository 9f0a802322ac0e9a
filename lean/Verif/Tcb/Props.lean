import Verif.Tcb.Spec
import Mathlib.Data.List.Perm.Basic
namespace Strace.Tcb
variable {α : Type}

/-! ### C49, growing arrays -/

/-- **C49.**  An array reallocation either exits or asks for exactly members × size bytes. -/
theorem realloc_exact (H nmemb size : Nat) (hH : 0 < H) (b : Nat) (h : reallocBytes H nmemb size = some b)
    (hn : nmemb < H * H) : b = nmemb * size ∨ size = 0 := by
  unfold reallocBytes at h
  split at h
  · simp at h
  · rename_i hc
    injection h with h
    subst h
    by_cases hs : size = 0
    · exact Or.inr hs
    left
    by_cases hb : (nmemb ||| size) ≥ H
    · have hd : nmemb * size % (H * H) / size = nmemb := by
        by_cases hd : nmemb * size % (H * H) / size = nmemb
        · exact hd
        · exact absurd ⟨hb, hs, hd⟩ hc
      have h1 := Nat.div_mul_le_self (nmemb * size % (H * H)) size
      rw [hd] at h1
      have := Nat.mod_le (nmemb * size) (H * H)
      omega
    · have h1 : nmemb < H := by have := Nat.left_le_or (n := nmemb) (m := size); omega
      have h2 : size < H := by have := Nat.right_le_or (n := nmemb) (m := size); omega
      apply Nat.mod_eq_of_lt
      calc nmemb * size ≤ nmemb * H := Nat.mul_le_mul_left _ (by omega)
        _ < H * H := Nat.mul_lt_mul_of_pos_right h1 hH

/-- **C49.**  A grown array has more members than before (it does not wrap), and its size in bytes is
exact. -/
theorem grow_strict (H : Nat) (hH : 2 ≤ H) (isNull : Bool) (nmemb membSize n b : Nat) (hm : 0 < membSize)
    (hn : nmemb < H * H) (hnull : isNull = true → nmemb = 0) (hbig : 128 + membSize ≤ H * H)
    (h : growArray H isNull nmemb membSize = some (n, b)) :
    nmemb < n ∧ n < H * H ∧ b = n * membSize := by
  unfold growArray at h
  split at h
  · simp at h
  · rename_i hc
    split at h
    · simp at h
    · rename_i b' hb
      simp only [Option.some.injEq, Prod.mk.injEq] at h
      obtain ⟨h1, h2⟩ := h
      subst h1 h2
      have hHH : 0 < H * H := Nat.mul_pos (by omega) (by omega)
      have hlt : (nmemb + growMemb isNull nmemb membSize) % (H * H) < H * H := Nat.mod_lt _ hHH
      refine ⟨?_, hlt, ?_⟩
      · have hg : 0 < growMemb isNull nmemb membSize := by
          unfold growMemb
          cases isNull with
          | false => simp
          | true =>
            simp only [if_true, hnull rfl, ne_eq, not_true_eq_false, if_false]
            exact Nat.div_pos (by omega) hm
        have hle : growMemb isNull nmemb membSize < H * H := by
          unfold growMemb
          cases isNull with
          | false =>
            simp only [Bool.false_eq_true, if_false]
            have : 4 ≤ H * H := Nat.mul_le_mul hH hH
            omega
          | true =>
            simp only [if_true, hnull rfl, ne_eq, not_true_eq_false, if_false]
            exact Nat.lt_of_le_of_lt (Nat.div_le_self _ _) (by omega)
        generalize growMemb isNull nmemb membSize = g at *
        by_cases hw : nmemb + g < H * H
        · rw [Nat.mod_eq_of_lt hw]; omega
        · have : (nmemb + g) % (H * H) = nmemb + g - H * H := by
            rw [Nat.mod_eq_sub_mod (by omega), Nat.mod_eq_of_lt (by omega)]
          omega
      · rcases realloc_exact H _ membSize (by omega) b' hb hlt with h | h
        · exact h
        · omega


/-- **C49.**  An array whose grown size can be expressed is grown: no spurious out-of-memory exit. -/
theorem grow_succeeds (H : Nat) (hH : 2 ≤ H) (isNull : Bool) (nmemb membSize : Nat) (hm : 0 < membSize)
    (h : (nmemb + growMemb isNull nmemb membSize) * membSize < H * H) :
    growArray H isNull nmemb membSize =
      some (nmemb + growMemb isNull nmemb membSize, (nmemb + growMemb isNull nmemb membSize) * membSize) := by
  have h1 : nmemb + growMemb isNull nmemb membSize < H * H :=
    Nat.lt_of_le_of_lt (Nat.le_mul_of_pos_right _ hm) h
  unfold growArray
  rw [Nat.mod_eq_of_lt h1, if_neg (by omega)]
  unfold reallocBytes
  rw [Nat.mod_eq_of_lt h, Nat.mul_div_cancel _ hm, if_neg (by simp)]

/-- a table of tracees: 16 records first, then half as many again and one -/
example : growArray (2 ^ 32) true 0 8 = some (16, 128) ∧ growArray (2 ^ 32) false 16 8 = some (25, 200) := by
  decide +kernel

/-- too much: exit -/
example : growArray (2 ^ 32) false (2 ^ 61) 8 = none := by decide +kernel

/-! ### The table -/

/-- the entry of a record -/
def ent (s : Slot α) : List (Nat × α) := if s.pid = 0 then [] else [(s.pid, s.data)]

/-- the tracees of a table -/
def live (tab : List (Slot α)) : List (Nat × α) := tab.flatMap ent

theorem split_at {tab : List (Slot α)} {i : Nat} {t : Slot α} (h : tab[i]? = some t) :
    ∃ l1 l2, tab = l1 ++ t :: l2 ∧ l1.length = i ∧ ∀ s, tab.set i s = l1 ++ s :: l2 := by
  obtain ⟨hi, hv⟩ := List.getElem?_eq_some_iff.mp h
  refine ⟨tab.take i, tab.drop (i + 1), ?_, by simp; omega, ?_⟩
  · conv_lhs => rw [← List.take_append_drop i tab]
    rw [List.drop_eq_getElem_cons hi, hv]
  · intro s
    rw [List.set_eq_take_append_cons_drop, if_pos hi]

theorem live_split (l1 l2 : List (Slot α)) (t : Slot α) :
    (live (l1 ++ t :: l2)).Perm (ent t ++ live (l1 ++ l2)) := by
  simp only [live, List.flatMap_append, List.flatMap_cons]
  rw [← List.append_assoc, ← List.append_assoc]
  exact List.Perm.append_right _ List.perm_append_comm

theorem live_set {tab : List (Slot α)} {i : Nat} {t : Slot α} (h : tab[i]? = some t) :
    ∃ rest, (live tab).Perm (ent t ++ rest) ∧ ∀ s, (live (tab.set i s)).Perm (ent s ++ rest) := by
  obtain ⟨l1, l2, he, _, hs⟩ := split_at h
  refine ⟨live (l1 ++ l2), ?_, ?_⟩
  · rw [he]; exact live_split l1 l2 t
  · intro s; rw [hs s]; exact live_split l1 l2 s

theorem live_replicate (z : α) (n : Nat) : live (List.replicate n (⟨0, z⟩ : Slot α)) = [] := by
  simp [live, ent]

theorem mem_live {tab : List (Slot α)} {p : Nat} {a : α} :
    (p, a) ∈ live tab ↔ p ≠ 0 ∧ ∃ i : Nat, tab[i]? = some (⟨p, a⟩ : Slot α) := by
  constructor
  · intro h
    obtain ⟨s, hs, he⟩ := List.mem_flatMap.mp h
    obtain ⟨i, hi⟩ := List.getElem?_of_mem hs
    unfold ent at he
    split at he
    · simp at he
    · rename_i h0
      simp only [List.mem_singleton, Prod.mk.injEq] at he
      refine ⟨by rw [he.1]; exact h0, i, ?_⟩
      rw [hi, he.1, he.2]
  · rintro ⟨h0, i, hi⟩
    refine List.mem_flatMap.mpr ⟨_, List.mem_of_getElem? hi, ?_⟩
    simp [ent, h0]

/-- the table represents the tracees -/
structure R (st : St α) (m : Live α) : Prop where
  perm : (live st.tab).Perm m
  nodup : (m.map Prod.fst).Nodup
  count : st.nprocs = m.length
  pids : ∀ e ∈ m, 0 < e.1 ∧ e.1 < 2 ^ 31

theorem R.len {st : St α} {m : Live α} (h : R st m) : m.length ≤ 2 ^ 31 := by
  have h1 : (m.map Prod.fst).Subperm (List.range (2 ^ 31)) := by
    apply List.subperm_of_subset h.nodup
    intro x hx
    obtain ⟨e, he, rfl⟩ := List.mem_map.mp hx
    exact List.mem_range.mpr (h.pids e he).2
  have := h1.length_le
  simpa using this

theorem unique_of_perm {l : List (Nat × α)} {p : Nat} {a b : α} (hn : (l.map Prod.fst).Nodup)
    (ha : (p, a) ∈ l) (hb : (p, b) ∈ l) : a = b := by
  induction l with
  | nil => simp at ha
  | cons e l ih =>
    simp only [List.map_cons, List.nodup_cons, List.mem_map, not_exists, not_and] at hn
    rcases List.mem_cons.mp ha with ha | ha <;> rcases List.mem_cons.mp hb with hb | hb
    · exact ((Prod.mk.inj (hb.trans ha.symm)).2).symm
    · exact absurd (by rw [← ha]) (hn.1 _ hb)
    · exact absurd (by rw [← hb]) (hn.1 _ ha)
    · exact ih hn.2 ha hb

theorem R.nodup_live {st : St α} {m : Live α} (h : R st m) : ((live st.tab).map Prod.fst).Nodup :=
  ((h.perm.map Prod.fst).nodup_iff).mpr h.nodup

/-- at most one record has a given pid -/
theorem R.one {st : St α} {m : Live α} (h : R st m) {p i j : Nat} {a b : α} (hp : p ≠ 0)
    (hi : st.tab[i]? = some ⟨p, a⟩) (hj : st.tab[j]? = some ⟨p, b⟩) : i = j := by
  have hn := h.nodup_live
  by_cases hij : i = j
  · exact hij
  exfalso
  obtain ⟨rest, hr, hs⟩ := live_set hi
  have hp1 := (hr.map Prod.fst).nodup_iff.mp hn
  have hj' : (st.tab.set i ⟨0, a⟩)[j]? = some ⟨p, b⟩ := by
    rw [List.getElem?_set_ne hij]; exact hj
  have hm : (p, b) ∈ live (st.tab.set i ⟨0, a⟩) := mem_live.mpr ⟨hp, j, hj'⟩
  have hm2 := (hs ⟨0, a⟩).mem_iff.mp hm
  simp only [ent, if_true, List.nil_append] at hm2
  simp only [ent, if_neg hp, List.singleton_append, List.map_cons, List.nodup_cons] at hp1
  exact hp1.1 (List.mem_map.mpr ⟨_, hm2, rfl⟩)

theorem findPid_spec (p : Nat) (l : List (Slot α)) (k : Nat) :
    match findPid p l k with
    | some i => ∃ j a, i = k + j ∧ l[j]? = some ⟨p, a⟩
    | none => ∀ (j : Nat) (a : α), l[j]? ≠ some ⟨p, a⟩ := by
  induction l generalizing k with
  | nil => simp [findPid]
  | cons s l ih =>
    unfold findPid
    split
    · rename_i i h
      split at h
      · rename_i hs
        injection h with h
        exact ⟨0, s.data, by omega, by rw [List.getElem?_cons_zero]; cases s; simp only at hs ⊢; rw [hs]⟩
      · have := ih (k + 1)
        rw [h] at this
        obtain ⟨j, a, h1, h2⟩ := this
        exact ⟨j + 1, a, by omega, by simpa using h2⟩
    · rename_i h
      split at h
      · simp at h
      · rename_i hs
        have := ih (k + 1)
        rw [h] at this
        intro j a hj
        cases j with
        | zero =>
          simp only [List.getElem?_cons_zero, Option.some.injEq] at hj
          exact hs (by rw [hj])
        | succ j => exact this j a (by simpa using hj)

theorem findFree_spec (l : List (Slot α)) (k : Nat) :
    match findFree l k with
    | some i => ∃ j a, i = k + j ∧ l[j]? = some ⟨0, a⟩
    | none => ∀ s ∈ l, s.pid ≠ 0 := by
  induction l generalizing k with
  | nil => simp [findFree]
  | cons s l ih =>
    unfold findFree
    split
    · rename_i i h
      split at h
      · rename_i hs
        injection h with h
        exact ⟨0, s.data, by omega, by rw [List.getElem?_cons_zero]; cases s; simp only at hs ⊢; rw [hs]⟩
      · have := ih (k + 1)
        rw [h] at this
        obtain ⟨j, a, h1, h2⟩ := this
        exact ⟨j + 1, a, by omega, by simpa using h2⟩
    · rename_i h
      split at h
      · simp at h
      · rename_i hs
        have := ih (k + 1)
        rw [h] at this
        intro x hx
        rcases List.mem_cons.mp hx with hx | hx
        · rw [hx]; exact hs
        · exact this x hx

theorem cached_spec (st : St α) (p i : Nat) (h : cached st p = some i) : ∃ a, st.tab[i]? = some ⟨p, a⟩ := by
  unfold cached at h
  split at h
  · simp at h
  · split at h
    · simp at h
    · rename_i s hs
      split at h
      · rename_i hp
        injection h with h
        subst h
        exact ⟨s.data, by rw [hs, ← hp]⟩
      · simp at h

/-- what `pid2tcb` finds, whatever the cache holds -/
theorem pid2tcb_spec (st : St α) (p : Nat) (hp : p ≠ 0) :
    (pid2tcb st p).1.tab = st.tab ∧ (pid2tcb st p).1.nprocs = st.nprocs ∧
    (match (pid2tcb st p).2 with
     | some i => ∃ a, st.tab[i]? = some ⟨p, a⟩
     | none => ∀ (j : Nat) (a : α), st.tab[j]? ≠ some ⟨p, a⟩) := by
  unfold pid2tcb
  rw [if_neg hp]
  split
  · rename_i i h
    exact ⟨rfl, rfl, cached_spec st p i h⟩
  · have := findPid_spec p st.tab 0
    split
    · rename_i h
      rw [h] at this
      exact ⟨rfl, rfl, this⟩
    · rename_i i h
      rw [h] at this
      obtain ⟨j, a, h1, h2⟩ := this
      refine ⟨rfl, rfl, a, ?_⟩
      rw [h1, Nat.zero_add]
      exact h2

theorem R.lookup {st : St α} {m : Live α} (h : R st m) (p : Nat) (hp : p ≠ 0) :
    R (pid2tcb st p).1 m := by
  obtain ⟨h1, h2, _⟩ := pid2tcb_spec st p hp
  exact ⟨by rw [h1]; exact h.perm, h.nodup, by rw [h2]; exact h.count, h.pids⟩

theorem R.mem {st : St α} {m : Live α} (h : R st m) {p i : Nat} {a : α} (hp : p ≠ 0)
    (hi : st.tab[i]? = some ⟨p, a⟩) : (p, a) ∈ m :=
  h.perm.mem_iff.mp (mem_live.mpr ⟨hp, i, hi⟩)

theorem any_iff {m : Live α} {p : Nat} : m.any (fun e => e.1 = p) = true ↔ ∃ a, (p, a) ∈ m := by
  simp only [List.any_eq_true, decide_eq_true_eq]
  constructor
  · rintro ⟨e, he, rfl⟩
    exact ⟨e.2, he⟩
  · rintro ⟨a, ha⟩
    exact ⟨_, ha, rfl⟩

theorem R.notmem {st : St α} {m : Live α} (h : R st m) {p : Nat} 
    (hn : ∀ (j : Nat) (a : α), st.tab[j]? ≠ some ⟨p, a⟩) : ∀ a, (p, a) ∉ m := by
  intro a ha
  obtain ⟨_, i, hi⟩ := mem_live.mp (h.perm.mem_iff.mpr ha)
  exact hn i a hi

theorem length_live_full {l : List (Slot α)} (h : ∀ s ∈ l, s.pid ≠ 0) : (live l).length = l.length := by
  induction l with
  | nil => rfl
  | cons s l ih =>
    have := ih (fun x hx => h x (List.mem_cons_of_mem _ hx))
    simp only [live, List.flatMap_cons, List.length_append, List.length_cons] at *
    rw [this]
    simp [ent, h s (by simp)]
    omega

theorem length_live_le (l : List (Slot α)) : (live l).length ≤ l.length := by
  induction l with
  | nil => simp [live]
  | cons s l ih =>
    simp only [live, List.flatMap_cons, List.length_append, List.length_cons] at *
    have : (ent s).length ≤ 1 := by unfold ent; split <;> simp
    omega

theorem growMemb_bound (b : Bool) (n : Nat) (hb : b = true → n = 0) : 0 < growMemb b n 8 ∧ growMemb b n 8 ≤ n + 16 := by
  unfold growMemb
  cases b with
  | false => simp; omega
  | true => simp [hb rfl]

theorem ensure_spec (z : α) {st : St α} {m : Live α} (h : R st m) :
    ∃ st', ensure z st = some st' ∧ R st' m ∧ st'.cache = st.cache ∧ st'.nprocs < st'.tab.length ∧
      ∃ k, st'.tab = st.tab ++ List.replicate k ⟨0, z⟩ := by
  have hle : st.nprocs ≤ st.tab.length := by
    rw [h.count, ← h.perm.length_eq]; exact length_live_le _
  unfold ensure
  split
  · rename_i hf
    have hlen := h.len
    rw [← h.count, hf] at hlen
    have hb := growMemb_bound st.tab.isEmpty st.tab.length (by simp)
    unfold expand
    rw [grow_succeeds (2 ^ 32) (by omega) st.tab.isEmpty st.tab.length 8 (by omega) (by omega)]
    refine ⟨_, rfl, ⟨?_, h.nodup, h.count, h.pids⟩, rfl, ?_, _, rfl⟩
    · show (live (st.tab ++ List.replicate _ _)).Perm m
      rw [live, List.flatMap_append]
      have := live_replicate z (st.tab.length + growMemb st.tab.isEmpty st.tab.length 8 - st.tab.length)
      rw [live] at this
      rw [this, List.append_nil]
      exact h.perm
    · simp only [List.length_append, List.length_replicate]
      omega
  · exact ⟨st, rfl, h, rfl, by omega, 0, by simp⟩

/-- allocation succeeds, takes a free record, and adds the tracee -/
theorem alloc_spec (z : α) {st : St α} {m : Live α} (h : R st m) (p : Nat) (a : α) (hp : 0 < p ∧ p < 2 ^ 31)
    (hnew : ∀ b, (p, b) ∉ m) :
    ∃ st' i, alloctcb z st p a = some (st', i) ∧ R st' ((p, a) :: m) ∧
      st'.tab[i]? = some ⟨p, a⟩ ∧
      (∀ s, st.tab[i]? = some s → s.pid = 0) ∧
      (∀ j s, j ≠ i → st.tab[j]? = some s → st'.tab[j]? = some s) := by
  obtain ⟨st1, he, hR, _, hlt, k, htab⟩ := ensure_spec z h
  unfold alloctcb
  rw [he]
  dsimp only
  have hf := findFree_spec st1.tab 0
  cases hff : findFree st1.tab 0 with
  | none =>
    rw [hff] at hf
    have h1 := length_live_full hf
    have h2 := hR.perm.length_eq
    have h3 := hR.count
    omega
  | some i =>
    rw [hff] at hf
    obtain ⟨j, b, hj, hb⟩ := hf
    rw [Nat.zero_add] at hj
    subst hj
    have hil : i < st1.tab.length := (List.getElem?_eq_some_iff.mp hb).1
    obtain ⟨rest, hr, hs⟩ := live_set hb
    refine ⟨_, i, rfl, ⟨?_, ?_, ?_, ?_⟩, ?_, ?_, ?_⟩
    · show (live (st1.tab.set i ⟨p, a⟩)).Perm _
      refine (hs ⟨p, a⟩).trans ?_
      simp only [ent, if_true, List.nil_append] at hr
      simp only [ent, if_neg (show p ≠ 0 by omega), List.singleton_append]
      exact (hr.symm.trans hR.perm).cons _
    · simp only [List.map_cons, List.nodup_cons]
      refine ⟨?_, h.nodup⟩
      intro hm
      obtain ⟨e, he, h1⟩ := List.mem_map.mp hm
      exact hnew e.2 (by rw [← h1]; exact he)
    · simp [occupy, hR.count]
    · intro e he
      rcases List.mem_cons.mp he with he | he
      · rw [he]; exact hp
      · exact h.pids e he
    · simp [occupy, hil]
    · intro s hs
      have : st1.tab[i]? = some s := by
        rw [htab, List.getElem?_append_left (List.getElem?_eq_some_iff.mp hs).1]; exact hs
      rw [hb] at this
      injection this with this
      rw [← this]
    · intro j s hji hj
      show (st1.tab.set i ⟨p, a⟩)[j]? = some s
      rw [List.getElem?_set_ne (Ne.symm hji), htab, List.getElem?_append_left (List.getElem?_eq_some_iff.mp hj).1]
      exact hj

theorem filter_perm_of {m rest : Live α} {p : Nat} {a : α} (hn : (m.map Prod.fst).Nodup)
    (h : m.Perm ((p, a) :: rest)) : rest.Perm (m.filter (fun e => e.1 ≠ p)) := by
  have h1 := h.filter (fun e => decide (e.1 ≠ p))
  have hn2 := (h.map Prod.fst).nodup_iff.mp hn
  simp only [List.map_cons, List.nodup_cons] at hn2
  have h2 : List.filter (fun e => decide (e.1 ≠ p)) ((p, a) :: rest) = rest := by
    rw [List.filter_cons]
    simp only [ne_eq, not_true_eq_false, decide_false, Bool.false_eq_true, if_false]
    apply List.filter_eq_self.mpr
    intro e he
    simp only [decide_eq_true_eq]
    intro hc
    exact hn2.1 (List.mem_map.mpr ⟨e, he, hc⟩)
  rw [h2] at h1
  exact h1.symm

theorem drop_spec (z : α) {st : St α} {m : Live α} (h : R st m) {p i : Nat} {a : α} (hp : p ≠ 0)
    (hi : st.tab[i]? = some ⟨p, a⟩) :
    R (droptcb z st i) (m.filter (fun e => e.1 ≠ p)) ∧ (droptcb z st i).tab = st.tab.set i ⟨0, z⟩ := by
  unfold droptcb
  rw [hi]
  dsimp only
  rw [if_neg hp]
  obtain ⟨rest, hr, hs⟩ := live_set hi
  simp only [ent, if_neg hp, List.singleton_append] at hr
  have hm := filter_perm_of h.nodup (h.perm.symm.trans hr)
  refine ⟨⟨?_, ?_, ?_, ?_⟩, rfl⟩
  · have := hs ⟨0, z⟩
    simp only [ent, if_true, List.nil_append] at this
    exact this.trans hm
  · exact h.nodup.sublist (List.filter_sublist.map _)
  · have h1 := hm.length_eq
    have h2 := hr.length_eq
    have h3 := h.perm.length_eq
    have h4 := h.count
    simp only [List.length_cons] at h2
    show st.nprocs - 1 = _
    omega
  · intro e he
    exact h.pids e (List.mem_filter.mp he).1

theorem filter_none {m : Live α} {p : Nat} (h : ∀ a, (p, a) ∉ m) : m.filter (fun e => e.1 ≠ p) = m := by
  apply List.filter_eq_self.mpr
  intro e he
  simp only [ne_eq, decide_eq_true_eq]
  intro hc
  exact h e.2 (by rw [← hc]; exact he)

theorem map_none {m : Live α} {p : Nat} (f : Nat × α → Nat × α) (h : ∀ a, (p, a) ∉ m) :
    m.map (fun e => if e.1 = p then f e else e) = m := by
  conv_rhs => rw [← List.map_id m]
  apply List.map_congr_left
  intro e he
  rw [if_neg]
  · rfl
  · intro hc
    exact h e.2 (by rw [← hc]; exact he)

/-- replacing the one record of `p` -/
theorem replace_spec {st : St α} {m : Live α} (h : R st m) {p i : Nat} {a : α} (hp : p ≠ 0)
    (hi : st.tab[i]? = some ⟨p, a⟩) (q : Nat) (b : α) (hq : 0 < q ∧ q < 2 ^ 31)
    (hfresh : q = p ∨ ∀ c, (q, c) ∉ m) :
    R { st with tab := st.tab.set i ⟨q, b⟩ } (m.map fun e => if e.1 = p then (q, b) else e) := by
  obtain ⟨rest, hr, hs⟩ := live_set hi
  simp only [ent, if_neg hp, List.singleton_append] at hr
  have hmp := h.perm.symm.trans hr
  have hn2 := (hmp.map Prod.fst).nodup_iff.mp h.nodup
  simp only [List.map_cons, List.nodup_cons] at hn2
  have hrest : ∀ c, (p, c) ∉ rest := fun c hc => hn2.1 (List.mem_map.mpr ⟨_, hc, rfl⟩)
  have hm2 : (m.map fun e => if e.1 = p then (q, b) else e).Perm ((q, b) :: rest) := by
    refine (hmp.map _).trans ?_
    simp only [List.map_cons, if_true]
    rw [map_none (fun _ => (q, b)) hrest]
  refine ⟨?_, ?_, ?_, ?_⟩
  · have := hs ⟨q, b⟩
    simp only [ent, if_neg (show q ≠ 0 by omega), List.singleton_append] at this
    exact this.trans hm2.symm
  · refine (hm2.map Prod.fst).nodup_iff.mpr ?_
    simp only [List.map_cons, List.nodup_cons]
    refine ⟨?_, hn2.2⟩
    intro hc
    obtain ⟨e, he, h1⟩ := List.mem_map.mp hc
    rcases hfresh with hf | hf
    · exact hrest e.2 (by rw [← hf, ← h1]; exact he)
    · refine hf e.2 (hmp.mem_iff.mpr ?_)
      rw [← h1]
      exact List.mem_cons_of_mem _ he
  · simp [h.count]
  · intro e he
    rcases List.mem_cons.mp (hm2.mem_iff.mp he) with he | he
    · rw [he]; exact hq
    · exact h.pids e (hmp.mem_iff.mpr (List.mem_cons_of_mem _ he))

theorem map_data {m : Live α} {p : Nat} {a b : α} (hn : (m.map Prod.fst).Nodup) (ha : (p, a) ∈ m) (q : Nat)
    (f : α → α) (hb : f a = b) :
    (m.map fun e => if e.1 = p then (q, b) else e) = m.map fun e => if e.1 = p then (q, f e.2) else e := by
  apply List.map_congr_left
  intro e he
  split
  · rename_i hp
    have : e.2 = a := unique_of_perm hn (by rw [← hp]; exact he) ha
    rw [this, hb]
  · rfl

theorem step_spec (z : α) {st : St α} {m : Live α} (h : R st m) (o : Op α) (ho : o.ok) :
    ∃ st', step z st o = some st' ∧ R st' (Live.step m o) := by
  cases o with
  | seen p a =>
    simp only [Op.ok] at ho
    obtain ⟨h1, h2, h3⟩ := pid2tcb_spec st p (by omega)
    have hR := h.lookup p (by omega)
    simp only [step, Live.step]
    generalize hg : pid2tcb st p = g at *
    obtain ⟨st1, o⟩ := g
    cases o with
    | some i =>
      obtain ⟨b, hb⟩ := h3
      rw [if_pos (any_iff.mpr ⟨b, h.mem (by omega) hb⟩)]
      exact ⟨st1, rfl, hR⟩
    | none =>
      have hnm := h.notmem h3
      rw [if_neg (by rw [any_iff]; rintro ⟨b, hb⟩; exact hnm b hb)]
      obtain ⟨st2, i, ha, hR2, _⟩ := alloc_spec z hR p a ho hnm
      simp only [ha]
      exact ⟨st2, rfl, hR2⟩
  | gone p =>
    simp only [Op.ok] at ho
    obtain ⟨h1, h2, h3⟩ := pid2tcb_spec st p (by omega)
    have hR := h.lookup p (by omega)
    simp only [step, Live.step]
    generalize hg : pid2tcb st p = g at *
    obtain ⟨st1, o⟩ := g
    cases o with
    | some i =>
      obtain ⟨b, hb⟩ := h3
      dsimp only at h1 hR
      rw [← h1] at hb
      exact ⟨_, rfl, (drop_spec z hR (by omega) hb).1⟩
    | none =>
      rw [filter_none (h.notmem h3)]
      exact ⟨st1, rfl, hR⟩
  | update p f =>
    simp only [Op.ok] at ho
    obtain ⟨h1, h2, h3⟩ := pid2tcb_spec st p (by omega)
    have hR := h.lookup p (by omega)
    simp only [step, Live.step]
    generalize hg : pid2tcb st p = g at *
    obtain ⟨st1, o⟩ := g
    cases o with
    | some i =>
      obtain ⟨b, hb⟩ := h3
      dsimp only at h1 hR
      rw [← h1] at hb
      simp only [hb]
      refine ⟨_, rfl, ?_⟩
      have := replace_spec hR (by omega) hb p (f b) ho (Or.inl rfl)
      rw [map_data hR.nodup (hR.mem (by omega) hb) p f rfl] at this
      have he : (m.map fun e => if e.1 = p then (p, f e.2) else e) =
          m.map fun e => if e.1 = p then (e.1, f e.2) else e := by
        apply List.map_congr_left
        intro e _
        split
        · rename_i hp; rw [hp]
        · rfl
      rw [he] at this
      exact this
    | none =>
      rw [map_none (fun e => (e.1, f e.2)) (h.notmem h3)]
      exact ⟨st1, rfl, hR⟩
  | exec p old =>
    simp only [Op.ok] at ho
    obtain ⟨h1, h2, h3⟩ := pid2tcb_spec st p (by omega)
    have hR := h.lookup p (by omega)
    simp only [step, Live.step]
    generalize hg : pid2tcb st p = g at *
    obtain ⟨st1, o⟩ := g
    cases o with
    | none =>
      have hnm := h.notmem h3
      rw [if_neg (by rw [any_iff]; rintro ⟨_, ⟨b, hb⟩, _⟩; exact hnm b hb)]
      exact ⟨st1, rfl, hR⟩
    | some i =>
      obtain ⟨b, hb⟩ := h3
      dsimp only at h1 hR
      rw [← h1] at hb
      dsimp only
      refine ⟨_, rfl, ?_⟩
      unfold switchTcbs
      by_cases hop : old = p
      · rw [if_pos (by omega), if_neg (by simp [hop])]
        exact hR
      · rw [if_neg (by omega)]
        obtain ⟨k1, k2, k3⟩ := pid2tcb_spec st1 old (by omega)
        have hR2 := hR.lookup old (by omega)
        generalize hg2 : pid2tcb st1 old = g2 at *
        obtain ⟨st2, o2⟩ := g2
        cases o2 with
        | none =>
          have hnm := hR.notmem k3
          rw [if_neg (by rw [any_iff, any_iff]; rintro ⟨_, _, ⟨c, hc⟩⟩; exact hnm c hc)]
          exact hR2
        | some t =>
          obtain ⟨c, hc⟩ := k3
          dsimp only at k1 hR2
          have hb2 := hb
          rw [← k1] at hb2 hc
          rw [if_pos ⟨hop, any_iff.mpr ⟨b, hR.mem (by omega) hb⟩,
            any_iff.mpr ⟨c, hR2.mem (by omega) hc⟩⟩]
          dsimp only
          obtain ⟨hd, htab⟩ := drop_spec z hR2 (by omega) hb2
          have hit : i ≠ t := by
            intro hit
            rw [hit, hc] at hb2
            injection hb2 with hb2
            injection hb2 with hb2
            omega
          have hc' : (droptcb z st2 i).tab[t]? = some ⟨old, c⟩ := by
            rw [htab, List.getElem?_set_ne hit]; exact hc
          unfold rename
          simp only [hc']
          have := replace_spec hd (by omega) hc' p c (by omega) (Or.inr (by
            intro x hx
            have := (List.mem_filter.mp hx).2
            simp at this))
          rw [map_data hd.nodup (hd.mem (by omega) hc') p (fun x => x) rfl] at this
          exact this

theorem steps_spec (z : α) (os : List (Op α)) (hos : ∀ o ∈ os, o.ok) {st : St α} {m : Live α} (h : R st m) :
    ∃ st', steps z st os = some st' ∧ R st' (Live.steps m os) := by
  induction os generalizing st m with
  | nil => exact ⟨st, rfl, h⟩
  | cons o os ih =>
    obtain ⟨st1, h1, hR⟩ := step_spec z h o (hos o (by simp))
    obtain ⟨st2, h2, hR2⟩ := ih (fun o ho => hos o (List.mem_cons_of_mem _ ho)) hR
    exact ⟨st2, by simp only [steps, h1, h2], hR2⟩

theorem R.init : R (Tcb.init : St α) [] :=
  ⟨by simp [Tcb.init, live], by simp, rfl, by simp⟩

theorem get_of_mem {m : Live α} {p : Nat} {a : α} (hn : (m.map Prod.fst).Nodup) (h : (p, a) ∈ m) :
    m.get p = some a := by
  unfold Live.get
  cases hf : m.find? (fun e => decide (e.1 = p)) with
  | none =>
    have := List.find?_eq_none.mp hf _ h
    simp at this
  | some e =>
    have h1 := List.find?_some hf
    simp only [decide_eq_true_eq] at h1
    have h2 := List.mem_of_find?_eq_some hf
    have : e.2 = a := unique_of_perm hn (by rw [← h1]; exact h2) h
    simp [this]

theorem get_none {m : Live α} {p : Nat} (h : ∀ a, (p, a) ∉ m) : m.get p = none := by
  unfold Live.get
  cases hf : m.find? (fun e => decide (e.1 = p)) with
  | none => rfl
  | some e =>
    have h1 := List.find?_some hf
    simp only [decide_eq_true_eq] at h1
    exact absurd (by rw [← h1]; exact List.mem_of_find?_eq_some hf) (h e.2)

/-- **C22.**  After every history of tracees appearing, being changed, ending and executing from a thread,
strace has not aborted, and looking a pid up finds the record of that very tracee - or none if it is not
traced - whatever stale pointers the lookup cache holds. -/
theorem lookup_exact (z : α) (os : List (Op α)) (hos : ∀ o ∈ os, o.ok) (p : Nat) (hp : 0 < p) :
    ∃ st, steps z Tcb.init os = some st ∧
      (match (pid2tcb st p).2 with
       | some i => ∃ a, st.tab[i]? = some ⟨p, a⟩ ∧ (Live.steps [] os).get p = some a
       | none => (Live.steps [] os).get p = none) := by
  obtain ⟨st, h1, hR⟩ := steps_spec z os hos R.init
  refine ⟨st, h1, ?_⟩
  obtain ⟨_, _, h3⟩ := pid2tcb_spec st p (by omega)
  cases ho : (pid2tcb st p).2 with
  | some i =>
    rw [ho] at h3
    obtain ⟨a, ha⟩ := h3
    exact ⟨a, ha, get_of_mem hR.nodup (hR.mem (by omega) ha)⟩
  | none =>
    rw [ho] at h3
    exact get_none (hR.notmem h3)

/-- **C22.**  No two records ever belong to the same pid. -/
theorem one_record (z : α) (os : List (Op α)) (hos : ∀ o ∈ os, o.ok) (st : St α)
    (h : steps z Tcb.init os = some st) (p i j : Nat) (a b : α) (hp : p ≠ 0)
    (hi : st.tab[i]? = some ⟨p, a⟩) (hj : st.tab[j]? = some ⟨p, b⟩) : i = j := by
  obtain ⟨st', h1, hR⟩ := steps_spec z os hos R.init
  rw [h] at h1
  injection h1 with h1
  subst h1
  exact hR.one hp hi hj

/-- **C23.**  The number of traced processes strace believes in is the number of tracees. -/
theorem nprocs_exact (z : α) (os : List (Op α)) (hos : ∀ o ∈ os, o.ok) :
    ∃ st, steps z Tcb.init os = some st ∧ st.nprocs = (Live.steps [] os).length ∧
      st.nprocs = (st.tab.filter (fun s => s.pid ≠ 0)).length ∧ st.nprocs ≤ st.tab.length := by
  obtain ⟨st, h1, hR⟩ := steps_spec z os hos R.init
  have hl : ∀ l : List (Slot α), (live l).length = (l.filter (fun s => s.pid ≠ 0)).length := by
    intro l
    induction l with
    | nil => rfl
    | cons s l ih =>
      simp only [live, List.flatMap_cons, List.length_append, List.filter_cons] at *
      rw [ih]
      by_cases hs : s.pid = 0 <;> simp [ent, hs]
      omega
  refine ⟨st, h1, hR.count, ?_, ?_⟩
  · rw [hR.count, ← hR.perm.length_eq, hl]
  · rw [hR.count, ← hR.perm.length_eq]; exact length_live_le _

/-- **C22.**  A new tracee takes a free record, never that of another tracee, and disturbs none. -/
theorem alloc_fresh (z : α) (os : List (Op α)) (hos : ∀ o ∈ os, o.ok) (st : St α)
    (h : steps z Tcb.init os = some st) (p : Nat) (a : α) (hp : 0 < p ∧ p < 2 ^ 31)
    (hnew : (pid2tcb st p).2 = none) :
    ∃ st' i, alloctcb z st p a = some (st', i) ∧ st'.tab[i]? = some ⟨p, a⟩ ∧
      (∀ s, st.tab[i]? = some s → s.pid = 0) ∧
      (∀ j s, j ≠ i → st.tab[j]? = some s → st'.tab[j]? = some s) := by
  obtain ⟨st', h1, hR⟩ := steps_spec z os hos R.init
  rw [h] at h1
  injection h1 with h1
  subst h1
  obtain ⟨_, _, h3⟩ := pid2tcb_spec st p (by omega)
  rw [hnew] at h3
  obtain ⟨st', i, h4, _, h5, h6, h7⟩ := alloc_spec z hR p a hp (hR.notmem h3)
  exact ⟨st', i, h4, h5, h6, h7⟩

theorem set_keep {tab : List (Slot α)} {i j p : Nat} {a : α} (s : Slot α) (hij : i ≠ j)
    (h : tab[i]? = some ⟨p, a⟩) : (tab.set j s)[i]? = some ⟨p, a⟩ := by
  rw [List.getElem?_set_ne (Ne.symm hij)]; exact h

/-- an operation ends or renames the tracee `p` -/
def Op.touches (p : Nat) : Op α → Prop
  | .seen _ _ => False
  | .gone q => q = p
  | .exec q old => q ≠ old ∧ (q = p ∨ old = p)
  | .update _ _ => False

/-- **C22.**  A pointer to a tracee's record stays good through everything that happens to others: table
growth, new tracees, other tracees' ends and execs. -/
theorem pointer_stable (z : α) (os : List (Op α)) (hos : ∀ o ∈ os, o.ok) (st st' : St α)
    (h : steps z Tcb.init os = some st) (o : Op α) (ho : o.ok) (hs : step z st o = some st') (p i : Nat) (a : α)
    (hp : p ≠ 0) (hi : st.tab[i]? = some ⟨p, a⟩) (ht : ¬ o.touches p) :
    ∃ b, st'.tab[i]? = some ⟨p, b⟩ := by
  obtain ⟨st0, h1, hR0⟩ := steps_spec z os hos R.init
  rw [h] at h1
  injection h1 with h1
  subst h1
  generalize Live.steps [] os = m at hR0
  cases o with
  | seen q b =>
    simp only [Op.ok] at ho
    obtain ⟨h1, h2, h3⟩ := pid2tcb_spec st q (by omega)
    have hR := hR0.lookup q (by omega)
    simp only [step] at hs
    generalize hg : pid2tcb st q = g at *
    obtain ⟨st1, o⟩ := g
    dsimp only at h1
    cases o with
    | some j =>
      simp only [Option.some.injEq] at hs
      subst hs
      exact ⟨a, by rw [h1]; exact hi⟩
    | none =>
      obtain ⟨st2, j, ha, hR2, _, hfree, hkeep⟩ := alloc_spec z hR q b ho (hR0.notmem h3)
      simp only [ha, Option.some.injEq] at hs
      subst hs
      rw [← h1] at hi
      refine ⟨a, hkeep i _ ?_ hi⟩
      intro hij
      rw [hij] at hi
      exact hp (hfree _ hi)
  | gone q =>
    simp only [Op.ok] at ho
    simp only [Op.touches] at ht
    obtain ⟨h1, h2, h3⟩ := pid2tcb_spec st q (by omega)
    have hR := hR0.lookup q (by omega)
    simp only [step] at hs
    generalize hg : pid2tcb st q = g at *
    obtain ⟨st1, o⟩ := g
    dsimp only at h1
    cases o with
    | some j =>
      simp only [Option.some.injEq] at hs
      subst hs
      obtain ⟨b, hb⟩ := h3
      rw [← h1] at hb hi
      rw [(drop_spec z hR (by omega) hb).2]
      refine ⟨a, set_keep _ ?_ hi⟩
      intro hij
      rw [hij, hb] at hi
      injection hi with hi
      injection hi with hi
      exact ht hi
    | none =>
      simp only [Option.some.injEq] at hs
      subst hs
      exact ⟨a, by rw [h1]; exact hi⟩
  | update q f =>
    simp only [Op.ok] at ho
    obtain ⟨h1, h2, h3⟩ := pid2tcb_spec st q (by omega)
    simp only [step] at hs
    generalize hg : pid2tcb st q = g at *
    obtain ⟨st1, o⟩ := g
    dsimp only at h1
    cases o with
    | some j =>
      obtain ⟨b, hb⟩ := h3
      rw [← h1] at hb hi
      simp only [hb, Option.some.injEq] at hs
      subst hs
      by_cases hij : i = j
      · subst hij
        rw [hb] at hi
        injection hi with hi
        injection hi with hi
        refine ⟨f b, ?_⟩
        simp [(List.getElem?_eq_some_iff.mp hb).1, hi]
      · exact ⟨a, set_keep _ hij hi⟩
    | none =>
      simp only [Option.some.injEq] at hs
      subst hs
      exact ⟨a, by rw [h1]; exact hi⟩
  | exec q old =>
    simp only [Op.ok] at ho
    simp only [Op.touches] at ht
    obtain ⟨h1, h2, h3⟩ := pid2tcb_spec st q (by omega)
    have hR := hR0.lookup q (by omega)
    simp only [step] at hs
    generalize hg : pid2tcb st q = g at *
    obtain ⟨st1, o⟩ := g
    dsimp only at h1
    rw [← h1] at hi
    cases o with
    | none =>
      simp only [Option.some.injEq] at hs
      subst hs
      exact ⟨a, hi⟩
    | some j =>
      obtain ⟨b, hb⟩ := h3
      rw [← h1] at hb
      simp only [Option.some.injEq] at hs
      subst hs
      unfold switchTcbs
      split
      · exact ⟨a, hi⟩
      · rename_i hc
        obtain ⟨k1, k2, k3⟩ := pid2tcb_spec st1 old (by omega)
        have hR2 := hR.lookup old (by omega)
        generalize hg2 : pid2tcb st1 old = g2 at *
        obtain ⟨st2, o2⟩ := g2
        dsimp only at k1
        rw [← k1] at hi hb
        cases o2 with
        | none => exact ⟨a, hi⟩
        | some t =>
          obtain ⟨c, hc'⟩ := k3
          rw [← k1] at hc'
          have hij : i ≠ j := by
            intro hij
            rw [hij, hb] at hi
            injection hi with hi
            injection hi with hi
            exact ht ⟨by omega, Or.inl hi⟩
          have hit : i ≠ t := by
            intro hij
            rw [hij, hc'] at hi
            injection hi with hi
            injection hi with hi
            exact ht ⟨by omega, Or.inr hi⟩
          dsimp only at hR2 ⊢
          unfold rename
          rw [(drop_spec z hR2 (by omega) hb).2]
          split
          · rw [(drop_spec z hR2 (by omega) hb).2]
            exact ⟨a, set_keep _ hij hi⟩
          · exact ⟨a, set_keep _ hit (set_keep _ hij hi)⟩

/-- **C29.**  When thread `old` of process `pid` execs, the thread's own record - in place, with its data -
becomes the record of `pid`, the leader's record is freed, nothing is known under `old` any more, and every
other record is untouched. -/
theorem exec_switch (z : α) (os : List (Op α)) (hos : ∀ o ∈ os, o.ok) (st st' : St α)
    (h : steps z Tcb.init os = some st) (p old i t : Nat) (b c : α) (hp : 0 < p ∧ p < 2 ^ 31)
    (ho : 0 < old ∧ old < 2 ^ 31) (hne : old ≠ p) (hi : st.tab[i]? = some ⟨p, b⟩)
    (ht : st.tab[t]? = some ⟨old, c⟩) (hs : step z st (.exec p old) = some st') :
    st'.tab[t]? = some ⟨p, c⟩ ∧ st'.tab[i]? = some ⟨0, z⟩ ∧
      (∀ j : Nat, j ≠ i → j ≠ t → st'.tab[j]? = st.tab[j]?) ∧
      (pid2tcb st' p).2 = some t ∧ (pid2tcb st' old).2 = none ∧ st'.nprocs + 1 = st.nprocs := by
  obtain ⟨st0, h1, hR0⟩ := steps_spec z os hos R.init
  rw [h] at h1
  injection h1 with h1
  subst h1
  generalize Live.steps [] os = m at hR0
  have hit : i ≠ t := by
    intro hit
    rw [hit, ht] at hi
    injection hi with hi
    injection hi with hi
    omega
  obtain ⟨st2, hs2, hR'⟩ := step_spec z hR0 (.exec p old) ⟨hp.1, hp.2, ho.1, ho.2⟩
  rw [hs] at hs2
  injection hs2 with hs2
  subst hs2
  -- the table
  have htab : st'.tab = (st.tab.set i ⟨0, z⟩).set t ⟨p, c⟩ ∧ st'.nprocs + 1 = st.nprocs := by
    obtain ⟨e1, e2, e3⟩ := pid2tcb_spec st p (by omega)
    have hR := hR0.lookup p (by omega)
    simp only [step] at hs
    generalize hg : pid2tcb st p = g at *
    obtain ⟨st1, o⟩ := g
    dsimp only at e1 e2 hR
    cases o with
    | none => exact absurd hi (e3 i b)
    | some i' =>
      obtain ⟨b', hb⟩ := e3
      have hii : i' = i := hR0.one (by omega) hb hi
      subst hii
      simp only [Option.some.injEq] at hs
      subst hs
      unfold switchTcbs
      rw [if_neg (by omega)]
      obtain ⟨k1, k2, k3⟩ := pid2tcb_spec st1 old (by omega)
      have hR2 := hR.lookup old (by omega)
      generalize hg2 : pid2tcb st1 old = g2 at *
      obtain ⟨st2, o2⟩ := g2
      dsimp only at k1 k2 hR2
      cases o2 with
      | none => exact absurd (by rw [e1]; exact ht) (k3 t c)
      | some t' =>
        obtain ⟨c', hc'⟩ := k3
        rw [e1] at hc'
        have htt : t' = t := hR0.one (by omega) hc' ht
        subst htt
        have hb2 : st2.tab[i']? = some ⟨p, b⟩ := by rw [k1, e1]; exact hi
        obtain ⟨hd, hdt⟩ := drop_spec z hR2 (by omega) hb2
        have hc2 : (droptcb z st2 i').tab[t']? = some ⟨old, c⟩ := by
          rw [hdt, List.getElem?_set_ne hit, k1, e1]; exact ht
        dsimp only
        unfold rename
        simp only [hc2]
        refine ⟨by rw [hdt, k1, e1], ?_⟩
        have h1 := hd.count
        have h2 := hR2.count
        have hmem := hR2.mem (by omega) hb2
        simp only [droptcb, hb2]
        rw [if_neg (by omega)]
        dsimp only
        have : 0 < m.length := List.length_pos_iff.mpr (List.ne_nil_of_mem hmem)
        omega
  have hil : i < st.tab.length := (List.getElem?_eq_some_iff.mp hi).1
  have htl : t < st.tab.length := (List.getElem?_eq_some_iff.mp ht).1
  have h1 : st'.tab[t]? = some ⟨p, c⟩ := by rw [htab.1]; simp [htl]
  have h2 : st'.tab[i]? = some ⟨0, z⟩ := by
    rw [htab.1, List.getElem?_set_ne (Ne.symm hit)]; simp [hil]
  have h3 : ∀ j : Nat, j ≠ i → j ≠ t → st'.tab[j]? = st.tab[j]? := by
    intro j hji hjt
    rw [htab.1, List.getElem?_set_ne (Ne.symm hjt), List.getElem?_set_ne (Ne.symm hji)]
  refine ⟨h1, h2, h3, ?_, ?_, htab.2⟩
  · obtain ⟨_, _, e3⟩ := pid2tcb_spec st' p (by omega)
    cases hq : (pid2tcb st' p).2 with
    | none => rw [hq] at e3; exact absurd h1 (e3 t c)
    | some t' =>
      rw [hq] at e3
      obtain ⟨a, ha⟩ := e3
      rw [hR'.one (by omega) ha h1]
  · obtain ⟨_, _, e3⟩ := pid2tcb_spec st' old (by omega)
    cases hq : (pid2tcb st' old).2 with
    | none => rfl
    | some j =>
      rw [hq] at e3
      obtain ⟨a, ha⟩ := e3
      by_cases hji : j = i
      · rw [hji, h2] at ha
        injection ha with ha
        injection ha with ha
        omega
      · by_cases hjt : j = t
        · rw [hjt, h1] at ha
          injection ha with ha
          injection ha with ha
          omega
        · rw [h3 j hji hjt] at ha
          exact absurd (hR0.one (by omega) ha ht) hjt

/-- the hypotheses are met, and the cache is stale on the way: pid 1030 and pid 6 share a cache entry, the
record of pid 6 is reused, a thread executes -/
example : ((steps 0 Tcb.init [.seen 6 10, .seen 1030 20, .gone 6, .seen 7 30, .exec 1030 7,
    .update 1030 (· + 1)]).map fun st => ([(pid2tcb st 6).2, (pid2tcb st 1030).2, (pid2tcb st 7).2],
      (st.tab.map fun s => [s.pid, s.data]).take 2)) =
    some ([none, some 0, none], [[1030, 31], [0, 0]]) := by decide +kernel

end Strace.Tcb
