import Verif.Walk.NlProps
/-!
# C35: directory entries
-/
namespace Strace.Walk

/-! ### Specification -/

/-- the first byte after an entry -/
def Dent.after (hsize : Nat) (d : Dent) : Nat := d.addr + hsize + d.tailLen

/-- entries follow each other without gaps, from `a` to `e` -/
def Chained (hsize : Nat) : Nat → List Dent → Nat → Prop
  | a, [], e => a = e
  | a, d :: ds, e => d.addr = a ∧ d.tail = (a + hsize) % 2 ^ 64 ∧ Chained hsize (d.after hsize) ds e

/-! ### The walk -/

theorem dentStep_none {hsize addr len reclen r l : Nat} {odd : Odd} (hlen : hsize ≤ len)
    (h : dentStep hsize addr len reclen = (r, odd, l, none)) : hsize ≤ r ∧ r + l = len := by
  unfold dentStep at h
  split at h
  · injection h with h1 h; injection h with _ h; injection h with h2 _; omega
  · split at h
    · injection h with h1 h; injection h with _ h; injection h with h2 _; omega
    · split at h
      · injection h with h1 h; injection h with _ h; injection h with h2 _; omega
      · split at h
        · injection h with h1 h; injection h with _ h; injection h with _ h; simp at h
        · injection h with h1 h; injection h with _ h; injection h with h2 _; omega

theorem dentStep_some {hsize addr len reclen r l a : Nat} {odd : Odd} (hlen : hsize ≤ len) (ha : addr < 2 ^ 64)
    (hr : reclen < 2 ^ 64) (h : dentStep hsize addr len reclen = (r, odd, l, some a)) :
    r = reclen ∧ hsize ≤ r ∧ r + l = len ∧ a = addr + r ∧ a < 2 ^ 64 ∧ 0 < l ∧ odd = .none := by
  unfold dentStep at h
  split at h
  · injection h with h1 h; injection h with _ h; injection h with _ h; simp at h
  · split at h
    · injection h with h1 h; injection h with _ h; injection h with _ h; simp at h
    · split at h
      · injection h with h1 h; injection h with _ h; injection h with _ h; simp at h
      · split at h
        · rename_i hgt
          injection h with h1 h
          injection h with ho h
          injection h with h2 h3
          have h3 := Option.some.inj h3
          unfold add64 at hgt h3
          have hlt : addr + reclen < 2 ^ 64 := by
            rcases Nat.lt_or_ge (addr + reclen) (2 ^ 64) with h | h
            · exact h
            · have : (addr + reclen) % 2 ^ 64 = addr + reclen - 2 ^ 64 := by
                rw [Nat.mod_eq_sub_mod h, Nat.mod_eq_of_lt (by omega)]
              omega
          rw [Nat.mod_eq_of_lt hlt] at h3
          exact ⟨h1.symm, by omega, by omega, by omega, by omega, by omega, ho.symm⟩
        · injection h with h1 h; injection h with _ h; injection h with _ h; simp at h

theorem dent_walk_from (hsize : Nat) (brief : Bool) (get : Nat → Option Nat) (tailOk : Nat → Nat → Bool) (hh : 0 < hsize)
    (hget : ∀ a n, get a = some n → n < 2 ^ 16) : ∀ fuel addr len, addr < 2 ^ 64 → len < fuel →
    ∃ ds e, dentLoop hsize brief get tailOk fuel addr len = some (ds, e) ∧ e.left ≤ len ∧
      Chained hsize addr ds (addr + len - e.left) ∧
      (∀ d ∈ ds.dropLast, d.odd = .none ∧ get d.addr = some (hsize + d.tailLen)) := by
  intro fuel
  induction fuel with
  | zero => intro _ len _ h; exact absurd h (by omega)
  | succ fuel ih =>
    intro addr len ha hl
    unfold dentLoop
    by_cases h1 : len < hsize
    · rw [if_pos h1]
      by_cases h0 : len = 0
      · rw [if_pos h0]
        exact ⟨_, _, rfl, by simp [DEnd.left], by simp [Chained, DEnd.left, h0], by simp⟩
      · rw [if_neg h0]
        exact ⟨_, _, rfl, by simp [DEnd.left], by simp [Chained, DEnd.left], by simp⟩
    rw [if_neg h1]
    cases hg : get addr with
    | none => exact ⟨_, _, rfl, by simp [DEnd.left], by simp [Chained, DEnd.left], by simp⟩
    | some reclen =>
      dsimp only
      rcases hs : dentStep hsize addr len reclen with ⟨r, odd, l, n⟩
      cases n with
      | none =>
        dsimp only
        obtain ⟨c1, c2⟩ := dentStep_none (by omega) hs
        refine ⟨_, _, rfl, ?_, ?_, by simp⟩
        · split
          · simp [DEnd.left]
          · simp only [DEnd.left]; omega
        · refine ⟨rfl, rfl, ?_⟩
          show addr + hsize + (r - hsize) = _
          split
          · simp only [DEnd.left]; omega
          · simp only [DEnd.left]; omega
      | some a =>
        dsimp only
        obtain ⟨c0, c1, c2, c3, c4, c5, c6⟩ := dentStep_some (by omega) ha
          (by have := hget _ _ hg; omega) hs
        by_cases ht : brief = false ∧ tailOk (add64 addr hsize) (r - hsize) = false
        · rw [if_pos ht]
          refine ⟨_, _, rfl, by simp only [DEnd.left]; omega, ⟨rfl, rfl, ?_⟩, by simp⟩
          show addr + hsize + (r - hsize) = _
          simp only [DEnd.left]
          omega
        · rw [if_neg ht]
          obtain ⟨ds, e, h, hle, hch, hd⟩ := ih a l c4 (by omega)
          rw [h]
          refine ⟨_, _, rfl, by dsimp only; omega, ⟨rfl, rfl, ?_⟩, ?_⟩
          · have e1 : Dent.after hsize ⟨addr, add64 addr hsize, r - hsize, odd⟩ = a := by
              show addr + hsize + (r - hsize) = a
              omega
            rw [e1]
            have e2 : addr + len - e.left = a + l - e.left := by omega
            dsimp only
            rw [e2]
            exact hch
          · intro d hm
            dsimp only at hm
            cases hds : ds with
            | nil => rw [hds] at hm; simp at hm
            | cons x xs =>
              rw [List.dropLast_cons_of_ne_nil (by rw [hds]; simp)] at hm
              rcases List.mem_cons.mp hm with hm | hm
              · subst hm
                refine ⟨c6, ?_⟩
                show get addr = some (hsize + (r - hsize))
                rw [hg]
                congr 1
                omega
              · exact hd d hm

theorem dentLoop_more (hsize : Nat) (brief : Bool) (get : Nat → Option Nat) (tailOk : Nat → Nat → Bool) :
    ∀ fuel addr len r, dentLoop hsize brief get tailOk fuel addr len = some r →
      dentLoop hsize brief get tailOk (fuel + 1) addr len = some r := by
  intro fuel
  induction fuel with
  | zero => intro _ _ _ h; simp [dentLoop] at h
  | succ fuel ih =>
    intro addr len r h
    unfold dentLoop at h ⊢
    by_cases h1 : len < hsize
    · rw [if_pos h1] at h ⊢; exact h
    rw [if_neg h1] at h ⊢
    cases hg : get addr with
    | none => rw [hg] at h; exact h
    | some reclen =>
      rw [hg] at h
      dsimp only at h ⊢
      rcases hs : dentStep hsize addr len reclen with ⟨k, odd, l, n⟩
      rw [hs] at h
      cases n with
      | none => exact h
      | some a =>
        dsimp only at h ⊢
        by_cases ht : brief = false ∧ tailOk (add64 addr hsize) (k - hsize) = false
        · rw [if_pos ht] at h ⊢; exact h
        rw [if_neg ht] at h ⊢
        cases hr : dentLoop hsize brief get tailOk fuel a l with
        | none => rw [hr] at h; simp at h
        | some t =>
          rw [hr] at h
          rw [ih _ _ _ hr]
          exact h

theorem dentLoop_any (hsize : Nat) (brief : Bool) (get : Nat → Option Nat) (tailOk : Nat → Nat → Bool)
    (fuel fuel' addr len : Nat) (r : List Dent × DEnd) (h : dentLoop hsize brief get tailOk fuel addr len = some r)
    (hle : fuel ≤ fuel') : dentLoop hsize brief get tailOk fuel' addr len = some r := by
  obtain ⟨d, rfl⟩ := Nat.exists_eq_add_of_le hle
  clear hle
  induction d with
  | zero => exact h
  | succ d ih => exact dentLoop_more _ _ _ _ _ _ _ _ ih

/-- C35: decoding directory entries ends, whatever is in the buffer; the entries lie inside of it and follow each other
without gaps from its beginning; each but the last has the length it says it has; the bytes after them are those that are
counted as left over -/
theorem dents_walk (hsize : Nat) (brief : Bool) (get : Nat → Option Nat) (tailOk : Nat → Nat → Bool) (hh : 0 < hsize)
    (hget : ∀ a n, get a = some n → n < 2 ^ 16) (addr len : Nat) (ha : addr < 2 ^ 64) :
    ∃ ds e, (∀ fuel, len < fuel → dentLoop hsize brief get tailOk fuel addr len = some (ds, e)) ∧ e.left ≤ len ∧
      Chained hsize addr ds (addr + len - e.left) ∧
      ∀ d ∈ ds.dropLast, d.odd = .none ∧ get d.addr = some (hsize + d.tailLen) := by
  obtain ⟨ds, e, h, h2⟩ := dent_walk_from hsize brief get tailOk hh hget (len + 1) addr len ha (by omega)
  exact ⟨ds, e, fun fuel hf => dentLoop_any _ _ _ _ _ fuel _ _ _ h hf, h2⟩

/-- C35: the summary is the number of entries, and has a `+` iff they do not reach the end of the buffer -/
theorem dents_summary (hsize : Nat) (get : Nat → Option Nat) (tailOk : Nat → Nat → Bool) (hh : 0 < hsize)
    (hget : ∀ a n, get a = some n → n < 2 ^ 16) (addr len : Nat) (ha : addr < 2 ^ 64) :
    ∃ r, dentLoop hsize true get tailOk (len + 1) addr len = some r ∧
      ∃ stop, Chained hsize addr r.1 stop ∧ stop ≤ addr + len ∧
        dentSummary r = (r.1.length, decide (stop ≠ addr + len)) := by
  obtain ⟨ds, e, h, h2, h3, _⟩ := dents_walk hsize true get tailOk hh hget addr len ha
  refine ⟨(ds, e), h _ (by omega), _, h3, by omega, ?_⟩
  unfold dentSummary
  dsimp only
  congr 1
  by_cases hc : e.left = 0
  · rw [decide_eq_false (by omega), decide_eq_false (by omega)]
  · rw [decide_eq_true (by omega), decide_eq_true (by omega)]

theorem chained_inside (hsize : Nat) : ∀ (ds : List Dent) (a e : Nat), Chained hsize a ds e →
    a ≤ e ∧ ∀ d ∈ ds, a ≤ d.addr ∧ d.addr + hsize + d.tailLen ≤ e := by
  intro ds
  induction ds with
  | nil => intro a e h; exact ⟨by rw [show a = e from h]; exact Nat.le_refl _, by simp⟩
  | cons d ds ih =>
    intro a e h
    obtain ⟨h1, _, h3⟩ := h
    obtain ⟨i1, i2⟩ := ih _ _ h3
    have ha : d.after hsize = d.addr + hsize + d.tailLen := rfl
    refine ⟨by omega, ?_⟩
    intro x hx
    rcases List.mem_cons.mp hx with hx | hx
    · subst hx
      exact ⟨by omega, by omega⟩
    · have := i2 x hx
      exact ⟨by omega, this.2⟩

/-! ### Well-formed buffers are shown in full -/

/-- entries of the given lengths, one after the other -/
def DLayout (get : Nat → Option Nat) : Nat → List Nat → Prop
  | _, [] => True
  | a, n :: ns => get a = some n ∧ DLayout get (a + n) ns

def dents (hsize : Nat) : Nat → List Nat → List Dent
  | _, [] => []
  | a, n :: ns => ⟨a, a + hsize, n - hsize, .none⟩ :: dents hsize (a + n) ns

/-- C35: a buffer of whole entries is shown as exactly these -/
theorem dents_all (hsize : Nat) (brief : Bool) (get : Nat → Option Nat) (tailOk : Nat → Nat → Bool) (hh : 0 < hsize)
    (htail : ∀ a n, tailOk a n = true) : ∀ (ns : List Nat) (a : Nat), (∀ n ∈ ns, hsize ≤ n) → DLayout get a ns →
      a + ns.sum < 2 ^ 64 →
      dentLoop hsize brief get tailOk (ns.sum + 1) a ns.sum = some (dents hsize a ns, .all) := by
  intro ns
  induction ns with
  | nil =>
    intro a _ _ _
    unfold dentLoop
    rw [if_pos (by simpa using hh)]
    rfl
  | cons n ns ih =>
    intro a hall hlay hb
    have hn := hall n List.mem_cons_self
    obtain ⟨hg, hlay'⟩ := hlay
    rw [List.sum_cons] at hb ⊢
    have hadd : add64 a hsize = a + hsize := by unfold add64; exact Nat.mod_eq_of_lt (by omega)
    have hadd2 : add64 a n = a + n := by unfold add64; exact Nat.mod_eq_of_lt (by omega)
    unfold dentLoop
    rw [if_neg (by omega), hg]
    dsimp only
    cases hns : ns with
    | nil =>
      have hs : dentStep hsize a (n + ([] : List Nat).sum) n = (n, .none, 0, none) := by
        unfold dentStep
        rw [if_neg (by simp), if_neg (by omega), if_pos (by simp)]
      rw [hs]
      dsimp only
      rw [hadd]
      rfl
    | cons k ns' =>
      have hk := hall k (by rw [hns]; simp)
      have hsum : ns.sum ≥ k := by rw [hns, List.sum_cons]; omega
      have hs : dentStep hsize a (n + ns.sum) n = (n, .none, ns.sum, some (a + n)) := by
        unfold dentStep
        rw [if_neg (by omega), if_neg (by omega), if_neg (by omega), hadd2, if_pos (by omega)]
        congr 3
        omega
      rw [← hns, hs]
      dsimp only
      rw [if_neg (by rw [htail]; simp)]
      have ih' := ih (a + n) (fun x hx => hall x (List.mem_cons_of_mem _ hx)) hlay' (by omega)
      rw [dentLoop_any _ _ _ _ _ (n + ns.sum) _ _ _ ih' (by omega), hadd]
      rfl

/-- two entries of 24 and 32 bytes, and 5 bytes more -/
example :
    dentLoop 19 true (fun a => if a = 1000 then some 24 else some 32) (fun _ _ => true) 62 1000 61 =
      some ([⟨1000, 1019, 5, .none⟩, ⟨1024, 1043, 13, .none⟩], .raw 1056 5) ∧
    dentSummary ([⟨1000, 1019, 5, .none⟩, ⟨1024, 1043, 13, .none⟩], .raw 1056 5) = (2, true) ∧
    dentLoop 19 false (fun _ => some 18) (fun _ _ => true) 62 1000 61 =
      some ([⟨1000, 1019, 0, .underflow 1⟩], .stuck 42) := by decide +kernel

end Strace.Walk
