import Verif.Table.Values
/-!
# C125: the summary can be read
-/
namespace Strace.Table
open Strace.Base Strace.Time Strace.Count

/-! ### Reading lines -/

/-- not empty of meaning: no blank at either end -/
def Bare (s : List Nat) : Prop := s.head? ≠ some 32 ∧ s.getLast? ≠ some 32

theorem bare_of (s : List Nat) (h : 32 ∉ s) : Bare s := by
  constructor
  · intro e
    exact h (List.mem_of_head? e)
  · intro e
    exact h (List.mem_of_getLast? e)

theorem dropWhile_bare (s : List Nat) (h : s.head? ≠ some 32) : s.dropWhile (· = 32) = s := by
  cases s with
  | nil => rfl
  | cons a l =>
    rw [List.dropWhile_cons]
    simp at h
    simp [h]

theorem dropWhile_blanks (k : Nat) (s : List Nat) : (List.replicate k 32 ++ s).dropWhile (· = 32) = s.dropWhile (· = 32) := by
  induction k with
  | zero => simp
  | succ k ih => rw [List.replicate_succ, List.cons_append, List.dropWhile_cons]; simpa using ih

theorem trim_pad (j k : Nat) (s : List Nat) (h : Bare s) : trim (List.replicate j 32 ++ (s ++ List.replicate k 32)) = s := by
  unfold trim
  rw [dropWhile_blanks]
  by_cases he : s = []
  · subst he
    rw [List.nil_append]
    have := dropWhile_blanks k []
    rw [List.append_nil] at this
    rw [this]
    rfl
  · have h1 : (s ++ List.replicate k 32).head? ≠ some 32 := by
      cases s with
      | nil => exact absurd rfl he
      | cons a l => simpa using h.1
    rw [dropWhile_bare _ h1, List.reverse_append, List.reverse_replicate, dropWhile_blanks, dropWhile_bare, List.reverse_reverse]
    rw [List.head?_reverse]
    exact h.2

theorem trim_put (c : Col) (last : Bool) (w : Nat) (s : List Nat) (h : Bare s) : trim (put c last w s) = s := by
  unfold put
  split
  · split
    · simpa using trim_pad 0 0 s h
    · simpa using trim_pad 0 (w - s.length) s h
  · simpa using trim_pad (w - s.length) 0 s h

theorem put_length (c : Col) (w : Nat) (s : List Nat) (h : s.length ≤ w) : (put c false w s).length = w := by
  unfold put
  split <;> simp <;> omega

theorem runs_dashes (w n : Nat) (l : List Nat) : runs (List.replicate w 45 ++ 32 :: l) n = (n + w) :: runs l 0 := by
  induction w generalizing n with
  | zero => simp [runs]
  | succ w ih =>
    rw [List.replicate_succ, List.cons_append, runs, if_neg (by omega), ih]
    congr 1
    omega

theorem runs_end (w n : Nat) : runs (List.replicate w 45) n = [n + w] := by
  induction w generalizing n with
  | zero => simp [runs]
  | succ w ih =>
    rw [List.replicate_succ, runs, if_neg (by omega), ih]
    congr 1
    omega

theorem runs_divider (width : Col → Nat) (cols : List Col) (h : cols ≠ []) : runs (divider width cols) 0 = cols.map width := by
  induction cols with
  | nil => exact absurd rfl h
  | cons c l ih =>
    cases l with
    | nil => rw [divider, runs_end]; simp
    | cons d l => rw [divider, runs_dashes, ih (by simp)]; simp

/-- a line is read as the texts it was made of -/
theorem fields_line (width : Col → Nat) (text : Col → List Nat) (cols : List Col) (h : cols ≠ [])
    (hf : ∀ c ∈ cols, (text c).length ≤ width c) (hb : ∀ c ∈ cols, Bare (text c)) :
    fields (runs (divider width cols) 0) (line width text cols) = cols.map text := by
  rw [runs_divider width cols h]
  induction cols with
  | nil => exact absurd rfl h
  | cons c l ih =>
    cases l with
    | nil => simp only [List.map_cons, List.map_nil, fields, line]; rw [trim_put _ _ _ _ (hb c (by simp))]
    | cons d l =>
      have hl := put_length c (width c) (text c) (hf c (by simp))
      simp only [List.map_cons, fields, line]
      rw [List.take_append_of_le_length (by omega), List.take_of_length_le (by omega), trim_put _ _ _ _ (hb c (by simp))]
      congr 1
      rw [List.drop_append, List.drop_of_length_le (by omega), hl]
      have e : width c + 1 - width c = 1 := by omega
      rw [e, List.nil_append, List.drop_one, List.tail_cons]
      exact ih (by simp) (fun c hc => hf c (List.mem_cons_of_mem _ hc)) (fun c hc => hb c (List.mem_cons_of_mem _ hc))

/-! ### Lengths -/

theorem dec_lt (n : Nat) : n < 10 ^ (dec n).length := by
  induction n using Nat.strongRecOn with
  | ind n ih =>
    unfold dec
    split
    · simpa using ‹_›
    · have := ih (n / 10) (by omega)
      rw [List.length_append, List.length_singleton, Nat.pow_succ]
      omega

theorem dec_len_pos (n : Nat) : 0 < (dec n).length := List.length_pos_iff.mpr (dec_ne_nil n)

theorem dec_mono (a b : Nat) (h : a ≤ b) : (dec a).length ≤ (dec b).length :=
  dec_length_le a _ (dec_len_pos b) (Nat.lt_of_le_of_lt h (dec_lt b))

/-- a number gets longer only at a power of ten -/
theorem dec_succ (n : Nat) (h : ∀ k, 0 < k → n + 1 ≠ 10 ^ k) : (dec (n + 1)).length ≤ (dec n).length := by
  have h1 := dec_lt n
  have h2 := dec_len_pos n
  apply dec_length_le _ _ h2
  have := h _ h2
  omega

theorem fixed_length (p x : Nat) (hp : 0 < p) : (fixed p x).length = (dec (near (x * 10 ^ p) S / 10 ^ p)).length + 1 + p := by
  unfold fixed
  have h : 0 < 10 ^ p := Nat.pow_pos (by omega)
  rw [List.length_append, List.length_cons, decPad_length p _ hp (Nat.mod_lt _ h)]
  omega

theorem fixed_decimal (p x : Nat) (hp : 0 < p) : Decimal p (fixed p x) (near (x * 10 ^ p) S) := by
  have h : 0 < 10 ^ p := Nat.pow_pos (by omega)
  refine ⟨dec (near (x * 10 ^ p) S / 10 ^ p), decPad p (near (x * 10 ^ p) S % 10 ^ p), rfl, dec_ne_nil _,
    decPad_length p _ hp (Nat.mod_lt _ h), ?_, ?_⟩
  · intro c hc
    rcases List.mem_append.mp hc with hc | hc
    · exact dec_digit _ c hc
    · exact decPad_digit _ _ c hc
  · rw [readDec_append, readDec_dec, readDec_decPad, decPad_length p _ hp (Nat.mod_lt _ h), Nat.mul_comm]
    exact Nat.div_add_mod _ _

theorem fixed_mono (p x y : Nat) (hp : 0 < p) (h : x ≤ y) : (fixed p x).length ≤ (fixed p y).length := by
  rw [fixed_length p x hp, fixed_length p y hp]
  have h1 : near (x * 10 ^ p) S ≤ near (y * 10 ^ p) S :=
    near_mono _ _ _ _ S_pos S_pos (Nat.mul_le_mul_right _ (Nat.mul_le_mul_right _ h))
  have := dec_mono _ _ (Nat.div_le_div_right (c := 10 ^ p) h1)
  omega

/-- a time that rounding does not make longer takes the digits of its seconds and seven more characters -/
theorem fine_length (t : Ts) (h : Pos t) (hs : t.sec < 2 ^ 20) (hf : Fine t) :
    (fixed 6 (secs t)).length ≤ (dec t.sec.toNat).length + 7 := by
  rw [fixed_length 6 _ (by omega)]
  have h1 := micro_near t h hs
  have h2 := ns_toNat t h
  have h3 := nsec_lt t h
  rw [show (10 : Nat) ^ 6 = 1000000 by decide]
  generalize near (secs t * 1000000) S = n at *
  rcases hf with hf | hf
  · have : n / 1000000 ≤ t.sec.toNat := by omega
    have := dec_mono _ _ this
    omega
  · have : n / 1000000 ≤ t.sec.toNat + 1 := by omega
    have := dec_mono _ _ this
    have h4 := dec_succ t.sec.toNat (by
      intro k hk e
      apply hf k hk
      have h5 := h.2
      have h6 : ((t.sec.toNat + 1 : Nat) : Int) = ((10 ^ k : Nat) : Int) := by rw [e]
      push_cast at h6
      omega)
    omega

/-! ### Widths -/

theorem wid_pos (w : Wid) (l : List (List Nat × Row)) (h1 : Pos w.minMax) (h2 : Pos w.avgMax)
    (h : ∀ p ∈ l, p.2.calls ≠ 0 → Pos p.2.tmin ∧ Pos p.2.tavg) :
    Pos (widLoop w l).minMax ∧ Pos (widLoop w l).avgMax ∧ ns w.minMax ≤ ns (widLoop w l).minMax ∧
      ns w.avgMax ≤ ns (widLoop w l).avgMax ∧ w.nameMax ≤ (widLoop w l).nameMax := by
  induction l generalizing w with
  | nil => simp only [widLoop]; exact ⟨h1, h2, by omega, by omega, by omega⟩
  | cons p l ih =>
    obtain ⟨n, r⟩ := p
    have hl : ∀ p ∈ l, p.2.calls ≠ 0 → Pos p.2.tmin ∧ Pos p.2.tavg := fun p hp => h p (List.mem_cons_of_mem _ hp)
    rw [widLoop]
    split
    · exact ih w h1 h2 hl
    · rename_i hc
      have h3 := h (n, r) (by simp) hc
      have h4 := tsMax_spec w.minMax r.tmin h1.1 h3.1.1
      have h5 := tsMax_spec w.avgMax r.tavg h2.1 h3.2.1
      have h6 : Pos (tsMax w.minMax r.tmin) := by
        rcases h4.1 with e | e
        · rw [e]; exact h1
        · rw [e]; exact h3.1
      have h7 : Pos (tsMax w.avgMax r.tavg) := by
        rcases h5.1 with e | e
        · rw [e]; exact h2
        · rw [e]; exact h3.2
      have := ih ⟨tsMax w.minMax r.tmin, tsMax w.avgMax r.tavg, max w.nameMax n.length⟩ h6 h7 hl
      simp only at this
      refine ⟨this.1, this.2.1, by omega, by omega, by omega⟩

theorem wid_ge (w : Wid) (l : List (List Nat × Row)) (h1 : Pos w.minMax) (h2 : Pos w.avgMax)
    (h : ∀ p ∈ l, p.2.calls ≠ 0 → Pos p.2.tmin ∧ Pos p.2.tavg) (p : List Nat × Row) (hp : p ∈ l) (hc : p.2.calls ≠ 0) :
    ns p.2.tmin ≤ ns (widLoop w l).minMax ∧ ns p.2.tavg ≤ ns (widLoop w l).avgMax ∧ p.1.length ≤ (widLoop w l).nameMax := by
  induction l generalizing w with
  | nil => simp at hp
  | cons q l ih =>
    obtain ⟨n, r⟩ := q
    have hl : ∀ p ∈ l, p.2.calls ≠ 0 → Pos p.2.tmin ∧ Pos p.2.tavg := fun p hp => h p (List.mem_cons_of_mem _ hp)
    rw [widLoop]
    split
    · rename_i hz
      rcases List.mem_cons.mp hp with e | e
      · subst e; exact absurd hz hc
      · exact ih w h1 h2 hl e
    · rename_i hz
      have h3 := h (n, r) (by simp) hz
      have h4 := tsMax_spec w.minMax r.tmin h1.1 h3.1.1
      have h5 := tsMax_spec w.avgMax r.tavg h2.1 h3.2.1
      have h6 : Pos (tsMax w.minMax r.tmin) := by
        rcases h4.1 with e | e
        · rw [e]; exact h1
        · rw [e]; exact h3.1
      have h7 : Pos (tsMax w.avgMax r.tavg) := by
        rcases h5.1 with e | e
        · rw [e]; exact h2
        · rw [e]; exact h3.2
      rcases List.mem_cons.mp hp with e | e
      · subst e
        have := wid_pos ⟨tsMax w.minMax r.tmin, tsMax w.avgMax r.tavg, max w.nameMax n.length⟩ l h6 h7 hl
        simp only at this ⊢
        refine ⟨by omega, by omega, by omega⟩
      · exact ih _ h6 h7 hl e

theorem usecs_mono (x y : Nat) (h : x ≤ y) : usecs x ≤ usecs y := by
  unfold usecs
  apply Nat.div_le_div_right
  unfold fmul
  exact fl_mono _ _ _ _ S_pos S_pos (Nat.mul_le_mul_right _ (Nat.mul_le_mul_right _ h))

theorem sec_le (s t : Ts) (hs : Pos s) (ht : Pos t) (h : ns s ≤ ns t) : s.sec.toNat ≤ t.sec.toNat := by
  have h1 := ns_toNat s hs
  have h2 := ns_toNat t ht
  have h3 := nsec_lt s hs
  have h4 := nsec_lt t ht
  omega

theorem pos_zero : Pos zeroTs := by decide

theorem decOrNone_length (n : Nat) : (decOrNone n).length ≤ (dec n).length := by
  unfold decOrNone; split <;> simp

/-- the percentage of a part is at most 100.00 -/
theorem pct_le (t c : Ts) (ht : Pos t) (hc : Pos c) (hle : ns t ≤ ns c) (h0 : 0 < ns c) : near (pct t c * 100) S ≤ 10000 := by
  have h := (pct_close t c ht hc hle).1
  generalize near (pct t c * 100) S = n at *
  have h1 : (ns t).toNat ≤ (ns c).toNat := by omega
  have h2 : 0 < (ns c).toNat := by omega
  generalize (ns t).toNat = a at *
  generalize (ns c).toNat = b at *
  apply Classical.byContradiction
  intro hn
  have h3 : 10001 * b ≤ n * b := Nat.mul_le_mul_right b (by omega)
  omega

theorem pct_zero (t c : Ts) (ht : Pos t) (hle : ns t ≤ ns c) (h0 : ns c ≤ 0) : pct t c = 0 := by
  have h1 := ns_toNat t ht
  have h2 : (ns t).toNat = 0 := by omega
  have h3 : t.sec.toNat = 0 := by omega
  have h4 : t.nsec.toNat = 0 := by omega
  have : secs t = 0 := by
    rw [secs_eq, h3, h4]
    decide +kernel
  unfold pct
  rw [this]
  have : fmul (100 * S) 0 = 0 := by decide +kernel
  simp only [this, if_true]

theorem pct_le' (t c : Ts) (ht : Pos t) (hc : Pos c) (hle : ns t ≤ ns c) : near (pct t c * 100) S ≤ 10000 := by
  by_cases h : 0 < ns c
  · exact pct_le t c ht hc hle h
  · rw [pct_zero t c ht hle (by omega)]
    decide +kernel

attribute [local irreducible] fl near fixed secs usecs fdiv pct S

section
variable {tot : Totals} {rows : List (List Nat × Row)}

theorem wid_sane (h : Sane tot rows) : ∀ p ∈ rows, p.2.calls ≠ 0 → Pos p.2.tmin ∧ Pos p.2.tavg :=
  fun p hp hc => ⟨(h.pos p hp hc).2.1, (h.pos p hp hc).2.2.2⟩

/-- every field of a row fits its column -/
theorem cell_fits (cols : List Col) (h : Sane tot rows) (hf : AllFine tot rows cols) (p : List Nat × Row) (hp : p ∈ rows)
    (hc : p.2.calls ≠ 0) (c : Col) (hm : c ∈ cols) :
    (cell tot p.1 p.2 c).length ≤ width tot (widLoop wid0 rows) c := by
  have hpos := h.pos p hp hc
  have hle := h.le p hp hc
  have hnum := h.num p hp hc
  have hw := wid_ge wid0 rows pos_zero pos_zero (wid_sane h) p hp hc
  have hwp := wid_pos wid0 rows pos_zero pos_zero (wid_sane h)
  have hts := h.sec
  have small : ∀ t : Ts, Pos t → ns t ≤ ns tot.time → t.sec < 2 ^ 20 := by
    intro t ht hl
    have := sec_le t tot.time ht h.time hl
    have := h.time.2
    omega
  cases c with
  | none => simp [cell]
  | percent =>
    have h1 := pct_le' p.2.time tot.time hpos.1 h.time hle.1
    simp only [cell, width, sz]
    rw [fixed_length 2 _ (by omega)]
    have h2 : near (pct p.2.time tot.time * 10 ^ 2) S / 10 ^ 2 < 10 ^ 3 := by
      rw [show (10 : Nat) ^ 2 = 100 by decide]; omega
    have := dec_length_le _ 3 (by omega) h2
    omega
  | total =>
    have := fixed_mono 6 _ _ (by omega) (secs_mono p.2.time tot.time hpos.1 h.time hle.1)
    simp only [cell, width, sz]
    exact Nat.le_trans this (Nat.le_max_right _ _)
  | min =>
    have h1 := fine_length p.2.tmin hpos.2.1 (small _ hpos.2.1 (by have := h.max_le; omega)) ((hf.min hm).2 p hp hc)
    have h2 := dec_mono _ _ (sec_le p.2.tmin _ hpos.2.1 hwp.1 hw.1)
    simp only [cell, width, sz]
    omega
  | max =>
    have h1 := fine_length p.2.tmax hpos.2.2.1 (small _ hpos.2.2.1 (by have := h.max_le; omega)) ((hf.max hm).2 p hp hc)
    have h2 := dec_mono _ _ (sec_le p.2.tmax tot.tmax hpos.2.2.1 h.tmax hle.2.2.2.1)
    simp only [cell, width, sz]
    omega
  | avg =>
    have := dec_mono _ _ (usecs_mono _ _ (secs_mono p.2.tavg _ hpos.2.2.2 hwp.2.1 hw.2.1))
    simp only [cell, width, sz]
    exact Nat.le_trans this (Nat.le_max_right _ _)
  | calls =>
    have := dec_mono _ _ hnum.1
    simp only [cell, width, sz]
    omega
  | errors =>
    have := dec_mono _ _ hnum.2
    have := decOrNone_length p.2.errors
    simp only [cell, width, sz]
    omega
  | name =>
    simp only [cell, width, sz]
    omega

/-- every field of the last line fits its column -/
theorem total_fits (cols : List Col) (h : Sane tot rows) (hf : AllFine tot rows cols) (c : Col) (hm : c ∈ cols) :
    (totalCell tot c).length ≤ width tot (widLoop wid0 rows) c := by
  obtain ⟨p, hp, hc⟩ := h.some
  have hle := h.le p hp hc
  have hw := wid_ge wid0 rows pos_zero pos_zero (wid_sane h) p hp hc
  have hwp := wid_pos wid0 rows pos_zero pos_zero (wid_sane h)
  have hts := h.sec
  have small : ∀ t : Ts, Pos t → ns t ≤ ns tot.time → t.sec < 2 ^ 20 := by
    intro t ht hl
    have := sec_le t tot.time ht h.time hl
    have := h.time.2
    omega
  cases c with
  | none => simp [totalCell]
  | percent =>
    have : (fixed 2 (100 * S)).length = 6 := by decide +kernel
    simp only [totalCell, width, sz]
    omega
  | total =>
    simp only [totalCell, width, sz]
    exact Nat.le_max_right _ _
  | min =>
    have h1 := fine_length tot.tmin h.tmin (small _ h.tmin (by have := h.max_le; have := h.min_le; omega)) (hf.min hm).1
    have h2 := dec_mono _ _ (sec_le tot.tmin _ h.tmin hwp.1 (by omega))
    simp only [totalCell, width, sz]
    omega
  | max =>
    have h1 := fine_length tot.tmax h.tmax (small _ h.tmax (by have := h.max_le; omega)) (hf.max hm).1
    simp only [totalCell, width, sz]
    omega
  | avg =>
    have h1 := (mean_close tot.time h.time (small _ h.time (by omega)) tot.calls h.calls.1 h.calls.2).1
    have h2 := ns_toNat tot.time h.time
    have h3 := nsec_lt tot.time h.time
    have h4 : usecs (fdiv (secs tot.time) (tot.calls * S)) ≤ usecs (fdiv (secs tot.time) (tot.calls * S)) * tot.calls :=
      Nat.le_mul_of_pos_right _ h.calls.1
    have := dec_length_le (usecs (fdiv (secs tot.time) (tot.calls * S))) 11 (by omega) (by omega)
    simp only [totalCell, width, sz]
    exact Nat.le_trans this (Nat.le_max_left _ _)
  | calls =>
    simp only [totalCell, width, sz]
    omega
  | errors =>
    have := decOrNone_length tot.errors
    simp only [totalCell, width, sz]
    omega
  | name =>
    simp only [totalCell, width, sz, List.length_cons, List.length_nil]
    omega

theorem title_fits (tot : Totals) (w : Wid) (c : Col) : (title c).length ≤ width tot w c := by
  cases c <;> simp only [title, width, sz, List.length_cons, List.length_nil] <;> omega

end

/-! ### No blanks -/

theorem dec_noblank (n : Nat) : 32 ∉ dec n := fun h => by have := dec_digit n 32 h; omega

theorem fixed_noblank (p x : Nat) : 32 ∉ fixed p x := by
  unfold fixed
  intro h
  rcases List.mem_append.mp h with h | h
  · exact dec_noblank _ h
  · rcases List.mem_cons.mp h with h | h
    · omega
    · have := decPad_digit _ _ 32 h; omega

theorem decOrNone_noblank (n : Nat) : 32 ∉ decOrNone n := by
  unfold decOrNone
  split
  · simp
  · exact dec_noblank n

theorem cell_bare (tot : Totals) (n : List Nat) (r : Row) (hn : 32 ∉ n) (c : Col) : Bare (cell tot n r c) := by
  apply bare_of
  cases c <;> simp only [cell]
  case none => simp
  case name => exact hn
  all_goals first | exact dec_noblank _ | exact fixed_noblank _ _ | exact decOrNone_noblank _

theorem total_bare (tot : Totals) (c : Col) : Bare (totalCell tot c) := by
  apply bare_of
  cases c <;> simp only [totalCell]
  case none => simp
  case name => decide
  all_goals first | exact dec_noblank _ | exact fixed_noblank _ _ | exact decOrNone_noblank _

theorem title_bare (c : Col) : Bare (title c) := by
  cases c <;> exact ⟨by decide, by decide⟩

/-! ### Meaning -/

theorem number_dec (n : Nat) : Number (dec n) n := ⟨dec_ne_nil n, dec_digit n, readDec_dec n⟩

theorem shows_time (t : Ts) (h : Pos t) (hs : t.sec < 2 ^ 20) : ShowsTime (fixed 6 (secs t)) t := by
  have h1 := micro_near t h hs
  have h5 := fixed_decimal 6 (secs t) (by omega)
  rw [show (10 : Nat) ^ 6 = 1000000 by decide] at h5
  refine ⟨_, h5, ?_⟩
  generalize near (secs t * 1000000) S = n at *
  have h2 := h.2
  have h3 := h.1
  unfold Norm at h3
  have h4 : 0 ≤ ns t := by unfold ns; omega
  omega

section
variable {tot : Totals} {rows : List (List Nat × Row)}

theorem cell_shows (h : Sane tot rows) (p : List Nat × Row) (hp : p ∈ rows) (hc : p.2.calls ≠ 0) (c : Col) :
    Shows tot p.1 p.2 (cell tot p.1 p.2 c) c := by
  have hpos := h.pos p hp hc
  have hle := h.le p hp hc
  have hts := h.sec
  have small : ∀ t : Ts, Pos t → ns t ≤ ns tot.time → t.sec < 2 ^ 20 := by
    intro t ht hl
    have := sec_le t tot.time ht h.time hl
    have := h.time.2
    omega
  have nonneg : ∀ t : Ts, Pos t → 0 ≤ ns t := by
    intro t ht
    have h1 := ht.1
    have h2 := ht.2
    unfold Norm at h1
    unfold ns; omega
  cases c with
  | none => rfl
  | percent =>
    have h0 := pct_le' p.2.time tot.time hpos.1 h.time hle.1
    have h1 := pct_close p.2.time tot.time hpos.1 h.time hle.1
    have h5 := fixed_decimal 2 (pct p.2.time tot.time) (by omega)
    rw [show (10 : Nat) ^ 2 = 100 by decide] at h5
    simp only [Shows, cell]
    refine ⟨_, h5, h0, ?_⟩
    generalize near (pct p.2.time tot.time * 100) S = n at *
    have h2 := nonneg _ hpos.1
    have h3 := nonneg _ h.time
    have e1 : ((ns p.2.time).toNat : Int) = ns p.2.time := Int.toNat_of_nonneg h2
    have e2 : ((ns tot.time).toNat : Int) = ns tot.time := Int.toNat_of_nonneg h3
    have h4 : (n : Int) * ns tot.time = ((n * (ns tot.time).toNat : Nat) : Int) := by push_cast; rw [e2]
    rw [h4]
    omega
  | total => exact shows_time _ hpos.1 (small _ hpos.1 hle.1)
  | min => exact shows_time _ hpos.2.1 (small _ hpos.2.1 (by have := h.max_le; omega))
  | max => exact shows_time _ hpos.2.2.1 (small _ hpos.2.2.1 (by have := h.max_le; omega))
  | avg =>
    refine ⟨_, number_dec _, ?_⟩
    have h1 := usecs_close p.2.tavg hpos.2.2.2 (small _ hpos.2.2.2 (by omega))
    have h2 := nonneg _ hpos.2.2.2
    generalize usecs (secs p.2.tavg) = n at *
    omega
  | calls => exact number_dec _
  | errors =>
    simp only [Shows, cell, decOrNone]
    split
    · rfl
    · exact number_dec _
  | name => rfl

theorem total_shows (h : Sane tot rows) (c : Col) : ShowsTotal tot (totalCell tot c) c := by
  have hts := h.sec
  have small : ∀ t : Ts, Pos t → ns t ≤ ns tot.time → t.sec < 2 ^ 20 := by
    intro t ht hl
    have := sec_le t tot.time ht h.time hl
    have := h.time.2
    omega
  cases c with
  | none => rfl
  | percent =>
    have h1 := fixed_decimal 2 (100 * S) (by omega)
    have e : near (100 * S * 10 ^ 2) S = 10000 := by decide +kernel
    rw [e] at h1
    simp only [ShowsTotal, totalCell]
    exact h1
  | total => exact shows_time _ h.time (small _ h.time (by omega))
  | min => exact shows_time _ h.tmin (small _ h.tmin (by have := h.max_le; have := h.min_le; omega))
  | max => exact shows_time _ h.tmax (small _ h.tmax (by have := h.max_le; omega))
  | avg =>
    refine ⟨_, number_dec _, ?_⟩
    have h1 := mean_close tot.time h.time (small _ h.time (by omega)) tot.calls h.calls.1 h.calls.2
    generalize usecs (fdiv (secs tot.time) (tot.calls * S)) = n at *
    have h2 : 0 ≤ ns tot.time := by
      have h3 := h.time.1
      have h4 := h.time.2
      unfold Norm at h3
      unfold ns; omega
    have h4 : (n : Int) * tot.calls = ((n * tot.calls : Nat) : Int) := by push_cast; rfl
    rw [h4]
    omega
  | calls => exact number_dec _
  | errors =>
    simp only [ShowsTotal, totalCell, decOrNone]
    split
    · rfl
    · exact number_dec _
  | name => rfl

/-- C125: whoever reads the summary finds the titles, one line for each system call that has been called, in the order of
sorting, that shows its numbers, and the totals -/
theorem summary_read_partial (sorted : List (List Nat × Row)) (cols : List Col) (hs : sorted.Perm rows) (h : Sane tot rows)
    (hcols : cols ≠ []) (hf : AllFine tot rows cols) :
    ∃ header d body totals, summary tot rows sorted cols = header :: d :: body ++ [d, totals] ∧
      fields (runs d 0) header = cols.map title ∧
      (∃ texts, fields (runs d 0) totals = cols.map texts ∧ ∀ c ∈ cols, ShowsTotal tot (texts c) c) ∧
      ∃ f, body = (sorted.filter fun p => decide (p.2.calls ≠ 0)).map f ∧ ∀ p ∈ rows, p.2.calls ≠ 0 →
        ∃ texts, fields (runs d 0) (f p) = cols.map texts ∧ ∀ c ∈ cols, Shows tot p.1 p.2 (texts c) c := by
  refine ⟨line (width tot (widLoop wid0 rows)) title cols, divider (width tot (widLoop wid0 rows)) cols,
    (sorted.filter fun p => decide (p.2.calls ≠ 0)).map
      (fun p => line (width tot (widLoop wid0 rows)) (cell tot p.1 p.2) cols),
    line (width tot (widLoop wid0 rows)) (totalCell tot) cols, ?_, ?_, ⟨totalCell tot, ?_, fun c _ => total_shows h c⟩, ?_⟩
  · simp only [summary, List.cons_append, List.nil_append]
  · exact fields_line _ _ cols hcols (fun c _ => title_fits tot _ c) (fun c _ => title_bare c)
  · exact fields_line _ _ cols hcols (fun c hc => total_fits cols h hf c hc) (fun c _ => total_bare tot c)
  · refine ⟨_, rfl, ?_⟩
    intro p hp hc
    exact ⟨cell tot p.1 p.2, fields_line _ _ cols hcols (fun c hm => cell_fits cols h hf p hp hc c hm)
      (fun c _ => cell_bare tot p.1 p.2 (h.name p hp hc) c), fun c _ => cell_shows h p hp hc c⟩

end

/-! ### Histories -/

/-- the rows of a table with the names of the calls -/
def named (names : Nat → List Nat) (rows : List Row) : List (List Nat × Row) := rows.zipIdx.map fun p => (names p.2, p.1)

/-- C125: what a history of calls leaves (C42) is such that `summary_read_partial` applies -/
theorem history_sane (o : Ts) (nsys : Nat → Nat) (h : List Call) (ho : Clock o)
    (hc : ∀ c ∈ h, Clock c.stop ∧ Clock c.start) (hsum : (h.map (share o)).sum < 99999 * 1000000000)
    (hlen : h.length < 2 ^ 33) (t : Tabs) (ht : countAll o nsys (fun _ => none) h = some t) (p : Nat) (rows : List Row)
    (hrows : t p = some rows) (names : Nat → List Nat) (hn : ∀ n, 32 ∉ names n) :
    ∃ tot rows', sumLoop totals0 rows = some (tot, rows') ∧ Sane tot (named names rows') := by
  obtain ⟨tot, rows', e, hT, hl, hR⟩ := totals_are_history o nsys h ho hc (by omega) hlen t ht p rows hrows
  obtain ⟨t', ht', hinv⟩ := table_is_history o nsys h ho hc (by omega) (by omega)
  rw [ht] at ht'
  injection ht' with ht'
  subst ht'
  have hlen' := ((hinv p).2 rows hrows).1
  have hne : callsOfPers nsys h p ≠ [] := by
    intro h0
    have := (hinv p).1.mpr h0
    rw [hrows] at this
    cases this
  have nonneg : ∀ t : Ts, Norm t → 0 ≤ ns t → Pos t := by
    intro t h1 h2
    refine ⟨h1, ?_⟩
    unfold Norm at h1
    unfold ns at h2
    omega
  have hs1 := sum_filter o (fun c : Call => decide (c.pers = p) && decide (c.scno < nsys p)) h
  have hs0 := sum_nonneg o (callsOfPers nsys h p)
  have hTt := hT.time
  have hle := List.length_filter_le (fun c : Call => decide (c.pers = p) && decide (c.scno < nsys p)) h
  have hcl : 0 < (callsOfPers nsys h p).length := List.length_pos_iff.mpr hne
  -- the calls of one number are among those of the personality
  have hsub : ∀ n, n < nsys p → callsOf h p n = (callsOfPers nsys h p).filter fun c => decide (c.scno = n) := by
    intro n hn
    unfold callsOf callsOfPers
    rw [List.filter_filter]
    apply List.filter_congr
    intro c _
    by_cases h1 : c.scno = n
    · simp [h1, hn]
    · simp [h1]
  have hmem : ∀ q ∈ named names rows', ∃ n, n < nsys p ∧ q = (names n, rows'.getD n row0) := by
    intro q hq
    unfold named at hq
    rw [List.mem_map] at hq
    obtain ⟨⟨r, i⟩, hi, rfl⟩ := hq
    rw [List.mem_zipIdx_iff_getElem?] at hi
    have hi' : rows'[i]? = some r := hi
    have hlt : i < rows'.length := by
      rcases Nat.lt_or_ge i rows'.length with h | h
      · exact h
      · rw [List.getElem?_eq_none h] at hi'; cases hi'
    refine ⟨i, by omega, ?_⟩
    simp [List.getD, hi']
  have hrow : ∀ n, n < nsys p → RowStat o (callsOf h p n) (rows'.getD n row0) := fun n hn => (hR n hn).1
  have called : ∀ n, n < nsys p → (rows'.getD n row0).calls ≠ 0 → callsOf h p n ≠ [] := by
    intro n hn hc0 h0
    apply hc0
    rw [(hrow n hn).calls, h0]
    rfl
  obtain ⟨cmin, hcmin, emin⟩ := hT.min_mem hne
  obtain ⟨cmax, hcmax, emax⟩ := hT.max_mem hne
  have hpmin := share_nonneg o cmin
  have hpmax := share_nonneg o cmax
  have hPt : Pos tot.time := nonneg _ hT.ntime (by omega)
  refine ⟨tot, rows', e, ?_⟩
  constructor
  · exact hPt
  · exact nonneg _ hT.nmin (by omega)
  · exact nonneg _ hT.nmax (by omega)
  · rw [emin]; exact hT.le_max cmin hcmin
  · rw [emax, hTt]; exact share_le_sum o _ cmax hcmax
  · have h1 := hT.ntime
    unfold Norm at h1
    unfold ns at hTt
    unfold callsOfPers at hTt
    omega
  · rw [hT.calls]
    refine ⟨hcl, ?_⟩
    unfold callsOfPers
    omega
  · -- the number of the first call has a row
    obtain ⟨c, hcm⟩ := List.exists_mem_of_ne_nil _ hne
    have hcm' := hcm
    unfold callsOfPers at hcm'
    rw [List.mem_filter] at hcm'
    simp only [Bool.and_eq_true, decide_eq_true_eq] at hcm'
    have hi : c.scno < rows'.length := by omega
    refine ⟨(names c.scno, rows'.getD c.scno row0), ?_, ?_⟩
    · unfold named
      rw [List.mem_map]
      refine ⟨(rows'.getD c.scno row0, c.scno), ?_, rfl⟩
      rw [List.mem_zipIdx_iff_getElem?]
      simp [List.getD, List.getElem?_eq_getElem hi]
    · show (rows'.getD c.scno row0).calls ≠ 0
      rw [(hrow c.scno hcm'.2.2).calls, hsub _ hcm'.2.2]
      have : c ∈ (callsOfPers nsys h p).filter fun d => decide (d.scno = c.scno) := List.mem_filter.mpr ⟨hcm, by simp⟩
      have := List.length_pos_of_mem this
      omega
  · intro q hq hc0
    obtain ⟨n, hnl, rfl⟩ := hmem q hq
    have hr := hrow n hnl
    have hcal := called n hnl hc0
    obtain ⟨c1, hc1, e1⟩ := hr.min_mem hcal
    obtain ⟨c2, hc2, e2⟩ := hr.max_mem hcal
    have h1 := share_nonneg o c1
    have h2 := share_nonneg o c2
    have h3 := sum_nonneg o (callsOf h p n)
    have h4 := hr.time
    have h5 := (hR n hnl).2 hcal
    refine ⟨nonneg _ hr.ntime (by rw [h4]; exact h3), nonneg _ hr.nmin (by rw [e1]; exact h1),
      nonneg _ hr.nmax (by rw [e2]; exact h2), nonneg _ h5.1 ?_⟩
    rw [h5.2]
    exact Int.ediv_nonneg (by omega) (by omega)
  · intro q hq hc0
    obtain ⟨n, hnl, rfl⟩ := hmem q hq
    have hr := hrow n hnl
    have hcal := called n hnl hc0
    obtain ⟨c1, hc1, e1⟩ := hr.min_mem hcal
    obtain ⟨c2, hc2, e2⟩ := hr.max_mem hcal
    have h4 := hr.time
    have h5 := (hR n hnl).2 hcal
    have hin : ∀ c ∈ callsOf h p n, c ∈ callsOfPers nsys h p := by
      intro c hc
      rw [hsub n hnl] at hc
      exact (List.mem_filter.mp hc).1
    refine ⟨?_, ?_, ?_, ?_, ?_⟩
    · show ns (rows'.getD n row0).time ≤ _
      rw [h4, hTt, hsub n hnl]
      exact sum_filter o _ _
    · show _ ≤ ns (rows'.getD n row0).tmin
      rw [e1]; exact hT.min_le c1 (hin c1 hc1)
    · show ns (rows'.getD n row0).tmin ≤ ns (rows'.getD n row0).tmax
      rw [e1]; exact hr.le_max c1 hc1
    · show ns (rows'.getD n row0).tmax ≤ _
      rw [e2]; exact hT.le_max c2 (hin c2 hc2)
    · show ns (rows'.getD n row0).tavg ≤ ns (rows'.getD n row0).time
      rw [h5.2, h4]
      have h6 := sum_nonneg o (callsOf h p n)
      have h7 : 0 < (callsOf h p n).length := List.length_pos_iff.mpr hcal
      generalize ((callsOf h p n).map (share o)).sum = a at *
      generalize (callsOf h p n).length = k at *
      apply Int.le_of_lt_add_one
      apply Int.ediv_lt_of_lt_mul (by omega)
      have h8 : (a + 1) * (k : Int) = a * k + k := by rw [Int.add_mul, Int.one_mul]
      have h9 : a * 1 ≤ a * (k : Int) := Int.mul_le_mul_of_nonneg_left (by omega) h6
      omega
  · intro q hq hc0
    obtain ⟨n, hnl, rfl⟩ := hmem q hq
    have hr := hrow n hnl
    refine ⟨?_, ?_⟩
    · show (rows'.getD n row0).calls ≤ _
      rw [hr.calls, hT.calls, hsub n hnl]
      exact List.length_filter_le _ _
    · show (rows'.getD n row0).errors ≤ _
      rw [hr.errors, hT.errors, hsub n hnl, List.filter_filter, ← List.countP_eq_length_filter, ← List.countP_eq_length_filter]
      apply List.countP_mono_left
      intro c _ hcc
      simp only [Bool.and_eq_true] at hcc
      exact hcc.1
  · intro q hq _
    obtain ⟨n, _, rfl⟩ := hmem q hq
    exact hn n

/-! ### Where it fails -/

/-- C125: a longest (or shortest) time just below 10, 100, ... seconds is wider than its column -/
theorem carry_too_long (t : Ts) (h : Pos t) (hs : t.sec < 2 ^ 20) (k : Nat) (hk : 0 < k) (he : t.sec + 1 = 10 ^ k)
    (hn : 999999501 ≤ t.nsec) : (fixed 6 (secs t)).length = (dec t.sec.toNat).length + 8 := by
  rw [fixed_length 6 _ (by omega)]
  have h1 := micro_near t h hs
  have h2 := ns_toNat t h
  have h3 := nsec_lt t h
  rw [show (10 : Nat) ^ 6 = 1000000 by decide]
  have e1 : t.sec.toNat + 1 = 10 ^ k := by
    have h6 : ((t.sec.toNat + 1 : Nat) : Int) = ((10 ^ k : Nat) : Int) := by
      push_cast
      rw [← he]
      have := h.2
      omega
    exact Int.ofNat.inj h6
  have h4 : near (secs t * 1000000) S / 1000000 = t.sec.toNat + 1 := by
    generalize near (secs t * 1000000) S = n at *
    omega
  rw [h4]
  have h5 := dec_length_le t.sec.toNat k hk (by omega)
  have h6 := dec_lt t.sec.toNat
  have h7 := dec_lt (t.sec.toNat + 1)
  have h8 : k ≤ (dec t.sec.toNat).length := by
    apply Classical.byContradiction
    intro hlt
    have : (10 : Nat) ^ ((dec t.sec.toNat).length + 1) ≤ 10 ^ k := Nat.pow_le_pow_right (by omega) (by omega)
    rw [Nat.pow_succ] at this
    have : 0 < 10 ^ (dec t.sec.toNat).length := Nat.pow_pos (by omega)
    omega
  have h9 : k < (dec (t.sec.toNat + 1)).length := by
    apply Classical.byContradiction
    intro hlt
    have : (10 : Nat) ^ (dec (t.sec.toNat + 1)).length ≤ 10 ^ k := Nat.pow_le_pow_right (by omega) (by omega)
    omega
  have h10 := dec_length_le (t.sec.toNat + 1) (k + 1) (by omega) (by rw [Nat.pow_succ]; omega)
  omega

/-- two calls: 249 microseconds, and 400 nanoseconds less than 10 seconds -/
def exRows : List (List Nat × Row) :=
  [([97], ⟨⟨0, 249000⟩, ⟨0, 249000⟩, ⟨0, 249000⟩, ⟨0, 249000⟩, 1, 0⟩),
   ([98], ⟨⟨9, 999999600⟩, ⟨9, 999999600⟩, ⟨9, 999999600⟩, ⟨9, 999999600⟩, 1, 1⟩),
   ([99], row0)]

def exTot : Totals := ⟨⟨10, 248600⟩, ⟨0, 249000⟩, ⟨9, 999999600⟩, 2, 1⟩

theorem ex_sane : Sane exTot exRows := by
  constructor <;> first | decide | (intro p hp hc; simp only [exRows, List.mem_cons, List.not_mem_nil, or_false] at hp; rcases hp with rfl | rfl | rfl <;> first | decide | exact absurd rfl hc) | skip

/-- C125: the row of such a call is moved by one character: its number of calls is not found in its column -/
theorem longest_moved : Sane exTot exRows ∧ ∃ header d first second rest,
    summary exTot exRows exRows [.max, .calls, .name] = header :: d :: first :: second :: rest ∧
      fields (runs d 0) first = [[48, 46, 48, 48, 48, 50, 52, 57], [49], [97]] ∧
      fields (runs d 0) second = [[49, 48, 46, 48, 48, 48, 48, 48], [], [98]] :=
  ⟨ex_sane, _, _, _, _, _, rfl, by decide +kernel, by decide +kernel⟩

/-- C125: an average of 249 microseconds is shown as 248 -/
theorem average_low : ∃ p ∈ exRows, ns p.2.tavg = 249 * 1000 ∧ cell exTot p.1 p.2 .avg = [50, 52, 56] :=
  ⟨exRows[0], by decide, by decide, by decide +kernel⟩

/-- the columns shown by default: every row is read, whatever the times are -/
example : AllFine exTot exRows [.percent, .total, .avg, .calls, .errors, .name] :=
  ⟨fun h => absurd h (by decide), fun h => absurd h (by decide)⟩

/-- the hypotheses of `history_sane` -/
example : ∃ t, countAll ⟨0, 1000⟩ (fun _ => 2) (fun _ => none) exCalls = some t ∧
    ∃ rows, t 0 = some rows ∧ (exCalls.map (share ⟨0, 1000⟩)).sum < 99999 * 1000000000 := by
  refine ⟨_, rfl, _, rfl, ?_⟩
  decide +kernel

end Strace.Table
