import Verif.Arr.Spec
import Mathlib.Tactic.Common
/-!
# Arrays: what is shown
-/
namespace Strace.Arr

variable {α β σ : Type}

/-- the end of the loop -/
def Stop (M n start es : Nat) (elem : Nat → Option β) (print : σ → β → α × σ × Bool) (i : Nat) (s : σ) (l : List α)
    (j : Nat) (why : Why α) (cur : Nat) (tr : Bool) (s' : σ) : Prop :=
  match why with
  | .done => j = n ∧ Run elem print i s l j s' ∧ cur = start + n * es ∧ tr = false
  | .unreadable => j < n ∧ elem j = none ∧ Run elem print i s l j s' ∧ cur = start + j * es ∧ (j ≠ 0 → tr = true)
  | .limit => j < n ∧ j = M ∧ elem j ≠ none ∧ Run elem print i s l j s' ∧ cur = start + n * es ∧ tr = true
  | .stopped a => j < n ∧ j < M ∧ (∃ b t, Run elem print i s l j t ∧ elem j = some b ∧ print t b = (a, s', false)) ∧
      cur = start + n * es ∧ tr = false

theorem stop_cons {M n start es : Nat} {elem : Nat → Option β} {print : σ → β → α × σ × Bool} {i : Nat} {s s1 : σ} {l : List α}
    {j : Nat} {why : Why α} {cur : Nat} {tr : Bool} {s' : σ} {b : β} {a : α} (he : elem i = some b)
    (hp : print s b = (a, s1, true)) (h : Stop M n start es elem print (i + 1) s1 l j why cur tr s') :
    Stop M n start es elem print i s (a :: l) j why cur tr s' := by
  cases why with
  | done => exact ⟨h.1, .cons i j s s1 s' b a l he hp h.2.1, h.2.2⟩
  | unreadable => exact ⟨h.1, h.2.1, .cons i j s s1 s' b a l he hp h.2.2.1, h.2.2.2⟩
  | limit => exact ⟨h.1, h.2.1, h.2.2.1, .cons i j s s1 s' b a l he hp h.2.2.2.1, h.2.2.2.2⟩
  | stopped x =>
    obtain ⟨h1, h2, ⟨b', t, h3, h4, h5⟩, h6⟩ := h
    exact ⟨h1, h2, ⟨b', t, .cons i j s s1 t b a l he hp h3, h4, h5⟩, h6⟩

theorem index_eq (c : Cfg) (i : Nat) (a : α) :
    index c i ++ [Tok.elem a] = if c.indices = true then [.index i, .elem a] else [.elem a] := by
  unfold index; split <;> rfl

/-- one step of the loop at an element that is within the array -/
theorem loop_step (c : Cfg) (src : Src β) (print : σ → β → α × σ × Bool) (start es n M i : Nat) (fuel : Nat) (s : σ)
    (hes : 0 < es) (hend : start + n * es < 2 ^ 64) (hin : i < n) (hiM : i ≤ M)
    (P : List (Tok α) × Nat × Bool × σ → Prop)
    (hbad : at' src start es i = none →
      P (if i = 0 then ([.addr start], start, false, s) else ([.next, .more, .comment (start + i * es)], start + i * es, true, s)))
    (hlim : i = M → at' src start es i ≠ none → P (before (decide (i = 0)) ++ [.more], start + n * es, true, s))
    (hstop : ∀ b a s1, i < M → at' src start es i = some b → print s b = (a, s1, false) →
      P (before (decide (i = 0)) ++ index c i ++ [.elem a], start + n * es, false, s1))
    (hgo : ∀ b a s1, i < M → at' src start es i = some b → print s b = (a, s1, true) →
      ∃ r, loop c src print start es (start + n * es) (start + M * es) fuel (start + (i + 1) * es) (i + 1) s1 = some r ∧
        P (before (decide (i = 0)) ++ index c i ++ .elem a :: r.1, r.2)) :
    ∃ r, loop c src print start es (start + n * es) (start + M * es) (fuel + 1) (start + i * es) i s = some r ∧ P r := by
  have hlt : start + i * es < start + n * es := by
    have : i * es < n * es := Nat.mul_lt_mul_of_pos_right hin hes
    omega
  have hz : (start + i * es = start) ↔ i = 0 := by
    constructor
    · intro h
      rcases Nat.eq_zero_or_pos i with h0 | h0
      · exact h0
      · have : 0 < i * es := Nat.mul_pos h0 hes
        omega
    · intro h; subst h; omega
  have hM : (start + i * es ≥ start + M * es) ↔ i = M := by
    constructor
    · intro h
      rcases Nat.lt_or_ge i M with h1 | h1
      · have : i * es < M * es := Nat.mul_lt_mul_of_pos_right h1 hes
        omega
      · omega
    · intro h; subst h; omega
  rw [loop, if_pos hlt]
  have hd : decide (start + i * es = start) = decide (i = 0) := by
    rw [decide_eq_decide]; exact hz
  rw [hd]
  cases he : src.get (start + i * es) with
  | none =>
    refine ⟨_, rfl, ?_⟩
    have := hbad he
    by_cases h0 : i = 0
    · subst h0
      rw [if_pos (by omega)]
      rw [if_pos rfl] at this
      simpa using this
    · rw [if_neg (fun h => h0 (hz.mp h))]
      rw [if_neg h0] at this
      exact this
  | some b =>
    dsimp only
    by_cases h1 : i = M
    · rw [if_pos (hM.mpr h1)]
      exact ⟨_, rfl, hlim h1 (by rw [at', he]; simp)⟩
    · rw [if_neg (fun h => h1 (hM.mp h))]
      rcases hp : print s b with ⟨a, s1, go⟩
      cases go with
      | false =>
        rw [if_pos rfl]
        exact ⟨_, rfl, hstop b a s1 (by omega) he hp⟩
      | true =>
        rw [if_neg (by simp)]
        obtain ⟨r, hr, hP⟩ := hgo b a s1 (by omega) he hp
        have hnext : (start + i * es + es) % 2 ^ 64 = start + (i + 1) * es := by
          have h4 : (i + 1) * es ≤ n * es := Nat.mul_le_mul_right es (by omega)
          have h5 : (i + 1) * es = i * es + es := by rw [Nat.add_mul, Nat.one_mul]
          rw [Nat.mod_eq_of_lt (by omega)]
          omega
        dsimp only
        rw [hnext, hr]
        exact ⟨_, rfl, hP⟩

theorem loop_pos (c : Cfg) (src : Src β) (print : σ → β → α × σ × Bool) (start es n M : Nat) (hes : 0 < es) (hM : M ≤ n)
    (hend : start + n * es < 2 ^ 64) : ∀ d i fuel s, i + d = n → i ≤ M → d < fuel → 0 < i →
    ∃ r, loop c src print start es (start + n * es) (start + M * es) fuel (start + i * es) i s = some r ∧
      ∃ l j why, r.1 = (items c.indices i l ++ mark c.indices false start es j why).flatMap (fun y => .next :: y) ∧
        i ≤ j ∧ j ≤ M ∧ Stop M n start es (at' src start es) print i s l j why r.2.1 r.2.2.1 r.2.2.2 := by
  intro d
  induction d with
  | zero =>
    intro i fuel s hi hiM hf hpos
    obtain ⟨fuel, rfl⟩ : ∃ f, fuel = f + 1 := ⟨fuel - 1, by omega⟩
    obtain rfl : i = n := by omega
    rw [loop, if_neg (by omega)]
    exact ⟨_, rfl, [], i, .done, rfl, Nat.le_refl _, hiM, rfl, .nil i s, rfl, rfl⟩
  | succ d ih =>
    intro i fuel s hi hiM hf hpos
    obtain ⟨fuel, rfl⟩ : ∃ f, fuel = f + 1 := ⟨fuel - 1, by omega⟩
    have hb : (before (decide (i = 0)) : List (Tok α)) = [.next] := by
      rw [before, if_neg (by simp; omega)]
    apply loop_step c src print start es n M i fuel s hes hend (by omega) hiM
    · intro he
      rw [if_neg (by omega)]
      exact ⟨[], i, .unreadable, rfl, Nat.le_refl _, hiM, by omega, he, .nil i s, rfl, fun _ => rfl⟩
    · intro h1 he
      rw [hb]
      exact ⟨[], i, .limit, rfl, Nat.le_refl _, hiM, by omega, h1, he, .nil i s, rfl, rfl⟩
    · intro b a s1 h1 he hp
      rw [hb]
      refine ⟨[], i, .stopped a, ?_, Nat.le_refl _, hiM, by omega, h1, ⟨b, s, .nil i s, he, hp⟩, rfl, rfl⟩
      simp [mark, items, ← index_eq]
    · intro b a s1 h1 he hp
      obtain ⟨r, hr, l, j, why, e, hij, hjM, hs⟩ := ih (i + 1) fuel s1 (by omega) (by omega) (by omega) (by omega)
      refine ⟨r, hr, a :: l, j, why, ?_, by omega, hjM, stop_cons he hp hs⟩
      rw [hb]
      dsimp only
      rw [e]
      simp [items, ← index_eq]

/-- the loop from the first element -/
theorem loop_all (c : Cfg) (src : Src β) (print : σ → β → α × σ × Bool) (start es n M fuel : Nat) (s : σ) (hes : 0 < es)
    (hM : M ≤ n) (hn : 0 < n) (hend : start + n * es < 2 ^ 64) (hf : n < fuel) :
    ∃ r, loop c src print start es (start + n * es) (start + M * es) fuel start 0 s = some r ∧
      ∃ l j why, j ≤ M ∧ Stop M n start es (at' src start es) print 0 s l j why r.2.1 r.2.2.1 r.2.2.2 ∧
        r.1 = (if j = 0 ∧ why.isUnreadable = true then [.addr start]
          else .opened :: join (items c.indices 0 l ++ mark c.indices false start es j why)) := by
  obtain ⟨fuel, rfl⟩ : ∃ f, fuel = f + 1 := ⟨fuel - 1, by omega⟩
  have hz : start + 0 * es = start := by omega
  have key := loop_step c src print start es n M 0 fuel s hes hend (by omega) (by omega)
    (fun r => ∃ l j why, j ≤ M ∧ Stop M n start es (at' src start es) print 0 s l j why r.2.1 r.2.2.1 r.2.2.2 ∧
        r.1 = (if j = 0 ∧ why.isUnreadable = true then [.addr start]
          else .opened :: join (items c.indices 0 l ++ mark c.indices false start es j why)))
  rw [hz] at key
  apply key
  · intro he
    rw [if_pos rfl]
    exact ⟨[], 0, .unreadable, Nat.zero_le _, ⟨hn, he, .nil 0 s, hz.symm, by omega⟩, by simp [Why.isUnreadable]⟩
  · intro h1 he
    exact ⟨[], 0, .limit, Nat.zero_le _, ⟨hn, h1, he, .nil 0 s, rfl, rfl⟩, rfl⟩
  · intro b a s1 h1 he hp
    refine ⟨[], 0, .stopped a, Nat.zero_le _, ⟨hn, h1, ⟨b, s, .nil 0 s, he, hp⟩, rfl, rfl⟩, ?_⟩
    simp [before, mark, items, join, ← index_eq, Why.isUnreadable]
  · intro b a s1 h1 he hp
    obtain ⟨r, hr, l, j, why, e, hij, hjM, hs⟩ :=
      loop_pos c src print start es n M hes hM hend (n - 1) 1 fuel s1 (by omega) (by omega) (by omega) (by omega)
    refine ⟨r, hr, a :: l, j, why, hjM, stop_cons he hp hs, ?_⟩
    rw [if_neg (by omega)]
    dsimp only
    rw [e]
    simp [before, join, items, ← index_eq]

theorem size_eq {n es : Nat} (hes : 0 < es) : n * es % 2 ^ 64 / es = n ↔ n * es < 2 ^ 64 := by
  constructor
  · intro h
    have h1 := Nat.div_mul_le_self (n * es % 2 ^ 64) es
    rw [h] at h1
    have := Nat.mod_lt (n * es) (y := 2 ^ 64) (by omega)
    omega
  · intro h
    rw [Nat.mod_eq_of_lt h, Nat.mul_div_cancel _ hes]

theorem run_length {elem : Nat → Option β} {print : σ → β → α × σ × Bool} {i j : Nat} {s s' : σ} {l : List α}
    (h : Run elem print i s l j s') : i + l.length = j := by
  induction h with
  | nil => rfl
  | cons i j s s1 s' b a l he hp hr ih => simp only [List.length_cons]; omega

/-- an array that lies within the address space: the elements shown are the first ones, in order, each with its index if asked for
and as printed by the function given, up to the end, to one that cannot be read, to the limit or to where the function asks to stop;
whatever is left out is marked.  The limit applies if it is less than the number of elements modulo 2^32. -/
theorem array_shown (c : Cfg) (src : Src β) (print : σ → β → α × σ × Bool) (start n es fuel : Nat) (s : σ) (hs : start ≠ 0)
    (hn : 0 < n) (hes : 0 < es) (hend : start + n * es < 2 ^ 64) (hf : n < fuel) :
    ∃ l j why s', Ends (applies c.limit n) (at' src start es) print n s l j why s' ∧
      printArray c src print fuel start n es s = some (text c start es l j why, !why.isUnreadable, s') := by
  have hsz : n * es % 2 ^ 64 = n * es := Nat.mod_eq_of_lt (by omega)
  have hpos : 0 < n * es := Nat.mul_pos hn hes
  have hstop : (start + n * es) % 2 ^ 64 = start + n * es := Nat.mod_eq_of_lt hend
  obtain ⟨M, hM, hab, hlim⟩ : ∃ M, M ≤ n ∧ abbrevEnd c.limit start n es (start + n * es) = start + M * es ∧
      ((applies c.limit n = some M) ∨ (applies c.limit n = none ∧ M = n)) := by
    rcases hl : c.limit with _ | m
    · exact ⟨n, Nat.le_refl _, rfl, Or.inr ⟨rfl, rfl⟩⟩
    · by_cases hm : n % 2 ^ 32 > m
      · have h1 : n % 2 ^ 32 ≤ n := Nat.mod_le _ _
        have h2 : m * es ≤ n * es := Nat.mul_le_mul_right es (by omega)
        refine ⟨m, by omega, ?_, Or.inl ?_⟩
        · simp only [abbrevEnd]
          rw [if_pos hm, Nat.mul_comm es m, Nat.mod_eq_of_lt (a := m * es) (by omega), Nat.mod_eq_of_lt (by omega)]
        · simp only [applies, Option.filter, decide_eq_true_eq]
          rw [if_pos hm]
      · refine ⟨n, Nat.le_refl _, ?_, Or.inr ⟨?_, rfl⟩⟩
        · simp only [abbrevEnd]
          rw [if_neg hm]
        · simp only [applies, Option.filter, decide_eq_true_eq]
          rw [if_neg hm]
  obtain ⟨r, hr, l, j, why, hjM, hst, htok⟩ := loop_all c src print start es n M fuel s hes hM hn hend hf
  have hjlim : ∀ m, applies c.limit n = some m → j ≤ m := by
    intro m hm
    rcases hlim with h | ⟨h, _⟩
    · rw [h] at hm
      cases hm
      exact hjM
    · rw [h] at hm
      cases hm
  refine ⟨l, j, why, r.2.2.2, ⟨by omega, hjlim, ?_⟩, ?_⟩
  · cases why with
    | done => exact ⟨hst.1, hst.2.1⟩
    | unreadable => exact ⟨hst.1, hst.2.1, hst.2.2.1⟩
    | limit =>
      refine ⟨hst.1, ?_, hst.2.2.1, hst.2.2.2.1⟩
      rcases hlim with h | ⟨_, h⟩
      · rw [h, hst.2.1]
      · have h1 := hst.1
        have h2 := hst.2.1
        omega
    | stopped a =>
      obtain ⟨h1, h2, ⟨b, t, h3, h4, h5⟩, _⟩ := hst
      refine ⟨h1, b, t, h3, h4, h5, ?_⟩
      intro hx
      rcases hlim with h | ⟨h, _⟩
      · rw [h] at hx; cases hx; omega
      · rw [h] at hx; cases hx
  · rw [printArray, if_neg hs, if_neg (by omega)]
    dsimp only
    rw [hsz, hstop, if_neg (by
      rintro (h | h)
      · omega
      · exact h (by rw [Nat.mul_div_cancel _ hes])), hab, hr, Option.map_some]
    congr 1
    refine Prod.ext ?_ (Prod.ext ?_ rfl)
    · dsimp only
      rw [htok, text]
      cases why with
      | done =>
        have h1 : r.2.1 ≠ start := by rw [hst.2.2.1]; omega
        rw [if_neg (by simp [Why.isUnreadable]), if_neg (by simp [Why.isUnreadable]), tail, if_pos (Or.inl h1), if_pos h1,
          hst.2.2.2]
        have hlen := run_length hst.2.1
        have h0 := hst.1
        cases hc : c.trunc with
        | false => simp [mark]
        | true =>
          cases l with
          | nil => simp only [List.length_nil] at hlen; omega
          | cons a l => simp [mark, join, items]
      | unreadable =>
        by_cases h0 : j = 0
        · have h1 : r.2.1 = start := by rw [hst.2.2.2.1, h0]; omega
          have h2 : src.isOwn = false := by
            have := hst.2.1
            unfold at' at this
            cases src with
            | tracee f => rfl
            | own f => cases this
          rw [if_pos ⟨h0, rfl⟩, if_pos ⟨h0, rfl⟩, tail, if_neg (by simp [h1, h2])]
          rfl
        · have h1 : r.2.1 ≠ start := by
            rw [hst.2.2.2.1]
            have := Nat.mul_pos (Nat.pos_of_ne_zero h0) hes
            omega
          rw [if_neg (by simp [h0]), if_neg (by simp [h0]), tail, if_pos (Or.inl h1), hst.2.2.2.2 h0, if_neg (by simp)]
          rfl
      | limit =>
        have h1 : r.2.1 ≠ start := by rw [hst.2.2.2.2.1]; omega
        rw [if_neg (by simp [Why.isUnreadable]), if_neg (by simp [Why.isUnreadable]), tail, if_pos (Or.inl h1), hst.2.2.2.2.2, if_neg (by simp)]
        rfl
      | stopped a =>
        have h1 : r.2.1 ≠ start := by rw [hst.2.2.2.1]; omega
        rw [if_neg (by simp [Why.isUnreadable]), if_neg (by simp [Why.isUnreadable]), tail, if_pos (Or.inl h1), if_pos h1, hst.2.2.2.2]
        cases hc : c.trunc with
        | false => simp [mark]
        | true =>
          cases l with
          | nil => simp [mark, join, items]
          | cons x l => simp [mark, join, items]
    · dsimp only
      cases why with
      | done => simp [hst.2.2.1, Why.isUnreadable]
      | unreadable =>
        have : j * es < n * es := Nat.mul_lt_mul_of_pos_right hst.1 hes
        simp [hst.2.2.2.1, Why.isUnreadable]; omega
      | limit => simp [hst.2.2.2.2.1, Why.isUnreadable]
      | stopped a => simp [hst.2.2.2.1, Why.isUnreadable]

/-- an array without elements, at address 0, or that does not fit into the address space -/
theorem array_not (c : Cfg) (src : Src β) (print : σ → β → α × σ × Bool) (start n es fuel : Nat) (s : σ) (hes : 0 < es)
    (ha : start < 2 ^ 64) :
    (start = 0 → printArray c src print fuel start n es s = some ([.null], false, s)) ∧
    (start ≠ 0 → n = 0 → printArray c src print fuel start n es s =
      some (if c.trunc = true then [.opened, .more, .closed] else [.opened, .closed], false, s)) ∧
    (start ≠ 0 → n ≠ 0 → start + n * es ≥ 2 ^ 64 → printArray c src print fuel start n es s =
      some ([if src.isOwn = true then .unavailable else .addr start], false, s)) := by
  refine ⟨?_, ?_, ?_⟩
  · intro h; rw [printArray, if_pos h]
  · intro h h1
    rw [printArray, if_neg h, if_pos h1]
    split <;> rfl
  · intro h h1 h2
    rw [printArray, if_neg h, if_neg h1]
    dsimp only
    rw [if_pos]
    by_cases h3 : n * es < 2 ^ 64
    · left
      rw [Nat.mod_eq_of_lt h3, Nat.mod_eq_sub_mod h2, Nat.mod_eq_of_lt (by omega)]
      omega
    · right
      rw [Ne, size_eq hes]
      exact h3

/-- what is shown is determined by the array: the elements shown, why printing ended and the state -/
theorem run_inj {elem : Nat → Option β} {print : σ → β → α × σ × Bool} {i j : Nat} {s s' : σ} {l : List α}
    (h : Run elem print i s l j s') : ∀ {l2 : List α} {s2 : σ}, Run elem print i s l2 j s2 → l = l2 ∧ s' = s2 := by
  induction h with
  | nil i s =>
    intro l2 s2 h2
    cases h2 with
    | nil => exact ⟨rfl, rfl⟩
    | cons i j s s1 s' b a l he hp hr =>
      have := run_length hr
      omega
  | cons i j s s1 s' b a l he hp hr ih =>
    intro l2 s2 h2
    cases h2 with
    | nil => have := run_length hr; omega
    | cons i j s s1' s' b' a' l' he' hp' hr' =>
      rw [he] at he'
      cases he'
      rw [hp] at hp'
      cases hp'
      obtain ⟨rfl, rfl⟩ := ih hr'
      exact ⟨rfl, rfl⟩

end Strace.Arr
