import Verif.Show.Array
/-!
# C36, C37: arrays and vectors
-/
namespace Strace.Show

/-! ### Specification -/

/-- why printing ended -/
inductive Why
  | done
  | unreadable
  | limit
  | stopped
  deriving DecidableEq, Repr

/-- items separated by commas -/
def join : List (List Tok) → List Tok
  | [] => []
  | x :: xs => x ++ xs.flatMap fun y => .next :: y

/-- the elements from `i` to before `j` -/
def elems (start es i j : Nat) : List (List Tok) := (List.range' i (j - i)).map fun k => [.elem k (start + k * es)]

/-- what shows that something is left out -/
def mark (start es j : Nat) (why : Why) : List (List Tok) :=
  match why with
  | .unreadable => [[.more, .comment (start + j * es)]]
  | .limit => [[.more]]
  | _ => []

/-- the first `j` elements, and what follows -/
def rendered (start es j : Nat) (why : Why) (trunc : Bool) : List Tok :=
  if j = 0 ∧ why = .unreadable then [.addr start]
  else .opened :: join (elems start es 0 j ++ mark start es j why ++
    if trunc = true ∧ (why = .done ∨ why = .stopped) then [[.more]] else []) ++ [.closed]

/-- `j` elements are shown for reason `why` -/
def Reason (limit : Option Nat) (read : Nat → Bool) (stops : Nat → Bool) (start es n j : Nat) (why : Why) : Prop :=
  j ≤ n ∧ (∀ m, limit = some m → j ≤ m) ∧ (∀ k, k < j → read (start + k * es) = true) ∧
  (∀ k, k + 1 < j → stops k = false) ∧
  match why with
  | .done => j = n ∧ (j = 0 ∨ stops (j - 1) = false)
  | .unreadable => j < n ∧ read (start + j * es) = false ∧ (j = 0 ∨ stops (j - 1) = false)
  | .limit => j < n ∧ limit = some j ∧ (j = 0 ∨ stops (j - 1) = false)
  | .stopped => 0 < j ∧ stops (j - 1) = true

/-! ### The loop -/

theorem elems_nil (start es i : Nat) : elems start es i i = [] := by simp [elems]

theorem elems_cons (start es i j : Nat) (h : i < j) :
    elems start es i j = [.elem i (start + i * es)] :: elems start es (i + 1) j := by
  unfold elems
  obtain ⟨d, rfl⟩ := Nat.exists_eq_add_of_lt h
  have e1 : i + d + 1 - i = d + 1 := by omega
  have e2 : i + d + 1 - (i + 1) = d := by omega
  rw [e1, e2, List.range'_succ]
  rfl

structure LoopOk (M n start es : Nat) (read stops : Nat → Bool) (i j : Nat) (why : Why) (cur : Nat) (tr : Bool) : Prop where
  ij : i ≤ j
  jn : j ≤ M
  rd : ∀ k, i ≤ k → k < j → read (start + k * es) = true
  st : ∀ k, i ≤ k → k + 1 < j → stops k = false
  why : match why with
    | .done => j = n ∧ (j = i ∨ stops (j - 1) = false) ∧ cur = start + n * es ∧ tr = false
    | .unreadable => j < n ∧ read (start + j * es) = false ∧ (j = i ∨ stops (j - 1) = false) ∧ cur = start + j * es ∧
        (j ≠ 0 → tr = true)
    | .limit => j < n ∧ j = M ∧ (j = i ∨ stops (j - 1) = false) ∧ cur = start + n * es ∧ tr = true
    | .stopped => i < j ∧ stops (j - 1) = true ∧ cur = start + n * es ∧ tr = false

theorem arr_loop (start es n M : Nat) (fetch : Option (Nat → Bool)) (stops : Nat → Bool) (hes : 0 < es) (hM : M ≤ n)
    (hend : start + n * es < 2 ^ 64) : ∀ d i fuel, i + d = n → i ≤ M → d < fuel → 0 < i →
    ∃ j why cur tr,
      arrLoop start es (start + n * es) (start + M * es) fetch stops fuel (start + i * es) i =
        some ((elems start es i j ++ mark start es j why).flatMap (fun y => .next :: y), cur, tr) ∧
      LoopOk M n start es (readable fetch) stops i j why cur tr := by
  intro d
  induction d with
  | zero =>
    intro i fuel hi hiM hf hpos
    obtain ⟨fuel, rfl⟩ : ∃ f, fuel = f + 1 := ⟨fuel - 1, by omega⟩
    have : i = n := by omega
    subst this
    refine ⟨i, .done, start + i * es, false, ?_, ?_⟩
    · unfold arrLoop
      rw [if_neg (by omega), elems_nil]
      rfl
    · exact ⟨Nat.le_refl _, hiM, by omega, by omega, rfl, Or.inl rfl, rfl, rfl⟩
  | succ d ih =>
    intro i fuel hi hiM hf hpos
    obtain ⟨fuel, rfl⟩ : ∃ f, fuel = f + 1 := ⟨fuel - 1, by omega⟩
    have hlt : start + i * es < start + n * es := by
      have : i * es < n * es := Nat.mul_lt_mul_of_pos_right (by omega) hes
      omega
    have hne : ¬ start + i * es = start := by
      have : 0 < i * es := Nat.mul_pos hpos hes
      omega
    unfold arrLoop
    rw [if_pos hlt]
    by_cases h1 : readable fetch (start + i * es) = false
    · rw [if_pos h1, if_neg hne]
      refine ⟨i, .unreadable, start + i * es, true, ?_, ?_⟩
      · rw [elems_nil]; rfl
      · exact ⟨Nat.le_refl _, hiM, by omega, by omega, by omega, h1, Or.inl rfl, rfl, fun _ => rfl⟩
    rw [if_neg h1, if_neg hne]
    by_cases h2 : start + i * es ≥ start + M * es
    · rw [if_pos h2]
      have hiM' : i = M := by
        rcases Nat.lt_or_ge i M with h | h
        · have : i * es < M * es := Nat.mul_lt_mul_of_pos_right h hes
          omega
        · omega
      refine ⟨i, .limit, start + n * es, true, ?_, ?_⟩
      · rw [elems_nil]; rfl
      · exact ⟨Nat.le_refl _, hiM, by omega, by omega, by omega, hiM', Or.inl rfl, rfl, rfl⟩
    rw [if_neg h2]
    have hiM' : i < M := by
      rcases Nat.lt_or_ge i M with h | h
      · exact h
      · have : M * es ≤ i * es := Nat.mul_le_mul_right es h
        omega
    by_cases h3 : stops i = true
    · rw [if_pos h3]
      refine ⟨i + 1, .stopped, start + n * es, false, ?_, ?_⟩
      · rw [elems_cons _ _ _ _ (by omega), elems_nil]; rfl
      · refine ⟨by omega, by omega, ?_, by omega, by omega, h3, rfl, rfl⟩
        intro k hk1 hk2
        have : k = i := by omega
        subst this
        simpa using h1
    rw [if_neg h3]
    have hnext : (start + i * es + es) % 2 ^ 64 = start + (i + 1) * es := by
      have h4 : (i + 1) * es ≤ n * es := Nat.mul_le_mul_right es (by omega)
      have h5 : (i + 1) * es = i * es + es := by rw [Nat.add_mul, Nat.one_mul]
      rw [Nat.mod_eq_of_lt (by omega)]
      omega
    rw [hnext]
    obtain ⟨j, why, cur, tr, e, ok⟩ := ih (i + 1) fuel (by omega) (by omega) (by omega) (by omega)
    rw [e]
    refine ⟨j, why, cur, tr, ?_, ?_⟩
    · have := ok.ij
      rw [elems_cons start es i j (by omega)]
      rfl
    · have hij := ok.ij
      have hlast : j = i + 1 ∨ stops (j - 1) = false → j = i ∨ stops (j - 1) = false := by
        rintro (h | h)
        · right
          have : j - 1 = i := by omega
          rw [this]
          simpa using h3
        · exact Or.inr h
      refine ⟨by omega, ok.jn, ?_, ?_, ?_⟩
      · intro k hk1 hk2
        rcases Nat.lt_or_ge i k with h | h
        · exact ok.rd k h hk2
        · have : k = i := by omega
          subst this
          simpa using h1
      · intro k hk1 hk2
        rcases Nat.lt_or_ge i k with h | h
        · exact ok.st k h hk2
        · have : k = i := by omega
          subst this
          simpa using h3
      · have hw := ok.why
        cases why with
        | done => exact ⟨hw.1, hlast hw.2.1, hw.2.2⟩
        | unreadable => exact ⟨hw.1, hw.2.1, hlast hw.2.2.1, hw.2.2.2⟩
        | limit => exact ⟨hw.1, hw.2.1, hlast hw.2.2.1, hw.2.2.2⟩
        | stopped => exact ⟨by have := hw.1; omega, hw.2⟩

/-- the whole loop -/
theorem arr_loop0 (start es n M : Nat) (fetch : Option (Nat → Bool)) (stops : Nat → Bool) (hes : 0 < es) (hM : M ≤ n)
    (hn : 0 < n) (hend : start + n * es < 2 ^ 64) (fuel : Nat) (hf : n < fuel) :
    ∃ j why cur tr,
      arrLoop start es (start + n * es) (start + M * es) fetch stops fuel start 0 =
        some (if j = 0 ∧ why = .unreadable then [.addr start]
          else .opened :: join (elems start es 0 j ++ mark start es j why), cur, tr) ∧
      LoopOk M n start es (readable fetch) stops 0 j why cur tr := by
  obtain ⟨fuel, rfl⟩ : ∃ f, fuel = f + 1 := ⟨fuel - 1, by omega⟩
  have hlt : start < start + n * es := by
    have : 0 < n * es := Nat.mul_pos hn hes
    omega
  unfold arrLoop
  rw [if_pos hlt]
  by_cases h1 : readable fetch start = false
  · rw [if_pos h1, if_pos rfl]
    refine ⟨0, .unreadable, start, false, by rw [if_pos ⟨rfl, rfl⟩], ?_⟩
    exact ⟨Nat.le_refl _, by omega, by omega, by omega, by omega, by simpa using h1, Or.inl rfl, by omega, by simp⟩
  rw [if_neg h1, if_pos rfl]
  by_cases h2 : start ≥ start + M * es
  · rw [if_pos h2]
    have hM0 : M = 0 := by
      rcases Nat.eq_zero_or_pos M with h | h
      · exact h
      · have : 0 < M * es := Nat.mul_pos h hes
        omega
    refine ⟨0, .limit, start + n * es, true, ?_, ?_⟩
    · rw [if_neg (by simp), elems_nil]; rfl
    · exact ⟨Nat.le_refl _, by omega, by omega, by omega, by omega, by omega, Or.inl rfl, rfl, rfl⟩
  rw [if_neg h2]
  have hMp : 0 < M := by
    rcases Nat.eq_zero_or_pos M with h | h
    · subst h; simp at h2
    · exact h
  by_cases h3 : stops 0 = true
  · rw [if_pos h3]
    refine ⟨1, .stopped, start + n * es, false, ?_, ?_⟩
    · rw [if_neg (by simp), elems_cons _ _ _ _ (by omega), elems_nil]; simp [join, mark]
    · refine ⟨by omega, by omega, ?_, by omega, by omega, h3, rfl, rfl⟩
      intro k hk1 hk2
      have : k = 0 := by omega
      subst this
      simpa using h1
  rw [if_neg h3]
  have hnext : (start + es) % 2 ^ 64 = start + 1 * es := by
    have h4 : 1 * es ≤ n * es := Nat.mul_le_mul_right es (by omega)
    rw [Nat.mod_eq_of_lt (by omega)]
    omega
  rw [hnext]
  obtain ⟨j, why, cur, tr, e, ok⟩ := arr_loop start es n M fetch stops hes hM hend (n - 1) 1 fuel (by omega) (by omega)
    (by omega) (by omega)
  rw [Nat.zero_add, e]
  have hij := ok.ij
  refine ⟨j, why, cur, tr, ?_, ?_⟩
  · rw [if_neg (by omega), elems_cons start es 0 j (by omega)]
    simp [join]
  · have hlast : j = 1 ∨ stops (j - 1) = false → j = 0 ∨ stops (j - 1) = false := by
      rintro (h | h)
      · right
        have : j - 1 = 0 := by omega
        rw [this]
        simpa using h3
      · exact Or.inr h
    refine ⟨by omega, ok.jn, ?_, ?_, ?_⟩
    · intro k hk1 hk2
      rcases Nat.lt_or_ge 0 k with h | h
      · exact ok.rd k h hk2
      · have : k = 0 := by omega
        subst this
        simpa using h1
    · intro k hk1 hk2
      rcases Nat.lt_or_ge 0 k with h | h
      · exact ok.st k h hk2
      · have : k = 0 := by omega
        subst this
        simpa using h3
    · have hw := ok.why
      cases why with
      | done => exact ⟨hw.1, hlast hw.2.1, hw.2.2⟩
      | unreadable => exact ⟨hw.1, hw.2.1, hlast hw.2.2.1, hw.2.2.2⟩
      | limit => exact ⟨hw.1, hw.2.1, hlast hw.2.2.1, hw.2.2.2⟩
      | stopped => exact ⟨by have := hw.1; omega, hw.2⟩

theorem join_append (x : List Tok) (xs ys : List (List Tok)) :
    join ((x :: xs) ++ ys) = join (x :: xs) ++ ys.flatMap (fun y => .next :: y) := by
  simp [join]

/-! ### Arrays -/

/-- C36: an array that fits into the address space is shown from its first element on, up to the first element that
cannot be read, the limit, the element after which the print function asks to stop, or the end; it is marked as
incomplete iff something is left out; the result says whether an unreadable element ended it.  The number of elements is less
than 2^32 here, as `long_array_unlimited` requires. -/
theorem print_array_partial (limit : Option Nat) (trunc : Bool) (fetch : Option (Nat → Bool)) (stops : Nat → Bool)
    (start n es : Nat) (hs : 0 < start) (hn : 0 < n) (hes : 0 < es) (hend : start + n * es < 2 ^ 64) (hbig : n < 2 ^ 32)
    (fuel : Nat) (hf : n < fuel) :
    ∃ j why, printArray limit trunc fetch stops fuel start n es =
        some (rendered start es j why trunc, decide (why ≠ .unreadable)) ∧
      Reason limit (readable fetch) stops start es n j why := by
  have hsz : n * es % 2 ^ 64 = n * es := Nat.mod_eq_of_lt (by omega)
  have hpos : 0 < n * es := Nat.mul_pos hn hes
  have hst : (start + n * es) % 2 ^ 64 = start + n * es := Nat.mod_eq_of_lt hend
  have hdiv : n * es / es = n := Nat.mul_div_cancel n hes
  -- the limit as a number of elements
  obtain ⟨M, hM, hMab, hMlim, hMlt⟩ : ∃ M, M ≤ n ∧
      abbrevEnd limit start n es (start + n * es) = start + M * es ∧ (∀ m, limit = some m → M ≤ m) ∧ (M < n → limit = some M) := by
    cases limit with
    | none => exact ⟨n, Nat.le_refl _, rfl, by simp, by omega⟩
    | some m =>
      have htr : truncates (some m) n = decide (n > m) := by
        show decide (n % 2 ^ 32 > m) = _
        rw [Nat.mod_eq_of_lt hbig]
      dsimp only [abbrevEnd]
      rw [htr]
      by_cases hnm : n > m
      · rw [if_pos (by simpa using hnm)]
        have hle : es * m ≤ n * es := by rw [Nat.mul_comm]; exact Nat.mul_le_mul_right es (by omega)
        refine ⟨m, by omega, ?_, ?_, fun _ => rfl⟩
        · rw [Nat.mod_eq_of_lt (a := es * m) (by omega), Nat.mod_eq_of_lt (by omega), Nat.mul_comm]
        · intro m' hm'
          injection hm' with hm'
          omega
      · rw [if_neg (by simpa using hnm)]
        refine ⟨n, Nat.le_refl _, rfl, ?_, by omega⟩
        intro m' hm'
        injection hm' with hm'
        omega
  obtain ⟨j, why, cur, tr, e, ok⟩ := arr_loop0 start es n M fetch stops hes hM hn hend fuel hf
  refine ⟨j, why, ?_, ?_⟩
  · unfold printArray
    rw [if_neg (by omega), if_neg (by omega)]
    dsimp only
    rw [hsz, hst, hdiv, if_neg (by omega), hMab, e]
    show some (_ ++ arrTail start fetch.isNone trunc cur tr, decide (cur ≥ start + n * es)) = _
    have hw := ok.why
    have hcur : (cur = start ↔ j = 0 ∧ why = .unreadable) ∧ (cur ≥ start + n * es ↔ why ≠ .unreadable) := by
      cases why with
      | done =>
        have := hw.2.2.1
        exact ⟨⟨fun h => by omega, fun h => by simp at h⟩, ⟨fun _ => by simp, fun _ => by omega⟩⟩
      | limit =>
        have := hw.2.2.2.1
        exact ⟨⟨fun h => by omega, fun h => by simp at h⟩, ⟨fun _ => by simp, fun _ => by omega⟩⟩
      | stopped =>
        have := hw.2.2.1
        exact ⟨⟨fun h => by omega, fun h => by simp at h⟩, ⟨fun _ => by simp, fun _ => by omega⟩⟩
      | unreadable =>
        have h1 := hw.1
        have h2 := hw.2.2.2.1
        have h3 : j * es < n * es := Nat.mul_lt_mul_of_pos_right h1 hes
        refine ⟨⟨fun h => ⟨?_, rfl⟩, ?_⟩, ⟨fun h => by omega, fun h => by simp at h⟩⟩
        · rcases Nat.eq_zero_or_pos j with h | h
          · exact h
          · have := Nat.mul_pos h hes
            omega
        · rintro ⟨h, _⟩
          subst h
          omega
    have htr : tr = false → ¬ (j = 0 ∧ why = .unreadable) → why = .done ∨ why = .stopped := by
      intro ht hj
      cases why with
      | done => exact Or.inl rfl
      | stopped => exact Or.inr rfl
      | limit => have := hw.2.2.2.2; rw [ht] at this; simp at this
      | unreadable => have := hw.2.2.2.2 (fun h => hj ⟨h, rfl⟩); rw [ht] at this; simp at this
    have htr2 : why = .done ∨ why = .stopped → tr = false := by
      rintro (h | h) <;> subst h
      · exact hw.2.2.2
      · exact hw.2.2.2
    have hdec : decide (cur ≥ start + n * es) = decide (why ≠ .unreadable) := decide_eq_decide.mpr hcur.2
    rw [hdec]
    congr 2
    unfold rendered
    by_cases hbad : j = 0 ∧ why = .unreadable
    · rw [if_pos hbad, if_pos hbad]
      have hloc : fetch.isNone = false := by
        cases fetch with
        | none =>
          have := hbad.2
          subst this
          have := hw.2.1
          simp [readable] at this
        | some f => rfl
      unfold arrTail
      rw [if_neg]
      · simp
      · rw [hloc]
        have := hcur.1.mpr hbad
        simp [this]
    · rw [if_neg hbad, if_neg hbad]
      unfold arrTail
      have hne : cur ≠ start := fun h => hbad (hcur.1.mp h)
      rw [if_pos (Or.inl hne), if_pos hne]
      by_cases ht : trunc = true ∧ tr = false
      · have hy := htr ht.2 hbad
        rw [if_pos ht, if_pos ⟨ht.1, hy⟩]
        have hnil : mark start es j why = [] := by rcases hy with h | h <;> subst h <;> rfl
        have hj : 0 < j := by
          rcases hy with h | h <;> subst h
          · have := hw.1; omega
          · exact hw.1
        rw [hnil, List.append_nil, elems_cons _ _ _ _ hj, join_append]
        simp
      · rw [if_neg ht, if_neg (fun h => ht ⟨h.1, htr2 h.2⟩)]
        simp
  · refine ⟨Nat.le_trans ok.jn hM, fun m hm => Nat.le_trans ok.jn (hMlim m hm), fun k hk => ok.rd k (by omega) hk,
      fun k hk => ok.st k (by omega) hk, ?_⟩
    have hw := ok.why
    cases why with
    | done => exact ⟨hw.1, hw.2.1⟩
    | unreadable => exact ⟨hw.1, hw.2.1, hw.2.2.1⟩
    | limit =>
      refine ⟨hw.1, ?_, hw.2.2.1⟩
      rw [hw.2.1]
      exact hMlt (by have := hw.1; have := hw.2.1; omega)
    | stopped => exact ⟨hw.1, hw.2.1⟩

/-- C36: an array that does not fit into the address space is never read: only its address is shown -/
theorem print_array_overflow (limit : Option Nat) (trunc : Bool) (fetch : Nat → Bool) (stops : Nat → Bool)
    (start n es : Nat) (hs : 0 < start) (hn : 0 < n) (hs64 : start < 2 ^ 64) (hend : 2 ^ 64 ≤ start + n * es) (fuel : Nat) :
    printArray limit trunc (some fetch) stops fuel start n es = some ([.addr start], false) := by
  unfold printArray
  rw [if_neg (by omega), if_neg (by omega)]
  dsimp only
  rw [if_pos]
  · rfl
  · have hes : 0 < es := by
      rcases Nat.eq_zero_or_pos es with h | h
      · subst h; simp at hend; omega
      · exact h
    rcases Nat.lt_or_ge (n * es) (2 ^ 64) with h | h
    · left
      rw [Nat.mod_eq_of_lt h, Nat.mod_eq_sub_mod (by omega), Nat.mod_eq_of_lt (by omega)]
      omega
    · right
      intro he
      have h1 := Nat.div_mul_le_self (n * es % 2 ^ 64) es
      rw [he] at h1
      have h2 := Nat.mod_lt (n * es) (show 2 ^ 64 > 0 by decide)
      omega

/-- C36: no array, and an empty one -/
theorem print_array_empty (limit : Option Nat) (trunc : Bool) (fetch : Option (Nat → Bool)) (stops : Nat → Bool)
    (fuel start n es : Nat) :
    (start = 0 → printArray limit trunc fetch stops fuel start n es = some ([.null], false)) ∧
    (start ≠ 0 → n = 0 → printArray limit trunc fetch stops fuel start n es =
      some (if trunc = true then [.opened, .more, .closed] else [.opened, .closed], false)) := by
  constructor
  · intro h
    unfold printArray
    rw [if_pos h]
  · intro h h2
    unfold printArray
    rw [if_neg h, if_pos h2]
    cases trunc <;> rfl

/-- C36: the reason and the number of elements are determined by the array -/
theorem reason_unique (limit : Option Nat) (read stops : Nat → Bool) (start es n j j' : Nat) (w w' : Why)
    (h : Reason limit read stops start es n j w) (h' : Reason limit read stops start es n j' w')
    (hro : w ≠ .stopped ∧ w' ≠ .stopped) : j = j' := by
  have key : ∀ {j j' w w'}, Reason limit read stops start es n j w → Reason limit read stops start es n j' w' →
      w ≠ .stopped → ¬ j < j' := by
    intro j j' w w' h h' hw hlt
    obtain ⟨a1, a2, a3, a4, a5⟩ := h
    obtain ⟨b1, b2, b3, b4, b5⟩ := h'
    cases w with
    | done => have := a5.1; omega
    | unreadable => have := b3 j hlt; rw [a5.2.1] at this; simp at this
    | limit => have := b2 j a5.2.1; omega
    | stopped => exact hw rfl
  have h1 := key h h' hro.1
  have h2 := key h' h hro.2
  omega

/-- C36 (finding): the number of elements is cut to 32 bits when compared with the limit: an array of 2^32 elements is
shown without a limit -/
theorem long_array_unlimited : truncates (some 32) (2 ^ 32) = false := by decide

/-- an array of 5, the fourth of which cannot be read; limits of 2 and 3 -/
example : printArray (some 32) false (some fun a => a ≠ 124) (fun _ => false) 6 100 5 8 =
      some ([.opened, .elem 0 100, .next, .elem 1 108, .next, .elem 2 116, .next, .more, .comment 124, .closed], false) ∧
    printArray (some 2) false (some fun a => a ≠ 124) (fun _ => false) 6 100 5 8 =
      some ([.opened, .elem 0 100, .next, .elem 1 108, .next, .more, .closed], true) ∧
    printArray (some 3) false (some fun a => a ≠ 124) (fun _ => false) 6 100 5 8 =
      some ([.opened, .elem 0 100, .next, .elem 1 108, .next, .elem 2 116, .next, .more, .comment 124, .closed], false) ∧
    printArray (some 32) true none (fun i => i = 1) 6 100 5 8 =
      some ([.opened, .elem 0 100, .next, .elem 1 108, .next, .more, .closed], true) := by decide +kernel

/-! ### Vectors -/

/-- the first bytes of each buffer -/
def firsts {α : Type} : List Nat → List (List α) → List (List α)
  | k :: ks, x :: xs => x.take k :: firsts ks xs
  | _, _ => []

theorem shares_zero {α : Type} (xs : List (List α)) : (firsts (iovShares 0 (xs.map List.length)) xs).flatten = [] := by
  induction xs with
  | nil => rfl
  | cons x xs ih =>
    have h : iovShares 0 ((x :: xs).map List.length) = 0 :: iovShares 0 (xs.map List.length) := by
      simp only [List.map_cons, iovShares]
      by_cases hx : x.length > 0
      · rw [if_pos hx, if_pos (by decide)]
      · rw [if_neg hx, if_pos (by decide)]
        have : x.length = 0 := by omega
        rw [this]
    rw [h]
    simpa [firsts] using ih

/-- C37: of the buffers of a vector, the bytes shown are together the first `r` bytes of all of them, as the kernel fills
them; `xs` are the buffers -/
theorem iov_shares {α : Type} (r : Nat) (xs : List (List α)) (hr : r < 2 ^ 64 - 1) :
    (firsts (iovShares r (xs.map List.length)) xs).flatten = xs.flatten.take r := by
  induction xs generalizing r with
  | nil => simp [firsts, iovShares]
  | cons x xs ih =>
    simp only [List.map_cons, iovShares, List.flatten_cons]
    have hr2 : r ≠ 2 ^ 64 - 1 := by omega
    rw [if_pos hr2]
    by_cases h : x.length > r
    · rw [if_pos h, Nat.sub_self]
      simp only [firsts, List.flatten_cons]
      rw [shares_zero, List.append_nil, List.take_append_of_le_length (by omega)]
    · rw [if_neg h]
      simp only [firsts, List.flatten_cons]
      rw [ih _ (by omega), List.take_of_length_le (Nat.le_refl _), List.take_append]
      rw [List.take_of_length_le (by omega : x.length ≤ r)]

/-- C37: without a limit all bytes are shown -/
theorem iov_unlimited {α : Type} (xs : List (List α)) (hx : ∀ x ∈ xs, x.length < 2 ^ 64) :
    (firsts (iovShares (2 ^ 64 - 1) (xs.map List.length)) xs).flatten = xs.flatten := by
  induction xs with
  | nil => rfl
  | cons x xs ih =>
    have hl := hx x List.mem_cons_self
    simp only [List.map_cons, iovShares, List.flatten_cons]
    rw [if_neg (by omega), if_neg (by simp)]
    simp only [firsts, List.flatten_cons]
    rw [ih (fun y hy => hx y (List.mem_cons_of_mem _ hy)), List.take_of_length_le (Nat.le_refl _)]

/-- the bytes dumped -/
def dumped {α : Type} (xs : List (List α)) (l : List (Nat × Nat)) : List (List α) :=
  l.map fun p => (xs.getD p.1 []).take p.2

theorem dump_from {α : Type} (all : List (List α)) : ∀ (xs : List (List α)) (i r : Nat),
    (∀ k, all.getD (i + k) [] = xs.getD k []) → (∀ x ∈ xs, x ≠ []) →
    (dumped all (dumpShares i r (xs.map List.length))).flatten = xs.flatten.take r := by
  intro xs
  induction xs with
  | nil => intro i r _ _; simp [dumped, dumpShares]
  | cons x xs ih =>
    intro i r hi hx
    have hne : x.length ≠ 0 := by
      have := hx x List.mem_cons_self
      intro h
      exact this (List.length_eq_zero_iff.mp h)
    have h0 : all.getD i [] = x := by simpa using hi 0
    simp only [List.map_cons, dumpShares, List.flatten_cons]
    have ih' := fun r => ih (i + 1) r (fun k => by
      have := hi (k + 1)
      rw [show i + (k + 1) = i + 1 + k by omega] at this
      simpa using this) (fun y hy => hx y (List.mem_cons_of_mem _ hy))
    by_cases h : x.length > r
    · rw [if_pos h]
      by_cases hr : r = 0
      · rw [if_pos hr, hr]; simp [dumped]
      · rw [if_neg hr, Nat.sub_self]
        simp only [dumped, List.map_cons, List.flatten_cons]
        rw [h0, List.take_append_of_le_length (by omega)]
        have hz := ih' 0
        simp only [dumped, List.take_zero] at hz
        rw [hz, List.append_nil]
    · rw [if_neg h, if_neg hne]
      simp only [dumped, List.map_cons, List.flatten_cons]
      have hz := ih' (r - x.length)
      simp only [dumped] at hz
      rw [h0, hz, List.take_of_length_le (Nat.le_refl _), List.take_append,
        List.take_of_length_le (by omega : x.length ≤ r)]

/-- C37: the buffers dumped in hexadecimal are together the first `r` bytes, if no buffer is empty -/
theorem dump_shares_partial {α : Type} (r : Nat) (xs : List (List α)) (hx : ∀ x ∈ xs, x ≠ []) :
    (dumped xs (dumpShares 0 r (xs.map List.length))).flatten = xs.flatten.take r :=
  dump_from xs xs 0 r (fun k => by rw [Nat.zero_add]) hx

/-- C37 (finding): an empty buffer ends the dump; what follows is not shown, though it was transferred -/
theorem dump_stops_at_empty :
    (dumped [[1, 2], [], [3, 4, 5]] (dumpShares 0 5 ([[1, 2], [], [3, 4, 5]].map List.length))).flatten = [1, 2] ∧
      [[1, 2], [], [3, 4, 5]].flatten.take 5 = [1, 2, 3, 4, 5] ∧
      (firsts (iovShares 5 ([[1, 2], [], [3, 4, 5]].map List.length)) [[1, 2], [], [3, 4, 5]]).flatten = [1, 2, 3, 4, 5] := by
  decide

/-- 6 bytes of 3 buffers -/
example : iovShares 6 [2, 3, 4] = [2, 3, 1] ∧ dumpShares 0 6 [2, 3, 4] = [(0, 2), (1, 3), (2, 1)] := by decide

end Strace.Show
