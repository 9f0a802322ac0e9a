import Verif.Misc.Scno
/-!
# C53, C56: system call numbers and ioctl names
-/
namespace Strace.Misc

/-- a bijection of the numbers below `n` that is its own inverse -/
def Involution (n : Nat) (f : Nat → Nat) : Prop := ∀ x, x < n → f x < n ∧ f (f x) = x

/-- an involution is one-to-one and onto -/
theorem involution_bijection (n : Nat) (f : Nat → Nat) (h : Involution n f) :
    (∀ x y, x < n → y < n → f x = f y → x = y) ∧ (∀ y, y < n → ∃ x, x < n ∧ f x = y) := by
  constructor
  · intro x y hx hy e
    rw [← (h x hx).2, ← (h y hy).2, e]
  · intro y hy
    exact ⟨f y, (h y hy).1, (h y hy).2⟩

theorem xor_involution (k w : Nat) (hk : k < w) : Involution (2 ^ w) fun x => x ^^^ 2 ^ k := by
  intro x hx
  constructor
  · exact Nat.xor_lt_two_pow hx (Nat.pow_lt_pow_right (by decide) hk)
  · show (x ^^^ 2 ^ k) ^^^ 2 ^ k = x
    rw [Nat.xor_assoc, Nat.xor_self, Nat.xor_zero]

/-- C53: on arm, whatever the first shuffled number and the number of special calls, as long as the ranges are apart -/
theorem arm_bijection (first last w : Nat) (h1 : first + 1 + last < 0x000f0000) (h2 : last < 0xfff0) (hw : 20 ≤ w) :
    Involution (2 ^ w) (shuffleArm first last) := by
  have hp : 2 ^ 20 ≤ 2 ^ w := Nat.pow_le_pow_right (by decide) hw
  intro x hx
  constructor
  · unfold shuffleArm
    split
    · exact hx
    split
    · omega
    split
    · omega
    split
    · omega
    split
    · omega
    · exact hx
  · by_cases c1 : x < first
    · have e : shuffleArm first last x = x := by unfold shuffleArm; rw [if_pos c1]
      rw [e, e]
    by_cases c2 : x = first
    · have e : shuffleArm first last x = 0x000ffff0 := by unfold shuffleArm; rw [if_neg c1, if_pos c2]
      rw [e]
      unfold shuffleArm
      rw [if_neg (by omega), if_neg (by omega), if_pos rfl, c2]
    by_cases c3 : x = 0x000ffff0
    · have e : shuffleArm first last x = first := by unfold shuffleArm; rw [if_neg c1, if_neg c2, if_pos c3]
      rw [e]
      unfold shuffleArm
      rw [if_neg (by omega), if_pos rfl, c3]
    by_cases c4 : x ≥ 0x000f0000 ∧ x ≤ 0x000f0000 + last
    · have e : shuffleArm first last x = x - 0x000f0000 + (first + 1) := by
        unfold shuffleArm; rw [if_neg c1, if_neg c2, if_neg c3, if_pos c4]
      rw [e]
      unfold shuffleArm
      rw [if_neg (by omega), if_neg (by omega), if_neg (by omega), if_neg (by omega), if_pos (by omega)]
      omega
    by_cases c5 : x ≤ first + 1 + last
    · have e : shuffleArm first last x = x + 0x000f0000 - (first + 1) := by
        unfold shuffleArm; rw [if_neg c1, if_neg c2, if_neg c3, if_neg c4, if_pos c5]
      rw [e]
      unfold shuffleArm
      rw [if_neg (by omega), if_neg (by omega), if_neg (by omega), if_pos (by omega)]
      omega
    · have e : shuffleArm first last x = x := by
        unfold shuffleArm; rw [if_neg c1, if_neg c2, if_neg c3, if_neg c4, if_neg c5]
      rw [e, e]

/-- C53: which numbers the special entries of the arm table stand for -/
theorem arm_numbers (first last : Nat) (h1 : first + 1 + last < 0x000f0000) :
    shuffleArm first last first = 0x000ffff0 ∧ ∀ k, k ≤ last → shuffleArm first last (first + 1 + k) = 0x000f0000 + k := by
  constructor
  · unfold shuffleArm
    rw [if_neg (by omega), if_pos rfl]
  · intro k hk
    unfold shuffleArm
    rw [if_neg (by omega), if_neg (by omega), if_neg (by omega), if_neg (by omega), if_pos (by omega)]
    omega

/-- C53: all other architectures but x32 -/
theorem other_bijections (pers first last : Nat) (h1 : first + 1 + last < 0x000f0000) (h2 : last < 0xfff0) :
    Involution (2 ^ 64) (shuffleGeneric · pers) ∧ Involution (2 ^ 64) (shuffleIa64 · pers) ∧
      Involution (2 ^ 64) (shuffleX86 · pers) ∧ Involution (2 ^ 64) (shuffleAarch64 first last · pers) := by
  refine ⟨fun x hx => ⟨hx, rfl⟩, xor_involution 10 64 (by decide), ?_, ?_⟩
  · by_cases h : pers = 2
    · have : (shuffleX86 · pers) = fun x => x ^^^ 2 ^ 30 := by funext x; unfold shuffleX86; rw [if_pos h]
      rw [this]
      exact xor_involution 30 64 (by decide)
    · have : (shuffleX86 · pers) = fun x => x := by funext x; unfold shuffleX86; rw [if_neg h]
      rw [this]
      exact fun x hx => ⟨hx, rfl⟩
  · by_cases h : pers = 1
    · have : (shuffleAarch64 first last · pers) = shuffleArm first last := by
        funext x; unfold shuffleAarch64; rw [if_pos h]
      rw [this]
      exact arm_bijection first last 64 h1 h2 (by decide)
    · have : (shuffleAarch64 first last · pers) = fun x => x := by
        funext x; unfold shuffleAarch64; rw [if_neg h]
      rw [this]
      exact fun x hx => ⟨hx, rfl⟩

theorem xor_bit (k n : Nat) (h : n < 2 ^ k) : n ^^^ 2 ^ k = 2 ^ k + n := by
  have := Nat.two_pow_add_eq_or_of_lt h 1
  rw [Nat.mul_one] at this
  rw [this]
  apply Nat.eq_of_testBit_eq
  intro i
  rw [Nat.testBit_xor, Nat.testBit_or, Nat.testBit_two_pow]
  by_cases hi : k = i
  · subst hi
    rw [Nat.testBit_lt_two_pow h]
    simp
  · simp [hi]

/-- C53: entry `n` of the x32 table stands for the number with bit 30 set, of the ia64 table for 1024 more -/
theorem table_numbers (n : Nat) :
    (n < 2 ^ 30 → shuffleX86 n 2 = 2 ^ 30 + n ∧ shuffleX32 n 0 = 2 ^ 30 + n) ∧ (n < 2 ^ 10 → shuffleIa64 n 0 = 2 ^ 10 + n) := by
  constructor
  · intro h
    unfold shuffleX86 shuffleX32
    rw [if_pos rfl, if_pos ⟨rfl, by omega⟩]
    exact ⟨xor_bit 30 n h, xor_bit 30 n h⟩
  · intro h
    exact xor_bit 10 n h

/-- C53: on x32 all numbers but two correspond one to one -/
theorem x32_bijection_partial (pers x : Nat) (hx : x < 2 ^ 64) (h1 : x ≠ 2 ^ 64 - 1 - 2 ^ 30) :
    shuffleX32 x pers < 2 ^ 64 ∧ shuffleX32 (shuffleX32 x pers) pers = x := by
  unfold shuffleX32
  by_cases hp : pers = 0 ∧ x ≠ 2 ^ 64 - 1
  · rw [if_pos hp]
    have hi := xor_involution 30 64 (by decide) x hx
    have hne : x ^^^ 2 ^ 30 ≠ 2 ^ 64 - 1 := by
      intro h
      apply h1
      rw [← hi.2]
      show (x ^^^ 2 ^ 30) ^^^ 2 ^ 30 = _
      rw [h]
      decide
    rw [if_pos ⟨hp.1, hne⟩]
    exact hi
  · rw [if_neg hp, if_neg hp]
    exact ⟨hx, rfl⟩

/-- C53 (finding): on x32 the number -1 with bit 30 cleared and -1 are shown alike -/
theorem x32_clash : shuffleX32 (2 ^ 64 - 1 - 2 ^ 30) 0 = shuffleX32 (2 ^ 64 - 1) 0 := by decide

/-- the arm values: 500 and 6 -/
example : shuffleArm 500 6 0xf0002 = 503 ∧ shuffleArm 500 6 503 = 0xf0002 ∧ shuffleArm 500 6 500 = 0xffff0 ∧
    shuffleArm 500 6 507 = 0xf0006 ∧ shuffleArm 500 6 508 = 508 := by decide

/-! ### ioctl names -/

/-- what `bsearch` may return for a sorted table: some entry with the code, or nothing if there is none -/
def Found (tab : List (Nat × String)) (code : Nat) : Option Nat → Prop
  | some i => ∃ s, tab[i]? = some (code, s)
  | none => ∀ e ∈ tab, e.1 ≠ code

def Sorted (tab : List (Nat × String)) : Prop := tab.Pairwise fun a b => a.1 ≤ b.1

theorem sorted_get (tab : List (Nat × String)) (h : Sorted tab) (i j : Nat) (hij : i ≤ j) (hj : j < tab.length) :
    (tab.getD i (0, "")).1 ≤ (tab.getD j (0, "")).1 := by
  have hi : i < tab.length := by omega
  rw [List.getD_eq_getElem?_getD, List.getD_eq_getElem?_getD, List.getElem?_eq_getElem hi, List.getElem?_eq_getElem hj]
  show tab[i].1 ≤ tab[j].1
  rcases Nat.eq_or_lt_of_le hij with e | e
  · subst e; exact Nat.le_refl _
  · exact List.pairwise_iff_getElem.mp h i j hi hj e

theorem step_back (tab : List (Nat × String)) (code : Nat) (h : Sorted tab) : ∀ i, i < tab.length →
    (tab.getD i (0, "")).1 = code →
    stepBack tab code i ≤ i ∧ (tab.getD (stepBack tab code i) (0, "")).1 = code ∧
      ∀ k, k < stepBack tab code i → (tab.getD k (0, "")).1 ≠ code := by
  intro i
  induction i with
  | zero => intro hl hc; exact ⟨Nat.le_refl _, hc, by simp [stepBack]⟩
  | succ i ih =>
    intro hl hc
    unfold stepBack
    by_cases hd : (tab.getD i (0, "")).1 ≠ code
    · rw [if_pos hd]
      refine ⟨Nat.le_refl _, hc, ?_⟩
      intro k hk he
      have h1 := sorted_get tab h k i (by omega) (by omega)
      have h2 := sorted_get tab h i (i + 1) (by omega) hl
      omega
    · rw [if_neg hd]
      have := ih (by omega) (by simpa using hd)
      exact ⟨by omega, this.2⟩

theorem filter_eq_nil_of_first (tab : List (Nat × String)) (code s : Nat)
    (h : ∀ k, k < s → (tab.getD k (0, "")).1 ≠ code) : (tab.take s).filter (fun e => e.1 = code) = [] := by
  rw [List.filter_eq_nil_iff]
  intro e he
  obtain ⟨k, hk, rfl⟩ := List.mem_iff_getElem.mp he
  have hk' : k < s ∧ k < tab.length := by
    rw [List.length_take] at hk
    omega
  have := h k hk'.1
  rw [List.getD_eq_getElem?_getD, List.getElem?_eq_getElem hk'.2] at this
  rw [List.getElem_take]
  simpa using this

theorem names_from (tab : List (Nat × String)) (code : Nat) (h : Sorted tab) : ∀ fuel i, i < tab.length →
    tab.length ≤ fuel + i → (tab.getD i (0, "")).1 = code →
    namesFrom tab i fuel = ((tab.drop i).filter fun e => e.1 = code).map (·.2) := by
  intro fuel
  induction fuel with
  | zero => intro i h1 h2; omega
  | succ fuel ih =>
    intro i h1 h2 hc
    have hget : tab.getD i (0, "") = tab[i] := by
      rw [List.getD_eq_getElem?_getD, List.getElem?_eq_getElem h1]; rfl
    unfold namesFrom
    rw [List.drop_eq_getElem_cons h1, List.filter_cons_of_pos (by rw [← hget]; simpa using hc), List.map_cons, ← hget]
    congr 1
    by_cases hn : i + 1 < tab.length ∧ (tab.getD (i + 1) (0, "")).1 = (tab.getD i (0, "")).1
    · rw [if_pos hn]
      exact ih (i + 1) hn.1 (by omega) (by rw [hn.2, hc])
    · rw [if_neg hn]
      have : (tab.drop (i + 1)).filter (fun e => e.1 = code) = [] := by
        rw [List.filter_eq_nil_iff]
        intro e he hec
        obtain ⟨k, hk, rfl⟩ := List.mem_iff_getElem.mp he
        rw [List.length_drop] at hk
        rw [List.getElem_drop] at hec
        have hb := sorted_get tab h (i + 1) (i + 1 + k) (by omega) (by omega)
        have ha := sorted_get tab h i (i + 1) (by omega) (by omega)
        have he2 : (tab.getD (i + 1 + k) (0, "")).1 = code := by
          rw [List.getD_eq_getElem?_getD, List.getElem?_eq_getElem (by omega)]
          simpa using hec
        exact hn ⟨by omega, by omega⟩
      rw [this]
      rfl

/-- C56: the names printed are those of all the entries with the command number, in the order of the table, whichever
entry the binary search finds -/
theorem ioctl_names (tab : List (Nat × String)) (h : Sorted tab) (arg : Nat) (found : Option Nat)
    (hf : Found tab (arg % 2 ^ 32) found) :
    ioctlNames tab found arg = (tab.filter fun e => e.1 = arg % 2 ^ 32).map (·.2) := by
  cases found with
  | none =>
    have : tab.filter (fun e => e.1 = arg % 2 ^ 32) = [] := by
      rw [List.filter_eq_nil_iff]
      intro e he
      simpa using hf e he
    rw [this]
    rfl
  | some i =>
    obtain ⟨s, hs⟩ := hf
    have hi : i < tab.length := (List.getElem?_eq_some_iff.mp hs).1
    have hc : (tab.getD i (0, "")).1 = arg % 2 ^ 32 := by rw [List.getD_eq_getElem?_getD, hs]; rfl
    obtain ⟨h1, h2, h3⟩ := step_back tab (arg % 2 ^ 32) h i hi hc
    show namesFrom tab (stepBack tab (arg % 2 ^ 32) i) tab.length = _
    rw [names_from tab (arg % 2 ^ 32) h tab.length _ (by omega) (by omega) h2]
    conv => rhs; rw [← List.take_append_drop (stepBack tab (arg % 2 ^ 32) i) tab]
    rw [List.filter_append, filter_eq_nil_of_first tab _ _ h3, List.nil_append]

/-- three names of a command, found in the middle -/
example : ioctlNames [(1, "A"), (5, "B"), (5, "C"), (5, "D"), (7, "E")] (some 2) (2 ^ 32 + 5) = ["B", "C", "D"] := by decide

end Strace.Misc
