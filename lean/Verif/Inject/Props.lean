import Verif.Inject.Model
import Verif.StringToUint.Props
import Mathlib.Data.List.Induction
/-
C06: `when=` is parsed as documented.  C07: the schedule.  C08: independence between calls.
-/
namespace Strace.Inject
open StringToUint

/-! ### C06: the documented grammar -/

/-- `s` is a number (blanks and sign as `strtoll` takes them, then digits) of value `v ≤ 65535` -/
def Num (s : List Nat) (v : Nat) : Prop := Accepts s 65535 [] v []

/-- strace(1): `when=F`, `F+`, `F+S`, `F..L`, `F..L+`, `F..L+S`.  43 is '+', 46 is '.'; the last index
65535 stands for "no upper limit", the step 0 for "once". -/
inductive When : List Nat → Sched → Prop
  | once {f F} : Num f F → 1 ≤ F → When f ⟨F, 65535, 0⟩
  | plus {f F} : Num f F → 1 ≤ F → When (f ++ [43]) ⟨F, 65535, 1⟩
  | plusStep {f F s S} : Num f F → 1 ≤ F → Num s S → 1 ≤ S → When (f ++ 43 :: s) ⟨F, 65535, S⟩
  | range {f F l L} : Num f F → 1 ≤ F → Num l L → F ≤ L → L ≤ 65534 →
      When (f ++ 46 :: 46 :: l) ⟨F, L, 1⟩
  | rangePlus {f F l L} : Num f F → 1 ≤ F → Num l L → F ≤ L → L ≤ 65534 →
      When (f ++ 46 :: 46 :: (l ++ [43])) ⟨F, L, 1⟩
  | rangeStep {f F l L s S} : Num f F → 1 ≤ F → Num l L → F ≤ L → L ≤ 65534 → Num s S → 1 ≤ S →
      When (f ++ 46 :: 46 :: (l ++ 43 :: s)) ⟨F, L, S⟩

theorem accepts_iff_num (s e : List Nat) (he : ∀ c ∈ e, isDigit c = false) (v : Nat) (rest : List Nat) :
    Accepts s 65535 e v rest ↔ ∃ f, s = f ++ rest ∧ Num f v ∧ (∀ c t, rest = c :: t → c ∈ e) := by
  constructor
  · rintro ⟨ws, sg, ds, e1, h1, h2, h3, h4, h5, h6, h7, h8, h9⟩
    refine ⟨ws ++ sg ++ ds, by rw [e1], ⟨ws, sg, ds, by simp, h1, h2, h3, h4, by simp, h6, h7, h8, h9⟩, ?_⟩
    intro c t h; exact (h5 c t h).2
  · rintro ⟨f, e1, ⟨ws, sg, ds, e2, h1, h2, h3, h4, _, h6, h7, h8, h9⟩, hr⟩
    refine ⟨ws, sg, ds, by rw [e1, e2]; simp, h1, h2, h3, h4, ?_, h6, h7, h8, h9⟩
    intro c t h; exact ⟨he c (hr c t h), hr c t h⟩

theorem upto_iff (s : List Nat) (v : Int) :
    stringToUintUpto s 0xffff = some v ↔ ∃ n : Nat, v = n ∧ Num s n := by
  unfold stringToUintUpto
  rw [Option.map_eq_some_iff]
  constructor
  · rintro ⟨⟨w, r⟩, h, rfl⟩
    obtain ⟨n, h1, h2⟩ := (stringToUintEx_iff s 65535 none w r).1 h
    obtain ⟨f, h3, h4, h5⟩ := (accepts_iff_num s [] (by simp) n r).1 h2
    have hr : r = [] := by
      cases r with
      | nil => rfl
      | cons c t => have := h5 c t rfl; simp at this
    subst hr
    simp at h3
    subst h3
    exact ⟨n, h1, h4⟩
  · rintro ⟨n, rfl, h⟩
    exact ⟨(n, []), (stringToUintEx_iff s 65535 none n []).2 ⟨n, rfl, h⟩, rfl⟩

theorem num_ne_nil {s : List Nat} {v : Nat} (h : Num s v) : s ≠ [] := by
  obtain ⟨ws, sg, ds, e, _, _, h3, _⟩ := h
  intro h0; rw [h0] at e
  have := congrArg List.length e; simp at this
  exact h3 (List.length_eq_zero_iff.mp (by omega))

/-- the step part -/
theorem parseStep_iff (F L : Nat) (rest : List Nat) (r : Sched)
    (hr : ∀ c t, rest = c :: t → c = 43) :
    parseStep F L rest = some r ↔
      (rest = [] ∧ r = ⟨F, L, if L = 65535 then 0 else 1⟩) ∨ (rest = [43] ∧ r = ⟨F, L, 1⟩) ∨
      ∃ s S, rest = 43 :: s ∧ Num s S ∧ 1 ≤ S ∧ r = ⟨F, L, S⟩ := by
  unfold parseStep
  cases rest with
  | nil =>
    show (if L = lastInf then _ else _) = _ ↔ _
    have hi : lastInf = 65535 := rfl
    rw [hi]
    by_cases hL : L = 65535
    · rw [if_pos hL, if_pos hL]
      constructor
      · intro h; injection h with h; exact Or.inl ⟨rfl, h.symm⟩
      · rintro (⟨_, h⟩ | ⟨h, _⟩ | ⟨s, S, h, _⟩)
        · rw [h]
        · cases h
        · cases h
    · rw [if_neg hL, if_neg hL]
      constructor
      · intro h; injection h with h; exact Or.inl ⟨rfl, h.symm⟩
      · rintro (⟨_, h⟩ | ⟨h, _⟩ | ⟨s, S, h, _⟩)
        · rw [h]
        · cases h
        · cases h
  | cons c t =>
    have hc := hr c t rfl
    subst hc
    show (if t = [] then _ else _) = _ ↔ _
    by_cases ht : t = []
    · subst ht
      rw [if_pos rfl]
      constructor
      · intro h; injection h with h; exact Or.inr (Or.inl ⟨rfl, h.symm⟩)
      · rintro (⟨h, _⟩ | ⟨_, h⟩ | ⟨s, S, h, hn, _⟩)
        · cases h
        · rw [h]
        · injection h with _ h; subst h; exact absurd rfl (num_ne_nil hn)
    · rw [if_neg ht]
      constructor
      · intro h
        cases hp : stringToUintUpto t 0xffff with
        | none => rw [hp] at h; cases h
        | some v =>
          rw [hp] at h
          obtain ⟨n, rfl, hn⟩ := (upto_iff t v).1 hp
          dsimp only at h
          split at h
          · cases h
          · rename_i h1
            injection h with h
            exact Or.inr (Or.inr ⟨t, n, rfl, hn, by omega, by rw [← h]; simp⟩)
      · rintro (⟨h, _⟩ | ⟨h, _⟩ | ⟨s, S, h, hn, h1, h2⟩)
        · cases h
        · injection h with _ h; exact absurd h ht
        · injection h with _ h
          subst h
          rw [(upto_iff t S).2 ⟨S, rfl, hn⟩]
          dsimp only
          rw [if_neg (by omega), h2]; simp

theorem ex_iff (s e : List Nat) (he : ∀ c ∈ e, isDigit c = false) (v : Int) (rest : List Nat) :
    stringToUintEx s 0xffff (some e) = some (v, rest) ↔
      ∃ (n : Nat) (f : List Nat), v = n ∧ s = f ++ rest ∧ Num f n ∧ (∀ c t, rest = c :: t → c ∈ e) := by
  rw [stringToUintEx_iff]
  constructor
  · rintro ⟨n, h1, h2⟩
    obtain ⟨f, h3⟩ := (accepts_iff_num s e he n rest).1 h2
    exact ⟨n, f, h1, h3⟩
  · rintro ⟨n, f, h1, h3⟩
    exact ⟨n, h1, (accepts_iff_num s e he n rest).2 ⟨f, h3⟩⟩

/-- C06.  A `when=` value is accepted exactly when it is in the documented grammar with the documented
limits, and yields exactly that first, last and step. -/
theorem parseWhen_iff (val : List Nat) (r : Sched) : parseWhen val = some r ↔ When val r := by
  have d1 : ∀ c ∈ ([43, 46] : List Nat), isDigit c = false := by decide
  have d2 : ∀ c ∈ ([43] : List Nat), isDigit c = false := by decide
  constructor
  · intro h
    unfold parseWhen at h
    cases hp : stringToUintEx val 0xffff (some [43, 46]) with
    | none => rw [hp] at h; cases h
    | some x =>
      obtain ⟨v, rest⟩ := x
      rw [hp] at h
      obtain ⟨F, f, rfl, rfl, hF, hr⟩ := (ex_iff val _ d1 v rest).1 hp
      dsimp only at h
      split at h
      · cases h
      rename_i h1
      have h1 : 1 ≤ F := by omega
      simp only [Int.toNat_natCast] at h
      cases rest with
      | nil =>
        rw [parseLast] at h
        rw [parseStep_iff F lastInf [] r (by simp)] at h
        rcases h with ⟨_, h⟩ | ⟨h, _⟩ | ⟨s, S, h, _⟩
        · rw [h, List.append_nil]; exact When.once hF h1
        · cases h
        · cases h
      | cons c t =>
        have hc := hr c t rfl
        unfold parseLast at h
        dsimp only at h
        by_cases h46 : c = 46
        · subst h46
          rw [if_pos rfl] at h
          cases t with
          | nil => cases h
          | cons c2 val2 =>
            dsimp only at h
            split at h
            · cases h
            rename_i hc2
            have hc2 : c2 = 46 := by simpa using hc2
            subst hc2
            cases hp2 : stringToUintEx val2 0xffff (some [43]) with
            | none => rw [hp2] at h; cases h
            | some x =>
              obtain ⟨w, rest2⟩ := x
              rw [hp2] at h
              obtain ⟨L, l, rfl, rfl, hL, hr2⟩ := (ex_iff val2 _ d2 w rest2).1 hp2
              dsimp only at h
              split at h
              · cases h
              rename_i hlt
              have hL' : L ≤ 65535 := by
                obtain ⟨_, _, _, _, _, _, _, _, _, _, h, _⟩ := hL; exact h
              have hne : L ≠ 65535 := by
                intro h0; apply hlt; right; rw [h0]; rfl
              simp only [Int.toNat_natCast] at h
              rw [parseStep_iff F L rest2 r (by intro c t h; have := hr2 c t h; simpa using this)] at h
              have g1 : F ≤ L := by omega
              have g2 : L ≤ 65534 := by omega
              rcases h with ⟨h2, h⟩ | ⟨h2, h⟩ | ⟨s, S, h2, hS, hS1, h⟩
              · subst h2
                rw [h, if_neg hne, List.append_nil]; exact When.range hF h1 hL g1 g2
              · subst h2; rw [h]; exact When.rangePlus hF h1 hL g1 g2
              · subst h2; rw [h]; exact When.rangeStep hF h1 hL g1 g2 hS hS1
        · have hc' : c = 43 := by simpa [h46] using hc
          subst hc'
          rw [if_neg h46] at h
          rw [parseStep_iff F lastInf _ r (by intro c t h; injection h with h _; exact h.symm)] at h
          rcases h with ⟨h2, h⟩ | ⟨h2, h⟩ | ⟨s, S, h2, hS, hS1, h⟩
          · cases h2
          · injection h2 with _ h2; subst h2; rw [h]; exact When.plus hF h1
          · injection h2 with _ h2; subst h2; rw [h]; exact When.plusStep hF h1 hS hS1
  · have start : ∀ (f rest : List Nat) (F : Nat), Num f F → 1 ≤ F →
        (∀ c t, rest = c :: t → c ∈ ([43, 46] : List Nat)) →
        parseWhen (f ++ rest) = parseLast F rest := by
      intro f rest F hF h1 hr
      unfold parseWhen
      rw [(ex_iff (f ++ rest) _ d1 F rest).2 ⟨F, f, rfl, rfl, hF, hr⟩]
      show (if (F : Int) < 1 then none else parseLast F rest) = _
      rw [if_neg (by omega)]
    have range : ∀ (f l rest : List Nat) (F L : Nat), Num f F → 1 ≤ F → Num l L → F ≤ L → L ≤ 65534 →
        (∀ c t, rest = c :: t → c ∈ ([43] : List Nat)) →
        parseWhen (f ++ 46 :: 46 :: (l ++ rest)) = parseStep F L rest := by
      intro f l rest F L hF h1 hL g1 g2 hr
      rw [start f _ F hF h1 (by intro c t h; injection h with h _; subst h; simp)]
      unfold parseLast
      dsimp only
      rw [if_pos rfl]
      rw [if_neg (by simp), (ex_iff (l ++ rest) _ d2 L rest).2 ⟨L, l, rfl, rfl, hL, hr⟩]
      dsimp only
      rw [if_neg (by unfold lastInf; omega)]; rfl
    intro h
    cases h with
    | @once f F hF h1 =>
      have := start val [] F hF h1 (by simp)
      rw [List.append_nil] at this
      rw [this, parseLast, parseStep_iff _ _ _ _ (by simp)]
      exact Or.inl ⟨rfl, rfl⟩
    | @plus f F hF h1 =>
      rw [start f _ F hF h1 (by intro c t h; injection h with h _; subst h; simp)]
      unfold parseLast
      dsimp only
      rw [if_neg (by decide), parseStep_iff _ _ _ _ (by simp)]
      exact Or.inr (Or.inl ⟨rfl, rfl⟩)
    | @plusStep f F s S hF h1 hS hS1 =>
      rw [start f _ F hF h1 (by intro c t h; injection h with h _; subst h; simp)]
      unfold parseLast
      dsimp only
      rw [if_neg (by decide), parseStep_iff _ _ _ _ (by intro c t h; injection h with h _; exact h.symm)]
      exact Or.inr (Or.inr ⟨s, S, rfl, hS, hS1, rfl⟩)
    | @range f F l L hF h1 hL g1 g2 =>
      have := range f l [] F L hF h1 hL g1 g2 (by simp)
      rw [List.append_nil] at this
      rw [this, parseStep_iff _ _ _ _ (by simp)]
      exact Or.inl ⟨rfl, by rw [if_neg (by omega)]⟩
    | @rangePlus f F l L hF h1 hL g1 g2 =>
      rw [range f l [43] F L hF h1 hL g1 g2 (by simp), parseStep_iff _ _ _ _ (by simp)]
      exact Or.inr (Or.inl ⟨rfl, rfl⟩)
    | @rangeStep f F l L s S hF h1 hL g1 g2 hS hS1 =>
      rw [range f l _ F L hF h1 hL g1 g2 (by intro c t h; injection h with h _; subst h; simp),
        parseStep_iff _ _ _ _ (by intro c t h; injection h with h _; exact h.symm)]
      exact Or.inr (Or.inr ⟨s, S, rfl, hS, hS1, rfl⟩)

/-- "3..17+4" -/
example : parseWhen [51, 46, 46, 49, 55, 43, 52] = some ⟨3, 17, 4⟩ := by decide +kernel
/-- "3.17", "0", "9..3", "1..65535" and "2+0" are rejected -/
example : parseWhen [51, 46, 49, 55] = none ∧ parseWhen [48] = none ∧ parseWhen [57, 46, 46, 51] = none ∧
    parseWhen [49, 46, 46, 54, 53, 53, 51, 53] = none ∧ parseWhen [50, 43, 48] = none := by decide +kernel

/-- Every schedule the parser can produce satisfies the premises of C07. -/
theorem parseWhen_bounds (val : List Nat) (r : Sched) (h : parseWhen val = some r) :
    1 ≤ r.first ∧ r.first ≤ 65535 ∧ r.first ≤ r.last ∧ r.last ≤ 65535 ∧ r.step ≤ 65535 := by
  have b : ∀ {s v}, Num s v → v ≤ 65535 := by
    rintro s v ⟨_, _, _, _, _, _, _, _, _, _, h, _⟩; exact h
  cases (parseWhen_iff val r).1 h with
  | once a1 a2 => have := b a1; dsimp only; omega
  | plus a1 a2 => have := b a1; dsimp only; omega
  | plusStep a1 a2 a3 a4 => have := b a1; have := b a3; dsimp only; omega
  | range a1 a2 a3 a4 a5 => have := b a1; dsimp only; omega
  | rangePlus a1 a2 a3 a4 a5 => have := b a1; dsimp only; omega
  | rangeStep a1 a2 a3 a4 a5 a6 a7 => have := b a1; have := b a6; dsimp only; omega

/-! ### C07: the schedule -/

/-- The documented meaning of `F..L+S`: the `k`-th invocation (from 1) is hit. -/
def Due (F L S k : Nat) : Prop :=
  F ≤ k ∧ (L = 65535 ∨ k ≤ L) ∧ (if S = 0 then k = F else S ∣ k - F)

/-- the counters after `k` invocations, in closed form -/
def after' (o : Sched) (k : Nat) : Sched :=
  let j := if o.last = 65535 then k else min k o.last
  ⟨if j < o.first then o.first - j else if o.step = 0 then 0 else o.step - (j - o.first) % o.step,
    if o.last = 65535 then 65535 else if o.step = 0 then o.last - min k o.first else o.last - k, o.step⟩

theorem mod_succ_cases (a S : Nat) (hS : 0 < S) :
    ((a % S + 1 = S) ∧ (a + 1) % S = 0) ∨ (a % S + 1 < S ∧ (a + 1) % S = a % S + 1) := by
  have h1 := Nat.mod_lt a hS
  have h2 := Nat.div_add_mod a S
  by_cases h : a % S + 1 = S
  · left
    refine ⟨h, ?_⟩
    have : a + 1 = S * (a / S + 1) := by rw [Nat.mul_add]; omega
    rw [this, Nat.mul_mod_right]
  · right
    refine ⟨by omega, ?_⟩
    have : a + 1 = (a % S + 1) + S * (a / S) := by omega
    rw [this, Nat.add_mul_mod_self_left, Nat.mod_eq_of_lt (by omega)]

theorem dec16_eq (x : Nat) (h1 : 1 ≤ x) (h2 : x ≤ 65535) : dec16 x = x - 1 := by
  unfold dec16; omega

theorem sched_ext (a b c a' b' c' : Nat) (h1 : a = a') (h2 : b = b') (h3 : c = c') :
    (⟨a, b, c⟩ : Sched) = ⟨a', b', c'⟩ := by subst h1 h2 h3; rfl

/-- `tick` with its counters unfolded -/
theorem tick_cases (f l s : Nat) (hf : f ≤ 65535) (hl : l ≤ 65535) :
    tick ⟨f, l, s⟩ =
      if f = 0 ∨ l = 0 then (⟨f, l, s⟩, false)
      else if f = 1 then (⟨s, if l = 65535 then l else l - 1, s⟩, true)
      else (⟨f - 1, if l = 65535 then l else l - 1, s⟩, false) := by
  unfold tick
  dsimp only
  by_cases h0 : f = 0 ∨ l = 0
  · rw [if_pos h0, if_pos h0]
  rw [if_neg h0, if_neg h0, dec16_eq f (by omega) hf]
  have e : (if l ≠ lastInf then dec16 l else l) = if l = 65535 then l else l - 1 := by
    unfold lastInf
    by_cases h : l = 65535
    · simp [h]
    · rw [if_pos h, if_neg h, dec16_eq l (by omega) hl]
  rw [e]
  by_cases h1 : f = 1
  · rw [if_neg (by omega), if_pos h1]
  · rw [if_pos (by omega), if_neg h1]

/-- the first counter of the closed form, one invocation later -/
theorem first_step (F S j : Nat) :
    let f := if j < F then F - j else if S = 0 then 0 else S - (j - F) % S
    let f' := if j + 1 < F then F - (j + 1) else if S = 0 then 0 else S - (j + 1 - F) % S
    (f = 0 → f' = 0 ∧ S = 0 ∧ F ≤ j) ∧
    (f = 1 → f' = S ∧ (if S = 0 then j + 1 = F else S ∣ j + 1 - F) ∧ F ≤ j + 1) ∧
    (2 ≤ f → f' = f - 1 ∧ ¬ (F ≤ j + 1 ∧ (if S = 0 then j + 1 = F else S ∣ j + 1 - F))) := by
  dsimp only
  by_cases hk : j < F
  · rw [if_pos hk]
    by_cases hk1 : j + 1 = F
    · have e : j + 1 - F = 0 := by omega
      rw [if_neg (by omega), e, Nat.zero_mod]
      refine ⟨by omega, fun _ => ⟨?_, ?_, by omega⟩, by omega⟩
      · split <;> omega
      · split
        · exact hk1
        · exact Nat.dvd_zero S
    · rw [if_pos (by omega)]
      exact ⟨by omega, by omega, fun _ => ⟨by omega, by omega⟩⟩
  · rw [if_neg hk, if_neg (show ¬ j + 1 < F by omega)]
    by_cases hS : S = 0
    · subst hS; simp; omega
    · simp only [hS, if_false]
      have hlt := Nat.mod_lt (j - F) (Nat.pos_of_ne_zero hS)
      have he : j + 1 - F = j - F + 1 := by omega
      rw [he]
      rcases mod_succ_cases (j - F) S (Nat.pos_of_ne_zero hS) with ⟨a, b⟩ | ⟨a, b⟩
      · rw [b]
        exact ⟨by omega, fun _ => ⟨by omega, Nat.dvd_of_mod_eq_zero b, by omega⟩, by omega⟩
      · rw [b]
        refine ⟨by omega, by omega, fun _ => ⟨by omega, ?_⟩⟩
        rintro ⟨_, hd⟩
        have := Nat.mod_eq_zero_of_dvd hd
        omega

/-- one invocation, from the closed form -/
theorem tick_after (o : Sched) (h1 : 1 ≤ o.first) (h2 : o.first ≤ o.last) (h3 : o.last ≤ 65535)
    (h4 : o.step ≤ 65535) (k : Nat) :
    (tick (after' o k)).1 = after' o (k + 1) ∧
    ((tick (after' o k)).2 = true ↔ Due o.first o.last o.step (k + 1)) := by
  obtain ⟨F, L, S⟩ := o
  dsimp only at h1 h2 h3 h4
  unfold after' Due
  dsimp only
  by_cases hL : L = 65535
  · simp only [hL, if_true, true_or, true_and]
    obtain ⟨a0, a1, a2⟩ := first_step F S k
    revert a0 a1 a2
    have hb : (if k < F then F - k else if S = 0 then 0 else S - (k - F) % S) ≤ 65535 := by
      split
      · omega
      · split <;> omega
    revert hb
    generalize (if k < F then F - k else if S = 0 then 0 else S - (k - F) % S) = f
    generalize (if k + 1 < F then F - (k + 1) else if S = 0 then 0 else S - (k + 1 - F) % S) = f'
    intro hb a0 a1 a2
    rw [tick_cases _ _ _ hb (by omega)]
    by_cases hf0 : f = 0
    · obtain ⟨b1, b2, b3⟩ := a0 hf0
      rw [if_pos (Or.inl hf0)]
      refine ⟨sched_ext _ _ _ _ _ _ (by omega) rfl rfl, ?_⟩
      rw [if_pos b2]
      simp; omega
    · rw [if_neg (by omega)]
      by_cases hf1 : f = 1
      · obtain ⟨b1, b2, b3⟩ := a1 hf1
        rw [if_pos hf1]
        exact ⟨sched_ext _ _ _ _ _ _ (by omega) (by simp) rfl, ⟨fun _ => ⟨b3, b2⟩, fun _ => rfl⟩⟩
      · obtain ⟨b1, b2⟩ := a2 (by omega)
        rw [if_neg hf1]
        refine ⟨sched_ext _ _ _ _ _ _ (by omega) (by simp) rfl, ?_⟩
        constructor
        · intro h; cases h
        · intro h; exact absurd h b2
  · simp only [hL, if_false, false_or]
    by_cases hkL : L ≤ k
    · have e1 : min k L = L := by omega
      have e2 : min (k + 1) L = L := by omega
      have e3 : L - k = 0 := by omega
      have e4 : L - (k + 1) = 0 := by omega
      have e5 : min k F = F := by omega
      have e6 : min (k + 1) F = F := by omega
      simp only [e1, e2, e3, e4, e5, e6]
      have hlt : ¬ L < F := by omega
      simp only [hlt, if_false]
      have hb : (if S = 0 then 0 else S - (L - F) % S) ≤ 65535 := by split <;> omega
      rw [tick_cases _ _ _ hb (by split <;> omega)]
      rw [if_pos (by by_cases hS : S = 0 <;> simp [hS])]
      exact ⟨rfl, by simp; omega⟩
    · have e1 : min k L = k := by omega
      have e2 : min (k + 1) L = k + 1 := by omega
      simp only [e1, e2]
      obtain ⟨a0, a1, a2⟩ := first_step F S k
      have hb : (if k < F then F - k else if S = 0 then 0 else S - (k - F) % S) ≤ 65535 := by
        split
        · omega
        · split <;> omega
      have hz : k < F → (if k < F then F - k else if S = 0 then 0 else S - (k - F) % S) ≠ 0 := by
        intro h; rw [if_pos h]; omega
      have hz' : S = 0 → (if k < F then F - k else if S = 0 then 0 else S - (k - F) % S) ≠ 0 → k < F := by
        intro hS h
        by_cases hk : k < F
        · exact hk
        · rw [if_neg hk, if_pos hS] at h; exact absurd rfl h
      revert hz hz' a0 a1 a2 hb
      generalize (if k < F then F - k else if S = 0 then 0 else S - (k - F) % S) = f
      generalize (if k + 1 < F then F - (k + 1) else if S = 0 then 0 else S - (k + 1 - F) % S) = f'
      intro a0 a1 a2 hb hz hz'
      have hl1 : (if S = 0 then L - min k F else L - k) ≤ 65535 := by split <;> omega
      rw [tick_cases _ _ _ hb hl1]
      by_cases hf0 : f = 0
      · obtain ⟨b1, b2, b3⟩ := a0 hf0
        rw [if_pos (Or.inl hf0)]
        refine ⟨sched_ext _ _ _ _ _ _ (by omega) (by rw [if_pos b2, if_pos b2]; omega) rfl, ?_⟩
        constructor
        · intro h; cases h
        · rintro ⟨_, _, h⟩; rw [if_pos b2] at h; omega
      · have hl0 : (if S = 0 then L - min k F else L - k) = L - k := by
          split
          · rename_i hS; have := hz' hS hf0; omega
          · rfl
        have hl2 : (if S = 0 then L - min (k + 1) F else L - (k + 1)) = L - k - 1 := by
          split
          · rename_i hS; have := hz' hS hf0; omega
          · omega
        rw [hl0, hl2, if_neg (by omega), if_neg (by omega : ¬ L - k = 65535)]
        by_cases hf1 : f = 1
        · obtain ⟨b1, b2, b3⟩ := a1 hf1
          rw [if_pos hf1]
          exact ⟨sched_ext _ _ _ _ _ _ (by omega) rfl rfl,
            ⟨fun _ => ⟨b3, by omega, b2⟩, fun _ => rfl⟩⟩
        · obtain ⟨b1, b2⟩ := a2 (by omega)
          rw [if_neg hf1]
          refine ⟨sched_ext _ _ _ _ _ _ (by omega) rfl rfl, ?_⟩
          constructor
          · intro h; cases h
          · rintro ⟨h, _, h'⟩; exact absurd ⟨h, h'⟩ b2

/-- the counters of one (tracee, personality, syscall) after a history of matching invocations -/
def count (h : List (Nat × Nat × Nat)) (x : Nat × Nat × Nat) : Nat := h.count x

/-- all counters of all tracees after a history -/
def runH (rules : Nat → Nat → Sched) (h : List (Nat × Nat × Nat)) : Vecs :=
  h.foldl (fun st x => (tamper rules st x.1 x.2.1 x.2.2).1) (fun _ _ => none)

theorem after'_zero (o : Sched) (h1 : 1 ≤ o.first) (h2 : o.first ≤ o.last) (h3 : o.last ≤ 65535) :
    after' o 0 = o := by
  obtain ⟨F, L, S⟩ := o
  dsimp only at *
  unfold after'
  dsimp only
  have e : (if L = 65535 then 0 else min 0 L) = 0 := by split <;> simp
  rw [e]
  apply sched_ext
  · rw [if_pos (by omega)]; rfl
  · split
    · omega
    · split <;> simp
  · rfl

/-- Well-formed rule table: every rule is one `when=` can produce (or the default 1..+1). -/
def RulesOK (rules : Nat → Nat → Sched) : Prop := ∀ p i,
  1 ≤ (rules p i).first ∧ (rules p i).first ≤ (rules p i).last ∧ (rules p i).last ≤ 65535 ∧
    (rules p i).step ≤ 65535

theorem runH_inv (rules : Nat → Nat → Sched) (hr : RulesOK rules) (h : List (Nat × Nat × Nat))
    (pid p i : Nat) :
    ((runH rules h pid p).getD (rules p)) i = after' (rules p i) (h.count (pid, p, i)) := by
  induction h using List.reverseRecOn with
  | nil => exact (after'_zero _ (hr p i).1 (hr p i).2.1 (hr p i).2.2.1).symm
  | append_singleton h x ih =>
    obtain ⟨a, b, c⟩ := x
    unfold runH at ih ⊢
    rw [List.foldl_append]
    simp only [List.foldl_cons, List.foldl_nil]
    generalize h.foldl (fun st x => (tamper rules st x.1 x.2.1 x.2.2).1) (fun _ _ => none) = st at ih ⊢
    unfold tamper
    dsimp only
    rw [List.count_append]
    by_cases hp : pid = a ∧ p = b
    · obtain ⟨rfl, rfl⟩ := hp
      simp only [and_self, if_true, Option.getD_some]
      by_cases hc : i = c
      · subst hc
        rw [if_pos rfl, ih, (tick_after _ (hr p i).1 (hr p i).2.1 (hr p i).2.2.1 (hr p i).2.2.2 _).1]
        simp
      · rw [if_neg hc, ih]
        have : List.count (pid, p, i) [(pid, p, c)] = 0 := by
          rw [List.count_eq_zero]; simp [hc]
        rw [this]
        rfl
    · rw [if_neg hp, ih]
      have : List.count (pid, p, i) [(a, b, c)] = 0 := by
        rw [List.count_eq_zero]
        intro hm
        simp at hm
        exact hp ⟨hm.1, hm.2.1⟩
      rw [this]
      rfl

/-- C07.  For every rule table, every history of matching invocations by any number of tracees, every
tracee, personality and system call: the next invocation is tampered with iff its ordinal among the
matching invocations of that system call by that tracee is due according to F..L+S. -/
theorem tamper_due_iff (rules : Nat → Nat → Sched) (hr : RulesOK rules) (h : List (Nat × Nat × Nat))
    (pid p i : Nat) :
    (tamper rules (runH rules h) pid p i).2 = true ↔
      Due (rules p i).first (rules p i).last (rules p i).step (h.count (pid, p, i) + 1) := by
  have e : (tamper rules (runH rules h) pid p i).2 =
      (tick (((runH rules h pid p).getD (rules p)) i)).2 := rfl
  rw [e, runH_inv rules hr]
  exact (tick_after _ (hr p i).1 (hr p i).2.1 (hr p i).2.2.1 (hr p i).2.2.2 _).2

/-- C06 and C07 together: what the user wrote in `when=` is what happens. -/
theorem when_schedule (val : List Nat) (r : Sched) (hv : parseWhen val = some r)
    (h : List (Nat × Nat × Nat)) (pid p i : Nat) :
    (tamper (fun _ _ => r) (runH (fun _ _ => r) h) pid p i).2 = true ↔
      Due r.first r.last r.step (h.count (pid, p, i) + 1) := by
  have b := parseWhen_bounds val r hv
  exact tamper_due_iff (fun _ _ => r) (fun _ _ => ⟨b.1, b.2.2.1, b.2.2.2.1, b.2.2.2.2⟩) h pid p i

/-- `when=2..7+3` hits the invocations 2 and 5 of each of two tracees -/
example : RulesOK (fun _ _ => ⟨2, 7, 3⟩) := by
  intro _ _; dsimp only; omega
example : ((List.range 10).filter fun k =>
    (tamper (fun _ _ => ⟨2, 7, 3⟩) (runH (fun _ _ => ⟨2, 7, 3⟩)
      ((List.replicate k (5, 0, 1)) ++ [(6, 0, 1), (5, 0, 2)])) 5 0 1).2) = [1, 4] := by decide +kernel

/-! ### C08 -/

/-- Full C08: what is reported for a call does not depend on the earlier calls.  It is false of the
code: after one `inject=…:syscall=…` injection the flag "this call cannot fail" stays set, and a later
`inject=…:error=…` into another call is neither applied nor reported as such. -/
theorem injection_not_independent :
    let c1 : Call := ⟨some (true, 0), true, true, 7, false⟩
    let c2 : Call := ⟨some (false, 1), false, true, -38, false⟩
    (call true (after true []) c2).2 = ⟨⟨1, -1⟩, true, false⟩ ∧
    (call true (after true [c1]) c2).2 = ⟨⟨38, -1⟩, true, true⟩ := by decide

/-- Worse, without PTRACE_GET_SYSCALL_INFO even calls that are not tampered with are affected: a call
that failed with ENOENT is reported as having returned -2 successfully. -/
theorem plain_call_misreported :
    let c1 : Call := ⟨some (true, 0), true, true, 7, false⟩
    let c2 : Call := ⟨none, false, true, -2, false⟩
    (call false (after false []) c2).2 = ⟨⟨2, -1⟩, false, false⟩ ∧
    (call false (after false [c1]) c2).2 = ⟨⟨0, -2⟩, false, false⟩ := by decide

theorem after_tampered (sci : Bool) (h : List Call) : (after sci h).tampered = false := by
  unfold after
  induction h using List.reverseRecOn with
  | nil => rfl
  | append_singleton h c ih => rw [List.foldl_append]; rfl

/-- C08, what holds: if no earlier call of the tracee was replaced by another one (`syscall=`), the
report of the next call is the same as on a fresh tracee, whatever was injected earlier.  Missing for
the full property: histories with `syscall=` (there it is false). -/
theorem injection_independent_partial (sci : Bool) (h : List Call) (c : Call)
    (hs : ∀ d ∈ h, d.subst = false) :
    (call sci (after sci h) c).2 = (call sci (after sci []) c).2 := by
  have : after sci h = ⟨false, false⟩ := by
    have ht := after_tampered sci h
    have hn : (after sci h).nofail = false := by
      clear ht
      unfold after
      induction h using List.reverseRecOn with
      | nil => rfl
      | append_singleton h d ih =>
        rw [List.foldl_append]
        have ih := ih (fun e he => hs e (by simp [he]))
        have hd := hs d (by simp)
        simp only [List.foldl_cons, List.foldl_nil]
        generalize h.foldl (fun f c => (call sci f c).1) ⟨false, false⟩ = f at ih ⊢
        unfold call entering finish
        dsimp only
        split
        · exact ih
        · split
          · simp [ih, hd]
          · exact ih
    cases hf : after sci h with
    | mk t n => rw [hf] at ht hn; dsimp only at ht hn; rw [ht, hn]
  rw [this]; rfl

example : ∀ d ∈ [(⟨some (false, 1), false, true, -38, false⟩ : Call), ⟨none, false, true, -2, false⟩],
    d.subst = false := by decide

/-- On a tracee in the clean state an injected error is what is reported, when the kernel refuses the
call number -1 with ENOSYS (kernel contract) and the call may fail or syscall info is available. -/
theorem injected_error_reported (sci : Bool) (e : Nat) (he : 1 ≤ e) (he' : e ≤ 4095) (nf : Bool)
    (hn : sci = true ∨ nf = false) :
    (call sci ⟨false, false⟩ ⟨some (false, e), false, true, -38, nf⟩).2 = ⟨⟨e, -1⟩, true, false⟩ := by
  have hneg : isNegatedErrno (-38) = true := by decide
  have hn2 : isNegatedErrno (-(e : Int)) = true := by unfold isNegatedErrno; simp; omega
  unfold call entering exiting getError setError getError
  cases sci <;> cases nf <;> simp at hn <;> simp [hneg, hn2] <;> omega

/-- An injected return value is what is reported, with the INJECTED note. -/
theorem injected_retval_reported (sci : Bool) (v : Nat) (nf : Bool) :
    (call sci ⟨false, false⟩ ⟨some (true, v), false, true, -38, nf⟩).2 = ⟨⟨0, v⟩, true, false⟩ := by
  have hneg : isNegatedErrno (-38) = true := by decide
  have hv : isNegatedErrno (v : Int) = false := by unfold isNegatedErrno; simp
  unfold call entering exiting getError setSuccess getError
  cases sci <;> cases nf <;> simp [hneg, hv]

/-- A replaced call (`syscall=` with `retval=`): the kernel's own value is overridden by the injected
one; and if the replacement fails, that is reported as a failure to tamper. -/
theorem injected_subst_reported (v : Nat) (raw : Int) (nf : Bool) :
    (call true ⟨false, false⟩ ⟨some (true, v), true, true, raw, nf⟩).2 =
      if -4095 ≤ raw ∧ raw < 0 then ⟨⟨(-raw).toNat, -1⟩, true, true⟩ else ⟨⟨0, v⟩, true, false⟩ := by
  unfold call entering exiting getError setSuccess isNegatedErrno
  by_cases h : -4095 ≤ raw ∧ raw < 0
  · have : (-raw).toNat ≠ 0 := by omega
    simp [h]
  · simp [h]

/-- A call that is not tampered with is reported with the kernel's own result and without a note: with
PTRACE_GET_SYSCALL_INFO the values -4095 … -1 are errors; without it, only for calls that can fail. -/
theorem plain_reported (sci subst ok nf : Bool) (raw : Int) :
    (call sci ⟨false, false⟩ ⟨none, subst, ok, raw, nf⟩).2 =
      if (-4095 ≤ raw ∧ raw < 0) ∧ (sci = true ∨ nf = false) then ⟨⟨(-raw).toNat, -1⟩, false, false⟩
      else ⟨⟨0, raw⟩, false, false⟩ := by
  unfold call entering exiting getError isNegatedErrno
  by_cases h : -4095 ≤ raw ∧ raw < 0
  · cases sci <;> cases nf <;> simp [h]
  · cases sci <;> cases nf <;> simp [h]

/-- If the system call number could not be changed, nothing is injected and nothing is claimed. -/
theorem not_injected_reported (sci subst nf : Bool) (inj : Option (Bool × Nat)) (raw : Int) :
    (call sci ⟨false, false⟩ ⟨inj, subst, false, raw, nf⟩).2 =
      (call sci ⟨false, false⟩ ⟨none, subst, false, raw, nf⟩).2 := by
  cases inj <;> rfl

end Strace.Inject
