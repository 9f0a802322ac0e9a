import Verif.Filter.Mid
import Verif.StringToUint.Props
/-
C04: `-e signal=…`-style expressions denote what they say.
C05: `-e trace=…`-style expressions denote what they say, for every personality.
-/
namespace Strace.Filter
open NumberSet

/-! ### tokenisation -/

theorem pieces_eq (s : List Nat) : pieces s = s.takeWhile (· != 44) ::
    (match s.dropWhile (· != 44) with
     | [] => []
     | _ :: r => pieces r) := by
  induction s with
  | nil => rfl
  | cons c t ih =>
    by_cases hc : c = 44
    · subst hc; rfl
    · have hb : (c != 44) = true := by simpa using hc
      rw [pieces, if_neg hc, ih, List.takeWhile_cons, List.dropWhile_cons]
      simp [hb]

theorem tokens_nil : tokens [] = [] := rfl

theorem tokens_strtok (s : List Nat) : tokens s = match strtok s with
    | none => []
    | some (t, r) => t :: tokens r := by
  induction s with
  | nil => rfl
  | cons c t ih =>
    by_cases hc : c = 44
    · subst hc
      have h1 : tokens (44 :: t) = tokens t := by simp [tokens, pieces]
      have h2 : strtok (44 :: t) = strtok t := rfl
      rw [h1, h2, ih]
    · have hb : (c != 44) = true := by simpa using hc
      have hb' : (c == 44) = false := by simpa using hc
      have h2 : strtok (c :: t) = some ((c :: t).takeWhile (· != 44),
          ((c :: t).dropWhile (· != 44)).drop 1) := by
        unfold strtok
        rw [List.dropWhile_cons, hb']; rfl
      rw [h2]
      show (pieces (c :: t)).filter _ = _
      rw [pieces_eq]
      have h3 : (c :: t).takeWhile (· != 44) = c :: t.takeWhile (· != 44) := by
        rw [List.takeWhile_cons, hb]; rfl
      rw [h3, List.filter_cons]
      have : decide (c :: t.takeWhile (· != 44) ≠ []) = true := by simp
      simp only [this, if_true]
      congr 1
      generalize List.dropWhile (· != 44) (c :: t) = d
      cases d with
      | nil => rfl
      | cons _ r => rfl

theorem bangs_eq (inv : σ → σ) (s : List Nat) (st : σ) :
    bangs inv s st = (afterBangs s, Nat.repeat inv (bangCount s) st) := by
  induction s generalizing st with
  | nil => rfl
  | cons c t ih =>
    unfold bangs
    by_cases hc : c = 33
    · subst hc
      rw [if_pos rfl, ih]
      have e1 : afterBangs (33 :: t) = afterBangs t := rfl
      have e2 : bangCount (33 :: t) = bangCount t + 1 := rfl
      rw [e1, e2]
      congr 1
      generalize bangCount t = n
      induction n with
      | zero => rfl
      | succ n ih => simp only [Nat.repeat] at ih ⊢; rw [ih]
    · have hb : (c == 33) = false := by simpa using hc
      rw [if_neg hc]
      simp [afterBangs, bangCount, List.dropWhile_cons, List.takeWhile_cons, hb, Nat.repeat]

theorem repeat_invert (n : Nat) (s : NSet) :
    Nat.repeat invert n s = ⟨s.vec, flipN n s.neg⟩ := by
  induction n with
  | zero => simp [Nat.repeat, flipN]
  | succ n ih =>
    simp only [Nat.repeat, ih, invert, flipN]
    congr 1
    split <;> split <;> (first | omega | simp)

theorem addNumber_neg (n : Nat) (s : NSet) : (addNumber n s).neg = s.neg := by
  simp [addNumber, realloc_neg]

/-- the token loop: fails iff some token fails; otherwise the explicit part grows by the tokens -/
theorem tokenLoop_eq (f : List Nat → Option Nat) (s : List Nat) (set : NSet) (num : Option Nat) :
    if (tokens s).any (fun t => (f t).isNone) then tokenLoop f s set num = none
    else ∃ set', tokenLoop f s set num = some (set', if tokens s = [] then num else (tokens s).getLast?.bind f) ∧
      set'.neg = set.neg ∧
      ∀ i, bit set'.vec i = (bit set.vec i || (tokens s).any fun t => f t == some i) := by
  fun_induction tokenLoop f s set num with
  | case1 s set num h =>
    rw [tokens_strtok, h]
    exact ⟨set, rfl, rfl, by simp⟩
  | case2 s set num tok rest h hf =>
    rw [tokens_strtok, h]
    simp [hf]
  | case3 s set num tok rest h n hf ih =>
    rw [tokens_strtok, h]
    simp only [List.any_cons, hf, Option.isNone_some, Bool.false_or]
    split
    · rename_i hh; rw [if_pos hh] at ih; exact ih
    · rename_i hh
      rw [if_neg hh] at ih
      obtain ⟨set', h1, h2, h3⟩ := ih
      refine ⟨set', ?_, by rw [h2, addNumber_neg], ?_⟩
      · rw [h1, if_neg (show ¬ (tok :: tokens rest = []) by simp)]
        by_cases hr : tokens rest = []
        · simp [hr, hf]
        · rw [if_neg hr, List.getLast?_cons, List.getLast?_eq_some_getLast hr]
          simp
      · intro i
        rw [h3, bit_addNumber]
        have : (some n == some i) = decide (i = n) := by
          by_cases h : i = n
          · subst h; simp
          · have : n ≠ i := fun h' => h h'.symm
            simp [h, this]
        rw [this, Bool.or_assoc]

/-- C04.  For every decoder of names, every previous content of the set and every expression: the set
that results, seen through the membership query, is what the expression means; and the expression is
rejected exactly when it has no meaning. -/
theorem qualifyTokens_meaning (f : List Nat → Option Nat) (str : List Nat) (set : NSet) :
    (qualifyTokens f str set).map (fun r i => isNumberInSet i r) =
      (meaning f str).map (fun m i => some (m i)) := by
  unfold qualifyTokens meaning
  rw [show ([110, 111, 110, 101] : List Nat) = sNone from rfl, show ([97, 108, 108] : List Nat) = sAll from rfl]
  simp only [bangs_eq, repeat_invert]
  by_cases h1 : afterBangs str = sNone
  · simp only [h1, if_true, Option.map_some]
    congr 1; funext i
    rw [isNumberInSet_eq]
    simp only [bit_clear]
    simp [clear]
  rw [if_neg h1, if_neg h1]
  by_cases h2 : afterBangs str = sAll
  · simp only [h2, if_true, Option.map_some]
    congr 1; funext i
    rw [isNumberInSet_eq]
    simp only [invert, bit_clear]
    simp only [clear, flipN]
    split <;> simp
  rw [if_neg h2, if_neg h2]
  have key := tokenLoop_eq f (afterBangs str) ⟨(clear set).vec, flipN (bangCount str) (clear set).neg⟩ none
  by_cases h3 : (tokens (afterBangs str)).any (fun t => (f t).isNone) = true
  · rw [if_pos h3] at key
    rw [key, if_pos (Or.inr h3)]; rfl
  · rw [if_neg h3] at key
    obtain ⟨set', k1, k2, k3⟩ := key
    rw [k1]
    by_cases h4 : tokens (afterBangs str) = []
    · rw [if_pos h4, if_pos (Or.inl h4)]; rfl
    · rw [if_neg h4, if_neg (by simp only [h3, h4]; simp)]
      have hl : ∃ n, (tokens (afterBangs str)).getLast?.bind f = some n := by
        rw [List.getLast?_eq_some_getLast h4]
        simp only [Option.bind_some]
        have hm := List.getLast_mem h4
        cases hf : f ((tokens (afterBangs str)).getLast h4) with
        | some n => exact ⟨n, rfl⟩
        | none =>
          exfalso; apply h3
          rw [List.any_eq_true]
          exact ⟨_, hm, by simp [hf]⟩
      obtain ⟨n, hn⟩ := hl
      rw [hn]
      simp only [Option.map_some]
      congr 1; funext i
      rw [isNumberInSet_eq, k2, k3]
      simp only [bit_clear]
      simp only [clear, flipN, Bool.false_or]
      split <;> simp

/-- C04, the two facts users rely on most, spelt out without `meaning`: a doubled '!' changes nothing. -/
theorem qualifyTokens_double_bang (f : List Nat → Option Nat) (str : List Nat) (set : NSet) :
    (qualifyTokens f (33 :: 33 :: str) set).map (fun r i => isNumberInSet i r) =
      (qualifyTokens f str set).map (fun r i => isNumberInSet i r) := by
  rw [qualifyTokens_meaning, qualifyTokens_meaning]
  have e1 : afterBangs (33 :: 33 :: str) = afterBangs str := rfl
  have e2 : ∀ b, flipN (bangCount (33 :: 33 :: str)) b = flipN (bangCount str) b := by
    intro b
    have : bangCount (33 :: 33 :: str) = bangCount str + 2 := rfl
    rw [this]; unfold flipN
    rw [Nat.add_mod_right]
  unfold meaning
  simp only [e1, e2]

/-- … and the previous content of the set never matters. -/
theorem qualifyTokens_overwrites (f : List Nat → Option Nat) (str : List Nat) (s1 s2 : NSet) :
    (qualifyTokens f str s1).map (fun r i => isNumberInSet i r) =
      (qualifyTokens f str s2).map (fun r i => isNumberInSet i r) := by
  rw [qualifyTokens_meaning, qualifyTokens_meaning]

/-- decoder for the examples: one lower-case letter -/
def exDec (t : List Nat) : Option Nat := match t with
  | [c] => if 97 ≤ c ∧ c ≤ 122 then some (c - 97) else none
  | _ => none

example : (qualifyTokens exDec (codes "!a,,c") ⟨[5#32], true⟩).map
    (fun r => (List.range 4).map fun i => isNumberInSet i r) =
      some [some false, some true, some false, some true] := by decide +kernel
example : (qualifyTokens exDec (codes "!") NumberSet.empty).isNone := by decide +kernel

/-! ### C05 -/

/-- what is stored for number `i` of personality `p`: explicit bit and complement flag -/
def view (sets : List NSet) (p i : Nat) : Option (Bool × Bool) :=
  (sets[p]?).map fun s => (bit s.vec i, s.neg)

/-- `sets'` is `sets` with the numbers given by `g` added to the explicit parts -/
def Upd (sets sets' : List NSet) (g : Nat → Nat → Bool) : Prop :=
  ∀ p i, view sets' p i = (view sets p i).map fun x => (x.1 || g p i, x.2)

theorem Upd.refl (sets : List NSet) : Upd sets sets fun _ _ => false := by
  intro p i; simp

theorem Upd.trans {a b c : List NSet} {g h : Nat → Nat → Bool} (h1 : Upd a b g) (h2 : Upd b c h) :
    Upd a c fun p i => g p i || h p i := by
  intro p i
  rw [h2, h1, Option.map_map]
  congr 1; funext x
  simp [Bool.or_assoc]

theorem Upd.congr {a b : List NSet} {g h : Nat → Nat → Bool} (h1 : Upd a b g)
    (he : ∀ p i, g p i = h p i) : Upd a b h := by
  have : g = h := by funext p i; exact he p i
  exact this ▸ h1

theorem Upd.addArr (n p : Nat) (sets : List NSet) :
    Upd sets (addArr n sets p) fun q i => q == p && i == n := by
  intro q i
  unfold view Filter.addArr
  rw [List.getElem?_modify]
  cases sets[q]? with
  | none => rfl
  | some s =>
    simp only [Option.map_eq_map, Option.map_some]
    by_cases hq : p = q
    · subst hq
      simp only [if_true, bit_addNumber, addNumber_neg, beq_self_eq_true, Bool.true_and]
      rfl
    · have : (q == p) = false := by simp; exact fun h => hq h.symm
      simp [hq, this]

theorem foldl_add {α : Type} (p : Nat) (test : Nat → Bool) (n : Nat) (sets : List NSet) :
    Upd sets ((List.range n).foldl (fun acc i => if test i then Filter.addArr i acc p else acc) sets)
      (fun q i => q == p && (decide (i < n) && test i)) := by
  induction n with
  | zero => exact (Upd.refl sets).congr (by simp)
  | succ n ih =>
    rw [List.range_succ, List.foldl_append]
    simp only [List.foldl_cons, List.foldl_nil]
    by_cases ht : test n = true
    · rw [if_pos ht]
      refine (ih.trans (Upd.addArr n p _)).congr ?_
      intro q i
      cases q == p
      · rfl
      · simp only [Bool.true_and]
        by_cases h : i = n
        · subst h; simp [ht]
        · have e : decide (i < n) = decide (i < n + 1) := by
            apply decide_eq_decide.2; omega
          have e' : (i == n) = false := by simpa using h
          rw [e, e']; simp
    · rw [if_neg ht]
      refine ih.congr ?_
      intro q i
      by_cases h : i = n
      · subst h; simp [ht]
      · have e : decide (i < n) = decide (i < n + 1) := by
          apply decide_eq_decide.2; omega
        rw [e]

theorem nameSat_lt {E : Env} {p i : Nat} {f : List Nat → Bool} (h : E.nameSat p i f = true) :
    i < (E.table p).length := by
  unfold Env.nameSat at h
  split at h
  · rename_i e he
    exact (List.getElem?_eq_some_iff.mp he).1
  · cases h

theorem classSat_lt {E : Env} {p i n : Nat} (h : E.classSat p i n = true) :
    i < (E.table p).length := by
  unfold Env.classSat at h
  split at h
  · rename_i e he
    exact (List.getElem?_eq_some_iff.mp he).1
  · cases h

theorem foldl_pair (p : Nat) (test : Nat → Bool) (l : List Nat) (b : Bool) (sets : List NSet) :
    l.foldl (fun (acc : Bool × List NSet) i =>
        if test i then (true, Filter.addArr i acc.2 p) else acc) (b, sets) =
    (b || l.any test, l.foldl (fun acc i => if test i then Filter.addArr i acc p else acc) sets) := by
  induction l generalizing b sets with
  | nil => simp
  | cons x l ih =>
    simp only [List.foldl_cons, List.any_cons]
    by_cases h : test x = true
    · simp only [h, if_true, ih]; simp
    · simp only [h]; simp [ih]

theorem nameLoop_eq (E : Env) (s : List Nat) (p start : Nat) (acc : Bool × List NSet) :
    (nameLoop E s p start acc).1 = (acc.1 || (List.range' start ((E.table p).length - start)).any
        fun i => E.nameSat p i (fun nm => s == nm)) ∧
    Upd acc.2 (nameLoop E s p start acc).2
      (fun q i => q == p && (decide (start ≤ i) && E.nameSat p i (fun nm => s == nm))) := by
  fun_induction nameLoop E s p start acc with
  | case1 start acc h =>
    unfold scnoByName at h
    rw [List.find?_eq_none] at h
    have h' : ∀ i, start ≤ i → E.nameSat p i (fun nm => s == nm) = false := by
      intro i hi
      cases hs : E.nameSat p i (fun nm => s == nm) with
      | false => rfl
      | true =>
        have := nameSat_lt hs
        exact absurd hs (h i (by rw [List.mem_range'_1]; omega))
    constructor
    · have : (List.range' start ((E.table p).length - start)).any
        (fun i => E.nameSat p i (fun nm => s == nm)) = false := by
        rw [List.any_eq_false]; exact h
      rw [this, Bool.or_false]
    · refine (Upd.refl _).congr ?_
      intro q i
      by_cases hi : start ≤ i
      · simp [h' i hi]
      · simp [hi]
  | case2 start acc i h ih =>
    obtain ⟨ih1, ih2⟩ := ih
    have hs := List.find?_some h
    have hr := scnoByName_some h
    constructor
    · rw [ih1]
      have : (List.range' start ((E.table p).length - start)).any
        (fun i => E.nameSat p i (fun nm => s == nm)) = true := by
        rw [List.any_eq_true]
        exact ⟨i, by rw [List.mem_range'_1]; omega, hs⟩
      rw [this]; simp
    · refine ((Upd.addArr i p acc.2).trans ih2).congr ?_
      intro q j
      cases q == p
      · rfl
      · simp only [Bool.true_and]
        by_cases hj : j = i
        · subst hj; simp only [hs]; simp [hr.1]
        · have e' : (j == i) = false := by simpa using hj
          rw [e', Bool.false_or]
          by_cases hji : i < j
          · have : start ≤ j := by omega
            have h2 : i + 1 ≤ j := hji
            simp [this, h2]
          · have h2 : ¬ i + 1 ≤ j := by omega
            simp only [h2, decide_false, Bool.false_and]
            by_cases hsj : start ≤ j
            · cases hn : E.nameSat p j (fun nm => s == nm) with
              | false => simp
              | true =>
                exfalso
                unfold scnoByName at h
                rw [List.find?_eq_some_iff_append] at h
                obtain ⟨_, as, bs, hab, hall⟩ := h
                have hm : j ∈ List.range' start ((E.table p).length - start) := by
                  rw [List.mem_range'_1]; have := nameSat_lt hn; omega
                rw [hab, List.mem_append] at hm
                rcases hm with hm | hm
                · have := hall j hm; simp [hn] at this
                · rcases List.mem_cons.mp hm with hm | hm
                  · exact hj hm
                  · have hp : List.Pairwise (· < ·) (as ++ i :: bs) := hab ▸ List.pairwise_lt_range'
                    rw [List.pairwise_append, List.pairwise_cons] at hp
                    have := hp.2.1.1 j hm
                    omega
            · simp [hsj]

theorem qualifyNumber_eq (E : Env) (s : List Nat) (p : Nat) (sets : List NSet) :
    (qualifyNumber E s p sets).1 = (numberOf E s p).isSome ∧
    Upd sets (qualifyNumber E s p sets).2 (fun q i => q == p && numberOf E s p == some i) := by
  have hb : ∀ (a : Nat) (q i : Nat), (q == p && i == a) = (q == p && some a == some i) := by
    intro a q i
    congr 1
    by_cases h : i = a
    · subst h; simp
    · have : a ≠ i := fun h' => h h'.symm
      rw [show (i == a) = false by simpa using h, show (some a == some i) = false by simpa using this]
  unfold qualifyNumber numberOf
  generalize tokenNumber s = nr
  dsimp only
  split
  · exact ⟨rfl, (Upd.addArr _ _ _).congr (hb _)⟩
  · split
    · exact ⟨rfl, (Upd.addArr _ _ _).congr (hb _)⟩
    · exact ⟨rfl, (Upd.refl _).congr (by simp)⟩

theorem qualifyClassName_eq (E : Env) (tok : List Nat) (p : Nat) (sets : List NSet)
    (hk : kind tok = classOrName tok) :
    ∃ r, (if (qualifyClass E tok p sets).1 then some (qualifyClass E tok p sets)
      else some (qualifyName E tok p (qualifyClass E tok p sets).2)) = some r ∧
      r.1 = meaningful E (kind tok) p ∧
      Upd sets r.2 (fun q i => q == p && selects E (kind tok) p i) := by
  rw [hk]
  unfold qualifyClass classOrName
  cases hc : findClass tok with
  | none =>
    simp only [Bool.false_eq_true, if_false]
    obtain ⟨h1, h2⟩ := nameLoop_eq E tok p 0 (false, sets)
    refine ⟨_, rfl, ?_, ?_⟩
    · unfold qualifyName
      rw [h1]; simp [meaningful, selects, List.range_eq_range']
    · unfold qualifyName
      exact h2.congr (by simp [selects])
  | some n =>
    simp only [if_true]
    refine ⟨_, rfl, rfl, ?_⟩
    refine (foldl_add (α := Unit) p _ _ sets).congr ?_
    intro q i
    simp only [selects]
    congr 1
    cases h : E.classSat p i n with
    | false => simp
    | true => simp [classSat_lt h]

theorem qualifyPers_eq (E : Env) (tok : List Nat) (p : Nat) (sets : List NSet) :
    if badRegex E (kind tok) then qualifyPers E tok p sets = none
    else ∃ r, qualifyPers E tok p sets = some r ∧ r.1 = meaningful E (kind tok) p ∧
      Upd sets r.2 (fun q i => q == p && selects E (kind tok) p i) := by
  have nb : ∀ t : List Nat, badRegex E (classOrName t) = false := by
    intro t; unfold classOrName; cases findClass t <;> rfl
  cases tok with
  | nil =>
    have hk : kind [] = classOrName [] := rfl
    rw [hk, nb, if_neg (by simp), ← hk]
    exact qualifyClassName_eq E [] p sets hk
  | cons c t =>
    unfold qualifyPers
    by_cases h1 : 48 ≤ c ∧ c ≤ 57
    · have hk : kind (c :: t) = .number (c :: t) := by simp [kind, h1]
      rw [hk, if_neg (by simp [badRegex])]
      simp only [if_pos h1]
      exact ⟨_, rfl, (qualifyNumber_eq E _ p sets).1, (qualifyNumber_eq E _ p sets).2⟩
    · by_cases h2 : c = 47
      · subst h2
        have hk : kind (47 :: t) = .regex t := by simp [kind]
        rw [hk]
        simp only [if_neg h1, if_true, qualifyRegex, badRegex]
        cases hr : E.regcomp t with
        | none => simp
        | some m =>
          simp only [Option.isNone_some, Bool.false_eq_true, if_false]
          refine ⟨_, rfl, ?_, ?_⟩
          · rw [foldl_pair]; simp [meaningful, selects, hr]
          · rw [foldl_pair]
            refine (foldl_add (α := Unit) p _ _ sets).congr ?_
            intro q i
            simp only [selects, hr]
            congr 1
            cases h : E.nameSat p i m with
            | false => simp
            | true => simp [nameSat_lt h]
      · have hk : kind (c :: t) = classOrName (c :: t) := by
          simp [kind, h1, h2]
        rw [hk, nb, if_neg (by simp), ← hk]
        simp only [if_neg h1, if_neg h2]
        exact qualifyClassName_eq E (c :: t) p sets hk

theorem persLoop_eq (E : Env) (tok : List Nat) (ps : List Nat) (acc : Bool × List NSet) :
    if badRegex E (kind tok) && !ps.isEmpty then persLoop E tok ps acc = none
    else ∃ r, persLoop E tok ps acc = some r ∧
      r.1 = (acc.1 || ps.any fun p => meaningful E (kind tok) p) ∧
      Upd acc.2 r.2 (fun q i => ps.contains q && selects E (kind tok) q i) := by
  induction ps generalizing acc with
  | nil =>
    simp only [List.isEmpty_nil, Bool.not_true, Bool.and_false, Bool.false_eq_true, if_false]
    exact ⟨acc, rfl, by simp, (Upd.refl _).congr (by simp)⟩
  | cons p ps ih =>
    have hp := qualifyPers_eq E tok p acc.2
    simp only [List.isEmpty_cons, Bool.not_false, Bool.and_true]
    by_cases hb : badRegex E (kind tok) = true
    · rw [if_pos hb] at hp ⊢
      simp only [persLoop, hp]
    · rw [if_neg hb] at hp ⊢
      obtain ⟨r, h1, h2, h3⟩ := hp
      simp only [persLoop, h1]
      have := ih (acc.1 || r.1, r.2)
      rw [if_neg (by simp [hb])] at this
      obtain ⟨r', k1, k2, k3⟩ := this
      refine ⟨r', k1, ?_, ?_⟩
      · rw [k2, h2]; simp [Bool.or_assoc]
      · refine (h3.trans k3).congr ?_
        intro q i
        rw [List.contains_cons]
        by_cases hq : q = p
        · subst hq
          simp only [beq_self_eq_true, Bool.true_and, Bool.true_or]
          cases selects E (kind tok) q i <;> simp
        · have : (q == p) = false := by simpa using hq
          simp [this]

theorem skipQ_eq (t : List Nat) (rc : Bool) :
    skipQ t rc = (t.dropWhile (· == 63), rc || t.head? == some 63) := by
  induction t generalizing rc with
  | nil => simp [skipQ]
  | cons c t ih =>
    unfold skipQ
    by_cases hc : c = 63
    · subst hc; rw [if_pos rfl, ih]; simp
    · have : (c == 63) = false := by simpa using hc
      rw [if_neg hc, List.dropWhile_cons, this]
      have : ¬ (some c == some 63) = true := by simpa using hc
      simp [hc]

theorem qualifySyscall_eq (E : Env) (tok : List Nat) (sets : List NSet) :
    (tokOK E tok = true → ∃ r, qualifySyscall E tok sets = some (true, r) ∧
      Upd sets r (fun p i => tokSel E tok p i)) ∧
    (tokOK E tok = false →
      qualifySyscall E tok sets = none ∨ ∃ r, qualifySyscall E tok sets = some (false, r)) := by
  unfold qualifySyscall tokOK tokSel parseTok separatePersonality
  simp only [skipQ_eq, Bool.false_or]
  cases hs : splitLastAt (tok.dropWhile (· == 63)) with
  | none =>
    dsimp only
    have h := persLoop_eq E (tok.dropWhile (· == 63)) (List.range E.tables.length)
      (tok.head? == some 63, sets)
    by_cases hb : (badRegex E (kind (tok.dropWhile (· == 63))) && !(List.range E.tables.length).isEmpty) = true
    · rw [if_pos hb] at h
      rw [hb, h]; simp
    · rw [if_neg hb] at h
      obtain ⟨r, h1, h2, h3⟩ := h
      rw [eq_false_of_ne_true hb, h1]
      obtain ⟨b, r⟩ := r
      dsimp only at h2 h3
      rw [← h2]
      cases b with
      | true => exact ⟨fun _ => ⟨r, rfl, h3⟩, by simp⟩
      | false => exact ⟨by simp, fun _ => Or.inr ⟨r, rfl⟩⟩
  | some x =>
    obtain ⟨nm, d⟩ := x
    dsimp only
    cases hd : E.designators.findIdx? (· == d) with
    | none => simp
    | some p =>
      simp only [Option.map_some, List.isEmpty_cons, Bool.not_false, Bool.and_true, List.any_cons,
        List.any_nil, Bool.or_false]
      have h := qualifyPers_eq E nm p sets
      by_cases hb : badRegex E (kind nm) = true
      · rw [if_pos hb] at h
        rw [hb, h]; simp
      · rw [if_neg hb] at h
        obtain ⟨r, h1, h2, h3⟩ := h
        rw [eq_false_of_ne_true hb, h1, ← h2]
        simp only [Bool.not_false, Bool.true_and]
        cases hb2 : (tok.head? == some 63 || r.1) with
        | true =>
          refine ⟨fun _ => ⟨r.2, rfl, h3.congr ?_⟩, by simp⟩
          intro q i
          rw [List.contains_cons, List.contains_nil, Bool.or_false]
          by_cases hq : q = p
          · subst hq; rfl
          · have : (q == p) = false := by simpa using hq
            simp [this]
        | false => exact ⟨by simp, fun _ => Or.inr ⟨r.2, rfl⟩⟩

theorem sysTokenLoop_eq (E : Env) (s : List Nat) (sets : List NSet) (done : Bool) :
    if (tokens s).any (fun t => !tokOK E t) then sysTokenLoop E s sets done = none
    else ∃ sets', sysTokenLoop E s sets done = some (sets', done || !(tokens s).isEmpty) ∧
      Upd sets sets' (fun p i => (tokens s).any fun t => tokSel E t p i) := by
  fun_induction sysTokenLoop E s sets done with
  | case1 s sets done h =>
    rw [tokens_strtok, h]
    exact ⟨sets, by simp, (Upd.refl _).congr (by simp)⟩
  | case2 s sets done tok rest h hq =>
    rw [tokens_strtok, h]
    have := qualifySyscall_eq E tok sets
    simp only [List.any_cons]
    cases hk : tokOK E tok with
    | true =>
      rw [hq] at this
      obtain ⟨r, h1, _⟩ := this.1 hk
      cases h1
    | false => simp
  | case3 s sets done tok rest h sets' hq ih =>
    rw [tokens_strtok, h]
    have := qualifySyscall_eq E tok sets
    rw [hq] at this
    by_cases hk : tokOK E tok = true
    · obtain ⟨r, h1, h2⟩ := this.1 hk
      injection h1 with h1
      injection h1 with _ h1'
      subst h1'
      simp only [List.any_cons, hk, Bool.not_true, Bool.false_or]
      split
      · rename_i hh; rw [if_pos hh] at ih; exact ih
      · rename_i hh
        rw [if_neg hh] at ih
        obtain ⟨s', k1, k2⟩ := ih
        exact ⟨s', by rw [k1]; simp, h2.trans k2⟩
    · rcases this.2 (by simpa using hk) with h1 | ⟨r, h1⟩ <;> simp at h1
  | case4 s sets done tok rest h rc sets' hq hn =>
    rw [tokens_strtok, h]
    have := qualifySyscall_eq E tok sets
    rw [hq] at this
    by_cases hk : tokOK E tok = true
    · obtain ⟨r, h1, h2⟩ := this.1 hk
      injection h1 with h1
      injection h1 with h1 h1'
      exact absurd h1 hn
    · simp [hk]

theorem repeat_map_invert (n : Nat) (sets : List NSet) :
    Nat.repeat (List.map invert) n sets = sets.map (Nat.repeat invert n) := by
  induction n with
  | zero => simp only [Nat.repeat]; exact (List.map_id _).symm
  | succ n ih => simp only [Nat.repeat, ih, List.map_map]; rfl

/-- the same through the intermediate reading -/
theorem qualifySyscallTokens_mid (E : Env) (str : List Nat) (sets : List NSet) :
    match qualifySyscallTokens E str sets, sysMeaning E str with
    | none, none => True
    | some r, some m => r.length = sets.length ∧ ∀ p, p < sets.length → ∀ i,
        (r[p]?).map (isNumberInSet i) = some (some (m p i))
    | _, _ => False := by
  have hlen : ∀ a b g, Upd a b g → b.length = a.length := by
    intro a b g h
    have h' : ∀ p : Nat, b[p]? = none ↔ a[p]? = none := by
      intro p
      have := h p 0
      unfold view at this
      cases ha : a[p]? <;> cases hb : b[p]? <;> simp [ha, hb] at this ⊢
    have h1 := h' a.length
    have h2 := h' b.length
    simp at h1 h2
    omega
  have hv : ∀ (p i : Nat), p < sets.length →
      view ((sets.map clear).map (fun s => ⟨s.vec, flipN (bangCount str) s.neg⟩)) p i =
        some (false, flipN (bangCount str) false) := by
    intro p i hp
    unfold view
    rw [List.getElem?_map, List.getElem?_map, List.getElem?_eq_getElem hp]
    simp only [Option.map_some, bit_clear]
    rfl
  unfold qualifySyscallTokens sysMeaning
  simp only [bangs_eq, repeat_map_invert]
  have hf : Nat.repeat invert (bangCount str) = fun s => ⟨s.vec, flipN (bangCount str) s.neg⟩ := by
    funext s; exact repeat_invert _ _
  rw [hf]
  have hm : ∀ (r : List NSet) p i b, view r p i = some b →
      (r[p]?).map (isNumberInSet i) = some (some (b.1 ^^ b.2)) := by
    intro r p i b h
    unfold view at h
    cases hr : r[p]? with
    | none => rw [hr] at h; cases h
    | some s => rw [hr] at h; injection h with h; subst h; simp [isNumberInSet_eq]
  have hx : ∀ b, (b ^^ flipN (bangCount str) false) = flipN (bangCount str) b := by
    intro b; unfold flipN; split <;> simp
  by_cases h1 : afterBangs str = sNone
  · simp only [h1, if_true]
    refine ⟨by simp, fun p hp i => ?_⟩
    rw [hm _ _ _ _ (hv p i hp)]
    simp
  rw [if_neg h1, if_neg h1]
  by_cases h2 : afterBangs str = sAll
  · simp only [h2, if_true]
    refine ⟨by simp, fun p hp i => ?_⟩
    have : view ((((sets.map clear).map (fun s => (⟨s.vec, flipN (bangCount str) s.neg⟩ : NSet)))).map invert) p i
        = some (false, !flipN (bangCount str) false) := by
      have := hv p i hp
      unfold view at this ⊢
      rw [List.getElem?_map]
      revert this
      generalize ((sets.map clear).map (fun s => (⟨s.vec, flipN (bangCount str) s.neg⟩ : NSet)))[p]? = o
      cases o with
      | none => simp
      | some s => intro h; simp only [Option.map_some] at h ⊢; injection h with h; injection h with ha hb; simp [invert, ha, hb]
    rw [hm _ _ _ _ this]
    unfold flipN; split <;> simp
  rw [if_neg h2, if_neg h2]
  have key := sysTokenLoop_eq E (afterBangs str)
    ((sets.map clear).map (fun s => (⟨s.vec, flipN (bangCount str) s.neg⟩ : NSet))) false
  by_cases h3 : (tokens (afterBangs str)).any (fun t => !tokOK E t) = true
  · rw [if_pos h3] at key
    rw [key, if_pos (Or.inr h3)]
    trivial
  · rw [if_neg h3] at key
    obtain ⟨s', k1, k2⟩ := key
    rw [k1]
    by_cases h4 : tokens (afterBangs str) = []
    · rw [if_pos (Or.inl h4), h4]; simp
    · rw [if_neg (by simp only [h3, h4]; simp)]
      have : (false || !(tokens (afterBangs str)).isEmpty) = true := by
        simp [h4]
      simp only [this, if_true]
      refine ⟨by rw [hlen _ _ _ k2]; simp, fun p hp i => ?_⟩
      have hk := k2 p i
      rw [hv p i hp] at hk
      simp only [Option.map_some, Bool.false_or] at hk
      rw [hm _ _ _ _ hk]
      exact congrArg (fun x => some (some x)) (hx _)

/-! ### the intermediate reading is the specification -/

theorem and_two_pow' (n k : Nat) : n &&& 2 ^ k = if n.testBit k then 2 ^ k else 0 := by
  apply Nat.eq_of_testBit_eq
  intro i
  rw [Nat.testBit_and]
  by_cases h : k = i
  · subst h
    rw [Nat.testBit_two_pow_self]
    cases n.testBit k <;> simp
  · rw [Nat.testBit_two_pow_of_ne h]
    split
    · rw [Nat.testBit_two_pow_of_ne h]; simp
    · simp

theorem and_two_pow_eq_zero (n k : Nat) : ((n &&& 2 ^ k) == 0) = (n.testBit k == false) := by
  rw [and_two_pow']
  have : 0 < 2 ^ k := Nat.pow_pos (by omega)
  cases n.testBit k <;> simp <;> omega

theorem and_two_pow_eq_self (n k : Nat) : ((n &&& 2 ^ k) == 2 ^ k) = n.testBit k := by
  rw [and_two_pow']
  have : 0 < 2 ^ k := Nat.pow_pos (by omega)
  cases n.testBit k <;> simp; omega

theorem callable_eq (E : Env) (p nr : Nat) : Spec.callable E p nr = E.valid nr p := by
  unfold Spec.callable Env.valid
  cases (E.table p)[nr]? with
  | none => rfl
  | some e =>
    simp only [Option.any_some]
    rw [show traceIndirectSubcall = 2 ^ 10 from rfl, and_two_pow_eq_zero]

theorem written_eq (c : Nat) (t : List Nat) (hc : 48 ≤ c ∧ c ≤ 57) :
    Spec.written (c :: t) = tokenNumber (c :: t) := by
  have hd : StringToUint.isDigit c = true := by unfold StringToUint.isDigit; simp; omega
  have hsp : StringToUint.isSpace c = false := by
    unfold StringToUint.isSpace
    simp; omega
  have h1 : StringToUint.strtoll (c :: t) = StringToUint.convert (c :: t) false (c :: t) := by
    unfold StringToUint.strtoll
    have : StringToUint.skipSpace (c :: t) = c :: t := by simp [StringToUint.skipSpace, hsp]
    rw [this]
    have : StringToUint.splitSign (c :: t) = (false, c :: t) := by
      unfold StringToUint.splitSign
      dsimp only
      rw [if_neg (show ¬ c = 43 by omega), if_neg (show ¬ c = 45 by omega)]
    rw [this]
  obtain ⟨ds, e, a, b, v⟩ := StringToUint.digits_split (c :: t) 0
  unfold Spec.written tokenNumber StringToUint.stringToUintUpto StringToUint.stringToUintEx
  simp only [List.isEmpty_cons, Bool.false_eq_true, if_false]
  rw [h1]
  unfold StringToUint.convert
  simp only [hd, if_true, Bool.false_eq_true, if_false]
  generalize hD : StringToUint.digits 0 (c :: t) = D at *
  obtain ⟨m, rest⟩ := D
  dsimp only at *
  cases rest with
  | nil =>
    rw [List.append_nil] at e
    have hall : ((c :: t).all fun c => decide (48 ≤ c ∧ c ≤ 57)) = true := by
      rw [List.all_eq_true]
      intro x hx
      have := a x (e ▸ hx)
      unfold StringToUint.isDigit at this
      simpa using this
    rw [hall, ← show m = List.foldl (fun a c => a * 10 + (c - 48)) 0 (c :: t) by rw [v, e]]
    simp only [true_and]
    by_cases hm : m ≤ 2147483647
    · rw [if_pos hm, if_pos (show m ≤ StringToUint.llongMax by unfold StringToUint.llongMax; omega)]
      have h0 : ¬ ((m : Int) < 0) := by omega
      have h1 : ¬ 2147483647 < m := by omega
      simp [h0, h1, StringToUint.badEnding]
    · rw [if_neg hm]
      have hz : ∀ q : StringToUint.Strtoll, q = (if m ≤ StringToUint.llongMax then
          ⟨(m : Int), [], true, false⟩ else ⟨(StringToUint.llongMax : Int), [], true, true⟩) →
          q.val.toNat > 2 ^ 31 - 1 := by
        rintro q rfl
        unfold StringToUint.llongMax
        split <;> simp <;> omega
      generalize hq : (if m ≤ StringToUint.llongMax then
          (⟨(m : Int), [], true, false⟩ : StringToUint.Strtoll)
          else ⟨(StringToUint.llongMax : Int), [], true, true⟩) = q
      have := hz q hq.symm
      simp [this]
  | cons x u =>
    have hx := b x u rfl
    have hall : ¬ ((c :: t).all fun c => decide (48 ≤ c ∧ c ≤ 57)) = true := by
      rw [List.all_eq_true]
      intro h
      have := h x (by rw [e]; simp)
      unfold StringToUint.isDigit at hx
      simp at this hx
      omega
    rw [if_neg (by intro h; exact hall h.1)]
    have hb : ∀ q : StringToUint.Strtoll, q = (if m ≤ StringToUint.llongMax then
          ⟨(m : Int), x :: u, true, false⟩ else ⟨(StringToUint.llongMax : Int), x :: u, true, true⟩) →
          StringToUint.badEnding q.rest none = true := by
      rintro q rfl
      split <;> rfl
    generalize hq : (if m ≤ StringToUint.llongMax then
        (⟨(m : Int), x :: u, true, false⟩ : StringToUint.Strtoll)
        else ⟨(StringToUint.llongMax : Int), x :: u, true, true⟩) = q
    have := hb q hq.symm
    simp [this]

theorem numberOf_eq (E : Env) (c : Nat) (t : List Nat) (hc : 48 ≤ c ∧ c ≤ 57) (p : Nat) :
    Spec.numberOf E (c :: t) p = numberOf E (c :: t) p := by
  unfold Spec.numberOf numberOf
  rw [written_eq c t hc]
  simp only [callable_eq]
  simp [Bool.and_eq_true]

/-- the mask of a class -/
def maskOf : Option Nat → Nat
  | none => 0
  | some b => 2 ^ b

/-- the class lookup of the specification -/
def specClass (x : List Nat) : Option (Option Nat) :=
  if x == codes "all" then some none
  else (Spec.classes.find? (fun e => x == codes e.1)).map fun e => some e.2

theorem specClass_eq (x : List Nat) :
    (classTable.find? fun e => x == (codes e.2).map toLower).map (·.1) = (specClass x).map maskOf := by
  by_cases hx : x ∈ classTable.map fun e => codes e.2
  · have : ∀ y ∈ classTable.map (fun e => codes e.2),
        (classTable.find? fun e => y == (codes e.2).map toLower).map (·.1) = (specClass y).map maskOf := by
      decide +kernel
    exact this x hx
  · have h1 : (classTable.find? fun e => x == (codes e.2).map toLower) = none := by
      rw [List.find?_eq_none]
      intro e he h
      have hl : (codes e.2).map toLower = codes e.2 := by
        have : ∀ e ∈ classTable, (codes e.2).map toLower = codes e.2 := by decide +kernel
        exact this e he
      rw [hl] at h
      exact hx (List.mem_map.2 ⟨e, he, (by simpa using h : x = _).symm⟩)
    have h2 : (Spec.classes.find? (fun e => x == codes e.1)) = none := by
      rw [List.find?_eq_none]
      intro e he h
      have hm : codes e.1 ∈ classTable.map fun e => codes e.2 := by
        have : ∀ e ∈ Spec.classes, codes e.1 ∈ classTable.map fun e => codes e.2 := by decide +kernel
        exact this e he
      have h' : x = codes e.1 := by simpa using h
      rw [← h'] at hm
      exact hx hm
    have h3 : (x == codes "all") = false := by
      cases h : x == codes "all" with
      | false => rfl
      | true =>
        have hm : codes "all" ∈ classTable.map fun e => codes e.2 := by decide +kernel
        have h' : x = codes "all" := by simpa using h
        rw [← h'] at hm
        exact absurd hm hx
    rw [h1]
    unfold specClass
    rw [h3, h2]
    rfl

theorem toLower_map (tok : List Nat) :
    tok.map (fun c => if 65 ≤ c ∧ c ≤ 90 then c + 32 else c) = tok.map toLower := rfl

theorem sameName_eq (tok : List Nat) (s : String) :
    Spec.sameName tok s = (tok.map toLower == codes s) := rfl

theorem findClass_eq (tok : List Nat) : findClass tok = (specClass (tok.map toLower)).map maskOf := by
  rw [← specClass_eq]
  rfl

/-- the two notions of kind agree -/
def KRel : Kind → Spec.Kind → Prop
  | .number s, .number s' => s = s' ∧ ∃ c t, s = c :: t ∧ 48 ≤ c ∧ c ≤ 57
  | .regex s, .regex s' => s = s'
  | .cls n, .cls b => n = maskOf b
  | .name s, .name s' => s = s'
  | _, _ => False

theorem classOrName_rel (tok : List Nat) : KRel (classOrName tok)
    (if Spec.sameName tok "all" then .cls none
     else match Spec.classes.find? (fun e => Spec.sameName tok e.1) with
      | some e => .cls (some e.2)
      | none => .name tok) := by
  unfold classOrName
  rw [findClass_eq]
  unfold specClass
  have hf : (fun e : String × Nat => Spec.sameName tok e.1) = fun e => tok.map toLower == codes e.1 := rfl
  rw [hf]
  by_cases h : Spec.sameName tok "all" = true
  · rw [if_pos h, if_pos (by rw [← sameName_eq]; exact h)]; simp [KRel, maskOf]
  · rw [if_neg h, if_neg (by rw [← sameName_eq]; exact h)]
    cases Spec.classes.find? (fun e => tok.map toLower == codes e.1) with
    | none => simp [KRel]
    | some e => simp [KRel]

theorem kind_rel (tok : List Nat) : KRel (kind tok) (Spec.kind tok) := by
  unfold kind Spec.kind
  cases tok with
  | nil => exact classOrName_rel []
  | cons c t =>
    simp only [List.head?_cons, Option.map_some, Option.any_some, Option.some.injEq, List.tail_cons]
    by_cases h1 : decide (48 ≤ c ∧ c ≤ 57) = true
    · rw [if_pos h1, if_pos h1]
      exact ⟨rfl, c, t, rfl, by simpa using h1⟩
    rw [if_neg h1, if_neg h1]
    by_cases h2 : c = 47
    · rw [if_pos h2, if_pos h2]; rfl
    rw [if_neg h2, if_neg h2]
    exact classOrName_rel (c :: t)

theorem numberOf_lt {E : Env} {s : List Nat} {p i : Nat} (h : numberOf E s p = some i) :
    ∃ e, (E.table p)[i]? = some e := by
  unfold numberOf at h
  have hv : ∀ n, E.valid n p = true → ∃ e, (E.table p)[n]? = some e := by
    intro n hn
    unfold Env.valid at hn
    split at hn
    · cases hn
    · rename_i e he; exact ⟨e, he⟩
  dsimp only at h
  split at h
  · rename_i hh; injection h with h; subst h; exact hv _ hh
  split at h
  · rename_i hh; injection h with h; subst h
    rw [Bool.and_eq_true] at hh
    exact hv _ hh.2
  · cases h

theorem selects_eq (E : Env) (k : Kind) (k' : Spec.Kind) (h : KRel k k') (p i : Nat) :
    Spec.selects E k' p i = selects E k p i := by
  unfold Spec.selects selects
  cases k <;> cases k' <;> simp only [KRel] at h
  · obtain ⟨rfl, c, t, rfl, hc⟩ := h
    dsimp only
    rw [numberOf_eq E c t hc]
    cases he : (E.table p)[i]? with
    | some e => rfl
    | none =>
      dsimp only
      cases hn : (numberOf E (c :: t) p == some i) with
      | false => rfl
      | true =>
        obtain ⟨e, h2⟩ := numberOf_lt (by simpa using hn)
        rw [he] at h2; cases h2
  · subst h
    dsimp only
    unfold Env.nameSat
    cases (E.table p)[i]? with
    | none => dsimp only; split <;> rfl
    | some e => 
      dsimp only
      cases E.regcomp _ with
      | none => rfl
      | some m => dsimp only; cases e.name <;> rfl
  · subst h
    rename_i b
    dsimp only
    unfold Env.classSat
    cases (E.table p)[i]? with
    | none => rfl
    | some e =>
      dsimp only
      cases b with
      | none => simp [maskOf]
      | some b => simp only [maskOf]; rw [and_two_pow_eq_self]
  · subst h
    dsimp only
    unfold Env.nameSat
    cases (E.table p)[i]? with
    | none => rfl
    | some e =>
      dsimp only
      cases e.name with
      | none => rfl
      | some nm => simp [BEq.comm]

theorem meaningful_eq (E : Env) (k : Kind) (k' : Spec.Kind) (h : KRel k k') (p : Nat) :
    Spec.meaningful E k' p = meaningful E k p := by
  have hs := selects_eq E k k' h p
  unfold Spec.meaningful meaningful
  cases k <;> cases k' <;> simp only [KRel] at h
  · dsimp only
    simp only [hs]
    unfold selects
    dsimp only
    rename_i s s'
    obtain ⟨rfl, _⟩ := h
    cases hn : numberOf E s p with
    | none => simp
    | some n =>
      obtain ⟨e, he⟩ := numberOf_lt hn
      have : n < (E.table p).length := (List.getElem?_eq_some_iff.1 he).1
      simp only [Option.isSome_some, List.any_eq_true, List.mem_range]
      exact ⟨n, this, by simp⟩
  · simp only [hs]
  · rfl
  · simp only [hs]

theorem badRegex_eq (E : Env) (k : Kind) (k' : Spec.Kind) (h : KRel k k') :
    Spec.badRegex E k' = badRegex E k := by
  unfold Spec.badRegex badRegex
  cases k <;> cases k' <;> simp only [KRel] at h <;> first | rfl | (subst h; rfl)

theorem mem_takeWhile {p : Nat → Bool} {l : List Nat} {x : Nat} (h : x ∈ l.takeWhile p) : p x = true := by
  induction l with
  | nil => simp at h
  | cons c t ih =>
    rw [List.takeWhile_cons] at h
    split at h
    · rename_i hc
      rcases List.mem_cons.1 h with rfl | h
      · exact hc
      · exact ih h
    · simp at h

theorem splitLastAt_eq (s : List Nat) :
    splitLastAt s = if 64 ∈ s.reverse then
      some (((s.reverse.dropWhile (· != 64)).drop 1).reverse, (s.reverse.takeWhile (· != 64)).reverse)
    else none := by
  induction s with
  | nil => rfl
  | cons c t ih =>
    unfold splitLastAt
    rw [ih]
    simp only [List.reverse_cons]
    by_cases h : 64 ∈ t.reverse
    · rw [if_pos h, if_pos (List.mem_append_left _ h)]
      have hne : t.reverse.dropWhile (· != 64) ≠ [] := by
        intro hn
        have h2 := List.takeWhile_append_dropWhile (p := (· != 64)) (l := t.reverse)
        rw [hn, List.append_nil] at h2
        rw [← h2] at h
        have := mem_takeWhile h
        simp at this
      have htl : (t.reverse.takeWhile (· != 64)).length ≠ t.reverse.length := by
        intro hl
        have := congrArg List.length (List.takeWhile_append_dropWhile (p := (· != 64)) (l := t.reverse))
        rw [List.length_append] at this
        have h0 : (t.reverse.dropWhile (· != 64)).length = 0 := by omega
        exact hne (List.length_eq_zero_iff.1 h0)
      rw [List.dropWhile_append, List.takeWhile_append, if_neg htl]
      have : (t.reverse.dropWhile (· != 64)).isEmpty = false := by
        cases hd : t.reverse.dropWhile (· != 64) with
        | nil => exact absurd hd hne
        | cons => rfl
      rw [this]
      simp only [Bool.false_eq_true, if_false]
      cases hd : t.reverse.dropWhile (· != 64) with
      | nil => exact absurd hd hne
      | cons y u =>
        rw [List.cons_append, List.drop_one, List.drop_one, List.tail_cons, List.tail_cons, List.reverse_append]
        rfl
    · rw [if_neg h]
      dsimp only
      have hall : ∀ x ∈ t.reverse, (x != 64) = true := by
        intro x hx
        simp only [bne_iff_ne, ne_eq]
        rintro rfl; exact h hx
      by_cases hc : c = 64
      · subst hc
        rw [if_pos rfl, if_pos (by simp)]
        have h1 : (t.reverse ++ [64]).dropWhile (· != 64) = [64] := by
          rw [List.dropWhile_append_of_pos hall]; rfl
        have h2 : (t.reverse ++ [64]).takeWhile (· != 64) = t.reverse := by
          rw [List.takeWhile_append_of_pos hall]; simp
        rw [h1, h2]; simp
      · rw [if_neg hc, if_neg (by simp at h ⊢; exact ⟨h, fun e => hc e.symm⟩)]

/-- the two token parsers agree -/
theorem parseTok_eq (E : Env) (t : List Nat) :
    (Spec.parseTok E t).map (fun k => (k.optional, k.body, k.pers)) =
      (parseTok E t).map (fun k => (k.optional, k.body, k.pers)) := by
  unfold Spec.parseTok parseTok
  dsimp only
  rw [splitLastAt_eq]
  by_cases h : 64 ∈ (t.dropWhile (· == 63)).reverse
  · rw [if_pos h, if_pos h]
    dsimp only
    rw [Option.map_map, Option.map_map]
    rfl
  · rw [if_neg h, if_neg h]
    simp

theorem tok_eq (E : Env) (t : List Nat) : Spec.tokOK E t = tokOK E t ∧
    ∀ p i, Spec.tokSel E t p i = tokSel E t p i := by
  have h := parseTok_eq E t
  unfold Spec.tokOK tokOK Spec.tokSel tokSel
  cases h1 : Spec.parseTok E t with
  | none =>
    rw [h1] at h
    cases h2 : parseTok E t with
    | none => exact ⟨rfl, fun _ _ => rfl⟩
    | some b => rw [h2] at h; cases h
  | some a =>
    rw [h1] at h
    cases h2 : parseTok E t with
    | none => rw [h2] at h; cases h
    | some b =>
      rw [h2] at h
      simp only [Option.map_some, Option.some.injEq, Prod.mk.injEq] at h
      obtain ⟨e1, e2, e3⟩ := h
      dsimp only
      rw [e1, e2, e3]
      have hk := kind_rel b.body
      simp only [badRegex_eq E _ _ hk, meaningful_eq E _ _ hk, selects_eq E _ _ hk]
      exact ⟨trivial, fun _ _ => trivial⟩

theorem sysMeaning_eq (E : Env) (str : List Nat) : Spec.sysMeaning E str = sysMeaning E str := by
  unfold Spec.sysMeaning sysMeaning
  simp only [(tok_eq E _).1, (tok_eq E _).2]
  rfl

/-- C05.  For every configuration, every previous content of the sets and every expression: the
expression is rejected exactly when it has no meaning, and otherwise for every supported personality `p`
and every number `i` the membership query (which never runs into undefined behaviour) answers what the
expression means for `(p, i)`. -/
theorem qualifySyscallTokens_meaning (E : Env) (str : List Nat) (sets : List NSet) :
    match qualifySyscallTokens E str sets, Spec.sysMeaning E str with
    | none, none => True
    | some r, some m => r.length = sets.length ∧ ∀ p, p < sets.length → ∀ i,
        (r[p]?).map (isNumberInSet i) = some (some (m p i))
    | _, _ => False := by
  rw [sysMeaning_eq]
  exact qualifySyscallTokens_mid E str sets

/-! a configuration for the examples: two personalities, the second with renumbered calls -/
def exEnv : Env where
  tables := [[⟨some (codes "read"), true, 0o40⟩, ⟨none, true, 0⟩, ⟨some (codes "open"), true, 0o41⟩],
             [⟨some (codes "open"), true, 0o41⟩, ⟨some (codes "read"), true, 0o40⟩]]
  designators := [codes "64", codes "32"]
  shuffle := fun n _ => n
  nonShuffledCheck := false
  regcomp := fun s => if s = codes "^op" then some (fun nm => nm.take 2 == codes "op") else none

example : (qualifySyscallTokens exEnv (codes "open,read@32") [NumberSet.empty, NumberSet.empty]).map
    (fun r => r.map fun s => (List.range 3).map fun i => isNumberInSet i s) =
    some [[some false, some false, some true], [some true, some true, some false]] := by decide +kernel
example : (qualifySyscallTokens exEnv (codes "!%file,?nosuch,/^op") [NumberSet.empty, NumberSet.empty]).map
    (fun r => r.map fun s => (List.range 3).map fun i => isNumberInSet i s) =
    some [[some true, some true, some false], [some false, some true, some true]] := by decide +kernel
example : (qualifySyscallTokens exEnv (codes "open,nosuch") [NumberSet.empty, NumberSet.empty]).isNone := by
  decide +kernel

end Strace.Filter
