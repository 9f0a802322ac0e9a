import Verif.Lead.Spec
import Verif.Lead.Model
import Mathlib.Data.List.SplitOn
import Mathlib.Data.List.Induction
/-!
# C97: the argument of --absolute-timestamps
-/
namespace Strace.Lead

/-! ### Specification -/

/-- the same but for the case of letters -/
def Same (a b : List Nat) : Prop := a.map Time.lower = b.map Time.lower

/-- "none", "time" and "unix" -/
def formatNames : List (List Nat × Option Bool) :=
  [([110, 111, 110, 101], none), ([116, 105, 109, 101], some false), ([117, 110, 105, 120], some true)]

/-- "s", "ms", "us" and "ns", and the digits after the dot -/
def unitNames : List (List Nat × Nat) := [([115], 0), ([109, 115], 3), ([117, 115], 6), ([110, 115], 9)]

/-- a token that names a format, with or without `format:` before it -/
def IsFormat (t : List Nat) (f : Option Bool) : Prop :=
  ∃ n, (n, f) ∈ formatNames ∧ (Same t n ∨ Same t ([102, 111, 114, 109, 97, 116, 58] ++ n))

/-- a token that names a precision, with or without `precision:` before it -/
def IsUnit (t : List Nat) (w : Nat) : Prop :=
  ∃ n, (n, w) ∈ unitNames ∧ (Same t n ∨ Same t ([112, 114, 101, 99, 105, 115, 105, 111, 110, 58] ++ n))

/-- the last format and the last precision, from the end -/
inductive Says : List (List Nat) → Option (Option Bool) → Option Nat → Prop
  | nil : Says [] none none
  | format (ts : List (List Nat)) (t : List Nat) (f : Option (Option Bool)) (w : Option Nat) (g : Option Bool)
      (h : Says ts f w) (ht : IsFormat t g) : Says (ts ++ [t]) (some g) w
  | unit (ts : List (List Nat)) (t : List Nat) (f : Option (Option Bool)) (w : Option Nat) (v : Nat)
      (h : Says ts f w) (ht : IsUnit t v) : Says (ts ++ [t]) f (some v)

/-! ### Proofs -/

theorem caseEq_iff (a b : List Nat) : Time.caseEq a b = true ↔ Same a b := by
  unfold Time.caseEq Same; exact beq_iff_eq

instance (a b : List Nat) : Decidable (Same a b) := by unfold Same; infer_instance

theorem same_length {a b : List Nat} (h : Same a b) : a.length = b.length := by
  have := congrArg List.length h
  simpa using this

theorem formatOf_iff (t : List Nat) (f : Option Bool) : formatOf t = some f ↔ ∃ n, (n, f) ∈ formatNames ∧ Same t n := by
  have k1 : ¬ Same ([110, 111, 110, 101] : List Nat) [116, 105, 109, 101] := by decide
  have k2 : ¬ Same ([110, 111, 110, 101] : List Nat) [117, 110, 105, 120] := by decide
  have k3 : ¬ Same ([116, 105, 109, 101] : List Nat) [117, 110, 105, 120] := by decide
  have tr : ∀ {a b : List Nat}, Same t a → Same t b → Same a b := fun h1 h2 => h1.symm.trans h2
  unfold formatOf
  simp only [caseEq_iff]
  constructor
  · intro h
    split at h
    · rename_i hs; cases h; exact ⟨_, by simp [formatNames], hs⟩
    · split at h
      · rename_i hs; cases h; exact ⟨[116, 105, 109, 101], by simp [formatNames], hs⟩
      · split at h
        · rename_i hs; cases h; exact ⟨[117, 110, 105, 120], by simp [formatNames], hs⟩
        · cases h
  · rintro ⟨n, hn, hs⟩
    simp only [formatNames, List.mem_cons, Prod.mk.injEq, List.not_mem_nil, or_false] at hn
    rcases hn with ⟨rfl, rfl⟩ | ⟨rfl, rfl⟩ | ⟨rfl, rfl⟩
    · rw [if_pos hs]
    · rw [if_neg (fun h => k1 (tr h hs)), if_pos hs]
    · rw [if_neg (fun h => k2 (tr h hs)), if_neg (fun h => k3 (tr h hs)), if_pos hs]

theorem timescale_iff (t : List Nat) (w : Nat) : (timescale t).map (fun p => p.width) = some w ↔ ∃ n, (n, w) ∈ unitNames ∧ Same t n := by
  have k1 : ¬ Same ([115] : List Nat) [109, 115] := by decide
  have k2 : ¬ Same ([115] : List Nat) [117, 115] := by decide
  have k3 : ¬ Same ([115] : List Nat) [110, 115] := by decide
  have k4 : ¬ Same ([109, 115] : List Nat) [117, 115] := by decide
  have k5 : ¬ Same ([109, 115] : List Nat) [110, 115] := by decide
  have k6 : ¬ Same ([117, 115] : List Nat) [110, 115] := by decide
  have tr : ∀ {a b : List Nat}, Same t a → Same t b → Same a b := fun h1 h2 => h1.symm.trans h2
  unfold timescale
  simp only [caseEq_iff]
  by_cases ht : t = []
  · subst ht
    rw [if_pos rfl]
    constructor
    · intro h; cases h
    · rintro ⟨n, hn, hs⟩
      simp only [unitNames, List.mem_cons, Prod.mk.injEq, List.not_mem_nil, or_false] at hn
      have := same_length hs
      rcases hn with ⟨rfl, rfl⟩ | ⟨rfl, rfl⟩ | ⟨rfl, rfl⟩ | ⟨rfl, rfl⟩ <;> simp at this
  · rw [if_neg ht]
    constructor
    · intro h
      split at h
      · rename_i hs; cases h; exact ⟨[115], by simp [unitNames], hs⟩
      · split at h
        · rename_i hs; cases h; exact ⟨[109, 115], by simp [unitNames], hs⟩
        · split at h
          · rename_i hs; cases h; exact ⟨[117, 115], by simp [unitNames], hs⟩
          · split at h
            · rename_i hs; cases h; exact ⟨[110, 115], by simp [unitNames], hs⟩
            · cases h
    · rintro ⟨n, hn, hs⟩
      simp only [unitNames, List.mem_cons, Prod.mk.injEq, List.not_mem_nil, or_false] at hn
      rcases hn with ⟨rfl, rfl⟩ | ⟨rfl, rfl⟩ | ⟨rfl, rfl⟩ | ⟨rfl, rfl⟩
      · rw [if_pos hs]; rfl
      · rw [if_neg (fun h => k1 (tr h hs)), if_pos hs]; rfl
      · rw [if_neg (fun h => k2 (tr h hs)), if_neg (fun h => k4 (tr h hs)), if_pos hs]; rfl
      · rw [if_neg (fun h => k3 (tr h hs)), if_neg (fun h => k5 (tr h hs)), if_neg (fun h => k6 (tr h hs)), if_pos hs]; rfl

theorem same_append {p n t : List Nat} : Same t (p ++ n) ↔ Same (t.take p.length) p ∧ Same (t.drop p.length) n := by
  unfold Same
  rw [List.map_append]
  constructor
  · intro h
    have h1 := congrArg (List.take p.length) h
    have h2 := congrArg (List.drop p.length) h
    have e1 : List.take p.length (p.map Time.lower ++ n.map Time.lower) = p.map Time.lower := by
      rw [List.take_append_of_le_length (by simp), List.take_of_length_le (by simp)]
    have e2 : List.drop p.length (p.map Time.lower ++ n.map Time.lower) = n.map Time.lower := by
      rw [List.drop_append_of_le_length (by simp), List.drop_of_length_le (by simp), List.nil_append]
    rw [e1, ← List.map_take] at h1
    rw [e2, ← List.map_drop] at h2
    exact ⟨h1, h2⟩
  · rintro ⟨h1, h2⟩
    rw [← h1, ← h2, ← List.map_append, List.take_append_drop]

/-- names are shorter than prefixes -/
theorem not_pfx (pfx t n : List Nat) (hs : Same t n) (hl : n.length < pfx.length) : hasPfx pfx t = false := by
  cases h : hasPfx pfx t
  · rfl
  · have h1 := same_length ((caseEq_iff _ _).mp h)
    have h2 := same_length hs
    rw [List.length_take] at h1
    omega

theorem format_length (n : List Nat) (f : Option Bool) (h : (n, f) ∈ formatNames) : n.length = 4 := by
  simp only [formatNames, List.mem_cons, Prod.mk.injEq, List.not_mem_nil, or_false] at h
  rcases h with ⟨rfl, _⟩ | ⟨rfl, _⟩ | ⟨rfl, _⟩ <;> rfl

theorem unit_length (n : List Nat) (w : Nat) (h : (n, w) ∈ unitNames) : n.length ≤ 2 := by
  simp only [unitNames, List.mem_cons, Prod.mk.injEq, List.not_mem_nil, or_false] at h
  rcases h with ⟨rfl, _⟩ | ⟨rfl, _⟩ | ⟨rfl, _⟩ | ⟨rfl, _⟩ <;> simp

theorem pfx_excl (t : List Nat) (h1 : hasPfx formatPfx t = true) : hasPfx scalePfx t = false := by
  cases h2 : hasPfx scalePfx t
  · rfl
  · have a := (caseEq_iff _ _).mp h1
    have b := (caseEq_iff _ _).mp h2
    have a' : (t.take 7).map Time.lower = formatPfx.map Time.lower := a
    have b' : (t.take 10).map Time.lower = scalePfx.map Time.lower := b
    have c := congrArg (List.take 7) b'
    rw [← List.map_take, List.take_take, show min 7 10 = 7 from rfl, a'] at c
    exact absurd c (by decide)

/-- a token is a format or a precision, as it should be -/
theorem tokenVal_format (t : List Nat) (f : Option Bool) : tokenVal t = some (.format f) ↔ IsFormat t f := by
  unfold tokenVal IsFormat
  by_cases h1 : hasPfx formatPfx t = true
  · rw [if_pos h1]
    have hp : Same (t.take formatPfx.length) formatPfx := (caseEq_iff _ _).mp h1
    constructor
    · intro h
      cases hf : formatOf (t.drop formatPfx.length) with
      | none => rw [hf] at h; cases h
      | some g =>
        rw [hf] at h
        cases h
        obtain ⟨n, hn, hs⟩ := (formatOf_iff _ _).mp hf
        exact ⟨n, hn, Or.inr (same_append.mpr ⟨hp, hs⟩)⟩
    · rintro ⟨n, hn, hs | hs⟩
      · have := not_pfx formatPfx t n hs (by rw [format_length n f hn]; decide)
        rw [h1] at this; cases this
      · have := (same_append.mp hs).2
        rw [(formatOf_iff (t.drop formatPfx.length) f).mpr ⟨n, hn, this⟩]; rfl
  · rw [if_neg h1]
    have hno : ∀ n, ¬ Same t (formatPfx ++ n) := fun n hs => h1 ((caseEq_iff _ _).mpr (same_append.mp hs).1)
    by_cases h2 : hasPfx scalePfx t = true
    · rw [if_pos h2]
      constructor
      · intro h
        cases hf : timescale (t.drop scalePfx.length) with
        | none => rw [hf] at h; cases h
        | some g => rw [hf] at h; cases h
      · rintro ⟨n, hn, hs | hs⟩
        · have := not_pfx scalePfx t n hs (by rw [format_length n f hn]; decide)
          rw [h2] at this; cases this
        · exact absurd hs (hno n)
    · rw [if_neg h2]
      constructor
      · intro h
        cases hf : formatOf t with
        | none => rw [hf] at h; cases ht : timescale t with
          | none => rw [ht] at h; cases h
          | some p => rw [ht] at h; cases h
        | some g =>
          rw [hf] at h
          cases h
          obtain ⟨n, hn, hs⟩ := (formatOf_iff _ _).mp hf
          exact ⟨n, hn, Or.inl hs⟩
      · rintro ⟨n, hn, hs | hs⟩
        · rw [(formatOf_iff t f).mpr ⟨n, hn, hs⟩]
        · exact absurd hs (hno n)

theorem formatOf_none (t n : List Nat) (w : Nat) (hn : (n, w) ∈ unitNames) (hs : Same t n) : formatOf t = none := by
  cases h : formatOf t with
  | none => rfl
  | some f =>
    obtain ⟨m, hm, hs'⟩ := (formatOf_iff _ _).mp h
    have h1 := same_length hs
    have h2 := same_length hs'
    have h3 := format_length m f hm
    have h4 := unit_length n w hn
    omega

theorem tokenVal_unit (t : List Nat) (w : Nat) : (∃ p, tokenVal t = some (.prec p) ∧ p.width = w) ↔ IsUnit t w := by
  unfold tokenVal IsUnit
  by_cases h1 : hasPfx formatPfx t = true
  · rw [if_pos h1]
    constructor
    · rintro ⟨p, h, _⟩
      cases hf : formatOf (t.drop formatPfx.length) with
      | none => rw [hf] at h; cases h
      | some g => rw [hf] at h; cases h
    · rintro ⟨n, hn, hs | hs⟩
      · have := not_pfx formatPfx t n hs (by have := unit_length n w hn; show n.length < 7; omega)
        rw [h1] at this; cases this
      · have h2 : hasPfx scalePfx t = true := (caseEq_iff _ _).mpr (same_append (p := scalePfx).mp hs).1
        rw [pfx_excl t h1] at h2; cases h2
  · rw [if_neg h1]
    by_cases h2 : hasPfx scalePfx t = true
    · rw [if_pos h2]
      have hp : Same (t.take scalePfx.length) scalePfx := (caseEq_iff _ _).mp h2
      constructor
      · rintro ⟨p, h, rfl⟩
        cases hf : timescale (t.drop scalePfx.length) with
        | none => rw [hf] at h; cases h
        | some q =>
          rw [hf] at h
          cases h
          obtain ⟨n, hn, hs⟩ := (timescale_iff (t.drop scalePfx.length) p.width).mp (by rw [hf]; rfl)
          exact ⟨n, hn, Or.inr (same_append.mpr ⟨hp, hs⟩)⟩
      · rintro ⟨n, hn, hs | hs⟩
        · have := not_pfx scalePfx t n hs (by have := unit_length n w hn; show n.length < 10; omega)
          rw [h2] at this; cases this
        · have h3 := (timescale_iff (t.drop scalePfx.length) w).mpr ⟨n, hn, (same_append (p := scalePfx).mp hs).2⟩
          cases hf : timescale (t.drop scalePfx.length) with
          | none => rw [hf] at h3; cases h3
          | some q => rw [hf] at h3; cases h3; exact ⟨q, rfl, rfl⟩
    · rw [if_neg h2]
      constructor
      · rintro ⟨p, h, rfl⟩
        cases hf : formatOf t with
        | some g => rw [hf] at h; cases h
        | none =>
          rw [hf] at h
          cases ht : timescale t with
          | none => rw [ht] at h; cases h
          | some q =>
            rw [ht] at h
            cases h
            obtain ⟨n, hn, hs⟩ := (timescale_iff t p.width).mp (by rw [ht]; rfl)
            exact ⟨n, hn, Or.inl hs⟩
      · rintro ⟨n, hn, hs | hs⟩
        · rw [formatOf_none t n w hn hs]
          have h3 := (timescale_iff t w).mpr ⟨n, hn, hs⟩
          cases hf : timescale t with
          | none => rw [hf] at h3; cases h3
          | some q => rw [hf] at h3; cases h3; exact ⟨q, rfl, rfl⟩
        · exact absurd ((caseEq_iff _ _).mpr (same_append (p := scalePfx).mp hs).1) h2

theorem tokenLoop_append (f : Option (Option Bool)) (p : Option Prec) (a b : List (List Nat)) :
    tokenLoop f p (a ++ b) = (tokenLoop f p a).bind fun r => tokenLoop r.1 r.2 b := by
  induction a generalizing f p with
  | nil => rfl
  | cons t r ih =>
    rw [List.cons_append]
    have e : ∀ f p r, tokenLoop f p (t :: r) = match tokenVal t with
      | none => none
      | some (.format g) => tokenLoop (some g) p r
      | some (.prec q) => tokenLoop f (some q) r := fun _ _ _ => rfl
    rw [e, e]
    cases tokenVal t with
    | none => rfl
    | some v => cases v <;> exact ih _ _

theorem tokenLoop_iff (ts : List (List Nat)) (f : Option (Option Bool)) (w : Option Nat) :
    (∃ p, tokenLoop none none ts = some (f, p) ∧ p.map (fun q => q.width) = w) ↔ Says ts f w := by
  induction ts using List.reverseRecOn generalizing f w with
  | nil =>
    constructor
    · rintro ⟨p, h, rfl⟩
      cases h; exact .nil
    · intro h
      generalize hts : ([] : List (List Nat)) = ts at h
      cases h with
      | nil => exact ⟨none, rfl, rfl⟩
      | format => simp at hts
      | unit => simp at hts
  | append_singleton ts t ih =>
    rw [tokenLoop_append]
    constructor
    · rintro ⟨p, h, rfl⟩
      cases hl : tokenLoop none none ts with
      | none => rw [hl] at h; cases h
      | some r =>
        rw [hl] at h
        have hs := (ih r.1 (r.2.map fun q => q.width)).mp ⟨r.2, hl, rfl⟩
        have h' : tokenLoop r.1 r.2 [t] = some (f, p) := h
        unfold tokenLoop at h'
        cases hv : tokenVal t with
        | none => rw [hv] at h'; cases h'
        | some v =>
          rw [hv] at h'
          cases v with
          | format g =>
            have h2 : some (some g, r.2) = some (f, p) := h'
            cases h2
            exact .format ts t r.1 _ g hs ((tokenVal_format t g).mp hv)
          | prec q =>
            have h2 : some (r.1, some q) = some (f, p) := h'
            cases h2
            exact .unit ts t r.1 _ q.width hs ((tokenVal_unit t q.width).mp ⟨q, hv, rfl⟩)
    · intro h
      generalize hts : ts ++ [t] = us at h
      cases h with
      | nil => simp at hts
      | format ts' t' f' w' g h ht =>
        obtain ⟨h1, h2⟩ := List.append_inj' hts rfl
        cases h2
        subst h1
        obtain ⟨p, hp, hw⟩ := (ih f' w).mpr h
        refine ⟨p, ?_, hw⟩
        rw [hp]
        show tokenLoop f' p [t] = _
        unfold tokenLoop
        rw [(tokenVal_format t g).mpr ht]; rfl
      | unit ts' t' f' w' v h ht =>
        obtain ⟨h1, h2⟩ := List.append_inj' hts rfl
        cases h2
        subst h1
        obtain ⟨p, hp, hw⟩ := (ih f w').mpr h
        obtain ⟨q, hq, hqw⟩ := (tokenVal_unit t v).mpr ht
        refine ⟨some q, ?_, by rw [← hqw]; rfl⟩
        rw [hp]
        show tokenLoop f p [t] = _
        unfold tokenLoop
        rw [hq]; rfl

theorem tokens_join (ts : List (List Nat)) (h : ∀ t ∈ ts, t ≠ [] ∧ 44 ∉ t) : tokens ([44].intercalate ts) = ts := by
  cases ts with
  | nil => rfl
  | cons t r =>
    unfold tokens
    rw [List.splitOn_intercalate _ (fun l hl => (h l hl).2) (by simp)]
    rw [List.filter_eq_self]
    intro l hl
    simpa using (h l hl).1

/-- C97: an argument of --absolute-timestamps, tokens with commas between them, is accepted exactly if every token names a format or a
precision; the last of each counts, and no others. -/
theorem stamps_arg (ts : List (List Nat)) (h : ∀ t ∈ ts, t ≠ [] ∧ 44 ∉ t) (r : Opt.Ts) :
    parseTs ([44].intercalate ts) = some r ↔ Says ts r.format r.width := by
  unfold parseTs
  rw [tokens_join ts h, ← tokenLoop_iff]
  constructor
  · intro hh
    cases hl : tokenLoop none none ts with
    | none => rw [hl] at hh; cases hh
    | some q => rw [hl] at hh; cases hh; exact ⟨q.2, rfl, rfl⟩
  · rintro ⟨p, hp, hw⟩
    rw [hp]
    show some (⟨r.format, p.map fun q => q.width⟩ : Opt.Ts) = _
    rw [hw]

/-- `-t`, `-tt` and `-ttt` are what their arguments say: src/strace.c:2257-2259 -/
theorem stamps_short :
    parseTs ("format:time".toList.map Char.toNat) = some ⟨some (some false), none⟩ ∧
    parseTs ("precision:us,format:time".toList.map Char.toNat) = some ⟨some (some false), some 6⟩ ∧
    parseTs ("format:unix,precision:us".toList.map Char.toNat) = some ⟨some (some true), some 6⟩ := by decide +kernel

example : ∀ t ∈ ["Precision:MS".toList.map Char.toNat, "unix".toList.map Char.toNat], t ≠ [] ∧ 44 ∉ t := by decide +kernel
example : parseTs ("Precision:MS,unix".toList.map Char.toNat) = some ⟨some (some true), some 3⟩ := by decide +kernel
example : parseTs ("format:us".toList.map Char.toNat) = none := by decide +kernel

/-- whatever precision an argument gives, the parts of a second shown with it are those of the reader: `OkPrec`, the
condition of `read_lead`, holds of everything the parser returns -/
theorem stamps_prec (ts : List (List Nat)) (f : Option (Option Bool)) (p : Prec)
    (h : tokenLoop none none ts = some (f, some p)) : OkPrec p := by
  have hs : ∀ (a : List Nat) (q : Prec), timescale a = some q → OkPrec q := by
    intro a q hq
    unfold timescale at hq
    repeat' split at hq
    all_goals first
      | (injection hq with hq; subst hq; unfold OkPrec; decide)
      | cases hq
  have hv : ∀ (a : List Nat) (q : Prec), tokenVal a = some (.prec q) → OkPrec q := by
    intro a q hq
    unfold tokenVal at hq
    split at hq
    · cases h1 : formatOf (a.drop formatPfx.length) <;> rw [h1] at hq <;> simp at hq
    · split at hq
      · cases h1 : timescale (a.drop scalePfx.length) with
        | none => rw [h1] at hq; simp at hq
        | some x => rw [h1] at hq; simp at hq; subst hq; exact hs _ _ h1
      · split at hq
        · simp at hq
        · cases h1 : timescale a with
          | none => rw [h1] at hq; simp at hq
          | some x => rw [h1] at hq; simp at hq; subst hq; exact hs _ _ h1
  have hl : ∀ (ts : List (List Nat)) (g : Option (Option Bool)) (q : Option Prec), (∀ x, q = some x → OkPrec x) →
      tokenLoop g q ts = some (f, some p) → OkPrec p := by
    intro ts
    induction ts with
    | nil => intro g q hq h; simp only [tokenLoop, Option.some.injEq, Prod.mk.injEq] at h; exact hq p h.2
    | cons t r ih =>
      intro g q hq h
      simp only [tokenLoop] at h
      cases h1 : tokenVal t with
      | none => rw [h1] at h; simp at h
      | some v =>
        rw [h1] at h
        cases v with
        | format g' => exact ih _ _ hq h
        | prec q' => exact ih _ _ (by intro x hx; injection hx with hx; subst hx; exact hv _ _ h1) h
  exact hl ts none none (by intro x hx; cases hx) h

example : tokenLoop none none ["us".toList.map Char.toNat] = some (none, some ⟨6, 1000⟩) := by decide +kernel

end Strace.Lead
