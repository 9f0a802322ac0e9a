import Verif.Cli.PokeProps
import Verif.Cli.NamesProps
import Verif.Inject.Props
import Verif.Filter.Props
import Verif.NumberSet.Props
import Mathlib.Data.List.Perm.Basic
/-!
# C72: what an injection expression means.  C73: which option `-e` sets
-/
namespace Strace.Cli

open Strace.Filter (codes)
open Strace.StringToUint (skipSpace splitSign isSpace skipSpace_append skipSpace_split splitSign_split)

/-! ### Specification of `retval=` -/

/-- `c` is a digit of value `x` in base `b` (letters are digits from ten on) -/
def DigitB (b c x : Nat) : Prop :=
  ((48 ≤ c ∧ c ≤ 57 ∧ x = c - 48) ∨ (97 ≤ c ∧ c ≤ 122 ∧ x = c - 87) ∨ (65 ≤ c ∧ c ≤ 90 ∧ x = c - 55)) ∧ x < b

/-- a non-empty digit string in base `b` and its value -/
inductive Numeral (b : Nat) : List Nat → Nat → Prop
  | one {c x} : DigitB b c x → Numeral b [c] x
  | snoc {l m c x} : Numeral b l m → DigitB b c x → Numeral b (l ++ [c]) (m * b + x)

/-- C notation: decimal, octal with a leading zero, hexadecimal after "0x"; and binary after "0b" if `c2x` -/
def Magnitude (c2x : Bool) (t : List Nat) (m : Nat) : Prop :=
  (Numeral 10 t m ∧ t.head? ≠ some 48) ∨ (Numeral 8 t m ∧ t.head? = some 48) ∨
  (∃ x l, t = 48 :: x :: l ∧ (x = 120 ∨ x = 88) ∧ Numeral 16 l m) ∨
  (c2x = true ∧ ∃ x l, t = 48 :: x :: l ∧ (x = 98 ∨ x = 66) ∧ Numeral 2 l m)

/-- blanks, an optional sign and a number below 2^64, taken modulo 2^64, that fits the kernel's word -/
def RetvalText (c2x : Bool) (kbits : Nat) (t : List Nat) (v : Nat) : Prop :=
  ∃ ws sg body m, t = ws ++ sg ++ body ∧ (∀ c ∈ ws, isSpace c = true) ∧ (sg = [] ∨ sg = [43] ∨ sg = [45]) ∧
    Magnitude c2x body m ∧ m < 2 ^ 64 ∧ v = (if sg = [45] then (2 ^ 64 - m) % 2 ^ 64 else m) ∧ v < 2 ^ kbits

/-! ### Specification of the expression -/

/-- what one token says -/
inductive Field
  | when (s : Inject.Sched)
  | syscall (l : List Nat)
  | error (v : Int)
  | retval (v : Nat)
  | signal (v : Int)
  | pokeEnter (ps : List (Nat × List Nat))
  | pokeExit (ps : List (Nat × List Nat))
  | delayEnter (t : Time.Ts)
  | delayExit (t : Time.Ts)

/-- what cannot be said twice: an error and a return value exclude each other -/
inductive Subject | syscall | result | signal | pokeEnter | pokeExit | delayEnter | delayExit
deriving DecidableEq

def Field.subject : Field → Option Subject
  | .when _ => none
  | .syscall _ => some .syscall
  | .error _ => some .result
  | .retval _ => some .result
  | .signal _ => some .signal
  | .pokeEnter _ => some .pokeEnter
  | .pokeExit _ => some .pokeExit
  | .delayEnter _ => some .delayEnter
  | .delayExit _ => some .delayExit

/-- what a field sets -/
def Field.put (o : Opts) : Field → Opts
  | .when s => { o with sched := s }
  | .syscall l => { o with syscall := some l }
  | .error v => { o with error := some v }
  | .retval v => { o with retval := some v }
  | .signal v => { o with signal := some v }
  | .pokeEnter ps => { o with pokeEnter := some ps }
  | .pokeExit ps => { o with pokeExit := some ps }
  | .delayEnter t => { o with delayEnter := some t }
  | .delayExit t => { o with delayExit := some t }

/-- the call named `name` in personality `p` is number `n`, the first of that name, and it is one without arguments and
side effects (flag bit 19 of the table) -/
def PureCall (B : Build) (name : List Nat) (p n : Nat) : Prop :=
  ∃ e, (B.env.table p)[n]? = some e ∧ e.name = some name ∧ e.flags.testBit 19 = true ∧
    ∀ i e', i < n → (B.env.table p)[i]? = some e' → e'.name ≠ some name

/-- what a token means; in a `fault=` expression only the first three kinds exist -/
inductive TokenMeans (B : Build) (fault : Bool) : List Nat → Field → Prop
  | when {t s} : Inject.When t s → TokenMeans B fault (codes "when=" ++ t) (.when s)
  | syscall {t l} : List.Forall₂ (PureCall B t) (List.range B.env.tables.length) l → TokenMeans B fault (codes "syscall=" ++ t) (.syscall l)
  | error {t n} : ErrorText B.names t n → 1 ≤ n → TokenMeans B fault (codes "error=" ++ t) (.error (n : Nat))
  | retval {t v} : fault = false → RetvalText B.c2x B.kbits t v → TokenMeans B fault (codes "retval=" ++ t) (.retval v)
  | signal {t n} : fault = false → SignalText B.names t n → 1 ≤ n → n ≤ B.nsigBytes * 8 →
      TokenMeans B fault (codes "signal=" ++ t) (.signal (n : Nat))
  | pokeEnter {t ps} : fault = false → pokeValue t = some ps → TokenMeans B fault (codes "poke_enter=" ++ t) (.pokeEnter ps)
  | pokeExit {t ps} : fault = false → pokeValue t = some ps → TokenMeans B fault (codes "poke_exit=" ++ t) (.pokeExit ps)
  | delayEnter {t ts} : fault = false → Time.parseTs B.fl t = some ts → TokenMeans B fault (codes "delay_enter=" ++ t) (.delayEnter ts)
  | delayExit {t ts} : fault = false → Time.parseTs B.fl t = some ts → TokenMeans B fault (codes "delay_exit=" ++ t) (.delayExit ts)

/-- the fields that make something happen to the call -/
def Field.acts : Field → Bool
  | .when _ => false
  | .syscall _ => false
  | _ => true

/-- what the tokens after the set of calls mean: what each of them sets, in turn, nothing being said twice; a `fault=`
expression without action injects the error ENOSYS, an `inject=` expression without action means nothing -/
def ExprMeans (B : Build) (fault : Bool) (ts : List (List Nat)) (o : Opts) : Prop :=
  ∃ fs, List.Forall₂ (TokenMeans B fault) ts fs ∧ (fs.filterMap Field.subject).Nodup ∧
    ((∃ f ∈ fs, f.acts = true) ∧ o = fs.foldl Field.put {} ∨
     fault = true ∧ (∀ f ∈ fs, f.acts = false) ∧ o = (fs ++ [Field.error B.enosys]).foldl Field.put {})

/-! ### Specification of `-e` -/

/-- the qualifiers of the manual page and their short and plural forms -/
def Handler.names : Handler → List String
  | .trace => ["t", "trace"]
  | .traceFd => ["fd", "fds", "trace-fd", "trace-fds"]
  | .abbrev => ["a", "abbrev"]
  | .verbose => ["v", "verbose"]
  | .raw => ["x", "raw"]
  | .signals => ["s", "signal", "signals"]
  | .status => ["status"]
  | .quiet => ["q", "quiet", "silent", "silence"]
  | .read => ["r", "read", "reads"]
  | .write => ["w", "write", "writes"]
  | .fault => ["fault"]
  | .inject => ["inject"]
  | .kvm => ["kvm"]
  | .decodeFd => ["decode-fd", "decode-fds"]
  | .decodePid => ["decode-pid", "decode-pids"]
  | .secontext => ["secontext"]
  | .namespace => ["namespace"]

/-! ### `retval=`: lemmas -/

theorem digitB_iff (b c : Nat) (hb : b ≤ 36) : (∃ x, DigitB b c x) ↔ digitVal c < b := by
  unfold DigitB digitVal
  constructor
  · rintro ⟨x, h⟩; split <;> (try split) <;> (try split) <;> omega
  · intro h
    split at h
    · exact ⟨c - 48, by omega⟩
    split at h
    · exact ⟨c - 87, by omega⟩
    split at h
    · exact ⟨c - 55, by omega⟩
    · omega

theorem digitB_val {b c x : Nat} (h : DigitB b c x) : digitVal c = x ∧ x < b := by
  unfold DigitB at h
  unfold digitVal
  split <;> (try split) <;> (try split) <;> omega

theorem digitB_of {b c : Nat} (hb : b ≤ 36) (h : digitVal c < b) : DigitB b c (digitVal c) := by
  obtain ⟨x, hx⟩ := (digitB_iff b c hb).2 h
  rw [(digitB_val hx).1]; exact hx

theorem digitsB_all (b : Nat) (l : List Nat) (acc : Nat) (h : ∀ c ∈ l, digitVal c < b) :
    digitsB b acc l = (l.foldl (fun a c => a * b + digitVal c) acc, []) := by
  induction l generalizing acc with
  | nil => rfl
  | cons c t ih =>
    simp only [digitsB, if_pos (h c (by simp)), List.foldl_cons]
    exact ih _ fun x hx => h x (by simp [hx])

theorem digitsB_nil {b : Nat} {l : List Nat} {acc m : Nat} (h : digitsB b acc l = (m, [])) : ∀ c ∈ l, digitVal c < b := by
  induction l generalizing acc with
  | nil => simp
  | cons c t ih =>
    unfold digitsB at h
    split at h
    · rename_i hc
      intro x hx
      rcases List.mem_cons.1 hx with rfl | hx
      · exact hc
      · exact ih h x hx
    · simp at h

theorem numeral_iff (b : Nat) (hb : b ≤ 36) (l : List Nat) (m : Nat) :
    Numeral b l m ↔ l ≠ [] ∧ (∀ c ∈ l, digitVal c < b) ∧ m = l.foldl (fun a c => a * b + digitVal c) 0 := by
  constructor
  · intro h
    induction h with
    | one hd =>
      obtain ⟨h1, h2⟩ := digitB_val hd
      refine ⟨by simp, ?_, ?_⟩
      · intro c hc; simp at hc; subst hc; omega
      · simp [h1]
    | snoc _ hd ih =>
      obtain ⟨h1, h2⟩ := digitB_val hd
      obtain ⟨i1, i2, i3⟩ := ih
      refine ⟨by simp, ?_, ?_⟩
      · intro c hc
        rcases List.mem_append.1 hc with hc | hc
        · exact i2 c hc
        · simp at hc; subst hc; omega
      · rw [List.foldl_append, ← i3]; simp [h1]
  · rintro ⟨h0, h1, rfl⟩
    induction l using List.reverseRecOn with
    | nil => exact absurd rfl h0
    | append_singleton l c ih =>
      have hc := digitB_of hb (h1 c (by simp))
      rw [List.foldl_append]
      simp only [List.foldl_cons, List.foldl_nil]
      cases l with
      | nil =>
        have : ([] : List Nat).foldl (fun a c => a * b + digitVal c) 0 * b + digitVal c = digitVal c := by simp
        rw [this]; exact .one hc
      | cons x l => exact .snoc (ih (by simp) fun y hy => h1 y (by simp at hy ⊢; tauto)) hc

theorem digitsB_numeral (b : Nat) (hb : b ≤ 36) (c : Nat) (t : List Nat) (m : Nat) :
    digitsB b 0 (c :: t) = (m, []) ↔ Numeral b (c :: t) m := by
  rw [numeral_iff b hb]
  constructor
  · intro h
    have ha := digitsB_nil h
    rw [digitsB_all b _ 0 ha] at h
    injection h with h _
    exact ⟨by simp, ha, h.symm⟩
  · rintro ⟨_, h2, rfl⟩
    exact digitsB_all b _ 0 h2

theorem convertB_iff (b : Nat) (hb : b ≤ 36) (l : List Nat) (m : Nat) : convertB b l = some (m, []) ↔ Numeral b l m := by
  cases l with
  | nil =>
    rw [numeral_iff b hb]; simp [convertB]
  | cons c t =>
    unfold convertB
    simp only
    constructor
    · intro h
      split at h
      · injection h with h; exact (digitsB_numeral b hb c t m).1 h
      · cases h
    · intro h
      have hc := ((numeral_iff b hb _ m).1 h).2.1 c (by simp)
      rw [if_pos hc, (digitsB_numeral b hb c t m).2 h]

theorem numeral_digit {b : Nat} (hb : b ≤ 36) {l : List Nat} {m c : Nat} (h : Numeral b l m) (hc : c ∈ l) : digitVal c < b :=
  ((numeral_iff b hb l m).1 h).2.1 c hc

theorem numeral_ne_nil {b : Nat} (hb : b ≤ 36) {l : List Nat} {m : Nat} (h : Numeral b l m) : l ≠ [] :=
  ((numeral_iff b hb l m).1 h).1

theorem digitVal_x {x : Nat} (h : x = 120 ∨ x = 88) : digitVal x = 33 := by rcases h with rfl | rfl <;> rfl
theorem digitVal_b {x : Nat} (h : x = 98 ∨ x = 66) : digitVal x = 11 := by rcases h with rfl | rfl <;> rfl

theorem body_iff (c2x : Bool) (s : List Nat) (m : Nat) : strtoullBody c2x s = some (m, []) ↔ Magnitude c2x s m := by
  unfold strtoullBody Magnitude
  by_cases h0 : s.head? = some 48
  · obtain ⟨t, rfl⟩ : ∃ t, s = 48 :: t := by
      cases s with
      | nil => simp at h0
      | cons c t => simp at h0; exact ⟨t, by rw [h0]⟩
    match t with
    | [] =>
      simp only [baseOf]
      rw [convertB_iff 8 (by decide)]
      simp
    | [x] =>
      simp only [baseOf]
      rw [convertB_iff 8 (by decide)]
      have n16 : ¬ Numeral 16 [] m := fun h => numeral_ne_nil (by decide) h rfl
      have n2 : ¬ Numeral 2 [] m := fun h => numeral_ne_nil (by decide) h rfl
      constructor
      · intro h; exact Or.inr (Or.inl ⟨h, h0⟩)
      · rintro (⟨_, h⟩ | ⟨h, _⟩ | ⟨y, l, e, _, h⟩ | ⟨_, y, l, e, _, h⟩)
        · exact absurd h0 h
        · exact h
        · simp at e; rw [e.2] at h; exact absurd h n16
        · simp at e; rw [e.2] at h; exact absurd h n2
    | x :: d :: t =>
      simp only [baseOf]
      by_cases hx : (x = 120 ∨ x = 88) ∧ digitVal d < 16
      · rw [if_pos hx]
        simp only
        rw [convertB_iff 16 (by decide)]
        constructor
        · intro h; exact Or.inr (Or.inr (Or.inl ⟨x, _, rfl, hx.1, h⟩))
        · rintro (⟨_, h⟩ | ⟨h, _⟩ | ⟨y, l, e, _, h⟩ | ⟨_, y, l, e, hy, h⟩)
          · exact absurd h0 h
          · have := numeral_digit (by decide) h (c := x) (by simp)
            rw [digitVal_x hx.1] at this; omega
          · simp at e; rw [e.2]; exact h
          · simp at e; have h1 := digitVal_x hx.1; rw [e.1, digitVal_b hy] at h1; omega
      · rw [if_neg hx]
        by_cases hb : (c2x = true) ∧ (x = 98 ∨ x = 66) ∧ digitVal d < 2
        · rw [if_pos hb]
          simp only
          rw [convertB_iff 2 (by decide)]
          constructor
          · intro h; exact Or.inr (Or.inr (Or.inr ⟨hb.1, x, _, rfl, hb.2.1, h⟩))
          · rintro (⟨_, h⟩ | ⟨h, _⟩ | ⟨y, l, e, hy, h⟩ | ⟨_, y, l, e, _, h⟩)
            · exact absurd h0 h
            · have := numeral_digit (by decide) h (c := x) (by simp)
              rw [digitVal_b hb.2.1] at this; omega
            · simp at e; have h1 := digitVal_b hb.2.1; rw [e.1, digitVal_x hy] at h1; omega
            · simp at e; rw [e.2]; exact h
        · rw [if_neg hb]
          simp only
          rw [convertB_iff 8 (by decide)]
          constructor
          · intro h; exact Or.inr (Or.inl ⟨h, h0⟩)
          · rintro (⟨_, h⟩ | ⟨h, _⟩ | ⟨y, l, e, hy, h⟩ | ⟨hc, y, l, e, hy, h⟩)
            · exact absurd h0 h
            · exact h
            · simp at e; rw [← e.2] at h
              exact absurd ⟨by rw [e.1]; exact hy, numeral_digit (by decide) h (by simp)⟩ hx
            · simp at e; rw [← e.2] at h
              exact absurd ⟨hc, by rw [e.1]; exact hy, numeral_digit (by decide) h (by simp)⟩ hb
  · have hbase : baseOf c2x s = (10, s) := by
      unfold baseOf
      split
      · simp at h0
      · simp at h0
      · rfl
    rw [hbase]
    simp only
    rw [convertB_iff 10 (by decide)]
    constructor
    · intro h; exact Or.inl ⟨h, h0⟩
    · rintro (⟨h, _⟩ | ⟨_, h⟩ | ⟨x, l, rfl, _, _⟩ | ⟨_, x, l, rfl, _, _⟩)
      · exact h
      · exact absurd h h0
      · simp at h0
      · simp at h0

theorem magnitude_head {c2x : Bool} {t : List Nat} {m : Nat} (h : Magnitude c2x t m) : ∃ c l, t = c :: l ∧ 48 ≤ c ∧ c ≤ 57 := by
  have key : ∀ b, b ≤ 10 → Numeral b t m → ∃ c l, t = c :: l ∧ 48 ≤ c ∧ c ≤ 57 := by
    intro b hb h
    cases t with
    | nil => exact absurd rfl (numeral_ne_nil (by omega) h)
    | cons c l =>
      have := numeral_digit (by omega) h (c := c) (by simp)
      refine ⟨c, l, rfl, ?_⟩
      unfold digitVal at this
      split at this
      · assumption
      split at this
      · omega
      split at this <;> omega
  rcases h with ⟨h, _⟩ | ⟨h, _⟩ | ⟨x, l, rfl, _⟩ | ⟨_, x, l, rfl, _⟩
  · exact key 10 (by decide) h
  · exact key 8 (by decide) h
  · exact ⟨48, _, rfl, by decide, by decide⟩
  · exact ⟨48, _, rfl, by decide, by decide⟩

theorem skip_sign {ws sg body : List Nat} (hw : ∀ c ∈ ws, isSpace c = true) (hs : sg = [] ∨ sg = [43] ∨ sg = [45])
    (hb : ∃ c l, body = c :: l ∧ 48 ≤ c ∧ c ≤ 57) :
    splitSign (skipSpace (ws ++ sg ++ body)) = (decide (sg = [45]), body) := by
  obtain ⟨c, l, rfl, h1, h2⟩ := hb
  rw [List.append_assoc, skipSpace_append _ _ hw]
  rcases hs with rfl | rfl | rfl
  · have : isSpace c = false := by
      rw [Bool.eq_false_iff]; intro hc
      have := (StringToUint.isSpace_iff c).1 hc; omega
    simp only [List.nil_append, skipSpace, this, Bool.false_eq_true, if_false, splitSign]
    rw [if_neg (by omega), if_neg (by omega)]; simp
  · simp [skipSpace, splitSign, isSpace]
  · simp [skipSpace, splitSign, isSpace]

/-- **C72, `retval=`.** The text is accepted exactly if it is a number in C notation that fits, and means that number. -/
theorem retval_text (c2x : Bool) (kbits : Nat) (t : List Nat) (v : Nat) :
    retvalValue c2x kbits t = some v ↔ RetvalText c2x kbits t v := by
  unfold retvalValue RetvalText
  constructor
  · intro h
    split at h
    · cases h
    · rename_i m rest hm
      split at h
      · cases h
      · rename_i hlt
        simp only at h
        generalize hu : (if (splitSign (skipSpace t)).1 = true then (2 ^ 64 - m) % 2 ^ 64 else m) = ull at h
        split at h
        · cases h
        · rename_i hr
          injection h with h
          have hr1 : rest = [] := by
            by_contra hc; exact hr (Or.inl hc)
          subst hr1
          have hmag := (body_iff c2x _ m).1 hm
          obtain ⟨ws, e1, e2, _⟩ := skipSpace_split t
          obtain ⟨sg, e3, e4⟩ := splitSign_split (skipSpace t)
          have hs := skip_sign e2 e4 (magnitude_head hmag)
          rw [List.append_assoc, ← e3, ← e1] at hs
          refine ⟨ws, sg, _, m, by rw [List.append_assoc, ← e3, ← e1], e2, e4, hmag, by omega, ?_, ?_⟩
          · rw [← h, ← hu, hs]; simp
          · have hk : 0 < 2 ^ kbits := Nat.pos_of_ne_zero (by simp)
            rw [← h]
            have : ¬ (ull % 2 ^ kbits ≠ ull) := fun hc => hr (Or.inr hc)
            rw [not_not] at this
            rw [← this]
            exact Nat.mod_lt _ hk
  · rintro ⟨ws, sg, body, m, rfl, hw, hs, hm, hlt, hv, hk⟩
    rw [skip_sign hw hs (magnitude_head hm)]
    simp only
    rw [(body_iff c2x body m).2 hm]
    simp only
    rw [if_neg (by omega)]
    simp only [decide_eq_true_eq, ← hv]
    rw [if_neg (by rw [Nat.mod_eq_of_lt hk]; simp)]

/-! ### Tokens: lemmas -/

theorem nameSat_iff (E : Filter.Env) (p i : Nat) (s : List Nat) :
    E.nameSat p i (fun nm => s == nm) = true ↔ ∃ e, (E.table p)[i]? = some e ∧ e.name = some s := by
  unfold Filter.Env.nameSat
  cases (E.table p)[i]? with
  | none => simp
  | some e =>
    simp only [Option.some.injEq, exists_eq_left']
    cases e.name with
    | none => simp
    | some nm => simp only [beq_iff_eq, Option.some.injEq]; exact eq_comm

theorem scnoByName_iff (E : Filter.Env) (s : List Nat) (p n : Nat) :
    Filter.scnoByName E s p 0 = some n ↔ (∃ e, (E.table p)[n]? = some e ∧ e.name = some s) ∧
      ∀ i e', i < n → (E.table p)[i]? = some e' → e'.name ≠ some s := by
  unfold Filter.scnoByName
  rw [List.find?_range'_eq_some]
  constructor
  · rintro ⟨h1, h2, h3⟩
    refine ⟨(nameSat_iff E p n s).1 h1, ?_⟩
    intro i e' hi he hn
    have := h3 i (by omega) hi
    rw [(nameSat_iff E p i s).2 ⟨e', he, hn⟩] at this
    simp at this
  · rintro ⟨⟨e, he, hn⟩, h⟩
    refine ⟨(nameSat_iff E p n s).2 ⟨e, he, hn⟩, ?_, ?_⟩
    · have := (List.getElem?_eq_some_iff.1 he).1
      simp [List.mem_range'_1]; omega
    · intro i _ hi
      rw [Bool.not_eq_true', Bool.eq_false_iff]
      intro hs
      obtain ⟨e', he', hn'⟩ := (nameSat_iff E p i s).1 hs
      exact h i e' hi he' hn'

theorem pureScno_iff (B : Build) (val : List Nat) (p n : Nat) : pureScno B val p = some n ↔ PureCall B val p n := by
  have hflag : ∀ e : Filter.SysEnt, e.flags &&& tracePure = 0 ↔ e.flags.testBit 19 = false := by
    intro e
    have := Filter.and_two_pow_eq_zero e.flags 19
    have e2 : (2 : Nat) ^ 19 = tracePure := by rfl
    rw [e2] at this
    rw [← beq_iff_eq (a := e.flags &&& tracePure), this, beq_iff_eq]
  unfold pureScno PureCall
  constructor
  · intro h
    split at h
    · cases h
    · rename_i scno hs
      split at h
      · cases h
      · rename_i e he
        split at h
        · cases h
        · rename_i hf
          injection h with h; subst h
          obtain ⟨⟨e', he', hn⟩, hu⟩ := (scnoByName_iff B.env val p scno).1 hs
          rw [he] at he'; injection he' with he'; subst he'
          refine ⟨e, he, hn, ?_, hu⟩
          rw [hflag] at hf; simpa using hf
  · rintro ⟨e, he, hn, hf, hu⟩
    rw [(scnoByName_iff B.env val p n).2 ⟨⟨e, he, hn⟩, hu⟩]
    simp only [he]
    rw [if_neg (by rw [hflag, hf]; simp)]

theorem pureScnos_iff (B : Build) (val ps l : List Nat) : pureScnos B val ps = some l ↔ List.Forall₂ (PureCall B val) ps l := by
  induction ps generalizing l with
  | nil =>
    simp only [pureScnos]
    constructor
    · intro h; injection h with h; subst h; exact .nil
    · intro h; cases h; rfl
  | cons p ps ih =>
    simp only [pureScnos]
    constructor
    · intro h
      split at h
      · cases h
      · rename_i n hn
        rw [Option.map_eq_some_iff] at h
        obtain ⟨l', h1, rfl⟩ := h
        exact .cons ((pureScno_iff B val p n).1 hn) ((ih l').1 h1)
    · intro h
      cases h with
      | cons h1 h2 =>
        rw [(pureScno_iff B val p _).2 h1]
        simp only
        rw [(ih _).2 h2]; rfl

/-- was this subject spoken of before? -/
def taken (o : Opts) : Subject → Bool
  | .syscall => o.syscall.isSome
  | .result => o.error.isSome || o.retval.isSome
  | .signal => o.signal.isSome
  | .pokeEnter => o.pokeEnter.isSome
  | .pokeExit => o.pokeExit.isSome
  | .delayEnter => o.delayEnter.isSome
  | .delayExit => o.delayExit.isSome

theorem taken_put (o : Opts) (f : Field) (s : Subject) : taken (f.put o) s = (taken o s || decide (f.subject = some s)) := by
  cases f <;> cases s <;> simp [taken, Field.put, Field.subject]

theorem c_when : codes "when=" = [119, 104, 101, 110, 61] := by decide
theorem c_syscall : codes "syscall=" = [115, 121, 115, 99, 97, 108, 108, 61] := by decide
theorem c_error : codes "error=" = [101, 114, 114, 111, 114, 61] := by decide
theorem c_retval : codes "retval=" = [114, 101, 116, 118, 97, 108, 61] := by decide
theorem c_signal : codes "signal=" = [115, 105, 103, 110, 97, 108, 61] := by decide
theorem c_pokeEnter : codes "poke_enter=" = [112, 111, 107, 101, 95, 101, 110, 116, 101, 114, 61] := by decide
theorem c_pokeExit : codes "poke_exit=" = [112, 111, 107, 101, 95, 101, 120, 105, 116, 61] := by decide
theorem c_delayEnter : codes "delay_enter=" = [100, 101, 108, 97, 121, 95, 101, 110, 116, 101, 114, 61] := by decide
theorem c_delayExit : codes "delay_exit=" = [100, 101, 108, 97, 121, 95, 101, 120, 105, 116, 61] := by decide

theorem parseToken_iff (B : Build) (hN : B.names ∈ allNames) (fault : Bool) (tok : List Nat) (o o' : Opts) :
    parseToken B fault tok o = some o' ↔
      ∃ f, TokenMeans B fault tok f ∧ (∀ s, f.subject = some s → taken o s = false) ∧ o' = f.put o := by
  constructor
  · intro h
    unfold parseToken at h
    split at h
    · rename_i val hs
      rw [strip_iff] at hs; subst hs
      rw [Option.map_eq_some_iff] at h
      obtain ⟨s, h1, rfl⟩ := h
      exact ⟨.when s, .when ((Inject.parseWhen_iff val s).1 h1), by simp [Field.subject], rfl⟩
    split at h
    · rename_i val hs
      rw [strip_iff] at hs; subst hs
      split at h
      · cases h
      · rename_i hd
        rw [Option.map_eq_some_iff] at h
        obtain ⟨l, h1, rfl⟩ := h
        exact ⟨.syscall l, .syscall ((pureScnos_iff B val _ l).1 h1), by simpa [Field.subject, taken] using hd, rfl⟩
    split at h
    · rename_i val hs
      rw [strip_iff] at hs; subst hs
      split at h
      · cases h
      · rename_i hd
        rw [Option.map_eq_some_iff] at h
        obtain ⟨v, h1, rfl⟩ := h
        obtain ⟨n, rfl, h2, h3⟩ := (error_text B.names hN val v).1 h1
        exact ⟨.error n, .error h3 h2, by simpa [Field.subject, taken] using hd, rfl⟩
    split at h
    · cases h
    rename_i hfault
    have hfault : fault = false := by simpa using hfault
    split at h
    · rename_i val hs
      rw [strip_iff] at hs; subst hs
      split at h
      · cases h
      · rename_i hd
        rw [Option.map_eq_some_iff] at h
        obtain ⟨v, h1, rfl⟩ := h
        exact ⟨.retval v, .retval hfault ((retval_text _ _ val v).1 h1), by simpa [Field.subject, taken] using hd, rfl⟩
    split at h
    · rename_i val hs
      rw [strip_iff] at hs; subst hs
      split at h
      · cases h
      · rename_i hd
        rw [Option.map_eq_some_iff] at h
        obtain ⟨v, h1, rfl⟩ := h
        obtain ⟨n, rfl, h2, h3, h4⟩ := (signal_value B.names hN _ val v).1 h1
        exact ⟨.signal n, .signal hfault h2 h3 h4, by simpa [Field.subject, taken] using hd, rfl⟩
    split at h
    · rename_i val hs
      rw [strip_iff] at hs; subst hs
      split at h
      · cases h
      · rename_i hd
        rw [Option.map_eq_some_iff] at h
        obtain ⟨v, h1, rfl⟩ := h
        exact ⟨.pokeEnter v, .pokeEnter hfault h1, by simpa [Field.subject, taken] using hd, rfl⟩
    split at h
    · rename_i val hs
      rw [strip_iff] at hs; subst hs
      split at h
      · cases h
      · rename_i hd
        rw [Option.map_eq_some_iff] at h
        obtain ⟨v, h1, rfl⟩ := h
        exact ⟨.pokeExit v, .pokeExit hfault h1, by simpa [Field.subject, taken] using hd, rfl⟩
    split at h
    · rename_i val hs
      rw [strip_iff] at hs; subst hs
      split at h
      · cases h
      · rename_i hd
        rw [Option.map_eq_some_iff] at h
        obtain ⟨v, h1, rfl⟩ := h
        exact ⟨.delayEnter v, .delayEnter hfault h1, by simpa [Field.subject, taken] using hd, rfl⟩
    split at h
    · rename_i val hs
      rw [strip_iff] at hs; subst hs
      split at h
      · cases h
      · rename_i hd
        rw [Option.map_eq_some_iff] at h
        obtain ⟨v, h1, rfl⟩ := h
        exact ⟨.delayExit v, .delayExit hfault h1, by simpa [Field.subject, taken] using hd, rfl⟩
    · cases h
  · rintro ⟨f, hf, hd, rfl⟩
    have ne : ∀ (p q : String) (t : List Nat), (∀ v, codes q ++ t ≠ codes p ++ v) → strip p (codes q ++ t) = none := by
      intro p q t hne
      cases hs : strip p (codes q ++ t) with
      | none => rfl
      | some v => exact absurd ((strip_iff _ _ _).1 hs) (hne v)
    have eq : ∀ (p : String) (t : List Nat), strip p (codes p ++ t) = some t := fun p t => (strip_iff _ _ _).2 rfl
    cases hf with
    | @when t s h =>
      unfold parseToken
      rw [eq]; simp only
      rw [(Inject.parseWhen_iff t s).2 h]; rfl
    | @syscall t l h =>
      have hd := hd _ rfl
      unfold parseToken
      rw [ne "when=" _ _ (by simp [c_when, c_syscall]), eq]; simp only
      simp only [taken] at hd
      rw [hd, (pureScnos_iff B t _ l).2 h]; rfl
    | @error t n h h1 =>
      have hd := hd _ rfl
      unfold parseToken
      rw [ne "when=" _ _ (by simp [c_when, c_error]), ne "syscall=" _ _ (by simp [c_syscall, c_error]), eq]; simp only
      simp only [taken] at hd
      rw [hd, (error_text B.names hN t n).2 ⟨n, rfl, h1, h⟩]; rfl
    | @retval t v hfa h =>
      have hd := hd _ rfl
      unfold parseToken
      rw [ne "when=" _ _ (by simp [c_when, c_retval]), ne "syscall=" _ _ (by simp [c_syscall, c_retval]),
        ne "error=" _ _ (by simp [c_error, c_retval]), eq]; simp only
      simp only [taken] at hd
      rw [hfa, hd, (retval_text _ _ t v).2 h]; rfl
    | @signal t n hfa h h1 h2 =>
      have hd := hd _ rfl
      unfold parseToken
      rw [ne "when=" _ _ (by simp [c_when, c_signal]), ne "syscall=" _ _ (by simp [c_syscall, c_signal]),
        ne "error=" _ _ (by simp [c_error, c_signal]), ne "retval=" _ _ (by simp [c_retval, c_signal]), eq]; simp only
      simp only [taken] at hd
      rw [hfa, hd, (signal_value B.names hN _ t n).2 ⟨n, rfl, h, h1, h2⟩]; rfl
    | @pokeEnter t ps hfa h =>
      have hd := hd _ rfl
      unfold parseToken
      rw [ne "when=" _ _ (by simp [c_when, c_pokeEnter]), ne "syscall=" _ _ (by simp [c_syscall, c_pokeEnter]),
        ne "error=" _ _ (by simp [c_error, c_pokeEnter]), ne "retval=" _ _ (by simp [c_retval, c_pokeEnter]),
        ne "signal=" _ _ (by simp [c_signal, c_pokeEnter]), eq]; simp only
      simp only [taken] at hd
      rw [hfa, hd, h]; rfl
    | @pokeExit t ps hfa h =>
      have hd := hd _ rfl
      unfold parseToken
      rw [ne "when=" _ _ (by simp [c_when, c_pokeExit]), ne "syscall=" _ _ (by simp [c_syscall, c_pokeExit]),
        ne "error=" _ _ (by simp [c_error, c_pokeExit]), ne "retval=" _ _ (by simp [c_retval, c_pokeExit]),
        ne "signal=" _ _ (by simp [c_signal, c_pokeExit]), ne "poke_enter=" _ _ (by simp [c_pokeEnter, c_pokeExit]), eq]
      simp only
      simp only [taken] at hd
      rw [hfa, hd, h]; rfl
    | @delayEnter t ts hfa h =>
      have hd := hd _ rfl
      unfold parseToken
      rw [ne "when=" _ _ (by simp [c_when, c_delayEnter]), ne "syscall=" _ _ (by simp [c_syscall, c_delayEnter]),
        ne "error=" _ _ (by simp [c_error, c_delayEnter]), ne "retval=" _ _ (by simp [c_retval, c_delayEnter]),
        ne "signal=" _ _ (by simp [c_signal, c_delayEnter]), ne "poke_enter=" _ _ (by simp [c_pokeEnter, c_delayEnter]),
        ne "poke_exit=" _ _ (by simp [c_pokeExit, c_delayEnter]), eq]
      simp only
      simp only [taken] at hd
      rw [hfa, hd, h]; rfl
    | @delayExit t ts hfa h =>
      have hd := hd _ rfl
      unfold parseToken
      rw [ne "when=" _ _ (by simp [c_when, c_delayExit]), ne "syscall=" _ _ (by simp [c_syscall, c_delayExit]),
        ne "error=" _ _ (by simp [c_error, c_delayExit]), ne "retval=" _ _ (by simp [c_retval, c_delayExit]),
        ne "signal=" _ _ (by simp [c_signal, c_delayExit]), ne "poke_enter=" _ _ (by simp [c_pokeEnter, c_delayExit]),
        ne "poke_exit=" _ _ (by simp [c_pokeExit, c_delayExit]), ne "delay_enter=" _ _ (by simp [c_delayEnter, c_delayExit]), eq]
      simp only
      simp only [taken] at hd
      rw [hfa, hd, h]; rfl

/-- the loop over the tokens, as a function of their list -/
def parseList (B : Build) (fault : Bool) : List (List Nat) → Opts → Option Opts
  | [], o => some o
  | t :: ts, o =>
    match parseToken B fault t o with
    | none => none
    | some o => parseList B fault ts o

theorem parseTokens_eq (B : Build) (fault : Bool) (s : List Nat) (o : Opts) :
    parseTokens B fault s o = parseList B fault (tokensBy 58 s) o := by
  induction hk : s.length using Nat.strongRecOn generalizing s o with
  | ind k ih =>
    rw [parseTokens, tokensBy_strtok]
    split
    · rename_i h; rw [h]; rfl
    · rename_i tok rest h
      rw [h]
      simp only [parseList]
      cases parseToken B fault tok o with
      | none => rfl
      | some o' => exact ih rest.length (by rw [← hk]; exact strtokBy_length h) rest o' rfl

theorem parseList_iff (B : Build) (hN : B.names ∈ allNames) (fault : Bool) (ts : List (List Nat)) (o o' : Opts) :
    parseList B fault ts o = some o' ↔
      ∃ fs, List.Forall₂ (TokenMeans B fault) ts fs ∧ (fs.filterMap Field.subject).Nodup ∧
        (∀ s ∈ fs.filterMap Field.subject, taken o s = false) ∧ o' = fs.foldl Field.put o := by
  induction ts generalizing o with
  | nil =>
    simp only [parseList]
    constructor
    · intro h; injection h with h; exact ⟨[], .nil, by simp, by simp, h.symm⟩
    · rintro ⟨fs, h, _, _, rfl⟩; cases h; rfl
  | cons t ts ih =>
    simp only [parseList]
    constructor
    · intro h
      split at h
      · cases h
      · rename_i o1 h1
        obtain ⟨f, f1, f2, rfl⟩ := (parseToken_iff B hN fault t o o1).1 h1
        obtain ⟨fs, g1, g2, g3, g4⟩ := (ih _).1 h
        have hnew : ∀ s, f.subject = some s → s ∉ fs.filterMap Field.subject := by
          intro s hs hm
          have := g3 s hm
          rw [taken_put, hs] at this
          simp at this
        refine ⟨f :: fs, .cons f1 g1, ?_, ?_, by rw [g4]; rfl⟩
        · cases hs : f.subject with
          | none => rw [List.filterMap_cons_none hs]; exact g2
          | some s => rw [List.filterMap_cons_some hs]; exact List.nodup_cons.2 ⟨hnew s hs, g2⟩
        · intro s hs
          cases hf : f.subject with
          | none =>
            rw [List.filterMap_cons_none hf] at hs
            have := g3 s hs
            rw [taken_put] at this
            simp at this; exact this.1
          | some s' =>
            rw [List.filterMap_cons_some hf] at hs
            rcases List.mem_cons.1 hs with rfl | hs
            · exact f2 s hf
            · have := g3 s hs
              rw [taken_put] at this
              simp at this; exact this.1
    · rintro ⟨fs, h1, h2, h3, rfl⟩
      cases h1 with
      | @cons _ f _ fs' f1 f2 =>
        have hsub : ∀ s, f.subject = some s → taken o s = false := by
          intro s hs
          exact h3 s (by rw [List.filterMap_cons_some hs]; simp)
        rw [(parseToken_iff B hN fault t o (f.put o)).2 ⟨f, f1, hsub, rfl⟩]
        simp only
        refine (ih _).2 ⟨fs', f2, ?_, ?_, rfl⟩
        · cases hf : f.subject with
          | none => rwa [List.filterMap_cons_none hf] at h2
          | some s => rw [List.filterMap_cons_some hf] at h2; exact (List.nodup_cons.1 h2).2
        · intro s hs
          rw [taken_put]
          cases hf : f.subject with
          | none => simp; exact h3 s (by rw [List.filterMap_cons_none hf]; exact hs)
          | some s' =>
            rw [List.filterMap_cons_some hf] at h2 h3
            have : s' ≠ s := by
              rintro rfl; exact (List.nodup_cons.1 h2).1 hs
            simp [this, h3 s (by simp [hs])]

theorem hasAction_put (o : Opts) (f : Field) : hasAction (f.put o) = (hasAction o || f.acts) := by
  cases f <;> simp [hasAction, Field.put, Field.acts]

theorem hasAction_foldl (fs : List Field) (o : Opts) : hasAction (fs.foldl Field.put o) = (hasAction o || fs.any Field.acts) := by
  induction fs generalizing o with
  | nil => simp
  | cons f fs ih => rw [List.foldl_cons, ih, hasAction_put, List.any_cons, Bool.or_assoc]

/-! ### The merge -/

theorem mergePers_apply (B : Build) (sets : List NumberSet.NSet) (o : Opts) (p : Nat) (v : Vec) (m : Nat → Bool)
    (hs : ∀ i, (sets[p]?).map (NumberSet.isNumberInSet i) = some (some (m i))) (q i : Nat) :
    mergePers B sets o p v q i =
      if q = p ∧ i < (B.env.table p).length ∧ m i = true then some ⟨o, (o.syscall.getD []).getD p 0⟩ else v q i := by
  unfold mergePers
  cases hset : sets[p]? with
  | none => have := hs 0; rw [hset] at this; simp at this
  | some set =>
    have hm : ∀ i, NumberSet.isNumberInSet i set = some (m i) := by
      intro i; have := hs i; rw [hset] at this; simpa using this
    simp only
    by_cases he : NumberSet.isEmptySet set = true
    · rw [if_pos he]
      have : m i = false := by
        unfold NumberSet.isEmptySet at he
        have h1 := hm i
        unfold NumberSet.isNumberInSet at h1
        simp only [Bool.not_eq_true', Bool.or_eq_false_iff, bne_eq_false_iff_eq] at he
        rw [if_neg (by omega), he.2] at h1
        simpa using h1.symm
      simp [this]
    · rw [if_neg he]
      simp only [hm i, Option.some.injEq]

theorem merge_all (B : Build) (sets : List NumberSet.NSet) (o : Opts) (v : Vec) (m : Nat → Nat → Bool) (n : Nat)
    (hs : ∀ p, p < n → ∀ i, (sets[p]?).map (NumberSet.isNumberInSet i) = some (some (m p i))) (q i : Nat) :
    (List.range n).foldl (fun v p => mergePers B sets o p v) v q i =
      if q < n ∧ i < (B.env.table q).length ∧ m q i = true then some ⟨o, (o.syscall.getD []).getD q 0⟩ else v q i := by
  induction n with
  | zero => simp
  | succ n ih =>
    rw [List.range_succ, List.foldl_append]
    simp only [List.foldl_cons, List.foldl_nil]
    rw [mergePers_apply B sets o n _ (m n) (hs n (by omega)), ih fun p hp => hs p (by omega)]
    by_cases hq : q = n
    · subst hq
      by_cases h2 : i < (B.env.table q).length ∧ m q i = true
      · rw [if_pos ⟨rfl, h2⟩, if_pos ⟨by omega, h2⟩]
      · rw [if_neg (by tauto), if_neg (by omega), if_neg (by tauto)]
    · rw [if_neg (by tauto)]
      by_cases h2 : q < n ∧ i < (B.env.table q).length ∧ m q i = true
      · rw [if_pos h2, if_pos ⟨by omega, h2.2⟩]
      · rw [if_neg h2, if_neg (by intro h; exact h2 ⟨by omega, h.2⟩)]

/-! ### C72 -/

theorem sysMeaning_nil (E : Filter.Env) : Filter.Spec.sysMeaning E [] = none := by
  unfold Filter.Spec.sysMeaning
  simp [Filter.afterBangs, Filter.tokens_nil]

theorem parseExpression_iff (B : Build) (fault : Bool) (c : Nat) (t name : List Nat) (o : Opts) (hc : c ≠ 58) :
    parseExpression B fault (c :: t) = some (name, o) ↔
      ∃ ts, tokensBy 58 (c :: t) = name :: ts ∧ parseList B fault ts {} = some o := by
  unfold parseExpression
  simp only
  rw [if_neg hc, tokensBy_strtok]
  constructor
  · intro h
    split at h
    · cases h
    · rename_i nm rest hs
      rw [Option.map_eq_some_iff] at h
      obtain ⟨o1, h1, h2⟩ := h
      injection h2 with h2 h3; subst h2 h3
      rw [parseTokens_eq] at h1
      exact ⟨_, by rw [hs], h1⟩
  · rintro ⟨ts, h1, h2⟩
    split at h1
    · cases h1
    · rename_i nm rest hs
      injection h1 with e1 e2; subst e1 e2
      rw [hs]
      simp only
      rw [parseTokens_eq, h2]; rfl

/-- **C72.** For every build and every previous state: an injection expression is accepted exactly if it is a set of
system calls (C05) and tokens that mean something together; then each call of the set, in each personality, gets the
rule they mean, and every other call keeps what it had. -/
theorem inject_option (B : Build) (hN : B.names ∈ allNames) (fault : Bool) (str : List Nat) (v v' : Vec) :
    qualifyInject B fault str v = some v' ↔
      ∃ name ts o sel, str.head? ≠ some 58 ∧ tokensBy 58 str = name :: ts ∧ ExprMeans B fault ts o ∧
        Filter.Spec.sysMeaning B.env name = some sel ∧
        v' = fun p i => if p < B.env.tables.length ∧ i < (B.env.table p).length ∧ sel p i = true then
          some ⟨o, (o.syscall.getD []).getD p 0⟩ else v p i := by
  have hsets := fun name => Filter.qualifySyscallTokens_meaning B.env name (List.replicate B.env.tables.length NumberSet.empty)
  have accepted : ∀ name sets sel o, Filter.qualifySyscallTokens B.env name (List.replicate B.env.tables.length NumberSet.empty) = some sets →
      Filter.Spec.sysMeaning B.env name = some sel →
      (List.range B.env.tables.length).foldl (fun v p => mergePers B sets o p v) v =
        fun p i => if p < B.env.tables.length ∧ i < (B.env.table p).length ∧ sel p i = true then
          some ⟨o, (o.syscall.getD []).getD p 0⟩ else v p i := by
    intro name sets sel o h1 h2
    have := hsets name
    rw [h1, h2] at this
    simp only [List.length_replicate] at this
    funext p i
    exact merge_all B sets o v sel _ this.2 p i
  have empty : Filter.qualifySyscallTokens B.env [] (List.replicate B.env.tables.length NumberSet.empty) = none := by
    have := hsets []
    rw [sysMeaning_nil] at this
    cases h : Filter.qualifySyscallTokens B.env [] (List.replicate B.env.tables.length NumberSet.empty) with
    | none => rfl
    | some r => rw [h] at this; exact this.elim
  cases str with
  | nil =>
    simp only [qualifyInject, parseExpression, empty]
    constructor
    · intro h; cases h
    · rintro ⟨name, ts, o, sel, _, h, _⟩; simp [tokensBy, piecesBy] at h
  | cons c t =>
    by_cases hc : c = 58
    · subst hc
      simp only [qualifyInject, parseExpression, if_true, empty]
      constructor
      · intro h; cases h
      · rintro ⟨name, ts, o, sel, h, _⟩; exact absurd rfl h
    · unfold qualifyInject
      constructor
      · intro h
        split at h
        · cases h
        · rename_i name o hp
          obtain ⟨ts, ht, hl⟩ := (parseExpression_iff B fault c t name o hc).1 hp
          split at h
          · cases h
          · rename_i sets hq
            rw [Option.map_eq_some_iff] at h
            obtain ⟨o1, h1, rfl⟩ := h
            obtain ⟨sel, hsel⟩ : ∃ sel, Filter.Spec.sysMeaning B.env name = some sel := by
              have := hsets name
              rw [hq] at this
              cases hm : Filter.Spec.sysMeaning B.env name with
              | none => rw [hm] at this; exact this.elim
              | some m => exact ⟨m, rfl⟩
            refine ⟨name, ts, o1, sel, by simpa using hc, ht, ?_, hsel, accepted name sets sel o1 hq hsel⟩
            obtain ⟨fs, f1, f2, _, rfl⟩ := (parseList_iff B hN fault ts {} o).1 hl
            refine ⟨fs, f1, f2, ?_⟩
            rw [hasAction_foldl] at h1
            simp only [show hasAction {} = false from rfl, Bool.false_or] at h1
            by_cases ha : fs.any Field.acts = true
            · rw [if_pos ha] at h1
              injection h1 with h1
              exact Or.inl ⟨List.any_eq_true.1 ha, h1.symm⟩
            · rw [if_neg ha] at h1
              split at h1
              · rename_i hf
                injection h1 with h1
                refine Or.inr ⟨hf, ?_, ?_⟩
                · intro f hfm
                  rw [Bool.eq_false_iff]; intro hx
                  exact ha (List.any_eq_true.2 ⟨f, hfm, hx⟩)
                · rw [List.foldl_append, ← h1]; rfl
              · cases h1
      · rintro ⟨name, ts, o, sel, _, ht, ⟨fs, f1, f2, f3⟩, hsel, rfl⟩
        have hl := (parseList_iff B hN fault ts {} _).2 ⟨fs, f1, f2, by intro s _; cases s <;> rfl, rfl⟩
        rw [(parseExpression_iff B fault c t name _ hc).2 ⟨ts, ht, hl⟩]
        simp only
        cases hq : Filter.qualifySyscallTokens B.env name (List.replicate B.env.tables.length NumberSet.empty) with
        | none => have := hsets name; rw [hq, hsel] at this; exact this.elim
        | some sets =>
          simp only
          rw [hasAction_foldl]
          simp only [show hasAction {} = false from rfl, Bool.false_or]
          rcases f3 with ⟨ha, rfl⟩ | ⟨hf, ha, rfl⟩
          · rw [if_pos (List.any_eq_true.2 ha)]
            simp only [Option.map_some]
            rw [accepted name sets sel _ hq hsel]
          · rw [if_neg, if_pos hf]
            · simp only [Option.map_some]
              rw [accepted name sets sel _ hq hsel]
              rw [List.foldl_append]; rfl
            · intro h
              obtain ⟨f, h1, h2⟩ := List.any_eq_true.1 h
              rw [ha f h1] at h2; cases h2

/-- is it a `when=` field? -/
def Field.isWhen : Field → Bool
  | .when _ => true
  | _ => false

theorem whens_count (B : Build) (fault : Bool) (ts : List (List Nat)) (fs : List Field)
    (h : List.Forall₂ (TokenMeans B fault) ts fs) :
    (fs.filter Field.isWhen).length = (ts.filter fun t => (codes "when=").isPrefixOf t).length := by
  induction h with
  | nil => rfl
  | @cons t f ts fs hf _ ih =>
    have : f.isWhen = (codes "when=").isPrefixOf t := by
      cases hf <;> simp [Field.isWhen, c_when, c_syscall, c_error, c_retval, c_signal, c_pokeEnter, c_pokeExit, c_delayEnter,
        c_delayExit, List.isPrefixOf]
    simp only [List.filter_cons, this]
    split <;> simp [ih]

theorem eq_of_subject (fs : List Field) (hn : (fs.filterMap Field.subject).Nodup) (x y : Field) (hx : x ∈ fs) (hy : y ∈ fs)
    (s : Subject) (h1 : x.subject = some s) (h2 : y.subject = some s) : x = y := by
  induction fs with
  | nil => cases hx
  | cons f fs ih =>
    rcases List.mem_cons.1 hx with rfl | hx' <;> rcases List.mem_cons.1 hy with rfl | hy'
    · rfl
    · rw [List.filterMap_cons_some h1] at hn
      exact absurd (List.mem_filterMap.2 ⟨y, hy', h2⟩) (List.nodup_cons.1 hn).1
    · rw [List.filterMap_cons_some h2] at hn
      exact absurd (List.mem_filterMap.2 ⟨x, hx', h1⟩) (List.nodup_cons.1 hn).1
    · refine ih ?_ hx' hy'
      cases hf : f.subject with
      | none => rwa [List.filterMap_cons_none hf] at hn
      | some s => rw [List.filterMap_cons_some hf] at hn; exact (List.nodup_cons.1 hn).2

theorem eq_of_when (fs : List Field) (hn : (fs.filter Field.isWhen).length ≤ 1) (x y : Field) (hx : x ∈ fs) (hy : y ∈ fs)
    (h1 : x.isWhen = true) (h2 : y.isWhen = true) : x = y := by
  have a := List.mem_filter.2 ⟨hx, h1⟩
  have b := List.mem_filter.2 ⟨hy, h2⟩
  match hl : fs.filter Field.isWhen, hn with
  | [], _ => rw [hl] at a; cases a
  | [z], _ => rw [hl, List.mem_singleton] at a b; rw [a, b]

theorem put_comm (x y : Field) (o : Opts) (h : x = y ∨ x.subject ≠ y.subject) :
    Field.put (Field.put o x) y = Field.put (Field.put o y) x := by
  rcases h with rfl | h
  · rfl
  · cases x <;> cases y <;> first | rfl | exact absurd rfl h

/-- **C72.** The order of the tokens is immaterial as long as at most one of them is a `when=`. -/
theorem tokens_any_order (B : Build) (fault : Bool) (ts ts' : List (List Nat)) (o : Opts) (hp : ts.Perm ts')
    (hw : (ts.filter fun t => (codes "when=").isPrefixOf t).length ≤ 1)
    (h : ExprMeans B fault ts o) : ExprMeans B fault ts' o := by
  obtain ⟨fs, f1, f2, f3⟩ := h
  obtain ⟨fs', p1, p2⟩ := List.perm_comp_forall₂ hp.symm f1
  rw [← whens_count B fault ts fs f1] at hw
  have heq : fs'.foldl Field.put ({} : Opts) = fs.foldl Field.put ({} : Opts) := by
    refine List.Perm.foldl_eq' p2 ?_ ({} : Opts)
    intro x hx y hy z
    have hx := p2.mem_iff.1 hx
    have hy := p2.mem_iff.1 hy
    refine put_comm x y z ?_
    by_cases hs : x.subject = y.subject
    · left
      cases h1 : x.subject with
      | some s => exact eq_of_subject fs f2 x y hx hy s h1 (by rw [← hs, h1])
      | none =>
        refine eq_of_when fs hw x y hx hy ?_ ?_
        · cases x <;> first | rfl | cases h1
        · rw [h1] at hs
          cases y <;> first | rfl | cases hs
    · exact Or.inr hs
  refine ⟨fs', p1, ?_, ?_⟩
  · exact ((p2.filterMap Field.subject).nodup_iff).2 f2
  · rcases f3 with ⟨⟨f, h1, h2⟩, h3⟩ | ⟨h1, h2, h3⟩
    · exact Or.inl ⟨⟨f, p2.mem_iff.2 h1, h2⟩, by rw [heq]; exact h3⟩
    · refine Or.inr ⟨h1, fun f hf => h2 f (p2.mem_iff.1 hf), ?_⟩
      rw [h3, List.foldl_append, List.foldl_append, heq]

/-! ### C73 -/

theorem findQual_iff (str : List Nat) (tab : List (String × Handler)) (hq : ∀ e ∈ tab, 61 ∉ codes e.1)
    (hu : ∀ e ∈ tab, ∀ e' ∈ tab, codes e.1 = codes e'.1 → e.2 = e'.2) (h : Handler) (val : List Nat) :
    findQual str tab = some (h, val) ↔ ∃ e ∈ tab, e.2 = h ∧ str = codes e.1 ++ 61 :: val := by
  have hsplit : ∀ (a b x y : List Nat), 61 ∉ a → 61 ∉ b → a ++ 61 :: x = b ++ 61 :: y → a = b ∧ x = y := by
    intro a
    induction a with
    | nil =>
      intro b x y _ hb e
      cases b with
      | nil => simpa using e
      | cons c b => simp at e; exact absurd (by simp [e.1]) hb
    | cons c a ih =>
      intro b x y ha hb e
      cases b with
      | nil => simp at e; exact absurd (by simp [e.1]) ha
      | cons d b =>
        simp only [List.cons_append, List.cons.injEq] at e
        obtain ⟨e1, e2⟩ := ih b x y (fun h => ha (by simp [h])) (fun h => hb (by simp [h])) e.2
        exact ⟨by rw [e.1, e1], e2⟩
  induction tab with
  | nil => simp [findQual]
  | cons e es ih =>
    have ih' := ih (fun x hx => hq x (by simp [hx])) (fun x hx y hy => hu x (by simp [hx]) y (by simp [hy]))
    unfold findQual
    split
    · rename_i v hs
      rw [strip_iff] at hs
      constructor
      · intro e1
        injection e1 with e1; injection e1 with e1 e2; subst e1 e2
        exact ⟨e, by simp, rfl, hs⟩
      · rintro ⟨e', he', rfl, h2⟩
        rw [hs] at h2
        obtain ⟨h3, h4⟩   := hsplit _ _ _ _ (hq e (by simp)) (hq e' he') h2
        rw [hu e (by simp) e' he' h3, h4]
    · rename_i hs
      refine ih'.trans ?_
      constructor
      · rintro ⟨e', he', h1, h2⟩; exact ⟨e', by simp [he'], h1, h2⟩
      · rintro ⟨e', he', h1, h2⟩
        rcases List.mem_cons.1 he' with rfl | he'
        · exact absurd ((strip_iff _ _ _).2 h2) (hs val)
        · exact ⟨e', he', h1, h2⟩

theorem htab (n : String) (h : Handler) : (n, h) ∈ qualOptions ↔ n ∈ h.names := by
  cases h <;> simp [qualOptions, Handler.names] <;> tauto

/-- **C73.** `-e NAME=VALUE` with one of the documented names sets that option to VALUE; any other text, whatever it
contains, is a value of `trace`. -/
theorem option_of_text (str : List Nat) (h : Handler) (val : List Nat) :
    qualify str = (h, val) ↔
      (∃ n ∈ h.names, str = codes n ++ 61 :: val) ∨
      (h = .trace ∧ val = str ∧ ∀ (h' : Handler) (n : String) (v : List Nat), n ∈ h'.names → str ≠ codes n ++ 61 :: v) := by
  have hf := findQual_iff str qualOptions (by decide +kernel) (by decide +kernel)
  unfold qualify
  cases hq : findQual str qualOptions with
  | some r =>
    obtain ⟨h1, v1⟩ := r
    obtain ⟨⟨n, h1'⟩, he, rfl, hs⟩ := (hf h1 v1).1 hq
    simp only [Option.getD_some, Prod.mk.injEq]
    constructor
    · rintro ⟨rfl, rfl⟩; exact Or.inl ⟨n, (htab _ _).1 he, hs⟩
    · rintro (⟨n', hn, h2⟩ | ⟨_, _, h3⟩)
      · have := (hf h val).2 ⟨(n', h), (htab _ _).2 hn, rfl, h2⟩
        rw [hq] at this; injection this with this; injection this with a b
        exact ⟨a, b⟩
      · exact absurd hs (h3 _ n v1 ((htab _ _).1 he))
  | none =>
    have hno : ∀ (h' : Handler) (n : String) (v : List Nat), n ∈ h'.names → str ≠ codes n ++ 61 :: v := by
      intro h' n v hn hs
      have := (hf h' v).2 ⟨(n, h'), (htab _ _).2 hn, rfl, hs⟩
      rw [hq] at this; cases this
    simp only [Option.getD_none, Prod.mk.injEq]
    constructor
    · rintro ⟨rfl, rfl⟩; exact Or.inr ⟨rfl, rfl, hno⟩
    · rintro (⟨n', hn, h2⟩ | ⟨rfl, rfl, _⟩)
      · exact absurd h2 (hno _ _ _ hn)
      · exact ⟨rfl, rfl⟩

/-- and no name belongs to two options -/
theorem option_unique (n : String) (h h' : Handler) (h1 : n ∈ h.names) (h2 : n ∈ h'.names) : h = h' := by
  have : ∀ e ∈ qualOptions, ∀ e' ∈ qualOptions, e.1 = e'.1 → e.2 = e'.2 := by decide +kernel
  exact this (n, h) ((htab n h).2 h1) (n, h') ((htab n h').2 h2) rfl

/-! ### Cases -/

/-- a build with two personalities of three calls -/
def exB : Build :=
  { names := generic, nsigBytes := 8, enosys := 38, c2x := true, kbits := 64, fl := fun _ => none,
    env := { tables := [[⟨some (codes "read"), true, 0⟩, ⟨none, true, 0⟩, ⟨some (codes "getpid"), true, tracePure⟩],
                        [⟨some (codes "getpid"), true, tracePure⟩, ⟨some (codes "read"), true, 0⟩]],
             designators := [[], []], shuffle := fun _ n => n, nonShuffledCheck := false, regcomp := fun _ => none } }

example : (qualifyInject exB false (codes "read:when=2+:error=EINTR:syscall=getpid:delay_exit=7ms:poke_exit=@arg2=ff")
    (fun _ _ => none)).isSome = true := by decide +kernel
example : ((qualifyInject exB false (codes "read:retval=0x10:when=2+") (fun _ _ => none)).map fun v =>
    ((v 0 0).map (·.opts.retval), (v 0 1).isSome, (v 1 0).isSome, (v 1 1).map (·.opts.retval))) =
    some (some (some 16), false, false, some (some 16)) := by decide +kernel
example : (qualifyInject exB false (codes "read:retval=1:error=2") (fun _ _ => none)).isSome = false := by decide +kernel
example : (qualifyInject exB false (codes "read:when=2") (fun _ _ => none)).isSome = false := by decide +kernel
example : ((qualifyInject exB true (codes "read:when=2") (fun _ _ => none)).bind fun v => (v 1 1).bind (·.opts.error)) = some 38 := by
  decide +kernel
/-- a schedule may be given twice, and the last one counts -/
theorem when_twice : ((qualifyInject exB true (codes "read:when=2:when=3") (fun _ _ => none)).bind fun v => (v 0 0).map (·.opts.sched)) =
    some ⟨3, 65535, 0⟩ := by decide +kernel
example : qualify (codes "trace-fds=3") = (.traceFd, codes "3") := by decide +kernel
example : qualify (codes "tracer=3") = (.trace, codes "tracer=3") := by decide +kernel

end Strace.Cli
