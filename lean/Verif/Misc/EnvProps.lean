import Verif.Misc.Env
import Mathlib.Data.List.Induction
/-!
# C46, C47: the environment of the command and kernel releases
-/
namespace Strace.Misc

/-! ### releases: specification -/

/-- the number a string of digits denotes -/
def number (ds : List Nat) : Nat := ds.foldl (fun n d => 10 * n + d) 0

/-- digits, in ASCII -/
def ascii (ds : List Nat) : List Nat := ds.map (48 + ·)

def Digits (ds : List Nat) : Prop := ∀ d ∈ ds, d < 10

/-- what follows the version does not begin with a digit -/
def NoDigit (rest : List Nat) : Prop := ∀ c cs, rest = c :: cs → ¬ (48 ≤ c ∧ c ≤ 57)

/-- the release strings of kernel `a.b.c`: "a.b.c..." or, if `c` is 0, "a.b..." -/
def IsRelease (s : List Nat) (a b c : Nat) : Prop :=
  ∃ da db rest, Digits da ∧ Digits db ∧ number da = a ∧ number db = b ∧
    ((∃ dc, Digits dc ∧ number dc = c ∧ NoDigit rest ∧ s = ascii da ++ 46 :: ascii db ++ 46 :: ascii dc ++ rest) ∨
     (c = 0 ∧ NoDigit rest ∧ (∀ cs, rest ≠ 46 :: cs) ∧ s = ascii da ++ 46 :: ascii db ++ rest))

/-- version `a.b.c` is not before `x.y.z` -/
def AtLeast (a b c x y z : Nat) : Prop := x < a ∨ (x = a ∧ (y < b ∨ (y = b ∧ z ≤ c)))

/-! ### proofs -/

theorem le_fold (ds : List Nat) : ∀ n, n ≤ ds.foldl (fun n d => 10 * n + d) n := by
  induction ds with
  | nil => intro n; exact Nat.le_refl _
  | cons d ds ih => intro n; exact Nat.le_trans (by omega) (ih (10 * n + d))

theorem scan_digits (rest : List Nat) (hr : NoDigit rest) : ∀ (ds : List Nat), Digits ds → ∀ n,
    ds.foldl (fun n d => 10 * n + d) n < 2 ^ 32 →
    scanNum (ascii ds ++ rest) n = (ds.foldl (fun n d => 10 * n + d) n, rest) := by
  intro ds
  induction ds with
  | nil =>
    intro _ n _
    show scanNum rest n = (n, rest)
    cases rest with
    | nil => rfl
    | cons c cs => unfold scanNum; rw [if_neg (hr c cs rfl)]
  | cons d ds ih =>
    intro hd n hlt
    have hd0 : d < 10 := hd d (by simp)
    have hle := le_fold ds (10 * n + d)
    have hlt' : ds.foldl (fun n d => 10 * n + d) (10 * n + d) < 2 ^ 32 := hlt
    show scanNum ((48 + d) :: (ascii ds ++ rest)) n = _
    unfold scanNum
    rw [if_pos (by omega), show (n * 10 % 2 ^ 32 + (48 + d - 48)) % 2 ^ 32 = 10 * n + d from by omega]
    exact ih (fun x hx => hd x (by simp [hx])) (10 * n + d) hlt'

theorem noDigit_dot (cs : List Nat) : NoDigit (46 :: cs) := by
  intro c cs' h
  injection h with h1 _
  omega

theorem skip_other (s : List Nat) (h : ∀ cs, s ≠ 46 :: cs) : skipDot s = s := by
  cases s with
  | nil => rfl
  | cons c cs =>
    show (if c = 46 then cs else c :: cs) = c :: cs
    rw [if_neg]
    intro hc
    subst hc
    exact h cs rfl

/-- the code of a release, whatever the size of its numbers -/
theorem release_code (s : List Nat) (a b c : Nat) (h : IsRelease s a b c) (ha : a < 2 ^ 32) (hb : b < 2 ^ 32) (hc : c < 2 ^ 32) :
    releaseCode 3 s 0 = ((((a <<< 8) % 2 ^ 32 ||| b) <<< 8) % 2 ^ 32) ||| c := by
  obtain ⟨da, db, rest, h1, h2, h3, h4, h5⟩ := h
  have zero : (0 <<< 8) % 2 ^ 32 ||| a = a := by simp
  rcases h5 with ⟨dc, h6, h7, h8, h9⟩ | ⟨h6, h7, h8, h9⟩
  · have e1 : scanNum s 0 = (a, 46 :: ascii db ++ 46 :: ascii dc ++ rest) := by
      rw [h9, List.append_assoc, List.append_assoc, ← h3]
      have := scan_digits (46 :: ascii db ++ (46 :: ascii dc ++ rest)) (noDigit_dot _) da h1 0 (by rw [← h3] at ha; exact ha)
      rw [this, List.append_assoc]
      rfl
    have e2 : scanNum (ascii db ++ 46 :: ascii dc ++ rest) 0 = (b, 46 :: ascii dc ++ rest) := by
      rw [List.append_assoc, ← h4]
      exact scan_digits (46 :: ascii dc ++ rest) (noDigit_dot _) db h2 0 (by rw [← h4] at hb; exact hb)
    have e3 : scanNum (ascii dc ++ rest) 0 = (c, rest) := by
      rw [← h7]
      exact scan_digits rest h8 dc h6 0 (by rw [← h7] at hc; exact hc)
    unfold releaseCode
    rw [e1]
    show releaseCode 2 (ascii db ++ 46 :: ascii dc ++ rest) ((0 <<< 8) % 2 ^ 32 ||| a) = _
    rw [zero]
    unfold releaseCode
    rw [e2]
    show releaseCode 1 (ascii dc ++ rest) _ = _
    unfold releaseCode
    rw [e3]
    rfl
  · subst h6
    have e1 : scanNum s 0 = (a, 46 :: ascii db ++ rest) := by
      rw [h9, List.append_assoc, ← h3]
      exact scan_digits (46 :: ascii db ++ rest) (noDigit_dot _) da h1 0 (by rw [← h3] at ha; exact ha)
    have e2 : scanNum (ascii db ++ rest) 0 = (b, rest) := by
      rw [← h4]
      exact scan_digits rest h7 db h2 0 (by rw [← h4] at hb; exact hb)
    have e3 : scanNum rest 0 = (0, rest) := scan_digits rest h7 [] (fun _ h => nomatch h) 0 (by decide)
    unfold releaseCode
    rw [e1]
    show releaseCode 2 (ascii db ++ rest) ((0 <<< 8) % 2 ^ 32 ||| a) = _
    rw [zero]
    unfold releaseCode
    rw [e2]
    show releaseCode 1 (skipDot rest) _ = _
    rw [skip_other rest h8]
    unfold releaseCode
    rw [e3]
    rfl

theorem shl_or (x n : Nat) (hx : x < 2 ^ 24) (hn : n < 2 ^ 8) : (x <<< 8) % 2 ^ 32 ||| n = x * 256 + n := by
  rw [Nat.shiftLeft_eq, Nat.mod_eq_of_lt (by omega), Nat.mul_comm, ← Nat.two_pow_add_eq_or_of_lt hn]

/-- C47: a release with numbers below 256 is not before another version exactly if its code is not less -/
theorem release_order_partial (s : List Nat) (a b c x y z : Nat) (h : IsRelease s a b c) (ha : a < 2 ^ 16) (hb : b < 2 ^ 8)
    (hc : c < 2 ^ 8) (hy : y < 2 ^ 8) (hz : z < 2 ^ 8) :
    kernelVersion x y z ≤ releaseCode 3 s 0 ↔ AtLeast a b c x y z := by
  rw [release_code s a b c h (by omega) (by omega) (by omega), shl_or a b (by omega) hb, shl_or (a * 256 + b) c (by omega) hc]
  unfold kernelVersion AtLeast
  omega

theorem or_one (b h : Nat) (hh : h < 2) : b ||| h = if h = 1 ∧ b % 2 = 0 then b + 1 else b := by
  have : h = 0 ∨ h = 1 := by omega
  rcases this with rfl | rfl
  · simp
  · by_cases hb : b % 2 = 0
    · rw [if_pos ⟨rfl, hb⟩]
      have h1 : b = 2 ^ 1 * (b / 2) := by omega
      have := Nat.two_pow_add_eq_or_of_lt (i := 1) (b := 1) (by decide) (b / 2)
      rw [← h1] at this
      exact this.symm
    · rw [if_neg (fun h => hb h.2)]
      have h1 : b = 2 ^ 1 * (b / 2) + 1 := by omega
      have := Nat.two_pow_add_eq_or_of_lt (i := 1) (b := 1) (by decide) (b / 2)
      rw [h1, this, Nat.or_assoc]
      rfl

theorem shl_or9 (x n : Nat) (hx : x < 2 ^ 24) (hn : n < 2 ^ 9) :
    (x <<< 8) % 2 ^ 32 ||| n = (x ||| (n / 256)) * 256 + n % 256 := by
  rw [Nat.shiftLeft_eq, Nat.mod_eq_of_lt (by omega)]
  have h1 : x * 2 ^ 8 ||| n = (x * 2 ^ 8 ||| (2 ^ 8 * (n / 256))) ||| n % 256 := by
    conv => lhs; rw [show n = 2 ^ 8 * (n / 256) + n % 256 from by omega]
    rw [Nat.two_pow_add_eq_or_of_lt (show n % 256 < 2 ^ 8 from by omega), Nat.or_assoc]
  have h2 : x * 2 ^ 8 ||| (2 ^ 8 * (n / 256)) = 2 ^ 8 * (x ||| (n / 256)) := by
    rw [Nat.mul_comm (2 ^ 8) (n / 256), Nat.mul_comm (2 ^ 8) (x ||| _), ← Nat.shiftLeft_eq, ← Nat.shiftLeft_eq, ← Nat.shiftLeft_eq,
      Nat.shiftLeft_or_distrib]
  rw [h1, h2, ← Nat.two_pow_add_eq_or_of_lt (show n % 256 < 2 ^ 8 from by omega)]
  omega

theorem or_shift (a b h : Nat) (hb : b < 2 ^ 8) (hh : h < 2) : (a * 256 + b) ||| h = a * 256 + (b ||| h) := by
  rw [or_one _ h hh, or_one b h hh]
  by_cases c : h = 1 ∧ b % 2 = 0
  · rw [if_pos c, if_pos ⟨c.1, by omega⟩]; omega
  · rw [if_neg c, if_neg (fun hc => c ⟨hc.1, by omega⟩)]

/-- C47: the three comparisons strace makes are right for every patch level below 512, such as 4.9.337 or 4.14.336 -/
theorem checks_right (s : List Nat) (a b c : Nat) (h : IsRelease s a b c) (ha : a < 2 ^ 16) (hb : b < 2 ^ 8) (hc : c < 2 ^ 9) :
    (kernelVersion 4 16 0 ≤ releaseCode 3 s 0 ↔ AtLeast a b c 4 16 0) ∧
    (kernelVersion 4 4 4 ≤ releaseCode 3 s 0 ↔ AtLeast a b c 4 4 4) ∧
    (kernelVersion 3 0 0 ≤ releaseCode 3 s 0 ↔ AtLeast a b c 3 0 0) := by
  rw [release_code s a b c h (by omega) (by omega) (by omega), shl_or a b (by omega) hb, shl_or9 (a * 256 + b) c (by omega) hc,
    or_shift a b (c / 256) hb (by omega), or_one b (c / 256) (by omega)]
  unfold kernelVersion AtLeast
  by_cases k : c / 256 = 1 ∧ b % 2 = 0
  · rw [if_pos k]; omega
  · rw [if_neg k]; omega

/-- C47 (finding): 4.14.336 counts as at least 4.15.0 -/
theorem release_misordered :
    kernelVersion 4 15 0 ≤ releaseCode 3 (ascii [4] ++ 46 :: ascii [1, 4] ++ 46 :: ascii [3, 3, 6]) 0 := by decide +kernel

example : IsRelease (ascii [6] ++ 46 :: ascii [1, 2] ++ [45, 114, 99, 49]) 6 12 0 :=
  ⟨[6], [1, 2], [45, 114, 99, 49], by unfold Digits; decide, by unfold Digits; decide, rfl, rfl, .inr ⟨rfl, by
    intro c cs h; injection h with h1 _; omega, by intro cs h; injection h with h1 _; omega, rfl⟩⟩

example : releaseCode 3 (ascii [6] ++ 46 :: ascii [1, 2] ++ [45, 114, 99, 49]) 0 = 0x60c00 := by decide +kernel

/-! ### the environment: specification -/

/-- the name of the variable an entry sets -/
def nameOf (e : Entry) : Entry := e.takeWhile (· ≠ 61)

/-- the value `getenv` finds -/
def valueOf (env : List Entry) (name : Entry) : Option Entry :=
  env.findSome? fun e => if (name ++ [61]).isPrefixOf e then some (e.drop (name.length + 1)) else none

/-- what the last change that concerns a variable says: a value, or removal -/
def lastChange (changes : List Entry) (name : Entry) : Option (Option Entry) :=
  changes.reverse.findSome? fun c =>
    if (name ++ [61]).isPrefixOf c then some (some (c.drop (name.length + 1)))
    else if c = name then some none else none

/-! ### proofs -/

theorem takeWhile_append_eq (n : Entry) (hn : 61 ∉ n) (rest : Entry) (hr : rest = [] ∨ ∃ r, rest = 61 :: r) :
    nameOf (n ++ rest) = n := by
  induction n with
  | nil =>
    rcases hr with rfl | ⟨r, rfl⟩
    · rfl
    · rfl
  | cons c n ih =>
    have hc : c ≠ 61 := fun h => hn (by simp [h])
    unfold nameOf at ih ⊢
    rw [List.cons_append, List.takeWhile_cons_of_pos (by simpa using hc), ih (fun h => hn (by simp [h]))]

theorem nameOf_split (e : Entry) : ∃ rest, e = nameOf e ++ rest ∧ (rest = [] ∨ ∃ r, rest = 61 :: r) ∧ 61 ∉ nameOf e := by
  refine ⟨e.dropWhile (· ≠ 61), (List.takeWhile_append_dropWhile).symm, ?_, ?_⟩
  · cases h : e.dropWhile (· ≠ 61) with
    | nil => exact .inl rfl
    | cons c r =>
      right
      have := List.head_dropWhile_not (fun x : Nat => decide (x ≠ 61)) (l := e) (by rw [h]; simp)
      simp only [h, List.head_cons] at this
      have hc : c = 61 := by simpa using this
      exact ⟨r, by rw [hc]⟩
  · intro h
    have := List.all_eq_true.mp (List.all_takeWhile (p := fun x : Nat => decide (x ≠ 61)) (l := e)) 61 h
    simp at this

theorem sameKey_iff (e var : Entry) (len : Nat) (hl : len ≤ var.length) (hv : 61 ∉ var.take len) :
    sameKey e var len = true ↔ nameOf e = var.take len := by
  unfold sameKey
  rw [Bool.and_eq_true, Bool.or_eq_true, decide_eq_true_iff, decide_eq_true_iff, decide_eq_true_iff]
  have hlen : (var.take len).length = len := by rw [List.length_take]; omega
  constructor
  · rintro ⟨h1, h2⟩
    have he : e = var.take len ++ e.drop len := by rw [← h1, List.take_append_drop]
    rw [he]
    apply takeWhile_append_eq _ hv
    cases hd : e.drop len with
    | nil => exact .inl rfl
    | cons c r =>
      right
      have : e[len]? = some c := by
        rw [← List.head?_drop, hd]; rfl
      rw [this] at h2
      rcases h2 with h2 | h2
      · cases h2; exact ⟨r, rfl⟩
      · cases h2
  · intro h
    obtain ⟨rest, h1, h2, _⟩ := nameOf_split e
    rw [h] at h1
    constructor
    · rw [h1, List.take_append_of_le_length (by omega), List.take_of_length_le (by omega)]
    · rw [h1, List.getElem?_append_right (by omega), hlen, Nat.sub_self]
      rcases h2 with rfl | ⟨r, rfl⟩
      · exact .inr rfl
      · exact .inl rfl

theorem remove_key (e var : Entry) (hv : 61 ∉ var) : sameKey e var var.length = true ↔ nameOf e = var := by
  have := sameKey_iff e var var.length (Nat.le_refl _) (by rw [List.take_length]; exact hv)
  rw [List.take_length] at this
  exact this

theorem take_idxOf (var : Entry) (h : 61 ∈ var) : var.take (var.idxOf 61) = nameOf var ∧ 61 ∉ nameOf var := by
  refine ⟨?_, (nameOf_split var).choose_spec.2.2⟩
  clear h
  induction var with
  | nil => rfl
  | cons c var ih =>
    unfold nameOf at ih ⊢
    by_cases hc : c = 61
    · subst hc
      simp
    · rw [List.idxOf_cons, show (c == 61) = false from by simpa using hc, List.takeWhile_cons_of_pos (by simpa using hc)]
      show c :: _ = _
      rw [ih]

theorem add_key (e var : Entry) (h : 61 ∈ var) : sameKey e var (var.idxOf 61) = true ↔ nameOf e = nameOf var := by
  obtain ⟨h1, h2⟩ := take_idxOf var h
  have := sameKey_iff e var (var.idxOf 61) (Nat.le_of_lt (List.idxOf_lt_length_of_mem h)) (by rw [h1]; exact h2)
  rw [h1] at this
  exact this

/-- what one change does to the entries -/
def change (env : List Entry) (c : Entry) : List Entry :=
  if 61 ∈ c then
    if (env.findIdx fun e => nameOf e = nameOf c) < env.length then env.set (env.findIdx fun e => nameOf e = nameOf c) c
    else env ++ [c]
  else env.filter fun e => nameOf e ≠ c

theorem removeLoop_spec (var : Entry) (hv : 61 ∉ var) (orig : List Entry) : ∀ k r w env, w ≤ r → r + k ≤ orig.length →
    env.length = orig.length → env.take w = (orig.take r).filter (fun e => nameOf e ≠ var) → env.drop r = orig.drop r →
    (removeLoop var k r w env).1.length = orig.length ∧ (removeLoop var k r w env).2 ≤ r + k ∧
    (removeLoop var k r w env).1.take (removeLoop var k r w env).2 = (orig.take (r + k)).filter (fun e => nameOf e ≠ var) := by
  intro k
  induction k with
  | zero => intro r w env h1 h2 h3 h4 h5; exact ⟨h3, h1, h4⟩
  | succ k ih =>
    intro r w env h1 h2 h3 h4 h5
    have hr : r < orig.length := by omega
    have hget : env.getD r [] = orig[r] := by
      rw [List.getD_eq_getElem?_getD]
      have : env[r]? = orig[r]? := by rw [← List.head?_drop, h5, List.head?_drop]
      rw [this, List.getElem?_eq_getElem hr]; rfl
    have htake : orig.take (r + 1) = orig.take r ++ [orig[r]] := List.take_succ_eq_append_getElem hr
    have hdrop : env.drop (r + 1) = orig.drop (r + 1) := by
      rw [← List.drop_drop, h5, List.drop_drop]
    unfold removeLoop
    rw [hget]
    by_cases hm : sameKey orig[r] var var.length = true
    · rw [if_pos hm]
      have hk := (remove_key _ _ hv).mp hm
      rw [show r + (k + 1) = r + 1 + k from by omega]
      apply ih (r + 1) w env (by omega) (by omega) h3 _ hdrop
      rw [htake, List.filter_append, h4]
      simp [hk]
    · rw [if_neg hm]
      have hk : nameOf orig[r] ≠ var := fun h => hm ((remove_key _ _ hv).mpr h)
      rw [show r + (k + 1) = r + 1 + k from by omega]
      have goalTake : ∀ env' : List Entry, env'[w]? = some orig[r] → env'.take w = env.take w →
          env'.take (w + 1) = (orig.take (r + 1)).filter (fun e => nameOf e ≠ var) := by
        intro env' e1 e2
        have hw : w < env'.length := (List.getElem?_eq_some_iff.mp e1).1
        rw [List.take_succ_eq_append_getElem hw, e2, h4, htake, List.filter_append]
        have : env'[w] = orig[r] := by
          rw [List.getElem?_eq_getElem hw] at e1; exact Option.some.inj e1
        rw [this]
        simp [hk]
      by_cases hw : w < r
      · rw [if_pos hw]
        apply ih (r + 1) (w + 1) (env.set w orig[r]) (by omega) (by omega) (by rw [List.length_set]; exact h3)
        · apply goalTake
          · rw [List.getElem?_set_self (by omega)]
          · rw [List.take_set_of_le (Nat.le_refl _)]
        · rw [List.drop_set_of_lt (by omega)]
          exact hdrop
      · rw [if_neg hw]
        have hwr : w = r := by omega
        subst hwr
        apply ih (w + 1) (w + 1) env (by omega) (by omega) h3 _ hdrop
        apply goalTake env _ rfl
        rw [← List.head?_drop, h5, List.head?_drop, List.getElem?_eq_getElem hr]

theorem removeFromEnv_spec (env : List Entry) (cnt : Nat) (hc : cnt ≤ env.length) (var : Entry) (hv : 61 ∉ var) :
    (removeFromEnv env cnt var).1.length = env.length ∧ (removeFromEnv env cnt var).2 ≤ cnt ∧
    (removeFromEnv env cnt var).1.take (removeFromEnv env cnt var).2 = (env.take cnt).filter fun e => nameOf e ≠ var := by
  obtain ⟨h1, h2, h3⟩ := removeLoop_spec var hv env cnt 0 0 env (Nat.le_refl _) (by omega) rfl rfl rfl
  rw [Nat.zero_add] at h2 h3
  unfold removeFromEnv
  dsimp only
  have hif : (if (removeLoop var cnt 0 0 env).2 < cnt then (removeLoop var cnt 0 0 env).2 else cnt) = (removeLoop var cnt 0 0 env).2 := by
    by_cases h : (removeLoop var cnt 0 0 env).2 < cnt
    · rw [if_pos h]
    · rw [if_neg h]; omega
  rw [hif]
  exact ⟨h1, h2, h3⟩

theorem findLoop_spec (env : List Entry) (var : Entry) (hv : 61 ∈ var) : ∀ k r, r + k ≤ env.length →
    findLoop env var (var.idxOf 61) k r = r + ((env.drop r).take k).findIdx fun e => nameOf e = nameOf var := by
  intro k
  induction k with
  | zero => intro r _; simp [findLoop]
  | succ k ih =>
    intro r h
    have hr : r < env.length := by omega
    have hget : env.getD r [] = env[r] := by
      rw [List.getD_eq_getElem?_getD, List.getElem?_eq_getElem hr]; rfl
    unfold findLoop
    rw [hget, List.drop_eq_getElem_cons hr, List.take_succ_cons, List.findIdx_cons]
    by_cases hm : sameKey env[r] var (var.idxOf 61) = true
    · rw [if_pos hm, show (decide (nameOf env[r] = nameOf var)) = true from decide_eq_true ((add_key _ _ hv).mp hm)]
      rfl
    · rw [if_neg hm, show (decide (nameOf env[r] = nameOf var)) = false from
        decide_eq_false fun h => hm ((add_key _ _ hv).mpr h), ih (r + 1) (by omega)]
      show _ = r + (_ + 1)
      omega

theorem updateEnv_spec (env : List Entry) (cnt : Nat) (hc : cnt < env.length) (var : Entry) :
    ∃ r, updateEnv env cnt var = some r ∧ r.1.length = env.length ∧ r.2 ≤ cnt + 1 ∧
      r.1.take r.2 = change (env.take cnt) var := by
  unfold updateEnv change
  by_cases hv : 61 ∈ var
  · rw [if_pos hv, if_pos hv]
    have hf := findLoop_spec env var hv cnt 0 (by omega)
    rw [Nat.zero_add, List.drop_zero] at hf
    have hlen : (env.take cnt).length = cnt := by rw [List.length_take]; omega
    have hle := List.findIdx_le_length (p := fun e => decide (nameOf e = nameOf var)) (xs := env.take cnt)
    unfold addToEnv
    rw [hf]
    dsimp only
    rw [if_pos (by omega), hlen]
    by_cases hlt : (env.take cnt).findIdx (fun e => decide (nameOf e = nameOf var)) < cnt
    · rw [if_pos hlt, if_pos hlt]
      refine ⟨_, rfl, by rw [List.length_set], by show cnt ≤ cnt + 1; omega, ?_⟩
      show (env.set _ var).take cnt = _
      rw [List.take_set]
    · rw [if_neg hlt, if_neg hlt]
      have he : (env.take cnt).findIdx (fun e => decide (nameOf e = nameOf var)) = cnt := by omega
      rw [he]
      refine ⟨_, rfl, by rw [List.length_set], Nat.le_refl _, ?_⟩
      show (env.set cnt var).take (cnt + 1) = _
      rw [List.take_succ_eq_append_getElem (by rw [List.length_set]; omega), List.take_set_of_le (Nat.le_refl _),
        List.getElem_set_self]
  · rw [if_neg hv, if_neg hv]
    obtain ⟨h1, h2, h3⟩ := removeFromEnv_spec env cnt (by omega) var hv
    exact ⟨_, rfl, h1, by omega, h3⟩

theorem updateAll_spec : ∀ (changes env : List Entry) (cnt : Nat), cnt + changes.length < env.length →
    ∃ r, updateAll changes env cnt = some r ∧ r.2 < r.1.length ∧ r.1.take r.2 = changes.foldl change (env.take cnt) := by
  intro changes
  induction changes with
  | nil => intro env cnt h; exact ⟨(env, cnt), rfl, h, rfl⟩
  | cons c cs ih =>
    intro env cnt h
    rw [List.length_cons] at h
    obtain ⟨r, r1, r2, r3, r4⟩ := updateEnv_spec env cnt (by omega) c
    obtain ⟨q, q1, q2, q3⟩ := ih r.1 r.2 (by omega)
    refine ⟨q, ?_, q2, ?_⟩
    · show (updateEnv env cnt c).bind _ = _
      rw [r1]; exact q1
    · rw [q3, r4]; rfl

/-- the environment built is that of the changes applied in turn -/
theorem makeEnv_spec (orig changes : List Entry) (junk : Nat → Entry) (h : orig.length + changes.length + 1 < 2 ^ 64) :
    makeEnv orig changes junk = .env (changes.foldl change orig) := by
  unfold makeEnv
  by_cases h0 : changes.length = 0
  · rw [if_pos h0]
    have : changes = [] := List.length_eq_zero_iff.mp h0
    subst this
    rfl
  · rw [if_neg h0, if_neg (by omega)]
    have hlen : (orig ++ (List.range (changes.length + 1)).map junk).length = orig.length + (changes.length + 1) := by
      rw [List.length_append, List.length_map, List.length_range]
    obtain ⟨r, r1, r2, r3⟩ := updateAll_spec changes (orig ++ (List.range (changes.length + 1)).map junk) orig.length (by omega)
    rw [r1]
    show finishEnv r.1 r.2 = _
    unfold finishEnv
    rw [if_pos r2, r3, List.take_left]

/-! ### values -/

theorem prefix_iff (name e : Entry) (hn : 61 ∉ name) : (name ++ [61]).isPrefixOf e = true ↔ nameOf e = name ∧ 61 ∈ e := by
  rw [List.isPrefixOf_iff_prefix]
  constructor
  · rintro ⟨t, rfl⟩
    rw [List.append_assoc]
    exact ⟨takeWhile_append_eq name hn _ (.inr ⟨t, rfl⟩), by simp⟩
  · rintro ⟨h1, h2⟩
    obtain ⟨rest, e1, e2, e3⟩ := nameOf_split e
    rw [h1] at e1 e3
    rcases e2 with rfl | ⟨r, rfl⟩
    · rw [List.append_nil] at e1; rw [e1] at h2; exact absurd h2 e3
    · exact ⟨r, by rw [List.append_assoc]; exact e1.symm⟩

/-- the value an entry gives to a variable -/
def gives (name e : Entry) : Option Entry := if (name ++ [61]).isPrefixOf e then some (e.drop (name.length + 1)) else none

theorem valueOf_eq (env : List Entry) (name : Entry) : valueOf env name = env.findSome? (gives name) := rfl

theorem gives_none (name e : Entry) (hn : 61 ∉ name) (h : nameOf e ≠ name) : gives name e = none := by
  unfold gives
  rw [if_neg fun hc => h ((prefix_iff name e hn).mp hc).1]

theorem nameOf_self (c : Entry) (h : 61 ∉ c) : nameOf c = c := by
  have := takeWhile_append_eq c h [] (.inl rfl)
  rwa [List.append_nil] at this

theorem filter_value (name var : Entry) (hn : 61 ∉ name) (env : List Entry) :
    (env.filter fun e => nameOf e ≠ var).findSome? (gives name) = if name = var then none else env.findSome? (gives name) := by
  induction env with
  | nil => simp
  | cons e env ih =>
    by_cases he : nameOf e = var
    · rw [List.filter_cons_of_neg (by simpa using he), ih]
      by_cases hv : name = var
      · rw [if_pos hv, if_pos hv]
      · rw [if_neg hv, if_neg hv, List.findSome?_cons, gives_none name e hn (by rw [he]; exact fun h => hv h.symm)]
    · rw [List.filter_cons_of_pos (by simpa using he), List.findSome?_cons, ih]
      by_cases hv : name = var
      · rw [if_pos hv, if_pos hv, gives_none name e hn (by rw [hv]; exact he)]
      · rw [if_neg hv, if_neg hv, List.findSome?_cons]

theorem gives_change (name c : Entry) (hn : 61 ∉ name) (hc : 61 ∈ c) (h : nameOf c = name) :
    gives name c = some (c.drop (name.length + 1)) := by
  unfold gives
  rw [if_pos ((prefix_iff name c hn).mpr ⟨h, hc⟩)]

theorem set_value (name c : Entry) (hn : 61 ∉ name) (hc : 61 ∈ c) : ∀ (env : List Entry),
    (env.findIdx fun e => nameOf e = nameOf c) < env.length →
    (env.set (env.findIdx fun e => nameOf e = nameOf c) c).findSome? (gives name) =
      if nameOf c = name then gives name c else env.findSome? (gives name) := by
  intro env
  induction env with
  | nil => intro h; exact absurd h (by simp)
  | cons e env ih =>
    intro h
    rw [List.findIdx_cons] at h ⊢
    by_cases he : nameOf e = nameOf c
    · rw [show decide (nameOf e = nameOf c) = true from decide_eq_true he]
      show (c :: env).findSome? (gives name) = _
      rw [List.findSome?_cons, List.findSome?_cons]
      by_cases hcn : nameOf c = name
      · rw [if_pos hcn, gives_change name c hn hc hcn]
      · rw [if_neg hcn, gives_none name c hn hcn, gives_none name e hn (by rw [he]; exact hcn)]
    · rw [show decide (nameOf e = nameOf c) = false from decide_eq_false he] at h ⊢
      have h' : (env.findIdx fun e => nameOf e = nameOf c) < env.length := by
        have : (env.findIdx fun e => nameOf e = nameOf c) + 1 < (e :: env).length := h
        rw [List.length_cons] at this
        omega
      show (e :: env.set (env.findIdx fun e => nameOf e = nameOf c) c).findSome? (gives name) = _
      rw [List.findSome?_cons, List.findSome?_cons, ih h']
      by_cases hcn : nameOf c = name
      · rw [if_pos hcn, if_pos hcn, gives_none name e hn (by rw [← hcn]; exact he)]
      · rw [if_neg hcn, if_neg hcn]

theorem change_value (env : List Entry) (name c : Entry) (hn : 61 ∉ name) :
    valueOf (change env c) name =
      if (name ++ [61]).isPrefixOf c then some (c.drop (name.length + 1)) else if c = name then none else valueOf env name := by
  rw [valueOf_eq, valueOf_eq]
  unfold change
  by_cases hc : 61 ∈ c
  · rw [if_pos hc]
    have hne : c ≠ name := fun h => hn (h ▸ hc)
    rw [if_neg hne]
    have hp : (if (name ++ [61]).isPrefixOf c = true then some (c.drop (name.length + 1)) else env.findSome? (gives name)) =
        if nameOf c = name then gives name c else env.findSome? (gives name) := by
      by_cases hcn : nameOf c = name
      · rw [if_pos hcn, if_pos ((prefix_iff name c hn).mpr ⟨hcn, hc⟩), gives_change name c hn hc hcn]
      · rw [if_neg hcn, if_neg fun h => hcn ((prefix_iff name c hn).mp h).1]
    rw [hp]
    by_cases hlt : (env.findIdx fun e => nameOf e = nameOf c) < env.length
    · rw [if_pos hlt]
      exact set_value name c hn hc env hlt
    · rw [if_neg hlt, List.findSome?_append]
      by_cases hcn : nameOf c = name
      · rw [if_pos hcn]
        have : env.findSome? (gives name) = none := by
          rw [List.findSome?_eq_none_iff]
          intro e he
          apply gives_none name e hn
          intro hen
          apply hlt
          exact List.findIdx_lt_length_of_exists ⟨e, he, by simpa using hen.trans hcn.symm⟩
        rw [this, List.findSome?_cons]
        cases gives name c <;> rfl
      · rw [if_neg hcn, List.findSome?_cons, gives_none name c hn hcn]
        cases env.findSome? (gives name) <;> rfl
  · rw [if_neg hc, if_neg fun h => hc ((prefix_iff name c hn).mp h).2, filter_value name c hn]
    by_cases h : c = name
    · rw [if_pos h, if_pos h.symm]
    · rw [if_neg h, if_neg fun hh => h hh.symm]

theorem lastChange_append (cs : List Entry) (c name : Entry) :
    lastChange (cs ++ [c]) name =
      if (name ++ [61]).isPrefixOf c then some (some (c.drop (name.length + 1)))
      else if c = name then some none else lastChange cs name := by
  unfold lastChange
  rw [List.reverse_append, List.reverse_singleton, List.singleton_append, List.findSome?_cons]
  by_cases h1 : (name ++ [61]).isPrefixOf c = true
  · rw [if_pos h1, if_pos h1]
  · rw [if_neg h1, if_neg h1]
    by_cases h2 : c = name
    · rw [if_pos h2, if_pos h2]
    · rw [if_neg h2, if_neg h2]

/-- C46: in the environment of the command a variable has the value of the last change that concerns it, no value if that
change removes it, and its old value if no change concerns it; the array is never overrun -/
theorem env_values (orig changes : List Entry) (junk : Nat → Entry) (h : orig.length + changes.length + 1 < 2 ^ 64) :
    ∃ env, makeEnv orig changes junk = .env env ∧
      ∀ name, 61 ∉ name → valueOf env name =
        match lastChange changes name with
        | some v => v
        | none => valueOf orig name := by
  refine ⟨_, makeEnv_spec orig changes junk h, ?_⟩
  intro name hn
  clear h
  induction changes using List.reverseRecOn with
  | nil => rfl
  | append_singleton cs c ih =>
    rw [List.foldl_append, List.foldl_cons, List.foldl_nil, change_value _ name c hn, ih, lastChange_append]
    by_cases h1 : (name ++ [61]).isPrefixOf c = true
    · rw [if_pos h1, if_pos h1]
    · rw [if_neg h1, if_neg h1]
      by_cases h2 : c = name
      · rw [if_pos h2, if_pos h2]
      · rw [if_neg h2, if_neg h2]

/-- C46: entries of variables that no change names stay as they were, in their order -/
theorem env_others (orig changes : List Entry) (junk : Nat → Entry) (h : orig.length + changes.length + 1 < 2 ^ 64) :
    ∃ env, makeEnv orig changes junk = .env env ∧
      ∀ keep : Entry → Bool, (∀ c ∈ changes, ∀ e, nameOf e = nameOf c → keep e = false) → env.filter keep = orig.filter keep := by
  refine ⟨_, makeEnv_spec orig changes junk h, ?_⟩
  clear h
  intro keep hk
  induction changes generalizing orig with
  | nil => rfl
  | cons c cs ih =>
    rw [List.foldl_cons, ih (change orig c) fun x hx => hk x (by simp [hx])]
    have hkc := hk c (by simp)
    unfold change
    by_cases hc : 61 ∈ c
    · rw [if_pos hc]
      by_cases hlt : (orig.findIdx fun e => nameOf e = nameOf c) < orig.length
      · rw [if_pos hlt]
        generalize hi : (orig.findIdx fun e => nameOf e = nameOf c) = i at hlt ⊢
        have hm : nameOf orig[i] = nameOf c := by
          have := List.findIdx_getElem (p := fun e => decide (nameOf e = nameOf c)) (xs := orig) (w := by rw [hi]; exact hlt)
          simp only [hi] at this
          simpa using this
        rw [List.set_eq_take_append_cons_drop, if_pos hlt, List.filter_append, List.filter_cons_of_neg (by simp [hkc c rfl])]
        conv => rhs; rw [← List.take_append_drop i orig, List.drop_eq_getElem_cons hlt, List.filter_append,
          List.filter_cons_of_neg (by simp [hkc _ hm])]
      · rw [if_neg hlt, List.filter_append, List.filter_cons_of_neg (by simp [hkc c rfl])]
        simp
    · rw [if_neg hc, List.filter_filter]
      apply List.filter_congr
      intro e _
      by_cases he : nameOf e = c
      · rw [hkc e (by rw [he, nameOf_self c hc])]; simp
      · simp [he]

/-- `A=1 B=2 A=3` with `-E A=5 -E B -E C=`: the first A is replaced, B is gone, C is there -/
example : makeEnv [[65, 61, 49], [66, 61, 50], [65, 61, 51]] [[65, 61, 53], [66], [67, 61]] (fun _ => []) =
    .env [[65, 61, 53], [65, 61, 51], [67, 61]] := by decide +kernel

end Strace.Misc
