import Verif.Filled.Spec
namespace Strace.Filled
open Spec

/-! ## Conversions and memory -/

theorem u64_nat {v : Int} {n : Nat} (h : v = n) (hn : n < 2 ^ 64) : u64 v = n := by
  subst h; unfold u64; omega

theorem u32_nat {v : Int} {n : Nat} (h : v = n) (hn : n < 2 ^ 32) : u32 v = n := by
  subst h; unfold u32; omega

theorem holds_tail {m : Mem} {a b : Nat} {l : List Nat} (h : Holds m a (b :: l)) : Holds m (a + 1) l := by
  intro i hi
  have := h (i + 1) (by simp; omega)
  rw [show a + 1 + i = a + (i + 1) by omega, this]
  simp

theorem holds_head {m : Mem} {a b : Nat} {l : List Nat} (h : Holds m a (b :: l)) : m a = some b := by
  have := h 0 (by simp)
  simpa using this

theorem holds_drop {m : Mem} : ∀ {k a : Nat} {l : List Nat}, Holds m a l → Holds m (a + k) (l.drop k)
  | 0, _, _, h => by simpa using h
  | k + 1, a, [], _ => by simp [Holds]
  | k + 1, a, b :: l, h => by
    have := holds_drop (k := k) (holds_tail h)
    rw [show a + (k + 1) = a + 1 + k by omega]
    simpa using this

theorem umoven_holds {m : Mem} : ∀ {n a : Nat} {l : List Nat}, Holds m a l → n ≤ l.length → umoven m a n = some (l.take n)
  | 0, _, _, _, _ => by simp [umoven]
  | n + 1, _, [], _, h => by simp at h
  | n + 1, a, b :: l, h, hn => by
    have ih := umoven_holds (n := n) (holds_tail h) (by simpa using hn)
    simp [umoven, holds_head h, ih]

theorem printstr_holds {E : Env} {m : Mem} {a : Nat} {data : List Nat} (z : Bool) (h0 : a ≠ 0) (h : Holds m a data) :
    printstr E m a data.length z =
      if z = true then .value (data.take E.max) (decide (E.max < data.length)) else upTo E.max data := by
  unfold printstr upTo
  rw [if_neg h0, umoven_holds h (by split <;> omega)]
  simp only
  have e : (data.take (if E.max + 1 > data.length then data.length else E.max + 1)).take E.max = data.take E.max := by
    rw [List.take_take]
    split
    · by_cases hc : E.max ≤ data.length
      · rw [Nat.min_eq_left hc]
      · rw [Nat.min_eq_right (by omega), List.take_of_length_le (by omega), List.take_of_length_le (by omega)]
    · rw [Nat.min_eq_left (by omega)]
  have e2 : decide (data.length ≠ 0 ∧ data.length > E.max) = decide (E.max < data.length) := by
    rw [decide_eq_decide]; omega
  rw [e, e2]

theorem umovestr_holds {m : Mem} : ∀ {p : List Nat} {a n : Nat}, 0 ∉ p → Holds m a (p ++ [0]) → p.length + 1 ≤ n →
    umovestr m a n = some (p, true)
  | [], a, n, _, h, hn => by
    obtain ⟨k, rfl⟩ : ∃ k, n = k + 1 := ⟨n - 1, by simp at hn; omega⟩
    have : m a = some 0 := holds_head (l := []) h
    simp [umovestr, this]
  | b :: p, a, n, hp, h, hn => by
    obtain ⟨k, rfl⟩ : ∃ k, n = k + 1 := ⟨n - 1, by simp at hn; omega⟩
    rw [List.cons_append] at h
    have hb : m a = some b := holds_head h
    have ih := umovestr_holds (n := k) (fun hh => hp (List.mem_cons_of_mem _ hh)) (holds_tail h) (by simp at hn; omega)
    have hne : b ≠ 0 := fun e => hp (by simp [e])
    simp [umovestr, hb, hne, ih]

theorem elemsFrom_holds {m : Mem} {es : Nat} : ∀ {n a lim : Nat} {data : List Nat}, Holds m a data → data.length = es * n →
    elemsFrom m es a n lim = ((pieces es n data).take lim, decide (lim < n))
  | 0, _, _, _, _, _ => by simp [elemsFrom, pieces]
  | n + 1, a, lim, data, h, hl => by
    have e1 : es ≤ data.length := by rw [hl, Nat.mul_succ]; omega
    rw [elemsFrom, umoven_holds h e1]
    cases lim with
    | zero => simp
    | succ lim =>
      have ih := elemsFrom_holds (es := es) (n := n) (a := a + es) (lim := lim) (holds_drop (k := es) h)
        (by rw [List.length_drop, hl, Nat.mul_succ]; omega)
      simp only [ih, pieces, List.take_succ_cons]
      simp

/-- How many of `n` elements are shown. -/
def limit (E : Env) (n : Nat) : Nat := if E.short = true ∧ E.max < n then E.max else n

theorem printArray_holds {E : Env} {m : Mem} {a es n : Nat} {data : List Nat} (h0 : a ≠ 0) (hes : 0 < es)
    (h : Holds m a data) (hl : data.length = es * n) (hb : a + data.length < 2 ^ 64) (hn : n < 2 ^ 32) :
    printArray E m false a es n = .elems ((pieces es n data).take (limit E n)) (decide (limit E n < n)) := by
  unfold printArray
  rw [if_neg h0]
  by_cases hz : n = 0
  · subst hz
    simp [pieces, limit]
  rw [if_neg hz]
  have hs : n * es % 2 ^ 64 = n * es := Nat.mod_eq_of_lt (by rw [Nat.mul_comm]; omega)
  have hp : 0 < n * es := Nat.mul_pos (by omega) hes
  have hle : n * es = data.length := by rw [hl, Nat.mul_comm]
  simp only [hs]
  rw [Nat.mod_eq_of_lt (by omega : a + n * es < 2 ^ 64), Nat.mul_div_cancel _ hes]
  rw [if_neg (by omega)]
  simp only [Bool.false_eq_true, if_false]
  have e1 : es ≤ data.length := by
    rw [hl]; exact Nat.le_mul_of_pos_right _ (by omega)
  rw [umoven_holds h e1]
  simp only
  rw [elemsFrom_holds h hl, Nat.mod_eq_of_lt hn]
  rfl

/-! ## What is shown is what has been written -/

/-- What is to be shown of the data a call has written. -/
def expected (k : Kind) (E : Env) (size : Nat) (rval : Int) (data : List Nat) : Shown :=
  match k with
  | .read | .recv | .pkey => upTo E.max data
  | .getcwd => .bytes data.dropLast false
  | .getxattr => if size = 0 then .addr else .value (data.take E.max) (decide (E.max < data.length))
  | .listxattr => if size = 0 then .addr else upTo E.max data
  | .keyRead true => .value (data.take E.max) (decide (E.max < data.length))
  | .keyRead false => upTo E.max data
  | .caps => .elems ((pieces 1 data.length data).take (limit E data.length)) (decide (limit E data.length < data.length))
  | .msgrcv => .msg (data.take 8) (upTo E.max (data.drop 8))
  | k => .elems ((pieces (unit k) rval.toNat data).take (limit E rval.toNat)) (decide (limit E rval.toNat < rval.toNat))

/-- The calls and cases in which more is shown than has been written. -/
def Careless (k : Kind) (size : Nat) (rval : Int) (data : List Nat) : Prop :=
  match k with
  | .msgrcv => (size : Int) ≠ rval ∨ size < 8
  | .pkey => (size : Int) ≠ rval
  | .keyRead _ => data.length < size ∧ (size : Int) < rval
  | .getgroups => size = 0
  | _ => False

theorem counted_exact {k : Kind} {E : Env} {m : Mem} {a es n size : Nat} {rval : Int} {data : List Nat} (h0 : a ≠ 0) (hes : 0 < es)
    (h : Holds m a data) (hr : 0 ≤ rval) (hl : (data.length : Int) = es * rval) (hs : rval ≤ size) (hsz : size < 2 ^ 31)
    (hb : a + data.length < 2 ^ 64) (hn : n = rval.toNat) (hk : unit k = es) :
    printArray E m false a es n =
      .elems ((pieces (unit k) rval.toNat data).take (limit E rval.toNat)) (decide (limit E rval.toNat < rval.toNat)) := by
  subst hn
  rw [hk]
  apply printArray_holds h0 hes h _ hb (by omega)
  have : ((es * rval.toNat : Nat) : Int) = es * rval := by rw [Int.natCast_mul, Int.toNat_of_nonneg hr]
  omega

/-- **What is shown of a buffer is what the call has written into it**: all of it, up to the limits of `-s`, in all cases
but the careless ones. -/
theorem exact_partial (k : Kind) (E : Env) (ngroupsMax : Nat) (m : Mem) (a size : Nat) (rval : Int) (data : List Nat)
    (hw : Wrote k ngroupsMax size rval data) (hc : ¬ Careless k size rval data)
    (h : Holds m a data) (h0 : a ≠ 0) (hb : a + data.length < 2 ^ 64) (hsz : size < 2 ^ 31) (hg : ngroupsMax < 2 ^ 31)
    (hrl : rval < 2 ^ 63) :
    show' k E ngroupsMax m ⟨rval, false⟩ a size = expected k E size rval data := by
  cases k with
  | read =>
    obtain ⟨h1, h2⟩ := hw
    simp only [show', read, Bool.false_eq_true, if_false, expected]
    rw [u64_nat h1 (by omega), printstr_holds false h0 h]; simp
  | recv =>
    obtain ⟨h1, h2⟩ := hw
    simp only [show', recv, Bool.false_eq_true, if_false, expected]
    have e : min (u64 rval) size = data.length := by
      rw [u64_nat (n := rval.toNat) (by omega) (by omega)]; omega
    rw [e, printstr_holds false h0 h]; simp
  | getcwd =>
    obtain ⟨h1, h2, h3, p, hp, hz⟩ := hw
    simp only [show', getcwd, Bool.false_eq_true, if_false, expected]
    rw [u32_nat h1 (by omega)]
    subst hp
    unfold printpathn
    rw [if_neg h0]
    have e : (if (p ++ [0]).length > 4096 then 4096 else (p ++ [0]).length) = (p ++ [0]).length := by
      rw [if_neg]; omega
    simp only [e]
    rw [if_neg (by simp), umovestr_holds hz h (by simp)]
    simp
  | getxattr =>
    simp only [show', getxattr, expected]
    by_cases hs : size = 0
    · rw [if_pos hs, if_pos hs]
    · rw [if_neg hs, if_neg hs]
      simp only [Wrote, hs, if_false] at hw
      obtain ⟨h1, h2, h3⟩ := hw
      unfold xattrVal
      rw [u64_nat h1 (by omega), if_neg (by omega), printstr_holds true h0 h]; simp
  | listxattr =>
    simp only [show', listxattr, expected]
    by_cases hs : size = 0
    · rw [if_pos (Or.inl hs), if_pos hs]
    · rw [if_neg (by simp [hs]), if_neg hs]
      simp only [Wrote, hs, if_false] at hw
      obtain ⟨h1, h2⟩ := hw
      rw [u64_nat h1 (by omega), printstr_holds false h0 h]; simp
  | keyRead z =>
    obtain ⟨h1, h2⟩ := hw
    simp only [show', keyRead, Bool.false_eq_true, if_false]
    have hu : u64 rval = rval.toNat := u64_nat (by omega) (by omega)
    have e : (if rval ≥ 0 ∧ u64 rval > size then size else u64 rval) = data.length := by
      rw [hu]
      by_cases hle : rval ≤ size
      · rw [if_pos hle] at h2
        rw [if_neg (by omega)]; omega
      · rw [if_neg hle] at h2
        rw [if_pos (by omega)]
        simp only [Careless] at hc
        omega
    rw [e, printstr_holds z h0 h]
    cases z <;> simp [expected]
  | pkey =>
    obtain ⟨h1, h2⟩ := hw
    simp only [Careless, ne_eq, Classical.not_not] at hc
    simp only [show', pkey, Bool.false_eq_true, if_false, expected]
    have e : size = data.length := by omega
    rw [e, printstr_holds false h0 h]; simp
  | caps =>
    obtain ⟨h1, h2⟩ := hw
    simp only [show', caps, Bool.false_eq_true, if_false, expected]
    have e : min size (u64 rval) = data.length := by
      rw [u64_nat (n := rval.toNat) (by omega) (by omega)]; omega
    rw [e, printArray_holds h0 (by omega) h (by omega) hb (by omega)]
  | msgrcv =>
    obtain ⟨t, x, hd, ht, h1, h2⟩ := hw
    simp only [Careless, not_or, Classical.not_not, ne_eq] at hc
    have hxl : x.length = size := by omega
    have hlen : data.length = 8 + size := by rw [hd, List.length_append]; omega
    simp only [show', msgrcv, expected]
    rw [if_neg (by simp [h0]), umoven_holds h (by omega)]
    simp only
    have hx : data.drop 8 = x := by rw [hd, List.drop_left' ht]
    have hh : Holds m (a + 8) x := by rw [← hx]; exact holds_drop h
    have hps := printstr_holds (E := E) false (by omega : a + 8 ≠ 0) hh
    rw [hxl] at hps
    rw [hps, hx, List.take_take]
    simp
  | getgroups =>
    obtain ⟨h1, h2, h3⟩ := hw
    simp only [Careless] at hc
    rw [if_neg hc] at h3
    simp only [show', getgroups]
    have hu : u32 rval = rval.toNat := u32_nat (by omega) (by omega)
    rw [hu, if_neg (by omega)]
    exact counted_exact h0 (by omega) h h1 h3.1 h3.2 hsz hb rfl rfl
  | epoll =>
    obtain ⟨h1, h2, h3⟩ := hw
    exact counted_exact h0 (by omega) h h1 h2 h3 hsz hb (u64_nat (Int.toNat_of_nonneg h1).symm (by omega)) rfl
  | aio =>
    obtain ⟨h1, h2, h3⟩ := hw
    exact counted_exact h0 (by omega) h h1 h2 h3 hsz hb (u64_nat (Int.toNat_of_nonneg h1).symm (by omega)) rfl
  | lsm =>
    obtain ⟨h1, h2, h3⟩ := hw
    exact counted_exact h0 (by omega) h h1 h2 h3 hsz hb (u64_nat (Int.toNat_of_nonneg h1).symm (by omega)) rfl
  | siginfo =>
    obtain ⟨h1, h2, h3⟩ := hw
    exact counted_exact h0 (by omega) h h1 h2 h3 hsz hb (u64_nat (Int.toNat_of_nonneg h1).symm (by omega)) rfl
  | mounts =>
    obtain ⟨h1, h2, h3⟩ := hw
    have hu : u64 rval = rval.toNat := u64_nat (by omega) (by omega)
    exact counted_exact (n := min size (u64 rval)) h0 (by omega) h h1 h2 h3 hsz hb (by rw [hu]; omega) rfl

/-- **Nothing else is shown**: what is shown does not depend on what the memory holds besides what has been written. -/
theorem only_written_partial (k : Kind) (E : Env) (ngroupsMax : Nat) (m m' : Mem) (a size : Nat) (rval : Int) (data : List Nat)
    (hw : Wrote k ngroupsMax size rval data) (hc : ¬ Careless k size rval data)
    (h : Holds m a data) (h' : Holds m' a data) (h0 : a ≠ 0) (hb : a + data.length < 2 ^ 64) (hsz : size < 2 ^ 31)
    (hg : ngroupsMax < 2 ^ 31) (hrl : rval < 2 ^ 63) :
    show' k E ngroupsMax m ⟨rval, false⟩ a size = show' k E ngroupsMax m' ⟨rval, false⟩ a size := by
  rw [exact_partial k E ngroupsMax m a size rval data hw hc h h0 hb hsz hg hrl,
    exact_partial k E ngroupsMax m' a size rval data hw hc h' h0 hb hsz hg hrl]

/-- Memory of which the bytes from 4096 on are given. -/
def at4096 (l : List Nat) : Mem := fun a => if 4096 ≤ a then l[a - 4096]? else none

theorem holds_at4096 (l r : List Nat) : Holds (at4096 (l ++ r)) 4096 l := by
  intro i hi
  unfold at4096
  rw [if_pos (by omega), show 4096 + i - 4096 = i by omega, List.getElem?_append_left hi]
  simp [List.getD, hi]

/-- **The careless ones show memory that the call has not written**, each after a call as its manual describes it:
msgrcv with room for 4 bytes that has received "hi" shows two more bytes;
KEYCTL_PKEY_SIGN with room for 4 that has written 2 does;
KEYCTL_DESCRIBE with too little room, which has written nothing, shows what was there;
getgroups(0, p), which is a question for their number, shows groups. -/
theorem leaks :
    (show' .msgrcv ⟨32, true⟩ 10 (at4096 ([1, 0, 0, 0, 0, 0, 0, 0, 104, 105] ++ [90, 91, 0, 0, 0, 0])) ⟨2, false⟩ 4096 4
        = .msg [1, 0, 0, 0, 0, 0, 0, 0] (.bytes [104, 105, 90, 91] false)
      ∧ Wrote .msgrcv 10 4 2 [1, 0, 0, 0, 0, 0, 0, 0, 104, 105])
    ∧ (show' .pkey ⟨32, true⟩ 10 (at4096 ([104, 105] ++ [90, 91])) ⟨2, false⟩ 4096 4 = .bytes [104, 105, 90, 91] false
      ∧ Wrote .pkey 10 4 2 [104, 105])
    ∧ (show' (.keyRead true) ⟨32, true⟩ 10 (at4096 ([] ++ [90, 91])) ⟨9, false⟩ 4096 2 = .value [90, 91] false
      ∧ Wrote (.keyRead true) 10 2 9 [])
    ∧ (show' .getgroups ⟨32, true⟩ 10 (at4096 ([] ++ [90, 0, 0, 0])) ⟨1, false⟩ 4096 0 = .elems [[90, 0, 0, 0]] false
      ∧ Wrote .getgroups 10 0 1 []) := by
  refine ⟨⟨by decide, ⟨[1, 0, 0, 0, 0, 0, 0, 0], [104, 105], rfl, rfl, rfl, by decide⟩⟩, ⟨by decide, by simp [Wrote]⟩,
    ⟨by decide, by simp [Wrote]⟩, ⟨by decide, by simp [Wrote]⟩⟩

/-- For msgrcv this is so of every message: whenever there is more room than text, and the text and a further byte are
within the limit, there is memory in which the message is the same and what is shown is not. -/
theorem msgrcv_leaks (E : Env) (ng : Nat) (t x : List Nat) (size : Nat) (ht : t.length = 8) (hx : x.length < size) (h8 : 8 ≤ size)
    (hm : x.length < E.max) :
    ∃ m m', Holds m 4096 (t ++ x) ∧ Holds m' 4096 (t ++ x)
      ∧ show' .msgrcv E ng m ⟨x.length, false⟩ 4096 size ≠ show' .msgrcv E ng m' ⟨x.length, false⟩ 4096 size := by
  let f (b : Nat) : List Nat := x ++ List.replicate (size - x.length) b
  have hf : ∀ b, (f b).length = size := by intro b; simp [f]; omega
  have hs : ∀ b, show' .msgrcv E ng (at4096 ((t ++ f b) ++ [])) ⟨x.length, false⟩ 4096 size = .msg t (upTo E.max (f b)) := by
    intro b
    have hh := holds_at4096 (t ++ f b) []
    have hw : Wrote .msgrcv ng size ((f b).length : Nat) (t ++ f b) := ⟨t, f b, rfl, ht, rfl, by rw [hf]; exact Nat.le_refl _⟩
    have hps := printstr_holds (E := E) false (by omega : 4096 + 8 ≠ 0) (by
      have := holds_drop (k := 8) hh
      rwa [List.drop_left' ht] at this : Holds (at4096 ((t ++ f b) ++ [])) (4096 + 8) (f b))
    rw [hf] at hps
    simp only [show', msgrcv]
    rw [if_neg (by simp), umoven_holds hh (by rw [List.length_append, hf]; omega)]
    simp only
    rw [hps, List.take_take, show min 8 16 = 8 by omega, List.take_left' ht]
    simp
  have hl : ∀ b, Holds (at4096 ((t ++ f b) ++ [])) 4096 (t ++ x) := by
    intro b
    have e : (t ++ f b) ++ [] = (t ++ x) ++ List.replicate (size - x.length) b := by simp [f]
    rw [e]
    exact holds_at4096 _ _
  refine ⟨_, _, hl 0, hl 1, ?_⟩
  rw [hs, hs]
  intro h
  injection h with _ h
  unfold upTo at h
  injection h with h _
  have e := congrArg (fun l => l[x.length]?) h
  simp only [List.getElem?_take, hm, if_true, f] at e
  rw [List.getElem?_append_right (Nat.le_refl _), List.getElem?_append_right (Nat.le_refl _)] at e
  rw [List.getElem?_replicate, List.getElem?_replicate, if_pos (by omega), if_pos (by omega)] at e
  cases e

/-! ## Failures -/

/-- **After a failure nothing of the buffer is shown**, whatever the memory is: the address; or, of listmount with room
for none, the empty list. -/
theorem failed_addr (k : Kind) (E : Env) (ngroupsMax : Nat) (m : Mem) (a size : Nat) (hg : ngroupsMax < 2 ^ 31) :
    show' k E ngroupsMax m ⟨-1, true⟩ a size =
      if k = .mounts ∧ size = 0 ∧ a ≠ 0 then .elems [] false else .addr := by
  have hu : u64 (-1) = 2 ^ 64 - 1 := by decide
  have hu32 : u32 (-1) = 2 ^ 32 - 1 := by decide
  have hp : ∀ es n, n ≠ 0 → printArray E m true a es n = .addr := by
    intro es n hn
    unfold printArray
    by_cases h0 : a = 0
    · rw [if_pos h0]
    · rw [if_neg h0, if_neg hn]
      simp
  cases k with
  | read => simp [show', read]
  | recv => simp [show', recv]
  | getcwd => simp [show', getcwd]
  | getxattr =>
    simp only [show', getxattr, xattrVal, hu]
    rw [if_neg (c := Kind.getxattr = Kind.mounts ∧ size = 0 ∧ a ≠ 0) (by simp)]
    split
    · rfl
    · rw [if_pos (by omega)]
  | listxattr => simp [show', listxattr]
  | keyRead z => simp [show', keyRead]
  | pkey => simp [show', pkey]
  | caps => simp [show', caps]
  | msgrcv => simp [show', msgrcv]
  | getgroups =>
    simp only [show', getgroups, hu32]
    rw [if_pos (by omega), if_neg (by simp)]
  | epoll => simp only [show', counted, hu]; rw [if_neg (by simp)]; exact hp _ _ (by omega)
  | aio => simp only [show', counted, hu]; rw [if_neg (by simp)]; exact hp _ _ (by omega)
  | lsm => simp only [show', counted, hu]; rw [if_neg (by simp)]; exact hp _ _ (by omega)
  | siginfo => simp only [show', counted, hu]; rw [if_neg (by simp)]; exact hp _ _ (by omega)
  | mounts =>
    simp only [show', mounts, hu]
    by_cases hs : size = 0
    · subst hs
      by_cases h0 : a = 0 <;> simp [printArray, h0]
    · rw [if_neg (by simp [hs])]
      exact hp _ _ (by omega)

/-! ## Results that the call has not given (`-e inject=…:retval=`) -/

/-- Two memories that agree on the buffer. -/
def Agree (m m' : Mem) (a n : Nat) : Prop := ∀ i, i < n → m (a + i) = m' (a + i)

theorem umoven_agree {m m' : Mem} : ∀ {n a N : Nat}, Agree m m' a N → n ≤ N → umoven m a n = umoven m' a n
  | 0, _, _, _, _ => rfl
  | n + 1, a, N, h, hn => by
    have ih := umoven_agree (n := n) (a := a + 1) (N := N - 1) (m := m) (m' := m') (fun i hi => by
      have := h (i + 1) (by omega)
      rwa [show a + 1 + i = a + (i + 1) by omega]) (by omega)
    have h0 := h 0 (by omega)
    simp only [Nat.add_zero] at h0
    simp only [umoven, ih, h0]

theorem printstr_agree {E : Env} {m m' : Mem} {a N len : Nat} {z : Bool} (h : Agree m m' a N) (hl : len ≤ N) :
    printstr E m a len z = printstr E m' a len z := by
  unfold printstr
  rw [umoven_agree h (by split <;> omega)]

theorem elemsFrom_agree {m m' : Mem} {es : Nat} : ∀ {n a lim N : Nat}, Agree m m' a N → es * n ≤ N →
    elemsFrom m es a n lim = elemsFrom m' es a n lim
  | 0, _, _, _, _, _ => by simp [elemsFrom]
  | n + 1, a, lim, N, h, hn => by
    rw [Nat.mul_succ] at hn
    rw [elemsFrom, elemsFrom, umoven_agree h (by omega)]
    have ih : ∀ l, elemsFrom m es (a + es) n l = elemsFrom m' es (a + es) n l := fun l =>
      elemsFrom_agree (N := N - es) (fun i hi => by
        have := h (es + i) (by omega)
        rwa [← Nat.add_assoc] at this) (by omega)
    simp only [ih]

theorem printArray_agree {E : Env} {m m' : Mem} {a N es n : Nat} {b : Bool} (h : Agree m m' a N) (hn : es * n ≤ N) :
    printArray E m b a es n = printArray E m' b a es n := by
  unfold printArray
  by_cases h0 : n = 0
  · subst h0; simp
  · have : es ≤ N := Nat.le_trans (Nat.le_mul_of_pos_right _ (by omega)) hn
    rw [umoven_agree h this]
    simp only [elemsFrom_agree h hn]

/-- The calls whose display is bounded by the size of the buffer, or by the type of the result. -/
def Bounded : Kind → Prop
  | .recv | .pkey | .caps | .mounts | .keyRead _ => True
  | _ => False

/-- **Whatever the result is, an injected one included, these calls show nothing beyond the end of the buffer.** -/
theorem bounded_partial (k : Kind) (hk : Bounded k) (E : Env) (ng : Nat) (m m' : Mem) (r : Ret) (a size : Nat)
    (hr : 0 ≤ r.rval ∨ r.failed = true) (h : Agree m m' a (unit k * size)) :
    show' k E ng m r a size = show' k E ng m' r a size := by
  cases k with
  | recv =>
    simp only [unit, Nat.one_mul] at h
    simp only [show', recv, printstr_agree h (Nat.min_le_right _ _)]
  | pkey =>
    simp only [unit, Nat.one_mul] at h
    simp only [show', pkey, printstr_agree h (Nat.le_refl _)]
  | caps => simp only [show', caps, printArray_agree (es := 1) h (Nat.mul_le_mul_left _ (Nat.min_le_left _ _))]
  | mounts => simp only [show', mounts, printArray_agree (es := 8) h (Nat.mul_le_mul_left _ (Nat.min_le_left _ _))]
  | keyRead z =>
    simp only [unit, Nat.one_mul] at h
    simp only [show', keyRead]
    rcases hr with hr | hr
    · rw [printstr_agree h (by split <;> omega)]
    · rw [if_pos hr, if_pos hr]
  | _ => exact absurd hk (by simp [Bounded])

/-- **The others show what is beyond it**: of a buffer of 2 bytes, with an injected result of 4, read shows two bytes that are
not of the buffer; likewise epoll_wait with room for none, and a result of 1. -/
theorem injected_counterexample :
    show' .read ⟨32, true⟩ 10 (at4096 ([104, 105] ++ [90, 91])) ⟨4, false⟩ 4096 2 = .bytes [104, 105, 90, 91] false
    ∧ show' .epoll ⟨32, true⟩ 10 (at4096 [1, 2, 3, 4, 5, 6, 7, 8, 9, 10, 11, 12]) ⟨1, false⟩ 4096 0
        = .elems [[1, 2, 3, 4, 5, 6, 7, 8, 9, 10, 11, 12]] false := by
  decide

/-! ## Cases -/

/-- read(3, "hello", 16) = 5 -/
example : show' .read ⟨32, true⟩ 10 (at4096 ([104, 101, 108, 108, 111] ++ [90, 90])) ⟨5, false⟩ 4096 16
    = .bytes [104, 101, 108, 108, 111] false := by decide

example : Wrote .read 10 16 5 [104, 101, 108, 108, 111] ∧ ¬ Careless .read 16 5 [104, 101, 108, 108, 111] := by
  simp [Wrote, Careless]

/-- recv with MSG_TRUNC: a packet of 5 bytes, room for 2. -/
example : show' .recv ⟨32, true⟩ 10 (at4096 ([104, 101] ++ [90, 90])) ⟨5, false⟩ 4096 2 = .bytes [104, 101] false := by decide

example : Wrote .recv 10 2 5 [104, 101] := by simp [Wrote]; omega

/-- getgroups(4, [1, 2]) = 2; with -s 1 the second one is "...". -/
example : show' .getgroups ⟨1, true⟩ 10 (at4096 [1, 0, 0, 0, 2, 0, 0, 0]) ⟨2, false⟩ 4096 4 = .elems [[1, 0, 0, 0]] true := by decide

example : Wrote .getgroups 10 4 2 [1, 0, 0, 0, 2, 0, 0, 0] ∧ ¬ Careless .getgroups 4 2 [1, 0, 0, 0, 2, 0, 0, 0] := by
  simp [Wrote, Careless]

/-- A message that fills the room. -/
example : Wrote .msgrcv 10 8 8 (List.replicate 8 1 ++ List.replicate 8 65) ∧ ¬ Careless .msgrcv 8 8 (List.replicate 8 1 ++ List.replicate 8 65) :=
  ⟨⟨_, _, rfl, rfl, rfl, by decide⟩, by simp [Careless]⟩

/-- getcwd("/a", 4096) = 3 -/
example : Wrote .getcwd 10 4096 3 [47, 97, 0] := ⟨rfl, by decide, by decide, [47, 97], rfl, by decide⟩

example : show' .getcwd ⟨32, true⟩ 10 (at4096 [47, 97, 0]) ⟨3, false⟩ 4096 4096 = .bytes [47, 97] false := by decide

end Strace.Filled
