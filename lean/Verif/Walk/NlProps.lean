import Verif.Walk.Model
/-!
# C32, C33: netlink messages and attributes
-/
namespace Strace.Walk

/-! ### Specification -/

def Tok.isPiece : Tok → Bool
  | .elem _ _ => true
  | .raw _ _ => true
  | .bad _ _ => true
  | .more => true
  | _ => false

def Tok.isElem : Tok → Bool
  | .elem _ _ => true
  | _ => false

/-- what is shown lies inside of the `len` bytes at `base` -/
def Tok.inside (hsize base len : Nat) : Tok → Prop
  | .elem a p => base ≤ a ∧ a + hsize ≤ base + len ∧
      ∀ b k, p = some (b, k) → 0 < k ∧ b = (a + hsize) % 2 ^ 64 ∧ a + hsize + k ≤ base + len
  | .raw a k => base ≤ a ∧ a + k = base + len ∧ k < hsize
  | .bad a _ => base ≤ a ∧ a + hsize ≤ base + len
  | _ => True

/-- `t` begins where `s` ends, or later -/
def Tok.before (hsize : Nat) (s t : Tok) : Prop :=
  ∀ a p, s = .elem a p → ∀ b,
    ((∃ q, t = .elem b q) ∨ (∃ k, t = .raw b k) ∨ ∃ i, t = .bad b i) →
      a + hsize ≤ b ∧ ∀ c k, p = some (c, k) → a + hsize + k ≤ b

/-- more than one thing is shown as an array -/
def shown (ps : List Tok) : List Tok :=
  if ps.length ≥ 2 then .opened :: ps.intersperse .next ++ [.closed] else ps

/-! ### The walk -/

/-- the rounding is upwards, or wraps around to 0 -/
structure Good (hsize : Nat) (align : Nat → Nat) (get : Nat → Option Nat) : Prop where
  pos : 0 < hsize
  up : ∀ a n, get a = some n → align n = 0 ∨ n ≤ align n
  lt : ∀ a n, get a = some n → align n < 2 ^ 64

theorem nextLen_eq (len sz : Nat) : nextLen len sz = len - sz := by
  unfold nextLen
  split <;> omega

theorem nextHdr_some {hsize addr len n sz a l : Nat} (ha : addr < 2 ^ 64) (hsz : sz < 2 ^ 64)
    (h : nextHdr hsize addr len n sz = some (a, l)) :
    hsize ≤ n ∧ 0 < sz ∧ sz < len ∧ a = addr + sz ∧ a < 2 ^ 64 ∧ l = len - sz := by
  unfold nextHdr at h
  rw [nextLen_eq] at h
  by_cases hc : n ≥ hsize ∧ len - sz ≠ 0 ∧ add64 addr sz > addr
  · rw [if_pos hc] at h
    obtain ⟨h1, h2, h3⟩ := hc
    have e := Option.some.inj h
    injection e with e1 e2
    have h2' : sz < len := by omega
    unfold add64 at h3 e1
    have hs : 0 < sz := by
      rcases Nat.eq_zero_or_pos sz with h | h
      · subst h
        rw [Nat.add_zero, Nat.mod_eq_of_lt ha] at h3
        omega
      · exact h
    have : (addr + sz) % 2 ^ 64 = addr + sz := by
      rcases Nat.lt_or_ge (addr + sz) (2 ^ 64) with h | h
      · exact Nat.mod_eq_of_lt h
      · have : (addr + sz) % 2 ^ 64 = addr + sz - 2 ^ 64 := by
          rw [Nat.mod_eq_sub_mod h, Nat.mod_eq_of_lt (by omega)]
        omega
    rw [this] at e1
    refine ⟨h1, hs, h2', e1.symm, ?_, e2.symm⟩
    rw [← e1, ← this]
    exact Nat.mod_lt _ (by decide)
  · rw [if_neg hc] at h
    simp at h

/-- the tokens for what is shown, if an array has been opened or not -/
def toks (arr : Bool) (ps : List Tok) : List Tok :=
  if arr = true then ps.intersperse .next ++ [.closed] else shown ps

theorem toks_one (arr : Bool) (t : Tok) : toks arr [t] = t :: fin arr := by
  cases arr <;> simp [toks, shown, fin]

theorem intersperse_cons {α : Type} (s x : α) (l : List α) (h : l ≠ []) :
    (x :: l).intersperse s = x :: s :: l.intersperse s := by
  cases l with
  | nil => exact absurd rfl h
  | cons y l => simp

theorem toks_cons (arr : Bool) (t : Tok) (ps : List Tok) (h : ps ≠ []) :
    toks arr (t :: ps) = (if arr = true then [] else [.opened]) ++ t :: .next :: toks true ps := by
  have hl : (t :: ps).length ≥ 2 := by
    cases ps with
    | nil => exact absurd rfl h
    | cons y l => simp
  cases arr with
  | true => simp [toks, intersperse_cons _ t ps h]
  | false =>
    simp only [toks, shown]
    rw [if_neg (by simp), if_pos hl, intersperse_cons _ t ps h]
    simp

theorem inside_mono {hsize a l a' l' : Nat} (t : Tok) (h : t.inside hsize a' l') (h1 : a ≤ a') (h2 : a' + l' = a + l) :
    t.inside hsize a l := by
  cases t with
  | elem b p =>
    obtain ⟨i1, i2, i3⟩ := h
    refine ⟨by omega, by omega, ?_⟩
    intro c k hp
    have := i3 c k hp
    exact ⟨this.1, this.2.1, by omega⟩
  | raw b k =>
    obtain ⟨i1, i2, i3⟩ := h
    exact ⟨by omega, by omega, i3⟩
  | bad b i =>
    obtain ⟨i1, i2⟩ := h
    exact ⟨by omega, by omega⟩
  | more => trivial
  | opened => trivial
  | next => trivial
  | closed => trivial

theorem payload_inside (hsize addr len n : Nat) (h : hsize ≤ len) :
    (Tok.elem addr (payloadOf hsize addr len n)).inside hsize addr len := by
  refine ⟨Nat.le_refl _, by omega, ?_⟩
  intro b k hp
  unfold payloadOf at hp
  split at hp
  · have e := Option.some.inj hp
    injection e with e1 e2
    refine ⟨by omega, e1.symm, by omega⟩
  · simp at hp

theorem walk (hsize : Nat) (align : Nat → Nat) (limit : Option Nat) (get : Nat → Option Nat)
    (hg : Good hsize align get) : ∀ fuel elt arr addr len, addr < 2 ^ 64 → len < fuel →
    ∃ ps : List Tok, nlLoop hsize align limit get fuel elt arr addr len = some (toks arr ps) ∧ ps ≠ [] ∧
      (∀ t ∈ ps, t.isPiece = true ∧ t.inside hsize addr len) ∧ ps.Pairwise (Tok.before hsize) ∧
      (∀ t ∈ ps.dropLast, t.isElem = true) := by
  intro fuel
  induction fuel with
  | zero => intro _ _ _ len _ h; exact absurd h (by omega)
  | succ fuel ih =>
    intro elt arr addr len ha hl
    unfold nlLoop
    by_cases h1 : len < hsize
    · refine ⟨[.raw addr len], by rw [if_pos h1, toks_one], by simp, ?_, by simp, by simp⟩
      intro t ht
      rw [List.mem_singleton] at ht
      subst ht
      exact ⟨rfl, Nat.le_refl _, rfl, h1⟩
    rw [if_neg h1]
    cases hget : get addr with
    | none =>
      refine ⟨[.bad addr arr], by rw [toks_one], by simp, ?_, by simp, by simp⟩
      intro t ht
      rw [List.mem_singleton] at ht
      subst ht
      exact ⟨rfl, Nat.le_refl _, by omega⟩
    | some n =>
      dsimp only
      by_cases h2 : over limit (elt + 1) = true
      · refine ⟨[.more], by rw [if_pos h2, toks_one], by simp, ?_, by simp, by simp⟩
        intro t ht
        rw [List.mem_singleton] at ht
        subst ht
        exact ⟨rfl, trivial⟩
      rw [if_neg h2]
      cases hn : nextHdr hsize addr len n (align n) with
      | none =>
        refine ⟨[.elem addr (payloadOf hsize addr len n)], by rw [toks_one], by simp, ?_, by simp, by simp⟩
        intro t ht
        rw [List.mem_singleton] at ht
        subst ht
        exact ⟨rfl, payload_inside hsize addr len n (by omega)⟩
      | some x =>
        obtain ⟨a, l⟩ := x
        dsimp only
        obtain ⟨c1, c2, c3, c4, c5, c6⟩ := nextHdr_some ha (hg.lt _ _ hget) hn
        have hup := hg.up _ _ hget
        obtain ⟨ps, e, hne, hin, hpw, hel⟩ := ih (elt + 1) true a l c5 (by omega)
        refine ⟨.elem addr (payloadOf hsize addr len n) :: ps, ?_, by simp, ?_, ?_, ?_⟩
        · rw [e, toks_cons arr _ ps hne]
          rfl
        · intro t ht
          rcases List.mem_cons.mp ht with ht | ht
          · subst ht
            exact ⟨rfl, payload_inside hsize addr len n (by omega)⟩
          · obtain ⟨g1, g2⟩ := hin t ht
            exact ⟨g1, inside_mono t g2 (by omega) (by omega)⟩
        · refine List.pairwise_cons.mpr ⟨?_, hpw⟩
          intro t ht a' p' he b hb
          injection he with he1 he2
          have hab : a ≤ b := by
            have := (hin t ht).2
            rcases hb with ⟨q, hb⟩ | ⟨k, hb⟩ | ⟨i, hb⟩
            · rw [hb] at this; exact this.1
            · rw [hb] at this; exact this.1
            · rw [hb] at this; exact this.1
          refine ⟨by omega, ?_⟩
          intro c k hp
          rw [← he2] at hp
          unfold payloadOf at hp
          split at hp
          · have e := Option.some.inj hp
            injection e with e1 e2
            omega
          · simp at hp
        · intro t ht
          rw [List.dropLast_cons_of_ne_nil hne] at ht
          rcases List.mem_cons.mp ht with ht | ht
          · subst ht; rfl
          · exact hel t ht

theorem nlLoop_more (hsize : Nat) (align : Nat → Nat) (limit : Option Nat) (get : Nat → Option Nat) :
    ∀ fuel elt arr addr len r, nlLoop hsize align limit get fuel elt arr addr len = some r →
      nlLoop hsize align limit get (fuel + 1) elt arr addr len = some r := by
  intro fuel
  induction fuel with
  | zero => intro _ _ _ _ _ h; simp [nlLoop] at h
  | succ fuel ih =>
    intro elt arr addr len r h
    unfold nlLoop at h ⊢
    by_cases h1 : len < hsize
    · rw [if_pos h1] at h ⊢; exact h
    rw [if_neg h1] at h ⊢
    cases hget : get addr with
    | none => rw [hget] at h; exact h
    | some n =>
      rw [hget] at h
      dsimp only at h ⊢
      by_cases h2 : over limit (elt + 1) = true
      · rw [if_pos h2] at h ⊢; exact h
      rw [if_neg h2] at h ⊢
      cases hn : nextHdr hsize addr len n (align n) with
      | none => rw [hn] at h; exact h
      | some x =>
        rw [hn] at h
        obtain ⟨a, l⟩ := x
        dsimp only at h ⊢
        cases hr : nlLoop hsize align limit get fuel (elt + 1) true a l with
        | none => rw [hr] at h; simp at h
        | some t =>
          rw [hr] at h
          rw [ih _ _ _ _ _ hr]
          exact h

/-- the walk ends after at most as many rounds as there are bytes -/
theorem walk_ends (hsize : Nat) (align : Nat → Nat) (limit : Option Nat) (get : Nat → Option Nat)
    (hg : Good hsize align get) (addr len : Nat) (ha : addr < 2 ^ 64) :
    ∃ ps : List Tok, (∀ fuel, len < fuel → nlLoop hsize align limit get fuel 0 false addr len = some (shown ps)) ∧
      ps ≠ [] ∧ (∀ t ∈ ps, t.isPiece = true ∧ t.inside hsize addr len) ∧ ps.Pairwise (Tok.before hsize) ∧
      (∀ t ∈ ps.dropLast, t.isElem = true) := by
  obtain ⟨ps, e, h⟩ := walk hsize align limit get hg (len + 1) 0 false addr len ha (by omega)
  refine ⟨ps, ?_, h⟩
  intro fuel hf
  obtain ⟨d, rfl⟩ := Nat.exists_eq_add_of_lt hf
  clear hf
  induction d with
  | zero => exact e
  | succ d ih => exact nlLoop_more _ _ _ _ _ _ _ _ _ _ ih

theorem nlmsg_good (get : Nat → Option Nat) (h : ∀ a n, get a = some n → n < 2 ^ 32) : Good 16 nlmsgAlign get := by
  refine ⟨by decide, ?_, ?_⟩
  · intro a n hn
    have := h a n hn
    unfold nlmsgAlign
    omega
  · intro a n _
    unfold nlmsgAlign
    omega

theorem nla_good (get : Nat → Option Nat) (h : ∀ a n, get a = some n → n < 2 ^ 16) : Good 4 nlaAlign get := by
  refine ⟨by decide, ?_, ?_⟩
  · intro a n hn
    unfold nlaAlign
    omega
  · intro a n hn
    have := h a n hn
    unfold nlaAlign
    omega

/-- C32: decoding netlink messages ends, whatever is in the buffer, and whatever of it can be read; everything shown lies
inside of the buffer, one thing after the other; only the last thing can be something else than a message -/
theorem netlink_walk (limit : Option Nat) (get : Nat → Option Nat) (hget : ∀ a n, get a = some n → n < 2 ^ 32)
    (addr len : Nat) (ha : addr < 2 ^ 64) :
    ∃ ps : List Tok, (∀ fuel, len < fuel → decodeNetlink limit get fuel addr len = some (shown ps)) ∧
      ps ≠ [] ∧ (∀ t ∈ ps, t.isPiece = true ∧ t.inside 16 addr len) ∧ ps.Pairwise (Tok.before 16) ∧
      (∀ t ∈ ps.dropLast, t.isElem = true) :=
  walk_ends 16 nlmsgAlign limit get (nlmsg_good get hget) addr len ha

/-- C33: the same for attributes -/
theorem nlattr_walk (limit : Option Nat) (get : Nat → Option Nat) (hget : ∀ a n, get a = some n → n < 2 ^ 16)
    (addr len : Nat) (ha : addr < 2 ^ 64) :
    ∃ ps : List Tok, (∀ fuel, len < fuel → decodeNlattr limit get fuel addr len = some (shown ps)) ∧
      ps ≠ [] ∧ (∀ t ∈ ps, t.isPiece = true ∧ t.inside 4 addr len) ∧ ps.Pairwise (Tok.before 4) ∧
      (∀ t ∈ ps.dropLast, t.isElem = true) :=
  walk_ends 4 nlaAlign limit get (nla_good get hget) addr len ha

/-! ### Well-formed buffers are shown in full -/

/-- the least multiple of 4 not less than `n` -/
def up4 (n : Nat) : Nat := 4 * ((n + 3) / 4)

/-- records of the given lengths follow each other from `a` on, each at a multiple of 4 from the first -/
def Layout (get : Nat → Option Nat) : Nat → List Nat → Prop
  | _, [] => True
  | a, n :: ns => get a = some n ∧ Layout get (a + up4 n) ns

/-- the number of bytes from the beginning of the first to the end of the last -/
def total : List Nat → Nat
  | [] => 0
  | [n] => n
  | n :: m :: ns => up4 n + total (m :: ns)

/-- each record with its payload -/
def records (hsize : Nat) : Nat → List Nat → List Tok
  | _, [] => []
  | a, n :: ns => .elem a (if n > hsize then some (a + hsize, n - hsize) else none) :: records hsize (a + up4 n) ns

/-- all of them, or the first `m` and then dots -/
def limited (hsize : Nat) (limit : Option Nat) (a : Nat) (ns : List Nat) : List Tok :=
  match limit with
  | none => records hsize a ns
  | some m => if ns.length ≤ m then records hsize a ns else (records hsize a ns).take m ++ [.more]

theorem layout_loop (hsize : Nat) (align : Nat → Nat) (limit : Option Nat) (get : Nat → Option Nat) (big : Nat)
    (hal : ∀ n, n < big → align n = up4 n) (hpos : 0 < hsize) (pad : Nat) (hpad : pad < 4) :
    ∀ (ns : List Nat) (a : Nat) (arr : Bool) (elt : Nat), ns ≠ [] → (∀ n ∈ ns, hsize ≤ n ∧ n < big) →
      Layout get a ns → (∀ n, ns.getLast? = some n → n + pad ≤ up4 n) → a + total ns + 4 < 2 ^ 64 →
      nlLoop hsize align limit get (total ns + pad + 1) elt arr a (total ns + pad) =
        some (toks arr (match limit with
          | none => records hsize a ns
          | some m => if elt + ns.length ≤ m then records hsize a ns
                      else (records hsize a ns).take (m - elt) ++ [.more])) := by
  intro ns
  induction ns with
  | nil => intro _ _ _ h; exact absurd rfl h
  | cons n ns ih =>
    intro a arr elt _ hall hlay hlast hbound
    obtain ⟨hn1, hn2⟩ := hall n List.mem_cons_self
    obtain ⟨hg, hlay'⟩ := hlay
    have htot : n ≤ total (n :: ns) := by
      cases ns with
      | nil => exact Nat.le_refl _
      | cons m ns => simp only [total, up4]; omega
    have hov : over limit (elt + 1) = true ↔ ∃ m, limit = some m ∧ m ≤ elt := by
      cases limit with
      | none => simp [over]
      | some m => simp [over]; omega
    have hstep : nlLoop hsize align limit get (total (n :: ns) + pad + 1) elt arr a (total (n :: ns) + pad) =
        if over limit (elt + 1) = true then some (.more :: fin arr)
        else match nextHdr hsize a (total (n :: ns) + pad) n (up4 n) with
          | none => some (.elem a (payloadOf hsize a (total (n :: ns) + pad) n) :: fin arr)
          | some (a', l) =>
            (nlLoop hsize align limit get (total (n :: ns) + pad) (elt + 1) true a' l).map fun t =>
              (if arr = true then [] else [.opened]) ++
                .elem a (payloadOf hsize a (total (n :: ns) + pad) n) :: .next :: t := by
      conv => lhs; unfold nlLoop
      rw [if_neg (by omega), hg]
      dsimp only
      rw [hal n hn2]
      rfl
    rw [hstep]
    have hpay : payloadOf hsize a (total (n :: ns) + pad) n =
        if n > hsize then some (a + hsize, n - hsize) else none := by
      unfold payloadOf add64
      have : min n (total (n :: ns) + pad) = n := by omega
      rw [this, Nat.mod_eq_of_lt (by omega)]
    rw [hpay]
    by_cases ho : over limit (elt + 1) = true
    · rw [if_pos ho]
      obtain ⟨m, hm, hle⟩ := hov.mp ho
      subst hm
      dsimp only
      rw [if_neg (by simp only [List.length_cons]; omega)]
      have : m - elt = 0 := by omega
      rw [this, List.take_zero, List.nil_append, toks_one]
    rw [if_neg ho]
    cases hns : ns with
    | nil =>
      subst hns
      have hnx : nextHdr hsize a (total [n] + pad) n (up4 n) = none := by
        unfold nextHdr
        rw [if_neg]
        intro hc
        have h1 := hc.2.1
        have h2 := hlast n rfl
        rw [nextLen_eq] at h1
        simp only [total] at h1
        omega
      rw [hnx]
      dsimp only
      have hrec : records hsize a [n] = [.elem a (if n > hsize then some (a + hsize, n - hsize) else none)] := rfl
      cases limit with
      | none =>
        dsimp only
        rw [hrec, toks_one]
      | some m =>
        dsimp only
        have : ¬ m ≤ elt := fun h => ho (hov.mpr ⟨m, rfl, h⟩)
        have hle : elt + [n].length ≤ m := by simp only [List.length_cons, List.length_nil]; omega
        rw [if_pos hle, hrec, toks_one]
    | cons k ns' =>
      have htot2 : total (n :: ns) = up4 n + total ns := by rw [hns]; rfl
      have hk : 0 < total ns := by
        have hkm := hall k (by rw [hns]; simp)
        rw [hns]
        cases ns' with
        | nil => simp only [total]; omega
        | cons j ns'' => simp only [total, up4]; omega
      have hu : n ≤ up4 n := by unfold up4; omega
      rw [← hns]
      have hnx : nextHdr hsize a (total (n :: ns) + pad) n (up4 n) = some (a + up4 n, total ns + pad) := by
        have hadd : add64 a (up4 n) = a + up4 n := by
          unfold add64
          exact Nat.mod_eq_of_lt (by omega)
        unfold nextHdr
        rw [nextLen_eq, if_pos, hadd, htot2]
        · congr 2; omega
        · refine ⟨hn1, by omega, by rw [hadd]; omega⟩
      rw [hnx]
      dsimp only
      have hne : ns ≠ [] := by rw [hns]; simp
      have ih' := ih (a + up4 n) true (elt + 1) hne (fun x hx => hall x (List.mem_cons_of_mem _ hx)) hlay'
        (fun x hx => hlast x (by rw [hns] at hx ⊢; simpa using hx)) (by omega)
      have hfuel : nlLoop hsize align limit get (total (n :: ns) + pad) (elt + 1) true (a + up4 n) (total ns + pad) =
          nlLoop hsize align limit get (total ns + pad + 1) (elt + 1) true (a + up4 n) (total ns + pad) := by
        have : total (n :: ns) + pad = total ns + pad + 1 + (up4 n - 1) := by omega
        rw [this, ih']
        generalize up4 n - 1 = d
        induction d with
        | zero => exact ih'
        | succ d ihd => exact nlLoop_more _ _ _ _ _ _ _ _ _ _ ihd
      rw [hfuel, ih']
      have hrec : records hsize a (n :: ns) =
          .elem a (if n > hsize then some (a + hsize, n - hsize) else none) :: records hsize (a + up4 n) ns := rfl
      have hrne : records hsize (a + up4 n) ns ≠ [] := by rw [hns]; simp [records]
      cases limit with
      | none =>
        dsimp only
        rw [hrec, toks_cons arr _ _ hrne]
        rfl
      | some m =>
        dsimp only
        have hgt : ¬ m ≤ elt := fun h => ho (hov.mpr ⟨m, rfl, h⟩)
        by_cases hm : elt + (n :: ns).length ≤ m
        · have hm2 : elt + 1 + ns.length ≤ m := by simp only [List.length_cons] at hm; omega
          rw [if_pos hm, if_pos hm2, hrec, toks_cons arr _ _ hrne]
          rfl
        · have hm2 : ¬ elt + 1 + ns.length ≤ m := by simp only [List.length_cons] at hm; omega
          rw [if_neg hm, if_neg hm2]
          obtain ⟨d, hd⟩ : ∃ d, m - elt = d + 1 := ⟨m - elt - 1, by omega⟩
          have hd2 : m - (elt + 1) = d := by omega
          rw [hd, hd2, hrec, List.take_succ_cons, List.cons_append, toks_cons arr _ _ (by simp)]
          rfl

/-- C32: a buffer of whole messages, each rounded up to a multiple of 4, is shown as exactly these, the payloads being
all that follows the headers; if there are more than the limit allows, the first ones and dots -/
theorem netlink_all (limit : Option Nat) (get : Nat → Option Nat) (a pad : Nat) (ns : List Nat) (hne : ns ≠ [])
    (hall : ∀ n ∈ ns, 16 ≤ n ∧ n < 2 ^ 32 - 3) (hlay : Layout get a ns)
    (hpad : ∀ n, ns.getLast? = some n → n + pad ≤ up4 n) (hb : a + total ns + 4 < 2 ^ 64) :
    decodeNetlink limit get (total ns + pad + 1) a (total ns + pad) = some (shown (limited 16 limit a ns)) := by
  have hp : pad < 4 := by
    obtain ⟨n, hn⟩ : ∃ n, ns.getLast? = some n := ⟨ns.getLast hne, List.getLast?_eq_some_getLast hne⟩
    have := hpad n hn
    unfold up4 at this
    omega
  have := layout_loop 16 nlmsgAlign limit get (2 ^ 32 - 3)
    (by intro n hn; unfold nlmsgAlign up4; omega) (by decide) pad hp ns a false 0 hne hall hlay hpad hb
  unfold decodeNetlink
  rw [this]
  cases limit with
  | none => rfl
  | some m => simp [limited, toks]

/-- C33: the same for attributes -/
theorem nlattr_all (limit : Option Nat) (get : Nat → Option Nat) (a pad : Nat) (ns : List Nat) (hne : ns ≠ [])
    (hall : ∀ n ∈ ns, 4 ≤ n ∧ n < 2 ^ 16) (hlay : Layout get a ns)
    (hpad : ∀ n, ns.getLast? = some n → n + pad ≤ up4 n) (hb : a + total ns + 4 < 2 ^ 64) :
    decodeNlattr limit get (total ns + pad + 1) a (total ns + pad) = some (shown (limited 4 limit a ns)) := by
  have hp : pad < 4 := by
    obtain ⟨n, hn⟩ : ∃ n, ns.getLast? = some n := ⟨ns.getLast hne, List.getLast?_eq_some_getLast hne⟩
    have := hpad n hn
    unfold up4 at this
    omega
  have := layout_loop 4 nlaAlign limit get (2 ^ 16)
    (by intro n hn; unfold nlaAlign up4; omega) (by decide) pad hp ns a false 0 hne hall hlay hpad hb
  unfold decodeNlattr
  rw [this]
  cases limit with
  | none => rfl
  | some m => simp [limited, toks]

/-- C33: the decoder used for an attribute is the one for its type, and is one of those given -/
theorem decoder_choice (size type : Nat) (given : Nat → Bool) (i : Nat) :
    decoderFor size type given = some i ↔
      given i = true ∧ (if size = 0 ∨ size = 2 ^ 32 - 1 then i = 0 else i = type % 2 ^ 14 ∧ i < size) := by
  unfold decoderFor
  by_cases h0 : size = 0 ∨ size = 2 ^ 32 - 1
  · rw [if_pos h0]
    have hc : ¬ (decide (size ≠ 2 ^ 32 - 1) = true ∧ size ≠ 0) := by
      rw [decide_eq_true_eq]; omega
    have hc2 : ¬ (decide (size ≠ 2 ^ 32 - 1) = true ∧ size ≠ 0 ∧ 0 ≥ size) := by omega
    simp only [if_neg hc, if_neg hc2]
    constructor
    · intro h
      split at h
      · rename_i hg
        have := Option.some.inj h
        subst this
        exact ⟨hg, rfl⟩
      · simp at h
    · rintro ⟨hg, rfl⟩
      rw [if_pos hg]
  · rw [if_neg h0]
    have hc : decide (size ≠ 2 ^ 32 - 1) = true ∧ size ≠ 0 := by
      rw [decide_eq_true_eq]; omega
    simp only [if_pos hc]
    constructor
    · intro h
      split at h
      · simp at h
      · rename_i hn
        split at h
        · rename_i hg
          have := Option.some.inj h
          subst this
          refine ⟨hg, rfl, ?_⟩
          rcases Nat.lt_or_ge (type % 2 ^ 14) size with h | h
          · exact h
          · exact absurd ⟨hc.1, hc.2, h⟩ hn
        · simp at h
    · rintro ⟨hg, rfl, hlt⟩
      rw [if_neg (by omega), if_pos hg]

/-! ### Examples -/

/-- three messages at 1000, the last one not padded -/
def exGet (a : Nat) : Option Nat :=
  if a = 1000 then some 17 else if a = 1020 then some 16 else if a = 1036 then some 22 else none

example : Layout exGet 1000 [17, 16, 22] ∧ total [17, 16, 22] = 58 ∧ (∀ a n, exGet a = some n → n < 2 ^ 32) ∧
    decodeNetlink none exGet 59 1000 58 =
      some [.opened, .elem 1000 (some (1016, 1)), .next, .elem 1020 none, .next, .elem 1036 (some (1052, 6)), .closed] ∧
    decodeNetlink (some 2) exGet 59 1000 58 =
      some [.opened, .elem 1000 (some (1016, 1)), .next, .elem 1020 none, .next, .more, .closed] := by
  refine ⟨by simp [Layout, exGet, up4], by decide, ?_, by decide +kernel, by decide +kernel⟩
  intro a n h
  unfold exGet at h
  repeat' split at h
  all_goals first | (injection h with h; omega) | simp at h

/-- a length that is rounded to 0 ends the walk; so does the end of the address space -/
example : decodeNetlink none (fun _ => some (2 ^ 32 - 1)) 101 1000 100 = some [.elem 1000 (some (1016, 84))] ∧
    decodeNetlink none (fun _ => some 16) 101 (2 ^ 64 - 16) 100 = some [.elem (2 ^ 64 - 16) none] ∧
    decodeNlattr none (fun _ => some 3) 11 1000 10 = some [.elem 1000 none] := by decide +kernel

end Strace.Walk
