import Verif.UCopy.Spec
namespace Strace.UCopy

theorem run_spec (mem : Mem) (a n : Nat) :
    At mem a (run mem a n) ∧ (run mem a n).length ≤ n ∧
      ((run mem a n).length < n → mem (a + (run mem a n).length) = none) := by
  induction n generalizing a with
  | zero => exact ⟨fun i h => by simp [run] at h, by simp [run], by simp [run]⟩
  | succ n ih =>
    unfold run
    split
    · rename_i h
      exact ⟨fun i h => by simp at h, by simp, by simpa using h⟩
    · rename_i b h
      obtain ⟨h1, h2, h3⟩ := ih (a + 1)
      refine ⟨?_, by simpa using h2, ?_⟩
      · intro i hi
        cases i with
        | zero => simpa using h
        | succ i =>
          have := h1 i (by simpa using hi)
          rw [List.getElem?_cons_succ, ← this, Nat.add_right_comm, Nat.add_assoc]
      · intro hl
        rw [List.length_cons] at hl ⊢
        rw [← h3 (by omega), Nat.add_right_comm, Nat.add_assoc]

theorem At_append {mem : Mem} {a : Nat} {l m : List Nat} (h1 : At mem a l) (h2 : At mem (a + l.length) m) :
    At mem a (l ++ m) := by
  intro i hi
  rw [List.length_append] at hi
  by_cases h : i < l.length
  · rw [List.getElem?_append_left h]; exact h1 i h
  · rw [List.getElem?_append_right (by omega), ← h2 (i - l.length) (by omega)]
    congr 1; omega

theorem At_drop_take {mem : Mem} {a : Nat} {l : List Nat} (h : At mem a l) (d n : Nat) :
    At mem (a + d) ((l.drop d).take n) := by
  intro i hi
  rw [List.length_take, List.length_drop] at hi
  rw [List.getElem?_take, if_pos (by omega), List.getElem?_drop, ← h (d + i) (by omega), Nat.add_assoc]

theorem At_take {mem : Mem} {a : Nat} {l : List Nat} (h : At mem a l) (n : Nat) : At mem a (l.take n) := by
  have := At_drop_take h 0 n
  simpa using this

theorem At_nil (mem : Mem) (a : Nat) : At mem a [] := fun i h => by simp at h

theorem At_some {mem : Mem} {a : Nat} {l : List Nat} (h : At mem a l) {i : Nat} (hi : i < l.length) :
    mem (a + i) ≠ none := by
  rw [h i hi, List.getElem?_eq_getElem hi]; simp

theorem Sizes.wpos {P W : Nat} (h : Sizes P W) : 0 < W := by rcases h.W with h | h <;> omega

theorem Sizes.ppos {P W : Nat} (h : Sizes P W) : 8 ≤ P ∧ P ≤ 2 ^ 32 := by
  obtain ⟨p, h1, h2, h3⟩ := h.P
  rw [h3]
  exact ⟨Nat.pow_le_pow_right (n := 2) (i := 3) (by omega) h1, Nat.pow_le_pow_right (by omega) h2⟩

theorem Sizes.dvd {P W : Nat} (h : Sizes P W) : W ∣ P := by
  obtain ⟨p, h1, h2, h3⟩ := h.P
  have h8 : (8 : Nat) ∣ P := by
    rw [h3, show (8 : Nat) = 2 ^ 3 from rfl]; exact Nat.pow_dvd_pow 2 h1
  rcases h.W with h | h
  · subst h; exact Nat.dvd_trans ⟨2, rfl⟩ h8
  · subst h; exact h8

theorem Sizes.dvd64 {P W : Nat} (h : Sizes P W) : P ∣ 2 ^ 64 := by
  obtain ⟨p, h1, h2, h3⟩ := h.P
  rw [h3]; exact Nat.pow_dvd_pow 2 (by omega)

theorem pageOf_mod (P x : Nat) : pageOf P x % P = 0 := by
  unfold pageOf
  have := Nat.mod_add_div x P
  have e : x - x % P = P * (x / P) := by omega
  rw [e, Nat.mul_mod_right]

theorem pageOf_le (P x : Nat) : pageOf P x ≤ x := by unfold pageOf; omega

theorem pageOf_add {P : Nat} (_ : 0 < P) {q i : Nat} (hq : q % P = 0) (hi : i < P) : pageOf P (q + i) = q := by
  unfold pageOf
  rw [Nat.add_mod, hq, Nat.zero_add, Nat.mod_mod, Nat.mod_eq_of_lt hi]
  omega

theorem pageOf_lt {P : Nat} (hP : 0 < P) (x : Nat) : x < pageOf P x + P := by
  unfold pageOf
  have := Nat.mod_lt x hP
  have := Nat.mod_le x P
  omega

/-- multiples of `P` are `P` apart -/
theorem mult_step {P a b : Nat} (ha : a % P = 0) (hb : b % P = 0) (h : a < b) : a + P ≤ b := by
  obtain ⟨m, rfl⟩ := Nat.dvd_of_mod_eq_zero ha
  obtain ⟨n, rfl⟩ := Nat.dvd_of_mod_eq_zero hb
  have : m < n := Nat.lt_of_mul_lt_mul_left h
  calc P * m + P = P * (m + 1) := by rw [Nat.mul_add, Nat.mul_one]
    _ ≤ P * n := Nat.mul_le_mul_left P this

theorem Paged.same {P : Nat} {mem : Mem} (h : Paged P mem) {a b : Nat} (hab : pageOf P a = pageOf P b) :
    mem a = none ↔ mem b = none := by
  rw [h.page a, h.page b]
  unfold pageOf at hab
  rw [hab]

/-- all of a page is accessible if any byte is -/
theorem Paged.full {P : Nat} {mem : Mem} (h : Paged P mem) (hP : 0 < P) {q : Nat} (hq : q % P = 0)
    (hne : run mem q P ≠ []) : (run mem q P).length = P := by
  obtain ⟨h1, h2, h3⟩ := run_spec mem q P
  have hpos := List.length_pos_iff.mpr hne
  rcases Nat.lt_or_ge (run mem q P).length P with hl | hl
  · exfalso
    have h0 := At_some h1 hpos
    exact h0 ((h.same (by rw [pageOf_add hP hq hl, pageOf_add hP hq hP])).mp (h3 hl))
  · omega

/-! ### the cache -/

/-- every page the cache may return is the tracee's -/
structure Inv (P : Nat) (s : Sys) : Prop where
  nr : s.raddr.length = NC
  nb : s.buf.length = NC
  idx : ∀ c, s.idx = some c → c < NC
  page : ∀ c, s.idx = some c → ∀ i, i < NC → ∀ q, s.raddr[i]? = some q → q ≠ 0 →
    ∃ b, s.buf[i]? = some b ∧ b.length = P ∧ At s.mem q b

/-- what reads leave alone -/
structure Keeps (s s' : Sys) : Prop where
  mem : s'.mem = s.mem
  oracle : s'.oracle = s.oracle
  quota : s'.quota = s.quota
  calls : s.calls ≤ s'.calls

theorem Keeps.refl (s : Sys) : Keeps s s := ⟨rfl, rfl, rfl, Nat.le_refl _⟩
theorem Keeps.trans {a b c : Sys} (h : Keeps a b) (k : Keeps b c) : Keeps a c :=
  ⟨k.mem.trans h.mem, k.oracle.trans h.oracle, k.quota.trans h.quota, Nat.le_trans h.calls k.calls⟩
theorem Keeps.willing {a b : Sys} (h : Keeps a b) (w : Willing a) : Willing b := fun k hk => by
  rw [h.oracle]; exact w k (Nat.le_trans h.calls hk)

/-- states that differ only in the number of calls and in what is supported -/
structure Same (s s' : Sys) : Prop extends Keeps s s' where
  idx : s'.idx = s.idx
  raddr : s'.raddr = s.raddr
  buf : s'.buf = s.buf

theorem Same.inv {P : Nat} {s s' : Sys} (h : Same s s') (hi : Inv P s) : Inv P s' := by
  refine ⟨by rw [h.raddr]; exact hi.nr, by rw [h.buf]; exact hi.nb, by rw [h.idx]; exact hi.idx, ?_⟩
  rw [h.idx, h.raddr, h.buf, h.mem]; exact hi.page

theorem processRead_spec (s : Sys) (addr len : Nat) (hlen : len ≠ 0) :
    ∃ s' r, processRead s addr len = (s', r) ∧ Same s s' ∧
      (∀ l, r = .ok l → l = run s.mem addr len ∧ l ≠ []) ∧
      (∀ e, r = .fail e → Willing s → s.mem addr = none) := by
  unfold processRead readv
  have hw : ∀ h : s.mem addr ≠ none, run s.mem addr len ≠ [] := by
    intro h
    cases len with
    | zero => omega
    | succ n =>
      unfold run
      split
      · rename_i h'; exact absurd h' h
      · simp
  cases ho : s.oracle s.calls with
  | some e =>
    refine ⟨_, _, rfl, ⟨⟨rfl, rfl, rfl, Nat.le_succ _⟩, rfl, rfl, rfl⟩, fun l h => (by simp at h), fun e' _ hwl => ?_⟩
    rw [hwl s.calls (Nat.le_refl _)] at ho; simp at ho
  | none =>
    by_cases hc : len ≠ 0 ∧ run s.mem addr len = []
    · simp only [if_pos hc]
      refine ⟨_, _, rfl, ⟨⟨rfl, rfl, rfl, Nat.le_succ _⟩, rfl, rfl, rfl⟩, fun l h => (by simp at h), fun e' _ _ => ?_⟩
      by_cases h : s.mem addr = none
      · exact h
      · exact absurd hc.2 (hw h)
    · simp only [if_neg hc]
      refine ⟨_, _, rfl, ⟨⟨rfl, rfl, rfl, Nat.le_succ _⟩, rfl, rfl, rfl⟩, fun l h => ?_, fun e' h => (by simp at h)⟩
      injection h with h
      subst h
      exact ⟨rfl, fun h => hc ⟨hlen, h⟩⟩

theorem nextIdx_lt {P : Nat} {s : Sys} (h : Inv P s) : nextIdx s < NC := by
  unfold nextIdx
  cases s.idx with
  | none => show 0 < 4; omega
  | some i => exact Nat.mod_lt _ (by show 0 < 4; omega)

theorem mem_order {c i : Nat} (hc : c < NC) (h : i ∈ order c) : i < NC := by
  unfold order at h
  simp only [List.mem_append, List.mem_reverse, List.mem_range, List.mem_filter] at h
  omega

theorem fetch_spec {P W : Nat} (hz : Sizes P W) (s : Sys) (hi : Inv P s) (hp : Paged P s.mem) (page : Nat)
    (h0 : page ≠ 0) (hm : page % P = 0) :
    ∃ s' r, fetch P s page = some (s', r) ∧ Keeps s s' ∧ Inv P s' ∧
      (∀ l, r = .ok l → l.length = P ∧ At s.mem page l) ∧
      (∀ e, r = .fail e → Willing s → s.mem page = none) := by
  have hP := hz.ppos
  unfold fetch
  cases hl : lookup s page with
  | some i =>
    unfold lookup at hl
    cases hx : s.idx with
    | none => rw [hx] at hl; simp at hl
    | some c =>
      rw [hx] at hl
      simp only at hl
      have hlt : i < NC := mem_order (hi.idx c hx) (List.mem_of_find?_eq_some hl)
      have hq := List.find?_some hl
      simp only [decide_eq_true_eq] at hq
      obtain ⟨b, hb1, hb2, hb3⟩ := hi.page c hx i hlt page hq h0
      simp only [hb1]
      refine ⟨_, _, rfl, Keeps.refl s, hi, fun l h => ?_, fun e h => (by simp at h)⟩
      injection h with h
      subst h
      exact ⟨hb2, hb3⟩
  | none =>
    obtain ⟨s', r, h1, h2, h3, h4⟩ := processRead_spec s page P (by omega)
    simp only [h1]
    cases r with
    | fail e => exact ⟨_, _, rfl, h2.toKeeps, h2.inv hi, fun l h => (by simp at h), h4⟩
    | ok l =>
      simp only
      have hn := nextIdx_lt hi
      rw [if_pos hn]
      obtain ⟨hl1, hl2⟩ := h3 l rfl
      have hlen : l.length = P := by rw [hl1]; exact hp.full (by omega) hm (by rw [← hl1]; exact hl2)
      have hat : At s.mem page l := by rw [hl1]; exact (run_spec s.mem page P).1
      refine ⟨_, _, rfl, ⟨h2.mem, h2.oracle, h2.quota, h2.calls⟩, ?_, fun l' h => ?_, fun e h => (by simp at h)⟩
      · have hcl : (clearedRaddr s').length = NC := by
          unfold clearedRaddr
          cases s'.idx with
          | none => simp
          | some _ => simp only; rw [h2.raddr]; exact hi.nr
        refine ⟨by simp [setCached, hcl], by simp [setCached, h2.buf, hi.nb], ?_, ?_⟩
        · intro c hc
          simp only [setCached, Option.some.injEq] at hc
          omega
        · intro c _ i hilt q hq hq0
          simp only [setCached] at hq ⊢
          by_cases hii : nextIdx s = i
          · subst hii
            rw [List.getElem?_set_self (by omega)] at hq
            rw [List.getElem?_set_self (by rw [h2.buf, hi.nb]; omega)]
            injection hq with hq
            subst hq
            exact ⟨l, rfl, hlen, by rw [h2.mem]; exact hat⟩
          · rw [List.getElem?_set_ne hii] at hq ⊢
            unfold clearedRaddr at hq
            rw [h2.idx] at hq
            cases hx : s.idx with
            | none =>
              rw [hx] at hq
              simp only at hq
              rw [List.getElem?_replicate, if_pos hilt] at hq
              injection hq with hq
              omega
            | some c' =>
              rw [hx] at hq
              simp only at hq
              rw [h2.raddr] at hq
              rw [h2.buf, h2.mem]
              exact hi.page c' hx i hilt q hq hq0
      · injection h with h
        subst h
        exact ⟨hlen, hat⟩

/-- what a read of `len` bytes at `addr` may return -/
structure ReadOk (s : Sys) (addr len : Nat) (r : Res) : Prop where
  ok : ∀ l, r = .ok l → At s.mem addr l ∧ l.length ≤ len ∧ 0 < l.length ∧
    (Willing s → l.length < len → s.mem (addr + l.length) = none)
  fail : ∀ e, r = .fail e → Willing s → s.mem addr = none

theorem readLoop_spec {P W : Nat} (hz : Sizes P W) (n : Nat) (s : Sys) (hi : Inv P s) (hp : Paged P s.mem)
    (page taddr len : Nat) (acc : List Nat) (addr0 : Nat)
    (hn : len ≤ n) (hlen : 0 < len) (h0 : page ≠ 0) (hm : page % P = 0) (h1 : page ≤ taddr) (h2 : taddr < page + P)
    (htop : taddr + len ≤ 2 ^ 64) (hacc : At s.mem addr0 acc) (haddr : addr0 + acc.length = taddr)
     :
    ∃ s' r, readLoop P n s page taddr len acc = some (s', r) ∧ Keeps s s' ∧ Inv P s' ∧
      ReadOk s addr0 (acc.length + len) r := by
  have hP := hz.ppos
  induction n generalizing s page taddr len acc with
  | zero => omega
  | succ n ih =>
    obtain ⟨s', r, hf, hk, hi', hok, hfail⟩ := fetch_spec hz s hi hp page h0 hm
    have hsame : s.mem taddr = none ↔ s.mem page = none := by
      apply hp.same
      have := pageOf_add (P := P) (by omega) hm (i := taddr - page) (by omega)
      rw [show page + (taddr - page) = taddr from by omega] at this
      have := pageOf_add (P := P) (by omega) hm (i := 0) (by omega)
      simp_all
    unfold readLoop
    rw [hf]
    cases r with
    | fail e =>
      simp only
      refine ⟨_, _, rfl, hk, hi', ?_, ?_⟩
      · intro l hl
        by_cases ha : acc.length ≠ 0
        · rw [if_pos ha] at hl
          injection hl with hl
          subst hl
          refine ⟨hacc, by omega, by omega, fun hw _ => ?_⟩
          rw [haddr]
          exact hsame.mpr (hfail e rfl hw)
        · rw [if_neg ha] at hl; simp at hl
      · intro e' he hw
        by_cases ha : acc.length ≠ 0
        · rw [if_pos ha] at he; simp at he
        · have h0 : addr0 = taddr := by omega
          rw [h0]
          exact hsame.mpr (hfail e rfl hw)
    | ok b =>
      simp only
      obtain ⟨hb1, hb2⟩ := hok b rfl
      have hpart : ∀ m, At s.mem (addr0 + acc.length) ((b.drop (taddr - page)).take m) := by
        intro m
        have := At_drop_take hb2 (taddr - page) m
        rwa [show page + (taddr - page) = addr0 + acc.length from by omega] at this
      by_cases hc : len ≤ P - (taddr - page)
      · rw [if_pos hc]
        have hlen2 : ((b.drop (taddr - page)).take len).length = len := by
          rw [List.length_take, List.length_drop, hb1]; omega
        refine ⟨_, _, rfl, hk, hi', ?_, fun e h => (by simp at h)⟩
        intro l hl
        injection hl with hl
        subst hl
        rw [List.length_append, hlen2]
        exact ⟨At_append hacc (hpart len), by omega, by omega, fun _ h => absurd h (by omega)⟩
      · rw [if_neg hc]
        have hlen2 : ((b.drop (taddr - page)).take (P - (taddr - page))).length = P - (taddr - page) := by
          rw [List.length_take, List.length_drop, hb1]; omega
        have hmod : (page + P) % 2 ^ 64 = page + P := Nat.mod_eq_of_lt (by omega)
        rw [hmod]
        obtain ⟨s2, r2, e1, e2, e3, e4⟩ := ih s' hi' (by rw [hk.mem]; exact hp) (page + P) (page + P)
          (len - (P - (taddr - page))) (acc ++ (b.drop (taddr - page)).take (P - (taddr - page)))
          (by omega) (by omega) (by omega) (by rw [Nat.add_mod, hm]; simp) (Nat.le_refl _) (by omega) (by omega)
          (by rw [hk.mem]; exact At_append hacc (hpart _))
          (by rw [List.length_append, hlen2]; omega)
        rw [List.length_append, hlen2] at e4
        refine ⟨s2, r2, e1, hk.trans e2, e3, ?_, ?_⟩
        · intro l hl
          obtain ⟨a1, a2, a3, a4⟩ := e4.ok l hl
          rw [hk.mem] at a1 a4
          refine ⟨a1, by omega, a3, fun hw h => a4 (hk.willing hw) (by omega)⟩
        · intro e he hw
          have := e4.fail e he (hk.willing hw)
          rwa [hk.mem] at this

theorem vmRead_spec {P W : Nat} (hz : Sizes P W) (s : Sys) (hi : Inv P s) (hp : Paged P s.mem)
    (addr len : Nat) (hlen : len ≠ 0) (ha : addr < 2 ^ 64) (hl : len < 2 ^ 32) :
    ∃ s' r, vmRead P s addr len = some (s', r) ∧ Keeps s s' ∧ Inv P s' ∧ ReadOk s addr len r := by
  have hP := hz.ppos
  unfold vmRead
  rw [if_neg hlen]
  split
  · obtain ⟨s', r, h1, h2, h3, h4⟩ := processRead_spec s addr len hlen
    rw [h1]
    refine ⟨s', r, rfl, h2.toKeeps, h2.inv hi, ?_, h4⟩
    intro l hl
    obtain ⟨hl1, hl2⟩ := h3 l hl
    obtain ⟨r1, r2, r3⟩ := run_spec s.mem addr len
    rw [← hl1] at r1 r2 r3
    exact ⟨r1, r2, List.length_pos_iff.mpr hl2, fun _ => r3⟩
  · rename_i hc
    have hlo := pageOf_le P addr
    have hhi := pageOf_lt (P := P) (by omega) addr
    have hnw : addr + len ≤ 2 ^ 64 := by
      have h3 := pageOf_le P ((addr + len + (P - 1)) % 2 ^ 64)
      rcases Nat.lt_or_ge (2 ^ 64) (addr + len) with h | h
      · exfalso
        have : (addr + len + (P - 1)) % 2 ^ 64 < 2 ^ 34 := by omega
        omega
      · exact h
    obtain ⟨s', r, h1, h2, h3, h4⟩ := readLoop_spec hz len s hi hp (pageOf P addr) addr len [] addr (Nat.le_refl _)
      (by omega) (by omega) (pageOf_mod P addr) hlo hhi hnw (At_nil _ _) (by simp)
    exact ⟨s', r, h1, h2, h3, by simpa using h4⟩

/-! ### words -/

/-- a word lies within one page -/
theorem word_page {P W : Nat} (hz : Sizes P W) {addr k : Nat} (hm : addr % W = 0) (hk : k < W) :
    pageOf P (addr + k) = pageOf P addr := by
  have hP := hz.ppos
  obtain ⟨c, hc⟩ := hz.dvd
  have hq := pageOf_mod P addr
  have hle := pageOf_le P addr
  have hlt := pageOf_lt (P := P) (by omega) addr
  have hqw : pageOf P addr % W = 0 := by
    obtain ⟨d, hd⟩ := Nat.dvd_of_mod_eq_zero hq
    rw [hd, hc, Nat.mul_assoc, Nat.mul_mod_right]
  have hpw : (pageOf P addr + P) % W = 0 := by
    rw [Nat.add_mod, hqw, hc, Nat.mul_mod_right]; simp
  have := mult_step hm hpw hlt
  have e1 := pageOf_add (P := P) (by omega) hq (i := addr + k - pageOf P addr) (by omega)
  rwa [show pageOf P addr + (addr + k - pageOf P addr) = addr + k from by omega] at e1

/-- if a word cannot be transferred, none of its bytes is accessible -/
theorem word_none {P W : Nat} (hz : Sizes P W) {mem : Mem} (hp : Paged P mem) {addr : Nat} (hm : addr % W = 0)
    (hl : (run mem addr W).length ≠ W) (k : Nat) (hk : k < W) : mem (addr + k) = none := by
  obtain ⟨_, r2, r3⟩ := run_spec mem addr W
  have h := r3 (by omega)
  refine (hp.same ?_).mp h
  rw [word_page hz hm (by omega), word_page hz hm hk]

theorem peek_spec {P W : Nat} (hz : Sizes P W) (s : Sys) (hp : Paged P s.mem) (addr : Nat) (hm : addr % W = 0) :
    ∃ s' r, peek W s addr = (s', r) ∧ Same s s' ∧
      (∀ u, r = .ok u → u.length = W ∧ At s.mem addr u) ∧
      (∀ e, r = .fail e → Willing s → ∀ k, k < W → s.mem (addr + k) = none) := by
  unfold peek
  refine ⟨_, _, rfl, ⟨⟨rfl, rfl, rfl, Nat.le_succ _⟩, rfl, rfl, rfl⟩, ?_, ?_⟩
  · intro u hu
    split at hu
    · simp at hu
    · split at hu
      · rename_i hl
        injection hu with hu
        subst hu
        exact ⟨hl, (run_spec s.mem addr W).1⟩
      · simp at hu
  · intro e he hw
    rw [hw s.calls (Nat.le_refl _)] at he
    simp only at he
    split at he
    · simp at he
    · rename_i hl
      exact word_none hz hp hm hl

theorem Same.refl (s : Sys) : Same s s := ⟨Keeps.refl s, rfl, rfl, rfl⟩
theorem Same.trans {a b c : Sys} (h : Same a b) (k : Same b c) : Same a c :=
  ⟨h.toKeeps.trans k.toKeeps, k.idx.trans h.idx, k.raddr.trans h.raddr, k.buf.trans h.buf⟩

theorem peekLoop_spec {P W : Nat} (hz : Sizes P W) (n : Nat) (s : Sys) (hp : Paged P s.mem)
    (addr residue len : Nat) (acc : List Nat) (addr0 : Nat) (hn : len ≤ n) (hr : residue < W)
    (hpos : len ≠ 0 → pageOf W addr + residue = addr0 + acc.length)
    (htop : addr0 + acc.length + len ≤ 2 ^ 64) (hacc : At s.mem addr0 acc) :
    ∃ s' out, peekLoop W n s addr residue len acc = some (s', out) ∧ Same s s' ∧
      (∀ l, out = some l → l.length = acc.length + len ∧ At s.mem addr0 l) ∧
      (out = none → Willing s → ∃ i, i < len ∧ s.mem (addr0 + acc.length + i) = none) := by
  have hW := hz.wpos
  induction n generalizing s addr residue len acc with
  | zero =>
    have : len = 0 := by omega
    subst this
    refine ⟨s, some acc, by simp [peekLoop], Same.refl s, ?_, fun h => (by simp at h)⟩
    intro l hl
    injection hl with hl
    subst hl
    exact ⟨rfl, hacc⟩
  | succ n ih =>
    unfold peekLoop
    by_cases hl0 : len = 0
    · rw [if_pos hl0]
      refine ⟨s, some acc, rfl, Same.refl s, ?_, fun h => (by simp at h)⟩
      intro l hl
      injection hl with hl
      subst hl
      exact ⟨by omega, hacc⟩
    · rw [if_neg hl0]
      have hpos' := hpos hl0
      obtain ⟨s', r, h1, h2, h3, h4⟩ := peek_spec hz s hp (pageOf W addr) (pageOf_mod W addr)
      rw [h1]
      cases r with
      | fail e =>
        simp only
        refine ⟨_, _, rfl, h2, fun l hl => (by simp at hl), fun _ hw => ⟨0, by omega, ?_⟩⟩
        have := h4 e rfl hw residue hr
        rwa [hpos'] at this
      | ok u =>
        simp only
        obtain ⟨hu1, hu2⟩ := h3 u rfl
        have hulen : ((u.drop residue).take (min (W - residue) len)).length = min (W - residue) len := by
          rw [List.length_take, List.length_drop]; omega
        have hat := At_drop_take hu2 residue (min (W - residue) len)
        rw [hpos'] at hat
        have hnext : len - min (W - residue) len ≠ 0 →
            pageOf W ((pageOf W addr + W) % 2 ^ 64) + 0 =
              addr0 + (acc ++ (u.drop residue).take (min (W - residue) len)).length := by
          intro hne
          rw [List.length_append, hulen, Nat.mod_eq_of_lt (by omega)]
          have e1 : (pageOf W addr + W) % W = 0 := by rw [Nat.add_mod_right]; exact pageOf_mod W addr
          have e2 : pageOf W (pageOf W addr + W) = pageOf W addr + W := by
            have := pageOf_add hW e1 (i := 0) hW
            simpa using this
          omega
        obtain ⟨s2, out, g1, g2, g3, g4⟩ := ih s' (by rw [h2.mem]; exact hp) ((pageOf W addr + W) % 2 ^ 64) 0
          (len - min (W - residue) len) (acc ++ (u.drop residue).take (min (W - residue) len))
          (by omega) hW hnext (by rw [List.length_append, hulen]; omega)
          (by rw [h2.mem]; exact At_append hacc hat)
        rw [h2.mem] at g3 g4
        rw [List.length_append, hulen] at g3 g4
        refine ⟨s2, out, g1, h2.trans g2, fun l hl => ?_, fun ho hw => ?_⟩
        · obtain ⟨a1, a2⟩ := g3 l hl
          exact ⟨by omega, a2⟩
        · obtain ⟨i, hi1, hi2⟩ := g4 ho (h2.toKeeps.willing hw)
          refine ⟨min (W - residue) len + i, by omega, ?_⟩
          rwa [show addr0 + acc.length + (min (W - residue) len + i) =
            addr0 + (acc.length + min (W - residue) len) + i from by omega]

end Strace.UCopy
