import Verif.UCopy.ReadProps
namespace Strace.UCopy

/-! ### C21, writing -/

/-- the parts of the state that writes leave alone -/
structure WKeeps (s s' : Sys) : Prop where
  oracle : s'.oracle = s.oracle
  quota : s'.quota = s.quota
  idx : s'.idx = s.idx
  raddr : s'.raddr = s.raddr
  buf : s'.buf = s.buf
  calls : s.calls ≤ s'.calls

theorem WKeeps.refl (s : Sys) : WKeeps s s := ⟨rfl, rfl, rfl, rfl, rfl, Nat.le_refl _⟩
theorem WKeeps.trans {a b c : Sys} (h : WKeeps a b) (k : WKeeps b c) : WKeeps a c :=
  ⟨k.oracle.trans h.oracle, k.quota.trans h.quota, k.idx.trans h.idx, k.raddr.trans h.raddr, k.buf.trans h.buf, Nat.le_trans h.calls k.calls⟩
theorem WKeeps.willing {a b : Sys} (h : WKeeps a b) (w : Willing a) : Willing b := fun k hk => by
  rw [h.oracle]; exact w k (Nat.le_trans h.calls hk)

theorem Wrote.zero (mem : Mem) (a : Nat) (l : List Nat) : Wrote mem mem a l 0 :=
  ⟨Nat.zero_le _, fun x => by rw [if_neg (by omega)]⟩

theorem Wrote.append {mem m1 m2 : Mem} {a k n : Nat} {l : List Nat} (hk : k ≤ l.length) (h1 : Wrote mem m1 a (l.take k) k)
    (h2 : Wrote m1 m2 (a + k) (l.drop k) n) : Wrote mem m2 a l (k + n) := by
  refine ⟨by have := h2.1; rw [List.length_drop] at this; omega, fun x => ?_⟩
  rw [h2.2 x]
  by_cases hx : a + k ≤ x ∧ x < a + k + n
  · rw [if_pos hx, if_pos (by omega), List.getElem?_drop]
    congr 1; omega
  · rw [if_neg hx, h1.2 x]
    by_cases hy : a ≤ x ∧ x < a + k
    · rw [if_pos hy, if_pos (by omega), List.getElem?_take, if_pos (by omega)]
    · rw [if_neg hy, if_neg (by omega)]

theorem Wrote.none_iff {mem mem' : Mem} {a n : Nat} {l : List Nat} (h : Wrote mem mem' a l n)
    (hacc : ∀ i, i < n → mem (a + i) ≠ none) (x : Nat) : mem' x = none ↔ mem x = none := by
  rw [h.2 x]
  split
  · rename_i hx
    have h1 := h.1
    have h2 := hacc (x - a) (by omega)
    rw [show a + (x - a) = x from by omega] at h2
    rw [List.getElem?_eq_getElem (by omega)]
    simp [h2]
  · rfl

theorem Paged.of_iff {P : Nat} {mem mem' : Mem} (h : Paged P mem) (hi : ∀ x, mem' x = none ↔ mem x = none) :
    Paged P mem' := ⟨fun a => by rw [hi, hi]; exact h.page a, fun a ha => (hi a).mpr (h.top a ha)⟩

theorem poke_spec {P W : Nat} (hz : Sizes P W) (s : Sys) (hp : Paged P s.mem) (addr : Nat) (hm : addr % W = 0)
    (u : List Nat) (hu : u.length = W) :
    ∃ s' b, poke W s addr u = (s', b) ∧ WKeeps s s' ∧
      (b = true → Wrote s.mem s'.mem addr u W ∧ ∀ i, i < W → s.mem (addr + i) ≠ none) ∧
      (b = false → s'.mem = s.mem ∧ (Willing s → ∀ i, i < W → s.mem (addr + i) = none)) := by
  unfold poke
  cases ho : s.oracle s.calls with
  | some e =>
    exact ⟨_, _, rfl, ⟨rfl, rfl, rfl, rfl, rfl, Nat.le_succ _⟩, fun h => (by simp at h), fun _ => ⟨rfl, fun hw => by
      rw [hw s.calls (Nat.le_refl _)] at ho; simp at ho⟩⟩
  | none =>
    by_cases hl : (run s.mem addr W).length = W
    · simp only [if_pos hl]
      refine ⟨_, _, rfl, ⟨rfl, rfl, rfl, rfl, rfl, Nat.le_succ _⟩, fun _ => ⟨⟨by omega, fun x => ?_⟩, fun i hi => ?_⟩, fun h => (by simp at h)⟩
      · simp only [store, hu]
      · exact At_some (run_spec s.mem addr W).1 (by omega)
    · simp only [if_neg hl]
      exact ⟨_, _, rfl, ⟨rfl, rfl, rfl, rfl, rfl, Nat.le_succ _⟩, fun h => (by simp at h), fun _ => ⟨rfl, fun _ => word_none hz hp hm hl⟩⟩

theorem overlay_get {u l : List Nat} {off : Nat} (h : off + l.length ≤ u.length) (k : Nat) :
    (overlay u off l)[k]? = if off ≤ k ∧ k < off + l.length then l[k - off]? else u[k]? := by
  unfold overlay
  have h1 : (u.take off).length = off := by rw [List.length_take]; omega
  by_cases hk : k < off
  · rw [List.append_assoc, List.getElem?_append_left (by omega), if_neg (by omega), List.getElem?_take, if_pos hk]
  · rw [List.append_assoc, List.getElem?_append_right (by omega), h1]
    by_cases hk2 : k < off + l.length
    · rw [if_pos (by omega), List.getElem?_append_left (by omega)]
    · rw [if_neg (by omega), List.getElem?_append_right (by omega), List.getElem?_drop]
      congr 1; omega

theorem overlay_length {u l : List Nat} {off : Nat} (h : off + l.length ≤ u.length) :
    (overlay u off l).length = u.length := by
  unfold overlay
  simp only [List.length_append, List.length_take, List.length_drop]
  omega

theorem peekpoke_spec {P W : Nat} (hz : Sizes P W) (s : Sys) (hp : Paged P s.mem) (addr : Nat) (hm : addr % W = 0)
    (l : List Nat) (off : Nat) (hoff : off + l.length ≤ W) :
    ∃ s' b, peekpoke W s addr l off = (s', b) ∧ WKeeps s s' ∧
      (b = true → Wrote s.mem s'.mem (addr + off) l l.length ∧ ∀ i, i < l.length → s.mem (addr + off + i) ≠ none) ∧
      (b = false → s'.mem = s.mem ∧ (Willing s → ∀ i, i < W → s.mem (addr + i) = none)) := by
  unfold peekpoke
  obtain ⟨s1, r, h1, h2, h3, h4⟩ := peek_spec hz s hp addr hm
  rw [h1]
  cases r with
  | fail e =>
    exact ⟨_, _, rfl, ⟨h2.oracle, h2.quota, h2.idx, h2.raddr, h2.buf, h2.calls⟩, fun h => (by simp at h), fun _ => ⟨h2.mem, h4 e rfl⟩⟩
  | ok u =>
    obtain ⟨hu1, hu2⟩ := h3 u rfl
    obtain ⟨s2, b, g1, g2, g3, g4⟩ := poke_spec hz s1 (by rw [h2.mem]; exact hp) addr hm (overlay u off l)
      (by rw [overlay_length (by omega), hu1])
    rw [h2.mem] at g3 g4
    simp only [g1]
    refine ⟨s2, b, rfl, WKeeps.trans ⟨h2.oracle, h2.quota, h2.idx, h2.raddr, h2.buf, h2.calls⟩ g2, fun hb => ?_, fun hb => ?_⟩
    · obtain ⟨w1, w2⟩ := g3 hb
      refine ⟨⟨Nat.le_refl _, fun x => ?_⟩, fun i hi => ?_⟩
      · rw [w1.2 x]
        by_cases hx : addr ≤ x ∧ x < addr + W
        · rw [if_pos hx, overlay_get (by omega)]
          by_cases hy : addr + off ≤ x ∧ x < addr + off + l.length
          · rw [if_pos (by omega), if_pos hy]
            congr 1; omega
          · rw [if_neg (by omega), if_neg hy, ← hu2 (x - addr) (by omega)]
            congr 1; omega
        · rw [if_neg hx, if_neg (by omega)]
      · have := w2 (off + i) (by omega)
        rwa [← Nat.add_assoc] at this
    · exact ⟨(g4 hb).1, fun hw => (g4 hb).2 (h2.toKeeps.willing hw)⟩

theorem pokeLoop_spec {P W : Nat} (hz : Sizes P W) (n : Nat) (s : Sys) (hp : Paged P s.mem) (addr : Nat)
    (l : List Nat) (nw : Nat) (hn : l.length < n) (hm : l ≠ [] → addr % W = 0) (htop : addr + l.length ≤ 2 ^ 64) :
    ∃ s' k, pokeLoop W n s addr l nw = some (s', nw + k) ∧ WKeeps s s' ∧ Wrote s.mem s'.mem addr l k ∧
      (∀ i, i < k → s.mem (addr + i) ≠ none) ∧
      (Willing s → k < l.length → ∃ i, i < l.length ∧ s.mem (addr + i) = none) := by
  have hW := hz.wpos
  induction n generalizing s addr l nw with
  | zero => omega
  | succ n ih =>
    unfold pokeLoop
    by_cases hc : l.length ≥ W
    · rw [if_pos hc]
      have hm' := hm (by intro h; rw [h] at hc; simp at hc; omega)
      have htl : (l.take W).length = W := by rw [List.length_take]; omega
      obtain ⟨s1, b, h1, h2, h3, h4⟩ := poke_spec hz s hp addr hm' (l.take W) htl
      rw [h1]
      cases b with
      | false =>
        simp only
        refine ⟨s1, 0, rfl, h2, ?_, fun i hi => absurd hi (by omega), fun hw _ => ⟨0, by omega, (h4 rfl).2 hw 0 hW⟩⟩
        rw [(h4 rfl).1]; exact Wrote.zero _ _ _
      | true =>
        simp only
        obtain ⟨w1, w2⟩ := h3 rfl
        have hni := w1.none_iff w2
        have hnxt : l.drop W ≠ [] → (addr + W) % 2 ^ 64 = addr + W := by
          intro hne
          have : 0 < (l.drop W).length := List.length_pos_iff.mpr hne
          rw [List.length_drop] at this
          exact Nat.mod_eq_of_lt (by omega)
        by_cases hne : l.drop W = []
        · have hl : l.length = W := by
            have := congrArg List.length hne
            rw [List.length_drop] at this
            simp at this
            omega
          rw [hne]
          have hfin : pokeLoop W n s1 ((addr + W) % 2 ^ 64) [] (nw + W) = some (s1, nw + W) := by
            cases n with
            | zero => omega
            | succ n => unfold pokeLoop; rw [if_neg (by simp; omega), if_neg (by simp)]
          refine ⟨s1, W, hfin, h2, ?_, w2, fun _ h => absurd h (by omega)⟩
          have := List.take_of_length_le (l := l) (i := W) (by omega)
          rwa [this] at w1
        · obtain ⟨s2, k, g1, g2, g3, g4, g5⟩ := ih s1 (hp.of_iff hni) ((addr + W) % 2 ^ 64) (l.drop W) (nw + W)
            (by rw [List.length_drop]; omega)
            (fun _ => by rw [hnxt hne, Nat.add_mod_right]; exact hm')
            (by rw [hnxt hne, List.length_drop]; omega)
          rw [hnxt hne] at g1 g3 g4 g5
          rw [List.length_drop] at g5
          refine ⟨s2, W + k, by rw [hnxt hne, g1, Nat.add_assoc], h2.trans g2, Wrote.append (by omega) w1 g3, ?_, ?_⟩
          · intro i hi
            by_cases hiw : i < W
            · exact w2 i hiw
            · have := g4 (i - W) (by omega)
              rw [show addr + W + (i - W) = addr + i from by omega] at this
              rwa [Ne, hni] at this
          · intro hw hk
            obtain ⟨i, hi1, hi2⟩ := g5 (h2.willing hw) (by omega)
            exact ⟨W + i, by omega, by rw [← Nat.add_assoc, ← hni]; exact hi2⟩
    · rw [if_neg hc]
      by_cases hl0 : l.length ≠ 0
      · rw [if_pos hl0]
        have hm' := hm (by intro h; rw [h] at hl0; simp at hl0)
        obtain ⟨s1, b, h1, h2, h3, h4⟩ := peekpoke_spec hz s hp addr hm' l 0 (by omega)
        rw [h1]
        cases b with
        | false =>
          simp only
          refine ⟨s1, 0, rfl, h2, ?_, fun i hi => absurd hi (by omega), fun hw _ => ⟨0, by omega, (h4 rfl).2 hw 0 hW⟩⟩
          rw [(h4 rfl).1]; exact Wrote.zero _ _ _
        | true =>
          simp only
          obtain ⟨w1, w2⟩ := h3 rfl
          exact ⟨s1, l.length, rfl, h2, w1, w2, fun _ h => absurd h (by omega)⟩
      · rw [if_neg hl0]
        exact ⟨s, 0, rfl, WKeeps.refl s, Wrote.zero _ _ _, fun i hi => absurd hi (by omega), fun _ h => absurd h (by omega)⟩

theorem pokeData_spec {P W : Nat} (hz : Sizes P W) (s : Sys) (hp : Paged P s.mem) (addr : Nat)
    (l : List Nat) (htop : addr + l.length ≤ 2 ^ 64) :
    ∃ s' k, pokeData W s addr l = some (s', k) ∧ WKeeps s s' ∧ Wrote s.mem s'.mem addr l k ∧
      (∀ i, i < k → s.mem (addr + i) ≠ none) ∧
      (Willing s → k < l.length → ∃ i, i < l.length ∧ s.mem (addr + i) = none) := by
  have hW := hz.wpos
  unfold pokeData
  by_cases hc : l.length ≠ 0 ∧ addr % W ≠ 0
  · rw [if_pos hc]
    have hr := Nat.mod_lt addr hW
    have hle := Nat.mod_le addr W
    have hpg : pageOf W addr + addr % W = addr := by unfold pageOf; omega
    have htl : (l.take (min (W - addr % W) l.length)).length = min (W - addr % W) l.length := by
      rw [List.length_take]; omega
    obtain ⟨s1, b, h1, h2, h3, h4⟩ := peekpoke_spec hz s hp (pageOf W addr) (pageOf_mod W addr)
      (l.take (min (W - addr % W) l.length)) (addr % W) (by rw [htl]; omega)
    rw [h1]
    rw [htl, hpg] at h3
    cases b with
    | false =>
      simp only
      refine ⟨s1, 0, rfl, h2, ?_, fun i hi => absurd hi (by omega), fun hw _ => ⟨0, by omega, ?_⟩⟩
      · rw [(h4 rfl).1]; exact Wrote.zero _ _ _
      · have := (h4 rfl).2 hw (addr % W) hr
        rwa [hpg] at this
    | true =>
      simp only
      obtain ⟨w1, w2⟩ := h3 rfl
      have hni := w1.none_iff w2
      generalize hmm : min (W - addr % W) l.length = m at *
      have hmod : l.drop m ≠ [] → m = W - addr % W ∧ (pageOf W addr + W) % 2 ^ 64 = addr + m := by
        intro hne
        have : 0 < (l.drop m).length := List.length_pos_iff.mpr hne
        rw [List.length_drop] at this
        refine ⟨by omega, ?_⟩
        rw [Nat.mod_eq_of_lt (by omega)]; omega
      by_cases hne : l.drop m = []
      · have hl : l.length = m := by
          have := congrArg List.length hne
          rw [List.length_drop] at this
          simp at this
          omega
        rw [hne]
        have hfin : pokeLoop W (l.length + 1) s1 ((pageOf W addr + W) % 2 ^ 64) [] m = some (s1, m) := by
          unfold pokeLoop; rw [if_neg (by simp; omega), if_neg (by simp)]
        refine ⟨s1, m, hfin, h2, ?_, w2, fun _ h => absurd h (by omega)⟩
        have := List.take_of_length_le (l := l) (i := m) (by omega)
        rwa [this] at w1
      · obtain ⟨e1, e2⟩ := hmod hne
        rw [e2]
        obtain ⟨s2, k, g1, g2, g3, g4, g5⟩ := pokeLoop_spec hz (l.length + 1) s1 (hp.of_iff hni) (addr + m) (l.drop m) m
          (by rw [List.length_drop]; omega)
          (fun _ => by
            have : addr + m = pageOf W addr + W := by omega
            rw [this, Nat.add_mod_right]; exact pageOf_mod W addr)
          (by rw [List.length_drop]; omega)
        rw [List.length_drop] at g5
        refine ⟨s2, m + k, g1, h2.trans g2, Wrote.append (by omega) w1 g3, ?_, ?_⟩
        · intro i hi
          by_cases hiw : i < m
          · exact w2 i hiw
          · have := g4 (i - m) (by omega)
            rw [show addr + m + (i - m) = addr + i from by omega] at this
            rwa [Ne, hni] at this
        · intro hw hk
          obtain ⟨i, hi1, hi2⟩ := g5 (h2.willing hw) (by omega)
          exact ⟨m + i, by omega, by rw [← Nat.add_assoc, ← hni]; exact hi2⟩
  · rw [if_neg hc]
    obtain ⟨s2, k, g⟩ := pokeLoop_spec hz (l.length + 1) s hp addr l 0 (by omega)
      (fun hne => by
        have : 0 < l.length := List.length_pos_iff.mpr hne
        rcases Nat.eq_zero_or_pos (addr % W) with h | h
        · exact h
        · exact absurd ⟨by omega, by omega⟩ hc)
      htop
    rw [Nat.zero_add] at g
    exact ⟨s2, k, g⟩

/-- **C21.**  A poke that reports `k` bytes has stored the first `k` bytes of the data at the address and
changed no other byte of the tracee; it stores all of them if they are accessible and the kernel does not
refuse. -/
theorem upoken_spec {P W : Nat} (hz : Sizes P W) (w4 : Bool) (s : Sys) (hp : Paged P s.mem) (addr : Nat)
    (l : List Nat) (hlen : l.length < 2 ^ 32 - 1) (htop : addr + l.length ≤ 2 ^ 64) :
    ∃ s' k, upoken W w4 s addr l = some (s', k) ∧ WKeeps s s' ∧ Wrote s.mem s'.mem addr l k ∧ Paged P s'.mem ∧
      (Willing s → (∀ j, l.length ≤ s.quota j) → k < l.length →
        (w4 = true ∧ 2 ^ 32 ≤ addr) ∨ ∃ i, i < l.length ∧ s.mem (addr + i) = none) := by
  have hpd : ∀ t, WKeeps s t → t.mem = s.mem →
      ∃ s' k, pokeData W t addr l = some (s', k) ∧ WKeeps s s' ∧ Wrote s.mem s'.mem addr l k ∧ Paged P s'.mem ∧
      (Willing s → (∀ j, l.length ≤ s.quota j) → k < l.length →
        (w4 = true ∧ 2 ^ 32 ≤ addr) ∨ ∃ i, i < l.length ∧ s.mem (addr + i) = none) := by
    intro t ht hmem
    obtain ⟨s', k, h1, h2, h3, h4, h5⟩ := pokeData_spec hz t (by rw [hmem]; exact hp) addr l htop
    rw [hmem] at h3 h4 h5
    exact ⟨s', k, h1, ht.trans h2, h3, hp.of_iff (h3.none_iff h4), fun hw _ hk => Or.inr (h5 (ht.willing hw) hk)⟩
  unfold upoken
  by_cases hv : addrInvalid w4 addr = true
  · rw [if_pos hv]
    unfold addrInvalid at hv
    exact ⟨s, 0, rfl, WKeeps.refl s, Wrote.zero _ _ _, hp, fun _ _ _ => Or.inl (by simpa using hv)⟩
  · rw [if_neg hv]
    by_cases hr : s.noWritev = true
    · rw [if_pos hr]; exact hpd s (WKeeps.refl s) rfl
    · rw [if_neg hr]
      unfold vmWrite
      cases ho : s.oracle s.calls with
      | some e =>
        simp only
        rw [if_neg (show ¬ l.length = 2 ^ 32 - 1 from by omega)]
        by_cases hb : pokesBack e = true
        · rw [if_pos hb]
          exact hpd _ ⟨rfl, rfl, rfl, rfl, rfl, Nat.le_succ _⟩ rfl
        · rw [if_neg hb]
          exact ⟨_, 0, rfl, ⟨rfl, rfl, rfl, rfl, rfl, Nat.le_succ _⟩, Wrote.zero _ _ _, hp, fun hw => by
            rw [hw s.calls (Nat.le_refl _)] at ho; simp at ho⟩
      | none =>
        obtain ⟨r1, r2, r3⟩ := run_spec s.mem addr l.length
        by_cases hq : l.length ≠ 0 ∧ min (s.quota s.calls) (run s.mem addr l.length).length = 0
        · simp only [if_pos hq]
          rw [if_neg (show ¬ l.length = 2 ^ 32 - 1 from by omega)]
          rw [if_pos (show pokesBack .EFAULT = true from rfl)]
          exact hpd _ ⟨rfl, rfl, rfl, rfl, rfl, Nat.le_succ _⟩ rfl
        · simp only [if_neg hq]
          have hw : Wrote s.mem (store s.mem addr (l.take (min (s.quota s.calls) (run s.mem addr l.length).length)))
              addr l (min (s.quota s.calls) (run s.mem addr l.length).length) := by
            refine ⟨by omega, fun x => ?_⟩
            unfold store
            rw [List.length_take, show min (min (s.quota s.calls) (run s.mem addr l.length).length) l.length =
              min (s.quota s.calls) (run s.mem addr l.length).length from by omega]
            split
            · rw [List.getElem?_take, if_pos (by omega)]
            · rfl
          refine ⟨_, _, rfl, ⟨rfl, rfl, rfl, rfl, rfl, Nat.le_succ _⟩, hw, ?_, ?_⟩
          · exact hp.of_iff (hw.none_iff fun i hi => At_some r1 (by omega))
          · intro _ hqu hk
            have := hqu s.calls
            exact Or.inr ⟨(run s.mem addr l.length).length, by omega, r3 (by omega)⟩

/-- If the kernel refuses `process_vm_writev` (missing, not permitted, or the pages are read-only), the data is
written word by word: all of it, when it is accessible and `ptrace` does not refuse. -/
theorem upoken_fallback {P W : Nat} (hz : Sizes P W) (w4 : Bool) (s : Sys) (hp : Paged P s.mem) (addr : Nat)
    (l : List Nat) (hlen : l.length < 2 ^ 32 - 1) (htop : addr + l.length ≤ 2 ^ 64) (hv : ¬ (w4 = true ∧ 2 ^ 32 ≤ addr))
    (e : Errno) (he : e = .ENOSYS ∨ e = .EPERM ∨ e = .EFAULT ∨ e = .EIO) (hs : s.noWritev = false)
    (h0 : s.oracle s.calls = some e) (hlater : ∀ k, s.calls < k → s.oracle k = none)
    (hacc : ∀ i, i < l.length → s.mem (addr + i) ≠ none) :
    ∃ s', upoken W w4 s addr l = some (s', l.length) ∧ Wrote s.mem s'.mem addr l l.length := by
  unfold upoken
  rw [if_neg (show ¬ addrInvalid w4 addr = true from by unfold addrInvalid; simpa using hv), hs]
  simp only [vmWrite, h0]
  rw [if_neg (by simp), if_neg (show ¬ l.length = 2 ^ 32 - 1 from by omega),
    if_pos (show pokesBack e = true from by rcases he with h | h | h | h <;> subst h <;> rfl)]
  obtain ⟨s', k, g1, _, g3, _, g5⟩ := pokeData_spec hz { s with calls := s.calls + 1, noWritev := s.noWritev || decide (e = .ENOSYS) }
    hp addr l htop
  have : k = l.length := by
    have := g3.1
    rcases Nat.lt_or_ge k l.length with h | h
    · obtain ⟨i, h1, h2⟩ := g5 (fun k hk => hlater k hk) h
      exact absurd h2 (hacc i h1)
    · omega
  subst this
  exact ⟨s', g1, g3⟩

/-- If the kernel refuses `process_vm_readv` as missing or not permitted, the read is done word by word. -/
theorem umoven_fallback {P W : Nat} (hz : Sizes P W) (w4 : Bool) (s : Sys) (hp : Paged P s.mem)
    (hnc : s.idx = none) (addr len : Nat) (hlen : len < 2 ^ 32 - 1) (h1 : 0 < len) (htop : addr + len ≤ 2 ^ 64)
    (hv : ¬ (w4 = true ∧ 2 ^ 32 ≤ addr)) (e : Errno) (he : e = .ENOSYS ∨ e = .EPERM) (hs : s.noReadv = false)
    (h0 : s.oracle s.calls = some e) (hlater : ∀ k, s.calls < k → s.oracle k = none)
    (hacc : ∀ i, i < len → s.mem (addr + i) ≠ none) :
    ∃ s' l, umoven P W w4 s addr len = some (s', some l) ∧ l.length = len ∧ At s.mem addr l ∧
      s'.noReadv = decide (e = .ENOSYS) := by
  have hW := hz.wpos
  have hvm : vmRead P s addr len = some ({ s with calls := s.calls + 1, noReadv := decide (e = .ENOSYS) }, .fail e) := by
    have hpr : ∀ a m, processRead s a m = ({ s with calls := s.calls + 1, noReadv := decide (e = .ENOSYS) }, .fail e) := by
      intro a m
      simp only [processRead, readv, h0, hs, Bool.false_or]
    unfold vmRead
    rw [if_neg (by omega)]
    split
    · rw [hpr]
    · cases len with
      | zero => omega
      | succ n => simp only [readLoop, fetch, lookup, hnc, hpr]; rfl
  unfold umoven
  rw [if_neg (show ¬ addrInvalid w4 addr = true from by unfold addrInvalid; simpa using hv), hs, if_neg (by simp), hvm]
  simp only
  rw [if_neg (show ¬ len = 2 ^ 32 - 1 from by omega),
    if_pos (show fallsBack e = true from by rcases he with h | h <;> subst h <;> rfl)]
  obtain ⟨s', out, g1, g2, g3, g4⟩ := peekLoop_spec hz len { s with calls := s.calls + 1, noReadv := decide (e = .ENOSYS) } hp addr
    (addr % W) len [] addr (Nat.le_refl _) (Nat.mod_lt _ hW)
    (fun _ => by unfold pageOf; have := Nat.mod_le addr W; simp; omega) (by simpa using htop) (At_nil _ _)
  have hnr : ∀ n t a r m acc t' o, peekLoop W n t a r m acc = some (t', o) → t'.noReadv = t.noReadv := by
    intro n
    induction n with
    | zero =>
      intro t a r m acc t' o h
      unfold peekLoop at h
      split at h
      · simp at h; rw [h.1]
      · simp at h
    | succ n ih =>
      intro t a r m acc t' o h
      unfold peekLoop at h
      split at h
      · simp at h; rw [h.1]
      · cases hpk : peek W t (pageOf W a) with
        | mk t1 rr =>
          have ht1 : t1.noReadv = t.noReadv := by
            unfold peek at hpk
            simp only [Prod.mk.injEq] at hpk
            rw [← hpk.1]
          rw [hpk] at h
          cases rr with
          | fail _ => simp at h; rw [← h.1, ht1]
          | ok u => rw [ih _ _ _ _ _ _ _ h, ht1]
  cases out with
  | none =>
    obtain ⟨i, a1, a2⟩ := g4 rfl (fun k hk => hlater k hk)
    exact absurd a2 (by simpa using hacc i a1)
  | some l =>
    obtain ⟨a1, a2⟩ := g3 l rfl
    exact ⟨s', l, g1, by simpa using a1, a2, hnr _ _ _ _ _ _ _ _ g1⟩

/-! ### histories -/

/-- states of strace between events: at start, after reads, after the tracee ran (its memory is then
arbitrary), and after pokes made while nothing has been read since the tracee stopped -/
inductive Reach (P W : Nat) (w4 : Bool) : Sys → Prop
  | start (mem oracle quota) : Paged P mem →
      Reach P W w4 ⟨mem, oracle, quota, 0, false, false, none, List.replicate NC 0, List.replicate NC []⟩
  | read {s s'} (addr len out) : Reach P W w4 s → len < 2 ^ 32 - 1 → addr + len ≤ 2 ^ 64 →
      umoven P W w4 s addr len = some (s', out) → Reach P W w4 s'
  | str {s s'} (addr len out) : Reach P W w4 s → len < 2 ^ 31 → addr + len ≤ 2 ^ 64 →
      (NoFallback s ∨ (addr % W = 0 ∧ len % W = 0)) →
      umovestr P W w4 s addr len = some (s', out) → Reach P W w4 s'
  | poke {s s'} (addr l k) : Reach P W w4 s → s.idx = none → l.length < 2 ^ 32 - 1 → addr + l.length ≤ 2 ^ 64 →
      upoken W w4 s addr l = some (s', k) → Reach P W w4 s'
  | resume {s} (mem) : Reach P W w4 s → Paged P mem → Reach P W w4 (invalidate { s with mem := mem })

theorem reach_inv {P W : Nat} (hz : Sizes P W) {w4 : Bool} {s : Sys} (h : Reach P W w4 s) : Inv P s ∧ Paged P s.mem := by
  induction h with
  | start mem oracle quota hp =>
    exact ⟨⟨by simp, by simp, fun c h => (by simp at h), fun c h => (by simp at h)⟩, hp⟩
  | read addr len out _ h1 h2 h3 ih =>
    obtain ⟨s', out', g1, g2, g3, _⟩ := umoven_spec_partial hz w4 _ ih.1 ih.2 addr len h1 h2
    rw [h3] at g1
    simp only [Option.some.injEq, Prod.mk.injEq] at g1
    rw [g1.1]
    exact ⟨g3, by rw [g2.mem]; exact ih.2⟩
  | @str s s' addr len out _ h1 h2 hf h3 ih =>
    by_cases hv : w4 = true ∧ 2 ^ 32 ≤ addr
    · unfold umovestr at h3
      rw [if_pos (show addrInvalid w4 addr = true from by unfold addrInvalid; simpa using hv)] at h3
      simp only [Option.some.injEq, Prod.mk.injEq] at h3
      rw [← h3.1]; exact ih
    · obtain ⟨s'', out', g1, g2, g3, _⟩ := umovestr_spec_partial hz w4 _ ih.1 ih.2 addr len h1 h2 hv hf
      rw [h3] at g1
      simp only [Option.some.injEq, Prod.mk.injEq] at g1
      rw [g1.1]
      exact ⟨g3, by rw [g2.mem]; exact ih.2⟩
  | poke addr l k _ hidx h1 h2 h3 ih =>
    obtain ⟨s', k', g1, g2, _, g4, _⟩ := upoken_spec hz w4 _ ih.2 addr l h1 h2
    rw [h3] at g1
    simp only [Option.some.injEq, Prod.mk.injEq] at g1
    rw [g1.1]
    refine ⟨⟨by rw [g2.raddr]; exact ih.1.nr, by rw [g2.buf]; exact ih.1.nb, ?_, ?_⟩, g4⟩
    · intro c hc; rw [g2.idx, hidx] at hc; simp at hc
    · intro c hc; rw [g2.idx, hidx] at hc; simp at hc
  | resume mem _ hp ih =>
    exact ⟨⟨ih.1.nr, ih.1.nb, fun c h => (by simp [invalidate] at h), fun c h => (by simp [invalidate] at h)⟩, hp⟩

/-- **C19, over histories.**  After any history, a successful read returns what the tracee has now. -/
theorem read_true_partial {P W : Nat} (hz : Sizes P W) {w4 : Bool} {s : Sys} (h : Reach P W w4 s) (addr len : Nat)
    (hlen : len < 2 ^ 32 - 1) (htop : addr + len ≤ 2 ^ 64) :
    ∃ s' out, umoven P W w4 s addr len = some (s', out) ∧ s'.mem = s.mem ∧
      (∀ l, out = some l → l.length = len ∧ ∀ i, i < len → s.mem (addr + i) = l[i]?) ∧
      (out = none → Willing s → (w4 = true ∧ 2 ^ 32 ≤ addr) ∨ ∃ i, i < len ∧ s.mem (addr + i) = none) := by
  obtain ⟨h1, h2⟩ := reach_inv hz h
  obtain ⟨s', out, g1, g2, _, g4, g5⟩ := umoven_spec_partial hz w4 s h1 h2 addr len hlen htop
  refine ⟨s', out, g1, g2.mem, fun l hl => ?_, g5⟩
  obtain ⟨a1, a2⟩ := g4 l hl
  exact ⟨a1, fun i hi => a2 i (by omega)⟩

/-- the bytes a read gave -/
def bytesOf : Option (Sys × Option (List Nat)) → Option (List Nat)
  | some (_, some l) => some l
  | _ => none

/-- one page of 'A' at 4096, everything permitted -/
def demo : Sys :=
  ⟨fun a => if 4096 ≤ a ∧ a < 8192 then some 65 else none, fun _ => none, fun _ => 100, 0, false, false,
    none, [0, 0, 0, 0], [[], [], [], []]⟩

/-- **C61, the finding.**  A read, a poke of the same place and a second read within one stop: the second
read still gives the old bytes, although the poke succeeded. -/
theorem poke_then_stale :
    ((umoven 4096 8 false demo 4100 2).bind fun r => (upoken 8 false r.1 4100 [1, 2]).bind fun w =>
      some (w.2, w.1.mem 4100, bytesOf (umoven 4096 8 false w.1 4100 2))) = some (2, some 1, some [65, 65]) := by
  decide +kernel

/-- **C61 (partial).**  If nothing was read since the tracee stopped, a read after a poke gives the poked
bytes. -/
theorem poke_then_read_partial {P W : Nat} (hz : Sizes P W) {w4 : Bool} {s : Sys} (h : Reach P W w4 s)
    (hfresh : s.idx = none) (addr : Nat) (l : List Nat) (hlen : l.length < 2 ^ 32 - 1)
    (htop : addr + l.length ≤ 2 ^ 64) (s1 : Sys) (hp : upoken W w4 s addr l = some (s1, l.length))
    (s2 : Sys) (l' : List Nat) (hr : umoven P W w4 s1 addr l.length = some (s2, some l')) : l' = l := by
  obtain ⟨_, h2⟩ := reach_inv hz h
  obtain ⟨s1', k, g1, _, g3, _⟩ := upoken_spec hz w4 s h2 addr l hlen htop
  rw [hp] at g1
  simp only [Option.some.injEq, Prod.mk.injEq] at g1
  rw [← g1.1, ← g1.2] at g3
  obtain ⟨s2', out, q1, _, q3, _⟩ := read_true_partial hz (Reach.poke addr l _ h hfresh hlen htop hp) addr l.length hlen htop
  rw [hr] at q1
  simp only [Option.some.injEq, Prod.mk.injEq] at q1
  obtain ⟨a1, a2⟩ := q3 l' q1.2.symm
  apply List.ext_getElem? 
  intro i
  by_cases hi : i < l.length
  · rw [← a2 i hi, g3.2 (addr + i), if_pos (by omega)]
    congr 1; omega
  · rw [List.getElem?_eq_none (by omega), List.getElem?_eq_none (by omega)]

example : bytesOf (umoven 4096 8 false demo 4100 5) = some [65, 65, 65, 65, 65] ∧
    bytesOf (umoven 4096 8 false demo 8190 5) = none := by decide +kernel

example : Sizes 4096 8 := ⟨Or.inr rfl, 12, by omega, by omega, rfl⟩

end Strace.UCopy
