import Verif.UCopy.Lemmas
namespace Strace.UCopy

/-- **C19.**  A successful read gives exactly the tracee's bytes, whatever the cache holds; a read reported
as failed had an inaccessible byte (or an address that the tracee cannot have), unless the kernel refused.
`Inv` holds in every reachable state (`reach_inv`). -/
theorem umoven_spec_partial {P W : Nat} (hz : Sizes P W) (w4 : Bool) (s : Sys) (hi : Inv P s) (hp : Paged P s.mem)
    (addr len : Nat) (hlen : len < 2 ^ 32 - 1) (htop : addr + len ≤ 2 ^ 64) :
    ∃ s' out, umoven P W w4 s addr len = some (s', out) ∧ Keeps s s' ∧ Inv P s' ∧
      (∀ l, out = some l → l.length = len ∧ At s.mem addr l) ∧
      (out = none → Willing s → (w4 = true ∧ 2 ^ 32 ≤ addr) ∨ ∃ i, i < len ∧ s.mem (addr + i) = none) := by
  have hW := hz.wpos
  have hpeek : ∀ t, Keeps s t → Inv P t →
      ∃ s' out, umovenPeek W t addr len = some (s', out) ∧ Keeps s s' ∧ Inv P s' ∧
      (∀ l, out = some l → l.length = len ∧ At s.mem addr l) ∧
      (out = none → Willing s → (w4 = true ∧ 2 ^ 32 ≤ addr) ∨ ∃ i, i < len ∧ s.mem (addr + i) = none) := by
    intro t ht hit
    obtain ⟨s', out, h1, h2, h3, h4⟩ := peekLoop_spec hz len t (by rw [ht.mem]; exact hp) addr (addr % W) len [] addr
      (Nat.le_refl _) (Nat.mod_lt _ hW)
      (fun _ => by unfold pageOf; have := Nat.mod_le addr W; simp; omega) (by simpa using htop) (At_nil _ _)
    rw [ht.mem] at h3 h4
    refine ⟨s', out, h1, ht.trans h2.toKeeps, h2.inv hit, fun l hl => ?_, fun ho hw => Or.inr ?_⟩
    · have := h3 l hl
      exact ⟨by simpa using this.1, this.2⟩
    · simpa using h4 ho (ht.willing hw)
  unfold umoven
  by_cases hv : addrInvalid w4 addr = true
  · rw [if_pos hv]
    unfold addrInvalid at hv
    refine ⟨s, none, rfl, Keeps.refl s, hi, fun l h => (by simp at h), fun _ _ => Or.inl (by simpa using hv)⟩
  · rw [if_neg hv]
    by_cases hr : s.noReadv = true
    · rw [if_pos hr]
      exact hpeek s (Keeps.refl s) hi
    · rw [if_neg hr]
      by_cases hl0 : len = 0
      · subst hl0
        simp only [vmRead, if_true]
        refine ⟨s, some [], rfl, Keeps.refl s, hi, fun l h => ?_, fun h => (by simp at h)⟩
        injection h with h
        subst h
        exact ⟨rfl, At_nil _ _⟩
      · obtain ⟨s', r, h1, h2, h3, h4⟩ := vmRead_spec hz s hi hp addr len hl0 (by omega) (by omega)
        rw [h1]
        cases r with
        | ok l =>
          simp only
          refine ⟨_, _, rfl, h2, h3, fun l' hl' => ?_, fun ho hw => ?_⟩
          · split at hl'
            · rename_i he
              injection hl' with hl'
              subst hl'
              exact ⟨he, (h4.ok l rfl).1⟩
            · simp at hl'
          · split at ho
            · simp at ho
            · obtain ⟨a1, a2, a3, a4⟩ := h4.ok l rfl
              exact Or.inr ⟨l.length, by omega, a4 hw (by omega)⟩
        | fail e =>
          simp only
          rw [if_neg (show ¬ len = 2 ^ 32 - 1 from by omega)]
          by_cases hfb : fallsBack e = true
          · rw [if_pos hfb]
            exact hpeek s' h2 h3
          · rw [if_neg hfb]
            refine ⟨_, _, rfl, h2, h3, fun l h => (by simp at h), fun _ hw => Or.inr ⟨0, by omega, ?_⟩⟩
            exact h4.fail e rfl hw

/-- **Finding.**  A read of 2^32 - 1 bytes that fails is reported as a success with nothing stored. -/
theorem umoven_max_len : ∀ P, ∃ s s', s.mem = (fun _ => none) ∧ Willing s ∧
    umoven P 8 false s 0 (2 ^ 32 - 1) = some (s', some []) := by
  intro P
  refine ⟨⟨fun _ => none, fun _ => none, fun _ => 0, 0, false, false, none, [0,0,0,0], [[],[],[],[]]⟩, ?_, rfl,
    fun _ _ => rfl, ?_⟩
  · exact ⟨fun _ => none, fun _ => none, fun _ => 0, 1, false, false, none, [0,0,0,0], [[],[],[],[]]⟩
  · have h0 : pageOf P 0 = 0 := by simp [pageOf]
    unfold umoven vmRead processRead readv
    simp only [h0]
    rfl

/-! ### strings -/

theorem nulFrom_spec {u : List Nat} {res : Nat} :
    (∀ r, nulFrom u res = some r → ∃ j, r = res + j + 1 ∧ (u.drop res)[j]? = some 0 ∧ ∀ i, i < j → (u.drop res)[i]? ≠ some 0) ∧
    (nulFrom u res = none → 0 ∉ u.drop res) := by
  unfold nulFrom
  constructor
  · intro r hr
    split at hr
    · simp at hr
    · rename_i j hj
      injection hr with hr
      refine ⟨j, hr.symm, ?_⟩
      rw [List.findIdx?_eq_some_iff_getElem] at hj
      obtain ⟨h1, h2, h3⟩ := hj
      refine ⟨?_, fun i hi => ?_⟩
      · rw [List.getElem?_eq_getElem h1]
        simpa using h2
      · have := h3 i hi
        rw [List.getElem?_eq_getElem (by omega)]
        simpa using this
  · intro hr
    split at hr
    · rename_i h
      rw [List.findIdx?_eq_none_iff] at h
      intro h0
      simpa using h 0 h0
    · simp at hr

theorem findNul_spec {l : List Nat} :
    (∀ j, l.findIdx? (· = 0) = some j → l[j]? = some 0 ∧ ∀ i, i < j → l[i]? ≠ some 0) ∧
    (l.findIdx? (· = 0) = none → 0 ∉ l) := by
  have := @nulFrom_spec l 0
  unfold nulFrom at this
  constructor
  · intro j hj
    obtain ⟨j', h1, h2⟩ := this.1 (0 + j + 1) (by simp [hj])
    have : j' = j := by omega
    subst this
    simpa using h2
  · intro h
    have h2 := this.2 (by simp [h])
    simpa using h2

/-- `a + j` is the first NUL at or after `a` -/
def FirstNul (mem : Mem) (a j : Nat) : Prop := mem (a + j) = some 0 ∧ ∀ i, i < j → ∃ b, mem (a + i) = some b ∧ b ≠ 0

/-- bytes read so far contain no NUL -/
theorem clean_get {mem : Mem} {a : Nat} {l : List Nat} (h : At mem a l) (h0 : 0 ∉ l) {i : Nat} (hi : i < l.length) :
    ∃ b, mem (a + i) = some b ∧ b ≠ 0 := by
  refine ⟨l[i], by rw [h i hi, List.getElem?_eq_getElem hi], fun hb => h0 ?_⟩
  rw [← hb]; exact List.getElem_mem hi

theorem firstNul_append {mem : Mem} {a : Nat} {acc l : List Nat} (h1 : At mem a acc) (h0 : 0 ∉ acc)
    (h2 : At mem (a + acc.length) l) {j : Nat} (hj : l[j]? = some 0) (hlt : ∀ i, i < j → l[i]? ≠ some 0) :
    FirstNul mem a (acc.length + j) := by
  have hjl : j < l.length := by
    rcases Nat.lt_or_ge j l.length with h | h
    · exact h
    · rw [List.getElem?_eq_none h] at hj; simp at hj
  refine ⟨?_, fun i hi => ?_⟩
  · rw [← Nat.add_assoc, h2 j hjl]; exact hj
  · by_cases hc : i < acc.length
    · exact clean_get h1 h0 hc
    · have hm := h2 (i - acc.length) (by omega)
      rw [show a + acc.length + (i - acc.length) = a + i from by omega,
        List.getElem?_eq_getElem (by omega)] at hm
      have h3 := hlt (i - acc.length) (by omega)
      rw [List.getElem?_eq_getElem (by omega)] at h3
      exact ⟨_, hm, fun h => h3 (by rw [h])⟩

/-- the word-by-word loop -/
theorem strPeekLoop_spec {P W : Nat} (hz : Sizes P W) (n : Nat) (s : Sys) (hp : Paged P s.mem)
    (addr residue len : Nat) (acc : List Nat) (addr0 : Nat) (hn : len ≤ n) (hr : residue < W)
    (hpos : len ≠ 0 → pageOf W addr + residue = addr0 + acc.length)
    (htop : addr0 + acc.length + len ≤ 2 ^ 64) (hacc : At s.mem addr0 acc) (hclean : 0 ∉ acc) :
    ∃ s' out, strPeekLoop W n s addr residue len acc = some (s', out) ∧ Same s s' ∧
      (∀ c l, out = .ret c l → At s.mem addr0 l ∧ l.length ≤ acc.length + len ∧
        (c = 0 → l.length = acc.length + len ∧ 0 ∉ l) ∧
        (c ≠ 0 → ∃ j, FirstNul s.mem addr0 j ∧ acc.length ≤ j ∧ min (j + 1) (acc.length + len) ≤ l.length ∧
          c = j + 1 + (if j < acc.length + W - residue then residue else 0) ∧
          (residue = 0 → len % W = 0 → j < acc.length + len))) ∧
      (out = .fail → Willing s → ∃ i, i < len ∧ s.mem (addr0 + acc.length + i) = none ∧
        ∀ j, j < acc.length + i → ∃ b, s.mem (addr0 + j) = some b ∧ b ≠ 0) := by
  have hW := hz.wpos
  induction n generalizing s addr residue len acc with
  | zero =>
    have : len = 0 := by omega
    subst this
    refine ⟨s, .ret 0 acc, by simp [strPeekLoop], Same.refl s, ?_, fun h => (by simp at h)⟩
    intro c l hl
    injection hl with hc hl
    subst hc hl
    exact ⟨hacc, by omega, fun _ => ⟨rfl, hclean⟩, fun h => absurd rfl h⟩
  | succ n ih =>
    unfold strPeekLoop
    by_cases hl0 : len = 0
    · rw [if_pos hl0]
      refine ⟨s, .ret 0 acc, rfl, Same.refl s, ?_, fun h => (by simp at h)⟩
      intro c l hl
      injection hl with hc hl
      subst hc hl
      exact ⟨hacc, by omega, fun _ => ⟨by omega, hclean⟩, fun h => absurd rfl h⟩
    · rw [if_neg hl0]
      have hpos' := hpos hl0
      obtain ⟨s', r, h1, h2, h3, h4⟩ := peek_spec hz s hp (pageOf W addr) (pageOf_mod W addr)
      rw [h1]
      cases r with
      | fail e =>
        simp only
        refine ⟨_, _, rfl, h2, fun c l hl => (by simp at hl), fun _ hw => ⟨0, by omega, ?_, ?_⟩⟩
        · have := h4 e rfl hw residue hr
          rwa [hpos'] at this
        · intro j hj
          exact clean_get hacc hclean (by omega)
      | ok u =>
        simp only
        obtain ⟨hu1, hu2⟩ := h3 u rfl
        have hulen : ((u.drop residue).take (min (W - residue) len)).length = min (W - residue) len := by
          rw [List.length_take, List.length_drop]; omega
        have hat := At_drop_take hu2 residue (min (W - residue) len)
        rw [hpos'] at hat
        have hatw := At_drop_take hu2 residue W
        rw [hpos', List.take_of_length_le (by rw [List.length_drop]; omega)] at hatw
        cases hnul : nulFrom u residue with
        | some r =>
          obtain ⟨j, hj1, hj2, hj3⟩ := nulFrom_spec.1 r hnul
          have hjl : j < W - residue := by
            rcases Nat.lt_or_ge j (u.drop residue).length with h | h
            · rw [List.length_drop] at h; omega
            · rw [List.getElem?_eq_none h] at hj2; simp at hj2
          simp only
          refine ⟨_, _, rfl, h2, ?_, fun h => (by simp at h)⟩
          intro c l hl
          injection hl with hc hl
          subst hc hl
          refine ⟨At_append hacc hat, by rw [List.length_append, hulen]; omega, fun h => absurd h (by omega), fun _ => ?_⟩
          refine ⟨acc.length + j, firstNul_append hacc hclean hatw hj2 hj3, by omega, ?_, ?_, ?_⟩
          · rw [List.length_append, hulen]; omega
          · rw [if_pos (by omega)]; omega
          · intro hr0 hlm
            have : W ≤ len := by
              obtain ⟨q, hq⟩ := Nat.dvd_of_mod_eq_zero hlm
              cases q with
              | zero => omega
              | succ q => rw [hq, Nat.mul_add]; omega
            omega
        | none =>
          simp only
          have hcl := nulFrom_spec.2 hnul
          have hnext : len - min (W - residue) len ≠ 0 →
              pageOf W ((pageOf W addr + W) % 2 ^ 64) + 0 =
                addr0 + (acc ++ (u.drop residue).take (min (W - residue) len)).length := by
            intro hne
            rw [List.length_append, hulen, Nat.mod_eq_of_lt (by omega)]
            have e1 : (pageOf W addr + W) % W = 0 := by rw [Nat.add_mod_right]; exact pageOf_mod W addr
            have e2 : pageOf W (pageOf W addr + W) = pageOf W addr + W := by
              have := pageOf_add hW e1 (i := 0) hW
              simpa using this
            omega
          obtain ⟨s2, out, g1, g2, g3, g4⟩ := ih s' (by rw [h2.mem]; exact hp) ((pageOf W addr + W) % 2 ^ 64) 0
            (len - min (W - residue) len) (acc ++ (u.drop residue).take (min (W - residue) len))
            (by omega) hW hnext (by rw [List.length_append, hulen]; omega)
            (by rw [h2.mem]; exact At_append hacc hat)
            (by
              rw [List.mem_append]
              rintro (h | h)
              · exact hclean h
              · exact hcl (List.mem_of_mem_take h))
          rw [h2.mem] at g3 g4
          rw [List.length_append, hulen] at g3 g4
          refine ⟨s2, out, g1, h2.trans g2, fun c l hl => ?_, fun ho hw => ?_⟩
          · obtain ⟨a1, a2, a3, a4⟩ := g3 c l hl
            refine ⟨a1, by clear a3 a4; omega, fun hc => ⟨?_, (a3 hc).2⟩, fun hc => ?_⟩
            · clear a4
              have := (a3 hc).1; omega
            · obtain ⟨j, b1, b2, b3, b4, b5⟩ := a4 hc
              clear a4
              refine ⟨j, b1, by omega, by omega, ?_, ?_⟩
              · have hc0 : c = j + 1 := by rw [b4]; split <;> rfl
                rw [hc0]
                -- an unaligned first word has been left behind
                by_cases hres : residue = 0
                · rw [hres]; split <;> rfl
                · by_cases hfull : W - residue ≤ len
                  · rw [if_neg (by omega)]
                  · -- the limit was reached: the loop ended
                    exfalso
                    have e0 : len - min (W - residue) len = 0 := by omega
                    rw [e0] at g1
                    have : strPeekLoop W n s' ((pageOf W addr + W) % 2 ^ 64) 0 0
                        (acc ++ (u.drop residue).take (min (W - residue) len)) =
                        some (s', .ret 0 (acc ++ (u.drop residue).take (min (W - residue) len))) := by
                      cases n <;> simp [strPeekLoop]
                    rw [this] at g1
                    injection g1 with g1
                    injection g1 with _ g1
                    rw [hl] at g1
                    injection g1 with g1 _
                    exact hc g1.symm
              · intro hr0 hlm
                subst hr0
                have hWl : W ≤ len := by
                  obtain ⟨q, hq⟩ := Nat.dvd_of_mod_eq_zero hlm
                  cases q with
                  | zero => omega
                  | succ q => rw [hq, Nat.mul_add]; omega
                have : (len - min (W - 0) len) % W = 0 := by
                  rw [show min (W - 0) len = W from by omega]
                  obtain ⟨q, hq⟩ := Nat.dvd_of_mod_eq_zero hlm
                  rw [hq, show W * q - W = W * (q - 1) from by rw [Nat.mul_sub, Nat.mul_one], Nat.mul_mod_right]
                have := b5 rfl this
                omega
          · obtain ⟨i, hi1, hi2, hi3⟩ := g4 ho (h2.toKeeps.willing hw)
            refine ⟨min (W - residue) len + i, by omega, ?_, ?_⟩
            · rwa [show addr0 + acc.length + (min (W - residue) len + i) =
                addr0 + (acc.length + min (W - residue) len) + i from by omega]
            · intro j hj
              exact hi3 j (by omega)

theorem chunkLen_eq {P : Nat} (hP : 0 < P) (addr len : Nat) (hlen : 0 < len) :
    chunkLen P addr len = min len (P - addr % P) := by
  unfold chunkLen
  have hmin : (if len > P then P else len) = min len P := by split <;> omega
  rw [hmin]
  have ho := Nat.mod_lt addr hP
  have hmod : (addr + min len P) % P = (addr % P + min len P) % P := (Nat.mod_add_mod _ _ _).symm
  rw [hmod]
  generalize addr % P = o at *
  generalize hc : min len P = c at *
  by_cases h : o + c < P
  · rw [Nat.mod_eq_of_lt h, if_neg (by omega)]; omega
  · have : (o + c) % P = o + c - P := by
      by_cases h2 : o + c - P < P
      · rw [Nat.mod_eq_sub_mod (by omega), Nat.mod_eq_of_lt h2]
      · have : o + c = P + P - 0 := by omega
        omega
    rw [this, if_pos (by omega)]; omega

/-- the fallback is word by word -/
theorem umovestrPeek_spec {P W : Nat} (hz : Sizes P W) (s : Sys) (hp : Paged P s.mem)
    (addr len : Nat) (htop : addr + len ≤ 2 ^ 64) :
    ∃ s' out, umovestrPeek W s addr len = some (s', out) ∧ Same s s' ∧
      (∀ c l, out = .ret c l → At s.mem addr l ∧ l.length ≤ len ∧ (c = 0 → l.length = len ∧ 0 ∉ l) ∧
        (c ≠ 0 → ∃ j, FirstNul s.mem addr j ∧ min (j + 1) len ≤ l.length ∧
          c = j + 1 + (if j < W - addr % W then addr % W else 0) ∧
          (addr % W = 0 → len % W = 0 → j < len))) ∧
      (out = .fail → Willing s → ∃ i, i < len ∧ s.mem (addr + i) = none ∧
        ∀ j, j < i → ∃ b, s.mem (addr + j) = some b ∧ b ≠ 0) := by
  have hW := hz.wpos
  obtain ⟨s', out, h1, h2, h3, h4⟩ := strPeekLoop_spec hz len s hp addr (addr % W) len [] addr
    (Nat.le_refl _) (Nat.mod_lt _ hW)
    (fun _ => by unfold pageOf; have := Nat.mod_le addr W; simp; omega) (by simpa using htop) (At_nil _ _) (by simp)
  refine ⟨s', out, h1, h2, fun c l hl => ?_, fun ho hw => ?_⟩
  · obtain ⟨a1, a2, a3, a4⟩ := h3 c l hl
    simp only [List.length_nil, Nat.zero_add] at a2 a3 a4
    refine ⟨a1, a2, a3, fun hc => ?_⟩
    obtain ⟨j, b1, _, b3, b4, b5⟩ := a4 hc
    exact ⟨j, b1, b3, b4, b5⟩
  · simpa using h4 ho hw

/-- no kernel call answers `ENOSYS` or `EPERM` -/
def NoFallback (s : Sys) : Prop := s.noReadv = false ∧ ∀ k e, s.oracle k = some e → e ≠ .ENOSYS ∧ e ≠ .EPERM

/-- what a string read reports is right -/
def StrSpec (s : Sys) (addr len : Nat) (out : Str) : Prop :=
  (∀ c l, out = .ret c l → StrOk s.mem addr len c l) ∧
  (out = .fail → Willing s → ∃ i, i < len ∧ s.mem (addr + i) = none ∧
    ∀ j, j < i → ∃ b, s.mem (addr + j) = some b ∧ b ≠ 0)

theorem firstNul_strOk {mem : Mem} {a len j : Nat} {l : List Nat} (h : FirstNul mem a j) (hat : At mem a l)
    (hl : l.length ≤ len) (hj : j < l.length) : StrOk mem a len (j + 1) l :=
  ⟨hat, hl, fun h => absurd h (by omega), fun _ => ⟨by omega, h.1, fun i hi => by
    obtain ⟨b, h1, h2⟩ := h.2 i (by omega)
    rw [h1]; simpa using h2⟩⟩

theorem strLoop_spec {P W : Nat} (hz : Sizes P W) (n : Nat) (s : Sys) (hi : Inv P s) (hp : Paged P s.mem)
    (addr len : Nat) (acc : List Nat) (addr0 : Nat) (hn : len ≤ n) (hlen : len < 2 ^ 32)
    (hpos : len ≠ 0 → addr = addr0 + acc.length) (htop : addr0 + acc.length + len ≤ 2 ^ 64)
    (hacc : At s.mem addr0 acc) (hclean : 0 ∉ acc)
    (hfb : (addr0 % W = 0 ∧ (acc.length + len) % W = 0) ∨ (∀ k e, s.oracle k = some e → fallsBack e = false)) :
    ∃ s' out, strLoop P W n s addr len acc = some (s', out) ∧ Keeps s s' ∧ Inv P s' ∧
      StrSpec s addr0 (acc.length + len) out := by
  have hP := hz.ppos
  induction n generalizing s addr len acc with
  | zero =>
    have : len = 0 := by omega
    subst this
    refine ⟨s, .ret 0 acc, by simp [strLoop], Keeps.refl s, hi, ?_, fun h => (by simp at h)⟩
    intro c l hl
    injection hl with hc hl
    subst hc hl
    exact ⟨hacc, by omega, fun _ => ⟨rfl, hclean⟩, fun h => absurd rfl h⟩
  | succ n ih =>
    unfold strLoop
    by_cases hl0 : len = 0
    · rw [if_pos hl0]
      refine ⟨s, .ret 0 acc, rfl, Keeps.refl s, hi, ?_, fun h => (by simp at h)⟩
      intro c l hl
      injection hl with hc hl
      subst hc hl
      exact ⟨hacc, by omega, fun _ => ⟨by omega, hclean⟩, fun h => absurd rfl h⟩
    · rw [if_neg hl0]
      have haddr := hpos hl0
      have hck := chunkLen_eq (P := P) (by omega) addr len (by omega)
      have hom := Nat.mod_lt addr (show 0 < P by omega)
      obtain ⟨s', r, h1, h2, h3, h4⟩ := vmRead_spec hz s hi hp addr (chunkLen P addr len) (by omega) (by omega) (by omega)
      rw [h1]
      cases r with
      | ok l =>
        obtain ⟨a1, a2, a3, a4⟩ := h4.ok l rfl
        simp only
        rw [if_neg (show ¬ l.length = 0 from by omega)]
        rw [haddr] at a1
        cases hf : l.findIdx? (· = 0) with
        | some j =>
          obtain ⟨b1, b2⟩ := findNul_spec.1 j hf
          have hjl : j < l.length := by
            rcases Nat.lt_or_ge j l.length with h | h
            · exact h
            · rw [List.getElem?_eq_none h] at b1; simp at b1
          refine ⟨_, _, rfl, h2, h3, ?_, fun h => (by simp at h)⟩
          intro c l' hl'
          injection hl' with hc hl'
          subst hc hl'
          exact firstNul_strOk (firstNul_append hacc hclean a1 b1 b2) (At_append hacc a1)
            (by rw [List.length_append]; omega) (by rw [List.length_append]; omega)
        | none =>
          have hcl := findNul_spec.2 hf
          simp only
          obtain ⟨s2, out, g1, g2, g3, g4⟩ := ih s' h3 (by rw [h2.mem]; exact hp) ((addr + l.length) % 2 ^ 64)
            (len - l.length) (acc ++ l) (by omega) (by omega)
            (fun hne => by rw [List.length_append, Nat.mod_eq_of_lt (by omega)]; omega)
            (by rw [List.length_append]; omega)
            (by rw [h2.mem]; exact At_append hacc a1)
            (by
              rw [List.mem_append]
              rintro (h | h)
              · exact hclean h
              · exact hcl h)
            (by
              rw [h2.oracle, List.length_append]
              rcases hfb with h | h
              · left
                rw [show acc.length + l.length + (len - l.length) = acc.length + len from by omega]; exact h
              · right; exact h)
          rw [List.length_append, show acc.length + l.length + (len - l.length) = acc.length + len from by omega] at g4
          refine ⟨s2, out, g1, h2.trans g2, g3, ?_, ?_⟩
          · rw [← h2.mem]; exact g4.1
          · intro ho hw
            have := g4.2 ho (h2.willing hw)
            rwa [h2.mem] at this
      | fail e =>
        simp only
        have hfail : Willing s → ∃ i, i < acc.length + len ∧ s.mem (addr0 + i) = none ∧
            ∀ j, j < i → ∃ b, s.mem (addr0 + j) = some b ∧ b ≠ 0 := by
          intro hw
          refine ⟨acc.length, by omega, ?_, fun j hj => clean_get hacc hclean hj⟩
          rw [← haddr]; exact h4.fail e rfl hw
        by_cases hc : fallsBack e = true ∧ acc.length = 0
        · rw [if_pos hc]
          have hacc0 : acc = [] := List.length_eq_zero_iff.mp hc.2
          subst hacc0
          simp only [List.length_nil, Nat.add_zero, Nat.zero_add] at *
          subst haddr
          obtain ⟨s2, out, g1, g2, g3, g4⟩ := umovestrPeek_spec hz s' (by rw [h2.mem]; exact hp) addr len htop
          rw [h2.mem] at g3 g4
          refine ⟨s2, out, g1, h2.trans g2.toKeeps, g2.inv h3, ?_, fun ho hw => g4 ho (h2.willing hw)⟩
          intro c l hl
          obtain ⟨a1, a2, a3, a4⟩ := g3 c l hl
          by_cases hc0 : c = 0
          · exact ⟨a1, a2, a3, fun h => absurd hc0 h⟩
          · obtain ⟨j, b1, b3, b4, b5⟩ := a4 hc0
            clear a4
            rcases hfb with ⟨f1, f2⟩ | f
            · have := b5 f1 f2
              have e1 : c = j + 1 := by rw [b4, f1]; split <;> rfl
              rw [e1]
              exact firstNul_strOk b1 a1 a2 (by omega)
            · exfalso
              -- the failure came from the kernel, which never asks for the fallback
              have : ∃ k, s.oracle k = some e ∨ e = .EFAULT := by
                unfold vmRead at h1
                rw [if_neg (show ¬ chunkLen P addr len = 0 from by omega)] at h1
                have hpr : ∀ a m (t : Sys), (processRead s a m) = (t, .fail e) →
                    ∃ k, s.oracle k = some e ∨ e = .EFAULT := by
                  intro a m t h
                  unfold processRead readv at h
                  cases ho : s.oracle s.calls with
                  | some e' =>
                    rw [ho] at h
                    simp only [Prod.mk.injEq, Res.fail.injEq] at h
                    exact ⟨s.calls, Or.inl (by rw [ho, h.2])⟩
                  | none =>
                    rw [ho] at h
                    by_cases hcc : m ≠ 0 ∧ run s.mem a m = []
                    · simp only [if_pos hcc, Prod.mk.injEq, Res.fail.injEq] at h
                      exact ⟨0, Or.inr h.2.symm⟩
                    · simp only [if_neg hcc, Prod.mk.injEq] at h
                      exact absurd h.2 (by simp)
                split at h1
                · injection h1 with h1
                  exact hpr _ _ _ h1
                · cases hcn : chunkLen P addr len with
                  | zero => omega
                  | succ m =>
                    rw [hcn] at h1
                    unfold readLoop at h1
                    have hone : m + 1 ≤ P - (addr - pageOf P addr) := by
                      unfold pageOf; omega
                    unfold fetch at h1
                    cases hlk : lookup s (pageOf P addr) with
                    | some i =>
                      rw [hlk] at h1
                      simp only at h1
                      cases hb : s.buf[i]? with
                      | none => rw [hb] at h1; simp at h1
                      | some b =>
                        rw [hb] at h1
                        simp only at h1
                        rw [if_pos hone] at h1
                        simp at h1
                    | none =>
                      rw [hlk] at h1
                      simp only at h1
                      cases hpe : processRead s (pageOf P addr) P with
                      | mk t rr =>
                        rw [hpe] at h1
                        cases rr with
                        | fail e' =>
                          simp at h1
                          exact hpr _ _ t (by rw [hpe, h1.2])
                        | ok b =>
                          simp only at h1
                          split at h1
                          · simp at h1
                          · rename_i h; split at h <;> simp at h
                          · rename_i h
                            rw [if_pos hone] at h1
                            simp at h1
              obtain ⟨k, hk | hk⟩ := this
              · have := f k e hk
                rw [this] at hc; simp at hc
              · rw [hk] at hc; simp [fallsBack] at hc
        · rw [if_neg hc]
          exact ⟨_, _, rfl, h2, h3, fun c l h => (by simp at h), fun _ hw => hfail hw⟩

/-- **C20 (partial).**  A string read returns the bytes up to the first NUL with its place, or all `len`
bytes without a NUL; it fails only at an inaccessible byte before any NUL.  Proved when the kernel offers
`process_vm_readv`, or when address and limit are multiples of the word; false otherwise
(`umovestr_wrong_count`, `umovestr_beyond_limit`). -/
theorem umovestr_spec_partial {P W : Nat} (hz : Sizes P W) (w4 : Bool) (s : Sys) (hi : Inv P s) (hp : Paged P s.mem)
    (addr len : Nat) (hlen : len < 2 ^ 31) (htop : addr + len ≤ 2 ^ 64) (hv : ¬ (w4 = true ∧ 2 ^ 32 ≤ addr))
    (hfb : NoFallback s ∨ (addr % W = 0 ∧ len % W = 0)) :
    ∃ s' out, umovestr P W w4 s addr len = some (s', out) ∧ Keeps s s' ∧ Inv P s' ∧ StrSpec s addr len out := by
  unfold umovestr
  rw [if_neg (show ¬ addrInvalid w4 addr = true from by unfold addrInvalid; simpa using hv)]
  by_cases hr : s.noReadv = true
  · rw [if_pos hr]
    rcases hfb with h | ⟨f1, f2⟩
    · rw [h.1] at hr; simp at hr
    · obtain ⟨s2, out, g1, g2, g3, g4⟩ := umovestrPeek_spec hz s hp addr len htop
      refine ⟨s2, out, g1, g2.toKeeps, g2.inv hi, ?_, g4⟩
      intro c l hl
      obtain ⟨a1, a2, a3, a4⟩ := g3 c l hl
      by_cases hc0 : c = 0
      · exact ⟨a1, a2, a3, fun h => absurd hc0 h⟩
      · obtain ⟨j, b1, b3, b4, b5⟩ := a4 hc0
        clear a4
        have := b5 f1 f2
        have e1 : c = j + 1 := by rw [b4, f1]; split <;> rfl
        rw [e1]
        exact firstNul_strOk b1 a1 a2 (by omega)
  · rw [if_neg hr]
    have := strLoop_spec hz len s hi hp addr len [] addr (Nat.le_refl _) (by omega) (fun _ => by simp)
      (by simpa using htop) (At_nil _ _) (by simp)
      (by
        rcases hfb with h | h
        · right
          intro k e hk
          obtain ⟨h1, h2⟩ := h.2 k e hk
          cases e <;> simp_all [fallsBack]
        · left; simpa using h)
    simpa using this

/-- **C20, the word-by-word path.**  The bytes are always right; the count is the place of the NUL plus the
misalignment of the address when the NUL is in the first word, and the NUL may lie beyond the limit. -/
theorem umovestr_peek_count {P W : Nat} (hz : Sizes P W) (s : Sys) (hp : Paged P s.mem) (hr : s.noReadv = true)
    (w4 : Bool) (addr len : Nat) (htop : addr + len ≤ 2 ^ 64) (hv : ¬ (w4 = true ∧ 2 ^ 32 ≤ addr))
    (s' : Sys) (c : Nat) (l : List Nat) (h : umovestr P W w4 s addr len = some (s', .ret c l)) :
    At s.mem addr l ∧ (c = 0 → l.length = len ∧ 0 ∉ l) ∧
      (c ≠ 0 → ∃ j, FirstNul s.mem addr j ∧ c = j + 1 + (if j < W - addr % W then addr % W else 0)) := by
  unfold umovestr at h
  rw [if_neg (show ¬ addrInvalid w4 addr = true from by unfold addrInvalid; simpa using hv), if_pos hr] at h
  obtain ⟨s2, out, g1, g2, g3, g4⟩ := umovestrPeek_spec hz s hp addr len htop
  rw [h] at g1
  simp only [Option.some.injEq, Prod.mk.injEq] at g1
  obtain ⟨a1, a2, a3, a4⟩ := g3 c l g1.2.symm
  refine ⟨a1, a3, fun hc => ?_⟩
  obtain ⟨j, b1, _, b4, _⟩ := a4 hc
  exact ⟨j, b1, b4⟩

/-- a kernel without `process_vm_readv` and memory full of 'A' except for a NUL at `z` -/
def oldKernel (z : Nat) : Sys :=
  ⟨fun a => if a < 2 ^ 32 then some (if a = z then 0 else 65) else none, fun _ => none, fun _ => 0, 0, true, true,
    none, [0, 0, 0, 0], [[], [], [], []]⟩

/-- the count of a string read -/
def count : Option (Sys × Str) → Option Nat
  | some (_, .ret c _) => some c
  | _ => none

/-- **Finding.**  Without `process_vm_readv`, "A" at address 4101 is reported as 7 bytes long with its NUL. -/
theorem umovestr_wrong_count : count (umovestr 4096 8 false (oldKernel 4102) 4101 100) = some 7 := by decide +kernel

/-- **Finding.**  A NUL outside the limit is reported: the third byte of a string read of two bytes. -/
theorem umovestr_beyond_limit : count (umovestr 4096 8 false (oldKernel 4098) 4096 2) = some 3 := by decide +kernel

example : count (umovestr 4096 8 false { oldKernel 8300 with noReadv := false } 4101 10000) = some 4200 := by
  decide +kernel

end Strace.UCopy
