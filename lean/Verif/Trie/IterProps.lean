import Verif.Trie.Props
namespace Strace.Trie

/-! ### C18, iteration -/

/-- the keys from `s` to `e`, in order, that lie in an existing block, with their values -/
def visit (t : Trie) (r : Nat) (tr : Tree) (s e : Nat) : List (Nat × Nat) :=
  ((List.range' s (e + 1 - s)).filter (treeHas t.geo r tr)).map fun k => (k, treeVal t r tr k)

theorem leafLoop_eq (t : Trie) (hs : Sound t) (w : List Nat) (hw : w.length = blockWords t.geo) (n i : Nat) :
    leafLoop t w n i = some ((List.range' i n).map fun k => (k, blockVal t.geo w k)) := by
  induction n generalizing i with
  | zero => rfl
  | succ n ih =>
    rw [leafLoop, blockGet_val t hs i w hw]
    simp only
    rw [ih]
    simp [List.range'_succ]

theorem visit_length_le (t : Trie) (r : Nat) (tr : Tree) (s e : Nat) : (visit t r tr s e).length ≤ e + 1 - s := by
  unfold visit
  rw [List.length_map]
  refine Nat.le_trans (List.length_filter_le _ _) ?_
  simp

theorem visit_empty (t : Trie) (r : Nat) (tr : Tree) {s e : Nat} (h : e < s) : visit t r tr s e = [] := by
  unfold visit
  rw [show e + 1 - s = 0 from by omega]; rfl

theorem visit_null (t : Trie) (r : Nat) (s e : Nat) : visit t r .null s e = [] := by
  unfold visit
  have : (List.range' s (e + 1 - s)).filter (treeHas t.geo r .null) = [] := by
    apply List.filter_eq_nil_iff.mpr
    intro k _
    rw [(treeVal_null t r k).2]; simp
  rw [this]; rfl

theorem visit_split (t : Trie) (r : Nat) (tr : Tree) {a b e : Nat} (h1 : a ≤ b) (h2 : b ≤ e) :
    visit t r tr a e = visit t r tr a b ++ visit t r tr (b + 1) e := by
  unfold visit
  rw [← List.map_append, ← List.filter_append,
    show b + 1 = a + (b + 1 - a) from by omega,
    show e + 1 - (a + (b + 1 - a)) = e - b from by omega,
    show a + (b + 1 - a) - a = b + 1 - a from by omega,
    show e + 1 - a = (b + 1 - a) + (e - b) from by omega]
  congr 2
  exact List.range'_append_1.symm

theorem visit_kid (t : Trie) (r : Nat) (ch : List Tree) (c : Tree) {a b : Nat}
    (h : ∀ k, a ≤ k → k ≤ b → ch[childPos t.geo (maxDepth t.geo - (r + 1)) k]? = some c) :
    visit t (r + 1) (.node ch) a b = visit t r c a b := by
  unfold visit
  have hmem : ∀ k ∈ List.range' a (b + 1 - a), a ≤ k ∧ k ≤ b := by
    intro k hk
    rw [List.mem_range'_1] at hk
    omega
  have hf : (List.range' a (b + 1 - a)).filter (treeHas t.geo (r + 1) (.node ch)) =
      (List.range' a (b + 1 - a)).filter (treeHas t.geo r c) := by
    apply List.filter_congr
    intro k hk
    obtain ⟨h1, h2⟩ := hmem k hk
    exact (treeVal_kid t r ch k c (h k h1 h2)).2
  rw [hf]
  apply List.map_congr_left
  intro k hk
  obtain ⟨h1, h2⟩ := hmem k (List.mem_filter.mp hk).1
  rw [(treeVal_kid t r ch k c (h k h1 h2)).1]

theorem low_le (g : Geo) (hv : Valid g) (r : Nat) (hr : r ≤ maxDepth g) : low g r ≤ g.keySize := by
  rw [← low_max g hv]
  have : ∀ d, low g r ≤ low g (r + d) := by
    intro d
    induction d with
    | zero => exact Nat.le_refl _
    | succ d ih => rw [← Nat.add_assoc, low]; omega
  have h := this (maxDepth g - r)
  rwa [show r + (maxDepth g - r) = maxDepth g from by omega] at h

/-- the loop over the children, from child `i` on -/
theorem kidLoop_spec (t : Trie) (r : Nat) (hr : r < maxDepth t.geo) (ch : List Tree) (Q D s e si ei : Nat)
    (hD : D = 2 ^ low t.geo r) (hQ : Q % 2 ^ kb t.geo r = 0) (hei : ei < 2 ^ kb t.geo r)
    (hs : s / D = Q + si) (he : e / D = Q + ei) (htop : (Q + ei + 1) * D ≤ 2 ^ 64)
    (hlen : ∀ i, i ≤ ei → i < ch.length)
    (f : Tree → Nat → Nat → Calls)
    (hf : ∀ c ∈ ch, ∀ a b, s ≤ a → b ≤ e → a ≤ b → a / D = b / D → f c a b = some (visit t r c a b, (visit t r c a b).length))
    (n i : Nat) (hi : si ≤ i) (hn : n + i = ei + 1) (hsmall : e + 1 - s < 2 ^ 64) (hse : s ≤ e) :
    kidLoop f ch (Q * D) D s e n i =
      some (visit t (r + 1) (.node ch) (max s ((Q + i) * D)) e,
        (visit t (r + 1) (.node ch) (max s ((Q + i) * D)) e).length) := by
  have hDpos : 0 < D := by rw [hD]; exact Nat.two_pow_pos _
  induction n generalizing i with
  | zero =>
    have hlt : e < (Q + i) * D := by
      rw [← Nat.div_lt_iff_lt_mul hDpos, he]; omega
    rw [kidLoop, visit_empty t _ _ (by omega)]
    rfl
  | succ n ih =>
    have hil : i < ch.length := hlen i (by omega)
    have hA : (Q + i) * D ≤ e := by
      rw [← Nat.le_div_iff_mul_le hDpos, he]; omega
    have hB : s < (Q + i + 1) * D := by
      rw [← Nat.div_lt_iff_lt_mul hDpos, hs]; omega
    have hstep : (Q + i + 1) * D = (Q + i) * D + D := by rw [Nat.add_mul, Nat.one_mul]
    have hle64 : (Q + i + 1) * D ≤ 2 ^ 64 := Nat.le_trans (Nat.mul_le_mul_right D (by omega)) htop
    have e1 : Q * D + i * D = (Q + i) * D := by rw [Nat.add_mul]
    have e2 : Q * D + (i + 1) * D = (Q + i + 1) * D := by rw [← Nat.add_mul]; rfl
    rw [kidLoop, List.getElem?_eq_getElem hil, e1, e2]
    simp only
    rw [Nat.mod_eq_of_lt (by omega : (Q + i) * D < 2 ^ 64),
      show ((Q + i + 1) * D + (2 ^ 64 - 1)) % 2 ^ 64 = (Q + i + 1) * D - 1 from by omega]
    have hiq : ∀ k, (Q + i) * D ≤ k → k < (Q + i + 1) * D → k / D = Q + i := by
      intro k h1 h2
      have := (Nat.le_div_iff_mul_le hDpos).mpr h1
      have := (Nat.div_lt_iff_lt_mul hDpos).mpr h2
      omega
    have hrest := ih (i + 1) (by omega) (by omega)
    rw [show (Q + (i + 1)) * D = (Q + i + 1) * D from rfl] at hrest
    generalize hAe : (Q + i) * D = A at *
    generalize hBe : (Q + i + 1) * D = B at *
    have hab : max s A ≤ min e (B - 1) := by omega
    have hblk : max s A / D = min e (B - 1) / D := by
      have hBpos : A < B := by omega
      rw [hiq (max s A) (by omega) (by omega), hiq (min e (B - 1)) (by omega) (by omega)]
    have hkid : ∀ k, max s A ≤ k → k ≤ min e (B - 1) →
        ch[childPos t.geo (maxDepth t.geo - (r + 1)) k]? = some ch[i] := by
      intro k h1 h2
      have hk := hiq k (by omega) (by omega)
      rw [childPos_eq t.geo r hr, ← hD, hk]
      have : (Q + i) % 2 ^ kb t.geo r = i := by
        rw [Nat.add_mod, hQ, Nat.zero_add, Nat.mod_mod, Nat.mod_eq_of_lt (by omega)]
      rw [this, List.getElem?_eq_getElem hil]
    rw [hf ch[i] (List.getElem_mem hil) _ _ (by omega) (by omega) hab hblk]
    simp only
    rw [hrest]
    simp only
    rw [← visit_kid t r ch ch[i] hkid]
    have hcat : visit t (r + 1) (.node ch) (max s A) e =
        visit t (r + 1) (.node ch) (max s A) (min e (B - 1)) ++ visit t (r + 1) (.node ch) (max s B) e := by
      rw [visit_split t (r + 1) (.node ch) hab (by omega)]
      congr 1
      by_cases hc : B - 1 ≤ e
      · rw [show min e (B - 1) + 1 = max s B from by omega]
      · rw [visit_empty t _ _ (by omega), visit_empty t _ _ (by omega)]
    rw [hcat, List.length_append]
    have h1 := visit_length_le t (r + 1) (.node ch) (max s A) e
    rw [hcat, List.length_append] at h1
    rw [Nat.mod_eq_of_lt (by omega)]

theorem iterNode_spec (t : Trie) (hs : Sound t) (r : Nat) (hr : r ≤ maxDepth t.geo) (tr : Tree) (hwf : WF t.geo r tr)
    (s e : Nat) (he : e < 2 ^ t.geo.keySize) (hne : e ≠ 2 ^ 64 - 1) (hse : s ≤ e)
    (hblk : s / 2 ^ low t.geo r = e / 2 ^ low t.geo r) :
    iterNode t r tr s e = some (visit t r tr s e, (visit t r tr s e).length) := by
  have hk64 : 2 ^ t.geo.keySize ≤ 2 ^ 64 := Nat.pow_le_pow_right (by omega) hs.geo.key
  have hclip : clip t.geo e = e := by
    unfold clip
    split
    · rw [if_neg (by omega)]
    · rfl
  induction r generalizing tr s e with
  | zero =>
    cases tr with
    | null => rw [visit_null]; rfl
    | node _ => exact hwf.elim
    | data w =>
      rw [iterNode, if_neg (by omega), hclip, leaf, if_neg (fun h => hne h.2), leafLoop_eq t hs w hwf]
      simp only
      have hv : visit t 0 (.data w) s e = (List.range' s (e + 1 - s)).map fun k => (k, blockVal t.geo w k) := by
        unfold visit
        have : (List.range' s (e + 1 - s)).filter (treeHas t.geo 0 (.data w)) = List.range' s (e + 1 - s) := by
          apply List.filter_eq_self.mpr
          intro k _; rfl
        rw [this]; rfl
      rw [hv, List.length_map, List.length_range']
      congr 2
      omega
  | succ r ih =>
    cases tr with
    | null => rw [visit_null]; rfl
    | data _ => exact hwf.elim
    | node ch =>
      rw [iterNode, if_neg (by omega)]
      simp only
      rw [hclip, nodeBitOffs_eq t.geo r (by omega), parentOffs_eq t.geo hs.geo r (by omega),
        show low t.geo (r + 1) - low t.geo r = kb t.geo r from by rw [low]; omega]
      have hP : (2 : Nat) ^ low t.geo (r + 1) = 2 ^ low t.geo r * 2 ^ kb t.geo r := by rw [low, Nat.pow_add]
      have hDpos := Nat.two_pow_pos (low t.geo r)
      have hKpos := Nat.two_pow_pos (kb t.geo r)
      have hlow := low_le t.geo hs.geo (r + 1) hr
      have htop : (s / 2 ^ low t.geo (r + 1) + 1) * 2 ^ low t.geo (r + 1) ≤ 2 ^ t.geo.keySize := by
        have : s / 2 ^ low t.geo (r + 1) < 2 ^ (t.geo.keySize - low t.geo (r + 1)) := by
          rw [Nat.div_lt_iff_lt_mul (Nat.two_pow_pos _), ← Nat.pow_add, Nat.sub_add_cancel hlow]
          omega
        have h2 := Nat.mul_le_mul_right (2 ^ low t.geo (r + 1)) this
        rwa [← Nat.pow_add, Nat.sub_add_cancel hlow] at h2
      have hplen : 2 ^ kb t.geo r ≤ ch.length := by
        rw [hwf.1]
        unfold nodePtrs
        have h1 := nodeSize_eq t.geo r (by omega)
        have h2 : nodeSize t.geo (maxDepth t.geo - (r + 1)) = kb t.geo r + 6 := by
          have : ptrLg ≤ nodeSize t.geo (maxDepth t.geo - (r + 1)) := by
            unfold nodeSize
            rw [if_neg (by omega)]
            split <;> omega
          unfold ptrLg at *
          omega
        rw [h2, Nat.pow_add]
        omega
      have hf := fun (c : Tree) (hc : c ∈ ch) (a b : Nat) (h1 : s ≤ a) (h2 : b ≤ e) (h3 : a ≤ b) h4 =>
        ih (by omega) c (hwf.2 c hc) a b (by omega) (by omega) h3 h4
          (by unfold clip
              split
              · rw [if_neg (by omega)]
              · rfl)
      generalize hKe : (2 : Nat) ^ kb t.geo r = K at *
      generalize hDe : (2 : Nat) ^ low t.geo r = D at *
      rw [hP] at hblk htop ⊢
      have hsq : s / D = s / (D * K) * K + s / D % K := by
        rw [← Nat.div_div_eq_div_mul, Nat.mul_comm, Nat.div_add_mod]
      have heq : e / D = s / (D * K) * K + e / D % K := by
        rw [hblk, ← Nat.div_div_eq_div_mul, Nat.mul_comm, Nat.div_add_mod]
      have hei : e / D % K < K := Nat.mod_lt _ hKpos
      have hsi : s / D % K < K := Nat.mod_lt _ hKpos
      have hsile : s / D ≤ e / D := Nat.div_le_div_right hse
      generalize hQe : s / (D * K) = Q' at *
      generalize s / D % K = si at *
      generalize e / D % K = ei at *
      have hfirst : s - s % (D * K) = Q' * K * D := by
        have := Nat.mod_add_div s (D * K)
        rw [hQe] at this
        have e1 : D * K * Q' = Q' * K * D := by rw [Nat.mul_comm, Nat.mul_comm D K, Nat.mul_assoc]
        omega
      rw [hfirst]
      have := kidLoop_spec t r (by omega) ch (Q' * K) D s e si ei hDe.symm
        (by rw [hKe]; exact Nat.mul_mod_left _ _) (by rw [hKe]; exact hei) hsq heq
        (by
          refine Nat.le_trans ?_ (Nat.le_trans htop hk64)
          rw [Nat.mul_comm D K, ← Nat.mul_assoc]
          apply Nat.mul_le_mul_right
          rw [Nat.add_mul, Nat.one_mul]; omega)
        (fun i hi => by omega) (iterNode t r) hf (ei + 1 - si) si (Nat.le_refl _) (by omega)
        (by omega) hse
      rw [this]
      have : max s ((Q' * K + si) * D) = s := by
        have : (Q' * K + si) * D ≤ s := by
          rw [← hsq]; exact Nat.div_mul_le_self s D
        omega
      rw [this]

/-- whether the data block of a key has been created -/
def hasBlock (t : Trie) (k : Nat) : Bool := treeHas t.geo (maxDepth t.geo) t.root k

/-- **C18 (iteration).**  The callback is run exactly once, in increasing order, for each key of the range
(cut to the key size) whose block exists, with the value `get` returns; the result is the number of
callbacks.  `none` cannot occur. -/
theorem iterate_spec_partial (t : Trie) (hg : Good t) (s e : Nat) (hs : s < 2 ^ t.geo.keySize)
    (he : e < 2 ^ 64) (hne : min e (2 ^ t.geo.keySize - 1) ≠ 2 ^ 64 - 1) :
    ∃ calls, iterate t s e = some (calls, calls.length) ∧
      calls.map (·.1) = (List.range' s (min e (2 ^ t.geo.keySize - 1) + 1 - s)).filter (hasBlock t) ∧
      ∀ p ∈ calls, get t p.1 = some p.2 := by
  have hk64 : 2 ^ t.geo.keySize ≤ 2 ^ 64 := Nat.pow_le_pow_right (by omega) hg.sound.geo.key
  have hclip : clip t.geo e = min e (2 ^ t.geo.keySize - 1) := by
    unfold clip
    split
    · split <;> omega
    · have : t.geo.keySize = 64 := by have := hg.sound.geo.key; omega
      rw [this]; omega
  by_cases hse : s ≤ e
  · have hclip2 : iterate t s e = iterate t s (clip t.geo e) := by
      have hcc : clip t.geo (clip t.geo e) = clip t.geo e := by
        unfold clip
        split
        · split
          · simp
          · rfl
        · rfl
      have hse' : ¬ s > clip t.geo e := by rw [hclip]; omega
      unfold iterate
      cases maxDepth t.geo with
      | zero =>
        cases t.root with
        | null => rfl
        | data w => simp only [iterNode]; rw [hcc, if_neg (by omega), if_neg hse']
        | node ch => simp only [iterNode]; rw [if_neg (by omega), if_neg hse']
      | succ r =>
        cases t.root with
        | null => rfl
        | data w => simp only [iterNode]; rw [if_neg (by omega), if_neg hse']
        | node ch => simp only [iterNode]; rw [hcc, if_neg (by omega), if_neg hse']
    rw [hclip] at hclip2
    rw [hclip2]
    refine ⟨visit t (maxDepth t.geo) t.root s (min e (2 ^ t.geo.keySize - 1)), ?_, ?_, ?_⟩
    · apply iterNode_spec t hg.sound _ (Nat.le_refl _) t.root hg.wf s _ (by omega) hne (by omega)
      rw [low_max t.geo hg.sound.geo, Nat.div_eq_of_lt hs, Nat.div_eq_of_lt (by omega)]
    · unfold visit
      rw [List.map_map]
      conv => rhs; rw [← List.map_id (List.filter _ _)]
      rfl
    · intro p hp
      unfold visit at hp
      obtain ⟨k, hk, rfl⟩ := List.mem_map.mp hp
      have hk2 := (List.mem_filter.mp hk).1
      rw [List.mem_range'_1] at hk2
      rw [get_eq t hg k (by omega), if_pos (by omega)]
  · refine ⟨[], ?_, ?_, by simp⟩
    · unfold iterate
      cases maxDepth t.geo <;> cases t.root <;> simp only [iterNode] <;> first | rfl | (rw [if_pos (by omega)]; rfl)
    · rw [show min e (2 ^ t.geo.keySize - 1) + 1 - s = 0 from by omega]; rfl

theorem stores_has (t : Trie) (hg : Good t) (ops : List (Nat × Nat)) (hops : ∀ p ∈ ops, p.1 < 2 ^ 64) (t' : Trie)
    (h : stores t ops = some t') (k : Nat) (hk : k < 2 ^ t.geo.keySize) :
    hasBlock t' k = (hasBlock t k || ops.any (fun p => decide (p.1 < 2 ^ t.geo.keySize) &&
      decide (k / 2 ^ t.geo.dataBits = p.1 / 2 ^ t.geo.dataBits))) := by
  induction ops generalizing t with
  | nil => injection h with h; subst h; simp
  | cons p ops ih =>
    obtain ⟨key, val⟩ := p
    have hkey := hops (key, val) (by simp)
    simp only at hkey
    obtain ⟨t1, h1, hg1, hgeo, _, _⟩ := set_spec t hg key val hkey
    rw [stores, h1] at h
    have := ih t1 hg1 (fun p hp => hops p (by simp [hp])) h (by rw [hgeo]; exact hk)
    rw [this, hgeo, List.any_cons, ← Bool.or_assoc]
    congr 1
    by_cases hr : inRange t.geo key = true
    · have hlt := (inRange_iff hg.sound key hkey).mp hr
      obtain ⟨tr', h2, _, _, h3⟩ := updBlock_spec t hg.sound key val _ (Nat.le_refl _) t.root hg.wf
      unfold set at h1
      rw [if_pos hr, h2] at h1
      simp only [Option.some.injEq, Prod.mk.injEq] at h1
      rw [← h1.1]
      have := (h3 k (by rw [low_max t.geo hg.sound.geo, Nat.div_eq_of_lt hk, Nat.div_eq_of_lt hlt])).2
      unfold hasBlock
      simp only
      rw [this]
      simp [hlt]
    · have hlt : ¬ key < 2 ^ t.geo.keySize := fun h' => hr ((inRange_iff hg.sound key hkey).mpr h')
      unfold set at h1
      rw [if_neg hr] at h1
      simp only [Option.some.injEq, Prod.mk.injEq] at h1
      rw [← h1.1]
      simp [hlt]

/-- Every key in range that was ever stored is visited; a key not visited has the empty value. -/
theorem iterate_complete_partial (ks il nb db ev : Nat) (t : Trie) (h : create ks il nb db ev = some t)
    (ops : List (Nat × Nat)) (hops : ∀ p ∈ ops, p.1 < 2 ^ 64) (t' : Trie) (ht : stores t ops = some t')
    (s e : Nat) (hs : s < 2 ^ ks) (he : e < 2 ^ 64) (hne : min e (2 ^ ks - 1) ≠ 2 ^ 64 - 1) :
    ∃ calls, iterate t' s e = some (calls, calls.length) ∧ (calls.map (·.1)).Pairwise (· < ·) ∧
      (∀ p ∈ calls, s ≤ p.1 ∧ p.1 ≤ e ∧ p.1 < 2 ^ ks ∧ get t' p.1 = some p.2) ∧
      (∀ k v, (k, v) ∈ ops → k < 2 ^ ks → s ≤ k → k ≤ e → ∃ x, (k, x) ∈ calls) ∧
      (∀ k, s ≤ k → k ≤ e → k < 2 ^ ks → (∀ x, (k, x) ∉ calls) → get t' k = some (ev % 2 ^ (2 ^ il))) := by
  obtain ⟨hso, hroot, hgeo, hemp⟩ := create_sound h
  have hg : Good t := ⟨hso, by rw [hroot]; cases maxDepth t.geo <;> trivial⟩
  obtain ⟨t2, h2, hg2, hgeo2, hemp2, _⟩ := stores_spec t hg ops hops
  rw [ht] at h2
  injection h2 with h2
  subst h2
  have hks : t'.geo.keySize = ks := by rw [hgeo2, hgeo]
  have hk64 : 2 ^ ks ≤ 2 ^ 64 := by rw [← hks]; exact Nat.pow_le_pow_right (by omega) hg2.sound.geo.key
  obtain ⟨calls, hc1, hc2, hc3⟩ := iterate_spec_partial t' hg2 s e (by rw [hks]; exact hs) he (by rw [hks]; exact hne)
  rw [hks] at hc2
  have hmem : ∀ k, (∃ x, (k, x) ∈ calls) ↔ (s ≤ k ∧ k ≤ e ∧ k < 2 ^ ks ∧ hasBlock t' k = true) := by
    intro k
    have : (∃ x, (k, x) ∈ calls) ↔ k ∈ calls.map (·.1) := by
      rw [List.mem_map]
      constructor
      · rintro ⟨x, hx⟩; exact ⟨_, hx, rfl⟩
      · rintro ⟨⟨k', x⟩, hx, rfl⟩; exact ⟨x, hx⟩
    rw [this, hc2, List.mem_filter, List.mem_range'_1]
    constructor
    · rintro ⟨⟨h1, h2⟩, h3⟩; exact ⟨h1, by omega, by omega, h3⟩
    · rintro ⟨h1, h2, h3, h4⟩; exact ⟨⟨h1, by omega⟩, h4⟩
  refine ⟨calls, hc1, ?_, ?_, ?_, ?_⟩
  · rw [hc2]
    exact List.Pairwise.filter _ List.pairwise_lt_range'
  · intro p hp
    have := (hmem p.1).mp ⟨p.2, hp⟩
    exact ⟨this.1, this.2.1, this.2.2.1, hc3 p hp⟩
  · intro k v hkv hlt h1 h2
    rw [hmem]
    refine ⟨h1, h2, hlt, ?_⟩
    rw [stores_has t hg ops hops t' ht k (by rw [hgeo]; exact hlt)]
    rw [Bool.or_eq_true]
    right
    rw [List.any_eq_true]
    exact ⟨(k, v), hkv, by simp [hgeo, hlt]⟩
  · intro k h1 h2 hlt hno
    have hnb : ¬ hasBlock t' k = true := fun hb => by
      obtain ⟨x, hx⟩ := (hmem k).mpr ⟨h1, h2, hlt, hb⟩
      exact hno x hx
    rw [get_eq t' hg2 k (by omega), hks, if_pos hlt]
    unfold hasBlock treeHas at hnb
    unfold treeVal
    rw [hemp2] at *
    split
    · rename_i w hw; rw [hw] at hnb; simp at hnb
    · rw [hemp]

/-- **Finding.**  With 64-bit keys an iteration up to the largest key never ends once its block exists. -/
theorem iterate_endless : ((create 64 6 4 4 0).bind (stores · [(2 ^ 64 - 1, 1)])).bind (iterate · (2 ^ 64 - 2) (2 ^ 64 - 1)) = none := by
  decide +kernel

/-- **Finding.**  On a trie that is a single data block, a range beyond the keys returns a huge count. -/
theorem iterate_wrong_count :
    ((create 4 6 4 4 0).bind (stores · [(3, 1)])).bind (iterate · 20 30) = some ([], 2 ^ 64 - 4) := by
  decide +kernel

example : ((create 7 3 2 3 0).bind (stores · [(100, 5), (3, 7)])).bind (iterate · 2 101) =
    some ([(2, 0), (3, 7), (4, 0), (5, 0), (6, 0), (7, 0), (96, 0), (97, 0), (98, 0), (99, 0), (100, 5), (101, 0)], 12) := by
  decide +kernel

end Strace.Trie
