import Verif.Bits.SigProps
/-
C41: the result text of select.
-/
namespace Strace.Bits
open Strace.Base

/-! ### bounds -/

theorem selName_length (i : Nat) : (selName i).length ≤ 6 := by
  unfold selName; split
  · simp
  · split <;> simp

theorem selBit_bound (i : Nat) (first : Bool) (s : Sel) (j K : Nat) (hj : j < 10 ^ 10) (hK : 1018 ≤ K)
    (hs : s.out.length ≤ K) (hsep : s.sep.length ≤ 2) :
    ∃ r, selBit i first s j = some r ∧ r.1.out.length ≤ K ∧ r.1.sep.length ≤ 2 := by
  have hd := dec_length_le j 10 (by decide) hj
  have hn := selName_length i
  unfold selBit
  split
  · rename_i h
    split
    · rw [app_fits (by simp; omega)]
      refine ⟨_, rfl, ?_, ?_⟩
      · simp; omega
      · simp
    · rw [app_fits (by simp; omega)]
      refine ⟨_, rfl, ?_, hsep⟩
      simp; omega
  · exact ⟨_, rfl, hs, hsep⟩

theorem selBits_bound (i : Nat) (bits : List Nat) (first : Bool) (s : Sel) (K : Nat) (hb : ∀ j ∈ bits, j < 10 ^ 10)
    (hK : 1018 ≤ K) (hs : s.out.length ≤ K) (hsep : s.sep.length ≤ 2) :
    ∃ r, selBits i bits first s = some r ∧ r.out.length ≤ K ∧ r.sep.length ≤ 2 := by
  induction bits generalizing first s with
  | nil => exact ⟨s, rfl, hs, hsep⟩
  | cons j js ih =>
    obtain ⟨⟨s', f'⟩, h1, h2, h3⟩ := selBit_bound i first s j K (hb j (by simp)) hK hs hsep
    unfold selBits
    rw [h1]
    dsimp only
    split
    · exact ⟨_, rfl, h2, h3⟩
    · exact ih f' _ (fun k hk => hb k (by simp [hk])) h2 h3

theorem selSets_bound (sets : List (Nat × Option (List Nat))) (s : Sel) (k : Nat)
    (hb : ∀ p ∈ sets, ∀ bits, p.2 = some bits → ∀ j ∈ bits, j < 10 ^ 10)
    (hk : k + sets.length ≤ 3) (hs : s.out.length ≤ 1018 + k) (hsep : s.sep.length ≤ 2) :
    ∃ r, selSets sets s = some r ∧ r.out.length ≤ 1021 ∧ r.sep.length ≤ 2 := by
  induction sets generalizing s k with
  | nil => exact ⟨s, rfl, by omega, hsep⟩
  | cons p rest ih =>
    obtain ⟨i, b⟩ := p
    unfold selSets
    rw [List.length_cons] at hk
    split
    · cases b with
      | none => exact ih s k (fun p hp => hb p (by simp [hp])) (by omega) hs hsep
      | some bits =>
        dsimp only
        obtain ⟨s', h1, h2, h3⟩ := selBits_bound i bits true s (1018 + k) (hb (i, some bits) (by simp) bits rfl)
          (by omega) hs hsep
        rw [h1]
        dsimp only
        unfold selClose
        by_cases ho : s'.out ≠ []
        · rw [if_pos ho, put_fits (by omega)]
          dsimp only [Option.map_some]
          exact ih _ (k + 1) (fun p hp => hb p (by simp [hp])) (by omega) (by simp; omega) h3
        · rw [if_neg ho]
          exact ih _ (k + 1) (fun p hp => hb p (by simp [hp])) (by omega) (by omega) h3
    · exact ⟨s, rfl, by omega, hsep⟩

/-- C41, bounds: the result text never exceeds the static buffer, for every content of the three sets,
every result and every remaining-time text (descriptors are below 2^31). -/
theorem selectText_fits (sets : List (Option (List Nat))) (ready : Int) (left : Option (List Nat))
    (h3 : sets.length ≤ 3) (hb : ∀ b ∈ sets, ∀ bits, b = some bits → ∀ j ∈ bits, j < 2 ^ 31) :
    ∃ t, selectText sets ready left = some t ∧ t.length < 1024 := by
  unfold selectText
  split
  · exact ⟨_, rfl, by simp⟩
  · obtain ⟨s, h1, h2, hsep⟩ := selSets_bound (sets.mapIdx fun i b => (i, b)) ⟨[], [], ready⟩ 0
      (by
        intro p hp bits hbits j hj
        rw [List.mem_mapIdx] at hp
        obtain ⟨i, hi, rfl⟩ := hp
        have := hb _ (List.getElem_mem hi) bits hbits j hj
        omega) (by simp; omega) (by simp) (by simp)
    rw [h1]
    dsimp only
    unfold selLeft
    cases left with
    | none => dsimp only; rw [if_pos (by omega)]; exact ⟨_, rfl, by omega⟩
    | some str =>
      dsimp only
      by_cases hl : s.out.length + 6 + s.sep.length + str.length < 1024
      · rw [if_pos hl, app_fits (by simp; omega)]
        dsimp only
        have : (s.out ++ (s.sep ++ [108, 101, 102, 116, 32] ++ str)).length < 1024 := by simp; omega
        rw [if_pos this]
        exact ⟨_, rfl, this⟩
      · rw [if_neg hl]
        dsimp only
        rw [if_pos (by omega)]
        exact ⟨_, rfl, by omega⟩

/-! ### the text -/

/-- Specification: "in [3 5]" -/
def setText (i : Nat) (bits : List Nat) : List Nat :=
  selName i ++ [32, 91] ++ ([32].intercalate (bits.map dec)) ++ [93]

/-- Specification: the non-empty sets, joined by ", " -/
def setsText (sets : List (Nat × List Nat)) : List Nat :=
  [44, 32].intercalate ((sets.filter fun p => !p.2.isEmpty).map fun p => setText p.1 p.2)

/-- Finding: the text is not well formed when a set without ready descriptors lies between or after
others: select on read {3}, write {} and except {5} shows "in [3]], except [5]". -/
theorem selectText_malformed :
    selectText [some [3], some [], some [5]] 2 none = some ("in [3]], except [5]".toList.map Char.toNat) := by
  decide +kernel

/-- the rest of the descriptors of a set after the first -/
theorem selBits_rest (i : Nat) (bits : List Nat) (s : Sel) (hr : (bits.length : Int) ≤ s.ready)
    (hroom : s.out.length + (bits.flatMap fun j => 32 :: dec j).length < 999) :
    selBits i bits false s =
      some ⟨s.out ++ (bits.flatMap fun j => 32 :: dec j), s.sep, s.ready - bits.length⟩ := by
  induction bits generalizing s with
  | nil => simp [selBits]
  | cons j js ih =>
    rw [List.flatMap_cons, List.length_append, List.length_cons] at hroom
    unfold selBits selBit
    rw [if_pos (by omega), if_neg (by decide), app_fits (by simp [-List.length_flatMap]; omega)]
    dsimp only [Option.map_some]
    rw [List.length_cons] at hr ⊢
    by_cases h0 : s.ready - 1 = 0
    · rw [if_pos h0]
      have : js = [] := List.length_eq_zero_iff.1 (by omega)
      subst this
      simp
    · rw [if_neg h0, ih _ (by simp [-List.length_flatMap]; omega) (by simp [-List.length_flatMap]; omega)]
      simp
      omega

theorem selBits_first (i j : Nat) (js : List Nat) (s : Sel) (hr : ((j :: js).length : Int) ≤ s.ready)
    (hroom : s.out.length + s.sep.length + (selName i).length + 2 + (dec j).length +
      (js.flatMap fun j => 32 :: dec j).length < 999) :
    selBits i (j :: js) true s =
      some ⟨s.out ++ s.sep ++ selName i ++ [32, 91] ++ dec j ++ (js.flatMap fun j => 32 :: dec j), [44, 32],
        s.ready - (j :: js).length⟩ := by
  unfold selBits selBit
  rw [if_pos (by omega), if_pos rfl, app_fits (by simp [-List.length_flatMap]; omega)]
  dsimp only [Option.map_some]
  rw [List.length_cons] at hr ⊢
  by_cases h0 : s.ready - 1 = 0
  · rw [if_pos h0]
    have : js = [] := List.length_eq_zero_iff.1 (by omega)
    subst this
    simp
  · rw [if_neg h0, selBits_rest _ _ _ (by simp [-List.length_flatMap]; omega) (by simp [-List.length_flatMap]; omega)]
    simp
    omega

theorem intercalate_blank (j : Nat) (js : List Nat) :
    [32].intercalate ((j :: js).map dec) = dec j ++ js.flatMap fun j => 32 :: dec j := by
  induction js generalizing j with
  | nil => simp [List.intercalate]
  | cons k ks ih =>
    have := ih k
    simp only [List.map_cons, List.intercalate, List.intersperse] at this ⊢
    simp only [List.flatten_cons, List.flatMap_cons] at this ⊢
    rw [this]
    simp

/-- the pending part of the text: each set after the separator -/
def restText (sep : List Nat) : List (Nat × List Nat) → List Nat
  | [] => []
  | p :: ps => sep ++ setText p.1 p.2 ++ restText [44, 32] ps

theorem restText_eq (ps : List (Nat × List Nat)) (h : ∀ p ∈ ps, p.2 ≠ []) : restText [] ps = setsText ps := by
  have hf : ps.filter (fun p => !p.2.isEmpty) = ps := by
    rw [List.filter_eq_self]
    intro p hp
    have := h p hp
    simpa using this
  unfold setsText
  rw [hf]
  clear hf h
  cases ps with
  | nil => simp [restText, List.intercalate]
  | cons p ps =>
    have : ∀ (p : Nat × List Nat) (ps : List (Nat × List Nat)),
        [44, 32].intercalate ((p :: ps).map fun p => setText p.1 p.2) = setText p.1 p.2 ++ restText [44, 32] ps := by
      intro p ps
      induction ps generalizing p with
      | nil => simp [List.intercalate, restText]
      | cons q qs ih =>
        have := ih q
        simp only [List.map_cons, List.intercalate, List.intersperse] at this ⊢
        simp only [List.flatten_cons, restText] at this ⊢
        rw [this]
        simp
    rw [this]
    simp [restText]

theorem selSets_text (ps : List (Nat × List Nat)) (s : Sel) (hne : ∀ p ∈ ps, p.2 ≠ [])
    (hr : s.ready = ((ps.map fun p => p.2.length).sum : Nat))
    (hroom : s.out.length + (restText s.sep ps).length < 999) :
    ∃ r, selSets (ps.map fun p => (p.1, some p.2)) s = some r ∧ r.out = s.out ++ restText s.sep ps ∧
      (r.sep = if ps = [] then s.sep else [44, 32]) := by
  induction ps generalizing s with
  | nil => exact ⟨s, rfl, by simp [restText], by simp⟩
  | cons p ps ih =>
    obtain ⟨i, bits⟩ := p
    cases bits with
    | nil => exact absurd rfl (hne (i, []) (by simp))
    | cons j js =>
      have htext : setText i (j :: js) = selName i ++ [32, 91] ++ dec j ++ (js.flatMap fun j => 32 :: dec j) ++ [93] := by
        unfold setText; rw [intercalate_blank]; simp
      rw [List.map_cons]
      simp only [List.map_cons, List.sum_cons] at hr
      simp only [restText] at hroom
      rw [htext] at hroom
      simp only [List.length_append, List.length_cons, List.length_nil] at hroom
      unfold selSets
      rw [if_pos (by rw [hr]; simp; omega)]
      dsimp only
      rw [selBits_first i j js s (by rw [hr]; simp; omega) (by omega)]
      dsimp only
      unfold selClose
      rw [if_pos (by simp), put_fits (by simp [-List.length_flatMap]; omega)]
      dsimp only [Option.map_some]
      obtain ⟨r, h1, h2, h3⟩ := ih ⟨s.out ++ s.sep ++ selName i ++ [32, 91] ++ dec j ++ (js.flatMap fun j => 32 :: dec j) ++ [93],
        [44, 32], s.ready - (j :: js).length⟩ (fun p hp => hne p (by simp [hp])) (by dsimp only; rw [hr]; simp; omega)
        (by simp [-List.length_flatMap]; omega)
      refine ⟨r, h1, ?_, ?_⟩
      · rw [h2]; simp [restText, htext]
      · rw [h3]; simp

/-- C41, text, when every set passed has a ready descriptor (kernel contract: the result is the
number of ready descriptors) and the text is short enough: the sets in balanced brackets, joined by
commas, and the remaining time. -/
theorem selectText_wellformed_partial (sets : List (List Nat)) (left : Option (List Nat))
    (hne : ∀ b ∈ sets, b ≠ []) (hnz : sets ≠ [])
    (hroom : (setsText (sets.mapIdx fun i b => (i, b))).length + (left.getD []).length + 8 < 999) :
    selectText (sets.map some) ((sets.map List.length).sum : Nat) left =
      some (setsText (sets.mapIdx fun i b => (i, b)) ++
        (match left with
          | none => []
          | some str => [44, 32] ++ [108, 101, 102, 116, 32] ++ str)) := by
  have hmap : (sets.map some).mapIdx (fun i b => (i, b)) =
      (sets.mapIdx fun i b => (i, b)).map fun p => (p.1, some p.2) := by
    apply List.ext_getElem?
    intro i
    simp
    cases sets[i]? <;> rfl
  have hne' : ∀ p ∈ sets.mapIdx (fun i b => (i, b)), p.2 ≠ [] := by
    intro p hp
    rw [List.mem_mapIdx] at hp
    obtain ⟨i, hi, rfl⟩ := hp
    exact hne _ (List.getElem_mem hi)
  have hsum : ((sets.mapIdx fun i b => (i, b)).map fun p => p.2.length) = sets.map List.length := by
    apply List.ext_getElem?
    intro i
    simp
    cases sets[i]? <;> rfl
  have hpos : 0 < (sets.map List.length).sum := by
    cases sets with
    | nil => exact absurd rfl hnz
    | cons b bs =>
      have := List.length_pos_iff.2 (hne b (by simp))
      simp; omega
  unfold selectText
  rw [if_neg (by omega), hmap]
  have hroom' : (restText [] (sets.mapIdx fun i b => (i, b))).length < 999 := by
    rw [restText_eq _ hne']; omega
  obtain ⟨r, h1, h2, h3⟩ := selSets_text (sets.mapIdx fun i b => (i, b)) ⟨[], [], ((sets.map List.length).sum : Nat)⟩ hne'
    (by rw [hsum]) (by simpa using hroom')
  rw [h1]
  dsimp only
  dsimp only at h2 h3
  rw [List.nil_append, restText_eq _ hne'] at h2
  rw [if_neg (by simpa using hnz)] at h3
  unfold selLeft
  cases left with
  | none =>
    dsimp only
    rw [h2, if_pos (by omega)]
    simp
  | some str =>
    dsimp only
    simp only [Option.getD_some] at hroom
    rw [h3, h2, if_pos (by simp [-List.length_flatMap]; omega), app_fits (by simp [-List.length_flatMap]; omega)]
    dsimp only
    rw [if_pos (by simp [-List.length_flatMap]; omega)]

/-- read {3, 5} and write {4} -/
example : selectText [some [3, 5], some [4]] 3 none = some ("in [3 5], out [4]".toList.map Char.toNat) := by decide +kernel

end Strace.Bits
