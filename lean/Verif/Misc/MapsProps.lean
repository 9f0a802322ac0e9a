import Verif.Misc.Maps
/-!
# C45: the cache of memory mappings
-/
namespace Strace.Misc

/-! ### specification -/

/-- ascending and not overlapping -/
def Ascending (es : List MapEntry) : Prop := es.Pairwise fun a b => a.start < b.start ∧ a.stop ≤ b.start

/-- the mapping contains the address -/
def Contains (e : MapEntry) (ip : Nat) : Prop := e.start ≤ ip ∧ ip < e.stop

/-- a line as the kernel writes it -/
def WellFormed (l : MapLine) : Prop :=
  (l.r = 45 ∨ l.r = 114) ∧ (l.w = 45 ∨ l.w = 119) ∧ (l.x = 45 ∨ l.x = 120) ∧ (l.s = 112 ∨ l.s = 115) ∧ l.start ≤ l.stop

/-! ### storing -/

theorem store_ascending : ∀ (ls : List (Option MapLine)) (acc : List MapEntry),
    Ascending acc → (∀ e ∈ acc, e.start ≤ e.stop) →
    Ascending (storeMaps ls acc) ∧ ∀ e ∈ storeMaps ls acc, e.start ≤ e.stop := by
  intro ls
  induction ls with
  | nil => intro acc h1 h2; exact ⟨h1, h2⟩
  | cons l ls ih =>
    intro acc h1 h2
    cases l with
    | none => exact ih acc h1 h2
    | some l =>
      unfold storeMaps
      by_cases hk : knownProt l = true
      · rw [if_pos hk]
        by_cases hs : l.stop < l.start
        · rw [if_pos hs]; exact ⟨h1, h2⟩
        · rw [if_neg hs]
          by_cases hc : clashes l acc.getLast? = true
          · rw [if_pos hc]; exact ih acc h1 h2
          · rw [if_neg hc]
            apply ih
            · unfold Ascending
              rw [List.pairwise_append]
              refine ⟨h1, List.pairwise_singleton _ _, ?_⟩
              intro a ha b hb
              rw [List.mem_singleton] at hb
              subst hb
              show a.start < l.start ∧ a.stop ≤ l.start
              cases hl : acc.getLast? with
              | none => rw [List.getLast?_eq_none_iff] at hl; subst hl; cases ha
              | some e =>
                rw [hl] at hc
                obtain ⟨ys, hys⟩ := List.getLast?_eq_some_iff.mp hl
                have he : e.start < l.start ∧ e.stop ≤ l.start := by
                  unfold clashes at hc
                  simp only [Bool.or_eq_true, Bool.and_eq_true, decide_eq_true_eq] at hc
                  omega
                rw [hys] at ha h1
                rcases List.mem_append.mp ha with h | h
                · have := (List.pairwise_append.mp h1).2.2 a h e (by simp)
                  omega
                · rw [List.mem_singleton] at h; subst h; exact he
            · intro e he
              rcases List.mem_append.mp he with h | h
              · exact h2 e h
              · rw [List.mem_singleton] at h; subst h
                show l.start ≤ l.stop
                omega
      · rw [if_neg hk]; exact ih acc h1 h2

/-- C45: whatever the maps file holds, the stored mappings are ascending and do not overlap -/
theorem maps_ascending (ls : List (Option MapLine)) :
    Ascending (storeMaps ls []) ∧ ∀ e ∈ storeMaps ls [], e.start ≤ e.stop :=
  store_ascending ls [] List.Pairwise.nil (fun _ h => nomatch h)

theorem store_all : ∀ (ls : List (Option MapLine)) (acc : List MapEntry),
    (∀ l, some l ∈ ls → WellFormed l) → Ascending (acc ++ (ls.filterMap id).map entryOf) →
    storeMaps ls acc = acc ++ (ls.filterMap id).map entryOf := by
  intro ls
  induction ls with
  | nil => intro acc _ _; simp [storeMaps]
  | cons l ls ih =>
    intro acc hw ha
    cases l with
    | none => exact ih acc (fun l hl => hw l (by simp [hl])) ha
    | some l =>
      have hl := hw l (by simp)
      have e : (((some l :: ls).filterMap id).map entryOf) = entryOf l :: (ls.filterMap id).map entryOf := rfl
      rw [e] at ha ⊢
      unfold storeMaps
      have hk : knownProt l = true := by
        unfold knownProt
        obtain ⟨a, b, c, d, _⟩ := hl
        simp [a, b, c, d]
      rw [if_pos hk, if_neg (by have := hl.2.2.2.2; omega)]
      have hc : clashes l acc.getLast? = false := by
        cases hlast : acc.getLast? with
        | none => rfl
        | some q =>
          have hq : q ∈ acc := List.mem_of_getLast? hlast
          have := (List.pairwise_append.mp ha).2.2 q hq (entryOf l) (by simp)
          have h1 : q.start < l.start ∧ q.stop ≤ l.start := this
          have hneg : ¬ (clashes l (some q) = true) := by
            unfold clashes
            simp only [Bool.or_eq_true, Bool.and_eq_true, decide_eq_true_eq]
            omega
          simpa using hneg
      rw [hc]
      show storeMaps ls (acc ++ [entryOf l]) = _
      rw [ih (acc ++ [entryOf l]) (fun l hl => hw l (by simp [hl])) (by rw [List.append_assoc]; exact ha), List.append_assoc]
      rfl

/-- C45: if the lines of the file are well formed, ascending and do not overlap, all mappings with a name are stored -/
theorem maps_all (ls : List (Option MapLine)) (hw : ∀ l, some l ∈ ls → WellFormed l)
    (ha : Ascending ((ls.filterMap id).map entryOf)) : storeMaps ls [] = (ls.filterMap id).map entryOf :=
  store_all ls [] hw ha

/-! ### searching -/

theorem ascending_get (es : List MapEntry) (h : Ascending es) (i j : Nat) (a b : MapEntry) (hij : i < j)
    (ha : es[i]? = some a) (hb : es[j]? = some b) : a.start < b.start ∧ a.stop ≤ b.start := by
  obtain ⟨h1, rfl⟩ := List.getElem?_eq_some_iff.mp ha
  obtain ⟨h2, rfl⟩ := List.getElem?_eq_some_iff.mp hb
  exact List.pairwise_iff_getElem.mp h i j h1 h2 hij

theorem search_loop (es : List MapEntry) (h : Ascending es) (ip : Nat) : ∀ (fuel : Nat) (lower upper : Int),
    0 ≤ lower → upper < es.length → upper - lower < fuel →
    (∀ (i : Nat) e, es[i]? = some e → Contains e ip → lower ≤ i ∧ (i : Int) ≤ upper) →
    ∃ r, searchLoop es ip fuel lower upper = some r ∧
      (∀ e, r = some e → e ∈ es ∧ Contains e ip) ∧ (r = none → ∀ e ∈ es, ¬ Contains e ip) := by
  intro fuel
  induction fuel with
  | zero =>
    intro lower upper h1 h2 h3 hin
    refine ⟨none, ?_, (fun _ h => nomatch h), ?_⟩
    · unfold searchLoop
      rw [if_neg (by omega)]
    · intro _ e he hc
      obtain ⟨i, hi⟩ := List.getElem?_of_mem he
      have := hin i e hi hc
      omega
  | succ fuel ih =>
    intro lower upper h1 h2 h3 hin
    unfold searchLoop
    by_cases hlu : lower ≤ upper
    · rw [if_pos hlu, if_neg (by omega)]
      generalize hm : (upper + lower) / 2 = mid
      have hb : lower ≤ mid ∧ mid ≤ upper := by omega
      have hlt : mid.toNat < es.length := by omega
      rw [List.getElem?_eq_getElem hlt]
      dsimp only
      have hg : es[mid.toNat]? = some es[mid.toNat] := List.getElem?_eq_getElem hlt
      by_cases hhit : ip ≥ es[mid.toNat].start ∧ ip < es[mid.toNat].stop
      · rw [if_pos hhit]
        refine ⟨_, rfl, ?_, fun h => nomatch h⟩
        intro e he
        cases he
        exact ⟨List.getElem_mem hlt, hhit⟩
      · rw [if_neg hhit]
        by_cases hlow : ip < es[mid.toNat].start
        · rw [if_pos hlow]
          apply ih lower (mid - 1) h1 (by omega) (by omega)
          intro i e hi hc
          have hold := hin i e hi hc
          refine ⟨hold.1, ?_⟩
          by_cases hge : mid.toNat < i
          · have := ascending_get es h mid.toNat i _ _ hge hg hi
            have := hc.1
            omega
          · by_cases heq : i = mid.toNat
            · subst heq
              rw [hg] at hi
              cases hi
              have := hc.1
              omega
            · omega
        · rw [if_neg hlow]
          apply ih (mid + 1) upper (by omega) h2 (by omega)
          intro i e hi hc
          have hold := hin i e hi hc
          refine ⟨?_, hold.2⟩
          by_cases hlt2 : i < mid.toNat
          · have := ascending_get es h i mid.toNat _ _ hlt2 hi hg
            have := hc.2
            omega
          · by_cases heq : i = mid.toNat
            · subst heq
              rw [hg] at hi
              cases hi
              exact absurd hc hhit
            · omega
    · rw [if_neg hlu]
      refine ⟨none, rfl, (fun _ h => nomatch h), ?_⟩
      intro _ e he hc
      obtain ⟨i, hi⟩ := List.getElem?_of_mem he
      have := hin i e hi hc
      omega

/-- two stored mappings do not share an address -/
theorem contains_unique (es : List MapEntry) (h : Ascending es) (a b : MapEntry) (ha : a ∈ es) (hb : b ∈ es) (ip : Nat)
    (ca : Contains a ip) (cb : Contains b ip) : a = b := by
  obtain ⟨i, hi⟩ := List.getElem?_of_mem ha
  obtain ⟨j, hj⟩ := List.getElem?_of_mem hb
  rcases Nat.lt_trichotomy i j with hlt | heq | hgt
  · have := ascending_get es h i j a b hlt hi hj
    have := ca.2
    have := cb.1
    omega
  · subst heq
    rw [hi] at hj
    exact Option.some.inj hj
  · have := ascending_get es h j i b a hgt hj hi
    have := cb.2
    have := ca.1
    omega

/-- C45: looking up an address in the stored mappings ends, finds the mapping that contains it, and finds nothing exactly if
there is none -/
theorem maps_lookup (ls : List (Option MapLine)) (ip : Nat) :
    ∃ r, searchMaps (storeMaps ls []) ip = some r ∧
      ∀ e, (r = some e ↔ e ∈ storeMaps ls [] ∧ Contains e ip) := by
  have hasc := (maps_ascending ls).1
  obtain ⟨r, h1, h2, h3⟩ := search_loop (storeMaps ls []) hasc ip (storeMaps ls []).length 0
    (((storeMaps ls []).length : Int) - 1) (by omega) (by omega) (by omega) (by
      intro i e hi _
      have := (List.getElem?_eq_some_iff.mp hi).1
      omega)
  refine ⟨r, h1, ?_⟩
  intro e
  constructor
  · exact h2 e
  · intro ⟨he, hc⟩
    cases hr : r with
    | none => exact absurd hc (h3 hr e he)
    | some q =>
      have := h2 q hr
      rw [contains_unique _ hasc q e this.1 he ip this.2 hc]

/-! ### staleness -/

/-- a cache used again without reading the file was built with no change of any mapping since, unless 2^32 of them came in
between -/
theorem maps_fresh (gen : Nat) (hg : gen < 2 ^ 32) (n : Nat) (hn : n < 2 ^ 32) (c : MapCache) (hc : c.generation = gen)
    (file : Option (List (Option MapLine))) :
    (rebuild (Nat.repeat invalidate n gen) (some c) file).2 = .ready ↔ n = 0 := by
  have hrep : ∀ n, Nat.repeat invalidate n gen = (gen + n) % 2 ^ 32 := by
    intro n
    induction n with
    | zero => show gen = _; omega
    | succ n ih => show invalidate (Nat.repeat invalidate n gen) = _; rw [ih]; unfold invalidate; omega
  rw [hrep]
  unfold rebuild
  by_cases h0 : n = 0
  · subst h0
    have he : c.generation = (gen + 0) % 2 ^ 32 := by omega
    have : (some c).filter (fun c => decide (c.generation = (gen + 0) % 2 ^ 32)) = some c := by
      rw [Option.filter_some, if_pos (decide_eq_true he)]
    rw [this]
    exact ⟨fun _ => rfl, fun _ => rfl⟩
  · have he : c.generation ≠ (gen + n) % 2 ^ 32 := by omega
    have : (some c).filter (fun c => decide (c.generation = (gen + n) % 2 ^ 32)) = none := by
      rw [Option.filter_some, if_neg (by simpa using he)]
    rw [this]
    constructor
    · intro h
      cases file with
      | none => cases h
      | some ls =>
        dsimp only at h
        by_cases hl : (storeMaps ls []).length = 0
        · rw [if_pos hl] at h; cases h
        · rw [if_neg hl] at h; cases h
    · intro h; exact absurd h h0

/-- C65 (finding): after 2^32 changes the old cache is taken for a current one -/
theorem maps_stale (c : MapCache) (hc : c.generation < 2 ^ 32) (file : Option (List (Option MapLine))) :
    rebuild (Nat.repeat invalidate (2 ^ 32) c.generation) (some c) file = (some c, .ready) := by
  have hrep : ∀ n, Nat.repeat invalidate n c.generation = (c.generation + n) % 2 ^ 32 := by
    intro n
    induction n with
    | zero => show c.generation = _; omega
    | succ n ih => show invalidate (Nat.repeat invalidate n c.generation) = _; rw [ih]; unfold invalidate; omega
  rw [hrep]
  unfold rebuild
  have : (some c).filter (fun d => decide (d.generation = (c.generation + 2 ^ 32) % 2 ^ 32)) = some c := by
    rw [Option.filter_some, if_pos (decide_eq_true (by omega))]
  rw [this]

/-! ### histories of several tracees -/

abbrev MapsFile := Option (List (Option MapLine))

/-- what happens: mappings of any tracees change (reported by `mmap_cache_invalidate`), a tracee ends and another takes its
record, a stack of a tracee is shown -/
inductive MapEv where
  | change (files : Nat → MapsFile)
  | gone (t : Nat) (file : MapsFile)
  | use (t : Nat)

/-- strace's counter and caches, the files, and the number of changes since each tracee's last use -/
structure MapWorld where
  gen : Nat
  cache : Nat → Option MapCache
  file : Nat → MapsFile
  since : Nat → Nat

/-- one event; `delete_mmap_cache` frees the cache of a tracee that ends, src/strace.c:droptcb -/
def mapStep (w : MapWorld) : MapEv → MapWorld
  | .change files => { w with gen := invalidate w.gen, file := files, since := fun t => w.since t + 1 }
  | .gone t f => { w with cache := fun u => if u = t then none else w.cache u, file := fun u => if u = t then f else w.file u }
  | .use t =>
    { w with cache := fun u => if u = t then (rebuild w.gen (w.cache t) (w.file t)).1 else w.cache u
             since := fun u => if u = t then 0 else w.since u }

/-- the mappings a use works with: those of the cache afterwards -/
def mapsUsed (w : MapWorld) (t : Nat) : Option (List MapEntry) :=
  (rebuild w.gen (w.cache t) (w.file t)).1.map (·.entries)

/-- what the file of the tracee says now; nothing if it has no mapping or cannot be read -/
def mapsNow : MapsFile → Option (List MapEntry)
  | none => none
  | some ls => if storeMaps ls [] = [] then none else some (storeMaps ls [])

structure MapInv (w : MapWorld) : Prop where
  gen : w.gen < 2 ^ 32
  small : ∀ t c, w.cache t = some c → c.generation < 2 ^ 32
  gap : ∀ t c, w.cache t = some c → w.gen = (c.generation + w.since t) % 2 ^ 32
  fresh : ∀ t c, w.cache t = some c → w.since t = 0 → mapsNow (w.file t) = some c.entries

theorem rebuild_spec (gen : Nat) (cache : Option MapCache) (file : MapsFile) :
    (∃ c, cache = some c ∧ c.generation = gen ∧ rebuild gen cache file = (some c, .ready)) ∨
    ((∀ c, cache = some c → c.generation ≠ gen) ∧ (rebuild gen cache file).1.map (·.entries) = mapsNow file ∧
      ∀ c, (rebuild gen cache file).1 = some c → c.generation = gen) := by
  cases hf : cache.filter (fun c => decide (c.generation = gen)) with
  | some c =>
    left
    rw [Option.filter_eq_some_iff] at hf
    refine ⟨c, hf.1, of_decide_eq_true hf.2, ?_⟩
    have : cache.filter (fun c => decide (c.generation = gen)) = some c := by rw [Option.filter_eq_some_iff]; exact hf
    unfold rebuild
    rw [this]
  | none =>
    right
    refine ⟨?_, ?_, ?_⟩
    · intro c hc he
      rw [hc, Option.filter_some, if_pos (decide_eq_true he)] at hf
      cases hf
    · unfold rebuild
      rw [hf]
      cases file with
      | none => rfl
      | some ls =>
        show Option.map _ (if _ then _ else _ : Option MapCache × Rebuild).1 = if storeMaps ls [] = [] then none else some (storeMaps ls [])
        by_cases h : storeMaps ls [] = []
        · rw [if_pos h, if_pos (by rw [h]; rfl)]; rfl
        · rw [if_neg h, if_neg (by rw [List.length_eq_zero_iff]; exact h)]; rfl
    · intro c hc
      unfold rebuild at hc
      rw [hf] at hc
      cases file with
      | none => cases hc
      | some ls =>
        dsimp only at hc
        by_cases h : (storeMaps ls []).length = 0
        · rw [if_pos h] at hc; cases hc
        · rw [if_neg h] at hc; cases hc; rfl

theorem use_now (w : MapWorld) (h : MapInv w) (t : Nat) (hs : w.since t < 2 ^ 32) : mapsUsed w t = mapsNow (w.file t) := by
  unfold mapsUsed
  rcases rebuild_spec w.gen (w.cache t) (w.file t) with ⟨c, e1, e2, e3⟩ | ⟨_, e2, _⟩
  · have hg := h.gap t c e1
    have := h.small t c e1
    rw [e3, h.fresh t c e1 (by omega)]
    rfl
  · exact e2

theorem map_step (w : MapWorld) (h : MapInv w) (ev : MapEv) (hu : ∀ t, ev = .use t → w.since t < 2 ^ 32) : MapInv (mapStep w ev) := by
  cases ev with
  | change files =>
    refine ⟨?_, h.small, ?_, ?_⟩
    · show (w.gen + 1) % 2 ^ 32 < 2 ^ 32
      omega
    · intro t c hc
      have := h.gap t c hc
      show (w.gen + 1) % 2 ^ 32 = (c.generation + (w.since t + 1)) % 2 ^ 32
      omega
    · intro t c hc h0
      exact absurd h0 (Nat.succ_ne_zero _)
  | gone t f =>
    have hc' : ∀ u c, (mapStep w (.gone t f)).cache u = some c → u ≠ t ∧ w.cache u = some c := by
      intro u c hc
      have hc : (if u = t then none else w.cache u) = some c := hc
      by_cases e : u = t
      · rw [if_pos e] at hc; cases hc
      · rw [if_neg e] at hc; exact ⟨e, hc⟩
    refine ⟨h.gen, ?_, ?_, ?_⟩
    · intro u c hc; exact h.small u c (hc' u c hc).2
    · intro u c hc; exact h.gap u c (hc' u c hc).2
    · intro u c hc h0
      obtain ⟨e, hc⟩ := hc' u c hc
      show mapsNow (if u = t then f else w.file u) = _
      rw [if_neg e]
      exact h.fresh u c hc h0
  | use t =>
    have hs := hu t rfl
    have hc' : ∀ u c, (mapStep w (.use t)).cache u = some c →
        (u = t ∧ (rebuild w.gen (w.cache t) (w.file t)).1 = some c) ∨ (u ≠ t ∧ w.cache u = some c) := by
      intro u c hc
      have hc : (if u = t then (rebuild w.gen (w.cache t) (w.file t)).1 else w.cache u) = some c := hc
      by_cases e : u = t
      · rw [if_pos e] at hc; exact .inl ⟨e, hc⟩
      · rw [if_neg e] at hc; exact .inr ⟨e, hc⟩
    have hgen : ∀ c, (rebuild w.gen (w.cache t) (w.file t)).1 = some c → c.generation = w.gen := by
      intro c hc
      rcases rebuild_spec w.gen (w.cache t) (w.file t) with ⟨d, e1, e2, e3⟩ | ⟨_, _, e3⟩
      · rw [e3] at hc; cases hc; exact e2
      · exact e3 c hc
    refine ⟨h.gen, ?_, ?_, ?_⟩
    · intro u c hc
      rcases hc' u c hc with ⟨_, hc⟩ | ⟨_, hc⟩
      · rw [hgen c hc]; exact h.gen
      · exact h.small u c hc
    · intro u c hc
      show w.gen = (c.generation + if u = t then 0 else w.since u) % 2 ^ 32
      rcases hc' u c hc with ⟨e, hc⟩ | ⟨e, hc⟩
      · rw [if_pos e, hgen c hc]
        have := h.gen
        omega
      · rw [if_neg e]; exact h.gap u c hc
    · intro u c hc h0
      have h0 : (if u = t then 0 else w.since u) = 0 := h0
      show mapsNow (w.file u) = _
      rcases hc' u c hc with ⟨e, hc⟩ | ⟨e, hc⟩
      · have := use_now w h t hs
        unfold mapsUsed at this
        rw [hc] at this
        rw [e, ← this]; rfl
      · rw [if_neg e] at h0; exact h.fresh u c hc h0

/-- the results of the uses in a history -/
def mapsSeen : MapWorld → List MapEv → List (Option (List MapEntry))
  | _, [] => []
  | w, .use t :: evs => mapsUsed w t :: mapsSeen (mapStep w (.use t)) evs
  | w, ev :: evs => mapsSeen (mapStep w ev) evs

/-- what each use should work with: the file at that time -/
def mapsWanted : (Nat → MapsFile) → List MapEv → List (Option (List MapEntry))
  | _, [] => []
  | file, .use t :: evs => mapsNow (file t) :: mapsWanted file evs
  | _, .change files :: evs => mapsWanted files evs
  | file, .gone t f :: evs => mapsWanted (fun u => if u = t then f else file u) evs

/-- fewer than 2^32 changes between two uses by the same tracee -/
def FewChanges : (Nat → Nat) → List MapEv → Prop
  | _, [] => True
  | since, .use t :: evs => since t < 2 ^ 32 ∧ FewChanges (fun u => if u = t then 0 else since u) evs
  | since, .change _ :: evs => FewChanges (fun u => since u + 1) evs
  | since, .gone _ _ :: evs => FewChanges since evs

theorem seen_wanted : ∀ (evs : List MapEv) (w : MapWorld), MapInv w → FewChanges w.since evs → mapsSeen w evs = mapsWanted w.file evs := by
  intro evs
  induction evs with
  | nil => intro w _ _; rfl
  | cons ev evs ih =>
    intro w h hf
    cases ev with
    | change files => exact ih _ (map_step w h _ (fun t e => nomatch e)) hf
    | gone t f => exact ih _ (map_step w h _ (fun t e => nomatch e)) hf
    | use t =>
      show mapsUsed w t :: _ = mapsNow (w.file t) :: _
      rw [use_now w h t hf.1]
      congr 1
      exact ih _ (map_step w h _ (fun u e => by cases e; exact hf.1)) hf.2

/-- C65: in every history of changes, ends and uses, each use works with the mappings the file of that tracee has at the time -/
theorem maps_history_partial (files : Nat → MapsFile) (evs : List MapEv) (hf : FewChanges (fun _ => 0) evs) :
    mapsSeen ⟨0, fun _ => none, files, fun _ => 0⟩ evs = mapsWanted files evs := by
  apply seen_wanted evs _ _ hf
  exact ⟨by show 0 < 2 ^ 32; decide, fun _ _ h => (nomatch h), fun _ _ h => (nomatch h), fun _ _ h => (nomatch h)⟩

/-- C45: an entry holds what the line says -/
theorem entry_fields (l : MapLine) :
    (entryOf l).start = l.start ∧ (entryOf l).stop = l.stop ∧ (entryOf l).offset = l.offset ∧ (entryOf l).path = l.path ∧
    (entryOf l).major = l.major ∧ (entryOf l).minor = l.minor ∧ (entryOf l).prot < 16 ∧
    ((entryOf l).prot.testBit 0 = true ↔ l.r = 'r'.toNat) ∧ ((entryOf l).prot.testBit 1 = true ↔ l.w = 'w'.toNat) ∧
    ((entryOf l).prot.testBit 2 = true ↔ l.x = 'x'.toNat) ∧ ((entryOf l).prot.testBit 3 = true ↔ l.s = 's'.toNat) := by
  refine ⟨rfl, rfl, rfl, rfl, rfl, rfl, ?_⟩
  show _ ∧ (_ ↔ l.r = 114) ∧ (_ ↔ l.w = 119) ∧ (_ ↔ l.x = 120) ∧ (_ ↔ l.s = 115)
  unfold entryOf
  dsimp only
  by_cases h1 : l.r = 114 <;> by_cases h2 : l.w = 119 <;> by_cases h3 : l.x = 120 <;> by_cases h4 : l.s = 115 <;>
    simp [h1, h2, h3, h4, Nat.testBit]

/-- a file with a line to skip, one that overlaps, and a gap -/
def sampleMaps : List (Option MapLine) :=
  [some ⟨0x1000, 0x3000, 114, 45, 120, 112, 0, 8, 1, "a"⟩, none, some ⟨0x2000, 0x4000, 114, 45, 45, 112, 0, 8, 1, "b"⟩,
   some ⟨0x5000, 0x6000, 114, 119, 45, 115, 0x200, 8, 1, "c"⟩]

example : (searchMaps (storeMaps sampleMaps []) 0x5fff = some (some ⟨0x5000, 0x6000, 0x200, 11, 8, 1, "c"⟩)) ∧
    searchMaps (storeMaps sampleMaps []) 0x6000 = some none ∧ searchMaps (storeMaps sampleMaps []) 0x3fff = some none := by
  decide +kernel

/-- a history that meets the hypothesis: a change between two uses is seen -/
example : FewChanges (fun _ => 0) [.use 1, .change fun _ => some sampleMaps, .use 1, .use 1, .gone 1 none, .use 1] ∧
    mapsWanted (fun _ => none) [.use 1, .change fun _ => some sampleMaps, .use 1, .use 1, .gone 1 none, .use 1] =
      [none, some (storeMaps sampleMaps []), some (storeMaps sampleMaps []), none] :=
  ⟨⟨by decide, by decide, by decide, by decide, trivial⟩, by decide +kernel⟩

end Strace.Misc
