import Verif.Unwind.Props
/-!
# C101: what is shown of a stack is what is known now
-/
namespace Strace.Unwind
open Strace.Base Strace.Lead Strace.Filter

theorem scan_found (c : Nat → CEnt) (gen pc idx : Nat) (n i : Nat) (u : Option Nat) (l j : Nat)
    (h : scan c gen pc idx n i u l = (true, j)) : (c j).gen = gen ∧ (c j).pc = pc := by
  induction n generalizing i u l with
  | zero => simp [scan] at h
  | succ n ih =>
    unfold scan at h
    split at h
    · rename_i hc; cases h; exact hc
    · split at h
      · exact ih _ _ _ h
      · split at h
        · exact ih _ _ _ h
        · exact ih _ _ _ h

theorem scan_range (c : Nat → CEnt) (gen pc idx m : Nat) (n i : Nat) (u : Option Nat) (l : Nat)
    (hm : idx + i + n ≤ m) (hu : ∀ j, u = some j → idx ≤ j ∧ j < m) (hl : idx ≤ l ∧ l < m) :
    idx ≤ (scan c gen pc idx n i u l).2 ∧ (scan c gen pc idx n i u l).2 < m := by
  induction n generalizing i u l with
  | zero =>
    unfold scan
    cases u with
    | none => exact hl
    | some j => exact hu j rfl
  | succ n ih =>
    unfold scan
    split
    · exact ⟨Nat.le_add_right _ _, by dsimp only; omega⟩
    · split
      · exact ih _ _ _ (by omega) (fun j hj => by cases hj; omega) hl
      · split
        · exact ih _ _ _ (by omega) hu ⟨by omega, by omega⟩
        · exact ih _ _ _ (by omega) hu hl

/-- C101: the cache is only used within its bounds, and an address is kept with others that have the same bits 5 to 10. -/
theorem cache_bounds (c : Nat → CEnt) (gen pc : Nat) :
    bucket pc + 31 < 2048 ∧ bucket pc ≤ (findBucket c gen pc).2 ∧ (findBucket c gen pc).2 < bucket pc + 32 := by
  have hb : bucket pc ≤ 2016 := Nat.and_le_right
  have := scan_range c gen pc (bucket pc) (bucket pc + 32) 32 0 none (bucket pc) (by omega) (by simp) ⟨by omega, by omega⟩
  exact ⟨by omega, this⟩

/-- nothing in the cache is wrong for the present generation, and nothing is from a later one -/
def Sound (look : Nat → Nat → Option Info) (gen : Nat) (x : Ctx) : Prop :=
  ∀ i, (x.cache i).gen ≤ gen ∧ ((x.cache i).gen = gen → look gen (x.cache i).pc = some (x.cache i).info)

theorem sound_put (look : Nat → Nat → Option Info) (gen : Nat) (x : Ctx) (h : Sound look gen x) (j : Nat) (e : CEnt) (k : Nat)
    (he : e.gen ≤ gen ∧ (e.gen = gen → look gen e.pc = some e.info)) : Sound look gen ⟨put x.cache j e, k⟩ := by
  intro i
  unfold put
  dsimp only
  split
  · exact he
  · exact h i

theorem lookup_sound (look : Nat → Nat → Option Info) (gen : Nat) (x : Ctx) (h : Sound look gen x) (pc : Nat) :
    (lookup (look gen) gen x pc).1 = look gen pc ∧ Sound look gen (lookup (look gen) gen x pc).2 := by
  unfold lookup
  split
  · rename_i hf
    have hfound := scan_found x.cache gen pc (bucket pc) 32 0 none (bucket pc) (findBucket x.cache gen pc).2
      (by show findBucket x.cache gen pc = _; rw [← hf])
    have hi := h (findBucket x.cache gen pc).2
    refine ⟨?_, sound_put look gen x h _ _ _ hi⟩
    rw [← hi.2 hfound.1, hfound.2]
  · cases hl : look gen pc with
    | none => exact ⟨rfl, h⟩
    | some i => exact ⟨rfl, sound_put look gen x h _ _ _ ⟨Nat.le_refl _, fun _ => hl⟩⟩

theorem framePc_eq (pc : Nat) (hp : pc < 2 ^ 64) : framePc pc true = pc ∧ framePc pc false = (if pc = 0 then 2 ^ 64 - 1 else pc - 1) := by
  refine ⟨rfl, ?_⟩
  unfold framePc
  split
  · simp_all
  · split <;> omega

theorem addrs_cons (pc : Nat) (hp : pc < 2 ^ 64) (act : Bool) (r : List (Option Nat × Bool)) :
    addrs ((some pc, act) :: r) = framePc pc act :: addrs r := by
  cases act
  · rw [(framePc_eq pc hp).2]; rfl
  · rfl

/-- addresses are words -/
def Words (l : List (Option Nat × Bool)) : Prop := ∀ f ∈ l, ∀ pc, f.1 = some pc → pc < 2 ^ 64

theorem frames_eq (look : Nat → Nat → Option Info) (gen : Nat) (fails : Bool) (l : List (Option Nat × Bool)) (hw : Words l) (depth : Nat)
    (hd : 0 < depth) (x : Ctx) (h : Sound look gen x) :
    (frames (look gen) gen fails l depth x).1 = ((addrs l).take depth).filterMap (look gen) ∧
    (frames (look gen) gen fails l depth x).2.1 =
      (if depth ≤ (addrs l).length then .stopped else if fails || !allKnown l then .failed else .all) ∧
    Sound look gen (frames (look gen) gen fails l depth x).2.2 := by
  induction l generalizing depth x with
  | nil =>
    refine ⟨by simp [frames, addrs], ?_, h⟩
    simp [frames, addrs, allKnown]; omega
  | cons f r ih =>
    have hw' : Words r := fun g hg => hw g (List.mem_cons_of_mem _ hg)
    obtain ⟨pc, act⟩ := f
    cases pc with
    | none =>
      refine ⟨by simp [frames, addrs], ?_, by simpa [frames] using h⟩
      simp [frames, addrs, allKnown]; omega
    | some pc =>
      rw [addrs_cons pc (hw _ (List.mem_cons_self ..) pc rfl)]
      have hl := lookup_sound look gen x h (framePc pc act)
      unfold frames
      split
      · rename_i h0
        have : depth = 1 := by omega
        subst this
        refine ⟨?_, ?_, hl.2⟩
        · dsimp only
          rw [hl.1]
          cases hx : look gen (framePc pc act) <;> simp [hx]
        · simp
      · rename_i h0
        obtain ⟨i1, i2, i3⟩ := ih hw' (depth - 1) (by omega) _ hl.2
        refine ⟨?_, ?_, i3⟩
        · dsimp only
          rw [i1, hl.1]
          obtain ⟨d, rfl⟩ : ∃ d, depth = d + 1 := ⟨depth - 1, by omega⟩
          simp only [List.take_succ_cons, List.filterMap_cons, Nat.add_sub_cancel]
          cases hx : look gen (framePc pc act) <;> simp
        · dsimp only
          rw [i2]
          have e1 : (depth - 1 ≤ (addrs r).length) = (depth ≤ (framePc pc act :: addrs r).length) := by
            simp only [List.length_cons, eq_iff_iff]; omega
          simp only [e1]
          have e2 : allKnown ((some pc, act) :: r) = allKnown r := by simp [allKnown]
          rw [e2]

theorem walk_eq (look : Nat → Nat → Option Info) (gen limit : Nat) (hl : 0 < limit) (s : Stack) (hw : Words s.frames)
    (hn : (addrs s.frames).length ≠ limit) (x : Ctx) (h : Sound look gen x) :
    (walk (look gen) gen limit s x).1 = shown (look gen) limit s ∧ Sound look gen (walk (look gen) gen limit s x).2 := by
  obtain ⟨h1, h2, h3⟩ := frames_eq look gen s.fails s.frames hw limit hl x h
  refine ⟨?_, h3⟩
  unfold walk shown
  dsimp only
  rw [h1, h2]
  congr 1
  have e1 : (limit < (addrs s.frames).length) = (limit ≤ (addrs s.frames).length) := by simp only [eq_iff_iff]; omega
  simp only [e1]
  by_cases c1 : limit ≤ (addrs s.frames).length
  · rw [if_pos c1, if_pos c1]; rfl
  · rw [if_neg c1, if_neg c1]
    by_cases c2 : (s.fails || !allKnown s.frames) = true
    · rw [if_pos c2, if_pos c2]; rfl
    · rw [if_neg c2, if_neg c2]; rfl

theorem sound_mono (look : Nat → Nat → Option Info) (gen : Nat) (x : Ctx) (h : Sound look gen x) : Sound look (gen + 1) x := by
  intro i
  have := (h i).1
  exact ⟨by omega, fun hg => by omega⟩

/-- C101: whatever was walked before and however often mappings have changed since, what is shown of a stack is what is known about its addresses
at present: the cache makes no difference.  Not for stacks that are exactly as long as the limit. -/
theorem walks_partial (look : Nat → Nat → Option Info) (limit : Nat) (hl : 0 < limit) (gen : Nat) (hg : 0 < gen) (clock : Nat) (h : List Op)
    (hw : ∀ s, Op.walked s ∈ h → Words s.frames ∧ (addrs s.frames).length ≠ limit) :
    walks look limit gen (newCtx clock) h = (gens gen h).map fun q => shown (look q.1) limit q.2 := by
  have h0 : Sound look gen (newCtx clock) := by
    intro i
    show (0 : Nat) ≤ gen ∧ ((0 : Nat) = gen → _)
    exact ⟨by omega, fun hh => by omega⟩
  generalize newCtx clock = x at h0
  clear hg
  induction h generalizing gen x with
  | nil => rfl
  | cons o r ih =>
    have hw' : ∀ s, Op.walked s ∈ r → Words s.frames ∧ (addrs s.frames).length ≠ limit := fun s hs => hw s (List.mem_cons_of_mem _ hs)
    cases o with
    | changed => exact ih (gen + 1) hw' x (sound_mono look gen x h0)
    | walked s =>
      have hws := hw s (List.mem_cons_self ..)
      obtain ⟨h1, h2⟩ := walk_eq look gen limit hl s hws.1 hws.2 x h0
      unfold walks gens
      rw [h1, ih gen hw' _ h2]
      rfl

/-- a frame, not a note -/
def isCall : Entry → Bool
  | .call _ => true
  | .error _ _ => false

/-- C101: never more frames than the limit, exactly as long stacks included. -/
theorem walk_limit (look : Nat → Nat → Option Info) (gen limit : Nat) (hl : 0 < limit) (s : Stack) (hw : Words s.frames) (x : Ctx)
    (h : Sound look gen x) : ((walk (look gen) gen limit s x).1.filter isCall).length ≤ limit := by
  obtain ⟨h1, _, _⟩ := frames_eq look gen s.fails s.frames hw limit hl x h
  unfold walk
  dsimp only
  rw [h1, List.filter_append, List.length_append]
  have hz : ∀ e : Ends, (note s.msg e).filter isCall = [] := by intro e; cases e <;> rfl
  rw [hz]
  have h2 := List.length_filter_le isCall
    ((((addrs s.frames).take limit).filterMap (look gen)).map Entry.call)
  rw [List.length_map] at h2
  have h3 := List.length_filterMap_le (look gen) ((addrs s.frames).take limit)
  have h4 := List.length_take_le limit (addrs s.frames)
  simp only [List.length_nil]
  omega

/-- A stack with exactly as many frames as the limit is shown with all its frames, and the note that there are too many (libdw). -/
theorem limit_exact : ∃ (s : Stack) (look : Nat → Option Info), s.frames.length = 2 ∧ s.fails = false ∧
    (walk look 1 2 s (newCtx 0)).1 = [fr 10, fr 19, .error (codes "too many stack frames") 0] ∧
    shown look 2 s = [fr 10, fr 19] :=
  ⟨⟨[(some 10, true), (some 20, false)], false, []⟩, fun a => some ⟨some (codes "a.out"), some (codes "main"), a, a, none, 0⟩, rfl, rfl,
    by decide +kernel, by decide +kernel⟩

/-! ### libunwind -/

/-- a frame in a known mapping -/
def Good (f : UFrame) : Prop := ∃ ip m, f.ip = some ip ∧ f.map = some m ∧ m.2.1 ≤ ip ∧ ip - m.2.1 + m.2.2 < 2 ^ 64

/-- what is to be shown of it -/
def uShown (f : UFrame) : Entry :=
  .call ⟨f.map.map (·.1), some f.sym, f.off, (f.ip.getD 0 - (f.map.map (·.2.1)).getD 0) + (f.map.map (·.2.2)).getD 0, none, 0⟩

theorem uFrame_good (f : UFrame) (h : Good f) : uFrame f = ([uShown f], true) := by
  obtain ⟨ip, m, h1, h2, h3, h4⟩ := h
  unfold uFrame uShown
  rw [h1, h2]
  simp only [Option.map_some, Option.getD_some]
  congr 4
  omega

theorem uLoop_good (limit : Nat) (fs : List UFrame) (hf : ∀ f ∈ fs, Good f) (d : Nat) (hd : d ≤ limit) :
    (uLoop limit fs d).1 = (fs.take (limit - d)).map uShown ∧ (fs ≠ [] → ((uLoop limit fs d).2 ≥ limit ↔ limit < d + fs.length)) := by
  induction fs generalizing d with
  | nil => simp [uLoop]
  | cons f r ih =>
    have hg := uFrame_good f (hf f (List.mem_cons_self ..))
    have hf' : ∀ f ∈ r, Good f := fun x hx => hf x (List.mem_cons_of_mem _ hx)
    unfold uLoop
    by_cases hlt : d < limit
    · rw [if_pos hlt, hg]
      dsimp only
      rw [if_pos rfl]
      obtain ⟨k, hk⟩ : ∃ k, limit - d = k + 1 := ⟨limit - d - 1, by omega⟩
      cases r with
      | nil =>
        rw [if_pos (show ([] : List UFrame).isEmpty = true from rfl), hk]
        refine ⟨by simp, fun _ => ?_⟩
        simp only [List.length_singleton]
        omega
      | cons g r' =>
        rw [if_neg (by simp)]
        obtain ⟨i1, i2⟩ := ih hf' (d + 1) (by omega)
        refine ⟨?_, fun _ => ?_⟩
        · dsimp only
          rw [i1, hk, show limit - (d + 1) = k from by omega]; simp
        · dsimp only
          rw [i2 (by simp)]; simp only [List.length_cons]; omega
    · rw [if_neg hlt, show limit - d = 0 from by omega]
      refine ⟨by simp, fun _ => ?_⟩
      simp only [List.length_cons]
      omega

/-- C101, libunwind: at most as many frames as the limit, with a note exactly if there are more. -/
theorem uWalk_eq (limit : Nat) (hl : 0 < limit) (fs : List UFrame) (hne : fs ≠ []) (hf : ∀ f ∈ fs, Good f) :
    uWalk limit fs = (fs.take limit).map uShown ++
      (if limit < fs.length then [.error (codes "too many stack frames") 0] else []) := by
  obtain ⟨h1, h2⟩ := uLoop_good limit fs hf 0 (by omega)
  unfold uWalk
  rw [h1]
  have h3 := h2 hne
  simp only [Nat.zero_add] at h3
  simp only [h3, Nat.sub_zero]

/-- the hypotheses are met: two walks of the same stack, and a mapping changed between them -/
example : walks (fun g a => if a < 100 then some ⟨some [g], some (codes "f"), a, a, none, 0⟩ else none) 256 1 (newCtx 0)
      [.walked ⟨[(some 10, true), (some 300, false), (some 43, false)], false, []⟩, .walked ⟨[(some 10, true)], true, codes "no"⟩, .changed,
        .walked ⟨[(some 10, true)], false, []⟩] =
    [[.call ⟨some [1], some (codes "f"), 10, 10, none, 0⟩, .call ⟨some [1], some (codes "f"), 42, 42, none, 0⟩],
      [.call ⟨some [1], some (codes "f"), 10, 10, none, 0⟩, .error (codes "no") 0],
      [.call ⟨some [2], some (codes "f"), 10, 10, none, 0⟩]] := by decide +kernel

end Strace.Unwind
