import Verif.Path.Spec
import Verif.Bits.Props
import Mathlib.Tactic.Tauto
import Mathlib.Tactic.Set

/-!
# `-P` and `--trace-fds` show the calls that name the files asked for
-/
namespace Strace.Path
open Strace.Bits

theorem pathmatch_iff (p : List Nat) (set : List (List Nat)) : pathmatch p set = true ↔ p ∈ set := by
  simp [pathmatch]

theorem mem_storepath (p q : List Nat) (set : List (List Nat)) : q ∈ storepath p set ↔ q ∈ set ∨ q = p := by
  unfold storepath
  split
  · next h => rw [pathmatch_iff] at h; constructor
              · exact Or.inl
              · rintro (h1 | rfl)
                · exact h1
                · exact h
  · simp

theorem mem_selectSet (rp : List Nat → Option (List Nat)) (p q : List Nat) (set : List (List Nat)) :
    q ∈ selectSet rp p set ↔ q ∈ set ∨ q = p ∨ rp p = some q := by
  unfold selectSet
  cases h : rp p with
  | none => simp [mem_storepath]
  | some r =>
    by_cases e : p = r
    · subst e; simp [mem_storepath]; tauto
    · simp only [e, if_false, mem_storepath, Option.some.injEq]; rw [eq_comm (a := r)]; tauto

/-- The paths looked for are those given with `-P`, in any number, and their canonical forms. -/
theorem selected_paths (realpath : List Nat → Option (List Nat)) (given : List (List Nat)) (p : List Nat) :
    p ∈ selectAll realpath given ↔ Asked realpath given p := by
  unfold selectAll Asked
  suffices h : ∀ acc, p ∈ given.foldl (fun s p => selectSet realpath p s) acc ↔
      p ∈ acc ∨ ∃ g ∈ given, p = g ∨ realpath g = some p by simpa using h []
  induction given with
  | nil => simp
  | cons g t ih => intro acc; rw [List.foldl_cons, ih, mem_selectSet]; simp [or_assoc]

/-- A given path is found again, and so is its canonical form; nothing else is. -/
example : selectAll (fun p => if p = [47, 97] then some [47, 98] else some p) [[47, 97], [47, 98], [47, 97]] =
    [[47, 97], [47, 98]] := by decide

theorem delSfx_eq : delSfx = deletedMark := by decide

/-- The path found for a descriptor is the name of the file it refers to, and it is marked as deleted iff the name was
removed, even if a name ends in the kernel's mark itself. -/
theorem fd_path_right (abi : Abi) (w : World) (openFiles : Nat → Option File) (k : Kernel abi w openFiles) (n : Nat) :
    fdPath w (n : Int) = (openFiles n).map (fun f => (f.name, f.unlinked)) := by
  unfold fdPath
  rw [if_neg (by omega), Int.toNat_natCast]
  cases h : openFiles n with
  | none => rw [k.closed n h]; rfl
  | some f =>
    rw [k.link n f h, delSfx_eq]
    have hl : deletedMark.length = 10 := by decide
    cases hu : f.unlinked with
    | false =>
      simp only [Bool.false_eq_true, if_false, List.append_nil, hu, Option.map_some]
      rw [k.stat n f h, k.present n f h hu]
      split
      · rfl
      · split
        · rfl
        · simp
    | true =>
      obtain ⟨h1, h2⟩ := k.removed n f h hu
      simp only [if_true, Option.map_some, hu]
      rw [if_neg (by rw [List.length_append]; omega)]
      have e : (f.name ++ deletedMark).length - deletedMark.length = f.name.length := by simp
      rw [e]
      simp [k.stat n f h, h1]

theorem toInt_nat {a n : Nat} (h : FdArg a n) : toInt a = n := by
  unfold toInt; obtain ⟨h1, h2⟩ := h; rw [h1, if_pos h2]

theorem toInt_neg {a : Nat} (h : ¬ ∃ n, FdArg a n) : toInt a < 0 := by
  unfold toInt
  have : ¬ a % 2 ^ 32 < 2 ^ 31 := fun hlt => h ⟨_, rfl, hlt⟩
  rw [if_neg this]
  have : a % 2 ^ 32 < 2 ^ 32 := Nat.mod_lt _ (by decide)
  omega

theorem fdmatch_nat {abi : Abi} {w : World} {openFiles : Nat → Option File} (k : Kernel abi w openFiles) (s : Selection)
    (n : Nat) : fdmatch w s (n : Int) = true ↔ Wanted s.paths s.fds openFiles n := by
  unfold fdmatch Wanted
  rw [fd_path_right abi w openFiles k n]
  cases hs : s.fds with
  | none =>
    cases ho : openFiles n with
    | none => simp
    | some f => simp [pathmatch_iff]
  | some g =>
    cases ho : openFiles n with
    | none => simp
    | some f => simp [pathmatch_iff]

theorem fdmatch_neg (w : World) (s : Selection) (i : Int) (h : i < 0) : fdmatch w s i = false := by
  unfold fdmatch fdPath
  rw [if_pos h]
  cases s.fds with
  | none => simp
  | some g => simp; omega

theorem fdmatch_iff {abi : Abi} {w : World} {openFiles : Nat → Option File} (k : Kernel abi w openFiles) (s : Selection)
    (a : Nat) : fdmatch w s (toInt a) = true ↔ ∃ n, FdArg a n ∧ Wanted s.paths s.fds openFiles n := by
  by_cases h : ∃ n, FdArg a n
  · obtain ⟨n, hn⟩ := h
    rw [toInt_nat hn, fdmatch_nat k]
    constructor
    · exact fun hw => ⟨n, hn, hw⟩
    · rintro ⟨m, hm, hw⟩
      have : m = n := hm.1.symm.trans hn.1
      exact this ▸ hw
  · rw [fdmatch_neg w s _ (toInt_neg h)]
    simp only [Bool.false_eq_true, false_iff, not_exists, not_and]
    intro n hn
    exact absurd ⟨n, hn⟩ h

theorem upathmatch_iff (w : World) (s : Selection) (a : Nat) :
    upathmatch w s a = true ↔ ∃ p ∈ s.paths, w.str a = some p := by
  unfold upathmatch
  cases h : w.str a with
  | none => simp
  | some p => simp [pathmatch_iff]

theorem setMatch_spec {abi : Abi} {w : World} {openFiles : Nat → Option File} (k : Kernel abi w openFiles) (s : Selection)
    (nfds fdsize a : Nat) (hs : nfds ≤ 8 * fdsize) :
    ∃ b, setMatch w s nfds fdsize a = some b ∧ (b = true ↔ a ≠ 0 ∧ ∃ bytes, w.mem a fdsize = some bytes ∧
      ∃ n < nfds, InSet bytes n ∧ Wanted s.paths s.fds openFiles n) := by
  unfold setMatch
  by_cases h0 : a = 0
  · exact ⟨false, by rw [if_pos h0], by simp [h0]⟩
  · rw [if_neg h0]
    cases hm : w.mem a fdsize with
    | none => exact ⟨false, rfl, by simp⟩
    | some bytes =>
      have hl := k.reads _ _ _ hm
      have := scan_spec bytes 0 nfds 0 (fun p hp => by rw [Nat.xor_zero]; omega)
      simp only [this, Option.map_some]
      refine ⟨_, rfl, ?_⟩
      rw [List.any_eq_true]
      constructor
      · rintro ⟨j, hj, hf⟩
        rw [List.mem_filter, List.mem_range'_1] at hj
        refine ⟨h0, bytes, rfl, j, by omega, ?_, (fdmatch_nat k s j).1 hf⟩
        have := hj.2; unfold bitX at this; rw [Nat.xor_zero] at this
        unfold InSet; rw [List.getD_eq_getElem?_getD]; exact this
      · rintro ⟨_, b', hb, j, hj, hin, hw⟩
        injection hb with hb; subst hb
        refine ⟨j, ?_, (fdmatch_nat k s j).2 hw⟩
        rw [List.mem_filter, List.mem_range'_1]
        refine ⟨by omega, ?_⟩
        unfold bitX; rw [Nat.xor_zero]
        unfold InSet at hin; rw [List.getD_eq_getElem?_getD] at hin; exact hin

/-- three alternatives tried in turn -/
def firstOf (a b c : Option Bool) : Option Bool :=
  match a with
  | none => none
  | some true => some true
  | some false =>
    match b with
    | none => none
    | some true => some true
    | some false => c

theorem or3 {a b c : Option Bool} {A B C : Prop} (ha : ∃ x, a = some x ∧ (x = true ↔ A))
    (hb : ∃ x, b = some x ∧ (x = true ↔ B)) (hc : ∃ x, c = some x ∧ (x = true ↔ C)) :
    ∃ x, firstOf a b c = some x ∧ (x = true ↔ A ∨ B ∨ C) := by
  obtain ⟨x, rfl, hx⟩ := ha
  obtain ⟨y, rfl, hy⟩ := hb
  obtain ⟨z, rfl, hz⟩ := hc
  cases x
  · cases y
    · exact ⟨z, rfl, by simp_all⟩
    · exact ⟨true, rfl, by simp_all⟩
  · exact ⟨true, rfl, by simp_all⟩

theorem round_up (x w : Nat) (hw : 0 < w) : (x + w - 1) / w * w = (x + w - 1) - (x + w - 1) % w := by
  have := Nat.div_add_mod (x + w - 1) w
  rw [Nat.mul_comm] at this; omega

theorem xselect_spec {abi : Abi} {w : World} {openFiles : Nat → Option File} (k : Kernel abi w openFiles) (s : Selection)
    (args : List Nat) :
    ∃ b, xselect w s args = some b ∧
      (b = true ↔ ∃ n, InSets w args n ∧ Wanted s.paths s.fds openFiles n) := by
  have hw : 0 < w.wordsize := by rcases k.words with h | h <;> omega
  by_cases h : ∃ c, FdArg (args.getD 0 0) c ∧ 0 < c
  · obtain ⟨c, hc, hpos⟩ := h
    unfold xselect
    have e : toInt (arg args 0) = c := toInt_nat hc
    simp only [e]
    rw [if_neg (by omega)]
    have hn : (if (c : Int) > 1024 * 1024 then 1024 * 1024 else (c : Int).toNat) = min c (2 ^ 20) := by
      split
      · next h1 => rw [Nat.min_eq_right (by omega)]
      · next h1 => rw [Nat.min_eq_left (by omega), Int.toNat_natCast]
    rw [hn]
    set nfds := min c (2 ^ 20) with hnd
    set size := ((nfds + 7) / 8 + w.wordsize - 1) / w.wordsize * w.wordsize with hsz
    have hr := round_up ((nfds + 7) / 8) w.wordsize hw
    rw [← hsz] at hr
    have hlt := Nat.mod_lt ((nfds + 7) / 8 + w.wordsize - 1) hw
    have h1 : nfds ≤ 8 * size := by omega
    have h2 : 8 * size < nfds + 8 * w.wordsize := by omega
    have hdvd : w.wordsize ∣ size := ⟨_, by rw [hsz, Nat.mul_comm]⟩
    obtain ⟨b, hb, hiff⟩ := or3 (A := _) (B := _) (C := _) (setMatch_spec k s nfds size (arg args 1) h1) (setMatch_spec k s nfds size (arg args 2) h1)
      (setMatch_spec k s nfds size (arg args 3) h1)
    refine ⟨b, hb, hiff.trans ?_⟩
    constructor
    · intro hh
      have : ∃ i, (i = 1 ∨ i = 2 ∨ i = 3) ∧ arg args i ≠ 0 ∧ ∃ bytes, w.mem (arg args i) size = some bytes ∧
          ∃ n < nfds, InSet bytes n ∧ Wanted s.paths s.fds openFiles n := by
        rcases hh with hh | hh | hh
        · exact ⟨1, by simp, hh⟩
        · exact ⟨2, by simp, hh⟩
        · exact ⟨3, by simp, hh⟩
      obtain ⟨i, hi, h0, bytes, hm, n, hlt, hin, hwant⟩ := this
      exact ⟨n, ⟨c, hc, hlt, i, hi, h0, size, bytes, hdvd, h1, h2, hm, hin⟩, hwant⟩
    · rintro ⟨n, ⟨c', hc', hlt', i, hi, h0, size', bytes, hd, h1', h2', hm, hin⟩, hwant⟩
      have ec : c' = c := hc'.1.symm.trans hc.1
      subst ec
      have es : size' = size := by
        obtain ⟨x, hx⟩ := hd
        obtain ⟨y, hy⟩ := hdvd
        have : x = y := by
          rcases Nat.lt_trichotomy x y with hxy | hxy | hxy
          · have := Nat.mul_le_mul_left w.wordsize hxy
            rw [Nat.mul_succ] at this; omega
          · exact hxy
          · have := Nat.mul_le_mul_left w.wordsize hxy
            rw [Nat.mul_succ] at this; omega
        rw [hx, hy, this]
      rw [es] at hm
      have key : arg args i ≠ 0 ∧ ∃ bytes, w.mem (arg args i) size = some bytes ∧
          ∃ n < nfds, InSet bytes n ∧ Wanted s.paths s.fds openFiles n := ⟨h0, bytes, hm, n, hlt', hin, hwant⟩
      rcases hi with rfl | rfl | rfl
      · exact Or.inl key
      · exact Or.inr (Or.inl key)
      · exact Or.inr (Or.inr key)
  · refine ⟨false, ?_, ?_⟩
    · unfold xselect
      have : toInt (arg args 0) ≤ 0 := by
        by_cases h' : ∃ n, FdArg (arg args 0) n
        · obtain ⟨n, hn⟩ := h'
          rw [toInt_nat hn]
          have : ¬ 0 < n := fun hp => h ⟨n, hn, hp⟩
          omega
        · have := toInt_neg h'; omega
      simp only [this, if_true]
    · simp only [Bool.false_eq_true, false_iff, not_exists, not_and]
      rintro n ⟨c, hc, hlt, _⟩ _
      exact h ⟨c, hc, by omega⟩

theorem pollLoop_spec {abi : Abi} {w : World} {openFiles : Nat → Option File} (k : Kernel abi w openFiles) (s : Selection)
    (m cur en : Nat) (he : en = cur + 8 * m) :
    pollLoop w s m cur en = true ↔ ∃ n, (∃ i < m, (∀ j ≤ i, ∃ b, w.mem (cur + 8 * j) 8 = some b) ∧
      ∃ b, w.mem (cur + 8 * i) 8 = some b ∧
        FdArg (b.getD 0 0 + 256 * b.getD 1 0 + 65536 * b.getD 2 0 + 16777216 * b.getD 3 0) n) ∧
      Wanted s.paths s.fds openFiles n := by
  induction m generalizing cur with
  | zero => simp [pollLoop]
  | succ m ih =>
    unfold pollLoop
    rw [if_pos (by omega)]
    cases hb : w.mem cur 8 with
    | none =>
      simp only [Bool.false_eq_true, false_iff]
      rintro ⟨n, ⟨i, _, hall, _⟩, _⟩
      obtain ⟨b, h⟩ := hall 0 (Nat.zero_le _)
      rw [Nat.mul_zero, Nat.add_zero, hb] at h; cases h
    | some b =>
      simp only
      have hh := fdmatch_iff k s (b.getD 0 0 + 256 * b.getD 1 0 + 65536 * b.getD 2 0 + 16777216 * b.getD 3 0)
      by_cases hm : fdmatch w s (pollFd b) = true
      · rw [if_pos hm]
        simp only [true_iff]
        obtain ⟨n, hn, hw⟩ := hh.1 hm
        refine ⟨n, ⟨0, by omega, ?_, b, by simpa using hb, hn⟩, hw⟩
        intro j hj
        have : j = 0 := by omega
        subst this; exact ⟨b, by simpa using hb⟩
      · rw [if_neg hm, ih (cur + 8) (by omega)]
        constructor
        · rintro ⟨n, ⟨i, hi, hall, b', hb', hn⟩, hw⟩
          refine ⟨n, ⟨i + 1, by omega, ?_, b', ?_, hn⟩, hw⟩
          · intro j hj
            cases j with
            | zero => exact ⟨b, by simpa using hb⟩
            | succ j =>
              obtain ⟨b2, h2⟩ := hall j (by omega)
              exact ⟨b2, by rw [← h2]; congr 1; omega⟩
          · rw [← hb']; congr 1; omega
        · rintro ⟨n, ⟨i, hi, hall, b', hb', hn⟩, hw⟩
          cases i with
          | zero =>
            rw [Nat.mul_zero, Nat.add_zero, hb] at hb'
            injection hb' with hb'; subst hb'
            exact absurd (hh.2 ⟨n, hn, hw⟩) hm
          | succ i =>
            refine ⟨n, ⟨i, by omega, ?_, b', ?_, hn⟩, hw⟩
            · intro j hj
              obtain ⟨b2, h2⟩ := hall (j + 1) (by omega)
              exact ⟨b2, by rw [← h2]; congr 1; omega⟩
            · rw [← hb']; congr 1; omega

theorem pollMatch_spec {abi : Abi} {w : World} {openFiles : Nat → Option File} (k : Kernel abi w openFiles) (s : Selection)
    (args : List Nat) (ha : arg args 0 < 2 ^ 64) :
    pollMatch w s args = true ↔ ∃ n, InPolls w args n ∧ Wanted s.paths s.fds openFiles n := by
  unfold pollMatch InPolls
  have hn : (if arg args 1 % 2 ^ 32 > 1024 * 1024 then 1024 * 1024 else arg args 1 % 2 ^ 32) =
      min (args.getD 1 0 % 2 ^ 32) (2 ^ 20) := by
    unfold arg; split <;> omega
  simp only [hn]
  set nfds := min (args.getD 1 0 % 2 ^ 32) (2 ^ 20) with hnd
  have e : arg args 0 = args.getD 0 0 := rfl
  rw [e] at ha ⊢
  by_cases h0 : nfds = 0
  · rw [if_pos (Or.inl h0)]; simp [h0]
  · by_cases hb : args.getD 0 0 + 8 * nfds < 2 ^ 64
    · rw [if_neg (by rw [Nat.mod_eq_of_lt hb]; omega), Nat.mod_eq_of_lt hb, pollLoop_spec k s nfds _ _ rfl]
      simp only [hb, true_and]
    · rw [if_pos (by
        right
        have : args.getD 0 0 + 8 * nfds < 2 ^ 64 + 2 ^ 64 := by omega
        omega)]
      simp only [hb, false_and, exists_false, Bool.false_eq_true]

/-- what the code looks at for a row, in terms of uses -/
def shape (abi : Abi) (r : Row) : List Use :=
  if !(r.file || r.desc || r.net) then []
  else
    match caseOf r.sen with
    | .fdFd => [.fd 0, .fd 1]
    | .fdPath => [.fd 0, .path 1]
    | .pathPath => [.path 0, .path 1]
    | .xPath => [.path 1]
    | .fdPathFdPath => [.fd 0, .fd 2, .path 1, .path 3]
    | .oldMmap => [.blockFd 4]
    | .mmap => [.fd 4]
    | .xFdPath => [.fd 1, .path 2]
    | .fdXFd => [.fd 0, .fd 2]
    | .epollCtl => [.fd 2]
    | .fanotifyMark => (match abi with | .x86_64 => [.fd 3, .path 4] | .i386 => [.fd 4, .path 5])
    | .oldSelect => [.blockSets]
    | .select => [.sets]
    | .poll => [.polls]
    | .fsconfig => [.fsconfig]
    | .nothing => []
    | .fallback => if r.file then [.path 0] else if r.desc || r.net then [.fd 0] else []

/-- one use names something asked for -/
def Hit (w : World) (openFiles : Nat → Option File) (s : Selection) (args : List Nat) (u : Use) : Prop :=
  (∃ n, NamesFd w args n u ∧ Wanted s.paths s.fds openFiles n) ∨ ∃ p ∈ s.paths, NamesPath w args p u

theorem hit_fd {abi : Abi} {w : World} {openFiles : Nat → Option File} (k : Kernel abi w openFiles) (s : Selection)
    (args : List Nat) (i : Nat) : Hit w openFiles s args (.fd i) ↔ fdmatch w s (toInt (arg args i)) = true := by
  rw [fdmatch_iff k]; unfold Hit; simp [NamesFd, NamesPath, arg]

theorem hit_path (w : World) (openFiles : Nat → Option File) (s : Selection) (args : List Nat) (i : Nat) :
    Hit w openFiles s args (.path i) ↔ upathmatch w s (arg args i) = true := by
  rw [upathmatch_iff]; unfold Hit; simp [NamesFd, NamesPath, arg]

theorem matchSet_shape {abi : Abi} {w : World} {openFiles : Nat → Option File} (k : Kernel abi w openFiles) (s : Selection)
    (r : Row) (args : List Nat) (ha : arg args 0 < 2 ^ 64) :
    ∃ b, matchSet w s r args = some b ∧ (b = true ↔ ∃ u ∈ shape abi r, Hit w openFiles s args u) := by
  have hf := fun i => (hit_fd k s args i)
  have hp := fun i => (hit_path w openFiles s args i)
  have hl := k.after64
  unfold matchSet shape
  by_cases h0 : (!(r.file || r.desc || r.net)) = true
  · simp only [if_pos h0]; exact ⟨false, rfl, by simp⟩
  · simp only [if_neg h0]
    cases caseOf r.sen
    · exact ⟨_, rfl, by simp [hf]⟩
    · exact ⟨_, rfl, by simp [hf, hp]⟩
    · exact ⟨_, rfl, by simp [hp]⟩
    · exact ⟨_, rfl, by simp [hp]⟩
    · exact ⟨_, rfl, by simp [hf, hp, or_assoc]⟩
    · cases hb : w.block (arg args 0) 6 with
      | none =>
        have hb' : w.block (args.getD 0 0) 6 = none := hb
        exact ⟨false, rfl, by simp only [Hit, NamesFd, NamesPath, hb', List.mem_singleton, exists_eq_left, reduceCtorEq,
          false_and, and_false, exists_false, or_false, Bool.false_eq_true]⟩
      | some b =>
        refine ⟨_, rfl, ?_⟩
        rw [fdmatch_iff k]
        simp [Hit, NamesFd, NamesPath, arg] at hb ⊢
        simp [hb]
    · exact ⟨_, rfl, by simp [hf]⟩
    · exact ⟨_, rfl, by simp [hf, hp]⟩
    · exact ⟨_, rfl, by simp [hf]⟩
    · exact ⟨_, rfl, by simp [hf]⟩
    · cases abi
      · simp only at hl
        exact ⟨_, rfl, by simp [hf, hp, hl]⟩
      · simp only at hl
        exact ⟨_, rfl, by simp [hf, hp, hl]⟩
    · cases hb : w.block (arg args 0) 5 with
      | none =>
        have hb' : w.block (args.getD 0 0) 5 = none := hb
        exact ⟨false, rfl, by simp only [Hit, NamesFd, NamesPath, hb', List.mem_singleton, exists_eq_left, reduceCtorEq,
          false_and, and_false, exists_false, or_false, Bool.false_eq_true]⟩
      | some b =>
        obtain ⟨x, hx, hiff⟩ := xselect_spec k s b
        refine ⟨x, hx, hiff.trans ?_⟩
        simp [Hit, NamesFd, NamesPath, arg] at hb ⊢
        simp [hb]
    · obtain ⟨x, hx, hiff⟩ := xselect_spec k s args
      exact ⟨x, hx, hiff.trans (by simp [Hit, NamesFd, NamesPath])⟩
    · exact ⟨_, rfl, (pollMatch_spec k s args ha).trans (by simp [Hit, NamesFd, NamesPath])⟩
    · have hfm := fdmatch_iff k s (arg args 4)
      have hpm := upathmatch_iff w s (arg args 3)
      by_cases h3 : arg args 1 % 2 ^ 32 = 3 ∨ arg args 1 % 2 ^ 32 = 4
      · rw [if_pos h3]
        refine ⟨_, rfl, ?_⟩
        rw [Bool.or_eq_true, hfm, hpm]
        unfold arg at h3 ⊢
        simp only [Hit, NamesFd, NamesPath, List.mem_singleton, exists_eq_left]
        have e1 : args.getD 1 0 % 2 ^ 32 ∈ [3, 4, 5] := by rcases h3 with h | h <;> rw [h] <;> decide
        have e2 : args.getD 1 0 % 2 ^ 32 ∈ [3, 4] := by rcases h3 with h | h <;> rw [h] <;> decide
        simp only [e1, e2, true_and]
      · rw [if_neg h3]
        have e2 : ¬ args.getD 1 0 % 2 ^ 32 ∈ [3, 4] := by
          unfold arg at h3; simpa only [List.mem_cons, List.not_mem_nil, or_false] using h3
        by_cases h5 : arg args 1 % 2 ^ 32 = 5
        · rw [if_pos h5]
          refine ⟨_, rfl, ?_⟩
          rw [hfm]
          have e1 : args.getD 1 0 % 2 ^ 32 ∈ [3, 4, 5] := by unfold arg at h5; rw [h5]; decide
          simp only [Hit, NamesFd, NamesPath, List.mem_singleton, exists_eq_left, e1, e2, true_and, false_and, and_false,
            exists_false, or_false]
          rfl
        · rw [if_neg h5]
          have e1 : ¬ args.getD 1 0 % 2 ^ 32 ∈ [3, 4, 5] := by
            unfold arg at h3 h5; simp only [List.mem_cons, List.not_mem_nil, or_false] at h3 ⊢; tauto
          refine ⟨_, rfl, ?_⟩
          simp only [Hit, NamesFd, NamesPath, List.mem_singleton, exists_eq_left, e1, e2, false_and, and_false,
            exists_false, or_false, Bool.false_eq_true]
    · exact ⟨_, rfl, by simp⟩
    · by_cases h1 : r.file = true
      · simp only [h1, if_true]; exact ⟨_, rfl, by simp [hp]⟩
      · simp only [h1, if_false, Bool.false_eq_true]
        by_cases h2 : (r.desc || r.net) = true
        · simp only [h2, if_true]; exact ⟨_, rfl, by simp [hf]⟩
        · simp only [h2, if_false, Bool.false_eq_true]; exact ⟨_, rfl, by simp⟩

/-- calls for which the code looks at other arguments than it should; each is treated below -/
def odd : List Call := [.rename, .epoll_ctl, .fanotify_mark, .fsconfig, .perf_event_open, .close_range, .getcwd, .socketcall]

/-- the code looks at the right arguments in all rows but the odd ones -/
def rowRight (abi : Abi) (r : Row) : Bool :=
  odd.contains r.call || ((shape abi r).all (fun u => (uses abi r.call).contains u) &&
    (uses abi r.call).all (fun u => (shape abi r).contains u))

theorem rows_right (abi : Abi) : (rowsOf abi).all (rowRight abi) = true := by
  cases abi
  · decide +kernel
  · decide +kernel

/-- the code looks at no wrong argument in all rows but two -/
def rowSafe (abi : Abi) (r : Row) : Bool :=
  [Call.getcwd, .socketcall].contains r.call || (shape abi r).all (fun u => (uses abi r.call).contains u)

theorem rows_safe (abi : Abi) : (rowsOf abi).all (rowSafe abi) = true := by
  cases abi
  · decide +kernel
  · decide +kernel

/-- `-P` and `--trace-fds` select a call of either interface exactly if it names, by a descriptor or a path name among
its arguments, one of the descriptors asked for or a file whose path was asked for, literally or in canonical form; no
read goes outside of a buffer. Missing: the calls in `odd`, where this is false, see `rename_missed` and below. -/
theorem selection_right_partial (abi : Abi) (w : World) (openFiles : Nat → Option File) (k : Kernel abi w openFiles)
    (realpath : List Nat → Option (List Nat)) (given : List (List Nat)) (fds : Option (Nat → Bool))
    (r : Row) (hr : r ∈ rowsOf abi) (ho : r.call ∉ odd) (args : List Nat) (ha : args.getD 0 0 < 2 ^ 64) :
    ∃ b, matchSet w ⟨selectAll realpath given, fds⟩ r args = some b ∧
      (b = true ↔ ∃ paths, (∀ p, p ∈ paths ↔ Asked realpath given p) ∧ Concerned abi w openFiles paths fds r.call args) := by
  obtain ⟨b, hb, hiff⟩ := matchSet_shape k ⟨selectAll realpath given, fds⟩ r args ha
  refine ⟨b, hb, hiff.trans ?_⟩
  have hrow := List.all_eq_true.1 (rows_right abi) r hr
  unfold rowRight at hrow
  rw [Bool.or_eq_true] at hrow
  have hrow := hrow.resolve_left (by simpa using ho)
  simp only [Bool.and_eq_true, List.all_eq_true, List.contains_iff_mem] at hrow
  have hmem : ∀ u, u ∈ shape abi r ↔ u ∈ uses abi r.call := fun u => ⟨hrow.1 u, hrow.2 u⟩
  constructor
  · rintro ⟨u, hu, h⟩
    exact ⟨_, selected_paths realpath given, u, (hmem u).1 hu, h⟩
  · rintro ⟨paths, hpaths, u, hu, h⟩
    refine ⟨u, (hmem u).2 hu, ?_⟩
    have e : ∀ p, p ∈ paths ↔ p ∈ selectAll realpath given := fun p =>
      (hpaths p).trans (selected_paths realpath given p).symm
    simpa only [Hit, Wanted, e] using h

/-- A call that is shown names something asked for, for all calls but `getcwd` and `socketcall` with an unknown
number. -/
theorem selection_sound (abi : Abi) (w : World) (openFiles : Nat → Option File) (k : Kernel abi w openFiles)
    (realpath : List Nat → Option (List Nat)) (given : List (List Nat)) (fds : Option (Nat → Bool))
    (r : Row) (hr : r ∈ rowsOf abi) (h1 : r.call ≠ .getcwd) (h2 : r.call ≠ .socketcall) (args : List Nat)
    (ha : args.getD 0 0 < 2 ^ 64) (hm : matchSet w ⟨selectAll realpath given, fds⟩ r args = some true) :
    ∃ paths, (∀ p ∈ paths, Asked realpath given p) ∧ Concerned abi w openFiles paths fds r.call args := by
  obtain ⟨b, hb, hiff⟩ := matchSet_shape k ⟨selectAll realpath given, fds⟩ r args ha
  rw [hm] at hb; injection hb with hb; subst hb
  obtain ⟨u, hu, h⟩ := hiff.1 rfl
  have hrow := List.all_eq_true.1 (rows_safe abi) r hr
  unfold rowSafe at hrow
  rw [Bool.or_eq_true] at hrow
  have hrow := hrow.resolve_left (by simp [h1, h2])
  simp only [List.all_eq_true, List.contains_iff_mem] at hrow
  exact ⟨_, fun p hp => (selected_paths realpath given p).1 hp, u, hrow u hu, h⟩

/-! ### A concrete system, and the calls that are missed -/

/-- descriptor 3 is `/a`, descriptor 4 a removed file `/b`; the tracee's memory holds "/a" at 16 and "/c" at 32 -/
def sample : World where
  str := fun a => if a = 16 then some [47, 97] else if a = 32 then some [47, 99] else none
  mem := fun a n => if n = 8 ∧ a = 64 then some [24, 0, 0, 0, 0, 0, 0, 0] else none
  block := fun _ _ => none
  link := fun n => if n = 3 then some [47, 97] else if n = 4 then some ([47, 98] ++ deletedMark) else none
  statOk := fun _ => true
  same := fun n p => n = 3 && p == [47, 97]
  wordsize := 8
  llArg := 3

/-- its open files -/
def sampleFiles : Nat → Option File := fun n =>
  if n = 3 then some ⟨[47, 97], false⟩ else if n = 4 then some ⟨[47, 98], true⟩ else none

theorem sample_kernel : Kernel .x86_64 sample sampleFiles where
  closed := by intro n h; simp only [sampleFiles, sample] at h ⊢; split at h <;> simp_all
  link := by
    intro n f h; simp only [sampleFiles, sample] at h ⊢
    split at h
    · injection h with h; subst h; simp [*]
    · split at h
      · injection h with h; subst h; simp [*]
      · cases h
  stat := fun _ _ _ => rfl
  present := by
    intro n f h hu; simp only [sampleFiles, sample] at h ⊢
    split at h
    · injection h with h; subst h; simp [*]
    · split at h
      · injection h with h; subst h; cases hu
      · cases h
  removed := by
    intro n f h hu; simp only [sampleFiles, sample] at h ⊢
    split at h
    · injection h with h; subst h; cases hu
    · split at h
      · injection h with h; subst h; simp [*]
      · cases h
  words := Or.inr rfl
  reads := by
    intro a n l h; simp only [sample] at h
    split at h
    · injection h with h; subst h; simp [*]
    · cases h
  after64 := rfl

/-- `select` on descriptors 3 and 4 is shown for `-P /b`, `read(3)` is not, `openat(AT_FDCWD, "/c")` is shown for `/c`. -/
example : matchSet sample ⟨[[47, 98]], none⟩ ⟨.select, false, true, false, .select⟩ [5, 64] = some true := by
  decide +kernel
example : matchSet sample ⟨[[47, 98]], none⟩ ⟨.read, false, true, false, .read⟩ [3] = some false := by decide +kernel
example : matchSet sample ⟨[[47, 99]], none⟩ ⟨.openat, true, true, false, .openat⟩ [2 ^ 64 - 100, 32] = some true := by
  decide +kernel

/-- `rename("/a", "/c")` is not shown for `-P /c`: only the old name is looked at. (The calls with descriptors,
`renameat` and `renameat2`, are shown.) -/
theorem rename_missed : ∃ r ∈ x86_64, r.call = .rename ∧
    matchSet sample ⟨[[47, 99]], none⟩ r [16, 32] = some false ∧
    Concerned .x86_64 sample sampleFiles [[47, 99]] none r.call [16, 32] := by
  refine ⟨⟨.rename, true, false, false, .rename⟩, ?_, rfl, by decide +kernel, ?_⟩
  · have : x86_64[82]? = some ⟨.rename, true, false, false, .rename⟩ := rfl
    exact List.mem_of_getElem? this
  · exact ⟨.path 1, by decide, Or.inr ⟨[47, 99], by simp, rfl⟩⟩

/-- `epoll_ctl(3, …, 4, …)` is not shown for `--trace-fds=3`: only the descriptor that is added is looked at. -/
theorem epoll_ctl_missed : ∃ r ∈ x86_64, r.call = .epoll_ctl ∧
    matchSet sample ⟨[], some (· == 3)⟩ r [3, 1, 4] = some false ∧
    Concerned .x86_64 sample sampleFiles [] (some (· == 3)) r.call [3, 1, 4] := by
  refine ⟨⟨.epoll_ctl, false, true, false, .epoll_ctl⟩, ?_, rfl, by decide +kernel, ?_⟩
  · have : x86_64[233]? = some ⟨.epoll_ctl, false, true, false, .epoll_ctl⟩ := rfl
    exact List.mem_of_getElem? this
  · exact ⟨.fd 0, by decide, Or.inl ⟨3, ⟨rfl, by decide⟩, Or.inl ⟨_, rfl, rfl⟩⟩⟩

/-- Likewise `fanotify_mark(3, …)`, `fsconfig(3, …)`, `perf_event_open(…, 3, …)` and `close_range(3, 5)` for
`--trace-fds=3`. -/
theorem others_missed : ∀ x ∈ [(Row.mk .fanotify_mark true true false .fanotify_mark, [3, 1, 2, 4, 16]),
      (⟨.fsconfig, true, true, false, .fsconfig⟩, [3, 0, 0, 0, 0]),
      (⟨.perf_event_open, false, true, false, .perf_event_open⟩, [0, 0, 0, 3, 0]),
      (⟨.close_range, false, false, false, .close_range⟩, [3, 5, 0])],
    (∃ y ∈ x86_64, y.call = x.1.call ∧ y.sen = x.1.sen) ∧
    matchSet sample ⟨[], some (· == 3)⟩ x.1 x.2 = some false ∧
    Concerned .x86_64 sample sampleFiles [] (some (· == 3)) x.1.call x.2 := by
  have hex : ∀ c s, (x86_64.any (fun y => decide (y.call = c) && decide (y.sen = s))) = true →
      ∃ y ∈ x86_64, y.call = c ∧ y.sen = s := by
    intro c s h
    obtain ⟨y, hy, h⟩ := List.any_eq_true.1 h
    exact ⟨y, hy, by simpa using h⟩
  intro x hx
  simp only [List.mem_cons, List.not_mem_nil, or_false] at hx
  have want : Wanted [] (some (· == 3)) sampleFiles 3 := Or.inl ⟨_, rfl, rfl⟩
  rcases hx with rfl | rfl | rfl | rfl
  · exact ⟨hex _ _ (by decide +kernel), by decide +kernel, .fd 0, by decide, Or.inl ⟨3, ⟨rfl, by decide⟩, want⟩⟩
  · exact ⟨hex _ _ (by decide +kernel), by decide +kernel, .fd 0, by decide, Or.inl ⟨3, ⟨rfl, by decide⟩, want⟩⟩
  · exact ⟨hex _ _ (by decide +kernel), by decide +kernel, .fd 3, by decide, Or.inl ⟨3, ⟨rfl, by decide⟩, want⟩⟩
  · exact ⟨hex _ _ (by decide +kernel), by decide +kernel, .range 0 1, by decide,
      Or.inl ⟨3, ⟨by decide, by decide⟩, want⟩⟩

/-- `getcwd` is shown if its result buffer happens to hold a selected path when it is called, although the call names
no path. -/
theorem getcwd_spurious : ∃ r ∈ x86_64, r.call = .getcwd ∧
    matchSet sample ⟨[[47, 97]], none⟩ r [16, 4096] = some true ∧
    ¬ Concerned .x86_64 sample sampleFiles [[47, 97]] none r.call [16, 4096] := by
  refine ⟨⟨.getcwd, true, false, false, .getcwd⟩, ?_, rfl, by decide +kernel, ?_⟩
  · have : x86_64[79]? = some ⟨.getcwd, true, false, false, .getcwd⟩ := rfl
    exact List.mem_of_getElem? this
  · rintro ⟨u, hu, _⟩; cases hu

end Strace.Path
