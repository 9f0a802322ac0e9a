import Verif.Kvm.Props
/-!
# C106: an example, and histories with which the exit reason shown is not that of the vCPU that ran
-/
namespace Strace.Kvm

def v0 : V := ⟨0, 0⟩
def v1 : V := ⟨0, 1⟩
/-- vCPU 0 of another virtual machine -/
def u0 : V := ⟨1, 0⟩

def mapOf (a : Nat) (v : V) : KMap := ⟨a, a + 12288, 0, .vcpu v⟩

def heap : KMap := ⟨4096, 8192, 0, .other 0 [91, 104, 101, 97, 112, 93]⟩

/-- the exit reason is 2 for vCPU 0 and 5 for vCPU 1, and 8 for the other machine -/
def why (v : V) : Nat := if v = u0 then 8 else if v = v1 then 5 else 2

def junk0 : Nat → Option Nat := fun _ => some 77

def runE (fd : Nat) : Ev := .run fd true why junk0

/-- two vCPUs of one machine, mapped and run by one thread, with a stack trace in between -/
def usual : List Ev :=
  [.create 4 v0, .create 5 v1, .remap [heap, mapOf 65536 v0, mapOf 131072 v1], runE 4, .other true]

theorem usual_shown : shown 2352 usual (runE 5) = some 5 ∧ shown 2352 usual (runE 4) = some 2 := by decide +kernel

theorem mem5 {α : Type} {x a b c d e f : α} (h : x ∈ [a, b, c, d, e] ++ [f]) : x = a ∨ x = b ∨ x = c ∨ x = d ∨ x = e ∨ x = f := by
  simpa using h

/-- the hypotheses of `reason_partial` are met -/
theorem usual_good : Good 2352 (usual ++ [runE 5]) := by
  have hmap : ∀ ms, Ev.remap ms ∈ usual ++ [runE 5] → ms = [heap, mapOf 65536 v0, mapOf 131072 v1] := by
    intro ms h
    rcases mem5 h with h | h | h | h | h | h
    all_goals first
      | cases h; done
      | (injection h)
  have hobj : ∀ m ∈ [heap, mapOf 65536 v0, mapOf 131072 v1], ∀ v, m.obj = .vcpu v →
      (m = mapOf 65536 v0 ∧ v = v0) ∨ (m = mapOf 131072 v1 ∧ v = v1) := by
    intro m hm v hv
    simp only [List.mem_cons, List.not_mem_nil, or_false] at hm
    rcases hm with rfl | rfl | rfl
    · cases hv
    · injection hv with hv; exact Or.inl ⟨rfl, hv.symm⟩
    · injection hv with hv; exact Or.inr ⟨rfl, hv.symm⟩
  have hgive : ∀ pre, pre <+: usual ++ [runE 5] → ∀ fd v, Gives pre fd v → v = v0 ∨ v = v1 := by
    intro pre hp fd v g
    have : Gives (usual ++ [runE 5]) fd v := by
      rcases g with g | g
      · exact Or.inl (hp.subset g)
      · exact Or.inr (hp.subset g)
    rcases this with h | h
    · rcases mem5 h with h | h | h | h | h | h
      · injection h with _ h; exact Or.inl h
      · injection h with _ h; exact Or.inr h
      all_goals cases h
    · rcases mem5 h with h | h | h | h | h | h
      all_goals cases h
  refine ⟨?_, ?_, ?_, ?_, Or.inl ?_⟩
  · intro ms h
    rw [hmap ms h]
    refine ⟨?_, ?_, ?_⟩
    · intro m hm v hv
      rcases hobj m hm v hv with ⟨rfl, rfl⟩ | ⟨rfl, rfl⟩ <;> simp [mapOf, v0, v1]
    · intro m hm m' hm' a h1 h2 h3 h4
      simp only [List.mem_cons, List.not_mem_nil, or_false] at hm hm'
      rcases hm with rfl | rfl | rfl <;> rcases hm' with rfl | rfl | rfl <;> first | rfl | (simp only [heap, mapOf] at h1 h2 h3 h4; omega)
    · intro m hm j n hn
      simp only [List.mem_cons, List.not_mem_nil, or_false] at hm
      rcases hm with rfl | rfl | rfl
      · injection hn with _ hn
        subst hn
        decide +kernel
      · cases hn
      · cases hn
  · intro pre hp v v' hl hl' hi
    have both : ∀ w, Live (K.after pre) w → w = v0 ∨ w = v1 := by
      intro w hw
      rcases hw with ⟨fd, hw⟩ | ⟨m, hm, hw⟩
      · exact hgive pre hp fd w (after_fds pre fd w hw)
      · rcases after_maps pre with e | e
        · rw [e] at hm; cases hm
        · rw [hmap _ (hp.subset e)] at hm
          rcases hobj m hm w hw with ⟨_, h⟩ | ⟨_, h⟩
          · exact Or.inl h
          · exact Or.inr h
    rcases both v hl with rfl | rfl <;> rcases both v' hl' with rfl | rfl <;> first | rfl | cases hi
  · intro pre fd v hp
    have : Ev.setfd fd (some v) ∈ usual ++ [runE 5] := hp.subset (List.mem_append_right _ (List.mem_singleton.mpr rfl))
    rcases mem5 this with h | h | h | h | h | h
    all_goals cases h
  · intro ms ms' h h' m hm m' hm' v v' hv hv' hi _ _
    rw [hmap ms h] at hm
    rw [hmap ms' h'] at hm'
    rcases hobj m hm v hv with ⟨rfl, rfl⟩ | ⟨rfl, rfl⟩ <;> rcases hobj m' hm' v' hv' with ⟨rfl, rfl⟩ | ⟨rfl, rfl⟩ <;> first | rfl | cases hi
  · intro pre ms' hp ms hms m hm v hv
    rw [hmap ms' (hp.subset (List.mem_append_right _ (List.mem_singleton.mpr rfl)))]
    rw [hmap ms (hp.subset (List.mem_append_left _ hms))] at hm
    rcases hobj m hm v hv with ⟨rfl, rfl⟩ | ⟨rfl, rfl⟩
    · exact ⟨_, by simp, rfl, _, rfl, rfl⟩
    · exact ⟨_, by simp, rfl, _, rfl, rfl⟩

/-- **C106 is false with two virtual machines.**  Their vCPUs have the same names, so the run of the second shows the exit reason
of the first -/
theorem two_machines :
    (K.after [.create 4 v0, .create 5 u0, .remap [mapOf 65536 v0, mapOf 131072 u0]]).fds 5 = some u0 ∧
    shown 2352 [.create 4 v0, .create 5 u0, .remap [mapOf 65536 v0, mapOf 131072 u0]] (runE 5) = some (why v0) ∧ why u0 ≠ why v0 := by
  decide +kernel

/-- **C106 is false when a mapping is moved and another vCPU runs first.**  Only the vCPU that runs first after the change is
looked up again; the other is read at the old address -/
theorem moved_other :
    let h := [.create 4 v0, .create 5 v1, .remap [mapOf 65536 v0, mapOf 131072 v1], runE 4, runE 5,
      .remap [mapOf 65536 v0, ⟨131072, 143360, 0, .other 0 [91, 97, 93]⟩, mapOf 262144 v1], runE 4]
    (K.after h).fds 5 = some v1 ∧ shown 2352 h (runE 5) = some 77 ∧ why v1 = 5 := by decide +kernel

/-- … or when it is moved by less than its size -/
theorem moved_little :
    let h := [.create 4 v0, .remap [mapOf 65536 v0], runE 4, .remap [mapOf 61440 v0]]
    (K.after h).fds 4 = some v0 ∧ shown 2352 h (runE 4) = some 77 ∧ why v0 = 2 := by decide +kernel

/-- … or when the number of a descriptor is given to another vCPU by dup2, or by another thread -/
theorem number_reused :
    let h := [.create 4 v0, .create 5 v1, .remap [mapOf 65536 v0, mapOf 131072 v1], runE 4, .setfd 4 (some v1)]
    (K.after h).fds 4 = some v1 ∧ shown 2352 h (runE 4) = some (why v0) ∧ why v1 ≠ why v0 := by decide +kernel

end Strace.Kvm
