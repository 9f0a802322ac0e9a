import Verif.Priv.Spec
import Mathlib.Data.List.Forall2
/-!
# C107: what a decoder gets on exiting is what it kept on entering
-/
namespace Strace.Priv

theorem at_head (a : Nat) (x : Obj) (h : List (Nat × Obj)) : at? ((a, x) :: h) a = some x := by simp [at?]

theorem filter_fresh (a : Nat) (h : List (Nat × Obj)) (hf : a ∉ h.map (·.1)) : h.filter (fun p => p.1 ≠ a) = h := by
  rw [List.filter_eq_self]
  intro p hp
  have : p.1 ≠ a := fun e => hf (List.mem_map.mpr ⟨p, hp, e⟩)
  simp [this]

/-- a slot that is in order: what it holds is allocated and its owner's, if there is anything to release -/
def Sound (s : S) : Prop :=
  s.bad = false ∧ (s.heap.map (·.1)).Nodup ∧
    ∀ o, s.data ≠ 0 → s.fn = some o → ∃ x, at? s.heap s.data = some x ∧ x.owner = o

theorem at_cons_ne (a b : Nat) (x : Obj) (h : List (Nat × Obj)) (hn : a ≠ b) : at? ((a, x) :: h) b = at? h b := by
  simp [at?, hn]

theorem at_mem (h : List (Nat × Obj)) (a : Nat) (x : Obj) (hx : at? h a = some x) : a ∈ h.map (·.1) := by
  unfold at? at hx
  cases hf : h.find? (fun p => p.1 = a) with
  | none => simp [hf] at hx
  | some p =>
    have h1 := List.mem_of_find?_eq_some hf
    have h2 := List.find?_some hf
    simp at h2
    exact List.mem_map.mpr ⟨p, h1, h2⟩

/-- something new in an empty slot -/
theorem setObj_empty (al : Alloc) (s : S) (hs : s.data = 0) (seed : Nat) (x : Obj) : setObj al s seed x =
    ⟨al seed (s.heap.map (·.1)), some x.owner, (al seed (s.heap.map (·.1)), x) :: s.heap, s.bad⟩ := by
  simp [setObj, set, hs]

/-- releasing it again -/
theorem release_obj (a : Nat) (h0 : a ≠ 0) (x : Obj) (h : List (Nat × Obj)) (hf : a ∉ h.map (·.1)) (b : Bool) :
    release ⟨a, some x.owner, (a, x) :: h, b⟩ = ⟨0, none, h, b⟩ := by
  simp only [release, h0, if_false, at_head]
  rw [List.filter_cons_of_neg (by simp), filter_fresh _ _ hf]
  simp

theorem set_sound (s : S) (hs : Sound s) (n : Nat) : Sound (set s n none) := by
  unfold set
  split
  · exact hs
  · exact ⟨hs.1, hs.2.1, fun o _ h => by simp at h⟩

theorem setObj_sound (al : Alloc) (ha : Fresh al) (s : S) (hs : Sound s) (seed : Nat) (x : Obj) : Sound (setObj al s seed x) := by
  have hf := ha seed (s.heap.map (·.1))
  unfold setObj set
  simp only
  split
  · refine ⟨hs.1, by simp only [List.map_cons, List.nodup_cons]; exact ⟨hf.2, hs.2.1⟩, fun o h1 h2 => ?_⟩
    obtain ⟨y, hy, ho⟩ := hs.2.2 o h1 h2
    refine ⟨y, ?_, ho⟩
    have hm := at_mem _ _ _ hy
    rw [at_cons_ne _ _ _ _ (fun e => hf.2 (by rw [e]; exact hm))]
    exact hy
  · refine ⟨hs.1, by simp only [List.map_cons, List.nodup_cons]; exact ⟨hf.2, hs.2.1⟩, fun o h1 h2 => ⟨x, at_head _ _ _, ?_⟩⟩
    simpa using h2

theorem getScno_sound (al : Alloc) (ha : Fresh al) (s : S) (hs : Sound s) (n : Number) : Sound (getScno al s n) := by
  cases n with
  | failed => exact hs
  | valid => exact hs
  | invalid seed => exact setObj_sound al ha s hs seed _

theorem enter_sound (al : Alloc) (ha : Fresh al) (s : S) (hs : Sound s) (c : Call) : Sound (enter al s c) := by
  have h1 : Sound (ipc (getScno al s c.number) c.version) := by
    unfold ipc
    split
    · exact set_sound _ (getScno_sound al ha s hs _) _
    · exact getScno_sound al ha s hs _
  unfold enter
  cases c.kept with
  | nothing => exact h1
  | num n => exact set_sound _ h1 n
  | obj seed t => exact setObj_sound al ha _ h1 seed _

theorem release_sound (s : S) (hs : Sound s) : Sound (release s) ∧ (release s).data = 0 := by
  unfold release
  split
  · rename_i h0; exact ⟨hs, h0⟩
  · rename_i h0
    split
    · exact ⟨⟨hs.1, hs.2.1, fun o h _ => absurd rfl h⟩, rfl⟩
    · rename_i o ho
      obtain ⟨x, hx, hxo⟩ := hs.2.2 o h0 ho
      refine ⟨⟨?_, ?_, fun o h _ => absurd rfl h⟩, rfl⟩
      · rw [hx]; simp [hs.1, hxo]
      · exact hs.2.1.sublist (List.filter_sublist.map _)

theorem calls_sound (al : Alloc) (ha : Fresh al) (cs : List Call) : ∀ s, Sound s → Sound (calls al s cs).2 := by
  induction cs with
  | nil => intro s hs; exact hs
  | cons c cs ih => intro s hs; exact ih _ (release_sound _ (enter_sound al ha s hs c)).1

theorem new_sound : Sound S.new := ⟨rfl, List.nodup_nil, fun o h _ => absurd rfl h⟩

theorem startup_sound (al : Alloc) (ha : Fresh al) (l : Life) : Sound (startup al l) := by
  unfold startup
  split
  · exact getScno_sound al ha _ new_sound _
  · exact new_sound

/-- nothing is ever released that is not allocated, or by the function of another owner -/
theorem never_twice (al : Alloc) (ha : Fresh al) (l : Life) : (life al l).2.bad = false := by
  unfold life
  refine (release_sound _ ?_).1.1
  split
  · exact enter_sound al ha _ (calls_sound al ha _ _ (startup_sound al ha l)) _
  · exact calls_sound al ha _ _ (startup_sound al ha l)

/-- entering with an empty slot -/
theorem enter_right (al : Alloc) (ha : Fresh al) (s : S) (hs : s.data = 0) (hb : s.bad = false) (c : Call) (hc : c.Ok) (h1 : c.OneUse) :
    (c.asked = true → Right c (seen (enter al s c))) ∧ (release (enter al s c)).data = 0 ∧ (release (enter al s c)).bad = false ∧
      (release (enter al s c)).heap = s.heap := by
  obtain ⟨num, v, k, asked⟩ := c
  cases num with
  | failed =>
    obtain ⟨hv, hk, hq⟩ := hc (by simp)
    simp only at hv hk hq
    subst hv hk hq
    simp [enter, getScno, ipc, keep, release, hs, hb]
  | invalid seed =>
    obtain ⟨hv, hk, hq⟩ := hc (by simp)
    simp only at hv hk hq
    subst hv hk hq
    have hf := ha seed (s.heap.map (·.1))
    simp only [enter, getScno, ipc, keep, ne_eq, not_true_eq_false, if_false]
    rw [setObj_empty al s hs, release_obj _ hf.1 _ _ hf.2]
    exact ⟨fun h => by simp at h, rfl, hb, rfl⟩
  | valid =>
    by_cases hv : v = 0
    · subst hv
      cases k with
      | nothing => simp [enter, getScno, ipc, keep, release, hs, hb, Right, seen]
      | num n =>
        by_cases hn : n = 0
        · subst hn; simp [enter, getScno, ipc, keep, release, hs, hb, Right, seen, set]
        · simp [enter, getScno, ipc, keep, release, hs, hb, Right, seen, set, hn]
      | obj seed t =>
        have hf := ha seed (s.heap.map (·.1))
        simp only [enter, getScno, ipc, keep, ne_eq, not_true_eq_false, if_false]
        rw [setObj_empty al s hs, release_obj _ hf.1 _ _ hf.2]
        exact ⟨fun _ => by simp only [Right, seen]; exact at_head _ _ _, rfl, hb, rfl⟩
    · have hk := h1 hv
      simp only at hk
      subst hk
      simp [enter, getScno, ipc, keep, release, hs, hb, Right, seen, set, hv]

theorem calls_right (al : Alloc) (ha : Fresh al) (cs : List Call) (hc : ∀ c ∈ cs, c.Ok ∧ c.OneUse) :
    ∀ s : S, s.data = 0 → s.bad = false →
      List.Forall₂ Right (cs.filter (·.asked)) (calls al s cs).1 ∧ (calls al s cs).2.data = 0 ∧ (calls al s cs).2.bad = false ∧
        (calls al s cs).2.heap = s.heap := by
  induction cs with
  | nil => intro s hs hb; exact ⟨List.Forall₂.nil, hs, hb, rfl⟩
  | cons c cs ih =>
    intro s hs hb
    obtain ⟨h1, h2, h3, h4⟩ := enter_right al ha s hs hb c (hc c (by simp)).1 (hc c (by simp)).2
    obtain ⟨i1, i2, i3, i4⟩ := ih (fun d hd => hc d (by simp [hd])) _ h2 h3
    simp only [calls]
    refine ⟨?_, i2, i3, i4.trans h4⟩
    by_cases hq : c.asked = true
    · rw [List.filter_cons_of_pos hq, if_pos hq]
      exact List.Forall₂.cons (h1 hq) i1
    · rw [List.filter_cons_of_neg hq, if_neg hq]
      exact i1

theorem startup_clean (al : Alloc) (l : Life) (hl : l.InCall) : startup al l = S.new := by
  unfold startup
  cases ha : l.attached with
  | none => rfl
  | some n =>
    cases n with
    | failed => rfl
    | valid => rfl
    | invalid seed => exact absurd ha (hl seed)

/-- C107, but for an ipc call whose decoder keeps something besides the version and for attaching to a tracee outside of any
call: in every call the decoder gets on exiting what it kept on entering that call, and in the end everything is released -/
theorem given_back_partial (al : Alloc) (ha : Fresh al) (l : Life) (ho : l.Ok) (h1 : ∀ c ∈ l.all, c.OneUse) (hl : l.InCall) :
    List.Forall₂ Right (l.done.filter (·.asked)) (life al l).1 ∧ (life al l).2.heap = [] := by
  have hr := calls_right al ha l.done (fun c hc => ⟨ho.1 c hc, h1 c (by simp [Life.all, hc])⟩) (startup al l)
    (by rw [startup_clean al l hl]; rfl) (by rw [startup_clean al l hl]; rfl)
  rw [startup_clean al l hl] at hr
  obtain ⟨r1, r2, r3, r4⟩ := hr
  unfold life
  rw [startup_clean al l hl]
  refine ⟨r1, ?_⟩
  simp only
  cases hla : l.last with
  | none =>
    simp only [release, r2, if_true]
    exact r4
  | some c =>
    exact (enter_right al ha _ r2 r3 c (ho.2 c hla) (h1 c (by simp [Life.all, hla]))).2.2.2.trans r4

/-- however strace got hold of the tracee, only the first call is concerned -/
theorem after_first (al : Alloc) (ha : Fresh al) (l : Life) (c : Call) (cs : List Call) (hd : l.done = c :: cs)
    (ho : ∀ d ∈ cs, d.Ok) (h1 : ∀ d ∈ cs, d.OneUse) :
    ∃ first, (life al l).1 = first ++ (calls al (release (enter al (startup al l) c)) cs).1 ∧ first.length ≤ 1 ∧
      List.Forall₂ Right (cs.filter (·.asked)) (calls al (release (enter al (startup al l) c)) cs).1 := by
  have hs := release_sound _ (enter_sound al ha _ (startup_sound al ha l) c)
  have hr := calls_right al ha cs (fun d hd => ⟨ho d hd, h1 d hd⟩) _ hs.2 hs.1.1
  refine ⟨if c.asked then [seen (enter al (startup al l) c)] else [], ?_, by split <;> simp, hr.1⟩
  simp only [life, hd, calls]
  split <;> simp

/-! ## what is false -/

/-- an allocator -/
def up (_ : Nat) (used : List Nat) : Nat := used.foldr max 0 + 1

theorem up_fresh : Fresh up := by
  intro seed used
  refine ⟨by simp [up], fun h => ?_⟩
  have hm : ∀ (l : List Nat) (x : Nat), x ∈ l → x ≤ l.foldr max 0 := by
    intro l
    induction l with
    | nil => simp
    | cons a l ih =>
      intro x hx
      simp only [List.foldr_cons]
      rcases List.mem_cons.mp hx with rfl | hx
      · omega
      · have := ih x hx; omega
  have := hm used _ h
  simp only [up] at this
  omega

/-- strace attaches to a tracee outside of any call, whose first call is recvmmsg: it keeps the lengths of the names and the
timeout, but gets the description of an unknown call -/
def userMode : Life := ⟨some (.invalid 0), [⟨.valid, 0, .obj 0 [110, 48], true⟩], none⟩

/-- what the decoder gets is not its own, and what it kept is never released -/
theorem attached_outside : userMode.Ok ∧ (∀ c ∈ userMode.all, c.OneUse) ∧
    ¬ List.Forall₂ Right (userMode.done.filter (·.asked)) (life up userMode).1 ∧
    ((life up userMode).1.map (·.obj) = [some ⟨.sysent, []⟩]) ∧ (life up userMode).2.heap ≠ [] := by
  refine ⟨⟨?_, ?_⟩, ?_, ?_, by decide, by decide⟩
  · intro c hc; simp [userMode] at hc; subst hc; simp [Call.Ok]
  · intro c hc; simp [userMode] at hc
  · intro c hc; simp [userMode, Life.all] at hc; subst hc; simp [Call.OneUse]
  · have h : (life up userMode).1 = [⟨1, some ⟨.sysent, []⟩⟩] := by decide
    rw [h]
    simp [userMode, Right]

/-- the same if strace attaches to any tracee outside of any call: whatever the decoder of the first call keeps, it gets the
address of the description -/
theorem outside_always (al : Alloc) (ha : Fresh al) (seed : Nat) (c : Call) (cs : List Call) (hc : c.asked = true) (last : Option Call) :
    ∃ w rest, (life al ⟨some (.invalid seed), c :: cs, last⟩).1 = w :: rest ∧ w.word = al seed [] := by
  have h0 := ha seed []
  have hset : ∀ (s : S) (n : Nat) (f : Option Owner), s.data ≠ 0 → set s n f = s := fun s n f h => by simp [set, h]
  have hdo : ∀ (s : S) (k : Nat) (x : Obj), s.data ≠ 0 → (setObj al s k x).data = s.data := fun s k x h => by
    simp [setObj, set, h]
  have hd : ∀ s : S, s.data ≠ 0 → (enter al s c).data = s.data := by
    intro s hs
    have h1 : (getScno al s c.number).data = s.data := by
      cases c.number with
      | failed => rfl
      | valid => rfl
      | invalid k => exact hdo s k _ hs
    have h2 : (ipc (getScno al s c.number) c.version).data = s.data := by
      unfold ipc
      split
      · rw [hset _ _ _ (by rw [h1]; exact hs), h1]
      · exact h1
    unfold enter
    cases c.kept with
    | nothing => exact h2
    | num n => simp only [keep]; rw [hset _ _ _ (by rw [h2]; exact hs), h2]
    | obj k t => simp only [keep]; rw [hdo _ _ _ (by rw [h2]; exact hs), h2]
  have hstart : (getScno al S.new (.invalid seed)).data = al seed [] := by simp [getScno, setObj, set, S.new]
  refine ⟨seen (enter al (getScno al S.new (.invalid seed)) c), (calls al (release (enter al (getScno al S.new (.invalid seed)) c)) cs).1, ?_, ?_⟩
  · simp only [life, calls, startup, hc, if_true]
  · simp only [seen]
    rw [hd _ (by rw [hstart]; exact h0.1), hstart]

/-- semctl by way of ipc with version 1: the decoder keeps the address of the structure -/
def oldIpc : Life := ⟨none, [⟨.valid, 1, .num 4096, true⟩], none⟩

/-- it gets the version for an address -/
theorem version_for_address : oldIpc.Ok ∧ oldIpc.InCall ∧ (life up oldIpc).1.map (·.word) = [1] ∧
    ¬ List.Forall₂ Right (oldIpc.done.filter (·.asked)) (life up oldIpc).1 := by
  refine ⟨⟨?_, ?_⟩, ?_, by decide, ?_⟩
  · intro c hc; simp [oldIpc] at hc; subst hc; simp [Call.Ok]
  · intro c hc; simp [oldIpc] at hc
  · intro seed h; simp [oldIpc] at h
  · have h : (life up oldIpc).1 = [⟨1, none⟩] := by decide
    rw [h]
    simp [oldIpc, Right]

/-! ## the theorems apply -/

/-- recvmmsg, a call with an unknown number, accept, msgrcv by way of ipc, and recvmmsg that is not left -/
def usual : Life := ⟨some .valid, [⟨.valid, 0, .obj 5 [1, 2], true⟩, ⟨.invalid 3, 0, .nothing, false⟩, ⟨.valid, 0, .num 16, true⟩,
  ⟨.valid, 1, .nothing, true⟩], some ⟨.valid, 0, .obj 7 [3], true⟩⟩

theorem usual_ok : usual.Ok ∧ (∀ c ∈ usual.all, c.OneUse) ∧ usual.InCall := by
  refine ⟨⟨?_, ?_⟩, ?_, ?_⟩
  · intro c hc
    simp only [usual, List.mem_cons, List.not_mem_nil, or_false] at hc
    rcases hc with rfl | rfl | rfl | rfl <;> simp [Call.Ok]
  · intro c hc
    simp only [usual, Option.some.injEq] at hc
    subst hc; simp [Call.Ok]
  · intro c hc
    simp only [usual, Life.all, Option.toList_some, List.cons_append, List.nil_append, List.mem_cons, List.not_mem_nil, or_false] at hc
    rcases hc with rfl | rfl | rfl | rfl | rfl <;> simp [Call.OneUse]
  · intro seed h; simp [usual] at h

example : (life up usual).1.map (·.word) = [1, 16, 1] := by decide
example : List.Forall₂ Right (usual.done.filter (·.asked)) (life up usual).1 ∧ (life up usual).2.heap = [] :=
  given_back_partial up up_fresh usual usual_ok.1 usual_ok.2.1 usual_ok.2.2

end Strace.Priv
