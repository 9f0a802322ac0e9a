import Verif.Kvm.Spec
import Verif.StringToUint.Props
import Mathlib.Data.List.Induction
/-!
# C106: the exit reason shown is that of the vCPU that ran
-/
namespace Strace.Kvm
open Strace.Base

theorem pfx_eq : "anon_inode:kvm-vcpu:".toList.map Char.toNat = pfx := by decide +kernel

theorem strip_name (n : Nat) : strip (vcpuName n) = some (dec n) := by
  unfold strip vcpuName
  rw [pfx_eq, List.take_left, if_pos rfl, List.drop_left]

theorem strip_iff (p t : List Nat) (h : strip p = some t) : pfx <+: p := by
  unfold strip at h
  split at h
  · next h' => rw [← h']; exact List.take_prefix _ _
  · cases h

theorem toUint_dec (n : Nat) (h : n < 2 ^ 31) : toUint (dec n) = some n := by
  have : StringToUint.stringToUintEx (dec n) (2 ^ 31 - 1) none = some ((n : Int), []) := by
    rw [StringToUint.stringToUintEx_iff]
    refine ⟨n, rfl, [], [], dec n, by simp, by simp, Or.inl rfl, dec_ne_nil n, ?_, ?_, readDec_dec n, by omega, by omega, by simp⟩
    · intro c hc
      have := dec_digit n c hc
      simp only [StringToUint.isDigit, Bool.and_eq_true, decide_eq_true_eq]
      exact this
    · intro c t e; cases e
  unfold toUint
  rw [this]
  simp

theorem vcpuName_inj {a b : Nat} (h : vcpuName a = vcpuName b) : a = b := by
  unfold vcpuName at h
  have := List.append_cancel_left h
  rw [← readDec_dec a, ← readDec_dec b, this]

theorem find_fd {l : List Info} {fd : Nat} {i : Info} (h : find l fd = some i) : i.fd = fd := by
  have := List.find?_some h
  simpa using this

theorem find_update (l : List Info) (j i : Info) (h : find l j.fd = some i) (fd : Nat) :
    find (update l j) fd = if fd = j.fd then some j else find l fd := by
  induction l with
  | nil => cases h
  | cons a l ih =>
    unfold find at h ih ⊢
    unfold update
    by_cases ha : a.fd = j.fd
    · rw [if_pos ha]
      by_cases hf : fd = j.fd
      · rw [if_pos hf, List.find?_cons_of_pos (by simp [hf])]
      · rw [if_neg hf, List.find?_cons_of_neg (by simp; omega), List.find?_cons_of_neg (by simp; omega)]
    · rw [if_neg ha]
      rw [List.find?_cons_of_neg (by simpa using ha)] at h
      by_cases hf : a.fd = fd
      · rw [List.find?_cons_of_pos (by simp [hf]), if_neg (by omega), List.find?_cons_of_pos (by simp [hf])]
      · rw [List.find?_cons_of_neg (by simpa using hf), ih h, List.find?_cons_of_neg (by simpa using hf)]

theorem find_put (l : List Info) (j : Info) (fd : Nat) : find (put l j) fd = if fd = j.fd then some j else find l fd := by
  unfold put
  cases h : find l j.fd with
  | some i => exact find_update l j i h fd
  | none =>
    show find (j :: l) fd = _
    unfold find
    by_cases hf : fd = j.fd
    · rw [if_pos hf, List.find?_cons_of_pos (by simp [hf])]
    · rw [if_neg hf, List.find?_cons_of_neg (by simp; omega)]

/-! ### Histories -/

theorem K_after_snoc (h : List Ev) (e : Ev) : K.after (h ++ [e]) = (K.after h).step e := by
  unfold K.after; rw [List.foldl_append]; rfl

theorem after_snoc (size : Nat) (h : List Ev) (e : Ev) :
    after size (h ++ [e]) = ((after size h).1.step e, (step size (after size h).1 (after size h).2 e).1) := by
  unfold after; rw [List.foldl_append]; rfl

theorem after_fst (size : Nat) (h : List Ev) : (after size h).1 = K.after h := by
  induction h using List.reverseRecOn with
  | nil => rfl
  | append_singleton h e ih => rw [after_snoc, K_after_snoc, ih]

theorem after_maps (h : List Ev) : (K.after h).maps = [] ∨ Ev.remap (K.after h).maps ∈ h := by
  induction h using List.reverseRecOn with
  | nil => left; rfl
  | append_singleton h e ih =>
    rw [K_after_snoc]
    cases e with
    | remap ms => right; exact List.mem_append_right _ (List.mem_singleton.mpr rfl)
    | create fd v => rcases ih with ih | ih <;> [left; right] <;> [exact ih; exact List.mem_append_left _ ih]
    | setfd fd o => rcases ih with ih | ih <;> [left; right] <;> [exact ih; exact List.mem_append_left _ ih]
    | other b => rcases ih with ih | ih <;> [left; right] <;> [exact ih; exact List.mem_append_left _ ih]
    | run fd a b c => rcases ih with ih | ih <;> [left; right] <;> [exact ih; exact List.mem_append_left _ ih]

theorem gives_mono {h : List Ev} {fd : Nat} {v : V} (e : Ev) (g : Gives h fd v) : Gives (h ++ [e]) fd v := by
  rcases g with g | g
  · exact Or.inl (List.mem_append_left _ g)
  · exact Or.inr (List.mem_append_left _ g)

theorem after_fds (h : List Ev) (fd : Nat) (v : V) (hv : (K.after h).fds fd = some v) : Gives h fd v := by
  induction h using List.reverseRecOn with
  | nil => cases hv
  | append_singleton h e ih =>
    rw [K_after_snoc] at hv
    cases e with
    | remap ms => exact gives_mono _ (ih hv)
    | other b => exact gives_mono _ (ih hv)
    | run fd a b c => exact gives_mono _ (ih hv)
    | create f w =>
      simp only [K.step] at hv
      split at hv
      · next hf =>
        injection hv with hv; subst hv; subst hf
        exact Or.inl (List.mem_append_right _ (List.mem_singleton.mpr rfl))
      · exact gives_mono _ (ih hv)
    | setfd f w =>
      simp only [K.step] at hv
      split at hv
      · next hf =>
        subst hv; subst hf
        exact Or.inr (List.mem_append_right _ (List.mem_singleton.mpr rfl))
      · exact gives_mono _ (ih hv)

theorem mapsOk_after {size : Nat} {h : List Ev} (g : Good size h) : MapsOk size (K.after h).maps := by
  rcases after_maps h with e | e
  · rw [e]; exact ⟨by simp, by simp, by simp⟩
  · exact g.shape _ e

theorem good_init {size : Nat} {h : List Ev} {e : Ev} (g : Good size (h ++ [e])) : Good size h := by
  refine ⟨fun ms hm => g.shape ms (List.mem_append_left _ hm), fun pre hp => g.uniq pre (hp.trans (List.prefix_append _ _)),
    fun pre fd v hp => g.own pre fd v (hp.trans (List.prefix_append _ _)),
    fun ms ms' hm hm' => g.still ms ms' (List.mem_append_left _ hm) (List.mem_append_left _ hm'), ?_⟩
  rcases g.turns with t | ⟨⟨f, t⟩, t'⟩
  · exact Or.inl fun pre ms' hp => t pre ms' (hp.trans (List.prefix_append _ _))
  · exact Or.inr ⟨⟨f, fun fd a b c hm => t fd a b c (List.mem_append_left _ hm)⟩, fun b hm => t' b (List.mem_append_left _ hm)⟩

/-! ### The invariant -/

/-- the record is that of a mapping of a vCPU with its number -/
def At (ms : List KMap) (i : Info) : Prop := ∃ m ∈ ms, m.start = i.addr ∧ ∃ w, m.obj = .vcpu w ∧ w.idx = i.cpu

/-- what is kept for resolved records -/
structure Res (size : Nat) (h : List Ev) (fd : Nat) (i : Info) : Prop where
  old : ∃ ms, Ev.remap ms ∈ h ∧ At ms i
  len : size ≤ i.len
  fdn : ∀ v, (K.after h).fds fd = some v → v.idx = i.cpu
  ran : ∃ a b c, Ev.run fd a b c ∈ h

/-- along a history -/
structure Inv (size : Nat) (h : List Ev) (s : S) : Prop where
  cache : ∀ ms, s.cache = some ms → ms = (K.after h).maps.map KMap.view
  info : ∀ fd i, find s.infos fd = some i → ∃ w, Gives h fd w ∧ w.idx = i.cpu
  res : ∀ fd i, find s.infos fd = some i → i.resolved = true → Res size h fd i
  now : ∀ fd i, find s.infos fd = some i → i.resolved = true → s.cache ≠ none → At (K.after h).maps i

theorem find_view (ms : List KMap) (a : Nat) :
    (ms.map KMap.view).find? (fun m => decide (m.start ≤ a) && decide (a < m.stop)) =
      (ms.find? fun m => decide (m.start ≤ a) && decide (a < m.stop)).map KMap.view := by
  rw [List.find?_map]
  congr 1
  congr 1
  funext m
  unfold KMap.view
  cases hm : m.obj <;> simp [hm]

theorem mapLen_view (m : KMap) (h : m.start < m.stop) : mapLen m.view = m.stop - m.start := by
  unfold mapLen KMap.view
  cases m.obj <;> simp [h]

theorem start_view (m : KMap) : m.view.start = m.start := by unfold KMap.view; cases m.obj <;> rfl

/-- what the slow path finds -/
theorem slow_spec (size : Nat) (k : K) (hm : MapsOk size k.maps) (s : S) (fd : Nat) (s' : S) (r : Option Info)
    (hs : slow s (k.maps.map KMap.view) ((k.fds fd).map fun v => vcpuName v.idx) fd = (s', r)) :
    (r = none → s' = s) ∧
    (∀ i, r = some i → s' = { s with infos := put s.infos i } ∧ i.fd = fd ∧ i.resolved = true ∧ At k.maps i ∧ size ≤ i.len ∧
      ∃ v, k.fds fd = some v ∧ v.idx = i.cpu) ∧
    (∀ v, k.fds fd = some v → (∃ m ∈ k.maps, m.obj = .vcpu v) → r ≠ none) := by
  unfold slow at hs
  cases hv : k.fds fd with
  | none =>
    rw [hv] at hs
    simp only [Option.map_none, Prod.mk.injEq] at hs
    obtain ⟨rfl, rfl⟩ := hs
    exact ⟨fun _ => rfl, fun _ h => (by cases h), fun _ h => (by cases h)⟩
  | some v =>
    rw [hv] at hs
    simp only [Option.map_some, strip_name] at hs
    cases hf : (k.maps.map KMap.view).find? (isMapFor (vcpuName v.idx)) with
    | none =>
      rw [hf] at hs
      simp only [Prod.mk.injEq] at hs
      obtain ⟨rfl, rfl⟩ := hs
      refine ⟨fun _ => rfl, fun _ h => (by cases h), ?_⟩
      rintro w hw ⟨m, hmm, hmo⟩
      injection hw with hw; subst hw
      exfalso
      have := List.find?_eq_none.mp hf m.view (List.mem_map_of_mem hmm)
      apply this
      unfold KMap.view isMapFor
      rw [hmo]
      simp
    | some q =>
      rw [hf] at hs
      have hq := List.find?_some hf
      obtain ⟨m, hmm, hmq⟩ := List.mem_map.mp (List.mem_of_find?_eq_some hf)
      unfold isMapFor at hq
      simp only [Bool.and_eq_true, decide_eq_true_eq] at hq
      obtain ⟨w, hw⟩ : ∃ w, m.obj = .vcpu w := by
        cases ho : m.obj with
        | vcpu w => exact ⟨w, rfl⟩
        | other j n =>
          exfalso
          apply hm.others m hmm j n ho
          have : q.name = n := by rw [← hmq]; unfold KMap.view; rw [ho]
          rw [← this, hq.2]
          exact ⟨_, rfl⟩
      have hwi : w.idx = v.idx := by
        have : q.name = vcpuName w.idx := by rw [← hmq]; unfold KMap.view; rw [hw]
        rw [hq.2] at this
        exact (vcpuName_inj this).symm
      have hok := hm.whole m hmm w hw
      simp only [toUint_dec v.idx (by omega), Prod.mk.injEq] at hs
      obtain ⟨rfl, rfl⟩ := hs
      refine ⟨fun h => (by cases h), ?_, fun _ _ _ h => (by cases h)⟩
      intro i hi
      injection hi with hi
      subst hi
      refine ⟨rfl, rfl, rfl, ⟨m, hmm, ?_, w, hw, hwi⟩, ?_, v, rfl, rfl⟩
      · show m.start = q.start
        rw [← hmq, start_view]
      · show size ≤ mapLen q
        rw [← hmq, mapLen_view m hok.2.2.1]
        omega

/-- what the mapping at the address kept says -/
theorem same_spec (size : Nat) (ms : List KMap) (hm : MapsOk size ms) (i : Info) :
    same (ms.map KMap.view) i ≠ none ∧
    (same (ms.map KMap.view) i = some true → ∃ m ∈ ms, m.start ≤ i.addr ∧ i.addr < m.stop ∧ ∃ w, m.obj = .vcpu w ∧ w.idx = i.cpu) := by
  unfold same
  rw [find_view]
  cases hf : ms.find? fun m => decide (m.start ≤ i.addr) && decide (i.addr < m.stop) with
  | none => exact ⟨by simp, by simp⟩
  | some m =>
    have hmm := List.mem_of_find?_eq_some hf
    have hc := List.find?_some hf
    simp only [Bool.and_eq_true, decide_eq_true_eq] at hc
    simp only [Option.map_some]
    cases ho : m.obj with
    | vcpu w =>
      have hn : m.view.name = vcpuName w.idx := by unfold KMap.view; rw [ho]
      have hok := hm.whole m hmm w ho
      rw [hn, strip_name]
      simp only [toUint_dec w.idx hok.2.2.2]
      refine ⟨by simp, ?_⟩
      intro h
      simp only [Option.some.injEq, decide_eq_true_eq] at h
      exact ⟨m, hmm, hc.1, hc.2, w, ho, h.symm⟩
    | other j n =>
      have hn : m.view.name = n := by unfold KMap.view; rw [ho]
      rw [hn]
      cases hst : strip n with
      | none => exact ⟨by simp, by simp⟩
      | some t => exact absurd (pfx_eq ▸ strip_iff n t hst) (hm.others m hmm j n ho)


/-- if mappings stay where they are, what was right is right -/
theorem fixed_at (h : List Ev) (f : Fixed h) (i : Info) (ho : ∃ ms, Ev.remap ms ∈ h ∧ At ms i) : At (K.after h).maps i := by
  induction h using List.reverseRecOn with
  | nil => obtain ⟨_, h, _⟩ := ho; cases h
  | append_singleton h e ih =>
    obtain ⟨ms, hms, hat⟩ := ho
    have fi : Fixed h := fun pre ms' hp => f pre ms' (hp.trans (List.prefix_append _ _))
    rw [K_after_snoc]
    rcases List.mem_append.mp hms with hms' | hms'
    · cases e with
      | remap ms' =>
        obtain ⟨m, hm, hs, w, hw, hi⟩ := hat
        obtain ⟨m', hm', hs', v', hv', hi'⟩ := f h ms' (List.prefix_refl _) ms hms' m hm w hw
        exact ⟨m', hm', by omega, v', hv', by omega⟩
      | create fd v => exact ih fi ⟨ms, hms', hat⟩
      | setfd fd v => exact ih fi ⟨ms, hms', hat⟩
      | other b => exact ih fi ⟨ms, hms', hat⟩
      | run fd a b c => exact ih fi ⟨ms, hms', hat⟩
    · rw [List.mem_singleton] at hms'
      subst hms'
      exact hat

/-- what a lookup may do to the records and what it gives -/
structure Looked (size : Nat) (h : List Ev) (s : S) (fd : Nat) (s' : S) (r : Option Info) : Prop where
  cache : s'.cache = s.cache
  others : ∀ f, f ≠ fd → find s'.infos f = find s.infos f
  own : ∀ i, find s'.infos fd = some i → (∃ w, Gives h fd w ∧ w.idx = i.cpu) ∧
    (i.resolved = true → At (K.after h).maps i ∧ size ≤ i.len ∧ ∀ v, (K.after h).fds fd = some v → v.idx = i.cpu)
  found : ∀ i, r = some i → At (K.after h).maps i ∧ size ≤ i.len ∧ ∀ v, (K.after h).fds fd = some v → v.idx = i.cpu
  all : ∀ v, (K.after h).fds fd = some v → (∃ m ∈ (K.after h).maps, m.obj = .vcpu v) → r ≠ none

theorem slow_looked (size : Nat) (h : List Ev) (g : Good size h) (s : S) (fd : Nat)
    (hi : ∀ i, find s.infos fd = some i → (∃ w, Gives h fd w ∧ w.idx = i.cpu) ∧ i.resolved = false) :
    Looked size h s fd
      (slow s ((K.after h).maps.map KMap.view) (((K.after h).fds fd).map fun v => vcpuName v.idx) fd).1
      (slow s ((K.after h).maps.map KMap.view) (((K.after h).fds fd).map fun v => vcpuName v.idx) fd).2 := by
  generalize hs : slow s ((K.after h).maps.map KMap.view) (((K.after h).fds fd).map fun v => vcpuName v.idx) fd = q
  obtain ⟨s', r⟩ := q
  obtain ⟨h1, h2, h3⟩ := slow_spec size (K.after h) (mapsOk_after g) s fd s' r hs
  show Looked size h s fd s' r
  cases r with
  | none =>
    have := h1 rfl
    subst this
    refine ⟨rfl, fun _ _ => rfl, ?_, fun _ h => (by cases h), h3⟩
    intro i hf
    exact ⟨(hi i hf).1, fun hr => by rw [(hi i hf).2] at hr; cases hr⟩
  | some i =>
    obtain ⟨rfl, hfd, hr, hat, hl, v, hv, hvi⟩ := h2 i rfl
    refine ⟨rfl, ?_, ?_, ?_, h3⟩
    · intro f hf
      show find (put s.infos i) f = _
      rw [find_put, if_neg (by omega)]
    · intro j hj
      have : find (put s.infos i) fd = some i := by rw [find_put, if_pos hfd.symm]
      have hj' : find (put s.infos i) fd = some j := hj
      rw [this] at hj'
      injection hj' with hj'
      subst hj'
      refine ⟨⟨v, after_fds h fd v hv, hvi⟩, fun _ => ⟨hat, hl, ?_⟩⟩
      intro v' hv'
      rw [hv] at hv'; injection hv' with hv'; subst hv'; exact hvi
    · intro j hj
      injection hj with hj
      subst hj
      refine ⟨hat, hl, ?_⟩
      intro v' hv'
      rw [hv] at hv'; injection hv' with hv'; subst hv'; exact hvi

theorem look_looked (size : Nat) (h : List Ev) (g : Good size h) (s : S) (ready : Bool) (fd : Nat)
    (hinfo : ∀ i, find s.infos fd = some i → ∃ w, Gives h fd w ∧ w.idx = i.cpu)
    (hres : ∀ i, find s.infos fd = some i → i.resolved = true → Res size h fd i)
    (hnow : ready = true → ∀ i, find s.infos fd = some i → i.resolved = true → At (K.after h).maps i) :
    Looked size h s fd
      (look s ready ((K.after h).maps.map KMap.view) (((K.after h).fds fd).map fun v => vcpuName v.idx) fd).1
      (look s ready ((K.after h).maps.map KMap.view) (((K.after h).fds fd).map fun v => vcpuName v.idx) fd).2 := by
  unfold look
  cases hf : find s.infos fd with
  | none => exact slow_looked size h g s fd (fun i hi => by rw [hf] at hi; cases hi)
  | some i =>
    dsimp only
    cases hr : i.resolved with
    | false =>
      rw [if_pos rfl]
      apply slow_looked size h g s fd
      intro j hj
      rw [hf] at hj; injection hj with hj; subst hj
      exact ⟨hinfo i hf, hr⟩
    | true =>
      rw [if_neg (by simp)]
      have R := hres i hf hr
      have keep : At (K.after h).maps i → Looked size h s fd s (some i) := by
        intro hat
        refine ⟨rfl, fun _ _ => rfl, ?_, ?_, fun _ _ _ h => (by cases h)⟩
        · intro j hj
          rw [hf] at hj; injection hj with hj; subst hj
          exact ⟨hinfo i hf, fun _ => ⟨hat, R.len, R.fdn⟩⟩
        · intro j hj
          injection hj with hj; subst hj
          exact ⟨hat, R.len, R.fdn⟩
      cases hrd : ready with
      | true =>
        rw [if_pos rfl]
        exact keep (hnow hrd i hf hr)
      | false =>
        rw [if_neg (by simp)]
        obtain ⟨hne, hs⟩ := same_spec size _ (mapsOk_after g) i
        cases hsame : same ((K.after h).maps.map KMap.view) i with
        | none => exact absurd hsame hne
        | some b =>
          cases b with
          | true =>
            dsimp only
            apply keep
            obtain ⟨m, hm, ha, hb, w, hw, hi⟩ := hs hsame
            obtain ⟨ms, hms, m0, hm0, hs0, w0, hw0, hi0⟩ := R.old
            have hmaps : Ev.remap (K.after h).maps ∈ h := by
              rcases after_maps h with e | e
              · rw [e] at hm; cases hm
              · exact e
            have := g.still ms _ hms hmaps m0 hm0 m hm w0 w hw0 hw (by omega) (by omega) (by omega)
            exact ⟨m, hm, by omega, w, hw, hi⟩
          | false =>
            dsimp only
            have hlooked := slow_looked size h g { s with infos := put s.infos { i with resolved := false } } fd (by
              intro j hj
              have hfd := find_fd hf
              have : find (put s.infos { i with resolved := false }) fd = some { i with resolved := false } := by
                rw [find_put, if_pos hfd.symm]
              have hj' : find (put s.infos { i with resolved := false }) fd = some j := hj
              rw [this] at hj'
              injection hj' with hj'
              subst hj'
              exact ⟨hinfo i hf, rfl⟩)
            refine ⟨hlooked.cache, ?_, hlooked.own, hlooked.found, hlooked.all⟩
            intro f hfne
            rw [hlooked.others f hfne]
            show find (put s.infos { i with resolved := false }) f = _
            have hfd := find_fd hf
            rw [find_put, if_neg (by show f ≠ i.fd; omega)]

theorem res_mono {size : Nat} {h : List Ev} {fd : Nat} {i : Info} (e : Ev) (r : Res size h fd i)
    (hf : ∀ v, (K.after (h ++ [e])).fds fd = some v → v.idx = i.cpu) : Res size (h ++ [e]) fd i := by
  obtain ⟨⟨ms, hms, hat⟩, hl, _, a, b, c, hran⟩ := r
  exact ⟨⟨ms, List.mem_append_left _ hms, hat⟩, hl, hf, a, b, c, List.mem_append_left _ hran⟩

/-- a lookup keeps the invariant -/
theorem looked_inv (size : Nat) (h : List Ev) (s s0 : S) (fd : Nat) (a : Bool) (b : V → Nat) (c : Nat → Option Nat)
    (r : Option Info) (s' : S) (inv : Inv size h s) (he : s0.infos = s.infos)
    (hc : ∀ ms, s0.cache = some ms → ms = (K.after h).maps.map KMap.view)
    (hn : ∀ f i, f ≠ fd → find s.infos f = some i → i.resolved = true → s0.cache ≠ none → At (K.after h).maps i)
    (L : Looked size h s0 fd s' r) : Inv size (h ++ [.run fd a b c]) s' := by
  have hk : K.after (h ++ [.run fd a b c]) = K.after h := by rw [K_after_snoc]; rfl
  have split : ∀ f i, find s'.infos f = some i → (f = fd ∧ find s'.infos fd = some i) ∨ (f ≠ fd ∧ find s.infos f = some i) := by
    intro f i hi
    by_cases hf : f = fd
    · left; subst hf; exact ⟨rfl, hi⟩
    · right; rw [L.others f hf, he] at hi; exact ⟨hf, hi⟩
  refine ⟨?_, ?_, ?_, ?_⟩
  · intro ms hms
    rw [hk]
    rw [L.cache] at hms
    exact hc ms hms
  · intro f i hi
    rcases split f i hi with ⟨rfl, hi⟩ | ⟨_, hi⟩
    · obtain ⟨⟨w, hw, hwi⟩, _⟩ := L.own i hi
      exact ⟨w, gives_mono _ hw, hwi⟩
    · obtain ⟨w, hw, hwi⟩ := inv.info f i hi
      exact ⟨w, gives_mono _ hw, hwi⟩
  · intro f i hi hr
    rcases split f i hi with ⟨rfl, hi⟩ | ⟨_, hi⟩
    · obtain ⟨_, h2⟩ := L.own i hi
      obtain ⟨hat, hl, hfd⟩ := h2 hr
      refine ⟨⟨(K.after h).maps, ?_, hat⟩, hl, by rw [hk]; exact hfd, a, b, c, List.mem_append_right _ (List.mem_singleton.mpr rfl)⟩
      rcases after_maps h with e | e
      · rw [e] at hat; obtain ⟨m, hm, _⟩ := hat; cases hm
      · exact List.mem_append_left _ e
    · exact res_mono _ (inv.res f i hi hr) (by rw [hk]; exact (inv.res f i hi hr).fdn)
  · intro f i hi hr hcn
    rw [hk]
    rw [L.cache] at hcn
    rcases split f i hi with ⟨rfl, hi⟩ | ⟨hf, hi⟩
    · exact ((L.own i hi).2 hr).1
    · exact hn f i hf hi hr hcn

/-- the invariant holds along every good history, and a run finds what it should -/
theorem run_looked (size : Nat) (h : List Ev) (fd : Nat) (a : Bool) (b : V → Nat) (c : Nat → Option Nat)
    (g : Good size (h ++ [.run fd a b c])) (s : S) (inv : Inv size h s) :
    Inv size (h ++ [.run fd a b c]) (step size (K.after h) s (.run fd a b c)).1 ∧
    (∀ i, (vcpuGet s (if a then some ((K.after h).maps.map KMap.view) else none) (((K.after h).fds fd).map fun v => vcpuName v.idx) fd).2 = some i →
      At (K.after h).maps i ∧ size ≤ i.len ∧ ∀ v, (K.after h).fds fd = some v → v.idx = i.cpu) ∧
    (a = true → ∀ v, (K.after h).fds fd = some v → (∃ m ∈ (K.after h).maps, m.obj = .vcpu v) →
      (vcpuGet s (if a then some ((K.after h).maps.map KMap.view) else none) (((K.after h).fds fd).map fun v => vcpuName v.idx) fd).2 ≠ none) := by
  have gi := good_init g
  show Inv size _ (vcpuGet s _ _ fd).1 ∧ _
  cases hc : s.cache with
  | some ms =>
    have hms := inv.cache ms hc
    have hv : vcpuGet s (if a then some ((K.after h).maps.map KMap.view) else none) (((K.after h).fds fd).map fun v => vcpuName v.idx) fd
        = look s true ((K.after h).maps.map KMap.view) (((K.after h).fds fd).map fun v => vcpuName v.idx) fd := by
      unfold vcpuGet
      rw [hc]
      rw [← hms]
    rw [hv]
    have L := look_looked size h gi s true fd (inv.info fd) (inv.res fd) (fun _ i hi hr => inv.now fd i hi hr (by rw [hc]; simp))
    exact ⟨looked_inv size h s s fd a b c _ _ inv rfl inv.cache (fun f i _ hi hr hn => inv.now f i hi hr hn) L, L.found, fun _ => L.all⟩
  | none =>
    have hNone : Looked size h s fd s none → Inv size (h ++ [.run fd a b c]) s := fun L =>
      looked_inv size h s s fd a b c none s inv rfl inv.cache (fun f i _ hi hr hn => inv.now f i hi hr hn) L
    have invNone : Inv size (h ++ [.run fd a b c]) s := by
      have hk : K.after (h ++ [.run fd a b c]) = K.after h := by rw [K_after_snoc]; rfl
      refine ⟨by rw [hk]; exact inv.cache, fun f i hi => ?_, fun f i hi hr => ?_, by rw [hk]; exact inv.now⟩
      · obtain ⟨w, hw, hwi⟩ := inv.info f i hi
        exact ⟨w, gives_mono _ hw, hwi⟩
      · exact res_mono _ (inv.res f i hi hr) (by rw [hk]; exact (inv.res f i hi hr).fdn)
    cases ha : a with
    | false =>
      have hv : vcpuGet s (if false = true then some ((K.after h).maps.map KMap.view) else none) (((K.after h).fds fd).map fun v => vcpuName v.idx) fd
          = (s, none) := by
        unfold vcpuGet
        rw [hc]
        rfl
      rw [hv]
      rw [ha] at invNone
      exact ⟨invNone, fun _ h => (by cases h), fun h => (by cases h)⟩
    | true =>
      rw [ha] at invNone
      rw [if_pos rfl]
      cases hms : (K.after h).maps.map KMap.view with
      | nil =>
        have hv : vcpuGet s (some []) (((K.after h).fds fd).map fun v => vcpuName v.idx) fd = (s, none) := by
          unfold vcpuGet
          rw [hc]
        rw [hv]
        refine ⟨invNone, fun _ h => (by cases h), ?_⟩
        rintro _ v _ ⟨m, hm, _⟩
        rw [List.map_eq_nil_iff] at hms
        rw [hms] at hm
        cases hm
      | cons q qs =>
        have hv : vcpuGet s (some (q :: qs)) (((K.after h).fds fd).map fun v => vcpuName v.idx) fd =
            look { s with cache := some (q :: qs) } false (q :: qs) (((K.after h).fds fd).map fun v => vcpuName v.idx) fd := by
          unfold vcpuGet
          rw [hc]
        rw [hv]
        have L := look_looked size h gi { s with cache := some (q :: qs) } false fd (inv.info fd) (inv.res fd) (fun h => by cases h)
        rw [hms] at L
        refine ⟨looked_inv size h s { s with cache := some (q :: qs) } fd true b c _ _ inv rfl ?_ ?_ L, L.found, fun _ => L.all⟩
        · intro ms' hms'
          injection hms' with hms'
          rw [hms, hms']
        · intro f i hf hi hr _
          have R := inv.res f i hi hr
          rcases g.turns with t | ⟨⟨f0, t⟩, _⟩
          · have := fixed_at _ t i (by obtain ⟨ms, hm, hat⟩ := R.old; exact ⟨ms, List.mem_append_left _ hm, hat⟩)
            rwa [K_after_snoc] at this
          · exfalso
            obtain ⟨a', b', c', hr'⟩ := R.ran
            have e1 := t f a' b' c' (List.mem_append_left _ hr')
            have e2 := t fd _ _ _ (List.mem_append_right _ (List.mem_singleton.mpr rfl))
            omega

theorem register_find (s : S) (fd cpu f : Nat) (i : Info) (h : find (register s fd cpu).infos f = some i) :
    (f = fd ∧ i.cpu = cpu ∧ (i.resolved = true → find s.infos fd = some i)) ∨ (f ≠ fd ∧ find s.infos f = some i) := by
  unfold register at h
  cases hf : find s.infos fd with
  | none =>
    rw [hf] at h
    dsimp only at h
    unfold find at h
    by_cases e : f = fd
    · left
      rw [List.find?_cons_of_pos (by simp [e])] at h
      injection h with h
      subst h
      exact ⟨e, rfl, fun h => by cases h⟩
    · right
      rw [List.find?_cons_of_neg (by simp; omega)] at h
      exact ⟨e, h⟩
  | some j =>
    rw [hf] at h
    dsimp only at h
    have hj := find_fd hf
    split at h
    · dsimp only at h
      rw [find_put] at h
      by_cases e : f = fd
      · left
        rw [if_pos (by show f = j.fd; omega)] at h
        injection h with h
        subst h
        exact ⟨e, rfl, fun h => by cases h⟩
      · right
        rw [if_neg (by show f ≠ j.fd; omega)] at h
        exact ⟨e, h⟩
    · next hne =>
      by_cases e : f = fd
      · left
        subst e
        rw [hf] at h
        injection h with h
        subst h
        exact ⟨rfl, by omega, fun _ => rfl⟩
      · right; exact ⟨e, h⟩

theorem register_cache (s : S) (fd cpu : Nat) : (register s fd cpu).cache = s.cache := by
  unfold register
  cases find s.infos fd with
  | none => rfl
  | some j => dsimp only; split <;> rfl

theorem reread_infos (s : S) (f : Option (List Map)) : (reread s f).infos = s.infos := by
  unfold reread
  split <;> rfl

theorem inv_after (size : Nat) (h : List Ev) (g : Good size h) : Inv size h (after size h).2 := by
  induction h using List.reverseRecOn with
  | nil => exact ⟨fun _ h => (by cases h), fun _ _ h => (by cases h), fun _ _ h => (by cases h), fun _ _ h => (by cases h)⟩
  | append_singleton h e ih =>
    have inv := ih (good_init g)
    rw [after_snoc, after_fst]
    show Inv size (h ++ [e]) (step size (K.after h) (after size h).2 e).1
    generalize (after size h).2 = s at inv
    cases e with
    | run fd a b c => exact (run_looked size h fd a b c g s inv).1
    | create fd v =>
      have hk : (K.after (h ++ [Ev.create fd v])).maps = (K.after h).maps := by rw [K_after_snoc]; rfl
      have hkf : ∀ n, (K.after (h ++ [Ev.create fd v])).fds n = if n = fd then some v else (K.after h).fds n := by
        intro n; rw [K_after_snoc]; rfl
      show Inv size _ (register s fd v.idx)
      refine ⟨?_, ?_, ?_, ?_⟩
      · rw [hk, register_cache]; exact inv.cache
      · intro f i hi
        rcases register_find s fd v.idx f i hi with ⟨rfl, hc, _⟩ | ⟨hf, hi⟩
        · exact ⟨v, Or.inl (List.mem_append_right _ (List.mem_singleton.mpr rfl)), hc.symm⟩
        · obtain ⟨w, hw, hwi⟩ := inv.info f i hi
          exact ⟨w, gives_mono _ hw, hwi⟩
      · intro f i hi hr
        rcases register_find s fd v.idx f i hi with ⟨rfl, hc, hi⟩ | ⟨hf, hi⟩
        · refine res_mono _ (inv.res f i (hi hr) hr) ?_
          intro v' hv'
          rw [hkf, if_pos rfl] at hv'
          injection hv' with hv'; subst hv'; exact hc.symm
        · refine res_mono _ (inv.res f i hi hr) ?_
          intro v' hv'
          rw [hkf, if_neg hf] at hv'
          exact (inv.res f i hi hr).fdn v' hv'
      · intro f i hi hr hcn
        rw [register_cache] at hcn
        rw [hk]
        rcases register_find s fd v.idx f i hi with ⟨rfl, hc, hi⟩ | ⟨hf, hi⟩
        · exact inv.now f i (hi hr) hr hcn
        · exact inv.now f i hi hr hcn
    | setfd fd o =>
      have hk : (K.after (h ++ [Ev.setfd fd o])).maps = (K.after h).maps := by rw [K_after_snoc]; rfl
      have hkf : ∀ n, (K.after (h ++ [Ev.setfd fd o])).fds n = if n = fd then o else (K.after h).fds n := by
        intro n; rw [K_after_snoc]; rfl
      show Inv size _ s
      refine ⟨by rw [hk]; exact inv.cache, ?_, ?_, by rw [hk]; exact inv.now⟩
      · intro f i hi
        obtain ⟨w, hw, hwi⟩ := inv.info f i hi
        exact ⟨w, gives_mono _ hw, hwi⟩
      · intro f i hi hr
        refine res_mono _ (inv.res f i hi hr) ?_
        intro v' hv'
        rw [hkf] at hv'
        by_cases hf : f = fd
        · rw [if_pos hf] at hv'
          subst hv'; subst hf
          obtain ⟨w, hw, hwi⟩ := inv.info f i hi
          have := g.own h f v' (List.prefix_refl _) w hw
          omega
        · rw [if_neg hf] at hv'
          exact (inv.res f i hi hr).fdn v' hv'
    | remap ms =>
      have hkf : ∀ n, (K.after (h ++ [Ev.remap ms])).fds n = (K.after h).fds n := by
        intro n; rw [K_after_snoc]; rfl
      show Inv size _ { s with cache := none }
      refine ⟨fun _ h => (by cases h), ?_, ?_, fun _ _ _ _ hn => absurd rfl hn⟩
      · intro f i hi
        obtain ⟨w, hw, hwi⟩ := inv.info f i hi
        exact ⟨w, gives_mono _ hw, hwi⟩
      · intro f i hi hr
        refine res_mono _ (inv.res f i hi hr) ?_
        intro v' hv'
        rw [hkf] at hv'
        exact (inv.res f i hi hr).fdn v' hv'
    | other a =>
      have hk : K.after (h ++ [Ev.other a]) = K.after h := by rw [K_after_snoc]; rfl
      have fixed : Fixed (h ++ [Ev.other a]) := by
        rcases g.turns with t | ⟨_, t⟩
        · exact t
        · exact absurd (List.mem_append_right _ (List.mem_singleton.mpr rfl)) (t a)
      show Inv size _ (reread s _)
      refine ⟨?_, ?_, ?_, ?_⟩
      · intro ms hms
        rw [hk]
        unfold reread at hms
        split at hms
        · next hc hf =>
          split at hf
          · dsimp only at hms
            injection hms with hms
            injection hf with hf
            rw [← hms, hf]
          · cases hf
        · exact inv.cache ms hms
      · intro f i hi
        rw [reread_infos] at hi
        obtain ⟨w, hw, hwi⟩ := inv.info f i hi
        exact ⟨w, gives_mono _ hw, hwi⟩
      · intro f i hi hr
        rw [reread_infos] at hi
        exact res_mono _ (inv.res f i hi hr) (by rw [hk]; exact (inv.res f i hi hr).fdn)
      · intro f i hi hr _
        rw [reread_infos] at hi
        apply fixed_at _ fixed
        obtain ⟨ms, hm, hat⟩ := (inv.res f i hi hr).old
        exact ⟨ms, List.mem_append_left _ hm, hat⟩

/-- **C106** (partial: `Good` excludes two virtual machines at a time, descriptor numbers given to another vCPU behind the back of
the tracee, and moved mappings, with which it is false).  What KVM_RUN shows is the exit reason of the vCPU that ran, and it is
shown if the vCPU is mapped and the mappings can be read. -/
theorem reason_partial (size : Nat) (h : List Ev) (fd : Nat) (a : Bool) (reason : V → Nat) (junk : Nat → Option Nat)
    (g : Good size (h ++ [.run fd a reason junk])) (v : V) (hv : (K.after h).fds fd = some v) :
    (∀ r, shown size h (.run fd a reason junk) = some r → r = reason v) ∧
    (a = true → (∃ m ∈ (K.after h).maps, m.obj = .vcpu v) → shown size h (.run fd a reason junk) = some (reason v)) := by
  have gi := good_init g
  have inv := inv_after size h gi
  obtain ⟨_, h1, h2⟩ := run_looked size h fd a reason junk g _ inv
  unfold shown
  rw [after_fst]
  show (∀ r, ((vcpuGet (after size h).2 _ _ fd).2.bind _) = some r → _) ∧ (_ → _ → ((vcpuGet (after size h).2 _ _ fd).2.bind _) = _)
  have att : ∀ i, At (K.after h).maps i → size ≤ i.len → v.idx = i.cpu → attach size (mem (K.after h).maps reason junk) i = some (reason v) := by
    rintro i ⟨m, hm, hs, w, hw, hwi⟩ hl hi
    have M := mapsOk_after gi
    have W := M.whole m hm w hw
    have hwv : w = v := by
      apply g.uniq h (List.prefix_append _ _) w v (Or.inr ⟨m, hm, hw⟩) (Or.inl ⟨fd, hv⟩)
      omega
    unfold attach
    rw [if_neg (by omega)]
    unfold mem
    have hfind : (K.after h).maps.find? (fun m => decide (m.start ≤ i.addr) && decide (i.addr < m.stop)) = some m := by
      cases hf : (K.after h).maps.find? (fun m => decide (m.start ≤ i.addr) && decide (i.addr < m.stop)) with
      | none =>
        have := List.find?_eq_none.mp hf m hm
        simp only [Bool.and_eq_true, decide_eq_true_eq] at this
        omega
      | some m' =>
        have hm' := List.mem_of_find?_eq_some hf
        have hc := List.find?_some hf
        simp only [Bool.and_eq_true, decide_eq_true_eq] at hc
        rw [M.apart m' hm' m hm i.addr hc.1 hc.2 (by omega) (by omega)]
    rw [hfind]
    obtain ⟨st, sp, off, ob⟩ := m
    simp only at hw hs W
    subst hw
    simp only
    rw [if_pos ⟨hs.symm, W.1⟩, hwv]
  constructor
  · intro r hr
    cases hg : (vcpuGet (after size h).2 (if a then some ((K.after h).maps.map KMap.view) else none) (((K.after h).fds fd).map fun v => vcpuName v.idx) fd).2 with
    | none => rw [hg] at hr; cases hr
    | some i =>
      rw [hg] at hr
      obtain ⟨hat, hl, hi⟩ := h1 i hg
      have := att i hat hl (hi v hv)
      simp only [Option.bind_some] at hr
      rw [this] at hr
      injection hr with hr
      exact hr.symm
  · intro ha hm
    have hne := h2 ha v hv hm
    cases hg : (vcpuGet (after size h).2 (if a then some ((K.after h).maps.map KMap.view) else none) (((K.after h).fds fd).map fun v => vcpuName v.idx) fd).2 with
    | none => exact absurd hg hne
    | some i =>
      obtain ⟨hat, hl, hi⟩ := h1 i hg
      simp only [Option.bind_some]
      exact att i hat hl (hi v hv)

end Strace.Kvm
