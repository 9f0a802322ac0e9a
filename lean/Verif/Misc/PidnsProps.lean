import Verif.Misc.Pidns
import Mathlib.Data.List.Forall2
/-!
# C54: the answer is the id of a process which has the given id
-/
namespace Strace.Misc

/-- process `p` has the id `x` of a type in a namespace -/
def HasId (w : PidWorld) (p ns : Nat) (t : IdType) (x : Nat) : Prop :=
  ∃ ch f, w.procs p = some ch ∧ (ns, f) ∈ ch ∧ f t = x

/-- what the kernel guarantees (pid_namespaces(7)), for namespaces at most 32 deep -/
structure WorldOk (w : PidWorld) : Prop where
  depth : ∀ p ch, w.procs p = some ch → ch.length ≤ 32
  distinct : ∀ p ch, w.procs p = some ch → (ch.map (·.1)).Nodup
  /-- an id in a namespace comes with ids in all outer ones -/
  outer : ∀ (p : Nat) (ch : Chain) (i j : Nat) (a b : Nat × (IdType → Nat)), w.procs p = some ch → i ≤ j → ch[i]? = some a → ch[j]? = some b → ∀ t, a.2 t ≠ 0 → b.2 t ≠ 0

/-- `ns` is strace's own namespace or one below it -/
def Below (w : PidWorld) (ns : Nat) : Prop :=
  ∀ (p : Nat) (ch : Chain) (i : Nat) (a : Nat × (IdType → Nat)), w.procs p = some ch → ch[i]? = some a → a.1 = ns →
    ∃ (j : Nat) (b : Nat × (IdType → Nat)), i ≤ j ∧ ch[j]? = some b ∧ b.1 = w.our

/-- what caches hold fits into the arrays -/
def CachesOk (c : PidCaches) : Prop :=
  ∀ p d, c.data p = some d → d.nsCount ≤ 32 ∧ ∀ t, d.idCount t ≤ 32

/-! ### the loop -/

theorem reach_spec (our : Nat) : ∀ ns : List Nat,
    (our ∈ ns → ∃ k, k < ns.length ∧ ns[k]? = some our ∧ reach our ns = ns.take (k + 1)) ∧
    (our ∉ ns → reach our ns = ns.take 1) := by
  intro ns
  induction ns with
  | nil => exact ⟨fun h => (nomatch h), fun _ => rfl⟩
  | cons n ns ih =>
    constructor
    · intro h
      by_cases e : n = our
      · refine ⟨0, by rw [List.length_cons]; omega, by rw [e]; rfl, ?_⟩
        show (if n = our then [n] else _) = _
        rw [if_pos e]; rfl
      · have hm : our ∈ ns := by
          rcases List.mem_cons.mp h with e2 | e2
          · exact absurd e2.symm e
          · exact e2
        obtain ⟨k, h1, h2, h3⟩ := ih.1 hm
        refine ⟨k + 1, by rw [List.length_cons]; omega, by rw [List.getElem?_cons_succ]; exact h2, ?_⟩
        show (if n = our then [n] else if our ∈ ns then n :: reach our ns else [n]) = _
        rw [if_neg e, if_pos hm, h3]; rfl
    · intro h
      have e : n ≠ our := fun e => h (by rw [e]; simp)
      have hm : our ∉ ns := fun hm => h (List.mem_cons_of_mem _ hm)
      show (if n = our then [n] else if our ∈ ns then n :: reach our ns else [n]) = _
      rw [if_neg e, if_neg hm]; rfl

theorem fill_get (l : List Nat) (old : Nat → Nat) (i : Nat) (h : i < 32) (x : Nat) (hx : l[i]? = some x) : fill l old i = x := by
  unfold fill maxDepth
  rw [if_pos h, List.getD_eq_getElem?_getD, hx]
  rfl

/-- the data read for a process: its namespaces up to position `k`, its ids from the outermost -/
theorem update_spec (w : PidWorld) (hw : WorldOk w) (p : Nat) (t : IdType) (d e : PData) (h : updateData w p t d = some e) :
    ∃ ch k, w.procs p = some ch ∧ k < ch.length ∧ e.nsCount = k + 1 ∧ e.idCount t = ch.length ∧
      (∀ i a, i ≤ k → ch[i]? = some a → e.ns i = a.1 ∧ e.id t (ch.length - i - 1) = a.2 t) ∧
      (w.our ∈ ch.map (·.1) → ∃ b, ch[k]? = some b ∧ b.1 = w.our) ∧
      (w.our ∉ ch.map (·.1) → k = 0) := by
  unfold updateData at h
  by_cases h1 : (updateNs w p d).nsCount = 0
  · rw [if_pos h1] at h; cases h
  rw [if_neg h1] at h
  by_cases h2 : (updateIds w p t (updateNs w p d)).idCount t = 0
  · rw [if_pos h2] at h; cases h
  rw [if_neg h2] at h
  have he : e = updateIds w p t (updateNs w p d) := (Option.some.inj h).symm
  cases hp : w.procs p with
  | none =>
    exfalso
    apply h1
    show ((nsList w p).take maxDepth).length = 0
    unfold nsList
    rw [hp]; rfl
  | some ch =>
    have hns : nsList w p = reach w.our (ch.map (·.1)) := by unfold nsList; rw [hp]
    have hid : idList w p t = (ch.map fun e => e.2 t).reverse := by unfold idList; rw [hp]
    have hlen := hw.depth p ch hp
    have hcnt : e.idCount t = ch.length := by
      rw [he]
      show (if t = t then (idList w p t).length else _) = _
      rw [if_pos rfl, hid]; simp
    have hne : ch.length ≠ 0 := by
      rw [← hcnt, he]; exact h2
    -- the position of the last namespace read
    have hk : ∃ k, k < ch.length ∧ reach w.our (ch.map (·.1)) = (ch.map (·.1)).take (k + 1) ∧
        (w.our ∈ ch.map (·.1) → ∃ b, ch[k]? = some b ∧ b.1 = w.our) ∧ (w.our ∉ ch.map (·.1) → k = 0) := by
      by_cases hm : w.our ∈ ch.map (·.1)
      · obtain ⟨k, k1, k2, k3⟩ := (reach_spec w.our (ch.map (·.1))).1 hm
        rw [List.length_map] at k1
        refine ⟨k, k1, k3, fun _ => ?_, fun h => absurd hm h⟩
        rw [List.getElem?_map] at k2
        cases hb : ch[k]? with
        | none => rw [hb] at k2; cases k2
        | some b =>
          rw [hb] at k2
          exact ⟨b, rfl, Option.some.inj k2⟩
      · exact ⟨0, by omega, (reach_spec w.our (ch.map (·.1))).2 hm, fun h => absurd h hm, fun _ => rfl⟩
    obtain ⟨k, k1, k2, k3, k4⟩ := hk
    refine ⟨ch, k, rfl, k1, ?_, hcnt, ?_, k3, k4⟩
    · rw [he]
      show ((nsList w p).take maxDepth).length = _
      rw [hns, k2]
      simp only [List.length_take, List.length_map, maxDepth]
      omega
    · intro i a hi ha
      have hil : i < ch.length := (List.getElem?_eq_some_iff.mp ha).1
      rw [he]
      constructor
      · show fill (nsList w p) d.ns i = _
        apply fill_get _ _ _ (by omega)
        rw [hns, k2, List.getElem?_take, if_pos (by omega), List.getElem?_map, ha]
        rfl
      · show (if t = t then fill (idList w p t) _ else _) _ = _
        rw [if_pos rfl]
        apply fill_get _ _ _ (by omega)
        rw [hid, List.getElem?_reverse (by rw [List.length_map]; omega), List.length_map,
          show ch.length - 1 - (ch.length - i - 1) = i from by omega, List.getElem?_map, ha]
        rfl

theorem scan_ok (d : PData) (t : IdType) (n x : Nat) (h1 : d.nsCount ≤ 32) (h2 : d.idCount t ≤ 32) (h3 : d.nsCount ≤ d.idCount t)
    (h4 : d.nsCount ≠ 0) : ∀ k i, i + k = d.nsCount → ∃ r, scanData d t n x k i = .ok r := by
  intro k
  induction k with
  | zero => intro i _; exact ⟨0, rfl⟩
  | succ k ih =>
    intro i hi
    have hb : ¬ (d.idCount t - i - 1 ≥ maxDepth ∨ d.idCount t - d.nsCount ≥ maxDepth ∨ i ≥ maxDepth) := by
      unfold maxDepth; omega
    unfold scanData
    rw [if_neg hb]
    by_cases e : d.ns i ≠ n
    · rw [if_pos e]; exact ih (i + 1) (by omega)
    · rw [if_neg e]
      by_cases e2 : d.id t (d.idCount t - i - 1) ≠ x
      · rw [if_pos e2]; exact ⟨0, rfl⟩
      · rw [if_neg e2]; exact ⟨_, rfl⟩

theorem data_ok (d : PData) (t : IdType) (n x : Nat) (h1 : d.nsCount ≤ 32) (h2 : d.idCount t ≤ 32) :
    ∃ r, translateData d t n x = .ok r := by
  unfold translateData
  by_cases h : d.nsCount = 0 ∨ d.idCount t < d.nsCount
  · rw [if_pos h]; exact ⟨0, rfl⟩
  · rw [if_neg h]; exact scan_ok d t n x h1 h2 (by omega) (by omega) _ 0 (by omega)

/-- what the loop finds: the first position with the namespace -/
theorem scan_found (d : PData) (t : IdType) (n x r : Nat) (hr : r ≠ 0) : ∀ k i, i + k = d.nsCount →
    scanData d t n x k i = .ok r →
    ∃ j, i ≤ j ∧ j < d.nsCount ∧ d.ns j = n ∧ d.id t (d.idCount t - j - 1) = x ∧ r = d.id t (d.idCount t - d.nsCount) := by
  intro k
  induction k with
  | zero => intro i _ h; exact absurd (Res.ok.inj h).symm hr
  | succ k ih =>
    intro i hi h
    have h : (if d.idCount t - i - 1 ≥ maxDepth ∨ d.idCount t - d.nsCount ≥ maxDepth ∨ i ≥ maxDepth then Res.bad
      else if d.ns i ≠ n then scanData d t n x k (i + 1)
      else if d.id t (d.idCount t - i - 1) ≠ x then .ok 0
      else .ok (d.id t (d.idCount t - d.nsCount))) = .ok r := h
    by_cases hb : d.idCount t - i - 1 ≥ maxDepth ∨ d.idCount t - d.nsCount ≥ maxDepth ∨ i ≥ maxDepth
    · rw [if_pos hb] at h; cases h
    rw [if_neg hb] at h
    by_cases e : d.ns i ≠ n
    · rw [if_pos e] at h
      obtain ⟨j, j1, j2⟩ := ih (i + 1) (by omega) h
      exact ⟨j, by omega, j2⟩
    · rw [if_neg e] at h
      by_cases e2 : d.id t (d.idCount t - i - 1) ≠ x
      · rw [if_pos e2] at h; exact absurd (Res.ok.inj h).symm hr
      · rw [if_neg e2] at h
        exact ⟨i, Nat.le_refl _, by omega, Classical.not_not.mp e, Classical.not_not.mp e2, (Res.ok.inj h).symm⟩

/-- what the loop does when the namespace is first met at `j` -/
theorem scan_at (d : PData) (t : IdType) (n x j : Nat) (hj : d.ns j = n) (hid : d.id t (d.idCount t - j - 1) = x)
    (h1 : d.nsCount ≤ 32) (h2 : d.idCount t ≤ 32) (h3 : d.nsCount ≠ 0) (h4 : d.nsCount ≤ d.idCount t) : ∀ k i, i + k = d.nsCount →
    i ≤ j → j < d.nsCount → (∀ l, i ≤ l → l < j → d.ns l ≠ n) → scanData d t n x k i = .ok (d.id t (d.idCount t - d.nsCount)) := by
  intro k
  induction k with
  | zero => intro i hi hij hjn; omega
  | succ k ih =>
    intro i hi hij hjn hl
    have hb : ¬ (d.idCount t - i - 1 ≥ maxDepth ∨ d.idCount t - d.nsCount ≥ maxDepth ∨ i ≥ maxDepth) := by
      unfold maxDepth; omega
    unfold scanData
    rw [if_neg hb]
    by_cases e : i = j
    · subst e
      rw [if_neg (not_not_intro hj), if_neg (not_not_intro hid)]
    · rw [if_pos (hl i (Nat.le_refl _) (by omega))]
      exact ih (i + 1) (by omega) (by omega) hjn (fun l a b => hl l (by omega) b)

theorem get_of_mem (ch : Chain) (e : Nat × (IdType → Nat)) (h : e ∈ ch) : ∃ i : Nat, ch[i]? = some e :=
  List.getElem?_of_mem h

theorem nodup_pos (ch : Chain) (hn : (ch.map (·.1)).Nodup) (i j : Nat) (a b : Nat × (IdType → Nat)) (ha : ch[i]? = some a)
    (hb : ch[j]? = some b) (hab : a.1 = b.1) : i = j := by
  have hi : i < (ch.map (·.1)).length := by rw [List.length_map]; exact (List.getElem?_eq_some_iff.mp ha).1
  refine (List.getElem?_inj hi hn).mp ?_
  rw [List.getElem?_map, List.getElem?_map, ha, hb]
  show some a.1 = some b.1
  rw [hab]

/-! ### one process -/

theorem setData_ok (c : PidCaches) (hc : CachesOk c) (p : Nat) (d : Option PData)
    (hd : ∀ e, d = some e → e.nsCount ≤ 32 ∧ ∀ t, e.idCount t ≤ 32) : CachesOk (setData c p d) := by
  intro q e he
  have he : (if q = p then d else c.data q) = some e := he
  by_cases h : q = p
  · rw [if_pos h] at he; exact hd e he
  · rw [if_neg h] at he; exact hc q e he

theorem update_fits (w : PidWorld) (hw : WorldOk w) (p : Nat) (t : IdType) (c : PidCaches) (hc : CachesOk c) (e : PData)
    (h : updateData w p t ((c.data p).getD emptyData) = some e) : e.nsCount ≤ 32 ∧ ∀ u, e.idCount u ≤ 32 := by
  obtain ⟨ch, k, e1, e2, e3, e4, _⟩ := update_spec w hw p t _ e h
  have hd := hw.depth p ch e1
  refine ⟨by omega, ?_⟩
  intro u
  by_cases hu : u = t
  · rw [hu]; omega
  · have : e.idCount u = ((c.data p).getD emptyData).idCount u := by
      unfold updateData at h
      by_cases h1 : (updateNs w p ((c.data p).getD emptyData)).nsCount = 0
      · rw [if_pos h1] at h; cases h
      rw [if_neg h1] at h
      by_cases h2 : (updateIds w p t (updateNs w p ((c.data p).getD emptyData))).idCount t = 0
      · rw [if_pos h2] at h; cases h
      rw [if_neg h2] at h
      rw [← Option.some.inj h]
      show (if u = t then _ else ((c.data p).getD emptyData).idCount u) = _
      rw [if_neg hu]
    rw [this]
    cases hcp : c.data p with
    | none => exact Nat.zero_le _
    | some d => exact (hc p d hcp).2 u

theorem proc_sound (w : PidWorld) (hw : WorldOk w) (t : IdType) (n x p : Nat) (hb : Below w n) (c : PidCaches) (hc : CachesOk c) :
    ∃ r c', translateProc w t n x p c = .ok (r, c') ∧ CachesOk c' ∧ c'.pid = c.pid ∧
      (r ≠ 0 → HasId w p n t x ∧ HasId w p w.our t r) ∧
      (x ≠ 0 → HasId w p n t x → r ≠ 0) := by
  unfold translateProc
  cases hu : updateData w p t ((c.data p).getD emptyData) with
  | none =>
    refine ⟨0, setData c p none, rfl, setData_ok c hc p none (fun e h => nomatch h), rfl, fun h => absurd rfl h, ?_⟩
    rintro hx ⟨ch, f, h1, h2, h3⟩
    exfalso
    have hne : ch.length ≠ 0 := by
      intro h0
      rw [List.length_eq_zero_iff] at h0
      rw [h0] at h2; cases h2
    unfold updateData at hu
    by_cases g1 : (updateNs w p ((c.data p).getD emptyData)).nsCount = 0
    · have g1 : ((nsList w p).take maxDepth).length = 0 := g1
      have hns : nsList w p = reach w.our (ch.map (·.1)) := by unfold nsList; rw [h1]
      rw [hns] at g1
      cases ch with
      | nil => exact hne rfl
      | cons a as =>
        have g1 : ((if a.1 = w.our then [a.1] else if w.our ∈ as.map (·.1) then a.1 :: reach w.our (as.map (·.1)) else [a.1]).take
          maxDepth).length = 0 := g1
        split at g1
        · simp [maxDepth] at g1
        · split at g1
          · simp [maxDepth] at g1
          · simp [maxDepth] at g1
    · rw [if_neg g1] at hu
      by_cases g2 : (updateIds w p t (updateNs w p ((c.data p).getD emptyData))).idCount t = 0
      · have g2 : (if t = t then (idList w p t).length else _) = 0 := g2
        rw [if_pos rfl] at g2
        have hid : idList w p t = (ch.map fun e => e.2 t).reverse := by unfold idList; rw [h1]
        rw [hid] at g2
        simp at g2
        rw [g2] at hne
        exact hne rfl
      · rw [if_neg g2] at hu; cases hu
  | some d =>
    obtain ⟨ch, k, e1, e2, e3, e4, e5, e6, e7⟩ := update_spec w hw p t _ d hu
    have hfit := update_fits w hw p t c hc d hu
    obtain ⟨r, hr⟩ := data_ok d t n x hfit.1 (hfit.2 t)
    refine ⟨r, setData c p (some d), ?_, setData_ok c hc p _ (fun e h => by cases h; exact hfit), rfl, ?_, ?_⟩
    · dsimp only
      rw [hr]; rfl
    · intro hr0
      unfold translateData at hr
      rw [if_neg (by omega)] at hr
      obtain ⟨j, j1, j2, j3, j4, j5⟩ := scan_found d t n x r hr0 _ 0 (by omega) hr
      have hjl : j < ch.length := by omega
      have hj := List.getElem?_eq_getElem hjl
      obtain ⟨a1, a2⟩ := e5 j _ (by omega) hj
      have hn : ch[j].1 = n := by rw [← a1]; exact j3
      have hk := List.getElem?_eq_getElem e2
      obtain ⟨b1, b2⟩ := e5 k _ (Nat.le_refl _) hk
      obtain ⟨i, b, i1, i2, i3⟩ := hb p ch j _ e1 hj hn
      have hmem : w.our ∈ ch.map (·.1) := by
        rw [← i3]; exact List.mem_map_of_mem (List.mem_of_getElem? i2)
      obtain ⟨b', k1, k2⟩ := e6 hmem
      rw [hk] at k1
      have k1 := Option.some.inj k1
      refine ⟨⟨ch, ch[j].2, e1, ?_, ?_⟩, ⟨ch, ch[k].2, e1, ?_, ?_⟩⟩
      · have := List.getElem_mem hjl
        rw [← hn]; exact this
      · rw [← a2, ← e4]; exact j4
      · have := List.getElem_mem e2
        rw [← k2, ← k1]; exact this
      · rw [← b2, j5, e4, e3]
        congr 1
    · rintro hx ⟨ch', f, h1, h2, h3⟩
      rw [e1] at h1
      cases h1
      obtain ⟨j, hj⟩ := get_of_mem ch (n, f) h2
      have hjl : j < ch.length := (List.getElem?_eq_some_iff.mp hj).1
      obtain ⟨i, b, i1, i2, i3⟩ := hb p ch j _ e1 hj rfl
      have hmem : w.our ∈ ch.map (·.1) := by
        rw [← i3]; exact List.mem_map_of_mem (List.mem_of_getElem? i2)
      obtain ⟨b', k1, k2⟩ := e6 hmem
      have hik : i = k := nodup_pos ch (hw.distinct p ch e1) i k b b' i2 k1 (by rw [i3, k2])
      subst hik
      obtain ⟨a1, a2⟩ := e5 j _ i1 hj
      obtain ⟨c1, c2⟩ := e5 i _ (Nat.le_refl _) k1
      have hscan := scan_at d t n x j a1 (by rw [e4, a2]; exact h3) hfit.1 (hfit.2 t) (by omega) (by omega) d.nsCount 0 (by omega)
        (Nat.zero_le _) (by omega) (by
          intro l _ hl hc
          have hll : l < ch.length := by omega
          obtain ⟨d1, _⟩ := e5 l _ (by omega) (List.getElem?_eq_getElem hll)
          rw [d1] at hc
          have := nodup_pos ch (hw.distinct p ch e1) l j _ _ (List.getElem?_eq_getElem hll) hj hc
          omega)
      unfold translateData at hr
      rw [if_neg (by omega), hscan] at hr
      rw [← Res.ok.inj hr, e4, e3, show ch.length - (i + 1) = ch.length - i - 1 from rfl, c2]
      exact hw.outer p ch j i _ _ e1 i1 hj k1 t (by show f t ≠ 0; rw [h3]; exact hx)

/-! ### many processes -/

/-- what is right about an answer: no process was found that does not have the ids -/
def Right (w : PidWorld) (t : IdType) (n x : Nat) (r : Nat × Nat) : Prop :=
  r.1 ≠ 0 → HasId w r.2 n t x ∧ HasId w r.2 w.our t r.1

theorem list_sound (w : PidWorld) (hw : WorldOk w) (t : IdType) (n x : Nat) (hb : Below w n) : ∀ (ps : List Nat) (c : PidCaches),
    CachesOk c → ∃ r c', translateList w t n x ps c = .ok (r, c') ∧ CachesOk c' ∧ Right w t n x r ∧
      (x ≠ 0 → (∃ p ∈ ps, HasId w p n t x) → r.1 ≠ 0) := by
  intro ps
  induction ps with
  | nil =>
    intro c hc
    exact ⟨(0, 0), c, rfl, hc, fun h => absurd rfl h, fun _ ⟨p, hp, _⟩ => nomatch hp⟩
  | cons p ps ih =>
    intro c hc
    obtain ⟨r, c', h1, h2, _, h4, h5⟩ := proc_sound w hw t n x p hb c hc
    by_cases hr : r ≠ 0
    · refine ⟨(r, p), c', ?_, h2, fun _ => h4 hr, fun _ _ => hr⟩
      show (translateProc w t n x p c).bind _ = _
      rw [h1]
      show (if r ≠ 0 then _ else _) = _
      rw [if_pos hr]
    · obtain ⟨r', c'', g1, g2, g3, g4⟩ := ih c' h2
      refine ⟨r', c'', ?_, g2, g3, ?_⟩
      · show (translateProc w t n x p c).bind _ = _
        rw [h1]
        show (if r ≠ 0 then _ else _) = _
        rw [if_neg hr]
        exact g1
      · rintro hx ⟨q, hq, hh⟩
        rcases List.mem_cons.mp hq with e | e
        · subst e; exact absurd (h5 hx hh) hr
        · exact g4 hx ⟨q, e, hh⟩

theorem cache_sound (w : PidWorld) (hw : WorldOk w) (t : IdType) (n x : Nat) (hb : Below w n) : ∀ (ps : List Nat) (c : PidCaches),
    CachesOk c → ∃ r c', translateCache w t n x ps c = .ok (r, c') ∧ CachesOk c' ∧ Right w t n x r := by
  intro ps
  induction ps with
  | nil => intro c hc; exact ⟨(0, 0), c, rfl, hc, fun h => absurd rfl h⟩
  | cons p ps ih =>
    intro c hc
    cases hd : c.data p with
    | none =>
      obtain ⟨r, c', h⟩ := ih c hc
      refine ⟨r, c', ?_, h.2⟩
      show (match c.data p with | none => _ | some d => _) = _
      rw [hd]; exact h.1
    | some d =>
      obtain ⟨r0, hr0⟩ := data_ok d t n x (hc p d hd).1 ((hc p d hd).2 t)
      have hstep : translateCache w t n x (p :: ps) c = if r0 = 0 then translateCache w t n x ps c
          else (translateProc w t n x p c).bind fun r =>
            if r.1 ≠ 0 then .ok ((r.1, p), r.2) else translateCache w t n x ps r.2 := by
        show (match c.data p with | none => _ | some d => _) = _
        rw [hd]
        dsimp only
        rw [hr0]; rfl
      rw [hstep]
      by_cases h0 : r0 = 0
      · rw [if_pos h0]; exact ih c hc
      · rw [if_neg h0]
        obtain ⟨r, c', h1, h2, _, h4, _⟩ := proc_sound w hw t n x p hb c hc
        rw [h1]
        by_cases hr : r ≠ 0
        · exact ⟨(r, p), c', by show (if r ≠ 0 then _ else _) = _; rw [if_pos hr], h2, fun _ => h4 hr⟩
        · obtain ⟨r', c'', g⟩ := ih c' h2
          exact ⟨r', c'', by show (if r ≠ 0 then _ else _) = _; rw [if_neg hr]; exact g.1, g.2⟩

theorem slow_sound (w : PidWorld) (hw : WorldOk w) (keys : List Nat) (t : IdType) (n x : Nat) (hb : Below w n) (c : PidCaches)
    (hc : CachesOk c) : ∃ r c', translateSlow w keys t n x c = .ok (r, c') ∧ CachesOk c' ∧ Right w t n x r ∧
      (x ≠ 0 → (∃ p ∈ allDirs w, HasId w p n t x) → r.1 ≠ 0) := by
  obtain ⟨r, c', h1, h2, h3⟩ := cache_sound w hw t n x hb keys c hc
  unfold translateSlow
  rw [h1]
  by_cases hr : r.1 ≠ 0
  · exact ⟨r, c', by show (if r.1 ≠ 0 then _ else _) = _; rw [if_pos hr], h2, h3, fun _ _ => hr⟩
  · obtain ⟨r', c'', g⟩ := list_sound w hw t n x hb (allDirs w) c' h2
    exact ⟨r', c'', by show (if r.1 ≠ 0 then _ else _) = _; rw [if_neg hr]; exact g.1, g.2⟩

theorem find_sound (w : PidWorld) (hw : WorldOk w) (keys : List Nat) (t : IdType) (n x : Nat) (hb : Below w n) (c : PidCaches)
    (hc : CachesOk c) : ∃ r c', translateFind w keys t n x c = .ok (r, c') ∧ CachesOk c' ∧ Right w t n x r ∧
      (x ≠ 0 → (∃ p ∈ allDirs w, HasId w p n t x) → r.1 ≠ 0) := by
  unfold translateFind
  by_cases hp : c.pid n x t ≠ 0
  · rw [if_pos hp]
    obtain ⟨r, c', h1, h2, _, h4, h5⟩ := proc_sound w hw t n x (c.pid n x t) hb c hc
    rw [h1]
    by_cases hr : r ≠ 0
    · exact ⟨(r, c.pid n x t), c', by show (if r ≠ 0 then _ else _) = _; rw [if_pos hr], h2, fun _ => h4 hr, fun _ _ => hr⟩
    · obtain ⟨r', c'', g⟩ := slow_sound w hw keys t n x hb c' h2
      exact ⟨r', c'', by show (if r ≠ 0 then _ else _) = _; rw [if_neg hr]; exact g.1, g.2⟩
  · rw [if_neg hp]
    exact slow_sound w hw keys t n x hb c hc

theorem id_sound (w : PidWorld) (hw : WorldOk w) (keys : List Nat) (t : IdType) (n x : Nat) (hb : Below w n) (c : PidCaches)
    (hc : CachesOk c) : ∃ r c', translateId w keys t n x c = .ok (r, c') ∧ CachesOk c' ∧ Right w t n x r ∧
      (x ≠ 0 → (∃ p ∈ allDirs w, HasId w p n t x) → r.1 ≠ 0) := by
  obtain ⟨r, c', h1, h2, h3, h4⟩ := find_sound w hw keys t n x hb c hc
  unfold translateId
  rw [h1]
  show ∃ r' c'', Res.ok (remember t n x (r, c')) = _ ∧ _
  unfold remember
  by_cases hr : r.1 ≠ 0
  · rw [if_pos hr]
    exact ⟨r, _, rfl, h2, h3, h4⟩
  · rw [if_neg hr]
    exact ⟨r, c', rfl, h2, h3, h4⟩

/-! ### the whole function -/

/-- processes agree: whoever has the id in the namespace has the same id in strace's (thread and process ids are unique in a
namespace; a group or session has one id per namespace) -/
def Agree (w : PidWorld) : Prop :=
  ∀ p q n t x y z, HasId w p n t x → HasId w p w.our t y → HasId w q n t x → HasId w q w.our t z → y = z

/-- there is a directory for the process, or a task directory -/
def Listed (w : PidWorld) (p : Nat) : Prop := ∃ d ∈ w.dirs, p = d.1 ∨ p ∈ d.2

theorem listed_dirs (w : PidWorld) (p : Nat) (h : Listed w p) : p ∈ allDirs w := by
  obtain ⟨d, hd, h⟩ := h
  refine List.mem_flatMap.mpr ⟨d, hd, ?_⟩
  rcases h with h | h
  · rw [h]; simp
  · exact List.mem_append_left _ h

/-- C54: whatever is in the caches, and whatever keys the iteration over the cache meets, a translation from a tracee's namespace
ends without reading outside of arrays; an answer is the id in strace's namespace of a process which has the given id in the
tracee's, and there is one if /proc lists such a process -/
theorem translate_right_partial (w : PidWorld) (hw : WorldOk w) (ha : Agree w) (self : Nat) (keys : List Nat) (n x : Nat) (t : IdType)
    (want : Bool) (hb : Below w n) (hn : n ≠ 0) (c : PidCaches) (hc : CachesOk c) :
    ∃ r c', translatePid w self keys (some n) x t want c = .ok (r, c') ∧ CachesOk c' ∧
      (∀ p y, x ≠ 0 → HasId w p n t x → HasId w p w.our t y → r.1 ≠ 0 → r.1 = y) ∧
      (n ≠ w.our → r.1 ≠ 0 → HasId w r.2 n t x ∧ HasId w r.2 w.our t r.1) ∧
      (x ≠ 0 → (∃ p, Listed w p ∧ HasId w p n t x) → r.1 ≠ 0) := by
  unfold translatePid
  by_cases hx : x = 0
  · rw [if_pos hx]
    exact ⟨(0, 0), c, rfl, hc, fun _ _ h => absurd hx h, fun _ h => absurd rfl h, fun h => absurd hx h⟩
  rw [if_neg hx]
  by_cases htriv : (some n = none ∨ some n = some w.our) ∧ (want = false ∨ procOurs w self = true)
  · rw [if_pos htriv]
    have hno : n = w.our := by
      rcases htriv.1 with h | h
      · cases h
      · exact Option.some.inj h
    refine ⟨(x, x), c, rfl, hc, ?_, fun h => absurd hno h, fun _ _ => hx⟩
    intro p y _ h1 h2 _
    show x = y
    obtain ⟨ch, f, a1, a2, a3⟩ := h1
    obtain ⟨ch', g, b1, b2, b3⟩ := h2
    rw [a1] at b1
    cases b1
    obtain ⟨i, hi⟩ := get_of_mem ch _ a2
    obtain ⟨j, hj⟩ := get_of_mem ch _ b2
    have := nodup_pos ch (hw.distinct p ch a1) i j _ _ hi hj hno
    subst this
    rw [hi] at hj
    cases hj
    rw [← a3, ← b3]
  rw [if_neg htriv]
  rw [if_neg (by exact hn)]
  obtain ⟨r, c', h1, h2, h3, h4⟩ := id_sound w hw keys t n x hb c hc
  refine ⟨r, c', h1, h2, ?_, fun _ => h3, fun hx ⟨p, hl, hp⟩ => h4 hx ⟨p, listed_dirs w p hl, hp⟩⟩
  intro p y _ hp hy hr
  exact ha r.2 p n t x r.1 y (h3 hr).1 (h3 hr).2 hp hy

/-- strace's /proc: the number of a directory is the thread's id in the namespace of /proc, which is the outermost one -/
def NumbersOk (w : PidWorld) : Prop :=
  ∀ p ch, w.procs p = some ch → ∃ e, ch.getLast? = some e ∧ e.2 0 = p

/-- whether /proc is that of strace's own namespace, told by strace's own entry -/
def SelfOk (w : PidWorld) (self : Nat) : Prop :=
  ∃ ch e, w.procs self = some ch ∧ ch.head? = some e ∧ e.1 = w.our ∧
    ∀ p ch', w.procs p = some ch' → ch'.getLast?.map (·.1) = ch.getLast?.map (·.1)

/-- C54: the number in /proc found for a tracee is that of the process with the tracee's id, and the namespace found is the
tracee's -/
theorem tracee_ns_right_partial (w : PidWorld) (hw : WorldOk w) (hnum : NumbersOk w) (self : Nat) (hself : SelfOk w self) (ho : w.our ≠ 0)
    (hb : Below w w.our) (hdir : ∀ p ch, w.procs p = some ch → Listed w p)
    (hone : ∀ p q x, x ≠ 0 → HasId w p w.our 0 x → HasId w q w.our 0 x → p = q)
    (keys : List Nat) (p pid : Nat) (ch : Chain) (e : Nat × (IdType → Nat)) (hp : w.procs p = some ch) (hp0 : p ≠ 0) (hpid : pid ≠ 0)
    (hid : HasId w p w.our 0 pid) (he : ch.head? = some e) (c : PidCaches) (hc : CachesOk c) :
    ∃ c', getNs w self keys pid c = .ok (e.1, c') ∧ CachesOk c' := by
  have hhead : (nsList w p).headD 0 = e.1 := by
    unfold nsList
    rw [hp]
    cases ch with
    | nil => cases he
    | cons a as =>
      cases he
      show (if e.1 = w.our then [e.1] else if w.our ∈ as.map (·.1) then e.1 :: reach w.our (as.map (·.1)) else [e.1]).headD 0 = e.1
      split
      · rfl
      · split <;> rfl
  have key : ∃ r c', translatePid w self keys none pid 0 true c = .ok (r, c') ∧ CachesOk c' ∧ r.2 = p := by
    unfold translatePid
    rw [if_neg hpid]
    by_cases htriv : ((none : Option Nat) = none ∨ (none : Option Nat) = some w.our) ∧ (true = false ∨ procOurs w self = true)
    · rw [if_pos htriv]
      refine ⟨(pid, pid), c, rfl, hc, ?_⟩
      show pid = p
      have hours : procOurs w self = true := by
        rcases htriv.2 with h | h
        · cases h
        · exact h
      obtain ⟨sch, se, s1, s2, s3, s4⟩ := hself
      have hl : sch.length ≤ 1 := by
        have := of_decide_eq_true hours
        unfold idList at this
        rw [s1] at this
        simpa using this
      have hlast : sch.getLast? = some se := by
        cases sch with
        | nil => cases s2
        | cons a as =>
          cases as with
          | nil => exact s2
          | cons b bs => rw [List.length_cons, List.length_cons] at hl; omega
      obtain ⟨le, l1, l2⟩ := hnum p ch hp
      have hls := s4 p ch hp
      rw [l1, hlast] at hls
      have hle : le.1 = w.our := by
        have := Option.some.inj hls
        rw [← s3]; exact this
      obtain ⟨ch', f, a1, a2, a3⟩ := hid
      rw [hp] at a1
      cases a1
      obtain ⟨i, hi⟩ := get_of_mem ch _ a2
      have hll := l1
      rw [List.getLast?_eq_getElem?] at hll
      have := nodup_pos ch (hw.distinct p ch hp) i _ _ _ hi hll (by rw [hle])
      subst this
      rw [hi] at hll
      cases hll
      rw [← a3]; exact l2
    · rw [if_neg htriv, if_neg (by exact ho)]
      obtain ⟨r, c', h1, h2, h3, h4⟩ := id_sound w hw keys 0 w.our pid hb c hc
      refine ⟨r, c', h1, h2, ?_⟩
      have hr := h4 hpid ⟨p, listed_dirs w p (hdir p ch hp), hid⟩
      exact hone r.2 p pid hpid (h3 hr).1 hid
  obtain ⟨r, c', h1, h2, h3⟩ := key
  refine ⟨c', ?_, h2⟩
  unfold getNs
  rw [h1]
  show Res.ok (if r.2 = 0 then 0 else (nsList w r.2).headD 0, c') = _
  rw [if_neg (by rw [h3]; exact hp0), h3, hhead]

/-- the first translation starts with empty caches -/
def noCaches : PidCaches := ⟨fun _ => none, fun _ _ _ => 0⟩

theorem noCaches_ok : CachesOk noCaches := fun _ _ h => nomatch h

/-- a translation asked for at some time: the system at that time, and the question -/
structure Query where
  w : PidWorld
  self : Nat
  keys : List Nat
  ns : Nat
  id : Nat
  type : IdType
  want : Bool

/-- the conditions of `translate_right_partial` -/
structure QueryOk (q : Query) : Prop where
  world : WorldOk q.w
  agree : Agree q.w
  below : Below q.w q.ns
  known : q.ns ≠ 0

/-- the answers to a sequence of questions; the system may change in any way between them -/
def answers : List Query → PidCaches → Res (List Nat)
  | [], _ => .ok []
  | q :: qs, c => (translatePid q.w q.self q.keys (some q.ns) q.id q.type q.want c).bind fun r =>
    (answers qs r.2).bind fun l => .ok (r.1.1 :: l)

/-- an answer is right: the id of every process in question, and not 0 if one is listed -/
def AnswerOk (q : Query) (r : Nat) : Prop :=
  (∀ p y, q.id ≠ 0 → HasId q.w p q.ns q.type q.id → HasId q.w p q.w.our q.type y → r ≠ 0 → r = y) ∧
  (q.ns ≠ q.w.our → r ≠ 0 → ∃ p, HasId q.w p q.ns q.type q.id ∧ HasId q.w p q.w.our q.type r) ∧
  (q.id ≠ 0 → (∃ p, Listed q.w p ∧ HasId q.w p q.ns q.type q.id) → r ≠ 0)

/-- C54: in every history of a changing system all answers are right -/
theorem answers_right_partial (qs : List Query) (hq : ∀ q ∈ qs, QueryOk q) :
    ∃ l, answers qs noCaches = .ok l ∧ List.Forall₂ AnswerOk qs l := by
  have key : ∀ (qs : List Query) (c : PidCaches), CachesOk c → (∀ q ∈ qs, QueryOk q) →
      ∃ l, answers qs c = .ok l ∧ List.Forall₂ AnswerOk qs l := by
    intro qs
    induction qs with
    | nil => intro c _ _; exact ⟨[], rfl, .nil⟩
    | cons q qs ih =>
      intro c hc h
      have h0 := h q (by simp)
      obtain ⟨r, c', h1, h2, h3, h4, h5⟩ :=
        translate_right_partial q.w h0.world h0.agree q.self q.keys q.ns q.id q.type q.want h0.below h0.known c hc
      obtain ⟨l, g1, g2⟩ := ih c' h2 (fun x hx => h x (by simp [hx]))
      refine ⟨r.1 :: l, ?_, .cons ⟨h3, fun a b => ⟨r.2, h4 a b⟩, h5⟩ g2⟩
      show (translatePid q.w q.self q.keys (some q.ns) q.id q.type q.want c).bind _ = _
      rw [h1]
      show (answers qs c').bind _ = _
      rw [g1]; rfl
  exact key qs noCaches noCaches_ok hq

/-! ### namespaces nested as deeply as the kernel allows -/

/-- one process, in 33 namespaces: the kernel allows 32 levels below the first; strace is in the first -/
def deepWorld : PidWorld :=
  { procs := fun p => if p = 5 then some ((List.range 33).map fun i => (100 + i, fun _ => 1 + i)) else none
    our := 132
    dirs := [(5, [5])] }

def deepResult : Res (Nat × Nat) :=
  (translatePid deepWorld 1 [] (some 100) 1 0 false noCaches).bind fun r => .ok r.1

/-- C54 (finding): with a process in 33 namespaces, ids are read outside of the array -/
theorem deep_overrun : HasId deepWorld 5 100 0 1 ∧ deepResult = .bad := by
  refine ⟨⟨_, fun _ => 1, rfl, ?_, rfl⟩, by decide +kernel⟩
  exact List.mem_map.mpr ⟨0, by decide, rfl⟩

/-! ### a system that meets the hypotheses -/

/-- strace is in namespace 20, /proc belongs to the outer namespace 10; the tracee is in 30 -/
def sampleWorld : PidWorld :=
  { procs := fun p =>
      if p = 7 then some [(20, fun _ => 3), (10, fun _ => 7)]
      else if p = 8 then some [(30, fun _ => 1), (20, fun _ => 4), (10, fun _ => 8)] else none
    our := 20
    dirs := [(7, [7]), (8, [8])] }

example : ((translatePid sampleWorld 7 [] (some 30) 1 0 true noCaches).bind fun r => .ok r.1) = .ok (4, 8) ∧
    ((getNs sampleWorld 7 [] 4 noCaches).bind fun r => .ok r.1) = .ok 30 := by
  decide +kernel

theorem sample_procs (p : Nat) (ch : Chain) (h : sampleWorld.procs p = some ch) :
    (p = 7 ∧ ch = [(20, fun _ => 3), (10, fun _ => 7)]) ∨ (p = 8 ∧ ch = [(30, fun _ => 1), (20, fun _ => 4), (10, fun _ => 8)]) := by
  have h : (if p = 7 then some [(20, fun _ => 3), (10, fun _ => 7)]
      else if p = 8 then some [(30, fun _ => 1), (20, fun _ => 4), (10, fun _ => 8)] else none) = some ch := h
  by_cases h7 : p = 7
  · rw [if_pos h7] at h; exact .inl ⟨h7, (Option.some.inj h).symm⟩
  · rw [if_neg h7] at h
    by_cases h8 : p = 8
    · rw [if_pos h8] at h; exact .inr ⟨h8, (Option.some.inj h).symm⟩
    · rw [if_neg h8] at h; cases h

theorem sample_ok : WorldOk sampleWorld := by
  constructor
  · intro p ch h
    rcases sample_procs p ch h with ⟨_, rfl⟩ | ⟨_, rfl⟩ <;> decide
  · intro p ch h
    rcases sample_procs p ch h with ⟨_, rfl⟩ | ⟨_, rfl⟩ <;> decide
  · intro p ch i j a b h _ ha hb t _
    have hb' := List.mem_of_getElem? hb
    rcases sample_procs p ch h with ⟨_, rfl⟩ | ⟨_, rfl⟩
    · simp only [List.mem_cons, List.not_mem_nil, or_false] at hb'
      rcases hb' with rfl | rfl <;> exact Nat.succ_ne_zero _
    · simp only [List.mem_cons, List.not_mem_nil, or_false] at hb'
      rcases hb' with rfl | rfl | rfl <;> exact Nat.succ_ne_zero _

theorem sample_hasId (p n : Nat) (t : IdType) (x : Nat) (h : HasId sampleWorld p n t x) :
    (p = 7 ∧ ((n = 20 ∧ x = 3) ∨ (n = 10 ∧ x = 7))) ∨ (p = 8 ∧ ((n = 30 ∧ x = 1) ∨ (n = 20 ∧ x = 4) ∨ (n = 10 ∧ x = 8))) := by
  obtain ⟨ch, f, h1, h2, h3⟩ := h
  rcases sample_procs p ch h1 with ⟨rfl, rfl⟩ | ⟨rfl, rfl⟩
  · simp only [List.mem_cons, List.not_mem_nil, or_false, Prod.mk.injEq] at h2
    rcases h2 with ⟨rfl, rfl⟩ | ⟨rfl, rfl⟩
    · exact .inl ⟨rfl, .inl ⟨rfl, h3.symm⟩⟩
    · exact .inl ⟨rfl, .inr ⟨rfl, h3.symm⟩⟩
  · simp only [List.mem_cons, List.not_mem_nil, or_false, Prod.mk.injEq] at h2
    rcases h2 with ⟨rfl, rfl⟩ | ⟨rfl, rfl⟩ | ⟨rfl, rfl⟩
    · exact .inr ⟨rfl, .inl ⟨rfl, h3.symm⟩⟩
    · exact .inr ⟨rfl, .inr (.inl ⟨rfl, h3.symm⟩)⟩
    · exact .inr ⟨rfl, .inr (.inr ⟨rfl, h3.symm⟩)⟩

/-- the hypotheses of the theorems are met -/
example : QueryOk ⟨sampleWorld, 7, [], 30, 1, 0, true⟩ := by
  refine ⟨sample_ok, ?_, ?_, by decide⟩
  · intro p q n t x y z h1 h2 h3 h4
    have e1 := sample_hasId _ _ _ _ h1
    have e2 := sample_hasId _ _ _ _ h2
    have e3 := sample_hasId _ _ _ _ h3
    have e4 := sample_hasId _ _ _ _ h4
    have ho : sampleWorld.our = 20 := rfl
    rw [ho] at e2 e4
    omega
  · intro p ch i a h ha hn
    rcases sample_procs p ch h with ⟨rfl, rfl⟩ | ⟨rfl, rfl⟩
    · have := List.mem_of_getElem? ha
      simp only [List.mem_cons, List.not_mem_nil, or_false] at this
      rcases this with rfl | rfl <;> cases hn
    · match i, ha with
      | 0, _ => exact ⟨1, _, by omega, rfl, rfl⟩
      | 1, ha => cases ha; cases hn
      | 2, ha => cases ha; cases hn
      | k + 3, ha => cases ha

end Strace.Misc
