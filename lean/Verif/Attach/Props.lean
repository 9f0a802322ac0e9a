import Verif.Attach.Spec
import Verif.Tcb.Props
/-!
# Attaching at startup: every process named, once, with its threads
-/
namespace Strace.Attach
open Strace.Tcb Spec

/-! ### The table, without the assumption that a process has one record -/

/-- records that are in use and attached -/
def att (tab : List (Slot Bool)) : List Nat := ((live tab).filter (fun e => e.2)).map Prod.fst

theorem ensure_live (st st' : St Bool) (h : ensure false st = some st') :
    live st'.tab = live st.tab ∧ st'.nprocs = st.nprocs ∧ ∃ n, st'.tab = st.tab ++ List.replicate n ⟨0, false⟩ := by
  unfold ensure at h
  by_cases hc : st.nprocs = st.tab.length
  · rw [if_pos hc] at h
    unfold expand at h
    cases hg : growArray (2 ^ 32) st.tab.isEmpty st.tab.length 8 with
    | none => rw [hg] at h; simp at h
    | some x =>
      rw [hg] at h
      obtain ⟨n, b⟩ := x
      simp only [Option.some.injEq] at h
      subst h
      refine ⟨?_, rfl, _, rfl⟩
      have h1 := live_replicate (false : Bool) (n - st.tab.length)
      simp only [live, List.flatMap_append] at h1 ⊢
      rw [h1, List.append_nil]
  · rw [if_neg hc] at h
    simp only [Option.some.injEq] at h
    subst h
    exact ⟨rfl, rfl, 0, by simp⟩

/-- a new record: what it does to the tracees, and record by record -/
theorem alloc_live (st st' : St Bool) (p i : Nat) (a : Bool) (hp : p ≠ 0) (h : alloctcb false st p a = some (st', i)) :
    (live st'.tab).Perm ((p, a) :: live st.tab) ∧ st'.nprocs = st.nprocs + 1 ∧ st'.tab[i]? = some ⟨p, a⟩ ∧
    (∀ (j : Nat) s, st.tab[j]? = some s → s.pid ≠ 0 → st'.tab[j]? = some s) ∧
    (∀ (j : Nat) s, st'.tab[j]? = some s → s.pid ≠ 0 → (j = i ∧ s = ⟨p, a⟩) ∨ st.tab[j]? = some s) := by
  unfold alloctcb at h
  cases he : ensure false st with
  | none => rw [he] at h; simp at h
  | some st1 =>
    rw [he] at h
    dsimp only at h
    obtain ⟨e1, e2, n, e3⟩ := ensure_live st st1 he
    have hf := findFree_spec st1.tab 0
    cases hff : findFree st1.tab 0 with
    | none => rw [hff] at h; simp at h
    | some i' =>
      rw [hff] at h hf
      simp only [Option.some.injEq, Prod.mk.injEq] at h
      obtain ⟨h1, h2⟩ := h
      subst h2
      obtain ⟨j, b, hj, hb⟩ := hf
      rw [Nat.zero_add] at hj
      subst hj
      subst h1
      have hil : i' < st1.tab.length := (List.getElem?_eq_some_iff.mp hb).1
      obtain ⟨rest, hr, hs⟩ := live_set hb
      refine ⟨?_, by simp [occupy, e2], by simp [occupy, hil], ?_, ?_⟩
      · refine (hs ⟨p, a⟩).trans ?_
        simp only [ent, if_true, List.nil_append] at hr
        simp only [ent, if_neg hp, List.singleton_append]
        rw [← e1]
        exact hr.symm.cons _
      · intro j s hj h0
        have hj1 : st1.tab[j]? = some s := by
          rw [e3, List.getElem?_append_left (List.getElem?_eq_some_iff.mp hj).1]; exact hj
        show (st1.tab.set i' ⟨p, a⟩)[j]? = some s
        rw [List.getElem?_set_ne, hj1]
        intro hc
        subst hc
        rw [hb] at hj1
        injection hj1 with hj1
        rw [← hj1] at h0
        exact h0 rfl
      · intro j s hj h0
        by_cases hc : j = i'
        · subst hc
          left
          have : (st1.tab.set j ⟨p, a⟩)[j]? = some s := hj
          rw [List.getElem?_set_self hil] at this
          injection this with this
          exact ⟨rfl, this.symm⟩
        · right
          have : (st1.tab.set i' ⟨p, a⟩)[j]? = some s := hj
          rw [List.getElem?_set_ne (Ne.symm hc), e3] at this
          by_cases hl : j < st.tab.length
          · rw [List.getElem?_append_left hl] at this
            exact this
          · rw [List.getElem?_append_right (by omega)] at this
            obtain ⟨_, hx⟩ := List.getElem?_eq_some_iff.mp this
            rw [List.getElem_replicate] at hx
            rw [← hx] at h0
            exact absurd rfl h0

/-- the table and the kernel agree on what is attached -/
structure Inv (st : St Bool) (k : Kernel) : Prop where
  perm : (att st.tab).Perm k.traced
  nodup : k.traced.Nodup
  count : st.nprocs = (live st.tab).length
  pids : ∀ e ∈ live st.tab, 0 < e.1 ∧ e.1 < 2 ^ 31

theorem att_perm {l1 l2 : List (Nat × Bool)} (h : l1.Perm l2) :
    ((l1.filter (fun e => e.2)).map Prod.fst).Perm ((l2.filter (fun e => e.2)).map Prod.fst) :=
  (h.filter _).map _

theorem Inv.n {st : St Bool} {k : Kernel} (h : Inv st k) (m : Nat) : Inv st ⟨k.traced, m⟩ :=
  ⟨h.perm, h.nodup, h.count, h.pids⟩

theorem Inv.alloc {st st' : St Bool} {k : Kernel} (h : Inv st k) {p i : Nat} (hp : 0 < p ∧ p < 2 ^ 31) (m : Nat)
    (hn : p ∉ k.traced) (ha : alloctcb false st p true = some (st', i)) : Inv st' ⟨p :: k.traced, m⟩ := by
  obtain ⟨a1, a2, _⟩ := alloc_live st st' p i true (by omega) ha
  refine ⟨?_, List.nodup_cons.2 ⟨hn, h.nodup⟩, ?_, ?_⟩
  · have := att_perm a1
    simp only [List.filter_cons, if_true, List.map_cons] at this
    exact this.trans (h.perm.cons p)
  · rw [a2, a1.length_eq, h.count]; simp
  · intro e he
    rcases List.mem_cons.1 (a1.mem_iff.1 he) with r | r
    · rw [r]; exact hp
    · exact h.pids e r

theorem Inv.allocNot {st st' : St Bool} {k : Kernel} (h : Inv st k) {p i : Nat} (hp : 0 < p ∧ p < 2 ^ 31)
    (ha : alloctcb false st p false = some (st', i)) : Inv st' k := by
  obtain ⟨a1, a2, _⟩ := alloc_live st st' p i false (by omega) ha
  refine ⟨?_, h.nodup, ?_, ?_⟩
  · have := att_perm a1
    simp only [List.filter_cons, Bool.false_eq_true, if_false] at this
    exact this.trans h.perm
  · rw [a2, a1.length_eq, h.count]; simp
  · intro e he
    rcases List.mem_cons.1 (a1.mem_iff.1 he) with r | r
    · rw [r]; exact hp
    · exact h.pids e r

theorem Inv.set {st : St Bool} {k : Kernel} (h : Inv st k) {p i : Nat} (hp : p ≠ 0) (m : Nat)
    (hn : p ∉ k.traced) (hi : st.tab[i]? = some ⟨p, false⟩) : Inv (setAttached st i p) ⟨p :: k.traced, m⟩ := by
  obtain ⟨rest, hr, hs⟩ := live_set hi
  have hs' := hs ⟨p, true⟩
  simp only [ent, if_neg hp, List.singleton_append] at hr hs'
  refine ⟨?_, List.nodup_cons.2 ⟨hn, h.nodup⟩, ?_, ?_⟩
  · have a := att_perm hs'
    have b := att_perm hr
    simp only [List.filter_cons, if_true, List.map_cons, Bool.false_eq_true, if_false] at a b
    exact a.trans ((b.symm.trans h.perm).cons p)
  · show st.nprocs = (live (st.tab.set i ⟨p, true⟩)).length
    rw [h.count, hr.length_eq, hs'.length_eq]; simp
  · intro e he
    rcases List.mem_cons.1 (hs'.mem_iff.1 he) with r | r
    · rw [r]; exact h.pids (p, false) (hr.mem_iff.2 (by simp))
    · exact h.pids e (hr.mem_iff.2 (List.mem_cons_of_mem _ r))

theorem drop_tab {st : St Bool} {p i : Nat} {a : Bool} (hp : p ≠ 0) (hi : st.tab[i]? = some ⟨p, a⟩) :
    droptcb false st i = { st with tab := st.tab.set i ⟨0, false⟩, nprocs := st.nprocs - 1 } := by
  unfold droptcb
  rw [hi]
  dsimp only
  rw [if_neg hp]

theorem Inv.drop {st : St Bool} {k : Kernel} (h : Inv st k) {p i : Nat} (hp : p ≠ 0) (m : Nat)
    (hi : st.tab[i]? = some ⟨p, false⟩) : Inv (droptcb false st i) ⟨k.traced, m⟩ := by
  rw [drop_tab hp hi]
  obtain ⟨rest, hr, hs⟩ := live_set hi
  have hs' := hs ⟨0, false⟩
  simp only [ent, if_neg hp, if_true, List.singleton_append, List.nil_append] at hr hs'
  refine ⟨?_, h.nodup, ?_, ?_⟩
  · have a := att_perm hs'
    have b := att_perm hr
    simp only [List.filter_cons, Bool.false_eq_true, if_false] at a b
    exact a.trans (b.symm.trans h.perm)
  · show st.nprocs - 1 = (live (st.tab.set i ⟨0, false⟩)).length
    rw [h.count, hr.length_eq, hs'.length_eq]; simp
  · intro e he
    exact h.pids e (hr.mem_iff.2 (List.mem_cons_of_mem _ (hs'.mem_iff.1 he)))

/-! ### The frame: records that are not attached -/

/-- from one table to a later one, record `i` being dealt with: no record becomes unattached, and others stay -/
structure Frame (t t' : List (Slot Bool)) (i : Option Nat) : Prop where
  un : ∀ (j : Nat) s, t'[j]? = some s → s.pid ≠ 0 → s.data = false → t[j]? = some s ∧ i ≠ some j
  keep : ∀ (j : Nat) s, t[j]? = some s → s.pid ≠ 0 → i ≠ some j → t'[j]? = some s

theorem Frame.refl (t : List (Slot Bool)) : Frame t t none := ⟨fun _ _ h _ _ => ⟨h, by simp⟩, fun _ _ h _ _ => h⟩

theorem Frame.comp {t t' t'' : List (Slot Bool)} {i : Option Nat} (a : Frame t t' i) (b : Frame t' t'' none) :
    Frame t t'' i :=
  ⟨fun j s h1 h2 h3 => a.un j s (b.un j s h1 h2 h3).1 h2 h3,
   fun j s h1 h2 h3 => b.keep j s (a.keep j s h1 h2 h3) h2 (by simp)⟩

theorem Frame.alloc {st st' : St Bool} {p i : Nat} (hp : p ≠ 0) (h : alloctcb false st p true = some (st', i)) :
    Frame st.tab st'.tab none := by
  obtain ⟨_, _, _, a4, a5⟩ := alloc_live st st' p i true hp h
  refine ⟨?_, fun j s h1 h2 _ => a4 j s h1 h2⟩
  intro j s h1 h2 h3
  rcases a5 j s h1 h2 with ⟨_, r⟩ | r
  · rw [r] at h3; simp at h3
  · exact ⟨r, by simp⟩

theorem Frame.set (t : List (Slot Bool)) (i : Nat) (s' : Slot Bool) (hs : s'.pid = 0 ∨ s'.data = true) :
    Frame t (t.set i s') (some i) := by
  refine ⟨?_, ?_⟩
  · intro j s h1 h2 h3
    by_cases hc : i = j
    · subst hc
      have hl : i < t.length := by
        have := (List.getElem?_eq_some_iff.mp h1).1
        simpa using this
      rw [List.getElem?_set_self hl] at h1
      injection h1 with h1
      subst h1
      rcases hs with hs | hs
      · exact absurd hs h2
      · rw [hs] at h3; simp at h3
    · rw [List.getElem?_set_ne hc] at h1
      exact ⟨h1, by simpa using hc⟩
  · intro j s h1 h2 h3
    rw [List.getElem?_set_ne (by intro hc; exact h3 (by rw [hc]))]
    exact h1

/-! ### One process -/

theorem ptrace_true {w : World} {k : Kernel} {p : Nat} (h : (ptraceAttach w k p).1 = true) :
    p ∉ k.traced ∧ (ptraceAttach w k p).2 = ⟨p :: k.traced, k.n + 1⟩ := by
  unfold ptraceAttach at *
  by_cases hc : p ∉ k.traced ∧ w.can k.n p = true
  · rw [if_pos hc]; exact ⟨hc.1, rfl⟩
  · rw [if_neg hc] at h; simp at h

theorem ptrace_false {w : World} {k : Kernel} {p : Nat} (h : ¬ (ptraceAttach w k p).1 = true) :
    (p ∈ k.traced ∨ w.can k.n p = false) ∧ (ptraceAttach w k p).2 = ⟨k.traced, k.n + 1⟩ := by
  unfold ptraceAttach at *
  by_cases hc : p ∉ k.traced ∧ w.can k.n p = true
  · rw [if_pos hc] at h; simp at h
  · rw [if_neg hc]
    refine ⟨?_, rfl⟩
    by_cases hm : p ∈ k.traced
    · exact .inl hm
    · right
      cases hx : w.can k.n p with
      | false => rfl
      | true => exact absurd ⟨hm, hx⟩ hc

/-- a number of a directory entry is a thread id -/
def Small (l : List Dirent) : Prop := ∀ d ∈ l, d.tid < 2 ^ 31

theorem threads_spec (w : World) (main : Nat) (l : List Dirent) (hl : Small l) (st : St Bool) (k : Kernel) (nt ne : Nat)
    (hi : Inv st k) (hm : main ∈ k.traced) (hle : ne ≤ nt) (st' : St Bool) (k' : Kernel) (nt' ne' : Nat)
    (h : threads w main l st k nt ne = some (st', k', nt', ne')) :
    Inv st' k' ∧ Frame st.tab st'.tab none ∧ (∀ q ∈ k.traced, q ∈ k'.traced) ∧
    ne' ≤ nt' ∧ k'.traced.length + (nt - ne) = k.traced.length + (nt' - ne') ∧
    (∀ q, Lists l q → q ∈ k'.traced ∨ ∃ m, w.can m q = false) ∧
    (∀ q ∈ k'.traced, q ∈ k.traced ∨ Lists l q) := by
  induction l generalizing st k nt ne with
  | nil =>
    simp only [threads, Option.some.injEq, Prod.mk.injEq] at h
    obtain ⟨rfl, rfl, rfl, rfl⟩ := h
    exact ⟨hi, Frame.refl _, fun _ h => h, hle, rfl, by rintro q ⟨d, hd, _⟩; simp at hd, fun q h => .inl h⟩
  | cons d l ih =>
    have hl' : Small l := fun x hx => hl x (List.mem_cons_of_mem _ hx)
    have up : ∀ q, Lists l q → Lists (d :: l) q := by
      rintro q ⟨x, hx, r⟩
      exact ⟨x, List.mem_cons_of_mem _ hx, r⟩
    unfold threads at h
    by_cases h0 : d.fileno = 0
    · rw [if_pos h0] at h
      obtain ⟨b1, b2, b3, b4, b5, b6, b7⟩ := ih hl' st k nt ne hi hm hle h
      refine ⟨b1, b2, b3, b4, b5, ?_, fun q hq => (b7 q hq).imp_right (up q)⟩
      rintro q ⟨x, hx, r⟩
      rcases List.mem_cons.1 hx with e | e
      · rw [e] at r; exact absurd h0 r.1
      · exact b6 q ⟨x, e, r⟩
    · rw [if_neg h0] at h
      by_cases h1 : d.tid ≤ 0 ∨ d.tid = (main : Int)
      · rw [if_pos h1] at h
        obtain ⟨b1, b2, b3, b4, b5, b6, b7⟩ := ih hl' st k nt ne hi hm hle h
        refine ⟨b1, b2, b3, b4, b5, ?_, fun q hq => (b7 q hq).imp_right (up q)⟩
        rintro q ⟨x, hx, r⟩
        rcases List.mem_cons.1 hx with e | e
        · rw [e] at r
          obtain ⟨_, r2, r3⟩ := r
          rcases h1 with h1 | h1
          · omega
          · left
            have : q = main := by omega
            rw [this]
            exact b3 _ hm
        · exact b6 q ⟨x, e, r⟩
      · rw [if_neg h1] at h
        have hpos : 0 < d.tid.toNat ∧ d.tid.toNat < 2 ^ 31 := by
          have := hl d (by simp)
          omega
        have hd : Lists (d :: l) d.tid.toNat := ⟨d, by simp, h0, by omega, hpos.1⟩
        by_cases hp : (ptraceAttach w k d.tid.toNat).1 = true
        · rw [if_pos hp] at h
          obtain ⟨p1, p2⟩ := ptrace_true hp
          rw [p2] at h
          cases ha : alloctcb false st d.tid.toNat true with
          | none => rw [ha] at h; simp at h
          | some y =>
            obtain ⟨st1, j⟩ := y
            rw [ha] at h
            dsimp only at h
            obtain ⟨b1, b2, b3, b4, b5, b6, b7⟩ := ih hl' st1 _ (nt + 1) ne (hi.alloc hpos _ p1 ha)
              (List.mem_cons_of_mem _ hm) (by omega) h
            refine ⟨b1, (Frame.alloc (by omega) ha).comp b2, fun q hq => b3 q (List.mem_cons_of_mem _ hq), b4, ?_, ?_, ?_⟩
            · simp only [List.length_cons] at b5
              omega
            · rintro q ⟨x, hx, r⟩
              rcases List.mem_cons.1 hx with e | e
              · left
                have : q = d.tid.toNat := by rw [e] at r; omega
                rw [this]
                exact b3 _ (by simp)
              · exact b6 q ⟨x, e, r⟩
            · intro q hq
              rcases b7 q hq with r | r
              · rcases List.mem_cons.1 r with e | e
                · right; rw [e]; exact hd
                · exact .inl e
              · exact .inr (up q r)
        · rw [if_neg hp] at h
          obtain ⟨p1, p2⟩ := ptrace_false hp
          rw [p2] at h
          obtain ⟨b1, b2, b3, b4, b5, b6, b7⟩ := ih hl' st ⟨k.traced, k.n + 1⟩ (nt + 1) (ne + 1) (hi.n _) hm (by omega) h
          refine ⟨b1, b2, b3, b4, by rw [← b5]; congr 1; omega, ?_, fun q hq => (b7 q hq).imp_right (up q)⟩
          rintro q ⟨x, hx, r⟩
          rcases List.mem_cons.1 hx with e | e
          · have : q = d.tid.toNat := by rw [e] at r; omega
            rw [this]
            rcases p1 with p1 | p1
            · exact .inl (b3 _ p1)
            · exact .inr ⟨_, p1⟩
          · exact b6 q ⟨x, e, r⟩

/-! ### One record of the table -/

/-- the system lists thread ids -/
def Sane (w : World) : Prop := ∀ n p l, w.tasks n p = some l → Small l

/-- what holds after each process -/
structure Good (named base : List Nat) (c : Cfg) (w : World) (s : S) : Prop where
  inv : Inv s.st s.k
  old : ∀ q ∈ base, q ∈ s.k.traced
  threads : c.follow = true → ∀ p, Announced p s → p ≠ c.child → ∃ n, ∀ l, w.tasks n p = some l → ∀ q, Lists l q →
    q ∈ s.k.traced ∨ ∃ m, w.can m q = false
  nothing : ∀ q ∈ s.k.traced, q ∈ base ∨ (q ∈ named ∧ Announced q s) ∨
    (c.follow = true ∧ ∃ p n l, p ∈ named ∧ Announced p s ∧ p ≠ c.child ∧ w.tasks n p = some l ∧ Lists l q)
  self : ∀ p, Announced p s → p ∈ named ∧ p ≠ c.parent ∧ p ≠ c.tracer
  sum : s.k.traced.length = base.length + (s.msgs.map announces).sum

/-- a process named has been dealt with -/
def Handled (c : Cfg) (w : World) (s : S) (p : Nat) : Prop :=
  p ∈ s.k.traced ∨ (Msg.failed p ∈ s.msgs ∧ ∃ n, w.can n p = false) ∨
    (Msg.refused p ∈ s.msgs ∧ (p = c.parent ∨ p = c.tracer))

/-- what one does not take back -/
structure Later (s s' : S) : Prop where
  traced : ∀ q ∈ s.k.traced, q ∈ s'.k.traced
  msgs : ∀ m ∈ s.msgs, m ∈ s'.msgs

theorem Handled.later {c : Cfg} {w : World} {s s' : S} {p : Nat} (h : Handled c w s p) (l : Later s s') :
    Handled c w s' p := by
  rcases h with h | ⟨h, r⟩ | ⟨h, r⟩
  · exact .inl (l.traced _ h)
  · exact .inr (.inl ⟨l.msgs _ h, r⟩)
  · exact .inr (.inr ⟨l.msgs _ h, r⟩)

/-- a message that is no announcement, what is traced being the same -/
theorem Good.quiet {named base : List Nat} {c : Cfg} {w : World} {s : S} (h : Good named base c w s) (st' : St Bool)
    (n : Nat) (m : Msg) (hm : announces m = 0) (hm' : ∀ p t, m ≠ .attached p t) (hi : Inv st' ⟨s.k.traced, n⟩) :
    Good named base c w ⟨st', ⟨s.k.traced, n⟩, m :: s.msgs⟩ := by
  have ha : ∀ p, Announced p ⟨st', ⟨s.k.traced, n⟩, m :: s.msgs⟩ ↔ Announced p s := by
    intro p
    constructor
    · rintro ⟨t, ht⟩
      rcases List.mem_cons.1 ht with e | e
      · exact absurd e.symm (hm' p t)
      · exact ⟨t, e⟩
    · rintro ⟨t, ht⟩
      exact ⟨t, List.mem_cons_of_mem _ ht⟩
  refine ⟨hi, h.old, ?_, ?_, ?_, ?_⟩
  · intro hf p hp hc
    exact h.threads hf p ((ha p).1 hp) hc
  · intro q hq
    simp only [ha]
    exact h.nothing q hq
  · intro p hp
    exact h.self p ((ha p).1 hp)
  · simp only [List.map_cons, List.sum_cons, hm, Nat.zero_add]
    exact h.sum

theorem announces_count (p nt ne : Nat) (h : ne ≤ nt) : announces (.attached p (threadCount nt ne)) = nt - ne + 1 := by
  unfold threadCount
  by_cases hc : nt > ne
  · rw [if_pos hc]; rfl
  · rw [if_neg hc]
    show 1 = _
    omega

theorem visit_spec (named base : List Nat) (c : Cfg) (w : World) (hw : Sane w) (s s' : S) (i p : Nat)
    (hg : Good named base c w s) (hp : p ≠ 0) (hn : p ∈ named) (hi : s.st.tab[i]? = some ⟨p, false⟩)
    (h : visit c w s i p = some s') :
    Good named base c w s' ∧ Frame s.st.tab s'.st.tab (some i) ∧ Later s s' ∧ Handled c w s' p := by
  unfold visit at h
  by_cases hr : p = c.parent ∨ p = c.tracer
  · rw [if_pos hr] at h
    simp only [Option.some.injEq] at h
    subst h
    refine ⟨hg.quiet _ s.k.n _ rfl (by simp) (hg.inv.drop hp _ hi), ?_, ⟨fun _ h => h, fun m h => List.mem_cons_of_mem _ h⟩,
      .inr (.inr ⟨by simp, hr⟩)⟩
    rw [drop_tab hp hi]
    exact Frame.set _ _ _ (.inl rfl)
  · rw [if_neg hr] at h
    unfold attachTcb at h
    by_cases ha : (ptraceAttach w s.k p).1 = true
    · rw [if_pos ha] at h
      obtain ⟨p1, p2⟩ := ptrace_true ha
      rw [p2] at h
      cases ht : threads w p (listing c.follow c.child w ⟨p :: s.k.traced, s.k.n + 1⟩ p) (setAttached s.st i p)
          ⟨p :: s.k.traced, s.k.n + 1⟩ 0 0 with
      | none => rw [ht] at h; simp at h
      | some y =>
        obtain ⟨st1, k1, nt, ne⟩ := y
        rw [ht] at h
        simp only [Option.some.injEq] at h
        subst h
        have hsm : Small (listing c.follow c.child w ⟨p :: s.k.traced, s.k.n + 1⟩ p) := by
          unfold listing
          by_cases hc : c.follow = true ∧ p ≠ c.child
          · rw [if_pos hc]
            cases hx : w.tasks (s.k.n + 1) p with
            | none => intro d hd; simp at hd
            | some l => exact hw _ _ _ hx
          · rw [if_neg hc]
            intro d hd
            simp at hd
        obtain ⟨b1, b2, b3, b4, b5, b6, b7⟩ := threads_spec w p _ hsm _ _ 0 0 (hg.inv.set hp _ p1 hi) (by simp)
          (by omega) _ _ _ _ ht
        have hup : ∀ q, Announced q s → Announced q ⟨st1, k1, .attached p (threadCount nt ne) :: s.msgs⟩ :=
          fun q ⟨t, ht⟩ => ⟨t, List.mem_cons_of_mem _ ht⟩
        have hme : Announced p ⟨st1, k1, .attached p (threadCount nt ne) :: s.msgs⟩ := ⟨threadCount nt ne, by simp⟩
        have hdn : ∀ q, Announced q ⟨st1, k1, .attached p (threadCount nt ne) :: s.msgs⟩ → q = p ∨ Announced q s := by
          rintro q ⟨t, ht⟩
          rcases List.mem_cons.1 ht with e | e
          · left
            injection e
          · exact .inr ⟨t, e⟩
        have hold : ∀ q ∈ s.k.traced, q ∈ k1.traced := fun q hq => b3 q (List.mem_cons_of_mem _ hq)
        refine ⟨⟨b1, fun q hq => hold q (hg.old q hq), ?_, ?_, ?_, ?_⟩, (Frame.set _ _ _ (.inr rfl)).comp b2,
          ⟨hold, fun m h => List.mem_cons_of_mem _ h⟩, .inl (b3 p (by simp))⟩
        · intro hf q hq hc
          rcases hdn q hq with e | e
          · subst e
            refine ⟨s.k.n + 1, ?_⟩
            intro l hl x hx
            refine b6 x ?_
            unfold listing
            rw [if_pos ⟨hf, hc⟩]
            show Lists (match w.tasks (s.k.n + 1) q with | none => [] | some l => l) x
            rw [hl]
            exact hx
          · obtain ⟨n, hn⟩ := hg.threads hf q e hc
            exact ⟨n, fun l hl x hx => (hn l hl x hx).imp_left (hold x)⟩
        · intro q hq
          rcases b7 q hq with r | r
          · rcases List.mem_cons.1 r with e | e
            · subst e
              exact .inr (.inl ⟨hn, hme⟩)
            · rcases hg.nothing q e with r | r | ⟨f, x, n, l, r1, r2, r3⟩
              · exact .inl r
              · exact .inr (.inl ⟨r.1, hup _ r.2⟩)
              · exact .inr (.inr ⟨f, x, n, l, r1, hup _ r2, r3⟩)
          · right
            right
            unfold listing at r
            by_cases hc : c.follow = true ∧ p ≠ c.child
            · rw [if_pos hc] at r
              cases hx : w.tasks (s.k.n + 1) p with
              | none =>
                rw [show (⟨p :: s.k.traced, s.k.n + 1⟩ : Kernel).n = s.k.n + 1 from rfl, hx] at r
                obtain ⟨d, hd, _⟩ := r
                simp at hd
              | some l =>
                rw [show (⟨p :: s.k.traced, s.k.n + 1⟩ : Kernel).n = s.k.n + 1 from rfl, hx] at r
                exact ⟨hc.1, p, _, l, hn, hme, hc.2, hx, r⟩
            · rw [if_neg hc] at r
              obtain ⟨d, hd, _⟩ := r
              simp at hd
        · intro q hq
          rcases hdn q hq with e | e
          · subst e
            exact ⟨hn, fun h => hr (.inl h), fun h => hr (.inr h)⟩
          · exact hg.self q e
        · have := hg.sum
          simp only [List.map_cons, List.sum_cons, announces_count p nt ne b4]
          simp only [List.length_cons] at b5
          omega
    · rw [if_neg ha] at h
      obtain ⟨p1, p2⟩ := ptrace_false ha
      rw [p2] at h
      simp only [Option.some.injEq] at h
      subst h
      refine ⟨hg.quiet _ _ _ rfl (by simp) (hg.inv.drop hp _ hi), ?_, ⟨fun _ h => h, fun m h => List.mem_cons_of_mem _ h⟩, ?_⟩
      · rw [drop_tab hp hi]
        exact Frame.set _ _ _ (.inl rfl)
      · rcases p1 with p1 | p1
        · exact .inl p1
        · exact .inr (.inl ⟨by simp, _, p1⟩)

/-! ### The loop -/

/-- a record to be visited -/
def un (s : Slot Bool) : Bool := decide (s.pid ≠ 0 ∧ s.data = false)

theorem next_spec (l : List (Slot Bool)) (i : Nat) :
    match next l i with
    | none => ∀ s ∈ l, un s = false
    | some (j, p) => ∃ m, j = i + m ∧ l[m]? = some ⟨p, false⟩ ∧ p ≠ 0 ∧ ∀ n s, n < m → l[n]? = some s → un s = false := by
  induction l generalizing i with
  | nil => simp [next]
  | cons s l ih =>
    unfold next
    by_cases hc : s.pid ≠ 0 ∧ s.data = false
    · rw [if_pos hc]
      refine ⟨0, rfl, ?_, hc.1, by omega⟩
      obtain ⟨p, b⟩ := s
      simp only at hc ⊢
      simp [hc.2]
    · rw [if_neg hc]
      have hs : un s = false := by unfold un; exact decide_eq_false hc
      have := ih (i + 1)
      cases hn : next l (i + 1) with
      | none =>
        rw [hn] at this
        intro x hx
        rcases List.mem_cons.1 hx with e | e
        · rw [e]; exact hs
        · exact this x e
      | some y =>
        obtain ⟨j, p⟩ := y
        rw [hn] at this
        obtain ⟨m, h1, h2, h3, h4⟩ := this
        refine ⟨m + 1, by omega, by simpa using h2, h3, ?_⟩
        intro n x hx hnx
        cases n with
        | zero => simp only [List.getElem?_cons_zero, Option.some.injEq] at hnx; rw [← hnx]; exact hs
        | succ n => exact h4 n x (by omega) (by simpa using hnx)

/-- fewer records of one table are to be visited if each is one of the other -/
theorem count_le (l' l : List (Slot Bool)) (h : ∀ (j : Nat) s, l'[j]? = some s → un s = true → l[j]? = some s) :
    l'.countP un ≤ l.countP un := by
  induction l' generalizing l with
  | nil => simp
  | cons x l' ih =>
    cases l with
    | nil =>
      have := ih [] (fun j s h1 h2 => by have := h (j + 1) s (by simpa using h1) h2; simp at this)
      rw [List.countP_cons]
      by_cases hx : un x = true
      · have := h 0 x (by simp) hx
        simp at this
      · simp only [hx]
        simpa using this
    | cons y l =>
      have := ih l (fun j s h1 h2 => by have := h (j + 1) s (by simpa using h1) h2; simpa using this)
      rw [List.countP_cons, List.countP_cons]
      by_cases hx : un x = true
      · have h0 := h 0 x (by simp) hx
        simp only [List.getElem?_cons_zero, Option.some.injEq] at h0
        rw [h0, hx]
        omega
      · simp only [hx]
        simp only [Bool.false_eq_true, if_false]
        omega

theorem count_split (l : List (Slot Bool)) (m : Nat) (s : Slot Bool) (h : l[m]? = some s) (hs : un s = true) :
    (l.drop (m + 1)).countP un < l.countP un := by
  obtain ⟨hl, hv⟩ := List.getElem?_eq_some_iff.mp h
  have : l = l.take m ++ s :: l.drop (m + 1) := by
    conv_lhs => rw [← List.take_append_drop m l, List.drop_eq_getElem_cons hl, hv]
  conv_rhs => rw [this]
  rw [List.countP_append, List.countP_cons, hs]
  simp only [if_true]
  omega

theorem drop_get {t : List (Slot Bool)} {i m : Nat} : (t.drop i)[m]? = t[i + m]? := by
  rw [List.getElem?_drop]

/-- how far the loop gets -/
structure LoopOk (named base : List Nat) (c : Cfg) (w : World) (s0 s : S) (i : Nat) : Prop where
  good : Good named base c w s
  later : Later s0 s
  handled : ∀ (j : Nat) x, i ≤ j → s0.st.tab[j]? = some x → un x = true → Handled c w s x.pid
  none : ∀ (j : Nat) x, s.st.tab[j]? = some x → un x = false

theorem loop_spec (named base : List Nat) (c : Cfg) (w : World) (hw : Sane w) (n : Nat) (s : S) (i : Nat)
    (hg : Good named base c w s) (hn : (s.st.tab.drop i).countP un < n)
    (hnamed : ∀ (j : Nat) x, s.st.tab[j]? = some x → un x = true → x.pid ∈ named)
    (hdone : ∀ (j : Nat) x, j < i → s.st.tab[j]? = some x → un x = false) :
    match loop c w n s i with
    | .oom => True
    | .more => False
    | .interrupted s' => Good named base c w s' ∧ Later s s'
    | .done s' => LoopOk named base c w s s' i := by
  induction n generalizing s i with
  | zero => omega
  | succ n ih =>
    unfold loop
    have hx := next_spec (s.st.tab.drop i) i
    cases hnx : next (s.st.tab.drop i) i with
    | none =>
      rw [hnx] at hx
      dsimp only at hx ⊢
      have hall : ∀ (j : Nat) x, i ≤ j → s.st.tab[j]? = some x → un x = false := by
        intro j x hj h
        apply hx
        obtain ⟨m, rfl⟩ := Nat.exists_eq_add_of_le hj
        rw [← drop_get] at h
        exact List.mem_of_getElem? h
      refine ⟨hg, ⟨fun _ h => h, fun _ h => h⟩, ?_, ?_⟩
      · intro j x hj h hu
        rw [hall j x hj h] at hu
        simp at hu
      · intro j x h
        by_cases hj : i ≤ j
        · exact hall j x hj h
        · exact hdone j x (by omega) h
    | some y =>
      obtain ⟨j, p⟩ := y
      rw [hnx] at hx
      obtain ⟨m, h1, h2, h3, h4⟩ := hx
      dsimp only
      have hj : s.st.tab[j]? = some ⟨p, false⟩ := by rw [h1, ← drop_get]; exact h2
      have hun : un ⟨p, false⟩ = true := by simp [un, h3]
      cases hv : visit c w s j p with
      | none => trivial
      | some s' =>
        dsimp only
        obtain ⟨v1, v2, v3, v4⟩ := visit_spec named base c w hw s s' j p hg h3 (hnamed j _ hj hun) hj hv
        by_cases hint : w.interrupted s'.k.n = true ∧ ¬ (p = c.parent ∨ p = c.tracer)
        · rw [if_pos hint]
          exact ⟨v1, v3⟩
        · rw [if_neg hint]
          have unprop : ∀ x : Slot Bool, un x = true → x.pid ≠ 0 ∧ x.data = false := fun x hx => of_decide_eq_true hx
          have hback : ∀ (q : Nat) x, s'.st.tab[q]? = some x → un x = true → s.st.tab[q]? = some x ∧ q ≠ j := by
            intro q x h hu
            have := v2.un q x h (unprop x hu).1 (unprop x hu).2
            exact ⟨this.1, fun e => this.2 (by rw [e])⟩
          have hcount : (s'.st.tab.drop (j + 1)).countP un < n := by
            have a : (s'.st.tab.drop (j + 1)).countP un ≤ (s.st.tab.drop (j + 1)).countP un := by
              apply count_le
              intro q x h hu
              rw [drop_get] at h ⊢
              exact (hback _ x h hu).1
            have b := count_split (s.st.tab.drop i) m ⟨p, false⟩ h2 hun
            rw [List.drop_drop, show i + (m + 1) = j + 1 by omega] at b
            omega
          have := ih s' (j + 1) v1 hcount (fun q x h hu => hnamed q x (hback q x h hu).1 hu) (by
            intro q x hq h
            by_contra hu
            have hu : un x = true := by simpa using hu
            obtain ⟨g1, g2⟩ := hback q x h hu
            by_cases hqi : q < i
            · rw [hdone q x hqi g1] at hu
              simp at hu
            · have := h4 (q - i) x (by omega) (by rw [drop_get, show i + (q - i) = q by omega]; exact g1)
              rw [this] at hu
              simp at hu)
          cases hl : loop c w n s' (j + 1) with
          | oom => trivial
          | more => rw [hl] at this; exact this
          | interrupted s'' =>
            rw [hl] at this
            exact ⟨this.1, fun q h => this.2.traced q (v3.traced q h), fun q h => this.2.msgs q (v3.msgs q h)⟩
          | done s'' =>
            rw [hl] at this
            obtain ⟨t1, t2, t3, t4⟩ := this
            refine ⟨t1, ⟨fun q h => t2.traced q (v3.traced q h), fun q h => t2.msgs q (v3.msgs q h)⟩, ?_, t4⟩
            intro q x hq h hu
            by_cases hqj : q = j
            · subst hqj
              rw [hj] at h
              injection h with h
              rw [← h]
              exact v4.later t2
            · by_cases hlt : q < j
              · have := h4 (q - i) x (by omega) (by rw [drop_get, show i + (q - i) = q by omega]; exact h)
                rw [this] at hu
                simp at hu
              · refine t3 q x (by omega) ?_ hu
                exact v2.keep q x h (unprop x hu).1 (by simpa using fun e => hqj e.symm)

/-! ### The beginning -/

/-- the table before `startup_attach`: a record for each process named -/
theorem listed_spec (ps : List Nat) (hps : ∀ p ∈ ps, 0 < p ∧ p < 2 ^ 31) (st st' : St Bool) (hi : Inv st ⟨[], 0⟩)
    (h : listed ps st = some st') :
    Inv st' ⟨[], 0⟩ ∧ (live st'.tab).Perm (ps.map (fun p => (p, false)) ++ live st.tab) := by
  induction ps generalizing st with
  | nil =>
    simp only [listed, Option.some.injEq] at h
    subst h
    exact ⟨hi, by simp⟩
  | cons p ps ih =>
    unfold listed at h
    cases ha : alloctcb false st p false with
    | none => rw [ha] at h; simp at h
    | some y =>
      obtain ⟨st1, i⟩ := y
      rw [ha] at h
      dsimp only at h
      have hp := hps p (by simp)
      obtain ⟨a1, _⟩ := alloc_live st st1 p i false (by omega) ha
      obtain ⟨b1, b2⟩ := ih (fun q hq => hps q (List.mem_cons_of_mem _ hq)) st1 (hi.allocNot hp ha) h
      refine ⟨b1, b2.trans ?_⟩
      refine (List.Perm.append_left _ a1).trans ?_
      simp only [List.map_cons, List.cons_append]
      exact List.perm_middle

/-- the pid of the program -/
def Child.ok : Child → Prop
  | .none => True
  | .own p => 0 < p ∧ p < 2 ^ 31
  | .parent p => 0 < p ∧ p < 2 ^ 31

/-- the record of the program among the tracees -/
def childLive : Child → List (Nat × Bool)
  | .none => []
  | .own p => [(p, true)]
  | .parent p => [(p, false)]

theorem addChild_spec (st st' : St Bool) (ch : Child) (hc : ch.ok) (hi : Inv st ⟨[], 0⟩) (h : addChild st ch = some st') :
    Inv st' ⟨ch.traced, 0⟩ ∧ (live st'.tab).Perm (childLive ch ++ live st.tab) := by
  cases ch with
  | none =>
    simp only [addChild, Option.some.injEq] at h
    subst h
    exact ⟨hi, by simp [childLive]⟩
  | own p =>
    simp only [addChild] at h
    cases ha : alloctcb false st p true with
    | none => rw [ha] at h; simp at h
    | some y =>
      obtain ⟨st1, i⟩ := y
      rw [ha] at h
      simp only [Option.some.injEq] at h
      subst h
      have hp : 0 < p ∧ p < 2 ^ 31 := hc
      obtain ⟨a1, _⟩ := alloc_live st st1 p i true (by omega) ha
      exact ⟨hi.alloc hp 0 (by simp) ha, a1⟩
  | parent p =>
    simp only [addChild] at h
    cases ha : alloctcb false st p false with
    | none => rw [ha] at h; simp at h
    | some y =>
      obtain ⟨st1, i⟩ := y
      rw [ha] at h
      simp only [Option.some.injEq] at h
      subst h
      have hp : 0 < p ∧ p < 2 ^ 31 := hc
      obtain ⟨a1, _⟩ := alloc_live st st1 p i false (by omega) ha
      exact ⟨hi.allocNot hp ha, a1⟩

theorem countP_live (l : List (Slot Bool)) : l.countP un = ((live l).filter (fun e => !e.2)).length := by
  induction l with
  | nil => rfl
  | cons s l ih =>
    obtain ⟨p, b⟩ := s
    simp only [live] at ih
    rw [List.countP_cons, ih]
    simp only [live, List.flatMap_cons, List.filter_append, List.length_append]
    by_cases hp : p = 0
    · simp [ent, un, hp]
    · cases b <;> simp [ent, un, hp]
      omega

theorem unprop_mem {t : List (Slot Bool)} {j : Nat} {x : Slot Bool} (h : t[j]? = some x) (hu : un x = true) :
    (x.pid, false) ∈ live t := by
  have hx : x.pid ≠ 0 ∧ x.data = false := of_decide_eq_true hu
  refine mem_live.2 ⟨hx.1, j, ?_⟩
  rw [h]
  obtain ⟨p, b⟩ := x
  simp only at hx ⊢
  rw [hx.2]

/-- what holds when the loop is over, from the invariant -/
theorem Inv.matches {s : S} (h : Inv s.st s.k) (hn : ∀ (j : Nat) x, s.st.tab[j]? = some x → un x = false) :
    R s.st (s.k.traced.map (fun p => (p, true))) ∧ Matches s := by
  have hall : ∀ e ∈ live s.st.tab, e.2 = true := by
    intro e he
    obtain ⟨p, b⟩ := e
    obtain ⟨h0, i, hi⟩ := mem_live.1 he
    have := hn i _ hi
    cases b with
    | true => rfl
    | false => simp [un, h0] at this
  have hlive : live s.st.tab = (att s.st.tab).map (fun p => (p, true)) := by
    unfold att
    rw [List.filter_eq_self.2 (fun e he => hall e he), List.map_map]
    symm
    conv_rhs => rw [← List.map_id (live s.st.tab)]
    apply List.map_congr_left
    intro e he
    obtain ⟨p, b⟩ := e
    have := hall _ he
    simp only at this
    simp [this]
  have hperm : (live s.st.tab).Perm (s.k.traced.map (fun p => (p, true))) := by
    rw [hlive]
    exact h.perm.map _
  have hR : R s.st (s.k.traced.map (fun p => (p, true))) := by
    refine ⟨hperm, ?_, ?_, ?_⟩
    · rw [List.map_map]
      have : (Prod.fst ∘ fun p : Nat => (p, true)) = id := rfl
      rw [this, List.map_id]
      exact h.nodup
    · rw [h.count, hperm.length_eq]
    · intro e he
      exact h.pids e (hperm.mem_iff.2 he)
  refine ⟨hR, ?_, ?_, ?_, ?_, h.nodup⟩
  · intro p
    rw [← mem_live, hperm.mem_iff]
    simp
  · intro i p b hi hp
    exact hall (p, b) (mem_live.2 ⟨hp, i, hi⟩)
  · intro i j p a b hi hj hp
    exact hR.one hp hi hj
  · rw [hR.count]; simp

theorem startup_aux (ps : List Nat) (ch : Child) (follow : Bool) (parent tracer : Nat) (w : World) (hw : Sane w)
    (hps : ∀ p ∈ ps, 0 < p ∧ p < 2 ^ 31) (hch : ch.ok) :
    match startup ps ch follow parent tracer w with
    | .oom => True
    | .more => False
    | .interrupted s => Good (toAttach ps ch) ch.traced ⟨follow, ch.pid, parent, tracer⟩ w s
    | .done s => R s.st (s.k.traced.map (fun p => (p, true))) ∧ Matches s ∧ Covers (toAttach ps ch) ch follow parent tracer w s := by
  unfold startup
  cases h1 : listed ps Tcb.init with
  | none => trivial
  | some st =>
    dsimp only
    cases h2 : addChild st ch with
    | none => trivial
    | some st' =>
      dsimp only
      have hinit : Inv (Tcb.init : St Bool) ⟨[], 0⟩ :=
        ⟨by simp [Tcb.init, att, live], by simp, by simp [Tcb.init, live], by simp [Tcb.init, live]⟩
      obtain ⟨a1, a2⟩ := listed_spec ps hps _ st hinit h1
      obtain ⟨b1, b2⟩ := addChild_spec st st' ch hch a1 h2
      have hl : (live st'.tab).Perm (childLive ch ++ ps.map (fun p => (p, false))) := by
        refine b2.trans (List.Perm.append_left _ ?_)
        refine a2.trans ?_
        simp [Tcb.init, live]
      have hnam : ∀ q, (q, false) ∈ live st'.tab ↔ q ∈ toAttach ps ch := by
        intro q
        rw [hl.mem_iff]
        cases ch <;> simp [childLive, toAttach]
      have hg : Good (toAttach ps ch) ch.traced ⟨follow, ch.pid, parent, tracer⟩ w ⟨st', ⟨ch.traced, 0⟩, []⟩ := by
        refine ⟨b1, fun _ h => h, ?_, fun q h => .inl h, ?_, by simp⟩
        · rintro _ p ⟨t, ht⟩
          simp at ht
        · rintro p ⟨t, ht⟩
          simp at ht
      have hcnt : (st'.tab.drop 0).countP un < ps.length + 2 := by
        rw [List.drop_zero, countP_live]
        have := (hl.filter (fun e => !e.2)).length_eq
        rw [this, List.filter_append, List.length_append]
        have h3 : (List.filter (fun e => !e.2) (childLive ch)).length ≤ 1 := by cases ch <;> simp [childLive]
        have h4 := List.length_filter_le (fun e : Nat × Bool => !e.2) (ps.map (fun p => (p, false)))
        rw [List.length_map] at h4
        omega
      have := loop_spec (toAttach ps ch) ch.traced ⟨follow, ch.pid, parent, tracer⟩ w hw (ps.length + 2)
        ⟨st', ⟨ch.traced, 0⟩, []⟩ 0 hg hcnt
        (fun j x h hu => (hnam _).1 (unprop_mem h hu)) (by omega)
      cases hr : loop ⟨follow, ch.pid, parent, tracer⟩ w (ps.length + 2) ⟨st', ⟨ch.traced, 0⟩, []⟩ 0 with
      | oom => trivial
      | more => rw [hr] at this; exact this
      | interrupted s => rw [hr] at this; exact this.1
      | done s =>
        rw [hr] at this
        obtain ⟨g, lt, hd, nn⟩ := this
        obtain ⟨m1, m2⟩ := g.inv.matches nn
        refine ⟨m1, m2, g.old, ?_, g.threads, g.nothing, g.self, g.sum⟩
        intro p hp
        obtain ⟨h0, i, hi⟩ := mem_live.1 ((hnam p).2 hp)
        exact hd i ⟨p, false⟩ (by omega) hi (by simp [un, h0])

/-- **C104** When strace has attached to everything (unless memory runs out or it is interrupted meanwhile), for every
list of processes named by -p, with any of them named repeatedly or being a thread of another, for every program
started besides, and for whatever attempts fail: strace has exactly one record for each process it traces and none for
others; each process named is traced unless it is strace itself or cannot be attached to, and then there is a message;
with -f so is each of its threads that is listed; nothing else is traced; and the numbers in the messages add up. -/
theorem startup_attached (ps : List Nat) (ch : Child) (follow : Bool) (parent tracer : Nat) (w : World) (hw : Sane w)
    (hps : ∀ p ∈ ps, 0 < p ∧ p < 2 ^ 31) (hch : ch.ok) (s : S)
    (h : startup ps ch follow parent tracer w = .done s) :
    Matches s ∧ Covers (toAttach ps ch) ch follow parent tracer w s := by
  have := startup_aux ps ch follow parent tracer w hw hps hch
  rw [h] at this
  exact this.2

/-- **C104** The loop over the table, which grows while it is gone through, comes to an end. -/
theorem startup_ends (ps : List Nat) (ch : Child) (follow : Bool) (parent tracer : Nat) (w : World) (hw : Sane w)
    (hps : ∀ p ∈ ps, 0 < p ∧ p < 2 ^ 31) (hch : ch.ok) :
    startup ps ch follow parent tracer w ≠ .more := by
  intro h
  have := startup_aux ps ch follow parent tracer w hw hps hch
  rw [h] at this
  exact this

/-- **C104** Interrupted meanwhile, strace still has exactly one attached record for each process it traces. -/
theorem startup_interrupted (ps : List Nat) (ch : Child) (follow : Bool) (parent tracer : Nat) (w : World) (hw : Sane w)
    (hps : ∀ p ∈ ps, 0 < p ∧ p < 2 ^ 31) (hch : ch.ok) (s : S)
    (h : startup ps ch follow parent tracer w = .interrupted s) :
    s.k.traced.Nodup ∧ (s.st.tab.filter (fun x => x.pid ≠ 0 ∧ x.data = true)).length = s.k.traced.length ∧
    (∀ p, p ∈ s.k.traced ↔ p ≠ 0 ∧ ∃ i : Nat, s.st.tab[i]? = some ⟨p, true⟩) := by
  have := startup_aux ps ch follow parent tracer w hw hps hch
  rw [h] at this
  have hi := this.inv
  refine ⟨hi.nodup, ?_, ?_⟩
  · rw [← hi.perm.length_eq]
    unfold att
    rw [List.length_map]
    have : ∀ l : List (Slot Bool), (l.filter (fun x => x.pid ≠ 0 ∧ x.data = true)).length =
        ((live l).filter (fun e => e.2)).length := by
      intro l
      induction l with
      | nil => rfl
      | cons x l ih =>
        obtain ⟨p, b⟩ := x
        simp only [live] at ih
        simp only [live, List.flatMap_cons, List.filter_append, List.length_append, List.filter_cons]
        by_cases hp : p = 0
        · simp only [hp, ent]
          simpa using ih
        · cases b <;> simp [ent, hp] at ih ⊢
          · exact ih
          · omega
    exact this _
  · intro p
    rw [← mem_live, ← hi.perm.mem_iff]
    unfold att
    simp

/-- **C22** So after startup, too, whatever happens to the tracees then, a pid that is looked up is found exactly when it
is traced, even when processes were named repeatedly. -/
theorem lookup_after_startup (ps : List Nat) (ch : Child) (follow : Bool) (parent tracer : Nat) (w : World) (hw : Sane w)
    (hps : ∀ p ∈ ps, 0 < p ∧ p < 2 ^ 31) (hch : ch.ok) (s : S)
    (h : startup ps ch follow parent tracer w = .done s) (os : List (Op Bool)) (hos : ∀ o ∈ os, o.ok) (p : Nat)
    (hp : 0 < p) :
    ∃ st, steps false s.st os = some st ∧
      (match (pid2tcb st p).2 with
       | some i => ∃ a, st.tab[i]? = some ⟨p, a⟩ ∧
           (Live.steps (s.k.traced.map (fun q => (q, true))) os).get p = some a
       | none => (Live.steps (s.k.traced.map (fun q => (q, true))) os).get p = none) ∧
      st.nprocs = (Live.steps (s.k.traced.map (fun q => (q, true))) os).length := by
  have := startup_aux ps ch follow parent tracer w hw hps hch
  rw [h] at this
  obtain ⟨st, h1, hR⟩ := steps_spec false os hos this.1
  refine ⟨st, h1, ?_, hR.count⟩
  obtain ⟨_, _, h3⟩ := pid2tcb_spec st p (by omega)
  cases ho : (pid2tcb st p).2 with
  | some i =>
    rw [ho] at h3
    obtain ⟨a, ha⟩ := h3
    exact ⟨a, ha, get_of_mem hR.nodup (hR.mem (by omega) ha)⟩
  | none =>
    rw [ho] at h3
    exact get_none (hR.notmem h3)

/-! ### A case -/

/-- processes 50 (with threads 50, 51, 52, the last of which cannot be attached to) and 60 -/
def world : World where
  can := fun _ p => p ≠ 52
  tasks := fun _ p => if p = 50 ∨ p = 51 then some [⟨1, -1⟩, ⟨0, 99⟩, ⟨2, 50⟩, ⟨3, 51⟩, ⟨4, 52⟩] else some [⟨5, 60⟩]
  interrupted := fun _ => false

theorem world_sane : Sane world := by
  intro n p l h
  unfold world at h
  dsimp only at h
  by_cases hc : p = 50 ∨ p = 51
  · rw [if_pos hc] at h
    injection h with h
    subst h
    intro d hd
    simp at hd
    rcases hd with rfl | rfl | rfl | rfl | rfl <;> decide
  · rw [if_neg hc] at h
    injection h with h
    subst h
    intro d hd
    simp at hd
    subst hd
    decide

/-- what can be seen of the end -/
def Res.seen : Res → Option (List Nat × List Msg × List (Nat × Bool) × Nat)
  | .done s => some (s.k.traced, s.msgs, (s.st.tab.filter (fun x => x.pid ≠ 0)).map (fun x => (x.pid, x.data)), s.st.nprocs)
  | _ => none

/-- `strace -f -p 50 -p 51 -p 60 -p 50`: 50 and 51 are attached to, then naming them again is an error, but they stay -/
theorem named_twice : (startup [50, 51, 60, 50] .none true 7 7 world).seen =
    some ([60, 51, 50], [.failed 50, .attached 60 none, .failed 51, .attached 50 (some 2)],
      [(50, true), (60, true), (51, true)], 3) := by
  decide +kernel

end Strace.Attach
