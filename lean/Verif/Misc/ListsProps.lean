import Verif.Misc.Lists
import Mathlib.Data.List.Chain
/-!
# C48: doubly linked lists
-/
namespace Strace.Misc

/-! ### specification: sequences -/

/-- which addresses are heads of lists, and the items of each; an item in no list is the head of an empty one -/
abbrev Seqs := Nat → Option (List Nat)

def Seqs.put (s : Seqs) (a : Nat) (v : Option (List Nat)) : Seqs := fun x => if x = a then v else s x

/-- memory that is in no list -/
def FreeItem (s : Seqs) (x : Nat) : Prop :=
  x ≠ 0 ∧ (s x = some [] ∨ (s x = none ∧ ∀ h xs, s h = some xs → x ∉ xs))

/-- what each operation does to the sequences, and its result -/
inductive SeqStep : LOp → Seqs → Nat → Seqs → Prop
  | init (s a) : FreeItem s a → SeqStep (.init a) s 0 (s.put a (some []))
  | insert (s h xs x) : s h = some xs → FreeItem s x → x ≠ h →
      SeqStep (.insert h x) s 0 ((s.put x none).put h (some (x :: xs)))
  | append (s h xs x) : s h = some xs → FreeItem s x → x ≠ h →
      SeqStep (.append h x) s 0 ((s.put x none).put h (some (xs ++ [x])))
  | remove (s h pre x post) : s h = some (pre ++ x :: post) →
      SeqStep (.remove x) s 1 ((s.put x (some [])).put h (some (pre ++ post)))
  | removeNone (s x) : s x = some [] → SeqStep (.remove x) s 0 s
  | removeHead (s h x xs) : s h = some (x :: xs) →
      SeqStep (.removeHead h) s x ((s.put x (some [])).put h (some xs))
  | removeHeadNone (s h) : s h = some [] → SeqStep (.removeHead h) s 0 s
  | removeTail (s h x xs) : s h = some (xs ++ [x]) →
      SeqStep (.removeTail h) s x ((s.put x (some [])).put h (some xs))
  | removeTailNone (s h) : s h = some [] → SeqStep (.removeTail h) s 0 s
  | replace (s h pre x post y) : s h = some (pre ++ x :: post) → FreeItem s y →
      SeqStep (.replace x y) s 1 (((s.put y none).put x (some [])).put h (some (pre ++ y :: post)))
  | replaceNone (s x y) : s x = some [] → SeqStep (.replace x y) s 0 s

/-- a history of operations -/
inductive SeqSteps : List LOp → Seqs → List Nat → Seqs → Prop
  | nil (s) : SeqSteps [] s [] s
  | cons (op ops s r s' rs s'') : SeqStep op s r s' → SeqSteps ops s' rs s'' → SeqSteps (op :: ops) s (r :: rs) s''

/-! ### rings -/

def Link (h : Heap) (u v : Nat) : Prop := h.next u = v ∧ h.prev v = u

/-- the items `xs` are linked in a ring through `a` -/
def Ring (h : Heap) (a : Nat) (xs : List Nat) : Prop := ((a :: xs) ++ [a]).IsChain (Link h)

theorem chain_frame (h h' : Heap) : ∀ l : List Nat, (∀ u ∈ l.dropLast, h'.next u = h.next u) → (∀ v ∈ l.tail, h'.prev v = h.prev v) →
    l.IsChain (Link h) → l.IsChain (Link h') := by
  intro l
  induction l with
  | nil => intro _ _ _; exact List.IsChain.nil
  | cons a l ih =>
    intro h1 h2 hc
    cases l with
    | nil => exact List.IsChain.singleton a
    | cons b l =>
      rw [List.isChain_cons_cons] at hc ⊢
      refine ⟨⟨?_, ?_⟩, ih (fun u hu => h1 u ?_) (fun v hv => h2 v ?_) hc.2⟩
      · rw [h1 a (by simp)]; exact hc.1.1
      · rw [h2 b (by simp)]; exact hc.1.2
      · rw [List.dropLast_cons_of_ne_nil (by simp)]; exact List.mem_cons_of_mem _ hu
      · exact List.mem_of_mem_tail hv

/-- the last item before a place in the ring, and the first after it -/
def before (a : Nat) (pre : List Nat) : Nat := (a :: pre).getLast (by simp)
def after (a : Nat) (post : List Nat) : Nat := (post ++ [a]).head (by simp)

theorem before_mem (a : Nat) (pre : List Nat) : before a pre ∈ a :: pre := List.getLast_mem _
theorem after_mem (a : Nat) (post : List Nat) : after a post = a ∨ after a post ∈ post := by
  unfold after
  cases post with
  | nil => exact .inl rfl
  | cons p post => right; show p ∈ p :: post; simp

theorem before_not_dropLast (a : Nat) (pre : List Nat) (hn : (a :: pre).Nodup) : before a pre ∉ (a :: pre).dropLast := by
  intro h
  have e := List.dropLast_append_getLast (l := a :: pre) (by simp)
  rw [← e, List.nodup_append] at hn
  exact hn.2.2 _ h _ (List.mem_singleton.mpr rfl) rfl

theorem after_not_tail (a : Nat) (post : List Nat) (ha : a ∉ post) (hn : post.Nodup) : after a post ∉ (post ++ [a]).tail := by
  unfold after
  cases post with
  | nil => simp
  | cons p post =>
    rw [List.nodup_cons] at hn
    show p ∉ post ++ [a]
    simp only [List.mem_append, List.mem_singleton, not_or]
    exact ⟨hn.1, fun h => ha (by simp [h])⟩

/-- two parts of a ring stay linked if only the outer ends at the gap between them change -/
theorem parts_frame (h h' : Heap) (a : Nat) (pre post : List Nat) (hn : (a :: (pre ++ post)).Nodup)
    (h1 : ∀ u ∈ a :: (pre ++ post), u ≠ before a pre → h'.next u = h.next u)
    (h2 : ∀ v ∈ a :: (pre ++ post), v ≠ after a post → h'.prev v = h.prev v)
    (c1 : (a :: pre).IsChain (Link h)) (c2 : (post ++ [a]).IsChain (Link h)) :
    (a :: pre).IsChain (Link h') ∧ (post ++ [a]).IsChain (Link h') := by
  have hnn := hn
  rw [List.nodup_cons, List.nodup_append, List.mem_append, not_or] at hn
  obtain ⟨⟨ha1, ha2⟩, hp, hq, hd⟩ := hn
  have n1 : (a :: pre).Nodup := List.nodup_cons.mpr ⟨ha1, hp⟩
  constructor
  · apply chain_frame h h' _ _ _ c1
    · intro u hu
      apply h1 u
      · have := List.dropLast_subset _ hu
        simp only [List.mem_cons] at this
        simp only [List.mem_cons, List.mem_append]
        rcases this with e | e
        · exact .inl e
        · exact .inr (.inl e)
      · intro e; subst e
        exact before_not_dropLast a pre n1 hu
    · intro v hv
      have hv' : v ∈ pre := hv
      apply h2 v (by simp [hv'])
      intro e
      rcases after_mem a post with e2 | e2
      · rw [e2] at e; subst e; exact ha1 hv'
      · rw [← e] at e2; exact hd v hv' v e2 rfl
  · apply chain_frame h h' _ _ _ c2
    · intro u hu
      rw [List.dropLast_concat] at hu
      apply h1 u (by simp [hu])
      intro e
      have hm := before_mem a pre
      rw [← e, List.mem_cons] at hm
      rcases hm with e2 | e2
      · subst e2; exact ha2 hu
      · exact hd u e2 u hu rfl
    · intro v hv
      apply h2 v
      · have := List.mem_of_mem_tail hv
        simp only [List.mem_append, List.mem_singleton] at this
        simp only [List.mem_cons, List.mem_append]
        rcases this with e | e
        · exact .inr (.inr e)
        · exact .inl e
      · intro e; subst e
        exact after_not_tail a post ha2 hq hv

theorem ring_join (h : Heap) (a : Nat) (pre post : List Nat) (c1 : (a :: pre).IsChain (Link h)) (c2 : (post ++ [a]).IsChain (Link h))
    (hl : Link h (before a pre) (after a post)) : Ring h a (pre ++ post) := by
  unfold Ring
  rw [← List.cons_append, List.append_assoc, List.isChain_append]
  refine ⟨c1, c2, ?_⟩
  intro x hx y hy
  rw [List.getLast?_eq_some_getLast (by simp)] at hx
  rw [List.head?_eq_some_head (by simp)] at hy
  cases hx
  cases hy
  exact hl

theorem ring_split (h : Heap) (a : Nat) (pre post : List Nat) (hr : Ring h a (pre ++ post)) :
    (a :: pre).IsChain (Link h) ∧ (post ++ [a]).IsChain (Link h) ∧ Link h (before a pre) (after a post) := by
  unfold Ring at hr
  rw [← List.cons_append, List.append_assoc, List.isChain_append] at hr
  refine ⟨hr.1, hr.2.1, hr.2.2 _ ?_ _ ?_⟩
  · rw [List.getLast?_eq_some_getLast (by simp)]; rfl
  · rw [List.head?_eq_some_head (by simp)]; rfl

theorem after_cons (a x : Nat) (post : List Nat) : after a (x :: post) = x := rfl

theorem before_append (a x : Nat) (pre : List Nat) : before a (pre ++ [x]) = x := by
  unfold before
  rw [List.getLast_cons (by simp), List.getLast_append_singleton]

/-- putting an item at a place in a ring -/
theorem ring_put (h h' : Heap) (a : Nat) (pre post : List Nat) (x : Nat) (hn : (a :: (pre ++ post)).Nodup)
    (h1 : ∀ u ∈ a :: (pre ++ post), u ≠ before a pre → h'.next u = h.next u)
    (h2 : ∀ v ∈ a :: (pre ++ post), v ≠ after a post → h'.prev v = h.prev v)
    (c1 : (a :: pre).IsChain (Link h)) (c2 : (post ++ [a]).IsChain (Link h))
    (l1 : Link h' (before a pre) x) (l2 : Link h' x (after a post)) : Ring h' a (pre ++ x :: post) := by
  obtain ⟨d1, d2⟩ := parts_frame h h' a pre post hn h1 h2 c1 c2
  apply ring_join h' a pre (x :: post) d1 _ (by rw [after_cons]; exact l1)
  have : (x :: post ++ [a]) = [x] ++ (post ++ [a]) := rfl
  rw [this, List.isChain_append]
  refine ⟨List.IsChain.singleton x, d2, ?_⟩
  intro u hu v hv
  rw [List.head?_eq_some_head (by simp)] at hv
  cases hu
  cases hv
  exact l2

theorem ring_frame (h h' : Heap) (a : Nat) (xs : List Nat) (hr : Ring h a xs)
    (hs : ∀ u ∈ a :: xs, h'.next u = h.next u ∧ h'.prev u = h.prev u) : Ring h' a xs := by
  apply chain_frame h h' _ _ _ hr
  · intro u hu
    rw [List.dropLast_concat] at hu
    exact (hs u hu).1
  · intro v hv
    have : v ∈ xs ++ [a] := hv
    apply (hs v _).2
    simp only [List.mem_append, List.mem_singleton] at this
    rw [List.mem_cons]
    exact this.symm

theorem before_nil (a : Nat) : before a [] = a := rfl
theorem after_nil (a : Nat) : after a [] = a := rfl

/-- the neighbours of an item in a ring -/
theorem ring_item (h : Heap) (a : Nat) (pre post : List Nat) (x : Nat) (hr : Ring h a (pre ++ x :: post)) :
    h.prev x = before a pre ∧ h.next x = after a post ∧ h.next (before a pre) = x ∧ h.prev (after a post) = x := by
  obtain ⟨_, _, l1⟩ := ring_split h a pre (x :: post) hr
  rw [after_cons] at l1
  have e : pre ++ x :: post = (pre ++ [x]) ++ post := by simp
  rw [e] at hr
  obtain ⟨_, _, l2⟩ := ring_split h a (pre ++ [x]) post hr
  rw [before_append] at l2
  exact ⟨l1.2, l2.1, l1.1, l2.2⟩

/-- the ends of a ring, seen from its head -/
theorem ring_head (h : Heap) (a : Nat) (xs : List Nat) (hr : Ring h a xs) :
    h.next a = after a xs ∧ h.prev a = before a xs := by
  have h1 := ring_split h a [] xs hr
  have h2 := ring_split h a xs [] (by rw [List.append_nil]; exact hr)
  exact ⟨h1.2.2.1, h2.2.2.2⟩

/-! ### memory represents sequences -/

structure Rep (h : Heap) (s : Seqs) : Prop where
  nonzero : ∀ a xs, s a = some xs → a ≠ 0 ∧ 0 ∉ xs
  nodup : ∀ a xs, s a = some xs → (a :: xs).Nodup
  ring : ∀ a xs, s a = some xs → Ring h a xs
  member : ∀ a xs, s a = some xs → ∀ x ∈ xs, s x = none
  apart : ∀ a xs b ys, s a = some xs → s b = some ys → a ≠ b → ∀ x ∈ xs, x ∉ ys

theorem rep_of (h h' : Heap) (s s' : Seqs) (hr : Rep h s) (T : List Nat)
    (hsame : ∀ u, u ∉ T → h'.next u = h.next u ∧ h'.prev u = h.prev u)
    (hcase : ∀ b ys, s' b = some ys → (s b = some ys ∧ ∀ u ∈ b :: ys, u ∉ T) ∨
      ((∀ u ∈ b :: ys, u ∈ T) ∧ b ≠ 0 ∧ 0 ∉ ys ∧ (b :: ys).Nodup ∧ Ring h' b ys))
    (hap : ∀ b ys c zs, s' b = some ys → s' c = some zs → (∀ u ∈ b :: ys, u ∈ T) → (∀ u ∈ c :: zs, u ∈ T) → b ≠ c →
      ∀ x ∈ ys, x ∉ zs)
    (hmem : ∀ b ys, s' b = some ys → ∀ x ∈ ys, s' x = none) : Rep h' s' := by
  refine ⟨?_, ?_, ?_, hmem, ?_⟩
  · intro a xs ha
    rcases hcase a xs ha with ⟨o, _⟩ | n
    · exact hr.nonzero a xs o
    · exact ⟨n.2.1, n.2.2.1⟩
  · intro a xs ha
    rcases hcase a xs ha with ⟨o, _⟩ | n
    · exact hr.nodup a xs o
    · exact n.2.2.2.1
  · intro a xs ha
    rcases hcase a xs ha with ⟨o, o2⟩ | n
    · exact ring_frame h h' a xs (hr.ring a xs o) fun u hu => hsame u (o2 u hu)
    · exact n.2.2.2.2
  · intro a xs b ys ha hb hab x hx hy
    rcases hcase a xs ha with ⟨o, o2⟩ | n <;> rcases hcase b ys hb with ⟨p, p2⟩ | m
    · exact hr.apart a xs b ys o p hab x hx hy
    · exact o2 x (by simp [hx]) (m.1 x (by simp [hy]))
    · exact p2 x (by simp [hy]) (n.1 x (by simp [hx]))
    · exact hap a xs b ys ha hb n.1 m.1 hab x hx hy

theorem old_disjoint (h : Heap) (s : Seqs) (hr : Rep h s) (a b : Nat) (xs ys : List Nat) (ha : s a = some xs) (hb : s b = some ys)
    (hab : b ≠ a) : ∀ u ∈ b :: ys, u ∉ a :: xs := by
  intro u hu hv
  rcases List.mem_cons.mp hu with rfl | hu
  · rcases List.mem_cons.mp hv with rfl | hv
    · exact hab rfl
    · have := hr.member a xs ha u hv
      rw [this] at hb; cases hb
  · rcases List.mem_cons.mp hv with rfl | hv
    · have := hr.member b ys hb u hu
      rw [this] at ha; cases ha
    · exact hr.apart b ys a xs hb ha hab u hu hv

theorem free_disjoint (h : Heap) (s : Seqs) (hr : Rep h s) (x : Nat) (hf : FreeItem s x) (b : Nat) (ys : List Nat)
    (hb : s b = some ys) (hbx : b ≠ x) : x ∉ b :: ys := by
  intro hx
  rcases List.mem_cons.mp hx with rfl | hx
  · exact hbx rfl
  · rcases hf.2 with e | ⟨_, e⟩
    · have := hr.member b ys hb x hx
      rw [this] at e; cases e
    · exact e b ys hb hx

theorem put_same (s : Seqs) (a : Nat) (v : Option (List Nat)) : s.put a v a = v := by unfold Seqs.put; rw [if_pos rfl]
theorem put_ne (s : Seqs) (a b : Nat) (v : Option (List Nat)) (h : b ≠ a) : s.put a v b = s b := by
  unfold Seqs.put; rw [if_neg h]

/-- an item put into a list -/
theorem rep_put (h h' : Heap) (s : Seqs) (hr : Rep h s) (a : Nat) (pre post : List Nat) (x : Nat)
    (ha : s a = some (pre ++ post)) (hf : FreeItem s x) (hxa : x ≠ a)
    (hsame : ∀ u, u ∉ x :: a :: (pre ++ post) → h'.next u = h.next u ∧ h'.prev u = h.prev u)
    (h1 : ∀ u ∈ a :: (pre ++ post), u ≠ before a pre → h'.next u = h.next u)
    (h2 : ∀ v ∈ a :: (pre ++ post), v ≠ after a post → h'.prev v = h.prev v)
    (l1 : Link h' (before a pre) x) (l2 : Link h' x (after a post)) :
    Rep h' ((s.put x none).put a (some (pre ++ x :: post))) := by
  have hxn := free_disjoint h s hr x hf a _ ha (fun e => hxa e.symm)
  have hnd := hr.nodup a _ ha
  have hnz := hr.nonzero a _ ha
  obtain ⟨c1, c2, _⟩ := ring_split h a pre post (hr.ring a _ ha)
  have key : ∀ b ys, ((s.put x none).put a (some (pre ++ x :: post))) b = some ys →
      (b = a ∧ ys = pre ++ x :: post) ∨ (b ≠ a ∧ b ≠ x ∧ s b = some ys) := by
    intro b ys hb
    by_cases e : b = a
    · subst e; rw [put_same] at hb; cases hb; exact .inl ⟨rfl, rfl⟩
    · rw [put_ne _ _ _ _ e] at hb
      by_cases e2 : b = x
      · subst e2; rw [put_same] at hb; cases hb
      · rw [put_ne _ _ _ _ e2] at hb; exact .inr ⟨e, e2, hb⟩
  have hperm : ∀ u, u ∈ a :: (pre ++ x :: post) ↔ u ∈ x :: a :: (pre ++ post) := by
    intro u
    simp only [List.mem_cons, List.mem_append]
    constructor
    · rintro (e | e | e | e)
      · exact .inr (.inl e)
      · exact .inr (.inr (.inl e))
      · exact .inl e
      · exact .inr (.inr (.inr e))
    · rintro (e | e | e | e)
      · exact .inr (.inr (.inl e))
      · exact .inl e
      · exact .inr (.inl e)
      · exact .inr (.inr (.inr e))
  apply rep_of h h' s _ hr (x :: a :: (pre ++ post)) hsame
  · intro b ys hb
    rcases key b ys hb with ⟨rfl, rfl⟩ | ⟨e1, e2, e3⟩
    · right
      refine ⟨fun u hu => (hperm u).mp hu, hnz.1, ?_, ?_, ?_⟩
      · intro h0
        have h00 := (hperm 0).mp (List.mem_cons_of_mem _ h0)
        rcases List.mem_cons.mp h00 with e | e
        · exact hf.1 e.symm
        · rcases List.mem_cons.mp e with e | e
          · exact hnz.1 e.symm
          · exact hnz.2 e
      · have hp : (b :: (pre ++ x :: post)).Perm (x :: b :: (pre ++ post)) :=
          (List.perm_middle.cons b).trans (List.Perm.swap x b _)
        exact hp.nodup_iff.mpr (List.nodup_cons.mpr ⟨hxn, hnd⟩)
      · exact ring_put h h' b pre post x hnd h1 h2 c1 c2 l1 l2
    · left
      refine ⟨e3, ?_⟩
      intro u hu hT
      rcases List.mem_cons.mp hT with rfl | hT
      · exact free_disjoint h s hr u hf b ys e3 e2 hu
      · exact old_disjoint h s hr a b _ ys ha e3 e1 u hu hT
  · intro b ys c zs hb hc hbT hcT hbc y hy
    rcases key b ys hb with ⟨rfl, rfl⟩ | ⟨e1, e2, e3⟩
    · rcases key c zs hc with ⟨rfl, rfl⟩ | ⟨f1, f2, f3⟩
      · exact absurd rfl hbc
      · have := hcT c (by simp)
        rcases List.mem_cons.mp this with rfl | hT
        · exact absurd rfl f2
        · exact absurd hT (old_disjoint h s hr b c _ zs ha f3 f1 c (by simp))
    · have := hbT b (by simp)
      rcases List.mem_cons.mp this with rfl | hT
      · exact absurd rfl e2
      · exact absurd hT (old_disjoint h s hr a b _ ys ha e3 e1 b (by simp))
  · intro b ys hb y hy
    rcases key b ys hb with ⟨rfl, rfl⟩ | ⟨e1, e2, e3⟩
    · have hyb : y ≠ b := by
        intro e; subst e
        rw [List.nodup_cons] at hnd
        rcases List.mem_append.mp hy with e | e
        · exact hnd.1 (List.mem_append_left _ e)
        · rcases List.mem_cons.mp e with e | e
          · exact hxa e.symm
          · exact hnd.1 (List.mem_append_right _ e)
      rw [put_ne _ _ _ _ hyb]
      by_cases e : y = x
      · subst e; rw [put_same]
      · rw [put_ne _ _ _ _ e]
        apply hr.member b _ ha
        rcases List.mem_append.mp hy with e' | e'
        · exact List.mem_append_left _ e'
        · rcases List.mem_cons.mp e' with e' | e'
          · exact absurd e' e
          · exact List.mem_append_right _ e'
    · have hyT := old_disjoint h s hr a b _ ys ha e3 e1 y (by simp [hy])
      have hya : y ≠ a := fun e => hyT (by simp [e])
      rw [put_ne _ _ _ _ hya]
      by_cases e : y = x
      · subst e; rw [put_same]
      · rw [put_ne _ _ _ _ e]
        exact hr.member b ys e3 y hy

/-- an item taken out of a list -/
theorem rep_take (h h' : Heap) (s : Seqs) (hr : Rep h s) (a : Nat) (pre post : List Nat) (x : Nat)
    (ha : s a = some (pre ++ x :: post))
    (hsame : ∀ u, u ∉ x :: a :: (pre ++ post) → h'.next u = h.next u ∧ h'.prev u = h.prev u)
    (h1 : ∀ u ∈ a :: (pre ++ post), u ≠ before a pre → h'.next u = h.next u)
    (h2 : ∀ v ∈ a :: (pre ++ post), v ≠ after a post → h'.prev v = h.prev v)
    (l1 : Link h' (before a pre) (after a post)) (l2 : Link h' x x) :
    Rep h' ((s.put x (some [])).put a (some (pre ++ post))) := by
  have hnd := hr.nodup a _ ha
  have hnz := hr.nonzero a _ ha
  have hperm : (a :: (pre ++ x :: post)).Perm (x :: a :: (pre ++ post)) :=
    (List.perm_middle.cons a).trans (List.Perm.swap x a _)
  have hnd2 := hperm.nodup_iff.mp hnd
  obtain ⟨hx, hnd3⟩ := List.nodup_cons.mp hnd2
  have hxa : x ≠ a := fun e => hx (by simp [e])
  have hx0 : x ≠ 0 := by
    intro e
    apply hnz.2
    rw [← e]; simp
  have hring := hr.ring a _ ha
  obtain ⟨c1, _, _⟩ := ring_split h a pre (x :: post) hring
  obtain ⟨_, c2, _⟩ := ring_split h a (pre ++ [x]) post (by rw [List.append_assoc]; exact hring)
  obtain ⟨d1, d2⟩ := parts_frame h h' a pre post hnd3 h1 h2 c1 c2
  have key : ∀ b ys, ((s.put x (some [])).put a (some (pre ++ post))) b = some ys →
      (b = a ∧ ys = pre ++ post) ∨ (b = x ∧ ys = []) ∨ (b ≠ a ∧ b ≠ x ∧ s b = some ys) := by
    intro b ys hb
    by_cases e : b = a
    · subst e; rw [put_same] at hb; cases hb; exact .inl ⟨rfl, rfl⟩
    · rw [put_ne _ _ _ _ e] at hb
      by_cases e2 : b = x
      · subst e2; rw [put_same] at hb; cases hb; exact .inr (.inl ⟨rfl, rfl⟩)
      · rw [put_ne _ _ _ _ e2] at hb; exact .inr (.inr ⟨e, e2, hb⟩)
  have hold : ∀ b ys, b ≠ a → s b = some ys → ∀ u ∈ b :: ys, u ∉ x :: a :: (pre ++ post) := by
    intro b ys e1 e3 u hu hT
    exact old_disjoint h s hr a b _ ys ha e3 e1 u hu (hperm.mem_iff.mpr hT)
  apply rep_of h h' s _ hr (x :: a :: (pre ++ post)) hsame
  · intro b ys hb
    rcases key b ys hb with ⟨rfl, rfl⟩ | ⟨rfl, rfl⟩ | ⟨e1, e2, e3⟩
    · right
      refine ⟨fun u hu => List.mem_cons_of_mem _ hu, hnz.1, ?_, hnd3, ring_join h' b pre post d1 d2 l1⟩
      intro h0
      apply hnz.2
      rcases List.mem_append.mp h0 with e | e
      · exact List.mem_append_left _ e
      · exact List.mem_append_right _ (List.mem_cons_of_mem _ e)
    · right
      refine ⟨fun u hu => ?_, hx0, by simp, by simp, ?_⟩
      · rw [List.mem_singleton] at hu; subst hu; simp
      · show [b, b].IsChain (Link h')
        rw [List.isChain_cons_cons]
        exact ⟨l2, List.IsChain.singleton _⟩
    · exact .inl ⟨e3, hold b ys e1 e3⟩
  · intro b ys c zs hb hc hbT hcT hbc y hy
    rcases key b ys hb with ⟨rfl, rfl⟩ | ⟨rfl, rfl⟩ | ⟨e1, e2, e3⟩
    · rcases key c zs hc with ⟨rfl, rfl⟩ | ⟨rfl, rfl⟩ | ⟨f1, f2, f3⟩
      · exact absurd rfl hbc
      · simp
      · exact absurd (hcT c (by simp)) (hold c zs f1 f3 c (by simp))
    · cases hy
    · exact absurd (hbT b (by simp)) (hold b ys e1 e3 b (by simp))
  · intro b ys hb y hy
    rcases key b ys hb with ⟨rfl, rfl⟩ | ⟨rfl, rfl⟩ | ⟨e1, e2, e3⟩
    · have hyb : y ≠ b := by
        intro e; subst e
        exact (List.nodup_cons.mp hnd3).1 hy
      have hyx : y ≠ x := by
        intro e; subst e
        exact hx (List.mem_cons_of_mem _ hy)
      rw [put_ne _ _ _ _ hyb, put_ne _ _ _ _ hyx]
      apply hr.member b _ ha
      rcases List.mem_append.mp hy with e' | e'
      · exact List.mem_append_left _ e'
      · exact List.mem_append_right _ (List.mem_cons_of_mem _ e')
    · cases hy
    · have hT := hold b ys e1 e3 y (by simp [hy])
      have hya : y ≠ a := fun e => hT (by simp [e])
      have hyx : y ≠ x := fun e => hT (by simp [e])
      rw [put_ne _ _ _ _ hya, put_ne _ _ _ _ hyx]
      exact hr.member b ys e3 y hy

/-! ### the operations -/

theorem insert_next (h : Heap) (a x u : Nat) :
    (listInsert h a x).next u = if u = a then x else if u = x then h.next a else h.next u := rfl

theorem insert_prev (h : Heap) (a x u : Nat) (hx : x ≠ a) :
    (listInsert h a x).prev u = if u = h.next a then x else if u = x then a else h.prev u := by
  have e : (if a = x then h.next a else h.next a) = h.next a := if_neg (fun e => hx e.symm)
  show (if u = (if a = x then h.next a else h.next a) then x else if u = x then a else h.prev u) = _
  rw [e]

theorem append_prev (h : Heap) (a x u : Nat) :
    (listAppend h a x).prev u = if u = a then x else if u = x then h.prev a else h.prev u := rfl

theorem append_next (h : Heap) (a x u : Nat) (hx : x ≠ a) :
    (listAppend h a x).next u = if u = h.prev a then x else if u = x then a else h.next u := by
  have e : (if a = x then h.prev a else h.prev a) = h.prev a := if_neg (fun e => hx e.symm)
  show (if u = (if a = x then h.prev a else h.prev a) then x else if u = x then a else h.next u) = _
  rw [e]

theorem rep_insert (h : Heap) (s : Seqs) (hr : Rep h s) (a : Nat) (xs : List Nat) (x : Nat) (ha : s a = some xs)
    (hf : FreeItem s x) (hxa : x ≠ a) : Rep (listInsert h a x) ((s.put x none).put a (some (x :: xs))) := by
  have hxn := free_disjoint h s hr x hf a _ ha (fun e => hxa e.symm)
  obtain ⟨hn, _⟩ := ring_head h a xs (hr.ring a xs ha)
  have hmem : after a xs ∈ a :: xs := by
    rcases after_mem a xs with e | e
    · rw [e]; simp
    · exact List.mem_cons_of_mem _ e
  have hax : after a xs ≠ x := fun e => hxn (e ▸ hmem)
  apply rep_put h _ s hr a [] xs x ha hf hxa
  · intro u hu
    have hux : u ≠ x := fun e => hu (by simp [e])
    have hua : u ≠ a := fun e => hu (by simp [e])
    have hun : u ≠ h.next a := by
      rw [hn]; intro e; apply hu
      exact List.mem_cons_of_mem _ (e ▸ hmem)
    rw [insert_next, insert_prev _ _ _ _ hxa, if_neg hua, if_neg hux, if_neg hun, if_neg hux]
    exact ⟨rfl, rfl⟩
  · intro u hu hub
    have hux : u ≠ x := fun e => hxn (e ▸ hu)
    rw [before_nil] at hub
    rw [insert_next, if_neg hub, if_neg hux]
  · intro v hv hva
    have hvx : v ≠ x := fun e => hxn (e ▸ hv)
    rw [insert_prev _ _ _ _ hxa, hn, if_neg hva, if_neg hvx]
  · refine ⟨?_, ?_⟩
    · rw [before_nil, insert_next, if_pos rfl]
    · rw [before_nil, insert_prev _ _ _ _ hxa, hn, if_neg hax.symm, if_pos rfl]
  · refine ⟨?_, ?_⟩
    · rw [insert_next, if_neg hxa, if_pos rfl, hn]
    · rw [insert_prev _ _ _ _ hxa, hn, if_pos rfl]

theorem rep_append (h : Heap) (s : Seqs) (hr : Rep h s) (a : Nat) (xs : List Nat) (x : Nat) (ha : s a = some xs)
    (hf : FreeItem s x) (hxa : x ≠ a) : Rep (listAppend h a x) ((s.put x none).put a (some (xs ++ [x]))) := by
  have hxn := free_disjoint h s hr x hf a _ ha (fun e => hxa e.symm)
  obtain ⟨_, hp⟩ := ring_head h a xs (hr.ring a xs ha)
  have hmem := before_mem a xs
  have hbx : before a xs ≠ x := fun e => hxn (e ▸ hmem)
  have ha' : s a = some (xs ++ []) := by rw [List.append_nil]; exact ha
  apply rep_put h _ s hr a xs [] x ha' hf hxa
  · rw [List.append_nil]
    intro u hu
    have hux : u ≠ x := fun e => hu (by simp [e])
    have hua : u ≠ a := fun e => hu (by simp [e])
    have hun : u ≠ h.prev a := by
      rw [hp]; intro e; apply hu
      exact List.mem_cons_of_mem _ (e ▸ hmem)
    rw [append_next _ _ _ _ hxa, append_prev, if_neg hun, if_neg hux, if_neg hua, if_neg hux]
    exact ⟨rfl, rfl⟩
  · rw [List.append_nil]
    intro u hu hub
    have hux : u ≠ x := fun e => hxn (e ▸ hu)
    rw [append_next _ _ _ _ hxa, hp, if_neg hub, if_neg hux]
  · rw [List.append_nil]
    intro v hv hva
    have hvx : v ≠ x := fun e => hxn (e ▸ hv)
    rw [after_nil] at hva
    rw [append_prev, if_neg hva, if_neg hvx]
  · refine ⟨?_, ?_⟩
    · rw [append_next _ _ _ _ hxa, hp, if_pos rfl]
    · rw [append_prev, if_neg hxa, if_pos rfl, hp]
  · refine ⟨?_, ?_⟩
    · rw [after_nil, append_next _ _ _ _ hxa, hp, if_neg hbx.symm, if_pos rfl]
    · rw [after_nil, append_prev, if_pos rfl]

/-- an item in a list is not taken for an empty one -/
theorem in_list (h : Heap) (s : Seqs) (hr : Rep h s) (a : Nat) (pre post : List Nat) (x : Nat)
    (ha : s a = some (pre ++ x :: post)) :
    (h.next x = 0 || h.prev x = 0 || listIsEmpty h x) = false ∧ h.prev x = before a pre ∧ h.next x = after a post ∧
      x ≠ before a pre ∧ x ≠ after a post ∧ x ≠ a ∧ x ∉ a :: (pre ++ post) ∧ before a pre ∈ a :: (pre ++ post) ∧
      after a post ∈ a :: (pre ++ post) := by
  have hnd := hr.nodup a _ ha
  have hnz := hr.nonzero a _ ha
  have hperm : (a :: (pre ++ x :: post)).Perm (x :: a :: (pre ++ post)) :=
    (List.perm_middle.cons a).trans (List.Perm.swap x a _)
  obtain ⟨hx, _⟩ := List.nodup_cons.mp (hperm.nodup_iff.mp hnd)
  obtain ⟨hp, hn, _, _⟩ := ring_item h a pre post x (hr.ring a _ ha)
  have mb : before a pre ∈ a :: (pre ++ post) := by
    rcases List.mem_cons.mp (before_mem a pre) with e | e
    · rw [e]; simp
    · exact List.mem_cons_of_mem _ (List.mem_append_left _ e)
  have ma : after a post ∈ a :: (pre ++ post) := by
    rcases after_mem a post with e | e
    · rw [e]; simp
    · exact List.mem_cons_of_mem _ (List.mem_append_right _ e)
  have z : ∀ u ∈ a :: (pre ++ post), u ≠ 0 := by
    intro u hu e
    subst e
    rcases List.mem_cons.mp hu with e | e
    · exact hnz.1 e.symm
    · apply hnz.2
      rcases List.mem_append.mp e with e | e
      · exact List.mem_append_left _ e
      · exact List.mem_append_right _ (List.mem_cons_of_mem _ e)
  have xb : x ≠ before a pre := fun e => hx (e ▸ mb)
  have xa : x ≠ after a post := fun e => hx (e ▸ ma)
  refine ⟨?_, hp, hn, xb, xa, fun e => hx (by simp [e]), hx, mb, ma⟩
  unfold listIsEmpty
  rw [hp, hn]
  simp [z _ mb, z _ ma, xa.symm]

theorem remove_spec (h : Heap) (s : Seqs) (hr : Rep h s) (a : Nat) (pre post : List Nat) (x : Nat)
    (ha : s a = some (pre ++ x :: post)) :
    (listRemove h x).2 = true ∧
    (∀ u, (listRemove h x).1.next u = if u = x then x else if u = before a pre then after a post else h.next u) ∧
    (∀ u, (listRemove h x).1.prev u = if u = x then x else if u = after a post then before a pre else h.prev u) := by
  obtain ⟨he, hp, hn, xb, xa, _⟩ := in_list h s hr a pre post x ha
  unfold listRemove
  rw [he]
  refine ⟨rfl, ?_, ?_⟩
  · intro u
    show (if u = x then x else if u = h.prev x then h.next x else h.next u) = _
    rw [hp, hn]
  · intro u
    show (if u = x then x else if u = (if x = h.prev x then h.next x else h.next x) then h.prev x else h.prev u) = _
    rw [hp, hn, if_neg xb]

theorem rep_remove (h : Heap) (s : Seqs) (hr : Rep h s) (a : Nat) (pre post : List Nat) (x : Nat)
    (ha : s a = some (pre ++ x :: post)) :
    Rep (listRemove h x).1 ((s.put x (some [])).put a (some (pre ++ post))) := by
  obtain ⟨_, en, ep⟩ := remove_spec h s hr a pre post x ha
  obtain ⟨he, hp, hn, xb, xa, hxa, hx, mb, ma⟩ := in_list h s hr a pre post x ha
  apply rep_take h _ s hr a pre post x ha
  · intro u hu
    have hux : u ≠ x := fun e => hu (by simp [e])
    have hub : u ≠ before a pre := fun e => hu (List.mem_cons_of_mem _ (e ▸ mb))
    have hua : u ≠ after a post := fun e => hu (List.mem_cons_of_mem _ (e ▸ ma))
    rw [en, ep, if_neg hux, if_neg hub, if_neg hux, if_neg hua]
    exact ⟨rfl, rfl⟩
  · intro u hu hub
    have hux : u ≠ x := fun e => hx (e ▸ hu)
    rw [en, if_neg hux, if_neg hub]
  · intro u hu hua
    have hux : u ≠ x := fun e => hx (e ▸ hu)
    rw [ep, if_neg hux, if_neg hua]
  · exact ⟨by rw [en, if_neg xb.symm, if_pos rfl], by rw [ep, if_neg xa.symm, if_pos rfl]⟩
  · exact ⟨by rw [en, if_pos rfl], by rw [ep, if_pos rfl]⟩

theorem replace_spec (h : Heap) (s : Seqs) (hr : Rep h s) (a : Nat) (pre post : List Nat) (x y : Nat)
    (ha : s a = some (pre ++ x :: post)) (hy : y ≠ x) (hyn : y ∉ a :: (pre ++ post)) :
    (listReplace h x y).2 = true ∧
    (∀ u, (listReplace h x y).1.next u =
      if u = x then x else if u = before a pre then y else if u = y then after a post else h.next u) ∧
    (∀ u, (listReplace h x y).1.prev u =
      if u = x then x else if u = after a post then y else if u = y then before a pre else h.prev u) := by
  obtain ⟨he, hp, hn, xb, xa, _, hx, mb, ma⟩ := in_list h s hr a pre post x ha
  unfold listReplace
  rw [he]
  refine ⟨rfl, ?_, ?_⟩
  · intro u
    show (if u = x then x else if u = (if x = y then h.prev x else h.prev x) then y else if u = y then h.next x else h.next u) = _
    rw [if_neg hy.symm, hp, hn]
  · intro u
    show (if u = x then x else if u = (if x = (if x = y then h.prev x else h.prev x) then y else if x = y then h.next x else h.next x)
      then y else if u = y then h.prev x else h.prev u) = _
    rw [if_neg hy.symm, if_neg hy.symm, hp, hn, if_neg xb]

theorem rep_replace (h : Heap) (s : Seqs) (hr : Rep h s) (a : Nat) (pre post : List Nat) (x y : Nat)
    (ha : s a = some (pre ++ x :: post)) (hf : FreeItem s y) :
    (listReplace h x y).2 = true ∧
    Rep (listReplace h x y).1 (((s.put y none).put x (some [])).put a (some (pre ++ y :: post))) := by
  have hya : y ≠ a := by
    intro e; subst e
    rcases hf.2 with e | ⟨e, _⟩
    · rw [ha] at e; simp at e
    · rw [ha] at e; cases e
  have hyn := free_disjoint h s hr y hf a _ ha hya.symm
  have hyx : y ≠ x := fun e => hyn (by simp [e])
  have hyn2 : y ∉ a :: (pre ++ post) := by
    intro e
    apply hyn
    rcases List.mem_cons.mp e with e | e
    · simp [e]
    · rcases List.mem_append.mp e with e | e <;> simp [e]
  obtain ⟨r1, rn, rp⟩ := replace_spec h s hr a pre post x y ha hyx hyn2
  refine ⟨r1, ?_⟩
  obtain ⟨_, en, ep⟩ := remove_spec h s hr a pre post x ha
  obtain ⟨he, hp, hn, xb, xa, hxa, hx, mb, ma⟩ := in_list h s hr a pre post x ha
  have hr1 := rep_remove h s hr a pre post x ha
  have ha1 : ((s.put x (some [])).put a (some (pre ++ post))) a = some (pre ++ post) := put_same _ _ _
  have hf1 : FreeItem ((s.put x (some [])).put a (some (pre ++ post))) y := by
    refine ⟨hf.1, ?_⟩
    rw [put_ne _ _ _ _ hya, put_ne _ _ _ _ hyx]
    rcases hf.2 with e | ⟨e, e2⟩
    · exact .inl e
    · refine .inr ⟨e, ?_⟩
      intro b ys hb
      by_cases e3 : b = a
      · subst e3; rw [put_same] at hb; cases hb
        exact fun h => hyn2 (List.mem_cons_of_mem _ h)
      · rw [put_ne _ _ _ _ e3] at hb
        by_cases e4 : b = x
        · subst e4; rw [put_same] at hb; cases hb; simp
        · rw [put_ne _ _ _ _ e4] at hb; exact e2 b ys hb
  have hyb : y ≠ before a pre := fun e => hyn2 (e ▸ mb)
  have hyaf : y ≠ after a post := fun e => hyn2 (e ▸ ma)
  have := rep_put (listRemove h x).1 (listReplace h x y).1 _ hr1 a pre post y ha1 hf1 hya
    (by
      intro u hu
      have huy : u ≠ y := fun e => hu (by simp [e])
      have hub : u ≠ before a pre := fun e => hu (List.mem_cons_of_mem _ (e ▸ mb))
      have hua : u ≠ after a post := fun e => hu (List.mem_cons_of_mem _ (e ▸ ma))
      rw [rn, rp, en, ep, if_neg hub, if_neg huy, if_neg hua, if_neg huy, if_neg hub, if_neg hua]
      exact ⟨rfl, rfl⟩)
    (by
      intro u hu hub
      have huy : u ≠ y := fun e => hyn2 (e ▸ hu)
      rw [rn, en, if_neg hub, if_neg huy, if_neg hub])
    (by
      intro u hu hua
      have huy : u ≠ y := fun e => hyn2 (e ▸ hu)
      rw [rp, ep, if_neg hua, if_neg huy, if_neg hua])
    ⟨by rw [rn, if_neg xb.symm, if_pos rfl], by rw [rp, if_neg hyx, if_neg hyaf, if_pos rfl]⟩
    ⟨by rw [rn, if_neg hyx, if_neg hyb, if_pos rfl], by rw [rp, if_neg xa.symm, if_pos rfl]⟩
  have heq : ((((s.put x (some [])).put a (some (pre ++ post))).put y none).put a (some (pre ++ y :: post))) =
      (((s.put y none).put x (some [])).put a (some (pre ++ y :: post))) := by
    funext u
    unfold Seqs.put
    by_cases e1 : u = a
    · rw [if_pos e1, if_pos e1]
    · rw [if_neg e1, if_neg e1, if_neg e1]
      by_cases e2 : u = y
      · rw [if_pos e2, if_pos e2, if_neg (fun e => hyx (e2 ▸ e))]
      · rw [if_neg e2, if_neg e2]
  rw [heq] at this
  exact this

theorem rep_init (h : Heap) (s : Seqs) (hr : Rep h s) (a : Nat) (hf : FreeItem s a) :
    Rep (listInit h a) (s.put a (some [])) := by
  have hn : ∀ u, (listInit h a).next u = if u = a then a else h.next u := fun _ => rfl
  have hp : ∀ u, (listInit h a).prev u = if u = a then a else h.prev u := fun _ => rfl
  have key : ∀ b ys, (s.put a (some [])) b = some ys → (b = a ∧ ys = []) ∨ (b ≠ a ∧ s b = some ys) := by
    intro b ys hb
    by_cases e : b = a
    · subst e; rw [put_same] at hb; cases hb; exact .inl ⟨rfl, rfl⟩
    · rw [put_ne _ _ _ _ e] at hb; exact .inr ⟨e, hb⟩
  apply rep_of h _ s _ hr [a]
  · intro u hu
    have : u ≠ a := fun e => hu (by simp [e])
    rw [hn, hp, if_neg this, if_neg this]
    exact ⟨rfl, rfl⟩
  · intro b ys hb
    rcases key b ys hb with ⟨rfl, rfl⟩ | ⟨e1, e2⟩
    · right
      refine ⟨fun u hu => hu, hf.1, by simp, by simp, ?_⟩
      show [b, b].IsChain _
      rw [List.isChain_cons_cons]
      exact ⟨⟨by rw [hn, if_pos rfl], by rw [hp, if_pos rfl]⟩, List.IsChain.singleton _⟩
    · left
      refine ⟨e2, ?_⟩
      intro u hu hT
      rw [List.mem_singleton] at hT
      subst hT
      exact free_disjoint h s hr u hf b ys e2 e1 hu
  · intro b ys c zs hb hc hbT hcT hbc y hy
    rcases key b ys hb with ⟨rfl, rfl⟩ | ⟨e1, e2⟩
    · cases hy
    · exact absurd (List.mem_singleton.mp (hbT b (by simp))) e1
  · intro b ys hb y hy
    rcases key b ys hb with ⟨rfl, rfl⟩ | ⟨e1, e2⟩
    · cases hy
    · have : y ≠ a := by
        intro e; subst e
        exact free_disjoint h s hr y hf b ys e2 e1 (by simp [hy])
      rw [put_ne _ _ _ _ this]
      exact hr.member b ys e2 y hy

theorem empty_ring (h : Heap) (s : Seqs) (hr : Rep h s) (a : Nat) (ha : s a = some []) :
    listIsEmpty h a = true ∧ listRemove h a = (h, false) := by
  obtain ⟨h1, h2⟩ := ring_head h a [] (hr.ring a _ ha)
  rw [after_nil] at h1
  rw [before_nil] at h2
  have he : listIsEmpty h a = true := by unfold listIsEmpty; rw [h1, h2]; simp
  refine ⟨he, ?_⟩
  unfold listRemove
  rw [he]
  simp

theorem nonempty_ring (h : Heap) (s : Seqs) (hr : Rep h s) (a : Nat) (xs : List Nat) (ha : s a = some xs) (hne : xs ≠ []) :
    listIsEmpty h a = false ∧ h.next a ≠ 0 ∧ h.prev a ≠ 0 := by
  obtain ⟨h1, h2⟩ := ring_head h a xs (hr.ring a _ ha)
  have hnd := hr.nodup a xs ha
  have hnz := hr.nonzero a xs ha
  cases xs with
  | nil => exact absurd rfl hne
  | cons x xs =>
    rw [after_cons] at h1
    have hx : x ≠ a := by
      intro e; subst e
      exact (List.nodup_cons.mp hnd).1 (by simp)
    have hx0 : x ≠ 0 := fun e => hnz.2 (by simp [e])
    have hb0 : before a (x :: xs) ≠ 0 := by
      intro e
      have := before_mem a (x :: xs)
      rw [e] at this
      rcases List.mem_cons.mp this with e2 | e2
      · exact hnz.1 e2.symm
      · exact hnz.2 e2
    refine ⟨?_, by rw [h1]; exact hx0, by rw [h2]; exact hb0⟩
    unfold listIsEmpty
    rw [h1]
    simp [hx, hx0]

/-- C48: each operation does to the sequences what it says, and returns the right result -/
theorem list_step (h : Heap) (s s' : Seqs) (op : LOp) (r : Nat) (hr : Rep h s) (hs : SeqStep op s r s') :
    Rep (runOp h op).1 s' ∧ (runOp h op).2 = r := by
  cases hs with
  | init _ a hf => exact ⟨rep_init h s hr a hf, rfl⟩
  | insert _ a xs x ha hf hx => exact ⟨rep_insert h s hr a xs x ha hf hx, rfl⟩
  | append _ a xs x ha hf hx => exact ⟨rep_append h s hr a xs x ha hf hx, rfl⟩
  | remove _ a pre x post ha =>
    refine ⟨rep_remove h s hr a pre post x ha, ?_⟩
    show (if (listRemove h x).2 = true then 1 else 0) = 1
    rw [(remove_spec h s hr a pre post x ha).1]; rfl
  | removeNone _ x hx =>
    have := (empty_ring h s hr x hx).2
    refine ⟨?_, ?_⟩
    · show Rep (listRemove h x).1 s; rw [this]; exact hr
    · show (if (listRemove h x).2 = true then 1 else 0) = 0; rw [this]; rfl
  | removeHead _ a x xs ha =>
    obtain ⟨e1, e2, _⟩ := nonempty_ring h s hr a _ ha (by simp)
    have hn : h.next a = r := by
      have := (ring_head h a _ (hr.ring a _ ha)).1
      rw [this, after_cons]
    have hrun : listRemoveHead h a = ((listRemove h r).1, r) := by
      unfold listRemoveHead
      rw [e1, if_neg (by simp), if_neg e2, hn]
    show Rep (listRemoveHead h a).1 _ ∧ (listRemoveHead h a).2 = r
    rw [hrun]
    exact ⟨rep_remove h s hr a [] xs r ha, rfl⟩
  | removeHeadNone _ a ha =>
    have hrun : listRemoveHead h a = (h, 0) := by
      unfold listRemoveHead
      rw [(empty_ring h s hr a ha).1, if_pos rfl]
    show Rep (listRemoveHead h a).1 _ ∧ (listRemoveHead h a).2 = 0
    rw [hrun]
    exact ⟨hr, rfl⟩
  | removeTail _ a x xs ha =>
    obtain ⟨e1, _, e2⟩ := nonempty_ring h s hr a _ ha (by simp)
    have hn : h.prev a = r := by
      have := (ring_head h a _ (hr.ring a _ ha)).2
      rw [this, before_append]
    have hrun : listRemoveTail h a = ((listRemove h r).1, r) := by
      unfold listRemoveTail
      rw [e1, if_neg (by simp), if_neg e2, hn]
    show Rep (listRemoveTail h a).1 _ ∧ (listRemoveTail h a).2 = r
    rw [hrun]
    have := rep_remove h s hr a xs [] r ha
    rw [List.append_nil] at this
    exact ⟨this, rfl⟩
  | removeTailNone _ a ha =>
    have hrun : listRemoveTail h a = (h, 0) := by
      unfold listRemoveTail
      rw [(empty_ring h s hr a ha).1, if_pos rfl]
    show Rep (listRemoveTail h a).1 _ ∧ (listRemoveTail h a).2 = 0
    rw [hrun]
    exact ⟨hr, rfl⟩
  | replace _ a pre x post y ha hf =>
    obtain ⟨r1, r2⟩ := rep_replace h s hr a pre post x y ha hf
    refine ⟨r2, ?_⟩
    show (if (listReplace h x y).2 = true then 1 else 0) = 1
    rw [r1]; rfl
  | replaceNone _ x y hx =>
    have : listReplace h x y = (h, false) := by
      unfold listReplace
      rw [(empty_ring h s hr x hx).1]
      simp
    refine ⟨?_, ?_⟩
    · show Rep (listReplace h x y).1 s; rw [this]; exact hr
    · show (if (listReplace h x y).2 = true then 1 else 0) = 0; rw [this]; rfl

theorem list_steps (ops : List LOp) (s s' : Seqs) (rs : List Nat) (hs : SeqSteps ops s rs s') : ∀ h, Rep h s →
    Rep (runOps h ops).1 s' ∧ (runOps h ops).2 = rs := by
  induction hs with
  | nil s => intro h hr; exact ⟨hr, rfl⟩
  | cons op ops s r s' rs s'' h1 _ ih =>
    intro h hr
    obtain ⟨a, b⟩ := list_step h s s' op r hr h1
    obtain ⟨c, d⟩ := ih _ a
    refine ⟨c, ?_⟩
    show _ :: _ = _
    rw [b, d]

/-- no lists at all -/
def noLists : Seqs := fun _ => none

theorem rep_start (h : Heap) : Rep h noLists :=
  ⟨(fun _ _ h => nomatch h), (fun _ _ h => nomatch h), (fun _ _ h => nomatch h), (fun _ _ h => nomatch h),
    (fun _ _ _ _ h => nomatch h)⟩

theorem visit_ring (h : Heap) (a : Nat) : ∀ (xs : List Nat) (pre : List Nat) (fuel : Nat), a ∉ xs →
    ((before a pre) :: (xs ++ [a])).IsChain (Link h) → xs.length < fuel → visit h a fuel (after a xs) = some xs := by
  intro xs
  induction xs with
  | nil =>
    intro pre fuel _ _ hf
    cases fuel with
    | zero => simp at hf
    | succ fuel =>
      rw [after_nil]
      unfold visit
      rw [if_pos rfl]
  | cons x xs ih =>
    intro pre fuel ha hc hf
    cases fuel with
    | zero => simp at hf
    | succ fuel =>
      rw [after_cons]
      unfold visit
      have hx : x ≠ a := fun e => ha (by simp [e])
      rw [if_neg hx]
      have hc2 : (x :: (xs ++ [a])).IsChain (Link h) := by
        rw [List.cons_append] at hc
        exact (List.isChain_cons_cons.mp hc).2
      have hnext : h.next x = after a xs := by
        cases xs with
        | nil => exact (List.isChain_cons_cons.mp hc2).1.1
        | cons y ys => exact (List.isChain_cons_cons.mp hc2).1.1
      rw [hnext, ih (pre ++ [x]) fuel (fun h => ha (List.mem_cons_of_mem _ h)) (by rw [before_append]; exact hc2)
        (by rw [List.length_cons] at hf; omega)]
      rfl

theorem foreach_ring (h : Heap) (s : Seqs) (hr : Rep h s) (a : Nat) (xs : List Nat) (ha : s a = some xs) (fuel : Nat)
    (hf : xs.length < fuel) : listForeach h a fuel = some xs := by
  unfold listForeach
  rw [(ring_head h a xs (hr.ring a xs ha)).1]
  exact visit_ring h a xs [] fuel (List.nodup_cons.mp (hr.nodup a xs ha)).1 (hr.ring a xs ha) hf

/-- C48: after any history of operations on any number of lists, in any memory, every operation returned what it should, and
going through a list visits exactly its items in order -/
theorem lists_refine (h : Heap) (ops : List LOp) (rs : List Nat) (s : Seqs) (hs : SeqSteps ops noLists rs s) :
    (runOps h ops).2 = rs ∧
    ∀ a xs, s a = some xs → (∀ fuel, xs.length < fuel → listForeach (runOps h ops).1 a fuel = some xs) ∧
      (listIsEmpty (runOps h ops).1 a = true ↔ xs = []) := by
  obtain ⟨h1, h2⟩ := list_steps ops noLists s rs hs h (rep_start h)
  refine ⟨h2, ?_⟩
  intro a xs ha
  refine ⟨fun fuel hf => foreach_ring _ s h1 a xs ha fuel hf, ?_⟩
  constructor
  · intro he
    by_cases hx : xs = []
    · exact hx
    · rw [(nonempty_ring _ s h1 a xs ha hx).1] at he; cases he
  · intro hx
    subst hx
    exact (empty_ring _ s h1 a ha).1

theorem visitSafe_remove (a : Nat) : ∀ (xs : List Nat) (h : Heap) (s : Seqs), Rep h s → s a = some xs →
    ∀ fuel, xs.length < fuel →
    ∃ h', visitSafe (fun x h => (listRemove h x).1) a fuel (after a xs) (h.next (after a xs)) h = some (xs, h') ∧
      ∃ s', Rep h' s' ∧ s' a = some [] := by
  intro xs
  induction xs with
  | nil =>
    intro h s hr ha fuel hf
    cases fuel with
    | zero => simp at hf
    | succ fuel =>
      refine ⟨h, ?_, s, hr, ha⟩
      unfold visitSafe
      rw [after_nil, if_pos rfl]
  | cons x xs ih =>
    intro h s hr ha fuel hf
    cases fuel with
    | zero => simp at hf
    | succ fuel =>
      rw [after_cons]
      have hxa : x ≠ a := by
        intro e; subst e
        exact (List.nodup_cons.mp (hr.nodup x _ ha)).1 (by simp)
      have hn : h.next x = after a xs := (ring_item h a [] xs x (hr.ring a _ ha)).2.1
      have hr1 := rep_remove h s hr a [] xs x ha
      have ha1 : ((s.put x (some [])).put a (some xs)) a = some xs := put_same _ _ _
      obtain ⟨h', e1, e2⟩ := ih (listRemove h x).1 _ hr1 ha1 fuel (by rw [List.length_cons] at hf; omega)
      refine ⟨h', ?_, e2⟩
      unfold visitSafe
      rw [if_neg hxa, hn, e1]
      rfl

/-- C48: going through a list with `list_foreach_safe`, removing each item, visits all items in order and empties the list -/
theorem foreach_safe_remove (h : Heap) (s : Seqs) (hr : Rep h s) (a : Nat) (xs : List Nat) (ha : s a = some xs) (fuel : Nat)
    (hf : xs.length < fuel) :
    ∃ h', listForeachSafe (fun x h => (listRemove h x).1) h a fuel = some (xs, h') ∧ listIsEmpty h' a = true := by
  obtain ⟨h', e1, s', e2, e3⟩ := visitSafe_remove a xs h s hr ha fuel hf
  refine ⟨h', ?_, (empty_ring h' s' e2 a e3).1⟩
  unfold listForeachSafe
  rw [(ring_head h a xs (hr.ring a xs ha)).1]
  exact e1

/-- two lists, at 1 and 2, with items 10, 11, 12; 11 moves to the other list and 13 takes the place of 10 -/
example : let ops := [.init 1, .init 2, .append 1 10, .append 1 11, .insert 1 12, .remove 11, .insert 2 11, .replace 10 13,
      .removeHead 1]
    (runOps ⟨fun _ => 0, fun _ => 0⟩ ops).2 = [0, 0, 0, 0, 0, 1, 0, 1, 12] ∧
    listForeach (runOps ⟨fun _ => 0, fun _ => 0⟩ ops).1 1 5 = some [13] ∧
    listForeach (runOps ⟨fun _ => 0, fun _ => 0⟩ ops).1 2 5 = some [11] := by decide +kernel

end Strace.Misc
