import Verif.Misc.Poke
import Verif.Misc.ListsProps
/-!
# C64: the data poked is the data of the rule
-/
namespace Strace.Misc

/-! ### the array of heads stays where it is -/

/-- what holds after some rules: memory represents one list per rule -/
structure PInv (B g0 : Nat) (rules : List (List (Nat × Payload))) (p : Pokes) (s : Seqs) : Prop where
  rep : Rep p.heap s
  base : p.cap ≠ 0 → p.base = B
  size : p.size = rules.length
  room : p.size ≤ p.cap ∧ p.size ≤ 2 ^ 16
  cap : p.cap = 0 ∨ g0 ≤ p.cap
  lists : ∀ i r, rules[i]? = some r → s (B + i) = some (r.reverse.map (·.1))
  heads : ∀ a xs, s a = some xs → ∃ i, i < p.size ∧ a = B + i
  pay : ∀ r ∈ rules, ∀ y ∈ r, p.pay y.1 = y.2

/-- addresses the allocator gives: not NULL, distinct, and outside of the array -/
def GoodAddrs (B : Nat) (rules : List (List (Nat × Payload))) : Prop :=
  (rules.flatten.map (·.1)).Nodup ∧ ∀ a ∈ rules.flatten.map (·.1), a ≠ 0 ∧ (a < B ∨ B + (2 ^ 17) ≤ a)

theorem items_of (B g0 : Nat) (rules : List (List (Nat × Payload))) (p : Pokes) (s : Seqs) (h : PInv B g0 rules p s) (a : Nat) (xs : List Nat)
    (ha : s a = some xs) : ∃ i r, rules[i]? = some r ∧ a = B + i ∧ xs = r.reverse.map (·.1) := by
  obtain ⟨i, h1, h2⟩ := h.heads a xs ha
  have hi : i < rules.length := by rw [← h.size]; exact h1
  have hg := List.getElem?_eq_getElem hi
  refine ⟨i, rules[i], hg, h2, ?_⟩
  have := h.lists i _ hg
  rw [← h2, ha] at this
  exact Option.some.inj this

theorem item_flat (rules : List (List (Nat × Payload))) (i : Nat) (r : List (Nat × Payload)) (hr : rules[i]? = some r) (x : Nat)
    (hx : x ∈ r.reverse.map (·.1)) : x ∈ rules.flatten.map (·.1) := by
  obtain ⟨y, hy, rfl⟩ := List.mem_map.mp hx
  exact List.mem_map_of_mem (List.mem_flatten.mpr ⟨r, List.mem_of_getElem? hr, List.mem_reverse.mp hy⟩)

theorem alloc_inv (B : Nat) (hB : B ≠ 0) (place grow : Nat → Nat) (hg : ∀ c, c < grow c)
    (hg2 : ∀ c, c ≤ 2 ^ 16 → grow c ≤ 2 ^ 17) (hgm : ∀ c, grow 0 ≤ c → grow 0 ≤ grow c) (rules : List (List (Nat × Payload)))
    (hp : rules.length = 0 ∨ grow 0 ≤ rules.length → place rules.length = B)
    (hga : GoodAddrs B rules) (p : Pokes) (s : Seqs) (h : PInv B (grow 0) rules p s) :
    (allocPokes place grow p = .die ∧ rules.length = 2 ^ 16) ∨
    ∃ q, allocPokes place grow p = .ok (rules.length, q) ∧ ∃ s', PInv B (grow 0) (rules ++ [[]]) q s' := by
  by_cases hover : p.size % 2 ^ 16 < p.size
  · left
    refine ⟨by unfold allocPokes; rw [if_pos hover], ?_⟩
    have h1 := h.room.2
    rw [← h.size]
    by_cases hlt : p.size < 2 ^ 16
    · rw [Nat.mod_eq_of_lt hlt] at hover; omega
    · omega
  · right
    have hr := h.room
    have hlt : p.size < 2 ^ 16 := by omega
    have hidx : p.size % 2 ^ 16 = p.size := Nat.mod_eq_of_lt hlt
    -- making room keeps the lists
    have hroom : Rep (makeRoom place grow p).heap s ∧ (makeRoom place grow p).base = B ∧
        (makeRoom place grow p).size = p.size ∧ p.size < (makeRoom place grow p).cap ∧ (makeRoom place grow p).pay = p.pay ∧
        grow 0 ≤ (makeRoom place grow p).cap := by
      unfold makeRoom
      by_cases hs : p.size = p.cap
      · have hpl : place p.cap = B := by
          have e1 := h.size
          have e2 := h.cap
          have := hp (by omega)
          rw [← e1, hs] at this
          exact this
        rw [if_pos hs, hpl]
        refine ⟨?_, rfl, rfl, ?_, rfl, ?_⟩
        · have hsame : ∀ u, ¬ (B + p.cap ≤ u ∧ u < B + grow p.cap) →
              (expandPokes B (grow p.cap) p).heap.next u = p.heap.next u ∧
              (expandPokes B (grow p.cap) p).heap.prev u = p.heap.prev u := by
            intro u hu
            show (if B ≤ u ∧ u < B + p.cap then p.heap.next (u - B + p.base) else
                if B + p.cap ≤ u ∧ u < B + grow p.cap then 0 else p.heap.next u) = _ ∧
              (if B ≤ u ∧ u < B + p.cap then p.heap.prev (u - B + p.base) else
                if B + p.cap ≤ u ∧ u < B + grow p.cap then 0 else p.heap.prev u) = _
            by_cases hin : B ≤ u ∧ u < B + p.cap
            · rw [if_pos hin, if_pos hin, h.base (by omega), show u - B + B = u from by omega]
              exact ⟨rfl, rfl⟩
            · rw [if_neg hin, if_neg hin, if_neg hu, if_neg hu]
              exact ⟨rfl, rfl⟩
          refine ⟨h.rep.nonzero, h.rep.nodup, ?_, h.rep.member, h.rep.apart⟩
          intro a xs ha
          apply ring_frame p.heap _ a xs (h.rep.ring a xs ha)
          intro u hu
          apply hsame
          obtain ⟨i, r, e1, e2, e3⟩ := items_of B _ rules p s h a xs ha
          have hi : i < rules.length := (List.getElem?_eq_some_iff.mp e1).1
          have hsz := h.size
          rcases List.mem_cons.mp hu with e | e
          · omega
          · rw [e3] at e
            have := hga.2 u (item_flat rules i r e1 u e)
            have := hg2 p.cap (by omega)
            omega
        · show p.size < grow p.cap
          have := hg p.cap
          omega
        · show grow 0 ≤ grow p.cap
          rcases h.cap with e | e
          · rw [e]
          · exact hgm _ e
      · rw [if_neg hs]
        exact ⟨h.rep, h.base (by omega), rfl, by omega, rfl, by have := h.cap; omega⟩
    obtain ⟨q1, q2, q3, q4, q5, q6⟩ := hroom
    have hnone : s (B + p.size) = none := by
      cases hx : s (B + p.size) with
      | none => rfl
      | some xs =>
        obtain ⟨i, h1, h2⟩ := h.heads _ xs hx
        omega
    have hfree : FreeItem s (B + p.size) := by
      refine ⟨by omega, .inr ⟨hnone, ?_⟩⟩
      intro a xs ha hx
      obtain ⟨i, r, e1, e2, e3⟩ := items_of B _ rules p s h a xs ha
      rw [e3] at hx
      have := (hga.2 _ (item_flat rules i r e1 _ hx)).2
      omega
    refine ⟨{ makeRoom place grow p with
      size := (makeRoom place grow p).size + 1
      heap := listInit (makeRoom place grow p).heap (B + p.size) }, ?_, s.put (B + p.size) (some []), ?_⟩
    · unfold allocPokes
      rw [if_neg hover]
      dsimp only
      rw [hidx, q2, h.size]
    · constructor
      · exact rep_init _ s q1 _ hfree
      · intro _; exact q2
      · show _ + 1 = _
        rw [q3, h.size, List.length_append]; rfl
      · show _ + 1 ≤ _ ∧ _ + 1 ≤ _
        rw [q3]
        exact ⟨q4, by omega⟩
      · exact .inr q6
      · intro i r hi
        by_cases hlt2 : i < rules.length
        · rw [List.getElem?_append_left hlt2] at hi
          have hsz := h.size
          rw [put_ne _ _ _ _ (by omega)]
          exact h.lists i r hi
        · have hi2 := (List.getElem?_eq_some_iff.mp hi).1
          rw [List.length_append, List.length_singleton] at hi2
          have hie : i = rules.length := by omega
          subst hie
          rw [List.getElem?_append_right (Nat.le_refl _), Nat.sub_self] at hi
          cases hi
          rw [h.size, put_same]
          rfl
      · intro a xs ha
        show ∃ i, i < _ + 1 ∧ _
        rw [q3]
        by_cases e : a = B + p.size
        · exact ⟨p.size, by omega, e⟩
        · rw [put_ne _ _ _ _ e] at ha
          obtain ⟨i, h1, h2⟩ := h.heads a xs ha
          exact ⟨i, by omega, h2⟩
      · intro r hr y hy
        show (makeRoom place grow p).pay y.1 = _
        rw [q5]
        rcases List.mem_append.mp hr with e | e
        · exact h.pay r e y hy
        · rw [List.mem_singleton] at e; subst e; cases hy

theorem flatten_last (rs : List (List (Nat × Payload))) (r : List (Nat × Payload)) : (rs ++ [r]).flatten = rs.flatten ++ r := by
  rw [List.flatten_append]; simp

theorem add_inv (B g0 fuel : Nat) (done : List (List (Nat × Payload))) (r : List (Nat × Payload)) (y : Nat × Payload)
    (hga : GoodAddrs B (done ++ [r ++ [y]])) (p : Pokes) (s : Seqs) (h : PInv B g0 (done ++ [r]) p s) (hf : r.length < fuel) :
    (pokeAdd fuel done.length y.1 y.2 p = .die ∧ ∃ z ∈ r, samePlace z.2 y.2 = true) ∨
    ∃ q, pokeAdd fuel done.length y.1 y.2 p = .ok q ∧ (∀ z ∈ r, samePlace z.2 y.2 = false) ∧
      ∃ s', PInv B g0 (done ++ [r ++ [y]]) q s' := by
  have hlen : p.size = done.length + 1 := by rw [h.size, List.length_append]; rfl
  have hroom := h.room
  have hcap : p.cap ≠ 0 := by omega
  have hbase := h.base hcap
  have hr : (done ++ [r])[done.length]? = some r := by
    rw [List.getElem?_append_right (Nat.le_refl _), Nat.sub_self]; rfl
  have hl := h.lists done.length r hr
  have hfe : listForeach p.heap (p.base + done.length) fuel = some (r.reverse.map (·.1)) := by
    rw [hbase]
    exact foreach_ring p.heap s h.rep _ _ hl fuel (by simpa using hf)
  have hpay : ∀ z ∈ r, p.pay z.1 = z.2 := fun z hz => h.pay r (by simp) z hz
  have hany : ((r.reverse.map (·.1)).any fun i => samePlace (p.pay i) y.2) = r.any fun z => samePlace z.2 y.2 := by
    rw [List.any_map, List.any_reverse]
    rw [Bool.eq_iff_iff, List.any_eq_true, List.any_eq_true]
    constructor
    · rintro ⟨z, hz, hs⟩
      refine ⟨z, hz, ?_⟩
      have hs' : samePlace (p.pay z.1) y.2 = true := hs
      rw [hpay z hz] at hs'
      exact hs'
    · rintro ⟨z, hz, hs⟩
      refine ⟨z, hz, ?_⟩
      show samePlace (p.pay z.1) y.2 = true
      rw [hpay z hz]
      exact hs
  by_cases hd : (r.any fun z => samePlace z.2 y.2) = true
  · left
    refine ⟨?_, ?_⟩
    · unfold pokeAdd
      rw [hfe]
      dsimp only
      rw [hany, if_pos hd]
    · obtain ⟨z, h1, h2⟩ := List.any_eq_true.mp hd
      exact ⟨z, h1, h2⟩
  · right
    have hd' : ∀ z ∈ r, samePlace z.2 y.2 = false := by
      intro z hz
      cases hc : samePlace z.2 y.2 with
      | false => rfl
      | true => exact absurd (List.any_eq_true.mpr ⟨z, hz, hc⟩) hd
    -- the address is fresh
    have hnd := hga.1
    rw [flatten_last, ← List.append_assoc, List.map_append, List.nodup_append] at hnd
    have hfresh : ∀ a ∈ (done.flatten ++ r).map (·.1), a ≠ y.1 := fun a ha => hnd.2.2 a ha y.1 (by simp)
    have hflat : (done ++ [r]).flatten = done.flatten ++ r := flatten_last done r
    have hya : y.1 ∈ (done ++ [r ++ [y]]).flatten.map (·.1) := by
      rw [flatten_last]; simp
    obtain ⟨hy0, hyr⟩ := hga.2 y.1 hya
    have hsy : s y.1 = none := by
      cases hx : s y.1 with
      | none => rfl
      | some xs =>
        obtain ⟨i, h1, h2⟩ := h.heads _ xs hx
        omega
    have hfree : FreeItem s y.1 := by
      refine ⟨hy0, .inr ⟨hsy, ?_⟩⟩
      intro a xs ha hx
      obtain ⟨i, r', e1, e2, e3⟩ := items_of B _ _ p s h a xs ha
      rw [e3] at hx
      have hm := item_flat _ i r' e1 _ hx
      rw [hflat] at hm
      exact hfresh _ hm rfl
    have hne : y.1 ≠ B + done.length := by omega
    refine ⟨{ p with heap := listInsert p.heap (p.base + done.length) y.1, pay := fun a => if a = y.1 then y.2 else p.pay a }, ?_, hd', ?_⟩
    · unfold pokeAdd
      rw [hfe]
      dsimp only
      rw [hany, if_neg hd]
    · refine ⟨(s.put y.1 none).put (B + done.length) (some (y.1 :: r.reverse.map (·.1))), ?_⟩
      constructor
      · show Rep (listInsert p.heap (p.base + done.length) y.1) _
        rw [hbase]
        exact rep_insert p.heap s h.rep _ _ y.1 hl hfree hne
      · exact h.base
      · show p.size = _
        rw [hlen, List.length_append]; rfl
      · exact h.room
      · exact h.cap
      · intro i r' hi
        by_cases hlt : i < done.length
        · rw [List.getElem?_append_left hlt] at hi
          rw [put_ne _ _ _ _ (by omega), put_ne _ _ _ _ (by omega)]
          apply h.lists i r'
          rw [List.getElem?_append_left hlt]; exact hi
        · have hi2 := (List.getElem?_eq_some_iff.mp hi).1
          rw [List.length_append, List.length_singleton] at hi2
          have hie : i = done.length := by omega
          subst hie
          rw [List.getElem?_append_right (Nat.le_refl _), Nat.sub_self] at hi
          cases hi
          rw [put_same]
          simp
      · intro a xs ha
        by_cases e : a = B + done.length
        · exact ⟨done.length, by show done.length < p.size; omega, e⟩
        · rw [put_ne _ _ _ _ e] at ha
          by_cases e2 : a = y.1
          · subst e2; rw [put_same] at ha; cases ha
          · rw [put_ne _ _ _ _ e2] at ha
            exact h.heads a xs ha
      · intro r' hr' z hz
        show (if z.1 = y.1 then y.2 else p.pay z.1) = z.2
        rcases List.mem_append.mp hr' with e | e
        · have hzm : z.1 ∈ (done.flatten ++ r).map (·.1) :=
            List.mem_map_of_mem (List.mem_append_left _ (List.mem_flatten.mpr ⟨r', e, hz⟩))
          rw [if_neg (hfresh _ hzm)]
          exact h.pay r' (by simp [e]) z hz
        · rw [List.mem_singleton] at e
          subst e
          rcases List.mem_append.mp hz with e2 | e2
          · have hzm : z.1 ∈ (done.flatten ++ r).map (·.1) := List.mem_map_of_mem (List.mem_append_right _ e2)
            rw [if_neg (hfresh _ hzm)]
            exact hpay z e2
          · rw [List.mem_singleton] at e2
            subst e2
            rw [if_pos rfl]

theorem good_prefix (B : Nat) (a b : List (List (Nat × Payload))) (h : ∃ c, b.flatten = a.flatten ++ c) (hg : GoodAddrs B b) :
    GoodAddrs B a := by
  obtain ⟨c, hc⟩ := h
  unfold GoodAddrs at hg ⊢
  rw [hc, List.map_append, List.nodup_append] at hg
  exact ⟨hg.1.1, fun x hx => hg.2 x (List.mem_append_left _ hx)⟩

/-- no two payloads of a rule are for the same argument at the same point -/
def NoDuplicate (r : List (Nat × Payload)) : Prop := r.Pairwise fun a b => ¬ (a.2.isEnter = b.2.isEnter ∧ a.2.argNo = b.2.argNo)

theorem samePlace_iff (a b : Payload) : samePlace a b = true ↔ a.isEnter = b.isEnter ∧ a.argNo = b.argNo := by
  unfold samePlace; simp

theorem all_inv (B g0 fuel : Nat) (done : List (List (Nat × Payload))) : ∀ (ys r : List (Nat × Payload)) (p : Pokes) (s : Seqs),
    GoodAddrs B (done ++ [r ++ ys]) → PInv B g0 (done ++ [r]) p s → r.length + ys.length < fuel → NoDuplicate r →
    (pokeAll fuel done.length ys p = .die ∧ ¬ NoDuplicate (r ++ ys)) ∨
    ∃ q, pokeAll fuel done.length ys p = .ok q ∧ NoDuplicate (r ++ ys) ∧ ∃ s', PInv B g0 (done ++ [r ++ ys]) q s' := by
  intro ys
  induction ys with
  | nil =>
    intro r p s _ h _ hn
    right
    exact ⟨p, rfl, by rw [List.append_nil]; exact hn, s, by rw [List.append_nil]; exact h⟩
  | cons y ys ih =>
    intro r p s hga h hf hn
    have e : r ++ y :: ys = (r ++ [y]) ++ ys := by simp
    rw [e] at hga ⊢
    have hga1 : GoodAddrs B (done ++ [r ++ [y]]) := by
      apply good_prefix B _ _ _ hga
      exact ⟨ys, by rw [flatten_last, flatten_last, List.append_assoc, List.append_assoc, List.append_assoc]⟩
    rw [List.length_cons] at hf
    rcases add_inv B g0 fuel done r y hga1 p s h (by omega) with ⟨d, z, z1, z2⟩ | ⟨q, e1, e2, s', e3⟩
    · left
      refine ⟨by show (pokeAdd fuel done.length y.1 y.2 p).bind _ = _; rw [d]; rfl, ?_⟩
      intro hc
      have := (List.pairwise_append.mp (List.pairwise_append.mp hc).1).2.2 z z1 y (by simp)
      exact this ((samePlace_iff _ _).mp z2)
    · have hn1 : NoDuplicate (r ++ [y]) := by
        unfold NoDuplicate
        rw [List.pairwise_append]
        refine ⟨hn, List.pairwise_singleton _ _, ?_⟩
        intro a ha b hb
        rw [List.mem_singleton] at hb; subst hb
        intro hc
        have := e2 a ha
        rw [(samePlace_iff _ _).mpr hc] at this
        cases this
      have step : pokeAll fuel done.length (y :: ys) p = pokeAll fuel done.length ys q := by
        show (pokeAdd fuel done.length y.1 y.2 p).bind _ = _; rw [e1]; rfl
      rw [step]
      exact ih (r ++ [y]) q s' hga e3 (by rw [List.length_append, List.length_singleton]; omega) hn1

theorem rules_inv (B : Nat) (hB : B ≠ 0) (place grow : Nat → Nat) (hg : ∀ c, c < grow c)
    (hg2 : ∀ c, c ≤ 2 ^ 16 → grow c ≤ 2 ^ 17) (hgm : ∀ c, grow 0 ≤ c → grow 0 ≤ grow c) (fuel : Nat) :
    ∀ (rs done : List (List (Nat × Payload))) (p : Pokes) (s : Seqs),
    (∀ c, c < (done ++ rs).length → c = 0 ∨ grow 0 ≤ c → place c = B) →
    GoodAddrs B (done ++ rs) → (∀ r ∈ rs, r.length < fuel) → PInv B (grow 0) done p s →
    (pokeRules place grow fuel rs p = .die ∧ (2 ^ 16 < (done ++ rs).length ∨ ∃ r ∈ rs, ¬ NoDuplicate r)) ∨
    ∃ q, pokeRules place grow fuel rs p = .ok q ∧ (∀ r ∈ rs, NoDuplicate r) ∧ ∃ s', PInv B (grow 0) (done ++ rs) q s' := by
  intro rs
  induction rs with
  | nil =>
    intro done p s _ _ _ h
    right
    exact ⟨p, rfl, fun r h => absurd h (by simp), s, by rw [List.append_nil]; exact h⟩
  | cons r rs ih =>
    intro done p s hp hga hf h
    have hgd : GoodAddrs B done := good_prefix B _ _ ⟨(r :: rs).flatten, by rw [List.flatten_append]⟩ hga
    have hgr : GoodAddrs B (done ++ [r]) := by
      apply good_prefix B _ _ _ hga
      exact ⟨rs.flatten, by rw [List.flatten_append, flatten_last, List.flatten_cons, List.append_assoc]⟩
    rcases alloc_inv B hB place grow hg hg2 hgm done (hp _ (by rw [List.length_append, List.length_cons]; omega)) hgd p s h with
      ⟨d, hl⟩ | ⟨q, e1, s1, e2⟩
    · left
      refine ⟨by show (allocPokes place grow p).bind _ = _; rw [d]; rfl, .inl ?_⟩
      rw [List.length_append, List.length_cons]; omega
    · have step : pokeRules place grow fuel (r :: rs) p =
          (pokeAll fuel done.length r q).bind fun q' => pokeRules place grow fuel rs q' := by
        show (allocPokes place grow p).bind _ = _
        rw [e1]; rfl
      rw [step]
      rcases all_inv B _ fuel done r [] q s1 hgr e2 (by have := hf r (by simp); simpa using this) List.Pairwise.nil with
        ⟨d, hd⟩ | ⟨q', f1, hd, s2, f2⟩
      · left
        exact ⟨by rw [d]; rfl, .inr ⟨r, by simp, hd⟩⟩
      · rw [f1]
        have := ih (done ++ [r]) q' s2 (by rw [List.append_assoc]; exact hp) (by rw [List.append_assoc]; exact hga)
          (fun x hx => hf x (by simp [hx])) f2
        rw [List.append_assoc] at this
        rcases this with ⟨t1, t2⟩ | ⟨q2, t1, t2, t3⟩
        · left
          refine ⟨t1, ?_⟩
          rcases t2 with t2 | ⟨x, hx, t2⟩
          · exact .inl t2
          · exact .inr ⟨x, by simp [hx], t2⟩
        · right
          refine ⟨q2, t1, ?_, t3⟩
          intro x hx
          rcases List.mem_cons.mp hx with e | e
          · rw [e]; exact hd
          · exact t2 x e

theorem grows_up (c : Nat) : c < grows c := by
  unfold grows; split <;> omega

theorem grows_le (c : Nat) (h : c ≤ 2 ^ 16) : grows c ≤ 2 ^ 17 := by
  unfold grows; split <;> omega

theorem grows_from (c : Nat) (h : grows 0 ≤ c) : grows 0 ≤ grows c := by
  have := grows_up c; omega

theorem pokes_kept_aux (B : Nat) (hB : B ≠ 0) (place : Nat → Nat) (fuel : Nat) (rs : List (List (Nat × Payload)))
    (hp : ∀ c, c < rs.length → c = 0 ∨ 8 ≤ c → place c = B) (hga : GoodAddrs B rs)
    (hf : ∀ r ∈ rs, r.length < fuel) (h0 : Heap) (pay0 : Nat → Payload) :
    (pokeRules place grows fuel rs (noPokes h0 pay0) = .die ∧ (2 ^ 16 < rs.length ∨ ∃ r ∈ rs, ¬ NoDuplicate r)) ∨
    ∃ q, pokeRules place grows fuel rs (noPokes h0 pay0) = .ok q ∧ (∀ r ∈ rs, NoDuplicate r) ∧
      ∀ i r, rs[i]? = some r → ∀ e, pokesOf fuel i e q = .ok ((r.reverse.map (·.2)).filter fun y => y.isEnter = e) := by
  have hstart : PInv B (grows 0) [] (noPokes h0 pay0) noLists := by
    refine ⟨rep_start _, fun h => absurd rfl h, rfl, ⟨Nat.le_refl _, Nat.zero_le _⟩, .inl rfl, ?_, ?_, ?_⟩
    · intro i r h; cases h
    · intro a xs h; cases h
    · intro r h; cases h
  rcases rules_inv B hB place grows grows_up grows_le grows_from fuel rs [] _ _ hp hga hf hstart with d | ⟨q, e1, hd, s, e2⟩
  · exact .inl d
  · right
    refine ⟨q, e1, hd, ?_⟩
    intro i r hi e
    rw [List.nil_append] at e2
    have hlt := (List.getElem?_eq_some_iff.mp hi).1
    have hsz := e2.size
    have hroom := e2.room
    unfold pokesOf
    rw [if_neg (by omega), e2.base (by omega),
      foreach_ring q.heap s e2.rep (B + i) _ (e2.lists i r hi) fuel (by simpa using hf r (List.mem_of_getElem? hi))]
    dsimp only
    congr 2
    rw [List.map_map]
    apply List.map_congr_left
    intro y hy
    exact e2.pay r (List.mem_of_getElem? hi) y (List.mem_reverse.mp hy)

/-- C64: as long as the array of list heads stays where it is, rules are refused only if there are more than 65536 or one pokes an
argument twice at the same point; otherwise each rule pokes its own payloads and no others.
Missing for the full property: `realloc` may move the array, see `pokes_lost`. -/
theorem pokes_kept_partial (B : Nat) (hB : B ≠ 0) (fuel : Nat) (rs : List (List (Nat × Payload))) (hga : GoodAddrs B rs)
    (hf : ∀ r ∈ rs, r.length < fuel) (h0 : Heap) (pay0 : Nat → Payload) :
    (pokeRules (fun _ => B) grows fuel rs (noPokes h0 pay0) = .die ∧ (2 ^ 16 < rs.length ∨ ∃ r ∈ rs, ¬ NoDuplicate r)) ∨
    ∃ q, pokeRules (fun _ => B) grows fuel rs (noPokes h0 pay0) = .ok q ∧ (∀ r ∈ rs, NoDuplicate r) ∧
      ∀ i r, rs[i]? = some r → ∀ e, pokesOf fuel i e q = .ok ((r.reverse.map (·.2)).filter fun y => y.isEnter = e) :=
  pokes_kept_aux B hB _ fuel rs (fun _ _ _ => rfl) hga hf h0 pay0

/-- C64: wherever `realloc` puts arrays, up to eight rules poke their own payloads and no others -/
theorem pokes_few (place : Nat → Nat) (hB : place 0 ≠ 0) (fuel : Nat) (rs : List (List (Nat × Payload))) (h8 : rs.length ≤ 8)
    (hga : GoodAddrs (place 0) rs) (hf : ∀ r ∈ rs, r.length < fuel) (h0 : Heap) (pay0 : Nat → Payload) :
    (pokeRules place grows fuel rs (noPokes h0 pay0) = .die ∧ ∃ r ∈ rs, ¬ NoDuplicate r) ∨
    ∃ q, pokeRules place grows fuel rs (noPokes h0 pay0) = .ok q ∧ (∀ r ∈ rs, NoDuplicate r) ∧
      ∀ i r, rs[i]? = some r → ∀ e, pokesOf fuel i e q = .ok ((r.reverse.map (·.2)).filter fun y => y.isEnter = e) := by
  have hp : ∀ c, c < rs.length → c = 0 ∨ 8 ≤ c → place c = place 0 := by
    intro c hc h
    rcases h with e | e
    · rw [e]
    · omega
  rcases pokes_kept_aux (place 0) hB place fuel rs hp hga hf h0 pay0 with ⟨d, e | e⟩ | ok
  · have : rs.length ≤ 2 ^ 16 := Nat.le_trans h8 (by decide)
    omega
  · exact .inl ⟨d, e⟩
  · exact .inr ok

/-! ### the array moves -/

/-- a rule poking one argument, with its payload at `a` -/
def oneRule (a : Nat) : List (Nat × Payload) := [(a, ⟨true, 1, [7]⟩)]

/-- the address of the array: at 1000 first, at 2000 when it grows -/
def moves (c : Nat) : Nat := if c = 0 then 1000 else 2000

/-- the memory after nine rules -/
def nineRules : Res Pokes :=
  pokeRules moves grows 3 ((List.range 9).map fun i => oneRule (i + 1)) (noPokes ⟨fun _ => 0, fun _ => 0⟩ fun _ => ⟨false, 0, []⟩)

/-- where the links of the first rule lead -/
def nineLinks : Res (Nat × Nat × Nat × Nat) :=
  nineRules.bind fun q => .ok (q.base, q.heap.next 2000, q.heap.next 1, q.heap.next 1000)

theorem nine_links : nineLinks = .ok (2000, 1, 1000, 1) := by decide +kernel

theorem never_ends (h : Heap) (h1 : h.next 1 = 1000) (h2 : h.next 1000 = 1) : ∀ fuel,
    visit h 2000 fuel 1 = none ∧ visit h 2000 fuel 1000 = none := by
  intro fuel
  induction fuel with
  | zero => exact ⟨rfl, rfl⟩
  | succ fuel ih =>
    constructor
    · show (if 1 = 2000 then some [] else (visit h 2000 fuel (h.next 1)).map (1 :: ·)) = none
      rw [if_neg (by decide), h1, ih.2]; rfl
    · show (if 1000 = 2000 then some [] else (visit h 2000 fuel (h.next 1000)).map (1000 :: ·)) = none
      rw [if_neg (by decide), h2, ih.1]; rfl

/-- C64 (finding): with nine rules the array of list heads grows; if it moves, the lists still lead to the old array, and
going through the first rule's payloads never ends -/
theorem pokes_lost : ∃ q, nineRules = .ok q ∧ ∀ fuel, pokesOf fuel 0 true q = .bad := by
  have hl := nine_links
  unfold nineLinks at hl
  cases hq : nineRules with
  | die => rw [hq] at hl; cases hl
  | bad => rw [hq] at hl; cases hl
  | ok q =>
    rw [hq] at hl
    have hl' : (q.base, q.heap.next 2000, q.heap.next 1, q.heap.next 1000) = (2000, 1, 1000, 1) := Res.ok.inj hl
    simp only [Prod.mk.injEq] at hl'
    obtain ⟨e1, e2, e3, e4⟩ := hl'
    refine ⟨q, rfl, ?_⟩
    intro fuel
    have hsz : ¬ 0 ≥ q.size := by
      have : (nineRules.bind fun q => .ok q.size) = .ok 9 := by decide +kernel
      rw [hq] at this
      have : q.size = 9 := Res.ok.inj this
      omega
    unfold pokesOf
    rw [if_neg hsz]
    have : listForeach q.heap (q.base + 0) fuel = none := by
      unfold listForeach
      rw [e1, Nat.add_zero, e2]
      exact (never_ends q.heap e3 e4 fuel).1
    rw [this]

/-- three rules in an array that stays -/
example : (pokeRules (fun _ => 1000) grows 5 [oneRule 1, [(2, ⟨true, 1, [8]⟩), (3, ⟨false, 1, [9]⟩)], oneRule 4]
      (noPokes ⟨fun _ => 0, fun _ => 0⟩ fun _ => ⟨false, 0, []⟩)).bind (pokesOf 5 1 false) = .ok [⟨false, 1, [9]⟩] := by
  decide +kernel

end Strace.Misc
