import Verif.Sock.Props
/-!
# AX.25 addresses: the text and the bytes
-/
namespace Strace.Sock
open Strace.Sized (Byte)

/-- a character of a call sign -/
def Alnum (c : Nat) : Prop := (48 ≤ c ∧ c ≤ 57) ∨ (65 ≤ c ∧ c ≤ 90)

theorem checkLoop_cons (x : Byte) (l : List Byte) (s : Style) (space chr : Bool) :
    checkLoop (x :: l) s space chr =
      if x.val / 2 < 32 ∨ x.val / 2 > 126 ∨ x.val / 2 = 42 ∨ x.val / 2 = 47 then none
      else checkLoop l
        (if x.val / 2 ≠ 32 ∧ (if x.val / 2 = 32 then true else space) = true then .verbose
         else if (x.val / 2 < 48 ∨ x.val / 2 > 57) ∧ (x.val / 2 < 65 ∨ x.val / 2 > 90) ∧ x.val / 2 ≠ 32 then .verbose
         else if x.val % 2 = 1 then .verbose else s)
        (if x.val / 2 = 32 then true else space) (if x.val / 2 = 32 then chr else true) := rfl

theorem checkLoop_verbose : ∀ (l : List Byte) (space chr c : Bool), checkLoop l .verbose space chr ≠ some (.dflt, c)
  | [], _, _, _ => by simp [checkLoop]
  | x :: l, space, chr, c => by
    rw [checkLoop_cons]
    split
    · simp
    · rw [show (if x.val / 2 ≠ 32 ∧ (if x.val / 2 = 32 then true else space) = true then Style.verbose
         else if (x.val / 2 < 48 ∨ x.val / 2 > 57) ∧ (x.val / 2 < 65 ∨ x.val / 2 > 90) ∧ x.val / 2 ≠ 32 then .verbose
         else if x.val % 2 = 1 then .verbose else .verbose) = .verbose from by simp]
      exact checkLoop_verbose l _ _ _

/-- one character of an address that is written in its native form -/
theorem checkLoop_step (x : Byte) (l : List Byte) (space chr c : Bool)
    (h : checkLoop (x :: l) .dflt space chr = some (.dflt, c)) :
    (x.val = 64 ∧ checkLoop l .dflt true chr = some (.dflt, c)) ∨
    (space = false ∧ Alnum (x.val / 2) ∧ x.val % 2 = 0 ∧ checkLoop l .dflt false true = some (.dflt, c)) := by
  rw [checkLoop_cons] at h
  by_cases hbad : x.val / 2 < 32 ∨ x.val / 2 > 126 ∨ x.val / 2 = 42 ∨ x.val / 2 = 47
  · rw [if_pos hbad] at h; simp at h
  rw [if_neg hbad] at h
  by_cases h32 : x.val / 2 = 32
  · left
    have e1 : (if x.val / 2 = 32 then true else space) = true := if_pos h32
    have e2 : (if x.val / 2 = 32 then chr else true) = chr := if_pos h32
    rw [e1, e2, if_neg (by simp [h32]), if_neg (by omega)] at h
    by_cases hodd : x.val % 2 = 1
    · rw [if_pos hodd] at h; exact absurd h (checkLoop_verbose _ _ _ _)
    · rw [if_neg hodd] at h; exact ⟨by omega, h⟩
  · right
    have e1 : (if x.val / 2 = 32 then true else space) = space := if_neg h32
    have e2 : (if x.val / 2 = 32 then chr else true) = true := if_neg h32
    rw [e1, e2] at h
    cases space with
    | true => rw [if_pos ⟨h32, rfl⟩] at h; exact absurd h (checkLoop_verbose _ _ _ _)
    | false =>
      rw [if_neg (by simp)] at h
      by_cases hal : (x.val / 2 < 48 ∨ x.val / 2 > 57) ∧ (x.val / 2 < 65 ∨ x.val / 2 > 90) ∧ x.val / 2 ≠ 32
      · rw [if_pos hal] at h; exact absurd h (checkLoop_verbose _ _ _ _)
      · rw [if_neg hal] at h
        by_cases hodd : x.val % 2 = 1
        · rw [if_pos hodd] at h; exact absurd h (checkLoop_verbose _ _ _ _)
        · rw [if_neg hodd] at h
          exact ⟨rfl, by unfold Alnum; omega, by omega, h⟩

theorem checkLoop_spaces : ∀ (l : List Byte) (chr c : Bool), checkLoop l .dflt true chr = some (.dflt, c) →
    l.map Fin.val = List.replicate l.length 64 ∧ c = chr
  | [], _, _, h => by simp [checkLoop] at h; simp [h]
  | x :: l, chr, c, h => by
    rcases checkLoop_step x l true chr c h with ⟨h1, h2⟩ | ⟨h1, _⟩
    · have := checkLoop_spaces l chr c h2
      refine ⟨?_, this.2⟩
      rw [List.map_cons, this.1, h1]; rfl
    · simp at h1

/-- the call sign of an address that is written in its native form -/
theorem checkLoop_call : ∀ (l : List Byte) (chr c : Bool), checkLoop l .dflt false chr = some (.dflt, c) →
    ∃ (p : List Nat) (k : Nat), l.map Fin.val = p.map (2 * ·) ++ List.replicate k 64 ∧ (∀ x ∈ p, Alnum x) ∧ c = (chr || !p.isEmpty)
  | [], chr, c, h => ⟨[], 0, rfl, by simp, by simp [checkLoop] at h; simp [h]⟩
  | x :: l, chr, c, h => by
    rcases checkLoop_step x l false chr c h with ⟨h1, h2⟩ | ⟨_, h1, h2, h3⟩
    · have := checkLoop_spaces l chr c h2
      refine ⟨[], l.length + 1, ?_, by simp, by simp [this.2]⟩
      rw [List.map_cons, this.1, h1]; rfl
    · obtain ⟨p, k, hp, ha, hc⟩ := checkLoop_call l true c h3
      refine ⟨x.val / 2 :: p, k, ?_, ?_, by simp at hc; simp [hc]⟩
      · rw [List.map_cons, hp, List.map_cons, List.cons_append]; congr 1; omega
      · intro y hy
        rcases List.mem_cons.1 hy with h | h
        · rw [h]; exact h1
        · exact ha y h

theorem getD_map_val (l : List Byte) (i : Nat) : (l.map Fin.val).getD i 0 = (l.getD i 0).val := by
  simp only [List.getD_eq_getElem?_getD, List.getElem?_map]
  cases l[i]? <;> rfl

theorem callEnd_eq (l : List Byte) : ∀ (n e : Nat), e ≤ n → (∀ i, e ≤ i → i < n → (l.getD i 0).val / 2 = 32) →
    (∀ i, i < e → (l.getD i 0).val / 2 ≠ 32) → callEnd l n = e
  | 0, e, h, _, _ => by simp [callEnd]; omega
  | n + 1, e, h, h1, h2 => by
    rw [callEnd]
    by_cases he : e = n + 1
    · rw [if_pos (h2 n (by omega)), he]
    · rw [if_neg (by have := h1 n (by omega) (by omega); omega)]
      exact callEnd_eq l n e (by omega) (fun i hi hn => h1 i hi (by omega)) h2

theorem callEnd_le (l : List Byte) : ∀ n, callEnd l n ≤ n
  | 0 => by simp [callEnd]
  | n + 1 => by
    rw [callEnd]; split
    · omega
    · have := callEnd_le l n; omega

theorem storeAll_eq : ∀ (t : List Nat) (s : List Char), s.length + t.length ≤ 11 →
    storeAll t s = some (s ++ t.map Char.ofNat)
  | [], s, _ => by simp [storeAll]
  | c :: t, s, h => by
    rw [List.length_cons] at h
    rw [storeAll, store, if_pos (by omega), Option.bind_some, storeAll_eq t _ (by rw [List.length_append, List.length_singleton]; omega)]
    simp

/-- the digits after the dash -/
def ssidText (n : Nat) : List Nat := if n > 9 then [49, n - 10 + 48] else [n + 48]

/-- the characters of an address -/
def callText (l : List Byte) : List Nat :=
  ((l.take (callEnd l 6)).map fun x => x.val / 2) ++ [45] ++ ssidText ((l.getD 6 0).val / 2 % 16)

theorem callText_len (l : List Byte) : (callText l).length ≤ 9 := by
  have h1 := callEnd_le l 6
  have h2 : (ssidText ((l.getD 6 0).val / 2 % 16)).length ≤ 2 := by unfold ssidText; split <;> simp
  simp only [callText, List.length_append, List.length_map, List.length_take, List.length_singleton]
  omega

/-- The text of an address always fits its buffer. -/
theorem addr2str_eq (l : List Byte) : addr2str l = some
    (if ((callText l).map Char.ofNat).head? = some '-' ∧ ((callText l).map Char.ofNat).tail.head? = some '0' then ['*']
     else (callText l).map Char.ofNat) := by
  have hl := callText_len l
  have he : addr2str l = (storeAll (callText l) []).bind fun s =>
      if s.length < 11 then some (if s.head? = some '-' ∧ s.tail.head? = some '0' then ['*'] else s) else none := rfl
  rw [he, storeAll_eq _ _ (by simp; omega), Option.bind_some, List.nil_append, if_pos (by rw [List.length_map]; omega)]

theorem callTok_some (x : Xl) (l : List Byte) : ∃ c, callTok x l = some c := by
  unfold callTok
  rw [addr2str_eq]
  split <;> exact ⟨_, rfl⟩

/-- an address whose native form is written alone -/
theorem native_form (l : List Byte) (hl : l.length = 7) (h : check l = .dflt) :
    ∃ (p : List Nat) (k s : Nat), l.map Fin.val = p.map (2 * ·) ++ List.replicate k 64 ++ [2 * s] ∧ (∀ x ∈ p, Alnum x) ∧ p.length + k = 6 ∧ s < 16 ∧
      callText l = p ++ [45] ++ ssidText s := by
  unfold check at h
  rcases hc : checkLoop (l.take 6) .dflt false false with _ | ⟨st, chr⟩
  · rw [hc] at h; simp at h
  · rw [hc] at h
    simp only at h
    by_cases h1 : (l.getD 6 0).val / 32 ≠ 0 ∨ (l.getD 6 0).val % 2 = 1
    · rw [if_pos h1] at h; split at h <;> simp at h
    · rw [if_neg h1] at h
      split at h
      · simp at h
      · subst h
        obtain ⟨p, k, hp, ha, _⟩ := checkLoop_call _ _ _ hc
        have hlen : p.length + k = 6 := by
          have := congrArg List.length hp
          simp only [List.length_map, List.length_take, hl, List.length_append, List.length_replicate] at this
          omega
        have hlast : l.map Fin.val = p.map (2 * ·) ++ List.replicate k 64 ++ [(l.getD 6 0).val] := by
          have : l = l.take 6 ++ [l.getD 6 0] := by
            conv_lhs => rw [← List.take_append_drop 6 l]
            congr 1
            rw [List.drop_eq_getElem_cons (by omega), List.drop_eq_nil_of_le (by omega)]
            rw [List.getD_eq_getElem?_getD, List.getElem?_eq_getElem (by omega)]; rfl
          exact (congrArg (List.map Fin.val) this).trans (by rw [List.map_append, hp]; rfl)
        have hs : (l.getD 6 0).val = 2 * ((l.getD 6 0).val / 2) := by omega
        have hs16 : (l.getD 6 0).val / 2 < 16 := by omega
        have hget : ∀ i, i < 6 → (l.getD i 0).val = (p.map (2 * ·) ++ List.replicate k 64).getD i 0 := by
          intro i hi
          rw [← getD_map_val, hlast]
          simp only [List.getD_eq_getElem?_getD]
          rw [List.getElem?_append_left (by simp; omega)]
        have hend : callEnd l 6 = p.length := by
          apply callEnd_eq
          · omega
          · intro i hi hi6
            rw [hget i hi6, List.getD_eq_getElem?_getD, List.getElem?_append_right (by simpa using hi)]
            rw [List.getElem?_replicate, if_pos (by simp; omega)]; rfl
          · intro i hi
            rw [hget i (by omega), List.getD_eq_getElem?_getD, List.getElem?_append_left (by simpa using hi)]
            rw [List.getElem?_map, List.getElem?_eq_getElem hi]
            have := ha _ (List.getElem_mem hi)
            unfold Alnum at this
            simp only [Option.map_some, Option.getD_some]; omega
        refine ⟨p, k, (l.getD 6 0).val / 2, by rw [← hs]; exact hlast, ha, hlen, hs16, ?_⟩
        unfold callText
        rw [hend, Nat.mod_eq_of_lt hs16]
        congr 2
        have h2 : ((l.take p.length).map Fin.val) = p.map (2 * ·) := by
          rw [List.map_take, hlast, List.append_assoc, List.take_append_of_le_length (by simp), List.take_of_length_le (by simp)]
        have h3 : (l.take p.length).map (fun x => x.val / 2) = ((l.take p.length).map Fin.val).map (· / 2) := by
          rw [List.map_map]; rfl
        rw [h3, h2, List.map_map]
        conv_rhs => rw [← List.map_id p]
        apply List.map_congr_left
        intro x _
        simp

theorem split_dash : ∀ (p q d e : List Nat), p ++ 45 :: d = q ++ 45 :: e → 45 ∉ p → 45 ∉ q → p = q ∧ d = e
  | [], [], d, e, h, _, _ => by simp at h; exact ⟨rfl, h⟩
  | [], y :: q, d, e, h, _, hq => by simp at h; exact absurd (by simp [h.1]) hq
  | x :: p, [], d, e, h, hp, _ => by simp at h; exact absurd (by simp [h.1]) hp
  | x :: p, y :: q, d, e, h, hp, hq => by
    simp only [List.cons_append, List.cons.injEq] at h
    have := split_dash p q d e h.2 (fun h => hp (by simp [h])) (fun h => hq (by simp [h]))
    exact ⟨by rw [h.1, this.1], this.2⟩

theorem ssidText_inj (a b : Nat) (ha : a < 16) (hb : b < 16) (h : ssidText a = ssidText b) : a = b := by
  unfold ssidText at h
  split at h <;> split at h <;> simp at h <;> omega

theorem toNat_ofNat : ∀ a, a < 128 → (Char.ofNat a).toNat = a := by decide +kernel

theorem ofNat_inj (a b : Nat) (ha : a < 128) (hb : b < 128) (h : Char.ofNat a = Char.ofNat b) : a = b := by
  have h1 : (Char.ofNat a).toNat = a := toNat_ofNat a ha
  have h2 : (Char.ofNat b).toNat = b := toNat_ofNat b hb
  rw [← h1, ← h2, h]

theorem map_ofNat_inj : ∀ (p q : List Nat), (∀ x ∈ p, x < 128) → (∀ x ∈ q, x < 128) → p.map Char.ofNat = q.map Char.ofNat → p = q
  | [], [], _, _, _ => rfl
  | [], _ :: _, _, _, h => by simp at h
  | _ :: _, [], _, _, h => by simp at h
  | x :: p, y :: q, hp, hq, h => by
    simp only [List.map_cons, List.cons.injEq] at h
    rw [ofNat_inj x y (hp x (by simp)) (hq y (by simp)) h.1,
      map_ofNat_inj p q (fun z hz => hp z (by simp [hz])) (fun z hz => hq z (by simp [hz])) h.2]

theorem ssidText_digit (s : Nat) (h : s < 16) : ∀ x ∈ ssidText s, 48 ≤ x ∧ x ≤ 57 := by
  unfold ssidText; intro x hx; split at hx <;> simp at hx <;> omega

/-- the characters of an address whose native form is written alone -/
theorem callText_chars (p : List Nat) (s : Nat) (ha : ∀ x ∈ p, Alnum x) (hs : s < 16) :
    ∀ x ∈ p ++ [45] ++ ssidText s, (Alnum x ∨ x = 45) ∧ x < 128 := by
  intro x hx
  rw [List.mem_append, List.mem_append] at hx
  rcases hx with (h | h) | h
  · have := ha x h; exact ⟨Or.inl this, by unfold Alnum at this; omega⟩
  · simp at h; exact ⟨Or.inr h, by omega⟩
  · have := ssidText_digit s hs x h; exact ⟨Or.inl (Or.inl this), by omega⟩

theorem star_iff (p : List Nat) (s : Nat) (ha : ∀ x ∈ p, Alnum x) (hs : s < 16) :
    (((p ++ [45] ++ ssidText s).map Char.ofNat).head? = some '-' ∧
      ((p ++ [45] ++ ssidText s).map Char.ofNat).tail.head? = some '0') ↔ p = [] ∧ s = 0 := by
  cases p with
  | nil =>
    have e : '-' = Char.ofNat 45 := rfl
    have e0 : '0' = Char.ofNat 48 := rfl
    constructor
    · rintro ⟨_, h⟩
      refine ⟨rfl, ?_⟩
      unfold ssidText at h
      split at h
      · exfalso
        simp only [List.nil_append, List.singleton_append, List.map_cons, List.tail_cons, List.head?_cons, Option.some.injEq] at h
        rw [e0] at h
        have := ofNat_inj _ _ (by omega) (by omega) h; omega
      · simp only [List.nil_append, List.singleton_append, List.map_cons, List.tail_cons, List.head?_cons, Option.some.injEq] at h
        rw [e0] at h
        have := ofNat_inj _ _ (by omega) (by omega) h; omega
    · rintro ⟨_, h⟩; subst h; decide
  | cons x p =>
    have hx := ha x (by simp)
    constructor
    · rintro ⟨h, _⟩
      exfalso
      simp only [List.cons_append, List.map_cons, List.head?_cons, Option.some.injEq] at h
      rw [show '-' = Char.ofNat 45 from rfl] at h
      unfold Alnum at hx
      have := ofNat_inj _ _ (by omega) (by omega) h; omega
    · rintro ⟨h, _⟩; simp at h

theorem alnum_no_dash (p : List Nat) (ha : ∀ x ∈ p, Alnum x) : 45 ∉ p := by
  intro h; have := ha 45 h; unfold Alnum at this; omega

/-- The native form of an AX.25 address determines its bytes. -/
theorem native_determines (l m : List Byte) (hl : l.length = 7) (hm : m.length = 7) (h1 : check l = .dflt) (h2 : check m = .dflt)
    (h : addr2str l = addr2str m) : l = m := by
  obtain ⟨p, k, s, hv, ha, hk, hs, ht⟩ := native_form l hl h1
  obtain ⟨q, j, t, hw, hb, hj, htt, hu⟩ := native_form m hm h2
  have key : p = q ∧ s = t := by
    rw [addr2str_eq, addr2str_eq, ht, hu, Option.some.injEq] at h
    have star : ∀ (p : List Nat) (s : Nat), (∀ x ∈ p, Alnum x) → s < 16 → ['*'] ≠ (p ++ [45] ++ ssidText s).map Char.ofNat := by
      intro p s ha hs he
      cases p with
      | nil =>
        have h45 : '*' = Char.ofNat 45 := by
          have := congrArg List.head? he
          simpa using this
        exact absurd h45 (by decide)
      | cons x p =>
        have := congrArg List.length he
        simp at this
    by_cases hp : p = [] ∧ s = 0
    · rw [if_pos ((star_iff p s ha hs).2 hp)] at h
      by_cases hq : q = [] ∧ t = 0
      · exact ⟨hp.1.trans hq.1.symm, hp.2.trans hq.2.symm⟩
      · rw [if_neg (fun hh => hq ((star_iff q t hb htt).1 hh))] at h
        exact absurd h (star q t hb htt)
    · rw [if_neg (fun hh => hp ((star_iff p s ha hs).1 hh))] at h
      by_cases hq : q = [] ∧ t = 0
      · rw [if_pos ((star_iff q t hb htt).2 hq)] at h
        exact absurd h.symm (star p s ha hs)
      · rw [if_neg (fun hh => hq ((star_iff q t hb htt).1 hh))] at h
        have := map_ofNat_inj _ _ (fun x hx => (callText_chars p s ha hs x hx).2) (fun x hx => (callText_chars q t hb htt x hx).2) h
        simp only [List.append_assoc, List.singleton_append] at this
        have := split_dash p q _ _ this (alnum_no_dash p ha) (alnum_no_dash q hb)
        exact ⟨this.1, ssidText_inj s t hs htt this.2⟩
  obtain ⟨e1, e2⟩ := key
  subst e1; subst e2
  have e3 : k = j := by omega
  subst e3
  exact (List.map_inj_right (fun _ _ h => Fin.ext h)).1 (hv.trans hw.symm)

/-- What is written for an AX.25 address determines its bytes, however constants are written. -/
theorem call_determines (x : Xl) (l m : List Byte) (hl : l.length = 7) (hm : m.length = 7) (h : callTok x l = callTok x m) : l = m := by
  unfold callTok at h
  have hd := native_determines l m hl hm
  obtain ⟨t, ht⟩ : ∃ t, addr2str l = some t := ⟨_, addr2str_eq l⟩
  obtain ⟨u, hu⟩ : ∃ t, addr2str m = some t := ⟨_, addr2str_eq m⟩
  rw [ht, hu] at h hd
  generalize check l = cl at *
  generalize check m = cm at *
  cases cl <;> cases cm <;> cases x <;> simp at h <;> first | exact h.1 | exact h | skip
  · exact hd rfl rfl (by rw [h])

/-- The text of an address in a comment does not end the comment: it is `*` alone or has neither `*` nor `/`. -/
theorem call_comment (x : Xl) (l m : List Byte) (s : List Char) (h : callTok x l = some (.both m s)) :
    s = ['*'] ∨ '*' ∉ s ∧ '/' ∉ s := by
  have hno : check l ≠ .raw → ∀ y ∈ l.take 6, y.val / 2 ≠ 42 ∧ y.val / 2 ≠ 47 := by
    intro hc
    have : ∀ (l : List Byte) (s : Style) (a b : Bool), checkLoop l s a b ≠ none → ∀ y ∈ l, y.val / 2 ≠ 42 ∧ y.val / 2 ≠ 47 := by
      intro l
      induction l with
      | nil => intro _ _ _ _ y hy; simp at hy
      | cons z l ih =>
        intro s a b hh y hy
        rw [checkLoop_cons] at hh
        by_cases hz : z.val / 2 < 32 ∨ z.val / 2 > 126 ∨ z.val / 2 = 42 ∨ z.val / 2 = 47
        · rw [if_pos hz] at hh; simp at hh
        · rw [if_neg hz] at hh
          rcases List.mem_cons.1 hy with h | h
          · subst h; omega
          · exact ih _ _ _ hh y h
    apply this
    intro hn
    apply hc
    unfold check; rw [hn]
  have hs : check l ≠ .raw ∧ addr2str l = some s := by
    unfold callTok at h
    obtain ⟨t, ht⟩ : ∃ t, addr2str l = some t := ⟨_, addr2str_eq l⟩
    rw [ht] at h ⊢
    generalize check l = c at *
    cases c <;> cases x <;> simp at h <;> exact ⟨by simp, by rw [h.2]⟩
  obtain ⟨hr, hs⟩ := hs
  rw [addr2str_eq, Option.some.injEq] at hs
  by_cases hst : ((callText l).map Char.ofNat).head? = some '-' ∧ ((callText l).map Char.ofNat).tail.head? = some '0'
  · rw [if_pos hst] at hs; exact Or.inl hs.symm
  · rw [if_neg hst] at hs
    right
    subst hs
    have hchar : ∀ c ∈ callText l, c < 128 ∧ c ≠ 42 ∧ c ≠ 47 := by
      intro c hc
      unfold callText at hc
      rw [List.mem_append, List.mem_append] at hc
      rcases hc with (h | h) | h
      · obtain ⟨y, hy, rfl⟩ := List.mem_map.1 h
        have hy6 : y ∈ l.take 6 := by
          have := callEnd_le l 6
          exact (List.take_subset_take_left l this) hy
        have := hno hr y hy6
        have := y.isLt
        omega
      · simp at h; omega
      · have := ssidText_digit _ (Nat.mod_lt _ (by decide)) c h; omega
    constructor
    · intro hm
      obtain ⟨c, hc, he⟩ := List.mem_map.1 hm
      have h1 := hchar c hc
      rw [show '*' = Char.ofNat 42 from rfl] at he
      have := ofNat_inj c 42 h1.1 (by decide) he; omega
    · intro hm
      obtain ⟨c, hc, he⟩ := List.mem_map.1 hm
      have h1 := hchar c hc
      rw [show '/' = Char.ofNat 47 from rfl] at he
      have := ofNat_inj c 47 h1.1 (by decide) he; omega

end Strace.Sock
