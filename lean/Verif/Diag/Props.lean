import Verif.Diag.Lemmas
/-! # Details of sockets: proofs -/
namespace Strace.Diag
open Strace.Sized Strace.Base

/-! ### What a parser says does not depend on the cache -/

/-- the effect of what a parser says -/
def effect (i : Nat) (c : Cache) : Int ⊕ Details → Cache × Int
  | .inl rc => (c, rc)
  | .inr d => (cacheAdd c i d, 1)

/-- the details in a message about an internet socket -/
def inetDet (name : String) (p : List Byte) : Details :=
  .inet name (decide (fld p 0 1 = 10)) ((p.drop 8).take (if fld p 0 1 = 2 then 4 else 16)) (fld p 4 1 * 256 + fld p 5 1)
    (if fld p 6 1 * 256 + fld p 7 1 ≠ 0 ∨
      (p.drop 24).take (if fld p 0 1 = 2 then 4 else 16) ≠ List.replicate (if fld p 0 1 = 2 then 4 else 16) 0
    then some ((p.drop 24).take (if fld p 0 1 = 2 then 4 else 16), fld p 6 1 * 256 + fld p 7 1) else none)

theorem inetParse_short (name : String) (i : Nat) (c : Cache) (p : List Byte) (hl : p.length < 72) :
    inetParse name i c p = some (c, -1) := by simp [inetParse, show p.length + 16 < 16 + 72 by omega]

theorem inetParse_long (name : String) (i : Nat) (c : Cache) (p : List Byte) (hl : 72 ≤ p.length) :
    inetParse name i c p = if fld p 68 4 ≠ i then some (c, 0) else if fld p 0 1 ≠ 2 ∧ fld p 0 1 ≠ 10 then some (c, -1)
      else some (cacheAdd c i (inetDet name p), 1) := by
  have h68 := rd_isSome p 68 4 (by omega)
  have h0 := rd_isSome p 0 1 (by omega)
  have hs := rdBe_isSome p 4 (by omega)
  have hd := rdBe_isSome p 6 (by omega)
  have hn : ∀ o, o = 8 ∨ o = 24 → rdBytes p o (if fld p 0 1 = 2 then 4 else 16) =
      some ((p.drop o).take (if fld p 0 1 = 2 then 4 else 16)) := by
    intro o ho
    rw [rdBytes, if_pos (by split <;> omega)]
  have h8 := hn 8 (by simp)
  have h24 := hn 24 (by simp)
  rw [inetParse, if_neg (by omega)]
  simp only [h68, h0, hs, hd, Option.bind_some]
  congr 1
  by_cases hf : fld p 0 1 ≠ 2 ∧ fld p 0 1 ≠ 10
  · rw [if_pos hf, if_pos hf]
  · rw [if_neg hf, if_neg hf, h8, h24]
    simp only [Option.bind_some, inetDet]
    by_cases hc : fld p 6 1 * 256 + fld p 7 1 ≠ 0 ∨
        (p.drop 24).take (if fld p 0 1 = 2 then 4 else 16) ≠ List.replicate (if fld p 0 1 = 2 then 4 else 16) 0
    · rw [if_pos hc, if_pos hc]
    · rw [if_neg hc, if_neg hc]

theorem inetParse_pure (name : String) (i : Nat) (p : List Byte) :
    ∃ o : Int ⊕ Details, (∀ rc, o = .inl rc → rc ≤ 0) ∧ ∀ c, inetParse name i c p = some (effect i c o) := by
  by_cases hl : 72 ≤ p.length
  · by_cases hi : fld p 68 4 = i
    · by_cases hf : fld p 0 1 ≠ 2 ∧ fld p 0 1 ≠ 10
      · exact ⟨.inl (-1), by simp, fun c => by rw [inetParse_long name i c p hl]; simp [hi, hf, effect]⟩
      · exact ⟨.inr (inetDet name p), by simp, fun c => by
          rw [inetParse_long name i c p hl, if_neg (not_not.2 hi), if_neg hf]; rfl⟩
    · exact ⟨.inl 0, by simp, fun c => by rw [inetParse_long name i c p hl]; simp [hi, effect]⟩
  · exact ⟨.inl (-1), by simp, fun c => by rw [inetParse_short name i c p (by omega)]; rfl⟩

theorem unixAttrs_stop (rest : List Byte) (peer : Nat) (path : List Byte)
    (h : ¬ (4 ≤ rest.length ∧ 4 ≤ fld rest 0 2 ∧ fld rest 0 2 ≤ rest.length)) : unixAttrs rest peer path = some (peer, path) := by
  rw [unixAttrs.eq_def, dif_neg h]

/-- the path after an attribute -/
def pathAfter (typ : Nat) (payload path : List Byte) : List Byte := if typ = 0 ∧ path = [] then payload.take 108 else path

/-- the peer after an attribute -/
def peerAfter (typ : Nat) (payload : List Byte) (peer : Nat) : Nat := if typ = 2 ∧ 4 ≤ payload.length then fld payload 0 4 else peer

theorem take_cut (l : List Byte) : l.take (if l.length > 108 then 108 else l.length) = l.take 108 := by
  by_cases h : l.length > 108
  · rw [if_pos h]
  · rw [if_neg h, List.take_length, List.take_of_length_le (by omega)]

theorem unixAttrs_step (rest : List Byte) (peer : Nat) (path : List Byte)
    (h : 4 ≤ rest.length ∧ 4 ≤ fld rest 0 2 ∧ fld rest 0 2 ≤ rest.length) :
    unixAttrs rest peer path = unixAttrs (rest.drop ((fld rest 0 2 + 3) / 4 * 4))
      (peerAfter (fld rest 2 2) ((rest.take (fld rest 0 2)).drop 4) peer)
      (pathAfter (fld rest 2 2) ((rest.take (fld rest 0 2)).drop 4) path) := by
  rw [unixAttrs.eq_def, dif_pos h]
  simp only [peerAfter, pathAfter, take_cut, List.length_eq_zero_iff]
  by_cases h0 : fld rest 2 2 = 0
  · simp only [h0]; simp
  · by_cases h2 : fld rest 2 2 = 2
    · by_cases h4 : 4 ≤ ((rest.take (fld rest 0 2)).drop 4).length
      · rw [if_neg h0, if_pos h2, if_pos h4, rd_isSome _ 0 4 (by omega), if_pos ⟨h2, h4⟩, if_neg (fun hh => h0 hh.1)]
      · rw [if_neg h0, if_pos h2, if_neg h4, if_neg (fun hh => h4 hh.2), if_neg (fun hh => h0 hh.1)]
    · rw [if_neg h0, if_neg h2, if_neg (fun hh => h2 hh.1), if_neg (fun hh => h0 hh.1)]

theorem unixAttrs_isSome (rest : List Byte) (peer : Nat) (path : List Byte) : ∃ r, unixAttrs rest peer path = some r := by
  induction hn : rest.length using Nat.strong_induction_on generalizing rest peer path with
  | _ n ih =>
    by_cases h : 4 ≤ rest.length ∧ 4 ≤ fld rest 0 2 ∧ fld rest 0 2 ≤ rest.length
    · rw [unixAttrs_step rest peer path h]
      exact ih _ (by rw [List.length_drop]; omega) _ _ _ rfl
    · exact ⟨_, unixAttrs_stop rest peer path h⟩

/-- the details made of a peer and a path -/
def unixDet (name : String) (i peer : Nat) (path : List Byte) : Details :=
  .unix name i (if peer ≠ 0 then some peer else none) (pathShown path)

theorem unixParse_short (name : String) (i : Nat) (c : Cache) (p : List Byte) (hl : p.length < 16) :
    unixParse name i c p = some (c, -1) := by simp [unixParse, show p.length + 16 < 16 + 16 by omega]

theorem unixParse_long (name : String) (i : Nat) (c : Cache) (p : List Byte) (hl : 16 ≤ p.length) (peer : Nat) (path : List Byte)
    (hr : unixAttrs (p.drop 16) 0 [] = some (peer, path)) :
    unixParse name i c p = if fld p 4 4 ≠ i then some (c, 0) else if fld p 0 1 ≠ 1 then some (c, -1)
      else if peer = 0 ∧ path = [] then some (c, -1) else some (cacheAdd c i (unixDet name i peer path), 1) := by
  have h4 := rd_isSome p 4 4 (by omega)
  have h0 := rd_isSome p 0 1 (by omega)
  rw [unixParse, if_neg (by omega)]
  simp only [h4, h0, hr, Option.bind_some, List.length_eq_zero_iff, unixDet]

theorem unixParse_pure (name : String) (i : Nat) (p : List Byte) :
    ∃ o : Int ⊕ Details, (∀ rc, o = .inl rc → rc ≤ 0) ∧ ∀ c, unixParse name i c p = some (effect i c o) := by
  by_cases hl : 16 ≤ p.length
  · obtain ⟨⟨peer, path⟩, hr⟩ := unixAttrs_isSome (p.drop 16) 0 []
    by_cases hi : fld p 4 4 = i
    · by_cases hf : fld p 0 1 = 1
      · by_cases hc : peer = 0 ∧ path = []
        · exact ⟨.inl (-1), by simp, fun c => by rw [unixParse_long name i c p hl peer path hr]; simp [hi, hf, hc, effect]⟩
        · exact ⟨.inr (unixDet name i peer path), by simp, fun c => by
            rw [unixParse_long name i c p hl peer path hr, if_neg (not_not.2 hi), if_neg (not_not.2 hf), if_neg hc]; rfl⟩
      · exact ⟨.inl (-1), by simp, fun c => by rw [unixParse_long name i c p hl peer path hr]; simp [hi, hf, effect]⟩
    · exact ⟨.inl 0, by simp, fun c => by rw [unixParse_long name i c p hl peer path hr]; simp [hi, effect]⟩
  · exact ⟨.inl (-1), by simp, fun c => by rw [unixParse_short name i c p (by omega)]; rfl⟩

/-- the details in a message about a netlink socket -/
def nlDet (name : String) (p : List Byte) : Details :=
  .netlink name (fld p 2 1) (if (nlNames.lookup (fld p 2 1)).isSome = true then some (fld p 4 4) else none)

theorem netlinkParse_short (name : String) (i : Nat) (c : Cache) (p : List Byte) (hl : p.length < 28) :
    netlinkParse name i c p = some (c, -1) := by simp [netlinkParse, show p.length + 16 < 16 + 28 by omega]

theorem netlinkParse_long (name : String) (i : Nat) (c : Cache) (p : List Byte) (hl : 28 ≤ p.length) :
    netlinkParse name i c p = if fld p 16 4 ≠ i then some (c, 0) else if fld p 0 1 ≠ 16 then some (c, -1)
      else some (cacheAdd c i (nlDet name p), 1) := by
  have h16 := rd_isSome p 16 4 (by omega)
  have h0 := rd_isSome p 0 1 (by omega)
  have h2 := rd_isSome p 2 1 (by omega)
  have h4 := rd_isSome p 4 4 (by omega)
  rw [netlinkParse, if_neg (by omega)]
  simp only [h16, h0, h2, h4, Option.bind_some, nlDet]
  by_cases hc : (nlNames.lookup (fld p 2 1)).isSome = true
  · rw [if_pos hc, if_pos hc]
  · rw [if_neg hc, if_neg hc]

theorem netlinkParse_pure (name : String) (i : Nat) (p : List Byte) :
    ∃ o : Int ⊕ Details, (∀ rc, o = .inl rc → rc ≤ 0) ∧ ∀ c, netlinkParse name i c p = some (effect i c o) := by
  by_cases hl : 28 ≤ p.length
  · by_cases hi : fld p 16 4 = i
    · by_cases hf : fld p 0 1 = 16
      · exact ⟨.inr (nlDet name p), by simp, fun c => by
          rw [netlinkParse_long name i c p hl, if_neg (not_not.2 hi), if_neg (not_not.2 hf)]; rfl⟩
      · exact ⟨.inl (-1), by simp, fun c => by rw [netlinkParse_long name i c p hl]; simp [hi, hf, effect]⟩
    · exact ⟨.inl 0, by simp, fun c => by rw [netlinkParse_long name i c p hl]; simp [hi, effect]⟩
  · exact ⟨.inl (-1), by simp, fun c => by rw [netlinkParse_short name i c p (by omega)]; rfl⟩

theorem parser_pure (pr : String × Kind) (i : Nat) (p : List Byte) :
    ∃ o : Int ⊕ Details, (∀ rc, o = .inl rc → rc ≤ 0) ∧ ∀ c, parser pr i c p = some (effect i c o) := by
  obtain ⟨name, k⟩ := pr
  cases k
  · exact unixParse_pure name i p
  · exact inetParse_pure name i p
  · exact netlinkParse_pure name i p

theorem cached_cacheAdd (c : Cache) (i : Nat) (d : Details) : cached (cacheAdd c i d) i = some d := by simp [cached, cacheAdd]

/-- a lookup under a parser: nothing found, and the cache unchanged, or the details -/
theorem walk_pure (pr : String × Kind) (i typ : Nat) (rest : List Byte) :
    ∃ o : Option (Bool ⊕ Details), (o ≠ some (.inl true)) ∧ ∀ c, walk typ (parser pr i) c rest = some (match o with
      | none => (c, none)
      | some (.inl b) => (c, some b)
      | some (.inr d) => (cacheAdd c i d, some true)) := by
  induction hn : rest.length using Nat.strong_induction_on generalizing rest with
  | _ n ih =>
    by_cases hok : nlmsgOk rest = true
    · by_cases ht : fld rest 4 2 = typ
      · obtain ⟨o, hrc, ho⟩ := parser_pure pr i ((rest.take (fld rest 0 4)).drop 16)
        cases o with
        | inr d =>
          exact ⟨some (.inr d), by simp, fun c => by rw [walk.eq_def, dif_pos hok]; simp [ht, ho c, effect]⟩
        | inl rc =>
          have := hrc rc rfl
          by_cases hz : rc < 0
          · exact ⟨some (.inl false), by simp, fun c => by
              rw [walk.eq_def, dif_pos hok]
              simp [ht, ho c, effect, hz, show ¬ rc > 0 by omega]⟩
          · have hlt : (rest.drop ((fld rest 0 4 + 3) / 4 * 4)).length < n := by
              simp only [nlmsgOk, Bool.and_eq_true, decide_eq_true_eq] at hok
              rw [List.length_drop]; omega
            obtain ⟨o', h1, h2⟩ := ih _ hlt _ rfl
            exact ⟨o', h1, fun c => by
              rw [walk.eq_def, dif_pos hok]
              simp only [ht, ho c, effect, hz, show ¬ rc > 0 by omega, ne_eq, not_true_eq_false, if_false]
              exact h2 c⟩
      · exact ⟨some (.inl false), by simp, fun c => by rw [walk.eq_def, dif_pos hok]; simp [ht]⟩
    · exact ⟨none, by simp, fun c => by rw [walk.eq_def, dif_neg hok]⟩

theorem get_pure (pr : String × Kind) (i : Nat) (queue : List (List Byte)) :
    ∃ (o : Option Details) (left : List (List Byte)), ∀ c, get pr i c queue = some (match o with
      | none => (c, none, left)
      | some d => (cacheAdd c i d, some d, left)) := by
  suffices h : ∃ (o : Option Details) (left : List (List Byte)), ∀ c, receive 20 (parser pr i) c queue = some (match o with
      | none => (c, false, left)
      | some d => (cacheAdd c i d, true, left)) by
    obtain ⟨o, left, h⟩ := h
    refine ⟨o, left, fun c => ?_⟩
    rw [get, h c]
    cases o with
    | none => simp
    | some d => simp [cached_cacheAdd]
  induction queue with
  | nil => exact ⟨none, [], fun c => rfl⟩
  | cons d ds ih =>
    by_cases hok : nlmsgOk (d.take 8192) = true
    · obtain ⟨o, h1, h2⟩ := walk_pure pr i 20 (d.take 8192)
      match o, h1, h2 with
      | none, _, h2 =>
        obtain ⟨o', left, h3⟩ := ih
        exact ⟨o', left, fun c => by simp only [receive, hok, if_true, h2 c]; exact h3 c⟩
      | some (.inl false), _, h2 => exact ⟨none, ds, fun c => by simp only [receive, hok, if_true, h2 c]⟩
      | some (.inl true), h1, _ => exact absurd rfl h1
      | some (.inr x), _, h2 => exact ⟨some x, ds, fun c => by simp only [receive, hok, if_true, h2 c]⟩
    · exact ⟨none, ds, fun c => by simp only [receive, hok]; rfl⟩

theorem tryAll_pure (ans : String → List (List Byte)) (i : Nat) (prs : List (String × Kind)) (queue : List (List Byte)) :
    ∃ o : Option Details, ∀ c, tryAll ans i prs c queue = some (match o with
      | none => (c, none)
      | some d => (cacheAdd c i d, some d)) := by
  induction prs generalizing queue with
  | nil => exact ⟨none, fun c => rfl⟩
  | cons pr prs ih =>
    obtain ⟨o, left, h⟩ := get_pure pr i (queue ++ ans pr.1)
    cases o with
    | none =>
      obtain ⟨o', h'⟩ := ih left
      exact ⟨o', fun c => by simp only [tryAll, h c]; exact h' c⟩
    | some d => exact ⟨some d, fun c => by simp only [tryAll, h c]⟩

theorem lookup_pure (ans : String → List (List Byte)) (i : Nat) (proto : Option (String × Kind)) :
    ∃ o : Option Details, ∀ c, lookupDetails ans i proto c = some (match o with
      | none => (c, none)
      | some d => (cacheAdd c i d, some d)) := by
  cases proto with
  | none => exact tryAll_pure ans i protocols []
  | some pr => exact tryAll_pure ans i [pr] []

/-! ### The theorems about the cache -/

/-- **Whatever is received, only it is read.**  No datagram makes strace read outside of what it received. -/
theorem details_safe (c : Cache) (ans : String → List (List Byte)) (i : Nat) (name : Option String) :
    ∃ c' s, getDetails c ans i name = some (c', s) := by
  rw [getDetails]
  cases cached c i with
  | some d => exact ⟨_, _, rfl⟩
  | none =>
    obtain ⟨o, h⟩ := lookup_pure ans i (name.bind protoByName)
    simp only [h c]
    cases o with
    | some d => exact ⟨_, _, rfl⟩
    | none => cases name.bind protoByName <;> exact ⟨_, _, rfl⟩

/-- one request for details -/
structure Req where
  ans : String → List (List Byte)
  inode : Nat
  name : Option String

/-- what is shown by requests one after the other -/
def run : Cache → List Req → Option (List Shown)
  | _, [] => some []
  | c, r :: rs =>
    match getDetails c r.ans r.inode r.name with
    | none => none
    | some (c', s) => (run c' rs).map (s :: ·)

/-- what would be shown if nothing had been asked before -/
def fresh (r : Req) : Option Shown := (getDetails Cache.empty r.ans r.inode r.name).map (·.2)

theorem cached_empty (i : Nat) : cached Cache.empty i = none := by
  unfold cached Cache.empty; split <;> rfl

theorem getDetails_cases (c : Cache) (r : Req) :
    (∃ d, cached c r.inode = some d ∧ getDetails c r.ans r.inode r.name = some (c, .details d)) ∨
    (cached c r.inode = none ∧ ∃ s, fresh r = some s ∧
      ((∃ d, s = .details d ∧ getDetails c r.ans r.inode r.name = some (cacheAdd c r.inode d, s)) ∨
      ((∀ d, s ≠ .details d) ∧ getDetails c r.ans r.inode r.name = some (c, s)))) := by
  cases hc : cached c r.inode with
  | some d => exact Or.inl ⟨d, rfl, by rw [getDetails, hc]⟩
  | none =>
    refine Or.inr ⟨rfl, ?_⟩
    obtain ⟨o, h⟩ := lookup_pure r.ans r.inode (r.name.bind protoByName)
    rw [fresh, getDetails, getDetails, hc, cached_empty]
    simp only [h]
    cases o with
    | some d => exact ⟨_, rfl, Or.inl ⟨d, rfl, rfl⟩⟩
    | none => cases r.name.bind protoByName <;> exact ⟨_, rfl, Or.inr ⟨by simp, rfl⟩⟩

theorem cached_cacheAdd_ne (c : Cache) (i j : Nat) (d : Details) (h : j ≠ i) (d' : Details) (hd : cached (cacheAdd c i d) j = some d') :
    cached c j = some d' := by
  unfold cached cacheAdd at hd
  by_cases hm : j % 1024 = i % 1024
  · simp [hm, h] at hd
  · simpa [cached, hm] using hd

/-- **What is shown is what the kernel says, or said before of the same inode.**  However many descriptors have been shown, and
whatever the kernel answers, the details of an inode are those of its own answers: those it gives now, or, if it gave some to an
earlier request for this very inode, those. -/
theorem shown_own (rs : List Req) :
    ∃ out : List Shown, run Cache.empty rs = some out ∧ out.length = rs.length ∧ ∀ (k : Nat) (r : Req) (s : Shown), rs[k]? = some r → out[k]? = some s →
      fresh r = some s ∨ ∃ d, s = .details d ∧ ∃ (j : Nat) (r' : Req), j < k ∧ rs[j]? = some r' ∧ r'.inode = r.inode ∧ fresh r' = some s := by
  suffices h : ∀ (rs past : List Req) (c : Cache),
      (∀ i d, cached c i = some d → ∃ r' ∈ past, r'.inode = i ∧ fresh r' = some (.details d)) →
      ∃ out : List Shown, run c rs = some out ∧ out.length = rs.length ∧ ∀ (k : Nat) (r : Req) (s : Shown), rs[k]? = some r → out[k]? = some s →
        fresh r = some s ∨ ∃ d, s = .details d ∧
          ((∃ r' ∈ past, r'.inode = r.inode ∧ fresh r' = some s) ∨
          ∃ (j : Nat) (r' : Req), j < k ∧ rs[j]? = some r' ∧ r'.inode = r.inode ∧ fresh r' = some s) by
    obtain ⟨out, h1, h2, h3⟩ := h rs [] Cache.empty (fun i d hd => by rw [cached_empty] at hd; cases hd)
    refine ⟨out, h1, h2, fun k r s hr hs => ?_⟩
    rcases h3 k r s hr hs with h | ⟨d, hd, ⟨r', hr', _⟩ | h⟩
    · exact Or.inl h
    · cases hr'
    · exact Or.inr ⟨d, hd, h⟩
  clear rs
  intro rs
  induction rs with
  | nil => exact fun past c _ => ⟨[], rfl, rfl, fun k r s hr => by simp at hr⟩
  | cons r rs ih =>
    intro past c hinv
    -- after the first request
    have step : ∃ c' s, getDetails c r.ans r.inode r.name = some (c', s) ∧
        (∀ i d, cached c' i = some d → ∃ r' ∈ past ++ [r], r'.inode = i ∧ fresh r' = some (.details d)) ∧
        (fresh r = some s ∨ ∃ d, s = .details d ∧ ∃ r' ∈ past, r'.inode = r.inode ∧ fresh r' = some s) := by
      rcases getDetails_cases c r with ⟨d, hd, hg⟩ | ⟨hn, s, hs, ⟨d, rfl, hg⟩ | ⟨hnd, hg⟩⟩
      · obtain ⟨r', hr', h1, h2⟩ := hinv _ d hd
        refine ⟨_, _, hg, fun i d' hd' => ?_, Or.inr ⟨d, rfl, r', hr', h1, h2⟩⟩
        obtain ⟨r'', hr'', h⟩ := hinv i d' hd'
        exact ⟨r'', by simp [hr''], h⟩
      · refine ⟨_, _, hg, fun i d' hd' => ?_, Or.inl hs⟩
        by_cases hi : i = r.inode
        · subst hi
          rw [cached_cacheAdd] at hd'
          cases hd'
          exact ⟨r, by simp, rfl, hs⟩
        · obtain ⟨r'', hr'', h⟩ := hinv i d' (cached_cacheAdd_ne c _ i d hi d' hd')
          exact ⟨r'', by simp [hr''], h⟩
      · refine ⟨_, _, hg, fun i d' hd' => ?_, Or.inl hs⟩
        obtain ⟨r'', hr'', h⟩ := hinv i d' hd'
        exact ⟨r'', by simp [hr''], h⟩
    obtain ⟨c', s, hg, hinv', hs⟩ := step
    obtain ⟨out, h1, h2, h3⟩ := ih (past ++ [r]) c' hinv'
    refine ⟨s :: out, by rw [run, hg]; simp [h1], by simp [h2], fun k r1 s1 hr1 hs1 => ?_⟩
    cases k with
    | zero =>
      simp only [List.getElem?_cons_zero, Option.some.injEq] at hr1 hs1
      subst hr1 hs1
      rcases hs with h | ⟨d, hd, h⟩
      · exact Or.inl h
      · exact Or.inr ⟨d, hd, Or.inl h⟩
    | succ k =>
      rw [List.getElem?_cons_succ] at hr1 hs1
      rcases h3 k r1 s1 hr1 hs1 with h | ⟨d, hd, ⟨r', hr', h⟩ | ⟨j, r', hj, hr', h⟩⟩
      · exact Or.inl h
      · rcases List.mem_append.1 hr' with hp | hp
        · exact Or.inr ⟨d, hd, Or.inl ⟨r', hp, h⟩⟩
        · rw [List.mem_singleton] at hp
          subst hp
          exact Or.inr ⟨d, hd, Or.inr ⟨0, r', by omega, rfl, h⟩⟩
      · exact Or.inr ⟨d, hd, Or.inr ⟨j + 1, r', by omega, by simpa using hr', h⟩⟩

/-- **If what the kernel says of an inode does not change, it is what is shown**, whatever else has been shown before. -/
theorem shown_current (rs : List Req) (k : Nat) (r : Req) (s : Shown) (out : List Shown) (hrun : run Cache.empty rs = some out)
    (hr : rs[k]? = some r) (hs : out[k]? = some s)
    (hsame : ∀ j r', j < k → rs[j]? = some r' → r'.inode = r.inode → fresh r' = fresh r) : fresh r = some s := by
  obtain ⟨out', h1, _, h3⟩ := shown_own rs
  rw [hrun, Option.some.injEq] at h1
  subst h1
  rcases h3 k r s hr hs with h | ⟨d, _, j, r', hj, hr', hi, h⟩
  · exact h
  · rw [← hsame j r' hj hr' hi]; exact h

end Strace.Diag
