import Verif.Msg.Lemmas
/-!
# Messages: what is shown
-/
namespace Strace.Msg
open Strace.Sized (Byte moven le fld)

/-! ### A message -/

theorem name_shown (e : Env) (mem : Mem) (h : Hdr) (ulen : Option Int) :
    ∃ t, Sock.msgName e.sock mem e.vb h.name ulen h.namelen = some t ∧ NameShown e mem h ulen t := by
  cases ulen with
  | none =>
    obtain ⟨l, hl⟩ := Sock.decode_safe e.sock mem e.vb h.name h.namelen
    exact ⟨_, by simp only [Sock.msgName]; rw [hl]; rfl, l, hl, rfl⟩
  | some u =>
    have hm : (if h.namelen > u then u else h.namelen) = min h.namelen u := by split <;> omega
    obtain ⟨l, hl⟩ := Sock.decode_safe e.sock mem e.vb h.name (min h.namelen u)
    refine ⟨l ++ [Sock.lenTok u h.namelen], by simp only [Sock.msgName]; rw [hm, hl]; rfl, l, hl, ?_⟩
    rw [Sock.lenTok]
    by_cases hu : u = h.namelen
    · rw [if_neg (by simp [hu]), if_pos hu]
    · rw [if_pos hu, if_neg hu]

theorem family_eq (e : Env) (mem : Mem) (h : Hdr) (ulen : Option Int) (hn : h.name < 2 ^ 64) :
    (Named e mem h ulen ∧ family mem e.vb h.name (room h ulen) = some (word mem h.name 2)) ∨
    (¬ Named e mem h ulen ∧ family mem e.vb h.name (room h ulen) = none) := by
  unfold family Named
  generalize room h ulen = r
  by_cases h2 : r < 2
  · right
    rw [if_pos h2]
    exact ⟨by omega, rfl⟩
  rw [if_neg h2]
  have hr : (if r > 128 then 128 else r.toNat) = (min r 128).toNat := by split <;> omega
  rw [hr, Sized.fetch]
  by_cases h0 : h.name = 0 ∨ e.vb = false
  · right
    rw [if_pos h0]
    refine ⟨?_, rfl⟩
    rintro ⟨_, h3, h4, _⟩
    rcases h0 with h0 | h0
    · exact h3 h0
    · rw [h0] at h4; cases h4
  · rw [if_neg h0, moven_bytes mem _ _ hn]
    by_cases h1 : Readable mem h.name (min r 128).toNat
    · left
      refine ⟨⟨by omega, fun h => h0 (Or.inl h), ?_, h1⟩, ?_⟩
      · cases hv : e.vb with
        | false => exact absurd (Or.inr hv) h0
        | true => rfl
      · rw [if_pos h1, Option.map_some, fld_bytes mem _ _ 0 2 (by omega)]
        rfl
    · right
      rw [if_neg h1]
      exact ⟨fun h => h1 h.2.2.2, rfl⟩

theorem hdr_shown (e : Env) (mem : Mem) (fuel : Nat) (h : Hdr) (ulen : Option Int) (size : Nat) (hw : e.w = 4 ∨ e.w = 8)
    (hn : h.name < 2 ^ 64) (hi : h.iov < 2 ^ 64) (hs : size < 2 ^ 64) (hf : h.iovlen < fuel) :
    ∃ t, printHdr e mem fuel h ulen size = some t ∧ MsgShown e mem h ulen (limitOf size) t := by
  have hroom : usedLen ulen h.namelen = room h ulen := by
    cases ulen with
    | none => rfl
    | some u => simp only [room, usedLen]; split <;> omega
  obtain ⟨name, hname, hshown⟩ := name_shown e mem h ulen
  unfold printHdr
  rw [hname, Option.bind_some]
  dsimp only
  have hfam := family_eq e mem h ulen hn
  generalize hnl : (if family mem e.vb h.name (room h ulen) = none then e.nlsock
    else decide (family mem e.vb h.name (room h ulen) = some 16)) = nl
  obtain ⟨iov, hiov, hish⟩ := iov_shown e mem fuel h.iovlen h.iov size nl hw hi hs hf
  rw [hroom, hnl, hiov, Option.map_some]
  refine ⟨_, rfl, hshown, ⟨nl, ?_, hish⟩, rfl, rfl, rfl, rfl⟩
  rw [← hnl]
  unfold Netlink
  rcases hfam with ⟨h1, h2⟩ | ⟨h1, h2⟩
  · rw [h2, if_neg (by simp)]
    simp [h1]
  · rw [h2, if_pos rfl]
    simp [h1]

theorem hdrAt_bounds (w : Nat) (mem : Mem) (a : Nat) (hw : w = 4 ∨ w = 8) :
    (hdrAt w mem a).name < 2 ^ 64 ∧ (hdrAt w mem a).iov < 2 ^ 64 ∧ (hdrAt w mem a).iovlen < 2 ^ 64 := by
  have h1 := word_lt mem w a
  have h2 := word_lt mem w (a + 2 * w)
  have h3 := word_lt mem w (a + 3 * w)
  rcases hw with rfl | rfl <;> exact ⟨by show word mem a _ < _; omega, by show word mem _ _ < _; omega,
    by show word mem _ _ < _; omega⟩

/-! ### Vectors of messages -/

theorem whole_append : ∀ (x y : List (Arr.Tok Piece)), whole (x ++ y) = (whole x).bind fun l => (whole y).map (l ++ ·) := by
  intro x
  induction x with
  | nil => intro y; cases h : whole y <;> simp [whole, h]
  | cons t x ih =>
    intro y
    cases t with
    | elem p => cases p <;> simp [whole, ih, Option.map_bind] <;> rcases whole x with _ | l <;> rcases whole y with _ | r <;> simp
    | _ => simp [whole, ih, Option.map_bind] <;> rcases whole x with _ | l <;> rcases whole y with _ | r <;> simp

theorem whole_shown (l : List Elem) : whole ((l.map fun a => [Arr.Tok.elem (Piece.shown a)]).flatMap fun y => .next :: y) =
    some ((l.map fun a => [Arr.Tok.elem a]).flatMap fun y => .next :: y) := by
  induction l with
  | nil => rfl
  | cons a l ih => simp [whole, ih]

/-- elements followed by a mark -/
theorem whole_join (l : List Elem) (x : List (Arr.Tok Piece)) (y : List (Arr.Tok Elem)) (h : whole x = some y) :
    whole (.opened :: Arr.join ((l.map fun a => [Arr.Tok.elem (Piece.shown a)]) ++ [x]) ++ [.closed]) =
      some (.opened :: Arr.join ((l.map fun a => [Arr.Tok.elem a]) ++ [y]) ++ [.closed]) := by
  cases l with
  | nil => simp [Arr.join, whole, whole_append, h]
  | cons a l =>
    simp only [List.map_cons, List.cons_append, Arr.join, List.flatMap_append, List.flatMap_cons, List.flatMap_nil, List.append_nil]
    simp [whole, whole_append, whole_shown, h]

theorem whole_join0 (l : List Elem) :
    whole (.opened :: Arr.join (l.map fun a => [Arr.Tok.elem (Piece.shown a)]) ++ [.closed]) =
      some (.opened :: Arr.join (l.map fun a => [Arr.Tok.elem a]) ++ [.closed]) := by
  cases l with
  | nil => rfl
  | cons a l =>
    simp only [List.map_cons, Arr.join]
    simp [whole, whole_append, whole_shown]

/-- the lengths of names that `print_struct_mmsghdr` finds in the table -/
def ulenAt (saved : Option (List Int)) (i : Nat) : Option Int := saved.bind fun t => t[i]?

/-- the number of messages it prints at most -/
def most (saved : Option (List Int)) : Nat := match saved with | some t => min t.length 1024 | none => 1024

/-- the state of `print_struct_mmsghdr` before message `i` -/
def confAt (saved : Option (List Int)) (mlv : Nat) (use : Bool) (i : Nat) : Conf :=
  ⟨saved.map fun t => (t, i), mlv - i, most saved - i, use⟩

theorem conf_ulen (saved : Option (List Int)) (mlv : Nat) (use : Bool) (i : Nat) (h : i < most saved) :
    (confAt saved mlv use i).ulen = some (ulenAt saved i) := by
  cases saved with
  | none => rfl
  | some t =>
    have hi : i < t.length := by
      have : most (some t) = min t.length 1024 := rfl
      omega
    simp [confAt, Conf.ulen, ulenAt, List.getElem?_eq_getElem hi]

theorem vec_shown (e : Env) (mem : Mem) (fuel : Nat) (saved : Option (List Int)) (a n mlv : Nat) (use : Bool)
    (hw : e.w = 4 ∨ e.w = 8) (h0 : a ≠ 0) (hn : 0 < n) (hn32 : n < 2 ^ 32) (hend : a + n * (8 * e.w) < 2 ^ 64)
    (hf : 2 ^ 64 ≤ fuel) :
    ∃ t, decodeVec e mem fuel saved false a n mlv use = some (.vec t) ∧
      VecShown e mem a n (most saved) (fun i x =>
        MsgShown e mem (hdrAt e.w mem (nth e.w a i)) (ulenAt saved i)
          (if use = true then some (lenAt e.w mem (nth e.w a i)) else none) x.msg ∧
        x.len = if i < mlv then some (lenAt e.w mem (nth e.w a i)) else none) t := by
  have hes : 0 < 8 * e.w := by omega
  have hconf : (⟨saved.map fun t => (t, 0), mlv, countOf saved, use⟩ : Conf) = confAt saved mlv use 0 := by
    unfold confAt most countOf
    cases saved with
    | none => rfl
    | some t =>
      simp only [Nat.sub_zero]
      congr 1
      show (if t.length < 1024 then t.length else 1024) = min t.length 1024
      split <;> omega
  obtain ⟨l, j, why, s', ⟨hjn, hlim, hwhy⟩, hp⟩ := Arr.array_shown ⟨e.arr, false, false⟩
    (.tracee fun x => if false = true then none else fetchMHdr e.w mem x) (printMHdr e mem fuel) a n (8 * e.w) fuel
    (confAt saved mlv use 0) h0 hn hes hend (by omega)
  have hdv : decodeVec e mem fuel saved false a n mlv use =
      (whole (Arr.text ⟨e.arr, false, false⟩ a (8 * e.w) l j why)).map .vec := by
    unfold decodeVec
    dsimp only
    rw [mhdrSize_eq e.w hw, hconf, hp, Option.bind_some]
  rw [hdv]
  -- the elements
  generalize hel : Arr.at' (.tracee fun x => if false = true then none else fetchMHdr e.w mem x) a (8 * e.w) = elem at hwhy
  have hat : ∀ i, i < n → elem i = if Readable mem (nth e.w a i) (8 * e.w) then
      some ⟨hdrAt e.w mem (nth e.w a i), lenAt e.w mem (nth e.w a i)⟩ else none := by
    intro i hi
    have h1 : i * (8 * e.w) < n * (8 * e.w) := Nat.mul_lt_mul_of_pos_right hi hes
    rw [← hel, Arr.at', Arr.Src.get, if_neg (by simp), fetchMHdr_eq e.w mem _ hw (by omega)]
    rfl
  have hlen : ∀ i, lenAt e.w mem (nth e.w a i) < 2 ^ 32 := fun i => word_lt mem 4 _
  let sz : Nat → Nat := fun i => if use = true then lenAt e.w mem (nth e.w a i) else 2 ^ 64 - 1
  have hsz : ∀ i, sz i < 2 ^ 64 := by
    intro i
    have := hlen i
    show (if use = true then lenAt e.w mem (nth e.w a i) else 2 ^ 64 - 1) < 2 ^ 64
    split <;> omega
  have hszl : ∀ i, limitOf (sz i) = if use = true then some (lenAt e.w mem (nth e.w a i)) else none := by
    intro i
    have h1 := hlen i
    show limitOf (if use = true then lenAt e.w mem (nth e.w a i) else 2 ^ 64 - 1) = _
    unfold limitOf
    cases use with
    | true => simp only [if_true]; rw [if_neg (by omega)]
    | false => rfl
  have htok : ∀ i, ∃ t, printHdr e mem fuel (hdrAt e.w mem (nth e.w a i)) (ulenAt saved i) (sz i) = some t ∧
      MsgShown e mem (hdrAt e.w mem (nth e.w a i)) (ulenAt saved i) (limitOf (sz i)) t := by
    intro i
    obtain ⟨b1, b2, b3⟩ := hdrAt_bounds e.w mem (nth e.w a i) hw
    exact hdr_shown e mem fuel _ _ _ hw b1 b2 (hsz i) (by omega)
  choose tok htok1 htok2 using htok
  let el : Nat → Elem := fun i => ⟨tok i, if i < mlv then some (lenAt e.w mem (nth e.w a i)) else none⟩
  have hstep : ∀ i b, (if i < n then elem i else none) = some b →
      printMHdr e mem fuel (confAt saved mlv use i) b = (Piece.shown (el i), confAt saved mlv use (i + 1), true) ∨
      (printMHdr e mem fuel (confAt saved mlv use i) b).2.2 = false := by
    intro i b hb
    split at hb
    · rename_i hi
      rw [hat i hi] at hb
      split at hb
      · cases hb
        by_cases hc : (confAt saved mlv use i).count = 0
        · right
          rw [printMHdr, if_pos hc]
        · left
          have hci : i < most saved := by
            have : (confAt saved mlv use i).count = most saved - i := rfl
            omega
          rw [printMHdr, if_neg hc, conf_ulen saved mlv use i hci, Option.bind_some]
          have := htok1 i
          rw [show printHdr e mem fuel (hdrAt e.w mem (nth e.w a i)) (ulenAt saved i)
            (if (confAt saved mlv use i).useMsgLen = true then lenAt e.w mem (nth e.w a i) else 2 ^ 64 - 1) = some (tok i) from
            this, Option.map_some]
          refine Prod.ext ?_ (Prod.ext ?_ rfl)
          · show Piece.shown _ = Piece.shown _
            congr 2
            show (if mlv - i ≠ 0 then _ else _) = _
            by_cases hm : i < mlv
            · rw [if_pos (by omega), if_pos hm]
            · rw [if_neg (by omega), if_neg hm]
          · show (⟨_, mlv - i - 1, most saved - i - 1, use⟩ : Conf) = ⟨_, mlv - (i + 1), most saved - (i + 1), use⟩
            congr 1
            cases saved <;> rfl
      · cases hb
    · cases hb
  have hcut : ∀ {i s l j s'}, Arr.Run elem (printMHdr e mem fuel) i s l j s' → j ≤ n →
      Arr.Run (fun i => if i < n then elem i else none) (printMHdr e mem fuel) i s l j s' := by
    intro i s l j s' hr
    induction hr with
    | nil i s => intro _; exact .nil i s
    | cons i j s s1 s' b x l he hp hr ih =>
      intro hj
      have := Arr.run_length hr
      exact .cons i j s s1 s' b x l (by rw [if_pos (by omega)]; exact he) hp (ih hj)
  have hmain : ∀ {l j s'}, Arr.Run elem (printMHdr e mem fuel) 0 (confAt saved mlv use 0) l j s' → j ≤ n →
      (l = ((List.range j).map el).map Piece.shown ∧ s' = confAt saved mlv use j) ∧
      (∀ i, i < j → Readable mem (nth e.w a i) (8 * e.w)) ∧ j ≤ most saved := by
    intro l j s' hr hj
    have h1 := run_det (confAt saved mlv use) (fun i => Piece.shown (el i)) hstep (hcut hr hj) rfl
    have h2 := run_at (confAt saved mlv use) (fun i => Piece.shown (el i)) hstep (hcut hr hj) rfl
    refine ⟨⟨?_, h1.2⟩, ?_, ?_⟩
    · rw [h1.1, Nat.sub_zero, List.range_eq_range', List.map_map]; rfl
    · intro i hi
      obtain ⟨b, hb, _⟩ := h2 i (by omega) hi
      rw [if_pos (by omega), hat i (by omega)] at hb
      split at hb
      · assumption
      · cases hb
    · by_contra hc
      obtain ⟨b, hb, hp⟩ := h2 (most saved) (by omega) (by omega)
      have : (confAt saved mlv use (most saved)).count = 0 := Nat.sub_self _
      rw [printMHdr, if_pos this] at hp
      cases hp
  have hmarr : ∀ m, e.arr = some m → j ≤ m := by
    intro m hm
    by_cases h : n % 2 ^ 32 > m
    · exact hlim m (by simp [Arr.applies, hm, Option.filter]; omega)
    · omega
  have hok : ∀ (j i : Nat) (x : Elem), ((List.range j).map el)[i]? = some x →
      MsgShown e mem (hdrAt e.w mem (nth e.w a i)) (ulenAt saved i)
          (if use = true then some (lenAt e.w mem (nth e.w a i)) else none) x.msg ∧
        x.len = if i < mlv then some (lenAt e.w mem (nth e.w a i)) else none := by
    intro j i x h
    rw [List.getElem?_map] at h
    by_cases hi : i < j
    · rw [List.getElem?_range hi] at h
      cases h
      refine ⟨?_, rfl⟩
      rw [← hszl i]
      exact htok2 i
    · rw [List.getElem?_eq_none (by simp; omega)] at h
      cases h
  have hlenj : ∀ j : Nat, ((List.range j).map el).length = j := by intro j; simp
  unfold VecShown
  by_cases hr0 : Readable mem a (8 * e.w)
  · simp only [not_true_eq_false, if_false, hr0]
    cases why with
    | done =>
      obtain ⟨hj, hr⟩ := hwhy
      obtain ⟨⟨h1, _⟩, h2, h3⟩ := hmain hr hjn
      refine ⟨listed ((List.range j).map el) .nothing, ?_, (List.range j).map el, .nothing, ?_⟩
      · rw [Arr.text, if_neg (by simp [Arr.Why.isUnreadable]), items_map, h1, List.map_map]
        have := whole_join0 ((List.range j).map el)
        simp only [Arr.mark, if_neg (show ¬ (false = true) by simp), List.append_nil, listed, Mark.toks] at this ⊢
        rw [show ((fun a => [Arr.Tok.elem a]) ∘ Piece.shown) = fun a => [Arr.Tok.elem (Piece.shown a)] from rfl, this]
        rfl
      · rw [hlenj]
        exact ⟨hjn, h3, hmarr, h2, hok j, rfl, Or.inl ⟨hj, rfl⟩⟩
    | unreadable =>
      obtain ⟨hj, hu, hr⟩ := hwhy
      obtain ⟨⟨h1, _⟩, h2, h3⟩ := hmain hr hjn
      have hun : ¬ Readable mem (nth e.w a j) (8 * e.w) := by
        intro h
        rw [hat j hj, if_pos h] at hu
        cases hu
      have hj0 : j ≠ 0 := by
        rintro rfl
        rw [nth, Nat.zero_mul, Nat.add_zero] at hun
        exact hun hr0
      refine ⟨listed ((List.range j).map el) (.moreAt (nth e.w a j)), ?_, (List.range j).map el, .moreAt (nth e.w a j), ?_⟩
      · rw [Arr.text, if_neg (by simp [hj0]), items_map, h1, List.map_map]
        have := whole_join ((List.range j).map el) [.more, .comment (nth e.w a j)] [.more, .comment (nth e.w a j)] rfl
        simp only [Arr.mark, listed, Mark.toks] at this ⊢
        rw [show ((fun a => [Arr.Tok.elem a]) ∘ Piece.shown) = fun a => [Arr.Tok.elem (Piece.shown a)] from rfl,
          show a + j * (8 * e.w) = nth e.w a j from rfl, this]
        rfl
      · rw [hlenj]
        exact ⟨hjn, h3, hmarr, h2, hok j, rfl, Or.inr (Or.inr ⟨hj, hun, rfl⟩)⟩
    | limit =>
      obtain ⟨hj, hl, hu, hr⟩ := hwhy
      obtain ⟨⟨h1, _⟩, h2, h3⟩ := hmain hr hjn
      have hl' : e.arr = some j := by
        unfold Arr.applies at hl
        cases he : e.arr with
        | none => rw [show Arr.Cfg.limit ⟨e.arr, false, false⟩ = e.arr from rfl, he] at hl; cases hl
        | some m =>
          rw [show Arr.Cfg.limit ⟨e.arr, false, false⟩ = e.arr from rfl, he] at hl
          simp only [Option.filter] at hl
          split at hl
          · exact hl
          · cases hl
      refine ⟨listed ((List.range j).map el) .more, ?_, (List.range j).map el, .more, ?_⟩
      · rw [Arr.text, if_neg (by simp [Arr.Why.isUnreadable]), items_map, h1, List.map_map]
        have := whole_join ((List.range j).map el) [.more] [.more] rfl
        simp only [Arr.mark, listed, Mark.toks] at this ⊢
        rw [show ((fun a => [Arr.Tok.elem a]) ∘ Piece.shown) = fun a => [Arr.Tok.elem (Piece.shown a)] from rfl, this]
        rfl
      · rw [hlenj]
        exact ⟨hjn, h3, hmarr, h2, hok j, rfl, Or.inr (Or.inl ⟨hj, Or.inl hl', rfl⟩)⟩
    | stopped x =>
      obtain ⟨hj, b, t, hr, he, hpr, _⟩ := hwhy
      obtain ⟨⟨h1, ht⟩, h2, h3⟩ := hmain hr hjn
      subst ht
      have hx : x = .dots ∧ most saved ≤ j := by
        unfold printMHdr at hpr
        split at hpr
        · rename_i hc
          cases hpr
          have : (confAt saved mlv use j).count = most saved - j := rfl
          exact ⟨rfl, by omega⟩
        · cases hpr
      obtain ⟨rfl, hmost⟩ := hx
      refine ⟨listed ((List.range j).map el) .more, ?_, (List.range j).map el, .more, ?_⟩
      · rw [Arr.text, if_neg (by simp [Arr.Why.isUnreadable]), items_map, h1, List.map_map]
        have := whole_join ((List.range j).map el) [.elem .dots] [.more] rfl
        simp only [Arr.mark, Arr.items, if_neg (show ¬ (false = true) by simp), List.append_nil, listed, Mark.toks] at this ⊢
        rw [show ((fun a => [Arr.Tok.elem a]) ∘ Piece.shown) = fun a => [Arr.Tok.elem (Piece.shown a)] from rfl, this]
        rfl
      · rw [hlenj]
        exact ⟨hjn, h3, hmarr, h2, hok j, rfl,
          Or.inr (Or.inl ⟨hj, Or.inr (by omega), rfl⟩)⟩
  · simp only [hr0, not_false_eq_true, if_true]
    refine ⟨_, ?_, rfl⟩
    have hz : elem 0 = none := by
      rw [hat 0 hn, nth, Nat.zero_mul, Nat.add_zero, if_neg hr0]
    have hrun : ∀ {s l j s'}, Arr.Run elem (printMHdr e mem fuel) 0 s l j s' → j = 0 := by
      intro s l j s' hr
      cases hr with
      | nil => rfl
      | cons _ _ _ s1 _ b x l he hp hr => rw [hz] at he; cases he
    cases why with
    | done => have := hrun hwhy.2; omega
    | unreadable =>
      have := hrun hwhy.2.2
      rw [Arr.text, if_pos ⟨this, rfl⟩]
      rfl
    | limit =>
      have := hrun hwhy.2.2.2
      subst this
      exact absurd hz hwhy.2.2.1
    | stopped x =>
      obtain ⟨hj, b, t, hr, he, hpr, _⟩ := hwhy
      have := hrun hr
      subst this
      rw [hz] at he
      cases he

end Strace.Msg
