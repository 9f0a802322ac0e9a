import Verif.Diag.Kern
/-! # Inodes of sockets, families of netlink sockets, and the names of families of generic netlink: proofs -/
namespace Strace.Diag
open Strace.Sized Strace.Base

/-! ### Inodes -/

theorem digits_takeWhile (l rest : List Nat) (h : ∀ c ∈ l, digit c = true) (hr : digit (rest.headD 0) = false) :
    (l ++ rest).takeWhile digit = l ∧ (l ++ rest).dropWhile digit = rest := by
  induction l with
  | nil =>
    cases rest with
    | nil => exact ⟨rfl, rfl⟩
    | cons c r => simp only [List.headD_cons] at hr; simp [hr]
  | cons c l ih =>
    have := ih fun x hx => h x (by simp [hx])
    simp [h c (by simp), this.1, this.2]

theorem dec_digits (n : Nat) : ∀ c ∈ dec n, digit c = true := by
  intro c hc
  have := dec_digit n c hc
  simp [digit, this.1, this.2]

theorem chars_socket : chars "socket:[" = [115, 111, 99, 107, 101, 116, 58, 91] := by decide +kernel

/-- **The inode of a socket is read from the link of its descriptor** -/
theorem inode_of_link (i : Nat) (h0 : 0 < i) (h : i < 2 ^ 64) : inodeOfPath (chars "socket:[" ++ dec i ++ chars "]") = i := by
  have h93 : chars "]" = [93] := by decide +kernel
  have hd : (chars "socket:[" ++ dec i ++ chars "]").drop 8 = dec i ++ [93] := by
    rw [chars_socket, h93, List.append_assoc]; rfl
  obtain ⟨h1, h2⟩ := digits_takeWhile (dec i) [93] (dec_digits i) rfl
  have hs : strtoul (dec i ++ [93]) = (i, [93]) := by
    rw [strtoul, h1, h2, readDec_dec, Nat.min_eq_left (by omega)]
  have hst : startsWith (chars "socket:[" ++ dec i ++ chars "]") (chars "socket:[") = true := by
    rw [startsWith, List.append_assoc, List.take_left]; simp
  rw [inodeOfPath, hd, hs, hst, if_pos ⟨rfl, by simp, by simp, by simpa using Nat.ne_of_gt h0, by simp⟩]

/-- **A file is not taken for a socket**: the links of files begin with a slash -/
theorem file_no_inode (p : List Nat) : inodeOfPath (47 :: p) = 0 := by
  rw [inodeOfPath, if_neg]
  rintro ⟨h, _⟩
  rw [startsWith, chars_socket] at h
  simp at h

theorem mem_takeWhile (p : Nat → Bool) (l : List Nat) (x : Nat) (h : x ∈ l.takeWhile p) : p x = true := by
  induction l with
  | nil => cases h
  | cons a l ih =>
    by_cases ha : p a = true
    · rw [List.takeWhile_cons, if_pos ha] at h
      rcases List.mem_cons.1 h with rfl | h
      · exact ha
      · exact ih h
    · rw [List.takeWhile_cons, if_neg ha] at h; cases h

/-- nothing else but such a link has an inode -/
theorem inode_only_link (p : List Nat) (h : inodeOfPath p ≠ 0) :
    ∃ ds, p = chars "socket:[" ++ ds ++ [93] ∧ (∀ c ∈ ds, digit c = true) ∧ inodeOfPath p = min (readDec ds) (2 ^ 64 - 1) := by
  by_cases hc : startsWith p (chars "socket:[") = true ∧ (p.drop 8).length ≠ 0 ∧ (p.drop 8).getLast? = some 93 ∧
    (strtoul (p.drop 8)).1 ≠ 0 ∧ (strtoul (p.drop 8)).2.length = 1
  · have hv : inodeOfPath p = (strtoul (p.drop 8)).1 := by rw [inodeOfPath, if_pos hc]
    obtain ⟨h1, _, h3, _, h5⟩ := hc
    refine ⟨(p.drop 8).takeWhile digit, ?_, fun c hcm => mem_takeWhile digit _ c hcm, hv⟩
    obtain ⟨x, hx⟩ := List.length_eq_one_iff.1 h5
    have hpre : p.take 8 = chars "socket:[" := by
      rw [startsWith] at h1
      have := beq_iff_eq.1 h1
      rwa [show (chars "socket:[").length = 8 by rw [chars_socket]; rfl] at this
    have hsplit : (p.drop 8).takeWhile digit ++ [x] = p.drop 8 := by
      have := List.takeWhile_append_dropWhile (p := digit) (l := p.drop 8)
      rwa [show (p.drop 8).dropWhile digit = [x] from hx] at this
    have hx93 : x = 93 := by
      rw [← hsplit] at h3
      simpa using h3
    subst hx93
    rw [List.append_assoc, hsplit, ← hpre, List.take_append_drop]
  · exact absurd (by rw [inodeOfPath, if_neg hc]) h

/-! ### Families of netlink sockets -/

/-- the first characters of the names are not digits -/
theorem names_heads : ∀ e ∈ nlNames, digit ((chars e.2).headD 0) = false ∧ chars e.2 ≠ [] := by decide +kernel

theorem nlFind_digits (s : List Nat) (hs : digit (s.headD 0) = true) (l : List (Nat × String)) (hl : ∀ e ∈ l, e ∈ nlNames) :
    nlFind s l = none := by
  induction l with
  | nil => rfl
  | cons e l ih =>
    obtain ⟨v, n⟩ := e
    obtain ⟨h1, h2⟩ := names_heads (v, n) (hl _ (by simp))
    have : startsWith s (chars n) = false := by
      rw [startsWith]
      cases hn : chars n with
      | nil => exact absurd hn h2
      | cons a r =>
        simp only [hn, List.headD_cons] at h1
        cases s with
        | nil => simp
        | cons b q =>
          simp only [List.headD_cons] at hs
          by_cases hab : b = a
          · subst hab; rw [hs] at h1; cases h1
          · simp [hab]
    rw [nlFind, this]
    exact ih fun e he => hl e (by simp [he])

/-- looking for a name followed by a colon: no other name of the table begins the text -/
theorem nlFind_named : ∀ e ∈ nlNames, ∀ rest : List Nat, nlFind (chars e.2 ++ (58 :: rest)) nlNames = some e.1 := by
  have key : ∀ e ∈ nlNames, ∀ l ∈ nlNames, (startsWith (chars e.2 ++ [58]) (chars l.2) = true ↔ l = e) := by decide +kernel
  have hlen : ∀ e ∈ nlNames, ∀ l ∈ nlNames, ∀ rest, startsWith (chars e.2 ++ (58 :: rest)) (chars l.2) =
      startsWith (chars e.2 ++ [58]) (chars l.2) := by
    have hcolon : ∀ l ∈ nlNames, 58 ∉ chars l.2 := by decide +kernel
    intro e he l hl rest
    rw [show chars e.2 ++ (58 :: rest) = (chars e.2 ++ [58]) ++ rest by simp]
    by_cases hle : (chars l.2).length ≤ (chars e.2 ++ [58]).length
    · rw [startsWith, startsWith, List.take_append_of_le_length hle]
    · have h58 : ∀ t : List Nat, startsWith ((chars e.2 ++ [58]) ++ t) (chars l.2) = false := by
        intro t
        rw [startsWith]
        apply Bool.eq_false_iff.2
        intro hh
        have := beq_iff_eq.1 hh
        apply hcolon l hl
        rw [← this, List.take_append, List.take_of_length_le (by omega)]
        simp
      rw [h58 rest]
      have := h58 []
      rw [List.append_nil] at this
      rw [this]
  have hgen : ∀ e ∈ nlNames, ∀ rest, ∀ l : List (Nat × String), (∀ x ∈ l, x ∈ nlNames) → e ∈ l →
      nlFind (chars e.2 ++ (58 :: rest)) l = some e.1 := by
    intro e he rest l
    induction l with
    | nil => intro _ h; cases h
    | cons x l ih =>
      intro hl hmem
      obtain ⟨v, n⟩ := x
      rw [nlFind, hlen e he (v, n) (hl _ (by simp)) rest]
      by_cases hx : (v, n) = e
      · rw [if_pos ((key e he (v, n) (hl _ (by simp))).2 hx), ← hx]
      · rw [if_neg (fun h => hx ((key e he (v, n) (hl _ (by simp))).1 h))]
        refine ih (fun y hy => hl y (by simp [hy])) ?_
        rcases List.mem_cons.1 hmem with h | h
        · exact absurd h.symm hx
        · exact h
  exact fun e he rest => hgen e he rest nlNames (fun _ h => h) he

theorem lookup_mem : ∀ (l : List (Nat × String)) (v : Nat) (n : String), l.lookup v = some n → (v, n) ∈ l := by
  intro l v n
  induction l with
  | nil => intro h; cases h
  | cons x l ih =>
    obtain ⟨a, b⟩ := x
    rw [List.lookup_cons]
    by_cases h : v = a
    · subst h; simp only [beq_self_eq_true]; intro h; cases h; simp
    · simp only [show (v == a) = false by simpa using h]; intro hh; exact List.mem_cons_of_mem _ (ih hh)

theorem chars_netlink : chars "NETLINK" ++ chars ":[" = chars "NETLINK:[" ∧ (chars "NETLINK:[").length = 9 ∧ chars ":" = [58] ∧
    chars "]" = [93] := by decide +kernel

theorem nlFamily_at (s : List Nat) : nlFamily (chars "NETLINK:[" ++ s) = match nlFind s nlNames with
    | some v => some v
    | none => if digit (s.headD 0) = true then some (atoi s) else none := by
  have h1 : startsWith (chars "NETLINK:[" ++ s) (chars "NETLINK:[") = true := by rw [startsWith, List.take_left]; simp
  have h2 : (chars "NETLINK:[" ++ s).drop 9 = s := List.drop_left' chars_netlink.2.1
  rw [nlFamily, if_pos h1, h2]
  rfl

theorem nlFamily_number (n : Nat) : nlFamily (chars "NETLINK:[" ++ (dec n ++ [93])) = some n := by
  have hd : digit ((dec n ++ [93]).headD 0) = true := by
    cases h : dec n with
    | nil => exact absurd h (dec_ne_nil n)
    | cons c l => exact dec_digits n c (by rw [h]; simp)
  rw [nlFamily_at, nlFind_digits _ hd nlNames (fun _ h => h)]
  simp only [hd, if_true, atoi, (digits_takeWhile (dec n) [93] (dec_digits n) rfl).1, readDec_dec]

/-- **The family of a netlink socket is that of the socket**, for every protocol, named or not, and every port: what is decoded
in a message sent through a descriptor is decided by the protocol the kernel says the socket has. -/
theorem family_of_socket (s : NlSock) (hs : s.Ok) : nlFamily (nlText (.details (s.details "NETLINK"))) = some s.proto := by
  have hn := named_iff s.proto hs.proto
  rw [NlSock.details]
  cases hl : nlNames.lookup s.proto with
  | some n =>
    have : Named s.proto := hn.1 (by rw [hl]; rfl)
    rw [if_pos this]
    simp only [nlText, hl]
    rw [chars_netlink.1, chars_netlink.2.2.1, chars_netlink.2.2.2,
      show chars "NETLINK:[" ++ chars n ++ [58] ++ dec s.portid ++ [93] = chars "NETLINK:[" ++ (chars n ++ (58 :: (dec s.portid ++ [93])))
        by simp, nlFamily_at, nlFind_named (s.proto, n) (lookup_mem _ _ _ hl)]
  | none =>
    have : ¬ Named s.proto := fun h => by have := hn.2 h; rw [hl] at this; cases this
    rw [if_neg this]
    simp only [nlText, hl]
    rw [chars_netlink.1, chars_netlink.2.2.2, List.append_assoc, nlFamily_number]

/-! ### Names of families of generic netlink -/

theorem genl_stop (rest : List Byte) (name : Option (List Byte)) (id : Option Nat) (t : List (Nat × List Nat))
    (h : ¬ (4 ≤ rest.length ∧ 4 ≤ fld rest 0 2 ∧ fld rest 0 2 ≤ rest.length)) : genlAttrs rest name id t = some t := by
  rw [genlAttrs.eq_def, dif_neg h]

/-- the name and the number after an attribute -/
def nameAfter (a : Nat × List Byte) (name : Option (List Byte)) : Option (List Byte) := if a.1 = 2 ∧ name.isNone then some a.2 else name
def idAfter (a : Nat × List Byte) (id : Option Nat) : Option Nat :=
  if a.1 = 1 ∧ id.isNone ∧ a.2.length = 2 then some (fld a.2 0 2) else id

theorem genl_step (a : Nat × List Byte) (ha : AttrOk a) (rest : List Byte) (name : Option (List Byte)) (id : Option Nat)
    (t : List (Nat × List Nat)) :
    genlAttrs (attr a ++ rest) name id t =
      match nameAfter a name, idAfter a id with
      | some n, some i =>
        match addPair t i (n.map (·.val)) n.length with
        | none => none
        | some t' => genlAttrs rest none none t'
      | _, _ => genlAttrs rest (nameAfter a name) (idAfter a id) t := by
  obtain ⟨h1, h2, h3, h4⟩ := attr_fields a ha rest
  rw [genlAttrs.eq_def, dif_pos h1]
  simp only [h2, h3, h4]
  rfl

/-- attributes without a name and a number -/
theorem genl_none (l : List (Nat × List Byte)) (hl : ∀ x ∈ l, AttrOk x) (hn : l.filter (·.1 = 2) = []) (hi : l.filter (·.1 = 1) = [])
    (t : List (Nat × List Nat)) : genlAttrs (l.map attr).flatten none none t = some t := by
  induction l with
  | nil => exact genl_stop _ _ _ _ (by simp)
  | cons a l ih =>
    have h2 : a.1 ≠ 2 := by intro h; simp [h] at hn
    have h1 : a.1 ≠ 1 := by intro h; simp [h] at hi
    rw [List.map_cons, List.flatten_cons, genl_step a (hl a (by simp))]
    simp only [nameAfter, idAfter, h1, h2, false_and, if_false]
    exact ih (fun x hx => hl x (by simp [hx])) (by simpa [h2] using hn) (by simpa [h1] using hi)

/-- the pair is added and nothing else -/
def added (t : List (Nat × List Nat)) (i : Nat) (n : List Byte) : Option (List (Nat × List Nat)) := addPair t i (n.map (·.val)) n.length

theorem genl_id (l : List (Nat × List Byte)) (hl : ∀ x ∈ l, AttrOk x) (n : List Byte) (i : Nat) (hi : i < 65536)
    (h2 : l.filter (·.1 = 2) = []) (h1 : (l.filter (·.1 = 1)).map (·.2) = [leBytes 2 i]) (t : List (Nat × List Nat)) :
    genlAttrs (l.map attr).flatten (some n) none t = added t i n := by
  induction l with
  | nil => simp at h1
  | cons a l ih =>
    have ha2 : a.1 ≠ 2 := by intro h; simp [h] at h2
    have h2' : l.filter (·.1 = 2) = [] := by simpa [ha2] using h2
    rw [List.map_cons, List.flatten_cons, genl_step a (hl a (by simp))]
    by_cases ha1 : a.1 = 1
    · simp only [List.filter_cons, ha1, decide_true, if_true, List.map_cons, List.cons.injEq, List.map_eq_nil_iff] at h1
      have hlen : a.2.length = 2 := by rw [h1.1, leBytes_length]
      have hv : fld a.2 0 2 = i := by
        rw [h1.1, fld, List.drop_zero, List.take_of_length_le (by rw [leBytes_length]), le_leBytes _ _ (by omega)]
      simp only [nameAfter, idAfter, ha1, hlen, hv, Option.isNone_none, Option.isNone_some, and_self, and_true, if_true]
      simp only [show ¬ ((1 : Nat) = 2 ∧ false = true) by simp, if_false]
      show (match added t i n with
        | none => none
        | some t' => genlAttrs (l.map attr).flatten none none t') = added t i n
      cases added t i n with
      | none => rfl
      | some t' => exact genl_none l (fun x hx => hl x (by simp [hx])) h2' h1.2 t'
    · simp only [nameAfter, idAfter, ha1, ha2, false_and, if_false]
      exact ih (fun x hx => hl x (by simp [hx])) h2' (by simpa [ha1] using h1)

theorem genl_name (l : List (Nat × List Byte)) (hl : ∀ x ∈ l, AttrOk x) (n : List Byte) (i : Nat)
    (h1 : l.filter (·.1 = 1) = []) (h2 : (l.filter (·.1 = 2)).map (·.2) = [n]) (t : List (Nat × List Nat)) :
    genlAttrs (l.map attr).flatten none (some i) t = added t i n := by
  induction l with
  | nil => simp at h2
  | cons a l ih =>
    have ha1 : a.1 ≠ 1 := by intro h; simp [h] at h1
    have h1' : l.filter (·.1 = 1) = [] := by simpa [ha1] using h1
    rw [List.map_cons, List.flatten_cons, genl_step a (hl a (by simp))]
    by_cases ha2 : a.1 = 2
    · simp only [List.filter_cons, ha2, decide_true, if_true, List.map_cons, List.cons.injEq, List.map_eq_nil_iff] at h2
      simp only [nameAfter, idAfter, ha2, h2.1, Option.isNone_none, and_self, if_true]
      simp only [show ¬ ((2 : Nat) = 1 ∧ (some i).isNone = true ∧ n.length = 2) by simp, if_false]
      show (match added t i n with
        | none => none
        | some t' => genlAttrs (l.map attr).flatten none none t') = added t i n
      cases added t i n with
      | none => rfl
      | some t' => exact genl_none l (fun x hx => hl x (by simp [hx])) h2.2 h1' t'
    · simp only [nameAfter, idAfter, ha1, ha2, false_and, if_false]
      exact ih (fun x hx => hl x (by simp [hx])) h1' (by simpa [ha2] using h2)

theorem genl_both (l : List (Nat × List Byte)) (hl : ∀ x ∈ l, AttrOk x) (n : List Byte) (i : Nat) (hi : i < 65536)
    (h2 : (l.filter (·.1 = 2)).map (·.2) = [n]) (h1 : (l.filter (·.1 = 1)).map (·.2) = [leBytes 2 i]) (t : List (Nat × List Nat)) :
    genlAttrs (l.map attr).flatten none none t = added t i n := by
  induction l with
  | nil => simp at h1
  | cons a l ih =>
    have hl' : ∀ x ∈ l, AttrOk x := fun x hx => hl x (by simp [hx])
    rw [List.map_cons, List.flatten_cons, genl_step a (hl a (by simp))]
    by_cases ha2 : a.1 = 2
    · have ha1 : a.1 ≠ 1 := by omega
      simp only [List.filter_cons, ha2, decide_true, if_true, List.map_cons, List.cons.injEq, List.map_eq_nil_iff] at h2
      simp only [nameAfter, idAfter, ha2, h2.1, Option.isNone_none, and_self, if_true]
      simp only [show ¬ ((2 : Nat) = 1 ∧ True ∧ n.length = 2) by simp, if_false]
      exact genl_id l hl' n i hi h2.2 (by simpa [ha1] using h1) t
    · by_cases ha1 : a.1 = 1
      · simp only [List.filter_cons, ha1, decide_true, if_true, List.map_cons, List.cons.injEq, List.map_eq_nil_iff] at h1
        have hlen : a.2.length = 2 := by rw [h1.1, leBytes_length]
        have hv : fld a.2 0 2 = i := by
          rw [h1.1, fld, List.drop_zero, List.take_of_length_le (by rw [leBytes_length]), le_leBytes _ _ (by omega)]
        simp only [nameAfter, idAfter, ha1, hlen, hv, Option.isNone_none, and_self, if_true]
        simp only [show ¬ ((1 : Nat) = 2 ∧ True) by simp, if_false]
        exact genl_name l hl' n i h1.2 (by simpa [ha2] using h2) t
      · simp only [nameAfter, idAfter, ha1, ha2, false_and, if_false]
        exact ih hl' (by simpa [ha2] using h2) (by simpa [ha1] using h1)

theorem ndup_name (n : List Byte) (h : ∀ b ∈ n, b ≠ 0) :
    ndup ((n ++ [0]).map (fun b : Byte => b.val)) (n ++ [0]).length = n.map (fun b : Byte => b.val) := by
  rw [ndup, List.take_of_length_le (by simp)]
  induction n with
  | nil => rfl
  | cons b n ih =>
    have hb : b.val ≠ 0 := fun hh => h b (by simp) (Fin.ext hh)
    have := ih fun x hx => h x (by simp [hx])
    simp [hb] at this ⊢
    exact this

theorem addPair_new (t : List (Nat × List Nat)) (i : Nat) (s : List Nat) (len : Nat) (h : i ∉ t.map (·.1)) :
    addPair t i s len = some (t ++ [(i, ndup s len)]) := by
  induction t with
  | nil => rfl
  | cons x t ih =>
    obtain ⟨v, r⟩ := x
    simp only [List.map_cons, List.mem_cons, not_or] at h
    rw [addPair, if_neg (Ne.symm h.1), ih h.2]
    rfl

theorem takeWhile_nul_free (l : List Nat) : 0 ∉ l.takeWhile (· ≠ 0) := by
  intro h
  have := mem_takeWhile (fun x => decide (x ≠ 0)) l 0 h
  simp at this

/-- **A name is set, and no other is changed.**  Whatever is in the table, a number then has the name just given, up to a NUL byte,
and all the other numbers have those they had. -/
theorem pair_set (t : List (Nat × List Nat)) (ht : ∀ e ∈ t, 0 ∉ e.2) (v : Nat) (s : List Nat) (len : Nat) (hs : len ≤ s.length)
    (t' : List (Nat × List Nat)) (h : addPair t v s len = some t') :
    t'.lookup v = some (ndup s len) ∧ (∀ w, w ≠ v → t'.lookup w = t.lookup w) ∧ ∀ e ∈ t', 0 ∉ e.2 := by
  induction t generalizing t' with
  | nil =>
    rw [addPair, Option.some.injEq] at h
    subst h
    refine ⟨by simp, fun w hw => ?_, ?_⟩
    · simpa using hw
    · intro e he
      rw [List.mem_singleton] at he
      subst he
      exact takeWhile_nul_free (s.take len)
  | cons x t ih =>
    obtain ⟨a, r⟩ := x
    have hr : 0 ∉ r := ht (a, r) (by simp)
    have ht' : ∀ e ∈ t, 0 ∉ e.2 := fun e he => ht e (by simp [he])
    have hset : ∀ q : List Nat, q = ndup s len → t' = (a, q) :: t → a = v →
        t'.lookup v = some (ndup s len) ∧ (∀ w, w ≠ v → t'.lookup w = ((a, r) :: t).lookup w) ∧ ∀ e ∈ t', 0 ∉ e.2 := by
      rintro q rfl rfl rfl
      refine ⟨by simp, fun w hw => ?_, ?_⟩
      · simp [List.lookup_cons, show (w == a) = false by simpa using hw]
      · intro e he
        rcases List.mem_cons.1 he with rfl | he
        · exact takeWhile_nul_free (s.take len)
        · exact ht' e he
    rw [addPair] at h
    by_cases hv : a = v
    · rw [if_pos hv] at h
      by_cases hsame : sameN r s len = true
      · rw [if_pos hsame] at h
        rw [sameN, beq_iff_eq] at hsame
        rw [charAt] at h
        by_cases h1 : len < r.length
        · rw [if_pos h1, List.getElem?_eq_getElem h1] at h
          have h0 : r[len] ≠ 0 := fun hh => hr (hh ▸ List.getElem_mem h1)
          simp only [h0, if_false, Option.some.injEq] at h
          exact hset _ rfl h.symm hv
        · rw [if_neg h1] at h
          by_cases h2 : len = r.length
          · rw [if_pos h2] at h
            simp only [if_true, Option.some.injEq] at h
            refine hset r ?_ h.symm hv
            rw [ndup, ← hsame, List.take_of_length_le (by omega)]
          · rw [if_neg h2] at h
            cases h
      · rw [if_neg hsame, Option.some.injEq] at h
        exact hset _ rfl h.symm hv
    · rw [if_neg hv] at h
      obtain ⟨t1, h1, rfl⟩ := Option.map_eq_some_iff.1 h
      obtain ⟨i1, i2, i3⟩ := ih ht' t1 h1
      refine ⟨?_, fun w hw => ?_, ?_⟩
      · rw [List.lookup_cons, show (v == a) = false by simpa using Ne.symm hv]; exact i1
      · rw [List.lookup_cons, List.lookup_cons, i2 w hw]
      · intro e he
        rcases List.mem_cons.1 he with rfl | he
        · exact hr
        · exact i3 e he

/-- what the kernel says of a family -/
def Family.entry (f : Family) : Nat × List Nat := (f.id, f.name.map (fun b : Byte => b.val))

def Family.payload (f : Family) : List Byte := [1, 2] ++ f.r ++ (f.attrs.map attr).flatten

theorem family_parse (f : Family) (hf : f.Ok) (t : List (Nat × List Nat)) (hnew : f.id ∉ t.map (·.1)) :
    genlParse t f.payload = some (t ++ [f.entry], 0) := by
  have hr := hf.r
  have hlen : 4 ≤ f.payload.length := by simp [Family.payload, hr]
  have h0 : rd f.payload 0 1 = some 1 := by
    rw [show f.payload = [] ++ ([1] ++ ([2] ++ f.r ++ (f.attrs.map attr).flatten)) by simp [Family.payload],
      rd_at [] _ _ 0 1 rfl rfl, le_singleton]; rfl
  have h1 : rd f.payload 1 1 = some 2 := by
    rw [show f.payload = [1] ++ ([2] ++ (f.r ++ (f.attrs.map attr).flatten)) by simp [Family.payload],
      rd_at [1] _ _ 1 1 rfl rfl, le_singleton]; rfl
  have hd : f.payload.drop 4 = (f.attrs.map attr).flatten := by
    rw [show f.payload = ([1, 2] ++ f.r) ++ (f.attrs.map attr).flatten by simp [Family.payload]]
    exact List.drop_left' (by simp [hr])
  rw [genlParse, if_neg (by omega), h0, h1, hd]
  simp only [Option.bind_some, ne_eq, not_true_eq_false, if_false]
  rw [genl_both f.attrs hf.attrs (f.name ++ [0]) f.id hf.id hf.theName hf.theId t, added, addPair_new _ _ _ _ hnew, ndup_name _ hf.name]
  rfl

/-- **The table of families is what the kernel says**: every family, with its number and name, in the order of the messages, as long
as their numbers differ; whatever other attributes they have and however they are put into datagrams. -/
theorem families_table_partial (fams : List Family) (hf : ∀ f ∈ fams, f.Ok) (hd : (fams.map Family.id).Nodup) (ds : List (List Byte))
    (hans : Answer 16 (fams.map Family.message) ds) : genlFamilies ds = some (fams.map Family.entry) := by
  have hlen : ∀ f ∈ fams, f.payload.length < 2 ^ 31 := by
    intro f hm
    have h1 : f.message.length < 2 ^ 31 := (hf f hm).len
    have h2 : f.message = message 16 f.m f.payload := rfl
    rw [h2] at h1
    simp only [message, List.length_append] at h1
    omega
  have hseq : ∀ (l : List Family) (t : List (Nat × List Nat)), (∀ f ∈ l, f.Ok) → (t.map (·.1) ++ l.map Family.id).Nodup →
      seq 16 genlParse t (l.map fun f => ⟨16, f.m, f.payload⟩) = some (t ++ l.map Family.entry, none) := by
    intro l
    induction l with
    | nil => intro t _ _; simp [seq]
    | cons f l ih =>
      intro t hl hnd
      have hnew : f.id ∉ t.map (·.1) := by
        rw [List.map_cons, List.nodup_append] at hnd
        intro hm
        exact hnd.2.2 _ hm f.id (by simp) rfl
      rw [List.map_cons, seq, if_neg (by simp), family_parse f (hl f (by simp)) t hnew]
      simp only [andThen, gt_iff_lt, lt_self_iff_false, if_false]
      rw [ih (t ++ [f.entry]) (fun g hg => hl g (by simp [hg])) (by
        rw [List.map_append, List.append_assoc]; simpa [Family.entry] using hnd)]
      simp
  have key := receive_answer 16 genlParse [] (fams.map fun f => ⟨16, f.m, f.payload⟩) (by
    intro x hx
    obtain ⟨f, hm, rfl⟩ := List.mem_map.1 hx
    exact ⟨(by decide : 16 < 65536), (hf f hm).m, hlen f hm⟩) ds (by rw [List.map_map]; exact hans)
  rw [hseq fams [] hf (by simpa using hd)] at key
  simp only [] at key
  rw [genlFamilies, key]
  simp

end Strace.Diag
