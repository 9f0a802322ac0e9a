import Verif.Diag.Props
/-! # Details of sockets: what is shown is what is true of the socket -/
namespace Strace.Diag
open Strace.Sized

/-! ### Internet sockets -/

theorem replicate_iff (l : List Byte) (n : Nat) (h : l.length = n) : l ≠ List.replicate n 0 ↔ ∃ x ∈ l, x ≠ 0 := by
  rw [ne_eq, List.eq_replicate_iff]
  constructor
  · intro hh
    by_contra hc
    exact hh ⟨h, fun b hb => by
      by_contra hb0
      exact hc ⟨b, hb, hb0⟩⟩
  · rintro ⟨x, hx, h0⟩ ⟨_, hall⟩
    exact h0 (hall x hx)

theorem inet_parse (name : String) (i : Nat) (c : Cache) (s : InetSock) (hs : s.Ok) :
    inetParse name i c s.payload = some (if s.inode = i then (cacheAdd c i (s.details name), 1) else (c, 0)) := by
  have hv : (s.v6 = true ∧ s.src.length = 16 ∧ s.dst.length = 16 ∧ s.b.length = 0 ∧ s.c.length = 0) ∨
      (s.v6 = false ∧ s.src.length = 4 ∧ s.dst.length = 4 ∧ s.b.length = 12 ∧ s.c.length = 12) := by
    have h1 := hs.src; have h2 := hs.dst; have h3 := hs.b; have h4 := hs.c
    cases hv : s.v6
    · rw [hv] at h1 h2 h3 h4; exact Or.inr ⟨rfl, h1, h2, h3, h4⟩
    · rw [hv] at h1 h2 h3 h4; exact Or.inl ⟨rfl, h1, h2, h3, h4⟩
  have ha := hs.a
  have hd := hs.d
  have hlen : 72 ≤ s.payload.length := by
    simp only [InetSock.payload, List.length_append, leBytes_length, port, List.length_cons, List.length_nil]
    omega
  have hino : fld s.payload 68 4 = s.inode := by
    rw [show s.payload = ([if s.v6 then 10 else 2] ++ s.a ++ port s.sport ++ port s.dport ++ s.src ++ s.b ++ s.dst ++ s.c ++ s.d) ++
      (leBytes 4 s.inode ++ s.e) by simp [InetSock.payload], fld_at _ _ _ 68 4 (by
        simp only [List.length_append, port, List.length_cons, List.length_nil]; omega) (leBytes_length 4 _),
      le_leBytes _ _ hs.inode]
  have hfam : fld s.payload 0 1 = if s.v6 then 10 else 2 := by
    rw [show s.payload = [] ++ ([if s.v6 then 10 else 2] ++ (s.a ++ port s.sport ++ port s.dport ++ s.src ++ s.b ++ s.dst ++ s.c ++
      s.d ++ leBytes 4 s.inode ++ s.e)) by simp [InetSock.payload], fld_at [] _ _ 0 1 rfl rfl, le_singleton]
    cases s.v6 <;> rfl
  have hsp : fld s.payload 4 1 * 256 + fld s.payload 5 1 = s.sport := by
    have h1 := rdBe_isSome s.payload 4 (by omega)
    rw [show s.payload = ([if s.v6 then 10 else 2] ++ s.a) ++ (port s.sport ++ (port s.dport ++ s.src ++ s.b ++ s.dst ++ s.c ++
      s.d ++ leBytes 4 s.inode ++ s.e)) by simp [InetSock.payload], rdBe_at _ _ _ 4 (by simp [ha]) hs.sport] at h1
    rw [show s.payload = ([if s.v6 then 10 else 2] ++ s.a) ++ (port s.sport ++ (port s.dport ++ s.src ++ s.b ++ s.dst ++ s.c ++
      s.d ++ leBytes 4 s.inode ++ s.e)) by simp [InetSock.payload]]
    exact (Option.some.inj h1).symm
  have hdp : fld s.payload 6 1 * 256 + fld s.payload 7 1 = s.dport := by
    have h1 := rdBe_isSome s.payload 6 (by omega)
    rw [show s.payload = ([if s.v6 then 10 else 2] ++ s.a ++ port s.sport) ++ (port s.dport ++ (s.src ++ s.b ++ s.dst ++ s.c ++
      s.d ++ leBytes 4 s.inode ++ s.e)) by simp [InetSock.payload], rdBe_at _ _ _ 6 (by simp [ha, port]) hs.dport] at h1
    rw [show s.payload = ([if s.v6 then 10 else 2] ++ s.a ++ port s.sport) ++ (port s.dport ++ (s.src ++ s.b ++ s.dst ++ s.c ++
      s.d ++ leBytes 4 s.inode ++ s.e)) by simp [InetSock.payload]]
    exact (Option.some.inj h1).symm
  have hn : (if fld s.payload 0 1 = 2 then 4 else 16) = s.src.length ∧ s.dst.length = s.src.length := by
    rw [hfam]
    rcases hv with ⟨h, h1, h2, _⟩ | ⟨h, h1, h2, _⟩ <;> simp [h, h1, h2]
  have hsrc : (s.payload.drop 8).take s.src.length = s.src := by
    rw [show s.payload = ([if s.v6 then 10 else 2] ++ s.a ++ port s.sport ++ port s.dport) ++ (s.src ++ (s.b ++ s.dst ++ s.c ++
      s.d ++ leBytes 4 s.inode ++ s.e)) by simp [InetSock.payload]]
    exact slice _ _ _ _ _ (by simp [ha, port]) rfl
  have hdst : (s.payload.drop 24).take s.src.length = s.dst := by
    rw [show s.payload = ([if s.v6 then 10 else 2] ++ s.a ++ port s.sport ++ port s.dport ++ s.src ++ s.b) ++ (s.dst ++ (s.c ++
      s.d ++ leBytes 4 s.inode ++ s.e)) by simp [InetSock.payload]]
    exact slice _ _ _ _ _ (by
      simp only [List.length_append, port, List.length_cons, List.length_nil]; omega) hn.2
  rw [inetParse_long name i c _ hlen, hino]
  by_cases hi : s.inode = i
  · rw [if_neg (not_not.2 hi), if_neg (by rw [hfam]; cases s.v6 <;> simp), if_pos hi, inetDet, hn.1, hsrc, hdst, hsp, hdp, hfam,
      InetSock.details]
    have hc : (s.dport ≠ 0 ∨ s.dst ≠ List.replicate s.src.length 0) ↔ s.Connected := by
      rw [replicate_iff s.dst _ hn.2]; rfl
    have h6 : decide ((if s.v6 = true then 10 else 2) = 10) = s.v6 := by cases s.v6 <;> rfl
    rw [h6]
    by_cases hcc : s.Connected
    · rw [if_pos (hc.2 hcc), if_pos hcc]
    · rw [if_neg (fun h => hcc (hc.1 h)), if_neg hcc]
  · rw [if_pos hi, if_neg hi]

/-! ### Netlink sockets -/

theorem named_iff : ∀ proto, proto < 256 → ((nlNames.lookup proto).isSome = true ↔ (proto ≤ 22 ∧ proto ≠ 17)) := by decide +kernel

theorem nl_parse (name : String) (i : Nat) (c : Cache) (s : NlSock) (hs : s.Ok) :
    netlinkParse name i c s.payload = some (if s.inode = i then (cacheAdd c i (s.details name), 1) else (c, 0)) := by
  have hc := hs.c
  have hd := hs.d
  have hlen : 28 ≤ s.payload.length := by
    simp only [NlSock.payload, List.length_append, leBytes_length, List.length_cons, List.length_nil]
    omega
  have hino : fld s.payload 16 4 = s.inode := by
    rw [show s.payload = ([16, s.a] ++ leBytes 1 s.proto ++ [s.b] ++ leBytes 4 s.portid ++ s.c) ++ (leBytes 4 s.inode ++ s.d) by
      simp [NlSock.payload], fld_at _ _ _ 16 4 (by simp [leBytes_length, hc]) (leBytes_length 4 _), le_leBytes _ _ hs.inode]
  have hport : fld s.payload 4 4 = s.portid := by
    rw [show s.payload = ([16, s.a] ++ leBytes 1 s.proto ++ [s.b]) ++ (leBytes 4 s.portid ++ (s.c ++ leBytes 4 s.inode ++ s.d)) by
      simp [NlSock.payload], fld_at _ _ _ 4 4 (by simp [leBytes_length]) (leBytes_length 4 _), le_leBytes _ _ hs.portid]
  have hproto : fld s.payload 2 1 = s.proto := by
    rw [show s.payload = [16, s.a] ++ (leBytes 1 s.proto ++ ([s.b] ++ leBytes 4 s.portid ++ s.c ++ leBytes 4 s.inode ++ s.d)) by
      simp [NlSock.payload], fld_at _ _ _ 2 1 rfl (leBytes_length 1 _), le_leBytes _ _ (by have := hs.proto; omega)]
  have hfam : fld s.payload 0 1 = 16 := by
    rw [show s.payload = [] ++ ([16] ++ ([s.a] ++ leBytes 1 s.proto ++ [s.b] ++ leBytes 4 s.portid ++ s.c ++ leBytes 4 s.inode ++
      s.d)) by simp [NlSock.payload], fld_at [] _ _ 0 1 rfl rfl, le_singleton]
    rfl
  rw [netlinkParse_long name i c _ hlen, hino, hfam]
  by_cases hi : s.inode = i
  · rw [if_neg (not_not.2 hi), if_neg (by simp), if_pos hi, nlDet, hproto, hport, NlSock.details]
    have := named_iff s.proto hs.proto
    by_cases hn : Named s.proto
    · rw [if_pos hn, if_pos (this.2 hn)]
    · rw [if_neg hn, if_neg (fun h => hn (this.1 h))]
  · rw [if_pos hi, if_neg hi]

/-! ### Sockets of the file system -/

theorem attr_length (a : Nat × List Byte) : (attr a).length = (4 + a.2.length + 3) / 4 * 4 := by
  simp only [attr, List.length_append, leBytes_length, fill_length]
  omega

/-- what the fields of an attribute are -/
theorem attr_fields (a : Nat × List Byte) (ha : AttrOk a) (rest : List Byte) :
    (4 ≤ (attr a ++ rest).length ∧ 4 ≤ fld (attr a ++ rest) 0 2 ∧ fld (attr a ++ rest) 0 2 ≤ (attr a ++ rest).length) ∧
    fld (attr a ++ rest) 2 2 = a.1 ∧ ((attr a ++ rest).take (fld (attr a ++ rest) 0 2)).drop 4 = a.2 ∧
    (attr a ++ rest).drop ((fld (attr a ++ rest) 0 2 + 3) / 4 * 4) = rest := by
  have hl : fld (attr a ++ rest) 0 2 = 4 + a.2.length := by
    rw [show attr a ++ rest = [] ++ (leBytes 2 (4 + a.2.length) ++ (leBytes 2 a.1 ++ a.2 ++ fill a.2.length ++ rest)) by simp [attr],
      fld_at [] _ _ 0 2 rfl (leBytes_length 2 _), le_leBytes _ _ (by have := ha.2; omega)]
  have ht : fld (attr a ++ rest) 2 2 = a.1 := by
    rw [show attr a ++ rest = leBytes 2 (4 + a.2.length) ++ (leBytes 2 a.1 ++ (a.2 ++ fill a.2.length ++ rest)) by simp [attr],
      fld_at _ _ _ 2 2 (leBytes_length 2 _) (leBytes_length 2 _), le_leBytes _ _ (by have := ha.1; omega)]
  have h := attr_length a
  refine ⟨?_, ht, ?_, ?_⟩
  · rw [hl, List.length_append]; omega
  · rw [hl, List.drop_take, show attr a ++ rest = (leBytes 2 (4 + a.2.length) ++ leBytes 2 a.1) ++ (a.2 ++ (fill a.2.length ++ rest))
      by simp [attr]]
    exact slice _ _ _ _ _ (by simp [leBytes_length]) (by omega)
  · rw [hl, ← h, List.drop_left]

theorem unixAttrs_list (l : List (Nat × List Byte)) (hl : ∀ x ∈ l, AttrOk x) (peer : Nat) (path : List Byte) :
    unixAttrs (l.map attr).flatten peer path =
      some (l.foldl (fun p a => peerAfter a.1 a.2 p) peer, l.foldl (fun p a => pathAfter a.1 a.2 p) path) := by
  induction l generalizing peer path with
  | nil => exact unixAttrs_stop _ _ _ (by simp)
  | cons a l ih =>
    rw [List.map_cons, List.flatten_cons]
    obtain ⟨h1, h2, h3, h4⟩ := attr_fields a (hl a (by simp)) (l.map attr).flatten
    rw [unixAttrs_step _ _ _ h1, h2, h3, h4, ih fun x hx => hl x (by simp [hx])]
    rfl

theorem path_fold (l : List (Nat × List Byte)) (path : List Byte) :
    l.foldl (fun p a => pathAfter a.1 a.2 p) path =
      if path = [] then (((l.filter (·.1 = 0)).map (·.2)).find? (fun x => x ≠ [])).getD [] |>.take 108 else path := by
  induction l generalizing path with
  | nil => by_cases h : path = [] <;> simp [h]
  | cons a l ih =>
    rw [List.foldl_cons, ih]
    by_cases hp : path = []
    · subst hp
      by_cases h0 : a.1 = 0
      · by_cases ha : a.2 = []
        · simp [pathAfter, h0, ha]
        · have : a.2.take 108 ≠ [] := by
            cases h : a.2 with
            | nil => exact absurd h ha
            | cons x xs => simp
          simp [pathAfter, h0, ha]
      · simp [pathAfter, h0]
    · simp [pathAfter, hp]

theorem num4_fld (l : List Byte) (h : 4 ≤ l.length) : fld l 0 4 = num4 l := by
  match l, h with
  | a :: b :: c :: d :: l, _ => simp [fld, le, num4]; omega

theorem peer_fold (l : List (Nat × List Byte)) (peer : Nat) :
    l.foldl (fun p a => peerAfter a.1 a.2 p) peer =
      (((l.filter (·.1 = 2)).map (·.2)).filter (fun x => 4 ≤ x.length)).getLast?.elim peer num4 := by
  induction l generalizing peer with
  | nil => rfl
  | cons a l ih =>
    rw [List.foldl_cons, ih]
    by_cases h2 : a.1 = 2
    · by_cases h4 : 4 ≤ a.2.length
      · simp only [peerAfter, h2, h4, and_self, if_true, num4_fld _ h4]
        simp only [List.filter_cons, h2, decide_true, if_true, List.map_cons, h4]
        rw [List.getLast?_cons]
        cases (((l.filter (·.1 = 2)).map (·.2)).filter (fun x => decide (4 ≤ x.length))).getLast? <;> simp
      · simp [peerAfter, h2, h4, List.filter_cons]
    · simp [peerAfter, h2, List.filter_cons]

theorem upTo0_eq (l : List Byte) : l.takeWhile (· ≠ 0) = upTo0 l := by
  induction l with
  | nil => rfl
  | cons b l ih =>
    by_cases h : b = 0
    · simp [upTo0, h]
    · simp [upTo0, h, ← ih]

theorem pathShown_eq (path : List Byte) :
    pathShown path = if path = [] then none else if path.head? = some 0 then some (true, upTo0 path.tail) else some (false, upTo0 path) := by
  cases path with
  | nil => rfl
  | cons b l =>
    rw [pathShown, upTo0_eq, upTo0_eq]
    by_cases h : b = 0 <;> simp [h]

theorem upTo0_all (l : List Byte) (h : ∀ b ∈ l, b ≠ 0) : upTo0 l = l := by
  induction l with
  | nil => rfl
  | cons b l ih =>
    rw [upTo0, if_neg (h b (by simp)), ih fun x hx => h x (by simp [hx])]

theorem unix_parse (name : String) (i : Nat) (c : Cache) (s : UnixSock) (hs : s.Ok)
    (h0 : s.name.head? = some 0 → ∀ b ∈ s.name.tail, b ≠ 0) :
    unixParse name i c s.payload = some (if s.inode = i then
      (match s.details name with
      | some d => (cacheAdd c i d, 1)
      | none => (c, -1)) else (c, 0)) := by
  have ha := hs.a
  have hb := hs.b
  have hlen : 16 ≤ s.payload.length := by
    simp only [UnixSock.payload, List.length_append, leBytes_length, List.length_cons, List.length_nil]
    omega
  have hino : fld s.payload 4 4 = s.inode := by
    rw [show s.payload = ([1] ++ s.a) ++ (leBytes 4 s.inode ++ (s.b ++ (s.attrs.map attr).flatten)) by
      simp [UnixSock.payload], fld_at _ _ _ 4 4 (by simp [ha]) (leBytes_length 4 _), le_leBytes _ _ hs.inode]
  have hfam : fld s.payload 0 1 = 1 := by
    rw [show s.payload = [] ++ ([1] ++ (s.a ++ leBytes 4 s.inode ++ s.b ++ (s.attrs.map attr).flatten)) by
      simp [UnixSock.payload], fld_at [] _ _ 0 1 rfl rfl, le_singleton]
    rfl
  have hdrop : s.payload.drop 16 = (s.attrs.map attr).flatten := by
    rw [show s.payload = ([1] ++ s.a ++ leBytes 4 s.inode ++ s.b) ++ (s.attrs.map attr).flatten by simp [UnixSock.payload]]
    exact List.drop_left' (by simp [ha, hb, leBytes_length])
  have hattrs : unixAttrs (s.payload.drop 16) 0 [] = some (s.peer, s.name) := by
    rw [hdrop, unixAttrs_list _ hs.attrs, peer_fold, path_fold, if_pos rfl]; rfl
  rw [unixParse_long name i c _ hlen _ _ hattrs, hino, hfam]
  by_cases hi : s.inode = i
  · rw [if_neg (not_not.2 hi), if_neg (by simp), if_pos hi, UnixSock.details]
    by_cases hc : s.peer = 0 ∧ s.name = []
    · rw [if_pos hc, if_pos hc]
    · rw [if_neg hc, if_neg hc]
      have hp : pathShown s.name = if s.name = [] then none else if s.name.head? = some 0 then some (true, s.name.tail)
          else some (false, upTo0 s.name) := by
        rw [pathShown_eq]
        by_cases hh : s.name.head? = some 0
        · rw [upTo0_all _ (h0 hh)]
        · rw [if_neg hh, if_neg hh]
      simp only [unixDet, hp, hi, ne_eq, ite_not]
  · rw [if_pos hi, if_neg hi]

/-! ### Answers -/

/-- looking for a message among those of a kind of socket that is shown whenever it is found -/
theorem seq_find {α : Type} (f : α → Msg) (ino : α → Nat) (det : α → Details) (pr : String × Kind) (i : Nat) (l : List α) (c : Cache)
    (ht : ∀ x ∈ l, (f x).t = 20)
    (hp : ∀ x ∈ l, ∀ c', parser pr i c' (f x).p = some (if ino x = i then (cacheAdd c' i (det x), 1) else (c', 0))) :
    seq 20 (parser pr i) c (l.map f) = some (match l.find? (fun x => ino x = i) with
      | some x => (cacheAdd c i (det x), some true)
      | none => (c, none)) := by
  induction l with
  | nil => rfl
  | cons x l ih =>
    rw [List.map_cons, seq, if_neg (not_not.2 (ht x (by simp))), hp x (by simp)]
    by_cases h : ino x = i
    · simp [andThen, h]
    · simp only [andThen, h, if_false, List.find?_cons, decide_false]
      exact ih (fun y hy => ht y (by simp [hy])) fun y hy => hp y (by simp [hy])

theorem get_of_seq (pr : String × Kind) (i : Nat) (c : Cache) (l : List Msg) (hl : ∀ x ∈ l, x.Ok) (ds : List (List Byte))
    (hans : Answer 20 (l.map Msg.enc) ds) (o : Option Details)
    (hseq : seq 20 (parser pr i) c l = some (match o with
      | some d => (cacheAdd c i d, some true)
      | none => (c, none))) :
    ∃ left, (o = none → left = []) ∧ get pr i c ds = some (match o with
      | some d => (cacheAdd c i d, some d, left)
      | none => (c, none, left)) := by
  have key := receive_answer 20 (parser pr i) c l hl ds hans
  rw [hseq] at key
  cases o with
  | some d =>
    obtain ⟨left, h⟩ := key
    exact ⟨left, by simp, by rw [get, h]; simp [cached_cacheAdd]⟩
  | none => exact ⟨[], by simp, by rw [get]; simp only [] at key; rw [key]; simp⟩

theorem receive_single (pr : String × Kind) (i : Nat) (c : Cache) (x : Msg) (hx : x.Ok) (ht : x.t = 20) (hlen : x.enc.length ≤ 8192) :
    (∀ d, parser pr i c x.p = some (cacheAdd c i d, 1) → get pr i c [x.enc] = some (cacheAdd c i d, some d, [])) ∧
    (parser pr i c x.p = some (c, -1) → get pr i c [x.enc] = some (c, none, [])) := by
  have h1 : nlmsgOk (x.enc.take 8192) = true := by
    rw [List.take_of_length_le hlen]; simpa using nlmsgOk_enc x hx []
  have h2 := walk_cons 20 (parser pr i) c x hx []
  rw [List.append_nil, if_neg (not_not.2 ht)] at h2
  constructor
  · intro d hp
    rw [hp] at h2
    rw [get, receive, if_pos h1, List.take_of_length_le hlen, h2]
    simp [andThen, cached_cacheAdd]
  · intro hp
    rw [hp] at h2
    rw [get, receive, if_pos h1, List.take_of_length_le hlen, h2]
    simp [andThen]

theorem protocols_kinds : ∀ pr ∈ protocols, (pr.2 = .unix ∧ pr.1 ∈ unixNames) ∨
    (pr.2 = .inet ∧ pr.1 ∈ inetNames ∧ pr.1 ∉ unixNames ∧ pr.1 ≠ "NETLINK") ∨
    (pr.2 = .netlink ∧ pr.1 = "NETLINK" ∧ pr.1 ∉ unixNames) := by decide +kernel

/-- asking for one protocol -/
theorem get_says (k : Kernel) (i : Nat) (hk : k.Ok i)
    (hu : ∀ s ∈ k.unix, s.name.head? = some 0 → ∀ b ∈ s.name.tail, b ≠ 0) (ans : String → List (List Byte)) (ha : Answers k ans) (pr : String × Kind)
    (hpr : pr ∈ protocols) (c : Cache) :
    ∃ left, (k.says i pr.1 = none → left = []) ∧ get pr i c (ans pr.1) = some (match k.says i pr.1 with
      | some d => (cacheAdd c i d, some d, left)
      | none => (c, none, left)) := by
  obtain ⟨hau, hi, hn⟩ := ha
  obtain ⟨n, kind⟩ := pr
  rcases protocols_kinds _ hpr with ⟨rfl, h1⟩ | ⟨rfl, h1, h2, h3⟩ | ⟨rfl, rfl, h2⟩
  · have hau := hau n h1
    simp only [Kernel.says, h1, if_true]
    cases hs : k.unix with
    | none =>
      rw [hs] at hau
      exact get_of_seq (n, .unix) i c [] (by simp) _ hau none rfl
    | some s =>
      rw [hs] at hau
      obtain ⟨hok, hino⟩ := hk.unix s (by rw [hs]; rfl)
      refine ⟨[], by simp, ?_⟩
      obtain ⟨g1, g2⟩ := receive_single (n, .unix) i c ⟨20, s.m, s.payload⟩ ⟨(by decide : 20 < 65536), hok.m, hok.len⟩ rfl hau.1
      have hp : parser (n, .unix) i c s.payload = _ := unix_parse n i c s hok (hu s (by rw [hs]; rfl))
      rw [if_pos hino] at hp
      rw [hau.2]
      show get (n, .unix) i c [s.message] = some (match s.details n with
        | some d => (cacheAdd c i d, some d, [])
        | none => (c, none, []))
      cases hd : s.details n with
      | some d => rw [hd] at hp; exact g1 d hp
      | none => rw [hd] at hp; exact g2 hp
  · simp only [Kernel.says, h2, h3, if_false]
    have hans := hi n h1
    have := get_of_seq (n, .inet) i c ((k.inet n).map fun s => ⟨20, s.m, s.payload⟩) (by
        intro x hx
        obtain ⟨s, hs, rfl⟩ := List.mem_map.1 hx
        have := hk.inet n s hs
        exact ⟨(by decide : 20 < 65536), this.m, this.len⟩) (ans n) (by rw [List.map_map]; exact hans)
      (((k.inet n).find? (fun s => s.inode = i)).map (InetSock.details n)) (by
        rw [seq_find (fun s : InetSock => (⟨20, s.m, s.payload⟩ : Msg)) InetSock.inode (InetSock.details n) (n, .inet) i _ c
          (fun _ _ => rfl) (fun s hs c' => inet_parse n i c' s (hk.inet n s hs))]
        cases (k.inet n).find? (fun s => s.inode = i) <;> rfl)
    exact this
  · simp only [Kernel.says, h2, if_false, if_true]
    have := get_of_seq ("NETLINK", .netlink) i c (k.nl.map fun s => ⟨20, s.m, s.payload⟩) (by
        intro x hx
        obtain ⟨s, hs, rfl⟩ := List.mem_map.1 hx
        have := hk.nl s hs
        exact ⟨(by decide : 20 < 65536), this.m, this.len⟩) (ans "NETLINK") (by rw [List.map_map]; exact hn)
      ((k.nl.find? (fun s => s.inode = i)).map (NlSock.details "NETLINK")) (by
        rw [seq_find (fun s : NlSock => (⟨20, s.m, s.payload⟩ : Msg)) NlSock.inode (NlSock.details "NETLINK") ("NETLINK", .netlink) i _ c
          (fun _ _ => rfl) (fun s hs c' => nl_parse "NETLINK" i c' s (hk.nl s hs))]
        cases k.nl.find? (fun s => s.inode = i) <;> rfl)
    exact this

theorem tryAll_says (k : Kernel) (i : Nat) (hk : k.Ok i)
    (hu : ∀ s ∈ k.unix, s.name.head? = some 0 → ∀ b ∈ s.name.tail, b ≠ 0) (ans : String → List (List Byte)) (ha : Answers k ans)
    (prs : List (String × Kind)) (hprs : ∀ pr ∈ prs, pr ∈ protocols) (c : Cache) :
    tryAll ans i prs c [] = some (match (prs.map (·.1)).findSome? (k.says i) with
      | some d => (cacheAdd c i d, some d)
      | none => (c, none)) := by
  induction prs with
  | nil => rfl
  | cons pr prs ih =>
    obtain ⟨left, hl, hg⟩ := get_says k i hk hu ans ha pr (hprs pr (by simp)) c
    rw [tryAll, List.nil_append, hg, List.map_cons, List.findSome?_cons]
    cases hs : k.says i pr.1 with
    | some d => rfl
    | none =>
      rw [hl hs]
      exact ih fun pr' h => hprs pr' (by simp [h])

theorem protocols_names : protocols.map (·.1) = allNames := by decide +kernel

theorem protoByName_some (n : String) (pr : String × Kind) (h : protoByName n = some pr) : pr ∈ protocols ∧ pr.1 = n := by
  refine ⟨List.mem_of_find?_eq_some h, ?_⟩
  have := List.find?_some h
  simpa using this

theorem protoByName_none (n : String) : protoByName n = none ↔ n ∉ allNames := by
  rw [← protocols_names]
  simp only [protoByName, List.find?_eq_none, List.mem_map]
  constructor
  · rintro h ⟨pr, hpr, rfl⟩
    exact h pr hpr (by simp)
  · intro h pr hpr hc
    exact h ⟨pr, hpr, by simpa using hc⟩

/-- **The details of a socket are those the kernel has.**  If nothing has been found about an inode yet, then what is shown is what
is true of the socket: for an internet socket the addresses and ports, with the other end if it is connected; for a netlink socket
the protocol and port; for a socket of the file system its peer and name.  If the protocol of the descriptor is known, it is the
socket of this protocol, or just the inode; otherwise the first one found.  The kernel may put any number of messages into a
datagram and end the list with another message or without one.  Missing: abstract names with further NUL bytes (`abstract_cut`). -/
theorem details_shown_partial (k : Kernel) (i : Nat) (hk : k.Ok i)
    (hu : ∀ s ∈ k.unix, s.name.head? = some 0 → ∀ b ∈ s.name.tail, b ≠ 0) (ans : String → List (List Byte)) (ha : Answers k ans) (c : Cache)
    (hc : cached c i = none) (name : Option String) : ∃ c', getDetails c ans i name = some (c', k.shown i name) := by
  have hall := tryAll_says k i hk hu ans ha protocols (fun _ h => h) c
  rw [protocols_names] at hall
  rw [getDetails, hc]
  cases name with
  | none =>
    simp only [Option.bind_none, lookupDetails, Kernel.shown, hall]
    cases allNames.findSome? (k.says i) <;> exact ⟨_, rfl⟩
  | some n =>
    simp only [Option.bind_some, Kernel.shown]
    cases hp : protoByName n with
    | none =>
      rw [if_neg ((protoByName_none n).1 hp)]
      simp only [lookupDetails, hall]
      cases allNames.findSome? (k.says i) <;> exact ⟨_, rfl⟩
    | some pr =>
      obtain ⟨hpr, rfl⟩ := protoByName_some n pr hp
      have hin : pr.1 ∈ allNames := by
        by_contra hh
        rw [(protoByName_none pr.1).2 hh] at hp
        cases hp
      have hone := tryAll_says k i hk hu ans ha [pr] (by simpa using hpr) c
      rw [if_pos hin]
      simp only [lookupDetails, hone, List.map_cons, List.map_nil, List.findSome?_cons, List.findSome?_nil]
      cases k.says i pr.1 <;> exact ⟨_, rfl⟩

end Strace.Diag
