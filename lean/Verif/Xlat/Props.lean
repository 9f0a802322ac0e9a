import Verif.Xlat.Spec
/-
C12: a flag word is printed as names that OR to the value.
C13: constant lookup does not depend on how the table is stored.
-/
namespace Strace.Xlat

/-! ### bits -/

theorem within_iff (f v : BitVec 64) : f &&& v = v ↔ Within v f := by
  constructor
  · intro h i hi
    rw [← h] at hi
    simp only [BitVec.getLsbD_and, Bool.and_eq_true] at hi
    exact hi.1
  · intro h
    apply BitVec.eq_of_getLsbD_eq
    intro i _
    have := h i
    rw [BitVec.getLsbD_and]
    cases hv : v.getLsbD i <;> simp_all

theorem orAll_append (a b : List Entry) : orAll (a ++ b) = orAll a ||| orAll b := by
  induction a with
  | nil => simp [orAll]
  | cons e es ih => simp [orAll, ih, BitVec.or_assoc]

theorem within_and_not (f o : BitVec 64) : Within (f &&& ~~~o) f := by
  intro i h
  simp only [BitVec.getLsbD_and, Bool.and_eq_true] at h
  exact h.1

theorem Within.trans {a b c : BitVec 64} (h1 : Within a b) (h2 : Within b c) : Within a c :=
  fun i h => h2 i (h1 i h)

theorem within_orAll {L : List Entry} {f : BitVec 64} (h : ∀ e ∈ L, Within e.val f) : Within (orAll L) f := by
  induction L with
  | nil => intro i hi; simp [orAll] at hi
  | cons e es ih =>
    intro i hi
    simp only [orAll, BitVec.getLsbD_or, Bool.or_eq_true] at hi
    rcases hi with hi | hi
    · exact h e (by simp) i hi
    · exact ih (fun e he => h e (by simp [he])) i hi

theorem and_not_or (f o : BitVec 64) (h : Within o f) : o ||| (f &&& ~~~o) = f := by
  apply BitVec.eq_of_getLsbD_eq
  intro i hi
  have := h i
  simp only [BitVec.getLsbD_or, BitVec.getLsbD_and, BitVec.getLsbD_not, hi, decide_true, Bool.true_and]
  cases ho : o.getLsbD i <;> cases hf : f.getLsbD i <;> simp_all

theorem and_not_disj (f o : BitVec 64) : (f &&& ~~~o) &&& o = 0 := by
  apply BitVec.eq_of_getLsbD_eq
  intro i hi
  simp only [BitVec.getLsbD_and, BitVec.getLsbD_not, hi, decide_true, Bool.true_and]
  cases ho : o.getLsbD i <;> simp

theorem and_not_and_not (f a b : BitVec 64) : (f &&& ~~~a) &&& ~~~b = f &&& ~~~(a ||| b) := by
  apply BitVec.eq_of_getLsbD_eq
  intro i hi
  simp only [BitVec.getLsbD_and, BitVec.getLsbD_not, BitVec.getLsbD_or, hi, decide_true, Bool.true_and]
  cases a.getLsbD i <;> cases b.getLsbD i <;> simp

theorem and_not_zero (f : BitVec 64) : f &&& ~~~(0#64) = f := by
  apply BitVec.eq_of_getLsbD_eq
  intro i hi
  simp only [BitVec.getLsbD_and, BitVec.getLsbD_not, hi, decide_true, Bool.true_and, BitVec.getLsbD_zero,
    Bool.not_false, Bool.and_true]

theorem not_within_zero {v : BitVec 64} (h : v ≠ 0) : ¬ Within v 0 := by
  intro hw
  apply h
  apply BitVec.eq_of_getLsbD_eq
  intro i _
  have := hw i
  cases hv : v.getLsbD i with
  | false => simp
  | true => exact absurd (this hv) (by simp)

/-! ### the greedy loop -/

/-- the pieces for the names `L` when `n` names were printed before -/
def render (st : Verb) (n : Nat) : List Entry → List Piece
  | [] => []
  | e :: es => (if n ≠ 0 then [Piece.bar] else if st = .verbose then [Piece.open_] else []) ++
      [.name (e.str.getD "")] ++ render st (n + 1) es

theorem render_append (st : Verb) (a b : List Entry) (n : Nat) :
    render st n (a ++ b) = render st n a ++ render st (n + a.length) b := by
  induction a generalizing n with
  | nil => simp [render]
  | cons e es ih =>
    simp only [List.cons_append, render, ih, List.append_assoc, List.length_cons]
    rw [show n + 1 + es.length = n + (es.length + 1) by omega]

theorem render_succ (st : Verb) (n : Nat) (hn : n ≠ 0) (e : Entry) (L : List Entry) :
    render st n (e :: L) = .bar :: names (e :: L) := by
  induction L generalizing n e with
  | nil => simp [render, names, hn]
  | cons e' L ih =>
    rw [render, ih (n + 1) (by omega) e', if_pos hn]
    rfl

theorem render_zero (st : Verb) (e : Entry) (L : List Entry) :
    render st 0 (e :: L) = (if st = .verbose then [.open_] else []) ++ names (e :: L) := by
  cases L with
  | nil => simp [render, names]
  | cons e' L =>
    rw [render, render_succ st 1 (by omega)]
    simp [names]

/-- what a stretch of the loop over entries `es` does, flags not 0 -/
structure Stretch (st : Verb) (es : List Entry) (s s' : PF) (L : List Entry) : Prop where
  sub : L.Sublist es
  named : ∀ e ∈ L, e.str.isSome = true
  within : ∀ e ∈ L, Within e.val s.flags ∧ e.val ≠ 0
  out : s'.out = s.out ++ render st s.n L
  flags : s'.flags = s.flags &&& ~~~(orAll L)
  n : s'.n = s.n + L.length
  maximal : ∀ e ∈ es, e.str.isSome = true → e.val ≠ 0 → ¬ Within e.val s'.flags

theorem pfEntry_hit (st : Verb) (s : PF) (e : Entry) (nm : String) (hs : s.flags ≠ 0) (hn : e.str = some nm)
    (hw : e.val ≠ 0 ∧ Within e.val s.flags) :
    pfEntry st s e = ⟨s.out ++ render st s.n [e], s.flags &&& ~~~e.val, s.n + 1⟩ := by
  unfold pfEntry
  rw [hn]
  dsimp only
  rw [if_pos (Or.inr ⟨hw.1, (within_iff _ _).2 hw.2⟩), if_neg (show ¬ (st = .verbose ∧ s.flags = 0) from fun h => hs h.2)]
  simp [render, hn]

theorem pfEntry_miss (st : Verb) (s : PF) (e : Entry) (hs : s.flags ≠ 0)
    (hw : e.str = none ∨ e.val = 0 ∨ ¬ Within e.val s.flags) : pfEntry st s e = s := by
  unfold pfEntry
  cases he : e.str with
  | none => rfl
  | some nm =>
    dsimp only
    rw [he] at hw
    rw [if_neg]
    rintro (h | ⟨h1, h2⟩)
    · rcases hw with hw | hw | hw
      · cases hw
      · rw [hw] at h; exact hs h
      · apply hw; intro i hi; rw [h]; exact hi
    · rcases hw with hw | hw | hw
      · cases hw
      · exact h1 hw
      · exact hw ((within_iff _ _).1 h2)

theorem pfTable_zero (st : Verb) (es : List Entry) (s : PF) (h : s.flags = 0) (hn : s.n ≠ 0) :
    pfTable st es s = s := by
  cases es with
  | nil => rfl
  | cons e es => unfold pfTable; rw [if_neg (by simp [h, hn])]

theorem pfTable_stretch (st : Verb) (es : List Entry) (s : PF) (hs : s.flags ≠ 0) :
    ∃ L, Stretch st es s (pfTable st es s) L := by
  induction es generalizing s with
  | nil =>
    refine ⟨[], by simp, by simp, by simp, by simp [pfTable, render], ?_, by simp [pfTable], by simp⟩
    exact (and_not_zero _).symm
  | cons e es ih =>
    unfold pfTable
    rw [if_pos (Or.inl hs)]
    dsimp only
    by_cases hw : e.str.isSome = true ∧ e.val ≠ 0 ∧ Within e.val s.flags
    · obtain ⟨h1, h2⟩ := hw
      obtain ⟨nm, hnm⟩ := Option.isSome_iff_exists.1 h1
      rw [pfEntry_hit st s e nm hs hnm h2]
      dsimp only
      by_cases hz : s.flags &&& ~~~e.val = 0
      · rw [if_pos hz]
        refine ⟨[e], by simp, by simpa using h1, by simpa using ⟨h2.2, h2.1⟩, rfl, ?_, rfl, ?_⟩
        · simp [orAll]
        · intro e' _ _ h0
          dsimp only
          rw [hz]
          exact not_within_zero h0
      · rw [if_neg hz]
        obtain ⟨L, hL⟩ := ih ⟨s.out ++ render st s.n [e], s.flags &&& ~~~e.val, s.n + 1⟩ hz
        refine ⟨e :: L, hL.sub.cons_cons e, ?_, ?_, ?_, ?_, ?_, ?_⟩
        · intro x hx
          rcases List.mem_cons.1 hx with rfl | hx
          · exact h1
          · exact hL.named x hx
        · intro x hx
          rcases List.mem_cons.1 hx with rfl | hx
          · exact ⟨h2.2, h2.1⟩
          · exact ⟨(hL.within x hx).1.trans (within_and_not _ _), (hL.within x hx).2⟩
        · rw [hL.out]
          simp [render]
        · rw [hL.flags]
          dsimp only
          rw [and_not_and_not]; rfl
        · rw [hL.n]; simp; omega
        · intro x hx hxs hx0
          rcases List.mem_cons.1 hx with rfl | hx
          · intro hwx
            rw [hL.flags] at hwx
            have h3 := (hwx.trans (within_and_not _ _))
            dsimp only at h3
            apply not_within_zero hx0
            intro i hi
            have := h3 i hi
            simp only [BitVec.getLsbD_and, BitVec.getLsbD_not, hi] at this
            simp at this
          · exact hL.maximal x hx hxs hx0
    · have hmiss : e.str = none ∨ e.val = 0 ∨ ¬ Within e.val s.flags := by
        cases he : e.str with
        | none => exact Or.inl rfl
        | some nm =>
          right
          by_cases h0 : e.val = 0
          · exact Or.inl h0
          · right; intro hwi; exact hw ⟨by simp [he], h0, hwi⟩
      rw [pfEntry_miss st s e hs hmiss, if_neg hs]
      obtain ⟨L, hL⟩ := ih s hs
      refine ⟨L, hL.sub.cons e, hL.named, hL.within, hL.out, hL.flags, hL.n, ?_⟩
      intro x hx hxs hx0
      rcases List.mem_cons.1 hx with rfl | hx
      · intro hwx
        rw [hL.flags] at hwx
        exact hw ⟨hxs, hx0, hwx.trans (within_and_not _ _)⟩
      · exact hL.maximal x hx hxs hx0

theorem pfTables_zero (st : Verb) (ts : List Table) (s : PF) (h : s.flags = 0) (hn : s.n ≠ 0) :
    pfTables st ts s = s := by
  induction ts with
  | nil => rfl
  | cons t ts ih => unfold pfTables; rw [pfTable_zero st _ s h hn, ih]

/-- all entries of the tables, in order -/
def allEntries (ts : List Table) : List Entry := ts.flatMap (·.data)

theorem pfTables_stretch (st : Verb) (ts : List Table) (s : PF) (hs : s.flags ≠ 0) :
    ∃ L, Stretch st (allEntries ts) s (pfTables st ts s) L := by
  induction ts generalizing s with
  | nil =>
    refine ⟨[], by simp, by simp, by simp, by simp [pfTables, render], ?_, by simp [pfTables], by simp [allEntries]⟩
    exact (and_not_zero _).symm
  | cons t ts ih =>
    unfold pfTables
    obtain ⟨L1, h1⟩ := pfTable_stretch st t.data s hs
    generalize pfTable st t.data s = s1 at h1 ⊢
    have hall : allEntries (t :: ts) = t.data ++ allEntries ts := by simp [allEntries]
    rw [hall]
    by_cases hz : s1.flags = 0
    · have hn : s1.n ≠ 0 := by
        intro h0
        have := h1.n
        have hl : L1 = [] := List.length_eq_zero_iff.1 (by omega)
        have hf := h1.flags
        rw [hl, hz] at hf
        apply hs
        exact (and_not_zero s.flags).symm.trans hf.symm
      rw [pfTables_zero st ts s1 hz hn]
      refine ⟨L1, h1.sub.trans (List.sublist_append_left _ _), h1.named, h1.within, h1.out, h1.flags, h1.n, ?_⟩
      intro e _ _ h0
      rw [hz]; exact not_within_zero h0
    · obtain ⟨L2, h2⟩ := ih s1 hz
      refine ⟨L1 ++ L2, h1.sub.append h2.sub, ?_, ?_, ?_, ?_, ?_, ?_⟩
      · intro e he
        rcases List.mem_append.1 he with he | he
        · exact h1.named e he
        · exact h2.named e he
      · intro e he
        rcases List.mem_append.1 he with he | he
        · exact h1.within e he
        · refine ⟨(h2.within e he).1.trans ?_, (h2.within e he).2⟩
          rw [h1.flags]; exact within_and_not _ _
      · rw [h2.out, h1.out, h1.n, render_append, List.append_assoc]
      · rw [h2.flags, h1.flags, and_not_and_not, orAll_append]
      · rw [h2.n, h1.n, List.length_append]; omega
      · intro e he hs0 h0
        rcases List.mem_append.1 he with he | he
        · intro hw
          rw [h2.flags] at hw
          exact h1.maximal e he hs0 h0 (hw.trans (within_and_not _ _))
        · exact h2.maximal e he hs0 h0

theorem stretch_decomposes {st : Verb} {es : List Entry} {s s' : PF} {L : List Entry}
    (h : Stretch st es s s' L) : Decomposes es s.flags L s'.flags := by
  have hw : Within (orAll L) s.flags := within_orAll fun e he => (h.within e he).1
  refine ⟨h.sub, h.named, h.within, ?_, ?_, h.maximal⟩
  · rw [h.flags]; exact and_not_or _ _ hw
  · rw [h.flags]; exact and_not_disj _ _

/-- C12 for `printflags_ex`, symbolic styles, a non-zero flag word.  There is a decomposition of the
word into named entries and a residual, and
* if at least one name applies, what is printed is the names and the residual (if not 0) joined by
  bars – in verbose style after the number itself, within a comment;
* otherwise the number and the default text as a comment.
The return value is the number of things listed. -/
theorem printflags_or (flags : BitVec 64) (dflt : Option String) (st : Verb) (ts : List Table)
    (hst : st ≠ .raw) (hf : flags ≠ 0) :
    ∃ L r, Decomposes (allEntries ts) flags L r ∧
      printflags flags dflt st ts =
        if L = [] then ([.num flags] ++ comment dflt, 0)
        else if st = .verbose then
          ([.num flags, .open_] ++ symbolic L r ++ [.close], L.length + if r ≠ 0 then 1 else 0)
        else (symbolic L r, L.length + if r ≠ 0 then 1 else 0) := by
  obtain ⟨L, h⟩ := pfTables_stretch st ts
    ⟨if st = .verbose ∧ flags ≠ 0 then [Piece.num flags] else [], flags, 0⟩ hf
  refine ⟨L, _, stretch_decomposes h, ?_⟩
  unfold printflags
  rw [if_neg hst]
  dsimp only at h ⊢
  generalize pfTables st ts ⟨if st = .verbose ∧ flags ≠ 0 then [Piece.num flags] else [], flags, 0⟩ = s' at h ⊢
  have hn : s'.n = L.length := by rw [h.n]; dsimp only; omega
  have hout := h.out
  have hfl := h.flags
  dsimp only at hout hfl
  clear h
  have hf' : ¬ flags = 0#64 := hf
  cases L with
  | nil =>
    have h0 : ¬ s'.n ≠ 0 := by rw [hn]; simp
    have hff : s'.flags = flags := by
      rw [hfl]; exact and_not_zero _
    rw [if_neg h0, if_pos (by rw [hff]; exact hf), if_pos rfl, hout, hff]
    cases st <;> simp [render, hf'] at hst ⊢
  | cons e L =>
    have h0 : s'.n ≠ 0 := by rw [hn]; simp
    rw [if_pos h0, if_neg (show ¬ (e :: L = []) by simp), hout, hn, render_zero]
    unfold symbolic
    by_cases hr : s'.flags = 0
    · cases st <;> simp [hr, hf'] at hst ⊢
    · have hr' : ¬ s'.flags = 0#64 := hr
      cases st <;> simp [hr', hf'] at hst ⊢

/-- the first table whose first entry is a name for 0 -/
def zeroOf (ts : List Table) : Option String :=
  ts.findSome? fun t => (t.data.head?.filter fun e => e.val == 0).bind (·.str)

theorem zeroName_eq (d : List Entry) : zeroName d = (d.head?.filter fun e => e.val == 0).bind (·.str) := by
  cases d with
  | nil => rfl
  | cons e es => 
    unfold zeroName
    by_cases h : e.val = 0
    · simp [h, Option.filter]
    · have h' : ¬ e.val = 0#64 := h
      simp [h', Option.filter]

theorem zeroOf_cons (t : Table) (ts : List Table) : zeroOf (t :: ts) = match zeroName t.data with
    | some z => some z
    | none => zeroOf ts := by
  unfold zeroOf
  rw [List.findSome?_cons, zeroName_eq]
  cases (Option.filter (fun e => e.val == 0) t.data.head?).bind (·.str) <;> rfl

theorem pfTable_zero_start (st : Verb) (es : List Entry) (s : PF) (h : s.flags = 0) (hn : s.n = 0) :
    pfTable st es s = match zeroName es with
      | some z => ⟨s.out ++ (if st = .verbose then [.num 0, .open_] else []) ++ [.name z], 0, 1⟩
      | none => s := by
  cases es with
  | nil => rfl
  | cons e es =>
    have he : pfEntry st s e = match zeroName (e :: es) with
        | some z => ⟨s.out ++ (if st = .verbose then [.num 0, .open_] else []) ++ [.name z], 0, 1⟩
        | none => s := by
      obtain ⟨v, nm⟩ := e
      obtain ⟨o, f, n⟩ := s
      dsimp only at h hn
      subst h hn
      unfold pfEntry zeroName
      cases nm with
      | none => dsimp only; rw [ite_self]
      | some z =>
        dsimp only
        by_cases h0 : v = 0
        · subst h0
          rw [if_pos (Or.inl rfl), if_pos rfl]
          cases st <;> simp
        · rw [if_neg h0, if_neg]
          rintro (h1 | ⟨_, h2⟩)
          · exact h0 h1.symm
          · exact h0 (by rw [← h2]; simp)
    unfold pfTable
    rw [if_pos (Or.inr hn), he]
    dsimp only
    cases zeroName (e :: es) with
    | none => dsimp only; rw [if_pos h]
    | some z => rfl

/-- C12, the word 0: a name for it if a table starts with one, else 0 (if a default text is given). -/
theorem printflags_zero (dflt : Option String) (st : Verb) (ts : List Table) (hst : st ≠ .raw) :
    printflags 0 dflt st ts =
      match zeroOf ts with
      | some z => (if st = .verbose then [.num 0, .open_, .name z, .close] else [.name z], 1)
      | none => (if dflt.isSome then [.num 0] else [], 0) := by
  unfold printflags
  rw [if_neg hst]
  dsimp only
  rw [if_neg (show ¬ (st = .verbose ∧ (0 : BitVec 64) ≠ 0) by simp)]
  have key : pfTables st ts ⟨[], 0, 0⟩ = match zeroOf ts with
      | some z => ⟨(if st = .verbose then [.num 0, .open_] else []) ++ [.name z], 0, 1⟩
      | none => ⟨[], 0, 0⟩ := by
    induction ts with
    | nil => rfl
    | cons t ts ih =>
      unfold pfTables
      rw [zeroOf_cons, pfTable_zero_start st t.data ⟨[], 0, 0⟩ rfl rfl]
      cases zeroName t.data with
      | some z => dsimp only; rw [pfTables_zero _ _ _ rfl (by simp)]; simp
      | none => dsimp only; exact ih
  rw [key]
  cases zeroOf ts with
  | none => simp
  | some z => cases st <;> simp at hst ⊢

/-- raw style prints the number only -/
theorem printflags_raw (flags : BitVec 64) (dflt : Option String) (ts : List Table) :
    printflags flags dflt .raw ts = if flags ≠ 0 ∨ dflt.isSome then ([.num flags], 1) else ([], 0) := by
  unfold printflags; simp

/-! ### `sprintflags_ex` -/

/-- what the loop of `sprintflags_ex` does -/
theorem sfLoop_eq (st : Verb) (aux : Bool) (es : List Entry) (s : SF) :
    ∃ L, Decomposes es s.flags L (sfLoop st aux es s).flags ∧
      (sfLoop st aux es s).found = (s.found || !L.isEmpty) ∧
      (sfLoop st aux es s).sep = (if L = [] then s.sep else some .bar) ∧
      (sfLoop st aux es s).out = s.out ++ (if L = [] then [] else
        (match s.sep with
          | some p => [p]
          | none => if st = .verbose ∧ aux = false then [Piece.open_] else []) ++ names L) := by
  have dz : ∀ (es : List Entry) (f : BitVec 64), f = 0 → Decomposes es f [] f := by
    rintro es f rfl
    refine ⟨by simp, by simp, by simp, by simp [orAll], by simp [orAll], fun e _ _ h0 => not_within_zero h0⟩
  have miss : ∀ (e : Entry) (es : List Entry) (f r : BitVec 64) (L : List Entry),
      (e.str = none ∨ e.val = 0 ∨ ¬ Within e.val f) → Decomposes es f L r → Decomposes (e :: es) f L r := by
    intro e es f r L hm h
    refine ⟨h.sub.cons e, h.named, h.within, h.total, h.disjoint, ?_⟩
    intro x hx hxs hx0
    rcases List.mem_cons.1 hx with rfl | hx
    · intro hwx
      have hrf : Within r f := by
        intro i hi
        rw [← h.total]; simp [hi]
      rcases hm with hm | hm | hm
      · rw [hm] at hxs; cases hxs
      · exact hx0 hm
      · exact hm (hwx.trans hrf)
    · exact h.maximal x hx hxs hx0
  induction es generalizing s with
  | nil =>
    refine ⟨[], ⟨by simp, by simp, by simp, by simp [sfLoop, orAll], by simp [orAll], by simp⟩, ?_, ?_, ?_⟩ <;>
      simp [sfLoop]
  | cons e es ih =>
    unfold sfLoop
    by_cases hz : s.flags = 0
    · rw [if_pos hz]
      exact ⟨[], dz _ _ hz, by simp, by simp, by simp⟩
    rw [if_neg hz]
    cases hstr : e.str with
    | none =>
      dsimp only
      obtain ⟨L, h1, h2⟩ := ih s
      exact ⟨L, miss e es _ _ L (Or.inl hstr) h1, h2⟩
    | some nm =>
      dsimp only
      by_cases hm : e.val ≠ 0 ∧ s.flags &&& e.val = e.val
      · rw [if_pos hm]
        obtain ⟨L, h1, h2, h3, h4⟩ := ih ⟨s.out ++ (match s.sep with
            | some p => [p]
            | none => if st = .verbose ∧ aux = false then [Piece.open_] else []) ++ [.name nm],
            s.flags &&& ~~~e.val, some .bar, true⟩
        generalize sfLoop st aux es _ = s' at h1 h2 h3 h4 ⊢
        dsimp only at h1 h2 h3 h4
        have hwe := (within_iff _ _).1 hm.2
        refine ⟨e :: L, ⟨h1.sub.cons_cons e, ?_, ?_, ?_, ?_, ?_⟩, ?_, ?_, ?_⟩
        · intro x hx
          rcases List.mem_cons.1 hx with rfl | hx
          · simp [hstr]
          · exact h1.named x hx
        · intro x hx
          rcases List.mem_cons.1 hx with rfl | hx
          · exact ⟨hwe, hm.1⟩
          · exact ⟨(h1.within x hx).1.trans (within_and_not _ _), (h1.within x hx).2⟩
        · unfold orAll
          rw [BitVec.or_assoc, h1.total]
          exact and_not_or _ _ hwe
        · have hrf : Within s'.flags (s.flags &&& ~~~e.val) := by
            intro i hi; rw [← h1.total]; simp [hi]
          unfold orAll
          apply BitVec.eq_of_getLsbD_eq
          intro i hi
          have hd := congrArg (fun b : BitVec 64 => b.getLsbD i) h1.disjoint
          have hw' := hrf i
          simp only [BitVec.getLsbD_and, BitVec.getLsbD_or, BitVec.getLsbD_not, hi, decide_true, Bool.true_and] at hd hw' ⊢
          cases hb : s'.flags.getLsbD i with
          | false => simp
          | true =>
            rw [hb] at hd
            have := hw' hb
            simp only [Bool.and_eq_true, Bool.not_eq_true'] at this
            simp only [this.2, Bool.false_or]
            exact hd
        · intro x hx hxs hx0
          rcases List.mem_cons.1 hx with rfl | hx
          · intro hwx
            have hrf : Within s'.flags (s.flags &&& ~~~x.val) := by
              intro i hi; rw [← h1.total]; simp [hi]
            apply not_within_zero hx0
            intro i hi
            have := hrf i (hwx i hi)
            simp [hi] at this
          · exact h1.maximal x hx hxs hx0
        · rw [h2]; simp
        · rw [h3]; simp
        · rw [h4]
          cases L with
          | nil => simp [names, hstr]
          | cons e' L => simp [names, hstr]
      · rw [if_neg hm]
        obtain ⟨L, h1, h2⟩ := ih s
        refine ⟨L, miss e es _ _ L (Or.inr ?_) h1, h2⟩
        by_cases h0 : e.val = 0
        · exact Or.inl h0
        · right; intro hw; exact hm ⟨h0, (within_iff _ _).2 hw⟩

/-- C12 for `sprintflags_ex` (not in "auxiliary string" mode), symbolic styles, a non-zero flag word. -/
theorem sprintflags_or (pre : List Piece) (d : List Entry) (flags : BitVec 64) (sep : Option Piece)
    (st : Verb) (hst : st ≠ .raw) (hf : flags ≠ 0) :
    ∃ L r, Decomposes d flags L r ∧
      sprintflags pre d flags sep st false = some (pre ++ sep.toList ++
        (if L = [] then [.num flags]
         else if st = .verbose then [.num flags, .open_] ++ symbolic L r ++ [.close]
         else symbolic L r)) := by
  have hf' : ¬ flags = 0#64 := hf
  unfold sprintflags
  rw [if_neg hst, if_neg hf]
  dsimp only
  by_cases hv : st = .verbose
  · rw [if_pos ⟨hv, hf, rfl⟩]
    obtain ⟨L, h1, h2, h3, h4⟩ := sfLoop_eq st false d ⟨pre ++ sep.toList ++ [.num flags], flags, none, false⟩
    refine ⟨L, _, h1, ?_⟩
    generalize sfLoop st false d _ = s' at h1 h2 h3 h4 ⊢
    dsimp only at h1 h2 h3 h4
    subst hv
    unfold sfFinish
    cases L with
    | nil =>
      have ht := h1.total
      have : s'.flags = flags := by rw [← ht]; simp [orAll]
      simp [h2, h3, h4, this, hf']
    | cons e L =>
      unfold symbolic
      simp [h2, h3, h4]
  · rw [if_neg (by simp [hv])]
    obtain ⟨L, h1, h2, h3, h4⟩ := sfLoop_eq st false d ⟨pre, flags, sep, false⟩
    refine ⟨L, _, h1, ?_⟩
    generalize sfLoop st false d _ = s' at h1 h2 h3 h4 ⊢
    dsimp only at h1 h2 h3 h4
    unfold sfFinish
    cases L with
    | nil =>
      have ht := h1.total
      have : s'.flags = flags := by rw [← ht]; simp [orAll]
      simp [h2, h3, h4, this, hf', hv]
    | cons e L =>
      have hne : names (e :: L) ≠ [] := by cases L <;> simp [names]
      unfold symbolic
      cases sep <;> simp [h2, h3, h4, hv, hne] <;> split <;> simp

/-- C12 for `sprintflags_ex`, the word 0: the name of 0 if the table starts with one, else nothing. -/
theorem sprintflags_zero (pre : List Piece) (d : List Entry) (sep : Option Piece) (st : Verb)
    (hst : st ≠ .raw) :
    sprintflags pre d 0 sep st false =
      match zeroOf [⟨d, .normal⟩] with
      | some z => some (pre ++ sep.toList ++
          (if st = .verbose then [.num 0, .open_, .name z, .close] else [.name z]))
      | none => none := by
  unfold sprintflags
  rw [if_neg hst, zeroOf_cons]
  dsimp only
  rw [if_pos rfl]
  cases zeroName d with
  | some z => cases st <;> simp at hst ⊢
  | none =>
    dsimp only
    rw [if_neg (by simp)]
    have : sfLoop st false d ⟨pre, 0, sep, false⟩ = ⟨pre, 0, sep, false⟩ := by
      cases d with
      | nil => rfl
      | cons e es => unfold sfLoop; rw [if_pos rfl]
    rw [this]
    rfl

/-- open modes: access mode entries of value 1 and 2 and overlapping flags -/
def exTable : List Entry := [⟨0, none⟩, ⟨0o100, some "O_CREAT"⟩, ⟨0o4010000, some "O_SYNC"⟩, ⟨0o10000, some "O_DSYNC"⟩]
example : printflags 0o4010105 none .abbrev [⟨exTable, .normal⟩] =
    ([.name "O_CREAT", .bar, .name "O_SYNC", .bar, .num 5], 3) := by decide +kernel
example : printflags 0o10000 none .verbose [⟨exTable, .normal⟩] =
    ([.num 0o10000, .open_, .name "O_DSYNC", .close], 1) := by decide +kernel

/-! ### C13 -/

/-- Specification: the name of the first entry with exactly this value. -/
def nameOf (d : List Entry) (v : BitVec 64) : Option String :=
  (d.find? fun e => e.val == v).bind (·.str)

/-- strictly increasing values -/
def StrictlySorted (d : List Entry) : Prop :=
  ∀ (i j : Nat) (a b : Entry), i < j → d[i]? = some a → d[j]? = some b → a.val.toNat < b.val.toNat

/-- every entry is at its own index or is a hole (value 0, no name) -/
def Indexed (d : List Entry) : Prop :=
  ∀ (i : Nat) (e : Entry), d[i]? = some e → e.val.toNat = i ∨ (e.val = 0 ∧ e.str = none)

/-- the contract of the table's storage kind -/
def WellFormed (t : Table) : Prop :=
  match t.kind with
  | .normal => True
  | .sorted => StrictlySorted t.data
  | .indexed => Indexed t.data

theorem lookupNormal_eq (d : List Entry) (v : BitVec 64) : lookupNormal d v = nameOf d v := by
  unfold nameOf
  induction d with
  | nil => rfl
  | cons e es ih =>
    unfold lookupNormal
    rw [List.find?_cons]
    by_cases h : e.val = v
    · rw [if_pos h]
      simp [h]
    · rw [if_neg h, ih]
      have : (e.val == v) = false := by simpa using h
      rw [this]

theorem bsearch_some (d : List Entry) (v : BitVec 64) (l u : Nat) (e : Entry)
    (h : bsearchLoop d v l u = some e) : ∃ i, l ≤ i ∧ i < u ∧ d[i]? = some e ∧ e.val = v := by
  fun_induction bsearchLoop d v l u with
  | case1 => cases h
  | case2 l u hlu idx e' he hgt ih =>
    obtain ⟨i, h1, h2, h3, h4⟩ := ih h
    exact ⟨i, by omega, h2, h3, h4⟩
  | case3 l u hlu idx e' he hngt hlt ih =>
    obtain ⟨i, h1, h2, h3, h4⟩ := ih h
    exact ⟨i, h1, by omega, h3, h4⟩
  | case4 l u hlu idx e' he hngt hnlt =>
    injection h with h
    subst h
    exact ⟨idx, by omega, by omega, he, BitVec.eq_of_toNat_eq (by omega)⟩
  | case5 => cases h

theorem bsearch_none (d : List Entry) (v : BitVec 64) (hs : StrictlySorted d) (l u : Nat) (hu : u ≤ d.length)
    (h : bsearchLoop d v l u = none) : ∀ i e, l ≤ i → i < u → d[i]? = some e → e.val ≠ v := by
  fun_induction bsearchLoop d v l u with
  | case1 l u hlu idx he =>
    rw [List.getElem?_eq_none_iff] at he; omega
  | case2 l u hlu idx e' he hgt ih =>
    intro i e h1 h2 h3
    by_cases hi : idx + 1 ≤ i
    · exact ih hu h i e hi h2 h3
    · intro hv
      subst hv
      by_cases hii : i = idx
      · subst hii; rw [he] at h3; injection h3 with h3; subst h3; omega
      · have := hs i idx e e' (by omega) h3 he; omega
  | case3 l u hlu idx e' he hngt hlt ih =>
    intro i e h1 h2 h3
    by_cases hi : i < idx
    · exact ih (by omega) h i e h1 hi h3
    · intro hv
      subst hv
      by_cases hii : i = idx
      · subst hii; rw [he] at h3; injection h3 with h3; subst h3; omega
      · have := hs idx i e' e (by omega) he h3; omega
  | case4 => cases h
  | case5 l u hlu => intro i e h1 h2; omega

theorem nameOf_of_unique (d : List Entry) (v : BitVec 64) (i : Nat) (e : Entry) (hi : d[i]? = some e)
    (hv : e.val = v) (hu : ∀ (j : Nat) (e' : Entry), d[j]? = some e' → e'.val = v → e'.str = e.str) :
    nameOf d v = e.str := by
  unfold nameOf
  cases hf : d.find? (fun e => e.val == v) with
  | none =>
    rw [List.find?_eq_none] at hf
    have := hf e (List.mem_of_getElem? hi)
    simp [hv] at this
  | some e' =>
    have h1 := List.find?_some hf
    obtain ⟨j, hj⟩ := List.mem_iff_getElem?.1 (List.mem_of_find?_eq_some hf)
    exact hu j e' hj (by simpa using h1)

theorem nameOf_none (d : List Entry) (v : BitVec 64) (h : ∀ (i : Nat) (e : Entry), d[i]? = some e → e.val ≠ v) :
    nameOf d v = none := by
  unfold nameOf
  have : d.find? (fun e => e.val == v) = none := by
    rw [List.find?_eq_none]
    intro e he
    obtain ⟨j, hj⟩ := List.mem_iff_getElem?.1 he
    simpa using h j e hj
  rw [this]; rfl

/-- C13.  For every table meeting the contract of its storage kind and every value, the lookup gives
the name of the (first) entry with exactly that value, and nothing iff there is none (or it has no
name). -/
theorem xlookup_eq (t : Table) (h : WellFormed t) (v : BitVec 64) : xlookup t v = nameOf t.data v := by
  obtain ⟨d, k⟩ := t
  unfold WellFormed at h
  unfold xlookup
  cases k with
  | normal => exact lookupNormal_eq d v
  | sorted =>
    dsimp only at h ⊢
    cases hb : bsearchLoop d v 0 d.length with
    | none =>
      have := bsearch_none d v h 0 d.length (Nat.le_refl _) hb
      symm
      apply nameOf_none
      intro i e hi
      exact this i e (by omega) (List.getElem?_eq_some_iff.1 hi).1 hi
    | some e =>
      obtain ⟨i, _, _, h3, h4⟩ := bsearch_some d v 0 d.length e hb
      symm
      apply nameOf_of_unique d v i e h3 h4
      intro j e' hj hv'
      by_cases hij : i = j
      · subst hij; rw [h3] at hj; injection hj with hj; rw [hj]
      · exfalso
        rcases Nat.lt_or_gt_of_ne hij with hlt | hgt
        · have := h i j e e' hlt h3 hj; rw [h4, hv'] at this; omega
        · have := h j i e' e hgt hj h3; rw [h4, hv'] at this; omega
  | indexed =>
    dsimp only at h ⊢
    unfold lookupIndexed
    by_cases hv0 : v = 0
    · subst hv0
      cases d with
      | nil => rfl
      | cons e es =>
        have he : e.val = 0 := by
          rcases h 0 e rfl with h1 | h1
          · exact BitVec.eq_of_toNat_eq (by rw [h1]; rfl)
          · exact h1.1
        have h1 : (0 : BitVec 64).toNat = 0 := rfl
        rw [h1, if_pos (by simp)]
        unfold nameOf
        simp [he]
    by_cases hl : v.toNat < d.length
    · rw [if_pos hl, List.getElem?_eq_getElem hl]
      dsimp only
      have hg : d[v.toNat]? = some d[v.toNat] := List.getElem?_eq_getElem hl
      by_cases hv : v = d[v.toNat].val
      · rw [if_pos hv]
        symm
        apply nameOf_of_unique d v v.toNat _ hg hv.symm
        intro j e' hj hv'
        rcases h j e' hj with h1 | h1
        · rw [hv'] at h1; subst h1; rw [hg] at hj; injection hj with hj; rw [hj]
        · exact absurd (by rw [← hv', h1.1]) hv0
      · rw [if_neg hv]
        symm
        apply nameOf_none
        intro j e hj hv'
        rcases h j e hj with h1 | h1
        · rw [hv'] at h1; subst h1; rw [hg] at hj; injection hj with hj; rw [hj] at hv; exact hv hv'.symm
        · exact hv0 (by rw [← hv', h1.1])
    · rw [if_neg hl]
      symm
      apply nameOf_none
      intro j e hj hv'
      have hjl := (List.getElem?_eq_some_iff.1 hj).1
      rcases h j e hj with h1 | h1
      · rw [hv'] at h1; omega
      · exact hv0 (by rw [← hv', h1.1])

/-- the three storages of one constant table, and a wrong value -/
def exSorted : Table := ⟨[⟨0, some "A"⟩, ⟨2, some "B"⟩, ⟨3, some "C"⟩], .sorted⟩
def exIndexed : Table := ⟨[⟨0, some "A"⟩, ⟨0, none⟩, ⟨2, some "B"⟩, ⟨3, some "C"⟩], .indexed⟩
example : WellFormed exSorted := by
  intro i j a b hij hi hj
  have hj' := (List.getElem?_eq_some_iff.1 hj).1
  simp [exSorted] at hj'
  have : (i = 0 ∧ j = 1) ∨ (i = 0 ∧ j = 2) ∨ (i = 1 ∧ j = 2) := by omega
  rcases this with ⟨rfl, rfl⟩ | ⟨rfl, rfl⟩ | ⟨rfl, rfl⟩ <;> simp [exSorted] at hi hj <;> subst hi hj <;> decide
example : WellFormed exIndexed := by
  intro i e hi
  have hj' := (List.getElem?_eq_some_iff.1 hi).1
  simp [exIndexed] at hj'
  have : i = 0 ∨ i = 1 ∨ i = 2 ∨ i = 3 := by omega
  rcases this with rfl | rfl | rfl | rfl <;> simp [exIndexed] at hi <;> subst hi <;> simp
example : xlookup exSorted 2 = some "B" ∧ xlookup exIndexed 2 = some "B" ∧
    xlookup exSorted 1 = none ∧ xlookup exIndexed 1 = none ∧ xlookup exIndexed 4 = none := by decide +kernel

/-! ### the printers of single values -/

/-- C13 for the printer of single constants, with any number of well-formed tables: the first table
that names the value decides; verbose style adds the number; a value without a name is printed as
its number with the default text as a comment; raw style prints the number only.  The return value
says if a name was found. -/
theorem printxvals_eq (val : BitVec 64) (dflt : Option String) (st : Verb) (ts : List Table)
    (h : ∀ t ∈ ts, WellFormed t) :
    printxvals val dflt st ts =
      match st, ts.findSome? (fun t => nameOf t.data val) with
      | .raw, _ => ([.num val], 0)
      | .abbrev, some s => ([.name s], 1)
      | .verbose, some s => (if s = "" then [.num val] else [.num val, .comment s], 1)
      | _, none =>
        (match dflt with
          | none => [.num val]
          | some d => if d = "" then [.num val] else [.num val, .comment d], 0) := by
  have hit : firstHit ts val = ts.findSome? (fun t => nameOf t.data val) := by
    induction ts with
    | nil => rfl
    | cons t ts ih =>
      unfold firstHit
      rw [xlookup_eq t (h t (by simp)), List.findSome?_cons, ih fun t ht => h t (by simp [ht])]
      cases nameOf t.data val <;> rfl
  unfold printxvals comment
  rw [hit]
  cases st with
  | raw => rfl
  | «abbrev» =>
    cases ts.findSome? (fun t => nameOf t.data val) with
    | some s => rfl
    | none =>
      cases dflt with
      | none => rfl
      | some d => by_cases hd : d = "" <;> simp [hd]
  | verbose =>
    cases ts.findSome? (fun t => nameOf t.data val) with
    | some s => by_cases hd : s = "" <;> simp [hd]
    | none =>
      cases dflt with
      | none => rfl
      | some d => by_cases hd : d = "" <;> simp [hd]

/-- reverse lookup: the value of the first entry with that name -/
theorem xrlookup_eq (d : List Entry) (s : String) (unknown : BitVec 64) :
    xrlookup d s unknown = ((d.find? fun e => e.str == some s).map (·.val)).getD unknown := by
  induction d with
  | nil => rfl
  | cons e es ih =>
    unfold xrlookup
    rw [List.find?_cons]
    by_cases h : e.str = some s
    · rw [if_pos h]; simp [h]
    · rw [if_neg h, ih]
      have : (e.str == some s) = false := by simpa using h
      rw [this]

/-- in a table where names are unique, reverse lookup inverts lookup -/
theorem xrlookup_xlookup (t : Table) (h : WellFormed t) (v : BitVec 64) (s : String) (unknown : BitVec 64)
    (hu : ∀ e ∈ t.data, ∀ e' ∈ t.data, e.str = some s → e'.str = some s → e = e')
    (hv : xlookup t v = some s) : xrlookup t.data s unknown = v := by
  rw [xlookup_eq t h] at hv
  unfold nameOf at hv
  rw [xrlookup_eq]
  cases hf : t.data.find? (fun e => e.val == v) with
  | none => rw [hf] at hv; cases hv
  | some e =>
    rw [hf] at hv
    have he : e.str = some s := hv
    have hm := List.mem_of_find?_eq_some hf
    have hval : e.val = v := by simpa using List.find?_some hf
    cases hg : t.data.find? (fun e => e.str == some s) with
    | none =>
      rw [List.find?_eq_none] at hg
      exact absurd he (by simpa using hg e hm)
    | some e' =>
      have := hu e hm e' (List.mem_of_find?_eq_some hg) he (by simpa using List.find?_some hg)
      rw [← this, ← hval]; rfl

/-! ### the closest smaller constant -/

/-- `e` has the greatest value of the table not above `v` -/
def IsFloor (d : List Entry) (v : BitVec 64) (e : Entry) : Prop :=
  e ∈ d ∧ e.val.toNat ≤ v.toNat ∧ ∀ e' ∈ d, e'.val.toNat ≤ v.toNat → e'.val.toNat ≤ e.val.toNat

/-- what the search loop guarantees at its end -/
def LeEnd (d : List Entry) (v : Nat) (r : Option (Entry ⊕ Nat)) : Prop :=
  (∃ e, r = some (.inl e) ∧ e ∈ d ∧ e.val.toNat = v) ∨
  ∃ cur e, r = some (.inr cur) ∧ d[cur]? = some e ∧
    ((e.val.toNat < v ∧ ∀ (j : Nat) (a : Entry), cur < j → d[j]? = some a → v < a.val.toNat) ∨
     (v < e.val.toNat ∧ ∀ (j : Nat) (a : Entry), j < cur → d[j]? = some a → a.val.toNat < v))

theorem leLoop_end (d : List Entry) (v : Nat) (hs : StrictlySorted d) (base cur nmemb : Nat)
    (hlen : base + nmemb ≤ d.length)
    (hlo : ∀ (j : Nat) (a : Entry), j < base → d[j]? = some a → a.val.toNat < v)
    (hhi : ∀ (j : Nat) (a : Entry), base + nmemb ≤ j → d[j]? = some a → v < a.val.toNat)
    (hcur : nmemb = 0 → ∃ e, d[cur]? = some e ∧
      ((cur + 1 = base ∧ e.val.toNat < v) ∨ (cur = base ∧ v < e.val.toNat))) :
    LeEnd d v (leLoop d v base cur nmemb) := by
  fun_induction leLoop d v base cur nmemb with
  | case1 base cur0 nmemb hn cur he =>
    rw [List.getElem?_eq_none_iff] at he; omega
  | case2 base cur0 nmemb hn cur e he hv =>
    exact Or.inl ⟨e, rfl, List.mem_of_getElem? he, hv.symm⟩
  | case3 base cur0 nmemb hn cur e he hv hgt ih =>
    apply ih
    · omega
    · intro j a hj ha
      by_cases hjc : j = cur
      · rw [hjc, he] at ha; injection ha with ha; rw [← ha]; exact hgt
      · have := hs j cur a e (by omega) ha he; omega
    · intro j a hj ha; exact hhi j a (by omega) ha
    · intro _; exact ⟨e, he, Or.inl ⟨rfl, hgt⟩⟩
  | case4 base cur0 nmemb hn cur e he hv hgt ih =>
    apply ih
    · omega
    · exact hlo
    · intro j a hj ha
      by_cases hjc : j = cur
      · rw [hjc, he] at ha; injection ha with ha; rw [← ha]; omega
      · have := hs cur j e a (by omega) he ha; omega
    · intro h0; exact ⟨e, he, Or.inr ⟨by omega, by omega⟩⟩
  | case5 base cur nmemb hn =>
    obtain ⟨e, h1, h2⟩ := hcur (by omega)
    refine Or.inr ⟨cur, e, rfl, h1, ?_⟩
    rcases h2 with ⟨h2, h3⟩ | ⟨h2, h3⟩
    · exact Or.inl ⟨h3, fun j a hj ha => hhi j a (by omega) ha⟩
    · exact Or.inr ⟨h3, fun j a hj ha => hlo j a (by omega) ha⟩

/-- C13, the "equal or less" search: for every non-empty strictly sorted table and every value, the
search reads only inside the table and gives the entry with the greatest value not above the argument;
it gives NULL exactly when all values are above it. -/
theorem searchEqOrLess_floor (d : List Entry) (v : BitVec 64) (hs : StrictlySorted d) (hne : d ≠ []) :
    (∃ e, searchEqOrLess d v = some (some e) ∧ IsFloor d v e) ∨
    (searchEqOrLess d v = some none ∧ ∀ e ∈ d, v.toNat < e.val.toNat) := by
  have hpos : 0 < d.length := List.length_pos_iff.2 hne
  have hend := leLoop_end d v.toNat hs 0 0 d.length (by omega) (by intro j a h; omega)
    (by intro j a h1 h2; have := (List.getElem?_eq_some_iff.1 h2).1; omega) (by intro h; omega)
  unfold searchEqOrLess
  generalize leLoop d v.toNat 0 0 d.length = r at hend ⊢
  rcases hend with ⟨e, rfl, hm, hv⟩ | ⟨cur, e, rfl, hc, h⟩
  · exact Or.inl ⟨e, rfl, hm, by omega, fun e' _ h' => by omega⟩
  · dsimp only
    rw [hc]
    dsimp only
    rcases h with ⟨hlt, habove⟩ | ⟨hgt, hbelow⟩
    · rw [if_neg (by omega)]
      refine Or.inl ⟨e, rfl, List.mem_of_getElem? hc, by omega, ?_⟩
      intro e' he' hle
      obtain ⟨j, hj⟩ := List.mem_iff_getElem?.1 he'
      rcases Nat.lt_trichotomy j cur with hjc | hjc | hjc
      · have := hs j cur e' e hjc hj hc; omega
      · rw [hjc, hc] at hj; injection hj with hj; rw [hj]
        exact Nat.le_refl _
      · have := habove j e' hjc hj; omega
    · rw [if_pos hgt]
      by_cases h0 : cur > 0
      · rw [if_pos h0]
        have hcl := (List.getElem?_eq_some_iff.1 hc).1
        have hp : d[cur - 1]? = some d[cur - 1] := List.getElem?_eq_getElem (by omega)
        rw [hp]
        dsimp only
        refine Or.inl ⟨_, rfl, List.mem_of_getElem? hp, ?_, ?_⟩
        · have := hbelow (cur - 1) _ (by omega) hp; omega
        · intro e' he' hle
          obtain ⟨j, hj⟩ := List.mem_iff_getElem?.1 he'
          rcases Nat.lt_trichotomy j (cur - 1) with hjc | hjc | hjc
          · have := hs j (cur - 1) e' _ hjc hj hp; omega
          · rw [hjc, hp] at hj; injection hj with hj; rw [hj]
            exact Nat.le_refl _
          · by_cases hjc' : j = cur
            · rw [hjc', hc] at hj; injection hj with hj; rw [← hj] at hle; omega
            · have := hs cur j e e' (by omega) hc hj; omega
      · rw [if_neg h0]
        refine Or.inr ⟨rfl, ?_⟩
        intro e' he'
        obtain ⟨j, hj⟩ := List.mem_iff_getElem?.1 he'
        by_cases hjc : j = cur
        · rw [hjc, hc] at hj; injection hj with hj; rw [← hj]; exact hgt
        · have := hs cur j e e' (by omega) hc hj; omega

/-- On an empty table the search reads outside the table (no caller does this). -/
theorem searchEqOrLess_empty (v : BitVec 64) : searchEqOrLess [] v = none := by
  unfold searchEqOrLess
  have : leLoop [] v.toNat 0 0 ([] : List Entry).length = some (.inr 0) := by unfold leLoop; rfl
  rw [this]; rfl

example : searchEqOrLess exSorted.data 9 = some (some ⟨3, some "C"⟩) ∧
    searchEqOrLess exSorted.data 1 = some (some ⟨0, some "A"⟩) ∧
    searchEqOrLess [⟨5, some "F"⟩] 4 = some none := by decide +kernel

end Strace.Xlat
