import Verif.Xlat.Props
import Verif.Pack.Model
import Verif.Pack.Spec
/-
How the printed pieces read, for C82.
-/
namespace Strace.Pack
open Strace.Xlat

/-! ### comments -/

/-- complete comments only: the text can be read piece by piece, and disappears within a comment -/
structure Good (l : List Tok) : Prop where
  app : ∀ d r, strip d (l ++ r) = strip d l ++ strip d r
  gone : ∀ d, strip (d + 1) l = []

theorem good_nil : Good [] := ⟨fun d r => by cases d <;> simp [strip], fun d => by simp [strip]⟩

theorem good_append {a b : List Tok} (ha : Good a) (hb : Good b) : Good (a ++ b) := by
  refine ⟨fun d r => ?_, fun d => ?_⟩
  · rw [List.append_assoc, ha.app, hb.app, ha.app, List.append_assoc]
  · rw [ha.app, ha.gone, hb.gone, List.append_nil]

theorem good_one {t : Tok} (h1 : t ≠ .p .open_) (h2 : t ≠ .p .close) : Good [t] := by
  have hs : ∀ d r, strip d (t :: r) = strip d [t] ++ strip d r := by
    intro d r
    cases t with
    | p x => cases x <;> cases d <;> simp_all [strip]
    | _ => cases d <;> simp [strip]
  refine ⟨fun d r => hs d r, fun d => ?_⟩
  cases t with
  | p x => cases x <;> simp_all [strip]
  | _ => simp [strip]

theorem good_comment {l : List Tok} (h : Good l) : Good ([.p .open_] ++ l ++ [.p .close]) := by
  have hs : ∀ d r, strip d ([.p .open_] ++ l ++ [.p .close] ++ r) = strip d r := by
    intro d r
    rw [List.append_assoc, List.append_assoc, List.singleton_append]
    rw [show strip d (.p .open_ :: (l ++ ([.p .close] ++ r))) = strip (d + 1) (l ++ ([.p .close] ++ r)) by
      cases d <;> rfl]
    rw [h.app, h.gone, List.nil_append]
    simp [strip]
  have h0 : ∀ d, strip d ([.p .open_] ++ l ++ [.p .close]) = [] := by
    intro d
    have := hs d []
    rw [List.append_nil] at this
    rw [this]
    cases d <;> simp [strip]
  exact ⟨fun d r => by rw [hs, h0, List.nil_append], fun d => h0 _⟩

theorem strip_comment {l : List Tok} (h : Good l) : strip 0 ([.p .open_] ++ l ++ [.p .close]) = [] := by
  rw [List.append_assoc, List.singleton_append]
  rw [show strip 0 (.p .open_ :: (l ++ [.p .close])) = strip (0 + 1) (l ++ [.p .close]) from rfl]
  rw [h.app, h.gone]
  simp [strip]

theorem good_note (s : String) : Good (note s) := by
  unfold note comment ps
  dsimp only
  by_cases h : s = ""
  · rw [if_pos h]; exact good_nil
  · rw [if_neg h]; exact good_one (by simp) (by simp)

theorem strip_note (s : String) : strip 0 (note s) = [] := by
  unfold note comment ps
  dsimp only
  by_cases h : s = ""
  · rw [if_pos h]; rfl
  · rw [if_neg h]; rfl

theorem good_num (v : BitVec 64) : Good (num v) := good_one (by simp) (by simp)
theorem good_name (s : String) : Good [.p (.name s)] := good_one (by simp) (by simp)
theorem good_bar : Good bar := good_one (by simp) (by simp)
theorem good_shl : Good [.shl] := good_one (by simp) (by simp)

/-! ### reading -/

variable {names : String → Option (BitVec 64)}

/-- the text reads as a number or a constant of the value -/
def IsAtom (names : String → Option (BitVec 64)) (l : List Tok) (v : BitVec 64) : Prop :=
  Good l ∧ ∃ t, strip 0 l = [t] ∧ atom names t = some v

/-- the text reads as the value -/
def Reads (names : String → Option (BitVec 64)) (l : List Tok) (v : BitVec 64) : Prop :=
  Good l ∧ valueOf names l = some v

theorem evalFrom_bar (cur : List Tok) (a b : List Tok) :
    evalFrom names cur (a ++ .p .bar :: b) = (do
      let x ← evalFrom names cur a
      let y ← evalFrom names [] b
      some (x ||| y)) := by
  induction a generalizing cur with
  | nil => simp [evalFrom]
  | cons t a ih =>
    by_cases ht : t = .p .bar
    · subst ht
      simp only [List.cons_append, evalFrom]
      rw [ih]
      cases term names cur with
      | none => rfl
      | some x =>
        cases evalFrom names [] a with
        | none => rfl
        | some y =>
          cases evalFrom names [] b with
          | none => rfl
          | some z => simp [BitVec.or_assoc]
    · have h1 : ∀ l, evalFrom names cur (t :: l) = evalFrom names (cur ++ [t]) l := by
        intro l
        cases t with
        | p x => cases x <;> first | rfl | exact absurd rfl ht
        | _ => rfl
      rw [List.cons_append, h1, h1, ih]

theorem evalFrom_term (cur l : List Tok) (h : .p .bar ∉ l) : evalFrom names cur l = term names (cur ++ l) := by
  induction l generalizing cur with
  | nil => simp [evalFrom]
  | cons t l ih =>
    have ht : t ≠ .p .bar := fun e => h (by simp [e])
    have h1 : evalFrom names cur (t :: l) = evalFrom names (cur ++ [t]) l := by
      cases t with
      | p x => cases x <;> first | rfl | exact absurd rfl ht
      | _ => rfl
    rw [h1, ih _ (fun hm => h (by simp [hm]))]
    simp

theorem atom_not_bar {t : Tok} {v : BitVec 64} (h : atom names t = some v) : t ≠ .p .bar := by
  rintro rfl
  simp [atom] at h

theorem IsAtom.reads {l : List Tok} {v : BitVec 64} (h : IsAtom names l v) : Reads names l v := by
  obtain ⟨hg, t, hs, ha⟩ := h
  refine ⟨hg, ?_⟩
  unfold valueOf
  rw [hs, evalFrom_term _ _ (by simp; exact (atom_not_bar ha).symm)]
  exact ha

theorem reads_or {a b : List Tok} {x y : BitVec 64} (ha : Reads names a x) (hb : Reads names b y) :
    Reads names (a ++ bar ++ b) (x ||| y) := by
  refine ⟨good_append (good_append ha.1 good_bar) hb.1, ?_⟩
  unfold valueOf
  rw [List.append_assoc, ha.1.app, good_bar.app]
  show evalFrom names [] (strip 0 a ++ .p .bar :: strip 0 b) = _
  rw [evalFrom_bar]
  have h1 := ha.2
  have h2 := hb.2
  unfold valueOf at h1 h2
  rw [h1, h2]
  rfl

theorem reads_shl {a b : List Tok} {x k : BitVec 64} (ha : IsAtom names a x) (hb : IsAtom names b k) :
    Reads names (a ++ [.shl] ++ b) (x <<< k.toNat) := by
  obtain ⟨ga, ta, sa, va⟩ := ha
  obtain ⟨gb, tb, sb, vb⟩ := hb
  refine ⟨good_append (good_append ga good_shl) gb, ?_⟩
  unfold valueOf
  rw [List.append_assoc, ga.app, good_shl.app, sa, sb]
  show evalFrom names [] [ta, .shl, tb] = _
  rw [evalFrom_term]
  · show term names [ta, .shl, tb] = _
    simp [term, va, vb]
  · simp
    exact ⟨(atom_not_bar va).symm, (atom_not_bar vb).symm⟩

theorem reads_call {f : String} {a b : List Tok} {x y v : BitVec 64} (ha : IsAtom names a x)
    (hb : IsAtom names b y) (hv : macroVal f x y = some v) :
    Reads names ([.call f] ++ a ++ [.comma] ++ b ++ [.endc]) v := by
  obtain ⟨ga, ta, sa, va⟩ := ha
  obtain ⟨gb, tb, sb, vb⟩ := hb
  have g1 : Good [.call f] := good_one (by simp) (by simp)
  have g2 : Good [.comma] := good_one (by simp) (by simp)
  have g3 : Good [.endc] := good_one (by simp) (by simp)
  refine ⟨good_append (good_append (good_append (good_append g1 ga) g2) gb) g3, ?_⟩
  unfold valueOf
  simp only [List.append_assoc]
  rw [g1.app, ga.app, g2.app, gb.app, sa, sb]
  show evalFrom names [] [.call f, ta, .comma, tb, .endc] = _
  rw [evalFrom_term]
  · show term names [.call f, ta, .comma, tb, .endc] = _
    simp [term, va, vb, hv]
  · simp
    exact ⟨(atom_not_bar va).symm, (atom_not_bar vb).symm⟩

theorem reads_quiet {a n : List Tok} {v : BitVec 64} (ha : Reads names a v) (hn : Good n) (h0 : strip 0 n = []) :
    Reads names (a ++ n) v := by
  refine ⟨good_append ha.1 hn, ?_⟩
  unfold valueOf
  rw [ha.1.app, h0, List.append_nil]
  exact ha.2

theorem reads_note {a : List Tok} {v : BitVec 64} (s : String) (ha : Reads names a v) :
    Reads names (a ++ note s) v := reads_quiet ha (good_note s) (strip_note s)

theorem atom_num (v : BitVec 64) : IsAtom names (num v) v :=
  ⟨good_num v, .p (.num v), rfl, rfl⟩

theorem atom_name {s : String} {v : BitVec 64} (h : names s = some v) : IsAtom names [.p (.name s)] v :=
  ⟨good_name s, .p (.name s), rfl, h⟩

theorem atom_num_note (v : BitVec 64) (s : String) : IsAtom names (num v ++ note s) v := by
  refine ⟨good_append (good_num v) (good_note s), .p (.num v), ?_, rfl⟩
  rw [(good_num v).app, strip_note]
  rfl

theorem atom_lit {st : Verb} {s : String} {v : BitVec 64} (h : names s = some v) :
    IsAtom names (lit st v s) v := by
  cases st with
  | raw => exact atom_num v
  | «abbrev» => exact atom_name h
  | verbose => exact atom_num_note v s

theorem reads_styled {bare : List Tok} {v w : BitVec 64} (st : Verb) (h : Reads names bare w)
    (he : st = .abbrev → w = v) : Reads names (styled st v bare) v := by
  cases st with
  | raw => exact (atom_num v).reads
  | «abbrev» => rw [← he rfl]; exact h
  | verbose =>
    have : styled .verbose v bare = num v ++ ([.p .open_] ++ bare ++ [.p .close]) := by simp [styled]
    rw [this]
    exact reads_quiet (atom_num v).reads (good_comment h.1) (strip_comment h.1)

theorem nameOf_named {t : Table} {ts : List Table} {v : BitVec 64} {s : String} (hn : Names names ts) (ht : t ∈ ts)
    (h : nameOf t.data v = some s) : names s = some v := by
  unfold nameOf at h
  cases hf : t.data.find? (fun e => e.val == v) with
  | none => rw [hf] at h; cases h
  | some e =>
    rw [hf] at h
    have hv := List.find?_some hf
    have hm := List.mem_of_find?_eq_some hf
    have := hn t ht e hm s h
    rw [this]
    simpa using hv

/-- the pieces of the single value printer -/
theorem atom_xval (v : BitVec 64) (dflt : Option String) (st : Verb) (ts : List Table)
    (hn : Names names ts) (hw : ∀ t ∈ ts, WellFormed t) : IsAtom names (xval v dflt st ts) v := by
  unfold xval
  rw [printxvals_eq v dflt st ts hw]
  have hn' : ∀ s, ts.findSome? (fun t => nameOf t.data v) = some s → names s = some v := by
    intro s hs
    obtain ⟨t, ht, h⟩ := List.exists_of_findSome?_eq_some hs
    exact nameOf_named hn ht h
  generalize hit : ts.findSome? (fun t => nameOf t.data v) = o at hn'
  have c1 : ∀ s : String, ps (if s = "" then [.num v] else [.num v, .comment s]) = num v ++ note s := by
    intro s
    by_cases h : s = ""
    · rw [if_pos h, note, comment, if_pos h]; rfl
    · rw [if_neg h, note, comment, if_neg h]; rfl
  cases st with
  | raw => exact atom_num v
  | «abbrev» =>
    cases o with
    | some s => exact atom_name (hn' s rfl)
    | none =>
      cases dflt with
      | none => exact atom_num v
      | some d => dsimp only; rw [c1]; exact atom_num_note v d
  | verbose =>
    cases o with
    | some s => dsimp only; rw [c1]; exact atom_num_note v s
    | none =>
      cases dflt with
      | none => exact atom_num v
      | some d => dsimp only; rw [c1]; exact atom_num_note v d

theorem reads_names {L : List Entry} (hL : L ≠ []) (hn : ∀ e ∈ L, ∃ s, e.str = some s ∧ names s = some e.val) :
    Reads names (ps (Xlat.names L)) (orAll L) := by
  induction L with
  | nil => exact absurd rfl hL
  | cons e L ih =>
    obtain ⟨s, h1, h2⟩ := hn e (by simp)
    have h0 : IsAtom names [.p (.name (e.str.getD ""))] e.val := by rw [h1]; exact atom_name h2
    cases L with
    | nil =>
      have : orAll [e] = e.val := by simp [orAll]
      rw [this]
      exact h0.reads
    | cons e' L =>
      have h3 := ih (by simp) (fun x hx => hn x (by simp [List.mem_cons] at hx ⊢; exact Or.inr hx))
      exact reads_or h0.reads h3

theorem reads_symbolic {L : List Entry} {r : BitVec 64} (hL : L ≠ [])
    (hn : ∀ e ∈ L, ∃ s, e.str = some s ∧ names s = some e.val) :
    Reads names (ps (symbolic L r)) (orAll L ||| r) := by
  have h := reads_names hL hn
  unfold symbolic
  by_cases hr : r = 0
  · rw [if_neg (by simp [hr])]
    subst hr
    simpa using h
  · rw [if_pos hr]
    have := reads_or h (atom_num (names := names) r).reads
    unfold ps at this ⊢
    rw [List.map_append]
    rw [List.append_assoc] at this
    exact this

theorem listed_named {ts : List Table} {flags r : BitVec 64} {L : List Entry} (hn : Names names ts)
    (hd : Decomposes (allEntries ts) flags L r) : ∀ e ∈ L, ∃ s, e.str = some s ∧ names s = some e.val := by
  intro e he
  have h1 := hd.named e he
  obtain ⟨s, hs⟩ := Option.isSome_iff_exists.1 h1
  refine ⟨s, hs, ?_⟩
  have hm := hd.sub.subset he
  unfold allEntries at hm
  rw [List.mem_flatMap] at hm
  obtain ⟨t, ht, he'⟩ := hm
  exact hn t ht e he' s hs

theorem comment_quiet (d : Option String) : Good (ps (comment d)) ∧ strip 0 (ps (comment d)) = [] := by
  cases d with
  | none => exact ⟨good_nil, rfl⟩
  | some s => exact ⟨good_note s, strip_note s⟩

/-- the pieces of the flag printer, unless it prints nothing -/
theorem reads_flags (v : BitVec 64) (dflt : Option String) (st : Verb) (ts : List Table)
    (hn : Names names ts) (h0 : v ≠ 0 ∨ dflt.isSome = true) : Reads names (flagsT v dflt st ts) v := by
  unfold flagsT
  by_cases hst : st = .raw
  · subst hst
    rw [printflags_raw, if_pos h0]
    exact (atom_num v).reads
  · by_cases hv : v = 0
    · subst hv
      rw [printflags_zero dflt st ts hst]
      have hz : ∀ z, zeroOf ts = some z → names z = some 0 := by
        intro z hz
        unfold zeroOf at hz
        obtain ⟨t, ht, h⟩ := List.exists_of_findSome?_eq_some hz
        rw [← zeroName_eq] at h
        unfold zeroName at h
        cases hd : t.data with
        | nil => rw [hd] at h; cases h
        | cons e es =>
          rw [hd] at h
          dsimp only at h
          by_cases he : e.val = 0
          · rw [if_pos he] at h
            rw [hn t ht e (by simp [hd]) z h, he]
          · rw [if_neg he] at h; cases h
      cases hzo : zeroOf ts with
      | some z =>
        dsimp only
        by_cases hs : st = .verbose
        · rw [if_pos hs]
          show Reads names (num 0 ++ ([.p .open_] ++ [.p (.name z)] ++ [.p .close])) 0
          exact reads_quiet (atom_num 0).reads (good_comment (good_name z)) (strip_comment (good_name z))
        · rw [if_neg hs]
          exact (atom_name (hz z hzo)).reads
      | none =>
        dsimp only
        rcases h0 with h0 | h0
        · exact absurd rfl h0
        · rw [if_pos h0]
          exact (atom_num 0).reads
    · obtain ⟨L, r, hd, he⟩ := printflags_or v dflt st ts hst hv
      rw [he]
      by_cases hL : L = []
      · rw [if_pos hL]
        have := reads_quiet (atom_num (names := names) v).reads (comment_quiet dflt).1 (comment_quiet dflt).2
        unfold ps at this ⊢
        rw [List.map_append]
        exact this
      · rw [if_neg hL]
        have hr := reads_symbolic (r := r) hL (listed_named hn hd)
        rw [hd.total] at hr
        by_cases hs : st = .verbose
        · rw [if_pos hs]
          have h2 : ps ([Piece.num v, .open_] ++ symbolic L r ++ [.close]) =
              num v ++ ([.p .open_] ++ ps (symbolic L r) ++ [.p .close]) := by
            simp [ps, num]
          dsimp only
          rw [h2]
          exact reads_quiet (atom_num v).reads (good_comment hr.1) (strip_comment hr.1)
        · rw [if_neg hs]
          exact hr

theorem flags_zero (st : Verb) (t : Table) (hz : zeroOf [t] = none) : flagsT 0 none st [t] = [] := by
  unfold flagsT
  by_cases hst : st = .raw
  · subst hst; rw [printflags_raw]; simp [ps]
  · rw [printflags_zero none st [t] hst, hz]; simp [ps]

theorem signal_atom {st : Verb} {v : BitVec 64} {str : Option String}
    (h : ∀ s, str = some s → names s = some v) : IsAtom names (signalT st v str) v := by
  unfold signalT
  cases str with
  | none => rw [if_pos (Or.inl rfl)]; exact atom_num v
  | some s =>
    cases st with
    | raw => exact atom_num v
    | «abbrev» => exact atom_name (h s rfl)
    | verbose => exact atom_num_note v s

/-- a part after the others, printed unless it is 0 -/
theorem opt_post {a p : List Tok} {x y : BitVec 64} (ha : Reads names a x) (hp : y ≠ 0 → Reads names p y) :
    Reads names (a ++ if y ≠ 0 then bar ++ p else []) (x ||| y) := by
  by_cases hy : y = 0
  · rw [if_neg (show ¬ y ≠ 0 from fun h => h hy), hy, List.append_nil]
    have : x ||| (0 : BitVec 64) = x := by simp
    rw [this]
    exact ha
  · rw [if_pos hy, ← List.append_assoc]
    exact reads_or ha (hp hy)

/-- a part before the others, printed unless the bits `z` are 0 -/
theorem opt_pre {l p : List Tok} {x y z : BitVec 64} (hl : Reads names l y) (hp : z ≠ 0 → Reads names p x)
    (h0 : z = 0 → x = 0) : Reads names ((if z ≠ 0 then p ++ bar else []) ++ l) (x ||| y) := by
  by_cases hz : z = 0
  · rw [if_neg (show ¬ z ≠ 0 from fun h => h hz), h0 hz, List.nil_append]
    have : (0 : BitVec 64) ||| y = y := by simp
    rw [this]
    exact hl
  · rw [if_pos hz]
    exact reads_or (hp hz) hl

theorem reads_eq {l : List Tok} {x y : BitVec 64} (h : Reads names l x) (e : x = y) : valueOf names l = some y := by
  rw [h.2, e]

theorem shl_zero {x : BitVec 64} (k : Nat) (h : x = 0) : x <<< k = 0 := by
  rw [h]; exact BitVec.zero_shiftLeft k

end Strace.Pack
