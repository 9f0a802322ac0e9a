import Verif.Cli.PathSearch
import Mathlib.Tactic.Set
/-!
# C70: which program is run
-/
namespace Strace.Cli

/-! ### Specification -/

/-- the entries of PATH: the texts between its colons -/
def entries : List Nat → List (List Nat)
  | [] => [[]]
  | c :: t =>
    if c = 58 then [] :: entries t
    else match entries t with
      | e :: es => (c :: e) :: es
      | [] => [[c]]

/-- the file that directory `d` would hold: "d/name", without a second slash, if it is short enough to be a path -/
def fileIn (d name : List Nat) : Option (List Nat) :=
  let q := (if d.getLast? = some 47 then d else d ++ [47]) ++ name
  if q.length < 4096 then some q else none

/-- the file an entry stands for; the empty entry stands for the current directory -/
def fileOf (cwd : Option (List Nat)) (name e : List Nat) : Option (List Nat) :=
  if e = [] then cwd.bind fun d => fileIn d name else fileIn e name

/-- the first executable file among the entries -/
def firstExec (S : Sys) (name : List Nat) (es : List (List Nat)) : Option (List Nat) :=
  (es.filterMap (fileOf S.cwd name)).find? S.exec

/-- the entries without a final empty one -/
def butFinalEmpty (es : List (List Nat)) : List (List Nat) := if es.getLast? = some [] then es.dropLast else es

/-- texts contain no NUL, and `getcwd` gives a non-empty text -/
structure Sane (S : Sys) (name path : List Nat) : Prop where
  name : 0 ∉ name
  path : 0 ∉ path
  cwd : ∀ d, S.cwd = some d → 0 ∉ d ∧ d ≠ []

/-! ### Lemmas -/

theorem entries_ne_nil (p : List Nat) : entries p ≠ [] := by
  cases p with
  | nil => simp [entries]
  | cons c t =>
    unfold entries
    split
    · simp
    · split <;> simp

theorem entries_noColon {w : List Nat} (h : 58 ∉ w) : entries w = [w] := by
  induction w with
  | nil => rfl
  | cons c w ih =>
    have hc : c ≠ 58 := by rintro rfl; simp at h
    have hw : 58 ∉ w := by intro hx; exact h (by simp [hx])
    simp [entries, hc, ih hw]

theorem entries_colon {w : List Nat} (h : 58 ∉ w) (t : List Nat) : entries (w ++ 58 :: t) = w :: entries t := by
  induction w with
  | nil => simp [entries]
  | cons c w ih =>
    have hc : c ≠ 58 := by rintro rfl; simp at h
    have hw : 58 ∉ w := by intro hx; exact h (by simp [hx])
    simp [entries, hc, ih hw]

theorem colonAt_spec (p : List Nat) :
    58 ∉ p.take (colonAt p) ∧ (colonAt p = p.length ∨ (colonAt p < p.length ∧ p.drop (colonAt p) = 58 :: p.drop (colonAt p + 1))) := by
  induction p with
  | nil => simp [colonAt]
  | cons c t ih =>
    unfold colonAt
    by_cases h : c = 58
    · simp [h]
    · rw [if_neg h]
      obtain ⟨h1, h2⟩ := ih
      refine ⟨?_, ?_⟩
      · simp only [List.take_succ_cons, List.mem_cons, not_or]
        exact ⟨fun e => h e.symm, h1⟩
      · rcases h2 with h2 | ⟨h2, h3⟩
        · left; simp [h2]
        · right; refine ⟨by simp; omega, ?_⟩
          simpa using h3

/-- how the loop consumes the entries -/
theorem searched_step (c : Nat) (t : List Nat) :
    butFinalEmpty (entries (c :: t)) = (c :: t).take (colonAt (c :: t)) ::
      butFinalEmpty (entries ((c :: t).drop (if colonAt (c :: t) < (c :: t).length then colonAt (c :: t) + 1 else colonAt (c :: t)))) := by
  obtain ⟨h1, h2⟩ := colonAt_spec (c :: t)
  rcases h2 with h2 | ⟨h2, h3⟩
  · rw [if_neg (by omega), h2, List.take_length, List.drop_length]
    rw [h2, List.take_length] at h1
    rw [entries_noColon h1]
    simp [entries, butFinalEmpty]
  · rw [if_pos h2]
    have e := List.take_append_drop (colonAt (c :: t)) (c :: t)
    rw [h3] at e
    conv => lhs; rw [← e, entries_colon h1]
    generalize (c :: t).drop (colonAt (c :: t) + 1) = u
    have := entries_ne_nil u
    cases hu : entries u with
    | nil => exact absurd hu this
    | cons a l =>
      unfold butFinalEmpty
      simp only [List.getLast?_cons_cons, List.dropLast_cons₂]
      split <;> rfl

theorem store_some {buf : List Nat} {i : Nat} {l : List Nat} (h : i + l.length ≤ buf.length) :
    ∃ b, store buf i l = some b ∧ b.length = buf.length ∧ b.take (i + l.length) = buf.take i ++ l := by
  refine ⟨_, if_pos h, ?_, ?_⟩
  · simp; omega
  · have : (buf.take i ++ l).length = i + l.length := by simp; omega
    rw [← this, List.take_left]

theorem takeWhile_stop (q r : List Nat) (h : 0 ∉ q) : (q ++ 0 :: r).takeWhile (· != 0) = q := by
  induction q with
  | nil => simp
  | cons x q ih =>
    have hx : x ≠ 0 := by rintro rfl; simp at h
    simp [hx, ih (by intro hh; exact h (by simp [hh]))]

theorem cstr_of_take {b q : List Nat} {n : Nat} (h : b.take n = q ++ [0]) (h0 : 0 ∉ q) : cstr b = q := by
  unfold cstr
  rw [← List.take_append_drop n b, h, List.append_assoc]
  exact takeWhile_stop q _ h0

theorem getD_last {b d : List Nat} (hd : d ≠ []) (h : b.take d.length = d) : (b.getD (d.length - 1) 0 ≠ 47) ↔ d.getLast? ≠ some 47 := by
  have hl : 0 < d.length := List.length_pos_iff.2 hd
  have : b[d.length - 1]? = d.getLast? := by
    rw [List.getLast?_eq_getElem?]
    have e := congrArg (fun l => l[d.length - 1]?) h
    simp only [List.getElem?_take] at e
    rw [if_pos (by omega)] at e
    exact e
  rw [List.getD_eq_getElem?_getD, this, List.getLast?_eq_some_getLast hd]
  simp

theorem putSlash_spec {b d : List Nat} (hb : b.length = 4096) (hd : d ≠ []) (hl : d.length ≤ 4095) (h : b.take d.length = d) :
    ∃ b' len, putSlash b d.length = some (b', len) ∧ b'.length = 4096 ∧
      b'.take len = (if d.getLast? = some 47 then d else d ++ [47]) ∧
      len = (if d.getLast? = some 47 then d else d ++ [47]).length := by
  unfold putSlash
  have hp : 0 < d.length := List.length_pos_iff.2 hd
  by_cases hs : d.getLast? = some 47
  · rw [if_neg (by rw [getD_last hd h]; simp [hs]), if_pos hs]
    exact ⟨b, d.length, rfl, hb, h, rfl⟩
  · rw [if_pos ⟨by omega, (getD_last hd h).2 hs⟩, if_neg hs]
    obtain ⟨b', e1, e2, e3⟩ := store_some (buf := b) (i := d.length) (l := [47]) (by simp; omega)
    rw [e1]
    refine ⟨b', d.length + 1, rfl, by omega, ?_, by simp⟩
    have e4 : b'.take (d.length + 1) = b.take d.length ++ [47] := e3
    rw [e4, h]

theorem tryDir_spec (S : Sys) {name b d : List Nat} (hb : b.length = 4096) (hd : d ≠ []) (hl : d.length ≤ 4095) (h : b.take d.length = d)
    (h0 : 0 ∉ d) (hn : 0 ∉ name) :
    ∃ b', b'.length = 4096 ∧
      (tryDir S name b d.length = some (b', false) ∧ (∀ q, fileIn d name = some q → S.exec q = false) ∨
       tryDir S name b d.length = some (b', true) ∧ fileIn d name = some (cstr b') ∧ S.exec (cstr b') = true) := by
  obtain ⟨b', len, e1, e2, e3, e4⟩ := putSlash_spec hb hd hl h
  unfold tryDir fileIn
  simp only [e1]
  generalize hq : (if d.getLast? = some 47 then d else d ++ [47]) = q at *
  have hq0 : 0 ∉ q := by
    rw [← hq]; split
    · exact h0
    · simp [h0]
  by_cases hlen : name.length + len > PATH_MAX - 1
  · rw [if_pos hlen]
    refine ⟨b', e2, Or.inl ⟨rfl, ?_⟩⟩
    intro r hr
    rw [if_neg (by rw [List.length_append]; unfold PATH_MAX at hlen; omega)] at hr; cases hr
  · rw [if_neg hlen]
    unfold PATH_MAX at hlen
    obtain ⟨b2, f1, f2, f3⟩ := store_some (buf := b') (i := len) (l := name ++ [0]) (by simp; omega)
    rw [f1]
    simp only
    have hc : cstr b2 = q ++ name := by
      apply cstr_of_take (n := len + (name ++ [0]).length)
      · rw [f3, e3, List.append_assoc]
      · simp [hq0, hn]
    rw [if_pos (by rw [List.length_append]; omega)]
    refine ⟨b2, by omega, ?_⟩
    cases hx : S.exec (cstr b2) with
    | false => left; exact ⟨rfl, by intro r hr; injection hr with hr; rw [← hr, ← hc]; exact hx⟩
    | true => right; exact ⟨rfl, by rw [hc], by first | rfl | exact hx⟩

theorem fileIn_long {d name : List Nat} (h : 4096 ≤ d.length) : fileIn d name = none := by
  unfold fileIn
  simp only
  rw [if_neg]
  split <;> simp <;> omega

theorem searchLoop_spec (S : Sys) (name path buf : List Nat) (h : Sane S name path) (hb : buf.length = 4096) :
    searchLoop S name path buf =
      match firstExec S name (butFinalEmpty (entries path)) with
      | some q => .path q
      | none => .none := by
  induction hk : path.length using Nat.strongRecOn generalizing path buf with
  | ind k ih =>
    cases path with
    | nil => rw [searchLoop]; simp [entries, butFinalEmpty, firstExec]
    | cons c t =>
      rw [searchLoop, searched_step]
      set n := colonAt (c :: t) with hn
      set m := (if n < (c :: t).length then n + 1 else n) with hm
      have hpos : 0 < m := by
        rw [hm]; split
        · omega
        · rename_i hx; simp at hx; omega
      have hsane : Sane S name ((c :: t).drop m) :=
        ⟨h.name, fun hx => h.path (List.mem_of_mem_drop hx), h.cwd⟩
      have next : ∀ b : List Nat, b.length = 4096 → searchLoop S name ((c :: t).drop m) b =
          match firstExec S name (butFinalEmpty (entries ((c :: t).drop m))) with
          | some q => .path q
          | none => .none := by
        intro b hb
        exact ih ((c :: t).drop m).length (by rw [← hk]; simp only [List.length_drop, List.length_cons]; omega) _ b hsane hb rfl
      have hnl : n ≤ (c :: t).length := by
        rcases (colonAt_spec (c :: t)).2 with h' | ⟨h', _⟩ <;> omega
      have skip : fileOf S.cwd name ((c :: t).take n) = none → ∀ b : List Nat, b.length = 4096 → searchLoop S name ((c :: t).drop m) b =
          match firstExec S name ((c :: t).take n :: butFinalEmpty (entries ((c :: t).drop m))) with
          | some q => .path q
          | none => .none := by
        intro hf b hb
        rw [next b hb]
        unfold firstExec
        rw [List.filterMap_cons_none hf]
      have visit : ∀ (d b : List Nat), b.length = 4096 → d ≠ [] → d.length ≤ 4095 → b.take d.length = d → 0 ∉ d →
          fileOf S.cwd name ((c :: t).take n) = fileIn d name →
          (match tryDir S name b d.length with
            | none => Found.bad
            | some (b, true) => .path (cstr b)
            | some (b, false) => searchLoop S name ((c :: t).drop m) b) =
          match firstExec S name ((c :: t).take n :: butFinalEmpty (entries ((c :: t).drop m))) with
          | some q => .path q
          | none => .none := by
        intro d b hb hd hl ht h0 hf
        obtain ⟨b', k1, ⟨k2, k3⟩ | ⟨k2, k3, k4⟩⟩ := tryDir_spec S hb hd hl ht h0 h.name
        · rw [k2]
          simp only
          rw [next b' k1]
          unfold firstExec
          cases hq : fileIn d name with
          | none => rw [List.filterMap_cons_none (by rw [hf, hq])]
          | some q =>
            rw [List.filterMap_cons_some (by rw [hf, hq]), List.find?_cons_of_neg (by rw [k3 q hq]; simp)]
        · rw [k2]
          simp only
          unfold firstExec
          rw [List.filterMap_cons_some (by rw [hf, k3]), List.find?_cons_of_pos k4]
      by_cases h0 : n = 0
      · have he : (c :: t).take n = [] := by rw [h0]; rfl
        unfold putDir
        rw [if_pos h0]
        cases hcwd : S.cwd with
        | none =>
          simp only
          exact skip (by unfold fileOf; rw [if_pos he, hcwd]; rfl) buf hb
        | some d =>
          simp only
          have hf : fileOf S.cwd name ((c :: t).take n) = fileIn d name := by
            unfold fileOf; rw [if_pos he, hcwd]; rfl
          by_cases hlong : d.length ≥ PATH_MAX
          · rw [if_pos hlong]
            exact skip (by rw [hf, fileIn_long hlong]) buf hb
          · rw [if_neg hlong]
            unfold PATH_MAX at hlong
            obtain ⟨b, e1, e2, e3⟩ := store_some (buf := buf) (i := 0) (l := d ++ [0]) (by simp; omega)
            rw [e1]
            simp only [Option.map_some]
            refine visit d b (by omega) (h.cwd d hcwd).2 (by omega) ?_ (h.cwd d hcwd).1 hf
            have : b.take d.length = (b.take (0 + (d ++ [0]).length)).take d.length := by
              rw [List.take_take]; congr 1; simp
            rw [this, e3]; simp
      · have he : (c :: t).take n ≠ [] := by
          intro e; have := congrArg List.length e; rw [List.length_take] at this; simp only [List.length_nil] at this; omega
        have hf : fileOf S.cwd name ((c :: t).take n) = fileIn ((c :: t).take n) name := by
          unfold fileOf; rw [if_neg he]
        have hlen : ((c :: t).take n).length = n := by rw [List.length_take]; omega
        unfold putDir
        rw [if_neg h0]
        by_cases hlong : n > PATH_MAX - 1
        · rw [if_pos hlong]
          unfold PATH_MAX at hlong
          exact skip (by rw [hf, fileIn_long (by omega)]) buf hb
        · rw [if_neg hlong]
          unfold PATH_MAX at hlong
          obtain ⟨b, e1, e2, e3⟩ := store_some (buf := buf) (i := 0) (l := (c :: t).take n) (by omega)
          rw [e1]
          simp only [Option.map_some]
          have := visit ((c :: t).take n) b (by omega) he (by omega) (by simpa using e3)
            (fun hx => h.path (List.mem_of_mem_take hx)) hf
          rw [hlen] at this
          exact this

/-! ### C70 -/

/-- **C70.** What is run, exactly: a name with a slash is a path; any other name is looked up in the entries of PATH but
a final empty one, in order, an empty entry being the current directory, and too long paths being passed over. No
write goes outside the array, whatever was in it. -/
theorem program_found (S : Sys) (name path buf : List Nat) (h : Sane S name path) (hb : buf.length = 4096)
    (hl : name.length < 4096) :
    findProgram S name (some path) buf =
      if 47 ∈ name then .path name
      else match firstExec S name (butFinalEmpty (entries path)) with
        | some q => .path q
        | none => .none := by
  unfold findProgram
  rw [if_neg (by unfold PATH_MAX; omega)]
  by_cases hs : 47 ∈ name
  · rw [if_pos (by simpa using hs), if_pos hs]
    obtain ⟨b, e1, e2, e3⟩ := store_some (buf := buf) (i := 0) (l := name ++ [0]) (by simp; omega)
    rw [e1]
    simp only
    rw [cstr_of_take (by simpa using e3) h.name]
  · rw [if_neg (by simpa using hs), if_neg hs]
    exact searchLoop_spec S name path buf h hb

/-- without PATH nothing is found, and an overlong name is refused -/
theorem program_not_found (S : Sys) (name : List Nat) (path : Option (List Nat)) (buf : List Nat) :
    (4096 ≤ name.length → findProgram S name path buf = .tooLong) ∧
    (name.length < 4096 → 47 ∉ name → findProgram S name none buf = .none) := by
  unfold findProgram PATH_MAX
  constructor
  · intro h; rw [if_pos (by omega)]
  · intro h hs; rw [if_neg (by omega), if_neg (by simpa using hs)]

/-- **C70, partial.** If PATH does not end with an empty entry, the program run is the first executable file among all its
entries.  (Missing: the final empty entry, see `trailing_colon`.) -/
theorem first_in_path_partial (S : Sys) (name path buf : List Nat) (h : Sane S name path) (hb : buf.length = 4096)
    (hl : name.length < 4096) (hs : 47 ∉ name) (ht : (entries path).getLast? ≠ some []) :
    findProgram S name (some path) buf =
      match firstExec S name (entries path) with
      | some q => .path q
      | none => .none := by
  rw [program_found S name path buf h hb hl, if_neg hs]
  unfold butFinalEmpty
  rw [if_neg ht]

/-- a system whose current directory "/w" holds the only executable file, "/w/p" -/
def onlyCwd : Sys := { cwd := some [47, 119], exec := fun q => q == [47, 119, 47, 112] }

/-- The final empty entry is not looked up: with PATH = "/b:" and the program "p" only in the current directory, strace
does not find it, although it is the first executable file among the entries of PATH. -/
theorem trailing_colon :
    firstExec onlyCwd [112] (entries [47, 98, 58]) = some [47, 119, 47, 112] ∧
    (∀ buf : List Nat, buf.length = 4096 → findProgram onlyCwd [112] (some [47, 98, 58]) buf = .none) ∧
    (∀ buf : List Nat, buf.length = 4096 →
      findProgram onlyCwd [112] (some [58, 47, 98]) buf = .path [47, 119, 47, 112]) := by
  refine ⟨by decide, ?_, ?_⟩
  · intro buf hb
    rw [program_found onlyCwd [112] [47, 98, 58] buf ⟨by decide, by decide, ?_⟩ hb (by decide)]
    · decide
    · intro d hd; injection hd with hd; subst hd; decide
  · intro buf hb
    rw [program_found onlyCwd [112] [58, 47, 98] buf ⟨by decide, by decide, ?_⟩ hb (by decide)]
    · decide
    · intro d hd; injection hd with hd; subst hd; decide

/-- PATH = "/a/:/b", both with the program: the first wins, without a second slash -/
example : firstExec { cwd := none, exec := fun _ => true } [112] (entries [47, 97, 47, 58, 47, 98]) = some [47, 97, 47, 112] := by decide
example : (entries [47, 97, 47, 58, 47, 98]).getLast? ≠ some [] := by decide
example : Sane { cwd := none, exec := fun _ => true } [112] [47, 97, 47, 58, 47, 98] := ⟨by decide, by decide, by simp⟩

end Strace.Cli
