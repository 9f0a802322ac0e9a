import Verif.Sized.PerfProps
/-!
# perf_event_attr: the whole text
-/
namespace Strace.Sized

theorem shownAs_out (n : String) (l : List Tok) (S : List String) (h : ∀ m ∈ names l, m ∈ S) (hn : n ∉ S) :
    shownAs n l = [] := shownAs_none n l fun hm => hn (h n hm)

/-! ### The parts of the text -/

def namesA : List String :=
  ["type", "size", "new_size", "config", "sample_freq", "sample_period", "sample_type", "read_format"]

/-- the first part -/
def partA (t s c v16 v24 v32 : Nat) (cF : Bool) (new : Option (Option Nat)) : List Tok :=
  [.opened, .field "type" t, .next, .field "size" s] ++
  newToks new ++
  [.next, configTok t c, .next, .field (if cF = true then "sample_freq" else "sample_period") v16, .next,
   .field "sample_type" v24, .next, .field "read_format" v32]

theorem partA_names (t s c v16 v24 v32 : Nat) (cF : Bool) (new : Option (Option Nat)) :
    ∀ n ∈ names (partA t s c v16 v24 v32 cF new), n ∈ namesA := by
  intro n hn
  rw [partA, names_append, names_append] at hn
  have hc := (config_shown t c [.next, .field (if cF = true then "sample_freq" else "sample_period") v16, .next,
    .field "sample_type" v24, .next, .field "read_format" v32]).2.2.1
  rw [show names ([.next, configTok t c, .next, .field (if cF = true then "sample_freq" else "sample_period") v16, .next,
    .field "sample_type" v24, .next, .field "read_format" v32]) = _ from hc] at hn
  simp only [List.mem_append] at hn
  rcases hn with (hn | hn) | hn
  · simp only [names, List.mem_cons, List.not_mem_nil, or_false] at hn
    rcases hn with rfl | rfl <;> decide
  · rcases new with _ | _ | _ <;> simp [newToks, names] at hn
    subst hn; decide
  · simp only [names, List.mem_cons, List.not_mem_nil, or_false] at hn
    rcases hn with rfl | rfl | rfl | rfl
    · decide
    · cases cF <;> decide
    · decide
    · decide

theorem partA_form (t s c v16 v24 v32 : Nat) (cF : Bool) (new : Option (Option Nat)) :
    (partA t s c v16 v24 v32 cF new).foldl step .start = .have := by
  rw [partA, List.foldl_append, List.foldl_append]
  have hc := (config_shown t c [.next, .field (if cF = true then "sample_freq" else "sample_period") v16, .next,
    .field "sample_type" v24, .next, .field "read_format" v32]).2.2.2.2
  have : (newToks new).foldl step
     (List.foldl step .start [.opened, .field "type" t, .next, .field "size" s]) = .have := by
    rcases new with _ | _ | _ <;> rfl
  rw [this, List.foldl_cons]
  exact hc

theorem partA_marks (t s c v16 v24 v32 : Nat) (cF : Bool) (new : Option (Option Nat)) :
    marks (partA t s c v16 v24 v32 cF new) = if new = some none then [.unavailable] else [] := by
  rw [partA, marks_append, marks_append]
  have hc := (config_shown t c [.next, .field (if cF = true then "sample_freq" else "sample_period") v16, .next,
    .field "sample_type" v24, .next, .field "read_format" v32]).2.2.2.1
  rw [show marks ([.next, configTok t c, .next, .field (if cF = true then "sample_freq" else "sample_period") v16, .next,
    .field "sample_type" v24, .next, .field "read_format" v32]) = _ from hc]
  rcases new with _ | _ | _ <;> simp [newToks, marks]

theorem partA_shown (t s c v16 v24 v32 : Nat) (cF : Bool) (new : Option (Option Nat)) :
    shownAs "type" (partA t s c v16 v24 v32 cF new) = [t] ∧ shownAs "size" (partA t s c v16 v24 v32 cF new) = [s] ∧
    shownAs "config" (partA t s c v16 v24 v32 cF new) = [c] ∧
    shownAs "sample_freq" (partA t s c v16 v24 v32 cF new) = (if cF = true then [v16] else []) ∧
    shownAs "sample_period" (partA t s c v16 v24 v32 cF new) = (if cF = true then [] else [v16]) ∧
    shownAs "sample_type" (partA t s c v16 v24 v32 cF new) = [v24] ∧
    shownAs "read_format" (partA t s c v16 v24 v32 cF new) = [v32] ∧
    shownAs "new_size" (partA t s c v16 v24 v32 cF new) = (match new with | some (some n) => [n] | _ => []) := by
  have hc := config_shown t c [.next, .field (if cF = true then "sample_freq" else "sample_period") v16, .next,
    .field "sample_type" v24, .next, .field "read_format" v32]
  have h2 := hc.2.1
  have h1 := hc.1
  have hs : ∀ n, shownAs n ([.next, configTok t c, .next, .field (if cF = true then "sample_freq" else "sample_period") v16,
      .next, .field "sample_type" v24, .next, .field "read_format" v32]) =
      shownAs n (configTok t c :: [.next, .field (if cF = true then "sample_freq" else "sample_period") v16,
      .next, .field "sample_type" v24, .next, .field "read_format" v32]) := fun n => rfl
  unfold partA
  simp only [shownAs_append, hs]
  rw [h1, h2 "type" (by decide), h2 "size" (by decide), h2 "sample_freq" (by decide), h2 "sample_period" (by decide),
    h2 "sample_type" (by decide), h2 "read_format" (by decide), h2 "new_size" (by decide)]
  rcases new with _ | _ | _ <;> cases cF <;> simp [newToks, shownAs]

/-- the names of the flags -/
def names1 : List String := flags1.map (·.1)
def names2 : List String := flags2.map (·.1)

theorem names_disjoint :
    (∀ n ∈ namesA, n ∉ names1 ∧ n ∉ ["precise_ip"] ∧ n ∉ names2 ∧ n ∉ ["__reserved_1"] ∧ n ∉ bodyNames) ∧
    (∀ n ∈ names1, n ∉ namesA ∧ n ∉ ["precise_ip"] ∧ n ∉ names2 ∧ n ∉ ["__reserved_1"] ∧ n ∉ bodyNames) ∧
    (∀ n ∈ ["precise_ip"], n ∉ namesA ∧ n ∉ names1 ∧ n ∉ names2 ∧ n ∉ ["__reserved_1"] ∧ n ∉ bodyNames) ∧
    (∀ n ∈ names2, n ∉ namesA ∧ n ∉ names1 ∧ n ∉ ["precise_ip"] ∧ n ∉ ["__reserved_1"] ∧ n ∉ bodyNames) ∧
    (∀ n ∈ ["__reserved_1"], n ∉ namesA ∧ n ∉ names1 ∧ n ∉ ["precise_ip"] ∧ n ∉ names2 ∧ n ∉ bodyNames) ∧
    (∀ n ∈ bodyNames, n ∉ namesA ∧ n ∉ names1 ∧ n ∉ ["precise_ip"] ∧ n ∉ names2 ∧ n ∉ ["__reserved_1"]) := by
  refine ⟨?_, ?_, ?_, ?_, ?_, ?_⟩ <;> decide +kernel

/-- the whole text -/
def whole (A : List Tok) (ab : Bool) (w : Nat) (body : List Tok) (more : Bool) : List Tok :=
  A ++ (flagToks ab w flags1 ++ ([.next, .field "precise_ip" (bits w 15 2)] ++ (flagToks ab w flags2 ++
    (opt (decide (bits w 38 26 ≠ 0)) [.next, .field "__reserved_1" (bits w 38 26)] ++ (body ++
      (opt more [.next, .more] ++ [.closed]))))))

theorem end_names (n : String) (more : Bool) : shownAs n (opt more [.next, .more] ++ [.closed]) = [] := by
  cases more <;> rfl

section
variable (A : List Tok) (ab : Bool) (w : Nat) (body : List Tok) (more : Bool)
  (hA : ∀ n ∈ names A, n ∈ namesA) (hB : ∀ n ∈ names body, n ∈ bodyNames)
include hA hB

omit hA hB in
theorem p_names : ∀ n ∈ names ([.next, .field "precise_ip" (bits w 15 2)]), n ∈ ["precise_ip"] := by
  intro n hn; simpa [names] using hn

omit hA hB in
theorem r_names : ∀ n ∈ names (opt (decide (bits w 38 26 ≠ 0)) [.next, .field "__reserved_1" (bits w 38 26)]),
    n ∈ ["__reserved_1"] := by
  intro n hn
  rw [names_opt] at hn
  split at hn
  · simpa [names] using hn
  · simp at hn

theorem whole_A (n : String) (hn : n ∈ namesA) : shownAs n (whole A ab w body more) = shownAs n A := by
  obtain ⟨h1, h2, h3, h4, h5⟩ := names_disjoint.1 n hn
  rw [whole]
  simp only [shownAs_append]
  rw [shownAs_out n _ names1 (flagToks_names ab w flags1) h1, shownAs_out n _ _ (p_names w) h2,
    shownAs_out n _ names2 (flagToks_names ab w flags2) h3, shownAs_out n _ _ (r_names w) h4,
    shownAs_out n body _ hB h5, ← shownAs_append, end_names]
  simp

theorem whole_1 (n : String) (hn : n ∈ names1) : shownAs n (whole A ab w body more) = shownAs n (flagToks ab w flags1) := by
  obtain ⟨h1, h2, h3, h4, h5⟩ := names_disjoint.2.1 n hn
  rw [whole]
  simp only [shownAs_append]
  rw [shownAs_out n A _ hA h1, shownAs_out n _ _ (p_names w) h2,
    shownAs_out n _ names2 (flagToks_names ab w flags2) h3, shownAs_out n _ _ (r_names w) h4,
    shownAs_out n body _ hB h5, ← shownAs_append _ (opt more _), end_names]
  simp

theorem whole_p : shownAs "precise_ip" (whole A ab w body more) = [bits w 15 2] := by
  obtain ⟨h1, h2, h3, h4, h5⟩ := names_disjoint.2.2.1 "precise_ip" (by decide)
  rw [whole]
  simp only [shownAs_append]
  rw [shownAs_out _ A _ hA h1, shownAs_out _ _ names1 (flagToks_names ab w flags1) h2,
    shownAs_out _ _ names2 (flagToks_names ab w flags2) h3, shownAs_out _ _ _ (r_names w) h4,
    shownAs_out _ body _ hB h5, ← shownAs_append _ (opt more _), end_names]
  simp [shownAs]

theorem whole_2 (n : String) (hn : n ∈ names2) : shownAs n (whole A ab w body more) = shownAs n (flagToks ab w flags2) := by
  obtain ⟨h1, h2, h3, h4, h5⟩ := names_disjoint.2.2.2.1 n hn
  rw [whole]
  simp only [shownAs_append]
  rw [shownAs_out n A _ hA h1, shownAs_out n _ names1 (flagToks_names ab w flags1) h2,
    shownAs_out n _ _ (p_names w) h3, shownAs_out n _ _ (r_names w) h4,
    shownAs_out n body _ hB h5, ← shownAs_append _ (opt more _), end_names]
  simp

theorem whole_r : shownAs "__reserved_1" (whole A ab w body more) = if bits w 38 26 = 0 then [] else [bits w 38 26] := by
  obtain ⟨h1, h2, h3, h4, h5⟩ := names_disjoint.2.2.2.2.1 "__reserved_1" (by decide)
  rw [whole]
  simp only [shownAs_append]
  rw [shownAs_out _ A _ hA h1, shownAs_out _ _ names1 (flagToks_names ab w flags1) h2,
    shownAs_out _ _ _ (p_names w) h3, shownAs_out _ _ names2 (flagToks_names ab w flags2) h4,
    shownAs_out _ body _ hB h5, ← shownAs_append _ (opt more _), end_names, shownAs_opt]
  by_cases h : bits w 38 26 = 0 <;> simp [h, shownAs]

theorem whole_B (n : String) (hn : n ∈ bodyNames) : shownAs n (whole A ab w body more) = shownAs n body := by
  obtain ⟨h1, h2, h3, h4, h5⟩ := names_disjoint.2.2.2.2.2 n hn
  rw [whole]
  simp only [shownAs_append]
  rw [shownAs_out n A _ hA h1, shownAs_out n _ names1 (flagToks_names ab w flags1) h2,
    shownAs_out n _ _ (p_names w) h3, shownAs_out n _ names2 (flagToks_names ab w flags2) h4,
    shownAs_out n _ _ (r_names w) h5, ← shownAs_append _ (opt more _), end_names]
  simp

theorem whole_names : ∀ n ∈ names (whole A ab w body more),
    n ∈ namesA ∨ n ∈ names1 ∨ n ∈ ["precise_ip"] ∨ n ∈ names2 ∨ n ∈ ["__reserved_1"] ∨ n ∈ bodyNames := by
  intro n hn
  rw [whole] at hn
  simp only [names_append _ _, List.mem_append] at hn
  rcases hn with hn | hn | hn | hn | hn | hn | hn | hn
  · exact Or.inl (hA n hn)
  · exact Or.inr (Or.inl (flagToks_names _ _ _ n hn))
  · exact Or.inr (Or.inr (Or.inl (p_names w n hn)))
  · exact Or.inr (Or.inr (Or.inr (Or.inl (flagToks_names _ _ _ n hn))))
  · exact Or.inr (Or.inr (Or.inr (Or.inr (Or.inl (r_names w n hn)))))
  · exact Or.inr (Or.inr (Or.inr (Or.inr (Or.inr (hB n hn)))))
  · cases more <;> simp [opt, names] at hn
  · simp [names] at hn

end

theorem whole_form (A : List Tok) (ab : Bool) (w : Nat) (body : List Tok) (more : Bool)
    (hA : A.foldl step .start = .have) (hB : body.foldl step .have = .have) : Structure (whole A ab w body more) := by
  rw [Structure, whole]
  simp only [List.foldl_append, hA, flagToks_form, foldl_opt _ [.next, .field "__reserved_1" (bits w 38 26)] rfl]
  rw [show List.foldl step St.have [.next, .field "precise_ip" (bits w 15 2)] = .have from rfl, flagToks_form,
    foldl_opt _ _ rfl, hB, foldl_opt _ _ rfl]
  rfl

theorem whole_marks (A : List Tok) (ab : Bool) (w : Nat) (body : List Tok) (more : Bool) (hB : marks body = []) :
    marks (whole A ab w body more) = marks A ++ if more = true then [.more] else [] := by
  rw [whole]
  simp only [marks_append, flagToks_marks, marks_opt, hB, marks, ite_self, List.nil_append, List.append_nil]

end Strace.Sized
