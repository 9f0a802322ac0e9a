import Verif.Lead.Props
/-!
# C99: the differences shown with -r add up
-/
namespace Strace.Lead

/-! ### Specification -/

/-- readings of a clock: they never go back, and the clock has been running before -/
def Clock : List Time.Ts → Prop
  | [] => True
  | t :: r => Time.Norm t ∧ 0 ≤ t.sec ∧ Time.Fits t.sec ∧ 0 < Time.ns t ∧ (∀ u ∈ r, Time.ns t ≤ Time.ns u) ∧ Clock r

/-- each difference is the time since the reading before -/
def Steps (prev : Time.Ts) : List Time.Ts → List Time.Ts → Prop
  | [], [] => True
  | t :: r, d :: ds => Time.Norm d ∧ 0 ≤ d.sec ∧ Time.ns d = Time.ns t - Time.ns prev ∧ Steps t r ds
  | _, _ => False

/-- in a list of lines with differences, the first is zero and each other is the time since the line before -/
def AddsUp : List (Line × Time.Ts) → Prop
  | [] => True
  | p :: r => Time.ns p.2 = 0 ∧ Steps p.1.ev.mono (r.map fun q => q.1.ev.mono) (r.map fun q => q.2)

/-! ### Proofs -/

/-- the readings -/
def monos (ls : List Line) : List Time.Ts := ls.map fun l => l.ev.mono

theorem relStep_some (ots t : Time.Ts) (ho : Time.Norm ots ∧ 0 ≤ ots.sec ∧ Time.Fits ots.sec) (hp : 0 < Time.ns ots)
    (ht : Time.Norm t ∧ 0 ≤ t.sec ∧ Time.Fits t.sec) (hle : Time.ns ots ≤ Time.ns t) :
    ∃ d, relStep ots t = some (d, t) ∧ Time.Norm d ∧ 0 ≤ d.sec ∧ Time.ns d = Time.ns t - Time.ns ots := by
  obtain ⟨d, hd, hn, hs⟩ := Time.tsSub_clock t ots ht.1 ho.1 ht.2.1 ho.2.1 ht.2.2 ho.2.2
  refine ⟨d, ?_, hn, ?_, hs⟩
  · unfold relStep
    have : ¬ (ots.sec = 0 ∧ ots.nsec = 0) := by
      rintro ⟨h1, h2⟩
      unfold Time.ns at hp
      rw [h1, h2] at hp
      omega
    simp only [if_neg this, hd]
    rfl
  · unfold Time.ns at hs hle
    unfold Time.Norm at hn
    omega

theorem diffs_steps (prev : Time.Ts) (ls : List Line) (h : Clock (prev :: monos ls)) :
    ∃ ds, diffs prev ls = some ds ∧ Steps prev (monos ls) ds := by
  induction ls generalizing prev with
  | nil => exact ⟨[], rfl, trivial⟩
  | cons l r ih =>
    obtain ⟨h1, h2, h3, h4, h5, h6⟩ := h
    have h6' := h6
    obtain ⟨g1, g2, g3, g4, g5, g6⟩ := h6'
    obtain ⟨d, hd, hn, hs, he⟩ := relStep_some prev l.ev.mono ⟨h1, h2, h3⟩ h4 ⟨g1, g2, g3⟩ (h5 _ (by simp [monos]))
    obtain ⟨ds, hds, hst⟩ := ih l.ev.mono h6
    refine ⟨d :: ds, ?_, hn, hs, he, hst⟩
    unfold diffs
    rw [hd]
    show (diffs l.ev.mono r).map (d :: ·) = _
    rw [hds]; rfl

theorem steps_length (prev : Time.Ts) (ts ds : List Time.Ts) (h : Steps prev ts ds) : ds.length = ts.length := by
  induction ts generalizing prev ds with
  | nil => cases ds with
    | nil => rfl
    | cons d ds => exact absurd h id
  | cons t r ih => cases ds with
    | nil => exact absurd h id
    | cons d ds => simp [ih t ds h.2.2.2]

/-- The differences add up: after any line, the sum of those since is the time that has passed since. -/
theorem steps_sum (prev : Time.Ts) (ts ds : List Time.Ts) (h : Steps prev ts ds) :
    (ds.map Time.ns).sum = Time.ns (ts.getLastD prev) - Time.ns prev := by
  induction ts generalizing prev ds with
  | nil => cases ds with
    | nil => simp
    | cons d ds => exact absurd h id
  | cons t r ih => cases ds with
    | nil => exact absurd h id
    | cons d ds =>
      obtain ⟨_, _, he, hs⟩ := h
      rw [List.map_cons, List.sum_cons, ih t ds hs, he, List.getLastD_cons]
      omega

theorem diffs_first (l : Line) (r : List Line) (h : Clock (monos (l :: r))) :
    ∃ d ds, diffs ⟨0, 0⟩ (l :: r) = some (d :: ds) ∧ Time.ns d = 0 ∧ Steps l.ev.mono (monos r) ds := by
  have h' : Clock (l.ev.mono :: monos r) := h
  obtain ⟨ds, hds, hst⟩ := diffs_steps _ r h'
  obtain ⟨h1, h2, h3, _⟩ := h'
  obtain ⟨d, hd, hn, hs⟩ := Time.tsSub_clock l.ev.mono l.ev.mono h1 h1 h2 h2 h3 h3
  refine ⟨d, ds, ?_, by omega, hst⟩
  unfold diffs relStep
  rw [if_pos ⟨rfl, rfl⟩]
  dsimp only
  rw [hd]
  show (diffs l.ev.mono r).map (d :: ·) = _
  rw [hds]; rfl

theorem zip_fst (prev : Time.Ts) (ls : List Line) (ds : List Time.Ts) (h : ds.length = ls.length) :
    (ls.zip ds).map (fun q => q.1.ev.mono) = monos ls ∧ (ls.zip ds).map (fun q => q.2) = ds := by
  constructor
  · rw [show (fun q : Line × Time.Ts => q.1.ev.mono) = (fun l : Line => l.ev.mono) ∘ Prod.fst from rfl, ← List.map_map,
      List.map_fst_zip (by omega)]
    rfl
  · exact List.map_snd_zip (by omega)

/-- C99, if every line that is begun gets to the one file there is: the differences there add up. -/
theorem rel_adds_up_partial (f : Nat) (ls : List Line) (h : Clock (monos ls)) (hp : ∀ l ∈ ls, l.published = true ∧ l.file = f) :
    ∃ ds, diffs ⟨0, 0⟩ ls = some ds ∧ AddsUp (inFile f ls ds) := by
  cases ls with
  | nil => exact ⟨[], rfl, trivial⟩
  | cons l r =>
    obtain ⟨d, ds, hd, h0, hs⟩ := diffs_first l r h
    refine ⟨d :: ds, hd, ?_⟩
    have hl := steps_length _ _ _ hs
    have hall : inFile f (l :: r) (d :: ds) = (l :: r).zip (d :: ds) := by
      unfold inFile
      rw [List.filter_eq_self]
      intro q hq
      have := hp q.1 (List.of_mem_zip hq).1
      simp [this.1, this.2]
    rw [hall, List.zip_cons_cons]
    have hz := zip_fst l.ev.mono r ds (by rw [hl]; simp [monos])
    exact ⟨h0, by rw [hz.1, hz.2]; exact hs⟩

theorem leads_texts (clock : Int → Option (List Nat)) (c : Cfg) (hr : c.rflag = true) (ots : Time.Ts) (ls : List Line)
    (ds : List Time.Ts) (h : diffs ots ls = some ds) :
    leads clock c ots ls = some ((ls.zip ds).map fun q => leadText clock c q.1.ev q.2) := by
  induction ls generalizing ots ds with
  | nil => cases h; rfl
  | cons l r ih =>
    unfold diffs at h
    unfold leads lead
    rw [if_pos hr]
    cases hs : relStep ots l.ev.mono with
    | none => rw [hs] at h; cases h
    | some d =>
      rw [hs] at h
      have h' : (diffs d.2 r).map (d.1 :: ·) = some ds := h
      cases hd : diffs d.2 r with
      | none => rw [hd] at h'; cases h'
      | some es =>
        rw [hd] at h'
        cases h'
        show (leads clock c d.2 r).map (leadText clock c l.ev d.1 :: ·) = _
        rw [ih d.2 es hd]; rfl

theorem zip_map_snd (ls : List Line) (ds : List Time.Ts) (h : ds.length = ls.length) (f : Line × Time.Ts → Option (Int × Nat))
    (g : Time.Ts → Option (Int × Nat)) (hfg : ∀ q ∈ ls.zip ds, f q = g q.2) : (ls.zip ds).map f = ds.map g := by
  rw [List.map_congr_left hfg, show (fun q : Line × Time.Ts => g q.2) = g ∘ Prod.snd from rfl, ← List.map_map,
    List.map_snd_zip (by omega)]

theorem diffs_norm (ls : List Line) (h : Clock (monos ls)) (ds : List Time.Ts) (hd : diffs ⟨0, 0⟩ ls = some ds) :
    ds.length = ls.length ∧ ∀ d ∈ ds, Time.Norm d := by
  cases ls with
  | nil => cases hd; exact ⟨rfl, fun d hh => by cases hh⟩
  | cons l r =>
    have h' : Clock (l.ev.mono :: monos r) := h
    obtain ⟨es, hes, hst⟩ := diffs_steps _ r h'
    obtain ⟨h1, h2, h3, _⟩ := h'
    obtain ⟨d, hdd, hn, hs⟩ := Time.tsSub_clock l.ev.mono l.ev.mono h1 h1 h2 h2 h3 h3
    have he : diffs ⟨0, 0⟩ (l :: r) = some (d :: es) := by
      unfold diffs relStep
      rw [if_pos ⟨rfl, rfl⟩]
      dsimp only
      rw [hdd]
      show (diffs l.ev.mono r).map (d :: ·) = _
      rw [hes]; rfl
    rw [he] at hd
    cases hd
    refine ⟨by have := steps_length _ _ _ hst; simp [this, monos], ?_⟩
    intro x hx
    rcases List.mem_cons.mp hx with rfl | hx
    · exact hn
    · have key : ∀ (ts es : List Time.Ts) (prev : Time.Ts), Steps prev ts es → ∀ x ∈ es, Time.Norm x := by
        intro ts
        induction ts with
        | nil => intro es prev hs x hx; cases es with
          | nil => cases hx
          | cons e es => exact absurd hs id
        | cons t ts ih => intro es prev hs x hx; cases es with
          | nil => exact absurd hs id
          | cons e es =>
            rcases List.mem_cons.mp hx with rfl | hx
            · exact hs.1
            · exact ih es t hs.2.2.2 x hx
      exact key _ _ _ hst x hx

/-- C99: and these are the differences that a reader finds in the lines, whatever else is asked for. -/
theorem rel_read_partial (clock : Int → Option (List Nat)) (hk : OkClock clock) (c : Cfg) (ht : OkPrec c.t) (hp : OkPrec c.r)
    (hr : c.rflag = true) (ls : List Line) (hl : ∀ l ∈ ls, OkComm l.ev.comm ∧ Time.Norm l.ev.real) (h : Clock (monos ls)) :
    ∃ ds texts, AddsUp (ls.zip ds) ∧ leads clock c ⟨0, 0⟩ ls = some texts ∧
      texts.map (fun t => (read c t).1.rel) = ds.map fun d => some (d.sec, parts c.r d.nsec) := by
  have hf : ∃ ds, diffs ⟨0, 0⟩ ls = some ds ∧ AddsUp (ls.zip ds) := by
    cases ls with
    | nil => exact ⟨[], rfl, trivial⟩
    | cons l r =>
      obtain ⟨d, ds, hd, h0, hs⟩ := diffs_first l r h
      have hz := zip_fst l.ev.mono r ds (by rw [steps_length _ _ _ hs]; simp [monos])
      exact ⟨d :: ds, hd, h0, by
        show Steps _ ((r.zip ds).map _) ((r.zip ds).map _)
        rw [hz.1, hz.2]; exact hs⟩
  obtain ⟨ds, hd, ha⟩ := hf
  obtain ⟨hlen, hn⟩ := diffs_norm ls h ds hd
  refine ⟨ds, _, ha, leads_texts clock c hr _ ls ds hd, ?_⟩
  rw [List.map_map]
  apply zip_map_snd ls ds hlen
  intro q hq
  have hq' := List.of_mem_zip hq
  have := lead_read clock hk c ht hp q.1.ev (hl q.1 hq'.1).1 (hl q.1 hq'.1).2 q.2 (hn q.2 hq'.2) [] (by decide)
  rw [List.append_nil] at this
  simp only [Function.comp, this, toTell, if_pos hr]

/-- What is shown of a difference is cut off, by less than a part. -/
theorem rel_cut (p : Prec) (hp : OkPrec p) (d : Time.Ts) (hn : Time.Norm d) :
    d.sec * 1000000000 + parts p d.nsec * p.scale ≤ Time.ns d ∧
    Time.ns d < d.sec * 1000000000 + (parts p d.nsec + 1) * p.scale := by
  have he := (parts_eq p hp d.nsec hn).1
  have hs : (0 : Int) < p.scale := by
    unfold OkPrec at hp
    rcases Nat.eq_zero_or_pos p.scale with h0 | h0
    · rw [h0] at hp; omega
    · omega
  have hq : (parts p d.nsec : Int) = d.nsec / p.scale := by
    rw [← he]; exact Int.toNat_of_nonneg (Int.ediv_nonneg hn.1 (by omega))
  rw [hq]
  unfold Time.ns
  have h1 := Int.ediv_mul_le d.nsec (b := (p.scale : Int)) (by omega)
  have h2 := Int.lt_ediv_add_one_mul_self d.nsec hs
  constructor
  · omega
  · omega

/-! ### What the full claim lacks -/

/-- a line at a time -/
def at_ (file : Nat) (published : Bool) (sec : Int) : Line := ⟨file, published, { someEv with mono := ⟨sec, 0⟩ }⟩

/-- With a file for each process (-ff) the differences in a file are those since the line before in any of the files: two lines with five
seconds between them, and one second shown. -/
theorem rel_separate_wrong : ∃ (ls : List Line) (ds : List Time.Ts), Clock (monos ls) ∧ (∀ l ∈ ls, l.published = true) ∧
    diffs ⟨0, 0⟩ ls = some ds ∧ ¬ AddsUp (inFile 1 ls ds) := by
  refine ⟨[at_ 1 true 10, at_ 2 true 14, at_ 1 true 15], [⟨0, 0⟩, ⟨4, 0⟩, ⟨1, 0⟩], ?_, by decide +kernel, by decide +kernel, ?_⟩
  · simp [Clock, monos, at_, Time.Norm, Time.Fits, Time.ns]
  · rintro ⟨_, _, _, h, _⟩
    revert h
    decide +kernel

/-- With -z the differences shown are those since calls that are not shown. -/
theorem rel_dropped_wrong : ∃ (ls : List Line) (ds : List Time.Ts), Clock (monos ls) ∧ (∀ l ∈ ls, l.file = 1) ∧
    diffs ⟨0, 0⟩ ls = some ds ∧ ¬ AddsUp (inFile 1 ls ds) := by
  refine ⟨[at_ 1 true 10, at_ 1 false 14, at_ 1 true 15], [⟨0, 0⟩, ⟨4, 0⟩, ⟨1, 0⟩], ?_, by decide +kernel, by decide +kernel, ?_⟩
  · simp [Clock, monos, at_, Time.Norm, Time.Fits, Time.ns]
  · rintro ⟨_, _, _, h, _⟩
    revert h
    decide +kernel

/-- the hypotheses are met -/
example : Clock (monos [at_ 1 true 10, at_ 1 true 14, at_ 1 true 15]) ∧
    (∀ l ∈ [at_ 1 true 10, at_ 1 true 14, at_ 1 true 15], l.published = true ∧ l.file = 1) ∧
    diffs ⟨0, 0⟩ [at_ 1 true 10, at_ 1 true 14, at_ 1 true 15] = some [⟨0, 0⟩, ⟨4, 0⟩, ⟨1, 0⟩] := by
  refine ⟨?_, by decide +kernel, by decide +kernel⟩
  simp [Clock, monos, at_, Time.Norm, Time.Fits, Time.ns]

end Strace.Lead
