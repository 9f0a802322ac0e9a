import Verif.Misc.Rules
/-!
# C50: the values attached to injection rules
-/
namespace Strace.Misc

/-! ### specification -/

/-- the last rule that names a call -/
def lastRule (rs : List Rule) (call : Nat) : Option Rule := rs.reverse.find? fun r => call ∈ r.calls

/-- the error number, return value and delays given in a rule -/
def givenError (r : Rule) : Option Nat :=
  match r.toks.findSome? (fun t => match t with | .error n => some n | _ => none) with
  | some n => some n
  | none => if r.fault ∧ r.toks = [] then some 38 else none

def givenRetval (r : Rule) : Option Int :=
  r.toks.findSome? fun t => match t with | .retval v => some v | _ => none

def givenSignal (r : Rule) : Option Nat :=
  r.toks.findSome? fun t => match t with | .signal n => some n | _ => none

def givenDelay (e : Bool) (r : Rule) : Option Nat :=
  r.toks.findSome? fun t => match t with | .delay e' ns => if e' = e then some ns else none | _ => none

/-- the options answer with what a rule gives -/
def Answers (o : Opts) (t : Tables) (r : Rule) : Prop :=
  (∀ n, givenError r = some n → o.error = true ∧ retvalGet o.rvalIdx t.rv = .ok n) ∧
  (givenError r = none → o.error = false) ∧
  (∀ v, givenRetval r = some v → o.retval = true ∧ retvalGet o.rvalIdx t.rv = .ok v) ∧
  (givenRetval r = none → o.retval = false) ∧
  o.signal = givenSignal r ∧
  (∀ e ns, givenDelay e r = some ns → hasDelay e o = true ∧ getDelay o.delayIdx e t.dl = .ok ns) ∧
  (∀ e, givenDelay e r = none → hasDelay e o = false)

def isValueTok : Tok → Bool
  | .error _ => true
  | .retval _ => true
  | _ => false

def isSignalTok : Tok → Bool
  | .signal _ => true
  | _ => false

def isDelayTok (e : Bool) : Tok → Bool
  | .delay e' _ => e' == e
  | _ => false

/-- a rule strace accepts: at most one of `error=` and `retval=`, at most one of each other token, and some action -/
def Acceptable (r : Rule) : Prop :=
  (r.toks.filter isValueTok).length ≤ 1 ∧
  (r.toks.filter isSignalTok).length ≤ 1 ∧
  (∀ e, (r.toks.filter (isDelayTok e)).length ≤ 1) ∧
  (r.fault = true ∨ r.toks ≠ [])

/-- the number of rules with an error or return value -/
def valued (rs : List Rule) : Nat := (rs.filter fun r => (givenError r).isSome || (givenRetval r).isSome).length

/-- the number of rules with a delay -/
def delayed (rs : List Rule) : Nat := (rs.filter fun r => (givenDelay true r).isSome || (givenDelay false r).isSome).length

/-- nothing has been allocated -/
def Tables.empty : Tables := ⟨⟨[], 0⟩, ⟨[], 0⟩⟩

/-! ### the arrays -/

def Sound {α : Type} (a : Arena α) : Prop := a.size ≤ a.vec.length ∧ a.size ≤ 2 ^ 16

def Keeps {α : Type} (a b : Arena α) : Prop := a.size ≤ b.size ∧ ∀ i, i < a.size → b.vec[i]? = a.vec[i]?

theorem Keeps.refl {α : Type} (a : Arena α) : Keeps a a := ⟨Nat.le_refl _, fun _ _ => rfl⟩

theorem Keeps.trans {α : Type} {a b c : Arena α} (h1 : Keeps a b) (h2 : Keeps b c) : Keeps a c :=
  ⟨Nat.le_trans h1.1 h2.1, fun i hi => by rw [h2.2 i (by have := h1.1; omega), h1.2 i hi]⟩

theorem retvalGet_keeps (a b : Arena Int) (h : Keeps a b) (i : Nat) (v : Int) (hv : retvalGet i a = .ok v) :
    retvalGet i b = .ok v := by
  unfold retvalGet at hv ⊢
  by_cases hi : i ≥ a.size
  · rw [if_pos hi] at hv; cases hv
  · rw [if_neg hi] at hv
    have h1 := h.1
    rw [if_neg (by omega), h.2 i (by omega)]
    exact hv

theorem getDelay_keeps (a b : Arena Delays) (h : Keeps a b) (i : Nat) (e : Bool) (v : Nat)
    (hv : getDelay i e a = .ok v) : getDelay i e b = .ok v := by
  unfold getDelay at hv ⊢
  by_cases hi : i ≥ a.size
  · rw [if_pos hi] at hv; cases hv
  · rw [if_neg hi] at hv
    have h1 := h.1
    rw [if_neg (by omega), h.2 i (by omega)]
    exact hv

theorem expand_sound {α : Type} (grow : Nat → Nat) (hg : ∀ c, c < grow c) (z : α) (a : Arena α) (h : Sound a) :
    (expand grow z a).size = a.size ∧ a.size < (expand grow z a).vec.length ∧
      ∀ i, i < a.size → (expand grow z a).vec[i]? = a.vec[i]? := by
  unfold expand
  by_cases hs : a.size = a.vec.length
  · rw [if_pos hs]
    refine ⟨rfl, ?_, ?_⟩
    · have := hg a.vec.length
      simp only [List.length_append, List.length_replicate]
      omega
    · intro i hi
      exact List.getElem?_append_left (by omega)
  · rw [if_neg hs]
    have := h.1
    exact ⟨rfl, by omega, fun _ _ => rfl⟩

theorem retvalNew_spec (grow : Nat → Nat) (hg : ∀ c, c < grow c) (v : Int) (a : Arena Int) (h : Sound a) :
    (a.size = 2 ^ 16 ∧ retvalNew grow v a = .die) ∨
    (a.size < 2 ^ 16 ∧ ∃ b, retvalNew grow v a = .ok (a.size, b) ∧ Sound b ∧ Keeps a b ∧ b.size = a.size + 1 ∧
      retvalGet a.size b = .ok v) := by
  have h2 := h.2
  rcases Nat.lt_or_eq_of_le h2 with hl | he
  · right
    refine ⟨hl, ?_⟩
    have hm : a.size % 2 ^ 16 = a.size := Nat.mod_eq_of_lt hl
    obtain ⟨e1, e2, e3⟩ := expand_sound grow hg 0 a h
    refine ⟨⟨(expand grow 0 a).vec.set a.size v, a.size + 1⟩, ?_, ?_, ?_, rfl, ?_⟩
    · unfold retvalNew
      simp only [hm]
      rw [if_neg (by omega), if_pos e2, e1]
    · refine ⟨?_, by show a.size + 1 ≤ 2 ^ 16; omega⟩
      show a.size + 1 ≤ ((expand grow 0 a).vec.set a.size v).length
      rw [List.length_set]
      omega
    · refine ⟨by show a.size ≤ a.size + 1; omega, ?_⟩
      intro i hi
      show ((expand grow 0 a).vec.set a.size v)[i]? = _
      rw [List.getElem?_set_ne (by omega), e3 i hi]
    · unfold retvalGet
      rw [if_neg (by show ¬ a.size ≥ a.size + 1; omega)]
      show (match ((expand grow 0 a).vec.set a.size v)[a.size]? with | some v => Res.ok v | none => .bad) = _
      rw [List.getElem?_set_self e2]
  · left
    refine ⟨he, ?_⟩
    unfold retvalNew
    simp only [he]
    rfl

theorem allocDelay_spec (grow : Nat → Nat) (hg : ∀ c, c < grow c) (a : Arena Delays) (h : Sound a) :
    (a.size = 2 ^ 16 ∧ allocDelay grow a = .die) ∨
    (a.size < 2 ^ 16 ∧ ∃ b, allocDelay grow a = .ok (a.size, b) ∧ Sound b ∧ Keeps a b ∧ b.size = a.size + 1) := by
  have h2 := h.2
  rcases Nat.lt_or_eq_of_le h2 with hl | he
  · right
    refine ⟨hl, ?_⟩
    have hm : a.size % 2 ^ 16 = a.size := Nat.mod_eq_of_lt hl
    obtain ⟨e1, e2, e3⟩ := expand_sound grow hg ⟨0, 0⟩ a h
    refine ⟨⟨(expand grow ⟨0, 0⟩ a).vec, a.size + 1⟩, ?_, ⟨by show a.size + 1 ≤ _; exact e2, by show a.size + 1 ≤ 2 ^ 16; omega⟩,
      ⟨by show a.size ≤ a.size + 1; omega, e3⟩, rfl⟩
    unfold allocDelay
    simp only [hm]
    rw [if_neg (by omega), e1]
  · left
    refine ⟨he, ?_⟩
    unfold allocDelay
    simp only [he]
    rfl

theorem fillDelay_spec (idx val : Nat) (e : Bool) (a : Arena Delays) (h : Sound a) (hi : idx < a.size) :
    ∃ b, fillDelay idx val e a = .ok b ∧ Sound b ∧ b.size = a.size ∧ (∀ i, i ≠ idx → b.vec[i]? = a.vec[i]?) ∧
      getDelay idx e b = .ok val ∧ getDelay idx (!e) b = getDelay idx (!e) a := by
  have h1 := h.1
  have hv : idx < a.vec.length := by omega
  refine ⟨{ a with vec := a.vec.set idx (setDelay e val a.vec[idx]) }, ?_, ?_, rfl, ?_, ?_, ?_⟩
  · unfold fillDelay
    rw [if_neg (by omega), List.getElem?_eq_getElem hv]
  · refine ⟨?_, h.2⟩
    show a.size ≤ (a.vec.set idx _).length
    rw [List.length_set]
    exact h1
  · intro i hne
    exact List.getElem?_set_ne (fun h => hne h.symm)
  · unfold getDelay
    rw [if_neg (by show ¬ idx ≥ a.size; omega)]
    show (match (a.vec.set idx (setDelay e val a.vec[idx]))[idx]? with
      | some d => Res.ok (if e then d.enter else d.exit) | none => .bad) = _
    rw [List.getElem?_set_self hv]
    cases e <;> rfl
  · unfold getDelay
    rw [if_neg (by show ¬ idx ≥ a.size; omega), if_neg (by omega)]
    show (match (a.vec.set idx (setDelay e val a.vec[idx]))[idx]? with
      | some d => Res.ok (if !e then d.enter else d.exit) | none => .bad) = _
    rw [List.getElem?_set_self hv, List.getElem?_eq_getElem hv]
    cases e <;> rfl

/-! ### one rule -/

def fe (ts : List Tok) : Option Nat := ts.findSome? fun t => match t with | .error n => some n | _ => none
def fr (ts : List Tok) : Option Int := ts.findSome? fun t => match t with | .retval v => some v | _ => none
def fs (ts : List Tok) : Option Nat := ts.findSome? fun t => match t with | .signal n => some n | _ => none
def fd (e : Bool) (ts : List Tok) : Option Nat :=
  ts.findSome? fun t => match t with | .delay e' ns => if e' = e then some ns else none | _ => none

/-- what holds after the tokens `done` of a rule, begun with the tables `t0` -/
structure Inv (t0 : Tables) (done : List Tok) (o : Opts) (t : Tables) : Prop where
  srv : Sound t.rv
  sdl : Sound t.dl
  krv : Keeps t0.rv t.rv
  kdl : Keeps t0.dl t.dl
  err : o.error = (fe done).isSome
  errv : ∀ n, fe done = some n → retvalGet o.rvalIdx t.rv = .ok n
  ret : o.retval = (fr done).isSome
  retv : ∀ v, fr done = some v → retvalGet o.rvalIdx t.rv = .ok v
  one : fe done = none ∨ fr done = none
  sig : o.signal = fs done
  del : ∀ e, hasDelay e o = (fd e done).isSome
  delv : ∀ e ns, fd e done = some ns → getDelay o.delayIdx e t.dl = .ok ns
  own : o.delayIdx ≠ 0xffff → t0.dl.size ≤ o.delayIdx
  used : o.delayIdx ≠ 0xffff → ((fd true done).isSome || (fd false done).isSome) = true
  ffff : o.delayIdx = 0xffff → (∀ e, hasDelay e o = false) ∨ t.dl.size = 2 ^ 16
  rvn : t.rv.size = t0.rv.size + (if (fe done).isSome || (fr done).isSome then 1 else 0)
  dln : t.dl.size = t0.dl.size + (if (fd true done).isSome || (fd false done).isSome then 1 else 0)

/-- why a token is refused after the tokens `done` -/
def Refused (done : List Tok) (t : Tables) : Tok → Prop
  | .error _ => ((fe done).isSome || (fr done).isSome) = true ∨ t.rv.size = 2 ^ 16
  | .retval _ => ((fe done).isSome || (fr done).isSome) = true ∨ t.rv.size = 2 ^ 16
  | .signal _ => (fs done).isSome = true
  | .delay e _ => (fd e done).isSome = true ∨ t.dl.size = 2 ^ 16

theorem inv_start (t : Tables) (h1 : Sound t.rv) (h2 : Sound t.dl) : Inv t [] {} t :=
  { srv := h1, sdl := h2, krv := Keeps.refl _, kdl := Keeps.refl _, err := rfl, errv := (fun _ h => nomatch h), ret := rfl,
    retv := (fun _ h => nomatch h), one := .inl rfl, sig := rfl, del := fun e => by cases e <;> rfl,
    delv := (fun _ _ h => nomatch h), own := fun h => absurd rfl h, used := fun h => absurd rfl h,
    ffff := fun _ => .inl fun e => by cases e <;> rfl, rvn := rfl, dln := rfl }

theorem value_step (grow : Nat → Nat) (hg : ∀ c, c < grow c) (t0 : Tables) (done : List Tok) (o : Opts) (t : Tables)
    (h : Inv t0 done o t) (v : Int) :
    (t.rv.size = 2 ^ 16 ∧ retvalNew grow v t.rv = .die) ∨
    ∃ b, retvalNew grow v t.rv = .ok (t.rv.size, b) ∧ Sound b ∧ Keeps t0.rv b ∧ b.size = t.rv.size + 1 ∧
      retvalGet t.rv.size b = .ok v := by
  rcases retvalNew_spec grow hg v t.rv h.srv with c | ⟨_, b, h1, h2, h3, h4, h5⟩
  · exact .inl c
  · exact .inr ⟨b, h1, h2, h.krv.trans h3, h4, h5⟩

theorem parseTok_inv (grow : Nat → Nat) (hg : ∀ c, c < grow c) (t0 : Tables) (done : List Tok) (o : Opts) (t : Tables)
    (h : Inv t0 done o t) (tok : Tok) :
    (parseTok grow tok o t = .die ∧ Refused done t tok) ∨
    ∃ r, parseTok grow tok o t = .ok r ∧ Inv t0 (done ++ [tok]) r.1 r.2 := by
  cases tok with
  | error n =>
    by_cases hf : (o.error || o.retval) = true
    · left
      refine ⟨by unfold parseTok; simp only [hf]; rfl, .inl ?_⟩
      rw [← h.err, ← h.ret]; exact hf
    · have e1 : fe done = none := by
        have := h.err; cases hx : fe done with
        | none => rfl
        | some x => rw [hx] at this; rw [this] at hf; exact absurd rfl hf
      have e2 : fr done = none := by
        have := h.ret; cases hx : fr done with
        | none => rfl
        | some x => rw [hx] at this; rw [this] at hf; simp at hf
      rcases value_step grow hg t0 done o t h n with ⟨c1, c2⟩ | ⟨b, c1, c2, c3, c4, c5⟩
      · left
        refine ⟨?_, .inr c1⟩
        unfold parseTok
        simp only [hf, c2]; rfl
      · right
        have fe' : fe (done ++ [.error n]) = some n := by
          unfold fe at e1 ⊢; rw [List.findSome?_append, e1]; rfl
        have fr' : fr (done ++ [.error n]) = none := by
          unfold fr at e2 ⊢; rw [List.findSome?_append, e2]; rfl
        have fs' : fs (done ++ [.error n]) = fs done := by
          unfold fs; rw [List.findSome?_append]; simp
        have fd' : ∀ e, fd e (done ++ [.error n]) = fd e done := by
          intro e; unfold fd; rw [List.findSome?_append]; simp
        refine ⟨({ o with rvalIdx := t.rv.size, error := true }, { t with rv := b }), ?_, ?_⟩
        · unfold parseTok
          simp only [hf, c1]; rfl
        · constructor
          · exact c2
          · exact h.sdl
          · exact c3
          · exact h.kdl
          · rw [fe']; rfl
          · intro m hm; rw [fe'] at hm; cases hm; exact c5
          · show o.retval = _; rw [fr', h.ret, e2]
          · intro m hm; rw [fr'] at hm; cases hm
          · exact .inr fr'
          · rw [fs']; exact h.sig
          · intro e; rw [fd']; exact h.del e
          · intro e ns; rw [fd']; exact h.delv e ns
          · exact h.own
          · rw [fd', fd']; exact h.used
          · exact h.ffff
          · rw [fe', fr']; show b.size = _; rw [c4, h.rvn, e1, e2]; rfl
          · rw [fd', fd']; exact h.dln
  | retval v =>
    by_cases hf : (o.error || o.retval) = true
    · left
      refine ⟨by unfold parseTok; simp only [hf]; rfl, .inl ?_⟩
      rw [← h.err, ← h.ret]; exact hf
    · have e1 : fe done = none := by
        have := h.err; cases hx : fe done with
        | none => rfl
        | some x => rw [hx] at this; rw [this] at hf; exact absurd rfl hf
      have e2 : fr done = none := by
        have := h.ret; cases hx : fr done with
        | none => rfl
        | some x => rw [hx] at this; rw [this] at hf; simp at hf
      rcases value_step grow hg t0 done o t h v with ⟨c1, c2⟩ | ⟨b, c1, c2, c3, c4, c5⟩
      · left
        refine ⟨?_, .inr c1⟩
        unfold parseTok
        simp only [hf, c2]; rfl
      · right
        have fr' : fr (done ++ [.retval v]) = some v := by
          unfold fr at e2 ⊢; rw [List.findSome?_append, e2]; rfl
        have fe' : fe (done ++ [.retval v]) = none := by
          unfold fe at e1 ⊢; rw [List.findSome?_append, e1]; rfl
        have fs' : fs (done ++ [.retval v]) = fs done := by
          unfold fs; rw [List.findSome?_append]; simp
        have fd' : ∀ e, fd e (done ++ [.retval v]) = fd e done := by
          intro e; unfold fd; rw [List.findSome?_append]; simp
        refine ⟨({ o with rvalIdx := t.rv.size, retval := true }, { t with rv := b }), ?_, ?_⟩
        · unfold parseTok
          simp only [hf, c1]; rfl
        · constructor
          · exact c2
          · exact h.sdl
          · exact c3
          · exact h.kdl
          · show o.error = _; rw [fe', h.err, e1]
          · intro m hm; rw [fe'] at hm; cases hm
          · rw [fr']; rfl
          · intro m hm; rw [fr'] at hm; cases hm; exact c5
          · exact .inl fe'
          · rw [fs']; exact h.sig
          · intro e; rw [fd']; exact h.del e
          · intro e ns; rw [fd']; exact h.delv e ns
          · exact h.own
          · rw [fd', fd']; exact h.used
          · exact h.ffff
          · rw [fe', fr']; show b.size = _; rw [c4, h.rvn, e1, e2]; rfl
          · rw [fd', fd']; exact h.dln
  | signal n =>
    by_cases hf : o.signal.isSome = true
    · left
      refine ⟨by unfold parseTok; simp only [hf]; rfl, ?_⟩
      show (fs done).isSome = true
      rw [← h.sig]; exact hf
    · right
      have e1 : fs done = none := by
        rw [← h.sig]; cases hx : o.signal with
        | none => rfl
        | some x => rw [hx] at hf; exact absurd rfl hf
      have fe' : fe (done ++ [.signal n]) = fe done := by
        unfold fe; rw [List.findSome?_append]; simp
      have fr' : fr (done ++ [.signal n]) = fr done := by
        unfold fr; rw [List.findSome?_append]; simp
      have fs' : fs (done ++ [.signal n]) = some n := by
        unfold fs at e1 ⊢; rw [List.findSome?_append, e1]; rfl
      have fd' : ∀ e, fd e (done ++ [.signal n]) = fd e done := by
        intro e; unfold fd; rw [List.findSome?_append]; simp
      refine ⟨({ o with signal := some n }, t), ?_, ?_⟩
      · unfold parseTok
        simp only [hf]; rfl
      · constructor
        · exact h.srv
        · exact h.sdl
        · exact h.krv
        · exact h.kdl
        · rw [fe']; exact h.err
        · rw [fe']; exact h.errv
        · rw [fr']; exact h.ret
        · rw [fr']; exact h.retv
        · rw [fe', fr']; exact h.one
        · rw [fs']
        · intro e; rw [fd']; exact h.del e
        · intro e ns; rw [fd']; exact h.delv e ns
        · exact h.own
        · rw [fd', fd']; exact h.used
        · exact h.ffff
        · rw [fe', fr']; exact h.rvn
        · rw [fd', fd']; exact h.dln
  | delay e ns =>
    by_cases hf : hasDelay e o = true
    · left
      refine ⟨by unfold parseTok; simp only [hf]; rfl, .inl ?_⟩
      rw [← h.del]; exact hf
    · have e1 : fd e done = none := by
        have := h.del e
        cases hx : fd e done with
        | none => rfl
        | some x => rw [hx] at this; exact absurd this hf
      have fe' : fe (done ++ [.delay e ns]) = fe done := by
        unfold fe; rw [List.findSome?_append]; simp
      have fr' : fr (done ++ [.delay e ns]) = fr done := by
        unfold fr; rw [List.findSome?_append]; simp
      have fs' : fs (done ++ [.delay e ns]) = fs done := by
        unfold fs; rw [List.findSome?_append]; simp
      have fd1 : fd e (done ++ [.delay e ns]) = some ns := by
        unfold fd at e1 ⊢; rw [List.findSome?_append, e1]; simp
      have fd2 : fd (!e) (done ++ [.delay e ns]) = fd (!e) done := by
        unfold fd; rw [List.findSome?_append]; cases e <;> simp
      have someNow : ((fd true (done ++ [.delay e ns])).isSome || (fd false (done ++ [.delay e ns])).isSome) = true := by
        cases e
        · rw [fd1]; simp
        · rw [fd1]; simp
      -- the index in use
      have step : (delayIndex grow o t = .die ∧ t.dl.size = 2 ^ 16) ∨
          ∃ i d, delayIndex grow o t = .ok ({ o with delayIdx := i }, { t with dl := d }) ∧ Sound d ∧ Keeps t0.dl d ∧
            t0.dl.size ≤ i ∧ i < d.size ∧ (i = 0xffff → d.size = 2 ^ 16) ∧
            (∀ m, fd (!e) done = some m → getDelay i (!e) d = .ok m) ∧ d.size = t0.dl.size + 1 := by
        unfold delayIndex
        by_cases hi : o.delayIdx = 0xffff
        · rw [if_pos hi]
          rcases allocDelay_spec grow hg t.dl h.sdl with ⟨a1, a2⟩ | ⟨a0, d, a1, a2, a3, a4⟩
          · left
            exact ⟨by rw [a2]; rfl, a1⟩
          · right
            have none2 : ∀ x, fd x done = none := by
              intro x
              rcases h.ffff hi with hh | hh
              · have := h.del x
                rw [hh x] at this
                cases hx : fd x done with
                | none => rfl
                | some y => rw [hx] at this; cases this
              · omega
            have hsz : t.dl.size = t0.dl.size := by
              rw [h.dln, none2, none2]; rfl
            refine ⟨t.dl.size, d, by rw [a1]; rfl, a2, h.kdl.trans a3, by omega, by omega, by omega, ?_, by omega⟩
            intro m hm
            rw [none2] at hm
            cases hm
        · rw [if_neg hi]
          right
          have hu := h.used hi
          have other : ∃ m, fd (!e) done = some m := by
            cases hx : fd (!e) done with
            | some m => exact ⟨m, rfl⟩
            | none => cases e <;> simp_all
          obtain ⟨m, hm⟩ := other
          have hgd := h.delv _ _ hm
          have hlt : o.delayIdx < t.dl.size := by
            unfold getDelay at hgd
            by_cases hc : o.delayIdx ≥ t.dl.size
            · rw [if_pos hc] at hgd; cases hgd
            · omega
          refine ⟨o.delayIdx, t.dl, rfl, h.sdl, h.kdl, h.own hi, hlt, fun hc => absurd hc hi, ?_, ?_⟩
          · intro m' hm'
            exact h.delv _ _ hm'
          · rw [h.dln, hu]; rfl
      rcases step with ⟨s1, s2⟩ | ⟨i, d, s1, s2, s3, s4, s5, s6, s7, s8⟩
      · left
        refine ⟨?_, .inr s2⟩
        unfold parseTok
        simp only [hf, s1]; rfl
      · right
        obtain ⟨b, f1, f2, f3, f4, f5, f6⟩ := fillDelay_spec i ns e d s2 s5
        refine ⟨(flagDelay e { o with delayIdx := i }, { t with dl := b }), ?_, ?_⟩
        · unfold parseTok
          simp only [hf, s1, Res.bind, f1]; rfl
        · have hfl : ∀ x, hasDelay x (flagDelay e { o with delayIdx := i }) = if x = e then true else hasDelay x o := by
            intro x; cases x <;> cases e <;> rfl
          have hix : (flagDelay e { o with delayIdx := i }).delayIdx = i := by cases e <;> rfl
          have hrx : (flagDelay e { o with delayIdx := i }).rvalIdx = o.rvalIdx := by cases e <;> rfl
          have hex : (flagDelay e { o with delayIdx := i }).error = o.error := by cases e <;> rfl
          have hrt : (flagDelay e { o with delayIdx := i }).retval = o.retval := by cases e <;> rfl
          have hsg : (flagDelay e { o with delayIdx := i }).signal = o.signal := by cases e <;> rfl
          constructor
          · exact h.srv
          · exact f2
          · exact h.krv
          · refine ⟨by show t0.dl.size ≤ b.size; omega, ?_⟩
            intro j hj
            show b.vec[j]? = _
            rw [f4 j (by omega), s3.2 j hj]
          · rw [hex, fe']; exact h.err
          · rw [hrx, fe']; exact h.errv
          · rw [hrt, fr']; exact h.ret
          · rw [hrx, fr']; exact h.retv
          · rw [fe', fr']; exact h.one
          · rw [hsg, fs']; exact h.sig
          · intro x
            rw [hfl]
            by_cases hx : x = e
            · subst hx; rw [fd1, if_pos rfl]; rfl
            · have : x = !e := by cases x <;> cases e <;> simp_all
              subst this
              rw [if_neg hx, fd2]; exact h.del _
          · intro x m hm
            rw [hix]
            by_cases hx : x = e
            · subst hx; rw [fd1] at hm; cases hm; exact f5
            · have : x = !e := by cases x <;> cases e <;> simp_all
              subst this
              rw [fd2] at hm
              show getDelay i (!e) b = _
              rw [f6]; exact s7 m hm
          · intro _; rw [hix]; exact s4
          · intro _; exact someNow
          · intro hc
            rw [hix] at hc
            right
            show b.size = _
            rw [f3]; exact s6 hc
          · rw [fe', fr']; exact h.rvn
          · rw [someNow]
            show b.size = _
            rw [f3, s8]; rfl

theorem parseToks_inv (grow : Nat → Nat) (hg : ∀ c, c < grow c) (t0 : Tables) : ∀ (toks done : List Tok) (o : Opts) (t : Tables),
    Inv t0 done o t →
    (parseToks grow toks o t = .die ∧ ∃ pre tok post o' t', toks = pre ++ tok :: post ∧ Inv t0 (done ++ pre) o' t' ∧
      Refused (done ++ pre) t' tok) ∨
    ∃ r, parseToks grow toks o t = .ok r ∧ Inv t0 (done ++ toks) r.1 r.2 := by
  intro toks
  induction toks with
  | nil =>
    intro done o t h
    right
    exact ⟨(o, t), rfl, by rw [List.append_nil]; exact h⟩
  | cons tok toks ih =>
    intro done o t h
    rcases parseTok_inv grow hg t0 done o t h tok with ⟨d1, d2⟩ | ⟨r, r1, r2⟩
    · left
      refine ⟨by show (parseTok grow tok o t).bind _ = _; rw [d1]; rfl, [], tok, toks, o, t, rfl, ?_, ?_⟩
      · rw [List.append_nil]; exact h
      · rw [List.append_nil]; exact d2
    · have e : parseToks grow (tok :: toks) o t = parseToks grow toks r.1 r.2 := by
        show (parseTok grow tok o t).bind _ = _; rw [r1]; rfl
      rw [e]
      rcases ih (done ++ [tok]) r.1 r.2 r2 with ⟨d1, pre, tk, post, o', t', h1, h2, h3⟩ | ⟨q, q1, q2⟩
      · left
        refine ⟨d1, tok :: pre, tk, post, o', t', by rw [h1]; rfl, ?_, ?_⟩
        · rw [List.append_assoc] at h2; exact h2
        · rw [List.append_assoc] at h3; exact h3
      · right
        refine ⟨q, q1, ?_⟩
        rw [List.append_assoc] at q2; exact q2

theorem found_filter {β : Type} (f : Tok → Option β) (p : Tok → Bool) (hp : ∀ t, (f t).isSome = true → p t = true)
    (pre : List Tok) (tok : Tok) (post : List Tok) (h1 : (pre.findSome? f).isSome = true) (h2 : p tok = true) :
    2 ≤ ((pre ++ tok :: post).filter p).length := by
  obtain ⟨b, hb⟩ := Option.isSome_iff_exists.mp h1
  obtain ⟨a, ha, hab⟩ := List.exists_of_findSome?_eq_some hb
  have hpa := hp a (by rw [hab]; rfl)
  have : 0 < (pre.filter p).length := List.length_pos_iff_exists_mem.mpr ⟨a, List.mem_filter.mpr ⟨ha, hpa⟩⟩
  rw [List.filter_append, List.length_append, List.filter_cons_of_pos h2, List.length_cons]
  omega

theorem refused_reason (t0 : Tables) (r : Rule) (pre : List Tok) (tok : Tok) (post : List Tok) (o : Opts) (t : Tables)
    (hr : r.toks = pre ++ tok :: post) (hi : Inv t0 pre o t) (h : Refused pre t tok) (ha : Acceptable r) :
    2 ^ 16 ≤ t0.rv.size + 1 ∨ 2 ^ 16 ≤ t0.dl.size + 1 := by
  obtain ⟨a1, a2, a3, _⟩ := ha
  rw [hr] at a1 a2 a3
  have hrv := hi.rvn
  have hdl := hi.dln
  have key : ((fe pre).isSome || (fr pre).isSome) = true →
      isValueTok tok = true → False := by
    intro hc ht
    rcases Bool.or_eq_true_iff.mp hc with hh | hh
    · have := found_filter _ isValueTok (fun x hx => by cases x <;> first | rfl | (simp at hx)) pre tok post hh ht
      omega
    · have := found_filter _ isValueTok (fun x hx => by cases x <;> first | rfl | (simp at hx)) pre tok post hh ht
      omega
  cases tok with
  | error n =>
    rcases h with h | h
    · exact (key h rfl).elim
    · left; split at hrv <;> omega
  | retval v =>
    rcases h with h | h
    · exact (key h rfl).elim
    · left; split at hrv <;> omega
  | signal n =>
    have := found_filter _ isSignalTok (fun x hx => by cases x <;> first | rfl | (simp at hx)) pre (.signal n) post h rfl
    have h2 := Nat.le_trans this a2
    omega
  | delay e ns =>
    rcases h with h | h
    · have := found_filter _ (isDelayTok e)
        (fun x hx => by
          cases x with
          | delay e' m => by_cases he : e' = e <;> simp_all [isDelayTok]
          | _ => simp at hx) pre (.delay e ns) post h (by simp [isDelayTok])
      have h2 := Nat.le_trans this (a3 e)
      omega
    · right; split at hdl <;> omega

/-! ### the whole command line -/

def hasValue (r : Rule) : Bool := (givenError r).isSome || (givenRetval r).isSome
def hasDelays (r : Rule) : Bool := (givenDelay true r).isSome || (givenDelay false r).isSome

def one (b : Bool) : Nat := if b then 1 else 0

theorem givenError_eq (r : Rule) :
    givenError r = match fe r.toks with | some n => some n | none => if r.fault ∧ r.toks = [] then some 38 else none := rfl

theorem no_tokens (ts : List Tok) (h1 : fe ts = none) (h2 : fr ts = none) (h3 : fs ts = none) (h4 : ∀ e, fd e ts = none) :
    ts = [] := by
  cases ts with
  | nil => rfl
  | cons t ts =>
    cases t with
    | error n => cases h1
    | retval n => cases h2
    | signal n => cases h3
    | delay e n =>
      have := h4 e
      unfold fd at this
      rw [List.findSome?_cons] at this
      simp at this

theorem parseRule_spec (grow : Nat → Nat) (hg : ∀ c, c < grow c) (r : Rule) (t : Tables) (h1 : Sound t.rv) (h2 : Sound t.dl) :
    (parseRule grow r t = .die ∧ (Acceptable r → 2 ^ 16 ≤ t.rv.size + 1 ∨ 2 ^ 16 ≤ t.dl.size + 1)) ∨
    ∃ ot, parseRule grow r t = .ok ot ∧ Sound ot.2.rv ∧ Sound ot.2.dl ∧ Keeps t.rv ot.2.rv ∧ Keeps t.dl ot.2.dl ∧
      Answers ot.1 ot.2 r ∧ ot.2.rv.size = t.rv.size + one (hasValue r) ∧ ot.2.dl.size = t.dl.size + one (hasDelays r) := by
  rcases parseToks_inv grow hg t r.toks [] {} t (inv_start t h1 h2) with ⟨d, pre, tok, post, o', t', e1, e2, e3⟩ | ⟨ot, d, hi⟩
  · left
    refine ⟨by unfold parseRule; rw [d]; rfl, fun ha => ?_⟩
    exact refused_reason t r pre tok post o' t' e1 e2 e3 ha
  · rw [List.nil_append] at hi
    by_cases hn : noAction ot.1 = true
    · have hno : ot.1.error = false ∧ ot.1.retval = false ∧ ot.1.delayEnter = false ∧ ot.1.delayExit = false ∧
          ot.1.signal.isSome = false := by
        unfold noAction at hn
        revert hn
        cases ot.1.error <;> cases ot.1.retval <;> cases ot.1.delayEnter <;> cases ot.1.delayExit <;>
          cases ot.1.signal.isSome <;> simp
      have q1 : fe r.toks = none := by
        have := hi.err; rw [hno.1] at this
        cases hx : fe r.toks with
        | none => rfl
        | some x => rw [hx] at this; cases this
      have q2 : fr r.toks = none := by
        have := hi.ret; rw [hno.2.1] at this
        cases hx : fr r.toks with
        | none => rfl
        | some x => rw [hx] at this; cases this
      have q3 : fs r.toks = none := by
        have h5 := hno.2.2.2.2; rw [hi.sig] at h5
        cases hx : fs r.toks with
        | none => rfl
        | some x => rw [hx] at h5; cases h5
      have q4 : ∀ e, fd e r.toks = none := by
        intro e
        have := hi.del e
        cases hx : fd e r.toks with
        | none => rfl
        | some x =>
          rw [hx] at this
          cases e
          · rw [show hasDelay false ot.1 = ot.1.delayExit from rfl, hno.2.2.2.1] at this; cases this
          · rw [show hasDelay true ot.1 = ot.1.delayEnter from rfl, hno.2.2.1] at this; cases this
      have q5 : r.toks = [] := no_tokens r.toks q1 q2 q3 q4
      by_cases hf : r.fault = true
      · rcases value_step grow hg t r.toks ot.1 ot.2 hi 38 with ⟨c1, c2⟩ | ⟨b, c1, c2, c3, c4, c5⟩
        · left
          refine ⟨?_, fun _ => .inl ?_⟩
          · unfold parseRule
            rw [d]
            simp only [Res.bind, hn, hf, c2]; rfl
          · have := hi.rvn
            rw [q1, q2] at this
            have h0 : one (((none : Option Nat).isSome || (none : Option Int).isSome)) = 0 := rfl
            simp at this
            omega
        · right
          have ge : givenError r = some 38 := by rw [givenError_eq, q1]; simp [hf, q5]
          have gr : givenRetval r = none := q2
          have gs : givenSignal r = none := q3
          have gd : ∀ e, givenDelay e r = none := q4
          have hrv := hi.rvn
          have hdl := hi.dln
          rw [q1, q2] at hrv
          rw [q4, q4] at hdl
          refine ⟨({ ot.1 with rvalIdx := ot.2.rv.size, error := true }, { ot.2 with rv := b }), ?_, c2, hi.sdl, c3, hi.kdl, ?_, ?_, ?_⟩
          · unfold parseRule
            rw [d]
            simp only [Res.bind, hn, hf, c1]; rfl
          · refine ⟨?_, ?_, ?_, ?_, ?_, ?_, ?_⟩
            · intro n h; rw [ge] at h; cases h; exact ⟨rfl, c5⟩
            · intro h; rw [ge] at h; cases h
            · intro n h; rw [gr] at h; cases h
            · intro _; exact hno.2.1
            · show ot.1.signal = _; rw [hi.sig, gs, q3]
            · intro e ns h; rw [gd] at h; cases h
            · intro e _
              cases e
              · exact hno.2.2.2.1
              · exact hno.2.2.1
          · unfold hasValue one; rw [ge]
            show b.size = _
            simp at hrv ⊢
            omega
          · unfold hasDelays one; rw [gd, gd]
            exact hdl
      · left
        have hf' : r.fault = false := by simpa using hf
        refine ⟨?_, fun ha => ?_⟩
        · unfold parseRule
          rw [d]
          simp only [Res.bind, hn, hf']; rfl
        · rcases ha.2.2.2 with hh | hh
          · exact absurd hh hf
          · exact absurd q5 hh
    · right
      have hn' : noAction ot.1 = false := by simpa using hn
      have hne : r.toks ≠ [] := by
        intro hc
        rw [hc] at hi
        have a1 := hi.err
        have a2 := hi.ret
        have a3 := hi.sig
        have a4 := hi.del true
        have a5 := hi.del false
        have : noAction ot.1 = true := by
          unfold noAction
          rw [a1, a2, a3, show ot.1.delayEnter = hasDelay true ot.1 from rfl, show ot.1.delayExit = hasDelay false ot.1 from rfl,
            a4, a5]
          rfl
        exact hn this
      have ge : givenError r = fe r.toks := by
        rw [givenError_eq]
        cases fe r.toks with
        | some n => rfl
        | none => simp [hne]
      refine ⟨ot, ?_, hi.srv, hi.sdl, hi.krv, hi.kdl, ?_, ?_, ?_⟩
      · unfold parseRule
        rw [d]
        simp only [Res.bind, hn']; rfl
      · refine ⟨?_, ?_, ?_, ?_, hi.sig, ?_, ?_⟩
        · intro n h; rw [ge] at h
          exact ⟨by rw [hi.err, h]; rfl, hi.errv n h⟩
        · intro h; rw [ge] at h; rw [hi.err, h]; rfl
        · intro v h
          exact ⟨by rw [hi.ret, show fr r.toks = some v from h]; rfl, hi.retv v h⟩
        · intro h; rw [hi.ret, show fr r.toks = none from h]; rfl
        · intro e ns h
          exact ⟨by rw [hi.del, show fd e r.toks = some ns from h]; rfl, hi.delv e ns h⟩
        · intro e h; rw [hi.del, show fd e r.toks = none from h]; rfl
      · unfold hasValue one; rw [ge]; exact hi.rvn
      · exact hi.dln

theorem answers_keeps (o : Opts) (t t' : Tables) (r : Rule) (h1 : Keeps t.rv t'.rv) (h2 : Keeps t.dl t'.dl)
    (h : Answers o t r) : Answers o t' r := by
  obtain ⟨a1, a2, a3, a4, a5, a6, a7⟩ := h
  refine ⟨?_, a2, ?_, a4, a5, ?_, a7⟩
  · intro n hn
    exact ⟨(a1 n hn).1, retvalGet_keeps _ _ h1 _ _ (a1 n hn).2⟩
  · intro n hn
    exact ⟨(a3 n hn).1, retvalGet_keeps _ _ h1 _ _ (a3 n hn).2⟩
  · intro e n hn
    exact ⟨(a6 e n hn).1, getDelay_keeps _ _ h2 _ _ _ (a6 e n hn).2⟩

/-- the options attached to the calls answer with the last rules -/
def Attached (inj : Nat → Option Opts) (t : Tables) (rs : List Rule) : Prop :=
  ∀ call, match lastRule rs call with
    | some r => ∃ o, inj call = some o ∧ Answers o t r
    | none => inj call = none

theorem lastRule_append (rs : List Rule) (r : Rule) (call : Nat) :
    lastRule (rs ++ [r]) call = if call ∈ r.calls then some r else lastRule rs call := by
  unfold lastRule
  rw [List.reverse_append, List.reverse_singleton, List.singleton_append, List.find?_cons]
  by_cases h : call ∈ r.calls
  · simp [h]
  · simp [h]

theorem attach_inv (inj : Nat → Option Opts) (t t' : Tables) (rs : List Rule) (r : Rule) (o : Opts)
    (h1 : Keeps t.rv t'.rv) (h2 : Keeps t.dl t'.dl) (ho : Answers o t' r) (h : Attached inj t rs) :
    Attached (attach r o inj) t' (rs ++ [r]) := by
  intro call
  rw [lastRule_append]
  unfold attach
  by_cases hc : call ∈ r.calls
  · rw [if_pos hc, if_pos hc]
    exact ⟨o, rfl, ho⟩
  · rw [if_neg hc, if_neg hc]
    have := h call
    cases hl : lastRule rs call with
    | none => rw [hl] at this; exact this
    | some q =>
      rw [hl] at this
      obtain ⟨p, p1, p2⟩ := this
      exact ⟨p, p1, answers_keeps _ _ _ _ h1 h2 p2⟩

theorem parseRules_spec (grow : Nat → Nat) (hg : ∀ c, c < grow c) : ∀ (rs ds : List Rule) (inj : Nat → Option Opts) (t : Tables),
    Sound t.rv → Sound t.dl → Attached inj t ds → t.rv.size ≤ ds.length → t.dl.size ≤ ds.length →
    (parseRules grow rs inj t = .die ∧ ((∀ r ∈ rs, Acceptable r) → 2 ^ 16 ≤ ds.length + rs.length)) ∨
    ∃ it, parseRules grow rs inj t = .ok it ∧ Attached it.1 it.2 (ds ++ rs) ∧ Sound it.2.rv ∧ Sound it.2.dl ∧
      it.2.rv.size = t.rv.size + valued rs ∧ it.2.dl.size = t.dl.size + delayed rs := by
  intro rs
  induction rs with
  | nil =>
    intro ds inj t h1 h2 h3 _ _
    right
    exact ⟨(inj, t), rfl, by rw [List.append_nil]; exact h3, h1, h2, rfl, rfl⟩
  | cons r rs ih =>
    intro ds inj t h1 h2 h3 l1 l2
    rcases parseRule_spec grow hg r t h1 h2 with ⟨d1, d2⟩ | ⟨ot, e1, e2, e3, e4, e5, e6, e7, e8⟩
    · left
      refine ⟨by show (parseRule grow r t).bind _ = _; rw [d1]; rfl, fun ha => ?_⟩
      have := d2 (ha r (by simp))
      rw [List.length_cons]
      omega
    · have e : parseRules grow (r :: rs) inj t = parseRules grow rs (attach r ot.1 inj) ot.2 := by
        show (parseRule grow r t).bind _ = _; rw [e1]; rfl
      rw [e]
      have o1 : one (hasValue r) ≤ 1 := by unfold one; split <;> omega
      have o2 : one (hasDelays r) ≤ 1 := by unfold one; split <;> omega
      have hlen : (ds ++ [r]).length = ds.length + 1 := by simp
      rcases ih (ds ++ [r]) (attach r ot.1 inj) ot.2 e2 e3 (attach_inv inj t ot.2 ds r ot.1 e4 e5 e6 h3)
        (by omega) (by omega) with ⟨d1, d2⟩ | ⟨it, q1, q2, q3, q4, q5, q6⟩
      · left
        refine ⟨d1, fun ha => ?_⟩
        have := d2 fun x hx => ha x (by simp [hx])
        rw [List.length_cons]
        omega
      · right
        refine ⟨it, q1, ?_, q3, q4, ?_, ?_⟩
        · rw [List.append_assoc] at q2; exact q2
        · rw [q5, e7]
          unfold valued
          rw [List.filter_cons]
          show t.rv.size + one (hasValue r) + _ = t.rv.size + (if hasValue r = true then (_ : List Rule) else _).length
          cases hasValue r
          · rfl
          · rw [if_pos rfl, List.length_cons]; show t.rv.size + 1 + _ = _; omega
        · rw [q6, e8]
          unfold delayed
          rw [List.filter_cons]
          show t.dl.size + one (hasDelays r) + _ = t.dl.size + (if hasDelays r = true then (_ : List Rule) else _).length
          cases hasDelays r
          · rfl
          · rw [if_pos rfl, List.length_cons]; show t.dl.size + 1 + _ = _; omega

/-- C50: however many rules are given, either strace reports an error, or every call gets the values of the last rule that
names it, and nothing if no rule does -/
theorem rules_kept (grow : Nat → Nat) (hg : ∀ c, c < grow c) (rs : List Rule) :
    parseRules grow rs (fun _ => none) .empty = .die ∨
    ∃ it, parseRules grow rs (fun _ => none) .empty = .ok it ∧
      ∀ call, match lastRule rs call with
        | some r => ∃ o, it.1 call = some o ∧ Answers o it.2 r
        | none => it.1 call = none := by
  have hs : Sound Tables.empty.rv := ⟨Nat.le_refl _, by decide⟩
  have hs2 : Sound Tables.empty.dl := ⟨Nat.le_refl _, by decide⟩
  rcases parseRules_spec grow hg rs [] (fun _ => none) .empty hs hs2 (fun _ => rfl) (Nat.le_refl _) (Nat.le_refl _) with
    ⟨d, _⟩ | ⟨it, e1, e2, _⟩
  · exact .inl d
  · exact .inr ⟨it, e1, e2⟩

/-- C50: fewer than 65536 acceptable rules are taken -/
theorem rules_taken (grow : Nat → Nat) (hg : ∀ c, c < grow c) (rs : List Rule) (ha : ∀ r ∈ rs, Acceptable r)
    (hl : rs.length < 2 ^ 16) : ∃ it, parseRules grow rs (fun _ => none) .empty = .ok it := by
  have hs : Sound Tables.empty.rv := ⟨Nat.le_refl _, by decide⟩
  have hs2 : Sound Tables.empty.dl := ⟨Nat.le_refl _, by decide⟩
  rcases parseRules_spec grow hg rs [] (fun _ => none) .empty hs hs2 (fun _ => rfl) (Nat.le_refl _) (Nat.le_refl _) with
    ⟨_, d⟩ | ⟨it, e1, _⟩
  · have := d ha
    rw [List.length_nil] at this
    omega
  · exact ⟨it, e1⟩

/-- C50: more than 65536 rules with a return value, or with a delay, are an error -/
theorem too_many_reported (grow : Nat → Nat) (hg : ∀ c, c < grow c) (rs : List Rule)
    (h : 2 ^ 16 < valued rs ∨ 2 ^ 16 < delayed rs) : parseRules grow rs (fun _ => none) .empty = .die := by
  have hs : Sound Tables.empty.rv := ⟨Nat.le_refl _, by decide⟩
  have hs2 : Sound Tables.empty.dl := ⟨Nat.le_refl _, by decide⟩
  rcases parseRules_spec grow hg rs [] (fun _ => none) .empty hs hs2 (fun _ => rfl) (Nat.le_refl _) (Nat.le_refl _) with
    ⟨d, _⟩ | ⟨it, e1, e2, e3, e4, e5, e6⟩
  · exact d
  · have a := e3.2
    have b := e4.2
    rw [e5] at a
    rw [e6] at b
    have z1 : Tables.empty.rv.size = 0 := rfl
    have z2 : Tables.empty.dl.size = 0 := rfl
    omega

/-- two rules for one call, the later one overriding; both delays in one entry -/
example : ∃ o t, parseRules (fun c => 2 * c + 2)
      [⟨[1, 2], false, [.error 5, .delay true 7, .delay false 9]⟩, ⟨[2], true, []⟩, ⟨[3], false, [.retval (-1)]⟩]
      (fun _ => none) .empty = .ok t ∧ t.1 1 = some o ∧ retvalGet o.rvalIdx t.2.rv = .ok 5 ∧
      getDelay o.delayIdx false t.2.dl = .ok 9 :=
  ⟨_, _, rfl, rfl, by decide, by decide⟩

end Strace.Misc
