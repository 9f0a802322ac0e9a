import Verif.Trie.Model
namespace Strace.Trie

/-! ### geometry -/

/-- what `create` accepts -/
structure Valid (g : Geo) : Prop where
  item : g.itemLg ≤ 6
  key : g.keySize ≤ 64
  node : 1 ≤ g.nodeBits
  data1 : 1 ≤ g.dataBits
  data2 : g.dataBits ≤ g.keySize

/-- key bits used by a node `r + 1` levels above the data blocks -/
def kb (g : Geo) (r : Nat) : Nat :=
  if r = 0 then (g.keySize - g.dataBits - 1) % g.nodeBits + 1 else g.nodeBits

/-- key bits told apart below a node `r` levels above the data blocks -/
def low (g : Geo) : Nat → Nat
  | 0 => g.dataBits
  | r + 1 => low g r + kb g r

theorem low_closed (g : Geo) (r : Nat) (hr : 0 < r) :
    low g r = g.dataBits + ((g.keySize - g.dataBits - 1) % g.nodeBits + 1) + (r - 1) * g.nodeBits := by
  induction r with
  | zero => omega
  | succ r ih =>
    rw [low]
    by_cases h : r = 0
    · subst h; simp [low, kb]
    · rw [ih (by omega), kb, if_neg h]
      obtain ⟨k, rfl⟩ : ∃ k, r = k + 1 := ⟨r - 1, by omega⟩
      simp only [Nat.add_sub_cancel]
      rw [Nat.add_mul, Nat.one_mul]
      omega

theorem nodeSize_eq (g : Geo) (r : Nat) (hr : r < maxDepth g) :
    nodeSize g (maxDepth g - (r + 1)) - ptrLg = kb g r := by
  unfold nodeSize kb
  rw [if_neg (by omega)]
  by_cases h : r = 0
  · rw [if_pos (by omega), if_pos h]; omega
  · rw [if_neg (by omega), if_neg h]; omega

theorem nodeBitOffs_eq (g : Geo) (r : Nat) (hr : r < maxDepth g) :
    nodeBitOffs g (maxDepth g - (r + 1)) = low g r := by
  unfold nodeBitOffs
  rw [if_neg (by omega)]
  by_cases h : r = 0
  · subst h; rw [if_pos (by omega)]; rfl
  · rw [if_neg (by omega), low_closed g r (by omega)]
    have := nodeSize_eq g 0 (by omega)
    simp only [Nat.zero_add] at this
    rw [this, kb, if_pos rfl, show maxDepth g - (maxDepth g - (r + 1)) - 2 = r - 1 from by omega]

theorem low_max (g : Geo) (hv : Valid g) : low g (maxDepth g) = g.keySize := by
  have hn := hv.node
  have hd := hv.data2
  by_cases h0 : g.keySize = g.dataBits
  · have : maxDepth g = 0 := by
      unfold maxDepth
      rw [h0, Nat.sub_self, Nat.zero_add]
      exact Nat.div_eq_of_lt (by omega)
    rw [this, low, h0]
  · have hm : maxDepth g = (g.keySize - g.dataBits - 1) / g.nodeBits + 1 := by
      unfold maxDepth
      rw [show g.keySize - g.dataBits + g.nodeBits - 1 = (g.keySize - g.dataBits - 1) + g.nodeBits from by omega,
        Nat.add_div_right _ (by omega)]
    rw [low_closed g _ (by rw [hm]; exact Nat.succ_pos _), hm, Nat.add_sub_cancel]
    have := Nat.mod_add_div (g.keySize - g.dataBits - 1) g.nodeBits
    rw [Nat.mul_comm] at this
    omega

theorem parentOffs_eq (g : Geo) (hv : Valid g) (r : Nat) (hr : r < maxDepth g) :
    parentOffs g (maxDepth g - (r + 1)) = low g (r + 1) := by
  unfold parentOffs
  by_cases h : r + 1 = maxDepth g
  · rw [if_pos (by omega), h, low_max g hv]
  · rw [if_neg (by omega), show maxDepth g - (r + 1) - 1 = maxDepth g - (r + 1 + 1) from by omega,
      nodeBitOffs_eq g (r + 1) (by omega)]

theorem childPos_eq (g : Geo) (r : Nat) (hr : r < maxDepth g) (key : Nat) :
    childPos g (maxDepth g - (r + 1)) key = key / 2 ^ low g r % 2 ^ kb g r := by
  unfold childPos
  rw [nodeBitOffs_eq g r hr, nodeSize_eq g r hr]

theorem childPos_lt (g : Geo) (r : Nat) (hr : r < maxDepth g) (key : Nat) :
    childPos g (maxDepth g - (r + 1)) key < nodePtrs g (maxDepth g - (r + 1)) := by
  rw [childPos_eq g r hr]
  have h1 := nodeSize_eq g r hr
  unfold nodePtrs
  have h2 : nodeSize g (maxDepth g - (r + 1)) = kb g r + 6 := by
    have : ptrLg ≤ nodeSize g (maxDepth g - (r + 1)) := by
      unfold nodeSize
      rw [if_neg (by omega)]
      split <;> omega
    unfold ptrLg at *
    omega
  rw [h2, Nat.pow_add]
  have := Nat.mod_lt (key / 2 ^ low g r) (Nat.two_pow_pos (kb g r))
  omega

/-- two keys of the same subtree share a child iff they agree on all bits above the child's -/
theorem same_child {a b L K : Nat} (h : a / 2 ^ (L + K) = b / 2 ^ (L + K)) :
    (a / 2 ^ L % 2 ^ K = b / 2 ^ L % 2 ^ K) ↔ a / 2 ^ L = b / 2 ^ L := by
  constructor
  · intro h2
    have ha := Nat.mod_add_div (a / 2 ^ L) (2 ^ K)
    have hb := Nat.mod_add_div (b / 2 ^ L) (2 ^ K)
    rw [Nat.div_div_eq_div_mul, ← Nat.pow_add] at ha hb
    rw [← ha, ← hb, h, h2]
  · intro h2; rw [h2]

/-! ### items within a data block -/

/-- bits of the word position computed for a key -/
theorem calcPos_spec (g : Geo) (hv : Valid g) (key : Nat) :
    (calcPos g key).1 = key % 2 ^ g.dataBits / 2 ^ (6 - g.itemLg) ∧
    (calcPos g key).2.2 = key % 2 ^ (6 - g.itemLg) * 2 ^ g.itemLg ∧
    (calcPos g key).2.2 + 2 ^ g.itemLg ≤ 64 ∧
    ∀ b, (calcPos g key).2.1.testBit b =
      (decide ((calcPos g key).2.2 ≤ b) && decide (b < (calcPos g key).2.2 + 2 ^ g.itemLg)) := by
  have hi := hv.item
  have hoff : key % 2 ^ (6 - g.itemLg) * 2 ^ g.itemLg + 2 ^ g.itemLg ≤ 64 := by
    have h1 := Nat.mod_lt key (Nat.two_pow_pos (6 - g.itemLg))
    have h2 : 2 ^ (6 - g.itemLg) * 2 ^ g.itemLg = 64 := by
      rw [← Nat.pow_add, Nat.sub_add_cancel hi]
    have h3 : (key % 2 ^ (6 - g.itemLg) + 1) * 2 ^ g.itemLg ≤ 2 ^ (6 - g.itemLg) * 2 ^ g.itemLg :=
      Nat.mul_le_mul_right _ h1
    rw [Nat.add_mul, Nat.one_mul, h2] at h3
    exact h3
  unfold calcPos
  by_cases h6 : g.itemLg = 6
  · rw [if_pos h6, h6]
    have hm1 : key % 1 = 0 := Nat.mod_one key
    refine ⟨rfl, by simp [hm1], Nat.le_refl 64, fun b => ?_⟩
    simp only [Nat.testBit_two_pow_sub_one]
    simp
  · rw [if_neg h6]
    refine ⟨rfl, rfl, hoff, fun b => ?_⟩
    simp only
    generalize key % 2 ^ (6 - g.itemLg) * 2 ^ g.itemLg = o at *
    generalize 2 ^ g.itemLg = n at *
    rw [Nat.testBit_mod_two_pow, Nat.mul_comm, Nat.testBit_two_pow_mul, Nat.testBit_two_pow_sub_one]
    by_cases h1 : o ≤ b
    · by_cases h2 : b < o + n
      · simp [h1, h2, show b < 64 from by omega, show b - o < n from by omega]
      · simp [h1, h2, show ¬ b - o < n from by omega]
    · simp [h1]

/-- one item of a word -/
def item (w o n : Nat) : Nat := w / 2 ^ o % 2 ^ n

theorem testBit_item (w o n j : Nat) : (item w o n).testBit j = (decide (j < n) && w.testBit (j + o)) := by
  unfold item
  rw [Nat.testBit_mod_two_pow, Nat.testBit_div_two_pow]

theorem maskedGet (w m o n : Nat) (hm : ∀ b, m.testBit b = (decide (o ≤ b) && decide (b < o + n))) :
    (w &&& m) / 2 ^ o = item w o n := by
  apply Nat.eq_of_testBit_eq
  intro j
  rw [Nat.testBit_div_two_pow, Nat.testBit_and, hm, testBit_item]
  by_cases h : j < n
  · simp [h, show j + o < o + n from by omega]
  · simp [h, show ¬ j + o < o + n from by omega]

theorem testBit_putWord (w m o n v b : Nat)
    (hm : ∀ b, m.testBit b = (decide (o ≤ b) && decide (b < o + n))) (hb : b < 64) :
    (putWord w m o v).testBit b = if o ≤ b ∧ b < o + n then v.testBit (b - o) else w.testBit b := by
  unfold putWord
  rw [Nat.testBit_or, Nat.testBit_and, Nat.testBit_and, Nat.testBit_xor, Nat.testBit_two_pow_sub_one, hm,
    Nat.testBit_mod_two_pow, Nat.mul_comm v, Nat.testBit_two_pow_mul]
  by_cases h1 : o ≤ b
  · by_cases h2 : b < o + n
    · simp [h1, h2, hb]
    · simp [h1, h2, hb]
  · simp [h1, hb]

/-- storing an item changes that item to the value cut to the item size -/
theorem item_put_same (w m o n v : Nat) (hn : o + n ≤ 64)
    (hm : ∀ b, m.testBit b = (decide (o ≤ b) && decide (b < o + n))) :
    item (putWord w m o v) o n = v % 2 ^ n := by
  apply Nat.eq_of_testBit_eq
  intro j
  rw [testBit_item, Nat.testBit_mod_two_pow]
  by_cases h : j < n
  · rw [testBit_putWord w m o n v _ hm (by omega), if_pos (by omega)]
    simp
  · simp [h]

/-- and no other item of the word -/
theorem item_put_other (w m o n v o' : Nat) (hn : o + n ≤ 64) (hn' : o' + n ≤ 64) (hdis : o + n ≤ o' ∨ o' + n ≤ o)
    (hm : ∀ b, m.testBit b = (decide (o ≤ b) && decide (b < o + n))) :
    item (putWord w m o v) o' n = item w o' n := by
  apply Nat.eq_of_testBit_eq
  intro j
  rw [testBit_item, testBit_item]
  by_cases h : j < n
  · rw [testBit_putWord w m o n v _ hm (by omega), if_neg (by omega)]
  · simp [h]

theorem putWord_lt (w m o n v : Nat) (hw : w < 2 ^ 64) (hn : o + n ≤ 64)
    (hm : ∀ b, m.testBit b = (decide (o ≤ b) && decide (b < o + n))) : putWord w m o v < 2 ^ 64 := by
  apply Nat.lt_pow_two_of_testBit
  intro b hb
  unfold putWord
  rw [Nat.testBit_or, Nat.testBit_and, Nat.testBit_and, hm,
    Nat.testBit_lt_two_pow (Nat.lt_of_lt_of_le hw (Nat.pow_le_pow_right (by omega) hb))]
  simp [show ¬ b < o + n from by omega]

/-- distinct keys of one block have distinct places -/
theorem place_inj (g : Geo) (a b : Nat) (hab : a / 2 ^ g.dataBits = b / 2 ^ g.dataBits)
    (hp : a % 2 ^ g.dataBits / 2 ^ (6 - g.itemLg) = b % 2 ^ g.dataBits / 2 ^ (6 - g.itemLg))
    (hs : a % 2 ^ (6 - g.itemLg) = b % 2 ^ (6 - g.itemLg)) : a = b := by
  have hm : a % 2 ^ g.dataBits = b % 2 ^ g.dataBits := by
    generalize 6 - g.itemLg = s at *
    by_cases hds : s ≤ g.dataBits
    · have hd : 2 ^ s ∣ 2 ^ g.dataBits := Nat.pow_dvd_pow 2 hds
      have h1 := Nat.mod_add_div (a % 2 ^ g.dataBits) (2 ^ s)
      have h2 := Nat.mod_add_div (b % 2 ^ g.dataBits) (2 ^ s)
      rw [Nat.mod_mod_of_dvd _ hd] at h1 h2
      rw [← h1, ← h2, hs, hp]
    · have hd : 2 ^ g.dataBits ∣ 2 ^ s := Nat.pow_dvd_pow 2 (by omega)
      rw [← Nat.mod_mod_of_dvd a hd, ← Nat.mod_mod_of_dvd b hd, hs]
  have h1 := Nat.mod_add_div a (2 ^ g.dataBits)
  have h2 := Nat.mod_add_div b (2 ^ g.dataBits)
  rw [← h1, ← h2, hm, hab]

theorem pos_lt (g : Geo) (key : Nat) :
    key % 2 ^ g.dataBits / 2 ^ (6 - g.itemLg) < blockWords g := by
  unfold blockWords
  have h := Nat.mod_lt key (Nat.two_pow_pos g.dataBits)
  rw [Nat.div_lt_iff_lt_mul (Nat.two_pow_pos _), ← Nat.pow_add]
  exact Nat.lt_of_lt_of_le h (Nat.pow_le_pow_right (by omega) (by omega))

/-! ### the fill value -/

theorem testBit_fillLoop (lg e : Nat) (n i f : Nat) (hni : n + i + lg ≤ 6)
    (hf : ∀ b, f.testBit b = (decide (b < 2 ^ (lg + i)) && e.testBit (b % 2 ^ lg))) (b : Nat) :
    (fillLoop lg n i f).testBit b = (decide (b < 2 ^ (lg + (n + i))) && e.testBit (b % 2 ^ lg)) := by
  induction n generalizing i f with
  | zero => simpa [fillLoop] using hf b
  | succ n ih =>
    rw [fillLoop, show n + 1 + i = n + (i + 1) from by omega]
    apply ih (i + 1) _ (by omega)
    intro b
    rw [Nat.testBit_or, Nat.testBit_mod_two_pow, Nat.mul_comm, Nat.testBit_two_pow_mul, hf, hf]
    have hp : 2 ^ (lg + (i + 1)) = 2 ^ (lg + i) + 2 ^ (lg + i) := by
      rw [← Nat.add_assoc, Nat.pow_succ]; omega
    have h64 : 2 ^ (lg + (i + 1)) ≤ 64 := by
      rw [show (64 : Nat) = 2 ^ 6 from rfl]
      exact Nat.pow_le_pow_right (by omega) (by omega)
    have hd : 2 ^ lg ∣ 2 ^ (lg + i) := Nat.pow_dvd_pow 2 (by omega)
    by_cases h1 : 2 ^ (lg + i) ≤ b
    · have hmod : (b - 2 ^ (lg + i)) % 2 ^ lg = b % 2 ^ lg := by
        obtain ⟨k, hk⟩ := hd
        rw [hk] at h1 ⊢
        rw [Nat.sub_mul_mod h1]
      rw [hmod]
      by_cases h2 : b < 2 ^ (lg + (i + 1))
      · simp [h1, h2, show ¬ b < 2 ^ (lg + i) from by omega, show b < 64 from by omega,
          show b - 2 ^ (lg + i) < 2 ^ (lg + i) from by omega]
      · simp [h2, show ¬ b < 2 ^ (lg + i) from by omega, show ¬ b - 2 ^ (lg + i) < 2 ^ (lg + i) from by omega]
    · simp [h1, show b < 2 ^ (lg + i) from by omega, show b < 2 ^ (lg + (i + 1)) from by omega]

/-- a trie whose fill value is the empty value repeated -/
structure Sound (t : Trie) : Prop where
  geo : Valid t.geo
  empty : t.empty < 2 ^ (2 ^ t.geo.itemLg)
  fill64 : t.fill < 2 ^ 64
  fill : ∀ b, b < 64 → t.fill.testBit b = t.empty.testBit (b % 2 ^ t.geo.itemLg)

theorem create_sound {ks il nb db ev : Nat} {t : Trie} (h : create ks il nb db ev = some t) :
    Sound t ∧ t.root = .null ∧ t.geo = ⟨ks, il, nb, db⟩ ∧ t.empty = ev % 2 ^ (2 ^ il) := by
  unfold create at h
  split at h
  · cases h
  split at h
  · cases h
  split at h
  · cases h
  split at h
  · cases h
  injection h with h
  subst h
  refine ⟨⟨⟨by simp; omega, by simp; omega, by simp; omega, by simp; omega, by simp; omega⟩, ?_, ?_, ?_⟩, rfl, rfl, rfl⟩
  · exact Nat.mod_lt _ (Nat.two_pow_pos _)
  · simp only
    have key := testBit_fillLoop il (ev % 2 ^ 2 ^ il) (6 - il) 0 (ev % 2 ^ 2 ^ il)
      (by omega) (by
        intro b
        rw [Nat.add_zero]
        by_cases hb : b < 2 ^ il
        · rw [Nat.mod_eq_of_lt hb]; simp [hb]
        · simp [hb, Nat.testBit_mod_two_pow])
    apply Nat.lt_pow_two_of_testBit
    intro b hb
    rw [key, show il + (6 - il + 0) = 6 from by omega]
    simp [show ¬ b < 64 from by omega]
  · intro b hb
    simp only
    have key := testBit_fillLoop il (ev % 2 ^ 2 ^ il) (6 - il) 0 (ev % 2 ^ 2 ^ il)
      (by omega) (by
        intro b
        rw [Nat.add_zero]
        by_cases hb : b < 2 ^ il
        · rw [Nat.mod_eq_of_lt hb]; simp [hb]
        · simp [hb, Nat.testBit_mod_two_pow]) b
    rw [key, show il + (6 - il + 0) = 6 from by omega]
    simp [hb]

theorem item_fill (t : Trie) (hs : Sound t) (key : Nat) :
    item t.fill (calcPos t.geo key).2.2 (2 ^ t.geo.itemLg) = t.empty := by
  obtain ⟨_, ho, hle, _⟩ := calcPos_spec t.geo hs.geo key
  apply Nat.eq_of_testBit_eq
  intro j
  rw [testBit_item]
  by_cases h : j < 2 ^ t.geo.itemLg
  · rw [hs.fill _ (by omega), ho, Nat.add_mul_mod_self_right, Nat.mod_eq_of_lt h]
    simp [h]
  · rw [Nat.testBit_lt_two_pow (Nat.lt_of_lt_of_le hs.empty (Nat.pow_le_pow_right (by omega) (by omega)))]
    simp [h]

/-! ### blocks -/

/-- the value of a key in a data block -/
def blockVal (g : Geo) (w : List Nat) (key : Nat) : Nat :=
  item ((w[(calcPos g key).1]?).getD 0) (calcPos g key).2.2 (2 ^ g.itemLg)

theorem blockGet_val (t : Trie) (hs : Sound t) (key : Nat) (w : List Nat) (hw : w.length = blockWords t.geo) :
    blockGet t key (some w) = some (blockVal t.geo w key) := by
  obtain ⟨hp, _, _, hm⟩ := calcPos_spec t.geo hs.geo key
  have hlt := pos_lt t.geo key
  rw [← hp, ← hw] at hlt
  simp only [blockGet, blockVal]
  rw [List.getElem?_eq_getElem hlt]
  simp only [Option.getD_some]
  rw [maskedGet _ _ _ _ hm]

theorem blockSet_val (t : Trie) (hs : Sound t) (key val : Nat) (w : List Nat) (hw : w.length = blockWords t.geo) :
    ∃ w', blockSet t.geo key val w = some w' ∧ w'.length = blockWords t.geo ∧
      ∀ k, k / 2 ^ t.geo.dataBits = key / 2 ^ t.geo.dataBits →
        blockVal t.geo w' k = if k = key then val % 2 ^ (2 ^ t.geo.itemLg) else blockVal t.geo w k := by
  obtain ⟨hp, ho, hle, hm⟩ := calcPos_spec t.geo hs.geo key
  have hlt := pos_lt t.geo key
  rw [← hp, ← hw] at hlt
  unfold blockSet
  rw [List.getElem?_eq_getElem hlt]
  refine ⟨_, rfl, by simpa using hw, fun k hk => ?_⟩
  obtain ⟨hp', ho', hle', hm'⟩ := calcPos_spec t.geo hs.geo k
  unfold blockVal
  by_cases hkk : k = key
  · subst hkk
    rw [if_pos rfl, List.getElem?_set_self hlt]
    simp only [Option.getD_some]
    rw [item_put_same _ _ _ _ _ hle hm]
  · rw [if_neg hkk]
    by_cases hpos : (calcPos t.geo key).1 = (calcPos t.geo k).1
    · rw [← hpos, List.getElem?_set_self hlt, List.getElem?_eq_getElem hlt]
      simp only [Option.getD_some]
      apply item_put_other _ _ _ _ _ _ hle hle' _ hm
      rw [ho, ho']
      have hne : key % 2 ^ (6 - t.geo.itemLg) ≠ k % 2 ^ (6 - t.geo.itemLg) := by
        intro he
        exact hkk (place_inj t.geo k key hk (by rw [← hp, ← hp', hpos]) he.symm)
      generalize key % 2 ^ (6 - t.geo.itemLg) = x at *
      generalize k % 2 ^ (6 - t.geo.itemLg) = y at *
      rcases Nat.lt_or_gt_of_ne hne with h | h
      · left
        have := Nat.mul_le_mul_right (2 ^ t.geo.itemLg) h
        rw [Nat.succ_mul] at this; exact this
      · right
        have := Nat.mul_le_mul_right (2 ^ t.geo.itemLg) h
        rw [Nat.succ_mul] at this; exact this
    · rw [List.getElem?_set_ne hpos]

theorem newBlock_val (t : Trie) (hs : Sound t) (key : Nat) : blockVal t.geo (newBlock t) key = t.empty := by
  obtain ⟨hp, _, _, _⟩ := calcPos_spec t.geo hs.geo key
  unfold blockVal newBlock
  rw [List.getElem?_replicate, if_pos (by rw [hp]; exact pos_lt t.geo key)]
  simp only [Option.getD_some]
  exact item_fill t hs key

/-! ### trees -/

/-- blocks have their size, and every kind of block is at its level -/
def WF (g : Geo) : Nat → Tree → Prop
  | _, .null => True
  | 0, .data w => w.length = blockWords g
  | 0, .node _ => False
  | _ + 1, .data _ => False
  | r + 1, .node ch => ch.length = nodePtrs g (maxDepth g - (r + 1)) ∧ ∀ c ∈ ch, WF g r c

/-- the value of a key in a tree `r` levels above the data blocks -/
def treeVal (t : Trie) (r : Nat) (tr : Tree) (key : Nat) : Nat :=
  match findBlock t.geo key r tr with
  | some (some w) => blockVal t.geo w key
  | _ => t.empty

/-- whether the block of a key exists -/
def treeHas (g : Geo) (r : Nat) (tr : Tree) (key : Nat) : Bool :=
  match findBlock g key r tr with
  | some (some _) => true
  | _ => false

theorem findBlock_safe (g : Geo) (r : Nat) (hr : r ≤ maxDepth g) (tr : Tree) (hwf : WF g r tr) (key : Nat) :
    findBlock g key r tr = some none ∨ ∃ w, findBlock g key r tr = some (some w) ∧ w.length = blockWords g := by
  induction r generalizing tr with
  | zero =>
    cases tr with
    | null => left; rfl
    | data w => right; exact ⟨w, rfl, hwf⟩
    | node _ => exact hwf.elim
  | succ r ih =>
    cases tr with
    | null => left; rfl
    | data w => exact hwf.elim
    | node ch =>
      have hlt := childPos_lt g r (by omega) key
      rw [← hwf.1] at hlt
      have := ih (by omega) ch[childPos g (maxDepth g - (r + 1)) key] (hwf.2 _ (List.getElem_mem hlt))
      rw [findBlock, List.getElem?_eq_getElem hlt]
      exact this

theorem low_ge (g : Geo) (r : Nat) : ∃ q, low g r = g.dataBits + q := by
  induction r with
  | zero => exact ⟨0, rfl⟩
  | succ r ih => obtain ⟨q, hq⟩ := ih; exact ⟨q + kb g r, by rw [low, hq]; omega⟩

theorem treeVal_kid (t : Trie) (r : Nat) (ch : List Tree) (key : Nat) (c : Tree)
    (hc : ch[childPos t.geo (maxDepth t.geo - (r + 1)) key]? = some c) :
    treeVal t (r + 1) (.node ch) key = treeVal t r c key ∧ treeHas t.geo (r + 1) (.node ch) key = treeHas t.geo r c key := by
  unfold treeVal treeHas
  rw [findBlock, hc]
  exact ⟨rfl, rfl⟩

theorem treeVal_null (t : Trie) (r : Nat) (key : Nat) :
    treeVal t r .null key = t.empty ∧ treeHas t.geo r .null key = false := by
  unfold treeVal treeHas
  cases r <;> exact ⟨rfl, rfl⟩

theorem updBlock_spec (t : Trie) (hs : Sound t) (key val : Nat) (r : Nat) (hr : r ≤ maxDepth t.geo) (tr : Tree)
    (hwf : WF t.geo r tr) :
    ∃ tr', updBlock t key (blockSet t.geo key val) r tr = some tr' ∧ WF t.geo r tr' ∧ tr' ≠ .null ∧
      ∀ k, k / 2 ^ low t.geo r = key / 2 ^ low t.geo r →
        (treeVal t r tr' k = if k = key then val % 2 ^ (2 ^ t.geo.itemLg) else treeVal t r tr k) ∧
        (treeHas t.geo r tr' k = (treeHas t.geo r tr k || decide (k / 2 ^ t.geo.dataBits = key / 2 ^ t.geo.dataBits))) := by
  induction r generalizing tr with
  | zero =>
    have hw : ∃ w, wordsOf t tr = some w ∧ w.length = blockWords t.geo ∧
        ∀ k, treeVal t 0 tr k = blockVal t.geo w k := by
      cases tr with
      | null =>
        exact ⟨newBlock t, rfl, by simp [newBlock], fun k => by
          rw [newBlock_val t hs]; exact (treeVal_null t 0 k).1⟩
      | data w => exact ⟨w, rfl, hwf, fun k => rfl⟩
      | node _ => exact hwf.elim
    obtain ⟨w, hw1, hw2, hw3⟩ := hw
    obtain ⟨w', h1, h2, h3⟩ := blockSet_val t hs key val w hw2
    refine ⟨.data w', ?_, h2, by simp, fun k hk => ⟨?_, ?_⟩⟩
    · rw [updBlock, hw1]; simp only; rw [h1]
    · rw [hw3 k]
      exact h3 k hk
    · have : k / 2 ^ t.geo.dataBits = key / 2 ^ t.geo.dataBits := hk
      simp [this, treeHas, findBlock]
  | succ r ih =>
    have hch : ∃ ch, kidsOf t.geo (maxDepth t.geo - (r + 1)) tr = some ch ∧
        ch.length = nodePtrs t.geo (maxDepth t.geo - (r + 1)) ∧ (∀ c ∈ ch, WF t.geo r c) ∧
        ∀ k, treeVal t (r + 1) tr k = treeVal t (r + 1) (.node ch) k ∧
          treeHas t.geo (r + 1) tr k = treeHas t.geo (r + 1) (.node ch) k := by
      cases tr with
      | null =>
        refine ⟨_, rfl, by simp, ?_, fun k => ?_⟩
        · intro c hc
          rw [(List.mem_replicate.mp hc).2]
          cases r <;> trivial
        · have := treeVal_kid t r (List.replicate (nodePtrs t.geo (maxDepth t.geo - (r + 1))) .null) k .null
            (by rw [List.getElem?_replicate, if_pos (childPos_lt t.geo r (by omega) k)])
          rw [this.1, this.2, (treeVal_null t _ k).1, (treeVal_null t _ k).2, (treeVal_null t _ k).1, (treeVal_null t _ k).2]
          exact ⟨rfl, rfl⟩
      | data w => exact hwf.elim
      | node ch => exact ⟨ch, rfl, hwf.1, hwf.2, fun k => ⟨rfl, rfl⟩⟩
    obtain ⟨ch, hk1, hk2, hk3, hk4⟩ := hch
    have hlt := childPos_lt t.geo r (by omega) key
    rw [← hk2] at hlt
    obtain ⟨c', h1, h2, _, h3⟩ := ih (by omega) ch[childPos t.geo (maxDepth t.geo - (r + 1)) key] (hk3 _ (List.getElem_mem hlt))
    refine ⟨.node (ch.set (childPos t.geo (maxDepth t.geo - (r + 1)) key) c'), ?_, ⟨?_, ?_⟩, by simp, fun k hk => ?_⟩
    · rw [updBlock, hk1]; simp only; rw [List.getElem?_eq_getElem hlt]; simp only; rw [h1]
    · simpa using hk2
    · intro c hc
      rcases List.mem_or_eq_of_mem_set hc with hc | hc
      · exact hk3 c hc
      · rw [hc]; exact h2
    · rw [(hk4 k).1, (hk4 k).2]
      have hsc := same_child (L := low t.geo r) (K := kb t.geo r) hk
      rw [← childPos_eq t.geo r (by omega), ← childPos_eq t.geo r (by omega)] at hsc
      have hlk := childPos_lt t.geo r (by omega) k
      rw [← hk2] at hlk
      by_cases hp : childPos t.geo (maxDepth t.geo - (r + 1)) k = childPos t.geo (maxDepth t.geo - (r + 1)) key
      · have e1 := treeVal_kid t r (ch.set (childPos t.geo (maxDepth t.geo - (r + 1)) key) c') k c'
          (by rw [hp, List.getElem?_set_self hlt])
        have e2 := treeVal_kid t r ch k ch[childPos t.geo (maxDepth t.geo - (r + 1)) key]
          (by rw [hp, List.getElem?_eq_getElem hlt])
        rw [e1.1, e1.2, e2.1, e2.2]
        exact h3 k (hsc.mp hp)
      · have e1 := treeVal_kid t r (ch.set (childPos t.geo (maxDepth t.geo - (r + 1)) key) c') k
          ch[childPos t.geo (maxDepth t.geo - (r + 1)) k]
          (by rw [List.getElem?_set_ne (Ne.symm hp), List.getElem?_eq_getElem hlk])
        have e2 := treeVal_kid t r ch k ch[childPos t.geo (maxDepth t.geo - (r + 1)) k]
          (by rw [List.getElem?_eq_getElem hlk])
        rw [e1.1, e1.2, e2.1, e2.2]
        have hne : ¬ k / 2 ^ low t.geo r = key / 2 ^ low t.geo r := fun h => hp (hsc.mpr h)
        have hne2 : k ≠ key := fun h => hne (by rw [h])
        have hne3 : ¬ k / 2 ^ t.geo.dataBits = key / 2 ^ t.geo.dataBits := by
          intro h
          apply hne
          obtain ⟨q, hq⟩ := low_ge t.geo r
          rw [hq, Nat.pow_add, ← Nat.div_div_eq_div_mul, ← Nat.div_div_eq_div_mul, h]
        rw [if_neg hne2]
        simp [hne3]

/-! ### C18, maps -/

/-- tries that arise from `create` by stores -/
structure Good (t : Trie) : Prop where
  sound : Sound t
  wf : WF t.geo (maxDepth t.geo) t.root

theorem inRange_iff {t : Trie} (hs : Sound t) (key : Nat) (hk : key < 2 ^ 64) :
    inRange t.geo key = true ↔ key < 2 ^ t.geo.keySize := by
  unfold inRange
  have := hs.geo.key
  have hp := Nat.two_pow_pos t.geo.keySize
  by_cases h : t.geo.keySize < 64
  · simp [h]; omega
  · have : t.geo.keySize = 64 := by omega
    simp [this, hk]

theorem get_eq (t : Trie) (hg : Good t) (key : Nat) (hk : key < 2 ^ 64) :
    get t key = some (if key < 2 ^ t.geo.keySize then treeVal t (maxDepth t.geo) t.root key else t.empty) := by
  unfold get
  by_cases h : inRange t.geo key = true
  · rw [if_pos h, if_pos ((inRange_iff hg.sound key hk).mp h)]
    unfold treeVal
    rcases findBlock_safe t.geo _ (Nat.le_refl _) t.root hg.wf key with hf | ⟨w, hf, hw⟩
    · rw [hf]; rfl
    · rw [hf]; exact blockGet_val t hg.sound key w hw
  · rw [if_neg h, if_neg (fun h' => h ((inRange_iff hg.sound key hk).mpr h'))]
    rfl

/-- **C18 (one store).**  A store in range succeeds and changes exactly the value of its key, to the value
cut to the item size; a store out of range is refused and changes nothing. -/
theorem set_spec (t : Trie) (hg : Good t) (key val : Nat) (hk : key < 2 ^ 64) :
    ∃ t', set t key val = some (t', decide (key < 2 ^ t.geo.keySize)) ∧ Good t' ∧ t'.geo = t.geo ∧ t'.empty = t.empty ∧
      ∀ k, k < 2 ^ 64 → get t' k =
        if k = key ∧ key < 2 ^ t.geo.keySize then some (val % 2 ^ (2 ^ t.geo.itemLg)) else get t k := by
  unfold set
  by_cases h : inRange t.geo key = true
  · have hlt := (inRange_iff hg.sound key hk).mp h
    obtain ⟨tr', h1, h2, _, h3⟩ := updBlock_spec t hg.sound key val _ (Nat.le_refl _) t.root hg.wf
    have hsound : Sound { t with root := tr' } := ⟨hg.sound.geo, hg.sound.empty, hg.sound.fill64, hg.sound.fill⟩
    have hg' : Good { t with root := tr' } := ⟨hsound, h2⟩
    refine ⟨{ t with root := tr' }, by simp [h, h1, hlt], hg', rfl, rfl, fun k hk64 => ?_⟩
    rw [get_eq _ hg' k hk64, get_eq t hg k hk64]
    simp only
    by_cases hkr : k < 2 ^ t.geo.keySize
    · rw [if_pos hkr, if_pos hkr]
      have := (h3 k (by
        rw [low_max t.geo hg.sound.geo, Nat.div_eq_of_lt hkr, Nat.div_eq_of_lt hlt])).1
      have e : treeVal { t with root := tr' } (maxDepth t.geo) tr' k = treeVal t (maxDepth t.geo) tr' k := rfl
      rw [e, this]
      by_cases hkk : k = key
      · rw [if_pos hkk, if_pos ⟨hkk, hlt⟩]
      · rw [if_neg hkk, if_neg (fun h => hkk h.1)]
    · rw [if_neg hkr, if_neg hkr, if_neg (fun h => hkr (by rw [h.1]; exact hlt))]
  · have hlt : ¬ key < 2 ^ t.geo.keySize := fun h' => h ((inRange_iff hg.sound key hk).mpr h')
    refine ⟨t, by simp [h, hlt], hg, rfl, rfl, fun k _ => ?_⟩
    rw [if_neg (fun h => hlt h.2)]

/-- a history of stores -/
def stores (t : Trie) : List (Nat × Nat) → Option Trie
  | [] => some t
  | (k, v) :: ops =>
    match set t k v with
    | none => none
    | some (t', _) => stores t' ops

/-- specification: the last value stored for a key, oldest store first -/
def lastStored (ops : List (Nat × Nat)) (k : Nat) : Option Nat :=
  (ops.reverse.find? (fun p => p.1 == k)).map (·.2)

theorem lastStored_cons (k v : Nat) (ops : List (Nat × Nat)) (x : Nat) :
    lastStored ((k, v) :: ops) x = (lastStored ops x).or (if k = x then some v else none) := by
  unfold lastStored
  rw [List.reverse_cons, List.find?_append]
  cases List.find? (fun p => p.1 == x) ops.reverse with
  | some p => simp
  | none =>
    by_cases h : k = x <;> simp [h, Option.or]

theorem stores_spec (t : Trie) (hg : Good t) (ops : List (Nat × Nat)) (hops : ∀ p ∈ ops, p.1 < 2 ^ 64) :
    ∃ t', stores t ops = some t' ∧ Good t' ∧ t'.geo = t.geo ∧ t'.empty = t.empty ∧
      ∀ k, k < 2 ^ 64 → get t' k =
        if k < 2 ^ t.geo.keySize then
          match lastStored ops k with
          | some v => some (v % 2 ^ (2 ^ t.geo.itemLg))
          | none => get t k
        else get t k := by
  induction ops generalizing t with
  | nil => exact ⟨t, rfl, hg, rfl, rfl, fun k _ => by simp [lastStored]⟩
  | cons p ops ih =>
    obtain ⟨key, val⟩ := p
    obtain ⟨t1, h1, hg1, hgeo, hemp, hget⟩ := set_spec t hg key val (hops (key, val) (by simp))
    obtain ⟨t2, h2, hg2, hgeo2, hemp2, hget2⟩ := ih t1 hg1 (fun p hp => hops p (by simp [hp]))
    refine ⟨t2, by rw [stores, h1]; exact h2, hg2, by rw [hgeo2, hgeo], by rw [hemp2, hemp], fun k hk => ?_⟩
    rw [hget2 k hk, hgeo, hget k hk, lastStored_cons]
    by_cases hkr : k < 2 ^ t.geo.keySize
    · rw [if_pos hkr, if_pos hkr]
      cases lastStored ops k with
      | some v => rfl
      | none =>
        by_cases hkk : key = k
        · subst hkk
          simp [hkr]
        · have : ¬ k = key := fun h => hkk h.symm
          simp [hkk, this]
    · rw [if_neg hkr, if_neg hkr, if_neg (fun h => hkr (by rw [h.1]; exact h.2))]

/-- **C18 (histories).**  After any history of stores into a new trie of any accepted geometry, every key
in range has the last value stored for it (cut to the item size) or the empty value, and keys out of
range have the empty value.  No access leaves an allocated block. -/
theorem trie_is_map (ks il nb db ev : Nat) (t : Trie) (h : create ks il nb db ev = some t)
    (ops : List (Nat × Nat)) (hops : ∀ p ∈ ops, p.1 < 2 ^ 64) :
    ∃ t', stores t ops = some t' ∧ ∀ k, k < 2 ^ 64 → get t' k =
      if k < 2 ^ ks then
        match lastStored ops k with
        | some v => some (v % 2 ^ (2 ^ il))
        | none => some (ev % 2 ^ (2 ^ il))
      else some (ev % 2 ^ (2 ^ il)) := by
  obtain ⟨hs, hroot, hgeo, hemp⟩ := create_sound h
  have hg : Good t := ⟨hs, by rw [hroot]; cases maxDepth t.geo <;> trivial⟩
  obtain ⟨t', h1, _, _, _, h2⟩ := stores_spec t hg ops hops
  refine ⟨t', h1, fun k hk => ?_⟩
  have hempty : get t k = some (ev % 2 ^ (2 ^ il)) := by
    rw [get_eq t hg k hk, hroot, (treeVal_null t _ k).1, hemp]
    split <;> rfl
  rw [h2 k hk, hempty, hgeo]

example : (create 7 3 2 3 0xa5).isSome = true := by decide +kernel
example : ((create 7 3 2 3 0xa5).bind (stores · [(100, 0x1ff), (101, 7), (100, 3), (128, 9)])).bind (get · 100)
    = some 3 := by decide +kernel
example : ((create 7 3 2 3 0xa5).bind (stores · [(100, 0x1ff), (101, 7)])).bind (get · 100) = some 0xff := by
  decide +kernel
example : ((create 7 3 2 3 0xa5).bind (stores · [(100, 0x1ff), (101, 7)])).bind (get · 99) = some 0xa5 := by
  decide +kernel
/-- a data block smaller than one word -/
example : ((create 4 1 1 2 1).bind (stores · [(5, 2), (9, 3)])).bind (get · 5) = some 2 := by decide +kernel

end Strace.Trie
