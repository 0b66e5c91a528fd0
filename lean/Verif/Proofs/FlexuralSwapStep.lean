import Verif.Proofs.FlexuralSwap
import Verif.Proofs.Repair10
/-
One swap of `repair_flexural_1`.
-/
namespace Bella

/-! ### writing a range of plies -/

theorem setRange_length (ss : Stack) (a m : Nat) (v : Int) : (setRange ss a m v).length = ss.length := by
  unfold setRange; simp

theorem nth_setRange (ss : Stack) (a m : Nat) (v : Int) (i : Nat) (hi : i < ss.length) :
    nth (setRange ss a m v) i = if a ≤ i ∧ i < a + m then v else nth ss i := by
  rw [nth_eq_getElem _ _ (by rw [setRange_length]; exact hi), nth_eq_getElem _ _ hi]
  unfold setRange
  simp

theorem setRange_split (ss : Stack) (a m : Nat) (v : Int) (h : a + m ≤ ss.length) :
    setRange ss a m v = ss.take a ++ List.replicate m v ++ ss.drop (a + m) := by
  apply List.ext_getElem
  · rw [setRange_length]; simp; omega
  · intro i h1 h2
    rw [setRange_length] at h1
    have := nth_setRange ss a m v i h1
    rw [nth_eq_getElem _ _ (by rw [setRange_length]; exact h1), nth_eq_getElem _ _ h1] at this
    rw [this]
    simp only [List.getElem_append, List.length_append, List.length_take, List.length_replicate, List.getElem_take,
      List.getElem_replicate, List.getElem_drop]
    split_ifs <;> first | rfl | omega | (congr 1; omega)

theorem setRange_self (ss : Stack) (a m : Nat) (u : Int) (h : ∀ j, a ≤ j → j < a + m → nth ss j = u) :
    setRange ss a m u = ss := by
  apply List.ext_getElem
  · rw [setRange_length]
  · intro i h1 h2
    have := nth_setRange ss a m u i h2
    rw [nth_eq_getElem _ _ h1, nth_eq_getElem _ _ h2] at this
    rw [this]
    split_ifs with hc
    · rw [← nth_eq_getElem _ _ h2]; exact (h i hc.1 hc.2).symm
    · rfl

theorem setRange_perm {ss : Stack} {a m : Nat} {u : Int} (v : Int) (h : ∀ j, a ≤ j → j < a + m → nth ss j = u)
    (hl : a + m ≤ ss.length) :
    (setRange ss a m v ++ List.replicate m u).Perm (ss ++ List.replicate m v) := by
  have e := setRange_self ss a m u h
  rw [setRange_split _ _ _ _ hl] at e
  rw [setRange_split _ _ _ _ hl]
  rw [List.perm_iff_count]
  intro x
  have e2 := congrArg (List.count x) e
  simp only [List.count_append] at e2 ⊢
  omega

/-- The plies of two ranges with constant angles `a1` and `a2` exchanged. -/
theorem swap_perm {ss : Stack} {f1 f2 m : Nat} {a1 a2 : Int} (h1 : ∀ j, f1 ≤ j → j < f1 + m → nth ss j = a1)
    (h2 : ∀ j, f2 ≤ j → j < f2 + m → nth ss j = a2) (l1 : f1 + m ≤ ss.length) (l2 : f2 + m ≤ ss.length) :
    (setRange (setRange ss f1 m a2) f2 m a1).Perm ss := by
  have p1 := setRange_perm a2 h1 l1
  have p2 := setRange_perm (ss := setRange ss f1 m a2) (a := f2) (m := m) (u := a2) a1 (by
    intro j hj1 hj2
    rw [nth_setRange _ _ _ _ _ (by omega)]
    split_ifs with hc
    · rfl
    · exact h2 j hj1 hj2) (by rw [setRange_length]; exact l2)
  have := p2.trans p1
  rw [List.perm_iff_count] at this ⊢
  intro x
  have := this x
  simp only [List.count_append] at this
  omega

theorem swapBlocks_length (sym : Bool) (ss : Stack) (b1 b2 : FBlock) :
    (swapBlocks sym ss b1 b2).length = ss.length := by
  unfold swapBlocks
  dsimp only
  split <;> simp [setRange_length]

theorem nth_swapBlocks (sym : Bool) (ss : Stack) (b1 b2 : FBlock) (i : Nat) (hi : i < ss.length) :
    nth (swapBlocks sym ss b1 b2) i =
      if sym = true ∧ (ss.length - b2.first - b2.size ≤ i ∧ i < ss.length - b2.first - b2.size + b2.size) then b1.angle
      else if sym = true ∧ (ss.length - b1.first - b1.size ≤ i ∧ i < ss.length - b1.first - b1.size + b1.size) then
        b2.angle
      else if b2.first ≤ i ∧ i < b2.first + b2.size then b1.angle
      else if b1.first ≤ i ∧ i < b1.first + b1.size then b2.angle
      else nth ss i := by
  unfold swapBlocks
  dsimp only
  cases sym
  · rw [if_neg (by simp), if_neg (by simp), if_neg (by simp)]
    rw [nth_setRange _ _ _ _ _ (by rw [setRange_length]; exact hi), nth_setRange _ _ _ _ _ hi]
  · rw [if_pos rfl]
    rw [nth_setRange _ _ _ _ _ (by simpa [setRange_length] using hi),
      nth_setRange _ _ _ _ _ (by simpa [setRange_length] using hi),
      nth_setRange _ _ _ _ _ (by simpa [setRange_length] using hi), nth_setRange _ _ _ _ _ hi]
    simp only [true_and]

/-! ### the invariant -/

structure SwapInv (c : Cons) (E : Nat) (ss0 ss : Stack) (bs : List FBlock) : Prop where
  blocks : Blocks E bs
  const : ∀ b ∈ bs, ∀ j, b.first ≤ j → j < b.first + b.size → nth ss j = b.angle
  differ : ∀ b ∈ bs, ∀ b' ∈ bs, b'.id = b.id + 1 → b.angle ≠ b'.angle
  poss : ∀ b ∈ bs, ∀ b' ∈ bs, (b'.id = b.id + 1 ∨ b.id = b'.id + 1) → ∀ a ∈ b.possible, Fits c a b'.angle
  diso : c.diso = true → ∀ b ∈ bs, ∀ b' ∈ bs, b'.id = b.id + 1 →
    Spec.WithinAngle c.deltaAngle (nth ss0 (b.first - 1)) (nth ss0 b.first) →
    Spec.WithinAngle c.deltaAngle b'.angle b.angle
  perm : ss.Perm ss0
  sym : c.sym = true → ss.reverse = ss
  rest : ∀ j, E ≤ j → j + E < ss0.length → nth ss j = nth ss0 j
  same : ∀ j, (∃ b ∈ bs, b.first ≤ j ∧ j + 1 < b.first + b.size) ↔ (j + 1 < E ∧ nth ss0 j = nth ss0 (j + 1))
  sorted : c.sym = true → bs.Pairwise (fun a b => a.first < b.first)

/-- The exchange of the angles of two blocks. -/
def swapMap (b1 b2 : FBlock) (b : FBlock) : FBlock :=
  if b.id = b1.id then { b with angle := b2.angle }
  else if b.id = b2.id then { b with angle := b1.angle } else b

theorem swapMap_keeps (b1 b2 : FBlock) : KeepsPlace (swapMap b1 b2) := by
  intro b
  unfold swapMap
  split_ifs <;> exact ⟨rfl, rfl, rfl, rfl⟩

theorem set_set_eq_map {bs : List FBlock} (hn : (bs.map (·.id)).Nodup) {i1 i2 : Nat} {b1 b2 : FBlock}
    (h1 : bs[i1]? = some b1) (h2 : bs[i2]? = some b2) :
    (bs.set i1 { b1 with angle := b2.angle }).set i2 { b2 with angle := b1.angle } =
      bs.map (swapMap b1 b2) := by
  obtain ⟨l1, e1⟩ := List.getElem?_eq_some_iff.1 h1
  obtain ⟨l2, e2⟩ := List.getElem?_eq_some_iff.1 h2
  have hinj : ∀ i j (hi : i < bs.length) (hj : j < bs.length), bs[i].id = bs[j].id → i = j := by
    intro i j hi hj he
    have := (List.Nodup.getElem_inj_iff hn (i := i) (j := j) (hi := by simpa using hi) (hj := by simpa using hj)).1
      (by simpa using he)
    exact this
  apply List.ext_getElem
  · simp
  · intro i hi1 hi2
    simp only [List.length_map] at hi2
    rw [List.getElem_set, List.getElem_map]
    unfold swapMap
    by_cases hi : i2 = i
    · subst hi
      rw [if_pos rfl, e2]
      by_cases h12 : i1 = i2
      · subst h12
        rw [e1] at e2
        subst e2
        simp
      · rw [if_neg, if_pos rfl]
        intro h
        apply h12
        apply hinj _ _ l1 l2
        rw [e1, e2, h]
    · rw [if_neg hi, List.getElem_set]
      by_cases hi' : i1 = i
      · subst hi'
        rw [if_pos rfl, e1, if_pos rfl]
      · rw [if_neg hi', if_neg, if_neg]
        · intro h
          exact hi (hinj _ _ l2 hi2 (by rw [e2, h]))
        · intro h
          exact hi' (hinj _ _ l1 hi2 (by rw [e1, h]))

/-- The map of `updatePossible`. -/
def updMap (c : Cons) (midply : Option Int) (id : Nat) (blocks : List FBlock) (b : FBlock) : FBlock :=
  if b.id = id then
    let nb := neighboursIn blocks b.id ++ (if b.id = 0 then midply.toList else [])
    { b with neighbours := nb, possible := possibleAngles c b.angle nb }
  else if b.id = id + 1 ∨ b.id + 1 = id then
    let nb := neighboursIn blocks b.id
    { b with neighbours := nb, possible := possibleAngles c b.angle nb }
  else b

theorem updatePossible_eq (c : Cons) (midply : Option Int) (id : Nat) (blocks : List FBlock) :
    updatePossible c midply id blocks = blocks.map (updMap c midply id blocks) := rfl

theorem updMap_keeps (c : Cons) (midply : Option Int) (id : Nat) (blocks : List FBlock) :
    KeepsPlace (updMap c midply id blocks) := by
  intro b
  unfold updMap
  split_ifs <;> exact ⟨rfl, rfl, rfl, rfl⟩

theorem updMap_angle (c : Cons) (midply : Option Int) (id : Nat) (blocks : List FBlock) (b : FBlock) :
    (updMap c midply id blocks b).angle = b.angle := by
  unfold updMap
  split_ifs <;> rfl

/-- After the update, the possible angles of the block and of its neighbours fit. -/
theorem updMap_poss {c : Cons} {midply : Option Int} {id : Nat} {blocks : List FBlock} {b b' : FBlock}
    (hb' : b' ∈ blocks) (hadj : b'.id = b.id + 1 ∨ b.id = b'.id + 1)
    (h : (b.id = id ∨ b.id = id + 1 ∨ b.id + 1 = id) ∨ ∀ a ∈ b.possible, Fits c a b'.angle) :
    ∀ a ∈ (updMap c midply id blocks b).possible, Fits c a b'.angle := by
  have hmem : b'.angle ∈ neighboursIn blocks b.id := by
    unfold neighboursIn
    rw [List.mem_filterMap]
    exact ⟨b', hb', by rw [if_pos (by omega)]⟩
  intro a ha
  unfold updMap at ha
  split_ifs at ha with h1 h2 h3
  all_goals first
    | (have := (possibleAngles_spec ha).2 b'.angle (by simp [hmem])
       exact ⟨this.1, fun hd => within_of_isDiso (this.2 hd)⟩)
    | (rcases h with h | h
       · omega
       · exact h a ha)

theorem updatePossible_inv {c : Cons} {midply : Option Int} {id : Nat} {bs : List FBlock}
    (T : FBlock → Prop) (hT : ∀ b b' : FBlock, b.id = b'.id → T b → T b')
    (hp : ∀ b ∈ bs, ∀ b' ∈ bs, (b'.id = b.id + 1 ∨ b.id = b'.id + 1) →
      T b ∨ ∀ a ∈ b.possible, Fits c a b'.angle) :
    ∀ b ∈ updatePossible c midply id bs, ∀ b' ∈ updatePossible c midply id bs,
      (b'.id = b.id + 1 ∨ b.id = b'.id + 1) →
      (T b ∧ b.id ≠ id ∧ b.id ≠ id + 1 ∧ b.id + 1 ≠ id) ∨ ∀ a ∈ b.possible, Fits c a b'.angle := by
  rw [updatePossible_eq]
  intro b hb b' hb' hadj
  obtain ⟨x, hx, rfl⟩ := List.mem_map.1 hb
  obtain ⟨y, hy, rfl⟩ := List.mem_map.1 hb'
  rw [(updMap_keeps c midply id bs x).1, (updMap_keeps c midply id bs y).1] at hadj
  rw [updMap_angle, (updMap_keeps c midply id bs x).1]
  by_cases hid : x.id = id ∨ x.id = id + 1 ∨ x.id + 1 = id
  · right
    exact updMap_poss hy hadj (Or.inl hid)
  · rcases hp x hx y hy hadj with hh | hh
    · left
      exact ⟨hT x _ (updMap_keeps c midply id bs x).1.symm hh, by omega, by omega, by omega⟩
    · right
      exact updMap_poss hy hadj (Or.inr hh)

/-- One accepted swap. -/
theorem SwapInv.swap {c : Cons} {E : Nat} {ss0 ss : Stack} {bs : List FBlock} (h : SwapInv c E ss0 ss bs)
    (midply : Option Int) (hE : E ≤ ss0.length) (hsE : c.sym = true → 2 * E ≤ ss0.length)
    {b1 b2 : FBlock} (h1 : b1 ∈ bs) (h2 : b2 ∈ bs) (hsz : b1.size = b2.size)
    (hp1 : b2.angle ∈ b1.possible) (hp2 : b1.angle ∈ b2.possible) (hid : b1.id ≠ b2.id) :
    SwapInv c E ss0 (swapBlocks c.sym ss b1 b2)
      (updatePossible c midply b2.id (updatePossible c midply b1.id (bs.map (swapMap b1 b2)))) := by
  have hlen := h.perm.length_eq
  have hnadj : ¬ (b2.id = b1.id + 1 ∨ b1.id = b2.id + 1) := by
    intro hadj
    exact (h.poss b1 h1 b2 h2 hadj _ hp1).1 rfl
  have q1 := h.blocks.pos b1 h1
  have q2 := h.blocks.pos b2 h2
  have hdisj : b1.first + b1.size ≤ b2.first ∨ b2.first + b2.size ≤ b1.first := by
    rcases Nat.lt_or_gt_of_ne hid with hl | hl
    · right; exact h.blocks.disj b1 h1 b2 h2 hl
    · left; exact h.blocks.disj b2 h2 b1 h1 hl
  have hblocks : Blocks E (updatePossible c midply b2.id (updatePossible c midply b1.id (bs.map (swapMap b1 b2)))) :=
    ((h.blocks.map (swapMap_keeps b1 b2)).map (updMap_keeps c midply b1.id _)).map
      (updMap_keeps c midply b2.id _)
  -- the plies of the first part
  have hin : ∀ b ∈ bs, ∀ j, b.first ≤ j → j < b.first + b.size →
      nth (swapBlocks c.sym ss b1 b2) j = (swapMap b1 b2 b).angle := by
    intro b hb j hj1 hj2
    have qb := h.blocks.pos b hb
    rw [nth_swapBlocks _ _ _ _ _ (by omega)]
    have hs : c.sym = true → j < ss.length - b1.first - b1.size ∧ j < ss.length - b2.first - b2.size := by
      intro hc
      have := hsE hc
      omega
    rw [if_neg (by rintro ⟨hc, h3, _⟩; have := hs hc; omega),
      if_neg (by rintro ⟨hc, h3, _⟩; have := hs hc; omega)]
    unfold swapMap
    by_cases e1 : b.id = b1.id
    · have := h.blocks.inj hb h1 e1
      subst this
      rw [if_neg (by omega), if_pos ⟨hj1, hj2⟩, if_pos rfl]
    · by_cases e2 : b.id = b2.id
      · have := h.blocks.inj hb h2 e2
        subst this
        rw [if_pos ⟨hj1, hj2⟩, if_neg e1, if_pos rfl]
      · have d1 : b1.first + b1.size ≤ b.first ∨ b.first + b.size ≤ b1.first := by
          rcases Nat.lt_or_gt_of_ne e1 with hl | hl
          · left; exact h.blocks.disj b hb b1 h1 hl
          · right; exact h.blocks.disj b1 h1 b hb hl
        have d2 : b2.first + b2.size ≤ b.first ∨ b.first + b.size ≤ b2.first := by
          rcases Nat.lt_or_gt_of_ne e2 with hl | hl
          · left; exact h.blocks.disj b hb b2 h2 hl
          · right; exact h.blocks.disj b2 h2 b hb hl
        rw [if_neg (by omega), if_neg (by omega), if_neg e1, if_neg e2]
        exact h.const b hb j hj1 hj2
  -- adjacent blocks after the swap
  have hfit : ∀ b ∈ bs, ∀ b' ∈ bs, b'.id = b.id + 1 →
      ((swapMap b1 b2 b).angle = b.angle ∧ (swapMap b1 b2 b').angle = b'.angle) ∨
      Fits c (swapMap b1 b2 b).angle (swapMap b1 b2 b').angle ∨
      Fits c (swapMap b1 b2 b').angle (swapMap b1 b2 b).angle := by
    intro b hb b' hb' hadj
    unfold swapMap
    by_cases e1 : b.id = b1.id
    · have := h.blocks.inj hb h1 e1
      subst this
      rw [if_pos rfl, if_neg (by omega), if_neg (by omega)]
      right; left
      exact h.poss b hb b' hb' (Or.inl hadj) _ hp1
    · rw [if_neg e1]
      by_cases e2 : b.id = b2.id
      · have := h.blocks.inj hb h2 e2
        subst this
        rw [if_pos rfl, if_neg (by omega), if_neg (by omega)]
        right; left
        exact h.poss b hb b' hb' (Or.inl hadj) _ hp2
      · rw [if_neg e2]
        by_cases e3 : b'.id = b1.id
        · have := h.blocks.inj hb' h1 e3
          subst this
          rw [if_pos rfl]
          right; right
          exact h.poss b' hb' b hb (Or.inr hadj) _ hp1
        · rw [if_neg e3]
          by_cases e4 : b'.id = b2.id
          · have := h.blocks.inj hb' h2 e4
            subst this
            rw [if_pos rfl]
            right; right
            exact h.poss b' hb' b hb (Or.inr hadj) _ hp2
          · rw [if_neg e4]
            left; exact ⟨rfl, rfl⟩
  -- members of the new list
  have hmem : ∀ b ∈ updatePossible c midply b2.id (updatePossible c midply b1.id (bs.map (swapMap b1 b2))),
      ∃ x ∈ bs, b.id = x.id ∧ b.first = x.first ∧ b.size = x.size ∧ b.angle = (swapMap b1 b2 x).angle := by
    intro b hb
    rw [updatePossible_eq, updatePossible_eq] at hb
    obtain ⟨y, hy, rfl⟩ := List.mem_map.1 hb
    obtain ⟨z, hz, rfl⟩ := List.mem_map.1 hy
    obtain ⟨x, hx, rfl⟩ := List.mem_map.1 hz
    refine ⟨x, hx, ?_, ?_, ?_, ?_⟩
    · rw [(updMap_keeps c midply b2.id _ _).1, (updMap_keeps c midply b1.id _ _).1, (swapMap_keeps b1 b2 x).1]
    · rw [(updMap_keeps c midply b2.id _ _).2.1, (updMap_keeps c midply b1.id _ _).2.1, (swapMap_keeps b1 b2 x).2.1]
    · rw [(updMap_keeps c midply b2.id _ _).2.2.1, (updMap_keeps c midply b1.id _ _).2.2.1,
        (swapMap_keeps b1 b2 x).2.2.1]
    · rw [updMap_angle, updMap_angle]
  have hlift : ∀ x ∈ bs, ∃ b ∈ updatePossible c midply b2.id (updatePossible c midply b1.id (bs.map (swapMap b1 b2))),
      b.first = x.first ∧ b.size = x.size := by
    intro x hx
    rw [updatePossible_eq, updatePossible_eq]
    refine ⟨_, List.mem_map_of_mem (List.mem_map_of_mem (List.mem_map_of_mem hx)), ?_, ?_⟩
    · rw [(updMap_keeps c midply b2.id _ _).2.1, (updMap_keeps c midply b1.id _ _).2.1, (swapMap_keeps b1 b2 x).2.1]
    · rw [(updMap_keeps c midply b2.id _ _).2.2.1, (updMap_keeps c midply b1.id _ _).2.2.1,
        (swapMap_keeps b1 b2 x).2.2.1]
  have hpermA : (setRange (setRange ss b1.first b1.size b2.angle) b2.first b2.size b1.angle).Perm ss := by
    rw [← hsz]
    exact swap_perm (h.const b1 h1) (by rw [hsz]; exact h.const b2 h2) (by omega) (by omega)
  refine ⟨hblocks, ?_, ?_, ?_, ?_, ?_, ?_, ?_, ?_, ?_⟩
  · intro b hb j hj1 hj2
    obtain ⟨x, hx, e1, e2, e3, e4⟩ := hmem b hb
    rw [e4]
    exact hin x hx j (by omega) (by omega)
  · intro b hb b' hb' hadj
    obtain ⟨x, hx, e1, e2, e3, e4⟩ := hmem b hb
    obtain ⟨y, hy, f1, f2, f3, f4⟩ := hmem b' hb'
    rw [e4, f4]
    rcases hfit x hx y hy (by omega) with ⟨g1, g2⟩ | hh | hh
    · rw [g1, g2]; exact h.differ x hx y hy (by omega)
    · exact hh.1
    · exact fun h => hh.1 h.symm
  · -- possible angles
    have r0 : ∀ b ∈ bs.map (swapMap b1 b2), ∀ b' ∈ bs.map (swapMap b1 b2),
        (b'.id = b.id + 1 ∨ b.id = b'.id + 1) →
        (b.id = b1.id ∨ b.id = b1.id + 1 ∨ b.id + 1 = b1.id ∨ b.id = b2.id ∨ b.id = b2.id + 1 ∨ b.id + 1 = b2.id) ∨
          ∀ a ∈ b.possible, Fits c a b'.angle := by
      intro b hb b' hb' hadj
      obtain ⟨x, hx, rfl⟩ := List.mem_map.1 hb
      obtain ⟨y, hy, rfl⟩ := List.mem_map.1 hb'
      rw [(swapMap_keeps b1 b2 x).1, (swapMap_keeps b1 b2 y).1] at hadj
      rw [(swapMap_keeps b1 b2 x).1]
      by_cases hn : x.id = b1.id ∨ x.id = b1.id + 1 ∨ x.id + 1 = b1.id ∨ x.id = b2.id ∨ x.id = b2.id + 1 ∨
          x.id + 1 = b2.id
      · left; exact hn
      · right
        intro a ha
        have hpx : (swapMap b1 b2 x).possible = x.possible := by
          unfold swapMap; split_ifs <;> rfl
        have hay : (swapMap b1 b2 y).angle = y.angle := by
          unfold swapMap
          rw [if_neg (by omega), if_neg (by omega)]
        rw [hpx] at ha
        rw [hay]
        exact h.poss x hx y hy hadj a ha
    have r1 := updatePossible_inv (c := c) (midply := midply) (id := b1.id)
      (fun b => b.id = b1.id ∨ b.id = b1.id + 1 ∨ b.id + 1 = b1.id ∨ b.id = b2.id ∨ b.id = b2.id + 1 ∨ b.id + 1 = b2.id)
      (by intro b b' hb; rw [hb]; exact id) r0
    have r2 := updatePossible_inv (c := c) (midply := midply) (id := b2.id)
      (fun b => b.id = b2.id ∨ b.id = b2.id + 1 ∨ b.id + 1 = b2.id)
      (by intro b b' hb; rw [hb]; exact id)
      (bs := updatePossible c midply b1.id (bs.map (swapMap b1 b2))) (by
        intro b hb b' hb' hadj
        rcases r1 b hb b' hb' hadj with hh | hh
        · left; omega
        · right; exact hh)
    intro b hb b' hb' hadj
    rcases r2 b hb b' hb' hadj with hh | hh
    · omega
    · exact hh
  · intro hd b hb b' hb' hadj hw
    obtain ⟨x, hx, e1, e2, e3, e4⟩ := hmem b hb
    obtain ⟨y, hy, f1, f2, f3, f4⟩ := hmem b' hb'
    rw [e4, f4]
    rcases hfit x hx y hy (by omega) with ⟨g1, g2⟩ | hh | hh
    · rw [g1, g2]
      exact h.diso hd x hx y hy (by omega) (by rwa [← e2])
    · exact within_symm (hh.2 hd)
    · exact hh.2 hd
  · refine List.Perm.trans ?_ h.perm
    unfold swapBlocks
    dsimp only
    split
    · rename_i hs
      refine List.Perm.trans ?_ hpermA
      have hs2 := hsE hs
      have hsym := h.sym hs
      have hm : ∀ b ∈ bs, ∀ j, ss.length - b.first - b.size ≤ j → j < ss.length - b.first - b.size + b.size →
          nth (setRange (setRange ss b1.first b1.size b2.angle) b2.first b2.size b1.angle) j = b.angle := by
        intro b hb j hj1 hj2
        have qb := h.blocks.pos b hb
        rw [nth_setRange _ _ _ _ _ (by rw [setRange_length]; omega), if_neg (by omega),
          nth_setRange _ _ _ _ _ (by omega), if_neg (by omega)]
        have := nth_reverse ss (ss.length - 1 - j) (by omega)
        rw [hsym, show ss.length - 1 - (ss.length - 1 - j) = j by omega] at this
        rw [← this]
        exact h.const b hb _ (by omega) (by omega)
      have l2 : (setRange (setRange ss b1.first b1.size b2.angle) b2.first b2.size b1.angle).length = ss.length := by
        simp [setRange_length]
      rw [← hsz]
      rw [← hsz] at hm l2
      have hm1 := hm b1 h1
      have hm2 := hm b2 h2
      rw [← hsz] at hm2
      exact swap_perm hm1 hm2 (by rw [l2]; omega) (by rw [l2]; omega)
    · exact hpermA
  · intro hs
    have hs2 := hsE hs
    have hsym := h.sym hs
    have := (symmetric_iff_nth (swapBlocks c.sym ss b1 b2)).2
    refine this ?_
    intro i hi
    rw [swapBlocks_length] at hi ⊢
    have hsi : nth ss (ss.length - 1 - i) = nth ss i := by
      have := (symmetric_iff_nth ss).1 hsym i hi
      exact this
    rw [nth_swapBlocks _ _ _ _ _ (by omega), nth_swapBlocks _ _ _ _ _ (by omega), hsi, hs]
    simp only [true_and]
    split_ifs <;> first | rfl | omega
  · intro j hj1 hj2
    rw [nth_swapBlocks _ _ _ _ _ (by omega), if_neg (by omega), if_neg (by omega), if_neg (by omega),
      if_neg (by omega)]
    exact h.rest j hj1 hj2
  · intro j
    rw [← h.same j]
    constructor
    · rintro ⟨b, hb, hb1, hb2⟩
      obtain ⟨x, hx, e1, e2, e3, e4⟩ := hmem b hb
      exact ⟨x, hx, by omega, by omega⟩
    · rintro ⟨x, hx, hb1, hb2⟩
      obtain ⟨b, hb, e1, e2⟩ := hlift x hx
      exact ⟨b, hb, by omega, by omega⟩
  · intro hs
    have := h.sorted hs
    rw [updatePossible_eq, updatePossible_eq, List.pairwise_map, List.pairwise_map, List.pairwise_map]
    refine this.imp ?_
    intro a b hab
    rw [(updMap_keeps c midply b2.id _ _).2.1, (updMap_keeps c midply b1.id _ _).2.1, (swapMap_keeps b1 b2 a).2.1,
      (updMap_keeps c midply b2.id _ _).2.1, (updMap_keeps c midply b1.id _ _).2.1, (swapMap_keeps b1 b2 b).2.1]
    exact hab

end Bella
