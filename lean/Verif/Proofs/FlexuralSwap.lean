import Verif.Model.FlexuralSwap
import Verif.Proofs.FlexuralLoop
/-
The blocks of plies of `repair_flexural_1` and the swaps.
-/
namespace Bella

theorem within_of_isDiso {a b d : Int} (h : isDiso a b d = true) : Spec.WithinAngle d a b := by
  unfold isDiso at h
  unfold Spec.WithinAngle
  by_cases h1 : ((a - b).natAbs : Int) ≤ d
  · refine ⟨0, ?_⟩
    rw [show a - b + 180 * 0 = a - b by ring, Int.abs_eq_natAbs]; exact h1
  · by_cases h2 : ((180 + a - b).natAbs : Int) ≤ d
    · refine ⟨1, ?_⟩
      rw [show a - b + 180 * 1 = 180 + a - b by ring, Int.abs_eq_natAbs]; exact h2
    · by_cases h3 : ((a - b - 180).natAbs : Int) ≤ d
      · refine ⟨-1, ?_⟩
        rw [show a - b + 180 * (-1) = a - b - 180 by ring, Int.abs_eq_natAbs]; exact h3
      · rw [if_pos ⟨by omega, by omega, by omega⟩] at h
        cases h

theorem within_symm {a b d : Int} (h : Spec.WithinAngle d a b) : Spec.WithinAngle d b a := by
  obtain ⟨k, hk⟩ := h
  refine ⟨-k, ?_⟩
  rw [← abs_neg]
  rw [show -(b - a + 180 * -k) = a - b + 180 * k by ring]
  exact hk

theorem within_self_of {a b d : Int} (h : Spec.WithinAngle d a b) : Spec.WithinAngle d b b := by
  obtain ⟨k, hk⟩ := h
  refine ⟨0, ?_⟩
  have := (abs_nonneg (a - b + 180 * k)).trans hk
  simpa using this

/-! ### possible angles -/

theorem possibleAngles_spec {c : Cons} {ang : Int} {nb : List Int} {a : Int}
    (h : a ∈ possibleAngles c ang nb) : a ≠ ang ∧ ∀ x ∈ nb, a ≠ x ∧ (c.diso = true → isDiso a x c.deltaAngle = true) := by
  unfold possibleAngles at h
  have h2 := (List.mem_filter.1 h).2
  clear h
  match nb, h2 with
  | [x], h2 =>
    simp only [Bool.and_eq_true, decide_eq_true_eq, Bool.not_eq_true', Bool.or_eq_true] at h2
    refine ⟨h2.1.1, ?_⟩
    intro y hy
    rw [List.mem_singleton] at hy
    subst hy
    refine ⟨?_, ?_⟩
    · rintro rfl
      simp at h2
    · intro hd
      rcases h2.2 with h | h
      · rw [hd] at h; cases h
      · exact h
  | [x, z], h2 =>
    simp only [Bool.and_eq_true, decide_eq_true_eq, Bool.not_eq_true', Bool.or_eq_true] at h2
    refine ⟨h2.1.1.1, ?_⟩
    have hn : a ≠ x ∧ a ≠ z := by
      have := h2.1.1.2
      simp at this
      exact this
    intro y hy
    rcases List.mem_cons.1 hy with rfl | hy
    · refine ⟨hn.1, ?_⟩
      intro hd
      rcases h2.1.2 with h | h
      · rw [hd] at h; cases h
      · exact h
    · rw [List.mem_singleton] at hy
      subst hy
      refine ⟨hn.2, ?_⟩
      intro hd
      rcases h2.2 with h | h
      · rw [hd] at h; cases h
      · exact h

/-! ### the initial blocks -/

/-- `a` may be the angle of a ply next to a ply of angle `x`. -/
def Fits (c : Cons) (a x : Int) : Prop := a ≠ x ∧ (c.diso = true → Spec.WithinAngle c.deltaAngle a x)

/-- The properties of one block of the laminate `ss`, in the part `[0, E)`. -/
structure BlockOf (c : Cons) (E : Nat) (ss : Stack) (b : FBlock) : Prop where
  pos : 0 < b.size
  fits : b.first + b.size ≤ E
  const : ∀ j, b.first ≤ j → j < b.first + b.size → nth ss j = b.angle
  dist : b.dist = blockDist b.first b.size ss.length
  before : 0 < b.first → nth ss (b.first - 1) ≠ b.angle ∧ ∀ a ∈ b.possible, Fits c a (nth ss (b.first - 1))
  after : b.first + b.size < E → ∀ a ∈ b.possible, Fits c a (nth ss (b.first + b.size))

/-- The blocks numbered from `id` on, which fill the part `[0, e)`. -/
def Seg (c : Cons) (E : Nat) (ss : Stack) : Nat → Nat → List FBlock → Prop
  | e, _, [] => e = 0
  | e, id, b :: t => b.id = id ∧ b.first + b.size = e ∧ BlockOf c E ss b ∧ Seg c E ss b.first (id + 1) t

theorem blocksLoop_acc (c : Cons) (ss : Stack) : ∀ (p nb id : Nat) (acc : List FBlock),
    blocksLoop c ss p nb id acc = acc ++ blocksLoop c ss p nb id [] := by
  intro p
  induction p with
  | zero => intro nb id acc; simp [blocksLoop]
  | succ p ih =>
    intro nb id acc
    rw [blocksLoop, blocksLoop]
    split
    · exact ih _ _ _
    · dsimp only
      rw [ih, ih _ _ ([] ++ _)]
      simp

theorem mkBlock_fits {c : Cons} {id : Nat} {ang : Int} {size first n : Nat} {before after : Option Int} {x a : Int}
    (hx : before = some x ∨ after = some x) (ha : a ∈ (mkBlock c id ang size first n before after).possible) :
    Fits c a x := by
  have : ∃ nb, a ∈ possibleAngles c ang nb ∧ x ∈ nb := by
    unfold mkBlock at ha
    dsimp only at ha
    refine ⟨_, ha, ?_⟩
    rcases hx with rfl | rfl
    · cases after with
      | none => simp
      | some y => dsimp only; split <;> simp
    · cases before with
      | none => simp
      | some y =>
        dsimp only
        split
        · rename_i h; rw [h]; simp
        · simp
  obtain ⟨nb, h1, h2⟩ := this
  have := (possibleAngles_spec h1).2 x h2
  exact ⟨this.1, fun hd => within_of_isDiso (this.2 hd)⟩

theorem blocksLoop_seg (c : Cons) (E : Nat) (ss : Stack) : ∀ (p nb id : Nat), 0 < nb → p + nb ≤ E →
    (id = 0 → p + nb = E) → (∀ j, p ≤ j → j < p + nb → nth ss j = nth ss p) →
    Seg c E ss (p + nb) id (blocksLoop c ss p nb id []) := by
  intro p
  induction p with
  | zero =>
    intro nb id hnb hE hid hcst
    rw [blocksLoop, List.nil_append]
    refine ⟨?_, ?_, ?_, ?_⟩
    · split_ifs <;> rfl
    · split_ifs <;> simp [mkBlock]
    · split_ifs with h
      · refine ⟨hnb, ?_, ?_, rfl, ?_, ?_⟩
        · simpa [mkBlock] using hE
        · intro j hj1 hj2; exact hcst j hj1 hj2
        · intro h; simp [mkBlock] at h
        · intro h2
          have := hid h.1
          simp [mkBlock] at h2
          omega
      · refine ⟨hnb, ?_, ?_, rfl, ?_, ?_⟩
        · simpa [mkBlock] using hE
        · intro j hj1 hj2; exact hcst j hj1 hj2
        · intro h; simp [mkBlock] at h
        · intro _ a ha
          refine mkBlock_fits ?_ ha
          right
          simp [mkBlock]
    · split_ifs <;> rfl
  | succ p ih =>
    intro nb id hnb hE hid hcst
    rw [blocksLoop]
    split
    · rename_i heq
      have := ih (nb + 1) id (by omega) (by omega) (by omega) ?_
      · rwa [show p + (nb + 1) = p + 1 + nb by omega] at this
      · intro j hj1 hj2
        rcases Nat.eq_or_lt_of_le hj1 with h | h
        · rw [h]
        · rw [hcst j (by omega) (by omega), heq]
    · rename_i hne
      dsimp only
      rw [blocksLoop_acc, List.nil_append, List.singleton_append]
      refine ⟨?_, ?_, ?_, ?_⟩
      · split_ifs <;> rfl
      · split_ifs <;> rfl
      · split_ifs with h
        · refine ⟨hnb, hE, ?_, rfl, ?_, ?_⟩
          · intro j hj1 hj2; exact hcst j hj1 hj2
          · intro _
            refine ⟨fun h => hne h.symm, ?_⟩
            intro a ha
            exact mkBlock_fits (Or.inl rfl) ha
          · intro h2
            have := hid h.1
            simp [mkBlock] at h2
            omega
        · refine ⟨hnb, hE, ?_, rfl, ?_, ?_⟩
          · intro j hj1 hj2; exact hcst j hj1 hj2
          · intro _
            refine ⟨fun h => hne h.symm, ?_⟩
            intro a ha
            exact mkBlock_fits (Or.inl rfl) ha
          · intro _ a ha
            exact mkBlock_fits (Or.inr rfl) ha
      · have hf : (if id = 0 ∧ (c.sym = false ∨ (c.sym = true ∧ ss.length % 2 = 0)) then
            mkBlock c id (nth ss (p + 1)) nb (p + 1) ss.length (some (nth ss p)) none
          else mkBlock c id (nth ss (p + 1)) nb (p + 1) ss.length (some (nth ss p))
            (some (nth ss (p + 1 + nb)))).first = p + 1 := by
          split_ifs <;> rfl
        rw [hf]
        exact ih 1 (id + 1) (by omega) (by omega) (by omega) (by intro j h1 h2; rw [show j = p by omega])

/-! ### blocks as a set -/

/-- The positions of the blocks, whatever the order of the list. -/
structure Blocks (E : Nat) (bs : List FBlock) : Prop where
  nodup : (bs.map (·.id)).Nodup
  pos : ∀ b ∈ bs, 0 < b.size ∧ b.first + b.size ≤ E
  disj : ∀ b ∈ bs, ∀ b' ∈ bs, b.id < b'.id → b'.first + b'.size ≤ b.first
  adj : ∀ b ∈ bs, ∀ b' ∈ bs, (b'.id = b.id + 1 ↔ b'.first + b'.size = b.first)
  cover : ∀ j, j < E → ∃ b ∈ bs, b.first ≤ j ∧ j < b.first + b.size

theorem seg_blocks {c : Cons} {E : Nat} {ss : Stack} : ∀ (l : List FBlock) (e id : Nat), Seg c E ss e id l →
    (∀ b ∈ l, id ≤ b.id ∧ 0 < b.size ∧ b.first + b.size ≤ e) ∧ Blocks e l ∧ (∀ b ∈ l, BlockOf c E ss b) ∧
    (∀ b ∈ l, b.first + b.size = e → b.id = id) ∧ (∀ b ∈ l, b.id = id → b.first + b.size = e) := by
  intro l
  induction l with
  | nil =>
    intro e id h
    unfold Seg at h
    subst h
    refine ⟨by simp, ⟨by simp, by simp, by simp, by simp, by simp⟩, by simp, by simp, by simp⟩
  | cons b t ih =>
    intro e id h
    obtain ⟨h1, h2, h3, h4⟩ := h
    obtain ⟨i1, i2, i3, i4, i5⟩ := ih _ _ h4
    have hb := h3.pos
    refine ⟨?_, ⟨?_, ?_, ?_, ?_, ?_⟩, ?_, ?_, ?_⟩
    · intro x hx
      rcases List.mem_cons.1 hx with rfl | hx
      · exact ⟨by omega, hb, by omega⟩
      · have := i1 x hx
        exact ⟨by omega, this.2.1, by omega⟩
    · rw [List.map_cons, List.nodup_cons]
      refine ⟨?_, i2.nodup⟩
      intro hm
      obtain ⟨x, hx, hxe⟩ := List.mem_map.1 hm
      have := (i1 x hx).1
      omega
    · intro x hx
      rcases List.mem_cons.1 hx with rfl | hx
      · exact ⟨hb, by omega⟩
      · have := i1 x hx
        exact ⟨this.2.1, by omega⟩
    · intro x hx y hy hlt
      rcases List.mem_cons.1 hx with rfl | hx' <;> rcases List.mem_cons.1 hy with rfl | hy'
      · omega
      · exact (i1 y hy').2.2
      · have := (i1 x hx').1; omega
      · exact i2.disj x hx' y hy' hlt
    · intro x hx y hy
      rcases List.mem_cons.1 hx with rfl | hx' <;> rcases List.mem_cons.1 hy with rfl | hy'
      · constructor
        · intro h; omega
        · intro h; omega
      · rw [h1]
        exact ⟨fun h => i5 y hy' h, fun h => i4 y hy' h⟩
      · have := i1 x hx'
        constructor
        · intro h; omega
        · intro h; omega
      · exact i2.adj x hx' y hy'
    · intro j hj
      by_cases hjb : b.first ≤ j
      · exact ⟨b, List.mem_cons_self, hjb, by omega⟩
      · obtain ⟨x, hx, hx2⟩ := i2.cover j (by omega)
        exact ⟨x, List.mem_cons_of_mem _ hx, hx2⟩
    · intro x hx
      rcases List.mem_cons.1 hx with rfl | hx
      · exact h3
      · exact i3 x hx
    · intro x hx he
      rcases List.mem_cons.1 hx with rfl | hx
      · exact h1
      · have := i1 x hx; omega
    · intro x hx he
      rcases List.mem_cons.1 hx with rfl | hx
      · exact h2
      · have := i1 x hx; omega

theorem Blocks.perm {E : Nat} {l l' : List FBlock} (h : Blocks E l) (hp : l'.Perm l) : Blocks E l' := by
  refine ⟨?_, ?_, ?_, ?_, ?_⟩
  · exact (hp.map _).nodup_iff.2 h.nodup
  · intro b hb; exact h.pos b (hp.mem_iff.1 hb)
  · intro b hb b' hb'; exact h.disj b (hp.mem_iff.1 hb) b' (hp.mem_iff.1 hb')
  · intro b hb b' hb'; exact h.adj b (hp.mem_iff.1 hb) b' (hp.mem_iff.1 hb')
  · intro j hj
    obtain ⟨b, hb, h2⟩ := h.cover j hj
    exact ⟨b, hp.mem_iff.2 hb, h2⟩

/-- A map of the list that changes neither the numbers nor the positions. -/
def KeepsPlace (f : FBlock → FBlock) : Prop :=
  ∀ b, (f b).id = b.id ∧ (f b).first = b.first ∧ (f b).size = b.size ∧ (f b).dist = b.dist

theorem Blocks.map {E : Nat} {l : List FBlock} (h : Blocks E l) {f : FBlock → FBlock} (hf : KeepsPlace f) :
    Blocks E (l.map f) := by
  have hid : ∀ b, (f b).id = b.id := fun b => (hf b).1
  have hfi : ∀ b, (f b).first = b.first := fun b => (hf b).2.1
  have hsz : ∀ b, (f b).size = b.size := fun b => (hf b).2.2.1
  refine ⟨?_, ?_, ?_, ?_, ?_⟩
  · rw [List.map_map]
    have : (fun b : FBlock => b.id) ∘ f = (fun b => b.id) := by funext b; exact hid b
    rw [this]; exact h.nodup
  · intro b hb
    obtain ⟨x, hx, rfl⟩ := List.mem_map.1 hb
    rw [hsz, hfi]; exact h.pos x hx
  · intro b hb b' hb'
    obtain ⟨x, hx, rfl⟩ := List.mem_map.1 hb
    obtain ⟨y, hy, rfl⟩ := List.mem_map.1 hb'
    rw [hid, hid, hfi, hfi, hsz]
    exact h.disj x hx y hy
  · intro b hb b' hb'
    obtain ⟨x, hx, rfl⟩ := List.mem_map.1 hb
    obtain ⟨y, hy, rfl⟩ := List.mem_map.1 hb'
    rw [hid, hid, hfi, hfi, hsz]
    exact h.adj x hx y hy
  · intro j hj
    obtain ⟨b, hb, h1, h2⟩ := h.cover j hj
    exact ⟨f b, List.mem_map_of_mem hb, by rw [hfi]; exact h1, by rw [hfi, hsz]; exact h2⟩

/-- Two blocks with the same number are the same. -/
theorem Blocks.inj {E : Nat} {l : List FBlock} (h : Blocks E l) {b b' : FBlock} (hb : b ∈ l) (hb' : b' ∈ l)
    (he : b.id = b'.id) : b = b' :=
  List.inj_on_of_nodup_map h.nodup hb hb' he

end Bella
