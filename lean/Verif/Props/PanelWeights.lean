import Verif.Model.PanelWeights
import Verif.Props.Boundaries
import Mathlib.Algebra.BigOperators.Group.Finset.Basic
/-
C49: the panel weightings of the blending strip, for every structure.
-/
namespace Bella

namespace Spec

/-- The aggregated weighting of the panels with `n` plies. -/
def aggregated (plies : List Nat) (weights : List ℚ) (n : Nat) : ℚ :=
  ∑ i ∈ Finset.range plies.length, if plies.getD i 0 = n then weights.getD i 0 else 0

/-- The weighting of the first panel with `n` plies. -/
def firstWeight (plies : List Nat) (weights : List ℚ) (n : Nat) : ℚ := weights.getD (plies.idxOf n) 0

end Spec

theorem getD_set' {α : Type} (l : List α) (i j : Nat) (x d : α) (h : j < l.length) :
    (l.set i x).getD j d = if i = j then x else l.getD j d := by
  rw [List.getD_eq_getElem?_getD, List.getD_eq_getElem?_getD, List.getElem?_set]
  split
  · rename_i e
    subst e
    rw [if_pos h]
    rfl
  · rfl

theorem foldl_scatter (g : Nat → Nat) (suf : List ℚ) : ∀ (k : Nat) (acc : List ℚ) (j : Nat), j < acc.length →
    ((suf.zipIdx k).foldl (fun acc (w, i) =>
        let j := g i
        acc.set j (acc.getD j 0 + w)) acc).length = acc.length ∧
    ((suf.zipIdx k).foldl (fun acc (w, i) =>
        let j := g i
        acc.set j (acc.getD j 0 + w)) acc).getD j 0 =
      acc.getD j 0 + ∑ i ∈ Finset.range suf.length, if g (k + i) = j then suf.getD i 0 else 0 := by
  induction suf with
  | nil => intro k acc j hj; simp
  | cons w t ih =>
    intro k acc j hj
    rw [List.zipIdx_cons, List.foldl_cons]
    obtain ⟨h1, h2⟩ := ih (k + 1) (acc.set (g k) (acc.getD (g k) 0 + w)) j (by simpa using hj)
    refine ⟨by simpa using h1, ?_⟩
    refine h2.trans ?_
    rw [getD_set' _ _ _ _ _ hj, List.length_cons, Finset.sum_range_succ']
    have e : ∀ i, g (k + 1 + i) = g (k + (i + 1)) := fun i => by congr 1; omega
    simp only [e, List.getD_cons_succ, Nat.add_zero, List.getD_cons_zero]
    split
    · rename_i e
      subst e
      ring
    · ring

theorem actualPanelWeightings_at (guide : List Nat) (ws : List ℚ) :
    (actualPanelWeightings guide ws).length = ws.length ∧ ∀ j, j < ws.length →
      (actualPanelWeightings guide ws).getD j 0 =
        ∑ i ∈ Finset.range ws.length, if guide.getD i 0 = j then ws.getD i 0 else 0 := by
  have key := fun j hj => foldl_scatter (fun i => guide.getD i 0) ws 0 (List.replicate ws.length 0) j hj
  unfold actualPanelWeightings
  constructor
  · cases ws with
    | nil => rfl
    | cons w t => simpa using (key 0 (by simp)).1
  · intro j hj
    have := (key j (by simpa using hj)).2
    rw [this]
    simp [List.getD_eq_getElem?_getD, hj]

theorem npUniqueNat_mem {plies : List Nat} {n : Nat} : n ∈ npUniqueNat plies ↔ n ∈ plies := by
  unfold npUniqueNat
  rw [(List.perm_insertionSort _ _).mem_iff, List.mem_dedup]

theorem npUniqueNat_nodup (plies : List Nat) : (npUniqueNat plies).Nodup := by
  unfold npUniqueNat
  rw [(List.perm_insertionSort _ _).nodup_iff]
  exact List.nodup_dedup _

theorem npUniqueNat_length_le (plies : List Nat) : (npUniqueNat plies).length ≤ plies.length := by
  unfold npUniqueNat
  rw [List.length_insertionSort]
  exact (List.dedup_sublist _).length_le

theorem stripWeights_spec {plies : List Nat} {sym : Bool} {nRef : Int} {bs : List (Nat × Nat)}
    {bw : List ((Nat × Nat) × ℚ)} {r : Reduced} (h : mkReduced plies sym nRef bs bw = .ok r) (weights : List ℚ) :
    r.stripWeights weights = r.nPlies.map (Spec.firstWeight plies weights) := by
  obtain ⟨h1, h2, _⟩ := mkReduced_inv h
  unfold Reduced.stripWeights
  rw [h2, h1, List.map_map]
  rfl

theorem guide_eq {plies : List Nat} {sym : Bool} {nRef : Int} {bs : List (Nat × Nat)}
    {bw : List ((Nat × Nat) × ℚ)} {r : Reduced} (h : mkReduced plies sym nRef bs bw = .ok r) {i j : Nat}
    (hi : i < plies.length) (hj : j < r.nPlies.length) :
    r.indPanelsGuide.getD i 0 = j ↔ plies.getD i 0 = r.nPlies.getD j 0 := by
  obtain ⟨h1, _, h3, _⟩ := mkReduced_inv h
  have hm : plies[i] ∈ npUniqueNat plies := npUniqueNat_mem.2 (List.getElem_mem hi)
  rw [h1] at hj
  rw [h3, h1]
  simp only [List.getD_eq_getElem?_getD, List.getElem?_map, List.getElem?_eq_getElem hi, Option.map_some, Option.getD_some,
    List.getElem?_eq_getElem hj]
  constructor
  · rintro rfl
    exact (List.getElem_idxOf (List.idxOf_lt_length_of_mem hm)).symm
  · intro e
    rw [e]
    exact (npUniqueNat_nodup plies).idxOf_getElem _ _

/-- C49: the weighting of each panel of the strip is the sum of the weightings of the strip panels whose *position in the
strip* is the position in the structure of a panel with its number of plies. -/
theorem C49_weightings (plies : List Nat) (weights : List ℚ) (sym : Bool) (nRef : Int)
    (bs : List (Nat × Nat)) (bw : List ((Nat × Nat) × ℚ)) (r : Reduced)
    (h : mkReduced plies sym nRef bs bw = .ok r) :
    (r.actualWeights weights).length = r.nPlies.length ∧ ∀ j, j < r.nPlies.length →
      (r.actualWeights weights).getD j 0 = ∑ i ∈ Finset.range r.nPlies.length,
        if plies.getD i 0 = r.nPlies.getD j 0 then Spec.firstWeight plies weights (r.nPlies.getD i 0) else 0 := by
  have hs := stripWeights_spec h weights
  have hl : (r.stripWeights weights).length = r.nPlies.length := by rw [hs, List.length_map]
  obtain ⟨a1, a2⟩ := actualPanelWeightings_at r.indPanelsGuide (r.stripWeights weights)
  refine ⟨by rw [← hl]; exact a1, ?_⟩
  intro j hj
  unfold Reduced.actualWeights
  rw [a2 j (by rw [hl]; exact hj), hl]
  apply Finset.sum_congr rfl
  intro i hi
  have hi := Finset.mem_range.1 hi
  have h1 := (mkReduced_inv h).1
  have hi2 : i < plies.length := by
    have := npUniqueNat_length_le plies
    rw [h1] at hi
    omega
  have e1 : (r.stripWeights weights).getD i 0 = Spec.firstWeight plies weights (r.nPlies.getD i 0) := by
    rw [hs]
    simp [List.getD_eq_getElem?_getD, hi]
  rw [e1]
  by_cases hg : plies.getD i 0 = r.nPlies.getD j 0
  · rw [if_pos hg, if_pos ((guide_eq h hi2 hj).2 hg)]
  · rw [if_neg hg, if_neg (fun e => hg ((guide_eq h hi2 hj).1 e))]

/-- C49: the total of the weightings is that of the panels kept in the strip. -/
theorem C49_total (plies : List Nat) (weights : List ℚ) (sym : Bool) (nRef : Int)
    (bs : List (Nat × Nat)) (bw : List ((Nat × Nat) × ℚ)) (r : Reduced)
    (h : mkReduced plies sym nRef bs bw = .ok r) :
    (r.actualWeights weights).sum = (r.nPlies.map (Spec.firstWeight plies weights)).sum := by
  obtain ⟨a1, a2⟩ := C49_weightings plies weights sym nRef bs bw r h
  have sumD : ∀ l : List ℚ, l.sum = ∑ j ∈ Finset.range l.length, l.getD j 0 := by
    intro l
    induction l with
    | nil => rfl
    | cons a t ih =>
      rw [List.sum_cons, ih, List.length_cons, Finset.sum_range_succ']
      simp [add_comm]
  rw [sumD, sumD, a1, List.length_map, Finset.sum_congr rfl (fun j hj => a2 j (Finset.mem_range.1 hj)), Finset.sum_comm]
  apply Finset.sum_congr rfl
  intro i hi
  have hi := Finset.mem_range.1 hi
  have h1 := (mkReduced_inv h).1
  have hi2 : i < plies.length := by
    have := npUniqueNat_length_le plies
    rw [h1] at hi
    omega
  have hm : plies.getD i 0 ∈ r.nPlies := by
    rw [h1, npUniqueNat_mem, List.getD_eq_getElem?_getD, List.getElem?_eq_getElem hi2]
    exact List.getElem_mem hi2
  obtain ⟨j, hj, e⟩ := List.getElem_of_mem hm
  rw [Finset.sum_eq_single j]
  · have e' : plies.getD i 0 = r.nPlies.getD j 0 := by
      rw [← e]; simp [List.getD_eq_getElem?_getD, hj]
    rw [if_pos e']
    simp [List.getD_eq_getElem?_getD, hi]
  · intro b hb hbj
    rw [if_neg]
    intro e2
    apply hbj
    have hb := Finset.mem_range.1 hb
    have n := npUniqueNat_nodup plies
    rw [← h1] at n
    rw [← e] at e2
    rw [List.getD_eq_getElem?_getD, List.getElem?_eq_getElem hb] at e2
    exact (n.getElem_inj_iff.1 e2).symm
  · intro hn
    exact absurd (Finset.mem_range.2 hj) hn

/-- C49: the weightings of the strip are those of its panels, whatever the weightings, exactly when the structure lists the
panels of the strip first, by increasing number of plies. -/
theorem C49_own_iff (plies : List Nat) (sym : Bool) (nRef : Int)
    (bs : List (Nat × Nat)) (bw : List ((Nat × Nat) × ℚ)) (r : Reduced)
    (h : mkReduced plies sym nRef bs bw = .ok r) :
    (∀ weights : List ℚ, r.actualWeights weights = r.nPlies.map (Spec.firstWeight plies weights)) ↔
      plies.take r.nPlies.length = r.nPlies := by
  have h1 := (mkReduced_inv h).1
  have hle := npUniqueNat_length_le plies
  rw [← h1] at hle
  have hnd := npUniqueNat_nodup plies
  rw [← h1] at hnd
  have inPlies : ∀ n, n ∈ r.nPlies → n ∈ plies := fun n hn => by
    rw [h1] at hn
    exact npUniqueNat_mem.1 hn
  constructor
  · intro hall
    apply List.ext_getElem
    · rw [List.length_take]; omega
    · intro i h1' hi
      -- the weighting 1 for the panel of the strip in position `i`
      have hw := hall ((List.replicate plies.length 0).set (plies.idxOf (r.nPlies.getD i 0)) 1)
      have hmem : r.nPlies[i] ∈ plies := by
        exact inPlies _ (List.getElem_mem hi)
      have hix : plies.idxOf r.nPlies[i] < plies.length := List.idxOf_lt_length_of_mem hmem
      have gi : r.nPlies.getD i 0 = r.nPlies[i] := by simp [List.getD_eq_getElem?_getD, hi]
      have fw : ∀ k, k < r.nPlies.length → Spec.firstWeight plies
          ((List.replicate plies.length (0 : ℚ)).set (plies.idxOf (r.nPlies.getD i 0)) 1) (r.nPlies.getD k 0) =
            if k = i then 1 else 0 := by
        intro k hk
        unfold Spec.firstWeight
        have gk : r.nPlies.getD k 0 = r.nPlies[k] := by simp [List.getD_eq_getElem?_getD, hk]
        have hmk : r.nPlies[k] ∈ plies := by
          exact inPlies _ (List.getElem_mem hk)
        rw [getD_set' _ _ _ _ _ (by rw [gk, List.length_replicate]; exact List.idxOf_lt_length_of_mem hmk)]
        by_cases e : k = i
        · subst e; simp
        · rw [if_neg e, if_neg]
          · rw [List.getD_eq_getElem?_getD, List.getElem?_replicate]
            split <;> rfl
          · intro e2
            apply e
            rw [gk, gi] at e2
            have : r.nPlies[i] = r.nPlies[k] := (List.idxOf_inj hmem).1 e2
            exact (hnd.getElem_inj_iff.1 this).symm
      have e := congrArg (fun l : List ℚ => l.getD i 0) hw
      beta_reduce at e
      rw [(C49_weightings plies _ sym nRef bs bw r h).2 i hi] at e
      have e3 : (r.nPlies.map (Spec.firstWeight plies
          ((List.replicate plies.length (0 : ℚ)).set (plies.idxOf (r.nPlies.getD i 0)) 1))).getD i 0 = 1 := by
        have := fw i hi
        rw [if_pos rfl] at this
        refine Eq.trans ?_ this
        rw [gi, List.getD_eq_getElem?_getD, List.getElem?_map, List.getElem?_eq_getElem hi]
        rfl
      rw [e3, Finset.sum_congr rfl (fun k hk => by rw [fw k (Finset.mem_range.1 hk)])] at e
      by_contra hne
      apply zero_ne_one (α := ℚ)
      rw [← e]
      symm
      apply Finset.sum_eq_zero
      intro k hk
      by_cases ek : k = i
      · subst ek
        rw [if_neg]
        intro e4
        apply hne
        rw [List.getElem_take, ← gi, ← e4]
        simp [List.getD_eq_getElem?_getD, show k < plies.length by omega]
      · rw [if_neg ek, ite_self]
  · intro ht weights
    obtain ⟨a1, a2⟩ := C49_weightings plies weights sym nRef bs bw r h
    apply List.ext_getElem
    · rw [a1, List.length_map]
    · intro i hi hi'
      have hi2 : i < r.nPlies.length := by rw [a1] at hi; exact hi
      have e := a2 i hi2
      rw [List.getD_eq_getElem?_getD, List.getElem?_eq_getElem hi, Option.getD_some] at e
      rw [e, List.getElem_map]
      have pk : ∀ k, k < r.nPlies.length → plies.getD k 0 = r.nPlies.getD k 0 := by
        intro k hk
        conv_rhs => rw [← ht]
        simp [List.getD_eq_getElem?_getD, List.getElem?_take, hk]
      rw [Finset.sum_eq_single i]
      · rw [if_pos (pk i hi2)]
        simp [List.getD_eq_getElem?_getD, hi2]
      · intro k hk hki
        have hk := Finset.mem_range.1 hk
        rw [pk k hk, if_neg]
        intro e2
        apply hki
        simp only [List.getD_eq_getElem?_getD, List.getElem?_eq_getElem hk, List.getElem?_eq_getElem hi2,
          Option.getD_some] at e2
        exact hnd.getElem_inj_iff.1 e2
      · intro hn
        exact absurd (Finset.mem_range.2 hi2) hn

/-- C49: the weightings of the strip are the aggregated weightings of the panels it stands for (what the documentation of
`calc_panel_weigthings` says), whatever the weightings, exactly when the numbers of plies of the structure are strictly
increasing. -/
theorem C49_aggregated_iff (plies : List Nat) (sym : Bool) (nRef : Int)
    (bs : List (Nat × Nat)) (bw : List ((Nat × Nat) × ℚ)) (r : Reduced)
    (h : mkReduced plies sym nRef bs bw = .ok r) :
    (∀ weights : List ℚ, r.actualWeights weights = r.nPlies.map (Spec.aggregated plies weights)) ↔
      plies.Pairwise (· < ·) := by
  have h1 := (mkReduced_inv h).1
  have hnd := npUniqueNat_nodup plies
  have hle := npUniqueNat_length_le plies
  rw [← h1] at hnd hle
  -- for distinct numbers of plies both notions agree
  have agree : plies.Nodup → ∀ (weights : List ℚ), ∀ n ∈ plies,
      Spec.aggregated plies weights n = Spec.firstWeight plies weights n := by
    intro hp weights n hn
    unfold Spec.aggregated Spec.firstWeight
    have hix := List.idxOf_lt_length_of_mem hn
    rw [Finset.sum_eq_single (plies.idxOf n)]
    · rw [if_pos]
      simp [List.getD_eq_getElem?_getD, hix]
    · intro k hk hne
      have hk := Finset.mem_range.1 hk
      rw [if_neg]
      rintro rfl
      apply hne
      simp only [List.getD_eq_getElem?_getD, List.getElem?_eq_getElem hk, Option.getD_some]
      exact (hp.idxOf_getElem k hk).symm
    · intro hn
      exact absurd (Finset.mem_range.2 hix) hn
  constructor
  · intro hall
    -- the weighting 1 for one panel: the total shows that it is in the strip
    have hp : plies.Nodup := by
      rw [List.nodup_iff_injective_get]
      intro a b hab
      by_contra hne
      -- the later of the two is not the first panel with its number of plies
      have main : ∀ a b : Fin plies.length, a < b → plies.get a = plies.get b → False := by
        intro a b hlt hab
        have hw := hall ((List.replicate plies.length 0).set b 1)
        have hs := congrArg List.sum hw
        rw [C49_total plies _ sym nRef bs bw r h] at hs
        have z : (r.nPlies.map (Spec.firstWeight plies ((List.replicate plies.length (0 : ℚ)).set b 1))).sum = 0 := by
          apply List.sum_eq_zero
          intro x hx
          obtain ⟨n, hn, rfl⟩ := List.mem_map.1 hx
          rw [h1, npUniqueNat_mem] at hn
          unfold Spec.firstWeight
          rw [getD_set' _ _ _ _ _ (by simpa using List.idxOf_lt_length_of_mem hn), if_neg]
          · rw [List.getD_eq_getElem?_getD, List.getElem?_replicate]
            split <;> rfl
          · intro e
            have hx := List.getElem_idxOf (List.idxOf_lt_length_of_mem hn)
            have hb : plies[(b : Nat)] = n := by
              refine Eq.trans ?_ hx
              congr 1
            have ha : plies[(a : Nat)] = n := Eq.trans hab hb
            have hle : plies.idxOf n ≤ a := by
              by_contra hc
              have := List.not_of_lt_findIdx (p := (· == n)) (xs := plies) (i := (a : Nat)) (by
                unfold List.idxOf at hc; omega)
              simp [ha] at this
            have : (a : Nat) < b := hlt
            omega
        rw [z] at hs
        have hb : plies[(b : Nat)] ∈ r.nPlies := by
          rw [h1, npUniqueNat_mem]; exact List.getElem_mem _
        have nn : ∀ n, 0 ≤ Spec.aggregated plies ((List.replicate plies.length (0 : ℚ)).set b 1) n := by
          intro n
          apply Finset.sum_nonneg
          intro i hi
          have hi := Finset.mem_range.1 hi
          split
          · rw [getD_set' _ _ _ _ _ (by simpa using hi)]
            split
            · norm_num
            · rw [List.getD_eq_getElem?_getD, List.getElem?_replicate]
              split <;> norm_num
          · exact le_refl _
        have one : 1 ≤ Spec.aggregated plies ((List.replicate plies.length (0 : ℚ)).set b 1) plies[(b : Nat)] := by
          unfold Spec.aggregated
          have hb2 : (b : Nat) < plies.length := b.2
          have := Finset.single_le_sum (f := fun i => if plies.getD i 0 = plies[(b : Nat)] then
            ((List.replicate plies.length (0 : ℚ)).set b 1).getD i 0 else 0) (s := Finset.range plies.length) (by
              intro i hi
              have hi := Finset.mem_range.1 hi
              split
              · rw [getD_set' _ _ _ _ _ (by simpa using hi)]
                split
                · norm_num
                · rw [List.getD_eq_getElem?_getD, List.getElem?_replicate]
                  split <;> norm_num
              · exact le_refl _) (Finset.mem_range.2 hb2)
          rw [if_pos (by simp [List.getD_eq_getElem?_getD]), getD_set' _ _ _ _ _ (by simp),
            if_pos rfl] at this
          exact this
        have : Spec.aggregated plies ((List.replicate plies.length (0 : ℚ)).set b 1) plies[(b : Nat)] ≤
            (r.nPlies.map (Spec.aggregated plies ((List.replicate plies.length (0 : ℚ)).set b 1))).sum :=
          List.single_le_sum (by
            intro x hx
            obtain ⟨n, _, rfl⟩ := List.mem_map.1 hx
            exact nn n) _ (List.mem_map.2 ⟨_, hb, rfl⟩)
        rw [← hs] at this
        linarith
      rcases lt_or_gt_of_ne hne with hlt | hlt
      · exact main a b hlt hab
      · exact main b a hlt hab.symm
    have own : ∀ weights : List ℚ, r.actualWeights weights = r.nPlies.map (Spec.firstWeight plies weights) := by
      intro weights
      rw [hall weights]
      apply List.map_congr_left
      intro n hn
      rw [h1, npUniqueNat_mem] at hn
      exact agree hp weights n hn
    have ht := (C49_own_iff plies sym nRef bs bw r h).1 own
    have hl : r.nPlies.length = plies.length := by
      rw [h1]
      unfold npUniqueNat
      rw [List.length_insertionSort, hp.dedup]
    rw [hl, List.take_length] at ht
    rw [ht]
    exact (C15_reduction plies sym nRef bs bw r h).1
  · intro hs weights
    have hp : plies.Nodup := hs.imp (fun h => Nat.ne_of_lt h)
    have e : r.nPlies = plies := by rw [h1]; exact idxOf_npUnique_of_sorted hs
    rw [(C49_own_iff plies sym nRef bs bw r h).2 (by rw [e, List.take_length]) weights]
    apply List.map_congr_left
    intro n hn
    rw [e] at hn
    exact (agree hp weights n hn).symm

/-- C49, violation: in a structure with two panels of 12 plies and one of 16 plies, with weightings 1/2, 1/4 and 1/4, the
16-ply panel gets no weight at all in the objective. -/
theorem C49_lost_panel_violation : ∃ r, mkReduced [12, 12, 16] true 12 [] [] = .ok r ∧ r.nPlies = [12, 16] ∧
    [12, 16].map (Spec.aggregated [12, 12, 16] [1 / 2, 1 / 4, 1 / 4]) = [3 / 4, 1 / 4] ∧
    r.actualWeights [1 / 2, 1 / 4, 1 / 4] = [3 / 4, 0] := by
  refine ⟨⟨[12, 16], [0, 2], [0, 0, 1], 0, [], [], [],
    [⟨1, 12, 14, true, 0⟩, ⟨1, 14, 16, false, 0⟩]⟩, by decide +kernel, rfl, ?_, by decide +kernel⟩
  simp [Spec.aggregated, Finset.sum_range_succ]
  norm_num

/-- C49, violation: `panel_weightings_ini` of the strip is always zero. -/
theorem C49_initial_zero_violation (r : Reduced) : r.iniWeights = List.replicate r.nPlies.length 0 := by
  unfold Reduced.iniWeights
  have gen : ∀ (l : List Nat), l.foldl (fun (acc : List ℚ) (i : Nat) =>
      let j := r.indPanelsGuide.getD i 0
      acc.set j (acc.getD j 0 + acc.getD i 0)) (List.replicate r.nPlies.length 0) = List.replicate r.nPlies.length 0 := by
    intro l
    induction l with
    | nil => rfl
    | cons i t ih =>
      rw [List.foldl_cons]
      have z : ∀ k, (List.replicate r.nPlies.length (0 : ℚ)).getD k 0 = 0 := by
        intro k
        rw [List.getD_eq_getElem?_getD, List.getElem?_replicate]
        split <;> rfl
      have : (let j := r.indPanelsGuide.getD i 0
        (List.replicate r.nPlies.length (0 : ℚ)).set j ((List.replicate r.nPlies.length (0 : ℚ)).getD j 0 +
          (List.replicate r.nPlies.length (0 : ℚ)).getD i 0)) = List.replicate r.nPlies.length 0 := by
        dsimp only
        rw [z, z, add_zero, List.set_replicate_self]
      rw [this]
      exact ih
  exact gen _

example : ∃ r, mkReduced [12, 16, 16] true 12 [] [] = .ok r ∧ [12, 16, 16].take r.nPlies.length = r.nPlies ∧
    r.actualWeights [1 / 2, 1 / 4, 1 / 4] = [1 / 2, 1 / 4] := by
  refine ⟨⟨[12, 16], [0, 1], [0, 1, 1], 0, [], [], [],
    [⟨1, 12, 14, true, 0⟩, ⟨1, 14, 16, false, 0⟩]⟩, by decide +kernel, rfl, by decide +kernel⟩

end Bella
