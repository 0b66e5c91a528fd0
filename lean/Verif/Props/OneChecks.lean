import Verif.Props.OnePdl
/-
Property C62: what holds of every design returned by BELLA_optimiser_one_pdl, also of the one kept after failed repairs.
-/
namespace Bella

variable {V : Type} [AddCommMonoid V]

/-- C62: every design returned, also after failed repairs and with the option that filters the nodes, has for each panel of the
structure a laminate with the number of plies of the panel. -/
theorem C62_ply_counts (P : Problem V) (O : OneSetup) (save : Bool) (plies : List Nat) (w : Nat) (nRef : Int)
    (bs : List (Nat × Nat)) (bw : List ((Nat × Nat) × ℚ)) (hr : mkReduced plies P.c.sym nRef bs bw = .ok O.S.r) (res : OneResult)
    (h : optimiserOnePdl P O save plies.length w = some (.ok (some res))) :
    res.ss.length = plies.length ∧ ∀ (i n : Nat), plies[i]? = some n → ∃ s : Stack, res.ss[i]? = some s ∧ s.length = n := by
  unfold optimiserOnePdl at h
  split at h
  · cases h
  · split at h
    · cases h
    · cases h
    · have h := Option.some.inj h
      unfold finishOne at h
      obtain ⟨sel, _, h⟩ := bind_ok.1 h
      split at h
      · cases h
      · rename_i ss tables lps counts obj _
        obtain ⟨r, h1, h⟩ := bind_ok.1 h
        have h := Option.some.inj (Except.ok.inj h)
        subst h
        obtain ⟨_, e1, _⟩ := finishDesign_ok h1
        unfold finishDesign at h1
        obtain ⟨u, hc, _⟩ := bind_ok.1 h1
        have hc : ∀ p, p < O.S.r.nPlies.length → (ss.getD p []).length = O.S.r.nPlies.getD p 0 := by
          unfold checkCounts requirePy at hc
          split at hc
          · rename_i hall
            intro p hp
            have := List.all_eq_true.1 hall p (List.mem_range.2 hp)
            simpa using this
          · cases hc
        obtain ⟨m1, _, m3, _⟩ := mkReduced_inv hr
        have hl : r.ss.length = plies.length := by
          have := mapM_len e1
          rw [this, List.length_range]
        refine ⟨hl, fun i n hi => ?_⟩
        have hlt := (List.getElem?_eq_some_iff.1 hi).1
        obtain ⟨y, y1, y2⟩ := mapM_at e1 (i := i) (x := i) (by rw [List.getElem?_range hlt])
        obtain ⟨j, j1, j2⟩ := bind_ok.1 y2
        rw [pyGet_eq_ok] at j1 j2
        have e : O.S.r.indPanelsGuide[i]? = some (O.S.r.nPlies.idxOf n) := by
          rw [m3, ← m1]; simp [hi]
        rw [e] at j1
        have j1 := Option.some.inj j1
        have hmem : n ∈ O.S.r.nPlies := by rw [m1, mem_npUniqueNat]; exact List.mem_of_getElem? hi
        have hj : j < O.S.r.nPlies.length := by rw [← j1]; exact List.idxOf_lt_length_of_mem hmem
        have := hc j hj
        rw [List.getD_eq_getElem?_getD, List.getD_eq_getElem?_getD, j2, ← j1, getElem?_idxOf hmem] at this
        exact ⟨y, y1, this⟩

/-- C62: the value 1e10 of a panel is the value of the whole design: a design with a failed repair, or in which some panel has
the value 1e10, has the value 1e10. -/
theorem C62_failure_marker (O : OneSetup) (pdl : Table) (w : Nat) (bot top : List Stack) (d : Design) (hn : O.S.r.nPlies ≠ [])
    (h : repairNode O pdl w bot top = some (.ok d)) :
    (d.success = false → ∀ o ∈ d.objsNo, o = 10 ^ 10) ∧ ((d.success = false ∨ (10 ^ 10 : ℚ) ∈ d.objsNo) → d.obj = 10 ^ 10) := by
  obtain ⟨_, _, p, _, _, _, _, _, _, _, _, _, h1, h2⟩ := repairNode_ok h
  have hf : failObj = 10 ^ 10 := by unfold failObj; norm_num
  have key : d.success = false → d.objsNo = List.replicate O.S.r.nPlies.length (10 ^ 10 : ℚ) := by
    intro hs
    unfold designObjs at h1
    rw [if_neg (by rw [hs]; exact Bool.false_ne_true), hf] at h1
    exact (Except.ok.inj h1).symm
  refine ⟨fun hs o ho => ?_, fun hc => ?_⟩
  · rw [key hs] at ho
    exact List.eq_of_mem_replicate ho
  · have hm : (10 ^ 10 : ℚ) ∈ d.objsNo := by
      rcases hc with hs | hm
      · rw [key hs]
        exact List.mem_replicate.2 ⟨fun e => hn (List.length_eq_zero_iff.1 e), rfl⟩
      · exact hm
    unfold designObj at h2
    rw [if_neg, hf] at h2
    · exact (Except.ok.inj h2).symm
    · intro hall
      have := List.all_eq_true.1 hall _ hm
      rw [hf] at this
      simp at this

end Bella
