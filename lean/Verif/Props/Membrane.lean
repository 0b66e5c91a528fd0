import Verif.Proofs.MembraneMain
/-
C33: the refinement of the in-plane properties, `repair_membrane`.
-/
namespace Bella

/-! ### Ply contents -/

theorem nth_some {l : List Int} {i : Nat} (h : i < l.length) : l[i]? = some (nth l i) := by
  unfold nth
  rw [List.getD_eq_getElem _ _ h, List.getElem?_eq_getElem]

/-- The middle ply of a symmetric laminate with an odd number of plies. -/
def midPly (sym : Bool) (ss : Stack) : List Int :=
  if sym = true ∧ ss.length % 2 ≠ 0 then [nth ss (ss.length / 2)] else []

theorem plyContent_count (sym : Bool) (ss : Stack) (q : List Int) (hs : sym = true → Spec.Symmetric ss) (x : Int)
    (hx : x ≠ 666) :
    (Spec.plyContent sym ss q).count x =
      (if sym then 2 else 1) * (designAll sym ss q).count x + (midPly sym ss).count x := by
  unfold Spec.plyContent midPly
  rw [List.count_append, List.count_append, count_known_of_ne _ _ hx, designAll_count _ _ _ _ hx]
  unfold designHalf
  cases sym
  · simp
  · have h := symmetric_count ss (hs rfl) x
    have e2 : ((ss.drop (ss.length / 2)).take (ss.length % 2)).count x =
        (if True ∧ ss.length % 2 ≠ 0 then [nth ss (ss.length / 2)] else []).count x := by
      rcases Nat.mod_two_eq_zero_or_one ss.length with h2 | h2
      · simp [h2]
      · have hlt : ss.length / 2 < ss.length := by omega
        have h5 : (ss.drop (ss.length / 2)).take (ss.length % 2) = [nth ss (ss.length / 2)] := by
          rw [h2]
          unfold nth
          rw [List.getD_eq_getElem _ _ hlt, List.drop_eq_getElem_cons hlt]
          rfl
        rw [h5, if_pos ⟨trivial, by omega⟩]
    simp only [if_true]
    rw [e2] at h
    rw [h]
    simp only [true_and]
    ring

/-- A laminate with the ply content of the partial laminate and the queue. -/
def fullStack (sym : Bool) (ss : Stack) (q : List Int) : Stack :=
  if sym then designAll sym ss q ++ midPly sym ss ++ (designAll sym ss q).reverse else designAll sym ss q

theorem fullStack_perm (sym : Bool) (ss : Stack) (q : List Int) (hs : sym = true → Spec.Symmetric ss)
    (hq : (666 : Int) ∉ q) (hm : (666 : Int) ∉ midPly sym ss) :
    (fullStack sym ss q).Perm (Spec.plyContent sym ss q) := by
  rw [List.perm_iff_count]
  intro x
  by_cases hx : x = 666
  · subst hx
    have h1 : (designAll sym ss q).count 666 = 0 := by
      rw [List.count_eq_zero]
      unfold designAll
      rw [List.mem_append]
      rintro (h | h)
      · exact not_mem_known _ h
      · exact hq h
    have h2 : (Spec.plyContent sym ss q).count 666 = 0 := by
      rw [List.count_eq_zero]
      unfold Spec.plyContent
      rw [List.mem_append, List.mem_append]
      rintro ((h | h) | h)
      · exact not_mem_known _ h
      · exact hq h
      · split_ifs at h
        · exact hq h
        · cases h
    rw [h2]
    unfold fullStack
    split_ifs
    · rw [List.count_append, List.count_append, List.count_reverse, h1, List.count_eq_zero.2 hm]
    · exact h1
  · rw [plyContent_count sym ss q hs x hx]
    unfold fullStack
    cases sym
    · simp [midPly]
    · simp only [if_true]
      rw [List.count_append, List.count_append, List.count_reverse]
      ring

/-- The lamination parameters computed by the code are those of the ply content. -/
theorem inPlane_eq {c : Cons} (D : MemData) (cs : Int → Nat → ℚ)
    (hcs : ∀ (r : Nat) (a : Int), c.angles[r]? = some a → ∀ k, D.cosSin r k = cs a k)
    (l : List Int) (hl : ∀ a ∈ l, a ∈ c.angles) (n k : Nat) :
    Spec.inPlane cs n l k = csSum c D l k / n := by
  unfold Spec.inPlane csSum
  congr 2
  apply List.map_congr_left
  intro a ha
  unfold csOf
  have hm := hl a ha
  rw [hcs _ a _ k]
  rw [List.getElem?_eq_getElem (List.idxOf_lt_length_of_mem hm)]
  simp

/-! ### What the candidates are -/

theorem reach_facts {c : Cons} {ind : List Nat} {m : Nat} {ss0 : Stack} {q0 : List Int} {ss : Stack} {q : List Int}
    {F T : List Int} (hind : IndOk c.sym m ss0.length ind)
    (hss : ∀ a ∈ ss0, a = 666 ∨ a ∈ c.angles) (hq : ∀ a ∈ q0, a ∈ c.angles)
    (h : PlyChanges c.sym (fun i => i ∈ ind) ss0 q0 ss q F T) (hT : ∀ y ∈ T, y ∈ c.angles) :
    midPly c.sym ss = midPly c.sym ss0 ∧
    (∀ i, i < ss0.length → i < m ∨ ss0.length ≤ i + m → nth ss i = nth ss0 i) ∧
    (∀ a ∈ ss, a = 666 ∨ a ∈ c.angles) ∧ (∀ a ∈ q, a ∈ c.angles) := by
  have hmidEq : c.sym = true → ss0.length % 2 ≠ 0 → nth ss (ss0.length / 2) = nth ss0 (ss0.length / 2) := by
    intro hs hodd
    refine h.same _ (by omega) ?_ ?_
    · intro hi
      have := hind.half hs _ hi
      omega
    · rintro ⟨_, hi⟩
      have := hind.half hs _ hi
      omega
  have hall : ∀ a ∈ designAll c.sym ss q, a ∈ c.angles := by
    intro a ha
    have h1 := List.count_pos_iff.2 ha
    have h2 := h.cnt a
    by_cases ht : a ∈ T
    · exact hT a ht
    · rw [List.count_eq_zero.2 ht] at h2
      have h3 : a ∈ designAll c.sym ss0 q0 := List.count_pos_iff.1 (by omega)
      unfold designAll at h3
      rcases List.mem_append.1 h3 with h4 | h4
      · have hne : a ≠ 666 := fun he => not_mem_known _ (he ▸ h4)
        have h5 : a ∈ ss0 := by
          unfold Spec.knownPlies at h4
          have := (List.mem_filter.1 h4).1
          unfold designHalf at this
          split_ifs at this
          · exact List.mem_of_mem_take this
          · exact this
        rcases hss a h5 with h6 | h6
        · exact absurd h6 hne
        · exact h6
      · exact hq a h4
  refine ⟨?_, ?_, ?_, ?_⟩
  · unfold midPly
    rw [h.len]
    split_ifs with hc
    · rw [hmidEq hc.1 hc.2]
    · rfl
  · intro i hi hc
    refine h.same i hi ?_ ?_
    · intro hm
      have := hind.lo i hm
      have := hind.hi i hm
      omega
    · rintro ⟨_, hm⟩
      have := hind.lo _ hm
      have := hind.hi _ hm
      omega
  · intro a ha
    by_cases hne : a = 666
    · exact Or.inl hne
    right
    by_cases hd : a ∈ designHalf c.sym ss
    · apply hall
      unfold designAll Spec.knownPlies
      rw [List.mem_append, List.mem_filter]
      left
      exact ⟨hd, by simpa using hne⟩
    · cases hs : c.sym
      · unfold designHalf at hd
        rw [hs] at hd
        exact absurd ha hd
      · have hsy := h.symm hs
        have hc := symmetric_count ss hsy a
        unfold designHalf at hd
        rw [hs, if_pos rfl] at hd
        rw [List.count_eq_zero.2 hd] at hc
        have hp := List.count_pos_iff.2 ha
        have h3 : a ∈ (ss.drop (ss.length / 2)).take (ss.length % 2) := List.count_pos_iff.1 (by omega)
        rcases Nat.mod_two_eq_zero_or_one ss.length with h2 | h2
        · rw [h2] at h3; simp at h3
        · have hlt : ss.length / 2 < ss.length := by omega
          have h5 : (ss.drop (ss.length / 2)).take (ss.length % 2) = [nth ss (ss.length / 2)] := by
            rw [h2]
            unfold nth
            rw [List.getD_eq_getElem _ _ hlt, List.drop_eq_getElem_cons hlt]
            rfl
          rw [h5, List.mem_singleton] at h3
          have hl := h.len
          rw [hl] at h2
          rw [h3, hl, hmidEq hs (by omega)]
          have hlt0 : ss0.length / 2 < ss0.length := by omega
          have hmem : nth ss0 (ss0.length / 2) ∈ ss0 := by
            unfold nth; rw [List.getD_eq_getElem _ _ hlt0]; exact List.getElem_mem _
          rcases hss _ hmem with h6 | h6
          · exfalso; apply hne
            rw [h3, hl, hmidEq hs (by omega), h6]
          · exact h6
  · intro a ha
    apply hall
    unfold designAll
    rw [List.mem_append]
    exact Or.inr ha

theorem membrane_cases {imported switch : Bool} {dist : (Nat → ℚ) → ℚ} {c : Cons} {attr : DamTolAttr}
    {D : MemData} {mini : Mini10} {fuel : Nat} {ss : Stack} {q : List Int} {out : List (Stack × List Int)}
    (h : repairMembrane imported switch dist c attr D mini fuel ss q = some (.ok out)) :
    out = [(ss, q)] ∨ ∃ st, repairMembrane1 imported dist c attr D mini fuel ss q = some (.ok st) ∧
      out = st.out.map (fun (x : MemCand) => (x.ss, x.queue)) := by
  unfold repairMembrane at h
  split_ifs at h with h0
  · left
    cases h1 : calcLampamA c D ss q with
    | error e => rw [h1] at h; cases h
    | ok lam => rw [h1] at h; cases h; rfl
  · right
    cases h1 : repairMembrane1 imported dist c attr D mini fuel ss q with
    | none => rw [h1] at h; cases h
    | some r =>
      cases r with
      | error e => rw [h1] at h; cases h
      | ok st => rw [h1] at h; cases h; exact ⟨st, rfl, rfl⟩

theorem keeps_true (c : Cons) (abd : Bool) (dist : (Nat → ℚ) → ℚ) (ind : List Nat) (n : Nat) :
    KeepsOne c abd dist ind n (fun _ _ _ _ => True) ∧ KeepsTwo c abd dist ind n (fun _ _ _ _ => True) :=
  ⟨fun _ _ _ _ _ _ _ _ _ _ _ _ _ _ _ _ => trivial,
   fun _ _ _ _ _ _ _ _ _ _ _ _ _ _ _ _ => trivial, fun _ _ _ _ _ _ _ _ _ _ _ _ _ _ _ => ⟨fun _ => 0, trivial⟩⟩

theorem hobj_of {c : Cons} (A : AngleSet c) (D : MemData) (cs : Int → Nat → ℚ)
    (hcs : ∀ (r : Nat) (a : Int), c.angles[r]? = some a → ∀ k, D.cosSin r k = cs a k)
    (ss : Stack) (q : List Int) (hss : ∀ a ∈ ss, a = 666 ∨ a ∈ c.angles)
    (hq : ∀ a ∈ q, a ∈ c.angles) (hsy : c.sym = true → Spec.Symmetric ss) (lam : Nat → ℚ)
    (h : calcLampamA c D ss q = .ok lam) :
    lam = Spec.inPlane cs ss.length (Spec.plyContent c.sym ss q) := by
  obtain ⟨_, hm, hl⟩ := calcLampamA_spec A D ss q lam hss hq h
  funext k
  rw [hl k, ← csSum_plyContent c D ss q hsy (fun h1 h2 => ne666 A (hm h1 h2)) k, inPlane_eq D cs hcs]
  intro a ha
  unfold Spec.plyContent at ha
  rw [List.mem_append, List.mem_append] at ha
  rcases ha with (h1 | h1) | h1
  · have h2 := List.mem_filter.1 h1
    rcases hss a h2.1 with h3 | h3
    · simp [h3] at h2
    · exact h3
  · exact hq a h1
  · split_ifs at h1
    · exact hq a h1
    · cases h1

/-- The lamination parameters and the objective of a candidate are those of its ply content. -/
theorem cand_lam {c : Cons} (A : AngleSet c) {ind : List Nat} {m : Nat} (D : MemData) (cs : Int → Nat → ℚ)
    (hcs : ∀ (r : Nat) (a : Int), c.angles[r]? = some a → ∀ k, D.cosSin r k = cs a k)
    (ss : Stack) (q : List Int) (hss : ∀ a ∈ ss, a = 666 ∨ a ∈ c.angles)
    (hq : ∀ a ∈ q, a ∈ c.angles) (hind : IndOk c.sym m ss.length ind)
    (hmid : c.sym = true → ss.length % 2 ≠ 0 → nth ss (ss.length / 2) ∈ c.angles)
    (x : MemCand) (h : CandOk c ind D ss q (midTerm c D ss) x) :
    x.lam = Spec.inPlane cs ss.length (Spec.plyContent c.sym x.ss x.queue) := by
  obtain ⟨F, T, h1, h2⟩ := h.reach
  obtain ⟨f1, _, f3, f4⟩ := reach_facts hind hss hq h1 h2
  have hm' : c.sym = true → ss.length % 2 ≠ 0 → nth x.ss (ss.length / 2) = nth ss (ss.length / 2) := by
    intro a b
    unfold midPly at f1
    rw [h1.len, if_pos ⟨a, b⟩, if_pos ⟨a, b⟩] at f1
    simpa using f1
  funext k
  have e : midTerm c D ss k = midTerm c D x.ss k := by
    unfold midTerm
    rw [h1.len]
    split_ifs with hc
    · rw [hm' hc.1 hc.2]
    · rfl
  have hl := h1.len
  rw [h.lam k, e, ← hl, ← csSum_plyContent c D x.ss x.queue h1.symm ?_ k, inPlane_eq D cs hcs]
  · intro a ha
    unfold Spec.plyContent at ha
    rw [List.mem_append, List.mem_append] at ha
    rcases ha with (h1 | h1) | h1
    · have h2 := List.mem_filter.1 h1
      rcases f3 a h2.1 with h3 | h3
      · simp [h3] at h2
      · exact h3
    · exact f4 a h1
    · split_ifs at h1
      · exact f4 a h1
      · cases h1
  · intro a b
    rw [hl] at b ⊢
    rw [hm' a b]
    exact ne666 A (hmid a b)

/-- The inputs of the refinement: a laminate of at most 6666 plies with allowed angles or marks, symmetric if
required, a queue of allowed plies, and the objective of that laminate not above the value 1e10 used by
the code for discarded options. -/
structure MemInput (c : Cons) (D : MemData) (cs : Int → Nat → ℚ) (ss : Stack) (q : List Int) : Prop where
  trig : ∀ (r : Nat) (a : Int), c.angles[r]? = some a → ∀ k, D.cosSin r k = cs a k
  size : ss.length ≤ 6666
  plies : ∀ a ∈ ss, a = 666 ∨ a ∈ c.angles
  queue : ∀ a ∈ q, a ∈ c.angles
  symm : c.sym = true → Spec.Symmetric ss
  bound : Spec.inPlaneObjective D.coeffs D.target
    (Spec.inPlane cs ss.length (Spec.plyContent c.sym ss q)) ≤ 10 ^ 10

theorem MemInput.obj {c : Cons} {D : MemData} {cs : Int → Nat → ℚ} {ss : Stack} {q : List Int} (A : AngleSet c)
    (h : MemInput c D cs ss q) (lam : Nat → ℚ) (hl : calcLampamA c D ss q = .ok lam) : memObj D lam ≤ 10 ^ 10 := by
  rw [hobj_of A D cs h.trig ss q h.plies h.queue h.symm lam hl, memObj_eq]
  exact h.bound

/-- C33: each candidate of the refinement has the same number of plies and the same marks as the input, and a queue
of the same length; it is symmetric if required and uses allowed angles; the plies in the part of the
thickness excluded by `p_A`, the plies protected by the damage tolerance rule and the middle ply of
symmetric laminates are unchanged.  The last candidate is the input itself. -/
theorem C33_candidates (args : ConsArgs) (c : Cons) (hc : mkConstraints args = .ok c) (imported switch : Bool)
    (dist : (Nat → ℚ) → ℚ) (attr : DamTolAttr) (D : MemData) (cs : Int → Nat → ℚ) (mini : Mini10) (fuel : Nat)
    (ss : Stack) (q : List Int) (hin : MemInput c D cs ss q) (out : List (Stack × List Int))
    (h : repairMembrane imported switch dist c attr D mini fuel ss q = some (.ok out)) :
    out.getLast? = some (ss, q) ∧
    ∀ x ∈ out, x.1.length = ss.length ∧ x.2.length = q.length ∧
      (∀ i : Nat, x.1[i]? = some 666 ↔ ss[i]? = some 666) ∧
      (c.sym = true → Spec.Symmetric x.1) ∧
      (∀ a ∈ x.1, a = 666 ∨ a ∈ c.angles) ∧ (∀ a ∈ x.2, a ∈ c.angles) ∧
      (∀ i : Nat, i < ss.length →
        ((i : ℚ) + 1 ≤ (1 - D.pA / 100) * ((ss.length : ℚ) / 2) ∨ (c.damTol = true ∧ i = 0) ∨
          (c.damTol = true ∧ attr.twoPlies = true ∧ i = 1)) →
        x.1[i]? = ss[i]? ∧ x.1[ss.length - 1 - i]? = ss[ss.length - 1 - i]?) ∧
      (c.sym = true → ss.length % 2 = 1 → x.1[ss.length / 2]? = ss[ss.length / 2]?) := by
  have A := angleSet_of args c hc
  rcases membrane_cases h with rfl | ⟨st, hst, rfl⟩
  · refine ⟨rfl, ?_⟩
    intro x hx
    rw [List.mem_singleton] at hx
    subst hx
    exact ⟨rfl, rfl, fun _ => Iff.rfl, hin.symm, hin.plies, hin.queue, fun _ _ _ => ⟨rfl, rfl⟩, fun _ _ => rfl⟩
  · obtain ⟨lam, hl, hO⟩ := repairMembrane1_out A imported dist attr D mini fuel ss q hin.size hin.plies hin.queue hin.symm
      (fun _ _ _ _ => True) (fun _ _ _ _ => trivial) (fun _ => (keeps_true c _ dist _ _).1)
      (fun _ => (keeps_true c _ dist _ _).2) (fun lam hl => hin.obj A lam hl) st hst
    refine ⟨?_, ?_⟩
    · rw [List.getLast?_map, hO.last]
      rfl
    · intro y hy
      obtain ⟨x, hx, rfl⟩ := List.mem_map.1 hy
      dsimp only
      obtain ⟨F, T, h1, h2⟩ := (hO.outs x hx).1.reach
      have hind := indices1_ok c attr D.pA ss.length
      obtain ⟨f1, f2, f3, f4⟩ := reach_facts hind hin.plies hin.queue h1 h2
      have hlen := h1.len
      refine ⟨h1.len, h1.qlen, ?_, h1.symm, f3, f4, ?_, ?_⟩
      · intro i
        by_cases hi : i < ss.length
        · rw [nth_some hi, nth_some (by omega : i < x.ss.length), Option.some.injEq, Option.some.injEq]
          exact h1.mark i hi
        · rw [List.getElem?_eq_none (by omega), List.getElem?_eq_none (by omega)]
      · intro i hi hp
        have hm : i < memProtected c attr D.pA ss.length := by
          unfold memProtected indMin
          rcases hp with hp | ⟨hd, rfl⟩ | ⟨hd, h2, rfl⟩
          · have h3 : ((i + 1 : Nat) : Int) ≤ ⌊(1 - D.pA / 100) * ((ss.length : ℚ) / 2)⌋ := by
              rw [Int.le_floor]
              push_cast
              exact hp
            split_ifs <;> omega
          · rw [if_pos hd]; split_ifs <;> omega
          · rw [if_pos hd, if_pos h2]; omega
        rw [nth_some hi, nth_some (by omega : i < x.ss.length), nth_some (by omega : ss.length - 1 - i < ss.length),
          nth_some (by omega : ss.length - 1 - i < x.ss.length), f2 i hi (Or.inl hm),
          f2 (ss.length - 1 - i) (by omega) (Or.inr (by omega))]
        exact ⟨rfl, rfl⟩
      · intro hs ho
        unfold midPly at f1
        rw [h1.len, if_pos ⟨hs, by omega⟩, if_pos ⟨hs, by omega⟩] at f1
        rw [nth_some (by omega : ss.length / 2 < ss.length), nth_some (by omega : ss.length / 2 < x.ss.length)]
        simpa using f1

/-- C33: the candidates are listed by increasing in-plane objective (computed from their ply contents), the
input last: each candidate other than the input is better than the input. -/
theorem C33_objective_decreases (args : ConsArgs) (c : Cons) (hc : mkConstraints args = .ok c) (imported switch : Bool)
    (dist : (Nat → ℚ) → ℚ) (attr : DamTolAttr) (D : MemData) (cs : Int → Nat → ℚ) (mini : Mini10) (fuel : Nat)
    (ss : Stack) (q : List Int) (hin : MemInput c D cs ss q) (out : List (Stack × List Int))
    (h : repairMembrane imported switch dist c attr D mini fuel ss q = some (.ok out)) :
    out.Pairwise (fun x y =>
      Spec.inPlaneObjective D.coeffs D.target (Spec.inPlane cs ss.length (Spec.plyContent c.sym x.1 x.2)) <
      Spec.inPlaneObjective D.coeffs D.target (Spec.inPlane cs ss.length (Spec.plyContent c.sym y.1 y.2))) := by
  have A := angleSet_of args c hc
  rcases membrane_cases h with rfl | ⟨st, hst, rfl⟩
  · simp
  · obtain ⟨lam, hl, hO⟩ := repairMembrane1_out A imported dist attr D mini fuel ss q hin.size hin.plies hin.queue hin.symm
      (fun _ _ _ _ => True) (fun _ _ _ _ => trivial) (fun _ => (keeps_true c _ dist _ _).1)
      (fun _ => (keeps_true c _ dist _ _).2) (fun lam hl => hin.obj A lam hl) st hst
    have hmid := (calcLampamA_spec A D ss q lam hin.plies hin.queue hl).2.1
    have hobj : ∀ x ∈ st.out, x.obj =
        Spec.inPlaneObjective D.coeffs D.target (Spec.inPlane cs ss.length (Spec.plyContent c.sym x.ss x.queue)) := by
      intro x hx
      have hk := (hO.outs x hx).1
      rw [hk.obj, memObj_eq, cand_lam A D cs hin.trig ss q hin.plies hin.queue (indices1_ok c attr D.pA ss.length) hmid x hk]
    rw [List.pairwise_map]
    refine hO.dec.imp_of_mem ?_
    intro x y hx hy hlt
    rw [hobj x hx, hobj y hy] at hlt
    exact hlt

/-! ### Balance -/

theorem couple_balanced {c : Cons} (A : AngleSet c) {a : Int} (ha : a ∈ c.posAngles) (x : Int)
    (_h0 : x ≠ 0) (h90 : x ≠ 90) (h90' : x ≠ -90) : [a, partner a].count x = [a, partner a].count (-x) := by
  have hp := posAngles_mem A ha
  unfold partner
  split_ifs with h
  · subst h
    have e1 : (90 : Int) ≠ x := fun h => h90 h.symm
    have e2 : (90 : Int) ≠ -x := by omega
    simp [e1, e2]
  · simp only [List.count_cons, List.count_nil, beq_iff_eq]
    split_ifs <;> omega

/-- C33: with in-plane orthotropy the candidates of a balanced laminate are balanced. -/
theorem C33_balance (args : ConsArgs) (c : Cons) (hc : mkConstraints args = .ok c) (hipo : c.ipo = true)
    (imported switch : Bool)
    (dist : (Nat → ℚ) → ℚ) (attr : DamTolAttr) (D : MemData) (cs : Int → Nat → ℚ) (mini : Mini10) (fuel : Nat)
    (ss : Stack) (q : List Int) (hin : MemInput c D cs ss q) (hb : Spec.Balanced (Spec.plyContent c.sym ss q))
    (out : List (Stack × List Int))
    (h : repairMembrane imported switch dist c attr D mini fuel ss q = some (.ok out)) :
    ∀ x ∈ out, Spec.Balanced (Spec.plyContent c.sym x.1 x.2) := by
  have A := angleSet_of args c hc
  rcases membrane_cases h with rfl | ⟨st, hst, rfl⟩
  · intro x hx
    rw [List.mem_singleton] at hx
    subst hx
    exact hb
  · let R : Stack → List Int → (Nat → ℚ) → (Nat → ℚ) → Prop := fun s p _ _ =>
      ∀ x : Int, x ≠ 0 → x ≠ 90 → x ≠ -90 →
        (designAll c.sym s p).count x + (designAll c.sym ss q).count (-x) =
        (designAll c.sym s p).count (-x) + (designAll c.sym ss q).count x
    have hk : KeepsTwo c (c.rule10 && c.rule10Abdalla) dist (indices1 c attr D.pA ss.length) ss.length R := by
      refine ⟨?_, ?_⟩
      · intro s p _ _ s' p' _ _ a1 a2 hR _ hch m1 m2 _ x h0 h9 h9'
        have := hR x h0 h9 h9'
        have := hch.cnt x
        have := hch.cnt (-x)
        have := couple_balanced A m1 x h0 h9 h9'
        have := couple_balanced A m2 x h0 h9 h9'
        omega
      · intro s p _ _ s' p' _ a b _ hR _ hch hab _
        refine ⟨fun _ => 0, ?_⟩
        intro x h0 h9 h9'
        have := hR x h0 h9 h9'
        have g1 := hch.cnt x
        have g2 := hch.cnt (-x)
        have z : [a].count x = 0 ∧ [a].count (-x) = 0 ∧ [b].count x = 0 ∧ [b].count (-x) = 0 := by
          simp only [List.count_cons, List.count_nil, beq_iff_eq]
          rcases hab with ⟨rfl, rfl, _⟩ | ⟨rfl, rfl, _⟩ <;> refine ⟨?_, ?_, ?_, ?_⟩ <;> split_ifs <;> omega
        omega
    obtain ⟨lam, hl, hO⟩ := repairMembrane1_out A imported dist attr D mini fuel ss q hin.size hin.plies hin.queue hin.symm
      R (fun _ _ _ _ => fun x _ _ _ => by omega) (fun hf => by rw [hipo] at hf; cases hf)
      (fun _ => hk) (fun lam hl => hin.obj A lam hl) st hst
    intro y hy
    obtain ⟨x, hx, rfl⟩ := List.mem_map.1 hy
    dsimp only
    obtain ⟨⟨⟨F, T, h1, h2⟩, _, _⟩, e, hR⟩ := hO.outs x hx
    obtain ⟨f1, f2, f3, f4⟩ := reach_facts (indices1_ok c attr D.pA ss.length) hin.plies hin.queue h1 h2
    have hin666 : ∀ z : Int, z ∉ c.angles → (Spec.plyContent c.sym x.ss x.queue).count z = 0 := by
      intro z hz
      rw [List.count_eq_zero]
      unfold Spec.plyContent
      rw [List.mem_append, List.mem_append]
      rintro ((h3 | h3) | h3)
      · have h4 := List.mem_filter.1 h3
        rcases f3 z h4.1 with h5 | h5
        · simp [h5] at h4
        · exact hz h5
      · exact hz (f4 z h3)
      · split_ifs at h3
        · exact hz (f4 z h3)
        · cases h3
    intro z h0 h9 h9'
    by_cases hz : z = 666 ∨ z = -666
    · rw [hin666 z (fun hh => by have := A.range z hh; omega), hin666 (-z) (fun hh => by have := A.range (-z) hh; omega)]
    · have g := hb z h0 h9 h9'
      have gR := hR z h0 h9 h9'
      rw [plyContent_count _ _ _ hin.symm z (by omega), plyContent_count _ _ _ hin.symm (-z) (by omega)] at g
      rw [plyContent_count _ _ _ h1.symm z (by omega), plyContent_count _ _ _ h1.symm (-z) (by omega), f1]
      split_ifs at g ⊢ <;> omega

end Bella
