import Verif.Props.Search
import Verif.Props.Moments
/-
Properties C39 (best design over the layouts), C40 (assembly of symmetric laminates), C54 (assembly of
asymmetric laminates), C55 (selection of the best design of a layout).
-/
namespace Bella

/-! ### C40 -/

theorem mirrored_symmetric (mid : Bool) (b : List Int) : Spec.Symmetric (Spec.mirrored mid b) := by
  unfold Spec.Symmetric Spec.mirrored
  cases mid
  · simp
  · rw [if_pos rfl]
    by_cases hne : b = []
    · subst hne; rfl
    · have e := List.dropLast_append_getLast hne
      conv_lhs => rw [← e]
      conv_rhs => rw [← e]
      simp

/-- C40: a symmetric panel of `n` plies is assembled from a half of `⌈n/2⌉` plies, and only from such
a half, as the mirrored laminate: it is symmetric, has `n` plies and begins with the half. -/
theorem C40_symmetric_assembly (bot : Stack) (n : Nat) :
    (bot.length = (n + 1) / 2 → ∃ s, assembleSym bot n = .ok s ∧
      s = Spec.mirrored (decide (n % 2 = 1)) bot ∧ s.length = n ∧ Spec.Symmetric s ∧
      s.take ((n + 1) / 2) = bot) ∧
    ((∃ s, assembleSym bot n = .ok s) → bot.length = (n + 1) / 2) := by
  constructor
  · intro hl
    have hlen : (Spec.mirrored (decide (n % 2 = 1)) bot).length = n := by
      unfold Spec.mirrored
      by_cases h : n % 2 = 1
      · simp [h]; omega
      · simp [h]; omega
    refine ⟨_, ?_, rfl, hlen, mirrored_symmetric _ _, ?_⟩
    · unfold assembleSym
      dsimp only
      by_cases h : n % 2 = 1
      · rw [if_pos h, if_pos (by simp; omega)]
        have hne : bot ≠ [] := by rintro rfl; simp at hl; omega
        have e : (bot ++ bot.reverse).eraseIdx ((n + 1) / 2) =
            Spec.mirrored (decide (n % 2 = 1)) bot := by
          rw [List.eraseIdx_append_of_length_le (by omega), hl, Nat.sub_self, List.eraseIdx_zero]
          unfold Spec.mirrored
          rw [decide_eq_true h, if_pos rfl]
          simp
        rw [e, if_neg (by omega)]
      · rw [if_neg h]
        have e : bot ++ bot.reverse = Spec.mirrored (decide (n % 2 = 1)) bot := by
          unfold Spec.mirrored
          rw [decide_eq_false h]
          rfl
        rw [e, if_neg (by omega)]
    · unfold Spec.mirrored
      rw [← hl, List.take_left]
  · rintro ⟨s, hs⟩
    unfold assembleSym at hs
    dsimp only at hs
    split at hs
    · split at hs
      · rename_i h1 h2
        split at hs
        · cases hs
        · rename_i h3
          rw [List.length_eraseIdx_of_lt h2] at h3
          simp at h3 h2
          omega
      · cases hs
    · split at hs
      · cases hs
      · rename_i h1 h3
        simp at h3
        omega

example : assembleSym [45, 0, 90] 5 = .ok [45, 0, 90, 0, 45] := by decide +kernel
example : assembleSym [45, 0, 90] 6 = .ok [45, 0, 90, 90, 0, 45] := by decide +kernel
example : assembleSym [45, 0] 5 = .error (.exc "Wrong ply count") := by decide +kernel

/-- C40, with the beam search: for a symmetric panel whose row of the ply drop layout has as many
plies as its half laminate, the design of the beam search assembles into a symmetric laminate with the
panel's ply count. -/
theorem C40_search_assembly {V : Type} [AddMonoid V] (P : Problem V) (d : List Int) (x : Node V)
    (hd : d.length = P.indices.length) (hx : Describes P (P.indices.zip d) x) (hs : P.c.sym = true)
    (ip n : Nat) (hip : ip < P.nPanels)
    (hcnt : (P.indices.countP (fun (l : Nat) => decide (0 ≤ (P.pdl.getD ip []).getD l (-1)))) = (n + 1) / 2) :
    ∃ b s, x.bot[ip]? = some b ∧ assembleSym b n = .ok s ∧ s.length = n ∧ Spec.Symmetric s := by
  have hb : x.bot[ip]? = some (Spec.panelPlies (P.pdl.getD ip []) (P.indices.zip d)) := by
    rw [hx.bot]
    simp only [List.getElem?_map, List.getElem?_range hip, Option.map_some]
    rw [List.filter_eq_self.2 (by intro p _; simp [hs])]
  obtain ⟨s, h1, _, h2, h3, _⟩ := (C40_symmetric_assembly
    (Spec.panelPlies (P.pdl.getD ip []) (P.indices.zip d)) n).1 (by
      rw [← hcnt]
      unfold Spec.panelPlies
      rw [List.length_map, ← List.countP_eq_length_filter]
      have e : (P.indices.zip d).map Prod.fst = P.indices := List.map_fst_zip (by omega)
      conv_rhs => rw [← e, List.countP_map]
      rfl)
  exact ⟨_, s, hb, h1, h2, h3⟩

/-! ### C54 -/

/-- C54, violation: for asymmetric laminates of at least three plies the assembled laminate is not the
one whose plies are at the positions their lamination parameters were computed for.  (The ply of index
`l` is added to the bottom part if `l` is even, to the top part if it is odd, whatever its position.)
For the design with 90 at the index 1 and 0 elsewhere the ply at 90 ends up elsewhere. -/
theorem C54_asymmetric_assembly_violation {V : Type} [AddMonoid V] (P : Problem V) (x : Node V)
    (n : Nat) (hn : 3 ≤ n) (hs : P.c.sym = false) (hpan : 0 < P.nPanels)
    (hidx : P.indices = calcPlyOrder false n)
    (hrow : ∀ l, l < n → 0 ≤ (P.pdl.getD 0 []).getD l (-1)) (f : Nat → Int)
    (hf : f = fun (l : Nat) => if l = 1 then 90 else 0)
    (hx : Describes P (P.indices.zip (P.indices.map f)) x) :
    ∃ bot top s, x.bot[0]? = some bot ∧ x.top[0]? = some top ∧ assembleAsym bot top n = .ok s ∧
      s.length = n ∧ s[1]? = some 0 ∧ f 1 = 90 := by
  have hmem : ∀ l ∈ P.indices, l < n := by
    intro l hl
    rw [hidx] at hl
    exact List.mem_range.1 ((calcPlyOrder_asym_perm n).mem_iff.1 hl)
  have hplies : ∀ q : Nat → Bool, Spec.panelPlies (P.pdl.getD 0 [])
      ((P.indices.zip (P.indices.map f)).filter (fun (p : Nat × Int) => q p.1)) =
      (P.indices.filter q).map f := by
    intro q
    unfold Spec.panelPlies
    have e : P.indices.zip (P.indices.map f) = P.indices.map (fun l => (l, f l)) := by
      rw [List.zip_map_right, List.zip_eq_zipWith]
      generalize P.indices = l
      induction l with
      | nil => rfl
      | cons a l ih => simpa using ih
    rw [e, List.filter_map, List.filter_eq_self.2, List.map_map]
    · rfl
    · intro p hp
      obtain ⟨l, hl, rfl⟩ := List.mem_map.1 hp
      exact decide_eq_true (hrow l (hmem l (List.mem_filter.1 hl).1))
  have hb : x.bot[0]? = some ((P.indices.filter (fun (l : Nat) => l % 2 == 0)).map f) := by
    rw [hx.bot]
    simp only [List.getElem?_map, List.getElem?_range hpan, Option.map_some, hs, Bool.false_or]
    rw [hplies (fun (l : Nat) => l % 2 == 0)]
  have ht : x.top[0]? = some (((P.indices.filter (fun (l : Nat) => ! (l % 2 == 0))).map f).reverse) := by
    rw [hx.top]
    simp only [List.getElem?_map, List.getElem?_range hpan, Option.map_some, hs, Bool.false_or]
    rw [hplies (fun (l : Nat) => ! (l % 2 == 0))]
  have hlen : P.indices.length = n := by rw [hidx, calcPlyOrder_asym_length]
  have htot := List.length_eq_length_filter_add (l := P.indices) (fun (l : Nat) => l % 2 == 0)
  have hevens : 2 ≤ (P.indices.filter (fun (l : Nat) => l % 2 == 0)).length := by
    have hsub : [0, 2].Subperm (P.indices.filter (fun (l : Nat) => l % 2 == 0)) := by
      apply List.subperm_of_subset (by decide)
      intro y hy
      rw [List.mem_filter, hidx, (calcPlyOrder_asym_perm n).mem_iff, List.mem_range]
      simp only [List.mem_cons, List.not_mem_nil, or_false] at hy
      rcases hy with rfl | rfl
      · exact ⟨by omega, rfl⟩
      · exact ⟨by omega, rfl⟩
    exact hsub.length_le
  have hslen : (((P.indices.filter (fun (l : Nat) => l % 2 == 0)).map f) ++
      ((P.indices.filter (fun (l : Nat) => ! (l % 2 == 0))).map f).reverse).length = n := by
    simp only [List.length_append, List.length_map, List.length_reverse]
    omega
  refine ⟨_, _, _, hb, ht, ?_, hslen, ?_, by rw [hf]; rfl⟩
  · unfold assembleAsym
    rw [if_neg (by omega)]
  · rw [List.getElem?_append_left (by rw [List.length_map]; omega), List.getElem?_map]
    rw [List.getElem?_eq_getElem (by omega), Option.map_some]
    have h1 : (P.indices.filter (fun (l : Nat) => l % 2 == 0))[1] ∈
      P.indices.filter (fun (l : Nat) => l % 2 == 0) := List.getElem_mem _
    generalize (P.indices.filter (fun (l : Nat) => l % 2 == 0))[1] = l at h1
    have h2 := (List.mem_filter.1 h1).2
    rw [hf]
    dsimp only
    rw [if_neg]
    rintro rfl
    exact absurd h2 (by decide)

/-! ### C55 -/

/-- C55: with all the repairs successful, or without the option `save_success_rate`, the design
returned has the smallest objective and its stacking sequences, lamination parameters and ply counts
are those of the same design. -/
theorem C55_selected_design {α β γ δ : Type} (save : Bool) (ss : List α) (sst : List β)
    (lampams : List γ) (counts : List δ) (objs : List ℚ) (hne : objs ≠ [])
    (h1 : ss.length = objs.length) (h2 : sst.length = objs.length) (h3 : lampams.length = objs.length)
    (h4 : counts.length = objs.length) (hsave : save = true → ∀ o ∈ objs, o < failObj) :
    ∃ (i : Nat) (s : α) (t : β) (l : γ) (c : δ) (o : ℚ), selectDesign save ss sst lampams counts objs = .ok (some (s, t, l, c, o)) ∧
      ss[i]? = some s ∧ sst[i]? = some t ∧ lampams[i]? = some l ∧ counts[i]? = some c ∧
      objs[i]? = some o ∧ ∀ o' ∈ objs, o ≤ o' := by
  have hdel : ∀ {ε : Type} (tab : List ε), save = true → tab.length = objs.length →
      npDelete ((List.range objs.length).filter (fun i => ! ((List.range objs.length).filter
        (fun i => decide (objs.getD i 0 < failObj))).contains i)) tab = tab := by
    intro ε tab hs hl
    have : (List.range objs.length).filter (fun i => decide (objs.getD i 0 < failObj)) =
        List.range objs.length := by
      rw [List.filter_eq_self]
      intro i hi
      rw [List.mem_range] at hi
      rw [List.getD_eq_getElem _ _ hi]
      exact decide_eq_true (hsave hs _ (List.getElem_mem _))
    rw [this]
    have e : (List.range objs.length).filter (fun i => ! (List.range objs.length).contains i) = [] := by
      rw [List.filter_eq_nil_iff]
      intro i hi
      simp [List.mem_range.1 hi]
    rw [e, npDelete_eq, keepIdx_all]
    simp
  have hpos : 0 < objs.length := List.length_pos_of_ne_nil hne
  obtain ⟨m1, m2, m3⟩ := argMin_spec objs hne
  have hobjs' : (if save = true then npDelete ((List.range objs.length).filter (fun i =>
      ! ((List.range objs.length).filter (fun i => decide (objs.getD i 0 < failObj))).contains i)) objs
      else objs) = objs := by
    split
    · rename_i hs; exact hdel objs hs rfl
    · rfl
  have hlam' : (if save = true then npDelete ((List.range objs.length).filter (fun i =>
      ! ((List.range objs.length).filter (fun i => decide (objs.getD i 0 < failObj))).contains i)) lampams
      else lampams) = lampams := by
    split
    · rename_i hs; exact hdel lampams hs h3
    · rfl
  have hsst' : (if save = true ∧ ((List.range objs.length).filter
      (fun i => decide (objs.getD i 0 < failObj))).length ≠ 0 then
      npDelete ((List.range objs.length).filter (fun i =>
      ! ((List.range objs.length).filter (fun i => decide (objs.getD i 0 < failObj))).contains i)) sst
      else sst) = sst := by
    split
    · rename_i hs; exact hdel sst hs.1 h2
    · rfl
  refine ⟨argMin objs, ss[argMin objs], sst[argMin objs], lampams[argMin objs], counts[argMin objs],
    objs[argMin objs], ?_, by simp, by simp, by simp, by simp, by simp, ?_⟩
  · unfold selectDesign
    dsimp only
    rw [hobjs', hlam', hsst', if_neg (by omega), pyGet_ok (by omega), pyGet_ok (by omega),
      pyGet_ok (by omega), pyGet_ok m1, pyGet_ok (by omega)]
    rfl
  · intro o' ho'
    have := m2 o' ho'
    rw [List.getD_eq_getElem _ _ m1] at this
    exact this

/-- C55, violation: with `save_success_rate`, if the repair of the first design failed and another
one succeeded, the stacking sequences and the ply counts returned are not those of the design whose
objective and lamination parameters are returned. -/
theorem C55_save_success_rate_violation {α β γ δ : Type} (s1 s2 : α) (t1 t2 : β) (l1 l2 : γ) (c1 c2 : δ)
    (o : ℚ) (ho : o < failObj) :
    selectDesign true [s1, s2] [t1, t2] [l1, l2] [c1, c2] [failObj, o] =
      .ok (some (s1, t2, l2, c1, o)) := by
  have e : (List.range [failObj, o].length).filter
      (fun i => decide (([failObj, o] : List ℚ).getD i 0 < failObj)) = [1] := by
    have : List.range [failObj, o].length = [0, 1] := rfl
    rw [this, List.filter_cons, List.filter_cons]
    simp [ho]
  have e2 : (List.range [failObj, o].length).filter (fun i => ! ([1] : List Nat).contains i) = [0] := rfl
  unfold selectDesign
  dsimp only
  rw [e, e2]
  rfl

example : selectDesign false ["a", "b", "c"] [1, 2, 3] [4, 5, 6] [7, 8, 9] [3, 1, 2] =
    .ok (some ("b", 2, 5, 8, 1)) := by decide +kernel

/-! ### C39 -/

theorem findIdx_none {α : Type} (l : List (ℚ × α)) (rest : List (Option (ℚ × α))) :
    (l.map (some : ℚ × α → Option (ℚ × α)) ++ none :: rest).findIdx (fun x => x.isNone) = l.length := by
  induction l with
  | nil => simp [List.findIdx_cons]
  | cons a l ih => simp [List.findIdx_cons, ih]

/-- C39: if the optimisation succeeds for all the initial ply drop layouts, and none of them but
possibly the last one has a zero objective, the design returned is one of them, with the smallest
objective. -/
theorem C39_best_layout {α : Type} (runs : List (ℚ × α)) (hne : runs ≠ [])
    (h0 : ∀ r ∈ runs.dropLast, r.1 ≠ 0) :
    ∃ r ∈ runs, bestOfLayouts (runs.map some) = .ok (some r) ∧ ∀ r' ∈ runs, r.1 ≤ r'.1 := by
  have hrun : runLayouts (runs.map some) = runs.map some := by
    clear hne
    induction runs with
    | nil => rfl
    | cons r runs ih =>
      obtain ⟨o, d⟩ := r
      cases runs with
      | nil => simp only [List.map_cons, List.map_nil, runLayouts]; split <;> rfl
      | cons r' runs =>
        have h1 : o ≠ 0 := h0 (o, d) (by simp)
        have h2 := ih (fun x hx => h0 x (by simp [hx]))
        rw [List.map_cons, runLayouts, if_neg h1, h2]
  have hany : (runs.map (some : ℚ × α → Option (ℚ × α))).any (fun x => x.isNone) = false := by
    rw [Bool.eq_false_iff]
    simp
  have hmap : (runs.map (some : ℚ × α → Option (ℚ × α))).map (fun x => (x.map Prod.fst).getD 0) =
      runs.map Prod.fst := by
    rw [List.map_map]; rfl
  obtain ⟨m1, m2, _⟩ := argMin_spec (runs.map Prod.fst) (by simpa using hne)
  have m1' : argMin (runs.map Prod.fst) < runs.length := by simpa using m1
  refine ⟨runs[argMin (runs.map Prod.fst)], List.getElem_mem _, ?_, ?_⟩
  · unfold bestOfLayouts
    dsimp only
    rw [hrun, if_neg (by simpa using hne)]
    unfold argMinNan
    rw [hany, hmap, if_neg (by simp), pyGet_ok (by simpa using m1)]
    simp
  · intro r' hr'
    have := m2 r'.1 (List.mem_map_of_mem hr')
    rw [List.getD_eq_getElem _ _ m1] at this
    simpa using this

/-- C39, violation: as soon as the optimisation fails with one layout (not preceded by a design with a
zero objective), no design is returned, although other layouts may give feasible designs. -/
theorem C39_failed_layout_violation {α : Type} (pre : List (ℚ × α)) (rest : List (Option (ℚ × α)))
    (h0 : ∀ r ∈ pre, r.1 ≠ 0) :
    bestOfLayouts (pre.map some ++ none :: rest) = .ok none := by
  have hrun : runLayouts (pre.map some ++ none :: rest) = pre.map some ++ none :: runLayouts rest := by
    induction pre with
    | nil => rfl
    | cons r pre ih =>
      obtain ⟨o, d⟩ := r
      rw [List.map_cons, List.cons_append, runLayouts, if_neg (h0 (o, d) (by simp)),
        ih (fun x hx => h0 x (by simp [hx])), List.cons_append]
  have hfind : (pre.map (some : ℚ × α → Option (ℚ × α)) ++ none :: runLayouts rest).findIdx
      (fun x => x.isNone) = pre.length := by
    exact findIdx_none _ _
  unfold bestOfLayouts
  dsimp only
  rw [hrun, if_neg (by simp)]
  unfold argMinNan
  rw [if_pos (by simp), hfind, pyGet_eq_ok]
  rw [List.getElem?_append_right (by simp)]
  simp

/-- C39, violation: when a layout gives a perfect design (zero objective), the loop stops; unless it
is the last layout, this design is not returned - an entry of the tables never written is. -/
theorem C39_early_stop_violation {α : Type} (pre : List (ℚ × α)) (d : α)
    (x : Option (ℚ × α)) (rest : List (Option (ℚ × α))) (h0 : ∀ r ∈ pre, r.1 ≠ 0) :
    bestOfLayouts (pre.map some ++ some (0, d) :: x :: rest) = .ok none := by
  have hrun : runLayouts (pre.map some ++ some (0, d) :: x :: rest) =
      (pre ++ [(0, d)]).map some ++ none :: rest.map (fun _ => none) := by
    induction pre with
    | nil => rfl
    | cons r pre ih =>
      obtain ⟨o, d'⟩ := r
      rw [List.map_cons, List.cons_append, runLayouts, if_neg (h0 (o, d') (by simp)),
        ih (fun x hx => h0 x (by simp [hx]))]
      simp
  have hfind : ((pre ++ [(0, d)]).map (some : ℚ × α → Option (ℚ × α)) ++
      none :: rest.map (fun _ => none)).findIdx (fun x => x.isNone) = (pre ++ [(0, d)]).length := by
    exact findIdx_none _ _
  unfold bestOfLayouts
  dsimp only
  rw [hrun, if_neg (by simp)]
  unfold argMinNan
  rw [if_pos (by simp), hfind, pyGet_eq_ok]
  rw [List.getElem?_append_right (by simp)]
  simp

example : bestOfLayouts [some (3, "a"), some (1, "b"), some (2, "c")] = .ok (some (1, "b")) := by
  decide +kernel

/-! ### concrete searches -/

/-- a strip of two panels, the thinner one without the third ply -/
def exampleStrip (c : Cons) : Problem ℚ where
  c := c
  rule := 2
  nPanels := 2
  indices := [0, 1, 2, 3]
  pdl := [[0, 1, -1, 2], [0, 1, 2, 3]]
  thick := 1
  hasMiddle := false
  contrib := fun ip a l => (a : ℚ) * (l + 1) + ip
  objPanels := fun _ l => .ok l
  objMp := fun l => .ok (|l.sum - 300| / 100)
  localLimit := 2
  localLimitFinal := 2
  globalLimit := 3
  globalLimitFinal := 2

/-- The hypotheses of `C53_beam_search_coherent` and `C38_search_guide` are met by a real constraint
object and a search with drops, local and global pruning. -/
example : ∃ (a : ConsArgs) (c : Cons) (t : Tabs ℚ), mkConstraints a = .ok c ∧
    beamSearch (exampleStrip c) = .ok t ∧ c.sym = true ∧ c.contig = true ∧ c.nContig = 3 ∧
    c.diso = true ∧ c.damTol = true ∧ AnglesInRange c.angles ∧ c.angles ≠ [] ∧
    t.bots = [[[-45, 45, 45], [-45, 45, 0, 45]], [[-45, 45, 0], [-45, 45, 45, 0]]] ∧
    t.lampams = [[225, 229], [180, 184]] ∧ t.objs = [77 / 50, 16 / 25] ∧
    t.counts = [[[1, 0, 2, 0], [1, 1, 2, 0]], [[1, 1, 1, 0], [1, 1, 2, 0]]] := by
  obtain ⟨c, hc, ht⟩ := ok_of_test (mkConstraints
      { sym := true, contig := true, nContig := 3, diso := true, damTol := true })
    (fun c => decide (c.sym = true ∧ c.contig = true ∧ c.nContig = 3 ∧ c.diso = true ∧ c.damTol = true ∧
      (∀ x ∈ c.angles, -90 ≤ x ∧ x ≤ 90) ∧ c.angles ≠ []) &&
      (match beamSearch (exampleStrip c) with
      | .ok t => decide (t.bots = [[[-45, 45, 45], [-45, 45, 0, 45]], [[-45, 45, 0], [-45, 45, 45, 0]]] ∧
          t.lampams = [[225, 229], [180, 184]] ∧ t.objs = [77 / 50, 16 / 25] ∧
          t.counts = [[[1, 0, 2, 0], [1, 1, 2, 0]], [[1, 1, 1, 0], [1, 1, 2, 0]]])
      | .error _ => false)) (by decide +kernel)
  simp only [Bool.and_eq_true, decide_eq_true_eq] at ht
  obtain ⟨h1, h2⟩ := ht
  split at h2
  · rename_i t h
    rw [decide_eq_true_eq] at h2
    exact ⟨_, c, t, hc, h, h1.1, h1.2.1, h1.2.2.1, h1.2.2.2.1, h1.2.2.2.2.1, h1.2.2.2.2.2.1,
      h1.2.2.2.2.2.2, h2⟩
  · cases h2

/-- a single asymmetric panel of four plies -/
def exampleAsym (c : Cons) : Problem ℚ where
  c := c
  rule := 2
  nPanels := 1
  indices := [0, 3, 1, 2]
  pdl := [[0, 1, 2, 3]]
  thick := 0
  hasMiddle := false
  contrib := fun _ a l => (a : ℚ) * 10 ^ l
  objPanels := fun _ l => .ok l
  objMp := fun l => .ok (|l.sum - 900| / 1000)
  localLimit := 20
  localLimitFinal := 20
  globalLimit := 300
  globalLimitFinal := 300

/-- A search whose tables hold the design of `C54_asymmetric_assembly_violation`: lamination
parameters for 90 at the second ply, a ply at 90 stored as the third one of the laminate. -/
example : ∃ (a : ConsArgs) (c : Cons) (t : Tabs ℚ), mkConstraints a = .ok c ∧ c.sym = false ∧
    [0, 3, 1, 2] = calcPlyOrder false 4 ∧ beamSearch (exampleAsym c) = .ok t ∧
    ∃ i : Nat, t.bots[i]? = some [[0, 0]] ∧ t.tops[i]? = some [[90, 0]] ∧ t.lampams[i]? = some [900] := by
  obtain ⟨c, hc, ht⟩ := ok_of_test (mkConstraints { sym := false })
    (fun c => decide (c.sym = false) && (match beamSearch (exampleAsym c) with
      | .ok t => (List.range t.bots.length).any (fun i => decide (t.bots[i]? = some [[0, 0]] ∧
          t.tops[i]? = some [[90, 0]] ∧ t.lampams[i]? = some [900]))
      | .error _ => false)) (by decide +kernel)
  simp only [Bool.and_eq_true, decide_eq_true_eq] at ht
  obtain ⟨h1, h2⟩ := ht
  split at h2
  · rename_i t h
    rw [List.any_eq_true] at h2
    obtain ⟨i, _, hi⟩ := h2
    rw [decide_eq_true_eq] at hi
    exact ⟨_, c, t, hc, h1, by decide +kernel, h, i, hi⟩
  · cases h2

end Bella
