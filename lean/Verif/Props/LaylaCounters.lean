import Verif.Model.LaylaCounters
import Verif.Props.LaylaSearch
import Verif.Proofs.BeamSearch
/-
C90: the counters of the results of LAYLA (numbers of designs at the last level of the search, of designs repaired and of distinct
designs repaired).
-/
namespace Bella

variable {V : Type} [AddCommGroup V]

/-- The number of orientations that the pruning allows for the ply of this level in a node. -/
def laylaAllowed (P : LaylaProblem V) (g : LaylaGroup) (level : Nat) (m : LNode V) : Nat :=
  match laylaPruning P.c.angles (laylaSimpBot P.c g.ssBot) m.bot (if P.c.sym then [] else laylaSimpTop P.c g.ssTop) m.top
    level P.n P.c P.rule with
  | .ok (some ch) => ch.length
  | _ => 0

/-- The objective of a leaf, from the outcome (laminate and success) of its repair: 1e10 after a failure, times one of the factors of the
penalties. -/
def LeafOf (P : LaylaProblem V) (level : Nat) (o : Stack × Bool) (k : LNode V) : Prop :=
  k.full = o.1 ∧ ∃ last kids fs f, P.factors level last kids = .ok fs ∧ f ∈ fs ∧
    k.obj = (if o.2 = true then P.objective level (P.lampamOf o.1) else 10 ^ 10) * f

theorem leaves_designs {P : LaylaProblem V} {g : LaylaGroup} {level : Nat} : ∀ (kids out : List (LNode V)),
    kids.mapM (laylaLeaf P g level) = .ok out →
    ∃ (ss : List Stack) (outs : List (Stack × Bool)), laylaSuccesses P g kids = .ok (outs.countP (fun o => o.2)) ∧
      ss.length = kids.length ∧ List.Forall₂ (fun s o => P.repair s = .ok o) ss outs ∧ (∀ s ∈ ss, s.length = P.n) ∧
      List.Forall₂ (fun (o : Stack × Bool) (k : LNode V) => k.full = o.1 ∧
        k.obj = if o.2 = true then P.objective level (P.lampamOf o.1) else 10 ^ 10) outs out := by
  intro kids
  induction kids with
  | nil =>
    intro out h
    have : out = [] := (Except.ok.inj h).symm
    subst this
    exact ⟨[], [], rfl, rfl, .nil, by simp, .nil⟩
  | cons q kids ih =>
    intro out h
    rw [List.mapM_cons] at h
    obtain ⟨k, hk, h⟩ := bind_ok.1 h
    obtain ⟨out', h2, h⟩ := bind_ok.1 h
    have := (Except.ok.inj h).symm
    subst this
    obtain ⟨ss, outs, i1, i2, i3, i4, i5⟩ := ih out' h2
    unfold laylaLeaf at hk
    obtain ⟨s, hs, hk⟩ := bind_ok.1 hk
    obtain ⟨r, hr, hk⟩ := bind_ok.1 hk
    have hlen : s.length = P.n := by
      unfold laylaFull at hs
      obtain ⟨s', _, hs⟩ := bind_ok.1 hs
      by_cases e : s'.length ≠ P.n
      · rw [if_pos e] at hs; cases hs
      · rw [if_neg e] at hs
        rw [← Except.ok.inj hs]; exact not_not.1 e
    refine ⟨s :: ss, r :: outs, ?_, by simp [i2], .cons hr i3, ?_, .cons ?_ i5⟩
    · unfold laylaSuccesses
      rw [hs]
      show (do let r ← P.repair s
               let n ← laylaSuccesses P g kids
               return (if r.2 then n + 1 else n)) = _
      rw [hr]
      show (do let n ← laylaSuccesses P g kids
               return (if r.2 then n + 1 else n)) = _
      rw [i1, List.countP_cons]
      cases r.2 <;> rfl
    · intro x hx
      rcases List.mem_cons.1 hx with rfl | hx
      · exact hlen
      · exact i4 x hx
    · obtain ⟨r1, r2⟩ := r
      cases r2 with
      | true =>
        simp only [if_true] at hk
        obtain ⟨u, _, hk⟩ := bind_ok.1 hk
        rw [← Except.ok.inj hk]
        exact ⟨rfl, rfl⟩
      | false =>
        simp only [Bool.false_eq_true, if_false] at hk
        rw [← Except.ok.inj hk]
        exact ⟨rfl, rfl⟩

theorem forall₂_factors {P : LaylaProblem V} {level : Nat} {last : Bool} {kids0 : List (V × List ℚ)} {fs0 : List ℚ}
    (hfs : P.factors level last kids0 = .ok fs0) :
    ∀ (outs : List (Stack × Bool)) (kids : List (LNode V)) (fs : List ℚ), (∀ f ∈ fs, f ∈ fs0) → fs.length = kids.length →
    List.Forall₂ (fun (o : Stack × Bool) (k : LNode V) => k.full = o.1 ∧
        k.obj = if o.2 = true then P.objective level (P.lampamOf o.1) else 10 ^ 10) outs kids →
    List.Forall₂ (LeafOf P level) outs (List.zipWith (fun (k : LNode V) (f : ℚ) => { k with obj := k.obj * f }) kids fs) := by
  intro outs kids fs hmem hlen h
  induction h generalizing fs with
  | nil => exact .nil
  | cons h1 _ ih =>
    cases fs with
    | nil => simp at hlen
    | cons f fs =>
      simp only [List.length_cons, Nat.add_right_cancel_iff] at hlen
      rw [List.zipWith_cons_cons]
      refine .cons ⟨h1.1, last, kids0, fs0, f, hfs, hmem f List.mem_cons_self, ?_⟩
        (ih fs (fun x hx => hmem x (List.mem_cons_of_mem _ hx)) hlen)
      show _ * f = _
      rw [h1.2]

theorem branch_designs {P : LaylaProblem V} (hf : FactorsOK P) {g : LaylaGroup} (hl : g.last = true) {level : Nat}
    {m : LNode V} {ks : List (LNode V)} (h : laylaBranch P g (g.size - 1) level m = .ok ks) :
    ∃ (ss : List Stack) (outs : List (Stack × Bool)),
      laylaBranchDesigns P g (g.size - 1) level m = .ok (ss.length, outs.countP (fun o => o.2)) ∧
      ss.length = laylaAllowed P g level m ∧ List.Forall₂ (fun s o => P.repair s = .ok o) ss outs ∧ (∀ s ∈ ss, s.length = P.n) ∧
      List.Forall₂ (LeafOf P level) outs ks := by
  unfold laylaBranch at h
  obtain ⟨kept, hkept, h⟩ := bind_ok.1 h
  unfold laylaBranchDesigns laylaAllowed
  rw [hkept]
  cases kept with
  | none =>
    have := (Except.ok.inj h).symm
    subst this
    exact ⟨[], [], rfl, rfl, .nil, by simp, .nil⟩
  | some ch =>
    dsimp only at h ⊢
    obtain ⟨kids, hkids, h⟩ := bind_ok.1 h
    have hlen : kids.length = ch.length := by
      have := (mapM_inv _ _ _ hkids).length_eq
      rw [List.length_reverse] at this
      omega
    have hb : ∀ n, laylaSuccesses P g kids = .ok n → (do
        let kept ← (Except.ok (some ch) : Py (Option (List Int)))
        match kept with
        | none => return (0, 0)
        | some ch => do
          let kids ← ch.reverse.mapM (laylaChild P g (g.size - 1) level m)
          if g.last = true ∧ g.size - 1 = g.size - 1 then do
            let n ← laylaSuccesses P g kids
            return (kids.length, n)
          else return (0, 0) : Py (Nat × Nat)) = .ok (kids.length, n) := by
      intro n hn
      show (do
          let kids ← ch.reverse.mapM (laylaChild P g (g.size - 1) level m)
          if g.last = true ∧ g.size - 1 = g.size - 1 then do
            let n ← laylaSuccesses P g kids
            return (kids.length, n)
          else return (0, 0) : Py (Nat × Nat)) = _
      rw [hkids]
      show (if g.last = true ∧ g.size - 1 = g.size - 1 then do
            let n ← laylaSuccesses P g kids
            return (kids.length, n)
          else return (0, 0) : Py (Nat × Nat)) = _
      rw [if_pos ⟨hl, rfl⟩, hn]
      rfl
    by_cases e : kids.length = 0
    · rw [if_pos e] at h
      have := (Except.ok.inj h).symm
      subst this
      have hk : kids = [] := List.length_eq_zero_iff.1 e
      subst hk
      exact ⟨[], [], hb 0 rfl, hlen, .nil, by simp, .nil⟩
    · rw [if_neg e] at h
      obtain ⟨kids2, hk2, h⟩ := bind_ok.1 h
      obtain ⟨fs, hfs, h⟩ := bind_ok.1 h
      unfold laylaLeaves at hk2
      rw [if_pos ⟨hl, rfl⟩] at hk2
      obtain ⟨ss, outs, i1, i2, i3, i4, i5⟩ := leaves_designs _ _ hk2
      rw [List.length_map] at i2
      have hsucc : ∀ (l : List (LNode V)), laylaSuccesses P g (l.map (fun (k : LNode V) => { k with obj := P.objective level k.lampam })) =
          laylaSuccesses P g l := by
        intro l
        induction l with
        | nil => rfl
        | cons q l ih =>
          rw [List.map_cons]
          unfold laylaSuccesses
          rw [ih]
          rfl
      rw [hsucc] at i1
      have hp : ∀ l : List (LNode V), laylaLocalPrune P g (g.size - 1) l = l := by
        intro l
        unfold laylaLocalPrune
        simp
      rw [hp] at h
      refine ⟨ss, outs, (hb _ i1).trans (by rw [i2]), by rw [i2, hlen], i3, i4, ?_⟩
      rw [← Except.ok.inj h]
      have hfl := (hf _ _ _ _ hfs).1
      rw [List.length_map] at hfl
      exact forall₂_factors hfs _ _ _ (fun _ h => h) hfl i5

theorem branch_none {P : LaylaProblem V} {g : LaylaGroup} {t level : Nat} (ht : t ≠ g.size - 1)
    {m : LNode V} {ks : List (LNode V)} (h : laylaBranch P g t level m = .ok ks) : laylaBranchDesigns P g t level m = .ok (0, 0) := by
  unfold laylaBranch at h
  obtain ⟨kept, hkept, h⟩ := bind_ok.1 h
  unfold laylaBranchDesigns
  rw [hkept]
  cases kept with
  | none => rfl
  | some ch =>
    dsimp only at h
    obtain ⟨kids, hkids, h⟩ := bind_ok.1 h
    show (do
          let kids ← ch.reverse.mapM (laylaChild P g t level m)
          if g.last = true ∧ t = g.size - 1 then do
            let n ← laylaSuccesses P g kids
            return (kids.length, n)
          else return (0, 0) : Py (Nat × Nat)) = _
    rw [hkids]
    show (if g.last = true ∧ t = g.size - 1 then do
            let n ← laylaSuccesses P g kids
            return (kids.length, n)
          else return (0, 0) : Py (Nat × Nat)) = _
    rw [if_neg (fun h => ht h.2)]
    rfl

theorem level_none {P : LaylaProblem V} {g : LaylaGroup} {t level : Nat} (ht : t ≠ g.size - 1) : ∀ (ns : List (LNode V)) (kids : List (List (LNode V))),
    ns.mapM (laylaBranch P g t level) = .ok kids → laylaLevelDesigns P g t level ns = .ok (0, 0) := by
  intro ns
  induction ns with
  | nil => intro kids _; rfl
  | cons m ns ih =>
    intro kids h
    rw [List.mapM_cons] at h
    obtain ⟨k, hk, h⟩ := bind_ok.1 h
    obtain ⟨out', h2, h⟩ := bind_ok.1 h
    unfold laylaLevelDesigns
    rw [branch_none ht hk, ih _ h2]
    rfl

theorem level_designs {P : LaylaProblem V} (hf : FactorsOK P) {g : LaylaGroup} (hl : g.last = true) {level : Nat} :
    ∀ (ns : List (LNode V)) (kids : List (List (LNode V))), ns.mapM (laylaBranch P g (g.size - 1) level) = .ok kids →
    ∃ (ss : List Stack) (outs : List (Stack × Bool)),
      laylaLevelDesigns P g (g.size - 1) level ns = .ok (ss.length, outs.countP (fun o => o.2)) ∧
      ss.length = (ns.map (laylaAllowed P g level)).sum ∧ List.Forall₂ (fun s o => P.repair s = .ok o) ss outs ∧
      (∀ s ∈ ss, s.length = P.n) ∧ List.Forall₂ (LeafOf P level) outs kids.flatten := by
  intro ns
  induction ns with
  | nil =>
    intro kids h
    have : kids = [] := (Except.ok.inj h).symm
    subst this
    exact ⟨[], [], rfl, rfl, .nil, by simp, .nil⟩
  | cons m ns ih =>
    intro kids h
    rw [List.mapM_cons] at h
    obtain ⟨k, hk, h⟩ := bind_ok.1 h
    obtain ⟨out', h2, h⟩ := bind_ok.1 h
    have := (Except.ok.inj h).symm
    subst this
    obtain ⟨ss, outs, i1, i2, i3, i4, i5⟩ := ih _ h2
    obtain ⟨ss', outs', j1, j2, j3, j4, j5⟩ := branch_designs hf hl hk
    refine ⟨ss' ++ ss, outs' ++ outs, ?_, ?_, List.rel_append j3 i3, ?_, ?_⟩
    · unfold laylaLevelDesigns
      rw [j1, i1, List.countP_append, List.length_append]
      rfl
    · rw [List.length_append, List.map_cons, List.sum_cons, i2, j2]
    · intro s hs
      rcases List.mem_append.1 hs with hs | hs
      · exact j4 s hs
      · exact i4 s hs
    · rw [List.flatten_cons]
      exact List.rel_append j5 i5

theorem levels_designs {P : LaylaProblem V} (hf : FactorsOK P) {g : LaylaGroup} (hl : g.last = true) :
    ∀ (ls : List Nat) (t : Nat) (ns out : List (LNode V)), ls ≠ [] → t + ls.length = g.size → laylaLevels P g ls t ns = .ok out →
    ∃ (before : List (LNode V)) (level : Nat) (ss : List Stack) (outs : List (Stack × Bool)), ls.getLast? = some level ∧
      laylaLevels P g ls.dropLast t ns = .ok before ∧
      laylaLevelsDesigns P g ls t ns = .ok (ss.length, outs.countP (fun o => o.2)) ∧
      ss.length = (before.map (laylaAllowed P g level)).sum ∧ List.Forall₂ (fun s o => P.repair s = .ok o) ss outs ∧
      (∀ s ∈ ss, s.length = P.n) ∧ List.Forall₂ (LeafOf P level) outs out := by
  intro ls
  induction ls with
  | nil => intro t ns out h; exact absurd rfl h
  | cons level ls ih =>
    intro t ns out _ hsz h
    unfold laylaLevels at h
    obtain ⟨ns1, h1, h⟩ := bind_ok.1 h
    have h1' := h1
    unfold laylaLevel at h1'
    obtain ⟨kids, hkids, h1'⟩ := bind_ok.1 h1'
    dsimp only at h1'
    rw [List.length_cons] at hsz
    cases ls with
    | nil =>
      rw [List.length_nil] at hsz
      have ht : t = g.size - 1 := by omega
      subst ht
      obtain ⟨ss, outs, i1, i2, i3, i4, i5⟩ := level_designs hf hl _ _ hkids
      have hout : ns1 = out := Except.ok.inj h
      subst hout
      refine ⟨ns, level, ss, outs, rfl, rfl, ?_, i2, i3, i4, ?_⟩
      · unfold laylaLevelsDesigns laylaLevelsDesigns
        rw [i1, h1]
        rfl
      · by_cases e1 : kids.flatten.length = 0
        · rw [if_pos e1] at h1'; cases h1'
        rw [if_neg e1, if_neg (by omega), if_neg (by omega)] at h1'
        rw [← Except.ok.inj h1']
        exact i5
    | cons l2 ls =>
      rw [List.length_cons] at hsz
      obtain ⟨before, lv, ss, outs, j1, j2, j3, j4⟩ := ih (t + 1) ns1 out (by simp) (by rw [List.length_cons]; omega) h
      refine ⟨before, lv, ss, outs, ?_, ?_, ?_, j4⟩
      · rw [List.getLast?_cons_cons]; exact j1
      · rw [List.dropLast_cons_cons]
        unfold laylaLevels
        exact bind_ok.2 ⟨ns1, h1, j2⟩
      · unfold laylaLevelsDesigns
        rw [level_none (by omega) _ _ hkids, h1]
        show (do let b ← laylaLevelsDesigns P g (l2 :: ls) (t + 1) ns1
                 return (0 + b.1, 0 + b.2)) = _
        rw [j3]
        show Except.ok _ = _
        rw [Nat.zero_add, Nat.zero_add]

/-- What the counters of the search of the last group say: `before` are the nodes at its last level; `designs` the complete laminates, one
for each node and each orientation that the pruning allows for its last ply, and `outs` the outcomes (laminate and success) of their
repairs. -/
def CountersOf (P : LaylaProblem V) (g : LaylaGroup) (levels : List Nat) (lampam : V) (counts : List ℚ) (best : Stack)
    (n : LaylaCounters) : Prop :=
  ∃ (before : List (LNode V)) (level : Nat) (designs : List Stack) (outs : List (Stack × Bool)),
    laylaLevels P g levels.dropLast 0 [{ bot := [], top := [], lampam := lampam, counts := counts, obj := 0, full := [] }] = .ok before ∧
    levels.getLast? = some level ∧ designs.length = (before.map (laylaAllowed P g level)).sum ∧
    (∀ s ∈ designs, s.length = P.n) ∧ List.Forall₂ (fun s o => P.repair s = .ok o) designs outs ∧
    n.lastLevel = designs.length ∧ n.repaired = (outs.filter (fun o => o.2)).length ∧
    n.unique ≤ ((outs.filter (fun o => o.2)).map Prod.fst).dedup.length ∧
    ((∀ last kids fs, P.factors level last kids = .ok fs → ∀ f ∈ fs, ∀ s, P.objective level (P.lampamOf s) * f < 10 ^ 10) →
      n.unique = ((outs.filter (fun o => o.2)).map Prod.fst).dedup.length) ∧
    (best, true) ∈ outs

theorem filter_fulls {P : LaylaProblem V} (hf : FactorsOK P) {level : Nat} {outs : List (Stack × Bool)} {ns : List (LNode V)}
    (h : List.Forall₂ (LeafOf P level) outs ns) :
    ((ns.filter (fun (k : LNode V) => decide (k.obj < 10 ^ 10))).map (fun (k : LNode V) => k.full)).Sublist
      ((outs.filter (fun o => o.2)).map Prod.fst) ∧
    ((∀ last kids fs, P.factors level last kids = .ok fs → ∀ f ∈ fs, ∀ s, P.objective level (P.lampamOf s) * f < 10 ^ 10) →
      (ns.filter (fun (k : LNode V) => decide (k.obj < 10 ^ 10))).map (fun (k : LNode V) => k.full) =
        (outs.filter (fun o => o.2)).map Prod.fst) := by
  induction h with
  | nil => exact ⟨List.Sublist.refl _, fun _ => rfl⟩
  | @cons o k outs ns h1 _ ih =>
    obtain ⟨e, last, kids, fs, f, hfs, hfm, hobj⟩ := h1
    have hf1 : 1 ≤ f := (hf _ _ _ _ hfs).2 f hfm
    obtain ⟨o1, o2⟩ := o
    cases o2 with
    | false =>
      have hbig : ¬ (k.obj < 10 ^ 10) := by
        rw [hobj]
        simp only [Bool.false_eq_true, if_false, not_lt]
        nlinarith
      rw [List.filter_cons_of_neg (by simpa using hbig), List.filter_cons_of_neg (by simp)]
      exact ih
    | true =>
      have e' : k.full = o1 := e
      constructor
      · rw [List.filter_cons_of_pos (a := (o1, true)) rfl, List.map_cons]
        by_cases hs : k.obj < 10 ^ 10
        · rw [List.filter_cons_of_pos (by simpa using hs), List.map_cons, e']
          exact ih.1.cons₂ _
        · rw [List.filter_cons_of_neg (by simpa using hs)]
          exact ih.1.cons _
      · intro hsm
        have hs : k.obj < 10 ^ 10 := by
          rw [hobj]
          exact hsm _ _ _ hfs f hfm o1
        rw [List.filter_cons_of_pos (a := (o1, true)) rfl, List.map_cons, List.filter_cons_of_pos (by simpa using hs), List.map_cons, e',
          ih.2 hsm]

theorem dedup_length_le {l l' : List Stack} (h : l.Sublist l') : l.dedup.length ≤ l'.dedup.length := by
  have : l.dedup ⊆ l'.dedup := fun x hx => List.mem_dedup.2 (h.subset (List.mem_dedup.1 hx))
  exact (List.nodup_dedup l).subperm this |>.length_le

theorem beam_counters (P : LaylaProblem V) (hf : FactorsOK P) (g : LaylaGroup) (levels : List Nat) (hg : g.size = levels.length)
    (h0 : 0 < levels.length) (hl : g.last = true) (lampam : V) (counts : List ℚ) (k : LNode V)
    (h : laylaBeam P g levels lampam counts = .ok k) :
    ∃ n, laylaBeamCounters P g levels lampam counts = .ok n ∧ CountersOf P g levels lampam counts k.full n ∧
      1 ≤ n.unique ∧ n.unique ≤ n.repaired ∧ n.repaired ≤ n.lastLevel := by
  obtain ⟨ns, i, hns, hi, _, _, hsmall, _⟩ := C78_group_search P hf g levels hg h0 lampam counts k h
  have hne : levels ≠ [] := by rintro rfl; simp at h0
  obtain ⟨before, level, ss, outs, j1, j2, j3, j4, j5, j6, j7⟩ := levels_designs hf hl levels 0 _ _ hne (by omega) hns
  obtain ⟨s1, s2⟩ := filter_fulls hf j7
  have hsm : k.obj < 10 ^ 10 := lt_of_le_of_lt hsmall (by norm_num)
  have hmem : k.full ∈ (ns.filter (fun (k : LNode V) => decide (k.obj < 10 ^ 10))).map (fun (k : LNode V) => k.full) :=
    List.mem_map.2 ⟨k, List.mem_filter.2 ⟨List.mem_of_getElem? hi, by simpa using hsm⟩, rfl⟩
  have hcount : outs.countP (fun o => o.2) = (outs.filter (fun o => o.2)).length := List.countP_eq_length_filter
  refine ⟨⟨ss.length, outs.countP (fun o => o.2), laylaUnique ns⟩, ?_,
    ⟨before, level, ss, outs, j2, j1, j4, j6, j5, rfl, hcount, dedup_length_le s1, ?_, ?_⟩, ?_, ?_, ?_⟩
  · unfold laylaBeamCounters
    exact bind_ok.2 ⟨k, h, bind_ok.2 ⟨_, j3, bind_ok.2 ⟨_, hns, rfl⟩⟩⟩
  · intro hq
    show ((ns.filter _).map _).dedup.length = _
    rw [s2 hq]
  · obtain ⟨o, ho, e⟩ := List.mem_map.1 (s1.subset hmem)
    obtain ⟨h1, h2⟩ := List.mem_filter.1 ho
    obtain ⟨o1, o2⟩ := o
    simp only at e h2
    subst e
    subst h2
    exact h1
  · exact List.length_pos_of_mem (List.mem_dedup.2 hmem)
  · refine (dedup_length_le s1).trans ((List.dedup_sublist _).length_le.trans ?_)
    rw [List.length_map, hcount]
  · show outs.countP (fun o => o.2) ≤ ss.length
    rw [j5.length_eq]
    exact List.countP_le_length

/-- The counters of an outer step: those of the search of the last group, which returns the design `best`. -/
def StepCountersOf (P : LaylaProblem V) (groups : List (List Nat × V)) (best : Stack) (n : LaylaCounters) : Prop :=
  ∃ (g : LaylaGroup) (levels : List Nat) (assumed lampam : V) (counts : List ℚ), groups.getLast? = some (levels, assumed) ∧
    g.last = true ∧ g.size = levels.length ∧ (∃ k, laylaBeam P g levels lampam counts = .ok k ∧ k.full = best) ∧
    CountersOf P g levels lampam counts best n

theorem groups_counters (P : LaylaProblem V) (hf : FactorsOK P) (gs : List (List Nat × V)) (hne : ∀ g ∈ gs, g.1 ≠ []) (bot top : Stack)
    (lampam : V) (counts : List ℚ) (k : LNode V) (h : laylaGroups P gs bot top lampam counts = .ok k) :
    ∃ n, laylaGroupsCounters P gs bot top lampam counts = .ok n ∧ StepCountersOf P gs k.full n ∧
      1 ≤ n.unique ∧ n.unique ≤ n.repaired ∧ n.repaired ≤ n.lastLevel := by
  induction gs generalizing bot top lampam counts with
  | nil => cases h
  | cons q gs ih =>
    obtain ⟨levels, assumed⟩ := q
    have hpos : 0 < levels.length := List.length_pos_of_ne_nil (hne _ List.mem_cons_self)
    cases gs with
    | nil =>
      unfold laylaGroups at h
      obtain ⟨n, n1, n2, n3⟩ := beam_counters P hf _ levels rfl hpos rfl _ _ k h
      exact ⟨n, n1, ⟨_, levels, assumed, _, _, rfl, rfl, rfl, ⟨k, h, rfl⟩, n2⟩, n3⟩
    | cons q2 gs =>
      unfold laylaGroups at h
      obtain ⟨k1, h1, h⟩ := bind_ok.1 h
      obtain ⟨n, n1, ⟨g, lv, as, lam, cts, m1, m2⟩, n3⟩ := ih (fun x hx => hne x (List.mem_cons_of_mem _ hx)) _ _ _ _ h
      refine ⟨n, ?_, ⟨g, lv, as, lam, cts, by rw [List.getLast?_cons_cons]; exact m1, m2⟩, n3⟩
      unfold laylaGroupsCounters
      exact bind_ok.2 ⟨_, h1, n1⟩

/-- C90: the counters of an outer step that returns a design.  The designs at the last level are the complete laminates, with the
required number of plies, one for each node of the last level and each orientation that the pruning allows for its last ply; the
designs repaired are those for which the repair succeeds; the distinct ones are at most as many as the distinct outcomes of a successful
repair, and exactly as many if no penalised objective reaches 1e10.  The design returned is one of these outcomes, so that all three
counters are positive. -/
theorem C90_step (P : LaylaProblem V) (hf : FactorsOK P) (gs : List (List Nat × V)) (hne : ∀ g ∈ gs, g.1 ≠ []) (r : LaylaStep V)
    (h : laylaOuterStep P gs = .ok r) :
    ∃ n, laylaStepCounters P gs = .ok n ∧ StepCountersOf P gs r.ss n ∧
      1 ≤ n.unique ∧ n.unique ≤ n.repaired ∧ n.repaired ≤ n.lastLevel := by
  have h' := h
  unfold laylaOuterStep at h'
  obtain ⟨k, hk, h'⟩ := bind_ok.1 h'
  obtain ⟨o, ho, h'⟩ := bind_ok.1 h'
  obtain ⟨n, n1, n2, n3⟩ := groups_counters P hf gs hne _ _ _ _ k hk
  have := (Except.ok.inj h').symm
  subst this
  refine ⟨n, ?_, n2, n3⟩
  unfold laylaStepCounters
  exact bind_ok.2 ⟨_, h, n1⟩

theorem loop_counters {P : LaylaProblem V} (hf : FactorsOK P) {gmin : Int} {gmax : List Int} (h1 : 1 ≤ gmin) (h2 : ∀ m ∈ gmax, gmin ≤ m)
    (fuel step : Nat) (prev : Option (LaylaStep V)) (groups : List (List Nat × V)) (hne : ∀ g ∈ groups, g.1 ≠ []) (rs : List (LaylaStep V))
    (h : laylaLoop P gmin gmax fuel step prev groups = .ok rs) :
    ∃ ns, laylaLoopCounters P gmin gmax fuel step prev groups = .ok ns ∧
      List.Forall₂ (fun r n => ∃ gs, laylaOuterStep P gs = .ok r ∧ laylaStepCounters P gs = .ok n ∧ StepCountersOf P gs r.ss n ∧
        1 ≤ n.unique ∧ n.unique ≤ n.repaired ∧ n.repaired ≤ n.lastLevel) rs ns := by
  induction fuel generalizing step prev groups rs with
  | zero =>
    have : rs = [] := (Except.ok.inj h).symm
    subst this
    exact ⟨[], rfl, .nil⟩
  | succ k ih =>
    unfold laylaLoop at h
    obtain ⟨r, hr, h⟩ := bind_ok.1 h
    obtain ⟨u, hcheck, h⟩ := bind_ok.1 h
    obtain ⟨u2, hclose, h⟩ := bind_ok.1 h
    obtain ⟨u3, hlen, h⟩ := bind_ok.1 h
    obtain ⟨n, n1, n2⟩ := C90_step P hf groups hne r hr
    by_cases e1 : r.obj < 1 / 10 ^ 10 ∨ prev.map (fun (q : LaylaStep V) => q.ss) = some r.ss
    · rw [if_pos e1] at h
      have := (Except.ok.inj h).symm
      subst this
      refine ⟨[n], ?_, .cons ⟨groups, hr, n1, n2⟩ .nil⟩
      unfold laylaLoopCounters
      refine bind_ok.2 ⟨r, hr, bind_ok.2 ⟨n, n1, ?_⟩⟩
      rw [if_pos e1]; rfl
    rw [if_neg e1] at h
    by_cases e2 : k = 0
    · rw [if_pos e2] at h
      have := (Except.ok.inj h).symm
      subst this
      refine ⟨[n], ?_, .cons ⟨groups, hr, n1, n2⟩ .nil⟩
      unfold laylaLoopCounters
      refine bind_ok.2 ⟨r, hr, bind_ok.2 ⟨n, n1, ?_⟩⟩
      rw [if_neg e1, if_pos e2]; rfl
    rw [if_neg e2] at h
    obtain ⟨levels, hlv, h⟩ := bind_ok.1 h
    obtain ⟨gs, hgs, h⟩ := bind_ok.1 h
    obtain ⟨rest, hrest, h⟩ := bind_ok.1 h
    have := (Except.ok.inj h).symm
    subst this
    have hne2 : ∀ g ∈ gs, g.1 ≠ [] := by
      rw [(laylaAssumed_ok hgs).1]
      intro g hg
      unfold contributions at hg
      obtain ⟨l, hl, rfl⟩ := List.mem_map.1 hg
      exact (laylaDivision_ok h1 h2 hlv).2 l hl
    obtain ⟨ns, i1, i2⟩ := ih (step + 1) (some r) gs hne2 rest hrest
    refine ⟨n :: ns, ?_, .cons ⟨groups, hr, n1, n2⟩ i2⟩
    unfold laylaLoopCounters
    refine bind_ok.2 ⟨r, hr, bind_ok.2 ⟨n, n1, ?_⟩⟩
    rw [if_neg e1, if_neg e2]
    exact bind_ok.2 ⟨_, hlv, bind_ok.2 ⟨_, hgs, bind_ok.2 ⟨_, i1, rfl⟩⟩⟩

/-- C90: the tables of the counters in the results of LAYLA.  They have one entry for each outer step asked for: for a step performed the
counters of that step, as described above, and NaN (`none`) for the steps that were not performed. -/
theorem C90_tables (P : LaylaProblem V) (hf : FactorsOK P) (nOuter : Nat) (gmin : Int) (gmax : List Int) (h1 : 1 ≤ gmin)
    (h2 : ∀ m ∈ gmax, gmin ≤ m) (r : LaylaResult V) (h : laylaOptimiser P nOuter gmin gmax = .ok r) :
    ∃ ts, laylaTables P nOuter gmin gmax = .ok ts ∧ ts.length = nOuter ∧ 1 ≤ r.performed ∧ r.performed ≤ nOuter ∧
      (∀ i, i < r.performed → ∃ n gs q, ts[i]? = some (some n) ∧ laylaOuterStep P gs = .ok q ∧ StepCountersOf P gs q.ss n ∧
        (i + 1 = r.best → q.ss = r.ss) ∧ 1 ≤ n.unique ∧ n.unique ≤ n.repaired ∧ n.repaired ≤ n.lastLevel) ∧
      (∀ i, r.performed ≤ i → i < nOuter → ts[i]? = some none) := by
  have h' := h
  unfold laylaOptimiser at h'
  obtain ⟨levels, hlv, h'⟩ := bind_ok.1 h'
  obtain ⟨rs, hrs, h'⟩ := bind_ok.1 h'
  by_cases e : rs.length = 0
  · rw [if_pos e] at h'; cases h'
  rw [if_neg e] at h'
  obtain ⟨q, hq, h'⟩ := bind_ok.1 h'
  rw [pyGet_eq_ok] at hq
  have := (Except.ok.inj h').symm
  subst this
  obtain ⟨ns, n1, n2⟩ := loop_counters hf h1 h2 nOuter 0 none _ (by
    intro g hg
    obtain ⟨l, hl, rfl⟩ := List.mem_map.1 hg
    exact (laylaDivision_ok h1 h2 hlv).2 l hl) rs hrs
  have hlen := n2.length_eq
  have hle : rs.length ≤ nOuter := (laylaLoop_spec _ _ _ _ _ hrs).1
  refine ⟨ns.map some ++ List.replicate (nOuter - ns.length) none, ?_, ?_, ?_, hle, ?_, ?_⟩
  · unfold laylaTables
    exact bind_ok.2 ⟨_, h, bind_ok.2 ⟨_, hlv, bind_ok.2 ⟨_, n1, rfl⟩⟩⟩
  · rw [List.length_append, List.length_map, List.length_replicate]; omega
  · exact Nat.one_le_iff_ne_zero.2 e
  · intro i hi
    dsimp only at hi
    obtain ⟨gs, g1, _, g2, g3⟩ := List.Forall₂.get n2 (i := i) hi (by omega)
    rw [List.get_eq_getElem] at g1 g2 g3
    refine ⟨ns[i]'(by omega), gs, rs[i], ?_, g1, g2, ?_, g3⟩
    · rw [List.getElem?_append_left (by rw [List.length_map]; omega), List.getElem?_map, List.getElem?_eq_getElem (by omega)]
      rfl
    · intro hb
      dsimp only at hb
      have : i = argMin (rs.map (fun (r : LaylaStep V) => r.obj)) := by omega
      rw [← this, List.getElem?_eq_getElem hi] at hq
      rw [Option.some.inj hq]
  · intro i hi hn
    dsimp only at hi
    rw [List.getElem?_append_right (by rw [List.length_map]; omega), List.getElem?_replicate, if_pos (by rw [List.length_map]; omega)]

theorem laylaDiso_length (child : List Int) (sBot mBot sTop mTop : Stack) (level n : Nat) (c : Cons) (r : List Int)
    (h : laylaDiso child sBot mBot sTop mTop level n c = .ok r) : r.length ≤ child.length := by
  have main : ∀ l : List Int, l.length ≤ child.length → (if c.sym = false ∧ level = n - 1 then
      if level % 2 = 0 then
        if l.length > 0 ∧ mBot.length = 0 then .error .indexError
        else .ok (l.filter (fun a => isDiso a (nth mBot (mBot.length - 1)) c.deltaAngle))
      else
        if l.length > 0 ∧ mTop.length = 0 then .error .indexError
        else .ok (l.filter (fun a => isDiso a (nth mTop 0) c.deltaAngle))
    else .ok l : Py (List Int)) = .ok r → r.length ≤ child.length := by
    intro l hl hr
    split at hr
    · split at hr
      · split at hr
        · cases hr
        · cases hr; exact (List.length_filter_le _ _).trans hl
      · split at hr
        · cases hr
        · cases hr; exact (List.length_filter_le _ _).trans hl
    · cases hr; exact hl
  unfold laylaDiso at h
  split at h
  · refine main _ ?_ h
    split
    · split
      · exact List.length_filter_le _ _
      · split
        · exact List.length_filter_le _ _
        · exact le_refl _
    · dsimp only
      split
      · refine (List.length_filter_le _ _).trans ?_
        split
        · exact List.length_filter_le _ _
        · exact le_refl _
      · split
        · exact List.length_filter_le _ _
        · exact le_refl _
  · cases h; exact le_refl _

theorem laylaRules_length (child : List Int) (sBot mBot sTop mTop : Stack) (level n : Nat) (c : Cons) (r : List Int)
    (h : laylaRules child sBot mBot sTop mTop level n c = .ok (some r)) : r.length ≤ child.length := by
  unfold laylaRules at h
  obtain ⟨l, h1, h⟩ := bind_ok.1 h
  have := laylaDiso_length _ _ _ _ _ _ _ _ _ h1
  split at h
  · cases h
  · split at h
    · obtain ⟨l2, h2, h3⟩ := bind_ok.1 h
      have e := noneIfEmpty_length _ _ (Except.ok.inj h3)
      have : l2.length ≤ l.length := by
        unfold laylaContig at h2
        split at h2
        · exact keepIf_length _ _ _ h2
        · split at h2
          · exact keepIf_length _ _ _ h2
          · split at h2
            · cases h2; exact le_refl _
            · cases h2
      omega
    · cases h; assumption

theorem laylaPruning_length (child : List Int) (sBot mBot sTop mTop : Stack) (level n : Nat) (c : Cons) (rule : Int) (r : List Int)
    (h : laylaPruning child sBot mBot sTop mTop level n c rule = .ok (some r)) : r.length ≤ max child.length 2 := by
  unfold laylaPruning at h
  dsimp only at h
  have hch : (if c.sym = true ∧ n % 2 = 1 ∧ level = n / 2 then ([0, 90] : List Int) else child).length ≤
      max child.length 2 := by split <;> simp
  generalize (if c.sym = true ∧ n % 2 = 1 ∧ level = n / 2 then ([0, 90] : List Int) else child) = l at *
  refine le_trans ?_ hch
  split at h
  · split at h
    · rw [noneIfEmpty_length _ _ (Except.ok.inj h)]
      exact List.length_filter_le _ _
    · split at h
      · split at h
        · cases h
        · rw [noneIfEmpty_length _ _ (Except.ok.inj h)]
          exact damTolSecond_length _ _ _ _
      · split at h
        · split at h
          · cases h
          · rw [noneIfEmpty_length _ _ (Except.ok.inj h)]
            exact damTolSecond_length _ _ _ _
        · exact laylaRules_length _ _ _ _ _ _ _ _ _ h
  · exact laylaRules_length _ _ _ _ _ _ _ _ _ h

omit [AddCommGroup V] in
theorem laylaAllowed_le (P : LaylaProblem V) (g : LaylaGroup) (level : Nat) (m : LNode V) :
    laylaAllowed P g level m ≤ max P.c.angles.length 2 := by
  unfold laylaAllowed
  split
  · rename_i h
    exact laylaPruning_length _ _ _ _ _ _ _ _ _ _ h
  · omega

theorem branch_small {P : LaylaProblem V} {g : LaylaGroup} {t level : Nat} (ht : t ≠ g.size - 1)
    (hs : ∀ level last kids fs, P.factors level last kids = .ok fs → ∀ f ∈ fs, ∀ v, P.objective level v * f < 6666)
    {m : LNode V} {ks : List (LNode V)} (h : laylaBranch P g t level m = .ok ks) : ∀ k ∈ ks, k.obj < 6666 := by
  intro k hk
  unfold laylaBranch at h
  obtain ⟨kept, _, h⟩ := bind_ok.1 h
  cases kept with
  | none =>
    have := (Except.ok.inj h).symm
    subst this
    cases hk
  | some ch =>
    dsimp only at h
    obtain ⟨kids, hkids, h⟩ := bind_ok.1 h
    by_cases e : kids.length = 0
    · rw [if_pos e] at h
      have := (Except.ok.inj h).symm
      subst this
      cases hk
    rw [if_neg e] at h
    obtain ⟨kids2, h2, h⟩ := bind_ok.1 h
    unfold laylaLeaves at h2
    rw [if_neg (fun h3 => ht h3.2)] at h2
    have := (Except.ok.inj h2).symm
    subst this
    obtain ⟨fs, hfs, h⟩ := bind_ok.1 h
    rw [← Except.ok.inj h] at hk
    obtain ⟨k', hk', f, hfm, rfl⟩ := mem_zipWith_obj (mem_laylaLocalPrune hk)
    obtain ⟨k2, _, rfl⟩ := List.mem_map.1 hk'
    exact hs _ _ _ _ hfs f hfm _

theorem before_le {P : LaylaProblem V} {g : LaylaGroup} (hl : g.last = true)
    (hs : ∀ level last kids fs, P.factors level last kids = .ok fs → ∀ f ∈ fs, ∀ v, P.objective level v * f < 6666) :
    ∀ (ls : List Nat) (t : Nat) (ns out : List (LNode V)), t + ls.length + 1 = g.size → ls ≠ [] → laylaLevels P g ls t ns = .ok out →
    out.length ≤ P.globalLimitP := by
  intro ls
  induction ls with
  | nil => intro t ns out _ h; exact absurd rfl h
  | cons level ls ih =>
    intro t ns out hsz _ h
    unfold laylaLevels at h
    obtain ⟨ns1, h1, h⟩ := bind_ok.1 h
    rw [List.length_cons] at hsz
    cases ls with
    | nil =>
      rw [List.length_nil] at hsz
      have := Except.ok.inj h
      subst this
      obtain ⟨kids, hkids, _, hlim⟩ := C78_limits P g t level ns ns1 (by omega) h1
      have := (hlim (by
        intro k hk
        obtain ⟨ks, hks, hk⟩ := List.mem_flatten.1 hk
        obtain ⟨m, _, hmk⟩ := mapM_mem hkids hks
        exact branch_small (by omega) hs hmk k hk)).2
      rw [if_pos ⟨hl, by omega⟩] at this
      exact this
    | cons l2 ls => exact ih (t + 1) ns1 out (by omega) (by simp) h

/-- C90: the number of designs at the last level, and thus of repairs in an outer step, is at most the number of orientations (2 at least)
times the limit on the nodes of the level before (1 if the last group has one level), provided that the bounds are below the
sentinel 6666. -/
theorem C90_limit (P : LaylaProblem V) (gs : List (List Nat × V)) (hne : ∀ g ∈ gs, g.1 ≠ []) (best : Stack) (n : LaylaCounters)
    (hs : ∀ level last kids fs, P.factors level last kids = .ok fs → ∀ f ∈ fs, ∀ v, P.objective level v * f < 6666)
    (h : StepCountersOf P gs best n) : n.lastLevel ≤ max P.c.angles.length 2 * max P.globalLimitP 1 := by
  obtain ⟨g, levels, assumed, lampam, counts, h1, h2, h3, _, before, level, designs, outs, c1, c2, c3, _, _, c6, _⟩ := h
  have hlv : levels ≠ [] := hne _ (List.mem_of_getLast? h1)
  have hpos : 0 < levels.length := List.length_pos_of_ne_nil hlv
  have hb : before.length ≤ max P.globalLimitP 1 := by
    by_cases e : levels.dropLast = []
    · rw [e] at c1
      rw [← Except.ok.inj c1]
      exact le_max_right _ _
    · exact (before_le h2 hs _ 0 _ _ (by rw [List.length_dropLast]; omega) e c1).trans (le_max_left _ _)
  rw [c6, c3]
  have hsum : ∀ l : List (LNode V), (l.map (laylaAllowed P g level)).sum ≤ max P.c.angles.length 2 * l.length := by
    intro l
    induction l with
    | nil => simp
    | cons m l ih =>
      rw [List.map_cons, List.sum_cons, List.length_cons, Nat.mul_add, Nat.mul_one]
      have := laylaAllowed_le P g level m
      omega
  exact (hsum before).trans (Nat.mul_le_mul_left _ hb)

/-- A problem used as an example: the repair makes the middle one of seven plies 0° and fails if the plies next to it are at -45°. -/
def countersExample (c : Cons) : LaylaProblem ℚ :=
  { laylaExample c 7 with repair := fun (s : Stack) => .ok (s.set 3 0, s.getD 2 0 != -45) }

/-- The hypotheses of the theorems are met: LAYLA with three outer steps for a symmetric laminate of seven plies, of which two are
performed. -/
theorem C90_example : ∃ (a : ConsArgs) (c : Cons) (r : LaylaResult ℚ), mkConstraints a = .ok c ∧ c.sym = true ∧
    FactorsOK (countersExample c) ∧ laylaOptimiser (countersExample c) 3 2 [3, 4, 4] = .ok r ∧ r.performed = 2 ∧ r.best = 1 ∧
    laylaTables (countersExample c) 3 2 [3, 4, 4] = .ok [some ⟨6, 4, 2⟩, some ⟨6, 4, 2⟩, none] := by
  obtain ⟨c, hc, ht⟩ := ok_of_test (mkConstraints { sym := true })
    (fun c => decide (c.sym = true ∧ laylaTables (countersExample c) 3 2 [3, 4, 4] = .ok [some ⟨6, 4, 2⟩, some ⟨6, 4, 2⟩, none]) &&
      (match laylaOptimiser (countersExample c) 3 2 [3, 4, 4] with
      | .ok r => decide (r.performed = 2 ∧ r.best = 1)
      | .error _ => false)) (by decide +kernel)
  simp only [Bool.and_eq_true, decide_eq_true_eq] at ht
  obtain ⟨⟨g1, g2⟩, g3⟩ := ht
  cases h : laylaOptimiser (countersExample c) 3 2 [3, 4, 4] with
  | error e => rw [h] at g3; cases g3
  | ok r =>
    rw [h] at g3
    simp only [decide_eq_true_eq] at g3
    exact ⟨_, c, r, hc, g1, laylaExample_factors c 7, h, g3.1, g3.2, g2⟩

/-- The hypotheses of `C90_limit` are met: the problem above with an objective that does not exceed 200. -/
theorem C90_limit_example : ∃ (a : ConsArgs) (c : Cons) (P : LaylaProblem ℚ) (gs : List (List Nat × ℚ)) (best : Stack) (n : LaylaCounters),
    mkConstraints a = .ok c ∧ P.c = c ∧ FactorsOK P ∧ (∀ g ∈ gs, g.1 ≠ []) ∧
    (∀ level last kids fs, P.factors level last kids = .ok fs → ∀ f ∈ fs, ∀ v, P.objective level v * f < 6666) ∧
    StepCountersOf P gs best n ∧ n.lastLevel = 6 ∧ max P.c.angles.length 2 * max P.globalLimitP 1 = 12 := by
  obtain ⟨c, hc, ht⟩ := ok_of_test (mkConstraints { sym := true })
    (fun c => decide (c.angles.length = 4) &&
      (match laylaStepCounters { countersExample c with objective := fun (_ : Nat) (v : ℚ) => min |v - 100| 200 } [([0, 1], 0), ([2, 3], 0)] with
        | .ok n => decide (n.lastLevel = 6)
        | .error _ => false) &&
      (match laylaOuterStep { countersExample c with objective := fun (_ : Nat) (v : ℚ) => min |v - 100| 200 } [([0, 1], 0), ([2, 3], 0)] with
        | .ok _ => true
        | .error _ => false)) (by decide +kernel)
  simp only [Bool.and_eq_true, decide_eq_true_eq] at ht
  obtain ⟨⟨g1, g2⟩, g3⟩ := ht
  have hF : FactorsOK { countersExample c with objective := fun (_ : Nat) (v : ℚ) => min |v - 100| 200 } := laylaExample_factors c 7
  have hne : ∀ g ∈ ([([0, 1], 0), ([2, 3], 0)] : List (List Nat × ℚ)), g.1 ≠ [] := by
    intro g hg
    simp only [List.mem_cons, List.not_mem_nil, or_false] at hg
    rcases hg with rfl | rfl <;> simp
  cases h : laylaOuterStep { countersExample c with objective := fun (_ : Nat) (v : ℚ) => min |v - 100| 200 } [([0, 1], 0), ([2, 3], 0)] with
  | error e => rw [h] at g3; cases g3
  | ok r =>
    obtain ⟨n, n1, n2, _⟩ := C90_step _ hF _ hne r h
    rw [n1] at g2
    simp only [decide_eq_true_eq] at g2
    refine ⟨_, c, _, _, r.ss, n, hc, rfl, hF, hne, ?_, n2, g2, ?_⟩
    · intro level last kids fs hfs f hf v
      have hfs := (Except.ok.inj hfs).symm
      subst hfs
      obtain ⟨_, _, rfl⟩ := List.mem_map.1 hf
      have : min |v - 100| 200 ≤ (200 : ℚ) := min_le_right _ _
      show min |v - 100| 200 * 1 < (6666 : ℚ)
      linarith
    · show max c.angles.length 2 * max 3 1 = 12
      rw [g1]; rfl

end Bella
