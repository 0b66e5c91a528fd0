import Verif.Proofs.BeamSearch
import Verif.Props.Pruning
import Mathlib.Algebra.BigOperators.Group.List.Basic
/-
Properties C53 (the tables of the beam search describe the same designs), C38 (rules satisfied by the
designs of the beam search).
-/
namespace Bella

variable {V : Type} [AddMonoid V]

/-- Ply of the given level counts for one half if it is the middle ply (the last one, for panels with
a middle ply). -/
def plyWeight (P : Problem V) (level : Nat) : ℚ :=
  if P.indices.getLast? = some level ∧ P.hasMiddle = true then 1 / 2 else 1

/-- What the tables should hold for the design that chooses the angle `a` at the level `l` for each
`(l, a)` of `choice`. -/
structure Describes (P : Problem V) (choice : List (Nat × Int)) (x : Node V) : Prop where
  bot : x.bot = (List.range P.nPanels).map (fun (ip : Nat) => Spec.panelPlies (P.pdl.getD ip [])
    (choice.filter (fun (p : Nat × Int) => P.c.sym || p.1 % 2 == 0)))
  top : x.top = (List.range P.nPanels).map (fun (ip : Nat) => (Spec.panelPlies (P.pdl.getD ip [])
    (choice.filter (fun (p : Nat × Int) => ! (P.c.sym || p.1 % 2 == 0)))).reverse)
  lp : x.lp = (List.range P.nPanels).map (fun (ip : Nat) =>
    (choice.map (fun (p : Nat × Int) => P.contrib ip p.2 p.1)).sum)
  cnt : x.cnt = (List.range P.nPanels).map (fun (ip : Nat) => (List.range P.c.nAngles).map
    (fun (j : Nat) => ((choice.filter (fun (p : Nat × Int) =>
      decide (0 ≤ (P.pdl.getD ip []).getD p.1 (-1)) && decide (P.c.indAngles.lookup p.2 = some j))).map
        (fun (p : Nat × Int) => plyWeight P p.1)).sum))
  obj : ∀ l a, choice.getLast? = some (l, a) →
    P.objPanels l x.lp = .ok x.objs ∧ P.objMp x.objs = .ok x.obj

theorem mapM_range_eq {β : Type} (f : Nat → Py β) (g : Nat → β) (n : Nat) (ys : List β)
    (h : (List.range n).mapM f = .ok ys) (hg : ∀ i, i < n → ∀ y, f i = .ok y → y = g i) :
    ys = (List.range n).map g := by
  have h2 := mapM_inv f _ _ h
  have hl : ys.length = n := by rw [← h2.length_eq]; simp
  apply List.ext_getElem
  · simp [hl]
  · intro i h3 h4
    have h5 := List.Forall₂.get h2 (i := i) (by simp; omega) h3
    simp only [List.get_eq_getElem, List.getElem_range] at h5
    rw [hg i (by omega) _ h5]
    simp

theorem pyGet_map_range {β : Type} (g : Nat → β) (n i : Nat) (hi : i < n) (y : β)
    (h : pyGet ((List.range n).map g) i = .ok y) : y = g i := by
  rw [pyGet_eq_ok] at h
  simp [hi] at h
  exact h.symm

theorem covers_eq (pdl : List (List Int)) (level ip : Nat) (b : Bool) (h : covers pdl level ip = .ok b) :
    b = decide (0 ≤ (pdl.getD ip []).getD level (-1)) := by
  simp only [covers, bind_ok, pure, Except.pure, Except.ok.injEq] at h
  obtain ⟨row, h1, x, h2, rfl⟩ := h
  rw [pyGet_eq_ok] at h1 h2
  have e : pdl.getD ip [] = row := by rw [List.getD_eq_getElem?_getD, h1]; rfl
  rw [e, List.getD_eq_getElem?_getD, h2]
  rfl

theorem panelPlies_snoc (row : List ℤ) (choice : List (ℕ × ℤ)) (l : ℕ) (a : ℤ) :
    Spec.panelPlies row (choice ++ [(l, a)]) =
      Spec.panelPlies row choice ++ if decide (0 ≤ row.getD l (-1)) = true then [a] else [] := by
  unfold Spec.panelPlies
  rw [List.filter_append, List.map_append]
  congr 1
  rw [List.filter_singleton]
  by_cases h : 0 ≤ row.getD l (-1)
  · rw [decide_eq_true h]; rfl
  · rw [decide_eq_false h]; rfl

/-- one step of the search extends the design described -/
theorem describes_child (P : Problem V) (choice : List (Nat × Int)) (m x : Node V) (level : Nat) (a : Int)
    (hm : Describes P choice m)
    (h : ChildOf P level (decide (P.indices.getLast? = some level)) m a x) :
    Describes P (choice ++ [(level, a)]) x := by
  have happ : ∀ (m' : List Stack) (ch : List (Nat × Int)) (y : List Stack),
      m' = (List.range P.nPanels).map (fun (ip : Nat) => Spec.panelPlies (P.pdl.getD ip []) ch) →
      appendPly P level m' a = .ok y →
      y = (List.range P.nPanels).map (fun (ip : Nat) => Spec.panelPlies (P.pdl.getD ip [])
        (ch ++ [(level, a)])) := by
    intro m' ch y hm' hy
    refine mapM_range_eq _ _ _ _ hy ?_
    intro i hi s hs
    simp only [bind_ok, pure, Except.pure, Except.ok.injEq] at hs
    obtain ⟨s0, h1, b, h2, rfl⟩ := hs
    rw [hm'] at h1
    rw [pyGet_map_range _ _ _ hi _ h1, covers_eq _ _ _ _ h2, panelPlies_snoc]
    split <;> simp
  have hpre : ∀ (m' : List Stack) (ch : List (Nat × Int)) (y : List Stack),
      m' = (List.range P.nPanels).map (fun (ip : Nat) => (Spec.panelPlies (P.pdl.getD ip []) ch).reverse) →
      prependPly P level m' a = .ok y →
      y = (List.range P.nPanels).map (fun (ip : Nat) => (Spec.panelPlies (P.pdl.getD ip [])
        (ch ++ [(level, a)])).reverse) := by
    intro m' ch y hm' hy
    refine mapM_range_eq _ _ _ _ hy ?_
    intro i hi s hs
    simp only [bind_ok, pure, Except.pure, Except.ok.injEq] at hs
    obtain ⟨s0, h1, b, h2, rfl⟩ := hs
    rw [hm'] at h1
    rw [pyGet_map_range _ _ _ hi _ h1, covers_eq _ _ _ _ h2, panelPlies_snoc, List.reverse_append]
    split <;> simp
  have hlay := h.lay
  unfold childStacks at hlay
  have hbt : x.bot = (List.range P.nPanels).map (fun (ip : Nat) => Spec.panelPlies (P.pdl.getD ip [])
      ((choice ++ [(level, a)]).filter (fun (p : Nat × Int) => P.c.sym || p.1 % 2 == 0))) ∧
      x.top = (List.range P.nPanels).map (fun (ip : Nat) => (Spec.panelPlies (P.pdl.getD ip [])
      ((choice ++ [(level, a)]).filter
        (fun (p : Nat × Int) => ! (P.c.sym || p.1 % 2 == 0)))).reverse) := by
    split at hlay
    · rename_i hc
      simp only [bind_ok, pure, Except.pure, Except.ok.injEq, Prod.mk.injEq] at hlay
      obtain ⟨b, h1, h2, h3⟩ := hlay
      subst h2
      have hc' : (P.c.sym || level % 2 == 0) = true := by simpa using hc
      rw [List.filter_append, List.filter_append]
      rw [show [(level, a)].filter (fun (p : Nat × Int) => P.c.sym || p.1 % 2 == 0) = [(level, a)] by
        rw [List.filter_singleton]; simp only [hc']; rfl]
      rw [show [(level, a)].filter (fun (p : Nat × Int) => ! (P.c.sym || p.1 % 2 == 0)) = [] by
        rw [List.filter_singleton]; simp only [hc']; rfl]
      refine ⟨happ _ _ _ hm.bot h1, ?_⟩
      rw [← h3, List.append_nil]
      exact hm.top
    · rename_i hc
      simp only [bind_ok, pure, Except.pure, Except.ok.injEq, Prod.mk.injEq] at hlay
      obtain ⟨b, h1, h2, h3⟩ := hlay
      subst h3
      have hc' : (P.c.sym || level % 2 == 0) = false := by
        rw [Bool.eq_false_iff]; simpa using hc
      rw [List.filter_append, List.filter_append]
      rw [show [(level, a)].filter (fun (p : Nat × Int) => P.c.sym || p.1 % 2 == 0) = [] by
        rw [List.filter_singleton]; simp only [hc']; rfl]
      rw [show [(level, a)].filter (fun (p : Nat × Int) => ! (P.c.sym || p.1 % 2 == 0)) =
        [(level, a)] by rw [List.filter_singleton]; simp only [hc']; rfl]
      refine ⟨?_, hpre _ _ _ hm.top h1⟩
      rw [← h2, List.append_nil]
      exact hm.bot
  refine ⟨hbt.1, hbt.2, ?_, ?_, ?_⟩
  · refine mapM_range_eq _ _ _ _ h.lp ?_
    intro i hi y hy
    simp only [bind_ok, pure, Except.pure, Except.ok.injEq] at hy
    obtain ⟨v, h1, rfl⟩ := hy
    rw [hm.lp] at h1
    rw [pyGet_map_range _ _ _ hi _ h1]
    simp
  · refine mapM_range_eq _ _ _ _ h.cnt ?_
    intro i hi y hy
    rw [bind_ok] at hy
    obtain ⟨row, h1, hy⟩ := hy
    rw [bind_ok] at hy
    obtain ⟨b, h2, hy⟩ := hy
    rw [hm.cnt] at h1
    have hrow := pyGet_map_range _ _ _ hi _ h1
    have hb := covers_eq _ _ _ _ h2
    have hw : ∀ ip (j : Nat), ((((choice ++ [(level, a)]).filter (fun (p : Nat × Int) =>
        decide (0 ≤ (P.pdl.getD ip []).getD p.1 (-1)) &&
          decide (P.c.indAngles.lookup p.2 = some j))).map
        (fun (p : Nat × Int) => plyWeight P p.1)).sum) =
        ((choice.filter (fun (p : Nat × Int) => decide (0 ≤ (P.pdl.getD ip []).getD p.1 (-1)) &&
          decide (P.c.indAngles.lookup p.2 = some j))).map
        (fun (p : Nat × Int) => plyWeight P p.1)).sum +
        if 0 ≤ (P.pdl.getD ip []).getD level (-1) ∧ P.c.indAngles.lookup a = some j
        then plyWeight P level else 0 := by
      intro ip j
      rw [List.filter_append, List.map_append, List.sum_append]
      congr 1
      rw [List.filter_singleton]
      by_cases hx : 0 ≤ (P.pdl.getD ip []).getD level (-1) ∧ P.c.indAngles.lookup a = some j
      · have e : (decide (0 ≤ (P.pdl.getD ip []).getD level (-1)) &&
            decide (P.c.indAngles.lookup a = some j)) = true := by
          rw [Bool.and_eq_true]; exact ⟨decide_eq_true hx.1, decide_eq_true hx.2⟩
        dsimp only
        rw [e, if_pos hx]
        simp
      · have e : (decide (0 ≤ (P.pdl.getD ip []).getD level (-1)) &&
            decide (P.c.indAngles.lookup a = some j)) = false := by
          rw [Bool.eq_false_iff, ne_eq, Bool.and_eq_true]
          intro h; exact hx ⟨of_decide_eq_true h.1, of_decide_eq_true h.2⟩
        dsimp only
        rw [e, if_neg hx]
        simp
    simp only [hw]
    split at hy
    · rename_i hcov
      rw [hb, decide_eq_true_eq] at hcov
      simp only [bind_ok, pure, Except.pure, Except.ok.injEq] at hy
      obtain ⟨j, h3, v, h4, rfl⟩ := hy
      rw [dictGet_eq_ok] at h3
      rw [pyGet_eq_ok] at h4
      obtain ⟨hj, h5⟩ := List.getElem?_eq_some_iff.1 h4
      have hwt : (if decide (P.indices.getLast? = some level) = true ∧ P.hasMiddle = true then
          (1 / 2 : ℚ) else 1) = plyWeight P level := by
        unfold plyWeight; simp only [decide_eq_true_eq]
      rw [hwt]
      apply List.ext_getElem
      · rw [List.length_set, hrow]; simp
      · intro k h6 h7
        rw [List.getElem_set]
        rw [List.length_set] at h6
        have h8 : row[k] = ((choice.filter (fun (p : Nat × Int) =>
          decide (0 ≤ (P.pdl.getD i []).getD p.1 (-1)) &&
          decide (P.c.indAngles.lookup p.2 = some k))).map
          (fun (p : Nat × Int) => plyWeight P p.1)).sum := by
          simp only [hrow, List.getElem_map, List.getElem_range]
        rw [List.getElem_map, List.getElem_range, ← h8, h3]
        by_cases hjk : j = k
        · subst hjk
          rw [if_pos rfl, if_pos ⟨hcov, rfl⟩, ← h5]
        · rw [if_neg hjk, if_neg (by rintro ⟨_, h⟩; exact hjk (Option.some.inj h)), add_zero]
    · rename_i hcov
      rw [hb, decide_eq_true_eq] at hcov
      simp only [pure, Except.pure, Except.ok.injEq] at hy
      rw [← hy, hrow]
      apply List.map_congr_left
      intro j _
      rw [if_neg (fun h => hcov h.1), add_zero]
  · intro l a' hl
    rw [List.getLast?_append] at hl
    simp at hl
    obtain ⟨rfl, rfl⟩ := hl
    have := h.obj
    simp only [childObj, bind_ok, pure, Except.pure, Except.ok.injEq, Prod.mk.injEq] at this
    obtain ⟨o, h1, q, h2, rfl, rfl⟩ := this
    exact ⟨h1, h2⟩

/-- the node at the root -/
def rootNode (P : Problem V) : Node V where
  bot := List.replicate P.nPanels []
  top := List.replicate P.nPanels []
  lp := List.replicate P.nPanels 0
  cnt := List.replicate P.nPanels (List.replicate P.c.nAngles 0)
  obj := 0
  objs := List.replicate P.nPanels 0

theorem initTabs_eq (P : Problem V) : initTabs P = tabsOf [rootNode P] := rfl

theorem describes_root (P : Problem V) : Describes P [] (rootNode P) := by
  have hr : ∀ {β : Type} (n : Nat) (y : β), List.replicate n y = (List.range n).map (fun _ => y) := by
    intro β n y
    simp
  refine ⟨?_, ?_, ?_, ?_, by simp⟩
  · simp only [rootNode, hr]; rfl
  · simp only [rootNode, hr]; rfl
  · simp only [rootNode, hr]; rfl
  · simp only [rootNode, hr]; rfl

/-- invariant of the whole search, over the levels processed -/
theorem searchLevels_inv (P : Problem V) (hobj : ∀ o q, P.objMp o = .ok q → -6666 < q)
    (I : List Nat → List (Node V) → Prop)
    (hstep : ∀ done level ns ns', (done ++ [level]) <+: P.indices → I done ns →
      (∀ x ∈ ns', ∃ m ∈ ns, ∃ a, ChildOf P level (decide (P.indices.getLast? = some level)) m a x) →
      ns'.length ≤ ns.length * nChoices P →
      ((∀ o q, P.objMp o = .ok q → q < 6666) →
        ns'.length ≤ if P.indices.getLast? = some level then P.globalLimitFinal else P.globalLimit) →
      (nChoices P ≤ min P.localLimitFinal P.localLimit →
        ns.length * nChoices P ≤ min P.globalLimitFinal P.globalLimit →
        ∀ m ∈ ns, AllChildren P level (decide (P.indices.getLast? = some level)) m ns') →
      I (done ++ [level]) ns')
    (ls done : List Nat) (ns : List (Node V)) (t : Tabs V) (hd : done ++ ls = P.indices)
    (hI : I done ns) (h : searchLevels P ls (tabsOf ns) = .ok t) :
    ∃ ns', t = tabsOf ns' ∧ I P.indices ns' := by
  induction ls generalizing done ns with
  | nil =>
    simp only [searchLevels, Except.ok.injEq] at h
    rw [List.append_nil] at hd
    exact ⟨ns, h.symm, hd ▸ hI⟩
  | cons level ls ih =>
    simp only [searchLevels, bind_ok] at h
    obtain ⟨t1, h1, h2⟩ := h
    obtain ⟨ns1, rfl, c1, c2, c3, c4⟩ := searchLevel_inv P level ns t1 hobj h1
    exact ih (done ++ [level]) ns1 (by rw [← hd]; simp)
      (hstep done level ns ns1 ⟨ls, by rw [← hd]; simp⟩ hI c1 c2 c3 c4) h2

/-- C53: at the end of the beam search there is, for each entry of the tables, one design - one angle
chosen per level - such that the stacking sequences, the lamination parameters, the ply counts and the
objectives stored at this entry are all those of this design.  The number of designs does not exceed
the limit of the last level. -/
theorem C53_beam_search_coherent (P : Problem V) (t : Tabs V) (hne : P.indices ≠ [])
    (hobj : ∀ o q, P.objMp o = .ok q → -6666 < q) (h : beamSearch P = .ok t) :
    ∃ designs : List (List Int × Node V), t = tabsOf (designs.map Prod.snd) ∧
      (∀ d ∈ designs, d.1.length = P.indices.length ∧ Describes P (P.indices.zip d.1) d.2) ∧
      ((∀ o q, P.objMp o = .ok q → q < 6666) → designs.length ≤ P.globalLimitFinal) := by
  rw [beamSearch, initTabs_eq] at h
  obtain ⟨ns, rfl, h1⟩ := searchLevels_inv P hobj
    (fun done ns => (∀ x ∈ ns, ∃ d : List Int, d.length = done.length ∧ Describes P (done.zip d) x) ∧
      (done = P.indices → (∀ o q, P.objMp o = .ok q → q < 6666) → ns.length ≤ P.globalLimitFinal))
    (by
      intro done level ns ns' hpre hI c1 _ c3 _
      refine ⟨fun x hx => ?_, fun hd hb => ?_⟩
      · obtain ⟨m, hm, a, ha⟩ := c1 x hx
        obtain ⟨d, hd, hdes⟩ := hI.1 m hm
        refine ⟨d ++ [a], by simp [hd], ?_⟩
        rw [List.zip_append hd.symm]
        exact describes_child P _ m x level a hdes ha
      · have h3 := c3 hb
        rw [if_pos (by rw [← hd]; simp)] at h3
        exact h3)
    P.indices [] [rootNode P] t (by simp)
    ⟨by
      intro x hx
      rw [List.mem_singleton] at hx
      subst hx
      exact ⟨[], rfl, describes_root P⟩, fun h => absurd h.symm hne⟩ h
  obtain ⟨h1, h2⟩ := h1
  have : ∃ ds : List (List Int × Node V), ds.map Prod.snd = ns ∧
      ∀ d ∈ ds, d.1.length = P.indices.length ∧ Describes P (P.indices.zip d.1) d.2 := by
    clear h h2
    induction ns with
    | nil => exact ⟨[], rfl, by simp⟩
    | cons x ns ih =>
      obtain ⟨ds, e, hds⟩ := ih (fun y hy => h1 y (by simp [hy]))
      obtain ⟨d, hd⟩ := h1 x (by simp)
      refine ⟨(d, x) :: ds, by simp [e], ?_⟩
      intro p hp
      rcases List.mem_cons.1 hp with rfl | hp
      · exact hd
      · exact hds p hp
  obtain ⟨ds, e, hds⟩ := this
  refine ⟨ds, by rw [e], hds, fun hb => ?_⟩
  have := h2 rfl hb
  rw [← e] at this
  simpa using this

/-! ### the guide panel -/

/-- Under damage tolerance rule 3 with disorientation enforced at less than 90 degrees, the two surface plies are
opposite. -/
def OppositePair (c : Cons) (rule : Int) (d : List Int) : Prop :=
  c.damTol = true → rule = 3 → c.diso = true → c.deltaAngle < 90 →
    ∀ x y, d[0]? = some x → d[1]? = some y → y = -x

/-- adding a ply -/
theorem oppositePair_snoc (c : Cons) (rule : Int) (b : Stack) (a : Int) (hb : OppositePair c rule b) :
    OppositePair c rule (b ++ [a]) ↔ OppositeSecond c rule b a := by
  unfold OppositePair OppositeSecond
  refine forall_congr' fun h1 => forall_congr' fun h2 => forall_congr' fun h3 => forall_congr' fun h4 => ?_
  have hb' := hb h1 h2 h3 h4
  match b, hb' with
  | [], _ => simp
  | [u], _ => simp [nth]
  | u :: v :: w, hb' => simpa [nth] using hb'

/-- Designs of the guide panel (half laminate) which satisfy the rules: angles of the set (0 or 90 for
a middle ply), damage tolerance, disorientation and contiguity in the half, contiguity in the whole
symmetric laminate. -/
structure GuideOK (P : Problem V) (d : List Int) : Prop where
  len : d.length = P.indices.length
  ang : ∀ i a, d[i]? = some a →
    if P.hasMiddle = true ∧ i + 1 = P.indices.length then a = 0 ∨ a = 90 else a ∈ P.c.angles
  part : FeasiblePart P.c P.rule d
  opposite : OppositePair P.c P.rule d
  contig : P.c.contig = true → Spec.ContigOK P.c.nContig (Spec.mirrored P.hasMiddle d)

/-- the same for the first plies -/
structure PrefixOK (P : Problem V) (d : List Int) : Prop where
  ang : ∀ i a, d[i]? = some a →
    if P.hasMiddle = true ∧ i + 1 = P.indices.length then a = 0 ∨ a = 90 else a ∈ P.c.angles
  part : FeasiblePart P.c P.rule d
  opposite : OppositePair P.c P.rule d
  contig : d.length = P.indices.length → P.c.contig = true →
    Spec.ContigOK P.c.nContig (Spec.mirrored P.hasMiddle d)

theorem feasiblePart_dropLast (c : Cons) (rule : Int) (b : Stack) (a : Int)
    (h : FeasiblePart c rule (b ++ [a])) : FeasiblePart c rule b := by
  have hg : ∀ (i : Nat) (x : Int), b[i]? = some x → (b ++ [a])[i]? = some x := by
    intro i x hx
    obtain ⟨hi, _⟩ := List.getElem?_eq_some_iff.1 hx
    rw [List.getElem?_append_left hi, hx]
  refine ⟨fun h1 x hx => h.outer h1 x (hg _ _ hx),
    fun h1 x y hx hy => h.second2 h1 x y (hg _ _ hx) (hg _ _ hy),
    fun h1 y hy => h.second3 h1 y (hg _ _ hy), fun d hd => ?_, fun n hn => ?_⟩
  · have := h.diso d hd
    generalize (if optDamTol c rule = some 2 ∨ optDamTol c rule = some 3 then 1 else 0) = lo at *
    rw [pairsWithin_iff_nth] at *
    intro i h1 h2 h3
    have := this i h1 (by simp; omega) (by simp; omega)
    rw [nth_snoc, nth_snoc, if_pos (by omega), if_pos (by omega)] at this
    exact this
  · exact contigOK_infix (h.contig n hn) ⟨[], [a], by simp⟩

omit [AddMonoid V] in
theorem prefixOK_dropLast (P : Problem V) (b : Stack) (a : Int) (hb : b.length < P.indices.length)
    (h : PrefixOK P (b ++ [a])) : PrefixOK P b := by
  refine ⟨fun i x hx => ?_, feasiblePart_dropLast _ _ _ _ h.part, fun g1 g2 g3 g4 x y hx hy => ?_,
    fun h1 => by omega⟩
  swap
  · have hg : ∀ (i : Nat) (x : Int), b[i]? = some x → (b ++ [a])[i]? = some x := by
      intro i x hx
      obtain ⟨hi, _⟩ := List.getElem?_eq_some_iff.1 hx
      rw [List.getElem?_append_left hi, hx]
    exact h.opposite g1 g2 g3 g4 x y (hg _ _ hx) (hg _ _ hy)
  obtain ⟨hi, _⟩ := List.getElem?_eq_some_iff.1 hx
  exact h.ang i x (by rw [List.getElem?_append_left hi, hx])

theorem panelPlies_all (row : List ℤ) (l : List ℕ) (d : List ℤ) (hl : d.length = l.length)
    (h : ∀ x ∈ l, 0 ≤ row.getD x (-1)) : Spec.panelPlies row (l.zip d) = d := by
  unfold Spec.panelPlies
  rw [List.filter_eq_self.2]
  · rw [List.map_snd_zip (by omega)]
  · intro p hp
    exact decide_eq_true (h p.1 (List.of_mem_zip hp).1)

section
open Classical

omit [AddMonoid V] in
/-- the pruning of orientations, before and at the last level -/
theorem pruning_prefix (P : Problem V) (bot top : Stack) (hs : P.c.sym = true)
    (hb : bot.length < P.indices.length) (h3 : 3 ≤ P.indices.length)
    (hc : P.c.contig = true → 2 ≤ P.c.nContig ∧ P.c.nContig ≤ 6 ∧ P.c.nContig < P.indices.length)
    (hne : P.c.angles ≠ []) (hr : AnglesInRange P.c.angles) (hp : PrefixOK P bot) (a : Int)
    (r : Option (List Int))
    (h : pruning P.c.angles bot top bot.length P.indices.length P.c P.rule P.hasMiddle = .ok r) :
    PrefixOK P (bot ++ [a]) ↔ ∃ ss, r = some ss ∧ a ∈ ss := by
  have hin : AnglesInRange bot := by
    intro x hx
    obtain ⟨i, hi, rfl⟩ := List.getElem_of_mem hx
    have := hp.ang i _ (List.getElem?_eq_getElem hi)
    split at this
    · rcases this with e | e <;> rw [e] <;> omega
    · exact hr _ this
  have hget : ∀ i x, (bot ++ [a])[i]? = some x → bot[i]? = some x ∨ (i = bot.length ∧ x = a) := by
    intro i x hx
    by_cases hi : i < bot.length
    · left; rwa [List.getElem?_append_left hi] at hx
    · right
      rw [List.getElem?_append_right (by omega)] at hx
      by_cases h0 : i - bot.length = 0
      · rw [h0] at hx
        simp at hx
        exact ⟨by omega, hx.symm⟩
      · rw [List.getElem?_eq_none (by simp; omega)] at hx
        cases hx
  have hself : (bot ++ [a])[bot.length]? = some a := by simp
  have hnone : ∀ (l : List Int), (∃ ss, noneIfEmpty l = some ss ∧ a ∈ ss) ↔ a ∈ l := by
    intro l
    unfold noneIfEmpty
    split
    · rename_i h0
      rw [List.length_eq_zero_iff] at h0
      simp [h0]
    · simp
  by_cases hlev : bot.length + 1 < P.indices.length
  · rw [C38_pruning_all_rules P.c P.rule P.c.angles bot top P.indices.length P.hasMiddle hs hlev hne
      (fun h => ⟨(hc h).1, (hc h).2.1⟩)  hin hr hp.part, Except.ok.injEq] at h
    rw [← h, hnone, List.mem_filter, decide_eq_true_eq]
    constructor
    · intro hx
      have h1 := hx.ang bot.length a hself
      rw [if_neg (by rintro ⟨_, h⟩; omega)] at h1
      exact ⟨h1, hx.part, (oppositePair_snoc _ _ _ _ hp.opposite).1 hx.opposite⟩
    · rintro ⟨h1, h2, h2'⟩
      refine ⟨?_, h2, (oppositePair_snoc _ _ _ _ hp.opposite).2 h2', fun h => by simp at h; omega⟩
      intro i x hx
      rcases hget i x hx with h4 | ⟨rfl, rfl⟩
      · exact hp.ang i x h4
      · rw [if_neg (by rintro ⟨_, h⟩; omega)]
        exact h1
  · have hlev' : bot.length + 1 = P.indices.length := by omega
    rw [C38_pruning_last P.c P.rule P.c.angles bot top P.indices.length P.hasMiddle hs hlev' hne
      (by omega) (fun h => ⟨(hc h).1, (hc h).2.1⟩) (fun h => by have := (hc h).2.2; omega) hin hr hp.part,
      Except.ok.injEq] at h
    rw [← h, hnone, List.mem_filter, decide_eq_true_eq]
    have hmem : a ∈ (if P.hasMiddle = true then ([0, 90] : List Int) else P.c.angles) ↔
        (if P.hasMiddle = true ∧ bot.length + 1 = P.indices.length then a = 0 ∨ a = 90
          else a ∈ P.c.angles) := by
      cases P.hasMiddle
      · simp
      · simp [hlev']
    rw [hmem]
    constructor
    · intro hx
      exact ⟨hx.ang bot.length a hself, hx.part, hx.contig (by simp; omega)⟩
    · rintro ⟨h1, h2, h3⟩
      refine ⟨?_, h2, (oppositePair_snoc _ _ _ _ hp.opposite).2 (fun _ _ _ _ h => by omega), fun _ => h3⟩
      intro i x hx
      rcases hget i x hx with h4 | ⟨rfl, rfl⟩
      · exact hp.ang i x h4
      · exact h1

end

/-- C38, whole search: for symmetric laminates with a guide panel that has all the plies, every design
of the beam search satisfies the rules in the guide panel; and when the limits on the number of nodes
are not reached, every design of the guide panel that satisfies the rules is among them. -/
theorem C38_search_guide (P : Problem V) (t : Tabs V) (n : Nat) (hidx : P.indices = List.range n)
    (h3 : 3 ≤ n) (hobj : ∀ o q, P.objMp o = .ok q → -6666 < q) (hs : P.c.sym = true)
    (hthick : P.thick < P.nPanels)
    (hguide : ∀ l, l < n → 0 ≤ (P.pdl.getD P.thick []).getD l (-1))
    (hc : P.c.contig = true → 2 ≤ P.c.nContig ∧ P.c.nContig ≤ 6 ∧ P.c.nContig < n)
    (hne : P.c.angles ≠ []) (hr : AnglesInRange P.c.angles) (h : beamSearch P = .ok t) :
    ∃ ns : List (Node V), t = tabsOf ns ∧
      (∀ x ∈ ns, ∃ d, GuideOK P d ∧ x.bot[P.thick]? = some d ∧ Describes P (P.indices.zip d) x) ∧
      (max P.c.angles.length 2 ≤ min P.localLimit P.localLimitFinal →
       (max P.c.angles.length 2) ^ n ≤ min P.globalLimit P.globalLimitFinal →
        ∀ d, GuideOK P d → ∃ x ∈ ns, x.bot[P.thick]? = some d ∧ Describes P (P.indices.zip d) x) := by
  have hlen : P.indices.length = n := by rw [hidx]; simp
  have hguideBot : ∀ (x : Node V) (done : List Nat) (d : List Int), done <+: P.indices →
      d.length = done.length → Describes P (done.zip d) x → x.bot[P.thick]? = some d := by
    intro x done d hpre hd hx
    rw [hx.bot]
    simp only [List.getElem?_map, List.getElem?_range hthick, Option.map_some]
    rw [List.filter_eq_self.2 (by intro p _; simp [hs]),
      panelPlies_all _ _ _ hd]
    intro l hl
    have := hpre.subset hl
    rw [hidx, List.mem_range] at this
    exact hguide l this
  have htop : ∀ (x : Node V) (ch : List (Nat × Int)), Describes P ch x → ∃ gt, x.top[P.thick]? = some gt := by
    intro x ch hx
    rw [hx.top]
    simp [List.getElem?_range hthick]
  rw [beamSearch, initTabs_eq] at h
  obtain ⟨ns, rfl, h1, h2, h4⟩ := searchLevels_inv P hobj
    (fun done ns => (∀ x ∈ ns, ∃ d : List Int, d.length = done.length ∧ Describes P (done.zip d) x ∧
        PrefixOK P d) ∧ ns.length ≤ nChoices P ^ done.length ∧
      (nChoices P ≤ min P.localLimitFinal P.localLimit →
       (nChoices P) ^ n ≤ min P.globalLimitFinal P.globalLimit →
        ∀ d : List Int, d.length = done.length → PrefixOK P d → ∃ x ∈ ns, Describes P (done.zip d) x))
    (by
      intro done level ns ns' hpre hI c1 c2 _ c4
      obtain ⟨i1, i2, i3⟩ := hI
      have hpre0 : done <+: P.indices := (List.prefix_append _ _).trans hpre
      have hklt : done.length < n := by
        have := hpre.length_le
        rw [hlen] at this
        simp at this
        omega
      have hlevel : level = done.length := by
        obtain ⟨rest, hrest⟩ := hpre
        have e : P.indices[done.length]? = some level := by
          rw [← hrest]; simp
        rw [hidx, List.getElem?_range hklt] at e
        exact (Option.some.inj e).symm
      refine ⟨fun x hx => ?_, ?_, fun l1 l2 d hd hok => ?_⟩
      · obtain ⟨m, hm, a, ha⟩ := c1 x hx
        obtain ⟨d, hd, hdes, hok⟩ := i1 m hm
        refine ⟨d ++ [a], by simp [hd], ?_, ?_⟩
        · rw [List.zip_append hd.symm]
          exact describes_child P _ m x level a hdes ha
        · obtain ⟨gb, gt, ss, g1, g2, g3, g4⟩ := ha.kept
          rw [hguideBot m done d hpre0 hd hdes] at g1
          cases g1
          rw [hlevel, ← hd] at g3
          exact (pruning_prefix P d gt hs (by omega) (by omega) (by rwa [hlen])  hne hr hok a
            (some ss) g3).2 ⟨ss, rfl, g4⟩
      · rw [List.length_append, List.length_singleton, pow_succ]
        exact c2.trans (Nat.mul_le_mul_right _ i2)
      · have hne' : d ≠ [] := by rintro rfl; simp at hd
        obtain ⟨b, a, rfl⟩ : ∃ b a, d = b ++ [a] := ⟨d.dropLast, d.getLast hne', (List.dropLast_append_getLast hne').symm⟩
        have hbl : b.length = done.length := by simpa using hd
        have hbok := prefixOK_dropLast P b a (by omega) hok
        obtain ⟨m, hm, hdes⟩ := i3 l1 l2 b hbl hbok
        obtain ⟨gt, hgt⟩ := htop m _ hdes
        have hgb := hguideBot m done b hpre0 hbl hdes
        have hcnt : ns.length * nChoices P ≤ min P.globalLimitFinal P.globalLimit := by
          refine le_trans (Nat.mul_le_mul_right _ i2) (le_trans ?_ l2)
          rw [← pow_succ]
          exact Nat.pow_le_pow_right (by simp) (by omega)
        have hall := c4 l1 hcnt m hm
        -- the pruning of this node did not fail, since the search went on
        cases hpr : pruning P.c.angles b gt level P.indices.length P.c P.rule P.hasMiddle with
        | error e =>
          exfalso
          rw [hlevel, ← hbl] at hpr
          by_cases hlev : b.length + 1 < P.indices.length
          · rw [C38_pruning_all_rules P.c P.rule P.c.angles b gt P.indices.length P.hasMiddle hs hlev hne
              (fun h => ⟨(hc h).1, (hc h).2.1⟩)  (by
                intro x hx
                obtain ⟨i, hi, rfl⟩ := List.getElem_of_mem hx
                have := hbok.ang i _ (List.getElem?_eq_getElem hi)
                split at this
                · rcases this with e | e <;> rw [e] <;> omega
                · exact hr _ this) hr hbok.part] at hpr
            cases hpr
          · rw [C38_pruning_last P.c P.rule P.c.angles b gt P.indices.length P.hasMiddle hs (by omega) hne
              (by omega) (fun h => ⟨(hc h).1, (hc h).2.1⟩) (fun h => by have := (hc h).2.2; omega) (by
                intro x hx
                obtain ⟨i, hi, rfl⟩ := List.getElem_of_mem hx
                have := hbok.ang i _ (List.getElem?_eq_getElem hi)
                split at this
                · rcases this with e | e <;> rw [e] <;> omega
                · exact hr _ this) hr hbok.part] at hpr
            cases hpr
        | ok r =>
          have hpr' := hpr
          rw [hlevel, ← hbl] at hpr'
          obtain ⟨ss, rfl, hass⟩ := (pruning_prefix P b gt hs (by omega) (by omega) (by rwa [hlen]) 
            hne hr hbok a r hpr').1 hok
          obtain ⟨x, hx, hxc⟩ := hall b gt ss hgb hgt hpr a hass
          refine ⟨x, hx, ?_⟩
          rw [List.zip_append hbl.symm]
          exact describes_child P _ m x level a hdes hxc)
    P.indices [] [rootNode P] t (by simp)
    ⟨by
      intro x hx
      rw [List.mem_singleton] at hx
      subst hx
      refine ⟨[], rfl, describes_root P, ⟨by simp, ?_, fun _ _ _ _ x y h => by simp at h,
        fun h => by rw [hlen, List.length_nil] at h; omega⟩⟩
      refine ⟨by simp, by simp, by simp, fun d _ i => ?_, fun k _ => contigOK_short (Nat.zero_le _)⟩
      simp, by simp, by
      intro _ _ d hd _
      obtain rfl : d = [] := List.length_eq_zero_iff.1 hd
      exact ⟨rootNode P, by simp, describes_root P⟩⟩ h
  refine ⟨ns, rfl, fun x hx => ?_, fun l1 l2 d hd => ?_⟩
  · obtain ⟨d, e1, e2, e3⟩ := h1 x hx
    exact ⟨d, ⟨e1, e3.ang, e3.part, e3.opposite, e3.contig e1⟩, hguideBot x _ d (List.prefix_refl _) e1 e2, e2⟩
  · obtain ⟨x, hx, hdes⟩ := h4 (by rw [min_comm]; exact l1) (by rw [min_comm]; exact l2) d hd.len
      ⟨hd.ang, hd.part, hd.opposite, fun _ => hd.contig⟩
    exact ⟨x, hx, hguideBot x _ d (List.prefix_refl _) hd.len hdes, hdes⟩

end Bella
