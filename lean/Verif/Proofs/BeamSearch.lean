import Verif.Props.Selection
import Verif.Proofs.Monad
/-
Invariants of the beam search.
-/
namespace Bella

variable {V : Type}

/-- one active node: its entries in all the tables -/
structure Node (V : Type) where
  bot : List Stack
  top : List Stack
  lp : List V
  cnt : List (List ℚ)
  obj : ℚ
  objs : List ℚ

/-- the tables of a list of nodes -/
def tabsOf (ns : List (Node V)) : Tabs V where
  bots := ns.map Node.bot
  tops := ns.map Node.top
  lampams := ns.map Node.lp
  counts := ns.map Node.cnt
  objs := ns.map Node.obj
  objsNo := ns.map Node.objs

theorem delete_tabsOf (D : List Nat) (hD : D.Nodup) (ns : List (Node V)) :
    ({ bots := delSorted D (tabsOf ns).bots, tops := delSorted D (tabsOf ns).tops,
       lampams := npDelete D (tabsOf ns).lampams, counts := npDelete D (tabsOf ns).counts,
       objs := npDelete D (tabsOf ns).objs, objsNo := npDelete D (tabsOf ns).objsNo } : Tabs V) =
    tabsOf (npDelete D ns) := by
  simp only [delSorted_eq D hD, npDelete_eq, tabsOf, keepIdx_map]

theorem globalPrune_tabsOf (limit : Nat) (ns : List (Node V)) :
    ∃ ns' : List (Node V), globalPrune limit (tabsOf ns) = tabsOf ns' ∧ ns'.Sublist ns ∧
      (ns.length ≤ limit → ns' = ns) ∧
      ((∀ x ∈ ns, x.obj < 6666) → ns'.length ≤ limit) := by
  by_cases hl : limit < ns.length
  · have hl' : limit < (tabsOf ns).objs.length := by simpa [tabsOf] using hl
    have hD : ((List.range (markBest limit (tabsOf ns).objs).length).filter
      (fun i => (markBest limit (tabsOf ns).objs).getD i 0 != 6666)).Nodup := List.nodup_range.filter _
    have e : globalPrune limit (tabsOf ns) = tabsOf (npDelete
        ((List.range (markBest limit (tabsOf ns).objs).length).filter
          (fun i => (markBest limit (tabsOf ns).objs).getD i 0 != 6666)) ns) := by
      rw [← delete_tabsOf _ hD]
      unfold globalPrune
      rw [if_pos hl']
    refine ⟨_, e, by rw [npDelete_eq]; exact keepIdx_sublist _ _ _, fun h => by omega, ?_⟩
    intro hs
    have hal : Aligned (tabsOf ns) ns.length := by simp [Aligned, tabsOf]
    obtain ⟨kept, h1, h2, h3, _⟩ := C37_global_pruning limit (tabsOf ns) ns.length hal (by
      intro x hx
      simp only [tabsOf, List.mem_map] at hx
      obtain ⟨n, hn, rfl⟩ := hx
      exact hs n hn)
    have h4 := h1.2.2.2.2.1
    rw [e] at h4
    have h5 := congrArg List.length h4
    have h6 : (kept.filterMap (fun i => (tabsOf ns).objs[i]?)).length ≤ kept.length :=
      List.length_filterMap_le _ _
    have h7 : ∀ l : List (Node V), (tabsOf l).objs.length = l.length := fun l => by simp [tabsOf]
    rw [h7] at h5
    omega
  · refine ⟨ns, ?_, List.Sublist.refl _, fun _ => rfl, fun _ => by omega⟩
    unfold globalPrune
    rw [if_neg (by simpa [tabsOf] using hl)]

theorem localPrune_tabsOf (P : Problem V) (level : Nat) (last : Bool) (old new : List (Node V))
    (hs : ∀ x ∈ new, -6666 < x.obj) :
    ∃ new' : List (Node V), localPrune P level last new.length (tabsOf (old ++ new)) =
      tabsOf (old ++ new') ∧ new'.Sublist new ∧
      (new.length ≤ (if last then P.localLimitFinal else P.localLimit) → new' = new) := by
  unfold localPrune
  generalize (if last then P.localLimitFinal else P.localLimit) = limit
  dsimp only
  split
  · rename_i h
    have hlen : (tabsOf (old ++ new)).objs.length = old.length + new.length := by simp [tabsOf]
    have hlast : lastK (tabsOf (old ++ new)).objs new.length = new.map Node.obj := by
      unfold lastK
      rw [if_neg (by omega), hlen]
      simp [tabsOf]
    rw [hlast]
    obtain ⟨w1, w2, w3, -⟩ := worstNodes_spec (new.length - limit) (new.map Node.obj) (by
        intro x hx
        obtain ⟨n, hn, rfl⟩ := List.mem_map.1 hx
        exact (hs n hn).le) (by
        rw [List.countP_eq_length.2]
        · simp
        · intro x hx
          obtain ⟨n, hn, rfl⟩ := List.mem_map.1 hx
          have := hs n hn
          simp only [decide_eq_true_eq, ne_eq]
          intro h; linarith)
    generalize worstNodes (new.length - limit) (new.map Node.obj) = W at *
    rw [hlen]
    have hmap : W.map (fun i => i + (old.length + new.length) - new.length) =
        W.map (fun i => i + old.length) := by
      apply List.map_congr_left
      intro i _
      omega
    rw [hmap]
    have hnd : (W.map (fun i => i + old.length)).Nodup :=
      w1.map (fun a b h => by simpa using h)
    rw [delete_tabsOf _ hnd, npDelete_eq, keepIdx_append, keepIdx_all]
    · refine ⟨_, rfl, keepIdx_sublist _ _ _, fun h2 => by omega⟩
    · intro i _ h2
      rw [Nat.zero_add] at h2
      simp only [Bool.not_eq_true', Bool.eq_false_iff, ne_eq, List.contains_iff_mem, List.mem_map,
        not_exists, not_and]
      intro x _ hx
      omega
  · exact ⟨new, rfl, List.Sublist.refl _, fun _ => rfl⟩

variable [Add V]

/-- `x` is the child of node `m` with the ply angle `a` at the given level -/
structure ChildOf (P : Problem V) (level : Nat) (last : Bool) (m : Node V) (a : Int) (x : Node V) :
    Prop where
  kept : ∃ gb gt ss, m.bot[P.thick]? = some gb ∧ m.top[P.thick]? = some gt ∧
    pruning P.c.angles gb gt level P.indices.length P.c P.rule P.hasMiddle = .ok (some ss) ∧ a ∈ ss
  cnt : childCounts P level last m.cnt a = .ok x.cnt
  lp : childLampam P level m.lp a = .ok x.lp
  lay : childStacks P level m.bot m.top a = .ok (x.bot, x.top)
  obj : childObj P level x.lp = .ok (x.objs, x.obj)

/-- the nodes of the four lists computed for the children -/
theorem children_nodes (P : Problem V) (level : Nat) (last : Bool) (m : Node V) (ss : List Int)
    (counts : List (List (List ℚ))) (lampams : List (List V)) (layups : List (List Stack × List Stack))
    (objs : List (List ℚ × ℚ))
    (h1 : ss.mapM (childCounts P level last m.cnt) = .ok counts)
    (h2 : ss.mapM (childLampam P level m.lp) = .ok lampams)
    (h3 : ss.mapM (childStacks P level m.bot m.top) = .ok layups)
    (h4 : lampams.mapM (childObj P level) = .ok objs) :
    ∃ new : List (Node V), new.length = ss.length ∧ new.map Node.bot = layups.map Prod.fst ∧
      new.map Node.top = layups.map Prod.snd ∧ new.map Node.lp = lampams ∧
      new.map Node.cnt = counts ∧ new.map Node.obj = objs.map Prod.snd ∧
      new.map Node.objs = objs.map Prod.fst ∧
      List.Forall₂ (fun a x => childCounts P level last m.cnt a = .ok x.cnt ∧
        childLampam P level m.lp a = .ok x.lp ∧
        childStacks P level m.bot m.top a = .ok (x.bot, x.top) ∧
        childObj P level x.lp = .ok (x.objs, x.obj)) ss new := by
  have g1 := mapM_inv _ _ _ h1
  have g2 := mapM_inv _ _ _ h2
  have g3 := mapM_inv _ _ _ h3
  have g4 := mapM_inv _ _ _ h4
  clear h1 h2 h3 h4
  induction ss generalizing counts lampams layups objs with
  | nil =>
    cases g1; cases g2; cases g3; cases g4
    exact ⟨[], rfl, rfl, rfl, rfl, rfl, rfl, rfl, .nil⟩
  | cons a ss ih =>
    cases g1 with
    | @cons _ c _ counts a1 g1 =>
    cases g2 with
    | @cons _ l _ lampams a2 g2 =>
    cases g3 with
    | @cons _ y _ layups a3 g3 =>
    cases g4 with
    | @cons _ o _ objs a4 g4 =>
    obtain ⟨new, e1, e2, e3, e4, e5, e6, e7, e8⟩ := ih counts lampams layups objs g1 g2 g3 g4
    refine ⟨⟨y.1, y.2, l, c, o.2, o.1⟩ :: new, by simp [e1], by simp [e2], by simp [e3], by simp [e4],
      by simp [e5], by simp [e6], by simp [e7], .cons ⟨a1, a2, a3, a4⟩ e8⟩

theorem branchNode_inv (P : Problem V) (level : Nat) (last : Bool) (m : Node V) (ns : List (Node V))
    (t' : Tabs V) (hobj : ∀ o q, P.objMp o = .ok q → -6666 < q)
    (h : branchNode P level last (tabsOf (m :: ns)) = .ok t') :
    ∃ new : List (Node V), t' = tabsOf (ns ++ new) ∧ (∀ x ∈ new, ∃ a, ChildOf P level last m a x) ∧
      (∀ gb gt ss, m.bot[P.thick]? = some gb → m.top[P.thick]? = some gt →
        pruning P.c.angles gb gt level P.indices.length P.c P.rule P.hasMiddle = .ok (some ss) →
        new.length ≤ ss.length ∧
        (ss.length ≤ (if last then P.localLimitFinal else P.localLimit) →
          ∀ a ∈ ss, ∃ x ∈ new, ChildOf P level last m a x)) ∧
      (∀ gb gt, m.bot[P.thick]? = some gb → m.top[P.thick]? = some gt →
        pruning P.c.angles gb gt level P.indices.length P.c P.rule P.hasMiddle = .ok none →
        new = []) := by
  have hg : ∀ {α : Type} (x : α) (l : List α), pyGet (x :: l) 0 = .ok x := fun x l => rfl
  unfold branchNode at h
  simp only [tabsOf, List.map_cons, hg, bind_ok, List.tail_cons, Except.ok.injEq] at h
  obtain ⟨bot, hb, top, ht, lp, hl, cnt, hc, gb, hgb, gt, hgt, ss, hss, h⟩ := h
  subst hb ht hl hc
  rw [pyGet_eq_ok] at hgb hgt
  cases ss with
  | none =>
    simp only [pure, Except.pure, Except.ok.injEq] at h
    refine ⟨[], by rw [← h]; simp [tabsOf], by simp, ?_, fun _ _ _ _ _ => rfl⟩
    intro gb' gt' ss' h1 h2 h3
    rw [hgb] at h1; rw [hgt] at h2
    cases h1; cases h2
    rw [hss] at h3
    cases h3
  | some ss =>
    simp only [bind_ok, pure, Except.pure, Except.ok.injEq] at h
    obtain ⟨counts, h1, lampams, h2, layups, h3, objs, h4, h⟩ := h
    obtain ⟨new, e1, e2, e3, e4, e5, e6, e7, e8⟩ :=
      children_nodes P level last m ss counts lampams layups objs h1 h2 h3 h4
    have htab : ({ bots := ns.map Node.bot ++ layups.map Prod.fst
                   tops := ns.map Node.top ++ layups.map Prod.snd
                   lampams := ns.map Node.lp ++ lampams
                   counts := ns.map Node.cnt ++ counts
                   objs := ns.map Node.obj ++ objs.map Prod.snd
                   objsNo := ns.map Node.objs ++ objs.map Prod.fst } : Tabs V) =
        tabsOf (ns ++ new) := by
      simp only [tabsOf, List.map_append, e2, e3, e4, e5, e6, e7]
    have hgood : ∀ x ∈ new, ∃ a ∈ ss, ChildOf P level last m a x := by
      intro x hx
      obtain ⟨i, hi, rfl⟩ := List.getElem_of_mem hx
      obtain ⟨q1, q2, q3, q4⟩ := List.Forall₂.get e8 (i := i) (by omega) hi
      exact ⟨ss[i], List.getElem_mem _, ⟨⟨gb, gt, ss, hgb, hgt, hss, List.getElem_mem _⟩, q1, q2, q3, q4⟩⟩
    have hpos : ∀ x ∈ new, -6666 < x.obj := by
      intro x hx
      obtain ⟨a, _, ha⟩ := hgood x hx
      have := ha.obj
      simp only [childObj, bind_ok, pure, Except.pure, Except.ok.injEq, Prod.mk.injEq] at this
      obtain ⟨o, _, q, hq, _, rfl⟩ := this
      exact hobj o _ hq
    obtain ⟨new', p1, p2, p3⟩ := localPrune_tabsOf P level last ns new hpos
    rw [e1] at p1 p3
    rw [htab] at h
    refine ⟨new', by rw [← h, p1], fun x hx => ?_, ?_, ?_⟩
    · obtain ⟨a, _, ha⟩ := hgood x (p2.subset hx)
      exact ⟨a, ha⟩
    · intro gb' gt' ss' i1 i2 i3
      rw [hgb] at i1; rw [hgt] at i2
      cases i1; cases i2
      rw [hss] at i3
      cases i3
      refine ⟨by rw [← e1]; exact p2.length_le, fun hlim a ha => ?_⟩
      rw [p3 hlim]
      obtain ⟨i, hi, rfl⟩ := List.getElem_of_mem ha
      obtain ⟨q1, q2, q3, q4⟩ := List.Forall₂.get e8 (i := i) hi (by omega)
      exact ⟨new[i]'(by omega), List.getElem_mem _,
        ⟨⟨gb, gt, ss, hgb, hgt, hss, List.getElem_mem _⟩, q1, q2, q3, q4⟩⟩
    · intro gb' gt' i1 i2 i3
      rw [hgb] at i1; rw [hgt] at i2
      cases i1; cases i2
      rw [hss] at i3
      cases i3

/-- number of orientations offered at a node -/
abbrev nChoices (P : Problem V) : Nat := max P.c.angles.length 2

theorem keepIf_length (f : Int → Py Bool) (l r : List Int) (h : keepIf f l = .ok r) :
    r.length ≤ l.length := by
  induction l generalizing r with
  | nil => cases h; simp
  | cons a t ih =>
    rw [keepIf, bind_ok] at h
    obtain ⟨r', h1, h2⟩ := h
    rw [bind_ok] at h2
    obtain ⟨b, _, h3⟩ := h2
    simp only [pure, Except.pure, Except.ok.injEq] at h3
    have := ih r' h1
    subst h3
    split <;> simp <;> omega

theorem noneIfEmpty_length (l r : List Int) (h : noneIfEmpty l = some r) : r.length = l.length := by
  unfold noneIfEmpty at h
  split at h
  · cases h
  · cases h; rfl

theorem pruneDiso_length (child : List Int) (bot top : Stack) (level n : Nat) (c : Cons)
    (r : List Int) (h : pruneDiso child bot top level n c = .ok r) : r.length ≤ child.length := by
  unfold pruneDiso at h
  have hf : ∀ (p q : Int → Bool) (l : List Int), ((l.filter p).filter q).length ≤ l.length := fun p q l =>
    (List.length_filter_le _ _).trans (List.length_filter_le _ _)
  split at h
  · split at h
    · dsimp only at h
      split at h
      · split at h
        · split at h
          · cases h
          · cases h; exact hf _ _ _
        · split at h
          · cases h
          · cases h; exact List.length_filter_le _ _
      · split at h
        · cases h; exact List.length_filter_le _ _
        · cases h; exact le_refl _
    · dsimp only at h
      split at h
      · split at h
        · split at h
          · cases h
          · cases h; exact hf _ _ _
        · split at h
          · cases h
          · cases h; exact List.length_filter_le _ _
      · split at h
        · cases h; exact List.length_filter_le _ _
        · cases h; exact le_refl _
  · cases h; exact le_refl _

theorem pruneRules_length (child : List Int) (bot top : Stack) (level n : Nat) (c : Cons) (hm : Bool)
    (r : List Int) (h : pruneRules child bot top level n c hm = .ok (some r)) :
    r.length ≤ child.length := by
  unfold pruneRules at h
  rw [bind_ok] at h
  obtain ⟨l, h1, h⟩ := h
  have := pruneDiso_length _ _ _ _ _ _ _ h1
  split at h
  · cases h
  · split at h
    · rw [bind_ok] at h
      obtain ⟨l2, h2, h3⟩ := h
      simp only [pure, Except.pure, Except.ok.injEq] at h3
      have e := noneIfEmpty_length _ _ h3
      have : l2.length ≤ l.length := by
        unfold pruneContig at h2
        split at h2
        · split at h2
          · exact keepIf_length _ _ _ h2
          · cases h2; exact le_refl _
        · split at h2
          · exact keepIf_length _ _ _ h2
          · split at h2
            · cases h2; exact le_refl _
            · cases h2
      omega
    · cases h; assumption

theorem damTolSecond_length (rule : Int) (c : Cons) (m : Int) (child : List Int) :
    (damTolSecond rule c m child).length ≤ child.length := by
  unfold damTolSecond
  split
  · exact List.length_filter_le _ _
  · split
    · exact List.length_filter_le _ _
    · exact le_refl _

theorem pruning_length (child : List Int) (bot top : Stack) (level n : Nat) (c : Cons) (rule : Int)
    (hm : Bool) (r : List Int) (h : pruning child bot top level n c rule hm = .ok (some r)) :
    r.length ≤ max child.length 2 := by
  unfold pruning at h
  dsimp only at h
  have hch : (if c.sym = true ∧ level = n - 1 ∧ hm = true then ([0, 90] : List Int) else child).length ≤
      max child.length 2 := by split <;> simp
  generalize (if c.sym = true ∧ level = n - 1 ∧ hm = true then ([0, 90] : List Int) else child) = l at *
  refine le_trans ?_ hch
  split at h
  · split at h
    · rw [Except.ok.injEq] at h
      rw [noneIfEmpty_length _ _ h]
      exact List.length_filter_le _ _
    · split at h
      · rw [bind_ok] at h
        obtain ⟨m, _, h⟩ := h
        simp only [pure, Except.pure, Except.ok.injEq] at h
        rw [noneIfEmpty_length _ _ h]
        exact damTolSecond_length _ _ _ _
      · split at h
        · split at h
          · cases h
          · rw [Except.ok.injEq] at h
            rw [noneIfEmpty_length _ _ h]
            exact damTolSecond_length _ _ _ _
        · exact pruneRules_length _ _ _ _ _ _ _ _ h
  · exact pruneRules_length _ _ _ _ _ _ _ _ h

/-- all the children of a node are among the nodes `new` -/
def AllChildren (P : Problem V) (level : Nat) (last : Bool) (m : Node V) (new : List (Node V)) : Prop :=
  ∀ gb gt ss, m.bot[P.thick]? = some gb → m.top[P.thick]? = some gt →
    pruning P.c.angles gb gt level P.indices.length P.c P.rule P.hasMiddle = .ok (some ss) →
    ∀ a ∈ ss, ∃ x ∈ new, ChildOf P level last m a x

theorem branchNode_ok_get (P : Problem V) (level : Nat) (last : Bool) (m : Node V) (ns : List (Node V))
    (t' : Tabs V) (h : branchNode P level last (tabsOf (m :: ns)) = .ok t') :
    ∃ gb gt r, m.bot[P.thick]? = some gb ∧ m.top[P.thick]? = some gt ∧
      pruning P.c.angles gb gt level P.indices.length P.c P.rule P.hasMiddle = .ok r := by
  have hg : ∀ {α : Type} (x : α) (l : List α), pyGet (x :: l) 0 = .ok x := fun x l => rfl
  unfold branchNode at h
  simp only [tabsOf, List.map_cons, hg, bind_ok, List.tail_cons, Except.ok.injEq] at h
  obtain ⟨bot, hb, top, ht, lp, hl, cnt, hc, gb, hgb, gt, hgt, ss, hss, h⟩ := h
  subst hb ht hl hc
  rw [pyGet_eq_ok] at hgb hgt
  exact ⟨gb, gt, ss, hgb, hgt, hss⟩

theorem branchNodes_inv (P : Problem V) (level : Nat) (last : Bool) (old new : List (Node V))
    (t' : Tabs V) (hobj : ∀ o q, P.objMp o = .ok q → -6666 < q)
    (h : branchNodes P level last old.length (tabsOf (old ++ new)) = .ok t') :
    ∃ new' : List (Node V), t' = tabsOf (new ++ new') ∧
      (∀ x ∈ new', ∃ m ∈ old, ∃ a, ChildOf P level last m a x) ∧
      new'.length ≤ old.length * nChoices P ∧
      (nChoices P ≤ (if last then P.localLimitFinal else P.localLimit) →
        ∀ m ∈ old, AllChildren P level last m new') := by
  induction old generalizing new with
  | nil =>
    simp only [List.length_nil, branchNodes, Except.ok.injEq, List.nil_append] at h
    exact ⟨[], by simp [← h], by simp, by simp, by simp⟩
  | cons m old ih =>
    simp only [List.length_cons, branchNodes, bind_ok, List.cons_append] at h
    obtain ⟨t1, h1, h2⟩ := h
    obtain ⟨gb, gt, r, hgb, hgt, hr⟩ := branchNode_ok_get P level last m _ t1 h1
    obtain ⟨n1, rfl, hn1, hch, hno⟩ := branchNode_inv P level last m (old ++ new) t1 hobj h1
    rw [List.append_assoc] at h2
    obtain ⟨n2, e, hn2, hcard, hall⟩ := ih (new ++ n1) h2
    have hlen1 : n1.length ≤ nChoices P := by
      cases r with
      | none => rw [hno gb gt hgb hgt hr]; simp
      | some ss =>
        exact (hch gb gt ss hgb hgt hr).1.trans (pruning_length _ _ _ _ _ _ _ _ _ hr)
    refine ⟨n1 ++ n2, by rw [e, List.append_assoc], ?_, ?_, ?_⟩
    · intro x hx
      rcases List.mem_append.1 hx with hx | hx
      · obtain ⟨a, ha⟩ := hn1 x hx
        exact ⟨m, by simp, a, ha⟩
      · obtain ⟨m', hm', a, ha⟩ := hn2 x hx
        exact ⟨m', by simp [hm'], a, ha⟩
    · rw [List.length_append, List.length_cons, Nat.succ_mul]
      omega
    · intro hlim m' hm'
      rcases List.mem_cons.1 hm' with rfl | hm'
      · intro gb' gt' ss i1 i2 i3 a ha
        have hlss := pruning_length _ _ _ _ _ _ _ _ _ i3
        obtain ⟨x, hx, hx2⟩ := (hch gb' gt' ss i1 i2 i3).2 (hlss.trans hlim) a ha
        exact ⟨x, by simp [hx], hx2⟩
      · intro gb' gt' ss i1 i2 i3 a ha
        obtain ⟨x, hx, hx2⟩ := hall hlim m' hm' gb' gt' ss i1 i2 i3 a ha
        exact ⟨x, by simp [hx], hx2⟩

theorem searchLevel_inv (P : Problem V) (level : Nat) (ns : List (Node V)) (t' : Tabs V)
    (hobj : ∀ o q, P.objMp o = .ok q → -6666 < q)
    (h : searchLevel P level (tabsOf ns) = .ok t') :
    ∃ ns' : List (Node V), t' = tabsOf ns' ∧
      (∀ x ∈ ns', ∃ m ∈ ns, ∃ a, ChildOf P level (decide (P.indices.getLast? = some level)) m a x) ∧
      ns'.length ≤ ns.length * nChoices P ∧
      ((∀ o q, P.objMp o = .ok q → q < 6666) →
        ns'.length ≤ if P.indices.getLast? = some level then P.globalLimitFinal else P.globalLimit) ∧
      (nChoices P ≤ min P.localLimitFinal P.localLimit →
        ns.length * nChoices P ≤ min P.globalLimitFinal P.globalLimit →
        ∀ m ∈ ns, AllChildren P level (decide (P.indices.getLast? = some level)) m ns') := by
  unfold searchLevel at h
  simp only [bind_ok] at h
  obtain ⟨t1, h1, h2⟩ := h
  have e0 : (tabsOf ns).objs.length = ns.length := by simp [tabsOf]
  rw [e0] at h1
  obtain ⟨n1, rfl, hn1, hcard, hall⟩ := branchNodes_inv P level _ ns [] t1 hobj (by rw [List.append_nil]; exact h1)
  rw [List.nil_append] at h2
  split at h2
  · cases h2
  · simp only [pure, Except.pure, Except.ok.injEq] at h2
    obtain ⟨ns', e, hsub, hid, hle⟩ := globalPrune_tabsOf
      (if decide (P.indices.getLast? = some level) = true then P.globalLimitFinal else P.globalLimit) n1
    refine ⟨ns', by rw [← h2, e], fun x hx => hn1 x (hsub.subset hx), hsub.length_le.trans hcard, ?_, ?_⟩
    · intro hb
      simp only [decide_eq_true_eq] at hle
      apply hle
      intro x hx
      obtain ⟨m, _, a, ha⟩ := hn1 x hx
      have := ha.obj
      simp only [childObj, bind_ok, pure, Except.pure, Except.ok.injEq, Prod.mk.injEq] at this
      obtain ⟨o, _, q, hq, _, rfl⟩ := this
      exact hb o _ hq
    · intro hl1 hl2 m hm
      rw [hid (by split <;> omega)]
      exact hall (by split <;> omega) m hm

end Bella
