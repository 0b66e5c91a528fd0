import Verif.Proofs.RepairDisoContig
import Verif.Spec.Order
import Verif.Proofs.Cons
/-
C29: order in which the plies of the queue are tried.  C30: choice of the permutation.
-/
namespace Bella

/-! ### C30 -/

theorem keepMinCol_mem {j : Nat} {rows : List (List Nat)} {r : List Nat} :
    r ∈ keepMinCol j rows ↔ r ∈ rows ∧ ∀ r' ∈ rows, r.getD j 0 ≤ r'.getD j 0 := by
  unfold keepMinCol
  rw [List.mem_filter, List.all_eq_true]
  refine and_congr_right fun _ => forall₂_congr fun r' _ => ?_
  exact decide_eq_true_iff

theorem exists_min_col (j : Nat) : ∀ (rows : List (List Nat)), rows ≠ [] →
    ∃ r ∈ rows, ∀ r' ∈ rows, r.getD j 0 ≤ r'.getD j 0 := by
  intro rows
  induction rows with
  | nil => intro h; exact absurd rfl h
  | cons r rows ih =>
    intro _
    by_cases h : rows = []
    · subst h; exact ⟨r, by simp, by simp⟩
    · obtain ⟨m, hm, hmin⟩ := ih h
      by_cases hle : r.getD j 0 ≤ m.getD j 0
      · refine ⟨r, by simp, ?_⟩
        intro r' hr'
        rcases List.mem_cons.1 hr' with rfl | hr'
        · exact le_rfl
        · exact hle.trans (hmin r' hr')
      · refine ⟨m, by simp [hm], ?_⟩
        intro r' hr'
        rcases List.mem_cons.1 hr' with rfl | hr'
        · omega
        · exact hmin r' hr'

theorem keepMinCol_ne_nil {j : Nat} {rows : List (List Nat)} (h : rows ≠ []) : keepMinCol j rows ≠ [] := by
  obtain ⟨r, hr, hm⟩ := exists_min_col j rows h
  exact List.ne_nil_of_mem (keepMinCol_mem.2 ⟨hr, hm⟩)

theorem lexLE_of_col {j L : Nat} {r r' : List Nat} (hr : r.length = L) (hr' : r'.length = L) (hj : j < L)
    (hp : r.take j = r'.take j) (hlt : r.getD j 0 < r'.getD j 0) : Spec.LexLE r r' := by
  refine Or.inr ⟨j, r.getD j 0, r'.getD j 0, hp, ?_, ?_, hlt⟩
  · rw [List.getD_eq_getElem _ _ (by omega)]; exact List.getElem?_eq_getElem _
  · rw [List.getD_eq_getElem _ _ (by omega)]; exact List.getElem?_eq_getElem _

theorem smallestLoop_spec (L : Nat) : ∀ (m j : Nat) (rows : List (List Nat)), j + m = L → rows ≠ [] →
    (∀ r ∈ rows, r.length = L) → (∀ r ∈ rows, ∀ r' ∈ rows, r.take j = r'.take j) →
    ∃ r ∈ rows, smallestLoop (List.range' j m) rows = some r ∧ ∀ r' ∈ rows, Spec.LexLE r r' := by
  intro m
  induction m with
  | zero =>
    intro j rows hj hne hL hp
    obtain ⟨r, rest, rfl⟩ := List.exists_cons_of_ne_nil hne
    refine ⟨r, by simp, rfl, ?_⟩
    intro r' hr'
    have h1 := hp r (by simp) r' hr'
    rw [List.take_of_length_le (by rw [hL r (by simp)]; omega),
      List.take_of_length_le (by rw [hL r' hr']; omega)] at h1
    exact Or.inl h1
  | succ m ih =>
    intro j rows hj hne hL hp
    have hne' := keepMinCol_ne_nil (j := j) hne
    have hout : ∀ r ∈ keepMinCol j rows, ∀ r' ∈ rows, r' ∉ keepMinCol j rows → Spec.LexLE r r' := by
      intro r hr r' hr' hnot
      obtain ⟨h1, h2⟩ := keepMinCol_mem.1 hr
      refine lexLE_of_col (hL r h1) (hL r' hr') (by omega) (hp r h1 r' hr') ?_
      rcases lt_or_eq_of_le (h2 r' hr') with h | h
      · exact h
      · refine absurd (keepMinCol_mem.2 ⟨hr', fun s hs => ?_⟩) hnot
        rw [← h]; exact h2 s hs
    rw [List.range'_succ, smallestLoop]
    split
    · rename_i h1
      obtain ⟨r, hr⟩ := List.length_eq_one_iff.1 h1
      have hmem : r ∈ keepMinCol j rows := by rw [hr]; simp
      refine ⟨r, (keepMinCol_mem.1 hmem).1, by rw [hr]; rfl, ?_⟩
      intro r' hr'
      by_cases h : r' ∈ keepMinCol j rows
      · rw [hr] at h
        exact Or.inl (List.mem_singleton.1 h).symm
      · exact hout r hmem r' hr' h
    · obtain ⟨r, hr, e, hmin⟩ := ih (j + 1) (keepMinCol j rows) (by omega) hne'
        (fun r hr => hL r (keepMinCol_mem.1 hr).1)
        (by
          intro r hr r' hr'
          obtain ⟨a1, a2⟩ := keepMinCol_mem.1 hr
          obtain ⟨b1, b2⟩ := keepMinCol_mem.1 hr'
          have e := le_antisymm (a2 r' b1) (b2 r a1)
          rw [List.getD_eq_getElem _ _ (by rw [hL r a1]; omega),
            List.getD_eq_getElem _ _ (by rw [hL r' b1]; omega)] at e
          rw [List.take_add_one, List.take_add_one, hp r a1 r' b1,
            List.getElem?_eq_getElem (by rw [hL r a1]; omega),
            List.getElem?_eq_getElem (by rw [hL r' b1]; omega), e])
      refine ⟨r, (keepMinCol_mem.1 hr).1, e, ?_⟩
      intro r' hr'
      by_cases h : r' ∈ keepMinCol j rows
      · exact hmin r' h
      · exact hout r hr r' hr' h

/-- C30: for rows of equal lengths, the result is one of the rows, and it is lexicographically
smaller than or equal to all of them; nothing is returned exactly if there is no row. -/
theorem C30_smallest_row (rows : List (List Nat)) (L : Nat) (hL : ∀ r ∈ rows, r.length = L) :
    (rows = [] → smallestRow rows = none) ∧
    (rows ≠ [] → ∃ r, smallestRow rows = some r ∧ r ∈ rows ∧ ∀ r' ∈ rows, Spec.LexLE r r') := by
  constructor
  · rintro rfl; rfl
  · intro hne
    obtain ⟨r0, rest, rfl⟩ := List.exists_cons_of_ne_nil hne
    obtain ⟨r, hr, e, hmin⟩ := smallestLoop_spec L L 0 (r0 :: rest) (by omega) hne hL (by simp)
    refine ⟨r, ?_, hr, hmin⟩
    rw [smallestRow, hL r0 (by simp), List.range_eq_range']
    exact e

example : smallestRow [[2, 0, 1], [1, 2, 0], [1, 0, 2], [2, 1, 0]] = some [1, 0, 2] := by decide

/-- C30: the order of the rows does not influence the result. -/
theorem C30_order_irrelevant (rows rows' : List (List Nat)) (L : Nat) (hL : ∀ r ∈ rows, r.length = L)
    (h : ∀ r, r ∈ rows ↔ r ∈ rows') : smallestRow rows = smallestRow rows' := by
  have hL' : ∀ r ∈ rows', r.length = L := fun r hr => hL r ((h r).2 hr)
  by_cases hn : rows = []
  · have hn' : rows' = [] := by
      apply List.eq_nil_iff_forall_not_mem.2
      intro r hr
      rw [hn] at h
      exact absurd ((h r).2 hr) (by simp)
    rw [hn, hn']
  · have hn' : rows' ≠ [] := by
      intro e
      obtain ⟨r, hr⟩ := List.exists_mem_of_ne_nil _ hn
      rw [e] at h
      exact absurd ((h r).1 hr) (by simp)
    obtain ⟨r, e1, m1, l1⟩ := (C30_smallest_row rows L hL).2 hn
    obtain ⟨r', e2, m2, l2⟩ := (C30_smallest_row rows' L hL').2 hn'
    rw [e1, e2]
    rcases l1 r' ((h r').2 m2) with rfl | ⟨j, x, y, t1, g1, g2, lt⟩
    · rfl
    rcases l2 r ((h r).1 m1) with rfl | ⟨j', x', y', t1', g1', g2', lt'⟩
    · rfl
    exfalso
    rcases lt_trichotomy j j' with hlt | rfl | hlt
    · have : (r'.take j')[j]? = (r.take j')[j]? := by rw [t1']
      rw [List.getElem?_take_of_lt hlt, List.getElem?_take_of_lt hlt, g1, g2] at this
      simp at this; omega
    · rw [g1] at g2'; rw [g2] at g1'
      simp at g1' g2'; omega
    · have : (r'.take j)[j']? = (r.take j)[j']? := by rw [t1]
      rw [List.getElem?_take_of_lt hlt, List.getElem?_take_of_lt hlt, g1', g2'] at this
      simp at this; omega

/-- C30: the permutation chosen for the last plies passes the test and is the lexicographically
smallest one that does; none is chosen exactly if no permutation passes. -/
theorem C30_best_permutation (remaining : List Int) (test : List Int → Py Bool)
    (htest : ∀ g, ∃ b, test g = .ok b) :
    ∃ r, bestPerm remaining test = .ok r ∧
      (r = none → ∀ p : List Nat, p.Perm (List.range remaining.length) →
        test (permute remaining p) = .ok false) ∧
      (∀ p, r = some p → p.Perm (List.range remaining.length) ∧ test (permute remaining p) = .ok true ∧
        ∀ p' : List Nat, p'.Perm (List.range remaining.length) → test (permute remaining p') = .ok true →
          Spec.LexLE p p') := by
  obtain ⟨good, h1, h2⟩ := keepPerms_spec (fun p => test (permute remaining p))
    (fun p => htest _) (List.range remaining.length).permutations'
  have hL : ∀ r ∈ good, r.length = remaining.length := by
    intro r hr
    have := (List.mem_permutations'.1 ((h2 r).1 hr).1).length_eq
    simpa using this
  refine ⟨smallestRow good, by rw [bestPerm, h1]; rfl, ?_, ?_⟩
  · intro hn p hp
    by_cases hg : good = []
    · obtain ⟨b, hb⟩ := htest (permute remaining p)
      cases b with
      | false => exact hb
      | true =>
        have := (h2 p).2 ⟨List.mem_permutations'.2 hp, hb⟩
        rw [hg] at this; simp at this
    · obtain ⟨r, e, -⟩ := (C30_smallest_row good _ hL).2 hg
      rw [e] at hn; cases hn
  · intro p hp
    have hg : good ≠ [] := by
      intro hg
      rw [(C30_smallest_row good _ hL).1 hg] at hp; cases hp
    obtain ⟨r, e, hm, hl⟩ := (C30_smallest_row good _ hL).2 hg
    rw [e] at hp
    cases hp
    obtain ⟨m1, m2⟩ := (h2 p).1 hm
    refine ⟨List.mem_permutations'.1 m1, m2, ?_⟩
    intro p' hp' ht'
    exact hl p' ((h2 p').2 ⟨List.mem_permutations'.2 hp', ht'⟩)

example : bestPerm [45, 0, 90, 0] (fun g => .ok (decide (g.getD 0 0 = 0 ∧ g.getD 2 0 = 45))) =
    .ok (some [1, 2, 0, 3]) := by decide +kernel

/-! ### C29 -/

theorem calcDeltaAngle2_spec (a x : Int) (ha : Spec.PlyAngle a) (hx : Spec.PlyAngle x) :
    -90 < calcDeltaAngle2 a x ∧ calcDeltaAngle2 a x ≤ 90 ∧
      ∃ k : Int, x = a + calcDeltaAngle2 a x + 180 * k := by
  obtain ⟨h1, h2⟩ := ha
  obtain ⟨h3, h4⟩ := hx
  unfold calcDeltaAngle2
  dsimp only
  split_ifs
  all_goals refine ⟨by omega, by omega, ?_⟩
  all_goals first
    | exact ⟨0, by omega⟩
    | exact ⟨1, by omega⟩
    | exact ⟨-1, by omega⟩

theorem withinAngle_delta (a x d : Int) (ha : Spec.PlyAngle a) (hx : Spec.PlyAngle x) :
    Spec.WithinAngle d a x ↔ ((calcDeltaAngle2 a x).natAbs : Int) ≤ d := by
  obtain ⟨h1, h2, k, hk⟩ := calcDeltaAngle2_spec a x ha hx
  generalize calcDeltaAngle2 a x = t at *
  unfold Spec.WithinAngle
  constructor
  · rintro ⟨j, hj⟩
    rw [abs_le] at hj
    omega
  · intro h
    refine ⟨k, ?_⟩
    rw [abs_le]
    omega

/-- pairs (angle, difference) of the loop -/
def OrdOK (a : Int) (l : List (Int × Int)) : Prop :=
  l.Nodup ∧ ∀ p ∈ l, Spec.PlyAngle p.1 ∧ p.2 = calcDeltaAngle2 a p.1

theorem OrdOK.sub {a : Int} {l l' : List (Int × Int)} (h : OrdOK a l) (hs : l'.Sublist l) : OrdOK a l' :=
  ⟨h.1.sublist hs, fun p hp => h.2 p (hs.subset hp)⟩

theorem OrdOK.inj {a : Int} (ha : Spec.PlyAngle a) {l : List (Int × Int)} (h : OrdOK a l)
    {p q : Int × Int} (hp : p ∈ l) (hq : q ∈ l) (he : p.2 = q.2) : p = q := by
  obtain ⟨p1, p2⟩ := h.2 p hp
  obtain ⟨q1, q2⟩ := h.2 q hq
  obtain ⟨-, -, k, hk⟩ := calcDeltaAngle2_spec a p.1 ha p1
  obtain ⟨-, -, k', hk'⟩ := calcDeltaAngle2_spec a q.1 ha q1
  obtain ⟨a1, a2⟩ := p1
  obtain ⟨b1, b2⟩ := q1
  rw [← p2] at hk
  rw [← q2] at hk'
  exact Prod.ext (by omega) he

theorem minPairs_mem {l : List (Int × Int)} {p : Int × Int} :
    p ∈ l.filter (fun p => l.all (fun q => decide (p.2.natAbs ≤ q.2.natAbs))) ↔
      p ∈ l ∧ ∀ q ∈ l, p.2.natAbs ≤ q.2.natAbs := by
  rw [List.mem_filter, List.all_eq_true]
  refine and_congr_right fun _ => forall₂_congr fun r' _ => ?_
  exact decide_eq_true_iff

theorem exists_min_pair : ∀ (l : List (Int × Int)), l ≠ [] → ∃ p ∈ l, ∀ q ∈ l, p.2.natAbs ≤ q.2.natAbs := by
  intro l
  induction l with
  | nil => intro h; exact absurd rfl h
  | cons r l ih =>
    intro _
    by_cases h : l = []
    · subst h; exact ⟨r, by simp, by simp⟩
    · obtain ⟨m, hm, hmin⟩ := ih h
      by_cases hle : r.2.natAbs ≤ m.2.natAbs
      · refine ⟨r, by simp, ?_⟩
        intro r' hr'
        rcases List.mem_cons.1 hr' with rfl | hr'
        · exact le_rfl
        · exact hle.trans (hmin r' hr')
      · refine ⟨m, by simp [hm], ?_⟩
        intro r' hr'
        rcases List.mem_cons.1 hr' with rfl | hr'
        · omega
        · exact hmin r' hr'

/-- the preference between two angles: closer first, then positive rotation first -/
def Pref (a : Int) (x y : Int) : Prop :=
  (calcDeltaAngle2 a x).natAbs < (calcDeltaAngle2 a y).natAbs ∨
    (0 < calcDeltaAngle2 a x ∧ calcDeltaAngle2 a y = - calcDeltaAngle2 a x)

theorem orderLoop_spec (a : Int) (ha : Spec.PlyAngle a) : ∀ (fuel : Nat) (l : List (Int × Int)),
    l.length ≤ fuel → OrdOK a l →
      (orderLoop fuel l).Perm (l.map (fun p => p.1)) ∧ (orderLoop fuel l).Pairwise (Pref a) := by
  intro fuel
  induction fuel with
  | zero =>
    intro l hl _
    have : l = [] := List.length_eq_zero_iff.1 (by omega)
    subst this
    exact ⟨.refl _, .nil⟩
  | succ fuel ih =>
    intro l hl hO
    rw [orderLoop]
    generalize hF : l.filter (fun p => l.all (fun q => decide (p.2.natAbs ≤ q.2.natAbs))) = F
    have hmem : ∀ p, p ∈ F ↔ p ∈ l ∧ ∀ q ∈ l, p.2.natAbs ≤ q.2.natAbs := by
      intro p; rw [← hF]; exact minPairs_mem
    have hFn : F.Nodup := by rw [← hF]; exact hO.1.sublist List.filter_sublist
    match F, hF, hmem, hFn with
    | [], _, hmem, _ =>
      by_cases hn : l = []
      · subst hn; exact ⟨.refl _, .nil⟩
      · obtain ⟨p, h1, h2⟩ := exists_min_pair l hn
        have := (hmem p).2 ⟨h1, h2⟩
        simp at this
    | [x], _, hmem, _ =>
      have hx := (hmem x).1 (by simp)
      have hp := List.perm_cons_erase hx.1
      have hlen := List.length_erase_of_mem hx.1
      have hpos := List.length_pos_of_mem hx.1
      obtain ⟨r1, r2⟩ := ih (l.erase x) (by omega) (hO.sub List.erase_sublist)
      refine ⟨(r1.cons x.1).trans (hp.map (fun (p : Int × Int) => p.1)).symm, ?_⟩
      refine List.pairwise_cons.2 ⟨?_, r2⟩
      intro y hy
      obtain ⟨z, hz, rfl⟩ := List.mem_map.1 (r1.mem_iff.1 hy)
      have hzl := List.mem_of_mem_erase hz
      have hzx : z ≠ x := by
        rintro rfl
        exact (List.Nodup.not_mem_erase hO.1) hz
      have hz2 : z ∉ [x] := by simpa using hzx
      refine Or.inl ?_
      rw [← (hO.2 x hx.1).2, ← (hO.2 z hzl).2]
      rcases lt_or_eq_of_le (hx.2 z hzl) with h | h
      · exact h
      · refine absurd ((hmem z).2 ⟨hzl, fun w hw => ?_⟩) hz2
        rw [← h]; exact hx.2 w hw
    | [x, y], _, hmem, hFn =>
      have hx := (hmem x).1 (by simp)
      have hy := (hmem y).1 (by simp)
      have hxy : x ≠ y := by
        rintro rfl; simp at hFn
      have hye : y ∈ l.erase x := (List.mem_erase_of_ne hxy.symm).2 hy.1
      have hp := List.perm_cons_erase hx.1
      have hp2 := List.perm_cons_erase hye
      have hlen := List.length_erase_of_mem hx.1
      have hlen2 := List.length_erase_of_mem hye
      have hpos := List.length_pos_of_mem hx.1
      obtain ⟨r1, r2⟩ := ih ((l.erase x).erase y) (by omega)
        (hO.sub (List.erase_sublist.trans List.erase_sublist))
      have hrest : ∀ z ∈ orderLoop fuel ((l.erase x).erase y), Pref a x.1 z ∧ Pref a y.1 z := by
        intro z hz
        obtain ⟨w, hw, rfl⟩ := List.mem_map.1 (r1.mem_iff.1 hz)
        have hw1 := List.mem_of_mem_erase hw
        have hwl := List.mem_of_mem_erase hw1
        have hwx : w ≠ x := by
          rintro rfl
          exact (List.Nodup.not_mem_erase hO.1) hw1
        have hwy : w ≠ y := by
          rintro rfl
          exact (List.Nodup.not_mem_erase (hO.1.sublist List.erase_sublist)) hw
        have hw2 : w ∉ [x, y] := by simp [hwx, hwy]
        have hlt : x.2.natAbs < w.2.natAbs := by
          rcases lt_or_eq_of_le (hx.2 w hwl) with h | h
          · exact h
          · refine absurd ((hmem w).2 ⟨hwl, fun v hv => ?_⟩) hw2
            rw [← h]; exact hx.2 v hv
        have h1 := hy.2 x hx.1
        have h2 := hx.2 y hy.1
        refine ⟨Or.inl ?_, Or.inl ?_⟩
        · rw [← (hO.2 x hx.1).2, ← (hO.2 w hwl).2]; exact hlt
        · rw [← (hO.2 y hy.1).2, ← (hO.2 w hwl).2]; omega
      have habs : x.2.natAbs = y.2.natAbs := le_antisymm (hx.2 y hy.1) (hy.2 x hx.1)
      have hne2 : x.2 ≠ y.2 := fun h => hxy (hO.inj ha hx.1 hy.1 h)
      have hperm : (x.1 :: y.1 :: orderLoop fuel ((l.erase x).erase y)).Perm (l.map (fun p => p.1)) := by
        refine ((r1.cons y.1).cons x.1).trans ?_
        exact ((hp.trans (hp2.cons x)).map (fun p => p.1)).symm
      dsimp only
      split
      · rename_i hpx
        refine ⟨hperm, ?_⟩
        refine List.pairwise_cons.2 ⟨?_, List.pairwise_cons.2 ⟨fun z hz => (hrest z hz).2, r2⟩⟩
        intro z hz
        rcases List.mem_cons.1 hz with rfl | hz
        · refine Or.inr ?_
          rw [← (hO.2 x hx.1).2, ← (hO.2 y hy.1).2]
          omega
        · exact (hrest z hz).1
      · rename_i hpx
        refine ⟨(List.Perm.swap _ _ _).trans hperm, ?_⟩
        refine List.pairwise_cons.2 ⟨?_, List.pairwise_cons.2 ⟨fun z hz => (hrest z hz).1, r2⟩⟩
        intro z hz
        rcases List.mem_cons.1 hz with rfl | hz
        · refine Or.inr ?_
          rw [← (hO.2 x hx.1).2, ← (hO.2 y hy.1).2]
          omega
        · exact (hrest z hz).2
    | x :: y :: z :: t, _, hmem, hFn =>
      exfalso
      have hx := (hmem x).1 (by simp)
      have hy := (hmem y).1 (by simp)
      have hz := (hmem z).1 (by simp)
      have h1 : x ≠ y := by rintro rfl; simp at hFn
      have h2 : x ≠ z := by rintro rfl; simp at hFn
      have h3 : y ≠ z := by rintro rfl; simp at hFn
      have e1 := le_antisymm (hx.2 y hy.1) (hy.2 x hx.1)
      have e2 := le_antisymm (hx.2 z hz.1) (hz.2 x hx.1)
      have n1 : x.2 ≠ y.2 := fun h => h1 (hO.inj ha hx.1 hy.1 h)
      have n2 : x.2 ≠ z.2 := fun h => h2 (hO.inj ha hx.1 hz.1 h)
      have n3 : y.2 ≠ z.2 := fun h => h3 (hO.inj ha hy.1 hz.1 h)
      omega

/-- C29: next to a ply `a` the plies of the queue are tried as follows: each orientation of the queue
(among the allowed ones) exactly once; closer orientations first; of two orientations equally close,
the one obtained from `a` by a rotation by a positive angle first. -/
theorem C29_order_plies (a : Int) (queue angles : List Int) (ha : Spec.PlyAngle a)
    (hn : angles.Nodup) (hang : ∀ x ∈ angles, Spec.PlyAngle x) :
    ∃ l, orderPlies [a] queue angles = .ok l ∧ l.Nodup ∧
      (∀ x, x ∈ l ↔ x ∈ angles ∧ x ∈ queue) ∧
      l.Pairwise (fun x y => Spec.CloserTo a x y ∧ ¬ Spec.CloserTo a y x ∨
        ∃ t, 0 < t ∧ t < 90 ∧ Spec.RotatedBy a t x ∧ Spec.RotatedBy a (-t) y) := by
  have hO : OrdOK a (angles.map (fun x => (x, calcDeltaAngle2 a x))) := by
    refine ⟨hn.map (fun x y h => (Prod.mk.inj h).1), ?_⟩
    intro p hp
    obtain ⟨x, hx, rfl⟩ := List.mem_map.1 hp
    exact ⟨hang x hx, rfl⟩
  obtain ⟨h1, h2⟩ := orderLoop_spec a ha angles.length _ (by simp) hO
  rw [List.map_map] at h1
  have e : (fun p : Int × Int => p.1) ∘ (fun x => (x, calcDeltaAngle2 a x)) = id := rfl
  rw [e, List.map_id] at h1
  refine ⟨_, rfl, ?_, ?_, ?_⟩
  · exact (h1.nodup_iff.2 hn).sublist List.filter_sublist
  · intro x
    rw [List.mem_filter, h1.mem_iff]
    simp
  · refine List.Pairwise.imp_of_mem ?_ (h2.sublist List.filter_sublist)
    intro x y hx hy hpref
    have hx' := hang x (h1.mem_iff.1 (List.mem_of_mem_filter hx))
    have hy' := hang y (h1.mem_iff.1 (List.mem_of_mem_filter hy))
    rcases hpref with h | ⟨h3, h4⟩
    · refine Or.inl ⟨?_, ?_⟩
      · intro d hd
        rw [withinAngle_delta a _ d ha hy'] at hd
        rw [withinAngle_delta a _ d ha hx']
        omega
      · intro hc
        have := hc (calcDeltaAngle2 a x).natAbs ((withinAngle_delta a _ _ ha hx').2 le_rfl)
        rw [withinAngle_delta a _ _ ha hy'] at this
        omega
    · obtain ⟨g1, g2, k, hk⟩ := calcDeltaAngle2_spec a x ha hx'
      obtain ⟨g1', g2', k', hk'⟩ := calcDeltaAngle2_spec a y ha hy'
      refine Or.inr ⟨calcDeltaAngle2 a x, h3, ?_, ⟨k, hk⟩, ⟨k', ?_⟩⟩
      · omega
      · rw [← h4]; exact hk'

example : orderPlies [60] [0, 90, -60, 45, 0, -45, 60] [-60, -45, -30, 0, 30, 45, 60, 90] =
    .ok [60, 45, 90, -60, 0, -45] := by decide +kernel

/-- C29: without adjacent ply the distinct plies of the queue in increasing order; two adjacent plies
are not supported. -/
theorem C29_order_plies_other (queue angles : List Int) :
    (∃ l, orderPlies [] queue angles = .ok l ∧ l.Pairwise (fun x y => x < y) ∧ ∀ x, x ∈ l ↔ x ∈ queue) ∧
    (∀ a b t, orderPlies (a :: b :: t) queue angles = .error (.exc "Case not considered yet")) := by
  refine ⟨⟨_, rfl, ?_, ?_⟩, fun a b t => rfl⟩
  · exact sorted_npUnique queue
  · exact mem_npUnique queue

end Bella
