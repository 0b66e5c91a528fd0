import Verif.Props.Optimiser
/-
Properties C42 and C64: structures with a middle ply, for which no initial layout can be drawn.
-/
namespace Bella

variable {V : Type} [AddCommMonoid V]

/-- With a middle ply, a layout drawn for groups whose last one has different numbers of ply drops does not exist. -/
theorem symGroups_middle (s : StripData) (hmid : s.hasMiddle = true) (d : List Nat)
    (hd : s.drops[s.sizes.length - 1]? = some d) (hnd : d.Nodup) (hne : d ≠ []) (hidx : s.middleIdx.length = d.length)
    (sched : List (List (Draw × Bool))) (g : Nat) (hg : g < s.sizes.length) (hs : g + sched.length = s.sizes.length)
    (hv : ValidDraws s g sched) (prev : Option Table) (l : List (Option Table)) :
    symGroups s g prev sched ≠ .ok (some l) := by
  induction sched generalizing g prev l with
  | nil => simp at hs; omega
  | cons x sched ih =>
    intro h
    unfold symGroups at h
    obtain ⟨n, h1, h⟩ := bind_ok.1 h
    obtain ⟨d', h2, h⟩ := bind_ok.1 h
    obtain ⟨r, h3, h⟩ := bind_ok.1 h
    rw [pyGet_eq_ok] at h1 h2
    rw [List.length_cons] at hs
    cases r with
    | none => cases h
    | some t =>
      dsimp only at h
      obtain ⟨q, h4, h⟩ := bind_ok.1 h
      cases q with
      | none => cases h
      | some l' =>
        by_cases hlast : g + 1 = s.sizes.length
        · have hdd : d' = d := by
            have : g = s.sizes.length - 1 := by omega
            rw [← this, h2] at hd
            exact Option.some.inj hd
          subst hdd
          unfold firstLayout at h3
          obtain ⟨r, k1, k2⟩ := bind_ok.1 h3
          cases r with
          | none => cases k2
          | some l =>
            cases l with
            | nil => cases k2
            | cons t' l =>
              obtain ⟨y, hy, p, hgen⟩ := C42_returned_layouts_are_generated _ _ _ _ _ _ k1 t' (by simp)
              rw [C42_middle_ply_crash_violation _ y.1 ?_ (by simpa using hlast) hmid hne hidx hnd] at hgen
              · cases hgen
              · exact hv 0 x n d' rfl h1 h2 y hy
        · exact ih (g + 1) (by omega) (by omega) (validDraws_tail hv) (some t) l' h4

/-- C42 (violated): no initial layout can be drawn for a symmetric structure with a middle ply and at least one group of plies,
if the numbers of plies to drop in the last group are different for the panels: whatever the random choices, none is returned
as soon as one is asked for. -/
theorem C42_middle_ply_no_layout_violation (s : StripData) (hsym : s.sym = true) (hmid : s.hasMiddle = true)
    (hsz : s.sizes ≠ []) (d : List Nat) (hd : s.drops[s.sizes.length - 1]? = some d) (hnd : d.Nodup) (hne : d ≠ [])
    (hidx : s.middleIdx.length = d.length) (nIni : Nat) (hn : 1 ≤ nIni) (late : Bool)
    (sched : List (List (List (Draw × Bool)) × Bool))
    (hv : ∀ x ∈ sched, s.sizes.length ≤ x.1.length ∧ ValidDraws s 0 x.1) (pdls : List Table) :
    createInitialPdls s nIni late sched ≠ .ok (some pdls) := by
  intro h
  obtain ⟨f1, f2⟩ := C42_initial_layouts_created _ _ _ _ _ h
  obtain ⟨t, ht⟩ := List.exists_mem_of_ne_nil pdls (by intro h0; rw [h0] at f1; simp at f1; omega)
  obtain ⟨x, hx, hcr⟩ := f2 t ht
  obtain ⟨v1, v2⟩ := hv x hx
  unfold createInitialPdl at hcr
  rw [if_pos hsym] at hcr
  obtain ⟨r, k1, k2⟩ := bind_ok.1 hcr
  cases r with
  | none => cases k2
  | some l =>
    have hpos : 0 < s.sizes.length := List.length_pos_iff.2 hsz
    refine symGroups_middle s hmid d hd hnd hne hidx (x.1.take s.sizes.length) 0 hpos ?_ ?_ _ l k1
    · rw [List.length_take]; omega
    · intro k sk n d' e1 e2 e3
      rw [List.getElem?_take] at e1
      split at e1
      · exact v2 k sk n d' e1 e2 e3
      · cases e1

/-- C64 (violated): the optimisation of a symmetric structure all of whose panels have odd numbers of plies, the plies of its
thickest panel making one group, returns no design, whatever the targets, the weights, the random choices and the time limits:
no initial layout can be drawn. -/
theorem C64_odd_panels_violation (B : BellaSetup V) (nRef : Int) (bs : List (Nat × Nat)) (bw : List ((Nat × Nat) × ℚ))
    (hr : mkReduced B.plies true nRef bs bw = .ok B.O.S.r) (hsym : B.O.S.c.sym = true) (hne : B.plies ≠ [])
    (hodd : ∀ n ∈ B.plies, n % 2 = 1 ∧ 2 * B.O.S.c.nCovering + 1 < n)
    (hmin : 1 ≤ B.gmin ∧ B.gmin ≤ ((B.nMax / 2 - B.O.S.c.nCovering : Nat) : Int))
    (hmax : ((B.nMax / 2 - B.O.S.c.nCovering : Nat) : Int) ≤ B.gmax) (hfuel : B.gmax - B.gmin + 1 ≤ B.fuel)
    (hn : 1 ≤ B.nIni) (sched : List (List (List (Draw × Bool)) × Bool)) (hv : PossibleDraws B sched)
    (res : Option OneResult) : bellaOptimiser B sched ≠ some (.ok res) := by
  intro h
  unfold bellaOptimiser at h
  split at h
  · cases h
  · cases h
  · rename_i pdls hl
    obtain ⟨sizes, panels, s, e1, e2, e3⟩ := layouts_ok hl
    have hv' := hv _ _ s e1 e2
    obtain ⟨hsort, hmem, _⟩ := C15_reduction _ _ _ _ _ _ hr
    have hnd : B.O.S.r.nPlies.Nodup := hsort.imp (fun h => Nat.ne_of_lt h)
    have hmx : B.nMax ∈ B.plies := foldr_max_mem _ hne
    have hle : ∀ n ∈ B.plies, n ≤ B.nMax := fun n hn => le_foldr_max _ n hn
    have hmxo := hodd _ hmx
    unfold divideStrip at e1
    split at e1
    · cases e1
    · rename_i thick ht
      obtain ⟨tsizes, tfirsts⟩ := thick
      split at e1
      · cases e1
      · rename_i pgs hp
        have e1 := Except.ok.inj (Option.some.inj e1)
        obtain ⟨rfl, rfl⟩ := Prod.mk.inj e1
        rw [hsym] at ht hp
        have hP : Spec.pliesToDesign true B.nMax B.O.S.c.nCovering = ((B.nMax / 2 - B.O.S.c.nCovering : Nat) : Int) := by
          unfold Spec.pliesToDesign
          rw [if_pos rfl]
          omega
        obtain ⟨⟨_, k1⟩, k2, _, k3⟩ := C21_groups _ _ _ _ _ hmin.1 (by omega) _ _ ht
        have k4 := k3 [((B.nMax / 2 - B.O.S.c.nCovering : Nat) : Int)]
          ⟨fun x hx => by rw [List.mem_singleton.1 hx]; exact ⟨hmin.2, hmax⟩, by rw [hP]; simp⟩
        obtain ⟨u, rfl⟩ : ∃ u, tsizes = [u] := by
          rw [← List.length_eq_one_iff]
          have := List.length_pos_iff.2 k2
          simp only [List.length_singleton] at k4
          omega
        rw [hP] at k1
        simp only [List.sum_cons, List.sum_nil, add_zero] at k1
        have hf := optMapM_inv hp
        have hlen := hf.length_eq
        unfold BellaSetup.stripData at e2
        obtain ⟨drops, hd, e2⟩ := bind_ok.1 e2
        obtain ⟨bounds, _, e2⟩ := bind_ok.1 e2
        have e2 := Except.ok.inj e2
        subst e2
        obtain ⟨y, y1, y2⟩ := mapM_at hd (i := 0) (x := 0) rfl
        have hyl := mapM_len y2
        have hval : ∀ (i n x : Nat), B.O.S.r.nPlies[i]? = some n → (y.map Int.toNat)[i]? = some x → x = (B.nMax - n) / 2 := by
          intro i n x hi hx
          obtain ⟨hip, hnp⟩ := List.getElem?_eq_some_iff.1 hi
          have hpg := List.Forall₂.get hf (i := i) hip (by omega)
          simp only [List.get_eq_getElem] at hpg
          rw [hnp] at hpg
          have hnm : n ∈ B.plies := (hmem n).1 (List.mem_of_getElem? hi)
          have ho := hodd n hnm
          have hl := hle n hnm
          obtain ⟨z, z1, z2⟩ := mapM_at y2 (i := i) (x := pgs[i]'(by omega)) (List.getElem?_eq_getElem _)
          rw [List.getElem?_map, z1, Option.map_some, Option.some.injEq] at hx
          obtain ⟨a1, q1, z2⟩ := bind_ok.1 z2
          obtain ⟨a2, q2, z2⟩ := bind_ok.1 z2
          have z2 := Except.ok.inj z2
          rw [pyGet_eq_ok] at q1 q2
          have q1 := Option.some.inj q1
          by_cases heq : n = B.nMax
          · rw [heq, C22_thickest] at hpg
            have hpg := Option.some.inj hpg
            rw [← hpg] at q2
            have q2 := Option.some.inj q2
            omega
          · obtain ⟨pg, w1, _, w3, _, w5, _⟩ := C22_distribution true B.nMax B.O.S.c.nCovering B.gmin B.gmax n hmin.1 (by omega)
              _ _ ht (by omega) (by unfold Spec.pliesToDesign; rw [if_pos rfl]; omega) B.fuel hfuel
            rw [w1] at hpg
            have hpg := Option.some.inj hpg
            rw [← hpg] at q2
            obtain ⟨v, hv⟩ := List.length_eq_one_iff.1 (show pg.sizes.length = 1 from w3)
            rw [hv] at q2 w5
            have q2 := Option.some.inj q2
            unfold Spec.pliesToDesign at w5
            rw [if_pos rfl] at w5
            simp only [List.sum_cons, List.sum_nil, add_zero] at w5
            omega
        refine C42_middle_ply_no_layout_violation _ hsym ?_ (by simp) (y.map Int.toNat) ?_ ?_ ?_ ?_ B.nIni hn B.lateAll sched
          hv' pdls e3
        · show B.hasMiddle = true
          unfold BellaSetup.hasMiddle
          rw [hsym, Bool.true_and, List.any_eq_true]
          exact ⟨B.nMax, hmx, by simp [hmxo.1]⟩
        · simp only [List.length_map, List.length_singleton, Nat.sub_self, List.getElem?_map, y1, Option.map_some]
        · rw [List.nodup_iff_getElem?_ne_getElem?]
          intro i j hij hj heq
          rw [List.length_map] at hj
          have hi' : i < B.O.S.r.nPlies.length := by omega
          have hj' : j < B.O.S.r.nPlies.length := by omega
          have h1 := List.getElem?_eq_getElem (l := B.O.S.r.nPlies) hi'
          have h2 := List.getElem?_eq_getElem (l := B.O.S.r.nPlies) hj'
          have x2 := List.getElem?_eq_getElem (l := y.map Int.toNat) (i := j) (by rw [List.length_map]; exact hj)
          have x1 := heq.trans x2
          have a1 := hval _ _ _ h1 x1
          have a2 := hval _ _ _ h2 x2
          have o1 := hodd _ ((hmem _).1 (List.mem_of_getElem? h1))
          have o2 := hodd _ ((hmem _).1 (List.mem_of_getElem? h2))
          have l1 := hle _ ((hmem _).1 (List.mem_of_getElem? h1))
          have l2 := hle _ ((hmem _).1 (List.mem_of_getElem? h2))
          have hlt := List.pairwise_iff_getElem.1 hsort i j hi' hj' hij
          omega
        · intro h0
          have := congrArg List.length h0
          rw [List.length_map, List.length_nil] at this
          have hpos : 0 < B.O.S.r.nPlies.length := List.length_pos_of_mem ((hmem _).2 hmx)
          omega
        · simp only [List.length_map]
          omega

end Bella
