import Verif.Model.Optimiser
import Verif.Props.OnePdl
import Verif.Props.PdlInitial
import Verif.Props.DropDistribution
import Verif.Props.Assembly
/-
Property C64: the whole optimisation (src/BELLA/optimiser.py), from the division of the panels to the design returned.
-/
namespace Bella

variable {V : Type} [AddCommMonoid V]

/-- A well-posed input of BELLA_optimiser: a constraint object, the blending strip made from the panels, panels with more plies
than the covering plies and, for symmetric laminates, all with even or all with odd numbers of plies; admissible group sizes; the search problems
are those of the layouts; the data of the repairs fit the laminates of the reference panel. -/
structure FileCase (a : ConsArgs) (B : BellaSetup V) (cs : Int → Nat → ℚ) : Prop where
  cons : mkConstraints a = .ok B.O.S.c
  sameR : B.O.R.c = B.O.S.c
  problem : ∀ t, (B.problem t).pdl = t ∧ (B.problem t).c = B.O.S.c ∧ (B.problem t).nPanels = B.O.S.r.nPlies.length
  objBound : ∀ t o q, (B.problem t).objMp o = .ok q → -6666 < q
  reduced : ∃ (nRef : Int) (bs : List (Nat × Nat)) (bw : List ((Nat × Nat) × ℚ)),
    mkReduced B.plies B.O.S.c.sym nRef bs bw = .ok B.O.S.r
  parity : B.O.S.c.sym = true → ∀ n ∈ B.plies, ∀ m ∈ B.plies, n % 2 = m % 2
  noMinusOne : (-1 : Int) ∉ B.O.S.c.angles
  designed : ∀ n ∈ B.plies, 2 * B.O.S.c.nCovering < n
  sizes : 1 ≤ B.gmin ∧ B.gmin ≤ B.gmax
  fuel : B.gmax - B.gmin + 1 ≤ B.fuel
  repair : ∀ s : Stack, B.O.S.r.nPlies[B.O.S.r.indRef]? = some s.length → (∀ x ∈ s, x ∈ B.O.S.c.angles) →
    (B.O.S.c.sym = true → Spec.Symmetric s) → RepairCase a B.O.R cs s

/-- A well-posed input of BELLA_optimiser without a file of layouts: for symmetric laminates, the panels have even numbers of plies. -/
structure BellaCase (a : ConsArgs) (B : BellaSetup V) (cs : Int → Nat → ℚ) : Prop extends FileCase a B cs where
  even : B.O.S.c.sym = true → ∀ n ∈ B.plies, n % 2 = 0
  parity := fun hs n hn m hm => by rw [even hs n hn, even hs m hm]

/-- The random choices are possible ones: `random.sample` returns samples of the lists it is given. -/
def PossibleDraws (B : BellaSetup V) (sched : List (List (List (Draw × Bool)) × Bool)) : Prop :=
  ∀ sizes panels s, divideStrip B.O.S.c.sym B.nMax B.O.S.c.nCovering B.gmin B.gmax B.O.S.r.nPlies B.fuel =
    some (.ok (sizes, panels)) → B.stripData sizes panels = .ok s →
    ∀ x ∈ sched, s.sizes.length ≤ x.1.length ∧ ValidDraws s 0 x.1

/-! ### the strip -/

theorem optMapM_inv {α β : Type} {f : α → Option β} {xs : List α} {ys : List β} (h : xs.mapM f = some ys) :
    List.Forall₂ (fun x y => f x = some y) xs ys := by
  induction xs generalizing ys with
  | nil => simp only [List.mapM_nil, pure, Option.some.injEq] at h; subst h; exact .nil
  | cons a t ih =>
    rw [List.mapM_cons] at h
    simp only [bind, Option.bind_eq_some_iff, pure, Option.some.injEq] at h
    obtain ⟨y, h1, l, h2, rfl⟩ := h
    exact .cons h1 (ih h2)

theorem foldr_max_mem (l : List Nat) (h : l ≠ []) : l.foldr max 0 ∈ l := by
  induction l with
  | nil => exact absurd rfl h
  | cons a t ih =>
    rw [List.foldr_cons]
    by_cases ht : t = []
    · subst ht; simp
    · rcases Nat.le_total a (t.foldr max 0) with h1 | h1
      · rw [Nat.max_eq_right h1]; exact List.mem_cons_of_mem _ (ih ht)
      · rw [Nat.max_eq_left h1]; exact List.mem_cons_self

theorem le_foldr_max (l : List Nat) (n : Nat) (h : n ∈ l) : n ≤ l.foldr max 0 := by
  induction l with
  | nil => cases h
  | cons a t ih =>
    rw [List.foldr_cons]
    rcases List.mem_cons.1 h with rfl | h
    · exact Nat.le_max_left _ _
    · exact (ih h).trans (Nat.le_max_right _ _)

/-- The thickest panel of the strip is the last one. -/
theorem bella_full {a : ConsArgs} {B : BellaSetup V} {cs : Int → Nat → ℚ} (M : FileCase a B cs) (hne : B.plies ≠ []) :
    B.O.S.r.nPlies[B.O.S.r.nPlies.length - 1]? = some B.nMax ∧ B.nMax ∈ B.plies ∧ ∀ n ∈ B.plies, n ≤ B.nMax := by
  obtain ⟨nRef, bs, bw, hr⟩ := M.reduced
  obtain ⟨h1, h2, _⟩ := C15_reduction _ _ _ _ _ _ hr
  have hm : B.nMax ∈ B.plies := foldr_max_mem _ hne
  have hle : ∀ n ∈ B.plies, n ≤ B.nMax := fun n h => le_foldr_max _ n h
  refine ⟨?_, hm, hle⟩
  obtain ⟨i, hi, e⟩ := List.getElem_of_mem ((h2 _).2 hm)
  have hlt : B.O.S.r.nPlies.length - 1 < B.O.S.r.nPlies.length := by omega
  rw [List.getElem?_eq_getElem hlt]
  congr 1
  have hx : B.O.S.r.nPlies[B.O.S.r.nPlies.length - 1] ≤ B.nMax := hle _ ((h2 _).1 (List.getElem_mem _))
  rcases Nat.lt_or_ge i (B.O.S.r.nPlies.length - 1) with hlt' | hge
  · have := List.pairwise_iff_getElem.1 h1 i _ hi hlt hlt'
    omega
  · have : i = B.O.S.r.nPlies.length - 1 := by omega
    subst this
    exact e

theorem sum_toNat (l : List Int) (h : ∀ x ∈ l, 0 ≤ x) : ((l.map Int.toNat).sum : Int) = l.sum := by
  induction l with
  | nil => rfl
  | cons a t ih =>
    rw [List.map_cons, List.sum_cons, List.sum_cons, Nat.cast_add, ih (fun x hx => h x (List.mem_cons_of_mem _ hx)),
      Int.toNat_of_nonneg (h a List.mem_cons_self)]

/-- The plies left to a panel in the groups are those of its division. -/
theorem groupPlies_eq (s : StripData) (sizes : List Int) (panels : List PanelGroups) (drops : List (List Int)) (p : Nat)
    (pg : PanelGroups) (hs : s.sizes = sizes.map Int.toNat) (hd : s.drops = drops.map (fun (l : List Int) => l.map Int.toNat))
    (h : (List.range sizes.length).mapM (calcPlyDrops sizes panels) = .ok drops) (hp : panels[p]? = some pg)
    (hl : pg.sizes.length = sizes.length)
    (hb : ∀ (g : Nat) (u x : Int), sizes[g]? = some u → pg.sizes[g]? = some x → 0 ≤ x ∧ x ≤ u) :
    (groupPlies s p : Int) = pg.sizes.sum := by
  rw [← sum_toNat pg.sizes (fun x hx => by
    obtain ⟨g, hg, e⟩ := List.getElem_of_mem hx
    exact (hb g _ x (List.getElem?_eq_getElem (by omega)) (by rw [List.getElem?_eq_getElem hg, e])).1)]
  congr 1
  unfold groupPlies
  rw [hs, List.length_map, ← hl]
  congr 1
  apply List.ext_getElem
  · simp
  · intro g g1 g2
    have hg : g < pg.sizes.length := by simpa using g2
    have hg' : g < sizes.length := by omega
    simp only [List.getElem_map, List.getElem_range]
    obtain ⟨ds, e1, e2⟩ := mapM_at h (i := g) (x := g) (by rw [List.getElem?_range hg'])
    have e3 := mapM_at e2 hp
    obtain ⟨d, f1, f2⟩ := e3
    obtain ⟨u, f3, f2⟩ := bind_ok.1 f2
    obtain ⟨x, f4, f2⟩ := bind_ok.1 f2
    have f2 := Except.ok.inj f2
    rw [pyGet_eq_ok] at f3 f4
    have hbx := hb g u x f3 f4
    have i1 : (List.map Int.toNat sizes).getD g 0 = u.toNat := by
      rw [List.getD_eq_getElem?_getD, List.getElem?_map, f3]; rfl
    have i2 : (s.drops.getD g []).getD p 0 = d.toNat := by
      have i0 : s.drops[g]? = some (ds.map Int.toNat) := by rw [hd, List.getElem?_map, e1]; rfl
      rw [List.getD_eq_getElem?_getD (l := s.drops), i0, Option.getD_some, List.getD_eq_getElem?_getD, List.getElem?_map, f1]
      rfl
    have i3 : pg.sizes[g] = x := by
      have := List.getElem?_eq_getElem hg
      rw [f4] at this
      exact (Option.some.inj this).symm
    rw [i1, i2, i3]
    omega

/-- The groups of the strip. -/
theorem bella_strip {a : ConsArgs} {B : BellaSetup V} {cs : Int → Nat → ℚ} (M : BellaCase a B cs) (hne : B.plies ≠ [])
    {sizes : List Int} {panels : List PanelGroups} {s : StripData}
    (h1 : divideStrip B.O.S.c.sym B.nMax B.O.S.c.nCovering B.gmin B.gmax B.O.S.r.nPlies B.fuel = some (.ok (sizes, panels)))
    (h2 : B.stripData sizes panels = .ok s) :
    s.nPanels = B.O.S.r.nPlies.length ∧ s.nPliesMax = B.nMax ∧ s.hasMiddle = B.hasMiddle ∧ s.sym = B.O.S.c.sym ∧
    s.nCovering = B.O.S.c.nCovering ∧ (s.sizes.sum : Int) = Spec.pliesToDesign B.O.S.c.sym B.nMax B.O.S.c.nCovering ∧
    (∀ d ∈ s.drops, d.length = s.nPanels) ∧
    ∀ (p n : Nat), B.O.S.r.nPlies[p]? = some n →
      (groupPlies s p : Int) = Spec.pliesToDesign B.O.S.c.sym n B.O.S.c.nCovering := by
  obtain ⟨nRef, bs, bw, hr⟩ := M.reduced
  obtain ⟨_, hmem, _⟩ := C15_reduction _ _ _ _ _ _ hr
  obtain ⟨_, hmax, hle⟩ := bella_full M.toFileCase hne
  unfold divideStrip at h1
  split at h1
  · cases h1
  · rename_i thick ht
    obtain ⟨tsizes, tfirsts⟩ := thick
    split at h1
    · cases h1
    · rename_i pgs hp
      have h1 := Except.ok.inj (Option.some.inj h1)
      obtain ⟨rfl, rfl⟩ := Prod.mk.inj h1
      obtain ⟨k1, k2, _⟩ := C21_groups _ _ _ _ _ M.sizes.1 M.sizes.2 _ _ ht
      unfold BellaSetup.stripData at h2
      obtain ⟨drops, hd, h2⟩ := bind_ok.1 h2
      obtain ⟨bounds, _, h2⟩ := bind_ok.1 h2
      have h2 := Except.ok.inj h2
      subst h2
      have hf := optMapM_inv hp
      have hlen := hf.length_eq
      have hpos : ∀ u ∈ tsizes, 0 ≤ u := fun u hu => by have := (k1.1 u hu).1; have := M.sizes.1; omega
      refine ⟨rfl, rfl, rfl, rfl, rfl, by dsimp only; rw [sum_toNat _ hpos]; exact k1.2, ?_, ?_⟩
      · intro d hd'
        obtain ⟨d', hd'', rfl⟩ := List.mem_map.1 hd'
        obtain ⟨g, hg, e⟩ : ∃ (g : Nat) (hg : g < drops.length), drops[g] = d' := List.getElem_of_mem hd''
        dsimp only at hd
        have hg' : g < tsizes.length := by have := mapM_len hd; rw [List.length_range] at this; omega
        obtain ⟨y, y1, y2⟩ := mapM_at hd (i := g) (x := g) (by rw [List.getElem?_range hg'])
        rw [List.getElem?_eq_getElem hg, e] at y1
        have y1 := Option.some.inj y1
        subst y1
        rw [List.length_map]
        show d'.length = _
        rw [mapM_len y2, hlen]
      · intro p n hn
        have hplt : p < B.O.S.r.nPlies.length := (List.getElem?_eq_some_iff.1 hn).1
        have hplt' : p < pgs.length := by omega
        have hpg := List.Forall₂.get hf (i := p) hplt hplt'
        simp only [List.get_eq_getElem] at hpg
        have hnp : B.O.S.r.nPlies[p] = n := (List.getElem?_eq_some_iff.1 hn).2
        rw [hnp] at hpg
        have hnm : n ∈ B.plies := (hmem n).1 (List.mem_of_getElem? hn)
        have hdes := M.designed n hnm
        have hnle := hle n hnm
        have key : ∃ x : List Int, pgs[p].sizes = x ∧ x.length = tsizes.length ∧
            x.sum = Spec.pliesToDesign B.O.S.c.sym n B.O.S.c.nCovering ∧
            ∀ (g : Nat) (u y : Int), tsizes[g]? = some u → x[g]? = some y → 0 ≤ y ∧ y ≤ u := by
          by_cases heq : n = B.nMax
          · rw [heq, C22_thickest] at hpg
            have hpg := (Option.some.inj hpg).symm
            refine ⟨tsizes, by rw [hpg], rfl, by rw [k1.2, heq], fun g u y e1 e2 => ?_⟩
            rw [e1] at e2
            have e2 := Option.some.inj e2
            subst e2
            exact ⟨hpos _ (List.mem_of_getElem? e1), le_rfl⟩
          · obtain ⟨pg, q1, q2, q3, _, q5, q6, _⟩ := C22_distribution B.O.S.c.sym B.nMax B.O.S.c.nCovering B.gmin B.gmax n
              M.sizes.1 M.sizes.2 tsizes tfirsts ht (by omega) (by
                unfold Spec.pliesToDesign
                split
                · have := M.even (by assumption) n hnm; omega
                · omega) B.fuel M.fuel
            rw [q1] at hpg
            have hpg := Option.some.inj hpg
            refine ⟨pg.sizes, by rw [hpg], q3, q5, fun g u y e1 e2 => ?_⟩
            have hg : g < pg.drops.length := by
              have := (List.getElem?_eq_some_iff.1 e1).1
              omega
            obtain ⟨_, _, w1, w2, w3⟩ := q6 g u _ e1 (List.getElem?_eq_getElem hg)
            rw [w3] at e2
            have e2 := Option.some.inj e2
            omega
        obtain ⟨x, x1, x2, x3, x4⟩ := key
        rw [← x3, ← x1]
        exact groupPlies_eq _ tsizes pgs drops p pgs[p] rfl rfl hd (List.getElem?_eq_getElem hplt') (by rw [x1, x2])
          (by rw [x1]; exact x4)

/-! ### the layouts -/

theorem layouts_ok {B : BellaSetup V} {sched : List (List (List (Draw × Bool)) × Bool)} {pdls : List Table}
    (h : B.layouts sched = some (.ok pdls)) : ∃ sizes panels s,
      divideStrip B.O.S.c.sym B.nMax B.O.S.c.nCovering B.gmin B.gmax B.O.S.r.nPlies B.fuel = some (.ok (sizes, panels)) ∧
      B.stripData sizes panels = .ok s ∧ createInitialPdls s B.nIni B.lateAll sched = .ok (some pdls) := by
  unfold BellaSetup.layouts at h
  split at h
  · cases h
  · cases h
  · rename_i sizes panels e1
    split at h
    · cases h
    · rename_i s e2
      split at h
      · cases h
      · cases h
      · rename_i l e3
        split at h
        · cases h
        · cases h
        · have h := Except.ok.inj (Option.some.inj h)
          subst h
          exact ⟨_, _, s, e1, e2, e3⟩

/-- C64: the initial ply drop layouts are as many as asked for and fit the strip: each has one row per panel of the strip, all
rows with the number of plies of the thickest panel, the row of a panel keeps the number of plies of the panel; rows are
symmetric for symmetric laminates, and the covering plies are not dropped. -/
theorem C64_initial_layouts (a : ConsArgs) (B : BellaSetup V) (cs : Int → Nat → ℚ) (M : BellaCase a B cs)
    (hne : B.plies ≠ []) (sched : List (List (List (Draw × Bool)) × Bool)) (hv : PossibleDraws B sched) (pdls : List Table)
    (h : B.layouts sched = some (.ok pdls)) :
    pdls.length = B.nIni ∧ ∀ t ∈ pdls, t.length = B.O.S.r.nPlies.length ∧
      ∀ (p n : Nat), B.O.S.r.nPlies[p]? = some n → ∃ row, t[p]? = some row ∧ row.length = B.nMax ∧
        row.countP (fun x => x != -1) = n ∧ (B.O.S.c.sym = true → row.reverse = row) ∧
        ∀ (j : Nat), j < B.O.S.c.nCovering → row[j]? ≠ some (-1) ∧ row.reverse[j]? ≠ some (-1) := by
  obtain ⟨sizes, panels, s, e1, e2, e3⟩ := layouts_ok h
  obtain ⟨f1, f2⟩ := C42_initial_layouts_created _ _ _ _ _ e3
  obtain ⟨g1, g2, g3, g4, g5, g6, g7, g8⟩ := bella_strip M hne e1 e2
  obtain ⟨nRef, bs, bw, hr⟩ := M.reduced
  obtain ⟨_, hmem, _⟩ := C15_reduction _ _ _ _ _ _ hr
  obtain ⟨_, hmax, hle⟩ := bella_full M.toFileCase hne
  have hcov : B.O.S.c.nCovering ≤ 2 := by
    obtain ⟨p, _, hd, hcv, _, _, _, _, _, _, _, e⟩ := mkConstraints_inv a _ M.cons
    rw [e]
    dsimp only
    split <;> split <;> (try split) <;> omega
  refine ⟨f1, fun t ht => ?_⟩
  obtain ⟨x, hx, hcr⟩ := f2 t ht
  obtain ⟨v1, v2⟩ := hv _ _ s e1 e2 x hx
  by_cases hsym : B.O.S.c.sym = true
  · have hmid : s.hasMiddle = false := by
      rw [g3]
      unfold BellaSetup.hasMiddle
      rw [Bool.and_eq_false_iff]
      right
      rw [Bool.eq_false_iff]
      intro hany
      obtain ⟨n, hn, hodd⟩ := List.any_eq_true.1 hany
      have := M.even hsym n hn
      simp only [beq_iff_eq] at hodd
      omega
    obtain ⟨w1, w2⟩ := C42_initial_layout_symmetric s x.1 t (by rw [g4]; exact hsym) hmid (by rw [g5]; exact hcov) v1 g7 v2 hcr
    refine ⟨by rw [w1, g1], fun p n hp => ?_⟩
    have hplt := (List.getElem?_eq_some_iff.1 hp).1
    obtain ⟨row, r1, r2, r3, r4, r5⟩ := w2 p (by rw [g1]; exact hplt)
    have hnm : n ∈ B.plies := (hmem n).1 (List.mem_of_getElem? hp)
    have d1 := M.designed _ hmax
    have d2 := M.designed _ hnm
    have d3 := M.even hsym _ hmax
    have d4 := M.even hsym _ hnm
    have e8 := g8 p n hp
    rw [plyCount_length] at r4
    unfold Spec.pliesToDesign at g6 e8
    rw [if_pos hsym] at g6 e8
    refine ⟨row, r1, by omega, by omega, fun _ => r3, fun j hj => ⟨r5 j (by omega), by rw [r3]; exact r5 j (by omega)⟩⟩
  · obtain ⟨w1, w2⟩ := C42_initial_layout_asymmetric s x.1 t (by rw [g4]; simpa using hsym) (by rw [g5]; exact hcov) v1 g7 v2 hcr
    refine ⟨by rw [w1, g1], fun p n hp => ?_⟩
    have hplt := (List.getElem?_eq_some_iff.1 hp).1
    obtain ⟨row, r1, r2, r4, r5⟩ := w2 p (by rw [g1]; exact hplt)
    have hnm : n ∈ B.plies := (hmem n).1 (List.mem_of_getElem? hp)
    have d1 := M.designed _ hmax
    have d2 := M.designed _ hnm
    have e8 := g8 p n hp
    rw [plyCount_length] at r4
    unfold Spec.pliesToDesign at g6 e8
    rw [if_neg hsym] at g6 e8
    refine ⟨row, r1, by omega, by omega, fun hs => absurd hs hsym, fun j hj => ⟨(r5 j (by omega)).1, ?_⟩⟩
    rw [List.getElem?_reverse (by omega)]
    exact (r5 j (by omega)).2

/-- The layouts drawn are ones the optimisation with one layout can deal with. -/
theorem bella_one {a : ConsArgs} {B : BellaSetup V} {cs : Int → Nat → ℚ} (M : BellaCase a B cs) (hne : B.plies ≠ [])
    {sched : List (List (List (Draw × Bool)) × Bool)} (hv : PossibleDraws B sched) {pdls : List Table}
    (h : B.layouts sched = some (.ok pdls)) (t : Table) (ht : t ∈ pdls) :
    OneCase a (B.problem t) B.O cs B.plies B.nMax := by
  obtain ⟨_, k⟩ := C64_initial_layouts a B cs M hne sched hv pdls h
  obtain ⟨k1, k2⟩ := k t ht
  obtain ⟨p1, p2, p3⟩ := M.problem t
  have hrow : ∀ row ∈ t, ∃ (p n : Nat), B.O.S.r.nPlies[p]? = some n ∧ t[p]? = some row := by
    intro row hrow
    obtain ⟨p, hp, e⟩ := List.getElem_of_mem hrow
    exact ⟨p, _, List.getElem?_eq_getElem (by omega), by rw [List.getElem?_eq_getElem hp, e]⟩
  exact {
    cons := by rw [p2]; exact M.cons
    sameR := by rw [p2]; exact M.sameR
    sameS := p2.symm
    objBound := M.objBound t
    reduced := by rw [p2]; exact M.reduced
    parity := fun hs => by
      rw [p2] at hs
      exact M.parity hs
    noMinusOne := by rw [p2]; exact M.noMinusOne
    panels := p3
    rows := by rw [p1]; exact k1
    width := by
      rw [p1]
      intro row hr
      obtain ⟨p, n, e1, e2⟩ := hrow row hr
      obtain ⟨row', f1, f2, _⟩ := k2 p n e1
      rw [e2] at f1
      rw [Option.some.inj f1]; exact f2
    full := (bella_full M.toFileCase hne).1
    count := by
      rw [p1]
      intro p n row e1 e2
      obtain ⟨row', f1, _, f2, _⟩ := k2 p n e1
      rw [e2] at f1
      rw [Option.some.inj f1]; exact f2
    symm := by
      rw [p1, p2]
      intro hs row hr j
      obtain ⟨p, n, e1, e2⟩ := hrow row hr
      obtain ⟨row', f1, _, _, f2, _⟩ := k2 p n e1
      rw [e2] at f1
      rw [Option.some.inj f1, f2 hs]
    cov := by
      rw [p1, p2]
      intro _
      refine ⟨fun n hn => by have := M.designed n hn; omega, fun row hr j hj => ?_⟩
      obtain ⟨p, n, e1, e2⟩ := hrow row hr
      obtain ⟨row', f1, _, _, _, f2⟩ := k2 p n e1
      rw [e2] at f1
      rw [Option.some.inj f1]; exact f2 j hj
    repair := by rw [p2]; exact M.repair }

/-! ### the best design -/

theorem outerLoop_cons {one : Table → Option (Py (Option OneResult))} {t : Table} {pdls : List Table}
    {tab : List (Option OneResult)} (h : outerLoop one (t :: pdls) = some (.ok tab)) :
    ∃ x, one t = some (.ok x) ∧ ((∃ r, x = some r ∧ r.obj = 0 ∧ tab = some r :: pdls.map (fun _ => none)) ∨
      ((∀ r, x = some r → r.obj ≠ 0) ∧ ∃ l, outerLoop one pdls = some (.ok l) ∧ tab = x :: l)) := by
  unfold outerLoop at h
  cases h1 : one t with
  | none => rw [h1] at h; cases h
  | some y =>
    cases y with
    | error e => rw [h1] at h; cases h
    | ok x =>
      rw [h1] at h
      refine ⟨x, rfl, ?_⟩
      cases x with
      | none =>
        right
        refine ⟨fun r hr => (by cases hr), ?_⟩
        dsimp only at h
        cases h2 : outerLoop one pdls with
        | none => rw [h2] at h; cases h
        | some z =>
          cases z with
          | error e => rw [h2] at h; cases h
          | ok l =>
            rw [h2] at h
            exact ⟨l, rfl, (Except.ok.inj (Option.some.inj h)).symm⟩
      | some r =>
        dsimp only at h
        by_cases hr : r.obj = 0
        · rw [if_pos hr] at h
          exact Or.inl ⟨r, rfl, hr, (Except.ok.inj (Option.some.inj h)).symm⟩
        · rw [if_neg hr] at h
          right
          refine ⟨fun r' hr' => by cases hr'; exact hr, ?_⟩
          cases h2 : outerLoop one pdls with
          | none => rw [h2] at h; cases h
          | some z =>
            cases z with
            | error e => rw [h2] at h; cases h
            | ok l =>
              rw [h2] at h
              exact ⟨l, rfl, (Except.ok.inj (Option.some.inj h)).symm⟩

theorem outerLoop_all {one : Table → Option (Py (Option OneResult))} {pdls : List Table} {tab : List (Option OneResult)}
    (h : outerLoop one pdls = some (.ok tab)) (hall : ∀ x ∈ tab, x ≠ none) :
    List.Forall₂ (fun t x => one t = some (.ok x)) pdls tab := by
  induction pdls generalizing tab with
  | nil => have h := Except.ok.inj (Option.some.inj h); subst h; exact .nil
  | cons t pdls ih =>
    obtain ⟨x, h1, ⟨r, rfl, _, rfl⟩ | ⟨_, l, h2, rfl⟩⟩ := outerLoop_cons h
    · cases pdls with
      | nil => exact .cons h1 .nil
      | cons u us => exact absurd rfl (hall none (by simp))
    · exact .cons h1 (ih h2 (fun x hx => hall x (List.mem_cons_of_mem _ hx)))

/-- The entry returned by `np.argmin` is a design only if all the entries are. -/
theorem pickBest_some {tab : List (Option OneResult)} {res : OneResult} (h : pickBest tab = .ok (some res)) :
    (∀ x ∈ tab, x ≠ none) ∧ some res ∈ tab ∧ ∀ r, some r ∈ tab → res.obj ≤ r.obj := by
  unfold pickBest at h
  split at h
  · cases h
  · rename_i hlen
    rw [pyGet_eq_ok] at h
    have hall : ∀ x ∈ tab, x ≠ none := by
      intro x hx hn
      subst hn
      unfold argMinNan at h
      have hany : (tab.map (Option.map (fun (r : OneResult) => (r.obj, r)))).any (fun x => x.isNone) = true := by
        rw [List.any_eq_true]
        exact ⟨none, List.mem_map.2 ⟨none, hx, rfl⟩, rfl⟩
      rw [if_pos hany] at h
      have hlt := List.findIdx_lt_length_of_exists (p := fun (x : Option (ℚ × OneResult)) => x.isNone)
        (xs := tab.map (Option.map (fun (r : OneResult) => (r.obj, r)))) ⟨none, List.mem_map.2 ⟨none, hx, rfl⟩, rfl⟩
      have := List.findIdx_getElem (w := hlt)
      rw [List.getElem_map] at this
      have hlt' := hlt
      rw [List.length_map] at hlt'
      have h' := List.getElem?_eq_getElem hlt'
      rw [h] at h'
      rw [← Option.some.inj h'] at this
      cases this
    have hany : ¬ (tab.map (Option.map (fun (r : OneResult) => (r.obj, r)))).any (fun x => x.isNone) = true := by
      rw [List.any_eq_true]
      rintro ⟨x, hx, hn⟩
      obtain ⟨y, hy, rfl⟩ := List.mem_map.1 hx
      cases y with
      | none => exact hall _ hy rfl
      | some r => cases hn
    unfold argMinNan at h
    rw [if_neg hany, List.map_map] at h
    refine ⟨hall, List.mem_of_getElem? h, fun r hr => ?_⟩
    obtain ⟨m1, m2, _⟩ := argMin_spec (tab.map ((fun x => (x.map Prod.fst).getD 0) ∘
      (Option.map (fun (r : OneResult) => (r.obj, r))))) (by
        intro he
        apply hlen
        have := congrArg List.length he
        simpa using this)
    have hm := m2 r.obj (List.mem_map.2 ⟨some r, hr, rfl⟩)
    rw [List.getD_eq_getElem?_getD, List.getElem?_map, h] at hm
    exact hm

/-- C64: the design returned for a list of layouts is the design of one of them, with the smallest objective; it is only
returned if each of the layouts has given a design. -/
theorem C64_best (one : Table → Option (Py (Option OneResult))) (pdls : List Table) (res : OneResult)
    (h : bestDesign one pdls = some (.ok (some res))) :
    (∃ t ∈ pdls, one t = some (.ok (some res))) ∧
    ∀ t ∈ pdls, ∃ r, one t = some (.ok (some r)) ∧ res.obj ≤ r.obj := by
  unfold bestDesign at h
  split at h
  · cases h
  · cases h
  · rename_i tab e
    obtain ⟨h1, h2, h3⟩ := pickBest_some (Option.some.inj h)
    have hf := outerLoop_all e h1
    have hl := hf.length_eq
    have key : ∀ (i : Nat) (hi : i < pdls.length), one pdls[i] = some (.ok (tab[i]'(by omega))) := fun i hi => by
      have := List.Forall₂.get hf (i := i) hi (by omega)
      simpa only [List.get_eq_getElem] using this
    refine ⟨?_, fun t ht => ?_⟩
    · obtain ⟨i, hi, e⟩ := List.getElem_of_mem h2
      exact ⟨pdls[i]'(by omega), List.getElem_mem _, by rw [key i (by omega), e]⟩
    · obtain ⟨i, hi, rfl⟩ := List.getElem_of_mem ht
      have hm : tab[i]'(by omega) ∈ tab := List.getElem_mem _
      cases hx : tab[i]'(by omega) with
      | none => exact absurd hx (h1 _ hm)
      | some r => exact ⟨r, by rw [key i hi, hx], h3 r (hx ▸ hm)⟩

/-- C64: conversely a design is returned if each layout gives one and only the last one may have the objective zero. -/
theorem C64_returns (one : Table → Option (Py (Option OneResult))) (pdls : List Table) (hne : pdls ≠ [])
    (h : ∀ t ∈ pdls, ∃ r, one t = some (.ok (some r))) (h0 : ∀ t ∈ pdls.dropLast, ∀ r, one t = some (.ok (some r)) → r.obj ≠ 0) :
    ∃ res, bestDesign one pdls = some (.ok (some res)) := by
  have key : ∃ rs : List OneResult, outerLoop one pdls = some (.ok (rs.map some)) ∧ rs.length = pdls.length := by
    clear hne
    induction pdls with
    | nil => exact ⟨[], rfl, rfl⟩
    | cons t us ih =>
      obtain ⟨r, hr⟩ := h t List.mem_cons_self
      unfold outerLoop
      rw [hr]
      dsimp only
      cases us with
      | nil =>
        refine ⟨[r], ?_, rfl⟩
        split <;> rfl
      | cons u us =>
        obtain ⟨rs, e1, e2⟩ := ih (fun x hx => h x (List.mem_cons_of_mem _ hx))
          (fun x hx => h0 x (by rw [List.dropLast_cons_of_ne_nil (by simp)]; exact List.mem_cons_of_mem _ hx))
        rw [if_neg (h0 t (by simp) r hr), e1]
        exact ⟨r :: rs, rfl, by simp [e2]⟩
  obtain ⟨rs, e1, e2⟩ := key
  unfold bestDesign
  rw [e1]
  dsimp only
  have hrs : rs ≠ [] := by rintro rfl; exact hne (List.length_eq_zero_iff.1 e2.symm)
  have hlen : ¬ (rs.map some).length = 0 := by simpa using hrs
  unfold pickBest
  rw [if_neg hlen]
  have hany : ¬ ((rs.map some).map (Option.map (fun (r : OneResult) => (r.obj, r)))).any (fun x => x.isNone) = true := by
    simp
  unfold argMinNan
  rw [if_neg hany]
  obtain ⟨m1, _, _⟩ := argMin_spec (((rs.map some).map (Option.map (fun (r : OneResult) => (r.obj, r)))).map
    (fun x => (x.map Prod.fst).getD 0)) (by simpa using hrs)
  simp only [List.length_map] at m1
  refine ⟨rs.get ⟨_, m1⟩, ?_⟩
  congr 1
  rw [List.get_eq_getElem, pyGet_eq_ok, List.getElem?_map, List.getElem?_eq_getElem m1]
  rfl

/-- C64 (violated): if the optimisation raises an exception for one layout (C62: which happens when no repair succeeds), no
design is returned, whatever the designs of the other layouts. -/
theorem C64_exception_violation (one : Table → Option (Py (Option OneResult))) (pre : List Table) (t : Table)
    (rest : List Table) (e : Err) (h1 : ∀ u ∈ pre, ∃ r, one u = some (.ok (some r)) ∧ r.obj ≠ 0)
    (h2 : one t = some (.error e)) : bestDesign one (pre ++ t :: rest) = some (.error e) := by
  have key : outerLoop one (pre ++ t :: rest) = some (.error e) := by
    induction pre with
    | nil => rw [List.nil_append]; unfold outerLoop; rw [h2]
    | cons u pre ih =>
      obtain ⟨r, hr, hr0⟩ := h1 u List.mem_cons_self
      rw [List.cons_append]
      unfold outerLoop
      rw [hr]
      dsimp only
      rw [if_neg hr0, ih (fun x hx => h1 x (List.mem_cons_of_mem _ hx))]
  unfold bestDesign
  rw [key]

theorem bella_run {B : BellaSetup V} {sched : List (List (List (Draw × Bool)) × Bool)} {res : OneResult}
    (h : bellaOptimiser B sched = some (.ok (some res))) : ∃ pdls, B.layouts sched = some (.ok pdls) ∧
      (∃ t ∈ pdls, optimiserOnePdl (B.problem t) B.O B.save B.plies.length B.nMax = some (.ok (some res))) ∧
      ∀ t ∈ pdls, ∃ r, optimiserOnePdl (B.problem t) B.O B.save B.plies.length B.nMax = some (.ok (some r)) ∧
        res.obj ≤ r.obj := by
  unfold bellaOptimiser at h
  split at h
  · cases h
  · cases h
  · rename_i pdls e
    obtain ⟨h1, h2⟩ := C64_best _ _ _ h
    exact ⟨pdls, e, h1, h2⟩

/-- C64: the result of the optimisation, unless its objective is the value 1e10 of a failed repair: each panel has a row of the stacking sequence table and the laminate made of its plies, with
the number of plies of the panel, allowed plies only, symmetric for symmetric laminates; a panel is obtained from any panel
with at least as many plies by dropping plies; panels with the same number of plies have the same laminate. -/
theorem C64_design (a : ConsArgs) (B : BellaSetup V) (cs : Int → Nat → ℚ) (M : BellaCase a B cs) (hs : B.save = false)
    (hne : B.plies ≠ []) (sched : List (List (List (Draw × Bool)) × Bool)) (hv : PossibleDraws B sched) (res : OneResult)
    (h : bellaOptimiser B sched = some (.ok (some res))) (ho : res.obj ≠ failObj) :
    res.ss.length = B.plies.length ∧ res.sst.length = B.plies.length ∧
    (∀ (i n : Nat), B.plies[i]? = some n → ∃ row s : Stack, res.sst[i]? = some row ∧ res.ss[i]? = some s ∧
      s = row.filter (fun x => x != -1) ∧ s.length = n ∧ (∀ x ∈ s, x ∈ B.O.S.c.angles) ∧
      (B.O.S.c.sym = true → Spec.Symmetric s)) ∧
    ∀ (i k n m : Nat) (row up s t : Stack), B.plies[i]? = some n → B.plies[k]? = some m → n ≤ m → res.sst[i]? = some row →
      res.sst[k]? = some up → res.ss[i]? = some s → res.ss[k]? = some t →
      (∀ (j : Nat), row[j]? = up[j]? ∨ row[j]? = some (-1)) ∧ s.Sublist t ∧ (n = m → row = up ∧ s = t) := by
  obtain ⟨pdls, e, ⟨t, ht, h1⟩, _⟩ := bella_run h
  rw [hs] at h1
  obtain ⟨k1, k2, k3, k4⟩ := C62_laminates a _ _ cs _ _ (bella_one M hne hv e t ht) res h1 ho
  rw [(M.problem t).2.1] at k3
  refine ⟨k1, k2, fun i n hi => ?_, k4⟩
  obtain ⟨row, s, q1, q2, _, q3⟩ := k3 i n hi
  exact ⟨row, s, q1, q2, q3⟩

/-- C64: the objective of the design returned is the smallest one over all the designs evaluated: one for each node left by the
search, for each of the initial layouts. -/
theorem C64_minimal (B : BellaSetup V) (hs : B.save = false) (sched : List (List (List (Draw × Bool)) × Bool))
    (res : OneResult) (h : bellaOptimiser B sched = some (.ok (some res))) :
    ∃ pdls, B.layouts sched = some (.ok pdls) ∧ (∃ t ∈ pdls, ∃ (tabs : Tabs V) (x : List Stack × List Stack) (d : Design),
      beamSearch (B.problem t) = .ok tabs ∧ x ∈ tabs.bots.zip tabs.tops ∧
      repairNode B.O (B.problem t).pdl B.nMax x.1 x.2 = some (.ok d) ∧ d.obj = res.obj) ∧
    ∀ t ∈ pdls, ∃ tabs : Tabs V, beamSearch (B.problem t) = .ok tabs ∧ ∀ x ∈ tabs.bots.zip tabs.tops,
      ∃ d : Design, repairNode B.O (B.problem t).pdl B.nMax x.1 x.2 = some (.ok d) ∧ res.obj ≤ d.obj := by
  obtain ⟨pdls, e, ⟨t, ht, h1⟩, h2⟩ := bella_run h
  rw [hs] at h1
  refine ⟨pdls, e, ⟨t, ht, ?_⟩, fun u hu => ?_⟩
  · obtain ⟨tabs, ds, k1, k2, ⟨d, hd, k3⟩, _⟩ := C62_minimal _ _ _ _ _ h1
    obtain ⟨i, hi, rfl⟩ := List.getElem_of_mem hd
    have hl := k2.length_eq
    have k4 := List.Forall₂.get k2 (i := i) (by omega) hi
    simp only [List.get_eq_getElem] at k4
    exact ⟨tabs, _, _, k1, List.getElem_mem _, k4, k3⟩
  · obtain ⟨r, h3, h4⟩ := h2 u hu
    rw [hs] at h3
    obtain ⟨tabs, ds, k1, k2, _, k3⟩ := C62_minimal _ _ _ _ _ h3
    refine ⟨tabs, k1, fun x hx => ?_⟩
    obtain ⟨i, hi, rfl⟩ := List.getElem_of_mem hx
    have hl := k2.length_eq
    have k4 := List.Forall₂.get k2 (i := i) hi (by omega)
    simp only [List.get_eq_getElem] at k4
    exact ⟨_, k4, h4.trans (k3 _ (List.getElem_mem _))⟩

/-- C64: the lay-up rules met by the design returned.  A panel with as many plies as the reference panel meets all the rules that
are switched on (the disorientation rule only without damage tolerance rule 1: it is not tested otherwise). -/
theorem C64_reference_rules (a : ConsArgs) (B : BellaSetup V) (cs : Int → Nat → ℚ) (M : BellaCase a B cs) (hs : B.save = false)
    (hne : B.plies ≠ []) (sched : List (List (List (Draw × Bool)) × Bool)) (hv : PossibleDraws B sched) (res : OneResult)
    (h : bellaOptimiser B sched = some (.ok (some res))) (ho : res.obj ≠ failObj)
    (i n : Nat) (hi : B.plies[i]? = some n) (hn : B.O.S.r.nPlies[B.O.S.r.indRef]? = some n) :
    ∃ s, res.ss[i]? = some s ∧
      (B.O.S.c.damTol = true → (B.O.S.c.damTolAttr = .rule 1 ∧ Spec.DamTol1 s) ∨
        (B.O.S.c.damTolAttr = .rule 2 ∧ Spec.DamTol2 s) ∨ (B.O.S.c.damTolAttr = .rule 3 ∧ Spec.DamTol3 s)) ∧
      (B.O.S.c.bal = true → Spec.Balanced s) ∧
      (B.O.S.c.diso = true → ¬ (B.O.S.c.damTol = true ∧ B.O.S.c.damTolAttr = .rule 1) → Spec.PairsWithin B.O.S.c.deltaAngle s (if B.O.S.c.damTol then 1 else 0)
        (if B.O.S.c.damTol then s.length - 2 else s.length)) ∧
      (B.O.S.c.contig = true → Spec.ContigOK B.O.S.c.nContig s) ∧
      (B.O.S.c.rule10 = true → Spec.MeetsShares B.O.S.c.shares (1 / 10 ^ 15) (s.count 0) (s.count 90)
        (s.count 45) (s.count (-45)) s.length) ∧
      (B.O.S.c.rule10 = true → B.O.S.c.rule10Abdalla = true → B.O.R.dist (Spec.inPlane cs s.length s) ≤ 1 / 10 ^ 10) := by
  obtain ⟨pdls, e, ⟨t, ht, h1⟩, _⟩ := bella_run h
  rw [hs] at h1
  have k := C62_reference_rules a _ _ cs _ _ (bella_one M hne hv e t ht)
  rw [(M.problem t).2.1] at k
  exact k res h1 ho i n hi hn

/-- C64: the other panels keep the covering plies of the reference panel, meet the contiguity rule and the 10% rule in its
lamination parameter variant, and the disorientation rule if they are thicker than the reference panel; with the balance rule
they are balanced up to one ply, on each side of the mid-plane for symmetric laminates. -/
theorem C64_other_rules (a : ConsArgs) (B : BellaSetup V) (cs : Int → Nat → ℚ) (M : BellaCase a B cs) (hs : B.save = false)
    (hne : B.plies ≠ []) (sched : List (List (List (Draw × Bool)) × Bool)) (hv : PossibleDraws B sched) (res : OneResult)
    (h : bellaOptimiser B sched = some (.ok (some res))) (ho : res.obj ≠ failObj)
    (i k n m : Nat) (hi : B.plies[i]? = some n) (hk : B.plies[k]? = some m)
    (hm : B.O.S.r.nPlies[B.O.S.r.indRef]? = some m) (hnm : n ≠ m) :
    ∃ s ref : Stack, res.ss[i]? = some s ∧ res.ss[k]? = some ref ∧
      (B.O.S.c.covering = true → s.take B.O.S.c.nCovering = ref.take B.O.S.c.nCovering ∧
        s.reverse.take B.O.S.c.nCovering = ref.reverse.take B.O.S.c.nCovering) ∧
      (B.O.S.c.contig = true → Spec.ContigOK B.O.S.c.nContig
        (if B.O.S.c.damTol = true ∧ B.O.S.c.damTolAttr.twoPlies = true then (s.drop 1).dropLast else s)) ∧
      (m < n → B.O.S.c.diso = true → Spec.DisoOK B.O.S.c.deltaAngle
        (if B.O.S.c.damTol = true ∧ B.O.S.c.damTolAttr.twoPlies = true then (s.drop 1).dropLast else s)) ∧
      (B.O.S.c.rule10 = true → B.O.S.c.rule10Abdalla = true → B.O.S.dist (B.O.S.lampam s) = 0) ∧
      (B.O.S.c.bal = true → Spec.Balanced s ∨ ∃ b : Int, ∀ x : Int, x ≠ 0 → x ≠ 90 → x ≠ -90 →
        (s.count x : Int) - s.count (-x) = (if n < m then -1 else 1) *
          ((if B.O.S.c.sym then 2 else 1) * ((if x = b then 1 else 0) - (if x = -b then 1 else 0)))) := by
  obtain ⟨pdls, e, ⟨t, ht, h1⟩, _⟩ := bella_run h
  rw [hs] at h1
  have hc := (M.problem t).2.1
  have k1 := C62_other_rules a _ _ cs _ _ (bella_one M hne hv e t ht) res h1 ho i k n m hi hk hm hnm
  have k2 := C62_balance a _ _ cs _ _ (bella_one M hne hv e t ht) res h1 ho
  rw [hc] at k1 k2
  obtain ⟨s, ref, q1, q2, q3, q4, q5, q6⟩ := k1
  refine ⟨s, ref, q1, q2, q3, q4, q5, q6, fun hb => ?_⟩
  obtain ⟨s', u1, u2⟩ := k2 hb i n m hi hm
  rw [q1] at u1
  cases u1
  exact u2.imp_right (fun ⟨_, b, v⟩ => ⟨b, v⟩)

end Bella
