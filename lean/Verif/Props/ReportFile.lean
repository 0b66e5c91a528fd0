import Verif.Props.Report
import Verif.Props.PdlGlobal
/-
C73: runs that start from ply drop layouts given in a file.
-/
namespace Spec

/-- A layout that respects the constraints: for symmetric laminates the plies are dropped in mirrored pairs, and none of the `cov`
plies next to each surface is dropped. -/
def SoundLayout (sym : Bool) (cov : Nat) (t : Bella.Table) : Prop :=
  ∀ row ∈ t, (sym = true → ∀ (j : Nat), row[j]? = some (-1) ↔ row.reverse[j]? = some (-1)) ∧
    ∀ (j : Nat), j < cov → row[j]? ≠ some (-1) ∧ row.reverse[j]? ≠ some (-1)

end Spec

namespace Bella

open Spec

section
variable {V : Type} [Zero V] [Add V]

/-- **C73.** The layouts of a file are used as they are; they are refused unless each has one row for each number of plies of the
structure, in increasing order, with that many plies. -/
theorem C73_checked (B : BellaSetup V) (pdls : List Table) (sched : List (List (List (Draw × Bool)) × Bool)) :
    (∀ used, B.layoutsFrom (some pdls) sched = some (.ok used) → used = pdls) ∧
    ((∃ t ∈ pdls, ¬ (t.length = B.O.S.r.nPlies.length ∧ ∀ (p : Nat) (row : Stack), t[p]? = some row →
        B.O.S.r.nPlies[p]? = some (row.countP (fun (x : Int) => x != -1)))) →
      ∀ targets, ∃ e, bellaRun B targets (some pdls) sched = some (.error e)) := by
  constructor
  · intro used h
    unfold BellaSetup.layoutsFrom at h
    dsimp only at h
    split at h
    · cases h
    · split at h
      · cases h
      · cases h
      · exact (Except.ok.inj (Option.some.inj h)).symm
  · rintro ⟨t, ht, hbad⟩ targets
    unfold bellaRun BellaSetup.layoutsFrom
    dsimp only
    cases hc : checkPdlsIni B.O.S.r.nPlies pdls with
    | error e => exact ⟨e, rfl⟩
    | ok u =>
      exfalso
      have := (C52_check_iff _ _).1 hc t ht
      refine hbad ⟨this.1, fun p row hp => ?_⟩
      rw [this.2 p row hp]
      simp [Spec.plyCount]

/-- **C73.** A run from a file that ends has tables of the right width, one column for each ply of the thickest panel. -/
theorem C73_width (a : ConsArgs) (B : BellaSetup V) (cs : Int → Nat → ℚ) (M : FileCase a B cs) (targets : List (List ℚ))
    (pdls : List Table) (sched : List (List (List (Draw × Bool)) × Bool)) (out : BellaOutput)
    (h : bellaRun B targets (some pdls) sched = some (.ok out)) : ∀ t ∈ pdls, t.length = B.O.S.r.nPlies.length ∧
      (∀ row ∈ t, row.length = B.nMax) ∧ ∀ (p : Nat) (row : Stack), t[p]? = some row →
        B.O.S.r.nPlies[p]? = some (row.countP (fun (x : Int) => x != -1)) := by
  obtain ⟨used, tab, pdls', e0, R⟩ := bellaRun_ok h
  have hu := (C73_checked B pdls sched).1 used e0
  subst hu
  intro t ht
  have hck : t.length = B.O.S.r.nPlies.length ∧ ∀ (p : Nat) (row : Stack), t[p]? = some row →
        B.O.S.r.nPlies[p]? = some (row.countP (fun (x : Int) => x != -1)) := by
    by_contra hbad
    obtain ⟨e, he⟩ := (C73_checked B used sched).2 ⟨t, ht, hbad⟩ targets
    rw [h] at he
    cases he
  refine ⟨hck.1, fun row hrow => ?_, hck.2⟩
  obtain ⟨nRef, bs, bw, hr⟩ := M.reduced
  obtain ⟨g1, g2, -, -, g4⟩ := C15_reduction _ _ _ _ _ _ hr
  obtain ⟨p, hp, e⟩ := List.getElem_of_mem hrow
  have hp' : p < B.O.S.r.nPlies.length := by rw [← hck.1]; exact hp
  obtain ⟨j, hj, e'⟩ := List.getElem_of_mem ((g2 _).1 (List.getElem_mem hp'))
  obtain ⟨i, k1, k2⟩ := g4 j _ (by rw [List.getElem?_eq_getElem hj, e'])
  have hi := (List.getElem?_eq_some_iff.1 k2).1
  have hip : i = p := by
    have hnd : B.O.S.r.nPlies.Nodup := g1.imp (fun h => ne_of_lt h)
    exact (List.Nodup.getElem_inj_iff hnd).1 (by rw [(List.getElem?_eq_some_iff.1 k2).2])
  subst hip
  obtain ⟨m, hm, e2⟩ := List.getElem_of_mem ht
  obtain ⟨t', f1, f2⟩ := mapM_at R.extended (i := m) (x := t) (by rw [List.getElem?_eq_getElem hm, e2])
  unfold extendData at f2
  obtain ⟨r', f3, f4⟩ := mapM_at f2 (i := j) (x := j) (by rw [List.getElem?_range hj])
  obtain ⟨i', f5, f6⟩ := bind_ok.1 f4
  rw [pyGet_eq_ok] at f5 f6
  rw [k1] at f5
  cases f5
  rw [List.getElem?_eq_getElem hp, e] at f6
  cases f6
  have hw := R.width
  unfold requireWidth at hw
  split at hw
  · rename_i hall
    have h1 := List.all_eq_true.1 hall t' (List.mem_of_getElem? f1)
    have h2 := List.all_eq_true.1 h1 row (List.mem_of_getElem? f3)
    simpa using h2
  · cases hw

end

section
variable {W : Type} [AddCommMonoid W]

theorem file_cases (a : ConsArgs) (B : BellaSetup W) (cs : Int → Nat → ℚ) (M : FileCase a B cs)
    (hne : B.plies ≠ []) (targets : List (List ℚ)) (pdls : List Table)
    (sched : List (List (List (Draw × Bool)) × Bool)) (hL : ∀ t ∈ pdls, Spec.SoundLayout B.O.S.c.sym B.O.S.c.nCovering t)
    (out : BellaOutput) (h : bellaRun B targets (some pdls) sched = some (.ok out)) : AllCases a B cs (some pdls) sched := by
  intro used e0 t ht
  have hu := (C73_checked B pdls sched).1 used e0
  subst hu
  obtain ⟨k1, k2, k3⟩ := C73_width a B cs M targets used sched out h t ht
  have hs := hL t ht
  obtain ⟨p1, p2, p3⟩ := M.problem t
  exact {
    cons := by rw [p2]; exact M.cons
    sameR := by rw [p2]; exact M.sameR
    sameS := p2.symm
    objBound := M.objBound t
    reduced := by rw [p2]; exact M.reduced
    parity := fun hs => by
      rw [p2] at hs
      exact M.parity hs
    noMinusOne := by rw [p2]; exact M.noMinusOne
    panels := p3
    rows := by rw [p1]; exact k1
    width := by rw [p1]; exact k2
    full := (bella_full M hne).1
    count := by
      rw [p1]
      intro p n row e1 e2
      have := k3 p row e2
      rw [e1] at this
      exact (Option.some.inj this).symm
    symm := by
      rw [p1, p2]
      exact fun hsym row hr => (hs row hr).1 hsym
    cov := by
      rw [p1, p2]
      intro _
      exact ⟨fun n hn => by have := M.designed n hn; omega, fun row hr j hj => (hs row hr).2 j hj⟩
    repair := by rw [p2]; exact M.repair }

/-- **C73.** The design returned by a run from a file of sound layouts, unless its objective is the value 1e10 of a failed repair: each
panel has a row of the stacking sequence table and the laminate made of its plies, with the number of plies of the panel, allowed
plies only, symmetric for symmetric laminates; a panel is obtained from any panel with at least as many plies by dropping plies; panels
with the same number of plies have the same laminate. -/
theorem C73_design (a : ConsArgs) (B : BellaSetup W) (cs : Int → Nat → ℚ) (M : FileCase a B cs) (hs : B.save = false)
    (hne : B.plies ≠ []) (targets : List (List ℚ)) (pdls : List Table) (sched : List (List (List (Draw × Bool)) × Bool))
    (hL : ∀ t ∈ pdls, Spec.SoundLayout B.O.S.c.sym B.O.S.c.nCovering t) (out : BellaOutput)
    (h : bellaRun B targets (some pdls) sched = some (.ok out)) (res : OneResult) (hres : out.design = some res)
    (ho : res.obj ≠ failObj) :
    res.ss.length = B.plies.length ∧ res.sst.length = B.plies.length ∧
    (∀ (i n : Nat), B.plies[i]? = some n → ∃ row s : Stack, res.sst[i]? = some row ∧ res.ss[i]? = some s ∧ row.length = B.nMax ∧
      s = row.filter (fun x => x != -1) ∧ s.length = n ∧ (∀ x ∈ s, x ∈ B.O.S.c.angles) ∧
      (B.O.S.c.sym = true → Spec.Symmetric s)) ∧
    ∀ (i k n m : Nat) (row up s t : Stack), B.plies[i]? = some n → B.plies[k]? = some m → n ≤ m → res.sst[i]? = some row →
      res.sst[k]? = some up → res.ss[i]? = some s → res.ss[k]? = some t →
      (∀ (j : Nat), row[j]? = up[j]? ∨ row[j]? = some (-1)) ∧ s.Sublist t ∧ (n = m → row = up ∧ s = t) := by
  have hN := file_cases a B cs M hne targets pdls sched hL out h
  obtain ⟨used, tab, pdls', e0, R⟩ := bellaRun_ok h
  obtain ⟨t, ht, k0⟩ := R.found hres
  rw [hs] at k0
  obtain ⟨k1, k2, k3, k4⟩ := C62_laminates a _ _ cs _ _ (hN _ e0 t ht) res k0 ho
  rw [(M.problem t).2.1] at k3
  exact ⟨k1, k2, k3, k4⟩

/-- **C73.** The objective of the design returned by a run from a file is the smallest one over all the designs evaluated: one for each
node left by the search, for each layout of the file. -/
theorem C73_minimal (B : BellaSetup W) (hs : B.save = false) (targets : List (List ℚ)) (pdls : List Table)
    (sched : List (List (List (Draw × Bool)) × Bool)) (out : BellaOutput)
    (h : bellaRun B targets (some pdls) sched = some (.ok out)) (res : OneResult) (hres : out.design = some res) :
    (∃ t ∈ pdls, ∃ (tabs : Tabs W) (x : List Stack × List Stack) (d : Design),
      beamSearch (B.problem t) = .ok tabs ∧ x ∈ tabs.bots.zip tabs.tops ∧
      repairNode B.O (B.problem t).pdl B.nMax x.1 x.2 = some (.ok d) ∧ d.obj = res.obj) ∧
    ∀ t ∈ pdls, ∃ tabs : Tabs W, beamSearch (B.problem t) = .ok tabs ∧ ∀ x ∈ tabs.bots.zip tabs.tops,
      ∃ d : Design, repairNode B.O (B.problem t).pdl B.nMax x.1 x.2 = some (.ok d) ∧ res.obj ≤ d.obj := by
  obtain ⟨used, tab, pdls', e0, R⟩ := bellaRun_ok h
  have hu := (C73_checked B pdls sched).1 used e0
  subst hu
  have hb := R.best
  rw [hres] at hb
  obtain ⟨n1, n2, n3⟩ := pickBest_some hb
  have hall := outerLoop_all R.loop n1
  obtain ⟨t, ht, h1⟩ := R.found hres
  rw [hs] at h1
  refine ⟨⟨t, ht, ?_⟩, fun u hu => ?_⟩
  · obtain ⟨tabs, ds, k1, k2, ⟨d, hd, k3⟩, _⟩ := C62_minimal _ _ _ _ _ h1
    obtain ⟨i, hi, rfl⟩ := List.getElem_of_mem hd
    have hl := k2.length_eq
    have k4 := List.Forall₂.get k2 (i := i) (by omega) hi
    simp only [List.get_eq_getElem] at k4
    exact ⟨tabs, _, _, k1, List.getElem_mem _, k4, k3⟩
  · obtain ⟨y, hy, h3⟩ := forall₂_mem_left hall hu
    cases y with
    | none => exact absurd rfl (n1 none hy)
    | some r =>
      have h4 := n3 r hy
      rw [hs] at h3
      obtain ⟨tabs, ds, k1, k2, _, k3⟩ := C62_minimal _ _ _ _ _ h3
      refine ⟨tabs, k1, fun x hx => ?_⟩
      obtain ⟨i, hi, rfl⟩ := List.getElem_of_mem hx
      have hl := k2.length_eq
      have hi' : i < ds.length := by omega
      have k4 := List.Forall₂.get k2 (i := i) hi hi'
      simp only [List.get_eq_getElem] at k4
      exact ⟨_, k4, le_trans h4 (k3 _ (List.getElem_mem hi'))⟩

/-- **C73.** The tables of a run from a file of sound layouts: the numbers of plies, violations and penalties are those of the laminates. -/
theorem C73_tables (a : ConsArgs) (B : BellaSetup W) (cs : Int → Nat → ℚ) (M : FileCase a B cs) (hs : B.save = false)
    (hne : B.plies ≠ []) (hT : B.O.S.targets.length = B.O.S.r.nPlies.length) (targets : List (List ℚ)) (pdls : List Table)
    (sched : List (List (List (Draw × Bool)) × Bool)) (hL : ∀ t ∈ pdls, Spec.SoundLayout B.O.S.c.sym B.O.S.c.nCovering t)
    (out : BellaOutput) (h : bellaRun B targets (some pdls) sched = some (.ok out)) (res : OneResult) (hres : out.design = some res)
    (ho : res.obj ≠ failObj) (rep : Report) (hrep : rep = out.best ∨ rep ∈ out.sheets) (i : Nat) (r : ReportRow)
    (hr : rep.rows[i]? = some r) :
    (r.counts.length = B.O.S.c.angles.length ∧
      (∀ (j : Nat) (x : Int), B.O.S.c.angles[j]? = some x → r.counts[j]? = some (r.ss.count x)) ∧
      r.counts.sum = r.nPlies ∧ r.ss.length = r.nPlies) ∧
    res.nDiso[i]? = some r.nDiso ∧ res.nContig[i]? = some r.nContig ∧ res.penDiso[i]? = some r.penDiso ∧
    res.penContig[i]? = some r.penContig ∧ res.pen10[i]? = some r.pen10 ∧ res.lampams[i]? = some r.lampam ∧
    r.penIpo = (if B.O.S.c.bal then r.ipo / 2 else 0) ∧ r.penOopo = (if B.O.S.c.oopo then r.oopo / 2 else 0) := by
  have hN := file_cases a B cs M hne targets pdls sched hL out h
  exact ⟨run_counts a B cs M hs hne targets _ sched hN out h res hres ho rep hrep i r hr,
    run_penalties a B cs M hs hne hT targets _ sched hN out h res hres ho rep hrep i r hr⟩

/-- **C73 (violation).** "Each layout of a file is tried once, with one table": the last one is tried twice and has two tables, which are
the same. -/
theorem C73_last_twice_violation (B : BellaSetup W) (targets : List (List ℚ)) (sheet : Nat → Option Table) (tables : List Table)
    (hne : tables ≠ []) (hs : ∀ k, k < tables.length → sheet (k + 1) = tables[k]?)
    (hend : sheet (tables.length + 1) = none) (fuel : Nat) (hfuel : tables.length < fuel) (pdls : List Table)
    (hread : readPdls sheet fuel 1 none [] = .ok pdls) (sched : List (List (List (Draw × Bool)) × Bool))
    (out : BellaOutput) (h : bellaRun B targets (some pdls) sched = some (.ok out)) (res : OneResult) (hres : out.design = some res) :
    out.sheets.length = tables.length + 1 ∧ out.sheets[tables.length]? = out.sheets[tables.length - 1]? := by
  have hr := C52_read_duplicates_last_violation sheet tables hne hs hend fuel hfuel
  rw [hread] at hr
  have hr := Except.ok.inj hr
  obtain ⟨used, tab, pdls', e0, R⟩ := bellaRun_ok h
  have hu := (C73_checked B pdls sched).1 used e0
  subst hu
  have hb := R.best
  rw [hres] at hb
  obtain ⟨n1, n2, n3⟩ := pickBest_some hb
  have hall := outerLoop_all R.loop n1
  have hlen : used.length = tables.length + 1 := by rw [hr]; simp
  have hpos : 0 < tables.length := List.length_pos_iff.2 hne
  have hsl := R.sheetsLen
  refine ⟨by rw [hsl, hlen], ?_⟩
  have hsame : used[tables.length]? = used[tables.length - 1]? := by
    rw [hr, List.getElem?_append_right (le_refl _), List.getElem?_append_left (by omega), Nat.sub_self,
      ← List.getLast?_eq_getElem?, List.getLast?_eq_some_getLast hne]
    rfl
  have hl := R.len
  have hk : ∀ k, k < used.length → ∃ t x rep pd, used[k]? = some t ∧ tab[k]? = some x ∧ pdls'[k]? = some pd ∧
      optimiserOnePdl (B.problem t) B.O B.save B.plies.length B.nMax = some (.ok x) ∧ extendData B.O.S.r B.plies.length t = .ok pd ∧
      out.sheets[k]? = some rep ∧ reportOne B.O.S.c B.O.S.lampam B.O.S.dist B.plies targets (entryDesign B.plies B.nMax out.design).1
      (entryDesign B.plies B.nMax out.design).2 x pd = .ok rep := by
    intro k hk
    have hkt : k < tab.length := by omega
    have h1 := List.Forall₂.get hall (i := k) hk hkt
    simp only [List.get_eq_getElem] at h1
    have hks : k < out.sheets.length := by omega
    obtain ⟨x, pd, k1, k2, k3⟩ := R.sheets k _ (List.getElem?_eq_getElem hks)
    obtain ⟨pd', k4, k5⟩ := mapM_at R.extended (List.getElem?_eq_getElem hk)
    rw [k2] at k4
    cases k4
    rw [List.getElem?_eq_getElem hkt] at k1
    cases k1
    exact ⟨used[k], tab[k], out.sheets[k], pd, List.getElem?_eq_getElem hk, List.getElem?_eq_getElem hkt, k2, h1, k5,
      List.getElem?_eq_getElem hks, k3⟩
  obtain ⟨t, x, rep, pd, a1, a2, a3, a4, a5, a6, a7⟩ := hk tables.length (by omega)
  obtain ⟨t', x', rep', pd', b1, b2, b3, b4, b5, b6, b7⟩ := hk (tables.length - 1) (by omega)
  rw [a1, b1] at hsame
  cases hsame
  rw [a4] at b4
  cases b4
  rw [a5] at b5
  cases b5
  rw [a7] at b7
  cases b7
  rw [a6, b6]

end

end Bella
