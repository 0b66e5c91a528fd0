import Verif.Model.Report
import Verif.Props.Optimiser
import Verif.Props.Boundaries
/-
C72: what a complete run of BELLA returns and writes.
-/
namespace Bella

open Spec

/-- What a row of a table holds. -/
structure RowOf (c : Cons) (lampamOf : Stack → List ℚ) (plies : List Nat) (targets : List (List ℚ)) (ss : List Stack) (sst : Table)
    (entry : Option OneResult) (pdl : Table) (penDiso penContig pen10 : List ℚ) (i : Nat) (r : ReportRow) : Prop where
  index : r.index = i + 1
  nPlies : plies[i]? = some r.nPlies
  ss : ss[i]? = some r.ss
  sst : sst[i]? = some r.sst
  layout : pdl[i]? = some r.layout
  lampam : r.lampam = lampamOf r.ss
  errors : ∃ t, targets[i]? = some t ∧ r.errors.length = 12 ∧ ∀ (k : Nat), k < 12 → ∃ x y, t[k]? = some x ∧ r.lampam[k]? = some y ∧
    r.errors[k]? = some |x - y|
  objNo : ∀ e, entry = some e → r.objNo = e.objsNo[i]?
  objNo' : entry = none → r.objNo = none
  nDiso : calcNPenaltyDisoSs r.ss c.deltaAngle c.damTol c.damTolAttr = .ok r.nDiso
  nContig : calcPenaltyContigSs r.ss c.nContig c.damTol c.damTolAttr = .ok r.nContig
  penDiso : penDiso[i]? = some r.penDiso
  penContig : penContig[i]? = some r.penContig
  pen10 : pen10[i]? = some r.pen10
  penIpo : reportOrtho c.ipo 2 r.lampam = .ok r.penIpo
  penOopo : reportOrtho c.oopo 10 r.lampam = .ok r.penOopo
  ipo : ∃ x y, r.lampam[2]? = some x ∧ r.lampam[3]? = some y ∧ r.ipo = |x| + |y|
  oopo : ∃ x y, r.lampam[10]? = some x ∧ r.lampam[11]? = some y ∧ r.oopo = |x| + |y|
  counts : r.counts = c.angles.map (fun (x : Int) => r.sst.count x)
  size : r.sst.length ≠ 0
  share0 : r.share0 = r.sst.count 0 / r.sst.length
  share90 : r.share90 = r.sst.count 90 / r.sst.length
  share45 : r.share45 = r.sst.count 45 / r.sst.length
  share135 : r.share135 = r.sst.count (-45) / r.sst.length
  shareBoth : r.shareBoth = (r.sst.count 45 + r.sst.count (-45)) / r.sst.length

theorem rowShare_ok {row : Stack} {k : Nat} {q : ℚ} (h : rowShare row k = .ok q) :
    row.length ≠ 0 ∧ q = (k : ℚ) / row.length := by
  unfold rowShare at h
  by_cases hl : row.length = 0
  · rw [if_pos hl] at h; cases h
  · rw [if_neg hl] at h
    exact ⟨hl, (Except.ok.inj h).symm⟩

theorem reportOne_ok {c : Cons} {lampamOf : Stack → List ℚ} {dist : List ℚ → ℚ} {plies : List Nat} {targets : List (List ℚ)}
    {ss : List Stack} {sst : Table} {entry : Option OneResult} {pdl : Table} {rep : Report}
    (h : reportOne c lampamOf dist plies targets ss sst entry pdl = .ok rep) :
    ∃ nDiso penDiso nContig penContig pen10, calcNumberViolationsDisoMp ss c.deltaAngle c.damTol c.damTolAttr = .ok nDiso ∧
      normPenalty c.diso nDiso plies = .ok penDiso ∧
      calcPenaltyContigMp ss c.nContig c.damTol c.damTolAttr = .ok nContig ∧ normPenalty c.contig nContig plies = .ok penContig ∧
      reportPenalty10 c dist (ss.map lampamOf) ss = .ok pen10 ∧
      rep.obj = entry.map (fun (r : OneResult) => r.obj) ∧ rep.spacing = entry.map (fun (r : OneResult) => r.penSpacing) ∧
      rep.rows.length = plies.length ∧
      ∀ (i : Nat) (r : ReportRow), rep.rows[i]? = some r →
        RowOf c lampamOf plies targets ss sst entry pdl penDiso penContig pen10 i r := by
  unfold reportOne at h
  obtain ⟨nDiso, h1, h⟩ := bind_ok.1 h
  obtain ⟨penDiso, h2, h⟩ := bind_ok.1 h
  obtain ⟨nContig, h3, h⟩ := bind_ok.1 h
  obtain ⟨penContig, h4, h⟩ := bind_ok.1 h
  dsimp only at h
  obtain ⟨pen10, h5, h⟩ := bind_ok.1 h
  obtain ⟨penIpo, h6, h⟩ := bind_ok.1 h
  obtain ⟨penOopo, h7, h⟩ := bind_ok.1 h
  obtain ⟨rows, h8, h⟩ := bind_ok.1 h
  have h := Except.ok.inj h
  subst h
  refine ⟨nDiso, penDiso, nContig, penContig, pen10, h1, h2, h3, h4, h5, rfl, rfl, ?_, ?_⟩
  · rw [mapM_len h8, List.length_range]
  · intro i r hr
    have hi : i < plies.length := by
      have := (List.getElem?_eq_some_iff.1 hr).1
      rw [mapM_len h8, List.length_range] at this
      exact this
    obtain ⟨r', e1, e⟩ := mapM_at h8 (i := i) (x := i) (by rw [List.getElem?_range hi])
    simp only at hr
    rw [hr] at e1
    cases e1
    obtain ⟨n, f1, e⟩ := bind_ok.1 e
    obtain ⟨objNo, f2, e⟩ := bind_ok.1 e
    obtain ⟨nd, f3, e⟩ := bind_ok.1 e
    obtain ⟨nc, f4, e⟩ := bind_ok.1 e
    obtain ⟨l, f5, e⟩ := bind_ok.1 e
    obtain ⟨l3, f6, e⟩ := bind_ok.1 e
    obtain ⟨l4, f7, e⟩ := bind_ok.1 e
    obtain ⟨l11, f8, e⟩ := bind_ok.1 e
    obtain ⟨l12, f9, e⟩ := bind_ok.1 e
    obtain ⟨row, f10, e⟩ := bind_ok.1 e
    obtain ⟨s0, f11, e⟩ := bind_ok.1 e
    obtain ⟨s90, f12, e⟩ := bind_ok.1 e
    obtain ⟨s45, f13, e⟩ := bind_ok.1 e
    obtain ⟨s135, f14, e⟩ := bind_ok.1 e
    obtain ⟨both, f15, e⟩ := bind_ok.1 e
    obtain ⟨pd, f16, e⟩ := bind_ok.1 e
    obtain ⟨pc, f17, e⟩ := bind_ok.1 e
    obtain ⟨p10, f18, e⟩ := bind_ok.1 e
    obtain ⟨pi, f19, e⟩ := bind_ok.1 e
    obtain ⟨po, f20, e⟩ := bind_ok.1 e
    obtain ⟨t, f21, e⟩ := bind_ok.1 e
    obtain ⟨errors, f22, e⟩ := bind_ok.1 e
    obtain ⟨s, f23, e⟩ := bind_ok.1 e
    obtain ⟨d, f24, e⟩ := bind_ok.1 e
    have e := Except.ok.inj e
    subst e
    simp only [pyGet_eq_ok] at f1 f3 f4 f5 f6 f7 f8 f9 f10 f16 f17 f18 f19 f20 f21 f23 f24
    obtain ⟨hz, g11⟩ := rowShare_ok f11
    obtain ⟨-, g12⟩ := rowShare_ok f12
    obtain ⟨-, g13⟩ := rowShare_ok f13
    obtain ⟨-, g14⟩ := rowShare_ok f14
    obtain ⟨-, g15⟩ := rowShare_ok f15
    have hl : l = lampamOf s := by
      rw [List.getElem?_map, f23] at f5
      exact (Option.some.inj f5).symm
    refine { index := rfl, nPlies := f1, ss := f23, sst := f10, layout := f24, lampam := hl, errors := ⟨t, f21, ?_, ?_⟩, objNo := ?_,
             objNo' := ?_, nDiso := ?_, nContig := ?_, penDiso := f16, penContig := f17, pen10 := f18, penIpo := ?_, penOopo := ?_,
             ipo := ⟨l3, l4, f6, f7, rfl⟩, oopo := ⟨l11, l12, f8, f9, rfl⟩, counts := rfl, size := hz, share0 := g11, share90 := g12,
             share45 := g13, share135 := g14, shareBoth := ?_ }
    · simp only; rw [mapM_len f22, List.length_range]
    · intro k hk
      obtain ⟨y, y1, y2⟩ := mapM_at f22 (i := k) (x := k) (by rw [List.getElem?_range hk])
      obtain ⟨x', y3, y2⟩ := bind_ok.1 y2
      obtain ⟨y', y4, y2⟩ := bind_ok.1 y2
      rw [pyGet_eq_ok] at y3 y4
      have y2 := Except.ok.inj y2
      subst y2
      exact ⟨x', y', y3, y4, y1⟩
    · rintro e rfl
      simp only at f2 ⊢
      obtain ⟨o, o1, o2⟩ := bind_ok.1 f2
      rw [pyGet_eq_ok] at o1
      have o2 := Except.ok.inj o2
      rw [← o2, o1]
    · rintro rfl
      exact (Except.ok.inj f2).symm
    · obtain ⟨v, v1, v2⟩ := mapM_at h1 f23
      rw [f3] at v1
      cases v1
      exact v2
    · obtain ⟨v, v1, v2⟩ := mapM_at h3 f23
      rw [f4] at v1
      cases v1
      exact v2
    · obtain ⟨v, v1, v2⟩ := mapM_at h6 f5
      rw [f19] at v1
      cases v1
      exact v2
    · obtain ⟨v, v1, v2⟩ := mapM_at h7 f5
      rw [f20] at v1
      cases v1
      exact v2
    · simp only
      rw [g15]
      push_cast
      rfl

variable {V : Type} [Zero V] [Add V]

theorem outerLoop_length {one : Table → Option (Py (Option OneResult))} {pdls : List Table} {tab : List (Option OneResult)}
    (h : outerLoop one pdls = some (.ok tab)) : tab.length = pdls.length := by
  induction pdls generalizing tab with
  | nil => have h := Except.ok.inj (Option.some.inj h); subst h; rfl
  | cons t pdls ih =>
    obtain ⟨x, h1, ⟨r, rfl, _, rfl⟩ | ⟨_, l, h2, rfl⟩⟩ := outerLoop_cons h
    · simp
    · simp [ih h2]

/-- What is computed in a run that ends. -/
structure RunOf (B : BellaSetup V) (targets : List (List ℚ)) (pdls : List Table) (out : BellaOutput) (tab : List (Option OneResult))
    (pdls' : List Table) : Prop where
  loop : outerLoop (fun pdl => optimiserOnePdl (B.problem pdl) B.O B.save B.plies.length B.nMax) pdls = some (.ok tab)
  best : pickBest tab = .ok out.design
  extended : pdls.mapM (extendData B.O.S.r B.plies.length) = .ok pdls'
  width : requireWidth B.nMax pdls' = .ok ()
  len : tab.length = pdls.length
  sheetsLen : out.sheets.length = pdls.length
  sheets : ∀ (i : Nat) (rep : Report), out.sheets[i]? = some rep → ∃ entry pdl, tab[i]? = some entry ∧ pdls'[i]? = some pdl ∧
    reportOne B.O.S.c B.O.S.lampam B.O.S.dist B.plies targets (entryDesign B.plies B.nMax out.design).1
      (entryDesign B.plies B.nMax out.design).2 entry pdl = .ok rep
  last : ∃ entry pdl, tab[0]? = some entry ∧ pdls'[argMinNan (tab.map (Option.map (fun (r : OneResult) => (r.obj, r))))]? = some pdl ∧
    reportOne B.O.S.c B.O.S.lampam B.O.S.dist B.plies targets (entryDesign B.plies B.nMax out.design).1
      (entryDesign B.plies B.nMax out.design).2 entry pdl = .ok out.best

theorem bellaFinish_ok {B : BellaSetup V} {targets : List (List ℚ)} {pdls : List Table} {out : BellaOutput}
    (h : bellaFinish B targets pdls = some (.ok out)) : ∃ tab pdls', RunOf B targets pdls out tab pdls' := by
  unfold bellaFinish at h
  split at h
  · cases h
  · cases h
  · rename_i tab e
    have h := Option.some.inj h
    obtain ⟨design, h1, h⟩ := bind_ok.1 h
    obtain ⟨pdls', h2, h⟩ := bind_ok.1 h
    obtain ⟨_, hw, h⟩ := bind_ok.1 h
    obtain ⟨r, h3, h⟩ := bind_ok.1 h
    have h := Except.ok.inj h
    subst h
    unfold saveReports at h3
    dsimp only at h3
    obtain ⟨best, g1, h3⟩ := bind_ok.1 h3
    obtain ⟨sheets, g2, h3⟩ := bind_ok.1 h3
    obtain ⟨pdl, g3, h3⟩ := bind_ok.1 h3
    obtain ⟨entry, g4, h3⟩ := bind_ok.1 h3
    obtain ⟨last, g5, h3⟩ := bind_ok.1 h3
    have h3 := Except.ok.inj h3
    subst h3
    have hb : best = design := by
      unfold pickBest at h1
      split at h1
      · cases h1
      · rw [g1] at h1
        exact Except.ok.inj h1
    subst hb
    rw [pyGet_eq_ok] at g3 g4
    have hl := outerLoop_length e
    refine ⟨tab, pdls', { loop := e, best := h1, extended := h2, width := hw, len := hl, sheetsLen := ?_, sheets := ?_, last := ⟨entry, pdl, g4, g3, g5⟩ }⟩
    · simp only
      rw [mapM_len g2, List.length_range, hl]
    · intro i rep hi
      simp only at hi
      have hlt : i < tab.length := by
        have := (List.getElem?_eq_some_iff.1 hi).1
        rwa [mapM_len g2, List.length_range] at this
      obtain ⟨rep', k1, k2⟩ := mapM_at g2 (i := i) (x := i) (by rw [List.getElem?_range hlt])
      rw [hi] at k1
      cases k1
      obtain ⟨en, k3, k2⟩ := bind_ok.1 k2
      obtain ⟨pd, k4, k2⟩ := bind_ok.1 k2
      rw [pyGet_eq_ok] at k3 k4
      exact ⟨en, pd, k3, k4, k2⟩

theorem bellaRun_ok {B : BellaSetup V} {targets : List (List ℚ)} {file : Option (List Table)}
    {sched : List (List (List (Draw × Bool)) × Bool)} {out : BellaOutput} (h : bellaRun B targets file sched = some (.ok out)) :
    ∃ pdls tab pdls', B.layoutsFrom file sched = some (.ok pdls) ∧ RunOf B targets pdls out tab pdls' := by
  unfold bellaRun at h
  split at h
  · cases h
  · cases h
  · rename_i pdls e
    obtain ⟨tab, pdls', k⟩ := bellaFinish_ok h
    exact ⟨pdls, tab, pdls', e, k⟩

/-- A table of a run. -/
theorem RunOf.table {B : BellaSetup V} {targets : List (List ℚ)} {pdls : List Table} {out : BellaOutput} {tab : List (Option OneResult)}
    {pdls' : List Table} (R : RunOf B targets pdls out tab pdls') {rep : Report} (h : rep = out.best ∨ rep ∈ out.sheets) :
    ∃ entry pdl, reportOne B.O.S.c B.O.S.lampam B.O.S.dist B.plies targets (entryDesign B.plies B.nMax out.design).1
      (entryDesign B.plies B.nMax out.design).2 entry pdl = .ok rep := by
  rcases h with rfl | h
  · obtain ⟨en, pd, -, -, k⟩ := R.last
    exact ⟨en, pd, k⟩
  · obtain ⟨i, hi, e⟩ := List.getElem_of_mem h
    obtain ⟨en, pd, -, -, k⟩ := R.sheets i rep (by rw [List.getElem?_eq_getElem hi, e])
    exact ⟨en, pd, k⟩

/-- **C72.** A run that ends returns the design that the search with these layouts finds (C64). -/
theorem C72_design (B : BellaSetup V) (targets : List (List ℚ)) (sched : List (List (List (Draw × Bool)) × Bool)) (out : BellaOutput)
    (h : bellaRun B targets none sched = some (.ok out)) : bellaOptimiser B sched = some (.ok out.design) := by
  obtain ⟨pdls, tab, pdls', h1, R⟩ := bellaRun_ok h
  unfold bellaOptimiser
  have h1 : B.layouts sched = some (.ok pdls) := h1
  rw [h1]
  dsimp only
  unfold bestDesign
  rw [R.loop]
  dsimp only
  rw [R.best]

/-- **C72.** All the tables written have one row per panel, in order, with the laminate of the design returned, its row of the stacking
sequence table, its lamination parameters and their distances to the targets; when the entry chosen was never written, laminates of
zeros.  There is one table in the sheet "Results" for each layout. -/
theorem C72_rows (B : BellaSetup V) (targets : List (List ℚ)) (file : Option (List Table))
    (sched : List (List (List (Draw × Bool)) × Bool)) (out : BellaOutput) (h : bellaRun B targets file sched = some (.ok out)) :
    (∃ pdls, B.layoutsFrom file sched = some (.ok pdls) ∧ out.sheets.length = pdls.length) ∧
    ∀ rep, (rep = out.best ∨ rep ∈ out.sheets) → rep.rows.length = B.plies.length ∧
      ∀ (i : Nat) (r : ReportRow), rep.rows[i]? = some r → r.index = i + 1 ∧ B.plies[i]? = some r.nPlies ∧
        (∀ res, out.design = some res → res.ss[i]? = some r.ss ∧ res.sst[i]? = some r.sst) ∧
        (out.design = none → r.ss = List.replicate r.nPlies 0 ∧ r.sst = List.replicate B.nMax 0) ∧
        r.lampam = B.O.S.lampam r.ss ∧
        ∃ t, targets[i]? = some t ∧ r.errors.length = 12 ∧ ∀ (k : Nat), k < 12 → ∃ x y, t[k]? = some x ∧ r.lampam[k]? = some y ∧
          r.errors[k]? = some |x - y| := by
  obtain ⟨pdls, tab, pdls', h1, R⟩ := bellaRun_ok h
  refine ⟨⟨pdls, h1, R.sheetsLen⟩, fun rep hrep => ?_⟩
  obtain ⟨en, pd, k⟩ := R.table hrep
  obtain ⟨_, _, _, _, _, -, -, -, -, -, -, -, h8, h9⟩ := reportOne_ok k
  refine ⟨h8, fun i r hr => ?_⟩
  have hr := h9 i r hr
  refine ⟨hr.index, hr.nPlies, ?_, ?_, hr.lampam, hr.errors⟩
  · intro res hres
    have h1 := hr.ss
    have h2 := hr.sst
    rw [hres] at h1 h2
    exact ⟨h1, h2⟩
  · intro hres
    have h1 := hr.ss
    have h2 := hr.sst
    rw [hres] at h1 h2
    simp only [entryDesign] at h1 h2
    rw [List.getElem?_map, hr.nPlies] at h1 h2
    exact ⟨(Option.some.inj h1).symm, (Option.some.inj h2).symm⟩

/-- **C72.** The table of a layout shows the objective, the spacing penalty and the objectives of the panels obtained with that layout, and
the layout itself, extended to all the panels. -/
theorem C72_objectives (B : BellaSetup V) (targets : List (List ℚ)) (file : Option (List Table))
    (sched : List (List (List (Draw × Bool)) × Bool)) (out : BellaOutput) (h : bellaRun B targets file sched = some (.ok out))
    (res : OneResult) (hres : out.design = some res) :
    ∃ pdls, B.layoutsFrom file sched = some (.ok pdls) ∧ ∀ (i : Nat) (t : Table), pdls[i]? = some t →
      ∃ (x : OneResult) (rep : Report) (e : Table),
        optimiserOnePdl (B.problem t) B.O B.save B.plies.length B.nMax = some (.ok (some x)) ∧
        res.obj ≤ x.obj ∧ out.sheets[i]? = some rep ∧ rep.obj = some x.obj ∧ rep.spacing = some x.penSpacing ∧
        extendData B.O.S.r B.plies.length t = .ok e ∧
        ∀ (p : Nat) (r : ReportRow), rep.rows[p]? = some r → r.objNo = x.objsNo[p]? ∧ e[p]? = some r.layout := by
  obtain ⟨pdls, tab, pdls', h1, R⟩ := bellaRun_ok h
  refine ⟨pdls, h1, fun i t ht => ?_⟩
  have hb := R.best
  rw [hres] at hb
  obtain ⟨n1, n2, n3⟩ := pickBest_some hb
  have hall := outerLoop_all R.loop n1
  have hlt := (List.getElem?_eq_some_iff.1 ht).1
  have hl := R.len
  have hk := List.Forall₂.get hall (i := i) hlt (by omega)
  simp only [List.get_eq_getElem] at hk
  rw [(List.getElem?_eq_some_iff.1 ht).2] at hk
  have hs : i < out.sheets.length := by rw [R.sheetsLen]; exact hlt
  obtain ⟨entry, pd, k1, k2, k3⟩ := R.sheets i _ (List.getElem?_eq_getElem hs)
  have hti : i < tab.length := by omega
  rw [List.getElem?_eq_getElem hti] at k1
  have k1 := Option.some.inj k1
  rw [k1] at hk
  have hmem : entry ∈ tab := by rw [← k1]; exact List.getElem_mem _
  cases entry with
  | none => exact absurd rfl (n1 none hmem)
  | some x =>
    obtain ⟨e, e1, e2⟩ := mapM_at R.extended ht
    rw [k2] at e1
    cases e1
    obtain ⟨_, _, _, _, _, -, -, -, -, -, h6, h7, h8, h9⟩ := reportOne_ok k3
    refine ⟨x, _, pd, hk, n3 x hmem, List.getElem?_eq_getElem hs, h6, h7, e2, fun p r hr => ?_⟩
    have hr := h9 p r hr
    exact ⟨hr.objNo x rfl, hr.layout⟩

/-- **C72 (violation).** "The sheet Best Result shows the values of the best design": its objective and spacing penalty, and the objectives
of its panels, are those of the first layout. -/
theorem C72_best_objective_violation (B : BellaSetup V) (targets : List (List ℚ)) (file : Option (List Table))
    (sched : List (List (List (Draw × Bool)) × Bool)) (out : BellaOutput) (h : bellaRun B targets file sched = some (.ok out)) :
    ∃ first, out.sheets[0]? = some first ∧ out.best.obj = first.obj ∧ out.best.spacing = first.spacing ∧
      ∀ (i : Nat) (r q : ReportRow), out.best.rows[i]? = some r → first.rows[i]? = some q → r.objNo = q.objNo := by
  obtain ⟨pdls, tab, pdls', h1, R⟩ := bellaRun_ok h
  obtain ⟨en, pd, k1, k2, k3⟩ := R.last
  have h0 : 0 < out.sheets.length := by
    rw [R.sheetsLen, ← R.len]
    exact (List.getElem?_eq_some_iff.1 k1).1
  obtain ⟨en', pd', k1', k2', k3'⟩ := R.sheets 0 _ (List.getElem?_eq_getElem h0)
  rw [k1] at k1'
  cases k1'
  obtain ⟨_, _, _, _, _, -, -, -, -, -, h6, h7, h8, h9⟩ := reportOne_ok k3
  obtain ⟨_, _, _, _, _, -, -, -, -, -, h6', h7', h8', h9'⟩ := reportOne_ok k3'
  refine ⟨_, List.getElem?_eq_getElem h0, by rw [h6, h6'], by rw [h7, h7'], fun i r q hr hq => ?_⟩
  have hr := h9 i r hr
  have hq := h9' i q hq
  cases en with
  | none => rw [hr.objNo' rfl, hq.objNo' rfl]
  | some x => rw [hr.objNo x rfl, hq.objNo x rfl]

/-- **C72 (violation).** "Each table of the sheet Results shows the laminates found with its layout": they all show the same ones. -/
theorem C72_same_laminates_violation (B : BellaSetup V) (targets : List (List ℚ)) (file : Option (List Table))
    (sched : List (List (List (Draw × Bool)) × Bool)) (out : BellaOutput) (h : bellaRun B targets file sched = some (.ok out))
    (rep rep' : Report) (h1 : rep ∈ out.sheets) (h2 : rep' ∈ out.sheets) :
    rep.rows.map (fun (r : ReportRow) => (r.ss, r.sst, r.lampam)) = rep'.rows.map (fun (r : ReportRow) => (r.ss, r.sst, r.lampam)) := by
  obtain ⟨pdls, tab, pdls', -, R⟩ := bellaRun_ok h
  obtain ⟨en, pd, k⟩ := R.table (Or.inr h1)
  obtain ⟨en', pd', k'⟩ := R.table (Or.inr h2)
  obtain ⟨_, _, _, _, _, -, -, -, -, -, -, -, h8, h9⟩ := reportOne_ok k
  obtain ⟨_, _, _, _, _, -, -, -, -, -, -, -, h8', h9'⟩ := reportOne_ok k'
  apply List.ext_getElem
  · rw [List.length_map, List.length_map, h8, h8']
  · intro i hi hi'
    rw [List.length_map] at hi hi'
    have hr := h9 i _ (List.getElem?_eq_getElem hi)
    have hq := h9' i _ (List.getElem?_eq_getElem hi')
    have e1 := hr.ss
    rw [hq.ss] at e1
    have e2 := hr.sst
    rw [hq.sst] at e2
    simp only [List.getElem_map]
    rw [hr.lampam, hq.lampam, Option.some.inj e1, Option.some.inj e2]

/-- **C72 (violation).** "BELLA can be used without the 10% rule": without it (or with all its percentages zero) no run ends, an
`AttributeError` being raised when the results are written. -/
theorem C72_ten_percent_violation (a : ConsArgs) (B : BellaSetup V) (hc : mkConstraints a = .ok B.O.S.c)
    (h10 : a.rule10 = false ∨ (B.O.S.c.rule10Abdalla = false ∧ B.O.S.c.pTot = 0)) (targets : List (List ℚ)) (file : Option (List Table))
    (sched : List (List (List (Draw × Bool)) × Bool)) (out : BellaOutput) : bellaRun B targets file sched ≠ some (.ok out) := by
  intro h
  obtain ⟨pdls, tab, pdls', -, R⟩ := bellaRun_ok h
  obtain ⟨en, pd, -, -, k⟩ := R.last
  obtain ⟨_, _, _, _, _, -, -, -, -, h5, -⟩ := reportOne_ok k
  unfold reportPenalty10 at h5
  rcases h10 with h10 | ⟨hab, ht⟩
  · have hr : B.O.S.c.rule10 = false := by
      obtain ⟨_, _, _, _, _, _, _, _, _, _, _, e⟩ := mkConstraints_inv a _ hc
      rw [e]
      exact h10
    obtain ⟨_, _, _, _, _, _, hh, _⟩ := C14_percentages a _ hc
    obtain ⟨_, _, _, _, _, ht⟩ := hh (Or.inl hr)
    rw [if_neg (by rw [hr]; simp), if_neg (by rw [ht]; exact lt_irrefl _)] at h5
    cases h5
  · rw [if_neg (by rw [hab]; simp), if_neg (by rw [ht]; exact lt_irrefl _)] at h5
    cases h5

theorem sum_counts (l : List Int) (hl : l.Nodup) (s : Stack) (h : ∀ x ∈ s, x ∈ l) : (l.map (fun (x : Int) => s.count x)).sum = s.length := by
  induction s with
  | nil => simp
  | cons b s ih =>
    have e : ∀ m : List Int, (m.map (fun (x : Int) => (b :: s).count x)).sum = (m.map (fun (x : Int) => s.count x)).sum + m.count b := by
      intro m
      induction m with
      | nil => rfl
      | cons y m ih' =>
        rw [List.map_cons, List.sum_cons, ih', List.map_cons, List.sum_cons, List.count_cons, List.count_cons]
        by_cases hy : b = y
        · subst hy; simp; omega
        · have hy' : ¬ y = b := fun e => hy e.symm
          simp [hy, hy']; omega
    rw [e, ih (fun x hx => h x (List.mem_cons_of_mem _ hx)), List.count_eq_one_of_mem hl (h b List.mem_cons_self), List.length_cons]

theorem count_filter_drops (row : Stack) (x : Int) (hx : x ≠ -1) : (row.filter (fun y => y != -1)).count x = row.count x := by
  rw [List.count_filter]
  simpa using hx

/-- The design returned was found with one of the layouts. -/
theorem RunOf.found {B : BellaSetup V} {targets : List (List ℚ)} {pdls : List Table} {out : BellaOutput} {tab : List (Option OneResult)}
    {pdls' : List Table} (R : RunOf B targets pdls out tab pdls') {res : OneResult} (hres : out.design = some res) :
    ∃ t ∈ pdls, optimiserOnePdl (B.problem t) B.O B.save B.plies.length B.nMax = some (.ok (some res)) := by
  have hb := R.best
  rw [hres] at hb
  obtain ⟨n1, n2, n3⟩ := pickBest_some hb
  obtain ⟨t, ht, h⟩ := forall₂_mem_right (outerLoop_all R.loop n1) n2
  exact ⟨t, ht, h⟩

section
variable {W : Type} [AddCommMonoid W]

/-- All the layouts of a run are ones that the optimisation with one layout can deal with. -/
def AllCases (a : ConsArgs) (B : BellaSetup W) (cs : Int → Nat → ℚ) (file : Option (List Table))
    (sched : List (List (List (Draw × Bool)) × Bool)) : Prop :=
  ∀ pdls, B.layoutsFrom file sched = some (.ok pdls) → ∀ t ∈ pdls, OneCase a (B.problem t) B.O cs B.plies B.nMax

theorem run_counts (a : ConsArgs) (B : BellaSetup W) (cs : Int → Nat → ℚ) (M : FileCase a B cs) (hs : B.save = false)
    (hne : B.plies ≠ []) (targets : List (List ℚ)) (file : Option (List Table)) (sched : List (List (List (Draw × Bool)) × Bool))
    (hN : AllCases a B cs file sched)
    (out : BellaOutput) (h : bellaRun B targets file sched = some (.ok out)) (res : OneResult) (hres : out.design = some res)
    (ho : res.obj ≠ failObj) (rep : Report) (hrep : rep = out.best ∨ rep ∈ out.sheets) (i : Nat) (r : ReportRow)
    (hr : rep.rows[i]? = some r) :
    r.counts.length = B.O.S.c.angles.length ∧
    (∀ (j : Nat) (x : Int), B.O.S.c.angles[j]? = some x → r.counts[j]? = some (r.ss.count x)) ∧
    r.counts.sum = r.nPlies ∧ r.ss.length = r.nPlies := by
  obtain ⟨pdls, tab, pdls', e0, R⟩ := bellaRun_ok h
  obtain ⟨t, ht, k0⟩ := R.found hres
  rw [hs] at k0
  obtain ⟨-, -, hlam, -⟩ := C62_laminates a _ _ cs _ _ (hN _ e0 t ht) res k0 ho
  rw [(M.problem t).2.1] at hlam
  obtain ⟨en, pd, k⟩ := R.table hrep
  obtain ⟨_, _, _, _, _, -, -, -, -, -, -, -, h8, h9⟩ := reportOne_ok k
  have hr := h9 i r hr
  obtain ⟨row, s, e1, e2, -, e3, e4, e5, -⟩ := hlam i r.nPlies hr.nPlies
  have f1 := hr.ss
  have f2 := hr.sst
  rw [hres] at f1 f2
  simp only [entryDesign] at f1 f2
  rw [f1] at e2
  rw [f2] at e1
  cases e1
  cases e2
  have hcount : ∀ x ∈ B.O.S.c.angles, r.sst.count x = r.ss.count x := by
    intro x hx
    rw [e3, count_filter_drops _ _ (fun e => M.noMinusOne (e ▸ hx))]
  rw [hr.counts]
  refine ⟨by rw [List.length_map], fun j x hj => ?_, ?_, e4⟩
  · rw [List.getElem?_map, hj]
    simp only [Option.map_some]
    rw [hcount x (List.mem_of_getElem? hj)]
  · rw [List.map_congr_left hcount]
    rw [sum_counts _ ((C14_angles a _ M.cons).1.imp (fun h => ne_of_lt h)) r.ss e5, e4]

theorem share_iff (k n w : Nat) (hn : 0 < n) (hw : n ≤ w) : (k : ℚ) / w = (k : ℚ) / n ↔ k = 0 ∨ n = w := by
  have hn' : (n : ℚ) ≠ 0 := by positivity
  have hw' : (w : ℚ) ≠ 0 := by
    have : 0 < w := by omega
    positivity
  rw [div_eq_div_iff hw' hn', mul_eq_mul_left_iff]
  constructor
  · rintro (h | h)
    · exact Or.inr (by exact_mod_cast h)
    · exact Or.inl (by exact_mod_cast h)
  · rintro (h | h)
    · exact Or.inr (by exact_mod_cast h)
    · exact Or.inl (by exact_mod_cast h)

theorem run_percentages (a : ConsArgs) (B : BellaSetup W) (cs : Int → Nat → ℚ) (M : FileCase a B cs) (hs : B.save = false)
    (hne : B.plies ≠ []) (targets : List (List ℚ)) (file : Option (List Table)) (sched : List (List (List (Draw × Bool)) × Bool))
    (hN : AllCases a B cs file sched)
    (out : BellaOutput) (h : bellaRun B targets file sched = some (.ok out)) (res : OneResult) (hres : out.design = some res)
    (ho : res.obj ≠ failObj) (rep : Report) (hrep : rep = out.best ∨ rep ∈ out.sheets) (i : Nat) (r : ReportRow)
    (hr : rep.rows[i]? = some r) :
    (r.share0 = r.ss.count 0 / B.nMax ∧ (r.share0 = r.ss.count 0 / r.ss.length ↔ r.ss.count 0 = 0 ∨ r.ss.length = B.nMax)) ∧
    (r.share90 = r.ss.count 90 / B.nMax ∧ (r.share90 = r.ss.count 90 / r.ss.length ↔ r.ss.count 90 = 0 ∨ r.ss.length = B.nMax)) ∧
    (r.share45 = r.ss.count 45 / B.nMax ∧ (r.share45 = r.ss.count 45 / r.ss.length ↔ r.ss.count 45 = 0 ∨ r.ss.length = B.nMax)) ∧
    (r.share135 = r.ss.count (-45) / B.nMax ∧
      (r.share135 = r.ss.count (-45) / r.ss.length ↔ r.ss.count (-45) = 0 ∨ r.ss.length = B.nMax)) ∧
    r.shareBoth = r.share45 + r.share135 := by
  obtain ⟨pdls, tab, pdls', e0, R⟩ := bellaRun_ok h
  obtain ⟨t, ht, k0⟩ := R.found hres
  rw [hs] at k0
  obtain ⟨-, -, hlam, -⟩ := C62_laminates a _ _ cs _ _ (hN _ e0 t ht) res k0 ho
  obtain ⟨en, pd, k⟩ := R.table hrep
  obtain ⟨_, _, _, _, _, -, -, -, -, -, -, -, h8, h9⟩ := reportOne_ok k
  have hr := h9 i r hr
  obtain ⟨row, s, e1, e2, e6, e3, e4, e5, -⟩ := hlam i r.nPlies hr.nPlies
  have f1 := hr.ss
  have f2 := hr.sst
  rw [hres] at f1 f2
  simp only [entryDesign] at f1 f2
  rw [f1] at e2
  rw [f2] at e1
  cases e1
  cases e2
  have hn : 0 < r.ss.length := by
    have := M.designed r.nPlies (List.mem_of_getElem? hr.nPlies)
    omega
  have hle : r.ss.length ≤ B.nMax := by
    rw [e4]
    exact (bella_full M hne).2.2 _ (List.mem_of_getElem? hr.nPlies)
  have hcount : ∀ x : Int, x ≠ -1 → r.sst.count x = r.ss.count x := by
    intro x hx
    rw [e3, count_filter_drops _ _ hx]
  refine ⟨?_, ?_, ?_, ?_, ?_⟩
  · rw [hr.share0, hcount 0 (by decide), e6]
    exact ⟨rfl, share_iff _ _ _ hn hle⟩
  · rw [hr.share90, hcount 90 (by decide), e6]
    exact ⟨rfl, share_iff _ _ _ hn hle⟩
  · rw [hr.share45, hcount 45 (by decide), e6]
    exact ⟨rfl, share_iff _ _ _ hn hle⟩
  · rw [hr.share135, hcount (-45) (by decide), e6]
    exact ⟨rfl, share_iff _ _ _ hn hle⟩
  · rw [hr.shareBoth, hr.share45, hr.share135]
    ring

theorem run_penalties (a : ConsArgs) (B : BellaSetup W) (cs : Int → Nat → ℚ) (M : FileCase a B cs) (hs : B.save = false)
    (hne : B.plies ≠ []) (hT : B.O.S.targets.length = B.O.S.r.nPlies.length)
    (targets : List (List ℚ)) (file : Option (List Table)) (sched : List (List (List (Draw × Bool)) × Bool))
    (hN : AllCases a B cs file sched)
    (out : BellaOutput) (h : bellaRun B targets file sched = some (.ok out)) (res : OneResult) (hres : out.design = some res)
    (ho : res.obj ≠ failObj) (rep : Report) (hrep : rep = out.best ∨ rep ∈ out.sheets) (i : Nat) (r : ReportRow)
    (hr : rep.rows[i]? = some r) :
    res.nDiso[i]? = some r.nDiso ∧ res.nContig[i]? = some r.nContig ∧ res.penDiso[i]? = some r.penDiso ∧
    res.penContig[i]? = some r.penContig ∧ res.pen10[i]? = some r.pen10 ∧ res.lampams[i]? = some r.lampam ∧
    r.penIpo = (if B.O.S.c.bal then r.ipo / 2 else 0) ∧ r.penOopo = (if B.O.S.c.oopo then r.oopo / 2 else 0) := by
  obtain ⟨pdls, tab, pdls', e0, R⟩ := bellaRun_ok h
  obtain ⟨t, ht, k0⟩ := R.found hres
  rw [hs] at k0
  have N := hN _ e0 t ht
  obtain ⟨-, -, hlam, -⟩ := C62_laminates a _ _ cs _ _ N res k0 ho
  obtain ⟨d, pen, k1, e1, e2, e3, e4, l4, e5, e6, l6, e7, e8, l8, l9, l10, l11, l12, e9, e10, e11, e12, e13, -⟩ :=
    one_values N hT k0 ho
  obtain ⟨en, pd, k⟩ := R.table hrep
  obtain ⟨nDiso, penDiso, nContig, penContig, pen10, w1, w2, w3, w4, w5, -, -, h8, h9⟩ := reportOne_ok k
  have hr := h9 i r hr
  rw [hres] at w1 w3 w5
  simp only [entryDesign] at w1 w3 w5
  have f1 := hr.ss
  rw [hres] at f1
  simp only [entryDesign] at f1
  obtain ⟨p, hp⟩ := one_panel N hr.nPlies
  obtain ⟨row, s, -, s1, -, -, hsn, s3, -⟩ := hlam i r.nPlies hr.nPlies
  rw [f1] at s1
  cases s1
  have hplt := (List.getElem?_eq_some_iff.1 hp).1
  have hlen : res.ss.length = B.plies.length := (one_extend N k1 e1).1
  have hds : d.ss[p]? = some r.ss := by rw [← (one_extend N k1 e1).2 i r.nPlies p hr.nPlies hp, f1]
  have hdl : d.lampams[p]? = some r.lampam := by rw [e2, List.getElem?_map, hds, hr.lampam]; rfl
  unfold calcPenalties at e8
  obtain ⟨nd, h1, e8⟩ := bind_ok.1 e8
  obtain ⟨pd', h2, e8⟩ := bind_ok.1 e8
  obtain ⟨nc, h3, e8⟩ := bind_ok.1 e8
  obtain ⟨pc, h4, e8⟩ := bind_ok.1 e8
  obtain ⟨pt, h5, e8⟩ := bind_ok.1 e8
  have e8 := Except.ok.inj e8
  subst e8
  dsimp only at *
  obtain ⟨v1, y1, y2⟩ := mapM_at h1 hds
  rw [hr.nDiso] at y2
  cases y2
  obtain ⟨v2, z1, z2⟩ := mapM_at h3 hds
  rw [hr.nContig] at z2
  cases z2
  obtain ⟨u1, q1, q2⟩ := mapM_at w1 f1
  rw [hr.nDiso] at q2
  cases q2
  obtain ⟨u2, q3, q4⟩ := mapM_at w3 f1
  rw [hr.nContig] at q4
  cases q4
  refine ⟨?_, ?_, ?_, ?_, ?_, ?_, ?_, ?_⟩
  · rw [(one_extend N l8 e9).2 i _ p hr.nPlies hp, y1]
  · rw [(one_extend N l9 e10).2 i _ p hr.nPlies hp, z1]
  · rw [(one_extend N l10 e11).2 i _ p hr.nPlies hp, (normPenalty_ok h2 l8).2 p _ _ y1 hp, ← hr.penDiso,
      (normPenalty_ok w2 (by rw [mapM_len w1, hlen])).2 i _ _ q1 hr.nPlies]
  · rw [(one_extend N l11 e12).2 i _ p hr.nPlies hp, (normPenalty_ok h4 l9).2 p _ _ z1 hp, ← hr.penContig,
      (normPenalty_ok w4 (by rw [mapM_len w3, hlen])).2 i _ _ q3 hr.nPlies]
  · rw [(one_extend N l12 e13).2 i _ p hr.nPlies hp]
    unfold penalty10Mp at h5
    unfold reportPenalty10 at w5
    by_cases hab : B.O.S.c.rule10 = true ∧ B.O.S.c.rule10Abdalla = true
    · rw [if_pos hab] at h5 w5
      rw [← Except.ok.inj h5, List.getElem?_map, hdl, ← hr.pen10, ← Except.ok.inj w5, List.getElem?_map, List.getElem?_map, f1, hr.lampam]
      rfl
    · rw [if_neg hab] at h5 w5
      by_cases ht : B.O.S.c.pTot > 0
      · rw [if_pos ht] at w5
        obtain ⟨v, g1, g2⟩ := mapM_at w5 f1
        rw [hr.pen10] at g1
        cases g1
        obtain ⟨cnt, c1, c2⟩ := mapM_at e4 (i := p) (x := p) (by rw [List.getElem?_range hplt])
        obtain ⟨s', c3, c4⟩ := bind_ok.1 c2
        rw [pyGet_eq_ok, hds] at c3
        cases c3
        obtain ⟨v, v1', v2'⟩ := mapM_at h5 c1
        have ha : a.rule10 = true := by
          by_contra hh
          obtain ⟨_, _, _, _, _, _, _, _, _, _, _, e⟩ := mkConstraints_inv a _ M.cons
          obtain ⟨_, _, _, _, _, _, hz, _⟩ := C14_percentages a _ M.cons
          obtain ⟨_, _, _, _, _, ht'⟩ := hz (Or.inl (by rw [e]; simpa using hh))
          rw [ht'] at ht
          exact lt_irrefl _ ht
        have hsne : r.ss ≠ [] := by
          have := M.designed r.nPlies (List.mem_of_getElem? hr.nPlies)
          intro e
          rw [e] at hsn
          simp at hsn
          omega
        have s3' : ∀ x ∈ r.ss, x ∈ B.O.S.c.angles := by
          rw [← (M.problem t).2.1]; exact s3
        obtain ⟨cnt', q, x1, x2, _, x4⟩ := C09_penalty_pc a _ M.cons ha r.ss s3' hsne 1
        rw [c4] at x1
        cases x1
        rw [v2', one_mul] at x4
        cases x4
        rw [g2] at x2
        cases x2
        exact v1'
      · rw [if_neg ht] at w5
        cases w5
  · rw [(one_extend N (by rw [e2, List.length_map, k1]) e3).2 i _ p hr.nPlies hp, hdl]
  · have hp := hr.penIpo
    obtain ⟨x, y, x1, x2, x3⟩ := hr.ipo
    have hipo : B.O.S.c.ipo = B.O.S.c.bal := by
      obtain ⟨_, _, _, _, _, _, _, _, _, _, _, e⟩ := mkConstraints_inv a _ M.cons
      rw [e]
    rw [hipo] at hp
    unfold reportOrtho orthoPenalty at hp
    rw [pyGet_eq_ok.2 x1, pyGet_eq_ok.2 x2] at hp
    rcases Bool.eq_false_or_eq_true B.O.S.c.bal with hb | hb
    · rw [hb] at hp ⊢
      rw [x3]
      exact (Except.ok.inj hp).symm
    · rw [hb] at hp ⊢
      exact (Except.ok.inj hp).symm
  · have hp := hr.penOopo
    obtain ⟨x, y, x1, x2, x3⟩ := hr.oopo
    unfold reportOrtho orthoPenalty at hp
    rw [pyGet_eq_ok.2 x1, pyGet_eq_ok.2 x2] at hp
    rcases Bool.eq_false_or_eq_true B.O.S.c.oopo with hb | hb
    · rw [hb] at hp ⊢
      rw [x3]
      exact (Except.ok.inj hp).symm
    · rw [hb] at hp ⊢
      exact (Except.ok.inj hp).symm

/-- **C72.** In all the tables the number of plies of each fibre direction is that of the laminate, and these numbers add up to the
number of plies of the panel. -/
theorem C72_counts (a : ConsArgs) (B : BellaSetup W) (cs : Int → Nat → ℚ) (M : BellaCase a B cs) (hs : B.save = false)
    (hne : B.plies ≠ []) (targets : List (List ℚ)) (sched : List (List (List (Draw × Bool)) × Bool)) (hv : PossibleDraws B sched)
    (out : BellaOutput) (h : bellaRun B targets none sched = some (.ok out)) (res : OneResult) (hres : out.design = some res)
    (ho : res.obj ≠ failObj) (rep : Report) (hrep : rep = out.best ∨ rep ∈ out.sheets) (i : Nat) (r : ReportRow)
    (hr : rep.rows[i]? = some r) :
    r.counts.length = B.O.S.c.angles.length ∧
    (∀ (j : Nat) (x : Int), B.O.S.c.angles[j]? = some x → r.counts[j]? = some (r.ss.count x)) ∧
    r.counts.sum = r.nPlies ∧ r.ss.length = r.nPlies :=
  run_counts a B cs M.toFileCase hs hne targets none sched (fun _ e t ht => bella_one M hne hv e t ht) out h res hres ho rep hrep i r hr

/-- **C72 (violation).** "The percentages written are those of the laminates": the ply drops are counted among the plies, so that a
percentage is the share of the direction in the laminate only if this share is zero or the panel is a thickest one. -/
theorem C72_percentage_violation (a : ConsArgs) (B : BellaSetup W) (cs : Int → Nat → ℚ) (M : BellaCase a B cs) (hs : B.save = false)
    (hne : B.plies ≠ []) (targets : List (List ℚ)) (sched : List (List (List (Draw × Bool)) × Bool)) (hv : PossibleDraws B sched)
    (out : BellaOutput) (h : bellaRun B targets none sched = some (.ok out)) (res : OneResult) (hres : out.design = some res)
    (ho : res.obj ≠ failObj) (rep : Report) (hrep : rep = out.best ∨ rep ∈ out.sheets) (i : Nat) (r : ReportRow)
    (hr : rep.rows[i]? = some r) :
    (r.share0 = r.ss.count 0 / B.nMax ∧ (r.share0 = r.ss.count 0 / r.ss.length ↔ r.ss.count 0 = 0 ∨ r.ss.length = B.nMax)) ∧
    (r.share90 = r.ss.count 90 / B.nMax ∧ (r.share90 = r.ss.count 90 / r.ss.length ↔ r.ss.count 90 = 0 ∨ r.ss.length = B.nMax)) ∧
    (r.share45 = r.ss.count 45 / B.nMax ∧ (r.share45 = r.ss.count 45 / r.ss.length ↔ r.ss.count 45 = 0 ∨ r.ss.length = B.nMax)) ∧
    (r.share135 = r.ss.count (-45) / B.nMax ∧
      (r.share135 = r.ss.count (-45) / r.ss.length ↔ r.ss.count (-45) = 0 ∨ r.ss.length = B.nMax)) ∧
    r.shareBoth = r.share45 + r.share135 :=
  run_percentages a B cs M.toFileCase hs hne targets none sched (fun _ e t ht => bella_one M hne hv e t ht) out h res hres ho rep hrep i r hr

/-- **C72.** The violations and penalties written in all the tables are those returned with the design; the penalties for balance and
out-of-plane orthotropy are zero when the rule is off, half the sums of lamination parameters written otherwise. -/
theorem C72_penalties (a : ConsArgs) (B : BellaSetup W) (cs : Int → Nat → ℚ) (M : BellaCase a B cs) (hs : B.save = false)
    (hne : B.plies ≠ []) (hT : B.O.S.targets.length = B.O.S.r.nPlies.length)
    (targets : List (List ℚ)) (sched : List (List (List (Draw × Bool)) × Bool)) (hv : PossibleDraws B sched)
    (out : BellaOutput) (h : bellaRun B targets none sched = some (.ok out)) (res : OneResult) (hres : out.design = some res)
    (ho : res.obj ≠ failObj) (rep : Report) (hrep : rep = out.best ∨ rep ∈ out.sheets) (i : Nat) (r : ReportRow)
    (hr : rep.rows[i]? = some r) :
    res.nDiso[i]? = some r.nDiso ∧ res.nContig[i]? = some r.nContig ∧ res.penDiso[i]? = some r.penDiso ∧
    res.penContig[i]? = some r.penContig ∧ res.pen10[i]? = some r.pen10 ∧ res.lampams[i]? = some r.lampam ∧
    r.penIpo = (if B.O.S.c.bal then r.ipo / 2 else 0) ∧ r.penOopo = (if B.O.S.c.oopo then r.oopo / 2 else 0) :=
  run_penalties a B cs M.toFileCase hs hne hT targets none sched (fun _ e t ht => bella_one M hne hv e t ht) out h res hres ho rep hrep i r hr

end

end Bella
