import Verif.Proofs.Exhaustive
import Verif.Props.ThinToThick
import Verif.Props.GroupSpacing
/-
C79: without effective node limits the strip repairs are exhaustive, and the spacing penalty they use.
-/
namespace Bella

/-- The laminates accepted by the thick-to-thin repair: contiguity rule and, if the 10% rule is required, its lamination
parameter variant. -/
def ThinAccepted (S : StripSetup) (s : Stack) : Prop :=
  (S.c.contig = true → Spec.ContigOK S.c.nContig
    (if S.c.damTol = true ∧ S.c.damTolAttr.twoPlies = true then (s.drop 1).dropLast else s)) ∧
  (S.c.rule10 = true → S.dist (S.lampam s) = 0)

theorem contigOk_true {S : StripSetup} (hc : S.c.contig = true → 2 ≤ S.c.nContig ∧ S.c.nContig ≤ 6) (s : Stack) :
    contigOk S s = .ok true ↔ (S.c.contig = true → Spec.ContigOK S.c.nContig
      (if S.c.damTol = true ∧ S.c.damTolAttr.twoPlies = true then (s.drop 1).dropLast else s)) := by
  unfold contigOk
  by_cases h : S.c.contig = true
  · rw [if_pos h]
    obtain ⟨h2, h6⟩ := hc h
    rw [← (C04_is_contig_iff _ _ h2 h6).1, ← C05_penalty_zero_iff _ _ _ _ h2 h6]
    constructor
    · intro hk _
      obtain ⟨q, hq, hk⟩ := bind_ok.1 hk
      have hq0 : q = 0 := by simpa using Except.ok.inj hk
      rw [← hq0]
      exact hq
    · intro hk
      rw [hk h]
      rfl
  · rw [if_neg h]
    exact ⟨fun _ h' => absurd h' h, fun _ => rfl⟩

theorem tenOk_true {S : StripSetup} (h10 : S.c.rule10 = true → S.c.rule10Abdalla = true) (s : Stack) (cnt : List ℚ) :
    tenOk S s cnt = .ok true ↔ (S.c.rule10 = true → S.dist (S.lampam s) = 0) := by
  unfold tenOk
  by_cases h : S.c.rule10 = true
  · rw [if_pos h, if_pos (h10 h)]
    simp [h]
  · rw [if_neg h]
    exact ⟨fun _ h' => absurd h' h, fun _ => rfl⟩

theorem thinAccepted_iff {S : StripSetup} (hc : S.c.contig = true → 2 ≤ S.c.nContig ∧ S.c.nContig ≤ 6)
    (h10 : S.c.rule10 = true → S.c.rule10Abdalla = true) (s : Stack) (cnt : List ℚ) :
    ThinAccepted S s ↔ contigOk S s = .ok true ∧ tenOk S s cnt = .ok true := by
  unfold ThinAccepted
  rw [contigOk_true hc, tenOk_true h10]

/-! ### The layouts of the plans -/

theorem dropped_length (sym : Bool) (ref : Stack) (ds : List Nat) : (Spec.dropped sym ref ds).length = ref.length := by
  simp [Spec.dropped]

theorem dropped_get (sym : Bool) (ref : Stack) (ds : List Nat) (j : Nat) : (Spec.dropped sym ref ds)[j]? =
    if j < ref.length ∧ (j ∈ ds ∨ (sym = true ∧ ref.length - 1 - j ∈ ds)) then some (-1) else ref[j]? := by
  unfold Spec.dropped
  rw [List.getElem?_mapIdx]
  by_cases hj : j < ref.length
  · rw [List.getElem?_eq_getElem hj]
    simp only [Option.map_some, hj, true_and]
    split_ifs <;> rfl
  · rw [List.getElem?_eq_none (by omega), if_neg (by tauto)]
    rfl

theorem dropped_snoc {sym : Bool} {ref : Stack} {ds : List Nat} {d : Nat} (hd : d < ref.length) :
    dropPly sym ref.length (Spec.dropped sym ref ds) d = Spec.dropped sym ref (ds ++ [d]) := by
  apply List.ext_getElem?
  intro j
  rw [dropPly_get (dropped_length _ _ _) hd, dropped_get, dropped_get]
  simp only [List.mem_append, List.mem_singleton]
  by_cases hj : j < ref.length
  · have e : (ref.length - 1 - j = d) ↔ j = ref.length - 1 - d := by omega
    simp only [hj, true_and, e]
    by_cases h1 : j = d ∨ (sym = true ∧ j = ref.length - 1 - d)
    · rw [if_pos h1, if_pos (by tauto)]
    · rw [if_neg h1]
      congr 1
      simp only [eq_iff_iff]
      tauto
  · rw [if_neg (by omega), if_neg (by tauto), if_neg (by tauto)]

/-- The dropped plies can be read off the layout. -/
theorem dropped_inj {sym : Bool} {cov : Nat} {ref : Stack} {ds es : List Nat}
    (hd : ∀ d ∈ ds, Spec.Droppable sym cov ref d) (he : ∀ d ∈ es, Spec.Droppable sym cov ref d)
    (h : Spec.dropped sym ref ds = Spec.dropped sym ref es) : ∀ d, d ∈ ds ↔ d ∈ es := by
  have key : ∀ {ds es : List Nat}, (∀ d ∈ ds, Spec.Droppable sym cov ref d) →
      (∀ d ∈ es, Spec.Droppable sym cov ref d) → Spec.dropped sym ref ds = Spec.dropped sym ref es →
      ∀ d, d ∈ ds → d ∈ es := by
    intro ds es hd he h d hds
    obtain ⟨h1, h2, h3⟩ := hd d hds
    have hlt : d < ref.length := by
      split_ifs at h3 <;> omega
    have g1 := dropped_get sym ref ds d
    rw [if_pos ⟨hlt, Or.inl hds⟩, h, dropped_get] at g1
    by_contra hes
    split_ifs at g1 with g2
    · rcases g2.2 with g | ⟨g, g'⟩
      · exact hes g
      · obtain ⟨_, _, e3⟩ := he _ g'
        rw [g] at h3 e3
        simp only [if_true] at h3 e3
        omega
    · exact h1 g1
  exact fun d => ⟨key hd he h d, key he hd h.symm d⟩

theorem mem_dropPositions_iff {c : Cons} {nMax : Nat} {ps : List Nat} (h : dropPositions c nMax = .ok ps) (i : Nat) :
    i ∈ ps ↔ nCov c ≤ i ∧ if c.sym = true then i < nMax / 2 else i + nCov c < nMax := by
  unfold dropPositions at h
  unfold nCov
  cases hc : c.covering <;> rw [hc] at h
  · simp only [Bool.false_eq_true, if_false] at h ⊢
    cases h
    rw [List.mem_range]
    cases hs : c.sym <;> simp
  · simp only [if_true] at h ⊢
    split_ifs at h with h1 h2 h3 h4 <;> (try cases h) <;> rw [List.mem_range'_1] <;>
      simp_all <;> omega

theorem dropPositions_nodup {c : Cons} {nMax : Nat} {ps : List Nat} (h : dropPositions c nMax = .ok ps) :
    ps.length ≤ nMax := by
  unfold dropPositions at h
  split_ifs at h <;> cases h <;> simp <;> omega

/-! ### Plans and nodes -/

/-- The first drops of a plan. -/
def Partial (S : StripSetup) (pdlRef : Stack) (ds : List Nat) : Prop :=
  Spec.DropPlan S.c.sym S.c.bal (nCov S.c) ds.length pdlRef (ThinAccepted S) ds

theorem plan_take {S : StripSetup} {pdlRef : Stack} {ds : List Nat} (h : Partial S pdlRef ds) (k : Nat) :
    Partial S pdlRef (ds.take k) where
  steps := rfl
  once := h.once.sublist (List.take_sublist _ _)
  free := fun d hd => h.free d (List.mem_of_mem_take hd)
  balance := fun hb => by
    rw [List.map_take]
    exact oneByOne_take _ (h.balance hb) k
  accepted := fun j h1 h2 => by
    rw [List.length_take] at h2
    rw [List.take_take, min_eq_left (by omega)]
    exact h.accepted j h1 (by omega)

theorem plan_snoc {S : StripSetup} {pdlRef : Stack} {ds : List Nat} {d : Nat} :
    Partial S pdlRef (ds ++ [d]) ↔ Partial S pdlRef ds ∧ d ∉ ds ∧ Spec.Droppable S.c.sym (nCov S.c) pdlRef d ∧
      (S.c.bal = true → balanceAllows true (queueAfter (ds.map (fun d => pdlRef.getD d 0))) (pdlRef.getD d 0) = true) ∧
      ThinAccepted S (Spec.plies (Spec.dropped S.c.sym pdlRef (ds ++ [d]))) := by
  constructor
  · intro h
    have h0 := plan_take h ds.length
    rw [List.take_left] at h0
    refine ⟨h0, ?_, h.free d (by simp), fun hb => ?_, ?_⟩
    · have := h.once
      rw [List.nodup_append] at this
      exact fun hd => this.2.2 d hd d (by simp) rfl
    · have := h.balance hb
      rw [List.map_append] at this
      exact ((oneByOne_snoc _ _).1 this).2
    · have := h.accepted (ds ++ [d]).length (by simp) le_rfl
      rwa [List.take_length] at this
  · rintro ⟨h, hd, hf, hb, ha⟩
    exact {
      steps := rfl
      once := by
        rw [List.nodup_append]
        refine ⟨h.once, by simp, fun a ham b hbm => ?_⟩
        rw [List.mem_singleton] at hbm
        subst hbm
        exact fun e => hd (e ▸ ham)
      free := fun e he => by
        rcases List.mem_append.1 he with he | he
        · exact h.free e he
        · rw [List.mem_singleton] at he
          subst he
          exact hf
      balance := fun hbal => by
        rw [List.map_append]
        exact (oneByOne_snoc _ _).2 ⟨h.balance hbal, hb hbal⟩
      accepted := fun j h1 h2 => by
        rw [List.length_append, List.length_singleton] at h2
        by_cases e : j ≤ ds.length
        · rw [List.take_append_of_le_length e]
          exact h.accepted j h1 e
        · rw [List.take_of_length_le (by simp; omega)]
          exact ha }

/-- A node reached by the drops `ds`. -/
structure ThinReach (S : StripSetup) (pdlRef : Stack) (cp : Nat) (ds : List Nat) (x : Cand) : Prop where
  drops : ∀ d, d ∈ x.drops ↔ d ∈ ds ∨ (d < (if S.c.sym = true then pdlRef.length / 2 else pdlRef.length) ∧ pdlRef[d]? = some (-1))
  row : x.pdl[cp]? = some (some (Spec.dropped S.c.sym pdlRef ds))
  queue : S.c.bal = true → x.queue = queueAfter (ds.map (fun d => pdlRef.getD d 0))
  plan : Partial S pdlRef ds

theorem thinEval_ok {S : StripSetup} (hc : S.c.contig = true → 2 ≤ S.c.nContig ∧ S.c.nContig ≤ 6)
    (h10 : S.c.rule10 = true → S.c.rule10Abdalla = true) {s : Step} {nMax : Nat} {pdlRef : Stack} {m : Marks} {x : Cand}
    {row : Stack} {r : Option Marks} (h : thinEval S s nMax pdlRef m x = .ok r)
    (hr : x.pdl[s.indPanel]? = some (some row)) : (∃ mk, r = some mk) ↔ ThinAccepted S (Spec.plies row) := by
  unfold thinEval at h
  obtain ⟨row', hrow, h⟩ := bind_ok.1 h
  have e := rowAt_ok hrow
  rw [hr] at e
  have e := Option.some.inj (Option.some.inj e)
  subst e
  obtain ⟨cnt0, _, h⟩ := bind_ok.1 h
  obtain ⟨idx, _, h⟩ := bind_ok.1 h
  obtain ⟨ok1, h1, h⟩ := bind_ok.1 h
  rw [sstRowToSs_eq] at h1
  rw [thinAccepted_iff hc h10 _ (addCount cnt0 idx (if S.c.sym && nMax - x.last - 1 != x.last then -2 else -1))]
  unfold Spec.plies
  cases ok1
  · cases h
    rw [h1]
    simp
  simp only [if_true] at h
  obtain ⟨ok2, h2, h⟩ := bind_ok.1 h
  rw [sstRowToSs_eq] at h2
  cases ok2
  · cases h
    rw [h2]
    simp
  · simp only [if_true] at h
    obtain ⟨mk, _, h⟩ := bind_ok.1 h
    cases h
    rw [h1, h2]
    simp

/-- What a child of a node reached by `ds` looks like. -/
theorem thinChild_reach {S : StripSetup} {pdlRef : Stack} {cp nb : Nat} {ds : List Nat} {m x : Cand}
    (I : ThinInv S pdlRef cp nb m) (R : ThinReach S pdlRef cp ds m)
    (hu : S.r.nPlies.Pairwise (· < ·)) {s : Step} (T : ThinStepOk S.r (perSide S.c.sym) s nb) {d : Nat}
    (hd : d < pdlRef.length)
    (hx : thinChild S s pdlRef.length pdlRef m d = .ok (some x))
    (hp : Partial S pdlRef (ds ++ [d])) : ThinReach S pdlRef s.indPanel (ds ++ [d]) x := by
  have hk : 1 ≤ perSide S.c.sym := by unfold perSide; split_ifs <;> omega
  obtain ⟨hsrc, _⟩ := thin_source I hu hk T
  unfold thinChild at hx
  by_cases hbal : balanceAllows S.c.bal m.queue (pdlRef.getD d 0) = true
  swap
  · rw [if_neg hbal] at hx
    cases hx
  rw [if_pos hbal] at hx
  obtain ⟨row, hrow, hx⟩ := bind_ok.1 hx
  obtain ⟨sp, _, hx⟩ := bind_ok.1 hx
  cases hx
  rw [hsrc] at hrow
  have hrow := rowAt_ok hrow
  rw [R.row] at hrow
  have e := Option.some.inj (Option.some.inj hrow)
  subst e
  have hipl : s.indPanel < m.pdl.length := by
    have := (List.getElem?_eq_some_iff.1 I.refRow).1
    have := T.le
    omega
  refine ⟨fun e => ?_, ?_, fun hb => ?_, hp⟩
  · simp only [List.mem_append, R.drops, List.mem_singleton]
    tauto
  · simp only
    rw [List.getElem?_set, if_pos rfl, if_pos hipl, dropped_snoc hd]
  · simp only
    rw [List.map_append, List.map_singleton, queueAfter_snoc, R.queue hb, hb]

theorem thinChild_accepted {S : StripSetup} {pdlRef : Stack} {m x : Cand} {s : Step} {d : Nat} {nMax : Nat}
    (hx : thinChild S s nMax pdlRef m d = .ok (some x)) :
    balanceAllows S.c.bal m.queue (pdlRef.getD d 0) = true := by
  unfold thinChild at hx
  by_cases hbal : balanceAllows S.c.bal m.queue (pdlRef.getD d 0) = true
  · exact hbal
  · rw [if_neg hbal] at hx
    cases hx

/-- The nodes of every step are reached by plans. -/
theorem thin_sound {S : StripSetup} (hc : S.c.contig = true → 2 ≤ S.c.nContig ∧ S.c.nContig ≤ 6)
    (h10 : S.c.rule10 = true → S.c.rule10Abdalla = true) {pdlRef : Stack} {cp nb : Nat} {ds : List Nat} {m x : Cand}
    (I : ThinInv S pdlRef cp nb m) (R : ThinReach S pdlRef cp ds m)
    (hu : S.r.nPlies.Pairwise (· < ·)) {s : Step} (T : ThinStepOk S.r (perSide S.c.sym) s nb)
    {ps : List Nat} (hps : dropPositions S.c pdlRef.length = .ok ps) {d : Nat} (hd : d ∈ ps) (hfree : d ∉ m.drops)
    (hx : thinChild S s pdlRef.length pdlRef m d = .ok (some x)) {mm mk : Marks}
    (hev : thinEval S s pdlRef.length pdlRef mm x = .ok (some mk)) :
    ThinReach S pdlRef s.indPanel (ds ++ [d]) x := by
  have hlt := (dropPositions_mem hps hd).2.1
  have hpos := (mem_dropPositions_iff hps d).1 hd
  have hnot := fun h => hfree ((R.drops d).2 h)
  have hrow : x.pdl[s.indPanel]? = some (some (Spec.dropped S.c.sym pdlRef (ds ++ [d]))) := by
    have hk : 1 ≤ perSide S.c.sym := by unfold perSide; split_ifs <;> omega
    obtain ⟨hsrc, _⟩ := thin_source I hu hk T
    unfold thinChild at hx
    rw [if_pos (thinChild_accepted hx)] at hx
    obtain ⟨row, hrow, hx⟩ := bind_ok.1 hx
    obtain ⟨sp, _, hx⟩ := bind_ok.1 hx
    cases hx
    rw [hsrc] at hrow
    have hrow := rowAt_ok hrow
    rw [R.row] at hrow
    have e := Option.some.inj (Option.some.inj hrow)
    subst e
    have hipl : s.indPanel < m.pdl.length := by
      have := (List.getElem?_eq_some_iff.1 I.refRow).1
      have := T.le
      omega
    simp only
    rw [List.getElem?_set, if_pos rfl, if_pos hipl, dropped_snoc hlt]
  refine thinChild_reach I R hu T hlt hx (plan_snoc.2 ⟨R.plan, fun h => hnot (Or.inl h), ⟨fun e => ?_, hpos⟩, fun hb => ?_, ?_⟩)
  · refine hnot (Or.inr ⟨?_, e⟩)
    have := hpos.2
    split_ifs at this ⊢ <;> omega
  · have := thinChild_accepted hx
    rw [hb, R.queue hb] at this
    exact this
  · exact (thinEval_ok hc h10 hev hrow).1 ⟨mk, rfl⟩

/-- Two plans with the same layout wait for the same angle. -/
theorem same_plan {S : StripSetup} {pdlRef : Stack} (h90 : (-90 : Int) ∉ pdlRef) {ds es : List Nat}
    (hd : Partial S pdlRef ds) (he : Partial S pdlRef es)
    (h : Spec.dropped S.c.sym pdlRef ds = Spec.dropped S.c.sym pdlRef es) : ds.Perm es ∧ (S.c.bal = true →
      queueAfter (ds.map (fun d => pdlRef.getD d 0)) = queueAfter (es.map (fun d => pdlRef.getD d 0))) := by
  have hp : ds.Perm es := (List.perm_ext_iff_of_nodup hd.once he.once).2 (dropped_inj hd.free he.free h)
  refine ⟨hp, fun hb => queue_perm (hp.map _) (hd.balance hb) (he.balance hb) ?_⟩
  intro hm
  obtain ⟨d, hdm, e⟩ := List.mem_map.1 hm
  obtain ⟨_, _, h3⟩ := hd.free d hdm
  have hlt : d < pdlRef.length := by split_ifs at h3 <;> omega
  rw [List.getD_eq_getElem?_getD, List.getElem?_eq_getElem hlt, Option.getD_some] at e
  exact h90 (e ▸ List.getElem_mem hlt)

theorem dropped_perm {sym : Bool} {ref : Stack} {ds es : List Nat} (h : ds.Perm es) :
    Spec.dropped sym ref ds = Spec.dropped sym ref es := by
  unfold Spec.dropped
  simp only [h.mem_iff]

/-- A node whose layout is that of the plan `ds` has a child for the next drop of the plan. -/
theorem thin_child_exists {S : StripSetup} {pdlRef : Stack} (h90 : (-90 : Int) ∉ pdlRef) {cp : Nat}
    {es ds : List Nat} {d : Nat} {m : Cand} (R : ThinReach S pdlRef cp es m)
    (hrow : Spec.dropped S.c.sym pdlRef es = Spec.dropped S.c.sym pdlRef ds) (hp : Partial S pdlRef (ds ++ [d]))
    {s : Step} {cs : List Cand} (hcs : thinChildren S s pdlRef.length pdlRef m = .ok cs) :
    ∃ x ∈ cs, thinChild S s pdlRef.length pdlRef m d = .ok (some x) := by
  obtain ⟨hpd, hnd, hfr, hbal, hacc⟩ := plan_snoc.1 hp
  obtain ⟨hperm, hq⟩ := same_plan h90 R.plan hpd hrow
  unfold thinChildren at hcs
  obtain ⟨ps, hps, hcs⟩ := bind_ok.1 hcs
  obtain ⟨l, hl, hcs⟩ := bind_ok.1 hcs
  cases hcs
  have hmem : d ∈ ps.filter (fun i => !m.drops.contains i) := by
    rw [List.mem_filter]
    refine ⟨(mem_dropPositions_iff hps d).2 hfr.2, ?_⟩
    simp only [Bool.not_eq_true', List.contains_eq_mem, decide_eq_false_iff_not, R.drops]
    rintro (h | ⟨_, h⟩)
    · exact hnd (hperm.mem_iff.1 h)
    · exact hfr.1 h
  obtain ⟨hlen, hall⟩ := mapM_get hl
  obtain ⟨j, hj, e⟩ := List.getElem_of_mem hmem
  obtain ⟨o, ho, hlo⟩ := hall j d (by rw [List.getElem?_eq_getElem hj, e])
  have hallow : balanceAllows S.c.bal m.queue (pdlRef.getD d 0) = true := by
    by_cases hb : S.c.bal = true
    · rw [hb, R.queue hb, hq hb]
      exact hbal hb
    · simp only [Bool.not_eq_true] at hb
      rw [hb]
      rfl
  have ho' := ho
  unfold thinChild at ho'
  rw [if_pos hallow] at ho'
  obtain ⟨row, _, ho'⟩ := bind_ok.1 ho'
  obtain ⟨sp, _, ho'⟩ := bind_ok.1 ho'
  cases ho'
  exact ⟨_, List.mem_filterMap.2 ⟨_, List.mem_of_getElem? hlo, rfl⟩, ho⟩

theorem thinChildren_length {S : StripSetup} {s : Step} {nMax : Nat} {pdlRef : Stack} {m : Cand} {cs : List Cand}
    (h : thinChildren S s nMax pdlRef m = .ok cs) : cs.length ≤ nMax := by
  unfold thinChildren at h
  obtain ⟨ps, hps, h⟩ := bind_ok.1 h
  obtain ⟨l, hl, h⟩ := bind_ok.1 h
  cases h
  have h1 := dropPositions_nodup hps
  have h2 := (mapM_get hl).1
  have h3 := List.length_filter_le (fun i => !m.drops.contains i) ps
  have h4 := List.length_filterMap_le id l
  omega

/-! ### The loop -/

/-- An invariant of the lists of nodes. -/
theorem beamLoop_all {step : Nat → Step → Bool → List (Cand × Marks) → Py (List (Cand × Marks))}
    {I : Nat → List (Cand × Marks) → Prop} (he : ∀ j, I j [] → I (j + 1) []) :
    ∀ (steps : List Step) (i : Nat) (nodes res : List (Cand × Marks)),
    (∀ (j : Nat) (s : Step) (b : Bool) (ns ns' : List (Cand × Marks)), steps[j]? = some s →
      I (i + j) ns → step (i + j) s b ns = .ok ns' → I (i + j + 1) ns') →
    I i nodes → beamLoop step i steps nodes = .ok res → I (i + steps.length) res := by
  intro steps
  induction steps with
  | nil =>
    intro i nodes res _ h0 h
    cases h
    exact h0
  | cons s rest ih =>
    intro i nodes res hs h0 h
    unfold beamLoop at h
    rw [List.length_cons, show i + (rest.length + 1) = i + 1 + rest.length by omega]
    split_ifs at h with hemp
    · cases h
      rw [List.isEmpty_iff] at hemp
      subst hemp
      have : ∀ k, I (i + k) [] := fun k => by
        induction k with
        | zero => exact h0
        | succ k ihk => exact he _ ihk
      rw [show i + 1 + rest.length = i + (rest.length + 1) by omega]
      exact this _
    · obtain ⟨nodes', h1, h⟩ := bind_ok.1 h
      have h2 := hs 0 s rest.isEmpty nodes nodes' rfl h0 h1
      refine ih (i + 1) nodes' res (fun j s' b ns ns' hj hn hst => ?_) h2 h
      have := hs (j + 1) s' b ns ns' (by simpa using hj) (by rw [show i + (j + 1) = i + 1 + j by omega]; exact hn)
        (by rw [show i + (j + 1) = i + 1 + j by omega]; exact hst)
      rw [show i + (j + 1) + 1 = i + 1 + j + 1 by omega] at this
      exact this

/-- The nodes of step `i` are the layouts of the plans of `i` drops. -/
structure ThinAll (S : StripSetup) (pdlRef : Stack) (i : Nat) (ns : List (Cand × Marks)) : Prop where
  sound : ∀ n ∈ ns, ∃ cp es, ThinInv S pdlRef cp (pliesIn pdlRef - perSide S.c.sym * i) n.1 ∧
    ThinReach S pdlRef cp es n.1 ∧ es.length = i
  complete : ∀ ds, Partial S pdlRef ds → ds.length = i → ∃ n ∈ ns, ∃ cp es,
    ThinInv S pdlRef cp (pliesIn pdlRef - perSide S.c.sym * i) n.1 ∧ ThinReach S pdlRef cp es n.1 ∧
    Spec.dropped S.c.sym pdlRef es = Spec.dropped S.c.sym pdlRef ds
  size : ns.length ≤ pdlRef.length ^ i

theorem thinAll_step {S : StripSetup} (hc : S.c.contig = true → 2 ≤ S.c.nContig ∧ S.c.nContig ≤ 6)
    (h10 : S.c.rule10 = true → S.c.rule10Abdalla = true) {pdlRef : Stack} (h90 : (-90 : Int) ∉ pdlRef)
    (hu : S.r.nPlies.Pairwise (· < ·)) {i : Nat} {s : Step}
    (T : ThinStepOk S.r (perSide S.c.sym) s (pliesIn pdlRef - perSide S.c.sym * i))
    (hlocal : pdlRef.length ≤ S.localLimit) (hglobal : pdlRef.length ^ (i + 1) ≤ S.globalLimit)
    {b : Bool} {ns ns' : List (Cand × Marks)} (A : ThinAll S pdlRef i ns)
    (h : thinStep S pdlRef.length pdlRef i s b ns = .ok ns') : ThinAll S pdlRef (i + 1) ns' := by
  have hsound : ∀ n ∈ ns', ∃ es, ThinInv S pdlRef s.indPanel (pliesIn pdlRef - perSide S.c.sym * (i + 1)) n.1 ∧
      ThinReach S pdlRef s.indPanel es n.1 ∧ es.length = i + 1 := by
    intro n hn
    obtain ⟨m, hm, ⟨ps, p, hps, hp, hfree, hch⟩, mk, hev⟩ := beam_children h n hn
    obtain ⟨cp, es, I, R, hl⟩ := A.sound m hm
    refine ⟨es ++ [p], ?_, thin_sound hc h10 I R hu T hps hp hfree hch hev, by simp [hl]⟩
    have := thinInv_step I hu T hps hp hfree hch (fun row hr => thinEval_passed hev row hr)
    rw [show pliesIn pdlRef - perSide S.c.sym * (i + 1) =
      pliesIn pdlRef - perSide S.c.sym * i - perSide S.c.sym by rw [Nat.mul_succ]; omega]
    exact this
  unfold thinStep at h
  obtain ⟨ls, hls, h⟩ := bind_ok.1 h
  have hlen : ls.flatten.length ≤ pdlRef.length ^ (i + 1) := by
    refine le_trans (mapM_flatten_length (k := pdlRef.length) hls (fun m _ r hr => ?_)) ?_
    · obtain ⟨cs, hcs, hr⟩ := bind_ok.1 hr
      have h1 := thinChildren_length hcs
      exact le_trans (localStage_complete hr (le_trans h1 hlocal)).1 h1
    · rw [Nat.pow_succ]
      exact Nat.mul_le_mul_right _ A.size
  have hdl := dropDuplicates_length S.r.indRef ls.flatten
  have h := Except.ok.inj h
  rw [globalStage_all (by omega)] at h
  refine ⟨fun n hn => ?_, fun ds' hp' hl' => ?_, by rw [← h]; omega⟩
  · obtain ⟨es, h1, h2, h3⟩ := hsound n hn
    exact ⟨_, es, h1, h2, h3⟩
  · obtain ⟨ds, d, rfl⟩ : ∃ ds d, ds' = ds ++ [d] := by
      rcases List.eq_nil_or_concat ds' with e | ⟨l, a, e⟩
      · rw [e] at hl'
        simp at hl'
      · exact ⟨l, a, by simpa using e⟩
    obtain ⟨hpd, _, hfr, _, hacc⟩ := plan_snoc.1 hp'
    obtain ⟨m, hm, cp, es, I, R, hrow⟩ := A.complete ds hpd (by simpa using hl')
    obtain ⟨r, hr, hin⟩ := mapM_flatten_complete hls m hm
    obtain ⟨cs, hcs, hr⟩ := bind_ok.1 hr
    obtain ⟨x, hx, hch⟩ := thin_child_exists h90 R hrow hp' hcs
    have hlt : d < pdlRef.length := by
      have := hfr.2.2
      split_ifs at this <;> omega
    have hperm := (same_plan h90 R.plan hpd hrow).1
    have hxrow : x.pdl[s.indPanel]? = some (some (Spec.dropped S.c.sym pdlRef (ds ++ [d]))) := by
      have hk : 1 ≤ perSide S.c.sym := by unfold perSide; split_ifs <;> omega
      obtain ⟨hsrc, _⟩ := thin_source I hu hk T
      unfold thinChild at hch
      rw [if_pos (thinChild_accepted hch)] at hch
      obtain ⟨row, hrow', hch⟩ := bind_ok.1 hch
      obtain ⟨sp, _, hch⟩ := bind_ok.1 hch
      cases hch
      rw [hsrc] at hrow'
      have hrow' := rowAt_ok hrow'
      rw [R.row] at hrow'
      have e := Option.some.inj (Option.some.inj hrow')
      subst e
      have hipl : s.indPanel < m.1.pdl.length := by
        have := (List.getElem?_eq_some_iff.1 I.refRow).1
        have := T.le
        omega
      simp only
      rw [List.getElem?_set, if_pos rfl, if_pos hipl, hrow, dropped_snoc hlt]
    obtain ⟨⟨o, ho⟩, hkeep⟩ := (localStage_complete hr (le_trans (thinChildren_length hcs) hlocal)).2 x hx
    obtain ⟨mk, rfl⟩ := (thinEval_ok hc h10 ho hxrow).2 hacc
    obtain ⟨m', hm'⟩ := hkeep mk ho
    obtain ⟨y, hy, hyr⟩ := dropDuplicates_twin (k := S.r.indRef) (p := s.indPanel)
      (by have := T.le; omega) (hin _ hm') hxrow
    rw [h] at hy
    obtain ⟨es', h1, h2, h3⟩ := hsound y hy
    refine ⟨y, hy, _, es', h1, h2, ?_⟩
    have := h2.row
    rw [hyr] at this
    exact (Option.some.inj (Option.some.inj this)).symm

theorem thinAll_init {S : StripSetup} {sst : Table} {ss : List Stack} {pdlRef : Stack}
    (C : StripTable S sst ss pdlRef) (lp cnt : List ℚ) :
    ThinAll S pdlRef 0 [thinInit S pdlRef.length pdlRef lp cnt] := by
  obtain ⟨I⟩ : Nonempty (ThinInv S pdlRef S.r.indRef (pliesIn pdlRef - perSide S.c.sym * 0)
      (thinInit S pdlRef.length pdlRef lp cnt).1) := ⟨by
    rw [Nat.mul_zero, Nat.sub_zero]
    exact thinInit_inv C lp cnt⟩
  have R : ThinReach S pdlRef S.r.indRef [] (thinInit S pdlRef.length pdlRef lp cnt).1 := {
    drops := fun d => by
      unfold thinInit
      simp only [List.mem_filter, List.mem_range, beq_iff_eq, List.not_mem_nil, false_or]
      constructor
      · rintro ⟨h1, h2⟩
        have hl : d < pdlRef.length := by split_ifs at h1 <;> omega
        rw [List.getD_eq_getElem?_getD, List.getElem?_eq_getElem hl, Option.getD_some] at h2
        exact ⟨h1, by rw [List.getElem?_eq_getElem hl, h2]⟩
      · rintro ⟨h1, h2⟩
        rw [List.getD_eq_getElem?_getD, h2]
        exact ⟨h1, rfl⟩
    row := by
      have : Spec.dropped S.c.sym pdlRef [] = pdlRef := by
        apply List.ext_getElem?
        intro j
        rw [dropped_get, if_neg (by simp)]
      rw [this]
      exact I.refRow
    queue := fun _ => rfl
    plan := ⟨rfl, List.nodup_nil, fun d hd => by simp at hd, fun _ => trivial, fun j h1 h2 => by simp at h2; omega⟩ }
  refine ⟨fun n hn => ?_, fun ds hp hl => ?_, by simp⟩
  · rw [List.mem_singleton] at hn
    subst hn
    exact ⟨_, [], I, R, rfl⟩
  · rw [List.length_eq_zero_iff] at hl
    subst hl
    exact ⟨_, List.mem_singleton.2 rfl, _, [], I, R, rfl⟩

theorem thinAll_empty {S : StripSetup} {pdlRef : Stack} (j : Nat) (h : ThinAll S pdlRef j []) :
    ThinAll S pdlRef (j + 1) [] := by
  refine ⟨fun n hn => (by cases hn), fun ds hp hl => ?_, by simp⟩
  obtain ⟨n, hn, _⟩ := h.complete (ds.take j) (plan_take hp j) (by simp; omega)
  cases hn

/-- C79: the thick-to-thin repair with node limits above the number of candidates is exhaustive: it succeeds exactly if
there is a plan of ply drops from the reference panel to the thinnest panel that follows the rules.  (The 10% rule, if
required, in its lamination parameter variant.) -/
theorem C79_thick_to_thin_exhaustive (S : StripSetup) (lampams : List (List ℚ)) (sst : Table) (ss : List Stack)
    (pdlRef : Stack) (C : StripTable S sst ss pdlRef) (h90 : (-90 : Int) ∉ pdlRef)
    (hc : S.c.contig = true → 2 ≤ S.c.nContig ∧ S.c.nContig ≤ 6)
    (h10 : S.c.rule10 = true → S.c.rule10Abdalla = true)
    (nRef n0 : Nat) (hRef : S.r.nPlies[S.r.indRef]? = some nRef) (hn0 : S.r.nPlies[0]? = some n0)
    (hlocal : pdlRef.length ≤ S.localLimit) (hglobal : pdlRef.length ^ (nRef - n0) ≤ S.globalLimit)
    (success : Bool) (sst' : Table) (lps : List (List ℚ)) (ss' : List Stack)
    (h : repairThickToThin S lampams sst ss = .ok (success, sst', lps, ss')) :
    success = true ↔ ∃ ds, Spec.DropPlan S.c.sym S.c.bal (if S.c.covering = true then S.c.nCovering else 0)
      (if S.c.sym = true then (nRef - n0) / 2 else nRef - n0) pdlRef (ThinAccepted S) ds := by
  obtain ⟨n0', hn0', hlen, hsteps⟩ := thin_steps C
  rw [hn0] at hn0'
  cases hn0'
  have hc' := C.count
  rw [hRef, ← pliesIn_eq] at hc'
  have hc' := Option.some.inj hc'
  have hk : (if S.c.sym = true then (nRef - n0) / 2 else nRef - n0) = S.r.thin.length := by
    unfold perSide at hlen
    split_ifs at hlen ⊢ <;> omega
  have hle : S.r.thin.length ≤ nRef - n0 := by
    rw [← hk]
    split_ifs <;> omega
  rw [hk]
  have hcov : (if S.c.covering = true then S.c.nCovering else 0) = nCov S.c := rfl
  rw [hcov]
  have hplan : ∀ ds, Spec.DropPlan S.c.sym S.c.bal (nCov S.c) S.r.thin.length pdlRef (ThinAccepted S) ds ↔
      Partial S pdlRef ds ∧ ds.length = S.r.thin.length := by
    intro ds
    constructor
    · intro hd
      refine ⟨?_, hd.steps⟩
      unfold Partial
      rw [hd.steps]
      exact hd
    · rintro ⟨h1, h2⟩
      rw [← h2]
      exact h1
  unfold repairThickToThin at h
  obtain ⟨ssRef, _, h⟩ := bind_ok.1 h
  obtain ⟨pr, hpr, h⟩ := bind_ok.1 h
  rw [pyGet_eq_ok, C.ref] at hpr
  cases hpr
  obtain ⟨nMax, hmax, h⟩ := bind_ok.1 h
  rw [pyGet_eq_ok, C.width] at hmax
  cases hmax
  cases hthin : S.r.thin.isEmpty
  · rw [hthin] at h
    simp only [Bool.false_eq_true, if_false] at h
    obtain ⟨lpRef, _, h⟩ := bind_ok.1 h
    obtain ⟨cnt, _, h⟩ := bind_ok.1 h
    obtain ⟨nodes, hn, h⟩ := bind_ok.1 h
    have A := beamLoop_all (I := fun i ns => ThinAll S pdlRef i ns) thinAll_empty S.r.thin 0 _ nodes (by
      intro j s b ns ns' hj hI hst
      rw [Nat.zero_add] at *
      have hjl := (List.getElem?_eq_some_iff.1 hj).1
      refine thinAll_step hc h10 h90 (strip_sorted C) (hsteps j s hj) hlocal (le_trans ?_ hglobal) hI hst
      rcases Nat.eq_zero_or_pos pdlRef.length with e | e
      · rw [e, Nat.pow_succ, Nat.mul_zero]
        exact Nat.zero_le _
      · exact Nat.pow_le_pow_right e (by omega)) (thinAll_init C lpRef cnt) hn
    simp only [Nat.zero_add] at A
    unfold thinSelect at h
    split at h
    · rename_i hbest
      cases h
      simp only [Bool.false_eq_true, false_iff]
      rintro ⟨ds, hd⟩
      obtain ⟨n, hn', _⟩ := A.complete ds ((hplan ds).1 hd).1 ((hplan ds).1 hd).2
      have hne : nodes.map (fun n => n.2.obj) ≠ [] := by
        intro e
        rw [List.map_eq_nil_iff] at e
        rw [e] at hn'
        cases hn'
      have := (argMin_spec _ hne).1
      rw [List.length_map] at this
      rw [List.getElem?_eq_getElem this] at hbest
      cases hbest
    · rename_i best hbest
      have hsucc : success = true := by
        unfold thinFinish at h
        obtain ⟨sst1, h1, h⟩ := bind_ok.1 h
        obtain ⟨lps1, h2, h⟩ := bind_ok.1 h
        obtain ⟨_, _, h⟩ := bind_ok.1 h
        obtain ⟨_, _, h⟩ := bind_ok.1 h
        obtain ⟨_, _, h⟩ := bind_ok.1 h
        obtain ⟨_, _, h⟩ := bind_ok.1 h
        cases h
        rfl
      refine ⟨fun _ => ?_, fun _ => hsucc⟩
      obtain ⟨cp, es, _, R, hl⟩ := A.sound best (List.mem_of_getElem? hbest)
      exact ⟨es, (hplan es).2 ⟨R.plan, hl⟩⟩
  · rw [hthin] at h
    simp only [if_true] at h
    cases h
    rw [List.isEmpty_iff] at hthin
    simp only [true_iff]
    refine ⟨[], ?_⟩
    rw [hthin]
    exact ⟨rfl, List.nodup_nil, fun d hd => by simp at hd, fun _ => trivial, fun j h1 h2 => by simp at h2; omega⟩

/-! ### Plans of additions -/

/-- The laminates accepted by the thin-to-thick repair: disorientation rule, contiguity rule and, if the 10% rule is
required, its lamination parameter variant. -/
def ThickAccepted (S : StripSetup) (s : Stack) : Prop :=
  (S.c.diso = true → Spec.DisoOK S.c.deltaAngle
    (if S.c.damTol = true ∧ S.c.damTolAttr.twoPlies = true then (s.drop 1).dropLast else s)) ∧ ThinAccepted S s

theorem disoOk_true {S : StripSetup} {s : Stack} (hs : ∀ y ∈ s, -90 ≤ y ∧ y ≤ 90) {r : Bool} (h : disoOk S s = .ok r) :
    r = true ↔ (S.c.diso = true → Spec.DisoOK S.c.deltaAngle
      (if S.c.damTol = true ∧ S.c.damTolAttr.twoPlies = true then (s.drop 1).dropLast else s)) := by
  unfold disoOk at h
  by_cases hd : S.c.diso = true
  · rw [if_pos hd] at h
    obtain ⟨q, hq, h⟩ := bind_ok.1 h
    have e := Except.ok.inj h
    by_cases hne : (if S.c.damTol = true ∧ S.c.damTolAttr.twoPlies = true then 3 else 1) ≤ s.length
    · rw [C03_penalty_exact _ _ _ _ hs hne] at hq
      have := disoViolations_eq_zero S.c.deltaAngle
        (if S.c.damTol = true ∧ S.c.damTolAttr.twoPlies = true then (s.drop 1).dropLast else s)
      rw [Except.ok.inj hq] at this
      rw [← e, beq_iff_eq, this]
      exact ⟨fun h _ => h, fun h => h hd⟩
    · exfalso
      unfold calcNPenaltyDisoSs at hq
      obtain ⟨row, hrow, _⟩ := bind_ok.1 hq
      have hz : (trimDamTol s S.c.damTol S.c.damTolAttr).length = 0 := by
        unfold trimDamTol trimEnds
        split_ifs at hne with hh
        · rw [if_pos hh.1, if_pos hh.2]
          simp
          omega
        · have : s.length = 0 := by omega
          have e0 : s = [] := List.length_eq_zero_iff.1 this
          rw [e0]
          split_ifs <;> rfl
      unfold violaDisoRow at hrow
      rw [if_pos hz] at hrow
      cases hrow
  · rw [if_neg hd] at h
    have e := Except.ok.inj h
    rw [← e]
    simp [hd]

theorem added_eq {sym : Bool} {row : Stack} {i : Nat} {a : Int} (hi : sym = true → i ≤ row.length / 2) :
    insertSym sym row.length row i a = Spec.added sym row (i, a) := by
  unfold insertSym Spec.added insertPly
  cases sym
  · simp
  · have hi := hi rfl
    have hl : (row.take i).length = i := by simp; omega
    have e1 : row.length - i + 1 - i = (row.length - 2 * i) + 1 := by omega
    simp only [if_true]
    rw [List.take_append, List.drop_append, hl, e1, List.take_of_length_le (l := row.take i) (by omega),
      List.drop_eq_nil_of_le (as := row.take i) (by omega), List.take_succ_cons, List.drop_succ_cons, List.drop_drop,
      show i + (row.length - 2 * i) = row.length - i by omega]
    simp

theorem added_length {sym : Bool} {row : Stack} {p : Nat × Int} (hi : if sym = true then p.1 ≤ row.length / 2 else p.1 ≤ row.length) :
    (Spec.added sym row p).length = row.length + perSide sym := by
  unfold Spec.added perSide
  cases sym
  · simp only [Bool.false_eq_true, if_false] at hi ⊢
    simp
    omega
  · simp only [if_true] at hi ⊢
    simp
    omega

theorem mem_addPositions_iff {c : Cons} {n : Nat} {ps : List Nat} (h : addPositions c n = .ok ps) (i : Nat) :
    i ∈ ps ↔ Spec.Addable c.sym (nCov c) n i := by
  unfold addPositions at h
  unfold nCov Spec.Addable
  cases hc : c.covering <;> rw [hc] at h
  · simp only [Bool.false_eq_true, if_false] at h ⊢
    cases h
    rw [List.mem_range]
    cases hs : c.sym <;> simp <;> omega
  · simp only [if_true] at h ⊢
    split_ifs at h with h1 h2 h3 h4 <;> (try cases h) <;> rw [List.mem_range'_1] <;>
      simp_all <;> omega

theorem addPositions_length {c : Cons} {n : Nat} {ps : List Nat} (h : addPositions c n = .ok ps) :
    ps.length ≤ n + 1 := by
  unfold addPositions at h
  split_ifs at h <;> cases h <;> simp <;> omega

/-- The first additions of a plan. -/
def PartialAdd (S : StripSetup) (ref : Stack) (ps : List (Nat × Int)) : Prop :=
  Spec.AddPlan S.c.sym S.c.bal (nCov S.c) ps.length S.c.angles ref (ThickAccepted S) ps

theorem addPlan_take {S : StripSetup} {ref : Stack} {ps : List (Nat × Int)} (h : PartialAdd S ref ps) (k : Nat) :
    PartialAdd S ref (ps.take k) where
  steps := rfl
  free := fun j p hj => by
    rw [List.getElem?_take] at hj
    split_ifs at hj with hjk
    · rw [List.take_take, min_eq_left (by omega)]
      exact h.free j p hj
  balance := fun hb => by
    rw [List.map_take]
    exact oneByOne_take _ (h.balance hb) k
  accepted := fun j h1 h2 => by
    rw [List.length_take] at h2
    rw [List.take_take, min_eq_left (by omega)]
    exact h.accepted j h1 (by omega)

theorem addPlan_snoc {S : StripSetup} {ref : Stack} {ps : List (Nat × Int)} {p : Nat × Int} :
    PartialAdd S ref (ps ++ [p]) ↔ PartialAdd S ref ps ∧
      (p.2 ∈ S.c.angles ∧ Spec.Addable S.c.sym (nCov S.c) (ps.foldl (Spec.added S.c.sym) ref).length p.1) ∧
      (S.c.bal = true → balanceAllows true (queueAfter (ps.map Prod.snd)) p.2 = true) ∧
      ThickAccepted S ((ps ++ [p]).foldl (Spec.added S.c.sym) ref) := by
  constructor
  · intro h
    have h0 := addPlan_take h ps.length
    rw [List.take_left] at h0
    refine ⟨h0, ?_, fun hb => ?_, ?_⟩
    · have := h.free ps.length p (by simp)
      rwa [List.take_left] at this
    · have := h.balance hb
      rw [List.map_append] at this
      exact ((oneByOne_snoc _ _).1 this).2
    · have := h.accepted (ps ++ [p]).length (by simp) le_rfl
      rwa [List.take_length] at this
  · rintro ⟨h, hf, hb, ha⟩
    exact {
      steps := rfl
      free := fun j q hj => by
        by_cases e : j < ps.length
        · rw [List.getElem?_append_left e] at hj
          rw [List.take_append_of_le_length e.le]
          exact h.free j q hj
        · rw [List.getElem?_append_right (by omega), List.getElem?_singleton] at hj
          split_ifs at hj with e'
          cases hj
          rw [show j = ps.length by omega, List.take_left]
          exact hf
      balance := fun hbal => by
        rw [List.map_append]
        exact (oneByOne_snoc _ _).2 ⟨h.balance hbal, hb hbal⟩
      accepted := fun j h1 h2 => by
        rw [List.length_append, List.length_singleton] at h2
        by_cases e : j ≤ ps.length
        · rw [List.take_append_of_le_length e]
          exact h.accepted j h1 e
        · rw [List.take_of_length_le (by simp; omega)]
          exact ha }

/-- A node reached by the additions `ps`. -/
structure ThickReach (S : StripSetup) (ref : Stack) (cp : Nat) (ps : List (Nat × Int)) (x : Cand) : Prop where
  row : x.pdl[cp]? = some (some (ps.foldl (Spec.added S.c.sym) ref))
  queue : S.c.bal = true → x.queue = queueAfter (ps.map Prod.snd)
  plan : PartialAdd S ref ps

theorem thickEval_ok {S : StripSetup} (hc : S.c.contig = true → 2 ≤ S.c.nContig ∧ S.c.nContig ≤ 6)
    (h10 : S.c.rule10 = true → S.c.rule10Abdalla = true) {s : Step} {m : Marks} {x : Cand}
    {row : Stack} {r : Option Marks} (h : thickEval S s m x = .ok r)
    (hr : x.pdl[s.indPanel]? = some (some row)) (hno : (-1 : Int) ∉ row) (hrange : ∀ y ∈ row, -90 ≤ y ∧ y ≤ 90) :
    (∃ mk, r = some mk) ↔ ThickAccepted S row := by
  have hrow' : sstRowToSs row = row := by
    rw [sstRowToSs_eq, List.filter_eq_self]
    intro y hy
    simpa using fun e : y = -1 => hno (e ▸ hy)
  unfold thickEval at h
  obtain ⟨row', hrow, h⟩ := bind_ok.1 h
  have e := rowAt_ok hrow
  rw [hr] at e
  have e := Option.some.inj (Option.some.inj e)
  subst e
  obtain ⟨ok0, h0, h⟩ := bind_ok.1 h
  obtain ⟨ok1, h1, h⟩ := bind_ok.1 h
  rw [hrow'] at h0 h1 h
  have d0 := disoOk_true hrange h0
  have d1 := contigOk_true hc row
  rw [h1] at d1
  unfold ThickAccepted ThinAccepted
  rw [← d0, ← d1]
  cases ok0
  · cases h
    simp
  cases ok1
  · cases h
    simp
  simp only [Bool.and_self, if_true] at h
  obtain ⟨cnt0, _, h⟩ := bind_ok.1 h
  obtain ⟨a, _, h⟩ := bind_ok.1 h
  obtain ⟨idx, _, h⟩ := bind_ok.1 h
  obtain ⟨ok2, h2, h⟩ := bind_ok.1 h
  have d2 := tenOk_true h10 row (addCount cnt0 idx (if S.c.sym = true then 2 else 1))
  rw [h2] at d2
  rw [← d2]
  cases ok2
  · cases h
    simp
  · simp only [if_true] at h
    obtain ⟨mk, _, h⟩ := bind_ok.1 h
    cases h
    simp

/-- The layout of a child. -/
theorem thickChild_row {S : StripSetup} {base : Table} {ref : Stack} {cp nb : Nat} {ps : List (Nat × Int)} {m x : Cand}
    (I : ThickInv S base cp nb m) (R : ThickReach S ref cp ps m)
    (hu : S.r.nPlies.Pairwise (· < ·)) {s : Step} (T : ThickStepOk S.r (perSide S.c.sym) s nb) {p : Nat × Int}
    (hp : S.c.sym = true → p.1 ≤ nb / 2) (hx : thickChild S s nb m p = .ok x) :
    x.pdl[s.indPanel]? = some (some ((ps ++ [p]).foldl (Spec.added S.c.sym) ref)) ∧
    (ps.foldl (Spec.added S.c.sym) ref).length = nb ∧ x.queue = nextQueue S.c.bal m.queue p.2 := by
  have hk : 1 ≤ perSide S.c.sym := by unfold perSide; split_ifs <;> omega
  obtain ⟨hsrc, hle1, hle2, hnew⟩ := thick_source I hu hk T
  unfold thickChild at hx
  obtain ⟨pdl, hpdl, hx⟩ := bind_ok.1 hx
  obtain ⟨sp, _, hx⟩ := bind_ok.1 hx
  cases hx
  obtain ⟨lo, hi', t1, t2, t3, t4, t5⟩ := T.ex
  have hlt : s.indPanel < m.pdl.length := by
    rw [I.len]
    exact (List.getElem?_eq_some_iff.1 t2).1
  obtain ⟨hlen, ⟨cur, hcur, hnew'⟩, hthin⟩ := addLayout_ok hpdl hlt
  rw [hsrc, R.row] at hcur
  have e := Option.some.inj (Option.some.inj hcur)
  obtain ⟨row0, b0, q1, q2, q3, _⟩ := I.rows cp le_rfl
  rw [R.row] at q1
  have e' := Option.some.inj (Option.some.inj q1)
  rw [← e'] at q3
  refine ⟨?_, q3, rfl⟩
  rw [hnew', ← e, List.foldl_append, List.foldl_cons, List.foldl_nil]
  congr 2
  rw [← added_eq (by rw [q3]; exact hp), q3]

theorem thick_row_range {S : StripSetup} {ref : Stack} (hang : ∀ y ∈ ref, y ∈ S.c.angles) : ∀ (ps : List (Nat × Int)),
    (∀ p ∈ ps, p.2 ∈ S.c.angles) → ∀ y ∈ ps.foldl (Spec.added S.c.sym) ref, y ∈ S.c.angles := by
  intro ps
  induction ps using List.reverseRecOn with
  | nil => intro _ y hy; exact hang y hy
  | append_singleton t p ih =>
    intro hp y hy
    rw [List.foldl_append, List.foldl_cons, List.foldl_nil] at hy
    have h1 := ih (fun q hq => hp q (by simp [hq]))
    have h2 := hp p (by simp)
    revert h1 hy
    generalize t.foldl (Spec.added S.c.sym) ref = row
    intro hy h1
    unfold Spec.added at hy
    split_ifs at hy
    · simp only [List.mem_append, List.mem_singleton] at hy
      rcases hy with (((hy | hy) | hy) | hy) | hy
      · exact h1 y (List.mem_of_mem_take hy)
      · rw [hy]; exact h2
      · exact h1 y (List.mem_of_mem_drop (List.mem_of_mem_take hy))
      · rw [hy]; exact h2
      · exact h1 y (List.mem_of_mem_drop hy)
    · simp only [List.mem_append, List.mem_singleton] at hy
      rcases hy with (hy | hy) | hy
      · exact h1 y (List.mem_of_mem_take hy)
      · rw [hy]; exact h2
      · exact h1 y (List.mem_of_mem_drop hy)

theorem partial_angles {S : StripSetup} {ref : Stack} {ps : List (Nat × Int)} (h : PartialAdd S ref ps) :
    ∀ p ∈ ps, p.2 ∈ S.c.angles := by
  intro p hp
  obtain ⟨j, hj, e⟩ := List.getElem_of_mem hp
  exact (h.free j p (by rw [List.getElem?_eq_getElem hj, e])).1

theorem thickChildren_length {S : StripSetup} {s : Step} {n : Nat} {m : Cand} {cs : List Cand}
    (h : thickChildren S s n m = .ok cs) : cs.length ≤ (n + 1) * S.c.angles.length := by
  unfold thickChildren at h
  obtain ⟨ps, hps, h⟩ := bind_ok.1 h
  have h1 := addPositions_length hps
  rw [(mapM_get h).1, List.length_flatMap]
  have h2 : (addAngles S.c m.queue).length ≤ S.c.angles.length := List.length_filter_le _ _
  simp only [List.length_map, List.map_const', List.sum_replicate]
  exact Nat.mul_le_mul h1 h2

/-- The nodes of step `i` are the layouts of the plans of `i` additions. -/
structure ThickAll (S : StripSetup) (base : Table) (ref : Stack) (n0 k i : Nat) (ns : List (Cand × Marks)) : Prop where
  sound : ∀ n ∈ ns, ∃ cp es, ThickInv S base cp (n0 + perSide S.c.sym * i) n.1 ∧
    ThickReach S ref cp es n.1 ∧ es.length = i
  complete : ∀ ps, PartialAdd S ref ps → ps.length = i → ∃ n ∈ ns, ∃ cp,
    ThickInv S base cp (n0 + perSide S.c.sym * i) n.1 ∧ ThickReach S ref cp ps n.1
  size : ns.length ≤ k ^ i

theorem thickAll_step {S : StripSetup} (hc : S.c.contig = true → 2 ≤ S.c.nContig ∧ S.c.nContig ≤ 6)
    (h10 : S.c.rule10 = true → S.c.rule10Abdalla = true) {base : Table} {ref : Stack}
    (hang : ∀ y ∈ ref, y ∈ S.c.angles) (hrange : ∀ y ∈ S.c.angles, -90 ≤ y ∧ y ≤ 90) (hm1 : (-1 : Int) ∉ S.c.angles)
    (hu : S.r.nPlies.Pairwise (· < ·)) {n0 k i : Nat} {s : Step}
    (T : ThickStepOk S.r (perSide S.c.sym) s (n0 + perSide S.c.sym * i))
    (hk : (n0 + perSide S.c.sym * i + 1) * S.c.angles.length ≤ k)
    (hlocal : k ≤ S.localLimit) (hglobal : k ^ (i + 1) ≤ S.globalLimit)
    {b : Bool} {ns ns' : List (Cand × Marks)} (A : ThickAll S base ref n0 k i ns)
    (h : thickStep S n0 i s b ns = .ok ns') : ThickAll S base ref n0 k (i + 1) ns' := by
  have hchild : ∀ {m x : Cand} {cp : Nat} {es : List (Nat × Int)} {ps : List Nat} {p : Nat × Int},
      ThickInv S base cp (n0 + perSide S.c.sym * i) m → ThickReach S ref cp es m →
      addPositions S.c (n0 + perSide S.c.sym * i) = .ok ps → p.1 ∈ ps → p.2 ∈ addAngles S.c m.queue →
      thickChild S s (n0 + perSide S.c.sym * i) m p = .ok x → ∀ {mm mk : Marks}, thickEval S s mm x = .ok (some mk) →
      ThickInv S base s.indPanel (n0 + perSide S.c.sym * (i + 1)) x ∧ ThickReach S ref s.indPanel (es ++ [p]) x := by
    intro m x cp es ps p I R hps hp ha hch mm mk hev
    have hI := thickInv_step I hu T hm1 hps (i := p.1) (a := p.2) hp ha hch
      (fun row hr => thickEval_passed hev row hr) sstRowToSs_eq
    have hmem := (mem_addPositions_iff hps p.1).1 hp
    obtain ⟨hrow, hlen, hq⟩ := thickChild_row I R hu T (p := p)
      (fun hs => by have := hmem.2; rwa [if_pos hs] at this) hch
    obtain ⟨ha1, ha2⟩ := List.mem_filter.1 ha
    have hes := partial_angles R.plan
    have hin := thick_row_range hang (es ++ [p]) (fun q hq => by
      rcases List.mem_append.1 hq with hq | hq
      · exact hes q hq
      · rw [List.mem_singleton] at hq
        rw [hq]
        exact ha1)
    rw [Nat.mul_succ, ← Nat.add_assoc]
    refine ⟨hI, hrow, fun hb => ?_, addPlan_snoc.2 ⟨R.plan, ⟨ha1, by rw [hlen]; exact hmem⟩, fun hb => ?_, ?_⟩⟩
    · rw [hq, List.map_append, List.map_singleton, queueAfter_snoc, R.queue hb, hb]
    · rw [hb, R.queue hb] at ha2
      exact ha2
    · exact (thickEval_ok hc h10 hev hrow (fun h => hm1 (hin _ h)) (fun y hy => hrange y (hin y hy))).1 ⟨mk, rfl⟩
  have hsound : ∀ n ∈ ns', ∃ cp es, ThickInv S base cp (n0 + perSide S.c.sym * (i + 1)) n.1 ∧
      ThickReach S ref cp es n.1 ∧ es.length = i + 1 := by
    intro n hn
    obtain ⟨m, hm, ⟨ps, p, a, hps, hp, ha, hch⟩, mk, hev⟩ := beam_children_thick h n hn
    obtain ⟨cp, es, I, R, hl⟩ := A.sound m hm
    obtain ⟨h1, h2⟩ := hchild I R hps (p := (p, a)) hp ha hch hev
    exact ⟨_, _, h1, h2, by simp [hl]⟩
  unfold thickStep at h
  obtain ⟨ls, hls, h⟩ := bind_ok.1 h
  have hlen : ls.flatten.length ≤ k ^ (i + 1) := by
    refine le_trans (mapM_flatten_length (k := k) hls (fun m _ r hr => ?_)) ?_
    · obtain ⟨cs, hcs, hr⟩ := bind_ok.1 hr
      have h1 := le_trans (thickChildren_length hcs) hk
      exact le_trans (localStage_complete hr (le_trans h1 hlocal)).1 h1
    · rw [Nat.pow_succ]
      exact Nat.mul_le_mul_right _ A.size
  have h := Except.ok.inj h
  rw [globalStage_all (by omega)] at h
  refine ⟨hsound, fun ps' hp' hl' => ?_, by rw [← h]; omega⟩
  obtain ⟨ps, p, rfl⟩ : ∃ ps p, ps' = ps ++ [p] := by
    rcases List.eq_nil_or_concat ps' with e | ⟨l, a, e⟩
    · rw [e] at hl'
      simp at hl'
    · exact ⟨l, a, by simpa using e⟩
  obtain ⟨hpd, hfr, hbal, hacc⟩ := addPlan_snoc.1 hp'
  obtain ⟨m, hm, cp, I, R⟩ := A.complete ps hpd (by simpa using hl')
  obtain ⟨r, hr, hin⟩ := mapM_flatten_complete hls m hm
  obtain ⟨cs, hcs, hr⟩ := bind_ok.1 hr
  have hcs' := hcs
  unfold thickChildren at hcs'
  obtain ⟨pos, hpos, hcs'⟩ := bind_ok.1 hcs'
  obtain ⟨row0, b0, q1, q2, q3, _⟩ := I.rows cp le_rfl
  rw [R.row] at q1
  rw [← Option.some.inj (Option.some.inj q1)] at q3
  rw [q3] at hfr
  have hp1 : p.1 ∈ pos := (mem_addPositions_iff hpos p.1).2 hfr.2
  have hp2 : p.2 ∈ addAngles S.c m.1.queue := by
    refine List.mem_filter.2 ⟨hfr.1, ?_⟩
    by_cases hb : S.c.bal = true
    · rw [hb, R.queue hb]
      exact hbal hb
    · simp only [Bool.not_eq_true] at hb
      rw [hb]
      rfl
  have hmem : p ∈ pos.flatMap (fun i => (addAngles S.c m.1.queue).map (fun a => (i, a))) :=
    List.mem_flatMap.2 ⟨p.1, hp1, List.mem_map.2 ⟨p.2, hp2, rfl⟩⟩
  obtain ⟨j, hj, e⟩ := List.getElem_of_mem hmem
  obtain ⟨x, hx, hlx⟩ := (mapM_get hcs').2 j p (by rw [List.getElem?_eq_getElem hj, e])
  have hxc := List.mem_of_getElem? hlx
  obtain ⟨⟨o, ho⟩, hkeep⟩ := (localStage_complete hr (le_trans (le_trans (thickChildren_length hcs) hk) hlocal)).2 x hxc
  obtain ⟨hrow, _, _⟩ := thickChild_row I R hu T (p := p)
    (fun hs => by have := hfr.2.2; rwa [if_pos hs] at this) hx
  have hinr := thick_row_range hang (ps ++ [p]) (partial_angles hp')
  obtain ⟨mk, rfl⟩ := (thickEval_ok hc h10 ho hrow (fun h => hm1 (hinr _ h)) (fun y hy => hrange y (hinr y hy))).2 hacc
  obtain ⟨m', hm'⟩ := hkeep mk ho
  obtain ⟨h1, h2⟩ := hchild I R hpos hp1 hp2 hx ho
  exact ⟨(x, m'), by rw [← h]; exact hin _ hm', _, h1, h2⟩

theorem thickAll_empty {S : StripSetup} {base : Table} {ref : Stack} {n0 k : Nat} (j : Nat)
    (h : ThickAll S base ref n0 k j []) : ThickAll S base ref n0 k (j + 1) [] := by
  refine ⟨fun n hn => (by cases hn), fun ds hp hl => ?_, by simp⟩
  obtain ⟨n, hn, _⟩ := h.complete (ds.take j) (addPlan_take hp j) (by simp; omega)
  cases hn

/-- C79: the thin-to-thick repair with node limits above the number of candidates is exhaustive: it succeeds exactly if
there is a plan of ply additions from the reference panel to the thickest panel that follows the rules.  (The 10% rule,
if required, in its lamination parameter variant.) -/
theorem C79_thin_to_thick_exhaustive (a : ConsArgs) (S : StripSetup) (lampams : List (List ℚ)) (sst : Table)
    (ss : List Stack) (pdlRef : Stack) (hcons : mkConstraints a = .ok S.c) (D : DesignedStrip S sst ss pdlRef)
    (hang : ∀ x ∈ pdlRef, x ≠ -1 → x ∈ S.c.angles)
    (hc : S.c.contig = true → 2 ≤ S.c.nContig ∧ S.c.nContig ≤ 6)
    (h10 : S.c.rule10 = true → S.c.rule10Abdalla = true)
    (hlocal : pdlRef.length * S.c.angles.length ≤ S.localLimit)
    (hglobal : (pdlRef.length * S.c.angles.length) ^ pdlRef.length ≤ S.globalLimit)
    (success : Bool) (sst' : Table) (lps : List (List ℚ)) (ss' : List Stack)
    (h : repairThinToThick S lampams sst ss = .ok (success, sst', lps, ss')) :
    success = true ↔ ∃ ps, Spec.AddPlan S.c.sym S.c.bal (if S.c.covering = true then S.c.nCovering else 0)
      (if S.c.sym = true then (pdlRef.length - (Spec.plies pdlRef).length) / 2
        else pdlRef.length - (Spec.plies pdlRef).length)
      S.c.angles (Spec.plies pdlRef) (ThickAccepted S) ps := by
  have C := D.toStripTable
  obtain ⟨hlen, hsteps⟩ := thick_steps C
  have hpl : (Spec.plies pdlRef).length = pliesIn pdlRef := (pliesIn_eq pdlRef).symm
  have hk : (if S.c.sym = true then (pdlRef.length - (Spec.plies pdlRef).length) / 2
        else pdlRef.length - (Spec.plies pdlRef).length) = S.r.thick.length := by
    rw [hpl]
    unfold perSide at hlen
    split_ifs at hlen ⊢ <;> omega
  have hle : S.r.thick.length ≤ pdlRef.length := by
    rw [← hk]
    split_ifs <;> omega
  rw [hk]
  have hcov : (if S.c.covering = true then S.c.nCovering else 0) = nCov S.c := rfl
  rw [hcov]
  have hplan : ∀ ps, Spec.AddPlan S.c.sym S.c.bal (nCov S.c) S.r.thick.length S.c.angles (Spec.plies pdlRef)
      (ThickAccepted S) ps ↔ PartialAdd S (Spec.plies pdlRef) ps ∧ ps.length = S.r.thick.length := by
    intro ds
    constructor
    · intro hd
      refine ⟨?_, hd.steps⟩
      unfold PartialAdd
      rw [hd.steps]
      exact hd
    · rintro ⟨h1, h2⟩
      rw [← h2]
      exact h1
  have hangles : ∀ y ∈ Spec.plies pdlRef, y ∈ S.c.angles := by
    intro y hy
    obtain ⟨h1, h2⟩ := List.mem_filter.1 hy
    exact hang y h1 (by simpa using h2)
  have hrange : ∀ y ∈ S.c.angles, -90 ≤ y ∧ y ≤ 90 := fun y hy => by
    have := (C14_angles a S.c hcons).2.2.2.2.1 y hy
    omega
  have hnil : PartialAdd S (Spec.plies pdlRef) [] :=
    ⟨rfl, fun j p hj => by simp at hj, fun _ => trivial, fun j h1 h2 => by simp at h2; omega⟩
  unfold repairThinToThick at h
  obtain ⟨ssRef, _, h⟩ := bind_ok.1 h
  obtain ⟨nMax, hmax, h⟩ := bind_ok.1 h
  obtain ⟨nRef, hnref, h⟩ := bind_ok.1 h
  rw [pyGet_eq_ok, C.count, ← pliesIn_eq] at hnref
  cases hnref
  obtain ⟨pr, hpr, h⟩ := bind_ok.1 h
  rw [pyGet_eq_ok, C.ref] at hpr
  cases hpr
  cases hthick : S.r.thick.isEmpty
  · rw [hthick] at h
    simp only [Bool.false_eq_true, if_false] at h
    obtain ⟨cnt, _, h⟩ := bind_ok.1 h
    obtain ⟨nodes, hn, h⟩ := bind_ok.1 h
    have hI := thickInit_inv D lampams cnt
    have hR : ThickReach S (Spec.plies pdlRef) S.r.indRef [] (thickInit S (cleanTable pdlRef sst) lampams cnt).1 := by
      refine ⟨?_, fun _ => rfl, hnil⟩
      unfold thickInit
      have hl := C.nSst
      have hlt : S.r.indRef < S.r.nPlies.length := (List.getElem?_eq_some_iff.1 C.count).1
      rw [List.getElem?_append_left (by simp [cleanTable]; omega), List.getElem?_map, List.getElem?_take,
        if_pos (by omega), cleanTable_get, C.ref]
      change some (some (cleanRow pdlRef pdlRef)) = _
      rw [cleanRow_self]
      rfl
    have hinit : ThickAll S (cleanTable pdlRef sst) (Spec.plies pdlRef) (pliesIn pdlRef)
        (pdlRef.length * S.c.angles.length) 0 [thickInit S (cleanTable pdlRef sst) lampams cnt] := by
      refine ⟨fun n hn => ?_, fun ds hp hl => ?_, by simp⟩
      · rw [List.mem_singleton] at hn
        subst hn
        exact ⟨_, [], by simpa using hI, hR, rfl⟩
      · rw [List.length_eq_zero_iff] at hl
        subst hl
        exact ⟨_, List.mem_singleton.2 rfl, _, by simpa using hI, hR⟩
    have A := beamLoop_all (I := fun i ns => ThickAll S (cleanTable pdlRef sst) (Spec.plies pdlRef) (pliesIn pdlRef)
      (pdlRef.length * S.c.angles.length) i ns) thickAll_empty S.r.thick 0 _ nodes (by
      intro j s b ns ns' hj hI hst
      rw [Nat.zero_add] at *
      have hjl := (List.getElem?_eq_some_iff.1 hj).1
      have hkk : 1 ≤ perSide S.c.sym := by unfold perSide; split_ifs <;> omega
      have hb : pliesIn pdlRef + perSide S.c.sym * j + 1 ≤ pdlRef.length := by
        have := Nat.mul_le_mul_left (perSide S.c.sym) (Nat.succ_le_of_lt hjl)
        rw [Nat.mul_succ] at this
        omega
      refine thickAll_step hc h10 hangles hrange D.noMinusOne (strip_sorted C) (hsteps j s hj)
        (Nat.mul_le_mul_right _ hb) hlocal (le_trans ?_ hglobal) hI hst
      rcases Nat.eq_zero_or_pos (pdlRef.length * S.c.angles.length) with e | e
      · rw [e, Nat.pow_succ, Nat.mul_zero]
        exact Nat.zero_le _
      · exact Nat.pow_le_pow_right e (by omega)) hinit hn
    simp only [Nat.zero_add] at A
    unfold thickSelect at h
    split at h
    · rename_i hbest
      cases h
      simp only [Bool.false_eq_true, false_iff]
      rintro ⟨ds, hd⟩
      obtain ⟨n, hn', _⟩ := A.complete ds ((hplan ds).1 hd).1 ((hplan ds).1 hd).2
      have hne : nodes.map (fun n => n.2.obj) ≠ [] := by
        intro e
        rw [List.map_eq_nil_iff] at e
        rw [e] at hn'
        cases hn'
      have := (argMin_spec _ hne).1
      rw [List.length_map] at this
      rw [List.getElem?_eq_getElem this] at hbest
      cases hbest
    · rename_i best hbest
      have hsucc : success = true := by
        unfold thickFinish at h
        obtain ⟨sst1, h1, h⟩ := bind_ok.1 h
        obtain ⟨lps1, h2, h⟩ := bind_ok.1 h
        obtain ⟨_, _, h⟩ := bind_ok.1 h
        obtain ⟨_, _, h⟩ := bind_ok.1 h
        obtain ⟨_, _, h⟩ := bind_ok.1 h
        obtain ⟨_, _, h⟩ := bind_ok.1 h
        cases h
        rfl
      refine ⟨fun _ => ?_, fun _ => hsucc⟩
      obtain ⟨cp, es, _, R, hl⟩ := A.sound best (List.mem_of_getElem? hbest)
      exact ⟨es, (hplan es).2 ⟨R.plan, hl⟩⟩
  · rw [hthick] at h
    simp only [if_true] at h
    cases h
    rw [List.isEmpty_iff] at hthick
    simp only [true_iff]
    refine ⟨[], ?_⟩
    rw [hthick]
    exact hnil

/-! ### The spacing penalty of a strip -/

theorem stripSpacing1_eq {c : Cons} {r : Reduced} {pdl : List (Option Stack)} {b : Nat × Nat} {p : ℚ}
    (h : stripSpacing1 c r pdl b = .ok p) :
    p = Spec.stripBoundaryPenalty c.minDrop (fun b => (r.boundaryWeights.lookup b).getD 0) pdl b := by
  unfold stripSpacing1 at h
  unfold Spec.stripBoundaryPenalty
  split at h
  · rename_i l1 l2 e1 e2
    rw [e1, e2]
    simp only [Option.join_some]
    split_ifs at h ⊢ with hl
    · exact (Except.ok.inj h).symm
    · obtain ⟨w, hw, h⟩ := bind_ok.1 h
      obtain ⟨q, hq, h⟩ := bind_ok.1 h
      have hne : spacingLayout l1 l2 ≠ [] := by
        intro e
        rw [e] at hq
        simp [calcPenaltySpacing1ss] at hq
      rw [C10_penalty_exact _ _ hne] at hq
      rw [dictGet_eq_ok] at hw
      rw [← Except.ok.inj h, ← Except.ok.inj hq, spacingLayout_eq, hw]
      rfl
  · rename_i hno
    have h := Except.ok.inj h
    rw [← h]
    split
    · rename_i l1 l2 e1 e2
      exact absurd (Option.join_eq_some_iff.1 e2) (hno l1 l2 (Option.join_eq_some_iff.1 e1))
    · rfl

/-- C79: the spacing penalty by which the candidates are compared is the sum, over the boundaries of the strip whose two
panels have been designed, of the weight of the boundary times the number of plies missing between successive ply drops
per ply; it is 0 if the spacing rule is not required. -/
theorem C79_spacing_penalty (c : Cons) (r : Reduced) (pdl : List (Option Stack)) (p : ℚ)
    (h : stripSpacing c r pdl = .ok p) : p = if c.pdlSpacing = true then
      (r.boundaries.map (Spec.stripBoundaryPenalty c.minDrop (fun b => (r.boundaryWeights.lookup b).getD 0) pdl)).sum
      else 0 := by
  unfold stripSpacing at h
  split_ifs at h ⊢
  · obtain ⟨ps, hps, h⟩ := bind_ok.1 h
    rw [← Except.ok.inj h]
    congr 1
    have h2 := mapM_inv _ _ _ hps
    clear hps h
    generalize r.boundaries = bs at h2
    induction h2 with
    | nil => rfl
    | cons h1 _ ih => rw [List.map_cons, ← stripSpacing1_eq h1, ih]
  · exact (Except.ok.inj h).symm

/-- C79: with positive weights, no candidate has a negative spacing penalty, and the penalty is 0 exactly if on every
boundary between two designed panels any two ply drops are separated by the required number of plies. -/
theorem C79_spacing_zero_iff (c : Cons) (r : Reduced) (pdl : List (Option Stack)) (p : ℚ)
    (h : stripSpacing c r pdl = .ok p) (hs : c.pdlSpacing = true)
    (hw : ∀ b ∈ r.boundaries, ∃ w, r.boundaryWeights.lookup b = some w ∧ 0 < w) :
    0 ≤ p ∧ (p = 0 ↔ ∀ b ∈ r.boundaries, ∀ l1 l2 : Stack, pdl[b.1]? = some (some l1) → pdl[b.2]? = some (some l2) →
      l1.length ≠ 1 → l2.length ≠ 1 → Spec.Spaced c.minDrop (Spec.relativeLayout l1 l2)) := by
  have key : ∀ b ∈ r.boundaries, ∀ q, stripSpacing1 c r pdl b = .ok q → 0 ≤ q ∧ (q = 0 ↔
      ∀ l1 l2 : Stack, pdl[b.1]? = some (some l1) → pdl[b.2]? = some (some l2) →
      l1.length ≠ 1 → l2.length ≠ 1 → Spec.Spaced c.minDrop (Spec.relativeLayout l1 l2)) := by
    intro b hb q hq
    obtain ⟨w, hw1, hw2⟩ := hw b hb
    unfold stripSpacing1 at hq
    split at hq
    · rename_i l1 l2 e1 e2
      split_ifs at hq with hl
      · have hq := Except.ok.inj hq
        rw [← hq]
        refine ⟨le_rfl, fun _ m1 m2 f1 f2 n1 n2 => ?_, fun _ => rfl⟩
        rw [e1] at f1
        rw [e2] at f2
        cases f1
        cases f2
        exact absurd hl (by tauto)
      · obtain ⟨w', hw', hq⟩ := bind_ok.1 hq
        rw [dictGet_eq_ok, hw1] at hw'
        cases hw'
        obtain ⟨q', hq', hq⟩ := bind_ok.1 hq
        have hne : spacingLayout l1 l2 ≠ [] := by
          intro e
          rw [e] at hq'
          simp [calcPenaltySpacing1ss] at hq'
        obtain ⟨u, hu1, hu2, hu3⟩ := C10_penalty_zero_iff (spacingLayout l1 l2) c.minDrop hne
        rw [hu1] at hq'
        cases hq'
        have hq := Except.ok.inj hq
        rw [← hq]
        refine ⟨mul_nonneg hw2.le hu2, ?_⟩
        rw [mul_eq_zero, or_iff_right hw2.ne', hu3, spacingLayout_eq]
        constructor
        · intro hsp m1 m2 f1 f2 _ _
          rw [e1] at f1
          rw [e2] at f2
          cases f1
          cases f2
          exact hsp
        · intro hsp
          exact hsp l1 l2 e1 e2 (fun e => hl (Or.inl e)) (fun e => hl (Or.inr e))
    · rename_i hno
      have hq := Except.ok.inj hq
      rw [← hq]
      exact ⟨le_rfl, fun _ l1 l2 f1 f2 => absurd f2 (hno l1 l2 f1), fun _ => rfl⟩
  unfold stripSpacing at h
  rw [if_pos hs] at h
  obtain ⟨ps, hps, h⟩ := bind_ok.1 h
  rw [← Except.ok.inj h]
  have h2 := mapM_inv _ _ _ hps
  clear hps h hw
  revert key
  generalize r.boundaries = bs at h2
  induction h2 with
  | nil => intro _; simp
  | cons h1 _ ih =>
    intro key
    obtain ⟨k1, k2⟩ := key _ List.mem_cons_self _ h1
    obtain ⟨i1, i2⟩ := ih (fun b hb => key b (List.mem_cons_of_mem _ hb))
    rw [List.sum_cons]
    refine ⟨add_nonneg k1 i1, ?_⟩
    rw [add_eq_zero_iff_of_nonneg k1 i1, k2, i2, List.forall_mem_cons]

/-! ### Examples and a violation -/

/-- Node limits that are never reached by small strips. -/
def wideSetup (c : Cons) (r : Reduced) (targets : Table) : StripSetup :=
  { stripSetup c r targets with localLimit := 10 ^ 30, globalLimit := 10 ^ 60 }

/-- Balance, contiguity, covering and spacing. -/
def planArgs : ConsArgs where
  sym := true
  bal := true
  contig := true
  nContig := 2
  covering := true
  nCovering := 1
  pdlSpacing := true
  minDrop := 1

/-- A reference laminate of 10 plies. -/
def planRow : Stack := [45, 0, 90, 0, -45, -45, 0, 90, 0, 45]

/-- Panels of 10 and 6 plies are repaired by dropping plies at 0 and 90: the hypotheses of
`C79_thick_to_thin_exhaustive` are met and there is a plan. -/
example : ∃ c r, mkConstraints planArgs = .ok c ∧ c.bal = true ∧ c.contig = true ∧ c.nContig = 2 ∧ c.rule10 = false ∧
    StripTable (wideSetup c r [[45, -45, -45, 45], [0]]) [planRow, planRow] [planRow, planRow] planRow ∧
    (-90 : Int) ∉ planRow ∧ r.nPlies[r.indRef]? = some 10 ∧ r.nPlies[0]? = some 6 ∧
    planRow.length ^ (10 - 6) ≤ (wideSetup c r [[45, -45, -45, 45], [0]]).globalLimit ∧
    ∃ sst' lps ss', repairThickToThin (wideSetup c r [[45, -45, -45, 45], [0]]) ([planRow, planRow].map stripLampam)
      [planRow, planRow] [planRow, planRow] = .ok (true, sst', lps, ss') := by
  obtain ⟨c, hc, ht⟩ := ok_of_test (mkConstraints planArgs) (fun (c : Cons) => match strip2 10 6 with
    | .error _ => false
    | .ok r => decide (c.sym = true ∧ c.bal = true ∧ c.contig = true ∧ c.nContig = 2 ∧ c.rule10 = false ∧
        r.indRef = 1 ∧ r.nPlies = [6, 10]) &&
      match repairThickToThin (wideSetup c r [[45, -45, -45, 45], [0]]) ([planRow, planRow].map stripLampam)
        [planRow, planRow] [planRow, planRow] with
      | .error _ => false
      | .ok x => x.1) (by decide +kernel)
  split at ht
  · cases ht
  · rename_i r hr
    rw [Bool.and_eq_true] at ht
    obtain ⟨h1, h2⟩ := ht
    obtain ⟨t1, t2, t3, t4, t5, t6, t7⟩ := of_decide_eq_true h1
    split at h2
    · cases h2
    · rename_i x hx
      obtain ⟨x1, x2, x3, x4⟩ := x
      dsimp only at h2
      subst h2
      refine ⟨c, r, hc, t2, t3, t4, t5, ?_, by decide, by rw [t6, t7]; rfl, by rw [t7]; rfl, ?_, _, _, _, hx⟩
      · refine stripTable_of _ _ _ _ _ true _ _ _ t1 hr (fun _ => by decide) ?_
        change _ = r.nPlies.length ∧ _ = r.nPlies.length ∧ _[r.indRef]? = _ ∧
          r.nPlies[r.nPlies.length - 1]? = _ ∧ r.nPlies[r.indRef]? = _ ∧ _
        rw [t6, t7]
        decide
      · change planRow.length ^ (10 - 6) ≤ 10 ^ 60
        decide

/-- At most two plies of the same angle in a row and two covering plies. -/
def stuckArgs : ConsArgs where
  sym := true
  contig := true
  nContig := 2
  covering := true
  nCovering := 2

/-- C79: no ply can be dropped without four neighbouring plies at 0: there is no plan, and the repair fails. -/
theorem C79_failure_example : ∃ c r, mkConstraints stuckArgs = .ok c ∧
    StripTable (wideSetup c r [[0], [0]]) [[0, 0, 90, 90, 0, 0], [0, 0, 90, 90, 0, 0]]
      [[0, 0, 90, 90, 0, 0], [0, 0, 90, 90, 0, 0]] [0, 0, 90, 90, 0, 0] ∧
    (∃ lps, repairThickToThin (wideSetup c r [[0], [0]])
      ([[0, 0, 90, 90, 0, 0], [0, 0, 90, 90, 0, 0]].map stripLampam) [[0, 0, 90, 90, 0, 0], [0, 0, 90, 90, 0, 0]]
      [[0, 0, 90, 90, 0, 0], [0, 0, 90, 90, 0, 0]] =
        .ok (false, [[0, 0, 90, 90, 0, 0], [0, 0, 90, 90, 0, 0]], lps, [[0, 0, 90, 90, 0, 0], [0, 0, 90, 90, 0, 0]])) ∧
    ¬ ∃ ds, Spec.DropPlan true false 2 1 [0, 0, 90, 90, 0, 0] (ThinAccepted (wideSetup c r [[0], [0]])) ds := by
  obtain ⟨c, hc, ht⟩ := ok_of_test (mkConstraints stuckArgs) (fun (c : Cons) => match strip2 6 4 with
    | .error _ => false
    | .ok r => decide (c.sym = true ∧ c.bal = false ∧ c.covering = true ∧ c.nCovering = 2 ∧ c.nContig = 2 ∧
        c.rule10 = false ∧ r.indRef = 1 ∧ r.nPlies = [4, 6]) &&
      match repairThickToThin (wideSetup c r [[0], [0]])
        ([[0, 0, 90, 90, 0, 0], [0, 0, 90, 90, 0, 0]].map stripLampam) [[0, 0, 90, 90, 0, 0], [0, 0, 90, 90, 0, 0]]
        [[0, 0, 90, 90, 0, 0], [0, 0, 90, 90, 0, 0]] with
      | .error _ => false
      | .ok x => decide (x.1 = false ∧ x.2.1 = [[0, 0, 90, 90, 0, 0], [0, 0, 90, 90, 0, 0]] ∧
        x.2.2.2 = [[0, 0, 90, 90, 0, 0], [0, 0, 90, 90, 0, 0]])) (by decide +kernel)
  split at ht
  · cases ht
  · rename_i r hr
    rw [Bool.and_eq_true] at ht
    obtain ⟨h1, h2⟩ := ht
    obtain ⟨t1, t2, t3, t4, t5, t6, t7, t8⟩ := of_decide_eq_true h1
    split at h2
    · cases h2
    · rename_i x hx
      obtain ⟨x1, x2, x3, x4⟩ := x
      obtain ⟨g1, g2, g3⟩ := of_decide_eq_true h2
      dsimp only at g1 g2 g3
      subst g1 g2 g3
      have C : StripTable (wideSetup c r [[0], [0]]) [[0, 0, 90, 90, 0, 0], [0, 0, 90, 90, 0, 0]]
          [[0, 0, 90, 90, 0, 0], [0, 0, 90, 90, 0, 0]] [0, 0, 90, 90, 0, 0] := by
        refine stripTable_of _ _ _ _ _ true _ _ _ t1 hr (fun _ => by decide) ?_
        change _ = r.nPlies.length ∧ _ = r.nPlies.length ∧ _[r.indRef]? = _ ∧
          r.nPlies[r.nPlies.length - 1]? = _ ∧ r.nPlies[r.indRef]? = _ ∧ _
        rw [t7, t8]
        decide
      refine ⟨c, r, hc, C, ⟨x3, hx⟩, ?_⟩
      have := C79_thick_to_thin_exhaustive (wideSetup c r [[0], [0]]) _ _ _ _ C (by decide)
        (fun _ => by change 2 ≤ c.nContig ∧ c.nContig ≤ 6; omega)
        (fun h => by change c.rule10 = true at h; rw [t6] at h; cases h) 6 4
        (by change r.nPlies[r.indRef]? = _; rw [t7, t8]; rfl) (by change r.nPlies[0]? = _; rw [t8]; rfl)
        (by change 6 ≤ 10 ^ 30; decide) (by change 6 ^ 2 ≤ 10 ^ 60; decide) _ _ _ _ hx
      have h3 : (wideSetup c r [[0], [0]]).c = c := rfl
      rw [h3, t1, t2, t3, t4] at this
      intro hex
      exact Bool.false_ne_true (this.2 hex)

/-- C79 (violated for the 10% rule on ply counts): the reference panel and the laminates reached by dropping the plies at
45, then those at 90, have at least 50% of their plies at 0, as required, apart from the reference panel itself; the
exhaustive repair fails nevertheless, because it tests the rule on the ply counts of other layouts. -/
theorem C79_ten_percent_violation : ∃ S sst ss pdlRef, mkConstraints { sym := true, rule10 := true, percent0 := 50 } = .ok S.c ∧
    StripTable S sst ss pdlRef ∧ S.c.rule10 = true ∧ S.c.rule10Abdalla = false ∧ S.c.p0 = 1 / 2 ∧
    S.r.nPlies = [2, 6] ∧ S.r.indRef = 1 ∧ 10 ^ 30 ≤ S.localLimit ∧ 10 ^ 30 ≤ S.globalLimit ∧
    (∃ ds, Spec.DropPlan true false 0 2 pdlRef (fun s => (1 / 2 : ℚ) * s.length ≤ s.count 0) ds) ∧
    ∃ lampams sst' lps ss', repairThickToThin S lampams sst ss = .ok (false, sst', lps, ss') := by
  obtain ⟨c, hc, ht⟩ := ok_of_test (mkConstraints { sym := true, rule10 := true, percent0 := 50 })
    (fun (c : Cons) => match strip2 6 2 with
    | .error _ => false
    | .ok r => decide (c.sym = true ∧ c.rule10 = true ∧ c.rule10Abdalla = false ∧ c.p0 = 1 / 2 ∧
        r.indRef = 1 ∧ r.nPlies = [2, 6]) &&
      match repairThickToThin (wideSetup c r [[0], [0]])
        ([[45, 90, 0, 0, 90, 45], [45, 90, 0, 0, 90, 45]].map stripLampam)
        [[45, 90, 0, 0, 90, 45], [45, 90, 0, 0, 90, 45]] [[45, 90, 0, 0, 90, 45], [45, 90, 0, 0, 90, 45]] with
      | .error _ => false
      | .ok x => !x.1) (by decide +kernel)
  split at ht
  · cases ht
  · rename_i r hr
    rw [Bool.and_eq_true] at ht
    obtain ⟨h1, h2⟩ := ht
    obtain ⟨t1, t2, t3, t4, t5, t6⟩ := of_decide_eq_true h1
    split at h2
    · cases h2
    · rename_i x hx
      obtain ⟨x1, x2, x3, x4⟩ := x
      dsimp only at h2
      have g1 : x1 = false := by simpa using h2
      subst g1
      refine ⟨wideSetup c r [[0], [0]], [[45, 90, 0, 0, 90, 45], [45, 90, 0, 0, 90, 45]],
        [[45, 90, 0, 0, 90, 45], [45, 90, 0, 0, 90, 45]], [45, 90, 0, 0, 90, 45], hc, ?_, t2, t3, t4, t6, t5,
        by change 10 ^ 30 ≤ 10 ^ 30; decide, by change 10 ^ 30 ≤ 10 ^ 60; decide, ⟨[0, 1], ?_⟩, _, _, _, _, hx⟩
      · refine stripTable_of _ _ _ _ _ true _ _ _ t1 hr (fun _ => by decide) ?_
        change _ = r.nPlies.length ∧ _ = r.nPlies.length ∧ _[r.indRef]? = _ ∧
          r.nPlies[r.nPlies.length - 1]? = _ ∧ r.nPlies[r.indRef]? = _ ∧ _
        rw [t5, t6]
        decide
      · refine ⟨rfl, by decide, ?_, fun h => (by cases h), fun j j1 j2 => ?_⟩
        · intro d hd
          have : d = 0 ∨ d = 1 := by simpa using hd
          rcases this with rfl | rfl <;> exact ⟨by decide, by decide, by decide⟩
        · have : j = 1 ∨ j = 2 := by omega
          rcases this with rfl | rfl <;> decide +kernel

/-- Neighbouring plies differ by 45 degrees at most. -/
def twoArgs : ConsArgs where
  sym := true
  diso := true
  deltaAngle := 45

/-- The reference laminate, in a table of 8 rows. -/
def noRow : Stack := [0, 90, 0, -1, -1, 0, 90, 0]

/-- A laminate with two breaks of the disorientation rule in each half. -/
def noSs : Stack := [0, 90, 0, 0, 90, 0]

/-- C79: no single ply repairs the laminate [0, 90, 0, 0, 90, 0], which breaks the disorientation rule twice in each half: the thin-to-thick repair fails, and there is no plan. -/
theorem C79_thick_failure_example : ∃ c r, mkConstraints twoArgs = .ok c ∧
    DesignedStrip (wideSetup c r [[0], [0]]) [noRow, noRow] [noSs, noSs] noRow ∧
    (∃ sst lps ss', repairThinToThick (wideSetup c r [[0], [0]]) ([noSs, noSs].map stripLampam)
      [noRow, noRow] [noSs, noSs] = .ok (false, sst, lps, ss')) ∧
    ¬ ∃ ps, Spec.AddPlan true false 0 1 [-45, 0, 45, 90] noSs (ThickAccepted (wideSetup c r [[0], [0]])) ps := by
  obtain ⟨c, hc, ht⟩ := ok_of_test (mkConstraints twoArgs)
    (fun (c : Cons) => match mkReduced [8, 6] true 6 [(0, 1)] [((0, 1), 1)] with
    | .error _ => false
    | .ok r => decide (c.angles = [-45, 0, 45, 90] ∧ c.sym = true ∧ c.bal = false ∧ c.covering = false ∧ c.contig = false ∧
        c.rule10 = false ∧ r.indRef = 0 ∧ r.nPlies = [6, 8]) &&
      match repairThinToThick (wideSetup c r [[0], [0]]) ([noSs, noSs].map stripLampam)
        [noRow, noRow] [noSs, noSs] with
      | .error _ => false
      | .ok x => !x.1) (by decide +kernel)
  split at ht
  · cases ht
  · rename_i r hr
    rw [Bool.and_eq_true] at ht
    obtain ⟨h1, h2⟩ := ht
    obtain ⟨t0, t1, t2, t3, t4, t5, t6, t7⟩ := of_decide_eq_true h1
    split at h2
    · cases h2
    · rename_i x hx
      obtain ⟨x1, x2, x3, x4⟩ := x
      dsimp only at h2
      have g1 : x1 = false := by simpa using h2
      subst g1
      have D : DesignedStrip (wideSetup c r [[0], [0]]) [noRow, noRow] [noSs, noSs]
          noRow := by
        refine designed_of _ _ _ _ _ true _ _ _ t1 hr (fun _ => by decide)
          (by change (-1 : Int) ∉ c.angles; rw [t0]; decide) ?_ ?_ ?_
        · change _ = r.nPlies.length ∧ _ = r.nPlies.length ∧ _[r.indRef]? = _ ∧
            r.nPlies[r.nPlies.length - 1]? = _ ∧ r.nPlies[r.indRef]? = _ ∧ _
          rw [t6, t7]
          decide
        · change ∀ p ∈ List.range (r.indRef + 1), _ ∧ _ ∧ _ ∧ _ ∧ r.nPlies[p]? = _
          rw [t6, t7]
          decide
        · change ∀ p ∈ List.range r.indRef, _
          rw [t6]
          decide
      refine ⟨c, r, hc, D, ⟨_, _, _, hx⟩, ?_⟩
      have h3 : (wideSetup c r [[0], [0]]).c = c := rfl
      have := C79_thin_to_thick_exhaustive twoArgs (wideSetup c r [[0], [0]]) _ _ _ _ hc D
        (by rw [h3, t0]; decide) (fun h => by change c.contig = true at h; rw [t4] at h; cases h)
        (fun h => by change c.rule10 = true at h; rw [t5] at h; cases h)
        (by rw [h3, t0]; change 32 ≤ 10 ^ 30; decide) (by rw [h3, t0]; change 32 ^ 8 ≤ 10 ^ 60; decide) _ _ _ _ hx
      rw [h3, t0, t1, t2, t3] at this
      intro hex
      exact Bool.false_ne_true (this.2 hex)

/-- A strip of three panels, two of them designed: with a minimum of 3 plies between ply drops, the only boundary counted
(weight 3) misses three plies, for rows of four; the hypotheses of `C79_spacing_zero_iff` are met. -/
example : ∃ c r, mkConstraints { planArgs with minDrop := 3 } = .ok c ∧ c.pdlSpacing = true ∧
    mkReduced [18, 14, 10] true 18 [(0, 1), (1, 2)] [((0, 1), 1), ((1, 2), 3)] = .ok r ∧
    (∀ b ∈ r.boundaries, ∃ w, r.boundaryWeights.lookup b = some w ∧ 0 < w) ∧
    stripSpacing c r [some [0, -1, -1, 0], some [0, 45, 90, 0], none] = .ok (3 * (3 / 4)) := by
  obtain ⟨c, hc, ht⟩ := ok_of_test (mkConstraints { planArgs with minDrop := 3 }) (fun (c : Cons) =>
    match mkReduced [18, 14, 10] true 18 [(0, 1), (1, 2)] [((0, 1), 1), ((1, 2), 3)] with
    | .error _ => false
    | .ok r => decide (c.pdlSpacing = true ∧
        (∀ b ∈ r.boundaries, ((r.boundaryWeights.lookup b).any (fun w => decide (0 < w))) = true) ∧
        stripSpacing c r [some [0, -1, -1, 0], some [0, 45, 90, 0], none] = .ok (3 * (3 / 4)))) (by decide +kernel)
  split at ht
  · cases ht
  · rename_i r hr
    obtain ⟨t1, t2, t3⟩ := of_decide_eq_true ht
    refine ⟨c, r, hc, t1, hr, fun b hb => ?_, t3⟩
    have := t2 b hb
    cases hw : r.boundaryWeights.lookup b with
    | none => rw [hw] at this; cases this
    | some w =>
      rw [hw] at this
      exact ⟨w, rfl, of_decide_eq_true this⟩

end Bella
