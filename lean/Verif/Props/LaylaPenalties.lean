import Verif.Model.LaylaPenalties
import Verif.Props.LaylaSearch
import Verif.Props.TenPercent
import Verif.Props.Balance
import Verif.Props.MaxArrays
import Verif.Props.Constraints
/-
C87: the penalties of LAYLA.
-/
namespace Spec

/-- The part of the plies that has the orientation `x`, `counts` being the numbers of plies in the orientations `angles`. -/
def partOf (angles : List Int) (counts : List ℚ) (x : Int) : ℚ := counts.getD (angles.idxOf x) 0 / counts.sum

/-- What is missing, in parts of the plies, to the requested shares of 0, +45, 90, -45 and both of +45 and -45. -/
def missing (p : Shares) (angles : List Int) (counts : List ℚ) : ℚ :=
  max 0 (p.s0 - partOf angles counts 0) + max 0 (p.s45 - partOf angles counts 45) + max 0 (p.s90 - partOf angles counts 90) +
  max 0 (p.s135 - partOf angles counts (-45)) + max 0 (p.s45_135 - (partOf angles counts 45 + partOf angles counts (-45)))

/-- The sum, over the orientations strictly between 0 and 90, of the differences with the opposite orientation, in parts of the
plies. -/
def imbalance (angles : List Int) (counts : List ℚ) : ℚ :=
  ((angles.filter (fun (x : Int) => decide (0 < x) && decide (x < 90))).map
    (fun (x : Int) => |partOf angles counts x - partOf angles counts (-x)|)).sum

/-- `after` are the numbers of plies with one more ply (counted `weight`) of orientation `b`. -/
def OneMore (angles : List Int) (before : List ℚ) (b : Int) (weight : ℚ) (after : List ℚ) : Prop :=
  after.length = before.length ∧ ∀ (i : Nat) (x : Int), angles[i]? = some x →
    after.getD i 0 = before.getD i 0 + (if x = b ∨ (x = 90 ∧ b = -90) then weight else 0)

/-- Numbers of plies of a laminate in the orientations `angles`. -/
def countsOf (angles : List Int) (ss : List Int) : List ℚ := angles.map (fun (x : Int) => (ss.count x : ℚ))

end Spec
namespace Bella

/-- Numbers of plies in the allowed orientations: not negative, at least one ply. -/
structure CountsOK (c : Cons) (n : List ℚ) : Prop where
  length : n.length = c.angles.length
  nonneg : ∀ x ∈ n, 0 ≤ x
  sum : n.sum ≠ 0

theorem idxOf_of_getElem? {l : List Int} (hn : l.Nodup) {i : Nat} {x : Int} (h : l[i]? = some x) : l.idxOf x = i := by
  obtain ⟨hi, rfl⟩ := List.getElem?_eq_some_iff.1 h
  exact hn.idxOf_getElem i hi

theorem partOf_nonneg {c : Cons} {n : List ℚ} (h : CountsOK c n) (x : Int) : 0 ≤ Spec.partOf c.angles n x := by
  unfold Spec.partOf
  have h1 := cnt_nonneg n h.nonneg (c.angles.idxOf x)
  have h2 : 0 ≤ n.sum := List.sum_nonneg h.nonneg
  exact div_nonneg h1 h2

/-- The penalty for the 10% rule. -/
theorem penalty10_missing (a : ConsArgs) (c : Cons) (hc : mkConstraints a = .ok c) (hr : c.rule10 = true) (n : List ℚ)
    (h : CountsOK c n) : calcPenalty10Pc c n 1 = .ok (Spec.missing c.shares c.angles n) := by
  have hra : a.rule10 = true := by
    obtain ⟨p, _, _, _, _, _, _, _, _, _, _, rfl⟩ := mkConstraints_inv a c hc
    exact hr
  obtain ⟨hs, _, _, _, _, _, _, hten⟩ := C14_angles a c hc
  have hnd : c.angles.Nodup := hs.imp (fun h => ne_of_lt h)
  obtain ⟨m0, m45, m90, m135⟩ := hten hra
  by_cases ht : c.pTot > 0
  · obtain ⟨i0, hi0⟩ := List.mem_iff_getElem?.1 m0
    obtain ⟨i45, hi45⟩ := List.mem_iff_getElem?.1 m45
    obtain ⟨i90, hi90⟩ := List.mem_iff_getElem?.1 m90
    obtain ⟨i135, hi135⟩ := List.mem_iff_getElem?.1 m135
    have e0 := ((C14_indices a c hc i0).1).2 hi0
    have e45 := ((C14_indices a c hc i45).2.1).2 hi45
    have e90 := ((C14_indices a c hc i90).2.2.1).2 hi90
    have e135 := ((C14_indices a c hc i135).2.2.2).2 hi135
    have get : ∀ {i : Nat} {x : Int}, c.angles[i]? = some x → n[i]? = some (n.getD (c.angles.idxOf x) 0) := by
      intro i x hi
      rw [idxOf_of_getElem? hnd hi]
      have : i < n.length := by rw [h.length]; exact (List.getElem?_eq_some_iff.1 hi).1
      rw [List.getElem?_eq_getElem this, List.getD_eq_getElem _ _ this]
    unfold calcPenalty10Pc
    rw [if_neg (fun h' => h.sum h'.2)]
    unfold calcPenalty10PcRow
    rw [if_pos ht]
    simp only [cntAt, e0, e45, e90, e135, get hi0, get hi45, get hi90, get hi135, bind, Except.bind, pure, Except.pure]
    rw [if_neg h.sum, one_mul]
    unfold shortfall Spec.missing Spec.partOf Cons.shares
    simp only [sub_sub]
  · obtain ⟨g0, g45, g90, g135, g1, _, _, htot, _⟩ := C14_percentages a c hc
    have b1 := le_max_left (c.p0 + c.p45 + c.p90 + c.p135) (c.p0 + c.p45_135 + c.p90)
    have b2 := le_max_right (c.p0 + c.p45 + c.p90 + c.p135) (c.p0 + c.p45_135 + c.p90)
    rw [← htot] at b1 b2
    have ht' : c.pTot ≤ 0 := not_lt.1 ht
    have z0 : c.p0 = 0 := by linarith [g0.1, g45.1, g90.1, g135.1]
    have z45 : c.p45 = 0 := by linarith [g0.1, g45.1, g90.1, g135.1]
    have z90 : c.p90 = 0 := by linarith [g0.1, g45.1, g90.1, g135.1]
    have z135 : c.p135 = 0 := by linarith [g0.1, g45.1, g90.1, g135.1]
    have z1 : c.p45_135 = 0 := by linarith [g0.1, g1.1, g90.1]
    unfold calcPenalty10Pc
    rw [if_neg (fun h' => ht h'.1)]
    unfold calcPenalty10PcRow
    rw [if_neg ht]
    unfold Spec.missing Cons.shares
    have q := partOf_nonneg h
    simp only [z0, z45, z90, z135, z1, zero_sub]
    rw [max_eq_left (neg_nonpos.2 (q _)), max_eq_left (neg_nonpos.2 (q _)), max_eq_left (neg_nonpos.2 (q _)),
      max_eq_left (neg_nonpos.2 (q _)), max_eq_left (neg_nonpos.2 (add_nonneg (q _) (q _)))]
    simp only [add_zero]
    rfl

theorem sum_map_div (l : List Int) (f : Int → ℚ) (d : ℚ) : (l.map (fun x => f x / d)).sum = (l.map f).sum / d := by
  induction l with
  | nil => simp
  | cons x l ih => rw [List.map_cons, List.map_cons, List.sum_cons, List.sum_cons, ih, add_div]

/-- The penalty for balance. -/
theorem penaltyBal_imbalance (a : ConsArgs) (c : Cons) (hc : mkConstraints a = .ok c) (n : List ℚ) (h : CountsOK c n) (area : ℚ) :
    calcPenaltyBal n c.anglesBal area = area * Spec.imbalance c.angles n := by
  have hb : c.anglesBal = (c.angles.filter (fun (x : Int) => decide (0 < x) && decide (x < 90))).map
      (fun (x : Int) => (x, c.angles.idxOf x, c.angles.idxOf (-x))) := by
    obtain ⟨hs, _, _, _, hr, hneg, _, _⟩ := C14_angles a c hc
    have hnd : c.angles.Nodup := hs.imp (fun h => ne_of_lt h)
    have hd := C14_dict a c hc
    have key : c.anglesBal = mkAnglesBal c.angles c.indAngles := by
      obtain ⟨p, _, _, _, _, _, _, _, _, _, _, rfl⟩ := mkConstraints_inv a c hc
      rfl
    rw [key]
    unfold mkAnglesBal
    apply List.map_congr_left
    intro x hx
    have hx' := List.mem_filter.1 hx
    have hx2 : 0 < x ∧ x < 90 := by simpa using hx'.2
    obtain ⟨i, hi⟩ := List.mem_iff_getElem?.1 hx'.1
    obtain ⟨j, hj⟩ := List.mem_iff_getElem?.1 (hneg x hx'.1 (by omega))
    rw [(hd x i).2 (Or.inl hi), (hd (-x) j).2 (Or.inl hj), idxOf_of_getElem? hnd hi, idxOf_of_getElem? hnd hj]
    rfl
  have hpos : 0 < n.sum := lt_of_le_of_ne (List.sum_nonneg h.nonneg) (Ne.symm h.sum)
  unfold calcPenaltyBal Spec.imbalance Spec.partOf
  rw [if_pos h.sum, hb, List.map_map, mul_div_assoc]
  congr 1
  rw [← sum_map_div]
  congr 1
  apply List.map_congr_left
  intro x _
  show |cnt n _ - cnt n _| / n.sum = _
  rw [← sub_div, abs_div, abs_of_pos hpos]
  rfl

/-- The penalties for orthotropy and the coefficients are not negative. -/
structure PensOK {V : Type} (p : LaylaPens V) : Prop where
  ten : 0 ≤ p.coeff10
  bal : 0 ≤ p.coeffBal
  orthotropy : 0 ≤ p.coeffOopo
  ipo : ∀ level v, 0 ≤ p.ipo level v
  oopo : ∀ level v, 0 ≤ p.oopo level v

theorem mapM_entry {α β : Type} {f : α → Py β} {xs : List α} {ys : List β} (h : xs.mapM f = .ok ys) {i : Nat} {x : α}
    (hx : xs[i]? = some x) : ∃ y, ys[i]? = some y ∧ f x = .ok y := by
  have h1 := mapM_inv _ _ _ h
  obtain ⟨hlt, e⟩ := List.getElem?_eq_some_iff.1 hx
  have hl := h1.length_eq
  have h2 := List.Forall₂.get h1 (i := i) hlt (by omega)
  simp only [List.get_eq_getElem, e] at h2
  exact ⟨_, List.getElem?_eq_getElem (by omega), h2⟩

theorem calcPenalty10Pc_nonneg {c : Cons} {n : List ℚ} {x : ℚ} (h : calcPenalty10Pc c n 1 = .ok x) : 0 ≤ x := by
  unfold calcPenalty10Pc at h
  split at h
  · split at h
    · rw [← Except.ok.inj h]
    · cases h
  · unfold calcPenalty10PcRow at h
    split at h
    · dsimp only at h
      split at h
      · rw [← Except.ok.inj h]; norm_num
      · obtain ⟨_, _, h⟩ := bind_ok.1 h
        obtain ⟨_, _, h⟩ := bind_ok.1 h
        obtain ⟨_, _, h⟩ := bind_ok.1 h
        obtain ⟨_, _, h⟩ := bind_ok.1 h
        rw [← Except.ok.inj h, one_mul]
        exact shortfall_nonneg _ _ _ _ _
    · rw [← Except.ok.inj h]

variable {V : Type}

theorem laylaFactors_inv {c : Cons} {p : LaylaPens V} {level : Nat} {last : Bool} {kids : List (V × List ℚ)} {fs : List ℚ}
    (h : laylaFactors c p level last kids = .ok fs) : ∃ p10 bal, laylaPenalty10 c p last kids = .ok p10 ∧
    maxArrays (laylaPenaltyBal c p level kids) (kids.map (fun (k : V × List ℚ) => p.ipo level k.1)) = .ok bal ∧
    fs.length = kids.length ∧ ∀ (i : Nat) (v : V) (n : List ℚ), kids[i]? = some (v, n) → fs[i]? = some ((1 + p.coeff10 * p10.getD i 0) *
      (1 + p.coeffBal * bal.getD i 0) * (1 + p.coeffOopo * p.oopo level v)) := by
  unfold laylaFactors at h
  obtain ⟨p10, h1, h⟩ := bind_ok.1 h
  dsimp only at h
  obtain ⟨bal, h2, h⟩ := bind_ok.1 h
  have h := (Except.ok.inj h).symm
  subst h
  refine ⟨p10, bal, h1, h2, by simp, ?_⟩
  intro i v n hk
  have hi := (List.getElem?_eq_some_iff.1 hk).1
  have ho : (kids.map (fun (k : V × List ℚ) => p.oopo level k.1)).getD i 0 = p.oopo level v := by
    rw [List.getD_eq_getElem?_getD, List.getElem?_map, hk]
    rfl
  rw [List.getElem?_map, List.getElem?_range hi, Option.map_some, ho]
  unfold objMultiSs
  rw [one_mul]

theorem maxArrays_entry {x y r : List ℚ} (h : maxArrays x y = .ok r) (hxy : x.length = 1 ∨ x.length = y.length) (i : Nat)
    (hi : i < y.length) : r.getD i 0 = max (Spec.broadcast x i) (y.getD i 0) := by
  obtain ⟨h1, h2⟩ := C45_max_arrays x y r h
  have hr : r.length = y.length := by
    rw [h1]
    split
    · rfl
    · rcases hxy with h | h <;> omega
  rw [h2 i (by omega)]
  congr 1
  unfold Spec.broadcast
  split
  · have : i = 0 := by omega
    rw [this]
  · rfl

/-- C87: LAYLA's bounds are not below the objectives, the penalties and their coefficients being not negative. -/
theorem C87_not_below [AddCommGroup V] (P : LaylaProblem V) (p : LaylaPens V) (hP : P.factors = laylaFactors P.c p)
    (hp : PensOK p) : FactorsOK P := by
  intro level last ks fs h
  rw [hP] at h
  obtain ⟨p10, bal, h1, h2, h3, h4⟩ := laylaFactors_inv h
  refine ⟨h3, ?_⟩
  intro f hf
  obtain ⟨i, hi⟩ := List.mem_iff_getElem?.1 hf
  have hil : i < ks.length := by rw [← h3]; exact (List.getElem?_eq_some_iff.1 hi).1
  obtain ⟨⟨v, n⟩, hk⟩ : ∃ k, ks[i]? = some k := ⟨_, List.getElem?_eq_getElem hil⟩
  rw [h4 i v n hk] at hi
  rw [← Option.some.inj hi]
  have a1 : 0 ≤ p10.getD i 0 := by
    unfold laylaPenalty10 at h1
    split at h1
    · rw [List.getD_eq_getElem?_getD]
      cases e : p10[i]? with
      | none => exact le_refl _
      | some x =>
        obtain ⟨k, _, hx⟩ := mapM_mem h1 (List.mem_iff_getElem?.2 ⟨i, e⟩ : x ∈ p10)
        exact calcPenalty10Pc_nonneg hx
    · rw [← Except.ok.inj h1, List.getD_eq_getElem?_getD, List.getElem?_replicate, if_pos hil]
      exact le_refl _
  have a2 : 0 ≤ bal.getD i 0 := by
    rw [maxArrays_entry h2 (by
      unfold laylaPenaltyBal
      split
      · left
        cases e : ks.getLast? with
        | none => rw [List.getLast?_eq_none_iff] at e; rw [e] at hil; cases hil
        | some y => rfl
      · right; simp) i (by simpa using hil)]
    refine le_trans ?_ (le_max_right _ _)
    rw [List.getD_eq_getElem?_getD, List.getElem?_map, hk]
    exact hp.ipo _ _
  have b1 : 1 ≤ 1 + p.coeff10 * p10.getD i 0 := by linarith [mul_nonneg hp.ten a1]
  have b2 : 1 ≤ 1 + p.coeffBal * bal.getD i 0 := by linarith [mul_nonneg hp.bal a2]
  have b3 : 1 ≤ 1 + p.coeffOopo * p.oopo level v := by linarith [mul_nonneg hp.orthotropy (hp.oopo level v)]
  have b4 : 1 ≤ (1 + p.coeff10 * p10.getD i 0) * (1 + p.coeffBal * bal.getD i 0) := by nlinarith
  nlinarith

/-- C87: the factor of each child; the balance is that of the child treated last. -/
theorem laylaFactors_values (a : ConsArgs) (c : Cons) (hc : mkConstraints a = .ok c) (p : LaylaPens V) (level : Nat) (last : Bool)
    (kids : List (V × List ℚ)) (hk : ∀ k ∈ kids, CountsOK c k.2) (y : V × List ℚ) (hy : kids.getLast? = some y) (fs : List ℚ)
    (h : laylaFactors c p level last kids = .ok fs) : fs.length = kids.length ∧ ∀ (i : Nat) (v : V) (n : List ℚ), kids[i]? = some (v, n) →
    fs[i]? = some ((1 + p.coeff10 * (if last = true ∧ c.rule10 = true ∧ p.tenSwitch = true then
        Spec.missing c.shares c.angles n else 0)) *
      (1 + p.coeffBal * max (if c.ipo = true ∧ p.balSwitch = true then p.area level * Spec.imbalance c.angles y.2 else 0)
        (p.ipo level v)) * (1 + p.coeffOopo * p.oopo level v)) := by
  obtain ⟨p10, bal, h1, h2, h3, h4⟩ := laylaFactors_inv h
  refine ⟨h3, ?_⟩
  intro i v n hi
  rw [h4 i v n hi]
  have hil : i < kids.length := (List.getElem?_eq_some_iff.1 hi).1
  have e1 : p10.getD i 0 = (if last = true ∧ c.rule10 = true ∧ p.tenSwitch = true then Spec.missing c.shares c.angles n else 0) := by
    unfold laylaPenalty10 at h1
    by_cases g : last = true ∧ c.rule10 = true ∧ p.tenSwitch = true
    · rw [if_pos g] at h1
      rw [if_pos g]
      obtain ⟨x, hx, hx2⟩ := mapM_entry h1 hi
      rw [penalty10_missing a c hc g.2.1 n (hk _ (List.mem_iff_getElem?.2 ⟨i, hi⟩))] at hx2
      rw [List.getD_eq_getElem?_getD, hx, Except.ok.inj hx2]
      rfl
    · rw [if_neg g] at h1
      rw [if_neg g, ← Except.ok.inj h1, List.getD_eq_getElem?_getD, List.getElem?_replicate, if_pos hil]
      rfl
  have e2 : bal.getD i 0 = max (if c.ipo = true ∧ p.balSwitch = true then p.area level * Spec.imbalance c.angles y.2 else 0)
      (p.ipo level v) := by
    rw [maxArrays_entry h2 (by
      unfold laylaPenaltyBal
      split
      · left; rw [hy]; rfl
      · right; simp) i (by simpa using hil)]
    congr 1
    · unfold laylaPenaltyBal
      by_cases g : c.ipo = true ∧ p.balSwitch = true
      · rw [if_pos g, if_pos g, hy, ← penaltyBal_imbalance a c hc y.2 (hk _ (List.mem_of_getLast? hy))]
        rfl
      · rw [if_neg g, if_neg g]
        unfold Spec.broadcast
        split <;> simp
    · rw [List.getD_eq_getElem?_getD, List.getElem?_map, hi]
      rfl
  rw [e1, e2]

theorem laylaChild_more [AddCommGroup V] (a : ConsArgs) (P : LaylaProblem V) (hc : mkConstraints a = .ok P.c) {g : LaylaGroup} {t level : Nat}
    {m k : LNode V} {b : Int} (h : laylaChild P g t level m b = .ok k) :
    Spec.OneMore P.c.angles m.counts b (if g.middle ≠ 0 ∧ t = g.size - 1 then (1 / 2 : ℚ) else 1) k.counts := by
  obtain ⟨_, _, _, h1, h2⟩ := laylaChild_ok h
  refine ⟨h1, ?_⟩
  intro i x hi
  rw [h2 i]
  congr 1
  have hd := C14_dict a P.c hc b i
  by_cases e : x = b ∨ (x = 90 ∧ b = -90)
  · rw [if_pos e, if_pos (hd.2 (by
      rcases e with rfl | ⟨rfl, rfl⟩
      · exact Or.inl hi
      · exact Or.inr ⟨rfl, hi⟩))]
  · rw [if_neg e, if_neg]
    intro h3
    rcases hd.1 h3 with h4 | ⟨rfl, h4⟩
    · rw [hi] at h4; exact e (Or.inl (Option.some.inj h4))
    · rw [hi] at h4; exact e (Or.inr ⟨Option.some.inj h4, rfl⟩)

theorem laylaChild_counts [AddCommGroup V] {P : LaylaProblem V} {g : LaylaGroup} {t level : Nat} {m k : LNode V} {b : Int}
    (hl : m.counts.length = P.c.angles.length) (h0 : ∀ x ∈ m.counts, 0 ≤ x) (h : laylaChild P g t level m b = .ok k) :
    CountsOK P.c k.counts := by
  unfold laylaChild at h
  obtain ⟨j, hj, h⟩ := bind_ok.1 h
  obtain ⟨x, hx, h⟩ := bind_ok.1 h
  rw [pyGet_eq_ok] at hx
  have hk := (Except.ok.inj h).symm
  subst hk
  obtain ⟨hjl, hjx⟩ := List.getElem?_eq_some_iff.1 hx
  have hx0 : 0 ≤ x := h0 x (hjx ▸ List.getElem_mem hjl)
  have hw : (0 : ℚ) < x + (if g.middle ≠ 0 ∧ t = g.size - 1 then 1 / 2 else 1) := by split <;> linarith
  have hnn : ∀ y ∈ m.counts.set j (x + (if g.middle ≠ 0 ∧ t = g.size - 1 then 1 / 2 else 1)), 0 ≤ y := by
    intro y hy
    rcases List.mem_or_eq_of_mem_set hy with hy | rfl
    · exact h0 y hy
    · exact hw.le
  refine ⟨by simpa using hl, hnn, ?_⟩
  apply ne_of_gt
  refine lt_of_lt_of_le hw (List.single_le_sum hnn _ ?_)
  rw [List.mem_iff_getElem?]
  exact ⟨j, by rw [List.getElem?_set_self hjl]⟩

theorem laylaLeaves_rel [AddCommGroup V] {P : LaylaProblem V} {g : LaylaGroup} {t level : Nat} {kids out : List (LNode V)}
    (h : laylaLeaves P g t level kids = .ok out) (ho : ∀ k ∈ kids, k.obj = P.objective level k.lampam) : out.length = kids.length ∧
    ∀ (i : Nat) (q : LNode V), out[i]? = some q → ∃ k, kids[i]? = some k ∧ q.counts = k.counts ∧
      (q.obj = P.objective level q.lampam ∨ (g.last = true ∧ t = g.size - 1 ∧ q.obj = 10 ^ 10)) := by
  unfold laylaLeaves at h
  by_cases e : g.last = true ∧ t = g.size - 1
  · rw [if_pos e] at h
    have hlen := (mapM_inv _ _ _ h).length_eq.symm
    refine ⟨hlen, ?_⟩
    intro i q hq
    have hil : i < kids.length := by rw [← hlen]; exact (List.getElem?_eq_some_iff.1 hq).1
    obtain ⟨k, hk⟩ : ∃ k, kids[i]? = some k := ⟨_, List.getElem?_eq_getElem hil⟩
    obtain ⟨q', hq', hf⟩ := mapM_entry h hk
    rw [hq] at hq'
    have := Option.some.inj hq'
    subst this
    refine ⟨k, hk, ?_⟩
    unfold laylaLeaf at hf
    obtain ⟨ss, _, hf⟩ := bind_ok.1 hf
    obtain ⟨r, _, hf⟩ := bind_ok.1 hf
    obtain ⟨r1, r2⟩ := r
    cases r2 with
    | true =>
      simp only [if_true] at hf
      obtain ⟨_, _, hf⟩ := bind_ok.1 hf
      have := (Except.ok.inj hf).symm
      subst this
      exact ⟨rfl, Or.inl rfl⟩
    | false =>
      simp only [Bool.false_eq_true, if_false] at hf
      have := (Except.ok.inj hf).symm
      subst this
      exact ⟨rfl, Or.inr ⟨e.1, e.2, rfl⟩⟩
  · rw [if_neg e] at h
    have := (Except.ok.inj h).symm
    subst this
    refine ⟨rfl, ?_⟩
    intro i q hq
    exact ⟨q, hq, rfl, Or.inl (ho q (List.mem_iff_getElem?.2 ⟨i, hq⟩))⟩

/-- C87: the bound of each child that a node leaves: the objective of its lamination parameters (1e10 after a failed repair) increased
by the penalties: what is missing to the 10% rule in its ply counts before the repair (last level of a group only), in-plane
orthotropy or balance, out-of-plane orthotropy.  The balance is not its own: it is that of the child treated last, which
has the first orientation kept by the pruning. -/
theorem C87_bounds [AddCommGroup V] (a : ConsArgs) (P : LaylaProblem V) (hc : mkConstraints a = .ok P.c) (p : LaylaPens V)
    (hP : P.factors = laylaFactors P.c p) (g : LaylaGroup) (t level : Nat) (m : LNode V)
    (hl : m.counts.length = P.c.angles.length) (h0 : ∀ x ∈ m.counts, 0 ≤ x) (ks : List (LNode V))
    (h : laylaBranch P g t level m = .ok ks) (hne : ks ≠ []) :
    ∃ (b : Int) (others : List Int) (y : List ℚ),
      laylaPruning P.c.angles (laylaSimpBot P.c g.ssBot) m.bot (if P.c.sym then [] else laylaSimpTop P.c g.ssTop) m.top level P.n
        P.c P.rule = .ok (some (b :: others)) ∧
      Spec.OneMore P.c.angles m.counts b (if g.middle ≠ 0 ∧ t = g.size - 1 then (1 / 2 : ℚ) else 1) y ∧
      ∀ k ∈ ks, (∃ x ∈ b :: others,
          Spec.OneMore P.c.angles m.counts x (if g.middle ≠ 0 ∧ t = g.size - 1 then (1 / 2 : ℚ) else 1) k.counts) ∧
        ∃ o, (o = P.objective level k.lampam ∨ (g.last = true ∧ t = g.size - 1 ∧ o = 10 ^ 10)) ∧
          k.obj = o * ((1 + p.coeff10 * (if t = g.size - 1 ∧ P.c.rule10 = true ∧ p.tenSwitch = true then
              Spec.missing P.c.shares P.c.angles k.counts else 0)) *
            (1 + p.coeffBal * max (if P.c.ipo = true ∧ p.balSwitch = true then p.area level * Spec.imbalance P.c.angles y else 0)
              (p.ipo level k.lampam)) * (1 + p.coeffOopo * p.oopo level k.lampam)) := by
  unfold laylaBranch at h
  obtain ⟨kept, hkept, h⟩ := bind_ok.1 h
  cases kept with
  | none => exact absurd (Except.ok.inj h).symm hne
  | some ch =>
    dsimp only at h
    obtain ⟨kids, hkids, h⟩ := bind_ok.1 h
    by_cases e : kids.length = 0
    · rw [if_pos e] at h; exact absurd (Except.ok.inj h).symm hne
    rw [if_neg e] at h
    obtain ⟨kids2, h2, h⟩ := bind_ok.1 h
    obtain ⟨fs, hfs, h⟩ := bind_ok.1 h
    have hks := (Except.ok.inj h).symm
    cases ch with
    | nil =>
      exfalso
      have := (Except.ok.inj hkids).symm
      rw [this] at e
      exact e rfl
    | cons b others =>
      have hrel := laylaLeaves_rel h2 (by
        intro k hk
        obtain ⟨k', _, rfl⟩ := List.mem_map.1 hk
        rfl)
      -- the ply counts of the children
      have hcnt : ∀ (i : Nat) (q : LNode V), kids2[i]? = some q → ∃ k x, kids[i]? = some k ∧ q.counts = k.counts ∧
          (b :: others).reverse[i]? = some x ∧ laylaChild P g t level m x = .ok k := by
        intro i q hq
        obtain ⟨k, hk, hqk, _⟩ := hrel.2 i q hq
        rw [List.getElem?_map] at hk
        cases e3 : kids[i]? with
        | none => rw [e3] at hk; cases hk
        | some k' =>
          rw [e3] at hk
          have hk := (Option.some.inj hk).symm
          subst hk
          have hil : i < (b :: others).reverse.length := by
            rw [(mapM_inv _ _ _ hkids).length_eq]
            exact (List.getElem?_eq_some_iff.1 e3).1
          obtain ⟨x, hx⟩ : ∃ x, (b :: others).reverse[i]? = some x := ⟨_, List.getElem?_eq_getElem hil⟩
          obtain ⟨k2, hk2, hch⟩ := mapM_entry hkids hx
          rw [e3] at hk2
          have := Option.some.inj hk2
          subst this
          exact ⟨k', x, rfl, hqk, hx, hch⟩
      have hlen2 : kids2.length = (b :: others).reverse.length := by
        rw [hrel.1, List.length_map, (mapM_inv _ _ _ hkids).length_eq]
      -- the child treated last
      have hlastIdx : others.length < kids2.length := by rw [hlen2]; simp
      obtain ⟨q0, hq0⟩ : ∃ q, kids2[others.length]? = some q := ⟨_, List.getElem?_eq_getElem hlastIdx⟩
      have hlast : (kids2.map (fun (k : LNode V) => (k.lampam, k.counts))).getLast? = some (q0.lampam, q0.counts) := by
        rw [List.getLast?_eq_getElem?, List.length_map, hlen2, List.getElem?_map]
        have : (b :: others).reverse.length - 1 = others.length := by simp
        rw [this, hq0]
        rfl
      obtain ⟨k0, x0, _, hk0c, hx0, hch0⟩ := hcnt _ _ hq0
      have hx0' : x0 = b := by
        rw [List.reverse_cons, List.getElem?_append_right (by simp)] at hx0
        simpa using hx0.symm
      subst hx0'
      rw [hP] at hfs
      have hval := laylaFactors_values a P.c hc p level _ _ (by
        intro k hk
        obtain ⟨q, hq, rfl⟩ := List.mem_map.1 hk
        obtain ⟨i, hi⟩ := List.mem_iff_getElem?.1 hq
        obtain ⟨k', x, _, hk', _, hch⟩ := hcnt i q hi
        show CountsOK P.c q.counts
        rw [hk']
        exact laylaChild_counts hl h0 hch) _ hlast fs hfs
      refine ⟨x0, others, q0.counts, hkept, ?_, ?_⟩
      · rw [hk0c]; exact laylaChild_more a P hc hch0
      intro k hk
      rw [hks] at hk
      obtain ⟨i, hi⟩ := List.mem_iff_getElem?.1 (mem_laylaLocalPrune hk)
      rw [List.getElem?_zipWith] at hi
      cases e4 : kids2[i]? with
      | none => rw [e4] at hi; cases hi
      | some q =>
        obtain ⟨k', x, _, hk', hx, hch⟩ := hcnt i q e4
        have hf := hval.2 i q.lampam q.counts (by rw [List.getElem?_map, e4]; rfl)
        rw [e4, hf] at hi
        have hi := (Option.some.inj hi).symm
        subst hi
        refine ⟨⟨x, List.mem_reverse.1 (List.mem_iff_getElem?.2 ⟨i, hx⟩), ?_⟩, q.obj, ?_, ?_⟩
        · show Spec.OneMore _ _ _ _ q.counts
          rw [hk']
          exact laylaChild_more a P hc hch
        · obtain ⟨_, _, _, ho⟩ := hrel.2 i q e4
          exact ho
        · show q.obj * _ = q.obj * _
          simp only [beq_iff_eq]

theorem plyCounts_countsOf (a : ConsArgs) (c : Cons) (hc : mkConstraints a = .ok c) (ss : Stack) (hss : ∀ x ∈ ss, x ∈ c.angles)
    (hne : ss ≠ []) : plyCountsLoop c.indAngles ss (List.replicate c.nAngles 0) = .ok (Spec.countsOf c.angles ss) ∧
    CountsOK c (Spec.countsOf c.angles ss) := by
  obtain ⟨n, hn, hlen, hsum, hcnt⟩ := plyCounts_spec a c hc ss hss
  have key : n = Spec.countsOf c.angles ss := by
    apply List.ext_getElem?
    intro i
    unfold Spec.countsOf
    rw [List.getElem?_map]
    cases e : c.angles[i]? with
    | none => rw [List.getElem?_eq_none (by rw [hlen]; exact List.getElem?_eq_none_iff.1 e)]; rfl
    | some x => rw [(hcnt i x e).2]; rfl
  rw [← key]
  refine ⟨hn, hlen, ?_, ?_⟩
  · rw [key]
    intro x hx
    obtain ⟨y, _, rfl⟩ := List.mem_map.1 hx
    exact Nat.cast_nonneg _
  · rw [hsum]
    have : ss.length ≠ 0 := by simpa using hne
    exact_mod_cast this

/-- C87: the objective of the design of an outer step: 1e10 if the 10% rule is not met; otherwise the objective of its lamination
parameters increased by the penalties for orthotropy, of which the in-plane ones are zero when balance is required: a design that is not
balanced, or not orthotropic in plane, has no objective. -/
theorem C87_final (a : ConsArgs) (c : Cons) (hc : mkConstraints a = .ok c) (p : LaylaPens V) (objective : V → ℚ) (v : V) (ss : Stack)
    (hss : ∀ x ∈ ss, x ∈ c.angles) (hne : ss ≠ []) (q : ℚ) (h : laylaFinalObj c p objective v ss = .ok q) :
    (c.rule10 = true ∧ Spec.missing c.shares c.angles (Spec.countsOf c.angles ss) ≠ 0 ∧ q = 10 ^ 10) ∨
    ((c.rule10 = true → Spec.missing c.shares c.angles (Spec.countsOf c.angles ss) = 0) ∧
      (c.ipo = true → p.ipoFinal v = 0) ∧
      (c.ipo = true → p.balSwitch = true → Spec.imbalance c.angles (Spec.countsOf c.angles ss) = 0) ∧
      q = objective v * (1 + p.coeffBal * max 0 (p.ipoFinal v)) * (1 + p.coeffOopo * p.oopoFinal v)) := by
  obtain ⟨h1, h2⟩ := plyCounts_countsOf a c hc ss hss hne
  unfold laylaFinalObj at h
  rw [h1] at h
  obtain ⟨n, hn, h⟩ := bind_ok.1 h
  have := (Except.ok.inj hn).symm
  subst this
  dsimp only at h
  obtain ⟨p10, hp10, h⟩ := bind_ok.1 h
  unfold laylaFinalTen at hp10
  have e10 : p10 = if c.rule10 = true then Spec.missing c.shares c.angles (Spec.countsOf c.angles ss) else 0 := by
    by_cases hr : c.rule10 = true
    · rw [if_pos hr, penalty10_missing a c hc hr _ h2] at hp10
      rw [if_pos hr, Except.ok.inj hp10]
    · rw [if_neg hr] at hp10
      rw [if_neg hr, ← Except.ok.inj hp10]
  rw [penaltyBal_imbalance a c hc _ h2, one_mul] at h
  by_cases g1 : c.rule10 = true ∧ p10 ≠ 0
  · rw [if_pos g1] at h
    rw [if_pos g1.1] at e10
    exact Or.inl ⟨g1.1, e10 ▸ g1.2, (Except.ok.inj h).symm⟩
  rw [if_neg g1] at h
  have hz : p10 = 0 := by
    by_cases hr : c.rule10 = true
    · by_contra hn; exact g1 ⟨hr, hn⟩
    · rw [e10, if_neg hr]
  by_cases g2 : c.ipo = true ∧ p.ipoFinal v ≠ 0
  · rw [if_pos g2] at h; cases h
  rw [if_neg g2] at h
  by_cases g3 : c.ipo = true ∧ (if c.ipo = true ∧ p.balSwitch = true then Spec.imbalance c.angles (Spec.countsOf c.angles ss) else 0) ≠ 0
  · rw [if_pos g3] at h; cases h
  rw [if_neg g3] at h
  have hb : (if c.ipo = true ∧ p.balSwitch = true then Spec.imbalance c.angles (Spec.countsOf c.angles ss) else 0) = 0 := by
    by_cases hi : c.ipo = true
    · by_contra hn; exact g3 ⟨hi, hn⟩
    · rw [if_neg (fun hh => hi hh.1)]
  refine Or.inr ⟨?_, ?_, ?_, ?_⟩
  · intro hr
    rw [if_pos hr] at e10
    rw [← e10, hz]
  · intro hi
    by_contra hn
    exact g2 ⟨hi, hn⟩
  · intro hi hs
    rw [if_pos ⟨hi, hs⟩] at hb
    exact hb
  · rw [hb, hz] at h
    rw [← Except.ok.inj h]
    unfold objMultiSs
    ring

/-- C87, violation: the objective of a design that is not orthotropic in plane, or not balanced, should be 1e10 when balance is
required; an exception is raised instead (the switches are read from the constraints, which have none). -/
theorem C87_switch_violation (a : ConsArgs) (c : Cons) (hc : mkConstraints a = .ok c) (hi : c.ipo = true) (p : LaylaPens V)
    (objective : V → ℚ) (v : V) (ss : Stack) (hss : ∀ x ∈ ss, x ∈ c.angles) (hne : ss ≠ [])
    (h10 : c.rule10 = true → Spec.missing c.shares c.angles (Spec.countsOf c.angles ss) = 0)
    (hb : p.ipoFinal v ≠ 0 ∨ (p.balSwitch = true ∧ Spec.imbalance c.angles (Spec.countsOf c.angles ss) ≠ 0)) :
    ∃ e, laylaFinalObj c p objective v ss = .error e := by
  cases h : laylaFinalObj c p objective v ss with
  | error e => exact ⟨e, rfl⟩
  | ok q =>
    exfalso
    rcases C87_final a c hc p objective v ss hss hne q h with ⟨h1, h2, _⟩ | ⟨_, h2, h3, _⟩
    · exact h2 (h10 h1)
    · rcases hb with hb | ⟨hs, hb⟩
      · exact hb (h2 hi)
      · exact hb (h3 hi hs)

/-- C87: the design that LAYLA returns has an objective of 1e10 and breaks the 10% rule, or it satisfies the 10% rule and, when
balance is required, is orthotropic in plane and, with the penalty for balance, balanced. -/
theorem C87_returned [AddCommGroup V] (a : ConsArgs) (P : LaylaProblem V) (hc : mkConstraints a = .ok P.c) (p : LaylaPens V)
    (hP : P.factors = laylaFactors P.c p) (hp : PensOK p) (objective : V → ℚ) (hF : P.finalObj = laylaFinalObj P.c p objective)
    (nOuter : Nat) (gmin : Int) (gmax : List Int) (h1 : 1 ≤ gmin) (h2 : ∀ m ∈ gmax, gmin ≤ m) (r : LaylaResult V)
    (h : laylaOptimiser P nOuter gmin gmax = .ok r) (hss : ∀ x ∈ r.ss, x ∈ P.c.angles) (hn : 1 ≤ P.n) :
    (P.c.rule10 = true ∧ Spec.missing P.c.shares P.c.angles (Spec.countsOf P.c.angles r.ss) ≠ 0 ∧ r.obj = 10 ^ 10) ∨
    ((P.c.rule10 = true → Spec.missing P.c.shares P.c.angles (Spec.countsOf P.c.angles r.ss) = 0) ∧
      (P.c.ipo = true → p.ipoFinal r.lampam = 0) ∧
      (P.c.ipo = true → p.balSwitch = true → Spec.imbalance P.c.angles (Spec.countsOf P.c.angles r.ss) = 0) ∧
      r.obj = objective r.lampam * (1 + p.coeffBal * max 0 (p.ipoFinal r.lampam)) * (1 + p.coeffOopo * p.oopoFinal r.lampam)) := by
  obtain ⟨rs, levels0, _, _, _, _, _, _, _, _, hl, _, _, _, hf, _⟩ := C78_design P (C87_not_below P p hP hp) nOuter gmin gmax h1 h2 r h
  rw [hF] at hf
  exact C87_final a P.c hc p objective r.lampam r.ss hss (by rintro e; rw [e] at hl; simp at hl; omega) r.obj hf

/-- Penalties used as an example: only those on the ply counts. -/
def pensExample : LaylaPens ℚ :=
  { coeff10 := 1, coeffBal := 1, coeffOopo := 1, tenSwitch := true, balSwitch := true, area := fun _ => 1
    ipo := fun _ _ => 0, oopo := fun _ _ => 0, ipoFinal := fun _ => 0, oopoFinal := fun _ => 0 }

/-- The problem of C78_example with these penalties and a repair that always gives the same laminate. -/
def pensProblem (c : Cons) (n : Nat) (repaired : Stack → Stack) : LaylaProblem ℚ :=
  { laylaExample c n with
      factors := laylaFactors c pensExample
      repair := fun (s : Stack) => .ok (repaired s, true)
      finalObj := laylaFinalObj c pensExample (fun (v : ℚ) => |v - 100|) }

theorem pensExample_ok : PensOK pensExample :=
  ⟨by norm_num [pensExample], by norm_num [pensExample], by norm_num [pensExample], fun _ _ => le_refl _, fun _ _ => le_refl _⟩

/-- What `laylaBranch` gives for a node, in short: the first child that satisfies a test, if any. -/
def pensChild (r : Py (List (LNode ℚ))) (bot : Stack) : Option (LNode ℚ) :=
  match r with
  | .ok ks => ks.find? (fun (k : LNode ℚ) => k.bot == bot)
  | .error _ => none

theorem pensChild_spec {r : Py (List (LNode ℚ))} {bot : Stack} {k : LNode ℚ} (h : pensChild r bot = some k) :
    ∃ ks, r = .ok ks ∧ k ∈ ks ∧ k.bot = bot := by
  unfold pensChild at h
  cases r with
  | error e => cases h
  | ok ks => exact ⟨ks, rfl, List.mem_of_find?_eq_some h, by simpa using List.find?_some h⟩

/-- C87, violation: the penalty of a child for balance is not that of its ply counts.  The first orientation
kept is -45.  After a ply at -45, the child that adds a ply at 45 is balanced, yet its bound is twice its objective; after a ply at 45, the
child that adds a second ply at 45 is not balanced, yet its bound is its objective. -/
theorem C87_balance_violation : ∃ (a : ConsArgs) (c : Cons) (ks ks' : List (LNode ℚ)) (k k' : LNode ℚ),
    mkConstraints a = .ok c ∧ c.bal = true ∧ PensOK pensExample ∧
    laylaBranch (pensProblem c 8 id) { ssBot := [], ssTop := [], size := 3, last := false, middle := 0 } 1 1
      { bot := [-45], top := [], lampam := 0, counts := [1, 0, 0, 0], obj := 0, full := [] } = .ok ks ∧ k ∈ ks ∧ k.bot = [-45, 45] ∧
    k.counts = Spec.countsOf c.angles [-45, 45] ∧ Spec.imbalance c.angles k.counts = 0 ∧
    0 < (pensProblem c 8 id).objective 1 k.lampam ∧ k.obj = 2 * (pensProblem c 8 id).objective 1 k.lampam ∧
    laylaBranch (pensProblem c 8 id) { ssBot := [], ssTop := [], size := 3, last := false, middle := 0 } 1 1
      { bot := [45], top := [], lampam := 0, counts := [0, 0, 1, 0], obj := 0, full := [] } = .ok ks' ∧ k' ∈ ks' ∧ k'.bot = [45, 45] ∧
    k'.counts = Spec.countsOf c.angles [45, 45] ∧ Spec.imbalance c.angles k'.counts = 1 ∧
    k'.obj = (pensProblem c 8 id).objective 1 k'.lampam := by
  obtain ⟨c, hc, ht⟩ := ok_of_test (mkConstraints { sym := true, bal := true }) (fun c => decide (c.bal = true) &&
    (match pensChild (laylaBranch (pensProblem c 8 id) { ssBot := [], ssTop := [], size := 3, last := false, middle := 0 } 1 1
        { bot := [-45], top := [], lampam := 0, counts := [1, 0, 0, 0], obj := 0, full := [] }) [-45, 45],
      pensChild (laylaBranch (pensProblem c 8 id) { ssBot := [], ssTop := [], size := 3, last := false, middle := 0 } 1 1
        { bot := [45], top := [], lampam := 0, counts := [0, 0, 1, 0], obj := 0, full := [] }) [45, 45] with
    | some k, some k' => decide (k.counts = Spec.countsOf c.angles [-45, 45] ∧ Spec.imbalance c.angles k.counts = 0 ∧
        0 < (pensProblem c 8 id).objective 1 k.lampam ∧ k.obj = 2 * (pensProblem c 8 id).objective 1 k.lampam ∧
        k'.counts = Spec.countsOf c.angles [45, 45] ∧ Spec.imbalance c.angles k'.counts = 1 ∧
        k'.obj = (pensProblem c 8 id).objective 1 k'.lampam)
    | _, _ => false)) (by decide +kernel)
  simp only [Bool.and_eq_true, decide_eq_true_eq] at ht
  obtain ⟨t1, t2⟩ := ht
  cases h : pensChild (laylaBranch (pensProblem c 8 id) { ssBot := [], ssTop := [], size := 3, last := false, middle := 0 } 1 1
        { bot := [-45], top := [], lampam := 0, counts := [1, 0, 0, 0], obj := 0, full := [] }) [-45, 45] with
  | none => rw [h] at t2; cases t2
  | some k =>
    cases h' : pensChild (laylaBranch (pensProblem c 8 id) { ssBot := [], ssTop := [], size := 3, last := false, middle := 0 } 1 1
        { bot := [45], top := [], lampam := 0, counts := [0, 0, 1, 0], obj := 0, full := [] }) [45, 45] with
    | none => rw [h, h'] at t2; cases t2
    | some k' =>
      rw [h, h'] at t2
      simp only [decide_eq_true_eq] at t2
      obtain ⟨ks, b1, b2, b3⟩ := pensChild_spec h
      obtain ⟨ks', d1, d2, d3⟩ := pensChild_spec h'
      exact ⟨_, c, ks, ks', k, k', hc, t1, pensExample_ok, b1, b2, b3, t2.1, t2.2.1, t2.2.2.1, t2.2.2.2.1, d1, d2, d3,
        t2.2.2.2.2.1, t2.2.2.2.2.2.1, t2.2.2.2.2.2.2⟩

/-- C87, violation: the penalty for the 10% rule of a repaired laminate is that of the ply counts before the repair.  A laminate that the
repair made satisfy the 10% rule has a bound larger than its objective. -/
theorem C87_repaired_violation : ∃ (a : ConsArgs) (c : Cons) (ks : List (LNode ℚ)) (k : LNode ℚ),
    mkConstraints a = .ok c ∧ c.rule10 = true ∧ PensOK pensExample ∧
    laylaBranch (pensProblem c 4 (fun _ => [0, 45, 90, -45])) { ssBot := [0, 45, 90], ssTop := [], size := 1, last := true, middle := 0 }
      0 1 { bot := [], top := [], lampam := 0, counts := [0, 1, 1, 1], obj := 0, full := [] } = .ok ks ∧ k ∈ ks ∧ k.bot = [90] ∧
    k.full = [0, 45, 90, -45] ∧ Spec.missing c.shares c.angles (Spec.countsOf c.angles k.full) = 0 ∧
    Spec.missing c.shares c.angles k.counts = 1 / 10 ∧ 0 < (pensProblem c 4 id).objective 1 k.lampam ∧
    k.obj = (pensProblem c 4 id).objective 1 k.lampam * (11 / 10) := by
  obtain ⟨c, hc, ht⟩ := ok_of_test
    (mkConstraints { rule10 := true, percent0 := 10, percent45 := 10, percent90 := 10, percent135 := 10 }) (fun c =>
    decide (c.rule10 = true) &&
    (match pensChild (laylaBranch (pensProblem c 4 (fun _ => [0, 45, 90, -45]))
        { ssBot := [0, 45, 90], ssTop := [], size := 1, last := true, middle := 0 }
        0 1 { bot := [], top := [], lampam := 0, counts := [0, 1, 1, 1], obj := 0, full := [] }) [90] with
    | some k => decide (k.full = [0, 45, 90, -45] ∧ Spec.missing c.shares c.angles (Spec.countsOf c.angles k.full) = 0 ∧
        Spec.missing c.shares c.angles k.counts = 1 / 10 ∧ 0 < (pensProblem c 4 id).objective 1 k.lampam ∧
        k.obj = (pensProblem c 4 id).objective 1 k.lampam * (11 / 10))
    | none => false)) (by decide +kernel)
  simp only [Bool.and_eq_true, decide_eq_true_eq] at ht
  obtain ⟨t1, t2⟩ := ht
  cases h : pensChild (laylaBranch (pensProblem c 4 (fun _ => [0, 45, 90, -45]))
        { ssBot := [0, 45, 90], ssTop := [], size := 1, last := true, middle := 0 }
        0 1 { bot := [], top := [], lampam := 0, counts := [0, 1, 1, 1], obj := 0, full := [] }) [90] with
  | none => rw [h] at t2; cases t2
  | some k =>
    rw [h] at t2
    simp only [decide_eq_true_eq] at t2
    obtain ⟨ks, b1, b2, b3⟩ := pensChild_spec h
    exact ⟨_, c, ks, k, hc, t1, pensExample_ok, b1, b2, b3, t2.1, t2.2.1, t2.2.2.1, t2.2.2.2.1, t2.2.2.2.2⟩

set_option synthInstance.maxHeartbeats 200000 in
set_option synthInstance.maxSize 1000 in
/-- The hypotheses of C87_returned and C87_switch_violation are met: a balanced design is returned; an unbalanced one raises an
exception. -/
theorem C87_example : ∃ (a : ConsArgs) (c : Cons) (r : LaylaResult ℚ), mkConstraints a = .ok c ∧ c.ipo = true ∧
    (pensProblem c 8 id).factors = laylaFactors c pensExample ∧
    laylaOptimiser (pensProblem c 8 id) 2 2 [4, 4] = .ok r ∧ r.ss = [90, 0, 45, -45, -45, 45, 0, 90] ∧ r.obj = 7 / 2 ∧
    (∀ x ∈ r.ss, x ∈ c.angles) ∧ Spec.imbalance c.angles (Spec.countsOf c.angles r.ss) = 0 ∧
    (∀ x ∈ ([45, 0, 0, 45] : List Int), x ∈ c.angles) ∧ c.rule10 = false ∧
    Spec.imbalance c.angles (Spec.countsOf c.angles [45, 0, 0, 45]) = 1 / 2 ∧
    laylaFinalObj c pensExample (fun (v : ℚ) => |v - 100|) 0 [45, 0, 0, 45] =
      .error (.exc "AttributeError: 'Constraints' object has no attribute 'penalty_bal_switch'") := by
  obtain ⟨c, hc, ht⟩ := ok_of_test (mkConstraints { sym := true, bal := true }) (fun c => decide (c.ipo = true ∧ c.rule10 = false ∧
      (∀ x ∈ ([45, 0, 0, 45] : List Int), x ∈ c.angles) ∧ Spec.imbalance c.angles (Spec.countsOf c.angles [45, 0, 0, 45]) = 1 / 2 ∧
      laylaFinalObj c pensExample (fun (v : ℚ) => |v - 100|) 0 [45, 0, 0, 45] =
        .error (.exc "AttributeError: 'Constraints' object has no attribute 'penalty_bal_switch'")) &&
    (match laylaOptimiser (pensProblem c 8 id) 2 2 [4, 4] with
    | .ok r => decide (r.ss = [90, 0, 45, -45, -45, 45, 0, 90] ∧ r.obj = 7 / 2 ∧ (∀ x ∈ r.ss, x ∈ c.angles) ∧
        Spec.imbalance c.angles (Spec.countsOf c.angles r.ss) = 0)
    | .error _ => false)) (by decide +kernel)
  simp only [Bool.and_eq_true, decide_eq_true_eq] at ht
  obtain ⟨⟨t1, t2, t3, t4, t5⟩, t6⟩ := ht
  cases h : laylaOptimiser (pensProblem c 8 id) 2 2 [4, 4] with
  | error e => rw [h] at t6; cases t6
  | ok r =>
    rw [h] at t6
    simp only [decide_eq_true_eq] at t6
    exact ⟨_, c, r, hc, t1, rfl, h, t6.1, t6.2.1, t6.2.2.1, t6.2.2.2, t3, t2, t4, t5⟩

end Bella
