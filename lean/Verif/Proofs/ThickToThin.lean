import Verif.Proofs.StripBeam
import Verif.Spec.Layup
import Mathlib.Tactic.Ring
import Mathlib.Tactic.Linarith
/-
The invariant of the thick-to-thin repair.
-/
namespace Bella

/-- Number of plies of a row of a table. -/
def pliesIn (row : Stack) : Nat := row.countP (fun x => x != -1)

theorem pliesIn_set {row : Stack} {i : Nat} {a : Int} (h : row[i]? = some a) (ha : a ≠ -1) :
    pliesIn (row.set i (-1)) + 1 = pliesIn row := by
  induction row generalizing i with
  | nil => simp at h
  | cons b t ih =>
    cases i with
    | zero =>
      simp only [List.getElem?_cons_zero, Option.some.injEq] at h
      subst h
      simp [pliesIn, ha]
    | succ i =>
      have := ih (i := i) (by simpa using h)
      simp only [pliesIn, List.set_cons_succ, List.countP_cons] at this ⊢
      omega

theorem count_set {row : Stack} {i : Nat} {b : Int} (h : row[i]? = some b) {a : Int} (ha : a ≠ -1) :
    (row.set i (-1)).count a + (if a = b then 1 else 0) = row.count a := by
  induction row generalizing i with
  | nil => simp at h
  | cons c t ih =>
    cases i with
    | zero =>
      simp only [List.getElem?_cons_zero, Option.some.injEq] at h
      subst h
      rw [List.set_cons_zero, List.count_cons, List.count_cons]
      have : ((-1 : Int) == a) = false := by simpa using fun e => ha e.symm
      rw [this]
      by_cases e : a = c
      · subst e; simp
      · have : (c == a) = false := by simpa using fun e' => e e'.symm
        rw [this]; simp [e]
    | succ i =>
      have := ih (i := i) (by simpa using h)
      rw [List.set_cons_succ, List.count_cons, List.count_cons]
      omega

/-- The plies of the rows used by both sides of a laminate are dropped together. -/
theorem dropPly_get {sym : Bool} {nMax : Nat} {row : Stack} {i : Nat} (hl : row.length = nMax) (hi : i < nMax)
    (j : Nat) : (dropPly sym nMax row i)[j]? =
      if j = i ∨ (sym = true ∧ j = nMax - 1 - i) then some (-1) else row[j]? := by
  unfold dropPly
  cases sym
  · simp only [Bool.false_eq_true, if_false, false_and, or_false]
    rw [List.getElem?_set]
    by_cases h : i = j
    · subst h; rw [if_pos rfl, if_pos (by omega), if_pos rfl]
    · rw [if_neg h, if_neg (fun e => h e.symm)]
  · simp only [if_true, true_and]
    rw [List.getElem?_set, List.getElem?_set]
    by_cases h2 : nMax - i - 1 = j
    · rw [if_pos h2, if_pos (by rw [List.length_set]; omega), if_pos (Or.inr (by omega))]
    · rw [if_neg h2]
      by_cases h : i = j
      · subst h; rw [if_pos rfl, if_pos (by omega), if_pos (Or.inl rfl)]
      · rw [if_neg h, if_neg (by omega)]

theorem dropPly_length {sym : Bool} {nMax : Nat} {row : Stack} {i : Nat} :
    (dropPly sym nMax row i).length = row.length := by
  unfold dropPly
  split_ifs <;> simp

/-- The mirror image of a position of a symmetric row. -/
theorem symm_get {row : Stack} (h : Spec.Symmetric row) {j : Nat} (hj : j < row.length) :
    row[row.length - 1 - j]? = row[j]? := by
  unfold Spec.Symmetric at h
  conv_rhs => rw [← h]
  rw [List.getElem?_reverse hj]

theorem symm_of_get {row : Stack} (h : ∀ (j : Nat), j < row.length → row[row.length - 1 - j]? = row[j]?) :
    Spec.Symmetric row := by
  unfold Spec.Symmetric
  apply List.ext_getElem?
  intro j
  by_cases hj : j < row.length
  · rw [List.getElem?_reverse hj]; exact h j hj
  · rw [List.getElem?_eq_none (by simpa using hj), List.getElem?_eq_none (by omega)]

theorem dropPly_symm {nMax : Nat} {row : Stack} {i : Nat} (hl : row.length = nMax) (hi : i < nMax)
    (h : Spec.Symmetric row) : Spec.Symmetric (dropPly true nMax row i) := by
  apply symm_of_get
  intro j hj
  rw [dropPly_length] at hj ⊢
  rw [dropPly_get hl hi, dropPly_get hl hi]
  simp only [true_and]
  by_cases c : j = i ∨ j = nMax - 1 - i
  · rw [if_pos c, if_pos (by omega)]
  · rw [if_neg c, if_neg (by omega)]
    exact symm_get h hj

/-- The number of plies dropped at a time. -/
def perSide (sym : Bool) : Nat := if sym then 2 else 1

theorem dropPly_plies {sym : Bool} {nMax : Nat} {row : Stack} {i : Nat} {b : Int} (hl : row.length = nMax)
    (hi : i < nMax) (hs : sym = true → i < nMax / 2 ∧ Spec.Symmetric row) (h : row[i]? = some b) (hb : b ≠ -1) :
    pliesIn (dropPly sym nMax row i) + perSide sym = pliesIn row ∧
    ∀ a : Int, a ≠ -1 → (dropPly sym nMax row i).count a + (if a = b then perSide sym else 0) = row.count a := by
  cases sym
  · unfold dropPly perSide
    simp only [Bool.false_eq_true, if_false]
    exact ⟨pliesIn_set h hb, fun a ha => count_set h ha⟩
  · obtain ⟨hh, hsy⟩ := hs rfl
    unfold dropPly perSide
    simp only [if_true]
    have h2 : (row.set i (-1))[nMax - i - 1]? = some b := by
      rw [List.getElem?_set, if_neg (by omega)]
      have := symm_get hsy (j := i) (by omega)
      rw [hl] at this
      rw [show nMax - i - 1 = nMax - 1 - i by omega, this, h]
    have e1 := pliesIn_set h hb
    have e2 := pliesIn_set h2 hb
    refine ⟨by omega, fun a ha => ?_⟩
    have e3 := count_set h ha
    have e4 := count_set h2 ha
    split_ifs at * <;> omega

/-! ### The positions and the steps -/

/-- Number of protected plies on each face. -/
def nCov (c : Cons) : Nat := if c.covering then c.nCovering else 0

theorem dropPositions_mem {c : Cons} {nMax : Nat} {ps : List Nat} (h : dropPositions c nMax = .ok ps) {i : Nat}
    (hi : i ∈ ps) : nCov c ≤ i ∧ i < nMax ∧ (c.sym = true → i < nMax / 2) ∧ (c.sym = false → i + nCov c < nMax) := by
  unfold dropPositions at h
  unfold nCov
  cases hc : c.covering <;> rw [hc] at h
  · simp only [Bool.false_eq_true, if_false] at h ⊢
    cases h
    rw [List.mem_range] at hi
    cases hs : c.sym <;> rw [hs] at hi <;> simp at hi ⊢ <;> omega
  · simp only [if_true] at h ⊢
    split_ifs at h with h1 h2 h3 h4 <;> (try cases h) <;> rw [List.mem_range'_1] at hi <;>
      simp_all <;> omega

/-- What the tables of the steps say about one step that starts with `nb` plies. -/
structure ThinStepOk (r : Reduced) (k : Nat) (s : Step) (nb : Nat) : Prop where
  ex : ∃ lo hi : Nat, r.nPlies[s.indPanel]? = some lo ∧ r.nPlies[s.indPanel + 1]? = some hi ∧ lo + k ≤ nb ∧ nb ≤ hi ∧
    (s.newBoundary = true ↔ nb = hi)
  le : s.indPanel + 1 ≤ r.indRef

theorem sorted_get {u : List Nat} (hu : u.Pairwise (· < ·)) {i j a b : Nat} (hi : u[i]? = some a) (hj : u[j]? = some b) :
    (i < j ↔ a < b) := by
  have key : ∀ {i j a b : Nat}, u[i]? = some a → u[j]? = some b → i < j → a < b := by
    intro i j a b hi hj h
    obtain ⟨h1, rfl⟩ := List.getElem?_eq_some_iff.1 hi
    obtain ⟨h2, rfl⟩ := List.getElem?_eq_some_iff.1 hj
    exact List.pairwise_iff_getElem.1 hu i j h1 h2 h
  refine ⟨key hi hj, fun h => ?_⟩
  rcases Nat.lt_trichotomy i j with g | g | g
  · exact g
  · subst g
    rw [hi] at hj
    cases hj
    omega
  · have := key hj hi g
    omega

/-- The rules tested on every designed panel. -/
def Passed (S : StripSetup) (ss : Stack) : Prop :=
  contigOk S ss = .ok true ∧ (S.c.rule10 = true → S.c.rule10Abdalla = true → S.dist (S.lampam ss) = 0)

/-- Difference of the numbers of plies at `a` and `-a`. -/
def imbalance (l : Stack) (a : Int) : Int := l.count a - l.count (-a)

/-- The balance of a row relative to the reference row, up to the ply of the queue. -/
def BalRel (S : StripSetup) (pdlRef row : Stack) (q : List Int) : Prop :=
  q.length ≤ 1 ∧ ∀ a : Int, a ≠ 0 → a ≠ 90 → a ≠ -90 → a ≠ 1 → a ≠ -1 →
    imbalance row a = imbalance pdlRef a -
      (q.map (fun b => (perSide S.c.sym : Int) * ((if a = b then 1 else 0) - (if a = -b then 1 else 0)))).sum

/-- The rows of the layout. -/
structure GoodRow (S : StripSetup) (pdlRef row : Stack) : Prop where
  len : row.length = pdlRef.length
  symm : S.c.sym = true → Spec.Symmetric row
  cover : ∀ (j : Nat), j < pdlRef.length → j < nCov S.c ∨ pdlRef.length ≤ j + nCov S.c → row[j]? = pdlRef[j]?
  sub : ∀ (j : Nat), row[j]? = pdlRef[j]? ∨ row[j]? = some (-1)

/-- The invariant: the panels from `cp` to the reference panel have been designed, `cp` has `nb` plies at present. -/
structure ThinInv (S : StripSetup) (pdlRef : Stack) (cp nb : Nat) (x : Cand) : Prop where
  len : x.pdl.length = S.r.nPlies.length
  cpLe : cp ≤ S.r.indRef
  lo : ∃ lo, S.r.nPlies[cp]? = some lo ∧ lo ≤ nb
  hi : cp < S.r.indRef → ∃ hi, S.r.nPlies[cp + 1]? = some hi ∧ nb < hi
  atRef : cp = S.r.indRef → S.r.nPlies[S.r.indRef]? = some nb
  rows : ∀ (p : Nat), cp ≤ p → p ≤ S.r.indRef → ∃ row, x.pdl[p]? = some (some row) ∧ GoodRow S pdlRef row
  refRow : x.pdl[S.r.indRef]? = some (some pdlRef)
  nested : ∀ (p : Nat), cp ≤ p → p < S.r.indRef → ∀ row up : Stack, x.pdl[p]? = some (some row) →
    x.pdl[p + 1]? = some (some up) → ∀ (j : Nat), row[j]? = up[j]? ∨ row[j]? = some (-1)
  done : ∀ (p : Nat), cp < p → p ≤ S.r.indRef → ∀ row : Stack, x.pdl[p]? = some (some row) →
    S.r.nPlies[p]? = some (pliesIn row)
  cur : ∀ row : Stack, x.pdl[cp]? = some (some row) → pliesIn row = nb
  drops : ∀ row : Stack, x.pdl[cp]? = some (some row) → ∀ (j : Nat),
    j < (if S.c.sym then pdlRef.length / 2 else pdlRef.length) → (j ∈ x.drops ↔ row[j]? = some (-1))
  passed : ∀ (p : Nat), cp ≤ p → p < S.r.indRef → ∀ row : Stack, x.pdl[p]? = some (some row) →
    Passed S (sstRowToSs row)
  bal : S.c.bal = true → ∀ (p : Nat), cp ≤ p → p ≤ S.r.indRef → ∀ row : Stack, x.pdl[p]? = some (some row) →
    ∃ q, (p = cp → q = x.queue) ∧ BalRel S pdlRef row q

/-- The panel from which the step starts. -/
theorem thin_source {S : StripSetup} {pdlRef : Stack} {cp nb : Nat} {m : Cand} (I : ThinInv S pdlRef cp nb m)
    (hu : S.r.nPlies.Pairwise (· < ·)) {k : Nat} (hk : 1 ≤ k) {s : Step} (T : ThinStepOk S.r k s nb) :
    (if s.newBoundary then s.indPanel + 1 else s.indPanel) = cp ∧ s.indPanel ≤ cp ∧ cp ≤ s.indPanel + 1 ∧
      (s.newBoundary = true ↔ cp = s.indPanel + 1) := by
  obtain ⟨lo, hi, h1, h2, h3, h4, h5⟩ := T.ex
  obtain ⟨l, g1, g2⟩ := I.lo
  have hle := T.le
  have hcp := I.cpLe
  by_cases hn : s.newBoundary = true
  · have e := h5.1 hn
    have key : cp = s.indPanel + 1 := by
      have a1 : ¬ s.indPanel + 1 < cp := fun h => by
        have := (sorted_get hu h2 g1).1 h
        omega
      have a2 : ¬ cp < s.indPanel + 1 := fun h => by
        obtain ⟨hi', e1, e2⟩ := I.hi (by omega)
        have : ¬ s.indPanel + 1 < cp + 1 := fun h => by
          have := (sorted_get hu h2 e1).1 h
          omega
        have := (sorted_get hu h2 e1).2 (by omega)
        omega
      omega
    rw [hn]
    simp only [if_true]
    exact ⟨key.symm, by omega, by omega, by simp [key]⟩
  · have key : cp = s.indPanel := by
      have hlt : nb < hi := by
        rcases Nat.lt_or_ge nb hi with h | h
        · exact h
        · exact absurd (h5.2 (by omega)) hn
      have a1 : cp < s.indPanel + 1 := (sorted_get hu g1 h2).2 (by omega)
      obtain ⟨hi', e1, e2⟩ := I.hi (by omega)
      have := (sorted_get hu h1 e1).2 (by omega)
      omega
    have hf : s.newBoundary = false := by simpa using hn
    rw [hf]
    simp only [Bool.false_eq_true, if_false]
    exact ⟨key.symm, by omega, by omega, by simp; omega⟩

theorem rowAt_ok {α : Type} {pdl : List (Option α)} {i : Nat} {r : α} (h : rowAt pdl i = .ok r) :
    pdl[i]? = some (some r) := by
  unfold rowAt at h
  split at h
  · rename_i r' hr
    cases h
    exact hr
  · cases h
  · cases h

theorem balRel_next {S : StripSetup} {pdlRef row : Stack} {q : List Int} {b : Int} {row' : Stack}
    (hb : S.c.bal = true) (h : BalRel S pdlRef row q) (hal : balanceAllows S.c.bal q b = true)
    (hc : ∀ a : Int, a ≠ -1 → row'.count a + (if a = b then perSide S.c.sym else 0) = row.count a) :
    BalRel S pdlRef row' (nextQueue S.c.bal q b) := by
  obtain ⟨h1, h2⟩ := h
  have himb : ∀ a : Int, a ≠ 1 → a ≠ -1 → imbalance row' a = imbalance row a -
      (perSide S.c.sym : Int) * ((if a = b then 1 else 0) - (if a = -b then 1 else 0)) := by
    intro a ha1 ha2
    have e1 := hc a ha2
    have e2 := hc (-a) (by omega)
    unfold imbalance
    rw [← e1, ← e2]
    have : (-a = b) ↔ (a = -b) := by omega
    simp only [this]
    split_ifs <;> push_cast <;> ring
  unfold nextQueue
  rw [hb] at hal ⊢
  simp only [if_true]
  cases q with
  | nil =>
    simp only [List.isEmpty_nil, Bool.not_true, Bool.false_eq_true, if_false]
    split_ifs with hang
    · refine ⟨by simp, fun a a0 a90 am90 a1 am1 => ?_⟩
      rw [himb a a1 am1, h2 a a0 a90 am90 a1 am1]
      simp
    · refine ⟨by simp, fun a a0 a90 am90 a1 am1 => ?_⟩
      rw [himb a a1 am1, h2 a a0 a90 am90 a1 am1]
      have e1 : ¬ a = b := by omega
      have e2 : ¬ a = -b := by omega
      rw [if_neg e1, if_neg e2]
      simp
  | cons c t =>
    simp only [List.isEmpty_cons, Bool.not_false, if_true]
    have ht : t = [] := by
      cases t with
      | nil => rfl
      | cons => simp at h1
    subst ht
    have e : b = -c := by simpa [balanceAllows] using hal
    refine ⟨by simp, fun a a0 a90 am90 a1 am1 => ?_⟩
    rw [himb a a1 am1, h2 a a0 a90 am90 a1 am1, e]
    simp only [List.map_cons, List.map_nil, List.sum_cons, List.sum_nil, neg_neg]
    ring

/-- One step keeps the invariant. -/
theorem thinInv_step {S : StripSetup} {pdlRef : Stack} {cp nb : Nat} {m x : Cand} (I : ThinInv S pdlRef cp nb m)
    (hu : S.r.nPlies.Pairwise (· < ·)) {s : Step} (T : ThinStepOk S.r (perSide S.c.sym) s nb)
    {ps : List Nat} (hps : dropPositions S.c pdlRef.length = .ok ps) {i : Nat} (hi : i ∈ ps) (hfree : i ∉ m.drops)
    (hx : thinChild S s pdlRef.length pdlRef m i = .ok (some x))
    (hpass : ∀ row : Stack, x.pdl[s.indPanel]? = some (some row) → Passed S (sstRowToSs row)) :
    ThinInv S pdlRef s.indPanel (nb - perSide S.c.sym) x := by
  have hk : 1 ≤ perSide S.c.sym := by unfold perSide; split_ifs <;> omega
  obtain ⟨hsrc, hle1, hle2, hnew⟩ := thin_source I hu hk T
  unfold thinChild at hx
  by_cases hbal : balanceAllows S.c.bal m.queue (pdlRef.getD i 0) = true
  swap
  · rw [if_neg hbal] at hx
    cases hx
  rw [if_pos hbal] at hx
  obtain ⟨row, hrow, hx⟩ := bind_ok.1 hx
  obtain ⟨sp, _, hx⟩ := bind_ok.1 hx
  cases hx
  rw [hsrc] at hrow
  have hrow := rowAt_ok hrow
  obtain ⟨row', hr', G⟩ := I.rows cp le_rfl I.cpLe
  rw [hrow] at hr'
  have hr'' := Option.some.inj (Option.some.inj hr')
  subst hr''
  obtain ⟨hc1, hc2, hc3, hc4⟩ := dropPositions_mem hps hi
  -- the ply that is dropped
  have hilen : i < row.length := by rw [G.len]; exact hc2
  have hcell : row[i]? = some row[i] := List.getElem?_eq_getElem hilen
  have hne : row[i] ≠ -1 := by
    intro e
    rw [e] at hcell
    refine hfree ((I.drops row hrow i ?_).2 hcell)
    cases hs : S.c.sym
    · simpa using hc2
    · simpa using hc3 hs
  have href : pdlRef[i]? = some row[i] := by
    rcases G.sub i with h | h
    · rw [← h, hcell]
    · rw [hcell] at h
      exact absurd (Option.some.inj h) hne
  have hgetD : pdlRef.getD i 0 = row[i] := by
    rw [List.getD_eq_getElem?_getD, href]
    rfl
  obtain ⟨hd1, hd2⟩ := dropPly_plies (sym := S.c.sym) G.len hc2 (fun h => ⟨hc3 h, G.symm h⟩) hcell hne
  set new := dropPly S.c.sym pdlRef.length row i with hnewdef
  have hnlen : new.length = pdlRef.length := by rw [hnewdef, dropPly_length, G.len]
  have hget : ∀ (j : Nat), new[j]? =
      if j = i ∨ (S.c.sym = true ∧ j = pdlRef.length - 1 - i) then some (-1) else row[j]? :=
    fun j => dropPly_get G.len hc2 j
  have hsubrow : ∀ (j : Nat), new[j]? = row[j]? ∨ new[j]? = some (-1) := by
    intro j
    rw [hget j]
    split_ifs
    · exact Or.inr rfl
    · exact Or.inl rfl
  have Gnew : GoodRow S pdlRef new := by
    refine ⟨hnlen, fun h => ?_, fun j hj hcov => ?_, fun j => ?_⟩
    · rw [hnewdef, h]
      exact dropPly_symm G.len hc2 (G.symm h)
    · rw [hget j, if_neg, G.cover j hj hcov]
      rintro (e | ⟨hs, e⟩)
      · subst e
        rcases hcov with h | h
        · omega
        · cases hs : S.c.sym
          · have := hc4 hs; omega
          · have := hc3 hs; omega
      · have := hc3 hs
        omega
    · rcases hsubrow j with h | h
      · rw [h]; exact G.sub j
      · exact Or.inr h
  have hipl : s.indPanel < m.pdl.length := by
    have := (List.getElem?_eq_some_iff.1 I.refRow).1
    have := T.le
    omega
  have hat : (m.pdl.set s.indPanel (some new))[s.indPanel]? = some (some new) := by
    rw [List.getElem?_set, if_pos rfl, if_pos hipl]
  have hother : ∀ p, p ≠ s.indPanel → (m.pdl.set s.indPanel (some new))[p]? = m.pdl[p]? := by
    intro p hp
    rw [List.getElem?_set, if_neg (fun e => hp e.symm)]
  have hnb := I.cur row hrow
  obtain ⟨lo, hi', t1, t2, t3, t4, t5⟩ := T.ex
  have htle := T.le
  refine
    { len := by simpa using I.len
      cpLe := by omega
      lo := ⟨lo, t1, by omega⟩
      hi := fun _ => ⟨hi', t2, by omega⟩
      atRef := fun h => by omega
      rows := fun p hp1 hp2 => ?_
      refRow := ?_
      nested := ?_
      done := ?_
      cur := ?_
      drops := ?_
      passed := ?_
      bal := ?_ }
  · by_cases e : p = s.indPanel
    · subst e
      exact ⟨new, hat, Gnew⟩
    · rw [hother p e]
      exact I.rows p (by omega) hp2
  · rw [hother _ (by omega)]
    exact I.refRow
  · intro p hp1 hp2 r up hr hup j
    by_cases e : p = s.indPanel
    · subst e
      rw [hat] at hr
      cases hr
      rw [hother _ (by omega)] at hup
      by_cases hn : s.newBoundary = true
      · have : cp = s.indPanel + 1 := hnew.1 hn
        rw [← this, hrow] at hup
        cases hup
        exact hsubrow j
      · have hcp : cp = s.indPanel := by
          have : ¬ cp = s.indPanel + 1 := fun h => hn (hnew.2 h)
          omega
        rcases hsubrow j with h | h
        · rw [h]
          exact I.nested cp le_rfl (by omega) row up hrow (by rw [hcp]; exact hup) j
        · exact Or.inr h
    · rw [hother p e] at hr
      rw [hother _ (by omega)] at hup
      exact I.nested p (by omega) hp2 r up hr hup j
  · intro p hp1 hp2 r hr
    rw [hother p (by omega)] at hr
    by_cases e : p = cp
    · have hn : s.newBoundary = true := hnew.2 (by omega)
      subst e
      rw [hrow] at hr
      cases hr
      rw [hnb]
      have e1 : p = s.indPanel + 1 := hnew.1 hn
      rw [e1, t2, t5.1 hn]
    · exact I.done p (by omega) hp2 r hr
  · intro r hr
    rw [hat] at hr
    cases hr
    omega
  · intro r hr j hj
    rw [hat] at hr
    cases hr
    rw [List.mem_append, List.mem_singleton, I.drops row hrow j hj, hget j]
    have hmir : ¬ (S.c.sym = true ∧ j = pdlRef.length - 1 - i) := by
      rintro ⟨hs, e⟩
      rw [if_pos hs] at hj
      have := hc3 hs
      omega
    by_cases e : j = i
    · simp [e]
    · rw [if_neg (by tauto)]
      simp [e]
  · intro p hp1 hp2 r hr
    by_cases e : p = s.indPanel
    · subst e
      exact hpass r hr
    · rw [hother p e] at hr
      exact I.passed p (by omega) hp2 r hr
  · intro hb p hp1 hp2 r hr
    by_cases e : p = s.indPanel
    · subst e
      rw [hat] at hr
      cases hr
      refine ⟨_, fun _ => rfl, ?_⟩
      obtain ⟨q, hq1, hq2⟩ := I.bal hb cp le_rfl I.cpLe row hrow
      rw [hq1 rfl] at hq2
      rw [hgetD] at hbal ⊢
      exact balRel_next hb hq2 hbal hd2
    · rw [hother p e] at hr
      obtain ⟨q, _, hq2⟩ := I.bal hb p (by omega) hp2 r hr
      exact ⟨q, fun h => absurd h e, hq2⟩

end Bella
