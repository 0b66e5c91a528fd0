import Verif.Proofs.ThickToThin
/-
The invariant of the thin-to-thick repair.
-/
namespace Bella

/-! ### Insertion of plies -/

theorem insertPly_perm (row : Stack) (i : Nat) (a : Int) : (insertPly row i a).Perm (a :: row) := by
  unfold insertPly
  refine List.perm_middle.trans ?_
  rw [List.take_append_drop]

theorem insertPly_length (row : Stack) (i : Nat) (a : Int) : (insertPly row i a).length = row.length + 1 := by
  have := (insertPly_perm row i a).length_eq
  simpa using this

theorem insertPly_get {row : Stack} {i : Nat} (hi : i ≤ row.length) (a : Int) (j : Nat) :
    (insertPly row i a)[j]? = if j < i then row[j]? else if j = i then some a else row[j - 1]? := by
  unfold insertPly
  have hl : (row.take i).length = i := by simp; omega
  by_cases h1 : j < i
  · rw [if_pos h1, List.getElem?_append_left (by omega), List.getElem?_take, if_pos h1]
  · rw [if_neg h1, List.getElem?_append_right (by omega), hl]
    by_cases h2 : j = i
    · rw [if_pos h2, h2, Nat.sub_self, List.getElem?_cons_zero]
    · rw [if_neg h2, show j - i = (j - i - 1) + 1 by omega, List.getElem?_cons_succ, List.getElem?_drop]
      congr 1
      omega

theorem insertPly_filter (row : Stack) (i : Nat) :
    (insertPly row i (-1)).filter (fun x => x != -1) = row.filter (fun x => x != -1) := by
  unfold insertPly
  rw [List.filter_append, List.filter_cons]
  simp only [bne_self_eq_false, Bool.false_eq_true, if_false]
  rw [← List.filter_append, List.take_append_drop]

theorem insertSym_filter (sym : Bool) (n : Nat) (row : Stack) (i : Nat) :
    (insertSym sym n row i (-1)).filter (fun x => x != -1) = row.filter (fun x => x != -1) := by
  unfold insertSym
  cases sym
  · exact insertPly_filter row i
  · simp only [if_true]
    rw [insertPly_filter, insertPly_filter]

theorem insertSym_length (sym : Bool) (n : Nat) (row : Stack) (i : Nat) (a : Int) :
    (insertSym sym n row i a).length = row.length + perSide sym := by
  unfold insertSym perSide
  cases sym
  · simp [insertPly_length]
  · simp [insertPly_length]

theorem insertSym_count (sym : Bool) (n : Nat) (row : Stack) (i : Nat) (a b : Int) :
    (insertSym sym n row i a).count b = row.count b + (if b = a then perSide sym else 0) := by
  have key : ∀ (r : Stack) (k : Nat), (insertPly r k a).count b = r.count b + (if b = a then 1 else 0) := by
    intro r k
    rw [(insertPly_perm r k a).count_eq, List.count_cons]
    by_cases h : b = a
    · simp [h]
    · rw [if_neg h, if_neg (by simpa using fun e => h e.symm)]
  unfold insertSym perSide
  cases sym
  · simp only [Bool.false_eq_true, if_false]
    exact key row i
  · simp only [if_true]
    rw [key, key]
    split_ifs <;> rfl

theorem insertSym_mem {sym : Bool} {n : Nat} {row : Stack} {i : Nat} {a x : Int} (h : x ∈ insertSym sym n row i a) :
    x = a ∨ x ∈ row := by
  unfold insertSym at h
  cases sym
  · simp only [Bool.false_eq_true, if_false] at h
    exact List.mem_cons.1 ((insertPly_perm _ _ _).mem_iff.1 h)
  · simp only [if_true] at h
    rcases List.mem_cons.1 ((insertPly_perm _ _ _).mem_iff.1 h) with h | h
    · exact Or.inl h
    · exact List.mem_cons.1 ((insertPly_perm _ _ _).mem_iff.1 h)

theorem insertSym_get {sym : Bool} {row : Stack} {i : Nat} (hi : i ≤ row.length)
    (hs : sym = true → i ≤ row.length / 2) (a : Int) (j : Nat) :
    (insertSym sym row.length row i a)[j]? =
      if j < i then row[j]? else if j = i then some a
      else if sym = true ∧ j = row.length - i + 1 then some a
      else if sym = true ∧ row.length - i + 1 < j then row[j - 2]? else row[j - 1]? := by
  unfold insertSym
  cases sym
  · simp only [Bool.false_eq_true, if_false, false_and]
    exact insertPly_get hi a j
  · have h2 := hs rfl
    simp only [if_true, true_and]
    rw [insertPly_get (by rw [insertPly_length]; omega)]
    by_cases c1 : j < row.length - i + 1
    · rw [if_pos c1, insertPly_get hi, if_neg (show ¬ j = row.length - i + 1 by omega),
        if_neg (show ¬ row.length - i + 1 < j by omega)]
    · rw [if_neg c1, if_neg (show ¬ j < i by omega), if_neg (show ¬ j = i by omega)]
      by_cases c2 : j = row.length - i + 1
      · rw [if_pos c2, if_pos c2]
      · rw [if_neg c2, if_neg c2, if_pos (by omega), insertPly_get hi, if_neg (by omega), if_neg (by omega)]
        rw [show j - 1 - 1 = j - 2 by omega]

theorem insertSym_symm {row : Stack} {i : Nat} (hi : i ≤ row.length / 2) (a : Int) (h : Spec.Symmetric row) :
    Spec.Symmetric (insertSym true row.length row i a) := by
  apply symm_of_get
  intro j hj
  rw [insertSym_length] at hj ⊢
  simp only [perSide, if_true] at hj ⊢
  rw [insertSym_get (by omega) (fun _ => hi), insertSym_get (by omega) (fun _ => hi)]
  simp only [true_and]
  have key := fun (k : Nat) (hk : k < row.length) => symm_get h hk
  by_cases c1 : j < i
  · rw [if_pos c1, if_neg (by omega), if_neg (by omega), if_neg (by omega), if_pos (by omega)]
    rw [show row.length + 2 - 1 - j - 2 = row.length - 1 - j by omega]
    exact key j (by omega)
  · rw [if_neg c1]
    by_cases c2 : j = i
    · rw [if_pos c2, if_neg (by omega), if_neg (by omega), if_pos (by omega)]
    · rw [if_neg c2]
      by_cases c3 : j = row.length - i + 1
      · rw [if_pos c3, if_neg (by omega), if_pos (by omega)]
      · rw [if_neg c3]
        by_cases c4 : row.length - i + 1 < j
        · rw [if_pos c4, if_pos (by omega)]
          have := key (j - 2) (by omega)
          rw [← this]
          congr 1
          omega
        · rw [if_neg c4, if_neg (by omega), if_neg (by omega), if_neg (by omega), if_neg (by omega)]
          have := key (j - 1) (by omega)
          rw [← this]
          congr 1
          omega

/-- Insertion at the same place keeps the relation between two panels. -/
theorem insertSym_nested {sym : Bool} {row up : Stack} {i : Nat} (hl : row.length = up.length) (hi : i ≤ row.length)
    (hs : sym = true → i ≤ row.length / 2) {x y : Int} (hxy : x = y ∨ x = -1)
    (h : ∀ (j : Nat), row[j]? = up[j]? ∨ row[j]? = some (-1)) (j : Nat) :
    (insertSym sym row.length row i x)[j]? = (insertSym sym row.length up i y)[j]? ∨
      (insertSym sym row.length row i x)[j]? = some (-1) := by
  have e : insertSym sym row.length up i y = insertSym sym up.length up i y := by rw [hl]
  rw [e, insertSym_get hi hs, insertSym_get (by omega) (by rw [← hl]; exact hs), ← hl]
  have hxy' : some x = some y ∨ some x = some (-1 : Int) := by
    rcases hxy with h | h
    · exact Or.inl (by rw [h])
    · exact Or.inr (by rw [h])
  split_ifs
  all_goals first
    | exact h _
    | exact hxy'

/-- The plies next to the faces are kept. -/
def SameFaces (k : Nat) (row base : Stack) : Prop :=
  ∀ (j : Nat), j < k → j < base.length →
    row[j]? = base[j]? ∧ row[row.length - 1 - j]? = base[base.length - 1 - j]?

theorem insertSym_faces {sym : Bool} {row base : Stack} {i k : Nat} (hk : k ≤ i) (hi : i + k ≤ row.length)
    (hs : sym = true → i ≤ row.length / 2) (a : Int) (hb : base.length ≤ row.length)
    (h : SameFaces k row base) : SameFaces k (insertSym sym row.length row i a) base := by
  intro j hj hjb
  obtain ⟨h1, h2⟩ := h j hj hjb
  rw [insertSym_length]
  rw [insertSym_get (by omega) hs, insertSym_get (by omega) hs]
  refine ⟨?_, ?_⟩
  · rw [if_pos (by omega)]
    exact h1
  · rw [← h2, if_neg (by unfold perSide; split_ifs <;> omega)]
    cases sym
    · simp only [perSide, Bool.false_eq_true, if_false, false_and]
      rw [if_neg (by omega)]
      congr 1
      omega
    · simp only [perSide, if_true, true_and]
      rw [if_neg (by omega), if_neg (by omega), if_pos (by omega)]
      congr 1
      omega

theorem addPositions_mem {c : Cons} {n : Nat} {ps : List Nat} (h : addPositions c n = .ok ps) {i : Nat}
    (hi : i ∈ ps) : nCov c ≤ i ∧ i + nCov c ≤ n ∧ (c.sym = true → i ≤ n / 2) := by
  unfold addPositions at h
  unfold nCov
  cases hc : c.covering <;> rw [hc] at h
  · simp only [Bool.false_eq_true, if_false] at h ⊢
    cases h
    rw [List.mem_range] at hi
    cases hs : c.sym <;> rw [hs] at hi <;> simp at hi ⊢ <;> omega
  · simp only [if_true] at h ⊢
    split_ifs at h with h1 h2 h3 h4 <;> (try cases h) <;> rw [List.mem_range'_1] at hi <;>
      simp_all <;> omega

/-! ### The invariant -/

/-- What the tables of the steps say about one step that starts with `nb` plies. -/
structure ThickStepOk (r : Reduced) (k : Nat) (s : Step) (nb : Nat) : Prop where
  ex : ∃ lo hi : Nat, r.nPlies[s.indPanel - 1]? = some lo ∧ r.nPlies[s.indPanel]? = some hi ∧ lo ≤ nb ∧ nb + k ≤ hi ∧
    (s.newBoundary = true ↔ nb = lo)
  le : r.indRef + 1 ≤ s.indPanel

/-- The rules tested on every designed panel. -/
def PassedAll (S : StripSetup) (ss : Stack) : Prop :=
  disoOk S ss = .ok true ∧ Passed S ss

/-- The balance of a row relative to the reference laminate, up to the ply of the queue. -/
def BalMore (S : StripSetup) (ref row : Stack) (q : List Int) : Prop :=
  q.length ≤ 1 ∧ ∀ a : Int, a ≠ 0 → a ≠ 90 → a ≠ -90 → a ≠ 1 → a ≠ -1 →
    imbalance row a = imbalance ref a +
      (q.map (fun b => (perSide S.c.sym : Int) * ((if a = b then 1 else 0) - (if a = -b then 1 else 0)))).sum

/-- The invariant: the panels up to `cp` have been designed, `cp` has `nb` plies at present; `base` holds the rows of
the panels up to the reference panel at the start. -/
structure ThickInv (S : StripSetup) (base : Table) (cp nb : Nat) (x : Cand) : Prop where
  len : x.pdl.length = S.r.nPlies.length
  cpGe : S.r.indRef ≤ cp
  hi : ∃ hi, S.r.nPlies[cp]? = some hi ∧ nb ≤ hi
  lo : S.r.indRef < cp → ∃ lo, S.r.nPlies[cp - 1]? = some lo ∧ lo < nb
  atRef : cp = S.r.indRef → S.r.nPlies[S.r.indRef]? = some nb
  rows : ∀ (p : Nat), p ≤ cp → ∃ row b, x.pdl[p]? = some (some row) ∧ base[min p S.r.indRef]? = some b ∧
    row.length = nb ∧ b.length ≤ nb ∧ (S.c.sym = true → Spec.Symmetric row) ∧ SameFaces (nCov S.c) row b ∧
    (p ≤ S.r.indRef → row.filter (fun x => x != -1) = b.filter (fun x => x != -1)) ∧
    (S.r.indRef < p → ∀ y ∈ row, y = -1 ∨ y ∈ S.c.angles ∨ y ∈ b)
  nested : ∀ (p : Nat), p < cp → ∀ row up : Stack, x.pdl[p]? = some (some row) →
    x.pdl[p + 1]? = some (some up) → ∀ (j : Nat), row[j]? = up[j]? ∨ row[j]? = some (-1)
  done : ∀ (p : Nat), S.r.indRef ≤ p → p < cp → ∀ row : Stack, x.pdl[p]? = some (some row) →
    S.r.nPlies[p]? = some (row.filter (fun x => x != -1)).length
  cur : ∀ row : Stack, x.pdl[cp]? = some (some row) → (-1 : Int) ∉ row
  passed : ∀ (p : Nat), S.r.indRef < p → p ≤ cp → ∀ row : Stack, x.pdl[p]? = some (some row) →
    PassedAll S (row.filter (fun x => x != -1))
  bal : S.c.bal = true → ∀ ref : Stack, base[S.r.indRef]? = some ref → ∀ (p : Nat), S.r.indRef ≤ p → p ≤ cp →
    ∀ row : Stack, x.pdl[p]? = some (some row) →
      ∃ q, (p = cp → q = x.queue) ∧ BalMore S ref (row.filter (fun x => x != -1)) q

/-- The panel from which the step starts. -/
theorem thick_source {S : StripSetup} {base : Table} {cp nb : Nat} {m : Cand} (I : ThickInv S base cp nb m)
    (hu : S.r.nPlies.Pairwise (· < ·)) {k : Nat} (hk : 1 ≤ k) {s : Step} (T : ThickStepOk S.r k s nb) :
    (if s.newBoundary then s.indPanel - 1 else s.indPanel) = cp ∧ cp ≤ s.indPanel ∧ s.indPanel ≤ cp + 1 ∧
      (s.newBoundary = true ↔ cp + 1 = s.indPanel) := by
  obtain ⟨lo, hi, h1, h2, h3, h4, h5⟩ := T.ex
  obtain ⟨l, g1, g2⟩ := I.hi
  have hle := T.le
  have hcp := I.cpGe
  by_cases hn : s.newBoundary = true
  · have e := h5.1 hn
    have a1 : s.indPanel - 1 ≤ cp := by
      by_contra h
      have := (sorted_get hu g1 h1).1 (by omega)
      omega
    have a2 : cp ≤ s.indPanel - 1 := by
      by_cases hr : S.r.indRef < cp
      · obtain ⟨lo', e1, e2⟩ := I.lo hr
        have := (sorted_get hu e1 h1).2 (by omega)
        omega
      · omega
    rw [hn]
    simp only [if_true]
    exact ⟨by omega, by omega, by omega, by simp; omega⟩
  · have hlt : lo < nb := by
      rcases Nat.lt_or_ge lo nb with h | h
      · exact h
      · exact absurd (h5.2 (by omega)) hn
    have a1 := (sorted_get hu h1 g1).2 (by omega)
    have a2 : cp ≤ s.indPanel := by
      obtain ⟨lo', e1, e2⟩ := I.lo (by omega)
      have := (sorted_get hu e1 h2).2 (by omega)
      omega
    have hf : s.newBoundary = false := by simpa using hn
    rw [hf]
    simp only [Bool.false_eq_true, if_false]
    exact ⟨by omega, by omega, by omega, by simp; omega⟩

/-- The rows after an addition. -/
theorem addLayout_ok {sym : Bool} {s : Step} {n : Nat} {pdl pdl' : List (Option Stack)} {i : Nat} {a : Int}
    (h : addLayout sym s n pdl i a = .ok pdl') (hl : s.indPanel < pdl.length) :
    pdl'.length = pdl.length ∧
    (∃ row, pdl[if s.newBoundary then s.indPanel - 1 else s.indPanel]? = some (some row) ∧
      pdl'[s.indPanel]? = some (some (insertSym sym n row i a))) ∧
    (∀ (p : Nat), p < s.indPanel → ∃ row, pdl[p]? = some (some row) ∧
      pdl'[p]? = some (some (insertSym sym n row i (-1)))) := by
  unfold addLayout at h
  obtain ⟨row, hrow, h⟩ := bind_ok.1 h
  obtain ⟨thin, ht, h⟩ := bind_ok.1 h
  cases h
  obtain ⟨g1, g2⟩ := mapM_get ht
  rw [List.length_range] at g1
  refine ⟨by simp; omega, ⟨row, rowAt_ok hrow, ?_⟩, fun p hp => ?_⟩
  · rw [List.getElem?_append_right (by simp; omega)]
    simp [g1]
  · obtain ⟨r, h1, h2⟩ := g2 p p (List.getElem?_range hp)
    refine ⟨r, rowAt_ok h1, ?_⟩
    rw [List.getElem?_append_left (by simp; omega), List.getElem?_map, h2]
    rfl

theorem balMore_next {S : StripSetup} {ref row : Stack} {q : List Int} {b : Int} {row' : Stack}
    (hb : S.c.bal = true) (h : BalMore S ref row q) (hal : balanceAllows S.c.bal q b = true)
    (hc : ∀ a : Int, row'.count a = row.count a + (if a = b then perSide S.c.sym else 0)) :
    BalMore S ref row' (nextQueue S.c.bal q b) := by
  obtain ⟨h1, h2⟩ := h
  have himb : ∀ a : Int, imbalance row' a = imbalance row a +
      (perSide S.c.sym : Int) * ((if a = b then 1 else 0) - (if a = -b then 1 else 0)) := by
    intro a
    unfold imbalance
    rw [hc a, hc (-a)]
    have : (-a = b) ↔ (a = -b) := by omega
    simp only [this]
    split_ifs <;> push_cast <;> ring
  unfold nextQueue
  rw [hb] at hal ⊢
  simp only [if_true]
  cases q with
  | nil =>
    simp only [List.isEmpty_nil, Bool.not_true, Bool.false_eq_true, if_false]
    split_ifs with hang
    · refine ⟨by simp, fun a a0 a90 am90 a1 am1 => ?_⟩
      rw [himb a, h2 a a0 a90 am90 a1 am1]
      simp
    · refine ⟨by simp, fun a a0 a90 am90 a1 am1 => ?_⟩
      rw [himb a, h2 a a0 a90 am90 a1 am1]
      have e1 : ¬ a = b := by omega
      have e2 : ¬ a = -b := by omega
      rw [if_neg e1, if_neg e2]
      simp
  | cons c t =>
    simp only [List.isEmpty_cons, Bool.not_false, if_true]
    have ht : t = [] := by
      cases t with
      | nil => rfl
      | cons => simp at h1
    subst ht
    have e : b = -c := by simpa [balanceAllows] using hal
    refine ⟨by simp, fun a a0 a90 am90 a1 am1 => ?_⟩
    rw [himb a, h2 a a0 a90 am90 a1 am1, e]
    simp only [List.map_cons, List.map_nil, List.sum_cons, List.sum_nil, neg_neg]
    ring

/-- One step keeps the invariant. -/
theorem thickInv_step {S : StripSetup} {base : Table} {cp nb : Nat} {m x : Cand} (I : ThickInv S base cp nb m)
    (hu : S.r.nPlies.Pairwise (· < ·)) {s : Step} (T : ThickStepOk S.r (perSide S.c.sym) s nb)
    (hm1 : (-1 : Int) ∉ S.c.angles) {ps : List Nat} (hps : addPositions S.c nb = .ok ps) {i : Nat} {a : Int}
    (hi : i ∈ ps) (ha : a ∈ addAngles S.c m.queue) (hx : thickChild S s nb m (i, a) = .ok x)
    (hpass : ∀ row : Stack, x.pdl[s.indPanel]? = some (some row) → PassedAll S (sstRowToSs row))
    (hrows : ∀ row : Stack, sstRowToSs row = row.filter (fun x => x != -1)) :
    ThickInv S base s.indPanel (nb + perSide S.c.sym) x := by
  have hk : 1 ≤ perSide S.c.sym := by unfold perSide; split_ifs <;> omega
  obtain ⟨hsrc, hle1, hle2, hnew⟩ := thick_source I hu hk T
  unfold thickChild at hx
  obtain ⟨pdl, hpdl, hx⟩ := bind_ok.1 hx
  obtain ⟨sp, _, hx⟩ := bind_ok.1 hx
  cases hx
  obtain ⟨lo, hi', t1, t2, t3, t4, t5⟩ := T.ex
  have hlt : s.indPanel < m.pdl.length := by
    rw [I.len]
    exact (List.getElem?_eq_some_iff.1 t2).1
  obtain ⟨hlen, ⟨cur, hcur, hnew'⟩, hthin⟩ := addLayout_ok hpdl hlt
  rw [hsrc] at hcur
  obtain ⟨c1, c2, c3⟩ := addPositions_mem hps hi
  obtain ⟨ha1, ha2⟩ := List.mem_filter.1 ha
  have hane : a ≠ -1 := fun e => hm1 (e ▸ ha1)
  obtain ⟨row0, b0, q1, q2, q3, q4, q5, q6, q7, q8⟩ := I.rows cp le_rfl
  rw [hcur] at q1
  have e := Option.some.inj (Option.some.inj q1)
  subst e
  have hsy : S.c.sym = true → i ≤ cur.length / 2 := by rw [q3]; exact c3
  have hfresh : ∀ (p : Nat) (row' : Stack), p < s.indPanel → pdl[p]? = some (some row') → ∃ row,
      m.pdl[p]? = some (some row) ∧ row' = insertSym S.c.sym nb row i (-1) := by
    intro p row' hp hr
    obtain ⟨row, h1, h2⟩ := hthin p hp
    rw [hr] at h2
    exact ⟨row, h1, Option.some.inj (Option.some.inj h2)⟩
  have hcurnew : ∀ row' : Stack, pdl[s.indPanel]? = some (some row') → row' = insertSym S.c.sym nb cur i a := by
    intro row' hr
    rw [hnew'] at hr
    exact (Option.some.inj (Option.some.inj hr)).symm
  have hcurfilter : cur.filter (fun x => x != -1) = cur := by
    rw [List.filter_eq_self]
    intro y hy
    have : y ≠ -1 := fun e => I.cur cur hcur (e ▸ hy)
    simpa using this
  have hnewfilter : (insertSym S.c.sym nb cur i a).filter (fun x => x != -1) = insertSym S.c.sym nb cur i a := by
    rw [List.filter_eq_self]
    intro y hy
    have : y ≠ -1 := by
      rcases insertSym_mem hy with h | h
      · exact h ▸ hane
      · exact fun e => I.cur cur hcur (e ▸ h)
    simpa using this
  refine {
      len := by rw [hlen]; exact I.len
      cpGe := by have := T.le; omega
      hi := ⟨hi', t2, t4⟩
      lo := fun _ => ⟨lo, t1, by omega⟩
      atRef := fun h => by have := T.le; omega
      rows := ?_
      nested := ?_
      done := ?_
      cur := ?_
      passed := ?_
      bal := ?_ }
  · intro p hp
    by_cases e : p = s.indPanel
    · subst e
      refine ⟨_, b0, hnew', ?_, by rw [insertSym_length, q3], by omega, fun h => ?_, ?_, fun h => ?_, fun _ y hy => ?_⟩
      · rw [← q2]
        have := T.le
        have := I.cpGe
        congr 1
        omega
      · rw [h, ← q3]
        exact insertSym_symm (hsy h) a (q5 h)
      · rw [← q3]
        exact insertSym_faces c1 (by omega) hsy a (by omega) q6
      · have := T.le
        omega
      · rcases insertSym_mem hy with h | h
        · exact Or.inr (Or.inl (h ▸ ha1))
        · by_cases hr : S.r.indRef < cp
          · exact q8 hr y h
          · have : cp ≤ S.r.indRef := by omega
            have hy' : y ∈ b0.filter (fun x => x != -1) := by
              rw [← q7 this, hcurfilter]
              exact h
            exact Or.inr (Or.inr (List.mem_filter.1 hy').1)
    · obtain ⟨row, h1, h2⟩ := hthin p (by omega)
      obtain ⟨row1, b1, w1, w2, w3, w4, w5, w6, w7, w8⟩ := I.rows p (by omega)
      rw [h1] at w1
      have e := Option.some.inj (Option.some.inj w1)
      subst e
      refine ⟨_, b1, h2, w2, by rw [insertSym_length, w3], by omega, fun h => ?_, ?_, fun h => ?_, fun h y hy => ?_⟩
      · rw [h, ← w3]
        exact insertSym_symm (by rw [w3]; exact c3 h) _ (w5 h)
      · rw [← w3]
        exact insertSym_faces c1 (by omega) (by rw [w3]; exact c3) _ (by omega) w6
      · rw [insertSym_filter]
        exact w7 h
      · rcases insertSym_mem hy with h' | h'
        · exact Or.inl h'
        · exact w8 h y h'
  · intro p hp row' up' hr hup j
    obtain ⟨row, h1, rfl⟩ := hfresh p row' hp hr
    obtain ⟨row1, b1, w1, w2, w3, _⟩ := I.rows p (by omega)
    rw [h1] at w1
    have e := Option.some.inj (Option.some.inj w1)
    subst e
    by_cases e : p + 1 = s.indPanel
    · rw [e] at hup
      have := hcurnew up' hup
      subst this
      rw [← w3]
      by_cases e2 : cp = p
      · subst e2
        rw [h1] at hcur
        have := Option.some.inj (Option.some.inj hcur)
        subst this
        exact insertSym_nested rfl (by omega) (by rw [w3]; exact c3) (Or.inr rfl) (fun _ => Or.inl rfl) j
      · have e3 : cp = p + 1 := by omega
        rw [e3] at hcur
        exact insertSym_nested (by omega) (by omega) (by rw [w3]; exact c3) (Or.inr rfl)
          (I.nested p (by omega) row cur h1 hcur) j
    · obtain ⟨up, h2, rfl⟩ := hfresh (p + 1) up' (by omega) hup
      obtain ⟨row1, b1, v1, v2, v3, _⟩ := I.rows (p + 1) (by omega)
      rw [h2] at v1
      have e := Option.some.inj (Option.some.inj v1)
      subst e
      rw [← w3]
      exact insertSym_nested (by omega) (by omega) (by rw [w3]; exact c3) (Or.inl rfl)
        (I.nested p (by omega) row up h1 h2) j
  · intro p hp1 hp2 row' hr
    obtain ⟨row, h1, rfl⟩ := hfresh p row' hp2 hr
    rw [insertSym_filter]
    by_cases e : p = cp
    · subst e
      rw [hcur] at h1
      have := Option.some.inj (Option.some.inj h1)
      subst this
      rw [hcurfilter, q3]
      have hn : s.newBoundary = true := hnew.2 (by omega)
      rw [t5.1 hn, ← t1]
      congr 1
      omega
    · exact I.done p hp1 (by omega) row h1
  · intro row' hr hmem
    have := hcurnew row' hr
    subst this
    rcases insertSym_mem hmem with h | h
    · exact hane h.symm
    · exact I.cur cur hcur h
  · intro p hp1 hp2 row' hr
    by_cases e : p = s.indPanel
    · subst e
      rw [← hrows]
      exact hpass row' hr
    · obtain ⟨row, h1, rfl⟩ := hfresh p row' (by omega) hr
      rw [insertSym_filter]
      exact I.passed p hp1 (by omega) row h1
  · intro hb ref href p hp1 hp2 row' hr
    by_cases e : p = s.indPanel
    · subst e
      have := hcurnew row' hr
      subst this
      obtain ⟨q, g1, g2⟩ := I.bal hb ref href cp I.cpGe le_rfl cur hcur
      rw [g1 rfl] at g2
      refine ⟨_, fun _ => rfl, ?_⟩
      refine balMore_next hb g2 ha2 (fun y => ?_)
      rw [hnewfilter, hcurfilter]
      exact insertSym_count _ _ _ _ _ _
    · obtain ⟨row, h1, rfl⟩ := hfresh p row' (by omega) hr
      obtain ⟨q, g1, g2⟩ := I.bal hb ref href p hp1 (by omega) row h1
      refine ⟨q, fun h => absurd h e, ?_⟩
      rw [insertSym_filter]
      exact g2

end Bella
