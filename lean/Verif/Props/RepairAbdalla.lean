import Verif.Proofs.Abdalla
import Verif.Props.Repair10Fix
import Verif.Props.MembraneMore
/-
C58: the repair for balance and the 10% rule of Abdalla, `repair_10_bal`.
-/
namespace Bella

/-! ### The first step -/

/-- The plies of the queue of the first step are allowed. -/
theorem repair10Bal2_queue_in (c : Cons) (mini : Mini10) (ss : Stack)
    (hneg : ∀ x ∈ c.angles, x ≠ 90 → -x ∈ c.angles) (h0 : (0 : Int) ∈ c.angles)
    (h10 : c.rule10 = true → (90 : Int) ∈ c.angles ∧ (45 : Int) ∈ c.angles ∧ (-45 : Int) ∈ c.angles)
    (hang : ∀ x ∈ ss, x ∈ c.angles) (hrange : ∀ x ∈ c.angles, -90 < x ∧ x ≤ 90)
    (hmis : c.rule10 = false → initMissing c mini = 0) :
    ∀ x ∈ (repair10Bal2 c mini ss).2, x ∈ c.angles := by
  -- the plies considered by the loop
  have loop : ∀ (V q : List Int) (m : Int) (k : Nat), (∀ x ∈ V, x ∈ c.angles) → (∀ x ∈ q, x ∈ c.angles) →
      ∀ x ∈ (queueLoop c.ipo V q m k).1, x ∈ c.angles := by
    intro V
    induction V with
    | nil => intro q m k _ hq; simpa [queueLoop] using hq
    | cons a rest ih =>
      intro q m k hV hq
      simp only [queueLoop]
      split_ifs
      · exact hq
      · apply ih
        · intro x hx; exact hV x (List.mem_cons_of_mem _ hx)
        · intro x hx
          unfold queueStep at hx
          split_ifs at hx with g1 g2
          · exact hq x (List.mem_of_mem_erase hx)
          · rcases List.mem_append.mp hx with h | h
            · exact hq x h
            · rw [List.mem_singleton] at h
              rw [h]
              exact hneg a (hV a (by simp)) (by omega)
          · exact hq x hx
  have miss : ∀ (V q : List Int) (m : Int) (k : Nat), m ≤ 0 →
      (queueLoop c.ipo V q m k).2.1 ≤ 0 := by
    intro V
    induction V with
    | nil => intro q m k hm; simpa [queueLoop] using hm
    | cons a rest ih =>
      intro q m k hm
      have hm' : missingStep c.ipo a q m ≤ 0 := by
        unfold missingStep
        split_ifs <;> omega
      simp only [queueLoop]
      split_ifs
      · exact hm'
      · exact ih _ _ _ hm'
  unfold repair10Bal2
  split_ifs with h
  · simp
  · dsimp only
    have h1 := loop ((indPlies c.sym (fixMiddle c.sym ss).length).map (nth (fixMiddle c.sym ss)))
      (initQueue c mini) (initMissing c mini) 0 (by
        intro x hx
        obtain ⟨i, hi, rfl⟩ := List.mem_map.mp hx
        have hlt := indPlies_lt _ _ _ hi
        rw [nth_eq_getElem _ _ hlt]
        rcases fixMiddle_mem _ _ _ (List.getElem_mem hlt) with h2 | h2
        · exact hang _ h2
        · rw [h2]; exact h0) (by
        intro x hx
        unfold initQueue at hx
        split_ifs at hx with hr
        · obtain ⟨g90, g45, g135⟩ := h10 hr
          simp only [List.mem_append, List.mem_replicate] at hx
          rcases hx with ((hx | hx) | hx) | hx <;> rw [hx.2] <;> assumption
        · cases hx)
    have h2 : ∀ x ∈ extra45 (queueLoop c.ipo ((indPlies c.sym (fixMiddle c.sym ss).length).map (nth (fixMiddle c.sym ss)))
        (initQueue c mini) (initMissing c mini) 0).2.1, x ∈ c.angles := by
      intro x hx
      cases hr : c.rule10 with
      | true =>
        obtain ⟨g90, g45, g135⟩ := h10 hr
        unfold extra45 at hx
        obtain ⟨k, _, rfl⟩ := List.mem_map.mp hx
        split_ifs <;> assumption
      | false =>
        have := miss ((indPlies c.sym (fixMiddle c.sym ss).length).map (nth (fixMiddle c.sym ss)))
          (initQueue c mini) (initMissing c mini) 0 (by rw [hmis hr])
        unfold extra45 at hx
        rw [Int.toNat_of_nonpos this] at hx
        simp at hx
    generalize queueLoop c.ipo _ _ _ _ = r at *
    have h3 : ∀ x ∈ r.1 ++ extra45 r.2.1, x ∈ c.angles := by
      intro x hx
      rcases List.mem_append.mp hx with h | h
      · exact h1 x h
      · exact h2 x h
    rcases hr : r.2.2 with _ | k
    · exact h3
    · dsimp only
      split_ifs
      · intro x hx
        rcases List.mem_append.mp hx with h | h
        · exact h3 x h
        · rw [List.mem_singleton] at h
          rw [h]; exact h0
      · exact h3

/-- With the rule of Abdalla no minimum counts are requested. -/
theorem mini10_abdalla (a : ConsArgs) (c : Cons) (hc : mkConstraints a = .ok c)
    (h10 : c.rule10 = true) (hab : c.rule10Abdalla = true) (n : Nat) :
    ⌈(calcMini10 c n).m0⌉ = 0 ∧ ⌈(calcMini10 c n).m90⌉ = 0 ∧ (calcMini10 c n).m45 = 0 ∧ (calcMini10 c n).m135 = 0 ∧
    (calcMini10 c n).m45_135 = 0 := by
  obtain ⟨p, hp, _, _, _, _, _, _, _, _, _, rfl⟩ := mkConstraints_inv a c hc
  dsimp only at h10 hab
  unfold setPercentages at hp
  dsimp only at hp
  rw [if_pos h10, if_pos hab] at hp
  split_ifs at hp
  cases hp
  unfold calcMini10 mini10Of
  simp only [zero_mul, Int.ceil_zero]
  cases a.sym <;> cases a.bal <;> cases hn : (n % 2 == 1) <;> simp [ipoAdjust, ceilDiv]

/-! ### Balance -/

/-- The balance of the plies which may be changed is kept. -/
def SameBalance (c : Cons) (ss : Stack) (q : List Int) (s : Stack) (p : List Int) : Prop :=
  ∀ x : Int, x ≠ 0 → x ≠ 90 → x ≠ -90 →
    (designAll c.sym s p).count x + (designAll c.sym ss q).count (-x) =
    (designAll c.sym s p).count (-x) + (designAll c.sym ss q).count x

theorem keeps_balance {c : Cons} (A : AngleSet c) (ind : List Nat) (ss : Stack) (q : List Int) :
    Keeps c ind (fun s p => c.bal = true → SameBalance c ss q s p) := by
  refine ⟨?_, ?_, ?_⟩
  · intro hb s p s' p' a1 a2 _ _ h
    rw [hb] at h; cases h
  · intro _ s p s' p' a1 a2 hR m1 m2 hch hb x h0 h9 h9'
    have := hR hb x h0 h9 h9'
    have := hch.cnt x
    have := hch.cnt (-x)
    have := couple_balanced A m1 x h0 h9 h9'
    have := couple_balanced A m2 x h0 h9 h9'
    omega
  · intro _ s p s' p' a b hR hch hab hb x h0 h9 h9'
    have := hR hb x h0 h9 h9'
    have g1 := hch.cnt x
    have g2 := hch.cnt (-x)
    have z : [a].count x = 0 ∧ [a].count (-x) = 0 ∧ [b].count x = 0 ∧ [b].count (-x) = 0 := by
      simp only [List.count_cons, List.count_nil, beq_iff_eq]
      rcases hab with ⟨rfl, rfl⟩ | ⟨rfl, rfl⟩ <;> refine ⟨?_, ?_, ?_, ?_⟩ <;> split_ifs <;> omega
    omega

theorem balanced_of_same {c : Cons} (A : AngleSet c) {m : Nat} {ind : List Nat} {ss : Stack} {q : List Int} {s : Stack}
    {p : List Int} {F T : List Int} (hind : IndOk c.sym m ss.length ind)
    (hss : ∀ a ∈ ss, a = 666 ∨ a ∈ c.angles) (hq : ∀ a ∈ q, a ∈ c.angles) (hsy : c.sym = true → Spec.Symmetric ss)
    (h1 : PlyChanges c.sym (fun i => i ∈ ind) ss q s p F T) (h2 : ∀ y ∈ T, y ∈ c.angles)
    (hb : Spec.Balanced (Spec.plyContent c.sym ss q)) (hR : SameBalance c ss q s p) :
    Spec.Balanced (Spec.plyContent c.sym s p) := by
  obtain ⟨f1, f2, f3, f4⟩ := reach_facts hind hss hq h1 h2
  have hin666 : ∀ z : Int, z ∉ c.angles → (Spec.plyContent c.sym s p).count z = 0 := by
    intro z hz
    rw [List.count_eq_zero]
    unfold Spec.plyContent
    rw [List.mem_append, List.mem_append]
    rintro ((h3 | h3) | h3)
    · have h4 := List.mem_filter.1 h3
      rcases f3 z h4.1 with h5 | h5
      · simp [h5] at h4
      · exact hz h5
    · exact hz (f4 z h3)
    · split_ifs at h3
      · exact hz (f4 z h3)
      · cases h3
  intro z h0 h9 h9'
  by_cases hz : z = 666 ∨ z = -666
  · rw [hin666 z (fun hh => by have := A.range z hh; omega), hin666 (-z) (fun hh => by have := A.range (-z) hh; omega)]
  · have g := hb z h0 h9 h9'
    have gR := hR z h0 h9 h9'
    rw [plyContent_count _ _ _ hsy z (by omega), plyContent_count _ _ _ hsy (-z) (by omega)] at g
    rw [plyContent_count _ _ _ h1.symm z (by omega), plyContent_count _ _ _ h1.symm (-z) (by omega), f1]
    split_ifs at g ⊢ <;> omega

theorem count666_of_marks {ss s : Stack} (e1 : s.length = ss.length)
    (e3 : ∀ i : Nat, s[i]? = some 666 ↔ ss[i]? = some 666) : s.count 666 = ss.count 666 := by
  have : s.map (fun a => decide (a = 666)) = ss.map (fun a => decide (a = 666)) := by
    apply List.ext_getElem?
    intro i
    rw [List.getElem?_map, List.getElem?_map]
    have h3 := e3 i
    by_cases hi : i < ss.length
    · rw [nth_some hi, nth_some (by omega : i < s.length)] at h3 ⊢
      simp only [Option.some.injEq] at h3
      simp [h3]
    · rw [List.getElem?_eq_none (by omega), List.getElem?_eq_none (by omega)]
  have h4 := congrArg (List.countP (fun b => b)) this
  rw [List.countP_map, List.countP_map] at h4
  rw [List.count_eq_countP, List.count_eq_countP]
  have e : (fun a : Int => a == 666) = ((fun b => b) ∘ fun a : Int => decide (a = 666)) := by
    funext a
    simp only [Function.comp]
    by_cases h : a = 666 <;> simp [h]
  rw [e]
  exact h4

/-- What the first step returns, with the rule of Abdalla. -/
theorem abd_first (a : ConsArgs) (c : Cons) (hc : mkConstraints a = .ok c)
    (h10 : c.rule10 = true) (hab : c.rule10Abdalla = true) (ss : Stack)
    (hs : c.sym = true → Spec.Symmetric ss) (hang : ∀ x ∈ ss, x ∈ c.angles) :
    let r := repair10Bal2 c (calcMini10 c ss.length) ss
    r.1.length = ss.length ∧
    (∀ i : Nat, r.1[i]? = ss[i]? ∨ r.1[i]? = some 666 ∨
      (c.sym = true ∧ ss.length % 2 = 1 ∧ i = ss.length / 2 ∧ r.1[i]? = some 0)) ∧
    (c.sym = true → Spec.Symmetric r.1) ∧
    r.1.count 666 = (if c.sym then 2 else 1) * r.2.length ∧
    (∀ x ∈ r.1, x = 666 ∨ x ∈ c.angles) ∧ (∀ x ∈ r.2, x ∈ c.angles) ∧
    (c.sym = true → r.1.length % 2 ≠ 0 → nth r.1 (r.1.length / 2) ∈ c.angles) ∧
    (c.bal = true → Spec.Balanced (Spec.plyContent c.sym r.1 r.2)) := by
  intro r
  have A := angleSet_of a c hc
  have hm := mini10_abdalla a c hc h10 hab ss.length
  have hPA : ∀ x ∈ ss, Spec.PlyAngle x := by
    intro x hx
    have := A.range x (hang x hx)
    unfold Spec.PlyAngle
    omega
  obtain ⟨g1, g2, g3, g4, g5, g6, g7, _⟩ := C25_repair_10_bal a c hc ss hs hPA (by
    rw [hm.1, hm.2.1, hm.2.2.1, hm.2.2.2.1, hm.2.2.2.2]
    simp)
  have h4 : c.rule10 = true → (0 : Int) ∈ c.angles ∧ (45 : Int) ∈ c.angles ∧ (90 : Int) ∈ c.angles ∧ (-45 : Int) ∈ c.angles := by
    obtain ⟨p, _, _, _, _, _, h2, _, _, _, _, rfl⟩ := mkConstraints_inv a c hc
    exact h2
  have hq := repair10Bal2_queue_in c (calcMini10 c ss.length) ss A.neg (h4 h10).1
    (fun h => ⟨(h4 h).2.2.1, (h4 h).2.1, (h4 h).2.2.2⟩) hang A.range (fun h => by rw [h10] at h; cases h)
  have hss : ∀ x ∈ r.1, x = 666 ∨ x ∈ c.angles := by
    intro x hx
    obtain ⟨i, hi, hx⟩ := List.getElem_of_mem hx
    have hxi : r.1[i]? = some x := by rw [List.getElem?_eq_getElem hi, hx]
    rcases g2 i with h | h | ⟨_, _, _, h⟩
    · have h' : some x = ss[i]? := by rw [← hxi]; exact h
      exact Or.inr (hang x (List.mem_of_getElem? h'.symm))
    · left
      have h' : some x = some 666 := by rw [← hxi]; exact h
      exact Option.some.inj h'
    · right
      have h' : some x = some 0 := by rw [← hxi]; exact h
      rw [Option.some.inj h']
      exact (h4 h10).1
  have hbi : c.bal = c.ipo := by
    obtain ⟨p, _, _, _, _, _, _, _, _, _, _, rfl⟩ := mkConstraints_inv a c hc
    rfl
  refine ⟨g1, g2, g3, g4, hss, hq, ?_, fun h => g7 (by rw [← hbi]; exact h)⟩
  -- the middle ply is not marked: the number of marks is even
  intro hsy hodd
  have hlt : r.1.length / 2 < r.1.length := by omega
  have hmem : nth r.1 (r.1.length / 2) ∈ r.1 := by
    unfold nth; rw [List.getD_eq_getElem _ _ hlt]; exact List.getElem_mem _
  rcases hss _ hmem with h6 | h6
  · exfalso
    have hc6 := symmetric_count r.1 (g3 hsy) 666
    have h5 : (r.1.drop (r.1.length / 2)).take (r.1.length % 2) = [nth r.1 (r.1.length / 2)] := by
      rw [(by omega : r.1.length % 2 = 1)]
      unfold nth
      rw [List.getD_eq_getElem _ _ hlt, List.drop_eq_getElem_cons hlt]
      rfl
    rw [h5, h6] at hc6
    have g4' : r.1.count 666 = (if c.sym then 2 else 1) * r.2.length := g4
    rw [hsy, if_pos rfl] at g4'
    simp at hc6
    omega
  · exact h6

theorem repair10Bal_cases {dist : (Nat → ℚ) → ℚ} {c : Cons} {attr : DamTolAttr} {D : MemData} {mini : Mini10}
    {fuel : Nat} {ss : Stack} (h10 : c.rule10 = true) (hab : c.rule10Abdalla = true) :
    repair10Bal dist c attr D mini fuel ss =
      memPair (abdRun dist c attr D fuel (repair10Bal2 c (calcMini10 c ss.length) ss).1
        (repair10Bal2 c (calcMini10 c ss.length) ss).2) := by
  unfold repair10Bal abdRun
  rw [if_neg (by simp [h10, hab])]
  dsimp only
  split_ifs <;> rfl

/-- C58: with the 10% rule of Abdalla, whenever the repair of a laminate with allowed plies (symmetric if
required) for balance and the 10% rule returns, the partial laminate returned has the same number of plies, is
symmetric if required, has allowed plies and marks, with as many marks as there are plies in the queue
(per half); the plies of the queue are allowed; the plies kept and those of the queue together have the
number of plies of the laminate, are balanced if required, and their in-plane lamination parameters meet the
rule of Abdalla up to 1e-10.  A ply at the surface protected by the damage tolerance rule is unchanged or marked. -/
theorem C58_repair_10_abdalla (a : ConsArgs) (c : Cons) (hc : mkConstraints a = .ok c)
    (h10 : c.rule10 = true) (hab : c.rule10Abdalla = true) (dist : (Nat → ℚ) → ℚ) (attr : DamTolAttr)
    (D : MemData) (cs : Int → Nat → ℚ)
    (htrig : ∀ (r : Nat) (x : Int), c.angles[r]? = some x → ∀ k, D.cosSin r k = cs x k)
    (mini : Mini10) (fuel : Nat) (ss : Stack) (hn : ss.length ≤ 6666)
    (hang : ∀ x ∈ ss, x ∈ c.angles) (hs : c.sym = true → Spec.Symmetric ss) (out : Stack × List Int)
    (h : repair10Bal dist c attr D mini fuel ss = some (.ok out)) :
    out.1.length = ss.length ∧ (c.sym = true → Spec.Symmetric out.1) ∧
    out.1.count 666 = (if c.sym then 2 else 1) * out.2.length ∧
    (∀ x ∈ out.1, x = 666 ∨ x ∈ c.angles) ∧ (∀ x ∈ out.2, x ∈ c.angles) ∧
    (Spec.plyContent c.sym out.1 out.2).length = ss.length ∧
    (c.bal = true → Spec.Balanced (Spec.plyContent c.sym out.1 out.2)) ∧
    dist (Spec.inPlane cs ss.length (Spec.plyContent c.sym out.1 out.2)) ≤ 1 / 10 ^ 10 ∧
    (c.damTol = true → 3 < ss.length → ∀ i : Nat, i < (if attr.twoPlies then 2 else 1) →
      (out.1[i]? = ss[i]? ∨ out.1[i]? = some 666) ∧
      (out.1[ss.length - 1 - i]? = ss[ss.length - 1 - i]? ∨ out.1[ss.length - 1 - i]? = some 666)) := by
  have A := angleSet_of a c hc
  obtain ⟨g1, g2, g3, g4, g5, g6, g7, g8⟩ := abd_first a c hc h10 hab ss hs hang
  rw [repair10Bal_cases h10 hab] at h
  generalize repair10Bal2 c (calcMini10 c ss.length) ss = r at *
  obtain ⟨s, q⟩ := r
  dsimp only at *
  cases hrun : abdRun dist c attr D fuel s q with
  | none => rw [hrun] at h; cases h
  | some e =>
    cases e with
    | error e => rw [hrun] at h; cases h
    | ok st =>
      rw [hrun] at h
      cases h
      dsimp only
      obtain ⟨r1, r2, r3, r4⟩ := abdRun_spec A dist attr D fuel s q (by omega) g5 g6 g3 _
        (fun _ x _ _ _ => by omega) (keeps_balance A (indices1 c attr 100 s.length) s q) st hrun
      have hind := indices1_ok c attr 100 s.length
      have hcl := cand_lam A D cs htrig s q g5 g6 hind r2 _ r1
      obtain ⟨F, T, c1, c2⟩ := r1.reach
      have c1' : PlyChanges c.sym (fun i => i ∈ indices1 c attr 100 s.length) s q st.ss st.queue F T := c1
      obtain ⟨f1, f2, f3, f4⟩ := reach_facts hind g5 g6 c1' c2
      have hlen := c1'.len
      have hmark : ∀ i : Nat, st.ss[i]? = some 666 ↔ s[i]? = some 666 := by
        intro i
        by_cases hi : i < s.length
        · rw [nth_some hi, nth_some (by omega : i < st.ss.length), Option.some.injEq, Option.some.injEq]
          exact c1'.mark i hi
        · rw [List.getElem?_eq_none (by omega), List.getElem?_eq_none (by omega)]
      have hcnt : st.ss.count 666 = (if c.sym then 2 else 1) * st.queue.length := by
        rw [count666_of_marks hlen hmark, g4, c1'.qlen]
      refine ⟨by omega, c1'.symm, hcnt, f3, f4, ?_, ?_, ?_, ?_⟩
      · rw [content_length _ _ _ hcnt]; omega
      · intro hb
        exact balanced_of_same A hind g5 g6 g3 c1' c2 (g8 hb) (r3 hb)
      · rw [g1] at hcl
        have : st.lam = Spec.inPlane cs ss.length (Spec.plyContent c.sym st.ss st.queue) := hcl
        rw [← this]
        exact r4
      · intro hd h3 i hi
        have hp : i < memProtected c attr 100 s.length := by
          unfold memProtected
          rw [if_pos hd]
          exact lt_of_lt_of_le hi (le_max_left _ _)
        have hi2 : i < 2 := by split_ifs at hi <;> omega
        have key : ∀ j, j < ss.length → (j < memProtected c attr 100 s.length ∨
            s.length ≤ j + memProtected c attr 100 s.length) → (ss.length % 2 = 1 → j ≠ ss.length / 2) →
            st.ss[j]? = ss[j]? ∨ st.ss[j]? = some 666 := by
          intro j hj hjp hjm
          have e := f2 j (by omega) hjp
          have e' : st.ss[j]? = s[j]? := by
            rw [nth_some (by omega : j < st.ss.length), nth_some (by omega : j < s.length), e]
          rw [e']
          rcases g2 j with h | h | h
          · exact Or.inl h
          · exact Or.inr h
          · exact absurd h.2.2.1 (hjm h.2.1)
        exact ⟨key i (by omega) (Or.inl hp) (by intro _; omega), key _ (by omega) (Or.inr (by omega)) (by intro _; omega)⟩

/-- C58: the repair of a non-empty laminate raises no error: it returns, or it never ends. -/
theorem C58_no_error (a : ConsArgs) (c : Cons) (hc : mkConstraints a = .ok c)
    (h10 : c.rule10 = true) (hab : c.rule10Abdalla = true) (dist : (Nat → ℚ) → ℚ) (attr : DamTolAttr)
    (D : MemData) (mini : Mini10) (fuel : Nat) (ss : Stack) (hne : ss ≠ []) (hn : ss.length ≤ 6666)
    (hang : ∀ x ∈ ss, x ∈ c.angles) (hs : c.sym = true → Spec.Symmetric ss) (e : Err) :
    repair10Bal dist c attr D mini fuel ss ≠ some (.error e) := by
  have A := angleSet_of a c hc
  obtain ⟨g1, g2, g3, g4, g5, g6, g7, g8⟩ := abd_first a c hc h10 hab ss hs hang
  rw [repair10Bal_cases h10 hab]
  generalize repair10Bal2 c (calcMini10 c ss.length) ss = r at *
  obtain ⟨s, q⟩ := r
  dsimp only at *
  have hne' : s ≠ [] := by
    intro hh
    rw [hh] at g1
    exact hne (List.length_eq_zero_iff.1 g1.symm)
  rcases abdRun_ok A dist attr D fuel (A.ten h10) s q hne' (by omega) g5 g6 g3 g7 with h | ⟨st, h⟩
  · rw [h]; simp [memPair]
  · rw [h]; simp [memPair]

/-- C58 (violation): when no lay-up with that number of plies meets the rule of Abdalla, the repair never ends. -/
theorem C58_infeasible_never_ends (a : ConsArgs) (c : Cons) (hc : mkConstraints a = .ok c)
    (h10 : c.rule10 = true) (hab : c.rule10Abdalla = true) (dist : (Nat → ℚ) → ℚ) (attr : DamTolAttr)
    (D : MemData) (cs : Int → Nat → ℚ)
    (htrig : ∀ (r : Nat) (x : Int), c.angles[r]? = some x → ∀ k, D.cosSin r k = cs x k)
    (mini : Mini10) (ss : Stack) (hne : ss ≠ []) (hn : ss.length ≤ 6666)
    (hang : ∀ x ∈ ss, x ∈ c.angles) (hs : c.sym = true → Spec.Symmetric ss)
    (hinf : ∀ t : List Int, t.length = ss.length → (∀ x ∈ t, x ∈ c.angles) → (c.bal = true → Spec.Balanced t) →
      dist (Spec.inPlane cs ss.length t) > 1 / 10 ^ 10) :
    ∀ fuel, repair10Bal dist c attr D mini fuel ss = none := by
  intro fuel
  cases h : repair10Bal dist c attr D mini fuel ss with
  | none => rfl
  | some r =>
    exfalso
    cases r with
    | error e => exact C58_no_error a c hc h10 hab dist attr D mini fuel ss hne hn hang hs e h
    | ok out =>
      obtain ⟨_, _, _, h4, h5, h6, h7, h8, _⟩ :=
        C58_repair_10_abdalla a c hc h10 hab dist attr D cs htrig mini fuel ss hn hang hs out h
      refine absurd h8 (not_le.2 (hinf _ h6 ?_ h7))
      intro x hx
      unfold Spec.plyContent at hx
      rw [List.mem_append, List.mem_append] at hx
      rcases hx with (g | g) | g
      · have g' := List.mem_filter.1 g
        rcases h4 x g'.1 with h | h
        · simp [h] at g'
        · exact h
      · exact h5 x g
      · split_ifs at g
        · exact h5 x g
        · cases g

/-- C58 (violation): when all the plies are protected by the damage tolerance rule, so that none can be changed, and
the first step has nothing to repair, the repair of a laminate which does not meet the rule of Abdalla never ends. -/
theorem C58_protected_never_ends (a : ConsArgs) (c : Cons) (hc : mkConstraints a = .ok c)
    (h10 : c.rule10 = true) (hab : c.rule10Abdalla = true) (dist : (Nat → ℚ) → ℚ) (attr : DamTolAttr)
    (D : MemData) (cs : Int → Nat → ℚ)
    (htrig : ∀ (r : Nat) (x : Int), c.angles[r]? = some x → ∀ k, D.cosSin r k = cs x k)
    (mini : Mini10) (ss : Stack) (hne : ss ≠ []) (hn : ss.length ≤ 6666)
    (hang : ∀ x ∈ ss, x ∈ c.angles) (hs : c.sym = true → Spec.Symmetric ss)
    (hdam : c.damTol = true) (hprot : ss.length ≤ 2 * (if attr.twoPlies then 2 else 1))
    (hfirst : repair10Bal2 c (calcMini10 c ss.length) ss = (ss, []))
    (hdist : dist (Spec.inPlane cs ss.length ss) > 1 / 10 ^ 10) :
    ∀ fuel, repair10Bal dist c attr D mini fuel ss = none := by
  intro fuel
  have A := angleSet_of a c hc
  cases h : repair10Bal dist c attr D mini fuel ss with
  | none => rfl
  | some r =>
    exfalso
    cases r with
    | error e => exact C58_no_error a c hc h10 hab dist attr D mini fuel ss hne hn hang hs e h
    | ok out =>
      obtain ⟨_, _, _, _, _, _, _, h8, _⟩ :=
        C58_repair_10_abdalla a c hc h10 hab dist attr D cs htrig mini fuel ss hn hang hs out h
      rw [repair10Bal_cases h10 hab, hfirst] at h
      dsimp only at h
      cases hrun : abdRun dist c attr D fuel ss [] with
      | none => rw [hrun] at h; cases h
      | some e =>
        cases e with
        | error e => rw [hrun] at h; cases h
        | ok st =>
          rw [hrun] at h
          cases h
          have g5 : ∀ x ∈ ss, x = 666 ∨ x ∈ c.angles := fun x hx => Or.inr (hang x hx)
          obtain ⟨r1, r2, r3, r4⟩ := abdRun_spec A dist attr D fuel ss [] hn g5 (by simp) hs _
            trivial ⟨fun _ _ _ _ _ _ _ _ _ => trivial, fun _ _ _ _ _ _ _ _ _ _ _ => trivial,
              fun _ _ _ _ _ _ _ _ _ _ => trivial⟩ st hrun
          have hind := indices1_ok c attr 100 ss.length
          obtain ⟨F, T, c1, c2⟩ := r1.reach
          have c1' : PlyChanges c.sym (fun i => i ∈ indices1 c attr 100 ss.length) ss [] st.ss st.queue F T := c1
          obtain ⟨f1, f2, f3, f4⟩ := reach_facts hind g5 (by simp) c1' c2
          have hq : st.queue = [] := List.length_eq_zero_iff.1 c1'.qlen
          have hss : st.ss = ss := by
            apply List.ext_getElem?
            intro i
            have hlen := c1'.len
            by_cases hi : i < ss.length
            · rw [nth_some hi, nth_some (by omega : i < st.ss.length), f2 i hi]
              unfold memProtected
              rw [if_pos hdam]
              generalize (if attr.twoPlies then 2 else 1) = p at *
              omega
            · rw [List.getElem?_eq_none (by omega), List.getElem?_eq_none (by omega)]
          dsimp only at h8
          have hcont : Spec.plyContent c.sym ss [] = ss := by
            unfold Spec.plyContent Spec.knownPlies
            have : ss.filter (fun a => decide (a ≠ 666)) = ss := by
              rw [List.filter_eq_self]
              intro x hx
              have := A.range x (hang x hx)
              simp only [decide_eq_true_eq]
              omega
            rw [this]
            simp
          rw [hq, hss, hcont] at h8
          exact absurd h8 (not_le.2 hdist)

/-! ### Cases -/

def abdArgs : ConsArgs where
  sym := true
  bal := true
  rule10 := true
  rule10Abdalla := true
  percentAbdalla := 10
  setOfAngles := [-45, 0, 45, 90]

/-- A simple distance: how much the second in-plane lamination parameter exceeds 1/2 in absolute value. -/
def toyDist (lam : Nat → ℚ) : ℚ := max 0 (max (lam 1 - 1 / 2) (-1 / 2 - lam 1))

/-- A laminate of twelve 0 plies is repaired: couples of 0 plies become couples of +45 and -45 plies. -/
example : ∃ c out, mkConstraints abdArgs = .ok c ∧ c.rule10 = true ∧ c.rule10Abdalla = true ∧
    (∀ x ∈ List.replicate 12 (0 : Int), x ∈ c.angles) ∧ (c.sym = true → Spec.Symmetric (List.replicate 12 (0 : Int))) ∧
    (∀ (r : Nat) (x : Int), c.angles[r]? = some x → ∀ k, (trigData 0 0).cosSin r k = trig4 x k) ∧
    repair10Bal toyDist c c.damTolAttr (trigData 0 0) (calcMini10 c 12) 100 (List.replicate 12 0) = some (.ok out) ∧
    out.1 = [0, 0, 0, 0, -45, 45, 45, -45, 0, 0, 0, 0] := by
  obtain ⟨c, hc, ht⟩ := ok_of_test (mkConstraints abdArgs) (fun (c : Cons) =>
    decide (c.angles = [-45, 0, 45, 90] ∧ c.rule10 = true ∧ c.rule10Abdalla = true ∧
      (match repair10Bal toyDist c c.damTolAttr (trigData 0 0) (calcMini10 c 12) 100 (List.replicate 12 0) with
       | some (.ok out) => decide (out.1 = [0, 0, 0, 0, -45, 45, 45, -45, 0, 0, 0, 0])
       | _ => false) = true)) (by decide +kernel)
  obtain ⟨h1, h2, h3, h5⟩ := of_decide_eq_true ht
  split at h5
  · rename_i out hout
    refine ⟨c, out, hc, h2, h3, ?_, ?_, ?_, hout, of_decide_eq_true h5⟩
    · rw [h1]; decide
    · intro _; unfold Spec.Symmetric; decide
    · rw [h1]; exact trigData_trig 0 0
  · exact absurd h5 (by decide)

/-- No laminate of one ply meets the rule: the repair never ends. -/
example : ∃ c, mkConstraints abdArgs = .ok c ∧
    ∀ fuel, repair10Bal toyDist c c.damTolAttr (trigData 0 0) (calcMini10 c 1) fuel [0] = none := by
  obtain ⟨c, hc, ht⟩ := ok_of_test (mkConstraints abdArgs) (fun (c : Cons) =>
    decide (c.angles = [-45, 0, 45, 90] ∧ c.rule10 = true ∧ c.rule10Abdalla = true)) (by decide +kernel)
  obtain ⟨h1, h2, h3⟩ := of_decide_eq_true ht
  refine ⟨c, hc, C58_infeasible_never_ends abdArgs c hc h2 h3 toyDist c.damTolAttr (trigData 0 0) trig4
    (by rw [h1]; exact trigData_trig 0 0) _ [0] (by simp) (by simp) (by rw [h1]; decide)
    (fun _ => by unfold Spec.Symmetric; decide) ?_⟩
  intro t ht1 ht2 _
  obtain ⟨x, rfl⟩ := List.length_eq_one_iff.1 (by simpa using ht1)
  have hx := ht2 x (by simp)
  rw [h1] at hx
  simp only [List.mem_cons, List.not_mem_nil, or_false] at hx
  rcases hx with rfl | rfl | rfl | rfl <;> decide +kernel

/-- Two 0 plies, both at the surface. -/
def abdArgsDam : ConsArgs where
  rule10 := true
  rule10Abdalla := true
  percentAbdalla := 10
  damTol := true
  damTolRule := 1
  setOfAngles := [-45, 0, 45, 90]

example : ∃ c, mkConstraints abdArgsDam = .ok c ∧
    ∀ fuel, repair10Bal toyDist c c.damTolAttr (trigData 0 0) (calcMini10 c 2) fuel [0, 0] = none := by
  obtain ⟨c, hc, ht⟩ := ok_of_test (mkConstraints abdArgsDam) (fun (c : Cons) =>
    decide (c.angles = [-45, 0, 45, 90] ∧ c.rule10 = true ∧ c.rule10Abdalla = true ∧ c.damTol = true ∧
      c.sym = false ∧ repair10Bal2 c (calcMini10 c 2) [0, 0] = ([0, 0], []) ∧
      toyDist (Spec.inPlane trig4 2 [0, 0]) > 1 / 10 ^ 10)) (by decide +kernel)
  obtain ⟨h1, h2, h3, h4, h5, h6, h7⟩ := of_decide_eq_true ht
  refine ⟨c, hc, C58_protected_never_ends abdArgsDam c hc h2 h3 toyDist c.damTolAttr (trigData 0 0) trig4
    (by rw [h1]; exact trigData_trig 0 0) _ [0, 0] (by simp) (by simp) (by rw [h1]; decide)
    (fun h => by rw [h5] at h; cases h) h4 ?_ h6 h7⟩
  split_ifs <;> simp

end Bella
