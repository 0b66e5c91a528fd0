import Verif.Proofs.FlexuralSwapStep
/-
The loop of `repair_flexural_1` and its result.
-/
namespace Bella

theorem blockDist_sym {first size E n : Nat} (hp : 0 < size) (h : first + size ≤ E) (hE : 2 * E ≤ n) :
    blockDist first size n = 2 * ((n : ℚ) / 2 - first) / n := by
  have hn : (0 : ℚ) < n := by
    have : 0 < n := by omega
    exact_mod_cast this
  have h1 : (first : ℚ) + size ≤ (n : ℚ) / 2 := by
    have : 2 * (first + size) ≤ n := by omega
    have : (2 : ℚ) * (first + size) ≤ n := by exact_mod_cast this
    linarith
  have h2 : (1 : ℚ) ≤ size := by exact_mod_cast hp
  unfold blockDist
  dsimp only
  rw [if_pos (by linarith), if_pos (by linarith)]
  rw [abs_of_nonpos (by linarith), abs_of_nonpos (by linarith)]
  rw [max_eq_left]
  · congr 2; ring
  · apply div_le_div_of_nonneg_right _ hn.le
    linarith

theorem Blocks.same {E : Nat} {bs : List FBlock} (h : Blocks E bs) {ss : Stack}
    (hc : ∀ b ∈ bs, ∀ j, b.first ≤ j → j < b.first + b.size → nth ss j = b.angle)
    (hd : ∀ b ∈ bs, ∀ b' ∈ bs, b'.id = b.id + 1 → b.angle ≠ b'.angle) (j : Nat) :
    (∃ b ∈ bs, b.first ≤ j ∧ j + 1 < b.first + b.size) ↔ (j + 1 < E ∧ nth ss j = nth ss (j + 1)) := by
  constructor
  · rintro ⟨b, hb, h1, h2⟩
    have := h.pos b hb
    exact ⟨by omega, by rw [hc b hb j h1 (by omega), hc b hb (j + 1) (by omega) h2]⟩
  · rintro ⟨h1, h2⟩
    obtain ⟨b, hb, hb1, hb2⟩ := h.cover j (by omega)
    by_cases hlt : j + 1 < b.first + b.size
    · exact ⟨b, hb, hb1, hlt⟩
    · obtain ⟨x, hx, hx1, hx2⟩ := h.cover (j + 1) h1
      exfalso
      have hne : b.id ≠ x.id := by
        intro he
        have := h.inj hb hx he
        subst this
        omega
      have hsx : b.first + b.size = x.first := by
        rcases Nat.lt_or_gt_of_ne hne with hl | hl
        · have := h.disj b hb x hx hl; omega
        · have := h.disj x hx b hb hl; omega
      have hadj := (h.adj x hx b hb).2 hsx
      apply hd x hx b hb hadj
      rw [← hc x hx (j + 1) hx1 hx2, ← hc b hb j hb1 hb2, h2]

/-- The blocks found at the start. -/
theorem findBlocks_inv {c : Cons} {ss : Stack} {start : Nat}
    (hl : start < ss.length) (hsE : c.sym = true → 2 * (start + 1) ≤ ss.length)
    (hsym : c.sym = true → ss.reverse = ss) :
    SwapInv c (start + 1) ss ss
      ((blocksLoop c ss start 1 0 []).insertionSort (fun a b => b.dist ≤ a.dist)) := by
  have hseg := blocksLoop_seg c (start + 1) ss start 1 0 (by omega) (by omega) (by omega)
    (by intro j h1 h2; rw [show j = start by omega])
  obtain ⟨_, hb, hof, _, _⟩ := seg_blocks _ _ _ hseg
  have hp := List.perm_insertionSort (fun a b : FBlock => b.dist ≤ a.dist) (blocksLoop c ss start 1 0 [])
  generalize hbs : (blocksLoop c ss start 1 0 []).insertionSort (fun a b => b.dist ≤ a.dist) = bs at *
  have hB := hb.perm hp
  have hO : ∀ b ∈ bs, BlockOf c (start + 1) ss b := fun b hb => hof b (hp.mem_iff.1 hb)
  have hconst : ∀ b ∈ bs, ∀ j, b.first ≤ j → j < b.first + b.size → nth ss j = b.angle :=
    fun b hb => (hO b hb).const
  have hdiff : ∀ b ∈ bs, ∀ b' ∈ bs, b'.id = b.id + 1 → b.angle ≠ b'.angle := by
    intro b hb b' hb' hadj
    have e := (hB.adj b hb b' hb').1 hadj
    have p' := hB.pos b' hb'
    have := ((hO b hb).before (by omega)).1
    rw [hconst b' hb' (b.first - 1) (by omega) (by omega)] at this
    exact fun h => this h.symm
  refine ⟨hB, hconst, hdiff, ?_, ?_, List.Perm.refl _, hsym, fun _ _ _ => rfl, hB.same hconst hdiff, ?_⟩
  · intro b hb b' hb' hadj a ha
    have p := hB.pos b hb
    have p' := hB.pos b' hb'
    rcases hadj with hadj | hadj
    · have e := (hB.adj b hb b' hb').1 hadj
      have := ((hO b hb).before (by omega)).2 a ha
      rwa [hconst b' hb' (b.first - 1) (by omega) (by omega)] at this
    · have e := (hB.adj b' hb' b hb).1 hadj
      have := (hO b hb).after (by omega) a ha
      rwa [hconst b' hb' (b.first + b.size) (by omega) (by omega)] at this
  · intro _ b hb b' hb' hadj hw
    have p := hB.pos b hb
    have p' := hB.pos b' hb'
    have e := (hB.adj b hb b' hb').1 hadj
    rwa [hconst b' hb' (b.first - 1) (by omega) (by omega), hconst b hb b.first (by omega) (by omega)] at hw
  · intro hs
    have hs2 := hsE hs
    have hpw : bs.Pairwise (fun a b => b.dist ≤ a.dist) := by
      rw [← hbs]
      have : Std.Total (fun a b : FBlock => b.dist ≤ a.dist) := ⟨fun a b => le_total _ _⟩
      have : IsTrans FBlock (fun a b : FBlock => b.dist ≤ a.dist) := ⟨fun a b c h1 h2 => le_trans h2 h1⟩
      exact List.pairwise_insertionSort (fun a b : FBlock => b.dist ≤ a.dist) _
    have hnd : bs.Pairwise (fun a b => a.id ≠ b.id) := List.pairwise_map.1 hB.nodup
    refine (hpw.and hnd).imp_of_mem ?_
    intro a b ha hb hab
    have pa := hB.pos a ha
    have pb := hB.pos b hb
    have h1 := hab.1
    rw [(hO a ha).dist, (hO b hb).dist, blockDist_sym pa.1 pa.2 hs2, blockDist_sym pb.1 pb.2 hs2] at h1
    have hn : (0 : ℚ) < ss.length := by
      have : 0 < ss.length := by omega
      exact_mod_cast this
    have h2 := (div_le_div_iff_of_pos_right hn).1 h1
    have h3 : (a.first : ℚ) ≤ b.first := by linarith
    have h4 : a.first ≤ b.first := by exact_mod_cast h3
    rcases Nat.lt_or_gt_of_ne hab.2 with hl | hl
    · have := hB.disj a ha b hb hl; omega
    · have := hB.disj b hb a ha hl; omega

theorem mem_possibleSwaps {c : Cons} {attr : DamTolAttr} {n : Nat} {bs : List FBlock} {i1 : Nat} {b1 : FBlock}
    {p : Nat × FBlock} (h : p ∈ possibleSwaps c attr n bs i1 b1) :
    i1 < p.1 ∧ bs[p.1]? = some p.2 ∧ b1.size = p.2.size ∧ p.2.angle ∈ b1.possible ∧ b1.angle ∈ p.2.possible := by
  unfold possibleSwaps at h
  obtain ⟨q, hq, rfl⟩ := List.mem_map.1 h
  obtain ⟨h1, h2⟩ := List.mem_filter.1 hq
  have h3 := List.mk_mem_zipIdx_iff_getElem?.1 (show (q.1, q.2) ∈ _ from h1)
  rw [List.getElem?_drop] at h3
  simp only [Bool.and_eq_true, decide_eq_true_eq, List.contains_iff_mem] at h2
  refine ⟨by dsimp only; omega, ?_, h2.1.1.2, h2.1.2, h2.2⟩
  dsimp only
  rw [← h3]
  congr 1
  omega

/-- The plies kept by the loop: `k` outer plies of a symmetric laminate. -/
def TopKept (c : Cons) (k : Nat) (ss0 ss : Stack) : Prop :=
  c.sym = true → ∀ j, j < k → nth ss j = nth ss0 j

theorem swapStep_inv {c : Cons} {attr : DamTolAttr} {D : FlexData} {midply : Option Int} {E k : Nat} {ss0 : Stack}
    (hE : E ≤ ss0.length) (hsE : c.sym = true → 2 * E ≤ ss0.length)
    (hk : ∀ i, flexDamTol c attr ss0.length i = false → k ≤ i) (i1 : Nat) {s : SwapState}
    (h : SwapInv c E ss0 s.ss s.blocks) (ht : TopKept c k ss0 s.ss) :
    SwapInv c E ss0 (swapStep c attr D midply i1 s).1.ss (swapStep c attr D midply i1 s).1.blocks ∧
      TopKept c k ss0 (swapStep c attr D midply i1 s).1.ss := by
  have hlen := h.perm.length_eq
  unfold swapStep
  cases hb1 : s.blocks[i1]? with
  | none => exact ⟨h, ht⟩
  | some b1 =>
    dsimp only
    split_ifs with hdt hsw hm
    · exact ⟨h, ht⟩
    · exact ⟨h, ht⟩
    · dsimp only
      · generalize argMin _ = ix
        cases hs2 : (possibleSwaps c attr s.ss.length s.blocks i1 b1)[ix]? with
        | none => exact ⟨h, ht⟩
        | some p =>
          obtain ⟨i2, b2⟩ := p
          rw [List.getElem?_map, hs2]
          simp only [Option.map_some]
          obtain ⟨q1, q2, q3, q4, q5⟩ := mem_possibleSwaps (List.mem_of_getElem? hs2)
          dsimp only at q1 q2 q3 q4 q5
          have m1 := List.mem_of_getElem? hb1
          have m2 := List.mem_of_getElem? q2
          have hid : b1.id ≠ b2.id := by
            intro he
            have hbb := h.blocks.inj m1 m2 he
            obtain ⟨l1, e1⟩ := List.getElem?_eq_some_iff.1 hb1
            obtain ⟨l2, e2⟩ := List.getElem?_eq_some_iff.1 q2
            have := (List.Nodup.getElem_inj_iff h.blocks.nodup (i := i1) (j := i2) (hi := by simpa using l1)
              (hj := by simpa using l2)).1 (by simp [e1, e2, he])
            omega
          rw [set_set_eq_map h.blocks.nodup hb1 q2]
          refine ⟨h.swap midply hE hsE m1 m2 q3 q4 q5 hid, ?_⟩
          intro hs j hj
          have p1 := h.blocks.pos b1 m1
          have p2 := h.blocks.pos b2 m2
          have k1 : k ≤ b1.first := hk _ (by rw [← hlen]; simpa using hdt)
          have k2 : b1.first < b2.first := by
            have hso := h.sorted hs
            obtain ⟨l1, e1⟩ := List.getElem?_eq_some_iff.1 hb1
            obtain ⟨l2, e2⟩ := List.getElem?_eq_some_iff.1 q2
            have := List.pairwise_iff_getElem.1 hso i1 i2 l1 l2 q1
            rwa [e1, e2] at this
          have := hsE hs
          rw [nth_swapBlocks _ _ _ _ _ (by omega), if_neg (by omega), if_neg (by omega), if_neg (by omega),
            if_neg (by omega)]
          exact ht hs j hj
    · exact ⟨h, ht⟩

theorem swapLoop_inv {c : Cons} {attr : DamTolAttr} {D : FlexData} {midply : Option Int} {E k : Nat} {ss0 : Stack}
    (hE : E ≤ ss0.length) (hsE : c.sym = true → 2 * E ≤ ss0.length)
    (hk : ∀ i, flexDamTol c attr ss0.length i = false → k ≤ i) : ∀ (m i1 : Nat) (s : SwapState),
    SwapInv c E ss0 s.ss s.blocks → TopKept c k ss0 s.ss →
    SwapInv c E ss0 (swapLoop c attr D midply m i1 s).ss (swapLoop c attr D midply m i1 s).blocks ∧
      TopKept c k ss0 (swapLoop c attr D midply m i1 s).ss := by
  intro m
  induction m with
  | zero => intro i1 s h ht; exact ⟨h, ht⟩
  | succ m ih =>
    intro i1 s h ht
    rw [swapLoop]
    have := swapStep_inv (D := D) (midply := midply) hE hsE hk i1 h ht
    split_ifs
    · exact this
    · exact ih _ _ this.1 this.2

theorem midStart_ok {ss : Stack} {mid : Int} : ∀ p, (∃ i, i < p ∧ nth ss i ≠ mid) →
    ∃ q, midStart ss mid p = .ok q ∧ q < p ∧ nth ss q ≠ mid ∧ ∀ j, q < j → j < p → nth ss j = mid := by
  intro p
  induction p with
  | zero => rintro ⟨i, hi, _⟩; omega
  | succ p ih =>
    rintro ⟨i, hi, hne⟩
    rw [midStart]
    split_ifs with h
    · obtain ⟨q, e, hq, hq1, hq2⟩ := ih ⟨i, by
        rcases Nat.lt_or_ge i p with h2 | h2
        · exact h2
        · rw [show i = p by omega] at hne; exact absurd h hne, hne⟩
      refine ⟨q, e, by omega, hq1, ?_⟩
      intro j hj1 hj2
      rcases Nat.lt_or_ge j p with h2 | h2
      · exact hq2 j hj1 h2
      · rw [show j = p by omega]; exact h
    · exact ⟨p, rfl, by omega, h, by intro j h1 h2; omega⟩

theorem midStart_error {ss : Stack} {mid : Int} : ∀ p, (∀ i, i < p → nth ss i = mid) →
    midStart ss mid p = .error .indexError := by
  intro p
  induction p with
  | zero => intro _; rfl
  | succ p ih =>
    intro h
    rw [midStart, if_pos (h p (by omega))]
    exact ih (fun i hi => h i (by omega))

/-- The last ply of the part of the laminate that is divided into blocks. -/
structure StartOf (c : Cons) (ss : Stack) (start : Nat) : Prop where
  lt : start < ss.length
  sym : c.sym = true → 2 * (start + 1) ≤ ss.length
  asym : c.sym = false → start + 1 = ss.length
  even : c.sym = true → ss.length % 2 = 0 → 2 * (start + 1) = ss.length
  odd : c.sym = true → ss.length % 2 = 1 → ∀ j, start < j → j < ss.length / 2 → nth ss j = nth ss (ss.length / 2)

/-- The laminates on which the blocks can be found. -/
def Divisible (c : Cons) (ss : Stack) : Prop :=
  ss ≠ [] ∧ (c.sym = true → ss.length % 2 = 1 → ∃ i, i < ss.length / 2 ∧ nth ss i ≠ nth ss (ss.length / 2))

theorem findBlocks_ok {c : Cons} {ss : Stack} (h : Divisible c ss) :
    ∃ start, StartOf c ss start ∧
      findBlocks c ss = .ok ((blocksLoop c ss start 1 0 []).insertionSort (fun a b => b.dist ≤ a.dist)) := by
  obtain ⟨h1, h2⟩ := h
  have hl : 0 < ss.length := List.length_pos_iff.2 h1
  unfold findBlocks blockStart
  cases hs : c.sym with
  | false =>
    refine ⟨ss.length - 1, ⟨by omega, by simp [hs], by intro _; omega, by simp [hs], by simp [hs]⟩, ?_⟩
    rw [if_neg (by simp), if_neg (by omega)]
    rfl
  | true =>
    by_cases ho : ss.length % 2 = 1
    · obtain ⟨q, e, hq, hq1, hq2⟩ := midStart_ok _ (h2 hs ho)
      refine ⟨q, ⟨by omega, by intro _; omega, by simp [hs], by omega, fun _ _ => hq2⟩, ?_⟩
      rw [if_pos rfl, if_pos ho, e]
      rfl
    · refine ⟨ss.length / 2 - 1, ⟨by omega, by intro _; omega, by simp [hs], by intro _ _; omega, by omega⟩, ?_⟩
      rw [if_pos rfl, if_neg ho, if_neg (by omega)]
      rfl

/-- `repair_flexural_1`: the invariant holds at the end. -/
theorem repairFlexural1_inv {c : Cons} {attr : DamTolAttr} {D : FlexData} {lampamOf : Stack → Nat → ℚ} {ss : Stack}
    (h : Divisible c ss) (hsym : c.sym = true → ss.reverse = ss) {k : Nat}
    (hk : ∀ i, flexDamTol c attr ss.length i = false → k ≤ i) :
    ∃ res start bs, repairFlexural1 c attr D lampamOf ss = .ok res ∧ StartOf c ss start ∧
      SwapInv c (start + 1) ss res bs ∧ TopKept c k ss res := by
  obtain ⟨start, hst, e⟩ := findBlocks_ok h
  have hi := findBlocks_inv hst.lt hst.sym hsym
  unfold repairFlexural1
  rw [e]
  simp only [bind, Except.bind, pure, Except.pure]
  have := swapLoop_inv (D := D) (midply := if c.sym = true ∧ ss.length % 2 = 1 then some (nth ss (ss.length / 2)) else none)
    (Nat.succ_le_of_lt hst.lt) hst.sym hk
    (((blocksLoop c ss start 1 0 []).insertionSort (fun a b => b.dist ≤ a.dist)).length - 1) 0
    { ss := ss, blocks := _, lam := lampamOf ss, obj := flexObj D (lampamOf ss) } hi (fun _ _ _ => rfl)
  exact ⟨_, start, _, rfl, hst, this.1, this.2⟩

end Bella
