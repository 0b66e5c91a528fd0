import Verif.Model.LaylaNot
import Verif.Props.LaylaPenalties
/-
C91: the option `not_constraints` of LAYLA's search.
-/
namespace Spec

/-- The orientations whose share LAYLA keeps too small when it draws `r`: 0, 90, +45, -45, or both of +45 and -45. -/
def drawn (r : Nat) (a : Int) : Bool :=
  match r with
  | 0 => a == 0
  | 1 => a == 90 || a == -90
  | 2 => a == 45
  | 3 => a == -45
  | _ => a == 45 || a == -45

end Spec
namespace Bella

/-- The share that goes with the draw. -/
def drawnShare (nc : Cons) (r : Nat) : ℚ :=
  match r with
  | 0 => nc.p0
  | 1 => nc.p90
  | 2 => nc.p45
  | 3 => nc.p135
  | _ => nc.p45_135

/-- Does a ply `b` count for the orientation `x`? -/
def hitB (x b : Int) : Bool := decide (x = b ∨ (x = 90 ∧ b = -90))

variable {V : Type}

/-- The weight of the last ply placed. -/
def lastWeight (g : LaylaGroup) (t : Nat) : ℚ := if g.middle ≠ 0 ∧ t = g.size then 1 / 2 else 1

structure NotInv (P : LaylaProblem V) (nc : Cons) (r : Nat) (g : LaylaGroup) (counts0 : List ℚ) (t : Nat) (m : LNode V) : Prop where
  len : m.bot.length = t
  clen : m.counts.length = counts0.length
  counts : ∀ (i : Nat) (x : Int), P.c.angles[i]? = some x → m.counts.getD i 0 = counts0.getD i 0 + (m.bot.dropLast.countP (hitB x) : ℚ) +
    (m.bot.getLast?.toList.countP (hitB x) : ℚ) * lastWeight g t
  last : t ≠ 0 → notPruned P.c nc P.n r m.counts = .ok false
  leaf : g.last = true → t = g.size → ∃ ss done, laylaFull P g m = .ok ss ∧ P.repair ss = .ok (m.full, done) ∧
    (done = false → 10 ^ 10 ≤ m.obj)

theorem laylaNotKids_mem [AddCommGroup V] {P : LaylaProblem V} {nc : Cons} {r : Nat} {g : LaylaGroup} {t level : Nat} {m : LNode V} :
    ∀ (as : List Int) {ks : List (LNode V)}, laylaNotKids P nc r g t level m as = .ok ks → ∀ k ∈ ks,
      ∃ a ∈ as, laylaChild P g t level m a = .ok k ∧ notPruned P.c nc P.n r k.counts = .ok false
  | [], ks, h, k, hk => by
    have h := (Except.ok.inj h).symm
    subst h
    cases hk
  | a :: as, ks, h, k, hk => by
    unfold laylaNotKids at h
    obtain ⟨k0, h0, h⟩ := bind_ok.1 h
    obtain ⟨b, hb, h⟩ := bind_ok.1 h
    obtain ⟨rest, hr, h⟩ := bind_ok.1 h
    have h := (Except.ok.inj h).symm
    subst h
    cases b with
    | true =>
      simp only [if_true] at hk
      obtain ⟨a', h1, h2⟩ := laylaNotKids_mem as hr k hk
      exact ⟨a', List.mem_cons_of_mem _ h1, h2⟩
    | false =>
      simp only [Bool.false_eq_true, if_false, List.mem_cons] at hk
      rcases hk with rfl | hk
      · exact ⟨a, List.mem_cons_self, h0, hb⟩
      · obtain ⟨a', h1, h2⟩ := laylaNotKids_mem as hr k hk
        exact ⟨a', List.mem_cons_of_mem _ h1, h2⟩

theorem countP_split (f : Int → Bool) (l : List Int) : (l.dropLast.countP f : ℚ) + (l.getLast?.toList.countP f : ℚ) = l.countP f := by
  rcases List.eq_nil_or_concat l with rfl | ⟨l', a, rfl⟩
  · simp
  · rw [List.concat_eq_append, List.dropLast_concat, List.getLast?_concat, List.countP_append]
    push_cast
    rfl

theorem notChild [AddCommGroup V] (a0 : ConsArgs) {P : LaylaProblem V} (hc : mkConstraints a0 = .ok P.c) (hs : P.c.sym = true) {nc : Cons} {r : Nat}
    {g : LaylaGroup} {counts0 : List ℚ} {t level : Nat} {m k : LNode V} {b : Int} (h : NotInv P nc r g counts0 t m) (ht : t < g.size)
    (hk : laylaChild P g t level m b = .ok k) :
    k.bot.length = t + 1 ∧ k.counts.length = counts0.length ∧
    ∀ (i : Nat) (x : Int), P.c.angles[i]? = some x → k.counts.getD i 0 = counts0.getD i 0 + (k.bot.dropLast.countP (hitB x) : ℚ) +
      (k.bot.getLast?.toList.countP (hitB x) : ℚ) * lastWeight g (t + 1) := by
  obtain ⟨c1, _, _, c4, _⟩ := laylaChild_ok hk
  rw [hs] at c1
  simp only [Bool.not_true, Bool.false_and, Bool.false_eq_true, if_false] at c1
  refine ⟨by rw [c1, List.length_append, h.len]; rfl, by rw [c4, h.clen], ?_⟩
  intro i x hi
  rw [(laylaChild_more a0 P hc hk).2 i x hi, h.counts i x hi, c1, List.dropLast_concat, List.getLast?_concat]
  have w1 : lastWeight g t = 1 := by
    unfold lastWeight
    rw [if_neg (by omega)]
  have w2 : lastWeight g (t + 1) = if g.middle ≠ 0 ∧ t = g.size - 1 then 1 / 2 else 1 := by
    unfold lastWeight
    exact if_congr (by constructor <;> rintro ⟨h1, h2⟩ <;> exact ⟨h1, by omega⟩) rfl rfl
  rw [w1, w2, mul_one, add_assoc (counts0.getD i 0), countP_split]
  congr 1
  simp only [Option.toList_some, List.countP_cons, List.countP_nil]
  unfold hitB
  by_cases e : x = b ∨ (x = 90 ∧ b = -90)
  · simp [e]
  · simp [e]

theorem notBranch [AddCommGroup V] (a0 : ConsArgs) {P : LaylaProblem V} (hc : mkConstraints a0 = .ok P.c) (hs : P.c.sym = true)
    (hf : FactorsOK P) {nc : Cons} {r : Nat} {g : LaylaGroup} {counts0 : List ℚ} {t level : Nat} {m : LNode V}
    (h : NotInv P nc r g counts0 t m) (ht : t < g.size) {ks : List (LNode V)} (hb : laylaNotBranch P nc r g t level m = .ok ks)
    {k : LNode V} (hk : k ∈ ks) : NotInv P nc r g counts0 (t + 1) k := by
  unfold laylaNotBranch at hb
  obtain ⟨kept, hkept, hb⟩ := bind_ok.1 hb
  cases kept with
  | none =>
    have := (Except.ok.inj hb).symm
    subst this
    cases hk
  | some ch =>
    dsimp only at hb
    obtain ⟨kids, hkids, hb⟩ := bind_ok.1 hb
    by_cases e : kids.length = 0
    · rw [if_pos e] at hb
      have := (Except.ok.inj hb).symm
      subst this
      cases hk
    · rw [if_neg e] at hb
      obtain ⟨kids2, hkids2, hb⟩ := bind_ok.1 hb
      obtain ⟨fs, hfs, hb⟩ := bind_ok.1 hb
      have hks := (Except.ok.inj hb).symm
      rw [hks] at hk
      obtain ⟨k', hk', f, hfm, rfl⟩ := mem_zipWith_obj (mem_laylaLocalPrune hk)
      have hf1 : 1 ≤ f := (hf _ _ _ _ hfs).2 f hfm
      have hpre : ∀ q ∈ kids.map (fun (k : LNode V) => { k with obj := P.objective level k.lampam }),
          (q.bot.length = t + 1 ∧ q.counts.length = counts0.length ∧
          ∀ (i : Nat) (x : Int), P.c.angles[i]? = some x → q.counts.getD i 0 = counts0.getD i 0 + (q.bot.dropLast.countP (hitB x) : ℚ) +
            (q.bot.getLast?.toList.countP (hitB x) : ℚ) * lastWeight g (t + 1)) ∧ notPruned P.c nc P.n r q.counts = .ok false := by
        intro q hq
        obtain ⟨q0, hq0, rfl⟩ := List.mem_map.1 hq
        obtain ⟨a, _, h1, h2⟩ := laylaNotKids_mem _ hkids q0 hq0
        obtain ⟨q1, q2, q3⟩ := notChild a0 hc hs h ht h1
        exact ⟨⟨q1, q2, q3⟩, h2⟩
      unfold laylaLeaves at hkids2
      by_cases hlast : g.last = true ∧ t = g.size - 1
      · rw [if_pos hlast] at hkids2
        obtain ⟨q, hq, hqk⟩ := mapM_mem hkids2 hk'
        obtain ⟨⟨p1, p2, p3⟩, p4⟩ := hpre q hq
        unfold laylaLeaf at hqk
        obtain ⟨ss, hss, hqk⟩ := bind_ok.1 hqk
        obtain ⟨⟨r1, r2⟩, hr, hqk⟩ := bind_ok.1 hqk
        have hfull : ∀ (k2 : LNode V), k2.bot = q.bot → k2.top = q.top → laylaFull P g k2 = .ok ss := by
          intro k2 e1 e2
          rw [← hss]
          unfold laylaFull laylaWhole
          rw [e1, e2]
        cases r2 with
        | true =>
          simp only [if_true] at hqk
          obtain ⟨u, hu, hqk⟩ := bind_ok.1 hqk
          have := (Except.ok.inj hqk).symm
          subst this
          exact ⟨p1, p2, p3, fun _ => p4, fun _ _ => ⟨ss, true, hfull _ rfl rfl, hr, fun h => absurd h (by simp)⟩⟩
        | false =>
          simp only [Bool.false_eq_true, if_false] at hqk
          have := (Except.ok.inj hqk).symm
          subst this
          have hbig : (10 : ℚ) ^ 10 ≤ 10 ^ 10 * f := by nlinarith
          exact ⟨p1, p2, p3, fun _ => p4, fun _ _ => ⟨ss, false, hfull _ rfl rfl, hr, fun _ => hbig⟩⟩
      · rw [if_neg hlast] at hkids2
        have := (Except.ok.inj hkids2).symm
        subst this
        obtain ⟨⟨p1, p2, p3⟩, p4⟩ := hpre k' hk'
        exact ⟨p1, p2, p3, fun _ => p4, fun h1 h2 => absurd ⟨h1, by omega⟩ hlast⟩

theorem notLevel [AddCommGroup V] (a0 : ConsArgs) {P : LaylaProblem V} (hc : mkConstraints a0 = .ok P.c) (hs : P.c.sym = true)
    (hf : FactorsOK P) {nc : Cons} {r : Nat} {g : LaylaGroup} {counts0 : List ℚ} {t level : Nat} {ns out : List (LNode V)}
    (h : ∀ m ∈ ns, NotInv P nc r g counts0 t m) (ht : t < g.size) (ho : laylaNotLevel P nc r g t level ns = .ok out) :
    ∀ k ∈ out, NotInv P nc r g counts0 (t + 1) k := by
  unfold laylaNotLevel at ho
  obtain ⟨kids, hkids, ho⟩ := bind_ok.1 ho
  dsimp only at ho
  have hall : ∀ k ∈ kids.flatten, NotInv P nc r g counts0 (t + 1) k := by
    intro k hk
    obtain ⟨ks, hks, hk⟩ := List.mem_flatten.1 hk
    obtain ⟨m, hm, hmk⟩ := mapM_mem hkids hks
    exact notBranch a0 hc hs hf (h m hm) ht hmk hk
  intro k hk
  by_cases e1 : kids.flatten.length = 0
  · rw [if_pos e1] at ho; cases ho
  rw [if_neg e1] at ho
  by_cases e2 : g.last = true ∧ t + 2 = g.size
  · rw [if_pos e2] at ho
    have := (Except.ok.inj ho).symm
    subst this
    exact hall k (mem_laylaGlobalPrune hk)
  rw [if_neg e2] at ho
  by_cases e3 : t ≠ g.size - 1
  · rw [if_pos e3] at ho
    have := (Except.ok.inj ho).symm
    subst this
    exact hall k (mem_laylaGlobalPrune hk)
  · rw [if_neg e3] at ho
    have := (Except.ok.inj ho).symm
    subst this
    exact hall k hk

theorem notLevels [AddCommGroup V] (a0 : ConsArgs) {P : LaylaProblem V} (hc : mkConstraints a0 = .ok P.c) (hs : P.c.sym = true)
    (hf : FactorsOK P) {nc : Cons} {r : Nat} {g : LaylaGroup} {counts0 : List ℚ} : ∀ (ls : List Nat) (t : Nat) {ns out : List (LNode V)},
    (∀ m ∈ ns, NotInv P nc r g counts0 t m) → t + ls.length = g.size → laylaNotLevels P nc r g ls t ns = .ok out →
    ∀ k ∈ out, NotInv P nc r g counts0 g.size k
  | [], t, ns, out, h, ht, ho => by
    have : out = ns := (Except.ok.inj ho).symm
    subst this
    rw [← ht]
    exact h
  | level :: ls, t, ns, out, h, ht, ho => by
    unfold laylaNotLevels at ho
    obtain ⟨ns2, h2, ho⟩ := bind_ok.1 ho
    rw [List.length_cons] at ht
    exact notLevels a0 hc hs hf ls (t + 1) (notLevel a0 hc hs hf h (by omega) h2) (by omega) ho

theorem notBeam [AddCommGroup V] (a0 : ConsArgs) {P : LaylaProblem V} (hc : mkConstraints a0 = .ok P.c) (hs : P.c.sym = true)
    (hf : FactorsOK P) {nc : Cons} {r : Nat} {g : LaylaGroup} {levels : List Nat} (hg : g.size = levels.length) (h0 : 0 < levels.length)
    {lampam : V} {counts : List ℚ} {k : LNode V} (h : laylaNotBeam P nc r g levels lampam counts = .ok k) :
    NotInv P nc r g counts g.size k ∧ k.obj < 10 ^ 10 := by
  unfold laylaNotBeam at h
  obtain ⟨ns, hns, h⟩ := bind_ok.1 h
  obtain ⟨k2, hk2, h⟩ := bind_ok.1 h
  rw [pyGet_eq_ok] at hk2
  by_cases hb : k2.obj > 99 / 100 * 10 ^ 10
  · rw [if_pos hb] at h; cases h
  rw [if_neg hb] at h
  have : k2 = k := Except.ok.inj h
  subst this
  refine ⟨notLevels a0 hc hs hf levels 0 ?_ (by omega) hns k2 (List.mem_of_getElem? hk2), by
    have := not_lt.1 hb
    norm_num at this ⊢
    linarith⟩
  intro m hm
  rw [List.mem_singleton] at hm
  subst hm
  refine ⟨rfl, rfl, ?_, fun h => absurd rfl h, fun _ h => by omega⟩
  intro i x _
  simp

/-- What the groups of a symmetric laminate end with. -/
theorem notGroups [AddCommGroup V] (a0 : ConsArgs) {P : LaylaProblem V} (hc : mkConstraints a0 = .ok P.c) (hs : P.c.sym = true)
    (hf : FactorsOK P) {nc : Cons} {r : Nat} : ∀ (gs : List (List Nat × V)), (∀ g ∈ gs, g.1 ≠ []) → ∀ (bot top : Stack) (lampam : V)
    (counts : List ℚ) (k : LNode V), (∀ i x, P.c.angles[i]? = some x → counts.getD i 0 = (bot.countP (hitB x) : ℚ)) →
    laylaNotGroups P nc r gs bot top lampam counts = .ok k →
    ∃ (half : Stack) (ss : Stack), half.length = bot.length + (gs.map (fun g => g.1.length)).sum ∧ half ≠ [] ∧
      notPruned P.c nc P.n r k.counts = .ok false ∧
      (∀ i x, P.c.angles[i]? = some x → k.counts.getD i 0 = (half.dropLast.countP (hitB x) : ℚ) +
        (half.getLast?.toList.countP (hitB x) : ℚ) * (if P.n % 2 = 1 then 1 / 2 else 1)) ∧
      (half.length = P.n / 2 + P.n % 2 → ss = Spec.mirrored (P.n % 2 == 1) half ∧ ss.length = P.n) ∧
      P.repair ss = .ok (k.full, true)
  | [], _, _, _, _, _, _, _, h => by cases h
  | [(levels, assumed)], hne, bot, top, lampam, counts, k, hcs, h => by
    unfold laylaNotGroups at h
    have hpos : 0 < levels.length := List.length_pos_of_ne_nil (hne (levels, assumed) (by simp))
    obtain ⟨hi, ho⟩ := notBeam a0 hc hs hf rfl hpos h
    obtain ⟨ss, done, l1, l2, l3⟩ := hi.leaf rfl rfl
    have hd : done = true := by
      cases done with
      | true => rfl
      | false => have := l3 rfl; linarith
    subst hd
    have hbl : k.bot.length = levels.length := hi.len
    have hbn : k.bot ≠ [] := by
      intro h
      rw [h, List.length_nil] at hbl
      omega
    refine ⟨bot ++ k.bot, ss, by rw [List.length_append, hbl]; rfl, by simp [hbn], hi.last (by show levels.length ≠ 0; omega), ?_, ?_, l2⟩
    · intro i x hix
      rw [hi.counts i x hix, hcs i x hix, List.dropLast_append_of_ne_nil hbn, List.getLast?_append_of_ne_nil _ hbn, List.countP_append]
      push_cast
      congr 1
      congr 1
      unfold lastWeight
      dsimp only
      rw [hs]
      by_cases e : P.n % 2 = 1
      · rw [if_pos (by simp [e]; omega), if_pos e]
      · rw [if_neg (by simp [e]), if_neg e]
    · intro hlen
      exact laylaFull_sym hs (by simp [hs]) rfl hlen l1
  | (levels, assumed) :: g :: gs, hne, bot, top, lampam, counts, k, hcs, h => by
    unfold laylaNotGroups at h
    obtain ⟨k0, hk0, h⟩ := bind_ok.1 h
    have hpos : 0 < levels.length := List.length_pos_of_ne_nil (hne (levels, assumed) (by simp))
    obtain ⟨hi, ho⟩ := notBeam a0 hc hs hf rfl hpos hk0
    have hbl : k0.bot.length = levels.length := hi.len
    obtain ⟨half, ss, e1, e2⟩ := notGroups a0 hc hs hf (g :: gs) (fun q hq => hne q (List.mem_cons_of_mem _ hq)) _ _ _ _ k (by
      intro i x hix
      rw [hi.counts i x hix, hcs i x hix]
      have w : lastWeight { ssBot := bot, ssTop := top, size := levels.length, last := false, middle := 0 } levels.length = 1 := by
        unfold lastWeight; simp
      dsimp only
      rw [w, mul_one, add_assoc, countP_split, List.countP_append]
      push_cast
      rfl) h
    refine ⟨half, ss, ?_, e2⟩
    rw [e1, List.length_append, hbl]
    simp only [List.map_cons, List.sum_cons]
    omega

theorem cntAt_ok {n : List ℚ} {o : Option Nat} {x : ℚ} (h : cntAt n o = .ok x) : ∃ i, o = some i ∧ n.getD i 0 = x := by
  unfold cntAt at h
  cases o with
  | none => cases h
  | some i =>
    refine ⟨i, rfl, ?_⟩
    dsimp only at h
    cases e : n[i]? with
    | none => rw [e] at h; cases h
    | some q =>
      rw [e] at h
      rw [List.getD_eq_getElem?_getD, e]
      exact Except.ok.inj h

/-- Twice the counts are the numbers of plies of the whole laminate. -/
theorem mirrored_count (f : Int → Bool) (n : Nat) (half : List Int) :
    2 * ((half.dropLast.countP f : ℚ) + (half.getLast?.toList.countP f : ℚ) * (if n % 2 = 1 then 1 / 2 else 1)) =
      ((Spec.mirrored (n % 2 == 1) half).countP f : ℚ) := by
  unfold Spec.mirrored
  rw [List.countP_append]
  have hs := countP_split f half
  push_cast
  by_cases e : n % 2 = 1
  · rw [if_pos e, if_pos (by simp [e]), List.countP_reverse]
    linarith
  · rw [if_neg e, if_neg (by simp [e]), List.countP_reverse]
    linarith

theorem limit_arith {p : ℚ} {n cnt : Nat} {x : ℚ} (hx : 2 * x = cnt) (h : ¬ ((notLimit true p n : Int) : ℚ) ≤ x + 1) : (cnt : ℚ) + 1 < p * n := by
  unfold notLimit at h
  rw [if_pos rfl] at h
  have h1 : 2 * ⌈(⌈p * n⌉ : ℚ) / 2⌉ < ⌈p * n⌉ + 2 := by
    have := Int.ceil_lt_add_one ((⌈p * n⌉ : ℚ) / 2)
    have h : ((2 * ⌈(⌈p * n⌉ : ℚ) / 2⌉ : Int) : ℚ) < ((⌈p * n⌉ + 2 : Int) : ℚ) := by push_cast; linarith
    exact_mod_cast h
  have h2 := not_le.1 h
  have h3 : (cnt : ℚ) + 2 < ((2 * ⌈(⌈p * n⌉ : ℚ) / 2⌉ : Int) : ℚ) := by push_cast; linarith
  have h4 : (cnt : Int) + 2 < 2 * ⌈(⌈p * n⌉ : ℚ) / 2⌉ := by exact_mod_cast h3
  have h5 : ((cnt + 1 : Nat) : Int) < ⌈p * n⌉ := by push_cast; omega
  have h6 := Int.lt_ceil.1 h5
  push_cast at h6
  exact h6

/-- C91: with `not_constraints` and its 10% rule, the laminate that is repaired to give the design of an outer step has, in the orientation
drawn, less plies than the share of `not_constraints` asks for, by more than one ply: it violates that 10% rule. -/
theorem C91_violated [AddCommGroup V] (a0 : ConsArgs) (P : LaylaProblem V) (hc : mkConstraints a0 = .ok P.c) (hf : FactorsOK P) (nc : Cons)
    (h10 : nc.rule10 = true) (r : Nat) (hr : r ≤ 4) (gs : List (List Nat × V)) (hne : ∀ g ∈ gs, g.1 ≠ [])
    (hlev : (gs.map Prod.fst).flatten = List.range (P.n / 2 + P.n % 2)) (res : LaylaStep V) (h : laylaNotStep P nc r gs = .ok res) :
    P.c.sym = true ∧ ∃ ss : Stack, ss.length = P.n ∧ ss = ss.reverse ∧ P.repair ss = .ok (res.ss, true) ∧
      (ss.countP (Spec.drawn r) : ℚ) + 1 < drawnShare nc r * P.n := by
  unfold laylaNotStep at h
  by_cases hs : P.c.sym = false
  · rw [if_pos hs] at h; cases h
  rw [if_neg hs] at h
  have hs : P.c.sym = true := by simpa using hs
  refine ⟨hs, ?_⟩
  obtain ⟨k, hk, h⟩ := bind_ok.1 h
  obtain ⟨o, _, h⟩ := bind_ok.1 h
  have h := (Except.ok.inj h).symm
  subst h
  obtain ⟨half, ss, e1, e2, e3, e4, e5, e6⟩ := notGroups a0 hc hs hf gs hne _ _ _ _ k (by
    intro i x _
    rw [List.getD_eq_getElem?_getD, List.getElem?_replicate]
    split <;> simp) hk
  have hlen : half.length = P.n / 2 + P.n % 2 := by
    have := congrArg List.length hlev
    rw [List.length_range, List.length_flatten, List.map_map] at this
    rw [e1, ← this]
    simp [Function.comp_def]
  obtain ⟨f1, f2⟩ := e5 hlen
  refine ⟨ss, f2, ?_, e6, ?_⟩
  · rw [f1]
    unfold Spec.mirrored
    rcases List.eq_nil_or_concat half with rfl | ⟨l, a, rfl⟩
    · simp
    · by_cases e : P.n % 2 = 1 <;> simp [e]
  have key : ∀ i x, P.c.angles[i]? = some x → 2 * k.counts.getD i 0 = (ss.countP (hitB x) : ℚ) := by
    intro i x hi
    rw [e4 i x hi, mirrored_count, f1]
  have ix := C14_indices a0 P.c hc
  unfold notPruned at e3
  rw [if_pos h10] at e3
  have hcong : ∀ x f, (∀ b, hitB x b = f b) → ss.countP (hitB x) = ss.countP f := by
    intro x f hb
    rw [funext hb]
  have single : ∀ (o : Option Nat) (x : Int) (p : ℚ), (∀ i, o = some i → P.c.angles[i]? = some x) →
      (do let y ← cntAt k.counts o; return decide ((notLimit P.c.sym p P.n : ℚ) ≤ y + 1)) = (Except.ok false : Py Bool) →
      (ss.countP (hitB x) : ℚ) + 1 < p * P.n := by
    intro o x p ho hh
    obtain ⟨y, hy, hh⟩ := bind_ok.1 hh
    obtain ⟨i, hi, hv⟩ := cntAt_ok hy
    have hd := of_decide_eq_false (Except.ok.inj hh)
    rw [hs] at hd
    exact limit_arith (x := y) (by rw [← hv]; exact key i x (ho i hi)) hd
  have h9 : ∀ (x b : Int), x ≠ 90 → hitB x b = (b == x) := by
    intro x b hx
    unfold hitB
    simp [hx, eq_comm]
    by_cases e : x = b
    · simp [e]
    · simp [e, Ne.symm e]
  match r, hr with
  | 0, _ =>
    have := single _ 0 _ (fun i hi => (ix i).1.1 hi) e3
    rw [hcong 0 (Spec.drawn 0) (fun b => h9 0 b (by decide))] at this
    exact this
  | 1, _ =>
    have := single _ 90 _ (fun i hi => (ix i).2.2.1.1 hi) e3
    rw [hcong 90 (Spec.drawn 1) (fun b => by
      unfold hitB Spec.drawn
      by_cases e : b = 90
      · subst e; simp
      · by_cases e2 : b = -90
        · subst e2; simp
        · simp [e, e2, Ne.symm e])] at this
    exact this
  | 2, _ =>
    have := single _ 45 _ (fun i hi => (ix i).2.1.1 hi) e3
    rw [hcong 45 (Spec.drawn 2) (fun b => h9 45 b (by decide))] at this
    exact this
  | 3, _ =>
    have := single _ (-45) _ (fun i hi => (ix i).2.2.2.1 hi) e3
    rw [hcong (-45) (Spec.drawn 3) (fun b => h9 (-45) b (by decide))] at this
    exact this
  | 4, _ =>
    obtain ⟨x, hx, e3⟩ := bind_ok.1 e3
    obtain ⟨y, hy, e3⟩ := bind_ok.1 e3
    obtain ⟨i, hi, hv⟩ := cntAt_ok hx
    obtain ⟨j, hj, hw⟩ := cntAt_ok hy
    have hd := of_decide_eq_false (Except.ok.inj e3)
    rw [hs] at hd
    have k1 := key i 45 ((ix i).2.1.1 hi)
    have k2 := key j (-45) ((ix j).2.2.2.1 hj)
    have hsum : ∀ l : List Int, l.countP (Spec.drawn 4) = l.countP (hitB 45) + l.countP (hitB (-45)) := by
      intro l
      induction l with
      | nil => rfl
      | cons b l ih =>
        rw [List.countP_cons, List.countP_cons, List.countP_cons, ih, h9 45 b (by decide), h9 (-45) b (by decide)]
        unfold Spec.drawn
        by_cases e : b = 45
        · subst e; simp; omega
        · by_cases e2 : b = -45
          · subst e2; simp; omega
          · simp [e, e2]
    refine limit_arith (x := x + y) ?_ hd
    rw [hsum, ← hv, ← hw]
    push_cast
    linarith

/-- With a share of at most two plies every child is left out. -/
theorem notPruned_small (a : ConsArgs) (c nc : Cons) (n : Nat) (r : Nat) (counts : List ℚ) (hc : mkConstraints a = .ok c) (hs : c.sym = true) (h10 : nc.rule10 = true) (hr : r ≤ 4)
    (hp : drawnShare nc r * n ≤ 2) (hnn : ∀ (i : Nat) (x : Int), c.angles[i]? = some x → 0 ≤ counts.getD i 0) : notPruned c nc n r counts ≠ .ok false := by
  have hl : ∀ p : ℚ, p * n ≤ 2 → ∀ x : ℚ, 0 ≤ x → ((notLimit true p n : Int) : ℚ) ≤ x + 1 := by
    intro p hp x hx
    unfold notLimit
    rw [if_pos rfl]
    have h1 : ⌈p * n⌉ ≤ 2 := Int.ceil_le.2 (by exact_mod_cast hp)
    have h2 : ⌈(⌈p * n⌉ : ℚ) / 2⌉ ≤ 1 := Int.ceil_le.2 (by
      have : ((⌈p * n⌉ : Int) : ℚ) ≤ 2 := by exact_mod_cast h1
      push_cast
      linarith)
    have h3 : ((⌈(⌈p * n⌉ : ℚ) / 2⌉ : Int) : ℚ) ≤ 1 := by exact_mod_cast h2
    linarith
  have one : ∀ (o : Option Nat) (x : Int) (p : ℚ), (∀ i, o = some i → c.angles[i]? = some x) → p * n ≤ 2 →
      (do let y ← cntAt counts o; return decide ((notLimit c.sym p n : ℚ) ≤ y + 1)) ≠ (Except.ok false : Py Bool) := by
    intro o x p ho hp hh
    obtain ⟨y, hy, hh⟩ := bind_ok.1 hh
    obtain ⟨i, hi, hv⟩ := cntAt_ok hy
    have hd := of_decide_eq_false (Except.ok.inj hh)
    rw [hs] at hd
    exact hd (hl p hp y (by rw [← hv]; exact hnn i x (ho i hi)))
  have ix := C14_indices a c hc
  unfold notPruned
  rw [if_pos h10]
  match r, hr with
  | 0, _ => exact one _ _ _ (fun i hi => (ix i).1.1 hi) hp
  | 1, _ => exact one _ _ _ (fun i hi => (ix i).2.2.1.1 hi) hp
  | 2, _ => exact one _ _ _ (fun i hi => (ix i).2.1.1 hi) hp
  | 3, _ => exact one _ _ _ (fun i hi => (ix i).2.2.2.1 hi) hp
  | 4, _ =>
    intro e3
    obtain ⟨x, hx, e3⟩ := bind_ok.1 e3
    obtain ⟨y, hy, e3⟩ := bind_ok.1 e3
    obtain ⟨i, hi, hv⟩ := cntAt_ok hx
    obtain ⟨j, hj, hw⟩ := cntAt_ok hy
    have hd := of_decide_eq_false (Except.ok.inj e3)
    rw [hs] at hd
    exact hd (hl _ hp (x + y) (by rw [← hv, ← hw]; have := hnn i _ ((ix i).2.1.1 hi); have := hnn j _ ((ix j).2.2.2.1 hj); linarith))

/-- C91: when the share asked for in the orientation drawn is of at most two plies, no stacking sequence is found. -/
theorem C91_small_violation [AddCommGroup V] (a0 : ConsArgs) (P : LaylaProblem V) (hc : mkConstraints a0 = .ok P.c) (hf : FactorsOK P)
    (nc : Cons) (h10 : nc.rule10 = true) (r : Nat) (hr : r ≤ 4) (gs : List (List Nat × V)) (hne : ∀ g ∈ gs, g.1 ≠ [])
    (hp : drawnShare nc r * P.n ≤ 2) (res : LaylaStep V) : laylaNotStep P nc r gs ≠ .ok res := by
  intro h
  unfold laylaNotStep at h
  by_cases hs : P.c.sym = false
  · rw [if_pos hs] at h; cases h
  rw [if_neg hs] at h
  have hs : P.c.sym = true := by simpa using hs
  obtain ⟨k, hk, h⟩ := bind_ok.1 h
  obtain ⟨half, ss, e1, e2, e3, e4, e5, e6⟩ := notGroups a0 hc hs hf gs hne _ _ _ _ k (by
    intro i x _
    rw [List.getD_eq_getElem?_getD, List.getElem?_replicate]
    split <;> simp) hk
  refine notPruned_small a0 P.c nc P.n r k.counts hc hs h10 hr hp ?_ e3
  intro i x hi
  rw [e4 i x hi]
  split <;> positivity

theorem laylaNotKids_off [AddCommGroup V] (P : LaylaProblem V) (nc : Cons) (h : nc.rule10 = false) (r : Nat) (g : LaylaGroup) (t level : Nat)
    (m : LNode V) : ∀ as, laylaNotKids P nc r g t level m as = as.mapM (laylaChild P g t level m)
  | [] => rfl
  | a :: as => by
    unfold laylaNotKids
    rw [laylaNotKids_off P nc h r g t level m as, List.mapM_cons]
    congr 1
    funext k
    unfold notPruned
    rw [if_neg (by simp [h])]
    rfl

theorem laylaNotLevels_off [AddCommGroup V] (P : LaylaProblem V) (nc : Cons) (h : nc.rule10 = false) (r : Nat) (g : LaylaGroup) :
    ∀ (ls : List Nat) (t : Nat) (ns : List (LNode V)), laylaNotLevels P nc r g ls t ns = laylaLevels P g ls t ns
  | [], _, _ => rfl
  | level :: ls, t, ns => by
    have hb : ∀ m, laylaNotBranch P nc r g t level m = laylaBranch P g t level m := by
      intro m
      unfold laylaNotBranch laylaBranch
      congr 1
      funext kept
      cases kept with
      | none => rfl
      | some ch =>
        dsimp only
        rw [laylaNotKids_off P nc h]
    unfold laylaNotLevels laylaLevels
    have hl : laylaNotLevel P nc r g t level ns = laylaLevel P g t level ns := by
      unfold laylaNotLevel laylaLevel
      rw [funext hb]
    rw [hl]
    congr 1
    funext x
    exact laylaNotLevels_off P nc h r g ls (t + 1) x

theorem laylaNotGroups_off [AddCommGroup V] (P : LaylaProblem V) (nc : Cons) (h : nc.rule10 = false) (r : Nat) :
    ∀ (gs : List (List Nat × V)) (bot top : Stack) (lampam : V) (counts : List ℚ),
      laylaNotGroups P nc r gs bot top lampam counts = laylaGroups P gs bot top lampam counts
  | [], _, _, _, _ => rfl
  | [(levels, assumed)], _, _, _, _ => by
    unfold laylaNotGroups laylaGroups laylaNotBeam laylaBeam
    simp only [laylaNotLevels_off P nc h]
  | (levels, assumed) :: g :: gs, bot, top, lampam, counts => by
    unfold laylaNotGroups laylaGroups
    have hb : ∀ g l c, laylaNotBeam P nc r g levels l c = laylaBeam P g levels l c := by
      intro g l c
      unfold laylaNotBeam laylaBeam
      simp only [laylaNotLevels_off P nc h]
    rw [hb]
    congr 1
    funext k
    exact laylaNotGroups_off P nc h r (g :: gs) _ _ _ _

/-- C91: without the 10% rule in `not_constraints`, the option changes nothing for symmetric laminates; the others are refused. -/
theorem C91_inactive [AddCommGroup V] (P : LaylaProblem V) (nc : Cons) (r : Nat) (gs : List (List Nat × V)) :
    (P.c.sym = true → nc.rule10 = false → laylaNotStep P nc r gs = laylaOuterStep P gs) ∧
    (P.c.sym = false → ∃ msg, laylaNotStep P nc r gs = .error (.exc msg)) := by
  unfold laylaNotStep laylaOuterStep
  refine ⟨fun hs h => ?_, fun hs => ⟨_, by rw [if_pos hs]⟩⟩
  rw [if_neg (by simp [hs]), laylaNotGroups_off P nc h r]

/-- The hypotheses of the theorems are met: without `not_constraints` LAYLA finds a laminate of twelve plies with six plies at -45 degrees and none at 0 degree; with
a share of at least 50 % to be avoided at -45 degrees, it finds one with two; with 10 % at 0 degree, it finds none. -/
theorem C91_example : ∃ (a a' : ConsArgs) (c nc : Cons) (gs : List (List Nat × ℚ)) (res0 res : LaylaStep ℚ),
    mkConstraints a = .ok c ∧ mkConstraints a' = .ok nc ∧ FactorsOK (laylaExample c 12) ∧ nc.rule10 = true ∧ (∀ g ∈ gs, g.1 ≠ []) ∧
    (gs.map Prod.fst).flatten = List.range (12 / 2 + 12 % 2) ∧ laylaOuterStep (laylaExample c 12) gs = .ok res0 ∧
    laylaNotStep (laylaExample c 12) nc 3 gs = .ok res ∧ res0.ss.countP (Spec.drawn 3) = 6 ∧ res.ss.countP (Spec.drawn 3) = 2 ∧
    drawnShare nc 3 = 1 / 2 ∧ res0.ss.countP (Spec.drawn 0) = 0 ∧ drawnShare nc 0 * 12 ≤ 2 := by

  obtain ⟨nc, hn, ht⟩ := ok_of_test (mkConstraints { rule10 := true, percent0 := 10, percent135 := 50 })
    (fun nc => decide (nc.rule10 = true ∧ drawnShare nc 3 = 1 / 2 ∧ drawnShare nc 0 * 12 ≤ 2) &&
      (match mkConstraints { sym := true } with
      | .ok c => (match laylaOuterStep (laylaExample c 12) [([0, 1, 2], 0), ([3, 4, 5], 0)],
            laylaNotStep (laylaExample c 12) nc 3 [([0, 1, 2], 0), ([3, 4, 5], 0)] with
          | .ok r0, .ok r => decide (r0.ss.countP (Spec.drawn 0) = 0 ∧ r0.ss.countP (Spec.drawn 3) = 6 ∧ r.ss.countP (Spec.drawn 3) = 2)
          | _, _ => false)
      | .error _ => false)) (by decide +kernel)
  simp only [Bool.and_eq_true, decide_eq_true_eq] at ht
  obtain ⟨⟨g1, g2, g3⟩, g4⟩ := ht
  cases hc : mkConstraints { sym := true } with
  | error e => rw [hc] at g4; cases g4
  | ok c =>
    rw [hc] at g4
    dsimp only at g4
    cases h0 : laylaOuterStep (laylaExample c 12) [([0, 1, 2], 0), ([3, 4, 5], 0)] with
    | error e => rw [h0] at g4; cases g4
    | ok r0 =>
      cases h : laylaNotStep (laylaExample c 12) nc 3 [([0, 1, 2], 0), ([3, 4, 5], 0)] with
      | error e => rw [h0, h] at g4; cases g4
      | ok r =>
        rw [h0, h] at g4
        simp only [decide_eq_true_eq] at g4
        refine ⟨_, _, c, nc, _, r0, r, hc, hn, laylaExample_factors c 12, g1, ?_, ?_, h0, h, g4.2.1, g4.2.2, g2, g4.1, g3⟩
        · intro g hg
          simp only [List.mem_cons, List.not_mem_nil, or_false] at hg
          rcases hg with rfl | rfl <;> simp
        · rfl

end Bella
