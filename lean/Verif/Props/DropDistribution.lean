import Verif.Props.Divide
import Mathlib.Algebra.Order.Floor.Ring
import Mathlib.Tactic.FieldSimp
import Mathlib.Tactic.GCongr
import Mathlib.Tactic.Positivity
/-
C22: distribution of the ply drops over the groups.
-/
namespace Bella
open Spec

/-- One pass over the groups (see `dropPass`): `e` holds the drops added. -/
theorem dropPass_spec (target : Int) (sizes drops : List Int) (missing : Int)
    (hlen : drops.length = sizes.length) (hm : 0 < missing) :
    ∃ e : List Int, e.length = sizes.length ∧
      (dropPass target sizes drops missing).1 = List.zipWith (· + ·) drops e ∧
      (dropPass target sizes drops missing).2 = missing - e.sum ∧ e.sum ≤ missing ∧
      (∀ (i : Nat) (s x : Int), sizes[i]? = some s → e[i]? = some x →
        (x = 0 ∨ x = 1) ∧ (x = 1 → s = target) ∧ (e.sum < missing → s = target → x = 1)) := by
  induction sizes generalizing drops missing with
  | nil =>
    refine ⟨[], rfl, ?_, ?_, ?_, ?_⟩
    · rcases drops with _ | ⟨d, drops⟩
      · simp [dropPass]
      · simp at hlen
    · simp [dropPass]
    · simp; omega
    · simp
  | cons s sizes ih =>
    rcases drops with _ | ⟨d, drops⟩
    · simp at hlen
    simp only [List.length_cons, Nat.add_right_cancel_iff] at hlen
    by_cases hs : s = target
    · by_cases hz : missing - 1 = 0
      · refine ⟨1 :: List.replicate sizes.length 0, by simp, ?_, ?_, ?_, ?_⟩
        · simp only [dropPass, if_pos hs, if_pos hz, List.zipWith_cons_cons, List.cons.injEq, true_and]
          rw [← hlen]
          clear ih hlen
          induction drops with
          | nil => simp
          | cons x drops ih => simp [List.replicate_succ, ← ih]
        · simp [dropPass, hs, hz]
        · simp; omega
        · have hsum : (1 :: List.replicate sizes.length (0 : Int)).sum = 1 := by simp
          intro i s' x hs' hx
          rw [hsum]
          cases i with
          | zero =>
            simp at hs' hx
            subst hs' hx
            exact ⟨Or.inr rfl, fun _ => hs, fun _ _ => rfl⟩
          | succ i =>
            simp only [List.getElem?_cons_succ, List.getElem?_replicate] at hx
            split at hx
            · simp at hx
              subst hx
              refine ⟨Or.inl rfl, by simp, fun h => by omega⟩
            · simp at hx
      · obtain ⟨e, hel, h1, h2, h3, h4⟩ := ih drops (missing - 1) hlen (by omega)
        refine ⟨1 :: e, by simp [hel], ?_, ?_, ?_, ?_⟩
        · simp only [dropPass, if_pos hs, if_neg hz, List.zipWith_cons_cons, h1]
        · simp only [dropPass, if_pos hs, if_neg hz, h2, List.sum_cons]; omega
        · rw [List.sum_cons]; omega
        · intro i s' x hs' hx
          rw [List.sum_cons]
          cases i with
          | zero =>
            simp at hs' hx
            subst hs' hx
            exact ⟨Or.inr rfl, fun _ => hs, fun _ _ => rfl⟩
          | succ i =>
            simp only [List.getElem?_cons_succ] at hs' hx
            have := h4 i s' x hs' hx
            exact ⟨this.1, this.2.1, fun h => this.2.2 (by omega)⟩
    · obtain ⟨e, hel, h1, h2, h3, h4⟩ := ih drops missing hlen hm
      refine ⟨0 :: e, by simp [hel], ?_, ?_, ?_, ?_⟩
      · simp only [dropPass, if_neg hs, List.zipWith_cons_cons, h1, Int.add_zero]
      · simp only [dropPass, if_neg hs, h2, List.sum_cons]; omega
      · rw [List.sum_cons]; omega
      · intro i s' x hs' hx
        rw [List.sum_cons]
        cases i with
        | zero =>
          simp at hs' hx
          subst hs' hx
          exact ⟨Or.inl rfl, by simp, fun _ h => absurd h hs⟩
        | succ i =>
          simp only [List.getElem?_cons_succ] at hs' hx
          have := h4 i s' x hs' hx
          exact ⟨this.1, this.2.1, fun h => this.2.2 (by omega)⟩

theorem zipWith_add_zipWith (d e f : List Int) (h1 : e.length = d.length) (h2 : f.length = d.length) :
    List.zipWith (· + ·) (List.zipWith (· + ·) d e) f = List.zipWith (· + ·) d (List.zipWith (· + ·) e f) := by
  induction d generalizing e f with
  | nil => simp
  | cons x d ih =>
    rcases e with _ | ⟨y, e⟩
    · simp at h1
    rcases f with _ | ⟨z, f⟩
    · simp at h2
    simp only [List.length_cons, Nat.add_right_cancel_iff] at h1 h2
    simp only [List.zipWith_cons_cons, ih e f h1 h2, List.cons.injEq, and_true]
    omega

theorem sum_zipWith_add (d e : List Int) (h : e.length = d.length) :
    (List.zipWith (· + ·) d e).sum = d.sum + e.sum := by
  induction d generalizing e with
  | nil => simp at h; simp [h]
  | cons x d ih =>
    rcases e with _ | ⟨y, e⟩
    · simp at h
    simp only [List.length_cons, Nat.add_right_cancel_iff] at h
    simp only [List.zipWith_cons_cons, List.sum_cons, ih e h]
    omega

theorem sum_zipWith_sub (d e : List Int) (h : e.length = d.length) :
    (List.zipWith (· - ·) d e).sum = d.sum - e.sum := by
  induction d generalizing e with
  | nil => simp at h; simp [h]
  | cons x d ih =>
    rcases e with _ | ⟨y, e⟩
    · simp at h
    simp only [List.length_cons, Nat.add_right_cancel_iff] at h
    simp only [List.zipWith_cons_cons, List.sum_cons, ih e h]
    omega

theorem zipWith_get {α β γ : Type} (f : α → β → γ) (d : List α) (e : List β) (i : Nat) (x : γ)
    (h : (List.zipWith f d e)[i]? = some x) : ∃ a b, d[i]? = some a ∧ e[i]? = some b ∧ x = f a b := by
  rw [List.getElem?_zipWith] at h
  split at h
  · rename_i a b ha hb
    simp at h
    exact ⟨a, b, ha, hb, h.symm⟩
  · simp at h

theorem get_of_length {α : Type} (l : List α) (i n : Nat) (h : l.length = n) (hi : i < n) :
    ∃ a, l[i]? = some a := ⟨l[i], List.getElem?_eq_getElem (by omega)⟩

theorem sum_all_one (e : List Int) (h : ∀ (i : Nat) (x : Int), e[i]? = some x → x = 1) :
    e.sum = e.length := by
  induction e with
  | nil => rfl
  | cons x e ih =>
    have h0 := h 0 x (by simp)
    have := ih (fun i y hy => h (i + 1) y (by simpa using hy))
    rw [List.sum_cons, List.length_cons, this, h0]
    push_cast; omega

/-- The loop: `e` holds the drops added so far, 1 for the groups of more than `gmax - it` plies. -/
theorem dropLoop_spec (gmin gmax : Int) (sizes d0 : List Int) (m0 : Int)
    (hgm : ∀ s ∈ sizes, gmin ≤ s ∧ s ≤ gmax) (hd : d0.length = sizes.length)
    (hm0 : m0 ≤ sizes.length) (fuel : Nat) (it : Nat) (hfuel : gmax - gmin + 1 ≤ fuel + it)
    (e : List Int) (m : Int) (hel : e.length = sizes.length) (hsum : e.sum = m0 - m) (hm : 0 ≤ m)
    (he : ∀ (i : Nat) (s x : Int), sizes[i]? = some s → e[i]? = some x →
      (x = 0 ∨ x = 1) ∧ (0 < m → (x = 1 ↔ s > gmax - it)) ∧
      (m = 0 → ∃ t : Int, ∀ (j : Nat) (s' x' : Int), sizes[j]? = some s' → e[j]? = some x' →
        (s' > t → x' = 1) ∧ (x' = 1 → s' ≥ t))) :
    ∃ drops e', dropLoop gmax sizes fuel it (List.zipWith (· + ·) d0 e) m = some drops ∧
      drops = List.zipWith (· + ·) d0 e' ∧ e'.length = sizes.length ∧ e'.sum = m0 ∧
      (∀ (i : Nat) (x : Int), e'[i]? = some x → x = 0 ∨ x = 1) ∧
      (∀ (i j : Nat) (s s' : Int), sizes[i]? = some s → sizes[j]? = some s' →
        e'[i]? = some 1 → e'[j]? = some 0 → s' ≤ s) := by
  induction fuel generalizing it e m with
  | zero =>
    have hm' : m = 0 := by
      by_contra hne
      have hpos : 0 < m := by omega
      have hall : e.sum = e.length := by
        apply sum_all_one
        intro i x hx
        have hi : i < sizes.length := by
          have := (List.getElem?_eq_some_iff.mp hx).1; omega
        obtain ⟨s, hs⟩ := get_of_length sizes i _ rfl hi
        have := (he i s x hs hx).2.1 hpos
        have hb := hgm s (List.mem_of_getElem? hs)
        rw [this]
        push_cast at hfuel
        omega
      omega
    refine ⟨List.zipWith (· + ·) d0 e, e, ?_, rfl, hel, by omega, ?_, ?_⟩
    · unfold dropLoop; rw [if_neg (by omega)]
    · intro i x hx
      have hi : i < sizes.length := by
        have := (List.getElem?_eq_some_iff.mp hx).1; omega
      obtain ⟨s, hs⟩ := get_of_length sizes i _ rfl hi
      exact (he i s x hs hx).1
    · intro i j s s' hs hs' hx hx'
      obtain ⟨t, ht⟩ := (he i s 1 hs hx).2.2 hm'
      have h1 := (ht i s 1 hs hx).2 rfl
      by_contra hlt
      have h2 := (ht j s' 0 hs' hx').1 (by omega)
      omega
  | succ fuel ih =>
    by_cases hpos : 0 < m
    · unfold dropLoop
      rw [if_pos (by omega)]
      have hzl : (List.zipWith (· + ·) d0 e).length = sizes.length := by
        rw [List.length_zipWith]; omega
      obtain ⟨f, hfl, h1, h2, h3, h4⟩ := dropPass_spec (gmax - it) sizes
        (List.zipWith (· + ·) d0 e) m hzl hpos
      rw [h1, h2, zipWith_add_zipWith d0 e f (by omega) (by omega)]
      have := ih (it + 1) (by push_cast; push_cast at hfuel; omega) (List.zipWith (· + ·) e f) (m - f.sum)
        (by rw [List.length_zipWith]; omega)
        (by rw [sum_zipWith_add e f (by omega)]; omega) (by omega) ?_
      · simpa using this
      · intro i s x hs hx
        -- description of every entry
        have entry : ∀ (j : Nat) (s' x' : Int), sizes[j]? = some s' →
            (List.zipWith (· + ·) e f)[j]? = some x' →
            (x' = 0 ∨ x' = 1) ∧ (s' > gmax - it → x' = 1) ∧ (x' = 1 → s' ≥ gmax - it) ∧
            (0 < m - f.sum → (x' = 1 ↔ s' > gmax - ((it + 1 : Nat) : Int))) := by
          intro j s' x' hs' hx'
          obtain ⟨a, b, ha, hb, rfl⟩ := zipWith_get _ e f j x' hx'
          have ea := he j s' a hs' ha
          have eb := h4 j s' b hs' hb
          have ea2 := ea.2.1 hpos
          push_cast
          refine ⟨?_, ?_, ?_, ?_⟩ <;> omega
        refine ⟨(entry i s x hs hx).1, (entry i s x hs hx).2.2.2, ?_⟩
        intro _
        refine ⟨gmax - it, ?_⟩
        intro j s' x' hs' hx'
        exact ⟨(entry j s' x' hs' hx').2.1, (entry j s' x' hs' hx').2.2.1⟩
    · have hm' : m = 0 := by omega
      refine ⟨List.zipWith (· + ·) d0 e, e, ?_, rfl, hel, by omega, ?_, ?_⟩
      · unfold dropLoop; rw [if_neg (by omega)]
      · intro i x hx
        have hi : i < sizes.length := by
          have := (List.getElem?_eq_some_iff.mp hx).1; omega
        obtain ⟨s, hs⟩ := get_of_length sizes i _ rfl hi
        exact (he i s x hs hx).1
      · intro i j s s' hs hs' hx hx'
        obtain ⟨t, ht⟩ := (he i s 1 hs hx).2.2 hm'
        have h1 := (ht i s 1 hs hx).2 rfl
        by_contra hlt
        have h2 := (ht j s' 0 hs' hx').1 (by omega)
        omega

theorem shares_sum (q : ℚ) (sizes d0 : List Int) (hd : d0.length = sizes.length)
    (hs : ∀ (i : Nat) (s d : Int), sizes[i]? = some s → d0[i]? = some d →
      (d : ℚ) ≤ q * s ∧ q * s ≤ d + 1) :
    (d0.sum : ℚ) ≤ q * (sizes.sum : ℚ) ∧ q * (sizes.sum : ℚ) ≤ d0.sum + sizes.length := by
  induction sizes generalizing d0 with
  | nil => simp at hd; subst hd; simp
  | cons s sizes ih =>
    rcases d0 with _ | ⟨d, d0⟩
    · simp at hd
    simp only [List.length_cons, Nat.add_right_cancel_iff] at hd
    have h0 := hs 0 s d (by simp) (by simp)
    have := ih d0 hd (fun i s' d' h1 h2 => hs (i + 1) s' d' (by simpa using h1) (by simpa using h2))
    simp only [List.sum_cons, List.length_cons, Int.cast_add, Nat.cast_add, Nat.cast_one]
    constructor
    · rw [mul_add]; linarith [this.1, h0.1]
    · rw [mul_add]; linarith [this.2, h0.2]

theorem nDrops_eq (sym : Bool) (nMax n : Int) : nDrops sym nMax n = dropsWanted sym nMax n := by
  unfold nDrops dropsWanted
  cases sym with
  | false => simp
  | true =>
    simp only [if_true]
    have : (if n % 2 = 1 then n - 1 else n) = 2 * (n / 2) := by split <;> omega
    rw [this]

/-- Floor of the number of drops: the difference of the numbers of plies to be designed. -/
theorem dropsWanted_floor (sym : Bool) (nMax n nCov : Int) :
    ⌊dropsWanted sym nMax n⌋ = pliesToDesign sym nMax nCov - pliesToDesign sym n nCov := by
  unfold dropsWanted pliesToDesign
  cases sym with
  | false =>
    simp only [Bool.false_eq_true, if_false]
    rw [Int.floor_intCast]; omega
  | true =>
    simp only [if_true]
    have := Rat.floor_intCast_div_natCast (nMax - 2 * (n / 2)) 2
    simp only [Nat.cast_ofNat] at this
    rw [this]
    omega

theorem dropsWanted_lt (sym : Bool) (nMax n nCov : Int) (hpos : 1 ≤ pliesToDesign sym n nCov) :
    dropsWanted sym nMax n < (pliesToDesign sym nMax nCov : ℚ) := by
  rw [← Int.floor_lt, dropsWanted_floor sym nMax n nCov]; omega

/-- Distribution of the ply drops of a panel, for any rounding of the uniform distribution: `d0` holds
the whole numbers of drops the code starts from (line 288), each at most the share of the group and
less than one below, or exactly one below if the floating-point product falls just under a whole
number.  The loop ends after at most `gmax - gmin + 1` iterations; the drops add up to the thickness
difference, exceed the starting values by at most one, the larger groups being served first, and
never exceed the group sizes; the remaining group sizes add up to the plies to be designed, and each
of these plies lies in exactly one group. -/
theorem C22_distribution_rounding (sym : Bool) (nMax nCov gmin gmax n : Int) (h1 : 1 ≤ gmin)
    (h2 : gmin ≤ gmax) (sizes firsts : List Int)
    (hth : divideThickest sym nMax nCov gmin gmax = .ok (sizes, firsts)) (hn : n < nMax)
    (hpos : 1 ≤ pliesToDesign sym n nCov) (d0 : List Int) (hd0 : d0.length = sizes.length)
    (hshare : ∀ (i : Nat) (s d : Int), sizes[i]? = some s → d0[i]? = some d →
      0 ≤ d ∧ (d : ℚ) ≤ dropsWanted sym nMax n * s / (sizes.sum : ℚ) ∧
      dropsWanted sym nMax n * s / (sizes.sum : ℚ) ≤ d + 1)
    (fuel : Nat) (hf : gmax - gmin + 1 ≤ fuel) :
    ∃ pg, dividePanelWith sym nMax nCov gmax (sizes, firsts) n d0 fuel = some pg ∧
      pg.drops.length = sizes.length ∧ pg.sizes.length = sizes.length ∧
      pg.drops.sum = pliesToDesign sym nMax nCov - pliesToDesign sym n nCov ∧
      pg.sizes.sum = pliesToDesign sym n nCov ∧
      (∀ (i : Nat) (s d x : Int), sizes[i]? = some s → d0[i]? = some d → pg.drops[i]? = some x →
        (x = d ∨ x = d + 1) ∧ 0 ≤ x ∧ x ≤ s ∧ pg.sizes[i]? = some (s - x)) ∧
      (∀ (i j : Nat) (s s' d d' : Int), sizes[i]? = some s → sizes[j]? = some s' →
        d0[i]? = some d → d0[j]? = some d' →
        pg.drops[i]? = some (d + 1) → pg.drops[j]? = some d' → s' ≤ s) ∧
      (∀ p, groupsHolding pg.firsts pg.sizes p =
        if nCov ≤ p ∧ p < nCov + pliesToDesign sym n nCov then 1 else 0) := by
  have hg := C21_groups sym nMax nCov gmin gmax h1 h2 sizes firsts hth
  obtain ⟨⟨hbnd, hsum⟩, hne, -, -⟩ := hg
  have hSpos : (0 : ℚ) < (sizes.sum : ℚ) := by
    have : 0 < sizes.sum := by
      obtain ⟨l0, hl0⟩ := List.exists_mem_of_ne_nil sizes hne
      have h3 := List.single_le_sum (l := sizes) (fun x hx => by have := hbnd x hx; omega) l0 hl0
      have := hbnd l0 hl0
      omega
    exact_mod_cast this
  have hlt := dropsWanted_lt sym nMax n nCov hpos
  rw [← hsum] at hlt
  set D := dropsWanted sym nMax n with hD
  -- the total
  have htot := shares_sum (D / (sizes.sum : ℚ)) sizes d0 hd0 (by
    intro i s d hs hd
    have := hshare i s d hs hd
    have e : D / (sizes.sum : ℚ) * s = D * s / (sizes.sum : ℚ) := by ring
    rw [e]; exact this.2)
  have hcancel : D / (sizes.sum : ℚ) * (sizes.sum : ℚ) = D := by field_simp
  rw [hcancel] at htot
  have hm : pyInt (D - (d0.sum : ℚ)) = ⌊D⌋ - d0.sum := by
    unfold pyInt
    rw [if_pos (by linarith [htot.1]), Int.floor_sub_intCast]
  have hm0 : 0 ≤ ⌊D⌋ - d0.sum := by
    have : d0.sum ≤ ⌊D⌋ := Int.le_floor.mpr htot.1
    omega
  have hmle : ⌊D⌋ - d0.sum ≤ sizes.length := by
    have h3 : (⌊D⌋ : ℚ) ≤ d0.sum + sizes.length := le_trans (Int.floor_le D) htot.2
    have : ⌊D⌋ ≤ d0.sum + sizes.length := by exact_mod_cast h3
    omega
  have hz : List.zipWith (· + ·) d0 (List.replicate sizes.length 0) = d0 := by
    rw [← hd0]
    clear hshare hd0 htot hm hm0 hmle
    induction d0 with
    | nil => rfl
    | cons x d0 ih => simp [List.replicate_succ, ih]
  obtain ⟨drops, e, hloop, hdr, hel, hes, h01, hord⟩ := dropLoop_spec gmin gmax sizes d0 (⌊D⌋ - d0.sum)
    hbnd hd0 hmle fuel 0 (by push_cast; omega) (List.replicate sizes.length 0) (⌊D⌋ - d0.sum)
    (by simp) (by simp) hm0 (by
      intro i s x hs hx
      have hx0 : x = 0 := by
        rw [List.getElem?_replicate] at hx
        split at hx <;> simp at hx
        exact hx.symm
      have hb := hbnd s (List.mem_of_getElem? hs)
      refine ⟨Or.inl hx0, fun _ => ?_, fun _ => ⟨gmax, ?_⟩⟩
      · push_cast; omega
      · intro j s' x' hs' hx'
        have hx0' : x' = 0 := by
          rw [List.getElem?_replicate] at hx'
          split at hx' <;> simp at hx'
          exact hx'.symm
        have hb' := hbnd s' (List.mem_of_getElem? hs')
        omega)
  rw [hz] at hloop
  have hdl : drops.length = sizes.length := by rw [hdr, List.length_zipWith]; omega
  have hdsum : drops.sum = ⌊D⌋ := by
    rw [hdr, sum_zipWith_add d0 e (by omega), hes]; omega
  have hfloor := dropsWanted_floor sym nMax n nCov
  rw [← hD] at hfloor
  have hentry : ∀ (i : Nat) (s d x : Int), sizes[i]? = some s → d0[i]? = some d →
      drops[i]? = some x → (x = d ∨ x = d + 1) ∧ 0 ≤ x ∧ x ≤ s ∧
        (List.zipWith (· - ·) sizes drops)[i]? = some (s - x) := by
    intro i s d x hs hd hx
    have hx2 := hx
    rw [hdr] at hx2
    obtain ⟨a, b, ha, hb, rfl⟩ := zipWith_get _ d0 e i x hx2
    rw [hd] at ha
    obtain rfl : d = a := by simpa using ha
    have hb01 := h01 i b hb
    have hsh := hshare i s d hs hd
    have hsb := hbnd s (List.mem_of_getElem? hs)
    have hslt : D * s / (sizes.sum : ℚ) < s := by
      rw [div_lt_iff₀ hSpos, mul_comm]
      have : (0 : ℚ) < s := by exact_mod_cast (by omega : 0 < s)
      exact mul_lt_mul_of_pos_left hlt this
    have hds : d < s := by
      have : (d : ℚ) < s := lt_of_le_of_lt hsh.2.1 hslt
      exact_mod_cast this
    refine ⟨by omega, by omega, by omega, ?_⟩
    rw [List.getElem?_zipWith, hs, hx]
  refine ⟨⟨List.zipWith (· - ·) sizes drops,
      firstPlies sym nCov (List.zipWith (· - ·) sizes drops), drops⟩, ?_, hdl, ?_, ?_, ?_,
      hentry, ?_, ?_⟩
  · unfold dividePanelWith
    rw [if_neg (by omega), nDrops_eq, ← hD, hm]
    simp only
    have h0 : ((0 : Nat) : Int) = 0 := rfl
    rw [h0] at hloop
    rw [hloop]
  · rw [List.length_zipWith]; omega
  · exact hdsum.trans hfloor
  · show (List.zipWith (· - ·) sizes drops).sum = _
    rw [sum_zipWith_sub sizes drops (by omega), hdsum, hfloor, hsum]; omega
  · intro i j s s' d d' hs hs' hd hd' hx hx'
    simp only at hx hx'
    rw [hdr] at hx hx'
    obtain ⟨a, b, ha, hb, hab⟩ := zipWith_get _ d0 e i _ hx
    obtain ⟨a', b', ha', hb', hab'⟩ := zipWith_get _ d0 e j _ hx'
    rw [hd] at ha
    rw [hd'] at ha'
    simp only [Option.some.injEq] at ha ha'
    have hb1 : b = 1 := by omega
    have hb0 : b' = 0 := by omega
    subst hb1 hb0
    exact hord i j s s' hs hs' hb hb'
  · intro p
    show groupsHolding (firstPlies sym nCov (List.zipWith (· - ·) sizes drops))
      (List.zipWith (· - ·) sizes drops) p = _
    rw [firstPlies_holding]
    · rw [sum_zipWith_sub sizes drops (by omega), hdsum, hfloor, hsum]
      have : pliesToDesign sym nMax nCov - (pliesToDesign sym nMax nCov - pliesToDesign sym n nCov)
        = pliesToDesign sym n nCov := by omega
      rw [this]
    · intro x hx
      obtain ⟨i, hi⟩ := List.getElem?_of_mem hx
      obtain ⟨s, y, hs, hy, rfl⟩ := zipWith_get _ sizes drops i x hi
      have hil : i < sizes.length := (List.getElem?_eq_some_iff.mp hs).1
      obtain ⟨d, hd⟩ := get_of_length d0 i _ hd0 hil
      have := hentry i s d y hs hd hy
      omega

/-- Distribution of the ply drops with exact arithmetic: the statement above with the code's own
table, whose entries are the shares rounded down. -/
theorem C22_distribution (sym : Bool) (nMax nCov gmin gmax n : Int) (h1 : 1 ≤ gmin)
    (h2 : gmin ≤ gmax) (sizes firsts : List Int)
    (hth : divideThickest sym nMax nCov gmin gmax = .ok (sizes, firsts)) (hn : n < nMax)
    (hpos : 1 ≤ pliesToDesign sym n nCov) (fuel : Nat) (hf : gmax - gmin + 1 ≤ fuel) :
    ∃ pg, dividePanel sym nMax nCov gmax (sizes, firsts) n fuel = some pg ∧
      pg.drops.length = sizes.length ∧ pg.sizes.length = sizes.length ∧
      pg.drops.sum = pliesToDesign sym nMax nCov - pliesToDesign sym n nCov ∧
      pg.sizes.sum = pliesToDesign sym n nCov ∧
      (∀ (i : Nat) (s x : Int), sizes[i]? = some s → pg.drops[i]? = some x →
        dropsWanted sym nMax n * s / (sizes.sum : ℚ) - 1 < x ∧
        x ≤ dropsWanted sym nMax n * s / (sizes.sum : ℚ) + 1 ∧
        0 ≤ x ∧ x ≤ s ∧ pg.sizes[i]? = some (s - x)) ∧
      (∀ (i j : Nat) (s s' : Int), sizes[i]? = some s → sizes[j]? = some s' →
        pg.drops[i]? = some (⌊dropsWanted sym nMax n * s / (sizes.sum : ℚ)⌋ + 1) →
        pg.drops[j]? = some ⌊dropsWanted sym nMax n * s' / (sizes.sum : ℚ)⌋ → s' ≤ s) ∧
      (∀ p, groupsHolding pg.firsts pg.sizes p =
        if nCov ≤ p ∧ p < nCov + pliesToDesign sym n nCov then 1 else 0) := by
  have hg := C21_groups sym nMax nCov gmin gmax h1 h2 sizes firsts hth
  have hu : ∀ (i : Nat) (s : Int), sizes[i]? = some s →
      (uniformDrops (nDrops sym nMax n) sizes)[i]?
        = some ⌊dropsWanted sym nMax n * s / (sizes.sum : ℚ)⌋ := by
    intro i s hs
    unfold uniformDrops
    rw [List.getElem?_map, hs, Option.map_some, nDrops_eq, mul_div_assoc]
  have hDnn : 0 ≤ dropsWanted sym nMax n := by
    unfold dropsWanted
    cases sym with
    | true =>
      rw [if_pos rfl]
      have : (0 : ℚ) ≤ ((nMax - 2 * (n / 2) : Int) : ℚ) := by
        exact_mod_cast (by omega : 0 ≤ nMax - 2 * (n / 2))
      positivity
    | false =>
      rw [if_neg (by simp)]
      exact_mod_cast (by omega : 0 ≤ nMax - n)
  obtain ⟨pg, hpg, hl1, hl2, hs1, hs2, hent, hord, hhold⟩ := C22_distribution_rounding sym nMax nCov
    gmin gmax n h1 h2 sizes firsts hth hn hpos (uniformDrops (nDrops sym nMax n) sizes)
    (by simp [uniformDrops]) (by
      intro i s d hs hd
      rw [hu i s hs] at hd
      rw [Option.some.injEq] at hd
      subst hd
      have hsnn : 0 ≤ s := by have := hg.1.1 s (List.mem_of_getElem? hs); omega
      have hSnn : 0 ≤ sizes.sum :=
        List.sum_nonneg (fun x hx => by have := hg.1.1 x hx; omega)
      refine ⟨Int.floor_nonneg.mpr ?_, Int.floor_le _, (Int.lt_floor_add_one _).le⟩
      have a1 : (0 : ℚ) ≤ s := by exact_mod_cast hsnn
      have a2 : (0 : ℚ) ≤ (sizes.sum : ℚ) := by exact_mod_cast hSnn
      positivity) fuel hf
  refine ⟨pg, hpg, hl1, hl2, hs1, hs2, ?_, ?_, hhold⟩
  · intro i s x hs hx
    have := hent i s _ x hs (hu i s hs) hx
    have hfl := Int.floor_le (dropsWanted sym nMax n * s / (sizes.sum : ℚ))
    have hfl' := Int.lt_floor_add_one (dropsWanted sym nMax n * s / (sizes.sum : ℚ))
    refine ⟨?_, ?_, this.2.1, this.2.2.1, this.2.2.2⟩
    · rcases this.1 with h | h <;> rw [h]
      · linarith
      · rw [Int.cast_add, Int.cast_one]; linarith
    · rcases this.1 with h | h <;> rw [h]
      · linarith
      · rw [Int.cast_add, Int.cast_one]; linarith
  · intro i j s s' hs hs' hx hx'
    exact hord i j s s' _ _ hs hs' (hu i s hs) (hu j s' hs') hx hx'

/-- The thickest panel itself drops nothing and `calc_ply_drops` returns the drops just described. -/
theorem C22_thickest (sym : Bool) (nMax nCov gmax : Int) (thick : List Int × List Int) (fuel : Nat) :
    dividePanel sym nMax nCov gmax thick nMax fuel
      = some ⟨thick.1, thick.2, List.replicate thick.1.length 0⟩ := by
  simp [dividePanel, dividePanelWith]

/-- Drops of the panels in one group, as used to build the ply drop layouts. -/
theorem C22_ply_drops (thick : List Int) (panels : List PanelGroups) (step : Nat) (s : Int)
    (hs : thick[step]? = some s) (r : List Int) (h : calcPlyDrops thick panels step = .ok r) :
    List.Forall₂ (fun p d => ∃ x, p.sizes[step]? = some x ∧ d = s - x) panels r := by
  unfold calcPlyDrops at h
  refine (mapM_inv _ _ _ h).imp ?_
  intro p d hpd
  simp only [bind_ok] at hpd
  obtain ⟨a, ha, b, hb, hr⟩ := hpd
  simp only [pure, Except.pure, Except.ok.injEq] at hr
  rw [pyGet_eq_ok] at ha hb
  rw [hs] at ha
  obtain rfl : s = a := by simpa using ha
  exact ⟨b, hb, hr.symm⟩

/-- A symmetric structure with 83 and 61 plies and one covering ply per face. -/
example : ∃ pg, dividePanel true 83 1 12 ([6, 10, 12, 12], [0, 6, 16, 28]) 61 7 = some pg ∧
    pg.drops = [1, 2, 4, 4] ∧ pg.sizes = [5, 8, 8, 8] ∧ pg.firsts = [1, 6, 14, 22] :=
  ⟨⟨[5, 8, 8, 8], [1, 6, 14, 22], [1, 2, 4, 4]⟩, by decide +kernel⟩

end Bella
