import Verif.Props.Search
import Verif.Props.Assembly
/-
Property C83: which lay-up rules the beam search enforces for asymmetric laminates.
-/
namespace Bella

section
variable {V : Type} [Zero V] [Add V]

theorem branchNodes_none (P : Problem V) (level : Nat) (last : Bool) (k : Nat) (t t' : Tabs V)
    (hp : ∀ b ∈ t.bots, ∀ u ∈ t.tops, ∀ gb gt : Stack, b[P.thick]? = some gb → u[P.thick]? = some gt →
      ∀ ss, pruning P.c.angles gb gt level P.indices.length P.c P.rule P.hasMiddle ≠ .ok (some ss))
    (h : branchNodes P level last k t = .ok t') : t'.objs = t.objs.drop k := by
  induction k generalizing t with
  | zero =>
    simp only [branchNodes, Except.ok.injEq] at h
    rw [h, List.drop_zero]
  | succ k ih =>
    simp only [branchNodes, bind_ok] at h
    obtain ⟨t1, h1, h2⟩ := h
    unfold branchNode at h1
    rw [bind_ok] at h1; obtain ⟨bot, e1, h1⟩ := h1
    rw [bind_ok] at h1; obtain ⟨top, e2, h1⟩ := h1
    rw [bind_ok] at h1; obtain ⟨lampam, e3, h1⟩ := h1
    rw [bind_ok] at h1; obtain ⟨count, e4, h1⟩ := h1
    rw [bind_ok] at h1; obtain ⟨gb, e5, h1⟩ := h1
    rw [bind_ok] at h1; obtain ⟨gt, e6, h1⟩ := h1
    rw [bind_ok] at h1; obtain ⟨ss, e7, h1⟩ := h1
    rw [pyGet_eq_ok] at e1 e2 e5 e6
    cases ss with
    | some ss => exact absurd e7 (hp bot (List.mem_of_getElem? e1) top (List.mem_of_getElem? e2) gb gt e5 e6 ss)
    | none =>
      simp only [pure, Except.pure, Except.ok.injEq] at h1
      subst h1
      have := ih _ (fun b hb u hu => hp b (List.mem_of_mem_tail hb) u (List.mem_of_mem_tail hu)) h2
      rw [this]
      simp [List.tail_drop]

/-- a level at which no orientation is kept for any node ends the search -/
theorem searchLevel_none (P : Problem V) (level : Nat) (t t' : Tabs V)
    (hp : ∀ b ∈ t.bots, ∀ u ∈ t.tops, ∀ gb gt : Stack, b[P.thick]? = some gb → u[P.thick]? = some gt →
      ∀ ss, pruning P.c.angles gb gt level P.indices.length P.c P.rule P.hasMiddle ≠ .ok (some ss)) :
    searchLevel P level t ≠ .ok t' := by
  intro h
  simp only [searchLevel, bind_ok] at h
  obtain ⟨t1, h1, h2⟩ := h
  have := branchNodes_none P level _ _ t t1 hp h1
  rw [if_pos (by rw [this]; simp)] at h2
  cases h2

theorem searchLevels_append (P : Problem V) (l1 l2 : List Nat) (t t' : Tabs V)
    (h : searchLevels P (l1 ++ l2) t = .ok t') :
    ∃ t1, searchLevels P l1 t = .ok t1 ∧ searchLevels P l2 t1 = .ok t' := by
  induction l1 generalizing t with
  | nil => exact ⟨t, rfl, h⟩
  | cons l l1 ih =>
    simp only [List.cons_append, searchLevels, bind_ok] at h
    obtain ⟨t1, h1, h2⟩ := h
    obtain ⟨t2, h3, h4⟩ := ih t1 h2
    refine ⟨t2, ?_, h4⟩
    simp only [searchLevels, bind_ok]
    exact ⟨t1, h1, h3⟩

/-- C83, violation: for asymmetric laminates with the contiguity rule and without damage tolerance the
beam search never returns a design: at the ply of the highest index every branch ends in an exception
or is discarded. -/
theorem C83_contiguity_raises (P : Problem V) (hs : P.c.sym = false) (hd : P.c.damTol = false)
    (hcg : P.c.contig = true) (n : Nat) (hn : 0 < n) (hidx : P.indices = calcPlyOrder false n) (t : Tabs V) :
    beamSearch P ≠ .ok t := by
  intro h
  have hperm := calcPlyOrder_asym_perm n
  have hlen : P.indices.length = n := by rw [hidx, hperm.length_eq]; simp
  have hmem : n - 1 ∈ P.indices := by
    rw [hidx, hperm.mem_iff, List.mem_range]; omega
  obtain ⟨l1, l2, e⟩ := List.append_of_mem hmem
  rw [beamSearch, e] at h
  obtain ⟨t1, _, h2⟩ := searchLevels_append _ _ _ _ _ h
  simp only [searchLevels, bind_ok] at h2
  obtain ⟨t2, h3, _⟩ := h2
  refine searchLevel_none P (n - 1) t1 t2 ?_ h3
  intro b _ u _ gb gt _ _ ss hp
  rw [hlen] at hp
  have e3 : pruning P.c.angles gb gt (n - 1) n P.c P.rule P.hasMiddle =
      pruneRules P.c.angles gb gt (n - 1) n P.c P.hasMiddle := by simp [pruning, hs, hd]
  rw [e3] at hp
  simp only [pruneRules, bind_ok] at hp
  obtain ⟨ch, h4, h5⟩ := hp
  by_cases h8 : P.c.diso = true ∧ ch.length = 0
  · rw [if_pos h8] at h5
    cases h5
  · rw [if_neg h8, if_pos hcg] at h5
    simp only [bind_ok] at h5
    obtain ⟨ch2, h6, h7⟩ := h5
    unfold pruneContig at h6
    rw [if_neg (by simp), if_neg (by simp [hs])] at h6
    split at h6
    · rename_i h0
      cases h6
      simp [noneIfEmpty, h0, pure, Except.pure] at h7
    · cases h6

end

variable {V : Type} [AddMonoid V]

theorem calcPlyOrder_start (n : Nat) (hn : 2 ≤ n) :
    ∃ rest, calcPlyOrder false n = 0 :: (n - 1) :: rest := by
  have hp := calcPlyOrder_asym_perm n
  have hlen : (calcPlyOrder false n).length = n := by rw [hp.length_eq]; simp
  have h0 := (C19_ply_order n).2.2 0 (by omega)
  have h1 := (C19_ply_order n).2.2 1 (by omega)
  cases hl : calcPlyOrder false n with
  | nil => rw [hl] at hlen; simp at hlen; omega
  | cons a l =>
    cases l with
    | nil => rw [hl] at hlen; simp at hlen; omega
    | cons b l =>
      rw [hl] at h0 h1
      simp at h0 h1
      exact ⟨l, by rw [h0, h1]⟩

/-- C83, violation: for asymmetric laminates with an odd number of plies, the disorientation rule and
no damage tolerance, the beam search never returns a design. -/
theorem C83_odd_disorientation_raises (P : Problem V) (hobj : ∀ o q, P.objMp o = .ok q → -6666 < q)
    (hs : P.c.sym = false) (hd : P.c.damTol = false)
    (hdi : P.c.diso = true) (n : Nat) (hn : 2 ≤ n) (hodd : n % 2 = 1)
    (hidx : P.indices = calcPlyOrder false n) (t : Tabs V) : beamSearch P ≠ .ok t := by
  intro h
  have hlen : P.indices.length = n := by rw [hidx, (calcPlyOrder_asym_perm n).length_eq]; simp
  obtain ⟨rest, e⟩ := calcPlyOrder_start n hn
  rw [beamSearch, initTabs_eq, hidx, e] at h
  simp only [searchLevels, bind_ok] at h
  obtain ⟨t1, h1, t2, h2, _⟩ := h
  obtain ⟨ns, rfl, c1, _⟩ := searchLevel_inv P 0 [rootNode P] t1 hobj h1
  refine searchLevel_none P (n - 1) _ t2 ?_ h2
  intro b _ u hu gb gt _ hgt ss hp
  obtain ⟨x, hx, rfl⟩ := List.mem_map.1 hu
  obtain ⟨m, hm, a, ha⟩ := c1 x hx
  rw [List.mem_singleton] at hm
  subst hm
  have hdes := describes_child P [] (rootNode P) x 0 a (describes_root P) ha
  have hgt0 : gt = [] := by
    rw [hdes.top] at hgt
    obtain ⟨i, e9⟩ := List.getElem?_eq_some_iff.1 hgt
    rw [← e9]
    simp [hs, Spec.panelPlies]
  subst hgt0
  rw [hlen] at hp
  have e3 : pruning P.c.angles gb [] (n - 1) n P.c P.rule P.hasMiddle =
      pruneRules P.c.angles gb [] (n - 1) n P.c P.hasMiddle := by simp [pruning, hs, hd]
  rw [e3] at hp
  simp only [pruneRules, bind_ok] at hp
  obtain ⟨ch, h4, h5⟩ := hp
  unfold pruneDiso at h4
  rw [if_pos hdi, if_pos (Or.inr (by omega))] at h4
  dsimp only at h4
  rw [if_pos (by simp [hs])] at h4
  generalize hg : (if gb.length > 0 then P.c.angles.filter
          (fun a => isDiso a (nth gb (gb.length - 1)) P.c.deltaAngle) else P.c.angles) = l at h4
  by_cases h0 : l.length > 0 ∧ ([] : Stack).length = 0
  · rw [if_pos h0] at h4
    cases h4
  · rw [if_neg h0] at h4
    simp only [pure, Except.pure, Except.ok.injEq] at h4
    have : ch = [] := by
      rw [← h4]
      have h9 : l.length = 0 := by
        by_contra hne
        exact h0 ⟨by omega, rfl⟩
      rw [List.length_eq_zero_iff.1 h9]
      rfl
    rw [if_pos ⟨hdi, by rw [this]; rfl⟩] at h5
    cases h5

/-! ### an even number of plies, disorientation only -/

/-- orientations chosen at the levels with an even index -/
def evenChoices (ch : List (Nat × Int)) : List Int := (ch.filter (fun (p : Nat × Int) => p.1 % 2 == 0)).map Prod.snd

/-- orientations chosen at the levels with an odd index -/
def oddChoices (ch : List (Nat × Int)) : List Int := (ch.filter (fun (p : Nat × Int) => ! (p.1 % 2 == 0))).map Prod.snd

structure HalvesOK (P : Problem V) (ch : List (Nat × Int)) : Prop where
  ang : ∀ p ∈ ch, p.2 ∈ P.c.angles
  rules : P.c.diso = true → Spec.DisoOK P.c.deltaAngle (evenChoices ch) ∧
    Spec.DisoOK P.c.deltaAngle (oddChoices ch) ∧
    ∀ a b, (evenChoices ch).head? = some a → (oddChoices ch).head? = some b →
      Spec.WithinAngle P.c.deltaAngle a b

theorem junction_single (d : Int) (A : Stack) (a : Int) :
    Spec.JunctionDiso d A [a] ↔ ∀ x, A.getLast? = some x → Spec.WithinAngle d x a := by
  constructor
  · intro h x hx
    obtain ⟨l, rfl⟩ := List.getLast?_eq_some_iff.1 hx
    exact h x a ⟨l, rfl⟩ ⟨[], rfl⟩
  · rintro h x b ⟨l, rfl⟩ ⟨r, hr⟩
    simp only [List.cons_append, List.nil_append, List.cons.injEq] at hr
    rw [hr.1]
    exact h x (by simp)

theorem disoOK_snoc_iff (d : Int) (A : Stack) (a : Int) :
    Spec.DisoOK d (A ++ [a]) ↔ Spec.DisoOK d A ∧ ∀ x, A.getLast? = some x → Spec.WithinAngle d x a := by
  rw [disoOK_append, junction_single]
  have : Spec.DisoOK d [a] := by intro i x y h1 h2; simp at h2
  tauto

theorem evenChoices_snoc (ch : List (Nat × Int)) (l : Nat) (a : Int) :
    evenChoices (ch ++ [(l, a)]) = evenChoices ch ++ (if l % 2 = 0 then [a] else []) := by
  unfold evenChoices
  rw [List.filter_append, List.map_append, List.filter_singleton]
  by_cases h : l % 2 = 0
  · simp [h]
  · have : (l % 2 == 0) = false := by simpa using h
    simp [h, this]

theorem oddChoices_snoc (ch : List (Nat × Int)) (l : Nat) (a : Int) :
    oddChoices (ch ++ [(l, a)]) = oddChoices ch ++ (if l % 2 = 0 then [] else [a]) := by
  unfold oddChoices
  rw [List.filter_append, List.map_append, List.filter_singleton]
  by_cases h : l % 2 = 0
  · simp [h]
  · have : (l % 2 == 0) = false := by simpa using h
    simp [h, this]

theorem withinAngle_symm {d a b : Int} (h : Spec.WithinAngle d a b) : Spec.WithinAngle d b a := by
  obtain ⟨k, hk⟩ := h
  refine ⟨-k, ?_⟩
  have : b - a + 180 * -k = -(a - b + 180 * k) := by ring
  rw [this, abs_neg]
  exact hk

omit [AddMonoid V] in
/-- pruning for asymmetric laminates, disorientation only -/
theorem pruning_asym (P : Problem V) (hs : P.c.sym = false) (hd : P.c.damTol = false) (hcg : P.c.contig = false)
    (gb gt : Stack) (level n : Nat) (hl : level = n - 1 → level % 2 = 1 ∧ gb ≠ []) :
    ∃ r, pruning P.c.angles gb gt level n P.c P.rule P.hasMiddle = .ok r ∧
      ∀ a, (∃ ss, r = some ss ∧ a ∈ ss) ↔ a ∈ P.c.angles ∧ (P.c.diso = true →
        (level % 2 = 0 → ∀ b, gb.getLast? = some b → isDiso a b P.c.deltaAngle = true) ∧
        (level % 2 = 1 → ∀ b, gt.head? = some b → isDiso a b P.c.deltaAngle = true) ∧
        (level = n - 1 → ∀ b, gb.getLast? = some b → isDiso a b P.c.deltaAngle = true)) := by
  have e3 : pruning P.c.angles gb gt level n P.c P.rule P.hasMiddle =
      pruneRules P.c.angles gb gt level n P.c P.hasMiddle := by simp [pruning, hs, hd]
  rw [e3]
  have hlast : ∀ g : Stack, ∀ f : Int → Int → Bool, ∀ l : List Int, ∀ a,
      a ∈ (if g.length > 0 then l.filter (fun a => f a (nth g (g.length - 1))) else l) ↔
        a ∈ l ∧ ∀ b, g.getLast? = some b → f a b = true := by
    intro g f l a
    by_cases hg : g = []
    · subst hg; simp
    · have h0 : 0 < g.length := List.length_pos_iff.2 hg
      have e : g.getLast? = some (nth g (g.length - 1)) := by
        rw [List.getLast?_eq_getElem?, nth, List.getD_eq_getElem?_getD, List.getElem?_eq_getElem (by omega)]
        rfl
      rw [if_pos h0, List.mem_filter, e]
      simp
  have hfirst : ∀ g : Stack, ∀ f : Int → Int → Bool, ∀ l : List Int, ∀ a,
      a ∈ (if g.length > 0 then l.filter (fun a => f a (nth g 0)) else l) ↔
        a ∈ l ∧ ∀ b, g.head? = some b → f a b = true := by
    intro g f l a
    cases g with
    | nil => simp
    | cons x g => simp [nth]
  have key : ∃ l, pruneDiso P.c.angles gb gt level n P.c = .ok l ∧
      ∀ a, a ∈ l ↔ a ∈ P.c.angles ∧ (P.c.diso = true →
        (level % 2 = 0 → ∀ b, gb.getLast? = some b → isDiso a b P.c.deltaAngle = true) ∧
        (level % 2 = 1 → ∀ b, gt.head? = some b → isDiso a b P.c.deltaAngle = true) ∧
        (level = n - 1 → ∀ b, gb.getLast? = some b → isDiso a b P.c.deltaAngle = true)) := by
    unfold pruneDiso
    by_cases hdi : P.c.diso = true
    · rw [if_pos hdi]
      by_cases hev : level % 2 = 0
      · have hnl : level ≠ n - 1 := fun h => by have := (hl h).1; omega
        rw [if_pos (Or.inr hev)]
        dsimp only
        rw [if_neg (by rintro ⟨_, h⟩; exact hnl h)]
        refine ⟨_, rfl, fun a => ?_⟩
        rw [hlast gb (fun a b => isDiso a b P.c.deltaAngle)]
        have h1 : ¬ level % 2 = 1 := by omega
        constructor
        · rintro ⟨g1, g2⟩
          exact ⟨g1, fun _ => ⟨fun _ => g2, fun h => absurd h h1, fun h => absurd h hnl⟩⟩
        · rintro ⟨g1, g2⟩
          exact ⟨g1, (g2 hdi).1 hev⟩
      · have h1 : level % 2 = 1 := by omega
        rw [if_neg (by simp [hs, hev])]
        dsimp only
        by_cases hnl : level = n - 1
        · have hg := (hl hnl).2
          have h0 : ¬ gb.length = 0 := fun h => hg (List.length_eq_zero_iff.1 h)
          rw [if_pos hnl, if_neg (by rintro ⟨_, h⟩; exact h0 h)]
          refine ⟨_, rfl, fun a => ?_⟩
          have h2 := hlast gb (fun a b => isDiso a b P.c.deltaAngle) (if gt.length > 0 then P.c.angles.filter (fun a => isDiso a (nth gt 0) P.c.deltaAngle)
            else P.c.angles) a
          rw [if_pos (by omega)] at h2
          rw [h2, hfirst gt (fun a b => isDiso a b P.c.deltaAngle)]
          constructor
          · rintro ⟨⟨g1, g2⟩, g3⟩
            exact ⟨g1, fun _ => ⟨fun h => absurd h hev, fun _ => g2, fun _ => g3⟩⟩
          · rintro ⟨g1, g2⟩
            obtain ⟨_, g3, g4⟩ := g2 hdi
            exact ⟨⟨g1, g3 h1⟩, g4 hnl⟩
        · rw [if_neg hnl]
          refine ⟨_, rfl, fun a => ?_⟩
          rw [hfirst gt (fun a b => isDiso a b P.c.deltaAngle)]
          constructor
          · rintro ⟨g1, g2⟩
            exact ⟨g1, fun _ => ⟨fun h => absurd h hev, fun _ => g2, fun h => absurd h hnl⟩⟩
          · rintro ⟨g1, g2⟩
            exact ⟨g1, (g2 hdi).2.1 h1⟩
    · rw [if_neg hdi]
      exact ⟨_, rfl, fun a => by simp [hdi]⟩
  obtain ⟨l, h1, h2⟩ := key
  simp only [pruneRules, h1, bind, Except.bind]
  by_cases h0 : P.c.diso = true ∧ l.length = 0
  · rw [if_pos h0]
    refine ⟨none, rfl, fun a => ?_⟩
    rw [← h2, List.length_eq_zero_iff.1 h0.2]
    simp
  · rw [if_neg h0, if_neg (by simp [hcg])]
    refine ⟨some l, rfl, fun a => ?_⟩
    rw [← h2]
    simp

/-- The two halves of a laminate of `n` plies: as many plies below as above, allowed orientations,
disorientation satisfied inside each half and between the two outermost plies of the laminate.
(Nothing is said about the two plies in the middle of the laminate.) -/
structure AsymGuide (c : Cons) (n : Nat) (bot top : Stack) : Prop where
  botLen : bot.length = n / 2
  topLen : top.length = n / 2
  ang : ∀ x ∈ bot ++ top, x ∈ c.angles
  lower : c.diso = true → Spec.DisoOK c.deltaAngle bot
  upper : c.diso = true → Spec.DisoOK c.deltaAngle top
  outer : c.diso = true → ∀ a b, bot.head? = some a → top.getLast? = some b →
    Spec.WithinAngle c.deltaAngle a b

theorem countP_even_range (m : Nat) : (List.range (2 * m)).countP (fun l => l % 2 == 0) = m ∧
    (List.range (2 * m)).countP (fun l => ! (l % 2 == 0)) = m := by
  induction m with
  | zero => exact ⟨rfl, rfl⟩
  | succ m ih =>
    rw [show 2 * (m + 1) = 2 * m + 1 + 1 by ring, List.range_succ, List.range_succ]
    have h1 : (2 * m) % 2 = 0 := by omega
    have h2 : (2 * m + 1) % 2 = 1 := by omega
    simp only [List.countP_append, List.countP_singleton, ih.1, ih.2, h1, h2]
    simp

theorem evenChoices_length (l : List Nat) (d : List Int) (hd : d.length = l.length) :
    (evenChoices (l.zip d)).length = l.countP (fun l => l % 2 == 0) ∧
    (oddChoices (l.zip d)).length = l.countP (fun l => ! (l % 2 == 0)) := by
  unfold evenChoices oddChoices
  have e : (l.zip d).map Prod.fst = l := List.map_fst_zip (by omega)
  rw [List.length_map, List.length_map, ← List.countP_eq_length_filter, ← List.countP_eq_length_filter]
  constructor
  · conv_rhs => rw [← e, List.countP_map]
    rfl
  · conv_rhs => rw [← e, List.countP_map]
    rfl

theorem interleaveChoices (l : List Nat) : ∀ (B T : List Int), B.length = l.countP (fun l => l % 2 == 0) →
    T.length = l.countP (fun l => ! (l % 2 == 0)) →
    ∃ d : List Int, d.length = l.length ∧ evenChoices (l.zip d) = B ∧ oddChoices (l.zip d) = T := by
  induction l with
  | nil =>
    intro B T hB hT
    simp at hB hT
    exact ⟨[], rfl, hB.symm, hT.symm⟩
  | cons x l ih =>
    intro B T hB hT
    by_cases hx : (x % 2 == 0) = true
    · rw [List.countP_cons_of_pos (by simpa using hx)] at hB
      rw [List.countP_cons_of_neg (by simpa using hx)] at hT
      obtain ⟨b, B, rfl⟩ := List.exists_cons_of_length_eq_add_one hB
      obtain ⟨d, h1, h2, h3⟩ := ih B T (by simpa using hB) hT
      refine ⟨b :: d, by simp [h1], ?_, ?_⟩
      · rw [← h2]; simp [evenChoices, hx]
      · rw [← h3]; simp [oddChoices, hx]
    · rw [List.countP_cons_of_neg (by simpa using hx)] at hB
      rw [List.countP_cons_of_pos (by simpa using hx)] at hT
      obtain ⟨b, T, rfl⟩ := List.exists_cons_of_length_eq_add_one hT
      obtain ⟨d, h1, h2, h3⟩ := ih B T hB (by simpa using hT)
      refine ⟨b :: d, by simp [h1], ?_, ?_⟩
      · rw [← h2]; simp [evenChoices, hx]
      · rw [← h3]; simp [oddChoices, hx]

/-- the state of the search when a level is processed -/
theorem order_prefix (n : Nat) (hn : 2 ≤ n) (done : List Nat) (level : Nat) (d : List Int)
    (hd : d.length = done.length) (hev : n % 2 = 0)
    (hpre : (done ++ [level]) <+: calcPlyOrder false n) :
    (done = [] ∧ level = 0) ∨ (done = [0] ∧ level = n - 1) ∨
    (level ≠ n - 1 ∧ evenChoices (done.zip d) ≠ [] ∧ oddChoices (done.zip d) ≠ []) := by
  obtain ⟨rest, e⟩ := calcPlyOrder_start n hn
  have hnd : (calcPlyOrder false n).Nodup := (calcPlyOrder_asym_perm n).nodup_iff.2 List.nodup_range
  rw [e] at hpre hnd
  obtain ⟨suf, hsuf⟩ := hpre
  cases done with
  | nil =>
    simp only [List.nil_append, List.cons_append, List.cons.injEq] at hsuf
    exact Or.inl ⟨rfl, hsuf.1⟩
  | cons x done =>
    simp only [List.cons_append, List.cons.injEq] at hsuf
    obtain ⟨rfl, hsuf⟩ := hsuf
    cases done with
    | nil =>
      simp only [List.nil_append, List.cons_append, List.cons.injEq] at hsuf
      exact Or.inr (Or.inl ⟨rfl, hsuf.1⟩)
    | cons y done =>
      simp only [List.cons_append, List.cons.injEq] at hsuf
      obtain ⟨rfl, hsuf⟩ := hsuf
      right; right
      refine ⟨?_, ?_⟩
      · rintro rfl
        rw [← hsuf] at hnd
        simp at hnd
      · obtain ⟨a, d, rfl⟩ := List.exists_cons_of_length_eq_add_one (by simpa using hd)
        obtain ⟨b, d, rfl⟩ := List.exists_cons_of_length_eq_add_one (by simpa using hd)
        have h1 : ((n - 1) % 2 == 0) = false := by simp; omega
        simp [evenChoices, oddChoices, List.filter_cons, h1]

omit [AddMonoid V] in
theorem halvesOK_step (P : Problem V) (n : Nat) (hlen : P.indices.length = n) (hn : 2 ≤ n) (hev : n % 2 = 0)
    (hidx : P.indices = calcPlyOrder false n)
    (hs : P.c.sym = false) (hdt : P.c.damTol = false) (hcg : P.c.contig = false)
    (hr : AnglesInRange P.c.angles) (done : List Nat) (level : Nat) (d : List Int)
    (hd : d.length = done.length) (hpre : (done ++ [level]) <+: P.indices)
    (hok : HalvesOK P (done.zip d)) :
    ∃ r, pruning P.c.angles (evenChoices (done.zip d)) (oddChoices (done.zip d)).reverse level n P.c
        P.rule P.hasMiddle = .ok r ∧
      ∀ a, (∃ ss, r = some ss ∧ a ∈ ss) ↔ HalvesOK P (done.zip d ++ [(level, a)]) := by
  rw [hidx] at hpre
  have hcase := order_prefix n hn done level d hd hev hpre
  generalize hch : done.zip d = ch at *
  have hE : AnglesInRange (evenChoices ch) := by
    intro x hx
    obtain ⟨p, hp, rfl⟩ := List.mem_map.1 hx
    exact hr _ (hok.ang p (List.mem_filter.1 hp).1)
  have hO : AnglesInRange (oddChoices ch) := by
    intro x hx
    obtain ⟨p, hp, rfl⟩ := List.mem_map.1 hx
    exact hr _ (hok.ang p (List.mem_filter.1 hp).1)
  obtain ⟨r, h1, h2⟩ := pruning_asym P hs hdt hcg (evenChoices ch) (oddChoices ch).reverse level n (by
    intro hl
    refine ⟨by omega, ?_⟩
    rcases hcase with ⟨_, h⟩ | ⟨h, _⟩ | ⟨h, _⟩
    · omega
    · subst h
      obtain ⟨a, d, rfl⟩ := List.exists_cons_of_length_eq_add_one (by simpa using hd)
      rw [← hch]
      simp [evenChoices]
    · exact absurd hl h)
  refine ⟨r, h1, fun a => ?_⟩
  rw [h2]
  have hiff : ∀ b, -90 ≤ b ∧ b ≤ 90 → a ∈ P.c.angles →
      (isDiso a b P.c.deltaAngle = true ↔ Spec.WithinAngle P.c.deltaAngle b a) := by
    intro b hb ha
    rw [isDiso_iff a b _ (hr a ha) hb]
    exact ⟨withinAngle_symm, withinAngle_symm⟩
  rw [List.head?_reverse]
  constructor
  · rintro ⟨ha, hrules⟩
    refine ⟨?_, fun hdi => ?_⟩
    · intro p hp
      rcases List.mem_append.1 hp with hp | hp
      · exact hok.ang p hp
      · rw [List.mem_singleton] at hp
        rw [hp]; exact ha
    · obtain ⟨g1, g2, g3⟩ := hrules hdi
      obtain ⟨o1, o2, o3⟩ := hok.rules hdi
      rw [evenChoices_snoc, oddChoices_snoc]
      by_cases hl : level % 2 = 0
      · rw [if_pos hl, if_pos hl, List.append_nil]
        refine ⟨(disoOK_snoc_iff _ _ _).2 ⟨o1, fun x hx => ?_⟩, o2, ?_⟩
        · exact (hiff x (hE x (List.mem_of_getLast? hx)) ha).1 (g1 hl x hx)
        · intro x y hx hy
          cases hE' : evenChoices ch with
          | nil =>
            rcases hcase with ⟨h, _⟩ | ⟨h, h'⟩ | ⟨_, h, _⟩
            · subst h
              rw [← hch] at hy
              simp [oddChoices] at hy
            · omega
            · exact absurd hE' h
          | cons z l =>
            rw [hE'] at hx
            exact o3 x y (by rw [hE']; exact hx) hy
      · have hl1 : level % 2 = 1 := by omega
        rw [if_neg hl, if_neg hl, List.append_nil]
        refine ⟨o1, (disoOK_snoc_iff _ _ _).2 ⟨o2, fun x hx => ?_⟩, ?_⟩
        · exact (hiff x (hO x (List.mem_of_getLast? hx)) ha).1 (g2 hl1 x hx)
        · intro x y hx hy
          cases hO' : oddChoices ch with
          | nil =>
            rw [hO'] at hy
            simp at hy
            subst hy
            rcases hcase with ⟨_, h⟩ | ⟨h, h'⟩ | ⟨_, _, h⟩
            · omega
            · subst h
              obtain ⟨b, d, rfl⟩ := List.exists_cons_of_length_eq_add_one (by simpa using hd)
              obtain rfl : d = [] := by simpa using hd
              have e : evenChoices ch = [b] := by rw [← hch]; rfl
              rw [e] at hx g3 hE
              simp at hx
              subst hx
              exact (hiff _ (hE _ (by simp)) ha).1 (g3 h' _ rfl)
            · exact absurd hO' h
          | cons z l =>
            rw [hO'] at hy
            exact o3 x y hx (by rw [hO']; exact hy)
  · intro h
    have ha : a ∈ P.c.angles := h.ang (level, a) (by simp)
    refine ⟨ha, fun hdi => ?_⟩
    obtain ⟨o1, o2, o3⟩ := h.rules hdi
    rw [evenChoices_snoc, oddChoices_snoc] at o3
    rw [evenChoices_snoc] at o1
    rw [oddChoices_snoc] at o2
    refine ⟨fun hl b hb => ?_, fun hl b hb => ?_, fun hl b hb => ?_⟩
    · rw [if_pos hl] at o1
      exact (hiff b (hE b (List.mem_of_getLast? hb)) ha).2 (((disoOK_snoc_iff _ _ _).1 o1).2 b hb)
    · rw [if_neg (by omega)] at o2
      exact (hiff b (hO b (List.mem_of_getLast? hb)) ha).2 (((disoOK_snoc_iff _ _ _).1 o2).2 b hb)
    · rcases hcase with ⟨_, h⟩ | ⟨h, h'⟩ | ⟨h, _⟩
      · omega
      · subst h
        obtain ⟨x, d, rfl⟩ := List.exists_cons_of_length_eq_add_one (by simpa using hd)
        obtain rfl : d = [] := by simpa using hd
        have e : evenChoices ch = [x] := by rw [← hch]; rfl
        have e2 : oddChoices ch = [] := by rw [← hch]; rfl
        rw [e] at hb hE
        simp at hb
        subst hb
        rw [e, e2, if_neg (by omega), if_neg (by omega)] at o3
        exact (hiff _ (hE _ (by simp)) ha).2 (o3 _ a rfl rfl)
      · exact absurd hl h

omit [AddMonoid V] in
theorem halvesOK_dropLast (P : Problem V) (ch : List (Nat × Int)) (l : Nat) (a : Int)
    (h : HalvesOK P (ch ++ [(l, a)])) : HalvesOK P ch := by
  refine ⟨fun p hp => h.ang p (by simp [hp]), fun hd => ?_⟩
  obtain ⟨h1, h2, h3⟩ := h.rules hd
  rw [evenChoices_snoc, oddChoices_snoc] at h3
  rw [evenChoices_snoc] at h1
  rw [oddChoices_snoc] at h2
  refine ⟨disoOK_infix h1 ⟨[], _, by simp; rfl⟩, disoOK_infix h2 ⟨[], _, by simp; rfl⟩, ?_⟩
  intro x y hx hy
  refine h3 x y ?_ ?_
  · rw [List.head?_append, hx]; rfl
  · rw [List.head?_append, hy]; rfl

/-- C83: for asymmetric laminates with an even number of plies and without contiguity and damage
tolerance, the designs of the beam search have in the guide panel as many plies below as above the
middle, satisfy disorientation in the lower half, in the upper half and between the two outermost plies;
when the limits on the number of nodes are not reached all such laminates are found. -/
theorem C83_disorientation_search (P : Problem V) (t : Tabs V) (n : Nat) (hn : 2 ≤ n) (hev : n % 2 = 0)
    (hidx : P.indices = calcPlyOrder false n) (hobj : ∀ o q, P.objMp o = .ok q → -6666 < q)
    (hs : P.c.sym = false) (hdt : P.c.damTol = false) (hcg : P.c.contig = false)
    (hthick : P.thick < P.nPanels)
    (hguide : ∀ l, l < n → 0 ≤ (P.pdl.getD P.thick []).getD l (-1))
    (hr : AnglesInRange P.c.angles) (h : beamSearch P = .ok t) :
    ∃ ns : List (Node V), t = tabsOf ns ∧
      (∀ x ∈ ns, ∃ bot top, x.bot[P.thick]? = some bot ∧ x.top[P.thick]? = some top ∧
        AsymGuide P.c n bot top ∧ assembleAsym bot top n = .ok (bot ++ top)) ∧
      (max P.c.angles.length 2 ≤ min P.localLimit P.localLimitFinal →
       (max P.c.angles.length 2) ^ n ≤ min P.globalLimit P.globalLimitFinal →
        ∀ bot top, AsymGuide P.c n bot top → ∃ x ∈ ns, x.bot[P.thick]? = some bot ∧
          x.top[P.thick]? = some top) := by
  have hperm := calcPlyOrder_asym_perm n
  have hlen : P.indices.length = n := by rw [hidx, hperm.length_eq]; simp
  have hmem : ∀ l ∈ P.indices, l < n := by
    intro l hl
    rw [hidx] at hl
    exact List.mem_range.1 (hperm.mem_iff.1 hl)
  have hplies : ∀ (done : List Nat) (d : List Int), done <+: P.indices → ∀ q : Nat × Int → Bool,
      Spec.panelPlies (P.pdl.getD P.thick []) ((done.zip d).filter q) = ((done.zip d).filter q).map Prod.snd := by
    intro done d hpre q
    unfold Spec.panelPlies
    rw [List.filter_eq_self.2]
    intro p hp
    have h1 := List.of_mem_zip (a := p.1) (b := p.2) (List.mem_filter.1 hp).1
    exact decide_eq_true (hguide _ (hmem _ (hpre.subset h1.1)))
  have hstacks : ∀ (x : Node V) (done : List Nat) (d : List Int), done <+: P.indices →
      Describes P (done.zip d) x → x.bot[P.thick]? = some (evenChoices (done.zip d)) ∧
        x.top[P.thick]? = some (oddChoices (done.zip d)).reverse := by
    intro x done d hpre hx
    rw [hx.bot, hx.top]
    simp only [List.getElem?_map, List.getElem?_range hthick, Option.map_some]
    rw [hplies done d hpre, hplies done d hpre]
    simp only [hs, Bool.false_or]
    exact ⟨rfl, rfl⟩
  rw [beamSearch, initTabs_eq] at h
  obtain ⟨ns, rfl, h1, h2, h4⟩ := searchLevels_inv P hobj
    (fun done ns => (∀ x ∈ ns, ∃ d : List Int, d.length = done.length ∧ Describes P (done.zip d) x ∧
        HalvesOK P (done.zip d)) ∧ ns.length ≤ nChoices P ^ done.length ∧
      (nChoices P ≤ min P.localLimitFinal P.localLimit →
       (nChoices P) ^ n ≤ min P.globalLimitFinal P.globalLimit →
        ∀ d : List Int, d.length = done.length → HalvesOK P (done.zip d) → ∃ x ∈ ns, Describes P (done.zip d) x))
    (by
      intro done level ns ns' hpre hI c1 c2 _ c4
      obtain ⟨i1, i2, i3⟩ := hI
      have hpre0 : done <+: P.indices := (List.prefix_append _ _).trans hpre
      have hklt : done.length < n := by
        have := hpre.length_le
        rw [hlen] at this
        simp at this
        omega
      refine ⟨fun x hx => ?_, ?_, fun l1 l2 d hd hok => ?_⟩
      · obtain ⟨m, hm, a, ha⟩ := c1 x hx
        obtain ⟨d, hd, hdes, hok⟩ := i1 m hm
        refine ⟨d ++ [a], by simp [hd], ?_⟩
        rw [List.zip_append hd.symm]
        refine ⟨describes_child P _ m x level a hdes ha, ?_⟩
        obtain ⟨gb, gt, ss, g1, g2, g3, g4⟩ := ha.kept
        obtain ⟨e1, e2⟩ := hstacks m done d hpre0 hdes
        rw [e1] at g1; cases g1
        rw [e2] at g2; cases g2
        obtain ⟨r, hr1, hr2⟩ := halvesOK_step P n hlen hn hev hidx hs hdt hcg hr done level d hd hpre hok
        rw [hlen, hr1, Except.ok.injEq] at g3
        exact (hr2 a).1 ⟨ss, g3, g4⟩
      · rw [List.length_append, List.length_singleton, pow_succ]
        exact c2.trans (Nat.mul_le_mul_right _ i2)
      · have hne' : d ≠ [] := by rintro rfl; simp at hd
        obtain ⟨b, a, rfl⟩ : ∃ b a, d = b ++ [a] := ⟨d.dropLast, d.getLast hne', (List.dropLast_append_getLast hne').symm⟩
        have hbl : b.length = done.length := by simpa using hd
        rw [List.zip_append hbl.symm] at hok ⊢
        have hbok := halvesOK_dropLast P (done.zip b) level a hok
        obtain ⟨m, hm, hdes⟩ := i3 l1 l2 b hbl hbok
        have hcnt : ns.length * nChoices P ≤ min P.globalLimitFinal P.globalLimit := by
          refine le_trans (Nat.mul_le_mul_right _ i2) (le_trans ?_ l2)
          rw [← pow_succ]
          exact Nat.pow_le_pow_right (by simp) (by omega)
        have hall := c4 l1 hcnt m hm
        obtain ⟨e1, e2⟩ := hstacks m done b hpre0 hdes
        obtain ⟨r, hr1, hr2⟩ := halvesOK_step P n hlen hn hev hidx hs hdt hcg hr done level b hbl hpre hbok
        obtain ⟨ss, rfl, hass⟩ := (hr2 a).2 hok
        obtain ⟨x, hx, hxc⟩ := hall _ _ ss e1 e2 (by rw [hlen]; exact hr1) a hass
        exact ⟨x, hx, describes_child P _ m x level a hdes hxc⟩)
    P.indices [] [rootNode P] t (by simp)
    ⟨by
      intro x hx
      rw [List.mem_singleton] at hx
      subst hx
      refine ⟨[], rfl, describes_root P, ⟨by simp, fun _ => ⟨?_, ?_, ?_⟩⟩⟩
      · intro i a b h; simp [evenChoices] at h
      · intro i a b h; simp [oddChoices] at h
      · intro a b h; simp [evenChoices] at h, by simp, by
      intro _ _ d hd _
      obtain rfl : d = [] := List.length_eq_zero_iff.1 hd
      exact ⟨rootNode P, by simp, describes_root P⟩⟩ h
  obtain ⟨m, rfl⟩ : ∃ m, n = 2 * m := ⟨n / 2, by omega⟩
  have hcount : P.indices.countP (fun l => l % 2 == 0) = m ∧ P.indices.countP (fun l => ! (l % 2 == 0)) = m := by
    rw [hidx, hperm.countP_eq, hperm.countP_eq]
    exact countP_even_range m
  refine ⟨ns, rfl, fun x hx => ?_, fun l1 l2 bot top hg => ?_⟩
  · obtain ⟨d, e1, e2, e3⟩ := h1 x hx
    obtain ⟨s1, s2⟩ := hstacks x _ d (List.prefix_refl _) e2
    obtain ⟨k1, k2⟩ := evenChoices_length P.indices d e1
    rw [hcount.1] at k1
    rw [hcount.2] at k2
    refine ⟨_, _, s1, s2, ⟨by rw [k1]; omega, by rw [List.length_reverse, k2]; omega, ?_, ?_, ?_, ?_⟩, ?_⟩
    · intro y hy
      rcases List.mem_append.1 hy with hy | hy
      · obtain ⟨p, hp, rfl⟩ := List.mem_map.1 hy
        exact e3.ang p (List.mem_filter.1 hp).1
      · obtain ⟨p, hp, rfl⟩ := List.mem_map.1 (List.mem_reverse.1 hy)
        exact e3.ang p (List.mem_filter.1 hp).1
    · exact fun hd => (e3.rules hd).1
    · exact fun hd => disoOK_reverse (e3.rules hd).2.1
    · intro hd a b ha hb
      exact (e3.rules hd).2.2 a b ha (by rwa [List.getLast?_reverse] at hb)
    · unfold assembleAsym
      rw [if_neg (by rw [List.length_append, List.length_reverse, k1, k2]; omega)]
  · obtain ⟨d, k1, k2, k3⟩ := interleaveChoices P.indices bot top.reverse (by rw [hcount.1, hg.botLen]; omega)
      (by rw [hcount.2, List.length_reverse, hg.topLen]; omega)
    obtain ⟨x, hx, hdes⟩ := h4 (by rw [min_comm]; exact l1) (by rw [min_comm]; exact l2) d k1 (by
      refine ⟨fun p hp => ?_, fun hd => ⟨?_, ?_, ?_⟩⟩
      · by_cases hq : (p.1 % 2 == 0) = true
        · refine hg.ang _ (List.mem_append_left _ ?_)
          rw [← k2]
          exact List.mem_map.2 ⟨p, List.mem_filter.2 ⟨hp, hq⟩, rfl⟩
        · refine hg.ang _ (List.mem_append_right _ ?_)
          rw [← List.mem_reverse, ← k3]
          exact List.mem_map.2 ⟨p, List.mem_filter.2 ⟨hp, by simpa using hq⟩, rfl⟩
      · rw [k2]; exact hg.lower hd
      · rw [k3]; exact disoOK_reverse (hg.upper hd)
      · intro a b ha hb
        rw [k2] at ha
        rw [k3, List.head?_reverse] at hb
        exact hg.outer hd a b ha hb)
    obtain ⟨s1, s2⟩ := hstacks x _ d (List.prefix_refl _) hdes
    rw [k2] at s1
    rw [k3, List.reverse_reverse] at s2
    exact ⟨x, hx, s1, s2⟩

/-- C83, violation: with a disorientation limit between 45 and 90 degrees the laminate
`0, 45, ..., 45, 90` satisfies the rule but is never found, whatever the limits on the number of nodes. -/
theorem C83_feasible_discarded_violation (P : Problem V) (t : Tabs V) (n : Nat) (hn : 4 ≤ n) (hev : n % 2 = 0)
    (hidx : P.indices = calcPlyOrder false n) (hobj : ∀ o q, P.objMp o = .ok q → -6666 < q)
    (hs : P.c.sym = false) (hdt : P.c.damTol = false) (hcg : P.c.contig = false)
    (hthick : P.thick < P.nPanels)
    (hguide : ∀ l, l < n → 0 ≤ (P.pdl.getD P.thick []).getD l (-1))
    (hr : AnglesInRange P.c.angles) (hdi : P.c.diso = true)
    (hdel : 45 ≤ P.c.deltaAngle ∧ P.c.deltaAngle < 90) (h : beamSearch P = .ok t) :
    Spec.DisoOK P.c.deltaAngle (0 :: List.replicate (n - 2) 45 ++ [90]) ∧
    ∀ (i : Nat) (bots tops : List Stack) (bot top : Stack), t.bots[i]? = some bots → t.tops[i]? = some tops →
      bots[P.thick]? = some bot → tops[P.thick]? = some top →
      bot ++ top ≠ 0 :: List.replicate (n - 2) 45 ++ [90] := by
  constructor
  · intro i a b ha hb
    have hget : ∀ (i : Nat) (a : Int), (0 :: List.replicate (n - 2) 45 ++ [90])[i]? = some a →
        (i = 0 ∧ a = 0) ∨ (a = 45) ∨ (i = n - 1 ∧ a = 90) := by
      intro i a ha
      rcases i with _ | i
      · simp at ha
        exact Or.inl ⟨rfl, ha.symm⟩
      · rw [List.cons_append, List.getElem?_cons_succ] at ha
        by_cases hi : i < n - 2
        · rw [List.getElem?_append_left (by simpa using hi)] at ha
          simp [hi] at ha
          exact Or.inr (Or.inl ha.symm)
        · rw [List.getElem?_append_right (by simpa using hi)] at ha
          obtain ⟨h1, h2⟩ := List.getElem?_eq_some_iff.1 ha
          simp at h1 h2
          exact Or.inr (Or.inr ⟨by omega, h2.symm⟩)
    have h1 := hget _ _ ha
    have h2 := hget _ _ hb
    refine ⟨0, ?_⟩
    rw [abs_le]
    omega
  · intro i bots tops bot top h1 h2 h3 h4 he
    obtain ⟨ns, rfl, c1, _⟩ := C83_disorientation_search P t n (by omega) hev hidx hobj hs hdt hcg hthick
      hguide hr h
    simp only [tabsOf, List.getElem?_map, Option.map_eq_some_iff] at h1 h2
    obtain ⟨x, hx, rfl⟩ := h1
    obtain ⟨y, hy, rfl⟩ := h2
    rw [hx] at hy
    cases hy
    obtain ⟨b, u, e1, e2, hg, _⟩ := c1 x (List.mem_of_getElem? hx)
    rw [h3] at e1; cases e1
    rw [h4] at e2; cases e2
    have hb : bot.head? = some 0 := by
      cases bot with
      | nil => have := hg.botLen; simp at this; omega
      | cons z bot =>
        simp only [List.cons_append, List.cons.injEq] at he
        simp [he.1]
    have ht : top.getLast? = some 90 := by
      have hne : top ≠ [] := by rintro rfl; have := hg.topLen; simp at this; omega
      have := congrArg List.getLast? he
      rw [List.getLast?_append_of_ne_nil _ hne] at this
      rw [this, List.getLast?_append]
      rfl
    obtain ⟨k, hk⟩ := hg.outer hdi 0 90 hb ht
    rw [abs_le] at hk
    omega

/-- C83, violation: the two plies in the middle of the laminate are never tested.  When the limits on the
number of nodes are not reached, the designs include one in which they are at 0 and 90 although the
disorientation limit is below 90 degrees. -/
theorem C83_middle_junction_violation (P : Problem V) (t : Tabs V) (n : Nat) (hn : 4 ≤ n) (hev : n % 2 = 0)
    (hidx : P.indices = calcPlyOrder false n) (hobj : ∀ o q, P.objMp o = .ok q → -6666 < q)
    (hs : P.c.sym = false) (hdt : P.c.damTol = false) (hcg : P.c.contig = false)
    (hthick : P.thick < P.nPanels)
    (hguide : ∀ l, l < n → 0 ≤ (P.pdl.getD P.thick []).getD l (-1))
    (hr : AnglesInRange P.c.angles) (hdi : P.c.diso = true)
    (hang : (0 : Int) ∈ P.c.angles ∧ (45 : Int) ∈ P.c.angles ∧ (90 : Int) ∈ P.c.angles)
    (hdel : 45 ≤ P.c.deltaAngle ∧ P.c.deltaAngle < 90)
    (hl1 : max P.c.angles.length 2 ≤ min P.localLimit P.localLimitFinal)
    (hl2 : (max P.c.angles.length 2) ^ n ≤ min P.globalLimit P.globalLimitFinal)
    (h : beamSearch P = .ok t) :
    ∃ (i : Nat) (bots tops : List Stack) (bot top s : Stack), t.bots[i]? = some bots ∧ t.tops[i]? = some tops ∧
      bots[P.thick]? = some bot ∧ tops[P.thick]? = some top ∧ assembleAsym bot top n = .ok s ∧
      ¬ Spec.DisoOK P.c.deltaAngle s := by
  obtain ⟨ns, rfl, c1, c2⟩ := C83_disorientation_search P t n (by omega) hev hidx hobj hs hdt hcg hthick
      hguide hr h
  have hrep : ∀ k, Spec.DisoOK P.c.deltaAngle (List.replicate k 45) := by
    intro k i a b ha hb
    have ea := List.mem_replicate.1 (List.mem_of_getElem? ha)
    have eb := List.mem_replicate.1 (List.mem_of_getElem? hb)
    refine ⟨0, ?_⟩
    rw [ea.2, eb.2]
    simp
    omega
  have hw : Spec.WithinAngle P.c.deltaAngle 45 0 := ⟨0, by rw [abs_le]; omega⟩
  have hw2 : Spec.WithinAngle P.c.deltaAngle 45 90 := ⟨0, by rw [abs_le]; omega⟩
  have hrepLast : ∀ k x, (List.replicate k (45 : Int)).getLast? = some x → x = 45 := fun k x hx =>
    (List.mem_replicate.1 (List.mem_of_getLast? hx)).2
  have hsn : ∀ z, Spec.WithinAngle P.c.deltaAngle 45 z →
      Spec.DisoOK P.c.deltaAngle (List.replicate (n / 2 - 1) 45 ++ [z]) := by
    intro z hz
    rw [disoOK_snoc_iff]
    exact ⟨hrep _, fun x hx => by rw [hrepLast _ x hx]; exact hz⟩
  have hg : AsymGuide P.c n (List.replicate (n / 2 - 1) 45 ++ [0]) (90 :: List.replicate (n / 2 - 1) 45) := by
    refine ⟨by simp; omega, by simp; omega, ?_, fun _ => hsn 0 hw, fun _ => ?_, fun _ a b ha hb => ?_⟩
    · intro x hx
      simp only [List.mem_append, List.mem_replicate, List.mem_cons, List.not_mem_nil, or_false] at hx
      rcases hx with (⟨_, rfl⟩ | rfl) | rfl | ⟨_, rfl⟩
      · exact hang.2.1
      · exact hang.1
      · exact hang.2.2
      · exact hang.2.1
    · have := disoOK_reverse (hsn 90 hw2)
      simpa using this
    · have ha' : a = 45 := by
        rw [show n / 2 - 1 = (n / 2 - 2) + 1 by omega, List.replicate_succ] at ha
        simpa using ha.symm
      have hb' : b = 45 := by
        rw [List.getLast?_cons_of_ne_nil (by simp; omega)] at hb
        exact hrepLast _ b hb
      rw [ha', hb']
      exact ⟨0, by simp; omega⟩
  obtain ⟨x, hx, e1, e2⟩ := c2 hl1 hl2 _ _ hg
  obtain ⟨i, hi, hxi⟩ := List.getElem_of_mem hx
  have hxi' : ns[i]? = some x := by rw [List.getElem?_eq_getElem hi, hxi]
  obtain ⟨b, u, f1, f2, _, f3⟩ := c1 x hx
  rw [e1] at f1; cases f1
  rw [e2] at f2; cases f2
  refine ⟨i, x.bot, x.top, _, _, _, by simp [tabsOf, hxi'], by simp [tabsOf, hxi'], e1, e2, f3, ?_⟩
  intro hd
  rw [disoOK_append] at hd
  obtain ⟨k, hk⟩ := hd.2.2 0 90 ⟨_, rfl⟩ ⟨_, rfl⟩
  rw [abs_le] at hk
  omega

/-! ### damage tolerance -/

/-- C83: for asymmetric laminates with an even number of plies under damage tolerance, both outermost
plies of the guide panel are at +45 or -45 in all designs. -/
theorem C83_damage_tolerance_even (P : Problem V) (t : Tabs V) (n : Nat) (hn : 2 ≤ n) (hev : n % 2 = 0)
    (hidx : P.indices = calcPlyOrder false n) (hobj : ∀ o q, P.objMp o = .ok q → -6666 < q)
    (hs : P.c.sym = false) (hdt : P.c.damTol = true) (hthick : P.thick < P.nPanels)
    (hguide : ∀ l, l < n → 0 ≤ (P.pdl.getD P.thick []).getD l (-1)) (h : beamSearch P = .ok t)
    (i : Nat) (bots tops : List Stack) (h1 : t.bots[i]? = some bots) (h2 : t.tops[i]? = some tops) :
    ∃ bot top s, bots[P.thick]? = some bot ∧ tops[P.thick]? = some top ∧
      assembleAsym bot top n = .ok s ∧ Spec.DamTol1 s := by
  have hperm := calcPlyOrder_asym_perm n
  have hlen : P.indices.length = n := by rw [hidx, hperm.length_eq]; simp
  have hmem : ∀ l ∈ P.indices, l < n := by
    intro l hl
    rw [hidx] at hl
    exact List.mem_range.1 (hperm.mem_iff.1 hl)
  rw [beamSearch, initTabs_eq] at h
  obtain ⟨rest, e⟩ := calcPlyOrder_start n hn
  have hmy : ∀ (l : List Int) ss, noneIfEmpty (l.filter inMySet) = some ss → ∀ a ∈ ss, Spec.PM45 a := by
    intro l ss hl a ha
    unfold noneIfEmpty at hl
    split at hl
    · cases hl
    · cases hl
      have := (List.mem_filter.1 ha).2
      simp only [inMySet, Bool.or_eq_true, beq_iff_eq] at this
      exact this
  obtain ⟨ns, rfl, c1⟩ := searchLevels_inv P hobj
    (fun done ns => ∀ x ∈ ns, ∃ d : List Int, d.length = done.length ∧ Describes P (done.zip d) x ∧
      (∀ a, d[0]? = some a → Spec.PM45 a) ∧ (∀ a, d[1]? = some a → Spec.PM45 a))
    (by
      intro done level ns ns' hpre hI cc _ _ _ x hx
      obtain ⟨m, hm, a, ha⟩ := cc x hx
      obtain ⟨d, hd, hdes, k0, k1⟩ := hI m hm
      refine ⟨d ++ [a], by simp [hd], ?_, ?_⟩
      · rw [List.zip_append hd.symm]
        exact describes_child P _ m x level a hdes ha
      · obtain ⟨gb, gt, ss, g1, g2, g3, g4⟩ := ha.kept
        rw [hlen] at g3
        rw [hidx] at hpre
        rcases order_prefix n hn done level d hd hev hpre with ⟨hdone, hlev⟩ | ⟨hdone, hlev⟩ | ⟨_, q1, q2⟩
        · subst hdone
          obtain rfl : d = [] := List.length_eq_zero_iff.1 hd
          have hp : pruning P.c.angles gb gt level n P.c P.rule P.hasMiddle =
              .ok (noneIfEmpty (P.c.angles.filter inMySet)) := by
            simp [pruning, hs, hdt, hlev]
          rw [hp, Except.ok.injEq] at g3
          have := hmy _ _ g3 a g4
          exact ⟨fun b hb => by simp at hb; rwa [← hb], fun b hb => by simp at hb⟩
        · subst hdone
          obtain ⟨z, d, rfl⟩ := List.exists_cons_of_length_eq_add_one (by simpa using hd)
          obtain rfl : d = [] := by simpa using hd
          have hp : pruning P.c.angles gb gt level n P.c P.rule P.hasMiddle =
              .ok (noneIfEmpty (P.c.angles.filter inMySet)) := by
            simp [pruning, hs, hdt, hlev]
          rw [hp, Except.ok.injEq] at g3
          have := hmy _ _ g3 a g4
          exact ⟨k0, fun b hb => by simp at hb; rwa [← hb]⟩
        · have h2 : 2 ≤ d.length := by
            by_contra hlt
            obtain ⟨x1, t1⟩ := List.exists_mem_of_ne_nil _ q1
            obtain ⟨x2, t2⟩ := List.exists_mem_of_ne_nil _ q2
            obtain ⟨p1, w1, _⟩ := List.mem_map.1 t1
            obtain ⟨p2, w2, _⟩ := List.mem_map.1 t2
            obtain ⟨w1, v1⟩ := List.mem_filter.1 w1
            obtain ⟨w2, v2⟩ := List.mem_filter.1 w2
            have hz : (done.zip d).length ≤ 1 := by simp; omega
            match hz0 : done.zip d, hz with
            | [], _ => rw [hz0] at w1; cases w1
            | [p], _ =>
              rw [hz0, List.mem_singleton] at w1 w2
              rw [w1] at v1
              rw [w2] at v2
              simp only [Bool.not_eq_true'] at v2
              rw [v1] at v2
              cases v2
          exact ⟨fun b hb => k0 b (by rwa [List.getElem?_append_left (by omega)] at hb),
            fun b hb => k1 b (by rwa [List.getElem?_append_left (by omega)] at hb)⟩)
    P.indices [] [rootNode P] t (by simp)
    (by
      intro x hx
      rw [List.mem_singleton] at hx
      subst hx
      exact ⟨[], rfl, describes_root P, by simp, by simp⟩) h
  simp only [tabsOf, List.getElem?_map, Option.map_eq_some_iff] at h1 h2
  obtain ⟨x, hx, rfl⟩ := h1
  obtain ⟨y, hy, rfl⟩ := h2
  rw [hx] at hy
  cases hy
  obtain ⟨d, hd, hdes, k0, k1⟩ := c1 x (List.mem_of_getElem? hx)
  have hplies : ∀ q : Nat × Int → Bool,
      Spec.panelPlies (P.pdl.getD P.thick []) ((P.indices.zip d).filter q) = ((P.indices.zip d).filter q).map Prod.snd := by
    intro q
    unfold Spec.panelPlies
    rw [List.filter_eq_self.2]
    intro p hp
    have h1 := List.of_mem_zip (a := p.1) (b := p.2) (List.mem_filter.1 hp).1
    exact decide_eq_true (hguide _ (hmem _ h1.1))
  have hst : x.bot[P.thick]? = some (evenChoices (P.indices.zip d)) ∧
        x.top[P.thick]? = some (oddChoices (P.indices.zip d)).reverse := by
    rw [hdes.bot, hdes.top]
    simp only [List.getElem?_map, List.getElem?_range hthick, Option.map_some]
    rw [hplies, hplies]
    simp only [hs, Bool.false_or]
    exact ⟨rfl, rfl⟩
  obtain ⟨m, rfl⟩ : ∃ m, n = 2 * m := ⟨n / 2, by omega⟩
  obtain ⟨l1, l2⟩ := evenChoices_length P.indices d hd
  rw [hidx, hperm.countP_eq, (countP_even_range m).1, ← hidx] at l1
  rw [hidx, hperm.countP_eq, (countP_even_range m).2, ← hidx] at l2
  have hie : P.indices = 0 :: (2 * m - 1) :: rest := by rw [hidx, e]
  refine ⟨_, _, evenChoices (P.indices.zip d) ++ (oddChoices (P.indices.zip d)).reverse, hst.1, hst.2, ?_, ?_⟩
  · unfold assembleAsym
    rw [if_neg (by rw [List.length_append, List.length_reverse, l1, l2]; omega)]
  · rw [hie] at hd ⊢
    obtain ⟨a, d, rfl⟩ := List.exists_cons_of_length_eq_add_one (by simpa using hd)
    obtain ⟨b, d, rfl⟩ := List.exists_cons_of_length_eq_add_one (by simpa using hd)
    have q : ((2 * m - 1) % 2 == 0) = false := by simp; omega
    have ee : evenChoices ((0 :: (2 * m - 1) :: rest).zip (a :: b :: d)) =
        a :: evenChoices (rest.zip d) := by simp [evenChoices, List.filter_cons, q]
    have eo : oddChoices ((0 :: (2 * m - 1) :: rest).zip (a :: b :: d)) =
        b :: oddChoices (rest.zip d) := by simp [oddChoices, List.filter_cons, q]
    rw [ee, eo]
    have ha := k0 a rfl
    have hb := k1 b rfl
    exact ⟨⟨a, ha, ⟨_, rfl⟩⟩, ⟨b, hb, ⟨a :: evenChoices (rest.zip d) ++ (oddChoices (rest.zip d)).reverse, by simp⟩⟩⟩

/-! ### concrete searches -/

/-- A single asymmetric panel of `n` plies; the objective counts the plies that differ from a wished lay-up
(`w` at the place of the search). -/
def asymProblem (rule n k : Nat) (w : List Int) (c : Cons) : Problem ℚ where
  c := c
  rule := rule
  nPanels := 1
  indices := calcPlyOrder false n
  pdl := [(List.range n).map Int.ofNat]
  thick := 0
  hasMiddle := false
  contrib := fun _ a l => if a = w.getD l 0 then 0 else 1
  objPanels := fun _ l => .ok l
  objMp := fun l => .ok l.sum
  localLimit := k
  localLimitFinal := k
  globalLimit := k
  globalLimitFinal := k

/-- The search of `asymProblem` returns a design whose guide panel is assembled to `s`. -/
def asymReturns (rule n k : Nat) (w : List Int) (s : Stack) (c : Cons) : Prop :=
  ∃ (t : Tabs ℚ) (i : Nat) (bots tops : List Stack) (bot top : Stack), beamSearch (asymProblem rule n k w c) = .ok t ∧
    t.bots[i]? = some bots ∧ t.tops[i]? = some tops ∧ bots[0]? = some bot ∧ tops[0]? = some top ∧
    assembleAsym bot top n = .ok s

/-- test for `asymReturns` -/
def asymTest (rule n k : Nat) (w : List Int) (s : Stack) (c : Cons) : Bool :=
  match beamSearch (asymProblem rule n k w c) with
  | .ok t => (List.range t.bots.length).any fun i =>
      match t.bots[i]?, t.tops[i]? with
      | some [bot], some [top] => (match assembleAsym bot top n with
        | .ok s' => decide (s' = s)
        | .error _ => false)
      | _, _ => false
  | .error _ => false

theorem asymReturns_of (rule n k : Nat) (w : List Int) (s : Stack) (c : Cons)
    (h : asymTest rule n k w s c = true) : asymReturns rule n k w s c := by
  unfold asymTest at h
  split at h
  · rename_i t ht
    rw [List.any_eq_true] at h
    obtain ⟨i, _, hi⟩ := h
    split at hi
    · rename_i bot top e1 e2
      split at hi
      · rename_i s' e3
        obtain rfl : s' = s := of_decide_eq_true hi
        exact ⟨t, i, [bot], [top], bot, top, ht, e1, e2, rfl, rfl, e3⟩
      · cases hi
    · cases hi
  · cases h

/-- C83, violation: with an odd number of plies damage tolerance is not enforced on the top face. -/
theorem C83_damage_tolerance_odd_violation :
    ∃ (a : ConsArgs) (c : Cons) (s : Stack), a.damTol = true ∧ a.sym = false ∧ mkConstraints a = .ok c ∧
      c.damTol = true ∧ asymReturns 1 3 4 [45, 0, 45] s c ∧ ¬ Spec.DamTol1 s := by
  obtain ⟨c, hc, ht⟩ := ok_of_test (mkConstraints { sym := false, damTol := true, damTolRule := 1 })
    (fun c => c.damTol && asymTest 1 3 4 [45, 0, 45] [45, 45, 0] c) (by decide +kernel)
  simp only [Bool.and_eq_true] at ht
  refine ⟨_, c, [45, 45, 0], rfl, rfl, hc, ht.1, asymReturns_of _ _ _ _ _ _ ht.2, ?_⟩
  rintro ⟨_, a, ha, hs⟩
  rcases ha with rfl | rfl <;> revert hs <;> decide

/-- C83, violation: rule 2 of damage tolerance (opposite angles in the two outermost plies of each face)
is tested between plies of different faces. -/
theorem C83_damage_tolerance_pairs_violation :
    ∃ (a : ConsArgs) (c : Cons) (s : Stack), a.damTol = true ∧ a.damTolRule = 2 ∧ a.sym = false ∧
      mkConstraints a = .ok c ∧ c.damTol = true ∧ asymReturns 2 4 8 [45, -45, 45, -45] s c ∧
      ¬ Spec.DamTol2 s := by
  obtain ⟨c, hc, ht⟩ := ok_of_test (mkConstraints { sym := false, damTol := true, damTolRule := 2 })
    (fun c => c.damTol && asymTest 2 4 8 [45, -45, 45, -45] [45, 45, -45, -45] c) (by decide +kernel)
  simp only [Bool.and_eq_true] at ht
  refine ⟨_, c, [45, 45, -45, -45], rfl, rfl, rfl, hc, ht.1, asymReturns_of _ _ _ _ _ _ ht.2, ?_⟩
  rintro ⟨⟨a, ha, hs⟩, _⟩
  rcases ha with rfl | rfl <;> revert hs <;> decide

/-- C83, violation: with damage tolerance the contiguity rule is not enforced on the upper half. -/
theorem C83_contiguity_upper_violation :
    ∃ (a : ConsArgs) (c : Cons) (s : Stack), a.contig = true ∧ a.damTol = true ∧ a.sym = false ∧
      mkConstraints a = .ok c ∧ c.contig = true ∧ asymReturns 1 6 4 [45, 45, 0, 45, 90, 45] s c ∧
      ¬ Spec.ContigOK c.nContig s := by
  obtain ⟨c, hc, ht⟩ := ok_of_test (mkConstraints { sym := false, damTol := true, damTolRule := 1, contig := true, nContig := 2 })
    (fun c => c.contig && decide (c.nContig = 2) && asymTest 1 6 4 [45, 45, 0, 45, 90, 45] [45, 90, 0, 45, 45, 45] c) (by decide +kernel)
  simp only [Bool.and_eq_true, decide_eq_true_eq] at ht
  refine ⟨_, c, [45, 90, 0, 45, 45, 45], rfl, rfl, rfl, hc, ht.1.1, asymReturns_of _ _ _ _ _ _ ht.2, ?_⟩
  intro h
  rw [ht.1.2] at h
  exact h 45 (by decide)

/-- The hypotheses of the theorems on the disorientation rule are met by a search of four plies with the
default angles, a limit of 45 degrees and limits of 256 nodes; the design `45, 0, 90, 45` of
`C83_middle_junction_violation` is among those returned. -/
example : ∃ (a : ConsArgs) (c : Cons), a.diso = true ∧ mkConstraints a = .ok c ∧ c.sym = false ∧
    c.damTol = false ∧ c.contig = false ∧ c.diso = true ∧ AnglesInRange c.angles ∧
    ((0 : Int) ∈ c.angles ∧ (45 : Int) ∈ c.angles ∧ (90 : Int) ∈ c.angles) ∧
    45 ≤ c.deltaAngle ∧ c.deltaAngle < 90 ∧ (max c.angles.length 2) ^ 4 ≤ 256 ∧
    asymReturns 1 4 256 [45, 90, 0, 45] [45, 0, 90, 45] c := by
  obtain ⟨c, hc, ht⟩ := ok_of_test (mkConstraints { sym := false, diso := true, deltaAngle := 45 })
    (fun c => decide (c.sym = false ∧ c.damTol = false ∧ c.contig = false ∧ c.diso = true ∧
      (∀ x ∈ c.angles, -90 ≤ x ∧ x ≤ 90) ∧ ((0 : Int) ∈ c.angles ∧ (45 : Int) ∈ c.angles ∧ (90 : Int) ∈ c.angles) ∧
      45 ≤ c.deltaAngle ∧ c.deltaAngle < 90 ∧ (max c.angles.length 2) ^ 4 ≤ 256) &&
      asymTest 1 4 256 [45, 90, 0, 45] [45, 0, 90, 45] c) (by decide +kernel)
  rw [Bool.and_eq_true, decide_eq_true_eq] at ht
  obtain ⟨⟨a1, a2, a3, a4, a5, a6, a7, a8, a9⟩, hs⟩ := ht
  exact ⟨_, c, rfl, hc, a1, a2, a3, a4, a5, a6, a7, a8, a9, asymReturns_of _ _ _ _ _ _ hs⟩

end Bella
