import Verif.Model.PdlIni
import Verif.Spec.Sampling
import Verif.Props.PdlGlobal
import Verif.Props.Spacing
/-
C42: randomly generated ply drop layouts.
-/
namespace Bella

/-! ### the plies dropped -/

theorem mem_dropPool (n : Nat) (ct cb : Bool) (j : Nat) (h : 1 ≤ n) :
    j ∈ dropPool n ct cb ↔ Spec.MayDrop n ct cb j := by
  unfold dropPool Spec.MayDrop
  cases ct <;> cases cb <;> simp [List.mem_range'_1] <;> omega

theorem filter_not_mem_length (n : Nat) (s : List Nat) (h1 : s.Nodup) (h2 : ∀ x ∈ s, x < n) :
    ((List.range n).filter (fun i => !s.contains i)).length = n - s.length := by
  have hp : ((List.range n).filter (fun i => s.contains i)).Perm s := by
    refine (List.perm_ext_iff_of_nodup (List.Nodup.filter _ List.nodup_range) h1).2 (fun x => ?_)
    simp only [List.mem_filter, List.mem_range, List.contains_iff_mem]
    exact ⟨fun h => h.2, fun h => ⟨h2 x h, h⟩⟩
  have h3 := hp.length_eq
  have h4 := List.length_eq_length_filter_add (l := List.range n) (fun i => s.contains i)
  simp only [List.length_range] at h4
  omega

theorem undrop_sublist (cur del : List Nat) : (undrop cur del).Sublist cur := by
  unfold undrop
  have h : (List.range cur.length).map (fun (i : Nat) => cur.getD i 0) = cur := by
    apply List.ext_getElem
    · simp
    · intro i h1 h2
      simp [h2]
  conv_rhs => rw [← h]
  exact List.Sublist.map _ List.filter_sublist

theorem undrop_length (cur del : List Nat) (h1 : del.Nodup) (h2 : ∀ x ∈ del, x < cur.length) :
    (undrop cur del).length = cur.length - del.length := by
  unfold undrop
  rw [List.length_map, filter_not_mem_length _ _ h1 h2]

/-- The drops for decreasing numbers of ply drops. -/
theorem undropLoop_spec (ms : List Nat) (cur : List Nat) (n : Nat) (dels : List (List Nat))
    (hn : cur.length = n) (hs : (n :: ms).Pairwise (· > ·)) (hd : Spec.RestoreSamples n ms dels) :
    ∃ l, undropLoop cur n ms dels = .ok l ∧ l.map List.length = n :: ms ∧
      l.Pairwise (fun x y => y.Sublist x) ∧ ∀ x ∈ l, x.Sublist cur := by
  induction ms generalizing cur n dels with
  | nil => exact ⟨[cur], rfl, by simp [hn], by simp, by simp⟩
  | cons m ms ih =>
    cases dels with
    | nil => exact absurd hd (by simp [Spec.RestoreSamples])
    | cons s ss =>
      obtain ⟨⟨hs1, hs2, hs3⟩, hd2⟩ := hd
      have hmn : m < n := (List.pairwise_cons.1 hs).1 m (by simp)
      have hlen : (undrop cur s).length = m := by
        rw [undrop_length cur s hs1 (fun x hx => by have := List.mem_range.1 (hs2 x hx); omega)]
        omega
      obtain ⟨l, h1, h2, h3, h4⟩ := ih (undrop cur s) m ss hlen (List.pairwise_cons.1 hs).2 hd2
      refine ⟨cur :: l, ?_, by simp [h2, hn], ?_, ?_⟩
      · rw [undropLoop, if_neg (by omega)]
        simp only [List.headD_cons, List.tail_cons, h1]
        rfl
      · exact List.pairwise_cons.2 ⟨fun y hy => (h4 y hy).trans (undrop_sublist _ _), h3⟩
      · intro x hx
        rcases List.mem_cons.1 hx with rfl | hx
        · exact List.Sublist.refl _
        · exact (h4 x hx).trans (undrop_sublist _ _)

theorem uniqueDrops_sorted (l : List Nat) : (uniqueDrops l).Pairwise (· < ·) := by
  have h1 : (uniqueDrops l).Pairwise (· ≤ ·) := List.pairwise_insertionSort _ _
  have h2 : (uniqueDrops l).Nodup :=
    (List.perm_insertionSort (· ≤ ·) l.dedup).nodup_iff.2 (List.nodup_dedup l)
  exact (h1.and h2).imp (fun h => lt_of_le_of_ne h.1 h.2)

theorem mem_uniqueDrops (l : List Nat) (x : Nat) : x ∈ uniqueDrops l ↔ x ∈ l := by
  rw [uniqueDrops, (List.perm_insertionSort (· ≤ ·) l.dedup).mem_iff, List.mem_dedup]

/-- The draw `d` is a possible outcome of the random choices for the arguments `a`. -/
def ValidDraw (a : GroupArgs) (d : Draw) : Prop :=
  ∃ n ms, (uniqueDrops a.nDrops).reverse = n :: ms ∧
    d.top.Nodup ∧ (∀ j ∈ d.top, Spec.MayDrop a.nMax a.covTop a.covBottom j) ∧ d.top.length = n ∧
    Spec.RestoreSamples n ms d.dels

theorem drawDrops_spec (a : GroupArgs) (d : Draw) (hv : ValidDraw a d) :
    ∃ drops, drawDrops a.nMax a.covTop a.covBottom (uniqueDrops a.nDrops) d = .ok drops ∧
      drops.map List.length = uniqueDrops a.nDrops ∧ drops.Pairwise (fun x y => x.Sublist y) ∧
      ∀ ds ∈ drops, ds.Nodup ∧ ∀ j ∈ ds, Spec.MayDrop a.nMax a.covTop a.covBottom j := by
  obtain ⟨n, ms, h1, h2, h3, h4, h5⟩ := hv
  have hsort : (n :: ms).Pairwise (· > ·) := by
    rw [← h1, List.pairwise_reverse]
    exact uniqueDrops_sorted _
  obtain ⟨l, e1, e2, e3, e4⟩ := undropLoop_spec ms d.top n d.dels h4 hsort h5
  refine ⟨l.reverse, ?_, ?_, ?_, ?_⟩
  · have hp : n ≤ (dropPool a.nMax a.covTop a.covBottom).length := by
      rw [← h4]
      refine (List.subperm_of_subset h2 (fun j hj => ?_)).length_le
      have := h3 j hj
      exact (mem_dropPool _ _ _ _ (by have := this.1; omega)).2 this
    unfold drawDrops
    rw [h1]
    dsimp only
    rw [if_neg (by omega), e1]
    rfl
  · rw [List.map_reverse, e2, ← h1, List.reverse_reverse]
  · exact List.pairwise_reverse.2 e3
  · intro ds hds
    have hsub := e4 ds (List.mem_reverse.1 hds)
    exact ⟨h2.sublist hsub, fun j hj => h3 j (hsub.subset hj)⟩

/-! ### one random layout -/

/-- Shape of the table before the plies are numbered. -/
theorem drawPdl_table (a : GroupArgs) (d : Draw) (hv : ValidDraw a d)
    (hmid : (a.lastGroup && a.hasMiddle) = false) (t : Table) (p : ℚ)
    (h : drawPdl a d = .ok (t, p)) :
    ∃ t0 : Table, t = formatPlyDrops2 t0 ∧ t0.length = a.nDrops.length ∧
      groupSpacing a.pdlSpacing a.minDrop a.boundaries a.before (mirrorAfter a t0) t0 = .ok p ∧
      ∃ f : Nat → List Nat, (∀ (i nd : Nat), a.nDrops[i]? = some nd → ∃ row, t0[i]? = some row ∧
        row.length = a.nMax ∧ (∀ j, j < a.nMax → row[j]? = some (if j ∈ f nd then -1 else (j : Int))) ∧
        (f nd).Nodup ∧ (f nd).length = nd ∧
        ∀ j ∈ f nd, Spec.MayDrop a.nMax a.covTop a.covBottom j) ∧
        ∀ m n, m ∈ a.nDrops → n ∈ a.nDrops → m ≤ n → f m ⊆ f n := by
  obtain ⟨drops, e1, e2, e3, e4⟩ := drawDrops_spec a d hv
  have hrange : ∀ ds ∈ drops, ∀ d ∈ ds, d < a.nMax := fun ds hds j hj => ((e4 ds hds).2 j hj).1
  obtain ⟨tf, f1, f2, f3⟩ := C41_format drops a.nMax hrange
  have hlen : drops.length = (uniqueDrops a.nDrops).length := by rw [← e2]; simp
  obtain ⟨t0, g1, g2, g3⟩ := C41_layout_per_boundary tf (uniqueDrops a.nDrops) a.nDrops
    (by omega) ((uniqueDrops_sorted _).imp (fun h => Nat.ne_of_lt h))
    (fun d hd => (mem_uniqueDrops _ _).2 hd)
  simp only [drawPdl, e1, f1, hmid, g1, bind, Except.bind, Bool.false_eq_true, if_false] at h
  cases hs : groupSpacing a.pdlSpacing a.minDrop a.boundaries a.before (mirrorAfter a t0) t0 with
  | error e => rw [hs] at h; cases h
  | ok q =>
    rw [hs] at h
    simp only [pure, Except.pure, Except.ok.injEq, Prod.mk.injEq] at h
    obtain ⟨rfl, rfl⟩ := h
    refine ⟨t0, rfl, g2, hs, fun nd => drops.getD ((uniqueDrops a.nDrops).idxOf nd) [], ?_, ?_⟩
    · intro i nd hi
      have hmem : nd ∈ uniqueDrops a.nDrops := (mem_uniqueDrops _ _).2 (List.mem_of_getElem? hi)
      have hk := List.idxOf_lt_length_iff.2 hmem
      have hu : (uniqueDrops a.nDrops)[(uniqueDrops a.nDrops).idxOf nd]? = some nd := by
        rw [List.getElem?_eq_getElem hk, List.getElem_idxOf]
      generalize hidx : (uniqueDrops a.nDrops).idxOf nd = k at hk hu
      have hk2 : k < drops.length := by omega
      obtain ⟨q1, q2⟩ := g3 i nd k hi hu
      obtain ⟨row, r1, r2, r3⟩ := f3 k drops[k] (List.getElem?_eq_getElem hk2)
      have hget : drops.getD k [] = drops[k] := by simp [hk2]
      refine ⟨row, by rw [q1, r1], r2, ?_⟩
      dsimp only
      simp only [hidx]
      refine ⟨?_, ?_, ?_, ?_⟩
      · simp only [hget]; exact r3
      · rw [hget]; exact (e4 _ (List.getElem_mem hk2)).1
      · rw [hget]
        have h3 : (drops.map List.length)[k]? = some nd := by rw [e2, hu]
        simpa [hk2] using h3
      · rw [hget]; exact (e4 _ (List.getElem_mem hk2)).2
    · intro m n hm hn hmn
      dsimp only
      have hm' := List.idxOf_lt_length_iff.2 ((mem_uniqueDrops _ _).2 hm)
      have hn' := List.idxOf_lt_length_iff.2 ((mem_uniqueDrops _ _).2 hn)
      rcases Nat.lt_or_ge m n with hlt | hge
      · have hs := uniqueDrops_sorted a.nDrops
        have gm : (uniqueDrops a.nDrops)[(uniqueDrops a.nDrops).idxOf m] = m := List.getElem_idxOf _
        have gn : (uniqueDrops a.nDrops)[(uniqueDrops a.nDrops).idxOf n] = n := List.getElem_idxOf _
        generalize (uniqueDrops a.nDrops).idxOf m = km at hm' gm ⊢
        generalize (uniqueDrops a.nDrops).idxOf n = kn at hn' gn ⊢
        have hkk : km < kn := by
          rcases Nat.lt_trichotomy km kn with h | h | h
          · exact h
          · subst h; omega
          · have := List.pairwise_iff_getElem.1 hs kn km hn' hm' h
            omega
        have h1 : km < drops.length := by omega
        have h2 : kn < drops.length := by omega
        have := (List.pairwise_iff_getElem.1 e3 km kn h1 h2 hkk).subset
        simpa [h1, h2] using this
      · have : m = n := by omega
        subst this
        exact List.Subset.refl _

theorem plyCount_renumber (row : List Int) (j : Nat) :
    Spec.plyCount (renumber 0 row) j = Spec.plyCount row j := by
  rw [← plyCount_marks, marks_renumber row, plyCount_marks]

theorem renumber_drop_iff (row : List Int) (j : Nat) :
    (renumber 0 row)[j]? = some (-1) ↔ row[j]? = some (-1) := by
  rw [renumber_getElem]
  cases row[j]? with
  | none => simp
  | some x =>
    simp only [Option.map_some, Option.some.injEq]
    by_cases hx : x = -1
    · simp [hx]
    · rw [if_neg hx]; constructor <;> intro h <;> omega

/-- C42: whatever the random choices, a random layout (without middle ply) has one row per panel, the
row of a panel has the number of ply drops of the panel, covering plies are not dropped, and the plies
kept are numbered `0, 1, 2, ...` -/
theorem C42_random_layout (a : GroupArgs) (d : Draw) (hv : ValidDraw a d)
    (hmid : (a.lastGroup && a.hasMiddle) = false) (t : Table) (p : ℚ)
    (h : drawPdl a d = .ok (t, p)) :
    t.length = a.nDrops.length ∧ ∀ (i nd : Nat), a.nDrops[i]? = some nd → ∃ row, t[i]? = some row ∧
      row.length = a.nMax ∧ (Spec.dropPositions row).length = nd ∧
      (a.covTop = true → row[0]? ≠ some (-1)) ∧ (a.covBottom = true → row[a.nMax - 1]? ≠ some (-1)) ∧
      ∀ (j : Nat) (x : Int), row[j]? = some x → x = -1 ∨ x = (Spec.plyCount row j : Int) := by
  obtain ⟨t0, rfl, h2, _, f, h4, _⟩ := drawPdl_table a d hv hmid t p h
  refine ⟨by simp [formatPlyDrops2, h2], fun i nd hi => ?_⟩
  obtain ⟨row, r1, r2, r3, r4, r5, r6⟩ := h4 i nd hi
  have hdrop : ∀ j : Nat, (renumber 0 row)[j]? = some (-1) ↔ j ∈ f nd := by
    intro j
    rw [renumber_drop_iff]
    constructor
    · intro hj
      have hjn : j < a.nMax := by rw [← r2]; exact (List.getElem?_eq_some_iff.1 hj).1
      rw [r3 j hjn] at hj
      by_contra hc
      simp only [if_neg hc, Option.some.injEq] at hj
      omega
    · intro hj
      rw [r3 j (r6 j hj).1, if_pos hj]
  refine ⟨renumber 0 row, by simp [formatPlyDrops2, r1], by rw [length_renumber, r2], ?_, ?_, ?_, ?_⟩
  · have hp : (Spec.dropPositions (renumber 0 row)).Perm (f nd) := by
      refine (List.perm_ext_iff_of_nodup
        ((dropPositions_sorted _).imp (fun h => Nat.ne_of_lt h)) r4).2 (fun j => ?_)
      rw [mem_dropPositions, hdrop]
    rw [hp.length_eq, r5]
  · intro hc hj
    exact (r6 0 ((hdrop 0).1 hj)).2.1 hc rfl
  · intro hc hj
    have hm := r6 _ ((hdrop _).1 hj)
    exact hm.2.2 hc (by have := hm.1; omega)
  · intro j x hj
    rw [renumber_getElem] at hj
    rw [plyCount_renumber]
    cases hr : row[j]? with
    | none => rw [hr] at hj; cases hj
    | some y =>
      rw [hr] at hj
      simp only [Option.map_some, Option.some.injEq] at hj
      split at hj <;> omega

/-- C42: guide-based blending: the plies dropped in a panel are dropped in every panel with more ply
drops. -/
theorem C42_random_layout_nested (a : GroupArgs) (d : Draw) (hv : ValidDraw a d)
    (hmid : (a.lastGroup && a.hasMiddle) = false) (t : Table) (p : ℚ)
    (h : drawPdl a d = .ok (t, p)) (i k ni nk : Nat) (hi : a.nDrops[i]? = some ni)
    (hk : a.nDrops[k]? = some nk) (hle : ni ≤ nk) :
    ∃ ri rk, t[i]? = some ri ∧ t[k]? = some rk ∧ Spec.Nested ri rk := by
  obtain ⟨t0, rfl, h2, _, f, h4, h5⟩ := drawPdl_table a d hv hmid t p h
  obtain ⟨ri, r1, r2, r3, _⟩ := h4 i ni hi
  obtain ⟨rk, s1, s2, s3, _⟩ := h4 k nk hk
  refine ⟨renumber 0 ri, renumber 0 rk, by simp [formatPlyDrops2, r1], by simp [formatPlyDrops2, s1],
    fun j hj => ?_⟩
  rw [renumber_drop_iff] at hj ⊢
  have hjn : j < a.nMax := by rw [← r2]; exact (List.getElem?_eq_some_iff.1 hj).1
  rw [r3 j hjn] at hj
  rw [s3 j hjn]
  have hjf : j ∈ f ni := by
    by_contra hc
    simp only [if_neg hc, Option.some.injEq] at hj
    omega
  rw [if_pos (h5 ni nk (List.mem_of_getElem? hi) (List.mem_of_getElem? hk) hle hjf)]

/-! ### the search -/

/-- The tables held by a search state come from the draws. -/
def FromDraws {δ : Type} (gen : δ → Py (Table × ℚ)) (sched : List (δ × Bool)) (f : Found) : Prop :=
  (∀ t ∈ f.perfect, ∃ x ∈ sched, gen x.1 = .ok (t, 0)) ∧
  (∀ y ∈ f.imperfect, y.2 ≠ 0 ∧ ∃ x ∈ sched, gen x.1 = .ok y)

theorem store_from {δ : Type} (gen : δ → Py (Table × ℚ)) (sched : List (δ × Bool)) (nPdl : Nat)
    (f : Found) (x : δ × Bool) (t : Table) (p : ℚ) (hf : FromDraws gen sched f) (hx : x ∈ sched)
    (hg : gen x.1 = .ok (t, p)) : FromDraws gen sched (store nPdl f t p) := by
  obtain ⟨h1, h2⟩ := hf
  unfold store
  split
  · rename_i hp
    subst hp
    split
    · exact ⟨h1, h2⟩
    · refine ⟨fun t' ht' => ?_, h2⟩
      rcases List.mem_append.1 ht' with h | h
      · exact h1 t' h
      · rw [List.mem_singleton.1 h]; exact ⟨x, hx, hg⟩
  · rename_i hp
    split
    · split
      · split
        · exact ⟨h1, h2⟩
        · refine ⟨h1, fun y hy => ?_⟩
          rcases List.mem_or_eq_of_mem_set hy with h | h
          · exact h2 y h
          · rw [h]; exact ⟨hp, x, hx, hg⟩
      · exact ⟨h1, h2⟩
    · split
      · exact ⟨h1, h2⟩
      · refine ⟨h1, fun y hy => ?_⟩
        rcases List.mem_append.1 hy with h | h
        · exact h2 y h
        · rw [List.mem_singleton.1 h]; exact ⟨hp, x, hx, hg⟩

theorem store_perfect {nPdl : Nat} {f : Found} {t : Table} {p : ℚ} (h : f.perfect.Nodup) :
    (store nPdl f t p).perfect.Nodup ∧ (store nPdl f t p).perfect.length ≤ f.perfect.length + 1 := by
  unfold store
  split
  · split
    · exact ⟨h, by omega⟩
    · rename_i hc
      refine ⟨?_, by simp⟩
      simp only [List.contains_iff_mem, Bool.not_eq_true] at hc
      refine List.nodup_append.2 ⟨h, by simp, fun a ha b hb => ?_⟩
      rw [List.mem_singleton.1 hb]
      intro e
      exact absurd (e ▸ ha) (by simpa using hc)
  · split
    · split
      · split <;> exact ⟨h, by simp⟩
      · exact ⟨h, by simp⟩
    · split <;> exact ⟨h, by simp⟩

theorem searchPdls_spec {δ : Type} (gen : δ → Py (Table × ℚ)) (all : List (δ × Bool)) (nPdl : Nat)
    (sched : List (δ × Bool)) (late : Bool) (f g : Found) (late' : Bool) (hsub : ∀ x ∈ sched, x ∈ all)
    (h : searchPdls gen nPdl sched late f = .ok (some (g, late'))) (hf : FromDraws gen all f)
    (hnd : f.perfect.Nodup) (hlen : f.perfect.length ≤ nPdl) :
    FromDraws gen all g ∧ g.perfect.Nodup ∧ g.perfect.length ≤ nPdl ∧
      (late' = false → g.perfect.length = nPdl) ∧
      ((∀ x ∈ sched, x.2 = false) → late = false → late' = false) := by
  induction sched generalizing late f with
  | nil =>
    rw [searchPdls.eq_def] at h
    dsimp only at h
    split at h
    · cases h
    · rename_i hc
      simp only [Except.ok.injEq, Option.some.injEq, Prod.mk.injEq] at h
      obtain ⟨rfl, rfl⟩ := h
      refine ⟨hf, hnd, hlen, fun hl => ?_, fun _ hl => hl⟩
      by_contra hne
      exact hc ⟨by omega, hl⟩
  | cons x rest ih =>
    obtain ⟨d, l⟩ := x
    rw [searchPdls.eq_def] at h
    dsimp only at h
    split at h
    · rename_i hc
      obtain ⟨⟨t, p⟩, hg, h⟩ := bind_ok.1 h
      dsimp only at h
      obtain ⟨h1, h2⟩ := store_perfect (nPdl := nPdl) (t := t) (p := p) hnd
      obtain ⟨i1, i2, i3, i4, i5⟩ := ih l _ (fun y hy => hsub y (by simp [hy])) h
        (store_from gen all nPdl f (d, l) t p hf (hsub _ (by simp)) hg) h1 (h2.trans hc.1)
      refine ⟨i1, i2, i3, i4, fun hall _ => i5 (fun y hy => hall y (by simp [hy])) (hall (d, l) (by simp))⟩
    · rename_i hc
      simp only [Except.ok.injEq, Option.some.injEq, Prod.mk.injEq] at h
      obtain ⟨rfl, rfl⟩ := h
      refine ⟨hf, hnd, hlen, fun hl => ?_, fun _ hl => hl⟩
      by_contra hne
      exact hc ⟨by omega, hl⟩

theorem addImperfect_spec (nPdl k : Nat) (imp : List (Table × ℚ)) (perf l : List Table)
    (h : addImperfect nPdl k imp perf = .ok l) :
    l.length = perf.length + k ∧ (k ≠ 0 → perf.length + k ≤ nPdl) ∧ perf <+: l ∧
      ∀ t ∈ l, t ∈ perf ∨ t ∈ imp.map Prod.fst := by
  induction k generalizing imp perf with
  | zero =>
    simp only [addImperfect, Except.ok.injEq] at h
    subst h
    exact ⟨rfl, by simp, List.prefix_refl _, fun t ht => Or.inl ht⟩
  | succ k ih =>
    unfold addImperfect at h
    cases hm : imp[argminIdx imp]? with
    | none => rw [hm] at h; cases h
    | some tp =>
      obtain ⟨t, p⟩ := tp
      rw [hm] at h
      dsimp only at h
      split at h
      · cases h
      · obtain ⟨h1, h2, h3, h4⟩ := ih _ _ h
        simp only [List.length_append, List.length_singleton] at h1 h2
        refine ⟨by omega, fun _ => ?_, (List.prefix_append _ _).trans h3, fun t' ht' => ?_⟩
        · by_cases hk : k = 0
          · omega
          · have := h2 hk; omega
        · have htm : t ∈ imp.map Prod.fst := List.mem_map.2 ⟨(t, p), List.mem_of_getElem? hm, rfl⟩
          rcases h4 t' ht' with h | h
          · rcases List.mem_append.1 h with h | h
            · exact Or.inl h
            · rw [List.mem_singleton.1 h]; exact Or.inr htm
          · obtain ⟨y, hy, rfl⟩ := List.mem_map.1 h
            rcases List.mem_or_eq_of_mem_set hy with h | h
            · exact Or.inr (List.mem_map.2 ⟨y, h, rfl⟩)
            · rw [h]; exact Or.inr htm

/-- C42: every layout returned by the search was generated by one of the random draws. -/
theorem C42_returned_layouts_are_generated {δ : Type} (gen : δ → Py (Table × ℚ)) (nPdl nAsked : Nat)
    (late0 : Bool) (sched : List (δ × Bool)) (l : List Table)
    (h : collectPdls gen nPdl nAsked late0 sched = .ok (some l)) :
    ∀ t ∈ l, ∃ x ∈ sched, ∃ p, gen x.1 = .ok (t, p) := by
  unfold collectPdls at h
  obtain ⟨r, h1, h2⟩ := bind_ok.1 h
  cases r with
  | none => cases h2
  | some fl =>
    obtain ⟨f, late⟩ := fl
    obtain ⟨⟨s1, s2⟩, _⟩ := searchPdls_spec gen sched nPdl sched late0 _ _ _ (fun _ h => h) h1
      ⟨by simp, by simp⟩ (by simp) (by simp)
    dsimp only at h2
    split at h2
    · split at h2
      · cases h2
      · obtain ⟨l', h3, h4⟩ := bind_ok.1 h2
        simp only [pure, Except.pure, Except.ok.injEq, Option.some.injEq] at h4
        subst h4
        obtain ⟨_, _, _, h5⟩ := addImperfect_spec _ _ _ _ _ h3
        intro t ht
        rcases h5 t ht with h | h
        · obtain ⟨x, hx, hg⟩ := s1 t h; exact ⟨x, hx, 0, hg⟩
        · obtain ⟨y, hy, rfl⟩ := List.mem_map.1 h
          obtain ⟨_, x, hx, hg⟩ := s2 y hy
          exact ⟨x, hx, y.2, hg⟩
    · simp only [pure, Except.pure, Except.ok.injEq, Option.some.injEq] at h2
      subst h2
      intro t ht
      obtain ⟨x, hx, hg⟩ := s1 t ht
      exact ⟨x, hx, 0, hg⟩

/-- C42: if the time limit is not reached, the search returns as many layouts as its table holds, all
different and all without spacing penalty. -/
theorem C42_search_in_time {δ : Type} (gen : δ → Py (Table × ℚ)) (nPdl nAsked : Nat)
    (sched : List (δ × Bool)) (hin : ∀ x ∈ sched, x.2 = false) (l : List Table)
    (h : collectPdls gen nPdl nAsked false sched = .ok (some l)) :
    l.length = nPdl ∧ l.Nodup ∧ ∀ t ∈ l, ∃ x ∈ sched, gen x.1 = .ok (t, 0) := by
  unfold collectPdls at h
  obtain ⟨r, h1, h2⟩ := bind_ok.1 h
  cases r with
  | none => cases h2
  | some fl =>
    obtain ⟨f, late⟩ := fl
    obtain ⟨⟨s1, s2⟩, s3, s4, s5, s6⟩ := searchPdls_spec gen sched nPdl sched false _ _ _
      (fun _ h => h) h1 ⟨by simp, by simp⟩ (by simp) (by simp)
    have hl := s6 hin rfl
    subst hl
    simp only [Bool.false_eq_true, if_false, pure, Except.pure, Except.ok.injEq, Option.some.injEq] at h2
    subst h2
    exact ⟨s5 rfl, s3, s1⟩

/-- C42: in any case the number of layouts returned is the size of the table or the number asked for. -/
theorem C42_search_count {δ : Type} (gen : δ → Py (Table × ℚ)) (nPdl nAsked : Nat) (late0 : Bool)
    (sched : List (δ × Bool)) (hle : nPdl ≤ nAsked) (l : List Table)
    (h : collectPdls gen nPdl nAsked late0 sched = .ok (some l)) : l.length = nPdl := by
  unfold collectPdls at h
  obtain ⟨r, h1, h2⟩ := bind_ok.1 h
  cases r with
  | none => cases h2
  | some fl =>
    obtain ⟨f, late⟩ := fl
    obtain ⟨⟨s1, s2⟩, s3, s4, s5, s6⟩ := searchPdls_spec gen sched nPdl sched late0 _ _ _
      (fun _ h => h) h1 ⟨by simp, by simp⟩ (by simp) (by simp)
    dsimp only at h2
    cases late with
    | false =>
      simp only [Bool.false_eq_true, if_false, pure, Except.pure, Except.ok.injEq, Option.some.injEq] at h2
      subst h2
      exact s5 rfl
    | true =>
      simp only [if_true] at h2
      split at h2
      · cases h2
      · obtain ⟨l', h3, h4⟩ := bind_ok.1 h2
        simp only [pure, Except.pure, Except.ok.injEq, Option.some.injEq] at h4
        subst h4
        obtain ⟨a1, a2, _, _⟩ := addImperfect_spec _ _ _ _ _ h3
        by_cases hk : nAsked - f.perfect.length = 0
        · omega
        · have := a2 hk; omega

/-- C42 (violated): when only one layout exists, and it has no penalty, asking for more than one layout
never gives a result: either the search does not end or, at the time limit, it raises (the smallest
value of an empty array is asked for). -/
theorem C42_single_layout_violation {δ : Type} (gen : δ → Py (Table × ℚ)) (T : Table) (n : Nat)
    (hn : 2 ≤ n) (late0 : Bool) (sched : List (δ × Bool))
    (hgen : ∀ x ∈ sched, ∀ t p, gen x.1 = .ok (t, p) → t = T ∧ p = 0) (l : List Table) :
    collectPdls gen n n late0 sched ≠ .ok (some l) := by
  intro h
  have hlen := C42_search_count gen n n late0 sched le_rfl l h
  unfold collectPdls at h
  obtain ⟨r, h1, h2⟩ := bind_ok.1 h
  cases r with
  | none => cases h2
  | some fl =>
    obtain ⟨f, late⟩ := fl
    obtain ⟨⟨s1, s2⟩, s3, s4, s5, s6⟩ := searchPdls_spec gen sched n sched late0 _ _ _
      (fun _ h => h) h1 ⟨by simp, by simp⟩ (by simp) (by simp)
    have hT : ∀ t ∈ f.perfect, t = T := by
      intro t ht
      obtain ⟨x, hx, hg⟩ := s1 t ht
      exact (hgen x hx _ _ hg).1
    have himp : f.imperfect = [] := by
      refine List.eq_nil_iff_forall_not_mem.2 (fun y hy => ?_)
      obtain ⟨hy0, x, hx, hg⟩ := s2 y hy
      exact hy0 (hgen x hx y.1 y.2 hg).2
    have hp1 : f.perfect.length ≤ 1 := by
      match hfp : f.perfect with
      | [] => simp
      | [_] => simp
      | a :: b :: r =>
        rw [hfp] at s3 hT
        have := hT a (by simp)
        have := hT b (by simp)
        simp_all
    cases late with
    | false => have := s5 rfl; omega
    | true =>
      simp only [if_true] at h2
      split at h2
      · cases h2
      · obtain ⟨l', h3, h4⟩ := bind_ok.1 h2
        obtain ⟨k, hk⟩ : ∃ k, n - f.perfect.length = k + 1 := ⟨n - f.perfect.length - 1, by omega⟩
        rw [hk, himp] at h3
        simp [addImperfect] at h3

/-- C42 (violated): among the layouts with penalty, the best one is not kept.  With a table for two
layouts, three different layouts of penalties `p < r < q` found in the order `p`, `q`, `r` and the time
limit reached: the layout of penalty `p`, the smallest, is not returned. -/
theorem C42_best_imperfect_lost_violation {δ : Type} (gen : δ → Py (Table × ℚ)) (x y z : δ)
    (A B C : Table) (p q r : ℚ) (hx : gen x = .ok (A, p)) (hy : gen y = .ok (B, q))
    (hz : gen z = .ok (C, r)) (hp : 0 < p) (hpr : p < r) (hrq : r < q) (hq : q < 10000000)
    (hAB : A ≠ B) (hAC : A ≠ C) (hBC : B ≠ C) :
    collectPdls gen 2 2 false [(x, false), (y, false), (z, true)] = .ok (some [C, B]) := by
  have e1 : p ≠ 0 := ne_of_gt hp
  have e2 : q ≠ 0 := by intro h; linarith
  have e3 : r ≠ 0 := by intro h; linarith
  have l1 : ¬ q ≤ p := by linarith
  have l2 : ¬ q ≤ r := by linarith
  have l3 : p ≤ q := by linarith
  have l4 : r ≤ q := by linarith
  have l5 : ¬ (10000000 : ℚ) ≤ q := by linarith
  have l6 : q ≤ 10000000 := by linarith
  simp [collectPdls, searchPdls, hx, hy, hz, store, argminIdx, addImperfect, e1, e2, e3, bind,
    Except.bind, pure, Except.pure, hAB, hAC, hBC, List.findIdx_cons, l3, l4, l5, l6, hrq]

end Bella
