import Verif.Proofs.Monad
import Verif.Proofs.Cons
/-
Properties C15, C16: reduction of a structure to a blending strip; C47: step tables;
C48: boundaries of the strip.
-/
namespace Bella

theorem mem_npUniqueNat (l : List Nat) (x : Nat) : x ∈ npUniqueNat l ↔ x ∈ l := by
  unfold npUniqueNat
  rw [List.mem_insertionSort, List.mem_dedup]

theorem npUniqueNat_sorted (l : List Nat) : (npUniqueNat l).Pairwise (· < ·) := by
  have h1 : (npUniqueNat l).Pairwise (· ≤ ·) := List.pairwise_insertionSort _ _
  have h2 : (npUniqueNat l).Nodup :=
    ((List.perm_insertionSort _ _).nodup_iff).2 (List.nodup_dedup l)
  exact (h1.and h2).imp (fun ⟨a, b⟩ => lt_of_le_of_ne a b)

theorem getElem?_idxOf {l : List Nat} {x : Nat} (h : x ∈ l) : l[l.idxOf x]? = some x := by
  rw [List.getElem?_eq_getElem (List.idxOf_lt_length_of_mem h)]
  simp

theorem mkReduced_inv {plies : List Nat} {sym : Bool} {nRef : Int} {bs : List (Nat × Nat)}
    {bw : List ((Nat × Nat) × ℚ)} {r : Reduced} (h : mkReduced plies sym nRef bs bw = .ok r) :
    r.nPlies = npUniqueNat plies ∧
    r.indForReduc = (npUniqueNat plies).map (fun n => plies.idxOf n) ∧
    r.indPanelsGuide = plies.map (fun n => (npUniqueNat plies).idxOf n) ∧
    (sym = true → middlePlyLoop (npUniqueNat plies) false = .ok ()) ∧
    calcIndRef (npUniqueNat plies) nRef = .ok r.indRef ∧
    reduceBoundaries r.indPanelsGuide bs = .ok r.boundaries ∧
    reduceBoundaryWeights r.indPanelsGuide bs bw = .ok r.boundaryWeights ∧
    r.thin = thinTable (npUniqueNat plies) sym r.indRef ∧
    r.thick = thickTable (npUniqueNat plies) sym r.indRef := by
  unfold mkReduced at h
  simp only [bind_ok] at h
  obtain ⟨_, h0, i, hi, rb, hrb, rw', hrw, hr⟩ := h
  cases hr
  refine ⟨rfl, rfl, rfl, ?_, hi, hrb, hrw, rfl, rfl⟩
  intro hs
  rw [if_pos hs] at h0
  exact h0

/-- C15: the reduced structure has strictly increasing ply counts, those of the structure; each
reduced panel stands for a panel of the structure with that ply count, and each panel is mapped to
the reduced panel with its ply count. -/
theorem C15_reduction (plies : List Nat) (sym : Bool) (nRef : Int) (bs : List (Nat × Nat))
    (bw : List ((Nat × Nat) × ℚ)) (r : Reduced) (h : mkReduced plies sym nRef bs bw = .ok r) :
    r.nPlies.Pairwise (· < ·) ∧ (∀ n, n ∈ r.nPlies ↔ n ∈ plies) ∧
    (r.indForReduc.length = r.nPlies.length ∧ ∀ i n : Nat, r.nPlies[i]? = some n →
      ∃ j : Nat, r.indForReduc[i]? = some j ∧ plies[j]? = some n) ∧
    (r.indPanelsGuide.length = plies.length ∧ ∀ j n : Nat, plies[j]? = some n →
      ∃ i : Nat, r.indPanelsGuide[j]? = some i ∧ r.nPlies[i]? = some n) := by
  obtain ⟨h1, h2, h3, _⟩ := mkReduced_inv h
  rw [h1, h2, h3]
  refine ⟨npUniqueNat_sorted _, mem_npUniqueNat _, ⟨by simp, ?_⟩, by simp, ?_⟩
  · intro i n hn
    refine ⟨plies.idxOf n, by simp [hn], ?_⟩
    exact getElem?_idxOf ((mem_npUniqueNat _ _).1 (List.mem_of_getElem? hn))
  · intro j n hn
    refine ⟨(npUniqueNat plies).idxOf n, by simp [hn], ?_⟩
    exact getElem?_idxOf ((mem_npUniqueNat _ _).2 (List.mem_of_getElem? hn))

theorem reduceData_ok {α : Type} {plies : List Nat} {sym : Bool} {nRef : Int}
    {bs : List (Nat × Nat)} {bw : List ((Nat × Nat) × ℚ)} {r : Reduced}
    (h : mkReduced plies sym nRef bs bw = .ok r) (data : List α) (hd : data.length = plies.length) :
    ∃ s, reduceData r data = .ok s ∧ s.length = r.nPlies.length ∧
      ∀ i n : Nat, r.nPlies[i]? = some n → s[i]? = data[plies.idxOf n]? := by
  obtain ⟨h1, h2, h3, _⟩ := mkReduced_inv h
  have hget : ∀ i, i < r.nPlies.length → ∃ y, (do
      let j ← pyGet r.indForReduc i
      pyGet data j : Py α) = .ok y := by
    intro i hi
    have hlt : plies.idxOf r.nPlies[i] < data.length := by
      rw [hd]
      apply List.idxOf_lt_length_of_mem
      rw [← mem_npUniqueNat, ← h1]
      exact List.getElem_mem hi
    have e : r.indForReduc[i]? = some (plies.idxOf r.nPlies[i]) := by
      rw [h2, ← h1]; simp [hi]
    exact ⟨data[plies.idxOf r.nPlies[i]], by rw [bind_ok]; exact ⟨_, pyGet_eq_ok.2 e, pyGet_ok hlt⟩⟩
  obtain ⟨s, hs, hl, hi⟩ := mapM_range _ _ hget
  refine ⟨s, hs, hl, ?_⟩
  intro i n hn
  obtain ⟨hi', hn'⟩ := List.getElem?_eq_some_iff.1 hn
  obtain ⟨y, hy, hf⟩ := hi i hi'
  rw [bind_ok] at hf
  obtain ⟨j, hj, hj2⟩ := hf
  rw [pyGet_eq_ok] at hj hj2
  have e : r.indForReduc[i]? = some (plies.idxOf n) := by
    rw [h2, ← h1]; simp [hn]
  rw [e] at hj
  cases hj
  rw [hy, hj2]

theorem extendData_ok {α : Type} {plies : List Nat} {sym : Bool} {nRef : Int}
    {bs : List (Nat × Nat)} {bw : List ((Nat × Nat) × ℚ)} {r : Reduced}
    (h : mkReduced plies sym nRef bs bw = .ok r) (data : List α)
    (hd : data.length = r.nPlies.length) :
    ∃ e, extendData r plies.length data = .ok e ∧ e.length = plies.length ∧
      ∀ j n : Nat, plies[j]? = some n → e[j]? = data[r.nPlies.idxOf n]? := by
  obtain ⟨h1, h2, h3, _⟩ := mkReduced_inv h
  have hget : ∀ i, i < plies.length → ∃ y, (do
      let j ← pyGet r.indPanelsGuide i
      pyGet data j : Py α) = .ok y := by
    intro i hi
    have hlt : r.nPlies.idxOf plies[i] < data.length := by
      rw [hd]
      apply List.idxOf_lt_length_of_mem
      rw [h1, mem_npUniqueNat]
      exact List.getElem_mem hi
    have e : r.indPanelsGuide[i]? = some (r.nPlies.idxOf plies[i]) := by
      rw [h3, ← h1]; simp [hi]
    exact ⟨data[r.nPlies.idxOf plies[i]], by rw [bind_ok]; exact ⟨_, pyGet_eq_ok.2 e, pyGet_ok hlt⟩⟩
  obtain ⟨s, hs, hl, hi⟩ := mapM_range _ _ hget
  refine ⟨s, hs, hl, ?_⟩
  intro i n hn
  obtain ⟨hi', hn'⟩ := List.getElem?_eq_some_iff.1 hn
  obtain ⟨y, hy, hf⟩ := hi i hi'
  rw [bind_ok] at hf
  obtain ⟨j, hj, hj2⟩ := hf
  rw [pyGet_eq_ok] at hj hj2
  have e : r.indPanelsGuide[i]? = some (r.nPlies.idxOf n) := by
    rw [h3, ← h1]; simp [hn]
  rw [e] at hj
  cases hj
  rw [hy, hj2]

theorem middlePlyLoop_ok : ∀ (u : List Nat) (b : Bool), u.Pairwise (· < ·) →
    (middlePlyLoop u b = .ok () ↔
      (b = true → ∀ m ∈ u, m % 2 = 1) ∧ ∀ n ∈ u, ∀ m ∈ u, n < m → n % 2 = 1 → m % 2 = 1)
  | [], b, _ => by simp [middlePlyLoop]
  | n :: ns, b, h => by
    obtain ⟨h1, h2⟩ := List.pairwise_cons.1 h
    unfold middlePlyLoop
    by_cases hc : b = true ∧ n % 2 = 0
    · rw [if_pos hc]
      refine Iff.intro (fun h => nomatch h) (fun ⟨g, _⟩ => ?_)
      have := g hc.1 n List.mem_cons_self
      omega
    · rw [if_neg hc, middlePlyLoop_ok ns _ h2]
      constructor
      · rintro ⟨g1, g2⟩
        have hall : n % 2 = 1 ∨ b = true → ∀ m ∈ ns, m % 2 = 1 := by
          intro hn
          apply g1
          by_cases e : n % 2 = 0
          · rw [if_neg (by omega)]
            rcases hn with hn | hn
            · omega
            · exact hn
          · rw [if_pos e]
        refine ⟨fun hb m hm => ?_, fun x hx y hy hxy hx1 => ?_⟩
        · rcases List.mem_cons.1 hm with rfl | hm
          · have : ¬ m % 2 = 0 := fun e => hc ⟨hb, e⟩
            omega
          · exact hall (Or.inr hb) m hm
        · rcases List.mem_cons.1 hx with rfl | hx' <;> rcases List.mem_cons.1 hy with rfl | hy'
          · omega
          · exact hall (Or.inl hx1) y hy'
          · have := h1 x hx'
            omega
          · exact g2 x hx' y hy' hxy hx1
      · rintro ⟨g1, g2⟩
        refine ⟨fun hb m hm => ?_, fun x hx y hy => g2 x (List.mem_cons_of_mem _ hx) y (List.mem_cons_of_mem _ hy)⟩
        by_cases e : n % 2 = 0
        · rw [if_neg (by omega)] at hb
          exact g1 hb m (List.mem_cons_of_mem _ hm)
        · exact g2 n List.mem_cons_self m (List.mem_cons_of_mem _ hm) (h1 m hm) (by omega)

/-- C15: for symmetric laminates, a structure is reduced only if no panel with an odd number of plies (a middle ply) is
thinner than a panel with an even number of plies; otherwise an exception is raised. -/
theorem C15_middle_ply (plies : List Nat) (nRef : Int) (bs : List (Nat × Nat)) (bw : List ((Nat × Nat) × ℚ)) :
    (∀ r, mkReduced plies true nRef bs bw = .ok r → ∀ n ∈ plies, ∀ m ∈ plies, n < m → n % 2 = 1 → m % 2 = 1) ∧
    ((∃ n ∈ plies, ∃ m ∈ plies, n < m ∧ n % 2 = 1 ∧ m % 2 = 0) → mkReduced plies true nRef bs bw =
      .error (.exc "The panel ply counts are not compatible with guide-based blending (middle ply)")) := by
  have key := middlePlyLoop_ok (npUniqueNat plies) false (npUniqueNat_sorted plies)
  simp only [mem_npUniqueNat] at key
  constructor
  · intro r h
    obtain ⟨_, _, _, h4, _⟩ := mkReduced_inv h
    exact (key.1 (h4 rfl)).2
  · rintro ⟨n, hn, m, hm, h1, h2, h3⟩
    have hne : ¬ middlePlyLoop (npUniqueNat plies) false = .ok () := by
      intro h
      have := (key.1 h).2 n hn m hm h1 h2
      omega
    have herr : ∀ (u : List Nat) (b : Bool), middlePlyLoop u b = .ok () ∨ middlePlyLoop u b =
        .error (.exc "The panel ply counts are not compatible with guide-based blending (middle ply)") := by
      intro u
      induction u with
      | nil => intro b; exact Or.inl rfl
      | cons n ns ih =>
        intro b
        unfold middlePlyLoop
        split_ifs
        · exact Or.inr rfl
        · exact ih _
        · exact ih _
    have := (herr (npUniqueNat plies) false).resolve_left hne
    unfold mkReduced
    simp only [if_true, this]
    rfl

/-- Both cases occur. -/
example : (∃ r, mkReduced [13, 10, 16, 13] false 13 [] [] = .ok r) ∧ (∃ r, mkReduced [13, 10] true 13 [] [] = .ok r) ∧
    (∃ n ∈ [13, 10, 16, 13], ∃ m ∈ [13, 10, 16, 13], n < m ∧ n % 2 = 1 ∧ m % 2 = 0) := by
  refine ⟨⟨_, rfl⟩, ⟨_, rfl⟩, by decide⟩

/-- C15: extending a reduced layout gives every panel the row of the reduced panel with its ply
count, and reducing the result gives the reduced layout back. -/
theorem C15_extend_then_reduce {α : Type} (plies : List Nat) (sym : Bool) (nRef : Int)
    (bs : List (Nat × Nat)) (bw : List ((Nat × Nat) × ℚ)) (r : Reduced)
    (h : mkReduced plies sym nRef bs bw = .ok r) (data : List α)
    (hd : data.length = r.nPlies.length) :
    ∃ e, extendData r plies.length data = .ok e ∧ reduceData r e = .ok data ∧
      e.length = plies.length ∧
      ∀ i j n : Nat, plies[j]? = some n → r.nPlies[i]? = some n → e[j]? = data[i]? := by
  obtain ⟨e, he, hl, hj⟩ := extendData_ok h data hd
  obtain ⟨s, hs, hsl, hsi⟩ := reduceData_ok h e hl
  obtain ⟨hsort, hmem, _⟩ := C15_reduction plies sym nRef bs bw r h
  have hnd : r.nPlies.Nodup := hsort.imp (fun h => Nat.ne_of_lt h)
  have hidx : ∀ i n : Nat, r.nPlies[i]? = some n → r.nPlies.idxOf n = i := by
    intro i n hn
    obtain ⟨hi, rfl⟩ := List.getElem?_eq_some_iff.1 hn
    exact hnd.idxOf_getElem i hi
  refine ⟨e, he, ?_, hl, ?_⟩
  · rw [hs]
    congr 1
    apply List.ext_getElem?
    intro i
    by_cases hi : i < r.nPlies.length
    · have hn : r.nPlies[i]? = some r.nPlies[i] := List.getElem?_eq_getElem hi
      have hm : r.nPlies[i] ∈ plies := (hmem _).1 (List.getElem_mem hi)
      rw [hsi i _ hn, hj _ _ (getElem?_idxOf hm), hidx i _ hn]
    · rw [List.getElem?_eq_none (by omega), List.getElem?_eq_none (by omega)]
  · intro i j n hn hi
    rw [hj j n hn, hidx i n hi]

/-- C15: data that are the same for panels of equal ply count survive reduction and extension. -/
theorem C15_reduce_then_extend {α : Type} (plies : List Nat) (sym : Bool) (nRef : Int)
    (bs : List (Nat × Nat)) (bw : List ((Nat × Nat) × ℚ)) (r : Reduced)
    (h : mkReduced plies sym nRef bs bw = .ok r) (data : List α)
    (hd : data.length = plies.length)
    (heq : ∀ i j : Nat, plies[i]? = plies[j]? → data[i]? = data[j]?) :
    ∃ s, reduceData r data = .ok s ∧ extendData r plies.length s = .ok data := by
  obtain ⟨s, hs, hsl, hsi⟩ := reduceData_ok h data hd
  obtain ⟨e, he, hl, hj⟩ := extendData_ok h s hsl
  obtain ⟨_, hmem, _⟩ := C15_reduction plies sym nRef bs bw r h
  refine ⟨s, hs, ?_⟩
  rw [he]
  congr 1
  apply List.ext_getElem?
  intro j
  by_cases hj' : j < plies.length
  · have hn : plies[j]? = some plies[j] := List.getElem?_eq_getElem hj'
    have hm : plies[j] ∈ r.nPlies := (hmem _).2 (List.getElem_mem hj')
    rw [hj j _ hn, hsi _ _ (getElem?_idxOf hm)]
    apply heq
    rw [getElem?_idxOf (List.getElem_mem hj'), hn]
  · rw [List.getElem?_eq_none (by omega), List.getElem?_eq_none (by omega)]

theorem refLoop_spec (n : Int) (l : List Nat) (off : Nat) (i : Nat)
    (h : refLoop n l off = .ok i) :
    ∃ k m : Nat, i = off + k ∧ 1 ≤ k ∧ l[k]? = some m ∧ n ≤ m ∧
      ∃ m' : Nat, l[k - 1]? = some m' ∧ (m' : Int) < n := by
  induction l generalizing off with
  | nil => cases h
  | cons n1 t ih =>
    cases t with
    | nil => cases h
    | cons n2 rest =>
      unfold refLoop at h
      split at h
      · rename_i hc
        cases h
        exact ⟨1, n2, rfl, le_refl _, rfl, hc.2, n1, rfl, hc.1⟩
      · obtain ⟨k, m, hk, h1, hm, hn, m', hm', hlt⟩ := ih _ h
        refine ⟨k + 1, m, by omega, by omega, by simpa using hm, hn, m', ?_, hlt⟩
        rw [show k + 1 - 1 = (k - 1) + 1 by omega]
        simpa using hm'

/-- C16: the reference panel is the first reduced panel with at least the requested ply count, the
thickest one if there is none. -/
theorem C16_reference_panel (plies : List Nat) (sym : Bool) (nRef : Int) (bs : List (Nat × Nat))
    (bw : List ((Nat × Nat) × ℚ)) (r : Reduced) (h : mkReduced plies sym nRef bs bw = .ok r) :
    ∃ m : Nat, r.nPlies[r.indRef]? = some m ∧ (nRef ≤ m ∨ r.indRef + 1 = r.nPlies.length) ∧
      ∀ i x : Nat, i < r.indRef → r.nPlies[i]? = some x → (x : Int) < nRef := by
  obtain ⟨h1, _, _, _, hr, _⟩ := mkReduced_inv h
  obtain ⟨hsort, _⟩ := C15_reduction plies sym nRef bs bw r h
  rw [← h1] at hr
  have hget : ∀ i j x y : Nat, i < j → r.nPlies[i]? = some x → r.nPlies[j]? = some y → x < y := by
    intro i j x y hij hx hy
    obtain ⟨hi, rfl⟩ := List.getElem?_eq_some_iff.1 hx
    obtain ⟨hj, rfl⟩ := List.getElem?_eq_some_iff.1 hy
    exact List.pairwise_iff_getElem.1 hsort i j hi hj hij
  unfold calcIndRef at hr
  simp only [bind_ok] at hr
  obtain ⟨first, hf, last, hl, hr⟩ := hr
  rw [pyGet_eq_ok] at hf hl
  have hpos : 0 < r.nPlies.length := (List.getElem?_eq_some_iff.1 hf).1
  split at hr
  · rename_i hle
    simp only [pure, Except.pure, Except.ok.injEq] at hr
    rw [← hr]
    exact ⟨first, hf, Or.inl hle, fun i x hi => by omega⟩
  · split at hr
    · rename_i hge
      simp only [pure, Except.pure, Except.ok.injEq] at hr
      rw [← hr]
      refine ⟨last, hl, Or.inr (by omega), ?_⟩
      intro i x hi hx
      have := hget i _ x last hi hx hl
      omega
    · obtain ⟨k, m, hk, hk1, hm, hn, m', hm', hlt⟩ := refLoop_spec _ _ _ _ hr
      simp only [zero_add] at hk
      rw [hk]
      refine ⟨m, hm, Or.inl hn, ?_⟩
      intro i x hi hx
      rcases Nat.lt_or_ge i (k - 1) with h2 | h2
      · have := hget i (k - 1) x m' h2 hx hm'
        omega
      · have : i = k - 1 := by omega
        subst this
        rw [hm'] at hx
        cases hx
        exact hlt

theorem foldlM_isOk {α β : Type} (f : β → α → Py β) (l : List α)
    (h : ∀ b, ∀ a ∈ l, ∃ b', f b a = .ok b') (b : β) : ∃ b', l.foldlM f b = .ok b' := by
  induction l generalizing b with
  | nil => exact ⟨b, rfl⟩
  | cons a l ih =>
    obtain ⟨b', hb⟩ := h b a List.mem_cons_self
    obtain ⟨b'', hb'⟩ := ih (fun b a ha => h b a (List.mem_cons_of_mem _ ha)) b'
    refine ⟨b'', ?_⟩
    rw [List.foldlM_cons, hb]
    exact hb'

theorem refLoop_isOk (n : Int) : ∀ (l : List Nat) (off : Nat) (a b : Nat), l.head? = some a →
    l.getLast? = some b → (a : Int) < n → n < b → ∃ i, refLoop n l off = .ok i
  | [], _, a, b, h, _, _, _ => by simp at h
  | [m], off, a, b, h1, h2, h3, h4 => by
    simp only [List.head?_cons, List.getLast?_singleton, Option.some.injEq] at h1 h2
    omega
  | n1 :: n2 :: rest, off, a, b, h1, h2, h3, h4 => by
    simp only [List.head?_cons, Option.some.injEq] at h1
    subst h1
    unfold refLoop
    by_cases hc : n > n1 ∧ n ≤ n2
    · rw [if_pos hc]; exact ⟨_, rfl⟩
    · rw [if_neg hc]
      exact refLoop_isOk n (n2 :: rest) (off + 1) n2 b rfl (by simpa using h2) (by omega) h4

/-- C15: when the boundaries join panels of the structure and have weights, the reduction succeeds
exactly when there is a panel and, for symmetric laminates, no panel with an odd ply count is thinner
than a panel with an even one. -/
theorem C15_accepted_iff (plies : List Nat) (sym : Bool) (nRef : Int) (bs : List (Nat × Nat))
    (bw : List ((Nat × Nat) × ℚ)) (hb : ∀ b ∈ bs, b.1 < plies.length ∧ b.2 < plies.length)
    (hw : ∀ b ∈ bs, ∃ w, dictGet bw b = .ok w) :
    (∃ r, mkReduced plies sym nRef bs bw = .ok r) ↔
      plies ≠ [] ∧ (sym = true → ∀ n ∈ plies, ∀ m ∈ plies, n < m → n % 2 = 1 → m % 2 = 1) := by
  constructor
  · rintro ⟨r, h⟩
    refine ⟨?_, ?_⟩
    · obtain ⟨m, hm, _⟩ := C16_reference_panel plies sym nRef bs bw r h
      obtain ⟨_, h2, _⟩ := C15_reduction plies sym nRef bs bw r h
      have := (h2 m).1 (List.mem_of_getElem? hm)
      intro hn
      rw [hn] at this
      cases this
    · intro hs
      subst hs
      exact (C15_middle_ply plies nRef bs bw).1 r h
  · rintro ⟨hne, hmid⟩
    have hu : npUniqueNat plies ≠ [] := by
      obtain ⟨a, t, e⟩ := List.exists_cons_of_ne_nil hne
      intro h0
      have : a ∈ npUniqueNat plies := (mem_npUniqueNat _ _).2 (by rw [e]; exact List.mem_cons_self)
      rw [h0] at this
      cases this
    have hul : 0 < (npUniqueNat plies).length := List.length_pos_iff.2 hu
    have s1 : (if sym = true then middlePlyLoop (npUniqueNat plies) false else .ok ()) = .ok () := by
      by_cases hs : sym = true
      · rw [if_pos hs, middlePlyLoop_ok _ _ (npUniqueNat_sorted plies)]
        simp only [mem_npUniqueNat]
        exact ⟨fun h => (by cases h), hmid hs⟩
      · rw [if_neg hs]
    have s2 : ∃ i, calcIndRef (npUniqueNat plies) nRef = .ok i := by
      unfold calcIndRef
      rw [pyGet_ok hul, pyGet_ok (show (npUniqueNat plies).length - 1 < _ by omega)]
      simp only [bind, Except.bind]
      split
      · exact ⟨_, rfl⟩
      · split
        · exact ⟨_, rfl⟩
        · refine refLoop_isOk nRef _ 0 (npUniqueNat plies)[0]
            ((npUniqueNat plies)[(npUniqueNat plies).length - 1]) ?_ ?_ (by omega) (by omega)
          · rw [List.head?_eq_getElem?]; exact List.getElem?_eq_getElem hul
          · rw [List.getLast?_eq_getElem?]; exact List.getElem?_eq_getElem (by omega)
    have hg : ∀ b ∈ bs, (∃ e, pyGet (plies.map (fun n => (npUniqueNat plies).idxOf n)) b.1 = .ok e) ∧
        (∃ e, pyGet (plies.map (fun n => (npUniqueNat plies).idxOf n)) b.2 = .ok e) := by
      intro b hb'
      obtain ⟨g1, g2⟩ := hb b hb'
      exact ⟨⟨_, pyGet_ok (by simpa using g1)⟩, ⟨_, pyGet_ok (by simpa using g2)⟩⟩
    have s3 : ∃ rb, reduceBoundaries (plies.map (fun n => (npUniqueNat plies).idxOf n)) bs = .ok rb := by
      unfold reduceBoundaries
      refine foldlM_isOk _ _ (fun acc b hb' => ?_) []
      obtain ⟨⟨e1, h1⟩, ⟨e2, h2⟩⟩ := hg b hb'
      simp only [h1, h2, bind, Except.bind]
      split <;> exact ⟨_, rfl⟩
    have s4 : ∃ w, reduceBoundaryWeights (plies.map (fun n => (npUniqueNat plies).idxOf n)) bs bw
        = .ok w := by
      unfold reduceBoundaryWeights
      refine foldlM_isOk _ _ (fun acc b hb' => ?_) []
      obtain ⟨⟨e1, h1⟩, ⟨e2, h2⟩⟩ := hg b hb'
      obtain ⟨w, h3⟩ := hw b hb'
      have h3' : dictGet bw (b.1, b.2) = .ok w := h3
      simp only [h1, h2, h3', bind, Except.bind]
      split
      · split <;> exact ⟨_, rfl⟩
      · exact ⟨_, rfl⟩
    obtain ⟨i, h2⟩ := s2
    obtain ⟨rb, h3⟩ := s3
    obtain ⟨w, h4⟩ := s4
    unfold mkReduced
    simp only [s1, h2, h3, h4, bind, Except.bind]
    exact ⟨_, rfl⟩

example : (∃ r, mkReduced [12, 16, 17, 12] true 14 [(0, 1), (1, 2), (2, 3)]
      [((0, 1), 1), ((1, 2), 2), ((2, 3), 3)] = .ok r) ∧
    ¬ (∃ r, mkReduced [13, 16] true 14 [] [] = .ok r) := by
  rw [C15_accepted_iff _ _ _ _ _ (by decide) (by
    intro b hb
    simp only [List.mem_cons, List.not_mem_nil, or_false] at hb
    rcases hb with rfl | rfl | rfl
    · exact ⟨1, by decide +kernel⟩
    · exact ⟨2, by decide +kernel⟩
    · exact ⟨3, by decide +kernel⟩), C15_accepted_iff _ _ _ _ _ (by decide) (by simp)]
  constructor
  · decide
  · decide

end Bella
