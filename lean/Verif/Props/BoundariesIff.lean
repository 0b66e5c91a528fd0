import Verif.Props.Boundaries
import Verif.Props.Reduced
import Verif.Props.ViolaCount

/-! # C46: structures accepted by the constructor of `MultiPanel`, as far as boundaries are concerned -/

namespace Bella

/-- A boundary has a weighting different from zero under one of its two keys. -/
def Spec.HasWeight (w : List ((Int × Int) × ℚ)) (p q : Int) : Prop :=
  (∃ x, x ≠ 0 ∧ w.lookup (p, q) = some x) ∨ (∃ x, x ≠ 0 ∧ w.lookup (q, p) = some x)

theorem getD_ne_zero {o : Option ℚ} : o.getD 0 ≠ 0 ↔ ∃ x, x ≠ 0 ∧ o = some x := by
  cases o with
  | none => simp
  | some x => simp

theorem weightOf_isOk (w : List ((Int × Int) × ℚ)) (a b : Int) :
    (∃ x, weightOf w a b = .ok x) ↔ Spec.HasWeight w a b := by
  have key : (∃ x, weightOf w a b = .ok x) ↔
      (w.lookup (min a b, max a b)).getD 0 ≠ 0 ∨ (w.lookup (max a b, min a b)).getD 0 ≠ 0 := by
    unfold weightOf
    by_cases h1 : (w.lookup (min a b, max a b)).getD 0 ≠ 0
    · simp [h1]
    · by_cases h2 : (w.lookup (max a b, min a b)).getD 0 ≠ 0
      · simp only [if_neg h1, if_pos h2]
        exact ⟨fun _ => Or.inr h2, fun _ => ⟨_, rfl⟩⟩
      · simp only [if_neg h1, if_neg h2]
        exact ⟨fun ⟨_, h⟩ => (by cases h), fun h => (h.elim h1 h2).elim⟩
  rw [key, getD_ne_zero, getD_ne_zero]
  rcases le_total a b with h | h
  · rw [min_eq_left h, max_eq_right h]; rfl
  · rw [min_eq_right h, max_eq_left h]; exact or_comm

theorem foldlM_isOk_iff {α β : Type} (f : β → α → Py β) (l : List α) (Q : α → Prop)
    (h : ∀ b, ∀ a ∈ l, (∃ b', f b a = .ok b') ↔ Q a) (b : β) :
    (∃ b', l.foldlM f b = .ok b') ↔ ∀ a ∈ l, Q a := by
  induction l generalizing b with
  | nil => exact ⟨fun _ a ha => (by cases ha), fun _ => ⟨b, rfl⟩⟩
  | cons a l ih =>
    have ih' := ih (fun b a ha => h b a (List.mem_cons_of_mem _ ha))
    constructor
    · rintro ⟨b', hb'⟩
      rw [List.foldlM_cons, bind_ok] at hb'
      obtain ⟨c, hc, hr⟩ := hb'
      intro x hx
      rcases List.mem_cons.1 hx with rfl | hx
      · exact (h b x List.mem_cons_self).1 ⟨c, hc⟩
      · exact (ih' c).1 ⟨b', hr⟩ x hx
    · intro hq
      obtain ⟨c, hc⟩ := (h b a List.mem_cons_self).2 (hq a List.mem_cons_self)
      obtain ⟨b', hb'⟩ := (ih' c).2 (fun x hx => hq x (List.mem_cons_of_mem _ hx))
      exact ⟨b', by rw [List.foldlM_cons, bind_ok]; exact ⟨c, hc, hb'⟩⟩

theorem mem_keys_of_lookup {w : List ((Int × Int) × ℚ)} {k : Int × Int} {x : ℚ}
    (h : w.lookup k = some x) : k ∈ w.map Prod.fst := by
  induction w with
  | nil => cases h
  | cons p w ih =>
    rw [List.lookup_cons] at h
    by_cases e : k == p.1
    · rw [List.map_cons, List.mem_cons]; exact Or.inl (by simpa using e)
    · simp only [e] at h
      rw [List.map_cons, List.mem_cons]; exact Or.inr (ih h)

/-- C46: a set of panels is accepted if and only if the IDs are different, all the neighbours exist, the
panels are connected and, if weightings are given, none is negative and every boundary has a weighting
that is not zero. -/
theorem C46_accepted_iff (pick : List Nat → Nat) (hpick : ∀ l, l ≠ [] → pick l ∈ l)
    (panels : List PanelIds) (weights : Option (List ((Int × Int) × ℚ))) :
    (∃ r, calcPanelBoundaryDict pick panels weights = .ok r) ↔
      (panels.map (·.ID)).Nodup ∧ (∀ p ∈ panels, ∀ n ∈ p.neighbours, ∃ q ∈ panels, q.ID = n) ∧
      Spec.ConnectedPanels panels ∧
      ∀ w, weights = some w → (∀ e ∈ w, 0 ≤ e.2) ∧
        ∀ (i j : Nat) (p q : PanelIds), panels[i]? = some p → panels[j]? = some q → Spec.Adj panels i j →
          Spec.HasWeight w p.ID q.ID := by
  have hdict : (∃ d, idDict panels = .ok d) ↔ (panels.map (·.ID)).Nodup := by
    unfold idDict
    have e : (panels.map (·.ID)).dedup.length = panels.length ↔ (panels.map (·.ID)).Nodup := by
      rw [← List.dedup_eq_self]
      constructor
      · intro h
        exact (List.dedup_sublist _).eq_of_length (by rw [h, List.length_map])
      · intro h; rw [h, List.length_map]
    by_cases h : (panels.map (·.ID)).dedup.length = panels.length
    · rw [if_neg (by simpa using h)]
      exact ⟨fun _ => e.1 h, fun _ => ⟨_, rfl⟩⟩
    · rw [if_pos h]
      exact ⟨fun ⟨_, hh⟩ => (by cases hh), fun hh => absurd (e.2 hh) h⟩
  have hget : ∀ d, idDict panels = .ok d → ∀ n, (∃ i, dictGet d n = .ok i) ↔ ∃ q ∈ panels, q.ID = n := by
    intro d hd n
    constructor
    · rintro ⟨i, hi⟩
      rw [dictGet_eq_ok, idDict_lookup hd] at hi
      obtain ⟨q, hq, rfl⟩ := hi
      exact ⟨q, List.mem_of_getElem? hq, rfl⟩
    · rintro ⟨q, hq, rfl⟩
      obtain ⟨i, hi⟩ := List.mem_iff_getElem?.1 hq
      exact ⟨i, by rw [dictGet_eq_ok, idDict_lookup hd]; exact ⟨q, hi, rfl⟩⟩
  have hdirs : ∀ d, idDict panels = .ok d → ((∃ b, directedBoundaries panels d = .ok b) ↔
      ∀ p ∈ panels, ∀ n ∈ p.neighbours, ∃ q ∈ panels, q.ID = n) := by
    intro d hd
    have h1 : (∃ b, directedBoundaries panels d = .ok b) ↔
        ∀ x ∈ panels.zipIdx, ∃ ns, x.1.neighbours.mapM (fun n => dictGet d n) = .ok ns := by
      unfold directedBoundaries
      constructor
      · rintro ⟨b, hb⟩ x hx
        rw [bind_ok] at hb
        obtain ⟨rows, hr, _⟩ := hb
        obtain ⟨y, hy⟩ := (mapM_isOk _ _).1 ⟨rows, hr⟩ x hx
        simp only [bind_ok] at hy
        obtain ⟨ns, hn, _⟩ := hy
        exact ⟨ns, hn⟩
      · intro h
        obtain ⟨rows, hr⟩ := (mapM_isOk (fun (x : PanelIds × Nat) => (do
            let ns ← x.1.neighbours.mapM (fun n => dictGet d n)
            return ns.flatMap (fun e => [sort2 x.2 e, (sort2 x.2 e).swap]) : Py _)) panels.zipIdx).2 (by
          intro x hx
          obtain ⟨ns, hn⟩ := h x hx
          exact ⟨_, by rw [bind_ok]; exact ⟨ns, hn, rfl⟩⟩)
        exact ⟨_, by rw [bind_ok]; exact ⟨rows, hr, rfl⟩⟩
    rw [h1]
    constructor
    · intro h p hp n hn
      obtain ⟨i, hi⟩ := List.mem_iff_getElem?.1 hp
      obtain ⟨ns, hns⟩ := h (p, i) (List.mem_zipIdx_iff_getElem?.2 (by simpa using hi))
      exact (hget d hd n).1 ((mapM_isOk _ _).1 ⟨ns, hns⟩ n hn)
    · intro h x hx
      have := List.mem_zipIdx_iff_getElem?.1 hx
      exact (mapM_isOk _ _).2 (fun n hn => (hget d hd n).2 (h x.1 (List.mem_of_getElem? (by simpa using this)) n hn))
  constructor
  · rintro ⟨⟨bs, bw⟩, h⟩
    obtain ⟨c1, c2, c3⟩ := C46_boundaries pick hpick panels weights bs bw h
    unfold calcPanelBoundaryDict at h
    simp only [bind_ok] at h
    obtain ⟨dict, hd, dirs, hb, _, hc, bw', hw, hr⟩ := h
    simp only [pure, Except.pure, Except.ok.injEq, Prod.mk.injEq] at hr
    obtain ⟨e1, rfl⟩ := hr
    rw [e1] at hw
    refine ⟨hdict.1 ⟨_, hd⟩, (hdirs dict hd).1 ⟨_, hb⟩, c1, ?_⟩
    rintro w rfl
    simp only [mkBoundaryWeights] at hw
    by_cases hneg : w.any (fun p => decide (p.2 < 0)) = true
    · rw [if_pos hneg] at hw; cases hw
    rw [if_neg hneg] at hw
    by_cases hlen : w.length < bs.length
    · rw [if_pos hlen] at hw; cases hw
    rw [if_neg hlen] at hw
    refine ⟨fun e he => ?_, ?_⟩
    · by_contra hlt
      exact hneg (List.any_eq_true.2 ⟨e, he, decide_eq_true (not_le.1 hlt)⟩)
    · have hall : ∀ b ∈ bs, Spec.HasWeight w (panels.getD b.1 ⟨0, []⟩).ID (panels.getD b.2 ⟨0, []⟩).ID := by
        refine (foldlM_isOk_iff _ bs _ ?_ []).1 ⟨_, hw⟩
        intro d b hbm
        obtain ⟨hle, hadj⟩ := (c3 b.1 b.2).1 hbm
        obtain ⟨l1, l2⟩ := adj_lt hadj
        rw [← weightOf_isOk, boundaryKey_ok hd b l1 l2 hle]
        constructor
        · rintro ⟨d', hd'⟩
          simp only [bind_ok] at hd'
          obtain ⟨_, _, x, hx, _⟩ := hd'
          exact ⟨x, hx⟩
        · rintro ⟨x, hx⟩
          exact ⟨_, by simp only [bind_ok]; exact ⟨b, rfl, x, hx, rfl⟩⟩
      intro i j p q hp hq hadj
      rcases le_total i j with hle | hle
      · have := hall _ ((c3 i j).2 ⟨hle, hadj⟩)
        simpa [List.getD_eq_getElem?_getD, hp, hq] using this
      · have := hall _ ((c3 j i).2 ⟨hle, adj_symm hadj⟩)
        simp only [List.getD_eq_getElem?_getD, hp, hq, Option.getD_some] at this
        exact this.symm
  · rintro ⟨c1, c2, c3, c4⟩
    obtain ⟨dict, hd⟩ := hdict.2 c1
    obtain ⟨dirs, hb⟩ := (hdirs dict hd).2 c2
    have hcon := (C46_connectivity pick hpick panels dict dirs hd hb).2 c3
    have hmem : ∀ b, b ∈ npUniqueRows (dirs.map (fun b => sort2 b.1 b.2)) → b.1 ≤ b.2 ∧ Spec.Adj panels b.1 b.2 := by
      intro b hbm
      rw [mem_npUniqueRows, List.mem_map] at hbm
      obtain ⟨⟨a, b'⟩, hab, e⟩ := hbm
      have := (mem_directedBoundaries hd hb (a, b')).1 hab
      unfold sort2 at e
      split at e <;> (cases e)
      · exact ⟨by assumption, this⟩
      · exact ⟨by simp only at *; omega, adj_symm this⟩
    have hnd : (npUniqueRows (dirs.map (fun b => sort2 b.1 b.2))).Nodup := by
      unfold npUniqueRows
      exact ((List.perm_insertionSort _ _).nodup_iff).2 (List.nodup_dedup _)
    have hw : ∃ bw, mkBoundaryWeights panels dict (npUniqueRows (dirs.map (fun b => sort2 b.1 b.2))) weights = .ok bw := by
      generalize npUniqueRows (dirs.map (fun b => sort2 b.1 b.2)) = bs at hmem hnd
      cases weights with
      | none =>
        refine foldlM_isOk _ bs ?_ []
        intro d b hbm
        obtain ⟨hle, hadj⟩ := hmem b hbm
        obtain ⟨l1, l2⟩ := adj_lt hadj
        rw [boundaryKey_ok hd b l1 l2 hle]
        exact ⟨_, rfl⟩
      | some w =>
        obtain ⟨w1, w2⟩ := c4 w rfl
        have hW : ∀ b ∈ bs, Spec.HasWeight w (panels.getD b.1 ⟨0, []⟩).ID (panels.getD b.2 ⟨0, []⟩).ID := by
          intro b hbm
          obtain ⟨hle, hadj⟩ := hmem b hbm
          obtain ⟨p, q, hp, hq, _⟩ := hadj
          have := w2 b.1 b.2 p q hp hq (hmem b hbm).2
          simpa [List.getD_eq_getElem?_getD, hp, hq] using this
        have hneg : ¬ w.any (fun p => decide (p.2 < 0)) = true := by
          intro h
          obtain ⟨e, he, hlt⟩ := List.any_eq_true.1 h
          exact absurd (of_decide_eq_true hlt) (not_lt.2 (w1 e he))
        have hlen : ¬ w.length < bs.length := by
          rw [not_lt]
          -- every boundary gives a different key
          let ID := fun i : Nat => (panels.getD i ⟨0, []⟩).ID
          have hinj : ∀ i j, i < panels.length → j < panels.length → ID i = ID j → i = j := by
            intro i j hi hj he
            have h1 : (panels.map (·.ID))[i]? = some (ID i) := by simp [ID, hi]
            have h2 : (panels.map (·.ID))[j]? = some (ID j) := by simp [ID, hj]
            exact (List.getElem?_inj (by simpa using hi) c1).1 (by rw [h1, h2, he])
          classical
          let key := fun b : Nat × Nat => if (w.lookup (ID b.1, ID b.2)).isSome then (ID b.1, ID b.2)
            else (ID b.2, ID b.1)
          have hk1 : ∀ b ∈ bs, key b ∈ w.map Prod.fst := by
            intro b hbm
            by_cases hs : (w.lookup (ID b.1, ID b.2)).isSome
            · simp only [key, hs, if_true]
              obtain ⟨x, hx⟩ := Option.isSome_iff_exists.1 hs
              exact mem_keys_of_lookup hx
            · simp only [key, hs]
              rcases hW b hbm with ⟨x, _, hx⟩ | ⟨x, _, hx⟩
              · exact absurd (by rw [show w.lookup (ID b.1, ID b.2) = some x from hx]; rfl) hs
              · exact mem_keys_of_lookup hx
          have hk2 : (bs.map key).Nodup := by
            refine List.Nodup.map_on ?_ hnd
            intro b hbm b' hbm' he
            obtain ⟨g1, a1⟩ := hmem b hbm
            obtain ⟨g2, a2⟩ := hmem b' hbm'
            obtain ⟨l1, l2⟩ := adj_lt a1
            obtain ⟨m1, m2⟩ := adj_lt a2
            have hc : (ID b.1 = ID b'.1 ∧ ID b.2 = ID b'.2) ∨ (ID b.1 = ID b'.2 ∧ ID b.2 = ID b'.1) := by
              simp only [key] at he
              split at he <;> split at he <;> simp only [Prod.mk.injEq] at he
              · exact Or.inl he
              · exact Or.inr he
              · exact Or.inr ⟨he.2, he.1⟩
              · exact Or.inl ⟨he.2, he.1⟩
            rcases hc with ⟨e1, e2⟩ | ⟨e1, e2⟩
            · exact Prod.ext (hinj _ _ l1 m1 e1) (hinj _ _ l2 m2 e2)
            · have h1 := hinj _ _ l1 m2 e1
              have h2 := hinj _ _ l2 m1 e2
              exact Prod.ext (by omega) (by omega)
          have := (hk2.subperm (l₂ := w.map Prod.fst) (by
            intro k hk
            obtain ⟨b, hbm, rfl⟩ := List.mem_map.1 hk
            exact hk1 b hbm)).length_le
          simpa using this
        simp only [mkBoundaryWeights]
        rw [if_neg hneg, if_neg hlen]
        refine foldlM_isOk _ bs ?_ []
        intro d b hbm
        obtain ⟨hle, hadj⟩ := hmem b hbm
        obtain ⟨l1, l2⟩ := adj_lt hadj
        rw [boundaryKey_ok hd b l1 l2 hle]
        obtain ⟨x, hx⟩ := (weightOf_isOk w _ _).2 (hW b hbm)
        exact ⟨_, by simp only [bind_ok]; exact ⟨b, rfl, x, hx, rfl⟩⟩
    obtain ⟨bw, hbw⟩ := hw
    refine ⟨(npUniqueRows (dirs.map (fun b => sort2 b.1 b.2)), bw), ?_⟩
    unfold calcPanelBoundaryDict
    simp only [bind_ok]
    exact ⟨dict, hd, dirs, hb, (), by rw [if_pos hcon], bw, hbw, rfl⟩

/-- both sides of the criterion are met by three panels in a row with weightings, and fail for two panels
that are not neighbours -/
example : (∃ r, calcPanelBoundaryDict (fun l => l.headD 0) [⟨1, [2]⟩, ⟨2, [3]⟩, ⟨3, []⟩]
      (some [((1, 2), 3), ((3, 2), 1)]) = .ok r) ∧
    ¬ ∃ r, calcPanelBoundaryDict (fun l => l.headD 0) [⟨1, []⟩, ⟨2, []⟩] none = .ok r := by
  constructor
  · exact ⟨([(0, 1), (1, 2)], [((0, 1), 3), ((2, 1), 1)]), by decide +kernel⟩
  · rintro ⟨r, h⟩
    have : calcPanelBoundaryDict (fun l => l.headD 0) [⟨1, []⟩, ⟨2, []⟩] none =
      .error (.exc "The panels of the multipanel-component are not all connected!") := by decide +kernel
    rw [this] at h
    cases h

end Bella
