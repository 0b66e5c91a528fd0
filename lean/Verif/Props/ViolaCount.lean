import Verif.Proofs.ViolaCount
import Verif.Props.Contig
/-
C80: the counts of violations updated ply by ply.
-/
namespace Bella

/-- The levels of a panel: the angle laid up at each level and whether the panel has this ply. -/
def panelLevels (angles : List Int) (row : List Int) : List (Int × Bool) :=
  angles.zip (row.map (fun d => decide (0 ≤ d)))

/-- The successive calls of `calc_n_viola_diso` for a laminate laid up level by level: counts after `k` levels. -/
def disoSearch (angles : List Int) (pdl : List (List Int)) (sym : Bool) (delta : Int) : Nat → Py (List Nat)
  | 0 => .ok (pdl.map (fun _ => 0))
  | k + 1 => do
    let m ← disoSearch angles pdl sym delta k
    let c ← pyGet angles k
    calcNViolaDiso m (pdl.map (fun row => Spec.bottomPlies sym ((panelLevels angles row).take k))) c k pdl.length pdl
      sym delta (pdl.map (fun row => Spec.topPlies ((panelLevels angles row).take k))) (k + 1 == angles.length)

theorem mapM_range_get {α β : Type} (g : α → Py β) : ∀ (l : List α) (f : Nat → Py β)
    (_ : ∀ p (hp : p < l.length), f p = g l[p]), (List.range l.length).mapM f = l.mapM g
  | [], _, _ => rfl
  | a :: t, f, h => by
    rw [List.length_cons, List.range_succ_eq_map, List.mapM_cons, List.mapM_cons, List.mapM_map,
      h 0 (by simp), mapM_range_get g t (f ∘ Nat.succ) (fun p hp => h (p + 1) (by simpa using hp))]
    rfl

/-- The count of one panel at one level. -/
def panelDiso (sym : Bool) (delta : Int) (level : Nat) (last : Bool) (d child : Int) (bot top : Stack) (n : Nat) :
    Py Nat := do
  let n ← (if !sym && last then violaDisoLast delta level d child bot top n else .ok n)
  return violaDisoNew sym delta level d child bot top n

theorem calcNViolaDiso_eq (pdl : List (List Int)) (m : List Int → Nat) (b t : List Int → Stack) (c : Int) (k : Nat)
    (sym : Bool) (delta : Int) (last : Bool) : calcNViolaDiso (pdl.map m) (pdl.map b) c k pdl.length pdl sym delta
      (pdl.map t) last = pdl.mapM (fun row => do
        let d ← pyGet row k
        panelDiso sym delta k last d c (b row) (t row) (m row)) := by
  unfold calcNViolaDiso
  refine mapM_range_get _ _ _ (fun p hp => ?_)
  rw [pyGet_ok (l := pdl.map m) (by simpa using hp), pyGet_ok (l := pdl.map b) (by simpa using hp),
    pyGet_ok (l := pdl.map t) (by simpa using hp), pyGet_ok hp]
  simp only [List.getElem_map]
  rfl

theorem levels_at {angles row : List Int} {k : Nat} {c d : Int} (hc : angles[k]? = some c) (hd : row[k]? = some d) :
    (panelLevels angles row)[k]? = some (c, decide (0 ≤ d)) := by
  unfold panelLevels
  rw [List.getElem?_zip_eq_some]
  exact ⟨hc, by rw [List.getElem?_map, hd]; rfl⟩

theorem bottom_succ {lv : List (Int × Bool)} {k : Nat} {c : Int} {b : Bool} (sym : Bool) (h : lv[k]? = some (c, b)) :
    Spec.bottomPlies sym (lv.take (k + 1)) =
      Spec.bottomPlies sym (lv.take k) ++ (if b && (sym || k % 2 == 0) then [c] else []) := by
  have hk := (List.getElem?_eq_some_iff.1 h).1
  unfold Spec.bottomPlies
  rw [List.take_add_one, h, List.zipIdx_append, List.filter_append, List.map_append]
  congr 1
  rw [List.length_take, min_eq_left (by omega)]
  simp only [Option.toList_some, List.zipIdx_cons, List.zipIdx_nil, Nat.zero_add, List.filter_cons, List.filter_nil]
  split <;> rfl

theorem top_succ {lv : List (Int × Bool)} {k : Nat} {c : Int} {b : Bool} (h : lv[k]? = some (c, b)) :
    Spec.topPlies (lv.take (k + 1)) = (if b && k % 2 == 1 then [c] else []) ++ Spec.topPlies (lv.take k) := by
  have hk := (List.getElem?_eq_some_iff.1 h).1
  unfold Spec.topPlies
  rw [List.take_add_one, h, List.zipIdx_append, List.filter_append, List.map_append, List.reverse_append]
  congr 1
  rw [List.length_take, min_eq_left (by omega)]
  simp only [Option.toList_some, List.zipIdx_cons, List.zipIdx_nil, Nat.zero_add, List.filter_cons, List.filter_nil]
  split <;> rfl

theorem levels_range {angles row : List Int} (hr : ∀ a ∈ angles, -90 ≤ a ∧ a ≤ 90) {k : Nat} :
    (∀ sym, ∀ a ∈ Spec.bottomPlies sym ((panelLevels angles row).take k), -90 ≤ a ∧ a ≤ 90) ∧
    ∀ a ∈ Spec.topPlies ((panelLevels angles row).take k), -90 ≤ a ∧ a ≤ 90 := by
  have key : ∀ x ∈ ((panelLevels angles row).take k).zipIdx, -90 ≤ x.1.1 ∧ x.1.1 ≤ 90 := by
    intro x hx
    have h1 := List.mem_of_mem_take (List.fst_mem_of_mem_zipIdx hx)
    exact hr _ (List.of_mem_zip h1).1
  constructor
  · intro sym a ha
    obtain ⟨x, hx, rfl⟩ := List.mem_map.1 ha
    exact key x (List.mem_of_mem_filter hx)
  · intro a ha
    obtain ⟨x, hx, rfl⟩ := List.mem_map.1 (List.mem_reverse.1 ha)
    exact key x (List.mem_of_mem_filter hx)

theorem violaDisoNew_eq {sym : Bool} {delta : Int} {k : Nat} {d c : Int} {bot top : Stack} {n : Nat}
    (hc : -90 ≤ c ∧ c ≤ 90) (hb : ∀ a ∈ bot, -90 ≤ a ∧ a ≤ 90) (ht : ∀ a ∈ top, -90 ≤ a ∧ a ≤ 90) :
    violaDisoNew sym delta k d c bot top n = n +
      (if decide (0 ≤ d) && (sym || k % 2 == 0) then (if sym then 2 else 1) * crossDiso delta bot [c] else 0) +
      (if !sym && decide (0 ≤ d) && k % 2 == 1 then crossDiso delta [c] top else 0) := by
  have e1 : ∀ j, addDisoOpt delta c j n bot.getLast? = n + j * crossDiso delta bot [c] := by
    intro j
    cases hb' : bot.getLast? with
    | none => simp [crossDiso, hb', addDisoOpt]
    | some b =>
      have hm := List.mem_of_getLast? hb'
      have : crossDiso delta bot [c] = crossDiso delta [b] [c] := by simp [crossDiso, hb']
      rw [this]
      rw [addDisoOpt, addDiso_eq _ _ _ _ _ hc (hb b hm)]
      have := crossDiso_comm delta [b] [c]
      simp only [List.reverse_singleton] at this
      rw [this]
  have e2 : addDisoOpt delta c 1 n top.head? = n + crossDiso delta [c] top := by
    cases ht' : top.head? with
    | none => simp [crossDiso, ht', addDisoOpt]
    | some t =>
      have hm := List.mem_of_mem_head? ht'
      have : crossDiso delta [c] top = crossDiso delta [c] [t] := by simp [crossDiso, ht']
      rw [this]
      rw [addDisoOpt, addDiso_eq _ _ _ _ _ hc (ht t hm), one_mul]
  unfold violaDisoNew
  rw [e1, e2]
  cases sym with
  | true => by_cases h : 0 ≤ d <;> simp [h]
  | false =>
    rcases Nat.mod_two_eq_zero_or_one k with h2 | h2 <;> by_cases h : 0 ≤ d <;> simp [h, h2]

/-- The count of a panel before the last level. -/
noncomputable def disoInv (sym : Bool) (delta : Int) (lv : List (Int × Bool)) : Nat :=
  if sym then 2 * Spec.disoViolations delta (Spec.bottomPlies true lv)
  else Spec.disoViolations delta (Spec.bottomPlies false lv) + Spec.disoViolations delta (Spec.topPlies lv)

theorem disoInv_step {sym : Bool} {delta : Int} {angles row : List Int} {k : Nat} {d c : Int}
    (hr : ∀ a ∈ angles, -90 ≤ a ∧ a ≤ 90) (hc : angles[k]? = some c) (hd : row[k]? = some d) :
    violaDisoNew sym delta k d c (Spec.bottomPlies sym ((panelLevels angles row).take k))
      (Spec.topPlies ((panelLevels angles row).take k)) (disoInv sym delta ((panelLevels angles row).take k)) =
    disoInv sym delta ((panelLevels angles row).take (k + 1)) := by
  obtain ⟨r1, r2⟩ := levels_range (row := row) (k := k) hr
  rw [violaDisoNew_eq (hr c (List.mem_of_getElem? hc)) (r1 sym) r2]
  have hl := levels_at hc hd
  unfold disoInv
  rw [bottom_succ true hl, bottom_succ false hl, top_succ hl]
  cases sym with
  | true =>
    by_cases h : 0 ≤ d
    · simp only [h, decide_true, Bool.true_or, Bool.and_true, if_true, disoViolations_append, disoViolations_one]
      simp
      omega
    · simp [h]
  | false =>
    rcases Nat.mod_two_eq_zero_or_one k with h2 | h2 <;> by_cases h : 0 ≤ d <;>
      simp [h, h2, disoViolations_append, disoViolations_cons', disoViolations_nil, crossDiso_nil] <;> omega

theorem disoSearch_inv {sym : Bool} {delta : Int} {angles : List Int} {pdl : List (List Int)}
    (hr : ∀ a ∈ angles, -90 ≤ a ∧ a ≤ 90) (hlen : ∀ row ∈ pdl, row.length = angles.length) : ∀ k,
    (sym = true ∧ k ≤ angles.length) ∨ k < angles.length → disoSearch angles pdl sym delta k =
      .ok (pdl.map (fun row => disoInv sym delta ((panelLevels angles row).take k)))
  | 0, _ => by
    unfold disoSearch
    congr 1
    refine List.map_congr_left (fun row _ => ?_)
    unfold disoInv
    split <;> rfl
  | k + 1, h => by
    have hk : k < angles.length := by omega
    unfold disoSearch
    rw [disoSearch_inv hr hlen k (Or.inr hk), pyGet_ok hk]
    simp only [bind, Except.bind]
    rw [calcNViolaDiso_eq]
    refine mapM_ok _ _ _ (fun row hrow => ?_)
    have hkr : k < row.length := by rw [hlen row hrow]; exact hk
    rw [pyGet_ok hkr]
    have hl : (!sym && (k + 1 == angles.length)) = false := by
      rcases h with ⟨rfl, _⟩ | h
      · rfl
      · have : (k + 1 == angles.length) = false := by rw [beq_eq_false_iff_ne]; omega
        rw [this, Bool.and_false]
    simp only [bind, Except.bind, panelDiso, hl, Bool.false_eq_true, if_false, pure, Except.pure]
    rw [disoInv_step hr (List.getElem?_eq_getElem hk) (List.getElem?_eq_getElem hkr)]

theorem disoLast_ok {delta : Int} {k : Nat} {d c : Int} {bot top : Stack} {n x : Nat}
    (hc : -90 ≤ c ∧ c ≤ 90) (hb : ∀ a ∈ bot, -90 ≤ a ∧ a ≤ 90) (ht : ∀ a ∈ top, -90 ≤ a ∧ a ≤ 90)
    (h : violaDisoLast delta k d c bot top n = .ok x) : x = n +
      if 0 ≤ d then (if k % 2 = 0 then crossDiso delta [c] top else crossDiso delta bot [c])
      else crossDiso delta bot top := by
  have hT : ∀ t, pyGet top 0 = .ok t → -90 ≤ t ∧ t ≤ 90 ∧ top.head? = some t := by
    intro t h
    rw [pyGet_eq_ok] at h
    obtain ⟨h1, h2⟩ := ht t (List.mem_of_getElem? h)
    exact ⟨h1, h2, by rw [List.head?_eq_getElem?, h]⟩
  have hB : ∀ b, pyLast bot = .ok b → -90 ≤ b ∧ b ≤ 90 ∧ bot.getLast? = some b := by
    intro b h
    unfold pyLast at h
    cases ha : bot.getLast? with
    | none => rw [ha] at h; cases h
    | some a =>
      rw [ha] at h
      cases h
      obtain ⟨h1, h2⟩ := hb _ (List.mem_of_getLast? ha)
      exact ⟨h1, h2, rfl⟩
  unfold violaDisoLast at h
  by_cases hd : 0 ≤ d
  · rw [if_pos hd] at h ⊢
    by_cases hk : k % 2 = 0
    · rw [if_pos hk] at h ⊢
      obtain ⟨t, h1, h2⟩ := bind_ok.1 h
      obtain ⟨q1, q2, q3⟩ := hT t h1
      rw [← Except.ok.inj h2, addDiso_eq _ _ _ _ _ hc ⟨q1, q2⟩, one_mul]
      simp [crossDiso, q3]
    · rw [if_neg hk] at h ⊢
      obtain ⟨b, h1, h2⟩ := bind_ok.1 h
      obtain ⟨q1, q2, q3⟩ := hB b h1
      rw [← Except.ok.inj h2, addDiso_eq _ _ _ _ _ hc ⟨q1, q2⟩, one_mul]
      have := crossDiso_comm delta [b] [c]
      simp only [List.reverse_singleton] at this
      rw [this]
      simp [crossDiso, q3]
  · rw [if_neg hd] at h ⊢
    obtain ⟨b, h1, h⟩ := bind_ok.1 h
    obtain ⟨t, h2, h⟩ := bind_ok.1 h
    obtain ⟨q1, q2, q3⟩ := hB b h1
    obtain ⟨p1, p2, p3⟩ := hT t h2
    rw [← Except.ok.inj h, addDiso_eq _ _ _ _ _ ⟨q1, q2⟩ ⟨p1, p2⟩, one_mul]
    simp [crossDiso, q3, p3]

theorem disoInv_sym {delta : Int} (hd : 0 ≤ delta) (middle : Bool) (lv : List (Int × Bool)) :
    disoInv true delta lv = Spec.disoViolations delta (Spec.levelLaminate true middle lv) := by
  unfold disoInv Spec.levelLaminate
  rw [if_pos rfl, if_pos rfl]
  generalize Spec.bottomPlies true lv = s
  have hw : ∀ a, Spec.WithinAngle delta a a := fun a => ⟨0, by simpa using hd⟩
  have h0 : crossDiso delta s s.reverse = 0 := by
    unfold crossDiso
    rw [List.head?_reverse]
    cases s.getLast? with
    | none => rfl
    | some a => exact if_pos (hw a)
  cases middle with
  | false =>
    simp only [Bool.false_eq_true, if_false]
    rw [disoViolations_append, disoViolations_reverse, h0]
    omega
  | true =>
    rw [if_pos rfl]
    rcases List.eq_nil_or_concat s with rfl | ⟨t, a, rfl⟩
    · rfl
    · rw [List.concat_eq_append, List.reverse_append, List.reverse_singleton, List.singleton_append, List.tail_cons,
        disoViolations_append, disoViolations_append delta (t ++ [a]), disoViolations_reverse, disoViolations_append]
      have h1 : crossDiso delta (t ++ [a]) t.reverse = crossDiso delta t [a] := by
        rw [← crossDiso_comm delta t [a]]
        simp [crossDiso]
      rw [h1, disoViolations_one]
      omega

/-- C80: the counts kept by the successive calls of `calc_n_viola_diso`, for plies laid up level by level from the faces
inwards (alternately at the bottom and at the top of an asymmetric laminate), end, in each panel, with the number of
violations of the disorientation rule by its complete laminate. -/
theorem C80_diso_count (angles : List Int) (pdl : List (List Int)) (sym middle : Bool) (delta : Int) (counts : List Nat)
    (hr : ∀ a ∈ angles, -90 ≤ a ∧ a ≤ 90) (hlen : ∀ row ∈ pdl, row.length = angles.length) (hd : 0 ≤ delta)
    (h : disoSearch angles pdl sym delta angles.length = .ok counts) :
    counts = pdl.map (fun row => Spec.disoViolations delta (Spec.levelLaminate sym middle (panelLevels angles row))) := by
  have hall : ∀ row ∈ pdl, (panelLevels angles row).take angles.length = panelLevels angles row := by
    intro row hrow
    exact List.take_of_length_le (by unfold panelLevels; simp)
  cases sym with
  | true =>
    rw [disoSearch_inv hr hlen _ (Or.inl ⟨rfl, le_rfl⟩)] at h
    rw [← Except.ok.inj h]
    refine List.map_congr_left (fun row hrow => ?_)
    rw [hall row hrow, disoInv_sym hd middle]
  | false =>
    by_cases h0 : angles.length = 0
    · have := List.length_eq_zero_iff.1 h0
      subst this
      rw [← Except.ok.inj h]
      rfl
    · obtain ⟨k, hk⟩ := Nat.exists_eq_succ_of_ne_zero h0
      have hk' : k < angles.length := by omega
      rw [hk, Nat.succ_eq_add_one] at h
      unfold disoSearch at h
      rw [disoSearch_inv hr hlen k (Or.inr hk'), pyGet_ok hk'] at h
      simp only [bind, Except.bind] at h
      rw [calcNViolaDiso_eq] at h
      have h2 := mapM_inv _ _ _ h
      clear h
      have key : ∀ row x, row ∈ pdl → ((do
          let d ← pyGet row k
          panelDiso false delta k (k + 1 == angles.length) d angles[k]
            (Spec.bottomPlies false ((panelLevels angles row).take k)) (Spec.topPlies ((panelLevels angles row).take k))
            (disoInv false delta ((panelLevels angles row).take k))) : Py Nat) = .ok x →
          x = Spec.disoViolations delta (Spec.levelLaminate false middle (panelLevels angles row)) := by
        intro row x hrow hx
        have hkr : k < row.length := by rw [hlen row hrow]; exact hk'
        rw [pyGet_ok hkr] at hx
        obtain ⟨y, hy, hx⟩ := bind_ok.1 hx
        have hy := (Except.ok.inj hy).symm
        subst hy
        unfold panelDiso at hx
        obtain ⟨y, hy, hx⟩ := bind_ok.1 hx
        rw [if_pos (by simp [hk])] at hy
        obtain ⟨r1, r2⟩ := levels_range (row := row) (k := k) hr
        have hc := hr _ (List.getElem_mem hk')
        have hy := disoLast_ok hc (r1 false) r2 hy
        have hx := Except.ok.inj hx
        rw [violaDisoNew_eq hc (r1 false) r2] at hx
        have hl := levels_at (List.getElem?_eq_getElem hk') (List.getElem?_eq_getElem hkr)
        rw [← hall row hrow, hk, ← hx, hy]
        unfold disoInv Spec.levelLaminate
        rw [Nat.succ_eq_add_one, bottom_succ false hl, top_succ hl]
        generalize Spec.bottomPlies false ((panelLevels angles row).take k) = b
        generalize Spec.topPlies ((panelLevels angles row).take k) = t
        have e1 : ∀ c : Int, crossDiso delta (b ++ [c]) t = crossDiso delta [c] t := by intro c; simp [crossDiso]
        have e2 : ∀ c : Int, crossDiso delta b (c :: t) = crossDiso delta b [c] := by intro c; simp [crossDiso]
        by_cases hp : 0 ≤ row[k]
        · rcases Nat.mod_two_eq_zero_or_one k with h2 | h2
          · have e3 : crossDiso delta [] t = 0 := by simp [crossDiso]
            simp [hp, h2, disoViolations_append, disoViolations_nil, crossDiso_nil, e2, e3, disoViolations_cons']
            omega
          · simp [hp, h2, disoViolations_append, disoViolations_nil, crossDiso_nil, e2, disoViolations_cons']
            omega
        · simp [hp, disoViolations_append]
      clear hlen hall
      induction h2 with
      | nil => rfl
      | cons h1 _ ih =>
        rw [List.map_cons, ← key _ _ (by simp) h1, ← ih (fun row x hrow hx => key row x (by simp [hrow]) hx)]


/-- C80: in a symmetric laminate the calls never raise. -/
theorem C80_diso_sym_total (angles : List Int) (pdl : List (List Int)) (delta : Int)
    (hr : ∀ a ∈ angles, -90 ≤ a ∧ a ≤ 90) (hlen : ∀ row ∈ pdl, row.length = angles.length) :
    ∃ counts, disoSearch angles pdl true delta angles.length = .ok counts :=
  ⟨_, disoSearch_inv hr hlen _ (Or.inl ⟨rfl, le_rfl⟩)⟩

theorem pyLast_isOk (s : Stack) : (∃ a, pyLast s = .ok a) ↔ s ≠ [] := by
  unfold pyLast
  cases h : s.getLast? with
  | none => rw [List.getLast?_eq_none_iff] at h; simp [h]
  | some a =>
    have : s ≠ [] := by rintro rfl; cases h
    simp [this]

theorem pyHead_isOk (s : Stack) : (∃ a, pyGet s 0 = .ok a) ↔ s ≠ [] := by
  cases s with
  | nil => simp [pyGet]
  | cons a t => simp [pyGet]

theorem mapM_isOk {α β : Type} (f : α → Py β) (l : List α) :
    (∃ ys, l.mapM f = .ok ys) ↔ ∀ x ∈ l, ∃ y, f x = .ok y := by
  constructor
  · rintro ⟨ys, h⟩ x hx
    have h2 := mapM_inv _ _ _ h
    clear h
    induction h2 with
    | nil => cases hx
    | cons h1 _ ih =>
      rcases List.mem_cons.1 hx with rfl | hx
      · exact ⟨_, h1⟩
      · exact ih hx
  · exact mapM_exists f l

/-- C80: in an asymmetric laminate the last call raises exactly if a panel has no ply to compare with: a panel that has the
last ply needs a ply on the other side of it, one that does not have it needs plies on both sides. -/
theorem C80_diso_asym_raises (angles : List Int) (pdl : List (List Int)) (delta : Int) (hne : angles ≠ [])
    (hr : ∀ a ∈ angles, -90 ≤ a ∧ a ≤ 90) (hlen : ∀ row ∈ pdl, row.length = angles.length) :
    (∃ counts, disoSearch angles pdl false delta angles.length = .ok counts) ↔ ∀ row ∈ pdl,
      let before := (panelLevels angles row).take (angles.length - 1)
      if 0 ≤ row.getD (angles.length - 1) 0 then
        (if (angles.length - 1) % 2 = 0 then Spec.topPlies before ≠ [] else Spec.bottomPlies false before ≠ [])
      else Spec.bottomPlies false before ≠ [] ∧ Spec.topPlies before ≠ [] := by
  have h0 : angles.length ≠ 0 := fun h => hne (List.length_eq_zero_iff.1 h)
  obtain ⟨k, hk⟩ := Nat.exists_eq_succ_of_ne_zero h0
  have hk' : k < angles.length := by omega
  have ek : angles.length - 1 = k := by omega
  rw [ek]
  have e : disoSearch angles pdl false delta angles.length = pdl.mapM (fun row => do
        let d ← pyGet row k
        panelDiso false delta k (k + 1 == angles.length) d angles[k]
          (Spec.bottomPlies false ((panelLevels angles row).take k)) (Spec.topPlies ((panelLevels angles row).take k))
          (disoInv false delta ((panelLevels angles row).take k))) := by
    conv_lhs => rw [hk, Nat.succ_eq_add_one]
    unfold disoSearch
    rw [disoSearch_inv hr hlen k (Or.inr hk'), pyGet_ok hk']
    simp only [bind, Except.bind]
    rw [calcNViolaDiso_eq]
    rfl
  rw [e, mapM_isOk]
  refine forall₂_congr (fun row hrow => ?_)
  have hkr : k < row.length := by rw [hlen row hrow]; exact hk'
  dsimp only
  generalize Spec.bottomPlies false ((panelLevels angles row).take k) = b
  generalize Spec.topPlies ((panelLevels angles row).take k) = t
  rw [pyGet_ok hkr, List.getD_eq_getElem?_getD, List.getElem?_eq_getElem hkr, Option.getD_some]
  have hbeq : (k + 1 == angles.length) = true := by simp [hk]
  simp only [bind, Except.bind, panelDiso, hbeq, Bool.not_false, Bool.and_self, if_true, pure, Except.pure]
  generalize disoInv false delta ((panelLevels angles row).take k) = n
  generalize row[k] = d
  have hB := pyLast_isOk b
  have hT := pyHead_isOk t
  unfold violaDisoLast
  by_cases hd : 0 ≤ d
  · rw [if_pos hd, if_pos hd]
    by_cases h2 : k % 2 = 0
    · rw [if_pos h2, if_pos h2, ← hT]
      cases pyGet t 0 <;> simp [bind, Except.bind, pure, Except.pure]
    · rw [if_neg h2, if_neg h2, ← hB]
      cases pyLast b <;> simp [bind, Except.bind, pure, Except.pure]
  · rw [if_neg hd, if_neg hd, ← hT, ← hB]
    cases pyLast b <;> cases pyGet t 0 <;> simp [bind, Except.bind, pure, Except.pure]

/-! ### Contiguity -/

theorem contigVector_count (st : Stack) (n : Nat) (h2 : 2 ≤ n) (h6 : n ≤ 6) :
    ∃ v, calcContigVector st n = .ok v ∧ countTrue v = Spec.contigViolations n st := by
  obtain ⟨v, hv, hl, hi⟩ := C05_contig_vector st n h2 h6
  refine ⟨v, hv, ?_⟩
  clear hv
  induction st generalizing v with
  | nil =>
    have : v = [] := List.length_eq_zero_iff.1 (by rw [hl]; simp)
    subst this
    rw [contigViolations_nil]
    rfl
  | cons a s ih =>
    by_cases hs : s.length + 1 ≤ n
    · have : v = [] := List.length_eq_zero_iff.1 (by rw [hl, List.length_cons]; omega)
      subst this
      rw [contigViolations_short _ _ (by simpa using hs)]
      rfl
    · cases v with
      | nil => rw [List.length_nil, List.length_cons] at hl; omega
      | cons x v =>
        rw [contigViolations_cons, ← ih v (by rw [List.length_cons, List.length_cons] at hl; omega)
          (fun i h => by
            have := hi (i + 1) (by rw [List.length_cons]; omega)
            simpa using this)]
        have := hi 0 (by rw [List.length_cons]; omega)
        rw [List.getElem?_cons_zero, List.drop_zero] at this
        unfold countTrue runAt
        rw [List.countP_cons]
        by_cases hx : ∃ b, List.replicate (n + 1) b <+: a :: s
        · have h1 : x = true := by simpa using this.2 hx
          rw [if_pos hx, h1]
          simp
          omega
        · have h1 : x = false := by
            cases x with
            | false => rfl
            | true => exact absurd (this.1 rfl) hx
          rw [if_neg hx, h1]
          simp

theorem addContig_eq (sym : Bool) (n m : Nat) (st : Stack) (h2 : 2 ≤ n) (h6 : n ≤ 6) (hs : st.length ≤ n + 1) :
    addContig sym n m st = .ok (m + (if sym then 2 else 1) * Spec.contigViolations n st) := by
  have h1 := contigViolations_short_le n st hs
  have h0 := contigViolations_eq_zero n st
  obtain ⟨c1, c2⟩ := C04_is_contig_iff st n h2 h6
  unfold addContig
  by_cases h : Spec.ContigOK n st
  · rw [c1.2 h, h0.2 h]
    rfl
  · have : Spec.contigViolations n st = 1 := by
      have hz : Spec.contigViolations n st ≠ 0 := fun g => h (h0.1 g)
      omega
    rw [c2.2 h, this]
    cases sym <;> rfl

/-- C80 (violated for the contiguity rule): the first call for a laminate of several levels always raises: nothing has been
laid up yet, and the variable holding the plies to check is not bound. -/
theorem C80_contig_first_call_violation (panels : List (Nat × Stack × Stack × List Int)) (child : Int) (sym : Bool)
    (nContig level n : Nat) (row : List Int) (hlevel : sym = true ∨ level % 2 = 0) (hrow : level < row.length)
    (top : Stack) : calcNViolaContig ((n, [], top, row) :: panels) child sym nContig level false = .error .unbound := by
  unfold calcNViolaContig
  rw [if_neg (by decide), if_pos hlevel]
  unfold contigBottom
  rw [pyGet_ok hrow]
  simp [bind, Except.bind]

/-- C80 (violated for the contiguity rule): the count for a ply added at the bottom is wrong: each new violation is counted
twice instead of once (asymmetric laminate), three times instead of twice (symmetric laminate). -/
theorem C80_contig_bottom_violation (panels : List (Nat × Stack × Stack × List Int)) (child : Int) (sym : Bool)
    (nContig level : Nat) (h2 : 2 ≤ nContig) (h6 : nContig ≤ 6) (hlevel : sym = true ∨ level % 2 = 0)
    (hp : ∀ x ∈ panels, x.2.1 ≠ [] ∧ ∃ d, x.2.2.2[level]? = some d ∧ 0 ≤ d) :
    calcNViolaContig panels child sym nContig level false = .ok (panels.map (fun x => x.1 + (if sym then 3 else 2) *
      (Spec.contigViolations nContig (x.2.1 ++ [child]) - Spec.contigViolations nContig x.2.1))) := by
  have key : ∀ (l : List (Nat × Stack × Stack × List Int)) (old : Option Stack), (∀ x ∈ l, x ∈ panels) →
      contigBottom sym nContig level child old l = .ok (l.map (fun x => x.1 + (if sym then 3 else 2) *
      (Spec.contigViolations nContig (x.2.1 ++ [child]) - Spec.contigViolations nContig x.2.1))) := by
    intro l
    induction l with
    | nil => intro _ _; rfl
    | cons x l ih =>
      intro old hl
      obtain ⟨n, bot, top, row⟩ := x
      obtain ⟨hb, d, hd, hd0⟩ := hp (n, bot, top, row) (hl _ List.mem_cons_self)
      dsimp only at hb hd
      obtain ⟨v, hv, hc⟩ := contigVector_count (lastK bot nContig ++ [child]) nContig h2 h6
      have hlen : (lastK bot nContig ++ [child]).length ≤ nContig + 1 := by
        unfold lastK
        rw [if_neg (by omega)]
        simp
        omega
      have e := contigViolations_left nContig (by omega) [child] bot
      unfold contigBottom
      rw [pyGet_eq_ok.2 hd]
      simp only [bind, Except.bind]
      rw [if_pos ⟨hd0, hb⟩, addContig_eq _ _ _ _ h2 h6 hlen, hv, ih _ (fun y hy => hl y (by simp [hy]))]
      simp only [hc, pure, Except.pure, Except.ok.injEq, List.map_cons, List.cons.injEq, and_true]
      rw [e]
      cases sym <;> simp <;> omega
  unfold calcNViolaContig
  rw [if_neg (by decide), if_pos hlevel]
  exact key panels none (fun _ h => h)

/-- C80: for a ply added at the top of an asymmetric laminate the count is right. -/
theorem C80_contig_top (panels : List (Nat × Stack × Stack × List Int)) (child : Int) (nContig level : Nat)
    (h2 : 2 ≤ nContig) (h6 : nContig ≤ 6) (hlevel : level % 2 = 1) (hp : ∀ x ∈ panels, level < x.2.2.2.length) :
    calcNViolaContig panels child false nContig level false = .ok (panels.map (fun x =>
      if 0 ≤ x.2.2.2.getD level 0 then
        x.1 + (Spec.contigViolations nContig (child :: x.2.2.1) - Spec.contigViolations nContig x.2.2.1) else x.1)) := by
  have key : ∀ (l : List (Nat × Stack × Stack × List Int)), (∀ x ∈ l, x ∈ panels) →
      contigTop nContig level child l = .ok (l.map (fun x => if 0 ≤ x.2.2.2.getD level 0 then
        x.1 + (Spec.contigViolations nContig (child :: x.2.2.1) - Spec.contigViolations nContig x.2.2.1) else x.1)) := by
    intro l
    induction l with
    | nil => intro _; rfl
    | cons x l ih =>
      intro hl
      obtain ⟨n, bot, top, row⟩ := x
      have hr := hp (n, bot, top, row) (hl _ List.mem_cons_self)
      dsimp only at hr
      obtain ⟨v, hv, _⟩ := contigVector_count (child :: top.take nContig) nContig h2 h6
      have hlen : (child :: top.take nContig).length ≤ nContig + 1 := by simp
      have e := contigViolations_right nContig top [child]
      simp only [List.singleton_append] at e
      unfold contigTop
      rw [pyGet_ok hr]
      simp only [bind, Except.bind, List.map_cons]
      rw [List.getD_eq_getElem?_getD, List.getElem?_eq_getElem hr, Option.getD_some,
        ih (fun y hy => hl y (by simp [hy]))]
      by_cases hd : 0 ≤ row[level]
      · by_cases ht : top = []
        · rw [if_neg (fun g => g.2 ht), if_pos hd, ht, contigViolations_short nContig [child] (by simp; omega)]
          simp [pure, Except.pure]
        · rw [if_pos ⟨hd, ht⟩, hv, addContig_eq _ _ _ _ h2 h6 hlen, if_pos hd, e]
          simp [pure, Except.pure]
      · rw [if_neg (fun g => hd g.1), if_neg hd]
        rfl
  unfold calcNViolaContig
  rw [if_neg (by decide), if_neg (by simp [hlevel])]
  exact key panels (fun _ h => h)

/-- C80: for the last ply of an asymmetric laminate the count is right: the violations of the complete laminate that are
not within one of its two parts are added. -/
theorem C80_contig_last (panels : List (Nat × Stack × Stack × List Int)) (child : Int) (nContig level : Nat)
    (h2 : 2 ≤ nContig) (h6 : nContig ≤ 6) (hp : ∀ x ∈ panels, level < x.2.2.2.length) :
    calcNViolaContig panels child false nContig level true = .ok (panels.map (fun x =>
      x.1 + (Spec.contigViolations nContig (x.2.1 ++ (if 0 ≤ x.2.2.2.getD level 0 then [child] else []) ++ x.2.2.1) -
        Spec.contigViolations nContig x.2.1 - Spec.contigViolations nContig x.2.2.1))) := by
  have key : ∀ (l : List (Nat × Stack × Stack × List Int)), (∀ x ∈ l, x ∈ panels) →
      contigLast false nContig level child l = .ok (l.map (fun x =>
      x.1 + (Spec.contigViolations nContig (x.2.1 ++ (if 0 ≤ x.2.2.2.getD level 0 then [child] else []) ++ x.2.2.1) -
        Spec.contigViolations nContig x.2.1 - Spec.contigViolations nContig x.2.2.1))) := by
    intro l
    induction l with
    | nil => intro _; rfl
    | cons x l ih =>
      intro hl
      obtain ⟨n, bot, top, row⟩ := x
      have hr := hp (n, bot, top, row) (hl _ List.mem_cons_self)
      dsimp only at hr
      unfold contigLast
      rw [pyGet_ok hr]
      simp only [bind, Except.bind, List.map_cons]
      rw [List.getD_eq_getElem?_getD, List.getElem?_eq_getElem hr, Option.getD_some,
        ih (fun y hy => hl y (by simp [hy]))]
      have hst : contigLastStack false nContig row[level] child bot top =
          .ok (lastK bot nContig ++ (if 0 ≤ row[level] then [child] else []) ++ top.take nContig) := by
        unfold contigLastStack
        rw [if_neg (by decide)]
        split <;> simp
      generalize (if 0 ≤ row[level] then [child] else []) = m at hst ⊢
      rw [hst]
      dsimp only
      obtain ⟨v, hv, hc⟩ := contigVector_count (lastK bot nContig ++ m ++ top.take nContig) nContig h2 h6
      rw [hv]
      dsimp only
      rw [hc, contigViolations_join nContig (by omega) bot m top]
      simp only [pure, Except.pure, Except.ok.injEq, List.cons.injEq, and_true]
      omega
  unfold calcNViolaContig
  rw [if_pos rfl]
  exact key panels (fun _ h => h)

/-- C80 (violated for the contiguity rule): the last call for a symmetric laminate always raises if the first panel has the
ply. -/
theorem C80_contig_sym_last_violation (panels : List (Nat × Stack × Stack × List Int)) (child d : Int)
    (nContig level n : Nat) (bot top : Stack) (row : List Int) (hd : row[level]? = some d) (hd0 : 0 ≤ d) :
    calcNViolaContig ((n, bot, top, row) :: panels) child true nContig level true = .error .valueError := by
  unfold calcNViolaContig contigLast
  rw [if_pos rfl, pyGet_eq_ok.2 hd]
  simp [bind, Except.bind, contigLastStack, hd0]

/-! ### Ply counts -/

theorem countPlies_eq (dict : List (Int × Nat)) (hinj : ∀ a b i, dict.lookup a = some i → dict.lookup b = some i → a = b) :
    ∀ (st : Stack) (n n' : List Rat), countPlies dict st n = .ok n' → n'.length = n.length ∧
      ∀ a i, dict.lookup a = some i → n'[i]? = n[i]?.map (fun x => x + (st.count a : Rat)) := by
  intro st
  induction st with
  | nil =>
    intro n n' h
    cases h
    refine ⟨rfl, fun a i _ => ?_⟩
    simp
  | cons b st ih =>
    intro n n' h
    unfold countPlies at h
    obtain ⟨i, h1, h⟩ := bind_ok.1 h
    obtain ⟨x, h2, h⟩ := bind_ok.1 h
    rw [dictGet_eq_ok] at h1
    rw [pyGet_eq_ok] at h2
    obtain ⟨q1, q2⟩ := ih _ _ h
    refine ⟨by rw [q1, List.length_set], fun a j hj => ?_⟩
    rw [q2 a j hj, List.getElem?_set, List.count_cons]
    by_cases hij : i = j
    · subst hij
      have := hinj _ _ _ h1 hj
      subst this
      have hl := (List.getElem?_eq_some_iff.1 h2).1
      rw [if_pos rfl, if_pos hl, h2]
      simp
      ring
    · rw [if_neg hij]
      have : b ≠ a := by rintro rfl; rw [h1] at hj; exact hij (Option.some.inj hj)
      simp [this]

/-- C80: the ply counts returned for each laminate are the initial counts plus the numbers of plies of each angle, half a
ply less for the last ply of the first sublaminate if it lies on the mid-plane. -/
theorem C80_plies_per_angle (ini : List Rat) (dict : List (Int × Nat)) (middle : Nat) (rows : List (Stack × Stack))
    (tab : List (List Rat)) (hinj : ∀ a b i, dict.lookup a = some i → dict.lookup b = some i → a = b)
    (h : calcNPliesPerAngle ini dict middle rows = .ok tab) :
    List.Forall₂ (fun r n => n.length = ini.length ∧ ∀ a i, dict.lookup a = some i →
      n[i]? = ini[i]?.map (fun x : Rat => x + ((r.1.count a : Rat) + (r.2.count a : Rat)) -
        (if middle ≠ 0 ∧ r.1.getLast? = some a then 1 / 2 else 0))) rows tab := by
  refine (mapM_inv _ _ _ h).imp (fun r n hn => ?_)
  unfold pliesPerAngle1 at hn
  obtain ⟨n1, h1, hn⟩ := bind_ok.1 hn
  obtain ⟨q1, q2⟩ := countPlies_eq dict hinj _ _ _ h1
  by_cases hm : middle ≠ 0
  · rw [if_pos hm] at hn
    obtain ⟨b, h2, hn⟩ := bind_ok.1 hn
    obtain ⟨i, h3, hn⟩ := bind_ok.1 hn
    obtain ⟨x, h4, hn⟩ := bind_ok.1 hn
    have hn := Except.ok.inj hn
    have hb : r.1.getLast? = some b := by
      unfold pyLast at h2
      cases hl : r.1.getLast? with
      | none => rw [hl] at h2; cases h2
      | some y => rw [hl] at h2; cases h2; rfl
    rw [dictGet_eq_ok] at h3
    rw [pyGet_eq_ok] at h4
    subst hn
    refine ⟨by rw [List.length_set, q1], fun a j hj => ?_⟩
    rw [List.getElem?_set]
    have q := q2 a j hj
    rw [List.count_append, Nat.cast_add] at q
    by_cases hij : i = j
    · subst hij
      have := hinj _ _ _ h3 hj
      subst this
      have hl := (List.getElem?_eq_some_iff.1 h4).1
      rw [if_pos rfl, if_pos hl]
      rw [h4] at q
      simp only [hm, hb, ne_eq, not_false_eq_true, and_self, if_true]
      cases hi : ini[i]? with
      | none => rw [hi] at q; cases q
      | some y =>
        rw [hi] at q
        rw [Option.some.inj q]
        rfl
    · rw [if_neg hij, q]
      have : ¬ (middle ≠ 0 ∧ r.1.getLast? = some a) := by
        rintro ⟨_, g⟩
        rw [hb] at g
        cases g
        rw [h3] at hj
        exact hij (Option.some.inj hj)
      rw [if_neg this]
      simp
  · rw [if_neg hm] at hn
    have hn := Except.ok.inj hn
    subst hn
    refine ⟨q1, fun a j hj => ?_⟩
    rw [q2 a j hj, List.count_append, if_neg (fun g => hm g.1)]
    simp

/-- C80: the penalty is 0 if the rule is not required; otherwise it is proportional to the number of violations, and, for a
positive coefficient, 0 exactly for the laminates without violation. -/
theorem C80_penalty (n : Nat) (viola : List (List Rat)) (coeff norm : Rat) (hc : 0 < coeff) (hn : 0 < norm)
    (hv : ∀ r ∈ viola, ∀ x ∈ r, 0 ≤ x) :
    calcPenaltyCount n viola false coeff norm = List.replicate n 0 ∧
    List.Forall₂ (fun r p => p = coeff / norm * r.sum ∧ 0 ≤ p ∧ (p = 0 ↔ ∀ x ∈ r, x = 0)) viola
      (calcPenaltyCount n viola true coeff norm) := by
  refine ⟨rfl, ?_⟩
  unfold calcPenaltyCount
  rw [if_pos rfl, List.forall₂_map_right_iff, List.forall₂_same]
  intro r hr
  have h0 : 0 ≤ r.sum := List.sum_nonneg (hv r hr)
  have e : coeff * r.sum / norm = coeff / norm * r.sum := by ring
  have hp : 0 < coeff / norm := div_pos hc hn
  rw [e]
  refine ⟨rfl, mul_nonneg hp.le h0, ?_⟩
  rw [mul_eq_zero, or_iff_right hp.ne']
  constructor
  · intro hs x hx
    have := List.single_le_sum (hv r hr) x hx
    exact le_antisymm (by rw [← hs]; exact this) (hv r hr x hx)
  · intro h
    exact List.sum_eq_zero h

/-! ### Examples -/

/-- Two laminates, with three and no violations. -/
example : calcPenaltyCount 2 [[1, 2], [0, 0]] true 2 4 = [3 / 2, 0] := by decide +kernel

/-- Two panels of an asymmetric laminate of 5 levels, the second one without the ply of level 1 (its last ply exists). -/
example : disoSearch [45, 90, -45, 0, 45] [[0, 1, 2, 3, 4], [0, -1, 2, 3, 4]] false 45 5 = .ok [3, 2] ∧
    Spec.levelLaminate false false (panelLevels [45, 90, -45, 0, 45] [0, 1, 2, 3, 4]) = [45, -45, 45, 0, 90] := by
  decide +kernel

/-- A symmetric laminate with a middle ply. -/
example : disoSearch [45, -45, 90] [[0, 1, 2], [0, 1, -1]] true 45 3 = .ok [2, 2] ∧
    Spec.levelLaminate true true (panelLevels [45, -45, 90] [0, 1, 2]) = [45, -45, 90, -45, 45] := by decide +kernel

/-- A panel without a ply above the last one: the last call raises. -/
example : disoSearch [45, 0, 90] [[0, -1, 2]] false 45 3 = .error .indexError := by decide +kernel

/-- A third ply at 0 degrees is one violation more; it is counted twice. -/
example : calcNViolaContig [(0, [0, 0], [], [0, 1, 2])] 0 false 2 2 false = .ok [2] ∧
    calcNViolaContig [(0, [0, 0], [], [0, 1, 2])] 0 true 2 2 false = .ok [3] ∧
    calcNViolaContig [(0, [], [0, 0], [0, 1, 2, 3])] 0 false 2 3 false = .ok [1] ∧
    calcNViolaContig [(0, [0], [0, 0], [0, 1, 2, 3])] 0 false 2 3 true = .ok [2] := by decide +kernel

/-- Ply counts of a laminate with a middle ply. -/
example : calcNPliesPerAngle [0, 0, 1] [(0, 0), (45, 1), (90, 2)] 3 [([0, 45, 45], []), ([90, 0, 90], [45])] =
    .ok [[1, 3 / 2, 1], [1, 1, 5 / 2]] := by decide +kernel

end Bella
