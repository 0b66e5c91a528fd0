import Verif.Proofs.Membrane
/-
Lemmas on the lists of ply indices per fibre orientation of the membrane refinement.
-/
namespace Bella

/-- The lists of ply indices per fibre orientation describe the laminate and the queue: each changeable
ply is once in the list of its orientation, and there is one mark per ply of the queue. -/
def BInv (c : Cons) (ind : List Nat) (ss : Stack) (q : List Int) (b : Buckets) : Prop :=
  ∀ (r : Nat) (a : Int), c.angles[r]? = some a → ∀ (p : Nat),
    (b r).count p = if p = 6666 then q.count a else if p ∈ ind ∧ nth ss p = a then 1 else 0

theorem upd_apply (b : Buckets) (r j : Nat) (l : List Nat) : (b.upd r l) j = if j = r then l else b j := rfl

theorem memFillPlies_spec {c : Cons} (A : AngleSet c) (ss : Stack) (is : List Nat) (b b' : Buckets)
    (hang : ∀ i ∈ is, nth ss i = 666 ∨ nth ss i ∈ c.angles)
    (h : memFillPlies c ss is b = .ok b') (r : Nat) (a : Int) (hr : c.angles[r]? = some a) (p : Nat) :
    (b' r).count p = (b r).count p + (if nth ss p = a then is.count p else 0) := by
  induction is generalizing b with
  | nil =>
    simp only [memFillPlies, Except.ok.injEq] at h
    subst h
    simp
  | cons i is ih =>
    have hi := hang i (by simp)
    have ha := A.range a (List.mem_of_getElem? hr)
    simp only [memFillPlies] at h
    split_ifs at h with h6
    · obtain ⟨r', hr', h⟩ := bind_ok.1 h
      have hi := hi.resolve_left h6
      have hrow : c.angles[r']? = some (nth ss i) := by
        rcases (rowOf_iff A _ _).1 hr' with h | ⟨h, _⟩
        · exact h
        · have := A.range _ hi; omega
      rw [ih _ (fun j hj => hang j (by simp [hj])) h, upd_apply]
      by_cases hrr : r = r'
      · subst hrr
        have hai : a = nth ss i := by rw [hr] at hrow; exact Option.some.inj hrow
        rw [if_pos rfl, List.count_append, List.count_cons, List.count_nil, List.count_cons]
        simp only [beq_iff_eq]
        by_cases hpi : i = p
        · subst hpi
          simp [hai]; omega
        · simp [hpi]
      · rw [if_neg hrr, List.count_cons]
        simp only [beq_iff_eq]
        split_ifs with h1 h2
        · exfalso
          apply hrr
          subst h2
          rw [h1] at hrow
          exact row_unique A hr hrow
        · rfl
        · rfl
    · rw [ih _ (fun j hj => hang j (by simp [hj])) h, List.count_cons]
      simp only [beq_iff_eq]
      split_ifs with h1 h2
      · subst h2
        have h6' : nth ss i = 666 := not_not.1 h6
        omega
      · rfl
      · rfl

theorem fillQueue_spec {c : Cons} (A : AngleSet c) (q : List Int) (b b' : Buckets)
    (hang : ∀ a ∈ q, a ∈ c.angles)
    (h : fillQueue c q b = .ok b') (r : Nat) (a : Int) (hr : c.angles[r]? = some a) (p : Nat) :
    (b' r).count p = (b r).count p + (if p = 6666 then q.count a else 0) := by
  induction q generalizing b with
  | nil =>
    simp only [fillQueue, Except.ok.injEq] at h
    subst h
    simp
  | cons x q ih =>
    have hx := hang x (by simp)
    simp only [fillQueue] at h
    obtain ⟨r', hr', h⟩ := bind_ok.1 h
    have hrow : c.angles[r']? = some x := by
      rcases (rowOf_iff A _ _).1 hr' with h | ⟨h, _⟩
      · exact h
      · have := A.range _ hx; omega
    rw [ih _ (fun j hj => hang j (by simp [hj])) h, upd_apply]
    by_cases hrr : r = r'
    · subst hrr
      have hax : a = x := by rw [hr] at hrow; exact Option.some.inj hrow
      rw [if_pos rfl, List.count_cons, List.count_cons]
      subst hax
      simp only [beq_iff_eq, eq_comm (a := (6666 : Nat))]
      split_ifs <;> simp_all
      omega
    · rw [if_neg hrr, List.count_cons]
      have : x ≠ a := by
        rintro rfl
        exact hrr (row_unique A hr hrow)
      simp [this]

theorem calcIndPlies_spec {c : Cons} (A : AngleSet c) (attr : DamTolAttr) (pA : ℚ) (ss : Stack) (q : List Int)
    (ind : List Nat) (b : Buckets) (hn : ss.length ≤ 6666)
    (hss : ∀ a ∈ ss, a = 666 ∨ a ∈ c.angles) (hq : ∀ a ∈ q, a ∈ c.angles)
    (h : calcIndPlies c attr pA ss q = .ok (ind, b)) :
    ind = indices1 c attr pA ss.length ∧ BInv c ind ss q b := by
  unfold calcIndPlies at h
  dsimp only at h
  obtain ⟨b1, h1, h⟩ := bind_ok.1 h
  obtain ⟨b2, h2, h⟩ := bind_ok.1 h
  simp only [Except.ok.injEq, Prod.mk.injEq] at h
  obtain ⟨rfl, rfl⟩ := h
  refine ⟨rfl, ?_⟩
  intro r a hr p
  have I := indices1_ok c attr pA ss.length
  rw [fillQueue_spec A q b1 b2 hq h2 r a hr p,
    memFillPlies_spec A ss _ _ b1 (fun i hi => by
      have hlt : i < ss.length := by have := I.hi i hi; omega
      apply hss
      unfold nth
      rw [List.getD_eq_getElem _ _ hlt]
      exact List.getElem_mem hlt) h1 r a hr p]
  generalize indices1 c attr pA ss.length = ind at *
  have hno : (6666 : Nat) ∉ ind := fun h => by have := I.hi _ h; omega
  simp only [List.count_nil, Nat.zero_add]
  by_cases hp : p = 6666
  · subst hp
    rw [if_pos rfl, if_pos rfl, List.count_eq_zero.2 hno]
    simp
  · rw [if_neg hp, if_neg hp, Nat.add_zero, I.nodup.count]
    split_ifs <;> simp_all

theorem popBucket_spec (b b' : Buckets) (r p : Nat) (h : popBucket b r = .ok (p, b')) :
    ∃ t, b r = p :: t ∧ b' = b.upd r t := by
  unfold popBucket at h
  cases hb : b r with
  | nil => rw [hb] at h; cases h
  | cons x t =>
    rw [hb] at h
    simp only [Except.ok.injEq, Prod.mk.injEq] at h
    obtain ⟨rfl, rfl⟩ := h
    exact ⟨t, rfl, rfl⟩

/-- Moving one index from the list `r1` to the list `r2`, up to the order in the lists. -/
def BMove (b b' : Buckets) (r1 r2 p : Nat) : Prop :=
  ∀ (r p' : Nat), (b' r).count p' + (if r = r1 ∧ p' = p then 1 else 0) =
    (b r).count p' + (if r = r2 ∧ p' = p then 1 else 0)

theorem sortBucket_spec (ind l l' : List Nat) (hnd : ind.Nodup) (h : sortBucket ind l = .ok l') : l'.Perm l := by
  unfold sortBucket at h
  obtain ⟨r, hr, h⟩ := bind_ok.1 h
  simp only [Except.ok.injEq] at h
  subst h
  obtain ⟨r', hr', hp, _⟩ := C43_sort (l.map Int.ofNat) (-1 :: ind.map Int.ofNat) (by
    intro x hx
    obtain ⟨k, _, rfl⟩ := List.mem_map.1 hx
    have : ((-1 : Int) == Int.ofNat k) = false := by simp
    rw [List.count_cons, this]
    have hinj : Function.Injective Int.ofNat := fun a b h => by simpa using h
    rw [List.count_map_of_injective _ _ hinj]
    have := List.nodup_iff_count_le_one.1 hnd k
    simpa using this)
  rw [hr] at hr'
  cases hr'
  have := hp.map Int.toNat
  rw [List.map_map] at this
  have e : (Int.toNat ∘ Int.ofNat) = id := by funext k; simp
  rw [e, List.map_id] at this
  exact this

theorem sortBucket_ok (ind l : List Nat) (hnd : ind.Nodup) : ∃ l', sortBucket ind l = .ok l' := by
  obtain ⟨r', hr', _, _⟩ := C43_sort (l.map Int.ofNat) (-1 :: ind.map Int.ofNat) (by
    intro x hx
    obtain ⟨k, _, rfl⟩ := List.mem_map.1 hx
    have : ((-1 : Int) == Int.ofNat k) = false := by simp
    rw [List.count_cons, this]
    have hinj : Function.Injective Int.ofNat := fun a b h => by simpa using h
    rw [List.count_map_of_injective _ _ hinj]
    have := List.nodup_iff_count_le_one.1 hnd k
    simpa using this)
  exact ⟨_, by unfold sortBucket; rw [hr']; rfl⟩

theorem addOne_perm (sym : Bool) (ind : List Nat) (b b' : Buckets) (r p : Nat) (hnd : ind.Nodup)
    (h : addOne sym ind b r p = .ok b') : ∀ j, (b' j).Perm ((b.upd r (b r ++ [p])) j) := by
  unfold addOne at h
  dsimp only at h
  split_ifs at h
  · simp only [Except.ok.injEq] at h
    subst h
    intro j
    simp only [upd_apply]
    split_ifs
    · exact List.perm_insertionSort _ _
    · exact List.Perm.refl _
  · obtain ⟨l', hl, h⟩ := bind_ok.1 h
    simp only [Except.ok.injEq] at h
    subst h
    intro j
    simp only [upd_apply]
    split_ifs
    · exact (List.reverse_perm _).trans (sortBucket_spec _ _ _ hnd hl)
    · exact List.Perm.refl _

theorem upd_perm (b b1 : Buckets) (r : Nat) (l : List Nat) (h : ∀ j, (b1 j).Perm (b j)) (hl : l.Perm (b r)) :
    ∀ j, ((b1.upd r l) j).Perm (b j) := by
  intro j
  simp only [upd_apply]
  split_ifs with hj
  · rw [hj]; exact hl
  · exact h j

theorem addTwo_perm (sym : Bool) (ind : List Nat) (b b' : Buckets) (r1 p1 r2 p2 : Nat) (hnd : ind.Nodup)
    (h : addTwo sym ind b r1 p1 r2 p2 = .ok b') :
    ∀ j, (b' j).Perm (((b.upd r1 (b r1 ++ [p1])).upd r2 ((b.upd r1 (b r1 ++ [p1])) r2 ++ [p2])) j) := by
  unfold addTwo at h
  dsimp only at h
  generalize (b.upd r1 (b r1 ++ [p1])).upd r2 ((b.upd r1 (b r1 ++ [p1])) r2 ++ [p2]) = b2 at *
  split_ifs at h
  · simp only [Except.ok.injEq] at h
    subst h
    have s1 := upd_perm b2 b2 r1 ((b2 r1).insertionSort (fun a b => b ≤ a)) (fun _ => List.Perm.refl _)
      (List.perm_insertionSort _ _)
    exact upd_perm b2 _ r2 _ s1 ((List.perm_insertionSort _ _).trans (s1 r2))
  · obtain ⟨l1, h1, h⟩ := bind_ok.1 h
    obtain ⟨l2, h2, h⟩ := bind_ok.1 h
    simp only [Except.ok.injEq] at h
    subst h
    have s1 := upd_perm b2 b2 r1 l1 (fun _ => List.Perm.refl _) (sortBucket_spec _ _ _ hnd h1)
    have s2 := upd_perm b2 _ r2 l2 s1 ((sortBucket_spec _ _ _ hnd h2).trans (s1 r2))
    have s3 := upd_perm b2 _ r1 _ s2 ((List.reverse_perm _).trans (s2 r1))
    exact upd_perm b2 _ r2 _ s3 ((List.reverse_perm _).trans (s3 r2))

theorem addOne_ok (sym : Bool) (ind : List Nat) (b : Buckets) (r p : Nat) (hnd : ind.Nodup) :
    ∃ b', addOne sym ind b r p = .ok b' := by
  unfold addOne
  dsimp only
  split_ifs
  · exact ⟨_, rfl⟩
  · obtain ⟨l, hl⟩ := sortBucket_ok ind (b r ++ [p]) hnd
    rw [hl]
    exact ⟨_, rfl⟩

theorem addTwo_ok (sym : Bool) (ind : List Nat) (b : Buckets) (r1 p1 r2 p2 : Nat) (hnd : ind.Nodup) :
    ∃ b', addTwo sym ind b r1 p1 r2 p2 = .ok b' := by
  unfold addTwo
  dsimp only
  split_ifs
  · exact ⟨_, rfl⟩
  · generalize (b.upd r1 (b r1 ++ [p1])).upd r2 ((b.upd r1 (b r1 ++ [p1])) r2 ++ [p2]) = b2
    obtain ⟨l, hl⟩ := sortBucket_ok ind (b2 r1) hnd
    rw [hl]
    obtain ⟨l2, hl2⟩ := sortBucket_ok ind ((b2.upd r1 l) r2) hnd
    simp only [bind, Except.bind, hl2]
    exact ⟨_, rfl⟩

/-- Moving the first index of the list `r1` to the end of the list `r2`. -/
theorem bmove_raw (b : Buckets) (r1 r2 p : Nat) (t : List Nat) (h : b r1 = p :: t) :
    BMove b ((b.upd r1 t).upd r2 ((b.upd r1 t) r2 ++ [p])) r1 r2 p := by
  intro r p'
  simp only [upd_apply]
  by_cases e2 : r = r2
  · subst e2
    by_cases e1 : r = r1
    · subst e1
      simp only [if_true, true_and, h, List.count_append, List.count_cons, List.count_nil, beq_iff_eq,
        eq_comm (a := p)]
      omega
    · simp only [if_true, true_and, e1, false_and, if_false, List.count_append, List.count_cons,
        List.count_nil, beq_iff_eq, eq_comm (a := p)]
      omega
  · by_cases e1 : r = r1
    · subst e1
      simp only [if_true, true_and, e2, false_and, if_false, h, List.count_cons, beq_iff_eq,
        eq_comm (a := p)]
      omega
    · simp only [e1, e2, false_and, if_false]

theorem bmove_perm (b b' b'' : Buckets) (r1 r2 p : Nat) (h : BMove b b' r1 r2 p) (hp : ∀ j, (b'' j).Perm (b' j)) :
    BMove b b'' r1 r2 p := by
  intro r p'
  rw [(hp r).count_eq]
  exact h r p'

/-- The lists still describe the laminate after one change of ply. -/
theorem binv_move {c : Cons} (A : AngleSet c) {m : Nat} {ind : List Nat} {ss ss' : Stack} {q q' : List Int}
    {b b' : Buckets} {r1 r2 p : Nat} {a1 a2 : Int}
    (hind : IndOk c.sym m ss.length ind)
    (hb : BInv c ind ss q b) (h1 : c.angles[r1]? = some a1) (h2 : c.angles[r2]? = some a2)
    (hp : 0 < (b r1).count p) (hch : changePly c.sym ss q p a1 a2 = .ok (ss', q'))
    (hm : BMove b b' r1 r2 p) :
    BInv c ind ss' q' b' := by
  intro r a hr p'
  have hc := hb r1 a1 h1 p
  have hc' := hb r a hr p'
  have hm' := hm r p'
  have e1 : r = r1 ↔ a = a1 := by
    constructor
    · rintro rfl; rw [hr] at h1; exact Option.some.inj h1
    · rintro rfl; exact row_unique A hr h1
  have e2 : r = r2 ↔ a = a2 := by
    constructor
    · rintro rfl; rw [hr] at h2; exact Option.some.inj h2
    · rintro rfl; exact row_unique A hr h2
  simp only [e1, e2] at hm'
  unfold changePly at hch
  split_ifs at hch with h6 hq
  · simp only [Except.ok.injEq, Prod.mk.injEq] at hch
    obtain ⟨rfl, rfl⟩ := hch
    subst h6
    have hqp : 0 < q.count a1 := List.count_pos_iff.2 hq
    by_cases hp' : p' = 6666
    · subst hp'
      rw [if_pos rfl] at hc' ⊢
      rw [List.count_append, List.count_erase, List.count_cons, List.count_nil]
      simp only [and_true, beq_iff_eq, eq_comm (a := a1), eq_comm (a := a2), Nat.zero_add] at hm' ⊢
      by_cases ea : a = a1
      · subst ea
        rw [if_pos rfl] at hm' ⊢
        omega
      · rw [if_neg ea] at hm' ⊢
        omega
    · simp only [hp', and_false, if_false, Nat.add_zero] at hm' ⊢
      rw [if_neg hp'] at hc'
      rw [hm', hc']
  · simp only [Except.ok.injEq, Prod.mk.injEq] at hch
    obtain ⟨rfl, rfl⟩ := hch
    rw [if_neg h6] at hc
    have hpi : p ∈ ind ∧ nth ss p = a1 := by
      by_contra hcon
      rw [if_neg hcon] at hc
      omega
    have hpn : p < ss.length := by have := hind.hi p hpi.1; omega
    by_cases hp' : p' = 6666
    · subst hp'
      rw [if_pos rfl] at hc' ⊢
      have : (6666 : Nat) ≠ p := fun h => h6 h.symm
      simp only [this, and_false, if_false, Nat.add_zero] at hm'
      rw [hm', hc']
    · rw [if_neg hp'] at hc' ⊢
      by_cases hpp : p' = p
      · subst hpp
        have e3 : nth (setPly c.sym ss p' a2) p' = a2 := by
          rw [setPly_nth _ _ _ _ _ hpn hpn, if_pos (Or.inl rfl)]
        rw [e3]
        simp only [hpi.1, hpi.2, true_and, and_true, eq_comm (a := a1), eq_comm (a := a2)] at hm' hc' ⊢
        split_ifs at * <;> omega
      · simp only [hpp, and_false, if_false, Nat.add_zero] at hm'
        rw [hm', hc']
        by_cases hin : p' ∈ ind
        · have hpn' : p' < ss.length := by have := hind.hi p' hin; omega
          have e3 : nth (setPly c.sym ss p a2) p' = nth ss p' := by
            rw [setPly_nth _ _ _ _ _ hpn hpn', if_neg]
            rintro (h | ⟨hs, h⟩)
            · exact hpp h
            · have := hind.half hs p hpi.1
              have := hind.half hs p' hin
              omega
          rw [e3]
        · simp [hin]

/-- An index in a list is the index of a ply with the orientation of the list. -/
theorem binv_mem {c : Cons} {ind : List Nat} {ss : Stack} {q : List Int} {b : Buckets} {r p : Nat} {a : Int}
    (hb : BInv c ind ss q b) (hr : c.angles[r]? = some a) (hp : 0 < (b r).count p) :
    (p = 6666 ∧ a ∈ q) ∨ (p ∈ ind ∧ p ≠ 6666 ∧ nth ss p = a) := by
  have h := hb r a hr p
  by_cases h6 : p = 6666
  · rw [if_pos h6] at h
    left
    exact ⟨h6, List.count_pos_iff.1 (by omega)⟩
  · rw [if_neg h6] at h
    right
    by_contra hcon
    rw [if_neg (fun hh => hcon ⟨hh.1, h6, hh.2⟩)] at h
    omega

end Bella
