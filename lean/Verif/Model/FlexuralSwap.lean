import Verif.Model.Flexural
/-
Models of src/RELAY/repair_flexural_1.py, of the blocks of plies and the variation of the lamination
parameters of repair_flexural_tools.py, and of src/RELAY/repair_flexural.py.

`calc_lampamD` (src/CLA/lp_functions_2) is not in the repository: it is a parameter `calcLampamD`.
-/
namespace Bella

/-- repair_flexural_tools.py 236-264: the attributes of `Block` objects. -/
structure FBlock where
  id : Nat
  angle : Int
  size : Nat
  first : Nat
  dist : ℚ
  neighbours : List Int
  possible : List Int
  deriving DecidableEq, Repr

/-- repair_flexural_tools.py 244-253: `distance_middle`. -/
def blockDist (first size n : Nat) : ℚ :=
  let p1 : ℚ := if (first : ℚ) < (n : ℚ) / 2 then (first : ℚ) else (n : ℚ) - first - 1
  let d1 := 2 * |p1 - (n : ℚ) / 2| / n
  let p2 : ℚ := if (first : ℚ) + size - 1 < (n : ℚ) / 2 then (first : ℚ) + size - 1 else (n : ℚ) - first - size
  let d2 := 2 * |p2 - (n : ℚ) / 2| / n
  max d1 d2

/-- repair_flexural_tools.py 264-289 `calc_possible_angles`. -/
def possibleAngles (c : Cons) (angle : Int) (neighbours : List Int) : List Int :=
  c.angles.filter (fun a =>
    match neighbours with
    | [x] => decide (a ≠ angle) && !neighbours.contains a && (!c.diso || isDiso a x c.deltaAngle)
    | [x, y] => decide (a ≠ angle) && !neighbours.contains a && (!c.diso || isDiso a x c.deltaAngle)
        && (!c.diso || isDiso a y c.deltaAngle)
    | _ => false)

/-- repair_flexural_tools.py 236-262 `Block.__init__`. -/
def mkBlock (c : Cons) (id : Nat) (angle : Int) (size first n : Nat) (before after : Option Int) : FBlock :=
  let nb := match before, after with
    | none, none => []
    | some x, none => [x]
    | none, some y => [y]
    | some x, some y => if x = y then [x] else [x, y]
  { id := id, angle := angle, size := size, first := first, dist := blockDist first size n,
    neighbours := nb, possible := possibleAngles c angle nb }

/-- repair_flexural_tools.py 291-304 and 307-320, the loops `for block in list_blocks`: the angles of the
blocks before and after the block `id`. -/
def neighboursIn (blocks : List FBlock) (id : Nat) : List Int :=
  blocks.filterMap (fun b => if b.id = id + 1 ∨ b.id + 1 = id then some b.angle else none)

/-- repair_flexural_tools.py 290-320 `update_possible_angles` of the block `id`: new neighbour angles and
possible angles of this block and of the two blocks next to it.  (The neighbours of the block 0 contain
the angle of the middle ply only if the block 0 is the one the method is called for, as in the code.) -/
def updatePossible (c : Cons) (midply : Option Int) (id : Nat) (blocks : List FBlock) : List FBlock :=
  blocks.map (fun b =>
    if b.id = id then
      let nb := neighboursIn blocks b.id ++ (if b.id = 0 then midply.toList else [])
      { b with neighbours := nb, possible := possibleAngles c b.angle nb }
    else if b.id = id + 1 ∨ b.id + 1 = id then
      let nb := neighboursIn blocks b.id
      { b with neighbours := nb, possible := possibleAngles c b.angle nb }
    else b)

/-- repair_flexural_tools.py 339-345: `while ss_ref[ind_start] == ss_ref[n_plies // 2]: ind_start -= 1` from
`ind_start = p - 1`.  If all the plies of the first half are like the middle ply, `ind_start` becomes
negative and the program ends up with an `IndexError`. -/
def midStart (ss : Stack) (mid : Int) : Nat → Py Nat
  | 0 => .error .indexError
  | p + 1 => if nth ss p = mid then midStart ss mid p else .ok p

/-- repair_flexural_tools.py 348-382: the loop `while ind_start != 0`, from `ind_start = p` with
`n_block_of_plies = nb` and the number `id` of the next block. -/
def blocksLoop (c : Cons) (ss : Stack) : Nat → Nat → Nat → List FBlock → List FBlock
  | 0, nb, id, acc =>
    acc ++ [if id = 0 ∧ ¬ (c.sym = true ∧ ss.length % 2 = 1) then
        mkBlock c id (nth ss 0) nb 0 ss.length (some (nth ss (ss.length - 1))) none
      else mkBlock c id (nth ss 0) nb 0 ss.length none (some (nth ss nb))]
  | p + 1, nb, id, acc =>
    if nth ss (p + 1) = nth ss p then blocksLoop c ss p (nb + 1) id acc
    else
      let b := if id = 0 ∧ (c.sym = false ∨ (c.sym = true ∧ ss.length % 2 = 0)) then
          mkBlock c id (nth ss (p + 1)) nb (p + 1) ss.length (some (nth ss p)) none
        else mkBlock c id (nth ss (p + 1)) nb (p + 1) ss.length (some (nth ss p)) (some (nth ss (p + 1 + nb)))
      blocksLoop c ss p 1 (id + 1) (acc ++ [b])

/-- repair_flexural_tools.py 339-347: `ind_start`. -/
def blockStart (c : Cons) (ss : Stack) : Py Nat :=
  if c.sym then
    if ss.length % 2 = 1 then midStart ss (nth ss (ss.length / 2)) (ss.length / 2)
    else if ss.length = 0 then .error .indexError else .ok (ss.length / 2 - 1)
  else if ss.length = 0 then .error .indexError else .ok (ss.length - 1)

/-- repair_flexural_tools.py 334-406 `find_list_blocks` (`list.sort(reverse=True)` is stable). -/
def findBlocks (c : Cons) (ss : Stack) : Py (List FBlock) := do
  let start ← blockStart c ss
  pure ((blocksLoop c ss start 1 0 []).insertionSort (fun a b => b.dist ≤ a.dist))

/-- repair_flexural_1.py 46-65: `status_dam_tol[i]`. -/
def flexDamTol (c : Cons) (attr : DamTolAttr) (n i : Nat) : Bool :=
  if c.damTol then
    if attr.twoPlies then decide (i < 2 ∨ n ≤ i + 2)
    else if attr = .rule 1 ∨ attr = .nPlies 1 then decide (i = 0 ∨ n ≤ i + 1)
    else false
  else false

/-- repair_flexural_tools.py 74-79: `((-n / 2) + pos)**3 - ((-n / 2) + pos - 1)**3`. -/
def swapMoment (n : Nat) (pos : Nat) : ℚ :=
  (-(n : ℚ) / 2 + pos) ^ 3 - (-(n : ℚ) / 2 + ((pos : ℚ) - 1)) ^ 3

/-- repair_flexural_tools.py 45-145 `calc_delta_lampamD_swap` with the positions of 148-171
`calc_delta_lampamD_swap_1`: the `k`-th out-of-plane lamination parameter. -/
def deltaLampamDSwap (c : Cons) (D : FlexData) (a1 a2 : Int) (first1 first2 size n : Nat) (k : Nat) : ℚ :=
  let z1 := ((List.range size).map (fun (i : Nat) => swapMoment n (first1 + i))).sum
  let z2 := ((List.range size).map (fun (i : Nat) => swapMoment n (first2 + i))).sum
  let f : ℚ := (if c.sym then 8 else 4) / (n : ℚ) ^ 3;
  (-(f * (D.cs a1 k * z1))) + f * (D.cs a1 k * z2) - f * (D.cs a2 k * z2) + f * (D.cs a2 k * z1)

/-- `ss[a:a + m] = v`. -/
def setRange (ss : Stack) (a m : Nat) (v : Int) : Stack :=
  ss.zipIdx.map (fun p => if a ≤ p.2 ∧ p.2 < a + m then v else p.1)

/-- repair_flexural_1.py 125-140: the swap of two blocks (`b1`, `b2` before the exchange of the angles). -/
def swapBlocks (sym : Bool) (ss : Stack) (b1 b2 : FBlock) : Stack :=
  let s1 := setRange ss b1.first b1.size b2.angle
  let s2 := setRange s1 b2.first b2.size b1.angle
  if sym then
    let s3 := setRange s2 (ss.length - b1.first - b1.size) b1.size b2.angle
    setRange s3 (ss.length - b2.first - b2.size) b2.size b1.angle
  else s2

/-- The variables changed by the main loop. -/
structure SwapState where
  ss : Stack
  blocks : List FBlock
  lam : Nat → ℚ
  obj : ℚ

/-- repair_flexural_1.py 78-92: the blocks the block number `i1` can be swapped with.  The test of the damage
tolerance uses the position in the list that starts after `i1`, as in the code. -/
def possibleSwaps (c : Cons) (attr : DamTolAttr) (n : Nat) (blocks : List FBlock) (i1 : Nat) (b1 : FBlock) :
    List (Nat × FBlock) :=
  ((blocks.drop (i1 + 1)).zipIdx.filter (fun p =>
    ! ((blocks[p.2]?).elim false (fun b => flexDamTol c attr n b.first)) &&
    decide (b1.size = p.1.size) && b1.possible.contains p.1.angle && p.1.possible.contains b1.angle)).map
    (fun p => (i1 + p.2 + 1, p.1))

/-- One pass of the main loop, repair_flexural_1.py 74-157; the second component tells whether the function
returns at once. -/
def swapStep (c : Cons) (attr : DamTolAttr) (D : FlexData) (midply : Option Int) (i1 : Nat) (s : SwapState) :
    SwapState × Bool :=
  match s.blocks[i1]? with
  | none => (s, false)
  | some b1 =>
    if flexDamTol c attr s.ss.length b1.first then (s, false)
    else
      let swaps := possibleSwaps c attr s.ss.length s.blocks i1 b1
      if swaps = [] then (s, false)
      else
        let lams := swaps.map (fun p => fun (k : Nat) => s.lam k +
          deltaLampamDSwap c D b1.angle p.2.angle b1.first p.2.first b1.size s.ss.length k)
        let objs := lams.map (fun l => flexObj D l)
        let m := objs.getD (argMin objs) 0
        let s' :=
          if m + 1 / 10 ^ 20 < s.obj then
            match swaps[argMin objs]?, lams[argMin objs]? with
            | some (i2, b2), some lam =>
              let blocks := (s.blocks.set i1 { b1 with angle := b2.angle }).set i2 { b2 with angle := b1.angle }
              { ss := swapBlocks c.sym s.ss b1 b2
                blocks := updatePossible c midply b2.id (updatePossible c midply b1.id blocks)
                lam := lam
                obj := m }
            | _, _ => s
          else s
        (s', decide (s'.obj < 1 / 10 ^ 10))

/-- The main loop from the block `i1` on, `k` passes. -/
def swapLoop (c : Cons) (attr : DamTolAttr) (D : FlexData) (midply : Option Int) :
    Nat → Nat → SwapState → SwapState
  | 0, _, s => s
  | k + 1, i1, s =>
    let r := swapStep c attr D midply i1 s
    if r.2 then r.1 else swapLoop c attr D midply k (i1 + 1) r.1

/-- repair_flexural_1.py 21-165 `repair_flexural_1`. -/
def repairFlexural1 (c : Cons) (attr : DamTolAttr) (D : FlexData) (calcLampamD : Stack → Nat → ℚ) (ss : Stack) :
    Py Stack := do
  let blocks ← findBlocks c ss
  let midply := if c.sym = true ∧ ss.length % 2 = 1 then some (nth ss (ss.length / 2)) else none
  let lam := calcLampamD ss
  let s := swapLoop c attr D midply (blocks.length - 1) 0
    { ss := ss, blocks := blocks, lam := lam, obj := flexObj D lam }
  pure s.ss

/-- repair_flexural.py 84-97: the disorientation test after the swaps. -/
def flexCheckDiso (c : Cons) (attr : DamTolAttr) (ss : Stack) : Py Unit :=
  if c.diso then do
    let t ← (match attr with
      | .rule r => isDisoSs ss c.deltaAngle c.damTol (some r) none
      | .nPlies k => isDisoSs ss c.deltaAngle c.damTol none (some k))
    if t then pure () else throw (.exc "Disorientation rule not satisfied")
  else pure ()

/-- repair_flexural.py 99-101: the contiguity test after the swaps. -/
def flexCheckContig (c : Cons) (ss : Stack) : Py Unit :=
  if c.contig then do
    let t ← isContig ss c.nContig
    if t then pure () else throw (.exc "Contiguity rule not satisfie")
  else pure ()

/-- repair_flexural.py 47-58 and 76-107: the passes of the repair with lay-up rules; `checked` is the
variant for one panel, which tests the rules after the swaps. -/
def flexPasses (c : Cons) (attr : DamTolAttr) (D : FlexData) (calcLampamD : Stack → Nat → ℚ) (nD2 : Nat)
    (checked : Bool) : Nat → Stack → Py Stack
  | 0, ss => .ok ss
  | k + 1, ss => do
    let ss1 ← repairFlexural1 c attr D calcLampamD ss
    let _ ← (if checked then flexCheckDiso c attr ss1 else pure ())
    let _ ← (if checked then flexCheckContig c ss1 else pure ())
    let ss2 ← repairFlexural2 c attr D nD2 ss1
    flexPasses c attr D calcLampamD nD2 checked k ss2

/-- The passes without lay-up rules, repair_flexural.py 60-65, 109-114. -/
def flexPasses3 (c : Cons) (attr : DamTolAttr) (D : FlexData) (nD2 : Nat) : Nat → Stack → Py Stack
  | 0, ss => .ok ss
  | k + 1, ss => do
    let ss1 ← repairFlexural3 c attr D nD2 ss
    flexPasses3 c attr D nD2 k ss1

/-- repair_flexural.py 28-123 `repair_flexural`: `multipanel` tells whether the argument `multipanel` is given,
`switch` is `parameters.repair_flexural_switch`, `coeffsZero` whether the coefficients are all close to 0. -/
def repairFlexural (c : Cons) (attr : DamTolAttr) (D : FlexData) (calcLampamD : Stack → Nat → ℚ) (nD2 nD3 : Nat)
    (multipanel switch coeffsZero : Bool) (ss : Stack) : Py Stack :=
  if switch = true ∧ coeffsZero = false then
    if c.diso = true ∨ c.contig = true then flexPasses c attr D calcLampamD nD2 (!multipanel) nD3 ss
    else flexPasses3 c attr D nD2 nD3 ss
  else .ok ss

end Bella
