import Verif.IMeshAmrThm

/-!
# Exchange of cell fields between a coarse grid and a refined part of it – spreading

C91: after a spreading every fine cell, ghosts included, holds the value of the coarse cell which contains it.
-/

namespace MC
variable {V : Type}

/-! ## Traces -/

/-- The copies with the positions of `outPtr`. -/
def spTrace : Int → List SpreadCmd → List (Int × Int)
  | _, [] => []
  | p, .skip n :: l => spTrace (p + n) l
  | p, .put s :: l => (p, s) :: spTrace (p + 1) l

def spSize : List SpreadCmd → Int
  | [] => 0
  | .skip n :: l => n + spSize l
  | .put _ :: l => 1 + spSize l

theorem spTrace_append : ∀ (a b : List SpreadCmd) (p : Int), spTrace p (a ++ b) = spTrace p a ++ spTrace (p + spSize a) b
  | [], b, p => by simp [spTrace, spSize]
  | .skip n :: a, b, p => by simp [spTrace, spSize, spTrace_append a b, Int.add_assoc]
  | .put s :: a, b, p => by simp [spTrace, spSize, spTrace_append a b, Int.add_assoc]

theorem spSize_append : ∀ (a b : List SpreadCmd), spSize (a ++ b) = spSize a + spSize b
  | [], b => by simp [spSize]
  | .skip n :: a, b => by simp [spSize, spSize_append a b, Int.add_assoc]
  | .put s :: a, b => by simp [spSize, spSize_append a b, Int.add_assoc]

theorem sp_flatMap {b : Nat → List SpreadCmd} {s : Int} : ∀ (n : Nat) (p : Int), (∀ i < n, spSize (b i) = s) →
    spSize ((List.range n).flatMap b) = n * s ∧
    spTrace p ((List.range n).flatMap b) = (List.range n).flatMap fun (i : Nat) => spTrace (p + i * s) (b i)
  | 0, p, _ => by simp [spTrace, spSize]
  | n + 1, p, h => by
    obtain ⟨h1, h2⟩ := sp_flatMap n p fun i hi => h i (by omega)
    rw [List.range_succ, List.flatMap_append, List.flatMap_append, spSize_append, spTrace_append, h1, h2]
    simp only [List.flatMap_cons, List.flatMap_nil, List.append_nil, h n (by omega)]
    exact ⟨by push_cast; ring, trivial⟩

theorem spAxis {d f s p : Int} (hf : 0 ≤ f) (hd : 0 ≤ d) (b : Nat → List SpreadCmd) (hb : ∀ j, spSize (b j) = s) :
    spSize ((List.range d.toNat).flatMap fun (j : Nat) => (List.range f.toNat).flatMap fun (_ : Nat) => b j) = d * f * s ∧
    spTrace p ((List.range d.toNat).flatMap fun (j : Nat) => (List.range f.toNat).flatMap fun (_ : Nat) => b j) =
      (List.range (d * f).toNat).flatMap fun (Y : Nat) => spTrace (p + Y * s) (b (Y / f.toNat)) := by
  have h1 : ∀ j q, _ := fun (j : Nat) (q : Int) => sp_flatMap (b := fun _ => b j) (s := s) f.toNat q fun i _ => hb _
  obtain ⟨h2, h3⟩ := sp_flatMap (b := fun j => (List.range f.toNat).flatMap fun (_ : Nat) => b j) (s := f.toNat * s) d.toNat p
    fun j _ => (h1 j p).1
  refine ⟨by rw [h2, Int.toNat_of_nonneg hd, Int.toNat_of_nonneg hf]; ring, ?_⟩
  rw [h3, ← axisLoop hf hd fun j c Y => spTrace (p + Y * s) (b j)]
  refine flatMap_ext fun j _ => ?_
  rw [(h1 j _).2]
  refine flatMap_ext fun e _ => ?_
  congr 1
  push_cast
  ring

/-- the block of a line of the fine grid, ghosts included -/
def axBlk (g d f : Int) (pre : List SpreadCmd) (mid : Nat → List SpreadCmd) (post : List SpreadCmd) (Y : Nat) : List SpreadCmd :=
  if (Y : Int) < g then pre else if (Y : Int) < g + d * f then mid (Y - g.toNat) else post

theorem axGhost_trace {g d f s p : Int} (hg : 0 ≤ g) (hf : 0 ≤ f) (hd : 0 ≤ d) (pre post : List SpreadCmd) (mid : Nat → List SpreadCmd) (M : List SpreadCmd)
    (h1 : spSize pre = s) (h2 : spSize post = s) (h3 : spSize M = d * f * s)
    (h4 : ∀ q, spTrace q M = (List.range (d * f).toNat).flatMap fun (Y : Nat) => spTrace (q + Y * s) (mid Y)) :
    spSize (((List.range g.toNat).flatMap fun (_ : Nat) => pre) ++ M ++ (List.range g.toNat).flatMap fun (_ : Nat) => post) = (d * f + 2 * g) * s ∧
    spTrace p (((List.range g.toNat).flatMap fun (_ : Nat) => pre) ++ M ++ (List.range g.toNat).flatMap fun (_ : Nat) => post) =
      (List.range (d * f + 2 * g).toNat).flatMap fun (Y : Nat) => spTrace (p + Y * s) (axBlk g d f pre mid post Y) := by
  have hp : ∀ q, _ := fun q => sp_flatMap (b := fun _ => pre) (s := s) g.toNat q fun _ _ => h1
  have hq : ∀ q, _ := fun q => sp_flatMap (b := fun _ => post) (s := s) g.toNat q fun _ _ => h2
  have hdf : 0 ≤ d * f := Int.mul_nonneg hd hf
  refine ⟨?_, ?_⟩
  · rw [spSize_append, spSize_append, (hp 0).1, (hq 0).1, h3, Int.toNat_of_nonneg hg]
    ring
  · rw [spTrace_append, spTrace_append, spSize_append, (hp p).1, (hp p).2, (hq _).2, h4, h3]
    have : (d * f + 2 * g).toNat = g.toNat + (d * f).toNat + g.toNat := by omega
    rw [this, List.range_add, List.range_add, List.flatMap_append, List.flatMap_append, List.flatMap_map, List.flatMap_map]
    congr 1
    · congr 1
      · refine flatMap_ext fun Y hY => ?_
        have := List.mem_range.mp hY
        unfold axBlk
        rw [if_pos (by omega)]
      · refine flatMap_ext fun Y hY => ?_
        have := List.mem_range.mp hY
        unfold axBlk
        rw [if_neg (by omega), if_pos (by omega), show g.toNat + Y - g.toNat = Y by omega]
        congr 1
        push_cast
        ring
    · refine flatMap_ext fun Y hY => ?_
      have := List.mem_range.mp hY
      unfold axBlk
      rw [if_neg (by omega), if_neg (by omega)]
      congr 1
      push_cast
      rw [Int.toNat_of_nonneg hdf]
      ring

/-! ## Positions -/

/-- Coordinate, ghosts included, of the coarse cell whose value is copied in the fine cells of coordinate `x` (ghosts included) along an axis. -/
def srcAx (g : Int) (r : Int × Int) (f x : Int) : Int := g + r.1 + max (-1) (min (r.2 - r.1) ((x - g) / f))

/-- Inside the part (not a ghost). -/
def inAx (g : Int) (r : Int × Int) (f x : Int) : Bool := decide (g ≤ x) && decide (x < g + (r.2 - r.1) * f)

theorem srcAx_lt {g : Int} {r : Int × Int} {f x : Int} (hr : r.1 ≤ r.2) (hf : 1 ≤ f) (h : x < g) : srcAx g r f x = r.1 + g - 1 := by
  have : (x - g) / f < 0 := Int.ediv_neg_of_neg_of_pos (by omega) (by omega)
  unfold srcAx
  omega

theorem srcAx_mid {g : Int} {r : Int × Int} {f x : Int} (hf : 1 ≤ f) (h : g ≤ x) (h' : x < g + (r.2 - r.1) * f) : srcAx g r f x = r.1 + g + (x - g) / f := by
  have a : 0 ≤ (x - g) / f := Int.ediv_nonneg (by omega) (by omega)
  have b : (x - g) / f < r.2 - r.1 := Int.ediv_lt_of_lt_mul (by omega) (by omega)
  unfold srcAx
  omega

theorem srcAx_ge {g : Int} {r : Int × Int} {f x : Int} (hr : r.1 ≤ r.2) (hf : 1 ≤ f) (h' : g + (r.2 - r.1) * f ≤ x) : srcAx g r f x = r.2 + g := by
  have b : r.2 - r.1 ≤ (x - g) / f := Int.le_ediv_of_mul_le (by omega) (by omega)
  unfold srcAx
  omega

theorem inAx_lt {g : Int} {r : Int × Int} {f x : Int} (h : x < g) : inAx g r f x = false := by
  unfold inAx; simp; omega

theorem inAx_ge {g : Int} {r : Int × Int} {f x : Int} (h : g + (r.2 - r.1) * f ≤ x) : inAx g r f x = false := by
  unfold inAx; simp; omega

theorem inAx_mid {g : Int} {r : Int × Int} {f x : Int} (h : g ≤ x) (h' : x < g + (r.2 - r.1) * f) : inAx g r f x = true := by
  unfold inAx; simp; omega

/-- `mid` of the function: with the values of the part or without. -/
def midOf (z : Bool) : Int → Int → Int → Int → List SpreadCmd := if z = true then ghostEnds else ghostLine

/-- The copies for a line. -/
def lineTr (z : Bool) (g : Int) (r : Int × Int) (f p base : Int) : List (Int × Int) :=
  (List.range ((r.2 - r.1) * f + 2 * g).toNat).flatMap fun (X : Nat) => if (z && inAx g r f X) = true then [] else [(p + X, base + srcAx g r f X)]

theorem cast_sub_div {f g : Int} (hf : 0 ≤ f) (hg : 0 ≤ g) {x : Nat} (h : g ≤ x) : (((x - g.toNat) / f.toNat : Nat) : Int) = ((x : Int) - g) / f := by
  rw [cast_div_toNat hf]
  congr 1
  omega

theorem line_trace {z : Bool} {g : Int} {r : Int × Int} {f p base : Int} (hg : 0 ≤ g) (hr : r.1 ≤ r.2) (hf : 1 ≤ f) :
    spSize (midOf z g (r.2 - r.1) f (base + (r.1 + g - 1))) = (r.2 - r.1) * f + 2 * g ∧
    spTrace p (midOf z g (r.2 - r.1) f (base + (r.1 + g - 1))) = lineTr z g r f p base := by
  have hdf : 0 ≤ (r.2 - r.1) * f := Int.mul_nonneg (by omega) (by omega)
  cases z with
  | false =>
    simp only [midOf, Bool.false_eq_true, if_false, ghostLine, spreadLine]
    have hM := fun q => spAxis (d := r.2 - r.1) (f := f) (s := 1) (p := q) (by omega) (by omega)
      (fun j => [SpreadCmd.put (base + (r.1 + g - 1) + 1 + j)]) (fun j => by simp [spSize])
    have key := axGhost_trace (p := p) (s := 1) (d := r.2 - r.1) hg (show 0 ≤ f by omega) (by omega) [SpreadCmd.put (base + (r.1 + g - 1))]
      [SpreadCmd.put (base + (r.1 + g - 1) + 1 + (r.2 - r.1))] _ _ (by simp [spSize]) (by simp [spSize]) (hM 0).1 (fun q => (hM q).2)
    simp only [← List.map_eq_flatMap] at key
    refine ⟨by rw [key.1]; ring, ?_⟩
    rw [key.2]
    unfold lineTr
    refine flatMap_ext fun X _ => ?_
    simp only [Bool.false_and, Bool.false_eq_true, if_false, axBlk]
    split_ifs with a b
    · simp only [spTrace, srcAx_lt hr hf a, Int.mul_one]
    · simp only [spTrace, srcAx_mid hf (Int.not_lt.mp a) b, Int.mul_one, cast_sub_div (show 0 ≤ f by omega) hg (Int.not_lt.mp a)]
      congr 2
      ring
    · simp only [spTrace, srcAx_ge hr hf (Int.not_lt.mp b), Int.mul_one]
      congr 2
      ring
  | true =>
    simp only [midOf, if_true, ghostEnds]
    have key := axGhost_trace (p := p) (s := 1) (d := r.2 - r.1) hg (show 0 ≤ f by omega) (by omega) [SpreadCmd.put (base + (r.1 + g - 1))]
      [SpreadCmd.put (base + (r.1 + g - 1) + 1 + (r.2 - r.1))] (fun _ => []) [SpreadCmd.skip (f * (r.2 - r.1))] (by simp [spSize]) (by simp [spSize])
      (by simp [spSize]; ring) (fun q => by simp [spTrace])
    simp only [← List.map_eq_flatMap] at key
    refine ⟨by rw [key.1]; ring, ?_⟩
    rw [key.2]
    unfold lineTr
    refine flatMap_ext fun X _ => ?_
    simp only [Bool.true_and, axBlk]
    by_cases a : (X : Int) < g
    · rw [if_pos a, inAx_lt a]
      simp only [spTrace, srcAx_lt hr hf a, Int.mul_one, Bool.false_eq_true, if_false]
    · by_cases b : (X : Int) < g + (r.2 - r.1) * f
      · rw [if_neg a, if_pos b, inAx_mid (Int.not_lt.mp a) b]
        simp [spTrace]
      · rw [if_neg a, if_neg b, inAx_ge (Int.not_lt.mp b)]
        simp only [spTrace, srcAx_ge hr hf (Int.not_lt.mp b), Int.mul_one, Bool.false_eq_true, if_false]
        congr 2
        ring

/-- The copies for a plane. -/
def planeTr (z : Bool) (g n0 : Int) (r0 r1 : Int × Int) (f0 f1 p off : Int) : List (Int × Int) :=
  (List.range ((r1.2 - r1.1) * f1 + 2 * g).toNat).flatMap fun (Y : Nat) =>
    lineTr (z && inAx g r1 f1 Y) g r0 f0 (p + Y * ((r0.2 - r0.1) * f0 + 2 * g)) (off + (n0 + 2 * g) * srcAx g r1 f1 Y)

theorem midOf_false : midOf false = ghostLine := rfl

theorem plane_trace {z : Bool} {g n0 : Int} {r0 r1 : Int × Int} {f0 f1 p off : Int} (hg : 0 ≤ g) (hr0 : r0.1 ≤ r0.2) (hr1 : r1.1 ≤ r1.2) (hf0 : 1 ≤ f0) (hf1 : 1 ≤ f1) :
    spSize (ghost2D (midOf z) g n0 r0 r1 f0 f1 off) = ((r1.2 - r1.1) * f1 + 2 * g) * ((r0.2 - r0.1) * f0 + 2 * g) ∧
    spTrace p (ghost2D (midOf z) g n0 r0 r1 f0 f1 off) = planeTr z g n0 r0 r1 f0 f1 p off := by
  have hdf : 0 ≤ (r1.2 - r1.1) * f1 := Int.mul_nonneg (by omega) (by omega)
  have hl : ∀ (z : Bool) (q base k : Int), k = base + (r0.1 + g - 1) →
      spSize (midOf z g (r0.2 - r0.1) f0 k) = (r0.2 - r0.1) * f0 + 2 * g ∧ spTrace q (midOf z g (r0.2 - r0.1) f0 k) = lineTr z g r0 f0 q base := by
    intro z q base k hk
    rw [hk]
    exact line_trace hg hr0 hf0
  have hM := fun q => spAxis (d := r1.2 - r1.1) (f := f1) (s := (r0.2 - r0.1) * f0 + 2 * g) (p := q) (by omega) (by omega)
    (fun j => midOf z g (r0.2 - r0.1) f0 (off + (r0.1 - 1 + g + (n0 + 2 * g) * (r1.1 + g + j)))) (fun j =>
      (hl z 0 (off + (n0 + 2 * g) * (r1.1 + g + j)) _ (by ring)).1)
  have key := axGhost_trace (p := p) (s := (r0.2 - r0.1) * f0 + 2 * g) (d := r1.2 - r1.1) hg (show 0 ≤ f1 by omega) (by omega)
    (ghostLine g (r0.2 - r0.1) f0 (off + (r0.1 + g - 1 + (n0 + 2 * g) * (r1.1 + g - 1))))
    (ghostLine g (r0.2 - r0.1) f0 (off + (r0.1 + g - 1 + (n0 + 2 * g) * (r1.2 + g)))) _ _
    (by rw [← midOf_false]; exact (hl false 0 (off + (n0 + 2 * g) * (r1.1 + g - 1)) _ (by ring)).1)
    (by rw [← midOf_false]; exact (hl false 0 (off + (n0 + 2 * g) * (r1.2 + g)) _ (by ring)).1) (hM 0).1 (fun q => (hM q).2)
  refine ⟨key.1, ?_⟩
  unfold ghost2D
  simp only
  rw [key.2]
  unfold planeTr
  refine flatMap_ext fun Y _ => ?_
  unfold axBlk
  by_cases a : (Y : Int) < g
  · rw [if_pos a, inAx_lt a, srcAx_lt hr1 hf1 a, Bool.and_false, ← midOf_false]
    exact (hl false _ _ _ (by ring)).2
  · by_cases b : (Y : Int) < g + (r1.2 - r1.1) * f1
    · rw [if_neg a, if_pos b, inAx_mid (Int.not_lt.mp a) b, Bool.and_true, srcAx_mid hf1 (Int.not_lt.mp a) b]
      refine (hl z _ _ _ ?_).2
      rw [cast_sub_div (show 0 ≤ f1 by omega) hg (Int.not_lt.mp a)]
      ring
    · rw [if_neg a, if_neg b, inAx_ge (Int.not_lt.mp b), srcAx_ge hr1 hf1 (Int.not_lt.mp b), Bool.and_false, ← midOf_false]
      exact (hl false _ _ _ (by ring)).2

/-- The coarse cell (ghosts included) whose value is copied in the fine cell `p` (ghosts included). -/
def srcOf (g : Int) : List (Int × Int) → List Int → List Int → List Int
  | r :: loc, f :: facts, x :: p => srcAx g r f x :: srcOf g loc facts p
  | _, _, _ => []

/-- Not a ghost. -/
def inPart (g : Int) : List (Int × Int) → List Int → List Int → Bool
  | r :: loc, f :: facts, x :: p => inPart g loc facts p && inAx g r f x
  | _, _, _ => true

/-- The copies for the fine cell `p`. -/
def spAccess (z : Bool) (g : Int) (cst : List Int) (loc : List (Int × Int)) (facts p : List Int) : List (Int × Int) :=
  if (z && inPart g loc facts p) = true then [] else [(lin ((fineDims loc facts).map (· + 2 * g)) p, lin (cst.map (· + 2 * g)) (srcOf g loc facts p))]

theorem spreadGhost_trace (z : Bool) {g : Int} {cst : List Int} {loc : List (Int × Int)} {facts : List Int} (hg : 0 ≤ g) (h1 : 1 ≤ cst.length) (h3 : cst.length ≤ 3)
    (hl : loc.length = cst.length) (hf : facts.length = cst.length) (hr : ∀ r ∈ loc, r.1 ≤ r.2) (hfp : ∀ f ∈ facts, 1 ≤ f) :
    ∃ cmds, spreadGhostCmds (midOf z) g cst loc facts = some cmds ∧
      spTrace 0 cmds = (boxPos ((fineDims loc facts).map (· + 2 * g))).flatMap (spAccess z g cst loc facts) := by
  match cst, loc, facts, h1, h3, hl, hf with
  | [n0], [r0], [f0], _, _, _, _ =>
    have a0 := hr r0 (by simp)
    have c0 := hfp f0 (by simp)
    refine ⟨_, rfl, ?_⟩
    have := (line_trace (z := z) (p := 0) (base := 0) hg a0 c0).2
    rw [Int.zero_add] at this
    rw [this]
    simp only [fineDims, boxDims, List.map_cons, List.map_nil, List.zipWith_cons_cons, List.zipWith_nil_left, boxPosD1, List.flatMap_map, lineTr]
    refine flatMap_ext fun X _ => ?_
    simp only [spAccess, inPart, Bool.true_and, fineDims, boxDims, List.map_cons, List.map_nil, List.zipWith_cons_cons, List.zipWith_nil_left, lin, srcOf,
      Int.mul_zero, Int.add_zero, Int.zero_add]
  | [n0, n1], [r0, r1], [f0, f1], _, _, _, _ =>
    have a0 := hr r0 (by simp)
    have a1 := hr r1 (by simp)
    have c0 := hfp f0 (by simp)
    have c1 := hfp f1 (by simp)
    refine ⟨_, rfl, ?_⟩
    rw [(plane_trace hg a0 a1 c0 c1).2]
    simp only [fineDims, boxDims, List.map_cons, List.map_nil, List.zipWith_cons_cons, List.zipWith_nil_left, boxPosD2, List.flatMap_map, List.flatMap_assoc, planeTr, lineTr]
    refine flatMap_ext fun Y _ => flatMap_ext fun X _ => ?_
    simp only [spAccess, inPart, Bool.true_and, Bool.and_assoc, fineDims, boxDims, List.map_cons, List.map_nil, List.zipWith_cons_cons, List.zipWith_nil_left, lin, srcOf,
      Int.mul_zero, Int.add_zero, Int.zero_add]
    refine if_congr Iff.rfl rfl ?_
    congr 2 <;> ring
  | [n0, n1, n2], [r0, r1, r2], [f0, f1, f2], _, _, _, _ =>
    have a0 := hr r0 (by simp)
    have a1 := hr r1 (by simp)
    have a2 := hr r2 (by simp)
    have c0 := hfp f0 (by simp)
    have c1 := hfp f1 (by simp)
    have c2 := hfp f2 (by simp)
    refine ⟨_, rfl, ?_⟩
    have hp : ∀ (z : Bool) (q off : Int), _ := fun z q off => plane_trace (z := z) (n0 := n0) (p := q) (off := off) hg a0 a1 c0 c1
    have hM := fun q => spAxis (d := r2.2 - r2.1) (f := f2) (s := ((r1.2 - r1.1) * f1 + 2 * g) * ((r0.2 - r0.1) * f0 + 2 * g)) (p := q) (by omega) (by omega)
      (fun k => ghost2D (midOf z) g n0 r0 r1 f0 f1 ((r2.1 + g - 1) * ((n0 + 2 * g) * (n1 + 2 * g)) + (n0 + 2 * g) * (n1 + 2 * g) + k * ((n0 + 2 * g) * (n1 + 2 * g))))
      (fun j => (hp z 0 _).1)
    have key := axGhost_trace (p := 0) (s := ((r1.2 - r1.1) * f1 + 2 * g) * ((r0.2 - r0.1) * f0 + 2 * g)) (d := r2.2 - r2.1) hg (show 0 ≤ f2 by omega) (by omega)
      (ghost2D ghostLine g n0 r0 r1 f0 f1 ((r2.1 + g - 1) * ((n0 + 2 * g) * (n1 + 2 * g))))
      (ghost2D ghostLine g n0 r0 r1 f0 f1 ((r2.1 + g - 1) * ((n0 + 2 * g) * (n1 + 2 * g)) + (n0 + 2 * g) * (n1 + 2 * g) + (r2.2 - r2.1).toNat * ((n0 + 2 * g) * (n1 + 2 * g)))) _ _
      (by rw [← midOf_false]; exact (hp false 0 _).1) (by rw [← midOf_false]; exact (hp false 0 _).1) (hM 0).1 (fun q => (hM q).2)
    rw [key.2]
    have hblk : ∀ Z : Nat, spTrace (0 + (Z : Int) * (((r1.2 - r1.1) * f1 + 2 * g) * ((r0.2 - r0.1) * f0 + 2 * g)))
        (axBlk g (r2.2 - r2.1) f2 (ghost2D ghostLine g n0 r0 r1 f0 f1 ((r2.1 + g - 1) * ((n0 + 2 * g) * (n1 + 2 * g))))
          (fun Y => ghost2D (midOf z) g n0 r0 r1 f0 f1 ((r2.1 + g - 1) * ((n0 + 2 * g) * (n1 + 2 * g)) + (n0 + 2 * g) * (n1 + 2 * g) + ((Y / f2.toNat : Nat) : Int) * ((n0 + 2 * g) * (n1 + 2 * g))))
          (ghost2D ghostLine g n0 r0 r1 f0 f1 ((r2.1 + g - 1) * ((n0 + 2 * g) * (n1 + 2 * g)) + (n0 + 2 * g) * (n1 + 2 * g) + (r2.2 - r2.1).toNat * ((n0 + 2 * g) * (n1 + 2 * g)))) Z) =
        planeTr (z && inAx g r2 f2 Z) g n0 r0 r1 f0 f1 ((Z : Int) * (((r1.2 - r1.1) * f1 + 2 * g) * ((r0.2 - r0.1) * f0 + 2 * g)))
          (srcAx g r2 f2 Z * ((n0 + 2 * g) * (n1 + 2 * g))) := by
      intro Z
      rw [Int.zero_add]
      unfold axBlk
      by_cases a : (Z : Int) < g
      · rw [if_pos a, inAx_lt a, srcAx_lt a2 c2 a, Bool.and_false, ← midOf_false]
        exact (hp false _ _).2
      · by_cases b : (Z : Int) < g + (r2.2 - r2.1) * f2
        · rw [if_neg a, if_pos b, inAx_mid (Int.not_lt.mp a) b, Bool.and_true, srcAx_mid c2 (Int.not_lt.mp a) b, (hp z _ _).2,
            cast_sub_div (show 0 ≤ f2 by omega) hg (Int.not_lt.mp a)]
          congr 1
          ring
        · rw [if_neg a, if_neg b, inAx_ge (Int.not_lt.mp b), srcAx_ge a2 c2 (Int.not_lt.mp b), Bool.and_false, ← midOf_false, (hp false _ _).2,
            Int.toNat_of_nonneg (by omega)]
          congr 1
          ring
    rw [flatMap_ext fun Z _ => hblk Z]
    simp only [fineDims, boxDims, List.map_cons, List.map_nil, List.zipWith_cons_cons, List.zipWith_nil_left, boxPosD3, List.flatMap_map, List.flatMap_assoc, planeTr, lineTr]
    refine flatMap_ext fun Z _ => flatMap_ext fun Y _ => flatMap_ext fun X _ => ?_
    simp only [spAccess, inPart, Bool.true_and, Bool.and_assoc, fineDims, boxDims, List.map_cons, List.map_nil, List.zipWith_cons_cons, List.zipWith_nil_left, lin, srcOf,
      Int.mul_zero, Int.add_zero, Int.zero_add]
    refine if_congr Iff.rfl rfl ?_
    congr 2 <;> ring

/-! ## The result of a list of copies -/

theorem spRun_trace (coarse : List V) : ∀ (cmds : List SpreadCmd) (p : Int) (out : List V),
    (do
      let r ← cmds.foldlM (spreadStep coarse) (p, out)
      return r.2 : M (List V)) = (spTrace p cmds).foldlM (fun out (o : Int × Int) => do
        let x ← rd coarse o.2
        wr out o.1 x) out
  | [], p, out => rfl
  | .skip n :: l, p, out => by
    rw [List.foldlM_cons]
    exact spRun_trace coarse l (p + n) out
  | .put s :: l, p, out => by
    rw [List.foldlM_cons]
    simp only [spTrace]
    rw [List.foldlM_cons]
    simp only [spreadStep]
    cases hx : rd coarse s with
    | error e => rfl
    | ok x =>
      simp only [ok_bind]
      cases hw : wr out p x with
      | error e => rfl
      | ok o => exact spRun_trace coarse l (p + 1) o

theorem spOps_spec [Inhabited V] (coarse : List V) : ∀ (ops : List (Int × Int)) (out : List V),
    (∀ o ∈ ops, (0 ≤ o.2 ∧ o.2 < coarse.length) ∧ (0 ≤ o.1 ∧ o.1 < out.length)) → (ops.map (·.1)).Nodup →
    ∃ r, ops.foldlM (fun out (o : Int × Int) => do
        let x ← rd coarse o.2
        wr out o.1 x : List V → Int × Int → M (List V)) out = .ok r ∧ r.length = out.length ∧
      (∀ o ∈ ops, r.getD o.1.toNat default = coarse.getD o.2.toNat default) ∧
      (∀ x : Nat, (∀ o ∈ ops, o.1 ≠ (x : Int)) → r.getD x default = out.getD x default)
  | [], out, _, _ => ⟨out, rfl, rfl, by simp, fun x _ => rfl⟩
  | o :: ops, out, h, hn => by
    obtain ⟨⟨a1, a2⟩, b1, b2⟩ := h o (by simp)
    have hx : rd coarse o.2 = .ok (coarse.getD o.2.toNat default) := by
      rw [rd_ok a1 (by omega), List.getD_eq_getElem?_getD, List.getElem?_eq_getElem (by omega)]; rfl
    rw [List.map_cons, List.nodup_cons] at hn
    obtain ⟨r, e, l1, w1, w2⟩ := spOps_spec coarse ops (out.set o.1.toNat (coarse.getD o.2.toNat default)) (fun o' ho' => by
      have := h o' (by simp [ho'])
      simpa using this) hn.2
    refine ⟨r, by rw [List.foldlM_cons, hx, ok_bind, wr_ok b1 (by omega), ok_bind, e], by simpa using l1, ?_, ?_⟩
    · intro o' ho'
      rcases List.mem_cons.mp ho' with rfl | ho'
      · rw [w2 _ fun o'' ho'' hc => hn.1 (List.mem_map.mpr ⟨o'', ho'', by omega⟩), List.getD_eq_getElem?_getD, List.getElem?_set_self (by omega)]
        rfl
      · exact w1 o' ho'
    · intro x hx'
      rw [w2 x fun o' ho' => hx' o' (by simp [ho'])]
      have := hx' o (by simp)
      rw [List.getD_eq_getElem?_getD, List.getElem?_set_ne (by omega), List.getD_eq_getElem?_getD]

theorem inGrid_srcOf {g : Int} {cst : List Int} {loc : List (Int × Int)} {facts : List Int} (hg : 0 ≤ g) (hb : BoxIn cst loc) : ∀ {p : List Int},
    InGrid ((fineDims loc facts).map (· + 2 * g)) p → facts.length = loc.length → (∀ f ∈ facts, 1 ≤ f) →
    InGrid (cst.map (· + 2 * g)) (srcOf g loc facts p) := by
  induction hb generalizing facts with
  | nil => intro p _ _ _; exact .nil
  | cons h hs ih =>
    rename_i r n loc cst
    intro p hp hl hf
    match facts, hl with
    | f :: facts, hl =>
    have f1 := hf f (by simp)
    have e1 : (fineDims (r :: loc) (f :: facts)).map (· + 2 * g) = ((r.2 - r.1) * f + 2 * g) :: (fineDims loc facts).map (· + 2 * g) := rfl
    rw [e1] at hp
    cases hp with
    | cons hx hp' =>
      rename_i x p
      refine .cons ?_ (ih hp' (by simpa using hl) fun y hy => hf y (by simp [hy]))
      beta_reduce
      by_cases a : x < g
      · rw [srcAx_lt h.2.1 f1 a]
        omega
      · by_cases b : x < g + (r.2 - r.1) * f
        · have c : 0 ≤ (x - g) / f := Int.ediv_nonneg (by omega) (by omega)
          have d : (x - g) / f < r.2 - r.1 := Int.ediv_lt_of_lt_mul (by omega) (by omega)
          rw [srcAx_mid f1 (Int.not_lt.mp a) b]
          omega
        · rw [srcAx_ge h.2.1 f1 (Int.not_lt.mp b)]
          omega

theorem spAccess_run [Inhabited V] (z : Bool) {g : Int} {cst : List Int} {loc : List (Int × Int)} {facts : List Int} (hg : 0 ≤ g) (hb : BoxIn cst loc)
    (hf : facts.length = loc.length) (hfp : ∀ f ∈ facts, 1 ≤ f) {fine coarse : List V}
    (hfl : (fine.length : Int) = ((fineDims loc facts).map (· + 2 * g)).prod) (hcl : (coarse.length : Int) = (cst.map (· + 2 * g)).prod) :
    ∃ r, ((boxPos ((fineDims loc facts).map (· + 2 * g))).flatMap (spAccess z g cst loc facts)).foldlM (fun out (o : Int × Int) => do
        let x ← rd coarse o.2
        wr out o.1 x : List V → Int × Int → M (List V)) fine = .ok r ∧ r.length = fine.length ∧
      ∀ p, InGrid ((fineDims loc facts).map (· + 2 * g)) p → r.getD (lin ((fineDims loc facts).map (· + 2 * g)) p).toNat default =
        if (z && inPart g loc facts p) = true then fine.getD (lin ((fineDims loc facts).map (· + 2 * g)) p).toNat default
        else coarse.getD (lin (cst.map (· + 2 * g)) (srcOf g loc facts p)).toNat default := by
  have hnn : ∀ d ∈ (fineDims loc facts).map (· + 2 * g), 0 ≤ d := by
    intro n hn
    obtain ⟨m, hm, rfl⟩ := List.mem_map.mp hn
    have := fineDims_nonneg hb.le hfp m hm
    omega
  have hmem : ∀ o ∈ (boxPos ((fineDims loc facts).map (· + 2 * g))).flatMap (spAccess z g cst loc facts), ∃ p, InGrid ((fineDims loc facts).map (· + 2 * g)) p ∧
      (z && inPart g loc facts p) = false ∧ o = (lin ((fineDims loc facts).map (· + 2 * g)) p, lin (cst.map (· + 2 * g)) (srcOf g loc facts p)) := by
    intro o ho
    obtain ⟨p, hp, ho⟩ := List.mem_flatMap.mp ho
    unfold spAccess at ho
    split_ifs at ho with hz
    · simp at ho
    · exact ⟨p, mem_boxPos.mp hp, by simpa using hz, by simpa using ho⟩
  have hnd : (((boxPos ((fineDims loc facts).map (· + 2 * g))).flatMap (spAccess z g cst loc facts)).map (·.1)).Nodup := by
    have hs := boxPos_sorted hnn
    have hn : ((boxPos ((fineDims loc facts).map (· + 2 * g))).map (lin ((fineDims loc facts).map (· + 2 * g)))).Nodup := by
      rw [hs]
      exact List.nodup_range.map fun a b hab => by simpa using hab
    refine List.Sublist.nodup ?_ hn
    generalize boxPos ((fineDims loc facts).map (· + 2 * g)) = L
    induction L with
    | nil => simp
    | cons p L ih =>
      rw [List.flatMap_cons, List.map_append, List.map_cons]
      unfold spAccess
      split_ifs
      · exact ih.cons _
      · exact ih.cons_cons _
  obtain ⟨r, e, l, w1, w2⟩ := spOps_spec coarse _ fine (by
    intro o ho
    obtain ⟨p, hp, _, rfl⟩ := hmem o ho
    refine ⟨?_, by rw [hfl]; exact lin_bounds hp⟩
    rw [hcl]
    exact lin_bounds (inGrid_srcOf hg hb hp hf hfp)) hnd
  refine ⟨r, e, l, fun p hp => ?_⟩
  split_ifs with hz
  · refine w2 _ fun o ho hc => ?_
    obtain ⟨p', hp', hz', rfl⟩ := hmem o ho
    have := lin_bounds hp
    rw [Int.toNat_of_nonneg this.1] at hc
    rw [lin_inj hp' hp hc, hz] at hz'
    simp at hz'
  · exact w1 (_, _) (List.mem_flatMap.mpr ⟨p, mem_boxPos.mpr hp, by unfold spAccess; rw [if_neg hz]; simp⟩)

/-- **C91** `SpreadCoarseToFineGhost`: every fine cell, ghosts included, receives the value of the coarse cell which contains it, the ghosts that of the
first coarse cell out of the part. -/
theorem C91_spreadGhost [Inhabited V] {g : Int} {cst : List Int} {loc : List (Int × Int)} {facts : List Int} (hg : 0 ≤ g) (h1 : 1 ≤ cst.length)
    (h3 : cst.length ≤ 3) (hb : BoxIn cst loc) (hf : facts.length = loc.length) (hfp : ∀ f ∈ facts, 1 ≤ f) {fine coarse : List V}
    (hfl : (fine.length : Int) = ((fineDims loc facts).map (· + 2 * g)).prod) (hcl : (coarse.length : Int) = (cst.map (· + 2 * g)).prod) :
    ∃ r, spreadGhost coarse cst fine loc facts g = .ok r ∧ r.length = fine.length ∧
      ∀ p, InGrid ((fineDims loc facts).map (· + 2 * g)) p → r.getD (lin ((fineDims loc facts).map (· + 2 * g)) p).toNat default =
        coarse.getD (lin (cst.map (· + 2 * g)) (srcOf g loc facts p)).toNat default := by
  have hll : loc.length = cst.length := hb.length_eq
  obtain ⟨cmds, e1, e2⟩ := spreadGhost_trace false (g := g) hg h1 h3 hll (hf.trans hll) (fun r hr => (hb.le r hr).2) hfp
  obtain ⟨r, e3, l, w⟩ := spAccess_run false hg hb hf hfp hfl hcl
  refine ⟨r, ?_, l, fun p hp => by simpa using w p hp⟩
  unfold spreadGhost
  rw [ghostChecks_ok hg h1 hb hf hfp hcl hfl, ok_bind, ← midOf_false, e1]
  simp only [spreadRun]
  rw [spRun_trace, e2, e3]

example : spreadGhost [0, 10, 20, 30, 40] [3] [0, 0, 0, 0, 0, 0] [(1, 3)] [2] 1 = .ok ([10, 20, 20, 30, 30, 40] : List Int) := by decide +kernel

/-- **C91** `SpreadCoarseToFineGhostZone`: as `SpreadCoarseToFineGhost` for the ghosts, the fine cells which are not ghosts keep their values. -/
theorem C91_spreadGhostZone [Inhabited V] {g : Int} {cst : List Int} {loc : List (Int × Int)} {facts : List Int} (hg : 0 ≤ g) (h1 : 1 ≤ cst.length)
    (h3 : cst.length ≤ 3) (hb : BoxIn cst loc) (hf : facts.length = loc.length) (hfp : ∀ f ∈ facts, 1 ≤ f) {fine coarse : List V}
    (hfl : (fine.length : Int) = ((fineDims loc facts).map (· + 2 * g)).prod) (hcl : (coarse.length : Int) = (cst.map (· + 2 * g)).prod) :
    ∃ r, spreadGhostZone coarse cst fine loc facts g = .ok r ∧ r.length = fine.length ∧
      ∀ p, InGrid ((fineDims loc facts).map (· + 2 * g)) p → r.getD (lin ((fineDims loc facts).map (· + 2 * g)) p).toNat default =
        if inPart g loc facts p = true then fine.getD (lin ((fineDims loc facts).map (· + 2 * g)) p).toNat default
        else coarse.getD (lin (cst.map (· + 2 * g)) (srcOf g loc facts p)).toNat default := by
  have hll : loc.length = cst.length := hb.length_eq
  obtain ⟨cmds, e1, e2⟩ := spreadGhost_trace true (g := g) hg h1 h3 hll (hf.trans hll) (fun r hr => (hb.le r hr).2) hfp
  obtain ⟨r, e3, l, w⟩ := spAccess_run true hg hb hf hfp hfl hcl
  refine ⟨r, ?_, l, fun p hp => by simpa using w p hp⟩
  unfold spreadGhostZone
  rw [ghostChecks_ok hg h1 hb hf hfp hcl hfl, ok_bind, show ghostEnds = midOf true from rfl, e1]
  simp only [spreadRun]
  rw [spRun_trace, e2, e3]

example : spreadGhostZone [0, 10, 20, 30, 40] [3] [1, 2, 3, 4, 5, 6] [(1, 3)] [2] 1 = .ok ([10, 2, 3, 4, 5, 40] : List Int) := by decide +kernel

/-- **C91** When the layer of ghosts is not wider than the factor, the coarse cell copied in a ghost is the one which contains it. -/
theorem C91_source {g : Int} {r : Int × Int} {f x : Int} (hr : r.1 ≤ r.2) (hg : 0 ≤ g) (hgf : g ≤ f) (hf : 1 ≤ f) (h0 : 0 ≤ x) (h1 : x < (r.2 - r.1) * f + 2 * g) :
    (srcAx g r f x - g - r.1) * f ≤ x - g ∧ x - g < (srcAx g r f x - g - r.1 + 1) * f := by
  have e : srcAx g r f x = g + r.1 + (x - g) / f := by
    unfold srcAx
    have a : -1 ≤ (x - g) / f := Int.le_ediv_of_mul_le (by omega) (by omega)
    have b : (x - g) / f < r.2 - r.1 + 1 := Int.ediv_lt_of_lt_mul (by omega) (by rw [Int.add_mul]; omega)
    omega
  have h2 : (srcAx g r f x - g - r.1) = (x - g) / f := by omega
  rw [h2]
  have := Int.emod_add_mul_ediv (x - g) f
  have h3 := Int.emod_nonneg (x - g) (show f ≠ 0 by omega)
  have h4 := Int.emod_lt_of_pos (x - g) (show 0 < f by omega)
  rw [Int.add_mul, Int.mul_comm _ f]
  omega

example : srcAx 1 (1, 3) 2 0 = 1 ∧ srcAx 1 (1, 3) 2 2 = 2 ∧ srcAx 1 (1, 3) 2 5 = 4 := by decide

/-! ## Without ghosts -/

theorem spLine_trace (d0 f0 base p : Int) (hd : 0 ≤ d0) (hf : 0 ≤ f0) :
    spSize (spreadLine d0 f0 base) = d0 * f0 ∧
    spTrace p (spreadLine d0 f0 base) = (List.range (d0 * f0).toNat).map fun (X : Nat) => (p + X, base + (X : Int) / f0) := by
  have h := spAxis (d := d0) (f := f0) (s := 1) (p := p) hf hd (fun j => [SpreadCmd.put (base + j)]) (fun j => by simp [spSize])
  simp only [spTrace, Int.mul_one, ← List.map_eq_flatMap] at h
  unfold spreadLine
  refine ⟨h.1, h.2.trans ?_⟩
  refine List.map_congr_left fun X _ => ?_
  rw [cast_div_toNat hf]

theorem sp_trace {cst : List Int} {loc : List (Int × Int)} {facts : List Int} (h1 : 1 ≤ cst.length) (h3 : cst.length ≤ 3)
    (hl : loc.length = cst.length) (hf : facts.length = cst.length) (hr : ∀ r ∈ loc, r.1 ≤ r.2) (hfp : ∀ f ∈ facts, 1 ≤ f)
    (h12 : cst.length = 3 → facts.getD 1 0 = facts.getD 2 0) :
    ∃ cmds, spreadCmds cst loc facts = some cmds ∧
      spTrace 0 cmds = (boxPos (fineDims loc facts)).map fun p => (lin (fineDims loc facts) p, lin cst (coarseOf 0 loc facts p)) := by
  match cst, loc, facts, h1, h3, hl, hf with
  | [n0], [r0], [f0], _, _, _, _ =>
    have a0 := hr r0 (by simp)
    have c0 := hfp f0 (by simp)
    refine ⟨_, rfl, ?_⟩
    simp only [fineDims, boxDims, List.map_cons, List.map_nil, List.zipWith_cons_cons, List.zipWith_nil_left, boxPosD1, List.map_map]
    rw [(spLine_trace _ _ _ _ (by omega) (by omega)).2]
    refine List.map_congr_left fun X _ => ?_
    simp only [Function.comp_def, lin, coarseOf, Int.mul_zero, Int.add_zero, Int.zero_add]
  | [n0, n1], [r0, r1], [f0, f1], _, _, _, _ =>
    have a0 := hr r0 (by simp)
    have a1 := hr r1 (by simp)
    have c0 := hfp f0 (by simp)
    have c1 := hfp f1 (by simp)
    refine ⟨_, rfl, ?_⟩
    rw [(spAxis (d := r1.2 - r1.1) (f := f1) (s := (r0.2 - r0.1) * f0) (by omega) (by omega)
      (fun j => spreadLine (r0.2 - r0.1) f0 (r0.1 + n0 * r1.1 + j * n0)) (fun j => (spLine_trace _ _ _ 0 (by omega) (by omega)).1)).2]
    simp only [fineDims, boxDims, List.map_cons, List.map_nil, List.zipWith_cons_cons, List.zipWith_nil_left, boxPosD2, List.map_flatMap]
    refine flatMap_ext fun Y _ => ?_
    simp only [List.map_map]
    rw [(spLine_trace _ _ _ _ (by omega) (by omega)).2]
    refine List.map_congr_left fun X _ => ?_
    rw [cast_div_toNat (by omega)]
    simp only [Function.comp_def, lin, coarseOf, Int.mul_zero, Int.add_zero, Int.zero_add, Prod.mk.injEq]
    constructor <;> ring
  | [n0, n1, n2], [r0, r1, r2], [f0, f1, f2], _, _, _, _ =>
    have a0 := hr r0 (by simp)
    have a1 := hr r1 (by simp)
    have a2 := hr r2 (by simp)
    have c0 := hfp f0 (by simp)
    have c2 := hfp f2 (by simp)
    obtain rfl : f1 = f2 := h12 rfl
    refine ⟨_, rfl, ?_⟩
    have plane : ∀ (k q : Int), _ := fun k q =>
      spAxis (d := r1.2 - r1.1) (f := f1) (s := (r0.2 - r0.1) * f0) (p := q) (by omega) (by omega)
        (fun j => spreadLine (r0.2 - r0.1) f0 (r0.1 + n0 * r1.1 + n0 * n1 * r2.1 + k * (n0 * n1) + j * n0)) (fun j => (spLine_trace _ _ _ 0 (by omega) (by omega)).1)
    rw [(spAxis (d := r2.2 - r2.1) (f := f1) (s := ((r1.2 - r1.1) * f1) * ((r0.2 - r0.1) * f0)) (by omega) (by omega)
      (fun k => (List.range (r1.2 - r1.1).toNat).flatMap fun (j : Nat) => (List.range f1.toNat).flatMap fun (_ : Nat) =>
        spreadLine (r0.2 - r0.1) f0 (r0.1 + n0 * r1.1 + n0 * n1 * r2.1 + k * (n0 * n1) + j * n0)) (fun k => (plane k 0).1)).2]
    simp only [fineDims, boxDims, List.map_cons, List.map_nil, List.zipWith_cons_cons, List.zipWith_nil_left, boxPosD3, List.map_flatMap]
    refine flatMap_ext fun Z _ => ?_
    rw [(plane _ _).2]
    refine flatMap_ext fun Y _ => ?_
    simp only [List.map_map]
    rw [(spLine_trace _ _ _ _ (by omega) (by omega)).2]
    refine List.map_congr_left fun X _ => ?_
    rw [cast_div_toNat (by omega), cast_div_toNat (by omega)]
    simp only [Function.comp_def, lin, coarseOf, Int.mul_zero, Int.add_zero, Int.zero_add, Prod.mk.injEq]
    constructor <;> ring

/-- **C91** `SpreadCoarseToFine`: every fine cell receives the value of the coarse cell which contains it. In dimension 3 this holds when the factors of the
second and third axes are equal only. -/
theorem C91_spread [Inhabited V] {cst : List Int} {loc : List (Int × Int)} {facts : List Int} (h1 : 1 ≤ cst.length)
    (h3 : cst.length ≤ 3) (hb : BoxIn cst loc) (hf : facts.length = loc.length) (hfp : ∀ f ∈ facts, 1 ≤ f) (h31 : facts.prod < 2 ^ 31)
    (h12 : cst.length = 3 → facts.getD 1 0 = facts.getD 2 0) (hne : (boxDims loc).prod ≠ 0) {fine coarse : List V}
    (hfl : (fine.length : Int) = (fineDims loc facts).prod) (hcl : (coarse.length : Int) = cst.prod) :
    ∃ r, spread coarse cst fine loc facts = .ok r ∧ r.length = fine.length ∧
      ∀ q e, InBox loc q → InGrid facts e → r.getD (lin (fineDims loc facts) (fineCell loc facts q e)).toNat default = coarse.getD (lin cst q).toNat default := by
  have hll : loc.length = cst.length := hb.length_eq
  have hfp' := fineDims_prod hf
  obtain ⟨cmds, e1, e2⟩ := sp_trace h1 h3 hll (hf.trans hll) (fun r hr => (hb.le r hr).2) hfp h12
  have hco : ∀ p ∈ boxPos (fineDims loc facts), InGrid cst (coarseOf 0 loc facts p) := by
    intro p hp
    obtain ⟨q, hq, e⟩ := inBox_coarseOf (g := 0) (mem_boxPos.mp hp) hf hfp
    rw [e]
    simpa using hb.grid hq
  obtain ⟨r, e3, l, w1, -⟩ := spOps_spec coarse ((boxPos (fineDims loc facts)).map fun p => (lin (fineDims loc facts) p, lin cst (coarseOf 0 loc facts p))) fine (by
    intro o ho
    obtain ⟨p, hp, rfl⟩ := List.mem_map.mp ho
    refine ⟨?_, by rw [hfl]; exact lin_bounds (mem_boxPos.mp hp)⟩
    rw [hcl]
    exact lin_bounds (hco p hp)) (by
    rw [List.map_map]
    have : ((fun x : Int × Int => x.1) ∘ fun p => (lin (fineDims loc facts) p, lin cst (coarseOf 0 loc facts p))) = lin (fineDims loc facts) := rfl
    rw [this, boxPos_sorted (fineDims_nonneg hb.le hfp)]
    exact List.nodup_range.map fun a b hab => by simpa using hab)
  refine ⟨r, ?_, l, fun q e hq he => ?_⟩
  · unfold spread
    rw [if_neg (by omega), deduceStructure_ok hb.st_nonneg (by rintro rfl; simp at h1), ok_bind, deduceRange_ok hb, ok_bind, if_neg (by omega), if_neg hne,
      if_neg (by rw [hfl, hfp']; simp), if_neg (by rw [hfl, hfp', accumulateMul_ok hfp h31]; simp), dimensions_ok hb, ok_bind, e1]
    simp only [spreadRun]
    rw [spRun_trace, e2, e3]
  · have hm : fineCell loc facts q e ∈ (boxPos facts).map (fineCell loc facts q) := List.mem_map.mpr ⟨e, mem_boxPos.mpr he, rfl⟩
    rw [← coarse_fibre (g := 0) hq hf hfp, List.mem_filter] at hm
    have := w1 _ (List.mem_map.mpr ⟨_, hm.1, rfl⟩)
    have hc : coarseOf 0 loc facts (fineCell loc facts q e) = q := by simpa using hm.2
    rw [hc] at this
    exact this

example : spread [1, 2, 3, 4] [2, 2] [0, 0, 0, 0, 0, 0, 0, 0, 0, 0, 0, 0] [(1, 2), (0, 2)] [2, 3] = .ok ([2, 2, 2, 2, 2, 2, 4, 4, 4, 4, 4, 4] : List Int) := by decide +kernel

/-- **C91** Spreading then condensing multiplies the values of the coarse cells of the part by the number of fine cells in each and leaves the others. -/
theorem C91_roundtrip [AddCommMonoid V] {cst : List Int} {loc : List (Int × Int)} {facts : List Int} (h1 : 1 ≤ cst.length)
    (h3 : cst.length ≤ 3) (hb : BoxIn cst loc) (hf : facts.length = loc.length) (hfp : ∀ f ∈ facts, 1 ≤ f) (h31 : facts.prod < 2 ^ 31)
    (h12 : cst.length = 3 → facts.getD 1 0 = facts.getD 2 0) (hne : (boxDims loc).prod ≠ 0) {fine coarse : List V}
    (hfl : (fine.length : Int) = (fineDims loc facts).prod) (hcl : (coarse.length : Int) = cst.prod) :
    ∃ fine' r, spread coarse cst fine loc facts = .ok fine' ∧ condense cst fine' loc facts coarse = .ok r ∧
      (∀ q, InBox loc q → r.getD (lin cst q).toNat 0 = facts.prod.toNat • coarse.getD (lin cst q).toNat 0) ∧
      (∀ x < coarse.length, (∀ q, InBox loc q → lin cst q ≠ x) → r.getD x 0 = coarse.getD x 0) := by
  letI : Inhabited V := ⟨0⟩
  obtain ⟨fine', e1, l1, w⟩ := C91_spread (fine := fine) (coarse := coarse) h1 h3 hb hf hfp h31 h12 hne hfl hcl
  obtain ⟨r, e2, l2, w1, w2⟩ := C91_condense (fine := fine') (coarse := coarse) h1 h3 hb hf hfp h31 (by omega) hcl
  refine ⟨fine', r, e1, e2, fun q hq => ?_, w2⟩
  rw [w1 q hq]
  have : ((boxPos facts).map fun e => fine'.getD (lin (fineDims loc facts) (fineCell loc facts q e)).toNat 0) =
      List.replicate facts.prod.toNat (coarse.getD (lin cst q).toNat 0) := by
    rw [List.eq_replicate_iff]
    refine ⟨by rw [List.length_map, length_boxPos fun d hd => by have := hfp d hd; omega], ?_⟩
    intro b hbm
    obtain ⟨e, he, rfl⟩ := List.mem_map.mp hbm
    exact w q e hq (mem_boxPos.mp he)
  rw [this, List.sum_replicate]

example : (do
    let f ← spread [1, 2, 3, 4] [2, 2] [0, 0, 0, 0, 0, 0, 0, 0, 0, 0, 0, 0] [(1, 2), (0, 2)] [2, 3]
    condense [2, 2] f [(1, 2), (0, 2)] [2, 3] [1, 2, 3, 4]) = .ok ([1, 12, 3, 24] : List Int) := by decide +kernel

/-- **C91** The functions refuse arrays whose sizes do not correspond and negative widths. -/
theorem C91_refused {g : Int} {cst : List Int} {loc : List (Int × Int)} {facts : List Int} (h1 : 1 ≤ cst.length) (hb : BoxIn cst loc)
    (hf : facts.length = loc.length) (hfp : ∀ f ∈ facts, 1 ≤ f) {fine coarse : List V} [Add V]
    (h : g < 0 ∨ (fine.length : Int) ≠ ((fineDims loc facts).map (· + 2 * g)).prod ∨ (coarse.length : Int) ≠ (cst.map (· + 2 * g)).prod) :
    condenseGhost cst fine loc facts coarse g = throwX ∧ spreadGhost coarse cst fine loc facts g = throwX ∧
    spreadGhostZone coarse cst fine loc facts g = throwX := by
  have hll : loc.length = cst.length := hb.length_eq
  have key : ghostChecks g cst loc facts coarse.length fine.length = throwX := by
    unfold ghostChecks
    by_cases hg : g < 0
    · rw [if_pos hg]
    · rw [if_neg hg, if_neg (by omega), deduceStructure_ok (by
        intro n hn
        obtain ⟨m, hm, rfl⟩ := List.mem_map.mp hn
        have := hb.st_nonneg m hm
        omega) (by
        intro hc
        have := congrArg List.length hc
        simp at this
        simp [this] at h1), ok_bind]
      by_cases hc : (coarse.length : Int) ≠ (cst.map (· + 2 * g)).prod
      · rw [if_pos hc]
      · rw [if_neg hc, dimensions_ok hb, ok_bind, deduceStructure_ok (by
          intro n hn
          obtain ⟨m, hm, rfl⟩ := List.mem_map.mp hn
          have := fineDims_nonneg hb.le hfp m hm
          omega) (by
          intro hc
          have := congrArg List.length hc
          simp only [List.length_map, List.length_zipWith, boxDims, List.length_nil] at this
          omega), ok_bind]
        rw [if_pos]
        rcases h with h | h | h
        · omega
        · exact h
        · omega
  refine ⟨?_, ?_, ?_⟩
  · unfold condenseGhost; rw [key]; rfl
  · unfold spreadGhost; rw [key]; rfl
  · unfold spreadGhostZone; rw [key]; rfl

example : spreadGhost [0, 10, 20, 30, 40] [3] [0, 0, 0, 0, 0] [(1, 3)] [2] 1 = (throwX : M (List Int)) := by decide +kernel

/-- **C91** finding: in dimension 3 `SpreadCoarseToFine` uses the third factor for the second axis. -/
theorem C91_finding_3D : spread [1, 2] [1, 2, 1] [0, 0, 0, 0, 0, 0] [(0, 1), (0, 2), (0, 1)] [1, 3, 1] = .ok ([1, 2, 0, 0, 0, 0] : List Int) ∧
    spread [1, 2] [1, 2, 1] [0, 0, 0, 0, 0, 0] [(0, 1), (0, 2), (0, 1)] [1, 1, 3] = (undef : M (List Int)) := by decide +kernel

/-- **C91** finding: `SpreadCoarseToFine` divides by zero when the part is empty. -/
theorem C91_finding_empty : spread [1, 2] [2] [] [(1, 1)] [2] = (undef : M (List Int)) := by decide +kernel

/-- **C91** finding: a part out of the coarse grid is not refused, its cells are read out of the array. -/
theorem C91_finding_outside : spread [1, 2] [2] [0, 0] [(2, 3)] [2] = (undef : M (List Int)) := by decide +kernel

/-- **C91** finding: with a layer of ghosts wider than the factor the second layer does not receive the value of the coarse cell which contains it. -/
theorem C91_finding_wide : spreadGhost [1, 2, 3, 4, 5, 6, 7] [3] [0, 0, 0, 0, 0] [(1, 2)] [1] 2 = .ok ([3, 3, 4, 5, 5] : List Int) := by decide +kernel

end MC
