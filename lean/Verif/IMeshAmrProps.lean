import Verif.IMeshAmr
import Verif.StructConnProps
import Mathlib.Data.List.Basic
import Mathlib.Algebra.BigOperators.Group.List.Lemmas

/-!
# Exchange of cell fields between a coarse grid and a refined part of it – what the loops do
-/

namespace MC
variable {V : Type}

theorem range_mul_flatMap {α : Type} (h : Nat → List α) : ∀ (d f : Nat),
    (List.range (d * f)).flatMap h = (List.range d).flatMap fun i => (List.range f).flatMap fun e => h (i * f + e)
  | 0, f => by simp
  | d + 1, f => by
    rw [Nat.add_mul, Nat.one_mul, List.range_add, List.flatMap_append, range_mul_flatMap h d f, List.range_succ, List.flatMap_append, List.flatMap_map]
    simp

theorem range_mul_map {α : Type} (h : Nat → α) (d f : Nat) :
    (List.range (d * f)).map h = (List.range d).flatMap fun i => (List.range f).map fun e => h (i * f + e) := by
  have := range_mul_flatMap (fun x => [h x]) d f
  simpa [← List.map_eq_flatMap] using this

theorem flatMap_ext {α β : Type} {l : List α} {f g : α → List β} (h : ∀ x ∈ l, f x = g x) : l.flatMap f = l.flatMap g := List.flatMap_congr h

/-! ## Traces of condensation -/

/-- The accesses with the positions of `inPtr`. -/
def condTrace : Int → List CondCmd → List (Int × Int × Bool)
  | _, [] => []
  | p, .skip n :: l => condTrace (p + n) l
  | p, .take c loc :: l => (p, loc, c) :: condTrace (p + 1) l

def condSize : List CondCmd → Int
  | [] => 0
  | .skip n :: l => n + condSize l
  | .take _ _ :: l => 1 + condSize l

theorem condTrace_append : ∀ (a b : List CondCmd) (p : Int), condTrace p (a ++ b) = condTrace p a ++ condTrace (p + condSize a) b
  | [], b, p => by simp [condTrace, condSize]
  | .skip n :: a, b, p => by simp [condTrace, condSize, condTrace_append a b, Int.add_assoc]
  | .take c loc :: a, b, p => by simp [condTrace, condSize, condTrace_append a b, Int.add_assoc]

theorem condSize_append : ∀ (a b : List CondCmd), condSize (a ++ b) = condSize a + condSize b
  | [], b => by simp [condSize]
  | .skip n :: a, b => by simp [condSize, condSize_append a b, Int.add_assoc]
  | .take c loc :: a, b => by simp [condSize, condSize_append a b, Int.add_assoc]

theorem cond_flatMap {b : Nat → List CondCmd} {s : Int} : ∀ (n : Nat) (p : Int), (∀ i < n, condSize (b i) = s) →
    condSize ((List.range n).flatMap b) = n * s ∧
    condTrace p ((List.range n).flatMap b) = (List.range n).flatMap fun (i : Nat) => condTrace (p + i * s) (b i)
  | 0, p, _ => by simp [condTrace, condSize]
  | n + 1, p, h => by
    obtain ⟨h1, h2⟩ := cond_flatMap n p fun i hi => h i (by omega)
    rw [List.range_succ, List.flatMap_append, List.flatMap_append, condSize_append, condTrace_append, h1, h2]
    simp only [List.flatMap_cons, List.flatMap_nil, List.append_nil, h n (by omega)]
    exact ⟨by push_cast; ring, trivial⟩

theorem condLine_trace (d0 f0 base : Int) (c : Bool) (p : Int) :
    condSize (condLine d0 f0 base c) = d0.toNat * f0.toNat ∧
    condTrace p (condLine d0 f0 base c) = (List.range (d0.toNat * f0.toNat)).map fun (X : Nat) =>
      (p + X, base + ((X / f0.toNat : Nat) : Int), c && decide (X % f0.toNat = 0)) := by
  have inner : ∀ (i : Nat) (n : Nat) (q : Int), condSize ((List.range n).map fun (e : Nat) => CondCmd.take (c && decide (e = 0)) (base + i)) = n ∧
      condTrace q ((List.range n).map fun (e : Nat) => CondCmd.take (c && decide (e = 0)) (base + i)) =
        (List.range n).map fun (e : Nat) => (q + e, base + (i : Int), c && decide (e = 0)) := by
    intro i n q
    have := cond_flatMap (b := fun e => [CondCmd.take (c && decide (e = 0)) (base + i)]) (s := 1) n q (fun _ _ => by simp [condSize])
    simp only [← List.map_eq_flatMap, condTrace, Int.mul_one] at this
    exact this
  unfold condLine
  obtain ⟨h1, h2⟩ := cond_flatMap (b := fun i => (List.range f0.toNat).map fun (e : Nat) => CondCmd.take (c && decide (e = 0)) (base + i)) (s := f0.toNat) d0.toNat p
    (fun i _ => (inner i _ p).1)
  refine ⟨h1, ?_⟩
  rw [h2, range_mul_map]
  refine flatMap_ext fun i _ => ?_
  rw [(inner i _ _).2]
  refine List.map_congr_left fun e he => ?_
  have hlt : e < f0.toNat := List.mem_range.mp he
  have hd : (i * f0.toNat + e) / f0.toNat = i := by
    rw [Nat.mul_comm, Nat.mul_add_div (by omega), Nat.div_eq_of_lt hlt]; rfl
  have hm : (i * f0.toNat + e) % f0.toNat = e := by
    rw [Nat.mul_comm, Nat.mul_add_mod, Nat.mod_eq_of_lt hlt]
  rw [hd, hm]
  push_cast
  rw [Int.add_assoc]

/-! ## The result of a list of accesses -/

/-- One access: copy or addition of the fine value at the coarse place. -/
def condOp [Add V] (fine : List V) (out : List V) (o : Int × Int × Bool) : M (List V) := do
  let x ← rd fine o.1
  if o.2.2 = true then wr out o.2.1 x
  else do
    let y ← rd out o.2.1
    wr out o.2.1 (x + y)

theorem condRun_trace [Add V] (fine : List V) : ∀ (cmds : List CondCmd) (p : Int) (out : List V),
    (do
      let r ← cmds.foldlM (condStep fine) (p, out)
      return r.2 : M (List V)) = (condTrace p cmds).foldlM (condOp fine) out
  | [], p, out => rfl
  | .skip n :: l, p, out => by
    rw [List.foldlM_cons]
    exact condRun_trace fine l (p + n) out
  | .take c loc :: l, p, out => by
    rw [List.foldlM_cons]
    simp only [condTrace]
    rw [List.foldlM_cons]
    simp only [condStep, condOp]
    cases hx : rd fine p with
    | error e => rfl
    | ok x =>
      simp only [ok_bind]
      split_ifs with h
      · cases hw : wr out loc x with
        | error e => rfl
        | ok o => exact condRun_trace fine l (p + 1) o
      · cases hy : rd out loc with
        | error e => rfl
        | ok y =>
          simp only [ok_bind]
          cases hw : wr out loc (x + y) with
          | error e => rfl
          | ok o => exact condRun_trace fine l (p + 1) o

theorem condOps_spec [AddCommMonoid V] (fine : List V) : ∀ (ops : List (Int × Int × Bool)) (out : List V),
    (∀ o ∈ ops, (0 ≤ o.1 ∧ o.1 < fine.length) ∧ (0 ≤ o.2.1 ∧ o.2.1 < out.length)) →
    ∃ r, ops.foldlM (condOp fine) out = .ok r ∧ r.length = out.length ∧ ∀ x : Int, 0 ≤ x → x < out.length →
      r.getD x.toNat 0 = (ops.filter fun o => decide (o.2.1 = x)).foldl (fun v o => if o.2.2 = true then fine.getD o.1.toNat 0 else fine.getD o.1.toNat 0 + v) (out.getD x.toNat 0)
  | [], out, _ => ⟨out, rfl, rfl, fun x _ _ => rfl⟩
  | o :: ops, out, h => by
    obtain ⟨⟨a1, a2⟩, b1, b2⟩ := h o (by simp)
    have hx : rd fine o.1 = .ok (fine.getD o.1.toNat 0) := by
      rw [rd_ok a1 (by omega), List.getD_eq_getElem?_getD, List.getElem?_eq_getElem (by omega)]; rfl
    have hy : rd out o.2.1 = .ok (out.getD o.2.1.toNat 0) := by
      rw [rd_ok b1 (by omega), List.getD_eq_getElem?_getD, List.getElem?_eq_getElem (by omega)]; rfl
    generalize hv : (if o.2.2 = true then fine.getD o.1.toNat 0 else fine.getD o.1.toNat 0 + out.getD o.2.1.toNat 0) = v
    have hop : condOp fine out o = .ok (out.set o.2.1.toNat v) := by
      unfold condOp
      rw [hx, ok_bind]
      split_ifs with hc
      · rw [wr_ok b1 (by omega), ← hv, if_pos hc]
      · rw [hy, ok_bind, wr_ok b1 (by omega), ← hv, if_neg hc]
    obtain ⟨r, e, l1, w⟩ := condOps_spec fine ops (out.set o.2.1.toNat v) (fun o' ho' => by
      have := h o' (by simp [ho'])
      simpa using this)
    refine ⟨r, by rw [List.foldlM_cons, hop, ok_bind, e], by simpa using l1, fun x x0 x1 => ?_⟩
    rw [w x x0 (by simpa using x1), List.filter_cons]
    by_cases hxo : o.2.1 = x
    · rw [if_pos (by simpa using hxo), List.foldl_cons]
      congr 1
      subst hxo
      rw [hv, List.getD_eq_getElem?_getD, List.getElem?_set_self (by omega)]
      rfl
    · rw [if_neg (by simpa using hxo)]
      congr 1
      rw [List.getD_eq_getElem?_getD, List.getElem?_set_ne (by omega), List.getD_eq_getElem?_getD]

theorem condFold_sum [AddCommMonoid V] (fine : List V) : ∀ (ops : List (Int × Int × Bool)) (v : V), (∀ o ∈ ops, o.2.2 = false) →
    ops.foldl (fun v o => if o.2.2 = true then fine.getD o.1.toNat 0 else fine.getD o.1.toNat 0 + v) v = (ops.map fun o => fine.getD o.1.toNat 0).sum + v
  | [], v, _ => by simp
  | o :: ops, v, h => by
    rw [List.foldl_cons, if_neg (by simp [h o (by simp)]), condFold_sum fine ops _ fun o' ho' => h o' (by simp [ho']), List.map_cons, List.sum_cons]
    rw [← add_assoc, add_comm (ops.map _).sum]

/-! ## Fine and coarse positions -/

/-- The coarse cell which holds a fine cell; `g`: width of the ghost layer of both. -/
def coarseOf (g : Int) : List (Int × Int) → List Int → List Int → List Int
  | r :: loc, f :: facts, x :: p => (r.1 + x / f + g) :: coarseOf g loc facts p
  | _, _, _ => []

/-- The part is first in its coarse cell along every axis. -/
def firstOf : List Int → List Int → Bool
  | f :: facts, x :: p => firstOf facts p && decide (x % f = 0)
  | _, _ => true

/-- The cells of the refined part. -/
def fineDims (loc : List (Int × Int)) (facts : List Int) : List Int := List.zipWith (· * ·) (boxDims loc) facts

/-- The access for the fine cell `p`. -/
def condAccess (g : Int) (cst : List Int) (loc : List (Int × Int)) (facts p : List Int) : Int × Int × Bool :=
  (lin ((fineDims loc facts).map (· + 2 * g)) (p.map (· + g)), lin (cst.map (· + 2 * g)) (coarseOf g loc facts p), firstOf facts p)

theorem boxPosD1 (a : Int) : boxPos [a] = (List.range a.toNat).map fun (x : Nat) => [(x : Int)] := by simp [boxPos]

theorem boxPosD2 (a b : Int) : boxPos [a, b] = (List.range b.toNat).flatMap fun (y : Nat) => (List.range a.toNat).map fun (x : Nat) => [(x : Int), (y : Int)] := by
  simp [boxPos, List.flatMap_map]

theorem boxPosD3 (a b c : Int) : boxPos [a, b, c] = (List.range c.toNat).flatMap fun (z : Nat) => (List.range b.toNat).flatMap fun (y : Nat) =>
    (List.range a.toNat).map fun (x : Nat) => [(x : Int), (y : Int), (z : Int)] := by
  simp [boxPos, List.flatMap_map, List.flatMap_assoc]

theorem toNat_mul {a b : Int} (ha : 0 ≤ a) (hb : 0 ≤ b) : (a * b).toNat = a.toNat * b.toNat := by
  obtain ⟨m, rfl⟩ := Int.eq_ofNat_of_zero_le ha
  obtain ⟨n, rfl⟩ := Int.eq_ofNat_of_zero_le hb
  exact Int.toNat_natCast (m * n)

theorem cast_div_toNat {f : Int} (hf : 0 ≤ f) (x : Nat) : ((x / f.toNat : Nat) : Int) = (x : Int) / f := by
  obtain ⟨n, rfl⟩ := Int.eq_ofNat_of_zero_le hf
  simp

theorem mod_toNat_zero {f : Int} (hf : 0 ≤ f) (x : Nat) : decide (x % f.toNat = 0) = decide ((x : Int) % f = 0) := by
  obtain ⟨n, rfl⟩ := Int.eq_ofNat_of_zero_le hf
  simp only [Int.toNat_natCast]
  congr 1
  apply propext
  omega

/-- the loops on an axis and its factor are one loop on the fine cells of the axis -/
theorem axisLoop {α : Type} {d f : Int} (hf : 0 ≤ f) (hd : 0 ≤ d) (h : Nat → Bool → Nat → List α) :
    ((List.range d.toNat).flatMap fun (j : Nat) => (List.range f.toNat).flatMap fun (e : Nat) => h j (decide (e = 0)) (j * f.toNat + e)) =
    (List.range (d * f).toNat).flatMap fun (Y : Nat) => h (Y / f.toNat) (decide ((Y : Int) % f = 0)) Y := by
  rw [toNat_mul hd hf, range_mul_flatMap]
  refine flatMap_ext fun i _ => flatMap_ext fun e he => ?_
  have hlt : e < f.toNat := List.mem_range.mp he
  have hd : (i * f.toNat + e) / f.toNat = i := by
    rw [Nat.mul_comm, Nat.mul_add_div (by omega), Nat.div_eq_of_lt hlt]; rfl
  have hm : (i * f.toNat + e) % f.toNat = e := by
    rw [Nat.mul_comm, Nat.mul_add_mod, Nat.mod_eq_of_lt hlt]
  rw [hd, ← mod_toNat_zero hf, hm]

theorem condAxis {d f s p : Int} (hf : 0 ≤ f) (hd : 0 ≤ d) (b : Nat → Bool → List CondCmd) (hb : ∀ j c, condSize (b j c) = s) :
    condSize ((List.range d.toNat).flatMap fun (j : Nat) => (List.range f.toNat).flatMap fun (e : Nat) => b j (decide (e = 0))) = d * f * s ∧
    condTrace p ((List.range d.toNat).flatMap fun (j : Nat) => (List.range f.toNat).flatMap fun (e : Nat) => b j (decide (e = 0))) =
      (List.range (d * f).toNat).flatMap fun (Y : Nat) => condTrace (p + Y * s) (b (Y / f.toNat) (decide ((Y : Int) % f = 0))) := by
  have h1 : ∀ j q, _ := fun (j : Nat) (q : Int) => cond_flatMap (b := fun e => b j (decide (e = 0))) (s := s) f.toNat q fun i _ => hb _ _
  obtain ⟨h2, h3⟩ := cond_flatMap (b := fun j => (List.range f.toNat).flatMap fun (e : Nat) => b j (decide (e = 0))) (s := f.toNat * s) d.toNat p
    fun j _ => (h1 j p).1
  refine ⟨by rw [h2, Int.toNat_of_nonneg hd, Int.toNat_of_nonneg hf]; ring, ?_⟩
  rw [h3, ← axisLoop hf hd fun j c Y => condTrace (p + Y * s) (b j c)]
  refine flatMap_ext fun j _ => ?_
  rw [(h1 j _).2]
  refine flatMap_ext fun e _ => ?_
  congr 1
  push_cast
  ring

theorem condGhost_trace {g : Int} {cst : List Int} {loc : List (Int × Int)} {facts : List Int} (hg : 0 ≤ g) (h1 : 1 ≤ cst.length) (h3 : cst.length ≤ 3)
    (hl : loc.length = cst.length) (hf : facts.length = cst.length) (hr : ∀ r ∈ loc, r.1 ≤ r.2) (hfp : ∀ f ∈ facts, 1 ≤ f) :
    ∃ cmds, condenseGhostCmds g cst loc facts = some cmds ∧ condTrace 0 cmds = (boxPos (fineDims loc facts)).map (condAccess g cst loc facts) := by
  match cst, loc, facts, h1, h3, hl, hf with
  | [n0], [r0], [f0], _, _, _, _ =>
    have a0 := hr r0 (by simp)
    have c0 := hfp f0 (by simp)
    refine ⟨_, rfl, ?_⟩
    simp only [condTrace, fineDims, boxDims, List.map_cons, List.map_nil, List.zipWith_cons_cons, List.zipWith_nil_left, boxPosD1, List.map_map]
    rw [(condLine_trace _ _ _ _ _).2, ← toNat_mul (by omega) (by omega)]
    refine List.map_congr_left fun X _ => ?_
    rw [cast_div_toNat (by omega), mod_toNat_zero (by omega)]
    simp only [Function.comp_def, condAccess, fineDims, boxDims, List.map_cons, List.map_nil, List.zipWith_cons_cons, List.zipWith_nil_left, lin, coarseOf, firstOf]
    simp only [Int.mul_zero, Int.add_zero, Prod.mk.injEq, and_true]
    constructor <;> ring
  | [n0, n1], [r0, r1], [f0, f1], _, _, _, _ =>
    have a0 := hr r0 (by simp)
    have a1 := hr r1 (by simp)
    have c0 := hfp f0 (by simp)
    have c1 := hfp f1 (by simp)
    refine ⟨_, rfl, ?_⟩
    have hfn : (((r0.2 - r0.1).toNat : Int) * (f0.toNat : Int)) = (r0.2 - r0.1) * f0 := by
      rw [Int.toNat_of_nonneg (by omega), Int.toNat_of_nonneg (by omega)]
    simp only [condTrace]
    rw [(condAxis (d := r1.2 - r1.1) (f := f1) (s := (r0.2 - r0.1) * f0 + 2 * g) (by omega) (by omega)
      (fun j c => [CondCmd.skip g] ++ condLine (r0.2 - r0.1) f0 (r0.1 + g + (n0 + 2 * g) * (r1.1 + g) + j * (n0 + 2 * g)) c ++ [CondCmd.skip g]) (by
        intro j c
        simp only [condSize_append, condSize]
        rw [(condLine_trace _ _ _ _ 0).1, hfn]
        ring)).2]
    simp only [fineDims, boxDims, List.map_cons, List.map_nil, List.zipWith_cons_cons, List.zipWith_nil_left, boxPosD2, List.map_flatMap]
    refine flatMap_ext fun Y _ => ?_
    simp only [condTrace_append, condTrace, condSize, List.nil_append, List.append_nil, List.map_map]
    rw [(condLine_trace _ _ _ _ _).2, ← toNat_mul (by omega) (by omega)]
    refine List.map_congr_left fun X _ => ?_
    rw [cast_div_toNat (by omega), cast_div_toNat (by omega), mod_toNat_zero (by omega)]
    simp only [Function.comp_def, condAccess, fineDims, boxDims, List.map_cons, List.map_nil, List.zipWith_cons_cons, List.zipWith_nil_left, lin, coarseOf, firstOf]
    simp only [Int.mul_zero, Int.add_zero, Prod.mk.injEq, Bool.true_and, and_true]
    constructor <;> ring
  | [n0, n1, n2], [r0, r1, r2], [f0, f1, f2], _, _, _, _ =>
    have a0 := hr r0 (by simp)
    have a1 := hr r1 (by simp)
    have a2 := hr r2 (by simp)
    have c0 := hfp f0 (by simp)
    have c1 := hfp f1 (by simp)
    have c2 := hfp f2 (by simp)
    refine ⟨_, rfl, ?_⟩
    have hfn : (((r0.2 - r0.1).toNat : Int) * (f0.toNat : Int)) = (r0.2 - r0.1) * f0 := by
      rw [Int.toNat_of_nonneg (by omega), Int.toNat_of_nonneg (by omega)]
    have line : ∀ (base : Int) (c : Bool), condSize ([CondCmd.skip g] ++ condLine (r0.2 - r0.1) f0 base c ++ [CondCmd.skip g]) = (r0.2 - r0.1) * f0 + 2 * g := by
      intro base c
      simp only [condSize_append, condSize]
      rw [(condLine_trace _ _ _ _ 0).1, hfn]
      ring
    have plane : ∀ (k : Int) (c : Bool) (q : Int), _ := fun k c q =>
      condAxis (d := r1.2 - r1.1) (f := f1) (s := (r0.2 - r0.1) * f0 + 2 * g) (p := q) (by omega) (by omega)
        (fun j c' => [CondCmd.skip g] ++ condLine (r0.2 - r0.1) f0 (j * (n0 + 2 * g) + (r0.1 + g + (n0 + 2 * g) * (r1.1 + g) +
          (n0 + 2 * g) * (n1 + 2 * g) * (r2.1 + g) + k * ((n0 + 2 * g) * (n1 + 2 * g)))) (c && c') ++ [CondCmd.skip g]) (fun j c => line _ _)
    simp only [condTrace]
    rw [(condAxis (d := r2.2 - r2.1) (f := f2) (s := ((r0.2 - r0.1) * f0 + 2 * g) * ((r1.2 - r1.1) * f1 + 2 * g)) (by omega) (by omega)
      (fun k c => [CondCmd.skip (g * ((r0.2 - r0.1) * f0 + 2 * g))] ++ ((List.range (r1.2 - r1.1).toNat).flatMap fun (j : Nat) => (List.range f1.toNat).flatMap fun (je : Nat) =>
        [CondCmd.skip g] ++ condLine (r0.2 - r0.1) f0 (j * (n0 + 2 * g) + (r0.1 + g + (n0 + 2 * g) * (r1.1 + g) +
          (n0 + 2 * g) * (n1 + 2 * g) * (r2.1 + g) + k * ((n0 + 2 * g) * (n1 + 2 * g)))) (c && decide (je = 0)) ++ [CondCmd.skip g]) ++
        [CondCmd.skip (g * ((r0.2 - r0.1) * f0 + 2 * g))]) (by
        intro k c
        rw [condSize_append, condSize_append, (plane k c 0).1]
        simp only [condSize]
        ring)).2]
    simp only [fineDims, boxDims, List.map_cons, List.map_nil, List.zipWith_cons_cons, List.zipWith_nil_left, boxPosD3, List.map_flatMap]
    refine flatMap_ext fun Z _ => ?_
    rw [condTrace_append, condTrace_append, (plane _ _ _).2]
    simp only [condTrace, condSize, List.nil_append, List.append_nil]
    refine flatMap_ext fun Y _ => ?_
    simp only [condTrace_append, condTrace, condSize, List.nil_append, List.append_nil, List.map_map]
    rw [(condLine_trace _ _ _ _ _).2, ← toNat_mul (by omega) (by omega)]
    refine List.map_congr_left fun X _ => ?_
    rw [cast_div_toNat (by omega), cast_div_toNat (by omega), cast_div_toNat (by omega), mod_toNat_zero (by omega)]
    simp only [Function.comp_def, condAccess, fineDims, boxDims, List.map_cons, List.map_nil, List.zipWith_cons_cons, List.zipWith_nil_left, lin, coarseOf, firstOf]
    simp only [Int.mul_zero, Int.add_zero, Prod.mk.injEq, Bool.true_and, and_true]
    constructor <;> ring

end MC
