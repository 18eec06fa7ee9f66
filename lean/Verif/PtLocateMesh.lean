import Verif.PtLocate
import Verif.MeshDistProps
import Verif.BBTreeProps

/-!
# Location of points: the cells returned for each point
-/

namespace MC
section
variable {K : Type} [Field K] [LinearOrder K] [IsStrictOrderedRing K]

/-- the point is in the bounding box of the nodes, up to `eps` along each axis -/
def NearBox (dim : Nat) (coords : List K) (eps : K) (nodes : List Int) (pt : List K) : Prop :=
  ∀ k, k < dim → (∃ n ∈ nodes, (0 ≤ n ∧ n < ((coords.length / dim : Nat) : Int)) ∧ nodeX dim coords n k ≤ pt.getD k 0 + eps) ∧
    ∃ n ∈ nodes, (0 ≤ n ∧ n < ((coords.length / dim : Nat) : Int)) ∧ pt.getD k 0 - eps ≤ nodeX dim coords n k

omit [LinearOrder K] [IsStrictOrderedRing K] in
theorem rdPt_ok {dim : Nat} {pt : List K} (h : dim ≤ pt.length) :
    ((List.range dim).mapM fun (j : Nat) => rd pt (j : Int)) = .ok ((List.range dim).map fun j => pt.getD j 0) :=
  bt_mapM_ok _ fun j hj => rd_getD (lt_of_lt_of_le (List.mem_range.mp hj) h)

omit [LinearOrder K] [IsStrictOrderedRing K] in
theorem ptBox_get {dim : Nat} (f : Nat → K) {k : Nat} (hk : k < dim) :
    boxLo dim (((List.range dim).map f).flatMap fun x => [x, x]) k 0 = f k ∧ boxHi dim (((List.range dim).map f).flatMap fun x => [x, x]) k 0 = f k := by
  unfold boxLo boxHi
  have e : 0 * dim * 2 + k * 2 = k * 2 + 0 := by omega
  have e1 : k * 2 + 0 + 1 = k * 2 + 1 := by omega
  rw [e, e1, flatMap_getD (n := 2) (fun _ => rfl) 0 ((List.range dim).map f) k 0 (by simpa using hk) (by omega),
    flatMap_getD (n := 2) (fun _ => rfl) 0 ((List.range dim).map f) k 1 (by simpa using hk) (by omega)]
  simp

theorem foldlM_filter_push {f : Nat → M Bool} (b : Nat → Bool) : ∀ (l : List Nat), (∀ i ∈ l, f i = .ok (b i)) → ∀ out : List Nat,
    l.foldlM (fun (out : List Nat) i => (do let s ← f i; if s then .ok (out ++ [i]) else .ok out : M (List Nat))) out = .ok (out ++ l.filter b)
  | [], _, out => by simp; rfl
  | i :: l, h, out => by
    rw [List.foldlM_cons, h i List.mem_cons_self, ok_bind]
    cases hb : b i
    · rw [List.filter_cons_of_neg (by simp [hb])]
      simp only [Bool.false_eq_true, if_false]
      rw [ok_bind]
      exact foldlM_filter_push b l (fun i hi => h i (List.mem_cons_of_mem _ hi)) _
    · rw [List.filter_cons_of_pos (by simp [hb])]
      simp only [if_true]
      rw [ok_bind, foldlM_filter_push b l (fun i hi => h i (List.mem_cons_of_mem _ hi)) _, List.append_assoc]
      rfl

/-- the cells found for one point -/
theorem locateOne_spec {dim : Nat} {coords : List K} {eps : K} {conn connI : List Int} {cells : List Cell} (h : IsMesh conn connI cells)
    {bbs : List K} {t : BT K} (test : List K → Cell → M Bool) (pt : List K) (hp : pt.length = dim)
    (hbb : ∀ (e : Nat) (he : e < cells.length) (k : Nat), k < dim →
        (∀ n ∈ cells[e].nodes, 0 ≤ n → n < ((coords.length / dim : Nat) : Int) → boxLo dim bbs k e ≤ nodeX dim coords n k ∧ nodeX dim coords n k ≤ boxHi dim bbs k e) ∧
        (∃ n ∈ cells[e].nodes, (0 ≤ n ∧ n < ((coords.length / dim : Nat) : Int)) ∧ boxLo dim bbs k e = nodeX dim coords n k) ∧
        (∃ n ∈ cells[e].nodes, (0 ≤ n ∧ n < ((coords.length / dim : Nat) : Int)) ∧ boxHi dim bbs k e = nodeX dim coords n k))
    (ht : ∀ bb : List K, dim * 2 ≤ bb.length → ∃ found : List Nat, found.Perm ((btElems none cells.length).filter fun e => decide (Meets dim bbs (-eps) bb e)) ∧
        (∀ out, getIntersectingElems dim bbs (-eps) t bb out = .ok (out ++ found)))
    (hT : ∀ c ∈ cells, ∃ b, test pt c = .ok b) :
    ∃ found : List Nat, found.Nodup ∧ (∀ e, e ∈ found ↔ ∃ he : e < cells.length, NearBox dim coords eps cells[e].nodes pt ∧ test pt cells[e] = .ok true) ∧
      ∀ elts, locateOne dim conn connI bbs eps t test pt elts = .ok (elts ++ found) := by
  obtain ⟨cand, c1, c2⟩ := ht (((List.range dim).map fun j => pt.getD j 0).flatMap fun x => [x, x])
    (by rw [flatMap_length_const (n := 2) (fun _ => rfl), List.length_map, List.length_range])
  have hmem : ∀ e, e ∈ cand ↔ ∃ he : e < cells.length, NearBox dim coords eps cells[e].nodes pt := by
    intro e
    rw [c1.mem_iff, List.mem_filter, decide_eq_true_iff]
    unfold btElems
    rw [List.mem_range]
    constructor
    · rintro ⟨he, hm⟩
      refine ⟨he, fun k hk => ?_⟩
      obtain ⟨-, ⟨n, n1, n2, n3⟩, ⟨m, m1, m2, m3⟩⟩ := hbb e he k hk
      obtain ⟨p1, p2⟩ := ptBox_get (dim := dim) (fun j => pt.getD j 0) hk
      have := hm k hk
      rw [p1, p2, n3, m3] at this
      exact ⟨⟨n, n1, n2, by linarith [this.1]⟩, ⟨m, m1, m2, by linarith [this.2]⟩⟩
    · rintro ⟨he, hm⟩
      refine ⟨he, fun k hk => ?_⟩
      obtain ⟨⟨n, n1, n2, n3⟩, ⟨m, m1, m2, m3⟩⟩ := hm k hk
      obtain ⟨hin, -⟩ := hbb e he k hk
      obtain ⟨p1, p2⟩ := ptBox_get (dim := dim) (fun j => pt.getD j 0) hk
      rw [p1, p2]
      exact ⟨by linarith [(hin n n1 n2.1 n2.2).1], by linarith [(hin m m1 m2.1 m2.2).2]⟩
  have hnd : cand.Nodup := c1.nodup_iff.mpr ((by unfold btElems; exact List.nodup_range : (btElems none cells.length).Nodup).filter _)
  have hex : ∀ i : Nat, ∃ b : Bool, i ∈ cand → ((do
      let c ← rdCell conn connI i
      test pt c : M Bool) = .ok b) ∧ (b = true ↔ ∃ he : i < cells.length, test pt cells[i] = .ok true) := by
    intro i
    by_cases hi : i < cells.length
    · obtain ⟨b, hb⟩ := hT _ (List.getElem_mem hi)
      refine ⟨b, fun _ => ⟨by rw [rdCell_ok h hi, ok_bind, hb], ⟨fun e => ⟨hi, by rw [hb, e]⟩, fun ⟨_, e⟩ => ?_⟩⟩⟩
      rw [hb] at e
      simpa using e
    · exact ⟨false, fun hc => absurd ((hmem i).mp hc).1 hi⟩
  choose b hb using hex
  refine ⟨cand.filter b, hnd.filter _, fun e => ?_, fun elts => ?_⟩
  · rw [List.mem_filter]
    constructor
    · rintro ⟨h1, h2⟩
      obtain ⟨he, h3⟩ := ((hb e h1).2).mp h2
      obtain ⟨_, h4⟩ := (hmem e).mp h1
      exact ⟨he, h4, h3⟩
    · rintro ⟨he, h3, h4⟩
      have h1 := (hmem e).mpr ⟨he, h3⟩
      exact ⟨h1, ((hb e h1).2).mpr ⟨he, h4⟩⟩
  · unfold locateOne
    rw [rdPt_ok (by omega), ok_bind, c2, ok_bind, List.nil_append]
    have := foldlM_filter_push (f := fun (i : Nat) => (do
      let c ← rdCell conn connI i
      test pt c : M Bool)) b cand (fun i hi => (hb i hi).1) elts
    rw [← this]
    congr 1
    funext out i
    cases rdCell conn connI (i : Int) <;> rfl

/-- C101: whatever the dimension, the points and the tolerance, when the test of each cell gives an answer, `getCellsContainingPoints` returns for each point, without repetition, the cells whose bounding box is at most at the tolerance of the point along each axis and whose test is true.  `elts` is the concatenation of the cells of the points and `eltsIndex` holds the ends of the groups. -/
theorem C101_cells_of_points {dim : Nat} {meshDim : Int} (hdim : dim = 1 ∨ dim = 2 ∨ dim = 3) (hmd : meshDim = dim) {coords : List K} {big eps : K} {conn connI : List Int} {cells : List Cell}
    (sqrtF : K → K) (polyIn : List K → K → Cell → M Bool) (h : IsMesh conn connI cells)
    (hn : ∀ c ∈ cells, ∃ n ∈ c.nodes, 0 ≤ n ∧ n < ((coords.length / dim : Nat) : Int)) (hb : ∀ x ∈ coords, -big ≤ x ∧ x ≤ big)
    (pts : List (List K)) (hp : ∀ pt ∈ pts, pt.length = dim)
    (hT : ∀ pt ∈ pts, ∀ c ∈ cells, ∃ b, cellContains dim sqrtF big polyIn coords pt eps c = .ok b) :
    ∃ found : List (List Nat), getCellsContainingPoints meshDim dim coords conn connI sqrtF big polyIn eps pts =
        .ok (found.flatten, (List.range (pts.length + 1)).map fun i => (found.take i).flatten.length) ∧
      List.Forall₂ (fun (pt : List K) (f : List Nat) => f.Nodup ∧ ∀ e, e ∈ f ↔ ∃ he : e < cells.length,
        NearBox dim coords eps cells[e].nodes pt ∧ cellContains dim sqrtF big polyIn coords pt eps cells[e] = .ok true) pts found := by
  have hd : 0 < dim := by omega
  obtain ⟨bbs, b1, b2, b3⟩ := C80_boxes h hn hb
  obtain ⟨t, t1, -, t3, -⟩ := C77_boxes hd (bbs := bbs) none cells.length (-eps) big (by
    intro e he
    unfold btElems at he
    have := List.mem_range.mp he
    rw [b2, Nat.mul_assoc, Nat.mul_assoc]
    exact Nat.mul_le_mul_right _ this)
  have key : ∀ (pts : List (List K)), (∀ pt ∈ pts, pt.length = dim) → (∀ pt ∈ pts, ∀ c ∈ cells, ∃ b, cellContains dim sqrtF big polyIn coords pt eps c = .ok b) →
      ∃ found : List (List Nat), List.Forall₂ (fun (pt : List K) (f : List Nat) => f.Nodup ∧ ∀ e, e ∈ f ↔ ∃ he : e < cells.length,
        NearBox dim coords eps cells[e].nodes pt ∧ cellContains dim sqrtF big polyIn coords pt eps cells[e] = .ok true) pts found ∧
      ∀ (a : List Nat) (ix : List Nat), pts.foldlM (fun (s : List Nat × List Nat) pt => (do
        let elts ← locateOne dim conn connI bbs eps t (fun pt c => cellContains dim sqrtF big polyIn coords pt eps c) pt s.1
        .ok (elts, s.2 ++ [elts.length]) : M (List Nat × List Nat))) (a, ix) =
        .ok (a ++ found.flatten, ix ++ (List.range pts.length).map fun i => a.length + (found.take (i + 1)).flatten.length) := by
    intro pts
    induction pts with
    | nil => intro _ _; exact ⟨[], List.Forall₂.nil, fun a ix => by simp; rfl⟩
    | cons pt pts ih =>
      intro hp hT
      obtain ⟨found, f1, f2⟩ := ih (fun q hq => hp q (List.mem_cons_of_mem _ hq)) (fun q hq => hT q (List.mem_cons_of_mem _ hq))
      obtain ⟨f, g1, g2, g3⟩ := locateOne_spec h (fun pt c => cellContains dim sqrtF big polyIn coords pt eps c) pt (hp pt List.mem_cons_self) b3
        (fun bb hbb => by obtain ⟨fd, x1, x2, -⟩ := t3 bb hbb; exact ⟨fd, x1, x2⟩) (hT pt List.mem_cons_self)
      refine ⟨f :: found, List.Forall₂.cons ⟨g1, g2⟩ f1, fun a ix => ?_⟩
      rw [List.foldlM_cons]
      simp only []
      rw [g3, ok_bind]
      simp only [ok_bind]
      rw [f2, List.length_cons, List.range_succ_eq_map]
      simp [Nat.add_assoc, Function.comp_def]
  obtain ⟨found, f1, f2⟩ := key pts hp hT
  refine ⟨found, ?_, f1⟩
  unfold getCellsContainingPoints
  rw [if_neg (by omega), b1, ok_bind, h.length, Nat.add_sub_cancel, t1, ok_bind, f2, List.range_succ_eq_map]
  simp [Function.comp_def]

end
end MC
