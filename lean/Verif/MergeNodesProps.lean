import Verif.MergeNodesThm
import Verif.RenumberProps
import Verif.UMeshNodes
import Mathlib.Tactic.Linarith

/-! # C103: coincident tuples, merge of nodes -/

namespace MC
section
variable {K : Type} [Field K] [LinearOrder K] [IsStrictOrderedRing K]

/-- tuples `i` and `j` differ by at most `|eps|` on each component -/
def CloseTup (nc : Nat) (data : List K) (eps : K) (i j : Nat) : Prop := ∀ d, d < nc → |ptC nc data d i - ptC nc data d j| ≤ |eps|

/-- The search in a tree of points, without the closest point. -/
theorem pts_search {dim : Nat} (hd : 0 < dim) {pts : List K} (nb : Nat) (eps big : K) (hv : nb * dim ≤ pts.length) :
    ∃ t, bbTreePts dim pts none nb eps big = .ok t ∧
      ∀ xx : List K, dim ≤ xx.length → ∃ found : List Nat, ptsAroundPoint dim pts eps t xx [] = .ok found ∧ found.Nodup ∧
        ∀ k, k ∈ found ↔ k < nb ∧ Near dim pts |eps| xx k := by
  have hm : ∀ lev, lev % dim < dim := fun lev => Nat.mod_lt _ hd
  have hv : ∀ e ∈ btElems none nb, (e + 1) * dim ≤ pts.length := by
    intro e he
    have : e < nb := by simpa [btElems] using he
    exact le_trans (Nat.mul_le_mul_right dim this) hv
  obtain ⟨t, e1, e2, e3⟩ := btBuild_spec (lo := fun level => ptAt dim pts (level % dim)) (hi := fun level => ptAt dim pts (level % dim))
    (lo' := fun level => ptC dim pts (level % dim)) (hi' := fun level => ptC dim pts (level % dim)) (right := fun v m => decide (v > m))
    (pad := |eps|) (big := big) 22 0 (btElems none nb) (by omega) (fun lev e he => ⟨ptAt_ok (hm lev) (hv e he), ptAt_ok (hm lev) (hv e he)⟩) (by omega)
  refine ⟨t, e1, fun xx hx => ?_⟩
  have := btCollect_spec (lo := fun level => ptC dim pts (level % dim)) (hi := fun level => ptC dim pts (level % dim)) (pad := |eps|)
    (onlyLeft := ptOnlyLeft dim xx) (onlyRight := ptOnlyRight dim xx) (test := ptsTest dim pts xx eps)
    (P := fun e => decide (Near dim pts |eps| xx e)) (V := fun e => (e + 1) * dim ≤ pts.length) (by
      intro lev m
      have h1 : lev % dim < xx.length := by have := hm lev; omega
      unfold ptOnlyLeft
      rw [rd_getD h1, ok_bind]
      refine ⟨_, rfl, fun hb e he hle => decide_eq_false fun hM => ?_⟩
      have hb := of_decide_eq_true hb
      have h2 := (abs_le.mp (hM _ (hm lev))).2
      linarith) (by
      intro lev m
      have h1 : lev % dim < xx.length := by have := hm lev; omega
      unfold ptOnlyRight
      rw [rd_getD h1, ok_bind]
      refine ⟨_, rfl, fun hb e he hle => decide_eq_false fun hM => ?_⟩
      have hb := of_decide_eq_true hb
      have h2 := (abs_le.mp (hM _ (hm lev))).1
      linarith) (fun e he => ptsTest_ok he hx) t e3 (fun e he => hv e (e2.mem_iff.mp he))
  have hp := e2.filter fun e => decide (Near dim pts |eps| xx e)
  refine ⟨_, by rw [show ptsAroundPoint dim pts eps t xx [] = _ from (this []).1, List.nil_append], ?_, fun k => ?_⟩
  · exact hp.nodup_iff.mpr ((List.nodup_range).filter _)
  · rw [hp.mem_iff, List.mem_filter]
    simp [btElems]

omit [IsStrictOrderedRing K] in
theorem near_drop {nc : Nat} {data pts : List K} {eps : K} {i k : Nat} :
    Near nc pts |eps| (data.drop (i * nc)) k ↔ ∀ d, d < nc → |ptC nc pts d k - ptC nc data d i| ≤ |eps| := by
  unfold Near ptC
  simp only [List.getD_eq_getElem?_getD, List.getElem?_drop]

theorem CloseTup.symm {nc : Nat} {data : List K} {eps : K} {i j : Nat} (h : CloseTup nc data eps i j) : CloseTup nc data eps j i :=
  fun d hd => by rw [abs_sub_comm]; exact h d hd

theorem CloseTup.refl (nc : Nat) (data : List K) (eps : K) (i : Nat) : CloseTup nc data eps i i := fun d _ => by rw [sub_self, abs_zero]; exact abs_nonneg _

/-- C103: the groups of coincident tuples.  A group is made of one tuple, behind which come all the other tuples from `limit` on which differ from
it by at most `|prec|` on each component; a tuple starts a group exactly when there are such tuples and it is in no group of a tuple before it. -/
theorem C103_findCommonTuples (a : DArr K) (prec : K) (limit : Int) (big : K) (h1 : 1 ≤ a.nc) (h4 : a.nc ≤ 4) :
    ∃ arr arrI gs, findCommonTuples a prec limit big = .ok (arr, arrI) ∧ IsSky arr arrI gs ∧
      FoundGroups (CloseTup a.nc a.data prec) a.nt a.nt limit gs := by
  obtain ⟨t, e1, e2⟩ := pts_search h1 (pts := a.data) a.nt prec big (by rw [a.wf])
  unfold findCommonTuples
  rw [if_neg (by omega), e1, ok_bind]
  refine findCommonAlg_ok limit (fun i hi => ?_) (fun i _ => CloseTup.refl _ _ _ i) (fun i j _ _ h => h.symm)
  obtain ⟨found, f1, f2, f3⟩ := e2 (a.data.drop (i * a.nc)) (by
    rw [List.length_drop, a.wf]
    have := Nat.mul_le_mul_right a.nc (show i + 1 ≤ a.nt by omega)
    rw [Nat.succ_mul] at this
    omega)
  refine ⟨found, f1, f2, fun k => ?_⟩
  rw [f3, near_drop]
  exact and_congr_right fun _ => ⟨fun h d hd => by rw [abs_sub_comm]; exact h d hd, fun h d hd => by rw [abs_sub_comm]; exact h d hd⟩

/-- C103: an exception is thrown for another number of components. -/
theorem C103_components (a : DArr K) (prec : K) (limit : Int) (big : K) (h : a.nc = 0 ∨ 4 < a.nc) : findCommonTuples a prec limit big = throwX := by
  unfold findCommonTuples
  rw [if_pos (by omega)]

example : findCommonTuples (⟨5, 2, [0, 0, 3, 3, 0, 1/2, 3, 3, 9, 9], rfl⟩ : DArr ℚ) (1/2) (-1) 1000 = .ok ([0, 2, 1, 3], [0, 2, 4]) := by decide +kernel

/-- C103, finding: closeness is not transitive, and a tuple is then in two groups. -/
theorem C103_finding_overlap : findCommonTuples (⟨3, 1, [0, 1, 2], rfl⟩ : DArr ℚ) 1 (-1) 1000 = .ok ([0, 1, 2, 1], [0, 2, 4]) := by decide +kernel

/-- C103: the numbering of the nodes for a merge (`buildPermArrayForMergeNode`, `findCommonNodes`,
`buildNewNumberingFromCommonNodesFormat`), see `IsMerge`. -/
theorem C103_numbering (a : DArr K) (prec : K) (limit : Int) (big : K) (h1 : 1 ≤ a.nc) (h4 : a.nc ≤ 4) :
    ∃ r kept, permArrayForMerge a prec limit big = .ok (r, decide (a.nt ≠ kept.length), (kept.length : Int)) ∧
      IsMerge (CloseTup a.nc a.data prec) a.nt limit kept r := by
  obtain ⟨arr, arrI, gs, e1, e2, e3⟩ := C103_findCommonTuples a prec limit big h1 h4
  obtain ⟨r, kept, f1, f2⟩ := merge_of_found e2 e3 (fun i j _ _ h => h.symm)
  refine ⟨r, kept, ?_, f2⟩
  unfold permArrayForMerge
  rw [e1, ok_bind, f1, ok_bind]
  simp only [ne_eq, Nat.cast_inj]

example : permArrayForMerge (⟨5, 2, [0, 0, 3, 3, 0, 1/2, 3, 3, 9, 9], rfl⟩ : DArr ℚ) (1/2) (-1) 1000 = .ok ([0, 1, 0, 1, 2], true, 3) := by decide +kernel

end

section
variable {near : Nat → Nat → Prop} {n : Nat} {limit : Int} {kept : List Nat} {r : List Int}

theorem IsMerge.nodup (h : IsMerge near n limit kept r) : kept.Nodup := h.sorted.imp (fun hh => ne_of_lt hh)

/-- each tuple has a kept tuple with the same number, itself or a close one -/
theorem IsMerge.rep (h : IsMerge near n limit kept r) {k : Nat} (hk : k < n) :
    ∃ v j : Nat, r[k]? = some (v : Int) ∧ kept[v]? = some j ∧ (j = k ∨ near j k) := by
  by_cases hm : k ∈ kept
  · obtain ⟨v, hv⟩ := List.getElem?_of_mem hm
    exact ⟨v, k, h.self v k hv, hv, Or.inl rfl⟩
  · obtain ⟨v, j, a1, a2, a3, -⟩ := h.close k hk hm
    exact ⟨v, j, a1, a2, Or.inr a3⟩

theorem IsMerge.bound (h : IsMerge near n limit kept r) : ∀ v ∈ r, 0 ≤ v ∧ v < kept.length := by
  intro v hv
  obtain ⟨k, hk⟩ := List.getElem?_of_mem hv
  have hkn := (List.getElem?_eq_some_iff.mp hk).1
  obtain ⟨w, j, b1, b2, -⟩ := h.rep (k := k) (by rw [← h.len]; exact hkn)
  rw [hk] at b1
  have := (List.getElem?_eq_some_iff.mp b2).1
  simp only [Option.some.injEq] at b1
  omega

theorem IsMerge.full (h : IsMerge near n limit kept r) : kept.length = n ↔ ∀ i j, i < j → j < n → limit ≤ j → ¬ near i j := by
  have hsub : kept ⊆ List.range n := fun k hk => List.mem_range.mpr (h.range k hk)
  have hp := List.subperm_of_subset h.nodup hsub
  constructor
  · intro hl i j hij hj hlim
    have hperm := hp.perm_of_length_le (by simp [hl])
    exact h.apart i (hperm.mem_iff.mpr (List.mem_range.mpr (by omega))) j (hperm.mem_iff.mpr (List.mem_range.mpr hj)) hij hlim
  · intro hno
    have hall : ∀ k < n, k ∈ kept := by
      intro k hk
      by_contra hc
      obtain ⟨j, hj, hjk, hn⟩ := h.early k hk hc
      exact hno j k hjk hk (by by_contra hl; exact hc (h.below k hk (by omega))) hn
    have hperm : kept.Perm (List.range n) := (List.perm_ext_iff_of_nodup h.nodup List.nodup_range).mpr
      fun k => ⟨fun hk => hsub hk, fun hk => hall k (List.mem_range.mp hk)⟩
    simpa using hperm.length_eq

theorem IsMerge.classes (h : IsMerge near n limit kept r) (hl : limit ≤ 0) (hrefl : ∀ i < n, near i i) (hsym : ∀ i j, i < n → j < n → near i j → near j i)
    (htrans : ∀ i j k, i < n → j < n → k < n → near i j → near j k → near i k) {i j : Nat} (hi : i < n) (hj : j < n) :
    r[i]? = r[j]? ↔ near i j := by
  obtain ⟨v, a, b1, b2, b3⟩ := h.rep hi
  obtain ⟨w, b, c1, c2, c3⟩ := h.rep hj
  have ha := h.range a (List.mem_of_getElem? b2)
  have hb := h.range b (List.mem_of_getElem? c2)
  have b3' : near a i := by
    rcases b3 with e | e
    · rw [e]; exact hrefl i hi
    · exact e
  have c3' : near b j := by
    rcases c3 with e | e
    · rw [e]; exact hrefl j hj
    · exact e
  constructor
  · intro he
    rw [b1, c1] at he
    have : v = w := by simpa using he
    subst this
    rw [b2] at c2
    have : a = b := by simpa using c2
    subst this
    exact htrans i a j hi ha hj (hsym a i ha hi b3') c3'
  · intro hn
    have hab : near a b := htrans a i b ha hi hb b3' (htrans i j b hi hj hb hn (hsym b j hb hj c3'))
    have : a = b := by
      rcases Nat.lt_trichotomy a b with hlt | he | hlt
      · exact absurd hab (h.apart a (List.mem_of_getElem? b2) b (List.mem_of_getElem? c2) hlt (by omega))
      · exact he
      · exact absurd (hsym a b ha hb hab) (h.apart b (List.mem_of_getElem? c2) a (List.mem_of_getElem? b2) hlt (by omega))
    subst this
    have := (List.getElem?_inj (List.getElem?_eq_some_iff.mp b2).1 h.nodup).mp (b2.trans c2.symm)
    rw [b1, c1, this]

/-- the tuples before the limit keep their numbers -/
theorem IsMerge.prefix (h : IsMerge near n limit kept r) {m : Nat} (hm : (m : Int) ≤ limit) (hmn : m ≤ n) {k : Nat} (hk : k < m) : kept[k]? = some k := by
  induction k using Nat.strong_induction_on with
  | _ k ih =>
    have hmem := h.below k (by omega) (by omega)
    obtain ⟨v, hv⟩ := List.getElem?_of_mem hmem
    have hvl := (List.getElem?_eq_some_iff.mp hv).1
    rcases Nat.lt_trichotomy v k with hlt | he | hlt
    · have := ih v hlt (by omega)
      rw [hv] at this
      simp at this
      omega
    · rw [← he]; rw [he]; rw [he] at hv; exact hv
    · -- the ones before are too many
      exfalso
      have hkl : k < kept.length := by omega
      have hval : kept[k] < kept[v] := List.pairwise_iff_getElem.mp h.sorted k v hkl hvl hlt
      have hkv : kept[v] = k := (List.getElem?_eq_some_iff.mp hv).2
      have hx := ih kept[k] (by omega) (by omega)
      have := (List.getElem?_inj hkl h.nodup).mp ((List.getElem?_eq_getElem hkl).trans hx.symm)
      omega

theorem IsMerge.ident (h : IsMerge near n limit kept r) (hf : kept.length = n) : ∀ k < n, r[k]? = some (k : Int) := by
  have hall : ∀ k < n, k ∈ kept := by
    have hp := (List.subperm_of_subset h.nodup (fun k hk => List.mem_range.mpr (h.range k hk) : kept ⊆ List.range n)).perm_of_length_le (by simp [hf])
    exact fun k hk => hp.mem_iff.mpr (List.mem_range.mpr hk)
  have h' : IsMerge near n n kept r := ⟨h.len, h.sorted, h.range, h.self, fun k hk _ => hall k hk,
    fun i hi j hj _ hl => absurd (h.range j hj) (by omega), h.early, h.close⟩
  intro k hk
  exact h.self k k (h'.prefix (le_refl _) (le_refl _) hk)

end

section
variable {K : Type} [Field K] [LinearOrder K] [IsStrictOrderedRing K]

/-- C103: `areNodesMerged` is false exactly when no tuple from `limit` on is close to a tuple before it, and the numbers are then unchanged. -/
theorem C103_none (a : DArr K) (prec : K) (limit : Int) (big : K) (h1 : 1 ≤ a.nc) (h4 : a.nc ≤ 4) :
    ∃ r b nb, permArrayForMerge a prec limit big = .ok (r, b, nb) ∧
      (b = false ↔ ∀ i j, i < j → j < a.nt → limit ≤ j → ¬ CloseTup a.nc a.data prec i j) ∧
      (b = false → nb = a.nt ∧ ∀ k < a.nt, r[k]? = some (k : Int)) := by
  obtain ⟨r, kept, e1, e2⟩ := C103_numbering a prec limit big h1 h4
  refine ⟨r, _, _, e1, ?_, fun h => ?_⟩
  · rw [← e2.full]
    simp only [ne_eq, decide_not, Bool.not_eq_false', decide_eq_true_eq]
    exact eq_comm
  · have hf : kept.length = a.nt := by
      simp only [ne_eq, decide_not, Bool.not_eq_false', decide_eq_true_eq] at h
      exact h.symm
    exact ⟨by rw [hf], e2.ident hf⟩

example : permArrayForMerge (⟨3, 1, [0, 2, 4], rfl⟩ : DArr ℚ) 1 (-1) 1000 = .ok ([0, 1, 2], false, 3) := by decide +kernel

/-- C103: when closeness is transitive on the tuples (well separated clusters), two tuples get the same number exactly when they are close. -/
theorem C103_classes (a : DArr K) (prec : K) (limit : Int) (big : K) (h1 : 1 ≤ a.nc) (h4 : a.nc ≤ 4) (hl : limit ≤ 0)
    (ht : ∀ i j k, i < a.nt → j < a.nt → k < a.nt → CloseTup a.nc a.data prec i j → CloseTup a.nc a.data prec j k → CloseTup a.nc a.data prec i k) :
    ∃ r b nb, permArrayForMerge a prec limit big = .ok (r, b, nb) ∧ r.length = a.nt ∧
      ∀ i j, i < a.nt → j < a.nt → (r[i]? = r[j]? ↔ CloseTup a.nc a.data prec i j) := by
  obtain ⟨r, kept, e1, e2⟩ := C103_numbering a prec limit big h1 h4
  exact ⟨r, _, _, e1, e2.len, fun i j hi hj => e2.classes hl (fun i _ => CloseTup.refl _ _ _ i) (fun i j _ _ h => h.symm) ht hi hj⟩

/-- The coordinates after `renumberAndReduce`: those of the last old tuple with the number. -/
theorem reduce_ok {near : Nat → Nat → Prop} (a : DArr K) {limit : Int} {kept : List Nat} {r : List Int} (h : IsMerge near a.nt limit kept r) :
    ∃ c : List K, renumberAndReduce a r kept.length = .ok (c.map some) ∧ c.length = kept.length * a.nc ∧
      ∀ v < kept.length, ∃ i < a.nt, r[i]? = some (v : Int) ∧ (∀ i', i < i' → i' < a.nt → r[i']? ≠ some (v : Int)) ∧ tup a.nc c v = tup a.nc a.data i := by
  obtain ⟨s, s1, s2, s3⟩ := C06_renumberAndReduce a r kept.length h.len (fun v hv => (h.bound v hv).2)
  have hlast : ∀ v < kept.length, ∃ i < a.nt, r[i]? = some (v : Int) ∧ ∀ i', i < i' → i' < a.nt → r[i']? ≠ some (v : Int) := by
    intro v hv
    have hne : ((List.range a.nt).filter fun i => decide (r[i]? = some (v : Int))) ≠ [] := by
      apply List.ne_nil_of_mem (a := kept[v])
      rw [List.mem_filter, List.mem_range]
      exact ⟨h.range _ (List.getElem_mem hv), by simpa using h.self v kept[v] (List.getElem?_eq_getElem hv)⟩
    have hpw : ((List.range a.nt).filter fun i => decide (r[i]? = some (v : Int))).Pairwise (· < ·) := List.pairwise_lt_range.filter _
    have hm := List.mem_filter.mp (List.getLast_mem hne)
    refine ⟨_, List.mem_range.mp hm.1, by simpa using hm.2, fun i' hi' hi'n he => ?_⟩
    have hmem : i' ∈ (List.range a.nt).filter fun i => decide (r[i]? = some (v : Int)) := by
      rw [List.mem_filter, List.mem_range]; exact ⟨hi'n, by simpa using he⟩
    obtain ⟨q, hq, rfl⟩ := List.mem_iff_getElem.mp hmem
    rw [List.getLast_eq_getElem] at hi'
    rcases Nat.lt_or_ge q (((List.range a.nt).filter fun i => decide (r[i]? = some (v : Int))).length - 1) with hlt | hge
    · have := List.pairwise_iff_getElem.mp hpw q _ hq (by omega) hlt
      omega
    · have : q = ((List.range a.nt).filter fun i => decide (r[i]? = some (v : Int))).length - 1 := by omega
      subst this
      omega
  have hs : s = (s.map fun o => o.getD 0).map some := by
    refine ext_tup s2 (by simpa using s2) fun v hv => ?_
    obtain ⟨i, hi, hri, hla⟩ := hlast v hv
    have := (s3 v hv).1 i hi hri hla
    rw [tup_map, tup_map, this]
    simp
  refine ⟨s.map fun o => o.getD 0, by rw [s1, ← hs], by simpa using s2, fun v hv => ?_⟩
  obtain ⟨i, hi, hri, hla⟩ := hlast v hv
  refine ⟨i, hi, hri, hla, ?_⟩
  rw [tup_map, (s3 v hv).1 i hi hri hla]
  simp

omit [LinearOrder K] [IsStrictOrderedRing K] in
theorem ptC_of_tup {nc : Nat} {c a : List K} {v i : Nat} (h : tup nc c v = tup nc a i) {d : Nat} (hd : d < nc) : ptC nc c d v = ptC nc a d i := by
  have := congrArg (fun l => l[d]?) h
  simp only [tup_getElem?, if_pos hd] at this
  unfold ptC
  rw [List.getD_eq_getElem?_getD, List.getD_eq_getElem?_getD, this]

/-- Two tuples with the same number differ by at most twice the precision. -/
theorem same_close {a : DArr K} {prec : K} {limit : Int} {kept : List Nat} {r : List Int} (h : IsMerge (CloseTup a.nc a.data prec) a.nt limit kept r)
    {i k : Nat} (hi : i < a.nt) (hk : k < a.nt) {v : Int} (hri : r[i]? = some v) (hrk : r[k]? = some v) {d : Nat} (hd : d < a.nc) :
    |ptC a.nc a.data d i - ptC a.nc a.data d k| ≤ 2 * |prec| := by
  obtain ⟨v1, j1, b1, b2, b3⟩ := h.rep hi
  obtain ⟨v2, j2, c1, c2, c3⟩ := h.rep hk
  rw [hri] at b1
  rw [hrk] at c1
  have e : v1 = v2 := by
    simp only [Option.some.injEq] at b1 c1
    omega
  subst e
  rw [b2] at c2
  have : j1 = j2 := by simpa using c2
  subst this
  have hc : ∀ x, j1 = x ∨ CloseTup a.nc a.data prec j1 x → |ptC a.nc a.data d j1 - ptC a.nc a.data d x| ≤ |prec| := by
    rintro x (rfl | h)
    · exact CloseTup.refl _ _ _ _ d hd
    · exact h d hd
  have h1 := abs_le.mp (hc i b3)
  have h2 := abs_le.mp (hc k c3)
  rw [abs_le]
  constructor <;> linarith [h1.1, h1.2, h2.1, h2.2]

/-- C103: `getDifferentValues` keeps as many tuples as `IsMerge` says; each is a tuple of the array, and each tuple of the array is within twice the
precision of the one which stands for it. -/
theorem C103_differentValues (a : DArr K) (prec : K) (limit : Int) (big : K) (h1 : 1 ≤ a.nc) (h4 : a.nc ≤ 4) :
    ∃ (r : List Int) (kept : List Nat) (c : List K), differentValues a prec limit big = .ok (c.map some) ∧
      IsMerge (CloseTup a.nc a.data prec) a.nt limit kept r ∧ c.length = kept.length * a.nc ∧
      (∀ v < kept.length, ∃ i < a.nt, r[i]? = some (v : Int) ∧ (∀ i', i < i' → i' < a.nt → r[i']? ≠ some (v : Int)) ∧ tup a.nc c v = tup a.nc a.data i) ∧
      ∀ k < a.nt, ∃ v : Nat, v < kept.length ∧ r[k]? = some (v : Int) ∧ ∀ d, d < a.nc → |ptC a.nc c d v - ptC a.nc a.data d k| ≤ 2 * |prec| := by
  obtain ⟨arr, arrI, gs, e1, e2, e3⟩ := C103_findCommonTuples a prec limit big h1 h4
  obtain ⟨r, kept, f1, f2⟩ := merge_of_found e2 e3 (fun i j _ _ h => h.symm)
  obtain ⟨c, c1, c2, c3⟩ := reduce_ok a f2
  refine ⟨r, kept, c, ?_, f2, c2, c3, fun k hk => ?_⟩
  · unfold differentValues
    rw [e1, ok_bind, f1, ok_bind]
    simpa using c1
  · obtain ⟨v, j, b1, b2, -⟩ := f2.rep hk
    have hv := (List.getElem?_eq_some_iff.mp b2).1
    refine ⟨v, hv, b1, fun d hd => ?_⟩
    obtain ⟨i, hi, d1, -, d2⟩ := c3 v hv
    rw [ptC_of_tup d2 hd]
    exact same_close f2 hi hk d1 b1 hd

example : differentValues (⟨5, 1, [7, 1, 7, 2, 1], rfl⟩ : DArr ℚ) 0 (-1) 1000 = .ok [some 7, some 1, some 2] := by decide +kernel

/-- C103: `mergeNodes`.  The cells keep their types and their nodes, renumbered; a new node is at the position of one of the old nodes it stands for, the
last one, and an old node is within twice the precision of the new one. -/
theorem C103_mergeNodes (a : DArr K) {conn connI : List Int} {cells : List Cell} (hm : IsMesh conn connI cells)
    (hu : ∀ n, UsedNode cells n → n < a.nt) (prec big : K) (h1 : 1 ≤ a.nc) (h4 : a.nc ≤ 4) :
    ∃ (c : List K) (conn' r : List Int) (kept : List Nat), mergeNodes a conn connI prec big = .ok (c.map some, conn', r, decide (a.nt ≠ kept.length), (kept.length : Int)) ∧
      IsMerge (CloseTup a.nc a.data prec) a.nt (-1) kept r ∧ c.length = kept.length * a.nc ∧
      IsMesh conn' connI (cells.map (Cell.mapNodes fun n => r.getD n.toNat 0)) ∧
      (∀ v < kept.length, ∃ i < a.nt, r[i]? = some (v : Int) ∧ (∀ i', i < i' → i' < a.nt → r[i']? ≠ some (v : Int)) ∧ tup a.nc c v = tup a.nc a.data i) ∧
      ∀ k < a.nt, ∃ v : Nat, v < kept.length ∧ r[k]? = some (v : Int) ∧ ∀ d, d < a.nc → |ptC a.nc c d v - ptC a.nc a.data d k| ≤ 2 * |prec| := by
  obtain ⟨r, kept, e1, e2⟩ := C103_numbering a prec (-1) big h1 h4
  obtain ⟨c, c1, c2, c3⟩ := reduce_ok a e2
  obtain ⟨conn', g1, g2⟩ := C55_renumberNodesInConn hm r (by intro n hn; rw [e2.len]; exact_mod_cast hu n hn)
  have hpos : ∀ k < a.nt, ∃ v : Nat, v < kept.length ∧ r[k]? = some (v : Int) ∧ ∀ d, d < a.nc → |ptC a.nc c d v - ptC a.nc a.data d k| ≤ 2 * |prec| := by
    intro k hk
    obtain ⟨v, j, b1, b2, -⟩ := e2.rep hk
    have hv := (List.getElem?_eq_some_iff.mp b2).1
    refine ⟨v, hv, b1, fun d hd => ?_⟩
    obtain ⟨i, hi, d1, -, d2⟩ := c3 v hv
    rw [ptC_of_tup d2 hd]
    exact same_close e2 hi hk d1 b1 hd
  by_cases hf : kept.length = a.nt
  · have hid := e2.ident hf
    refine ⟨c, conn, r, kept, ?_, e2, c2, ?_, c3, hpos⟩
    · unfold mergeNodes
      rw [e1, ok_bind]
      simp only [hf, ne_eq, not_true_eq_false, decide_false, Bool.false_eq_true, if_false]
      have : c = a.data := by
        refine ext_tup (n := a.nt) (nc := a.nc) (by rw [c2, hf]) a.wf fun k hk => ?_
        obtain ⟨i, hi, d1, -, d2⟩ := c3 k (by omega)
        rw [hid i hi] at d1
        have : i = k := by simpa using d1
        rw [d2, this]
      rw [this]
    · have : cells.map (Cell.mapNodes fun n => r.getD n.toNat 0) = cells := by
        conv_rhs => rw [← List.map_id cells]
        refine List.map_congr_left fun cl hcl => ?_
        unfold Cell.mapNodes
        have : cl.nodes.map (fun n => if n ≥ 0 then r.getD n.toNat 0 else n) = cl.nodes := by
          conv_rhs => rw [← List.map_id cl.nodes]
          refine List.map_congr_left fun n hn => ?_
          by_cases h0 : n ≥ 0
          · have := hu n ⟨h0, cl, hcl, hn⟩
            rw [if_pos h0, List.getD_eq_getElem?_getD, hid n.toNat (by omega)]
            simp; omega
          · rw [if_neg h0]; rfl
        rw [this]; rfl
      rw [this]; exact hm
  · refine ⟨c, conn', r, kept, ?_, e2, c2, g2, c3, hpos⟩
    unfold mergeNodes
    rw [e1, ok_bind]
    have hd : decide (a.nt ≠ kept.length) = true := decide_eq_true fun h => hf h.symm
    simp only [hd, if_true]
    unfold renumberNodesM
    simp only [Int.toNat_natCast]
    rw [c1, ok_bind, g1]
    rfl

/-- two segments which share a place -/
example : mergeNodes (⟨4, 1, [0, 1, 1, 2], rfl⟩ : DArr ℚ) [1, 0, 1, 1, 2, 3] [0, 3, 6] 0 1000 =
    .ok ([some 0, some 1, some 2], [1, 0, 1, 1, 1, 2], [0, 1, 1, 2], true, 3) := by decide +kernel

/-- C103, finding: after `mergeNodes` with a precision there may remain two nodes closer than the precision: the nodes at 0 and 9/5 stand for
themselves and 9/10, which is close to both, takes the place of one. -/
theorem C103_finding_not_done : (mergeNodes (⟨3, 1, [0, 9/5, 9/10], rfl⟩ : DArr ℚ) [] [0] 1 1000).map (·.1) = .ok [some 0, some (9/10)] := by decide +kernel

/-- C103, finding: a node may move by twice the precision. -/
theorem C103_finding_twice : (mergeNodes (⟨3, 1, [0, 1, -1], rfl⟩ : DArr ℚ) [] [0] 1 1000).map (fun x => (x.1, x.2.2.1)) = .ok ([some (-1)], [0, 0, 0]) := by decide +kernel

/-- C103: `computeTupleIdsNearTuples` gives for each tuple of the other array all the tuples of the array which differ from it by at most `|eps|` on each component. -/
theorem C103_nearTuples (a other : DArr K) (eps big : K) (hc : a.nc = other.nc) (h1 : 1 ≤ a.nc) (h3 : a.nc ≤ 3) :
    ∃ (arr arrI : List Int) (gs : List (List Nat)), tupleIdsNearTuples a other eps big = .ok (arr, arrI) ∧
      IsSky arr arrI (gs.map (·.map fun e : Nat => (e : Int))) ∧ gs.length = other.nt ∧
      ∀ (j : Nat) (g : List Nat), gs[j]? = some g → g.Nodup ∧ ∀ i, i ∈ g ↔ i < a.nt ∧ ∀ d, d < a.nc → |ptC a.nc a.data d i - ptC a.nc other.data d j| ≤ |eps| := by
  obtain ⟨t, e1, e2⟩ := pts_search h1 (pts := a.data) a.nt eps big (by rw [a.wf])
  have main : wp (tupleIdsNearTuples a other eps big) (fun s => ∃ gs : List (List Nat), IsSky s.1 s.2 (gs.map (·.map fun e : Nat => (e : Int))) ∧ gs.length = other.nt ∧
      ∀ (j : Nat) (g : List Nat), gs[j]? = some g → g.Nodup ∧ ∀ i, i ∈ g ↔ i < a.nt ∧ ∀ d, d < a.nc → |ptC a.nc a.data d i - ptC a.nc other.data d j| ≤ |eps|) False := by
    unfold tupleIdsNearTuples
    rw [if_neg (by simpa using hc), if_neg (by omega), e1, ok_bind]
    refine wp_loop (E := False) (fun t (s : List Int × List Int) => ∃ gs : List (List Nat), IsSky s.1 s.2 (gs.map (·.map fun e : Nat => (e : Int))) ∧ gs.length = t ∧
      ∀ (j : Nat) (g : List Nat), gs[j]? = some g → g.Nodup ∧ ∀ i, i ∈ g ↔ i < a.nt ∧ ∀ d, d < a.nc → |ptC a.nc a.data d i - ptC a.nc other.data d j| ≤ |eps|) ?_ ?_
    · exact ⟨[], ⟨by simp, by simp [skyIdx]⟩, rfl, by simp⟩
    · rintro i hi ⟨arr, arrI⟩ ⟨gs, hsky, hl, hg⟩
      obtain ⟨found, f1, f2, f3⟩ := e2 (other.data.drop (i * a.nc)) (by
        rw [List.length_drop, other.wf, hc]
        have := Nat.mul_le_mul_right other.nc (show i + 1 ≤ other.nt by omega)
        rw [Nat.succ_mul] at this
        omega)
      rw [f1, ok_bind]
      have hlI := hsky.idx_length
      obtain ⟨hs1, hs2⟩ := hsky
      simp only at hs1 hs2 hlI ⊢
      have hrd : rd arrI ((arrI.length : Int) - 1) = .ok (((gs.map (·.map fun e : Nat => (e : Int))).flatten.length : Nat) : Int) := by
        apply rd_of_getElem? (by omega)
        rw [show ((arrI.length : Int) - 1).toNat = (gs.map (·.map fun e : Nat => (e : Int))).length by omega, hs2, skyIdx_getElem? _ (le_refl _), List.take_length]
      rw [hrd, ok_bind]
      refine ⟨gs ++ [found], ⟨by rw [hs1, List.map_append, List.flatten_append]; simp only [List.map_cons, List.map_nil, List.flatten_cons, List.flatten_nil, List.append_nil], ?_⟩, by simp [hl], fun j g hj => ?_⟩
      · simp only [List.map_append, List.map_cons, List.map_nil]
        rw [hs2, skyIdx_snoc]
        simp
      · rcases Nat.lt_or_ge j gs.length with hlt | hge
        · rw [List.getElem?_append_left hlt] at hj
          exact hg j g hj
        · rw [List.getElem?_append_right hge] at hj
          have hj0 : j - gs.length = 0 := by
            by_contra hne
            rw [List.getElem?_eq_none (by simp; omega)] at hj
            simp at hj
          rw [hj0] at hj
          simp only [List.getElem?_cons_zero, Option.some.injEq] at hj
          subst hj
          have : j = i := by omega
          subst this
          exact ⟨f2, fun k => by rw [f3, near_drop]⟩
  obtain ⟨⟨arr, arrI⟩, e, gs, q⟩ := wp_exists main
  exact ⟨arr, arrI, gs, e, q⟩

example : tupleIdsNearTuples (⟨4, 1, [0, 1, 2, 1], rfl⟩ : DArr ℚ) (⟨3, 1, [1, 5, 0], rfl⟩ : DArr ℚ) (1/2) 1000 = .ok ([1, 3, 0], [0, 2, 2, 3]) := by decide +kernel

omit [LinearOrder K] [IsStrictOrderedRing K] in
theorem ptC_append_left {a b : DArr K} (h : b.nc = a.nc) {d i : Nat} (hd : d < a.nc) (hi : i < a.nt) : ptC a.nc (a.append b h).data d i = ptC a.nc a.data d i := by
  unfold ptC DArr.append
  have := Nat.mul_le_mul_right a.nc (show i + 1 ≤ a.nt by omega)
  rw [Nat.succ_mul] at this
  rw [List.getD_eq_getElem?_getD, List.getD_eq_getElem?_getD, List.getElem?_append_left (by rw [a.wf]; omega)]

omit [LinearOrder K] [IsStrictOrderedRing K] in
theorem ptC_append_right {a b : DArr K} (h : b.nc = a.nc) {d j : Nat} : ptC a.nc (a.append b h).data d (a.nt + j) = ptC a.nc b.data d j := by
  unfold ptC DArr.append
  have : (a.nt + j) * a.nc + d - a.data.length = j * a.nc + d := by
    rw [a.wf, Nat.add_mul]; omega
  rw [List.getD_eq_getElem?_getD, List.getD_eq_getElem?_getD, List.getElem?_append_right (by rw [a.wf, Nat.add_mul]; omega), this]

/-- tuple `i` of the first array and tuple `j` of the second one differ by at most `|eps|` on each component -/
def CloseTo (a b : DArr K) (eps : K) (i j : Nat) : Prop := ∀ d, d < a.nc → |ptC a.nc a.data d i - ptC a.nc b.data d j| ≤ |eps|

omit [IsStrictOrderedRing K] in
theorem close_append {a b : DArr K} (h : b.nc = a.nc) {eps : K} {i j : Nat} (hi : i < a.nt) :
    CloseTup (a.append b h).nc (a.append b h).data eps i (a.nt + j) ↔ CloseTo a b eps i j := by
  unfold CloseTup CloseTo
  refine forall_congr' fun d => forall_congr' fun hd => ?_
  have e1 := ptC_append_left (a := a) (b := b) h (d := d) hd hi
  have e2 := ptC_append_right (a := a) (b := b) h (d := d) (j := j)
  show |ptC a.nc (a.append b h).data d i - ptC a.nc (a.append b h).data d (a.nt + j)| ≤ |eps| ↔ _
  rw [e1, e2]

/-- What the numbering of two arrays one behind the other gives for the tuples of the second one. -/
theorem merge_two {a b : DArr K} (h : b.nc = a.nc) {eps : K} {kept : List Nat} {r : List Int}
    (hm : IsMerge (CloseTup (a.append b h).nc (a.append b h).data eps) (a.append b h).nt a.nt kept r) :
    (∀ i < a.nt, r[i]? = some (i : Int)) ∧
    (kept.length = a.nt ↔ ∀ j < b.nt, ∃ i < a.nt, CloseTo a b eps i j) ∧
    (kept.length = a.nt → ∀ j < b.nt, ∃ v < a.nt, r[a.nt + j]? = some ((v : Nat) : Int) ∧ CloseTo a b eps v j ∧ ∀ i < a.nt, CloseTo a b eps i j → i ≤ v) ∧
    (kept.length ≠ a.nt → ∃ j < b.nt, ∃ v : Nat, r[a.nt + j]? = some (v : Int) ∧ a.nt ≤ v) := by
  have hnt : (a.append b h).nt = a.nt + b.nt := rfl
  have hpre : ∀ i < a.nt, kept[i]? = some i := fun i hi => hm.prefix (le_refl _) (by omega) hi
  have hin : ∀ i < a.nt, i ∈ kept := fun i hi => List.mem_of_getElem? (hpre i hi)
  have hge : a.nt ≤ kept.length := by
    rcases Nat.eq_zero_or_pos a.nt with h0 | h0
    · omega
    · have := (List.getElem?_eq_some_iff.mp (hpre (a.nt - 1) (by omega))).1
      omega
  have hidx : ∀ v k : Nat, kept[v]? = some k → (v < a.nt ↔ k < a.nt) := by
    intro v k hv
    constructor
    · intro hlt
      rw [hpre v hlt] at hv
      simp at hv; omega
    · intro hlt
      have := (List.getElem?_inj (List.getElem?_eq_some_iff.mp hv).1 hm.nodup).mp (hv.trans (hpre k hlt).symm)
      omega
  have hmore : kept.length ≠ a.nt → ∃ j < b.nt, ∃ v : Nat, kept[v]? = some (a.nt + j) ∧ a.nt ≤ v := by
    intro hne
    have hv : a.nt < kept.length := by omega
    have h1 := List.getElem?_eq_getElem hv
    have h2 : ¬ kept[a.nt] < a.nt := by rw [← hidx _ _ h1]; omega
    have h3 := hm.range _ (List.getElem_mem hv)
    exact ⟨kept[a.nt] - a.nt, by omega, a.nt, by rw [h1]; congr 1; omega, le_refl _⟩
  have hall : kept.length = a.nt → ∀ j < b.nt, a.nt + j ∉ kept := by
    intro he j hj hk
    obtain ⟨v, hv⟩ := List.getElem?_of_mem hk
    have h1 := (List.getElem?_eq_some_iff.mp hv).1
    have h2 := (hidx v _ hv).mp (by omega)
    omega
  refine ⟨fun i hi => hm.self i i (hpre i hi), ⟨fun he j hj => ?_, fun hc => ?_⟩, fun he j hj => ?_, fun hne => ?_⟩
  · obtain ⟨v, q, b1, b2, b3, -⟩ := hm.close (a.nt + j) (by omega) (hall he j hj)
    have hq : q < a.nt := (hidx v q b2).mp (by have := (List.getElem?_eq_some_iff.mp b2).1; omega)
    exact ⟨q, hq, (close_append h hq).mp b3⟩
  · by_contra hne
    obtain ⟨j, hj, v, hv, -⟩ := hmore hne
    obtain ⟨i, hi, hcl⟩ := hc j hj
    exact hm.apart i (hin i hi) _ (List.mem_of_getElem? hv) (by omega) (by omega) ((close_append h hi).mpr hcl)
  · obtain ⟨v, q, b1, b2, b3, b4⟩ := hm.close (a.nt + j) (by omega) (hall he j hj)
    have hvlt : v < a.nt := by have := (List.getElem?_eq_some_iff.mp b2).1; omega
    have : q = v := by
      rw [hpre v hvlt] at b2
      simpa using b2.symm
    subst this
    exact ⟨q, hvlt, b1, (close_append h hvlt).mp b3, fun i hi hc => b4 i (hin i hi) ((close_append h hi).mpr hc)⟩
  · obtain ⟨j, hj, v, hv, hvge⟩ := hmore hne
    exact ⟨j, hj, v, hm.self v _ hv, hvge⟩

/-- C103: `areIncludedInMe` returns true exactly when each tuple of the other array differs from one of the array by at most `|prec|` on each component;
the ids are then those of such tuples, the last one for each. -/
theorem C103_included (a other : DArr K) (prec big : K) (hc : other.nc = a.nc) (h1 : 1 ≤ a.nc) (h4 : a.nc ≤ 4) :
    ∃ (ids : List Int) (b : Bool), areIncludedInMe a other prec big = .ok (ids.map some, b) ∧ ids.length = other.nt ∧
      (b = true ↔ ∀ j < other.nt, ∃ i < a.nt, CloseTo a other prec i j) ∧
      (b = true → ∀ j < other.nt, ∃ v < a.nt, ids[j]? = some ((v : Nat) : Int) ∧ CloseTo a other prec v j ∧ ∀ i < a.nt, CloseTo a other prec i j → i ≤ v) := by
  obtain ⟨arr, arrI, gs, e1, e2, e3⟩ := C103_findCommonTuples (a.append other hc) prec a.nt big h1 h4
  obtain ⟨r, kept, f1, f2⟩ := merge_of_found e2 e3 (fun i j _ _ h => h.symm)
  obtain ⟨m1, m2, m3, m4⟩ := merge_two hc f2
  have hnt : (a.append other hc).nt = a.nt + other.nt := rfl
  have hl : r.length = (a.append other hc).nt * 1 := by rw [f2.len]; omega
  obtain ⟨s, s1, s2, s3⟩ := C08_selectSlice (⟨(a.append other hc).nt, 1, r, hl⟩ : DArr Int) a.nt (a.append other hc).nt 1 other.nt
    (Or.inl ⟨by omega, by omega⟩) ⟨by omega, fun k => by unfold BeforeEnd; omega⟩ (by
      intro v hv
      unfold progression at hv
      obtain ⟨k, hk, rfl⟩ := List.mem_map.mp hv
      have := List.mem_range.mp hk
      show 0 ≤ _ ∧ _ < ((a.append other hc).nt : Int)
      omega)
  have hpl : (progression a.nt 1 other.nt).length = other.nt := by simp [progression]
  have hs : s = (r.drop a.nt).map some := by
    refine ext_tup (n := other.nt) (nc := 1) (by rw [s2, hpl]) (by simp [f2.len, hnt]) fun k hk => ?_
    rw [s3 k (by omega), tup_map]
    have : (progression a.nt 1 other.nt)[k].toNat = a.nt + k := by
      simp [progression]; omega
    rw [this]
    congr 1
    unfold tup
    simp [List.drop_drop]
  refine ⟨r.drop a.nt, decide (((kept.length : Nat) : Int) = (a.nt : Int)), ?_, by simp [f2.len, hnt], ?_, ?_⟩
  · unfold areIncludedInMe
    rw [dif_pos hc]
    simp only
    rw [e1, ok_bind, f1, ok_bind]
    simp only
    rw [dif_pos hl, s1, ok_bind, hs]
  · rw [decide_eq_true_eq, ← m2]
    omega
  · intro hb j hj
    rw [decide_eq_true_eq] at hb
    obtain ⟨v, b1, b2, b3⟩ := m3 (by omega) j hj
    exact ⟨v, b1, by rw [List.getElem?_drop]; exact b2, b3⟩

example : areIncludedInMe (⟨4, 1, [0, 1, 2, 1], rfl⟩ : DArr ℚ) (⟨2, 1, [2, 1], rfl⟩ : DArr ℚ) 0 1000 = .ok ([some 2, some 3], true) := by decide +kernel
example : areIncludedInMe (⟨4, 1, [0, 1, 2, 1], rfl⟩ : DArr ℚ) (⟨2, 1, [2, 5], rfl⟩ : DArr ℚ) 0 1000 = .ok ([some 2, some 4], false) := by decide +kernel

/-- C103, finding: when `areIncludedInMe` returns false, a tuple of the other array which is close to a tuple of the array may have got an id outside the array. -/
theorem C103_finding_included : areIncludedInMe (⟨1, 1, [0], rfl⟩ : DArr ℚ) (⟨2, 1, [2, 1], rfl⟩ : DArr ℚ) 1 1000 = .ok ([some 1, some 1], false) := by decide +kernel

/-- C103: `tryToShareSameCoordsPermute` succeeds when the mesh has nodes and each of them is close to a node of the other mesh; each node is replaced by the
last node of the other mesh close to it. -/
theorem C103_share (other a : DArr K) {conn connI : List Int} {cells : List Cell} (hm : IsMesh conn connI cells)
    (hu : ∀ n, UsedNode cells n → n < a.nt) (eps big : K) (hc : a.nc = other.nc) (h1 : 1 ≤ other.nc) (h4 : other.nc ≤ 4)
    (h0 : 0 < a.nt) (hall : ∀ j < a.nt, ∃ i < other.nt, CloseTo other a eps i j) :
    ∃ (conn' : List Int) (f : Nat → Nat), shareCoordsPermute other a conn connI eps big = .ok conn' ∧
      IsMesh conn' connI (cells.map (Cell.mapNodes fun n => (f n.toNat : Int))) ∧
      ∀ j < a.nt, f j < other.nt ∧ CloseTo other a eps (f j) j ∧ ∀ i < other.nt, CloseTo other a eps i j → i ≤ f j := by
  obtain ⟨r, kept, e1, e2⟩ := C103_numbering (other.append a hc) eps other.nt big h1 h4
  obtain ⟨m1, m2, m3, m4⟩ := merge_two hc e2
  have hnt : (other.append a hc).nt = other.nt + a.nt := rfl
  have hk := m2.mpr hall
  have hr := m3 hk
  have hlen : r.length = other.nt + a.nt := e2.len
  obtain ⟨conn', g1, g2⟩ := C55_renumberNodesInConn hm (r.drop other.nt) (by intro n hn; rw [List.length_drop, hlen]; have := hu n hn; omega)
  have hfv : ∀ j < a.nt, ∃ v < other.nt, r.getD (other.nt + j) 0 = ((v : Nat) : Int) ∧ CloseTo other a eps v j ∧ ∀ i < other.nt, CloseTo other a eps i j → i ≤ v := by
    intro j hj
    obtain ⟨v, b1, b2, b3⟩ := hr j hj
    exact ⟨v, b1, by rw [List.getD_eq_getElem?_getD, b2]; rfl, b3⟩
  refine ⟨conn', fun j => (r.getD (other.nt + j) 0).toNat, ?_, ?_, fun j hj => ?_⟩
  · have hpos : 0 < other.nt := by obtain ⟨i, hi, -⟩ := hall 0 h0; omega
    unfold shareCoordsPermute
    rw [dif_pos hc, e1, ok_bind]
    have hd : decide ((other.append a hc).nt ≠ kept.length) = true := decide_eq_true (by omega)
    simp only [hd, Bool.true_eq_false, if_false]
    rw [show rd r 0 = .ok ((0 : Nat) : Int) from rd_of_getElem? (le_refl _) (m1 0 hpos), ok_bind]
    have hmax : ((other.nt - 1 : Nat) : Int) ≤ (r.take other.nt).foldl max ((0 : Nat) : Int) := by
      have hmem : ((other.nt - 1 : Nat) : Int) ∈ r.take other.nt := by
        apply List.mem_of_getElem? (i := other.nt - 1)
        rw [List.getElem?_take_of_lt (by omega)]
        exact m1 _ (by omega)
      have key : ∀ (l : List Int) (x y : Int), y ∈ l ∨ y ≤ x → y ≤ l.foldl max x := by
        intro l
        induction l with
        | nil => rintro x y (h | h); simp at h; exact h
        | cons z l ih =>
          rintro x y (h | h)
          · rcases List.mem_cons.mp h with h | h
            · exact ih _ _ (Or.inr (by rw [h]; exact le_max_right _ _))
            · exact ih _ _ (Or.inl h)
          · exact ih _ _ (Or.inr (le_trans h (le_max_left _ _)))
      exact key _ _ _ (Or.inl hmem)
    have hany : (r.drop other.nt).any (fun v => decide (v > (r.take other.nt).foldl max ((0 : Nat) : Int))) = false := by
      rw [List.any_eq_false]
      intro v hv
      obtain ⟨j, hj⟩ := List.getElem?_of_mem hv
      rw [List.getElem?_drop] at hj
      have := (List.getElem?_eq_some_iff.mp hj).1
      obtain ⟨w, b1, b2, -⟩ := hr j (by omega)
      rw [hj] at b2
      simp only [Option.some.injEq] at b2
      simp only [gt_iff_lt, decide_eq_true_eq]
      omega
    simp only [hany, Bool.false_eq_true, if_false]
    exact g1
  · have : cells.map (Cell.mapNodes fun n => ((r.getD (other.nt + n.toNat) 0).toNat : Int)) = cells.map (Cell.mapNodes fun n => (r.drop other.nt).getD n.toNat 0) := by
      refine List.map_congr_left fun cl hcl => ?_
      unfold Cell.mapNodes
      congr 1
      refine List.map_congr_left fun n hn => ?_
      by_cases hn0 : n ≥ 0
      · rw [if_pos hn0, if_pos hn0]
        obtain ⟨v, b1, b2, -⟩ := hfv n.toNat (by have := hu n ⟨hn0, cl, hcl, hn⟩; omega)
        have e3 : (r.drop other.nt).getD n.toNat 0 = r.getD (other.nt + n.toNat) 0 := by
          rw [List.getD_eq_getElem?_getD, List.getD_eq_getElem?_getD, List.getElem?_drop]
        simp only [e3, b2, Int.toNat_natCast]
      · rw [if_neg hn0, if_neg hn0]
    rw [this]; exact g2
  · obtain ⟨v, b1, b2, b3⟩ := hfv j hj
    simp only [b2, Int.toNat_natCast]
    exact ⟨b1, b3⟩

/-- C103: and it throws otherwise, when the other mesh has a node. -/
theorem C103_share_throws (other a : DArr K) (conn connI : List Int) (eps big : K) (hc : a.nc = other.nc) (h1 : 1 ≤ other.nc) (h4 : other.nc ≤ 4)
    (ho : 0 < other.nt) (hn : a.nt = 0 ∨ ∃ j < a.nt, ∀ i < other.nt, ¬ CloseTo other a eps i j) :
    shareCoordsPermute other a conn connI eps big = throwX := by
  obtain ⟨r, kept, e1, e2⟩ := C103_numbering (other.append a hc) eps other.nt big h1 h4
  obtain ⟨m1, m2, m3, m4⟩ := merge_two hc e2
  have hnt : (other.append a hc).nt = other.nt + a.nt := rfl
  unfold shareCoordsPermute
  rw [dif_pos hc, e1, ok_bind]
  by_cases hk : kept.length = (other.append a hc).nt
  · have hd : decide ((other.append a hc).nt ≠ kept.length) = false := decide_eq_false (by omega)
    simp only [hd, if_true]
  · have hd : decide ((other.append a hc).nt ≠ kept.length) = true := decide_eq_true (by omega)
    simp only [hd, Bool.true_eq_false, if_false]
    rw [show rd r 0 = .ok ((0 : Nat) : Int) from rd_of_getElem? (le_refl _) (m1 0 ho), ok_bind]
    have hne : kept.length ≠ other.nt := by
      intro he
      rcases hn with h0 | ⟨j, hj, hno⟩
      · omega
      · obtain ⟨i, hi, hcl⟩ := m2.mp he j hj
        exact hno i hi hcl
    obtain ⟨j, hj, v, hv, hvge⟩ := m4 hne
    have hmax : (r.take other.nt).foldl max ((0 : Nat) : Int) < other.nt := by
      have key : ∀ (l : List Int) (x B : Int), x < B → (∀ y ∈ l, y < B) → l.foldl max x < B := by
        intro l
        induction l with
        | nil => intro x B h _; exact h
        | cons z l ih =>
          intro x B h1 h2
          exact ih _ _ (max_lt h1 (h2 z (by simp))) (fun y hy => h2 y (by simp [hy]))
      refine key _ _ _ (by omega) fun y hy => ?_
      obtain ⟨i, hi⟩ := List.getElem?_of_mem hy
      have hil := (List.getElem?_eq_some_iff.mp hi).1
      rw [List.length_take] at hil
      rw [List.getElem?_take_of_lt (by omega), m1 i (by omega)] at hi
      simp only [Option.some.injEq] at hi
      omega
    have hany : (r.drop other.nt).any (fun v => decide (v > (r.take other.nt).foldl max ((0 : Nat) : Int))) = true := by
      rw [List.any_eq_true]
      refine ⟨(v : Int), List.mem_of_getElem? (i := j) (by rw [List.getElem?_drop]; exact hv), ?_⟩
      simp only [gt_iff_lt, decide_eq_true_eq]
      omega
    simp only [hany, if_true]

example : shareCoordsPermute (⟨3, 1, [5, 0, 1], rfl⟩ : DArr ℚ) (⟨2, 1, [0, 1], rfl⟩ : DArr ℚ) [1, 0, 1] [0, 3] 0 1000 = .ok [1, 1, 2] := by decide +kernel
example : shareCoordsPermute (⟨3, 1, [5, 0, 2], rfl⟩ : DArr ℚ) (⟨2, 1, [0, 1], rfl⟩ : DArr ℚ) [1, 0, 1] [0, 3] 0 1000 = throwX := by decide +kernel

/-- C103, finding: with a mesh which has no node, a mesh whose nodes all coincide is accepted, and its cells then refer to a node 0 which does not exist. -/
theorem C103_finding_share : shareCoordsPermute (⟨0, 1, [], rfl⟩ : DArr ℚ) (⟨2, 1, [7, 7], rfl⟩ : DArr ℚ) [1, 0, 1] [0, 3] 0 1000 = .ok [1, 0, 0] := by decide +kernel

end

/-- C103: the groups of equal tuples in an array of integers. -/
theorem C103_discrete (a : DArr Int) (limit big : Int) (h1 : 1 ≤ a.nc) (h4 : a.nc ≤ 4) :
    ∃ arr arrI gs, findCommonTuplesD a limit big = .ok (arr, arrI) ∧ IsSky arr arrI gs ∧
      FoundGroups (fun i j => ∀ d, d < a.nc → ptC a.nc a.data d i = ptC a.nc a.data d j) a.nt a.nt limit gs := by
  obtain ⟨t, e1, -, e2⟩ := C77_discrete h1 (bbs := a.data) none a.nt big (by
    intro e he
    rw [a.wf]
    exact Nat.mul_le_mul_right a.nc (by simpa [btElems] using he))
  unfold findCommonTuplesD
  rw [if_neg (by omega), e1, ok_bind]
  refine findCommonAlg_ok limit (fun i hi => ?_) (fun i _ d _ => rfl) (fun i j _ _ h d hd => (h d hd).symm)
  obtain ⟨found, hp, f1⟩ := e2 (a.data.drop (i * a.nc)) (by
    rw [List.length_drop, a.wf]
    have := Nat.mul_le_mul_right a.nc (show i + 1 ≤ a.nt by omega)
    rw [Nat.succ_mul] at this
    omega)
  refine ⟨found, by rw [f1, List.nil_append], hp.nodup_iff.mpr (List.nodup_range.filter _), fun k => ?_⟩
  rw [hp.mem_iff, List.mem_filter]
  simp only [btElems, List.mem_range, decide_eq_true_eq]
  refine and_congr_right fun _ => ?_
  unfold SamePt ptC
  simp only [List.getD_eq_getElem?_getD, List.getElem?_drop]
  exact ⟨fun h d hd => (h d hd).symm, fun h d hd => (h d hd).symm⟩

example : findCommonTuplesD ⟨5, 2, [1, 2, 3, 4, 1, 2, 1, 2, 3, 4], rfl⟩ (-1) 1000 = .ok ([0, 2, 3, 1, 4], [0, 3, 5]) := by decide +kernel

/-- C103: with the renumbering of the groups, two tuples of integers get the same number exactly when they are equal. -/
theorem C103_discrete_classes (a : DArr Int) (limit big : Int) (h1 : 1 ≤ a.nc) (h4 : a.nc ≤ 4) (hl : limit ≤ 0) :
    ∃ arr arrI r nb, findCommonTuplesD a limit big = .ok (arr, arrI) ∧ convertIndexArrayToO2N a.nt arr arrI = .ok (r, nb) ∧ r.length = a.nt ∧
      ∀ i j, i < a.nt → j < a.nt → (r[i]? = r[j]? ↔ ∀ d, d < a.nc → ptC a.nc a.data d i = ptC a.nc a.data d j) := by
  obtain ⟨arr, arrI, gs, e1, e2, e3⟩ := C103_discrete a limit big h1 h4
  obtain ⟨r, kept, f1, f2⟩ := merge_of_found e2 e3 (fun i j _ _ h d hd => (h d hd).symm)
  exact ⟨arr, arrI, r, _, e1, f1, f2.len, fun i j hi hj => f2.classes hl (fun i _ d _ => rfl) (fun i j _ _ h d hd => (h d hd).symm)
    (fun i j k _ _ _ h h' d hd => (h d hd).trans (h' d hd)) hi hj⟩

end MC
