import Verif.Renumber
import Verif.SlicesProps

/-!
# C04–C08: renumbering, selection, inversion – theorems

The specification vocabulary is `tup nc l k` (tuple `k` of a flat buffer), `IsPermArr` (an id array holding each of `0..n-1`
once) and plain list indexing.
-/

namespace MC
section
variable {α : Type}

/-! ## Lemmas on gather and scatter loops -/

/-- All ids of `ids` are in `[0, n)`. -/
def AllIn (n : Nat) (ids : List Int) : Prop := ∀ v ∈ ids, 0 ≤ v ∧ v < n

theorem allIn_get {n : Nat} {ids : List Int} (h : AllIn n ids) {i : Nat} (hi : i < ids.length) :
    0 ≤ ids[i] ∧ ids[i] < n := h _ (List.getElem_mem hi)

/-- Raw buffer `r` of `m` tuples is the selection of tuples `ids` of `data`. -/
def IsGather (nc : Nat) (data : List α) (ids : List Int) (r : List (Option α)) : Prop :=
  r.length = ids.length * nc ∧
  ∀ i (hi : i < ids.length), tup nc r i = (tup nc data ids[i].toNat).map some

theorem wp_gatherLoop (a : DArr α) (ids : List Int) (m : Nat) (hm : m = ids.length)
    (body : Nat → List (Option α) → M (List (Option α))) (E : Prop)
    (hbody : ∀ i (hi : i < ids.length) o, (0 ≤ ids[i] ∧ ids[i] < a.nt ∧ body i o = copyTuple a.nc a.data ids[i] o i) ∨
      (E ∧ body i o = .error .exn)) :
    wp (loop m (mallocN α (m * a.nc)) body)
      (fun r => AllIn a.nt ids ∧ IsGather a.nc a.data ids r) E := by
  subst hm
  refine wp_mono (wp_loop (E := E) (fun k o => o.length = ids.length * a.nc ∧
    (∀ i (hi : i < ids.length), i < k → (0 ≤ ids[i] ∧ ids[i] < a.nt) ∧
      tup a.nc o i = (tup a.nc a.data ids[i].toNat).map some)) ?_ ?_) ?_ id
  · exact ⟨by simp [mallocN], fun i _ h => by omega⟩
  · rintro i hi o ⟨h1, h2⟩
    rcases hbody i hi o with ⟨hv0, hv1, he⟩ | ⟨hE, he⟩
    · rw [he]
      apply wp_copyTuple a.wf h1 hv0 hv1 (by omega) (by omega)
      intro r hr1 hr2
      refine ⟨hr1, fun j hj hji => ?_⟩
      rw [hr2 j hj]
      by_cases hij : j = i
      · subst hij; simp [hv0, hv1]
      · rw [if_neg (by omega)]; exact h2 j hj (by omega)
    · rw [he]; exact hE
  · rintro o ⟨h1, h2⟩
    refine ⟨fun v hv => ?_, h1, fun i hi => (h2 i hi hi).2⟩
    obtain ⟨i, hi, rfl⟩ := List.mem_iff_getElem.mp hv
    exact (h2 i hi hi).1

/-- What a scatter leaves in each target tuple: the last source sent there, or nothing. -/
def IsScatter (nc n m : Nat) (data : List α) (f : List Int) (r : List (Option α)) : Prop :=
  r.length = m * nc ∧
  ∀ j, j < m →
    (∀ i, i < n → f[i]? = some (j : Int) → (∀ i', i < i' → i' < n → f[i']? ≠ some (j : Int)) →
      tup nc r j = (tup nc data i).map some) ∧
    ((∀ i, i < n → f[i]? ≠ some (j : Int)) → tup nc r j = List.replicate nc none)

theorem wp_scatterLoop (a : DArr α) (f : List Int) (m : Nat) (hf : f.length = a.nt)
    (body : Nat → List (Option α) → M (List (Option α))) (E : Prop)
    (hbody : ∀ i (hi : i < f.length) o, (0 ≤ f[i] ∧ f[i] < m ∧ body i o = copyTuple a.nc a.data i o f[i]) ∨
      (f[i] < 0 ∧ body i o = .ok o) ∨ (E ∧ body i o = .error .exn)) :
    wp (loop a.nt (mallocN α (m * a.nc)) body) (IsScatter a.nc a.nt m a.data f) E := by
  refine wp_loop (E := E) (fun k => IsScatter a.nc k m a.data f) ?_ ?_
  · refine ⟨by simp [mallocN], fun j hj => ⟨fun i hi => by omega, fun _ => tup_mallocN hj⟩⟩
  · rintro i hi o ⟨h1, h2⟩
    have hif : i < f.length := by omega
    have hfi : f[i]? = some f[i] := List.getElem?_eq_getElem hif
    rcases hbody i hif o with ⟨hv0, hv1, he⟩ | ⟨hneg, he⟩ | ⟨hE, he⟩
    · rw [he]
      apply wp_copyTuple a.wf h1 (by omega) (by omega) hv0 hv1
      intro r hr1 hr2
      refine ⟨hr1, fun j hj => ⟨fun k hk hfk hlast => ?_, fun hnone => ?_⟩⟩
      · rw [hr2 j hj]
        by_cases hj' : (j : Int) = f[i]
        · rw [if_pos hj']
          have hik : k = i := by
            by_contra hne
            exact hlast i (by omega) (by omega) (by rw [hfi, hj'])
          subst hik; simp
        · rw [if_neg hj']
          have hne : k ≠ i := by
            rintro rfl
            rw [hfi] at hfk; simp at hfk; exact hj' hfk.symm
          exact (h2 j hj).1 k (by omega) hfk fun i' h3 h4 => hlast i' h3 (by omega)
      · rw [hr2 j hj, if_neg]
        · exact (h2 j hj).2 fun k hk => hnone k (by omega)
        · intro hj'; exact hnone i (by omega) (by rw [hfi, hj'])
    · rw [he]
      refine ⟨h1, fun j hj => ⟨fun k hk hfk hlast => ?_, fun hnone => ?_⟩⟩
      · have hne : k ≠ i := by
          rintro rfl
          rw [hfi] at hfk; simp at hfk; omega
        exact (h2 j hj).1 k (by omega) hfk fun i' h3 h4 => hlast i' h3 (by omega)
      · exact (h2 j hj).2 fun k hk => hnone k (by omega)
    · rw [he]; exact hE

theorem wp_scatterChecked (a : DArr α) (f : List Int) (m : Nat) (hf : f.length = a.nt)
    (body : Nat → List (Option α) → M (List (Option α))) (E : Prop)
    (hbody : ∀ i (hi : i < f.length) o, (0 ≤ f[i] ∧ f[i] < m ∧ body i o = copyTuple a.nc a.data i o f[i]) ∨
      (E ∧ body i o = .error .exn)) :
    wp (loop a.nt (mallocN α (m * a.nc)) body) (fun r => IsScatter a.nc a.nt m a.data f r ∧ AllIn m f) E := by
  by_cases hall : AllIn m f
  · refine wp_mono (wp_scatterLoop a f m hf body E ?_) (fun r h => ⟨h, hall⟩) id
    intro i hi o
    rcases hbody i hi o with h | h
    · exact Or.inl h
    · exact Or.inr (Or.inr h)
  · have hE : E := by
      by_contra hE
      apply hall
      intro v hv
      obtain ⟨i, hi, rfl⟩ := List.mem_iff_getElem.mp hv
      rcases hbody i hi [] with h | h
      · exact ⟨h.1, h.2.1⟩
      · exact absurd h.1 hE
    -- the run either throws or has checked every id
    refine wp_mono (wp_loop (E := E) (fun k o => o.length = m * a.nc ∧
      ∀ i (hi : i < f.length), i < k → 0 ≤ f[i] ∧ f[i] < m) ?_ ?_) ?_ id
    · exact ⟨by simp [mallocN], fun i _ h => by omega⟩
    · rintro i hi o ⟨h1, h2⟩
      have hif : i < f.length := by omega
      rcases hbody i hif o with ⟨hv0, hv1, he⟩ | ⟨_, he⟩
      · rw [he]
        apply wp_copyTuple a.wf h1 (by omega) (by omega) hv0 hv1
        intro r hr1 _
        refine ⟨hr1, fun j hj hji => ?_⟩
        by_cases hij : j = i
        · subst hij; exact ⟨hv0, hv1⟩
        · exact h2 j hj (by omega)
      · rw [he]; exact hE
    · rintro o ⟨_, h2⟩
      exfalso
      apply hall
      intro v hv
      obtain ⟨i, hi, rfl⟩ := List.mem_iff_getElem.mp hv
      exact h2 i hi (by omega)

/-! ## C04 -/

theorem renumberInPlaceTmp_wp (a : DArr α) (o2n : List Int) (hl : o2n.length = a.nt) (E : Prop)
    (hE : ¬ AllIn a.nt o2n → E) :
    wp (renumberInPlaceTmp a o2n) (fun r => IsScatter a.nc a.nt a.nt a.data o2n r ∧ AllIn a.nt o2n) E := by
  unfold renumberInPlaceTmp
  apply wp_scatterChecked a o2n a.nt hl
  intro i hi o
  rw [rd_natCast hi]
  by_cases hv : 0 ≤ o2n[i] ∧ o2n[i] < a.nt
  · refine Or.inl ⟨hv.1, hv.2, ?_⟩
    show (if _ then _ else _) = _
    rw [if_pos hv]
  · refine Or.inr ⟨hE fun h => hv (allIn_get h hi), ?_⟩
    show (if _ then _ else _) = _
    rw [if_neg hv]; rfl

theorem renumberInPlaceRTmp_wp (a : DArr α) (n2o : List Int) (hl : n2o.length = a.nt) (E : Prop)
    (hE : ¬ AllIn a.nt n2o → E) :
    wp (renumberInPlaceRTmp a n2o) (fun r => AllIn a.nt n2o ∧ IsGather a.nc a.data n2o r) E := by
  unfold renumberInPlaceRTmp
  apply wp_gatherLoop a n2o a.nt hl.symm
  intro i hi o
  rw [rd_natCast hi]
  by_cases hv : 0 ≤ n2o[i] ∧ n2o[i] < a.nt
  · refine Or.inl ⟨hv.1, hv.2, ?_⟩
    show (if _ then _ else _) = _
    rw [if_pos hv]
  · refine Or.inr ⟨hE fun h => hv (allIn_get h hi), ?_⟩
    show (if _ then _ else _) = _
    rw [if_neg hv]; rfl

/-- **C04.** `renumberInPlace` with any integers: if all ids are in range it returns and each target tuple holds the last
tuple sent to it (or was never written); otherwise it throws and the content is unchanged.  There is never
an out-of-bounds access. -/
theorem C04_renumberInPlace (a : DArr α) (o2n : List Int) (hl : o2n.length = a.nt) :
    (AllIn a.nt o2n → (renumberInPlace a o2n).1 = .ok () ∧
        IsScatter a.nc a.nt a.nt a.data o2n (renumberInPlace a o2n).2) ∧
    (¬ AllIn a.nt o2n → renumberInPlace a o2n = (.error .exn, a.data.map some)) := by
  constructor
  · intro h
    obtain ⟨r, hr, hs, _⟩ := wp_exists (renumberInPlaceTmp_wp a o2n hl False (fun hn => hn h))
    simp [renumberInPlace, hr, hs]
  · intro h
    have : renumberInPlaceTmp a o2n = .error .exn :=
      wp_throws (wp_mono (renumberInPlaceTmp_wp a o2n hl True (fun _ => trivial)) (fun r hr => h hr.2) id)
    simp [renumberInPlace, this]

/-- **C04.** `renumberInPlaceR`: gathers the requested tuples, or throws leaving the content unchanged. -/
theorem C04_renumberInPlaceR (a : DArr α) (n2o : List Int) (hl : n2o.length = a.nt) :
    (AllIn a.nt n2o → (renumberInPlaceR a n2o).1 = .ok () ∧
        IsGather a.nc a.data n2o (renumberInPlaceR a n2o).2) ∧
    (¬ AllIn a.nt n2o → renumberInPlaceR a n2o = (.error .exn, a.data.map some)) := by
  constructor
  · intro h
    obtain ⟨r, hr, _, hs⟩ := wp_exists (renumberInPlaceRTmp_wp a n2o hl False (fun hn => hn h))
    simp [renumberInPlaceR, hr, hs]
  · intro h
    have : renumberInPlaceRTmp a n2o = .error .exn :=
      wp_throws (wp_mono (renumberInPlaceRTmp_wp a n2o hl True (fun _ => trivial)) (fun r hr => h hr.1) id)
    simp [renumberInPlaceR, this]

/-- A scatter along a permutation is completely initialised and is inverted by the gather along the same permutation. -/
theorem IsScatter.perm {nc n : Nat} {data : List α} (hd : data.length = n * nc) {p : List Int} (hp : IsPermArr n p)
    {r : List (Option α)} (h : IsScatter nc n n data p r) :
    (∀ i (hi : i < n), tup nc r (p[i]'(by rw [hp.1]; exact hi)).toNat = (tup nc data i).map some) ∧
      ∃ r' : List α, r = r'.map some := by
  obtain ⟨h1, h2⟩ := h
  have key : ∀ i j, i < n → p[i]? = some ((j : Nat) : Int) → tup nc r j = (tup nc data i).map some := by
    intro i j hi hij
    have hj : j < n := by
      have := hp.2.1 _ (List.mem_of_getElem? hij); omega
    exact (h2 j hj).1 i hi hij fun i' h3 h4 h5 => by have := hp.inj hij h5; omega
  constructor
  · intro i hi
    have hip : i < p.length := by rw [hp.1]; exact hi
    have hv := hp.2.1 _ (List.getElem_mem hip)
    apply key i _ hi
    rw [List.getElem?_eq_getElem hip]
    congr 1; omega
  · have hall : ∀ x ∈ r, ∃ y, x = some y := by
      intro x hx
      obtain ⟨k, hk, rfl⟩ := List.mem_iff_getElem.mp hx
      have hnc : 0 < nc := by
        rcases Nat.eq_zero_or_pos nc with h0 | h0
        · subst h0; simp at h1; subst h1; simp at hk
        · exact h0
      have hkn : k / nc < n := by
        rw [Nat.div_lt_iff_lt_mul hnc, ← h1]; exact hk
      obtain ⟨i, hi, hpi⟩ := hp.surj hkn
      have h3 := congrArg (fun t => t[k % nc]?) (key i (k / nc) hi hpi)
      simp only [tup_getElem?, Nat.mod_lt k hnc, if_true, List.getElem?_map] at h3
      rw [show k / nc * nc + k % nc = k by rw [Nat.mul_comm]; exact Nat.div_add_mod k nc,
        List.getElem?_eq_getElem hk] at h3
      cases hd : data[i * nc + k % nc]? with
      | none => rw [hd] at h3; simp at h3
      | some y => rw [hd] at h3; simp at h3; exact ⟨y, h3⟩
    refine ⟨r.filterMap id, ?_⟩
    clear h1 h2 key
    induction r with
    | nil => rfl
    | cons x r ih =>
      obtain ⟨y, rfl⟩ := hall x (by simp)
      have h := ih fun x hx => hall x (List.mem_cons_of_mem _ hx)
      calc some y :: r = some y :: (r.filterMap id).map some := by rw [← h]
        _ = _ := by simp

/-- **C04.** Renumbering by a permutation then gathering by the same permutation restores the array. -/
theorem C04_roundtrip (a : DArr α) (p : List Int) (hp : IsPermArr a.nt p) :
    ∃ b : DArr α, b.nt = a.nt ∧ b.nc = a.nc ∧ (renumberInPlace a p) = (.ok (), b.data.map some) ∧
      (renumberInPlaceR b p) = (.ok (), a.data.map some) := by
  have hall : AllIn a.nt p := hp.2.1
  obtain ⟨h1, h2⟩ := (C04_renumberInPlace a p hp.1).1 hall
  obtain ⟨h3, r', h4⟩ := h2.perm a.wf hp
  have hlen : r'.length = a.nt * a.nc := by
    have := h2.1; rw [h4] at this; simpa using this
  refine ⟨⟨a.nt, a.nc, r', hlen⟩, rfl, rfl, ?_, ?_⟩
  · rw [← h4, ← h1]
  · obtain ⟨h5, h6, h7⟩ := (C04_renumberInPlaceR ⟨a.nt, a.nc, r', hlen⟩ p hp.1).1 hall
    have : (renumberInPlaceR ⟨a.nt, a.nc, r', hlen⟩ p).2 = a.data.map some := by
      apply ext_tup (nc := a.nc) (n := a.nt) (by rw [h6, hp.1]) (by simp [a.wf])
      intro k hk
      rw [h7 k (by rw [hp.1]; exact hk)]
      have h8 := h3 k hk
      rw [h4, tup_map] at h8
      rw [tup_map]
      exact h8
    rw [← this, ← h5]

/-- Two components, permutation (1 2 0). -/
example : IsPermArr 3 [1, 2, 0] ∧
    renumberInPlace (⟨3, 2, [10, 11, 20, 21, 30, 31], rfl⟩ : DArr Int) [1, 2, 0]
      = (.ok (), [some 30, some 31, some 10, some 11, some 20, some 21]) := by
  refine ⟨⟨rfl, by decide, by decide⟩, by decide⟩
/-- An invalid id: throw, content unchanged. -/
example : ¬ AllIn 2 [0, 2] ∧
    renumberInPlace (⟨2, 1, [10, 20], rfl⟩ : DArr Int) [0, 2] = (.error .exn, [some 10, some 20]) := by
  refine ⟨by simp [AllIn], by decide⟩

/-! ## C05 -/

/-- **C05.** `renumber` (scatter, ids not checked by the code): exact for all valid ids. -/
theorem C05_renumber (a : DArr α) (o2n : List Int) (hl : o2n.length = a.nt) (h : AllIn a.nt o2n) :
    ∃ r, renumber a o2n = .ok r ∧ IsScatter a.nc a.nt a.nt a.data o2n r := by
  apply wp_exists
  unfold renumber
  apply wp_scatterLoop a o2n a.nt hl
  intro i hi o
  rw [rd_natCast hi]
  exact Or.inl ⟨(allIn_get h hi).1, (allIn_get h hi).2, rfl⟩

/-- **C05.** `renumberR` (gather). -/
theorem C05_renumberR (a : DArr α) (n2o : List Int) (hl : n2o.length = a.nt) (h : AllIn a.nt n2o) :
    ∃ r, renumberR a n2o = .ok r ∧ IsGather a.nc a.data n2o r := by
  have : wp (renumberR a n2o) (fun r => AllIn a.nt n2o ∧ IsGather a.nc a.data n2o r) False := by
    unfold renumberR
    apply wp_gatherLoop a n2o a.nt hl.symm
    intro i hi o
    rw [rd_natCast hi]
    exact Or.inl ⟨(allIn_get h hi).1, (allIn_get h hi).2, rfl⟩
  obtain ⟨r, hr, _, hg⟩ := wp_exists this
  exact ⟨r, hr, hg⟩

/-- **C05.** For every permutation `p`: `renumber(p)` is completely defined, sends tuple `i` to position `p[i]`,
and `renumberR(p)` takes it back. -/
theorem C05_inverse (a : DArr α) (p : List Int) (hp : IsPermArr a.nt p) :
    ∃ b : DArr α, b.nt = a.nt ∧ b.nc = a.nc ∧ renumber a p = .ok (b.data.map some) ∧
      (∀ i (hi : i < a.nt), tup a.nc b.data (p[i]'(by rw [hp.1]; exact hi)).toNat = tup a.nc a.data i) ∧
      renumberR b p = .ok (a.data.map some) := by
  have hall : AllIn a.nt p := hp.2.1
  obtain ⟨r, hr, h2⟩ := C05_renumber a p hp.1 hall
  obtain ⟨h3, r', h4⟩ := h2.perm a.wf hp
  have hlen : r'.length = a.nt * a.nc := by
    have := h2.1; rw [h4] at this; simpa using this
  have h3' : ∀ i (hi : i < a.nt), tup a.nc r' (p[i]'(by rw [hp.1]; exact hi)).toNat = tup a.nc a.data i := by
    intro i hi
    have := h3 i hi
    rw [h4, tup_map] at this
    exact List.map_injective_iff.mpr (fun _ _ => Option.some.inj) this
  refine ⟨⟨a.nt, a.nc, r', hlen⟩, rfl, rfl, by rw [hr, h4], h3', ?_⟩
  obtain ⟨r2, hr2, h6, h7⟩ := C05_renumberR ⟨a.nt, a.nc, r', hlen⟩ p hp.1 hall
  rw [hr2]
  congr 1
  apply ext_tup (nc := a.nc) (n := a.nt) (by rw [h6, hp.1]) (by simp [a.wf])
  intro k hk
  rw [h7 k (by rw [hp.1]; exact hk), tup_map]
  exact congrArg _ (h3' k hk)

example : ∃ r, renumber (⟨3, 1, [10, 20, 30], rfl⟩ : DArr Int) [1, 2, 0] = .ok r ∧ r = [some 30, some 10, some 20] :=
  ⟨_, by decide, rfl⟩

/-- The missing check matters: with an invalid id the code writes out of bounds. -/
theorem C05_renumber_unchecked : renumber (⟨2, 1, [10, 20], rfl⟩ : DArr Int) [0, 2] = .error .ub := by decide

/-! ## C06 -/

/-- **C06.** `renumberAndReduce` with targets in range (negative = dropped): every target tuple holds the last tuple sent
to it, and is unwritten exactly if no tuple is sent to it. -/
theorem C06_renumberAndReduce (a : DArr α) (o2n : List Int) (newNb : Nat) (hl : o2n.length = a.nt)
    (h : ∀ v ∈ o2n, v < newNb) :
    ∃ r, renumberAndReduce a o2n newNb = .ok r ∧ IsScatter a.nc a.nt newNb a.data o2n r := by
  apply wp_exists
  unfold renumberAndReduce
  apply wp_scatterLoop a o2n newNb hl
  intro i hi o
  rw [rd_natCast hi]
  have hlt := h _ (List.getElem_mem hi)
  by_cases hv : o2n[i] ≥ 0
  · refine Or.inl ⟨hv, hlt, ?_⟩
    show (if _ then _ else _) = _
    rw [if_pos hv]
  · refine Or.inr (Or.inl ⟨by omega, ?_⟩)
    show (if _ then _ else _) = _
    rw [if_neg hv]

/-- **C06.** If the kept ids are pairwise distinct, tuple `i` is found at `old2New[i]`. -/
theorem C06_injective (a : DArr α) (o2n : List Int) (newNb : Nat) (hl : o2n.length = a.nt)
    (h : ∀ v ∈ o2n, v < newNb)
    (hinj : ∀ i j : Nat, ∀ v : Int, 0 ≤ v → o2n[i]? = some v → o2n[j]? = some v → i = j) :
    ∃ r, renumberAndReduce a o2n newNb = .ok r ∧ r.length = newNb * a.nc ∧
      (∀ i j : Nat, o2n[i]? = some (j : Int) → tup a.nc r j = (tup a.nc a.data i).map some) ∧
      (∀ j, j < newNb → (j : Int) ∉ o2n → tup a.nc r j = List.replicate a.nc none) := by
  obtain ⟨r, hr, h1, h2⟩ := C06_renumberAndReduce a o2n newNb hl h
  refine ⟨r, hr, h1, fun i j hij => ?_, fun j hj hnot => ?_⟩
  · have hi : i < a.nt := by
      have := (List.getElem?_eq_some_iff.mp hij).1; omega
    have hj := h _ (List.mem_of_getElem? hij)
    exact (h2 j (by omega)).1 i hi hij fun i' h3 h4 h5 => by
      have := hinj i i' j (by omega) hij h5; omega
  · exact (h2 j hj).2 fun i _ hc => hnot (List.mem_of_getElem? hc)

example : ∃ r, renumberAndReduce (⟨4, 1, [10, 20, 30, 40], rfl⟩ : DArr Int) [2, -1, 0, -5] 4 = .ok r ∧
    r = [some 30, none, some 10, none] := ⟨_, by decide, rfl⟩

/-- A target id past the announced size is not refused: out-of-bounds write. -/
theorem C06_unchecked : renumberAndReduce (⟨2, 1, [10, 20], rfl⟩ : DArr Int) [0, 1] 1 = .error .ub := by decide

/-! ## C07 -/

/-- **C07.** `invertArrayO2N2N2O`: with ids in `[0,newNb)` or `-1`, cell `j` of the result is the last `i` with
`this[i]=j`, and is unwritten if there is none; any other id makes it throw. No out-of-bounds write. -/
theorem C07_invertO2N (o2n : List Int) (newNb : Nat) :
    ((∀ v ∈ o2n, v = -1 ∨ (0 ≤ v ∧ v < newNb)) →
      ∃ r, invertArrayO2N2N2O o2n newNb = .ok r ∧ r.length = newNb ∧
        ∀ j, j < newNb →
          (∀ i : Nat, o2n[i]? = some (j : Int) → (∀ i', i < i' → o2n[i']? ≠ some (j : Int)) → r[j]? = some (some (i : Int))) ∧
          ((j : Int) ∉ o2n → r[j]? = some none)) ∧
    ((∃ v ∈ o2n, ¬ (v = -1 ∨ (0 ≤ v ∧ v < newNb))) → invertArrayO2N2N2O o2n newNb = .error .exn) := by
  have main : wp (invertArrayO2N2N2O o2n newNb) (fun r =>
      (∀ k (hk : k < o2n.length), k < o2n.length → (o2n[k] = -1 ∨ (0 ≤ o2n[k] ∧ o2n[k] < newNb))) ∧ r.length = newNb ∧
      ∀ j, j < newNb →
        (∀ i : Nat, i < o2n.length → o2n[i]? = some (j : Int) →
          (∀ i', i < i' → i' < o2n.length → o2n[i']? ≠ some (j : Int)) → r[j]? = some (some (i : Int))) ∧
        ((∀ i, i < o2n.length → o2n[i]? ≠ some (j : Int)) → r[j]? = some none))
      (∃ v ∈ o2n, ¬ (v = -1 ∨ (0 ≤ v ∧ v < newNb))) := by
    unfold invertArrayO2N2N2O
    refine wp_loop (fun n (r : List (Option Int)) => (∀ k (hk : k < o2n.length), k < n → (o2n[k] = -1 ∨ (0 ≤ o2n[k] ∧ o2n[k] < newNb))) ∧
      r.length = newNb ∧
      ∀ j, j < newNb →
        (∀ i : Nat, i < n → o2n[i]? = some (j : Int) →
          (∀ i', i < i' → i' < n → o2n[i']? ≠ some (j : Int)) → r[j]? = some (some (i : Int))) ∧
        ((∀ i, i < n → o2n[i]? ≠ some (j : Int)) → r[j]? = some none)) ?_ ?_
    · refine ⟨fun k _ h => by omega, by simp [mallocN], fun j hj => ⟨fun i hi => by omega, fun _ => by simp [mallocN, hj]⟩⟩
    · rintro i hi r ⟨h0, h1, h2⟩
      have hoi : o2n[i]? = some o2n[i] := List.getElem?_eq_getElem hi
      rw [rd_natCast hi]
      show wp (if o2n[i] ≠ -1 then _ else _) _ _
      by_cases hm : o2n[i] = -1
      · rw [if_neg (by simpa using hm)]
        refine ⟨fun k hk hki => ?_, h1, fun j hj => ⟨fun k hk hok hlast => ?_, fun hnone => ?_⟩⟩
        · by_cases hke : k = i
          · subst hke; exact Or.inl hm
          · exact h0 k hk (by omega)
        · have hne : k ≠ i := by
            rintro rfl; rw [hoi, hm] at hok; simp at hok
          exact (h2 j hj).1 k (by omega) hok fun i' a b => hlast i' a (by omega)
        · exact (h2 j hj).2 fun k hk => hnone k (by omega)
      · rw [if_pos hm]
        by_cases hv : 0 ≤ o2n[i] ∧ o2n[i] < newNb
        · rw [if_pos hv]
          apply wp_wr hv.1 (by omega)
          refine ⟨fun k hk hki => ?_, by simp [h1], fun j hj => ⟨fun k hk hok hlast => ?_, fun hnone => ?_⟩⟩
          · by_cases hke : k = i
            · subst hke; exact Or.inr hv
            · exact h0 k hk (by omega)
          · by_cases hj' : (j : Int) = o2n[i]
            · have hik : k = i := by
                by_contra hne
                exact hlast i (by omega) (by omega) (by rw [hoi, hj'])
              subst hik
              rw [← hj']; simp [h1, hj]
            · rw [List.getElem?_set_ne (by omega)]
              have hne : k ≠ i := by
                rintro rfl; rw [hoi] at hok; simp at hok; exact hj' hok.symm
              exact (h2 j hj).1 k (by omega) hok fun i' a b => hlast i' a (by omega)
          · have hj' : (j : Int) ≠ o2n[i] := fun h => hnone i (by omega) (by rw [hoi, h])
            rw [List.getElem?_set_ne (by omega)]
            exact (h2 j hj).2 fun k hk => hnone k (by omega)
        · rw [if_neg hv]
          exact ⟨_, List.getElem_mem hi, by simp only [not_or]; exact ⟨hm, hv⟩⟩
  constructor
  · intro hall
    have hno : ¬ ∃ v ∈ o2n, ¬ (v = -1 ∨ (0 ≤ v ∧ v < newNb)) := by
      rintro ⟨v, hv, hn⟩; exact hn (hall v hv)
    obtain ⟨r, hr, _, h1, h2⟩ := wp_exists (wp_mono main (fun _ h => h) hno)
    refine ⟨r, hr, h1, fun j hj => ⟨fun i hi hlast => ?_, fun hnot => ?_⟩⟩
    · exact (h2 j hj).1 i (List.getElem?_eq_some_iff.mp hi).1 hi fun i' a _ => hlast i' a
    · exact (h2 j hj).2 fun i _ hc => hnot (List.mem_of_getElem? hc)
  · rintro ⟨v, hv, hn⟩
    refine wp_throws (wp_mono main (fun r hr => ?_) fun _ => trivial)
    obtain ⟨i, hi, rfl⟩ := List.mem_iff_getElem.mp hv
    exact hn (hr.1 i hi hi)

/-- **C07.** On a permutation `invertArrayO2N2N2O` returns the (completely defined) inverse permutation. -/
theorem C07_inverse (n : Nat) (p : List Int) (hp : IsPermArr n p) :
    ∃ q : List Int, invertArrayO2N2N2O p n = .ok (q.map some) ∧ IsPermArr n q ∧
      (∀ i j : Nat, p[i]? = some (j : Int) ↔ q[j]? = some (i : Int)) := by
  obtain ⟨r, hr, h1, h2⟩ := (C07_invertO2N p n).1 (fun v hv => Or.inr (hp.2.1 v hv))
  have key : ∀ i j : Nat, p[i]? = some (j : Int) → r[j]? = some (some (i : Int)) := by
    intro i j hij
    have hj := hp.2.1 _ (List.mem_of_getElem? hij)
    exact (h2 j (by omega)).1 i hij fun i' a b => by have := hp.inj hij b; omega
  have hq : ∀ j, j < n → ∃ i : Nat, i < n ∧ p[i]? = some (j : Int) ∧ r[j]? = some (some (i : Int)) := by
    intro j hj
    obtain ⟨i, hi, hij⟩ := hp.surj hj
    exact ⟨i, hi, hij, key i j hij⟩
  let q : List Int := r.map fun x => x.getD 0
  have hrq : r = q.map some := by
    apply List.ext_getElem?
    intro j
    by_cases hj : j < n
    · obtain ⟨i, _, _, h⟩ := hq j hj
      simp [q, h]
    · rw [List.getElem?_eq_none (by omega), List.getElem?_eq_none (by simp [q]; omega)]
  have hqlen : q.length = n := by simp [q, h1]
  have hqj : ∀ i j : Nat, p[i]? = some (j : Int) → q[j]? = some (i : Int) := by
    intro i j hij
    have := key i j hij
    rw [hrq] at this
    simpa using this
  have hiff : ∀ i j : Nat, p[i]? = some (j : Int) ↔ q[j]? = some (i : Int) := by
    intro i j
    refine ⟨hqj i j, fun h => ?_⟩
    have hj : j < n := by have := (List.getElem?_eq_some_iff.mp h).1; omega
    obtain ⟨i', _, hij, _⟩ := hq j hj
    have := hqj i' j hij
    rw [h] at this; simp at this
    rw [this]; exact hij
  refine ⟨q, by rw [hr, hrq], ⟨hqlen, ?_, ?_⟩, hiff⟩
  · intro v hv
    obtain ⟨j, hj, he⟩ := List.mem_iff_getElem.mp hv
    obtain ⟨i, hi, hij, _⟩ := hq j (by omega)
    have := hqj i j hij
    rw [List.getElem?_eq_getElem hj, he] at this
    simp at this; omega
  · rw [List.nodup_iff_injective_getElem]
    intro ⟨j, hj⟩ ⟨j', hj'⟩ he
    obtain ⟨i, hi, hij, _⟩ := hq j (by omega)
    obtain ⟨i', hi', hij', _⟩ := hq j' (by omega)
    have h1 := hqj i j hij
    have h2 := hqj i' j' hij'
    rw [List.getElem?_eq_getElem hj] at h1
    rw [List.getElem?_eq_getElem hj'] at h2
    simp only [Option.some.injEq] at h1 h2 he
    have : i = i' := by omega
    subst this
    rw [hij] at hij'
    simp only [Option.some.injEq] at hij'
    simp; omega

/-- **C07.** Inverting twice gives the permutation back. -/
theorem C07_involution (n : Nat) (p q : List Int) (hp : IsPermArr n p)
    (h : invertArrayO2N2N2O p n = .ok (q.map some)) : invertArrayO2N2N2O q n = .ok (p.map some) := by
  obtain ⟨q', hq', hpq, hiff⟩ := C07_inverse n p hp
  rw [h] at hq'
  have hqq : q = q' := by
    have := Except.ok.inj hq'
    exact List.map_injective_iff.mpr (fun _ _ => Option.some.inj) this
  subst hqq
  obtain ⟨p', hp', hpp, hiff'⟩ := C07_inverse n q hpq
  rw [hp']
  congr 2
  apply List.ext_getElem?
  intro i
  by_cases hi : i < n
  · have hil : i < p.length := by rw [hp.1]; exact hi
    have hv := hp.2.1 _ (List.getElem_mem hil)
    have h3 : p[i]? = some ((p[i].toNat : Nat) : Int) := by
      rw [List.getElem?_eq_getElem hil]; congr 1; omega
    rw [h3]
    exact (hiff' _ _).mp ((hiff _ _).mp h3)
  · rw [List.getElem?_eq_none (by rw [hpp.1]; omega), List.getElem?_eq_none (by rw [hp.1]; omega)]

example : IsPermArr 4 [2, 0, 3, 1] ∧ invertArrayO2N2N2O [2, 0, 3, 1] 4 = .ok ([1, 3, 0, 2].map some) := by
  refine ⟨⟨rfl, by decide, by decide⟩, by decide⟩

/-- **C07.** `invertArrayN2O2O2N`: all ids in range: cell `v` is the last `i` with `this[i]=v`, `-1` if none; throws exactly
when an id is out of range. -/
theorem C07_invertN2O (n2o : List Int) (oldNb : Nat) :
    (AllIn oldNb n2o → ∃ r, invertArrayN2O2O2N n2o oldNb = .ok r ∧ r.length = oldNb ∧
        ∀ j, j < oldNb →
          (∀ i : Nat, n2o[i]? = some (j : Int) → (∀ i', i < i' → n2o[i']? ≠ some (j : Int)) → r[j]? = some (i : Int)) ∧
          ((j : Int) ∉ n2o → r[j]? = some (-1))) ∧
    (¬ AllIn oldNb n2o → invertArrayN2O2O2N n2o oldNb = .error .exn) := by
  have main : wp (invertArrayN2O2O2N n2o oldNb) (fun r =>
      (∀ k (_ : k < n2o.length), k < n2o.length → (0 ≤ n2o[k] ∧ n2o[k] < oldNb)) ∧ r.length = oldNb ∧
      ∀ j, j < oldNb →
        (∀ i : Nat, i < n2o.length → n2o[i]? = some (j : Int) →
          (∀ i', i < i' → i' < n2o.length → n2o[i']? ≠ some (j : Int)) → r[j]? = some (i : Int)) ∧
        ((∀ i, i < n2o.length → n2o[i]? ≠ some (j : Int)) → r[j]? = some (-1)))
      (¬ AllIn oldNb n2o) := by
    unfold invertArrayN2O2O2N
    refine wp_loop (fun n (r : List Int) => (∀ k (_ : k < n2o.length), k < n → (0 ≤ n2o[k] ∧ n2o[k] < oldNb)) ∧
      r.length = oldNb ∧
      ∀ j, j < oldNb →
        (∀ i : Nat, i < n → n2o[i]? = some (j : Int) →
          (∀ i', i < i' → i' < n → n2o[i']? ≠ some (j : Int)) → r[j]? = some (i : Int)) ∧
        ((∀ i, i < n → n2o[i]? ≠ some (j : Int)) → r[j]? = some (-1))) ?_ ?_
    · refine ⟨fun k _ h => by omega, by simp, fun j hj => ⟨fun i hi => by omega, fun _ => by simp [hj]⟩⟩
    · rintro i hi r ⟨h0, h1, h2⟩
      have hoi : n2o[i]? = some n2o[i] := List.getElem?_eq_getElem hi
      rw [rd_natCast hi]
      show wp (if _ then _ else _) _ _
      by_cases hv : 0 ≤ n2o[i] ∧ n2o[i] < oldNb
      · rw [if_pos hv]
        apply wp_wr hv.1 (by omega)
        refine ⟨fun k hk hki => ?_, by simp [h1], fun j hj => ⟨fun k hk hok hlast => ?_, fun hnone => ?_⟩⟩
        · by_cases hke : k = i
          · subst hke; exact hv
          · exact h0 k hk (by omega)
        · by_cases hj' : (j : Int) = n2o[i]
          · have hik : k = i := by
              by_contra hne
              exact hlast i (by omega) (by omega) (by rw [hoi, hj'])
            subst hik
            rw [← hj']; simp [h1, hj]
          · rw [List.getElem?_set_ne (by omega)]
            have hne : k ≠ i := by
              rintro rfl; rw [hoi] at hok; simp at hok; exact hj' hok.symm
            exact (h2 j hj).1 k (by omega) hok fun i' a b => hlast i' a (by omega)
        · have hj' : (j : Int) ≠ n2o[i] := fun h => hnone i (by omega) (by rw [hoi, h])
          rw [List.getElem?_set_ne (by omega)]
          exact (h2 j hj).2 fun k hk => hnone k (by omega)
      · rw [if_neg hv]
        exact fun h => hv (allIn_get h hi)
  constructor
  · intro hall
    obtain ⟨r, hr, _, h1, h2⟩ := wp_exists (wp_mono main (fun _ h => h) (fun hn => hn hall))
    refine ⟨r, hr, h1, fun j hj => ⟨fun i hi hlast => ?_, fun hnot => ?_⟩⟩
    · exact (h2 j hj).1 i (List.getElem?_eq_some_iff.mp hi).1 hi fun i' a _ => hlast i' a
    · exact (h2 j hj).2 fun i _ hc => hnot (List.mem_of_getElem? hc)
  · intro hn
    refine wp_throws (wp_mono main (fun r hr => ?_) fun _ => trivial)
    apply hn
    intro v hv
    obtain ⟨i, hi, rfl⟩ := List.mem_iff_getElem.mp hv
    exact hr.1 i hi hi

/-- **C07.** `invertArrayO2N2N2OBis` keeps, for each new id, the *first* old id sent to it. -/
theorem C07_invertBis (o2n : List Int) (newNb : Nat) :
    ((∀ v ∈ o2n, v = -1 ∨ (0 ≤ v ∧ v < newNb)) →
      ∃ r, invertArrayO2N2N2OBis o2n newNb = .ok r ∧ r.length = newNb ∧
        ∀ j, j < newNb →
          (∀ i : Nat, o2n[i]? = some (j : Int) → (∀ i', i' < i → o2n[i']? ≠ some (j : Int)) → r[j]? = some (some (i : Int))) ∧
          ((j : Int) ∉ o2n → r[j]? = some none)) ∧
    ((∃ v ∈ o2n, ¬ (v = -1 ∨ (0 ≤ v ∧ v < newNb))) → invertArrayO2N2N2OBis o2n newNb = .error .exn) := by
  have main : wp (invertArrayO2N2N2OBis o2n newNb) (fun r =>
      (∀ k (hk : k < o2n.length), o2n.length ≤ k + o2n.length → (o2n[k] = -1 ∨ (0 ≤ o2n[k] ∧ o2n[k] < newNb))) ∧
      r.length = newNb ∧
      ∀ j, j < newNb →
        (∀ i : Nat, i < o2n.length → o2n.length ≤ i + o2n.length → o2n[i]? = some (j : Int) →
          (∀ i', i' < i → o2n.length ≤ i' + o2n.length → o2n[i']? ≠ some (j : Int)) → r[j]? = some (some (i : Int))) ∧
        ((∀ i, o2n.length ≤ i + o2n.length → o2n[i]? ≠ some (j : Int)) → r[j]? = some none))
      (∃ v ∈ o2n, ¬ (v = -1 ∨ (0 ≤ v ∧ v < newNb))) := by
    unfold invertArrayO2N2N2OBis
    refine wp_loop (fun n (r : List (Option Int)) =>
      (∀ k (hk : k < o2n.length), o2n.length ≤ k + n → (o2n[k] = -1 ∨ (0 ≤ o2n[k] ∧ o2n[k] < newNb))) ∧
      r.length = newNb ∧
      ∀ j, j < newNb →
        (∀ i : Nat, i < o2n.length → o2n.length ≤ i + n → o2n[i]? = some (j : Int) →
          (∀ i', i' < i → o2n.length ≤ i' + n → o2n[i']? ≠ some (j : Int)) → r[j]? = some (some (i : Int))) ∧
        ((∀ i, o2n.length ≤ i + n → o2n[i]? ≠ some (j : Int)) → r[j]? = some none)) ?_ ?_
    · refine ⟨fun k _ h => by omega, by simp [mallocN], fun j hj => ⟨fun i hi => by omega, fun _ => by simp [mallocN, hj]⟩⟩
    · rintro n hn r ⟨h0, h1, h2⟩
      obtain ⟨i, hi, hin⟩ : ∃ i, i < o2n.length ∧ o2n.length - 1 - n = i := ⟨_, by omega, rfl⟩
      have hoi : o2n[i]? = some o2n[i] := List.getElem?_eq_getElem hi
      simp only [hin]
      rw [rd_natCast hi]
      show wp (if o2n[i] ≠ -1 then _ else _) _ _
      by_cases hm : o2n[i] = -1
      · rw [if_neg (by simpa using hm)]
        refine ⟨fun k hk hki => ?_, h1, fun j hj => ⟨fun k hk hkn hok hfirst => ?_, fun hnone => ?_⟩⟩
        · by_cases hke : k = i
          · subst hke; exact Or.inl hm
          · exact h0 k hk (by omega)
        · have hne : k ≠ i := by
            rintro rfl; rw [hoi, hm] at hok; simp at hok
          exact (h2 j hj).1 k hk (by omega) hok fun i' a b => hfirst i' a (by omega)
        · exact (h2 j hj).2 fun k hk => hnone k (by omega)
      · rw [if_pos hm]
        by_cases hv : 0 ≤ o2n[i] ∧ o2n[i] < newNb
        · rw [if_pos hv]
          apply wp_wr hv.1 (by omega)
          refine ⟨fun k hk hki => ?_, by simp [h1], fun j hj => ⟨fun k hk hkn hok hfirst => ?_, fun hnone => ?_⟩⟩
          · by_cases hke : k = i
            · subst hke; exact Or.inr hv
            · exact h0 k hk (by omega)
          · by_cases hj' : (j : Int) = o2n[i]
            · have hik : k = i := by
                by_contra hne
                exact hfirst i (by omega) (by omega) (by rw [hoi, hj'])
              subst hik
              rw [← hj']; simp [h1, hj]
            · rw [List.getElem?_set_ne (by omega)]
              have hne : k ≠ i := by
                rintro rfl; rw [hoi] at hok; simp at hok; exact hj' hok.symm
              exact (h2 j hj).1 k hk (by omega) hok fun i' a b => hfirst i' a (by omega)
          · have hj' : (j : Int) ≠ o2n[i] := fun h => hnone i (by omega) (by rw [hoi, h])
            rw [List.getElem?_set_ne (by omega)]
            exact (h2 j hj).2 fun k hk => hnone k (by omega)
        · rw [if_neg hv]
          exact ⟨_, List.getElem_mem hi, by simp only [not_or]; exact ⟨hm, hv⟩⟩
  constructor
  · intro hall
    have hno : ¬ ∃ v ∈ o2n, ¬ (v = -1 ∨ (0 ≤ v ∧ v < newNb)) := by
      rintro ⟨v, hv, hn⟩; exact hn (hall v hv)
    obtain ⟨r, hr, _, h1, h2⟩ := wp_exists (wp_mono main (fun _ h => h) hno)
    refine ⟨r, hr, h1, fun j hj => ⟨fun i hi hfirst => ?_, fun hnot => ?_⟩⟩
    · exact (h2 j hj).1 i (List.getElem?_eq_some_iff.mp hi).1 (by omega) hi fun i' a _ => hfirst i' a
    · exact (h2 j hj).2 fun i _ hc => hnot (List.mem_of_getElem? hc)
  · rintro ⟨v, hv, hn⟩
    refine wp_throws (wp_mono main (fun r hr => ?_) fun _ => trivial)
    obtain ⟨i, hi, rfl⟩ := List.mem_iff_getElem.mp hv
    exact hn (hr.1 i hi (by omega))

example : invertArrayO2N2N2OBis [0, 1, 0, -1, 1] 2 = .ok [some 0, some 1] := by decide
example : invertArrayN2O2O2N [4, 1] 5 = .ok [-1, 1, -1, -1, 0] := by decide

/-- Finding: with a non-surjective old-to-new array the result of `invertArrayO2N2N2O` holds uninitialised memory. -/
theorem C07_uninitialised : invertArrayO2N2N2O [0, -1] 2 = .ok [some 0, none] := by decide

/-- **C05.** Scattering by `p` is gathering by the inverse permutation. -/
theorem C05_scatter_is_gather (a : DArr α) (p q : List Int) (hp : IsPermArr a.nt p)
    (hq : invertArrayO2N2N2O p a.nt = .ok (q.map some)) : renumber a p = renumberR a q := by
  obtain ⟨q', hq', hpq, hiff⟩ := C07_inverse a.nt p hp
  rw [hq] at hq'
  have hqq : q = q' := List.map_injective_iff.mpr (fun _ _ => Option.some.inj) (Except.ok.inj hq')
  subst hqq
  obtain ⟨r, hr, h1, h2⟩ := C05_renumber a p hp.1 hp.2.1
  obtain ⟨r', hr', h3, h4⟩ := C05_renumberR a q hpq.1 hpq.2.1
  rw [hr, hr']
  congr 1
  apply ext_tup h1 (by rw [h3, hpq.1])
  intro j hj
  have hjq : j < q.length := by rw [hpq.1]; exact hj
  have hv := hpq.2.1 _ (List.getElem_mem hjq)
  rw [h4 j hjq]
  have hqj : q[j]? = some ((q[j].toNat : Nat) : Int) := by
    rw [List.getElem?_eq_getElem hjq]; congr 1; omega
  have hpj := (hiff _ _).mpr hqj
  exact (h2 j hj).1 _ (by omega) hpj fun i' h5 _ h7 => by have := hp.inj hpj h7; omega

/-! ## C08 -/

/-- **C08.** `selectByTupleIdSafe`: returns the selection when all ids are in range, throws otherwise; never reads
out of bounds. -/
theorem C08_selectSafe (a : DArr α) (ids : List Int) :
    (AllIn a.nt ids → ∃ r, selectByTupleIdSafe a ids = .ok r ∧ IsGather a.nc a.data ids r) ∧
    (¬ AllIn a.nt ids → selectByTupleIdSafe a ids = .error .exn) := by
  have main : ∀ E : Prop, (¬ AllIn a.nt ids → E) →
      wp (selectByTupleIdSafe a ids) (fun r => AllIn a.nt ids ∧ IsGather a.nc a.data ids r) E := by
    intro E hE
    unfold selectByTupleIdSafe
    apply wp_gatherLoop a ids ids.length rfl
    intro i hi o
    rw [rd_natCast hi]
    by_cases hv : 0 ≤ ids[i] ∧ ids[i] < a.nt
    · refine Or.inl ⟨hv.1, hv.2, ?_⟩
      show (if _ then _ else _) = _
      rw [if_pos hv]
    · refine Or.inr ⟨hE fun h => hv (allIn_get h hi), ?_⟩
      show (if _ then _ else _) = _
      rw [if_neg hv]; rfl
  constructor
  · intro h
    obtain ⟨r, hr, _, hg⟩ := wp_exists (main False fun hn => hn h)
    exact ⟨r, hr, hg⟩
  · intro h
    exact wp_throws (wp_mono (main True fun _ => trivial) (fun r hr => h hr.1) id)

/-- **C08.** The unchecked version agrees on valid ids. -/
theorem C08_select (a : DArr α) (ids : List Int) (h : AllIn a.nt ids) :
    ∃ r, selectByTupleId a ids = .ok r ∧ IsGather a.nc a.data ids r := by
  have : wp (selectByTupleId a ids) (fun r => AllIn a.nt ids ∧ IsGather a.nc a.data ids r) False := by
    unfold selectByTupleId
    apply wp_gatherLoop a ids ids.length rfl
    intro i hi o
    rw [rd_natCast hi]
    exact Or.inl ⟨(allIn_get h hi).1, (allIn_get h hi).2, rfl⟩
  obtain ⟨r, hr, _, hg⟩ := wp_exists this
  exact ⟨r, hr, hg⟩

/-- A gather of in-range ids is completely initialised. -/
theorem IsGather.defined {nc n : Nat} {data : List α} (hd : data.length = n * nc) {ids : List Int} (hi : AllIn n ids)
    {r : List (Option α)} (h : IsGather nc data ids r) :
    r = (ids.flatMap fun v => tup nc data v.toNat).map some := by
  have hlen : ∀ l : List Int, AllIn n l → (l.flatMap fun v => tup nc data v.toNat).length = l.length * nc := by
    intro l hl
    induction l with
    | nil => simp
    | cons v l ih =>
      have hv := hl v (by simp)
      simp only [List.flatMap_cons, List.length_append, List.length_cons]
      rw [ih fun x hx => hl x (List.mem_cons_of_mem _ hx), tup_length hd (by omega), Nat.succ_mul]; omega
  apply ext_tup (nc := nc) (n := ids.length) h.1 (by simp [hlen ids hi])
  intro k hk
  rw [h.2 k hk, tup_map]
  congr 1
  -- tuple k of a concatenation of tuples
  clear h
  induction ids generalizing k with
  | nil => simp at hk
  | cons v l ih =>
    have hv := hi v (by simp)
    have hvl : (tup nc data v.toNat).length = nc := tup_length hd (by omega)
    cases k with
    | zero =>
      simp only [List.getElem_cons_zero, List.flatMap_cons]
      unfold tup at *
      simp only [Nat.zero_mul, List.drop_zero]
      rw [List.take_append_of_le_length (by omega), List.take_of_length_le (le_of_eq hvl)]
    | succ k =>
      simp only [List.getElem_cons_succ, List.flatMap_cons]
      rw [ih (fun x hx => hi x (List.mem_cons_of_mem _ hx)) k (by simpa using hk)]
      unfold tup at *
      rw [List.drop_append_of_le_length' hvl]
where
  List.drop_append_of_le_length' : ∀ {nc k : Nat} {x y : List α}, x.length = nc →
    (List.drop ((k + 1) * nc) (x ++ y)).take nc = (List.drop (k * nc) y).take nc := by
    intro nc k x y hx
    rw [List.drop_append, List.drop_eq_nil_of_le (by rw [Nat.succ_mul]; omega), List.nil_append]
    congr 2
    rw [Nat.succ_mul]; omega

/-- **C08.** Slice selection agrees with the selection of the enumerated ids, provided they are in range. -/
theorem C08_selectSlice (a : DArr α) (b e s : Int) (n : Nat) (hok : SliceOk b e s) (hn : IsTermCount b e s n)
    (hin : AllIn a.nt (progression b s n)) :
    ∃ r, selectByTupleIdSafeSlice a b e s = .ok r ∧ IsGather a.nc a.data (progression b s n) r := by
  obtain ⟨m, hm, hc⟩ := relCount_ok hok
  have : m = n := hc.unique hn
  subst this
  have hlen : (progression b s n).length = n := by simp [progression]
  have : wp (selectByTupleIdSafeSlice a b e s)
      (fun r => AllIn a.nt (progression b s n) ∧ IsGather a.nc a.data (progression b s n) r) False := by
    unfold selectByTupleIdSafeSlice
    rw [hm]
    show wp (loop (n : Int).toNat _ _) _ _
    rw [Int.toNat_natCast]
    apply wp_gatherLoop a (progression b s n) n hlen.symm
    intro i hi o
    have hv := allIn_get hin hi
    refine Or.inl ⟨hv.1, hv.2, ?_⟩
    have : (progression b s n)[i] = b + i * s := by simp [progression]
    rw [this]
  obtain ⟨r, hr, _, hg⟩ := wp_exists this
  exact ⟨r, hr, hg⟩

example : AllIn 5 [4, 0, 4] ∧
    selectByTupleIdSafe (⟨5, 1, [1, 2, 3, 4, 5], rfl⟩ : DArr Int) [4, 0, 4] = .ok [some 5, some 1, some 5] := by
  refine ⟨by simp [AllIn], by decide⟩

/-- Finding: the "safe" slice selection does not check the range: reading tuples `[0,3)` of a 2-tuple array is an
out-of-bounds read. -/
theorem C08_selectSlice_unsafe : selectByTupleIdSafeSlice (⟨2, 1, [1, 2], rfl⟩ : DArr Int) 0 3 1 = .error .ub := by
  decide

/-- **C08.** `subArray(bg,end)` on a valid interval is the block of tuples; bounds outside `[0,nt]` throw. -/
theorem C08_subArray (a : DArr α) (bg e : Int) :
    (0 ≤ bg ∧ bg ≤ e ∧ e ≤ a.nt →
      subArray a bg e = .ok (((a.data.drop (bg.toNat * a.nc)).take ((e - bg).toNat * a.nc)).map some)) ∧
    (bg < 0 ∨ a.nt < bg ∨ a.nt < e → subArray a bg e = .error .exn) := by
  constructor
  · rintro ⟨h0, h1, h2⟩
    obtain ⟨b, rfl⟩ := Int.eq_ofNat_of_zero_le h0
    obtain ⟨e, rfl⟩ := Int.eq_ofNat_of_zero_le (show 0 ≤ e by omega)
    unfold subArray
    have ht : (if (e : Int) ≠ -1 then (e : Int) else (a.nt : Int)) = e := if_pos (by omega)
    rw [if_neg (by omega), if_neg (by omega), if_neg (by omega)]
    simp only [ht]
    rw [if_neg (by omega)]
    unfold copyRange
    have hbe : b ≤ e := by omega
    have hen : e ≤ a.nt := by omega
    have c1 : (a.nc : Int) * (e : Int) - a.nc * (b : Int) = (((e - b) * a.nc : Nat) : Int) := by
      push_cast [Nat.cast_sub hbe]; ring
    have c2 : (a.nc : Int) * (b : Int) = ((b * a.nc : Nat) : Int) := by push_cast; ring
    have c3 : (a.nc : Int) * (e : Int) = ((e * a.nc : Nat) : Int) := by push_cast; ring
    have e1 := Nat.mul_le_mul_right a.nc hbe
    have e2 := Nat.mul_le_mul_right a.nc hen
    have e3 : ((e : Int) - (b : Int)).toNat = e - b := by omega
    rw [if_pos]
    · congr 1
      rw [c1, c2]
      simp only [Int.toNat_natCast, Int.toNat_zero, List.take_zero, List.nil_append, zero_add]
      rw [e3, List.drop_eq_nil_of_le (as := mallocN α _) (by simp [mallocN]), List.append_nil]
    · refine ⟨by rw [c2]; omega, by rw [c2, c3]; omega, by rw [c3, a.wf]; omega, le_refl _, ?_⟩
      rw [c1]; simp [mallocN]
  · intro h
    unfold subArray throwX
    split
    · rfl
    · split
      · rfl
      · rw [if_pos (by omega)]

example : subArray (⟨3, 2, [1, 2, 3, 4, 5, 6], rfl⟩ : DArr Int) 1 2 = .ok [some 3, some 4] := by decide
/-- Finding: an inverted interval is not refused. -/
theorem C08_subArray_inverted : subArray (⟨3, 1, [1, 2, 3], rfl⟩ : DArr Int) 2 1 = .error .ub := by decide

end
end MC
