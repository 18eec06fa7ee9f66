import Verif.SkyOps
import Verif.Sky
import Verif.IndexProps

/-! # C18, C19, C20, C34 – theorems -/

namespace MC
variable {α : Type}

/-! ## Offsets -/

/-- partial sums -/
def offs (l : List Int) : List Int := (List.range (l.length + 1)).map fun k => (l.take k).sum

theorem offs_snoc (l : List Int) (x : Int) : offs (l ++ [x]) = offs l ++ [l.sum + x] := by
  unfold offs
  rw [List.length_append, List.length_singleton, List.range_succ (n := l.length + 1), List.map_append]
  congr 1
  · apply List.map_congr_left
    intro k hk
    simp at hk
    rw [List.take_append_of_le_length (by omega)]
  · simp [List.take_of_length_le]

theorem skyIdx_offs (g : List (List α)) : skyIdx g = offs (g.map fun x => (x.length : Int)) := by
  unfold skyIdx offs
  rw [List.length_map]
  apply List.map_congr_left
  intro k _
  rw [← List.map_take, List.length_flatten]
  generalize g.take k = t
  induction t with
  | nil => rfl
  | cons a t ih => simp only [List.map_cons, List.sum_cons]; rw [← ih]; push_cast; rfl

theorem offs_last (l : List Int) : rd (offs l) ((offs l).length - 1 : Int) = .ok l.sum := by
  apply rd_of_getElem?
  · simp [offs]
  · simp [offs]

theorem flatten_length_sum (g : List (List α)) : (g.flatten.length : Int) = (g.map fun x => (x.length : Int)).sum := by
  induction g with
  | nil => rfl
  | cons a t ih => simp only [List.flatten_cons, List.length_append, List.map_cons, List.sum_cons]; push_cast; omega

/-! ## Reading a well-formed indexed array -/

theorem IsSky.get {arr : List α} {arrI : List Int} {g : List (List α)} (h : IsSky arr arrI g) {k : Nat} (hk : k < g.length) :
    arrI[k]? = some ((g.take k).flatten.length : Int) ∧
    arrI[k + 1]? = some ((g.take k).flatten.length + (g[k].length : Int)) ∧
    ((g.take k).flatten.length : Int) + g[k].length ≤ arr.length ∧
    slice arr ((g.take k).flatten.length : Int) ((g.take k).flatten.length + (g[k].length : Int)) = g[k] := by
  obtain ⟨rfl, rfl⟩ := h
  refine ⟨skyIdx_getElem? g (by omega), ?_, ?_, ?_⟩
  · rw [skyIdx_getElem? g (by omega), flatten_take_succ g hk]; simp
  · have : (g.take (k + 1)).flatten.length ≤ g.flatten.length := by
      conv_rhs => rw [← List.take_append_drop (k + 1) g, List.flatten_append, List.length_append]
      omega
    rw [flatten_take_succ g hk, List.length_append] at this
    omega
  · unfold slice
    rw [Int.toNat_natCast, show (((g.take k).flatten.length : Int) + (g[k].length : Int) - ((g.take k).flatten.length : Int)).toNat =
      g[k].length by omega]
    exact flatten_slice g hk

theorem IsSky.idx_length {arr : List α} {arrI : List Int} {g : List (List α)} (h : IsSky arr arrI g) : arrI.length = g.length + 1 := by
  rw [h.2]; simp

/-! ## C34 -/

theorem emitCopy_all {l g : List α} {n : Nat} (h : l.length + g.length ≤ n) :
    emitCopy (filled l n) g 0 g.length = .ok (filled (l ++ g) n) := by
  rw [emitCopy_filled (by omega) (by omega) (by omega) (by omega)]
  simp [slice]

theorem emitCopy_foldl (gs : List (List α)) (n : Nat) (h : gs.flatten.length ≤ n) :
    gs.foldlM (fun (s : Cur α) (g : List α) => emitCopy s g 0 (g.length : Int)) (newCur α n) = .ok (filled gs.flatten n) := by
  have : wp (gs.foldlM (fun (s : Cur α) (g : List α) => emitCopy s g 0 (g.length : Int)) (newCur α n)) (fun s => s = filled gs.flatten n) False := by
    refine wp_foldlM (E := False) (fun (pre : List (List α)) s => s = filled pre.flatten n) (newCur_eq n) ?_
    rintro pre x suf rfl s rfl
    rw [emitCopy_all (by
      simp only [List.flatten_append, List.flatten_cons, List.length_append] at h; omega)]
    show _ = _
    simp
  obtain ⟨s, hs, e⟩ := wp_exists this
  rw [hs, e]

/-- **C34.** `PutIntoToSkylineFrmt` builds the indexed representation of the given vectors. -/
theorem C34_put_into_skyline (v : List (List α)) :
    ∃ d idx, putIntoToSkylineFrmt v = .ok (d.map some, idx) ∧ IsSky d idx v := by
  refine ⟨v.flatten, skyIdx v, ?_, rfl, rfl⟩
  unfold putIntoToSkylineFrmt
  simp only
  rw [scanl_sizes, rd_of_getElem? (a := (v.flatten.length : Int)) (by omega) (by
    rw [Int.toNat_natCast, skyIdx_getElem? v (le_refl _), List.take_length])]
  show (List.foldlM (m := Except Err) _ _ _ >>= _) = _
  rw [Int.toNat_natCast, emitCopy_foldl v _ (le_refl _)]
  show Except.ok _ = _
  rw [filled_full rfl]

example : putIntoToSkylineFrmt [[4, 5], [], [6]] = .ok ([some 4, some 5, some 6], [0, 2, 2, 3]) := by decide

theorem mapM_some (l : List α) : (l.map some).mapM (m := Option) (fun x => x) = some l := by
  induction l with
  | nil => rfl
  | cons a l ih => rw [List.map_cons, List.mapM_cons, ih]; rfl

/-- **C34.** `Aggregate` concatenates the contents of the non null arrays; it throws exactly when there is none or when the
numbers of components differ. -/
theorem C34_aggregate (arrs : List (Option (MArr α))) :
    (∀ nc, (∃ a, some a ∈ arrs) → (∀ a, some a ∈ arrs → a.nc = nc) →
      aggregate arrs = .ok ⟨nc, ((arrs.filterMap id).map MArr.vals).flatten⟩) ∧
    (((∀ a, some a ∉ arrs) ∨ ∃ a b, some a ∈ arrs ∧ some b ∈ arrs ∧ a.nc ≠ b.nc) → aggregate arrs = .error .exn) := by
  have hmem : ∀ a, a ∈ arrs.filterMap id ↔ some a ∈ arrs := by simp [List.mem_filterMap]
  have sums : ∀ (as : List (MArr α)) (nc n0 : Nat) (E : Prop), ((∃ b ∈ as, b.nc ≠ nc) → E) →
      wp (as.foldlM (fun (nbt : Nat) b => if b.nc ≠ nc then (throwX : M Nat) else .ok (nbt + b.vals.length)) n0)
        (fun n => (∀ b ∈ as, b.nc = nc) ∧ n = n0 + ((as.map MArr.vals).flatten).length) E := by
    intro as nc n0 E hE
    refine wp_foldlM (E := E) (fun (pre : List (MArr α)) n => (∀ b ∈ pre, b.nc = nc) ∧ n = n0 + ((pre.map MArr.vals).flatten).length)
      (by simp) ?_
    rintro pre x suf hl n ⟨h1, h2⟩
    apply wp_ite
    · intro h; exact hE ⟨x, by rw [hl]; simp, h⟩
    · intro h
      refine ⟨fun b hb => ?_, by simp [h2]; omega⟩
      rcases List.mem_append.mp hb with hb | hb
      · exact h1 b hb
      · simp at hb; subst hb; simpa using h
  unfold aggregate
  constructor
  · rintro nc ⟨a0, ha0⟩ hnc
    cases hf : arrs.filterMap id with
    | nil => rw [← hmem, hf] at ha0; simp at ha0
    | cons a as =>
      have hall : ∀ b ∈ a :: as, b.nc = nc := fun b hb => hnc b ((hmem b).mp (by rw [hf]; exact hb))
      have hanc := hall a (by simp)
      obtain ⟨n, e, _, hn⟩ := wp_exists (sums as a.nc a.vals.length False (by
        rintro ⟨b, hb, h⟩; exact h (by rw [hall b (by simp [hb]), hanc])))
      simp only
      rw [e]
      show (List.foldlM (m := Except Err) _ _ _ >>= _) = _
      have : (a :: as).foldlM (fun (s : Cur α) (b : MArr α) => emitCopy s b.vals 0 (b.vals.length : Int)) (newCur α n) =
          ((a :: as).map MArr.vals).foldlM (fun (s : Cur α) (g : List α) => emitCopy s g 0 (g.length : Int)) (newCur α n) := by
        rw [List.foldlM_map]
      rw [this, emitCopy_foldl _ _ (by simp [hn])]
      simp only [bind, Except.bind]
      rw [filled_full (by simp [hn])]
      have hm := mapM_some (((a :: as).map MArr.vals).flatten)
      have hm' : List.mapM id ((((a :: as).map MArr.vals).flatten).map some) = some _ := hm
      rw [hm', hanc]
  · intro h
    cases hf : arrs.filterMap id with
    | nil => rfl
    | cons a as =>
      simp only
      have hbad : ∃ b ∈ as, b.nc ≠ a.nc := by
        rcases h with h | ⟨x, y, hx, hy, hne⟩
        · exact absurd ((hmem a).mp (by rw [hf]; simp)) (h a)
        · rw [← hmem, hf] at hx hy
          by_contra hcon
          push Not at hcon
          have ex : x.nc = a.nc := by
            rcases List.mem_cons.mp hx with rfl | hx
            · rfl
            · exact hcon x hx
          have ey : y.nc = a.nc := by
            rcases List.mem_cons.mp hy with rfl | hy
            · rfl
            · exact hcon y hy
          omega
      rw [wp_throws (wp_mono (sums as a.nc a.vals.length True fun _ => trivial) (fun n hn => by
        obtain ⟨b, hb, hne⟩ := hbad
        exact hne (hn.1 b hb)) id)]
      rfl

example : aggregate [some (⟨2, [1, 2]⟩ : MArr Int), none, some ⟨2, [3, 4, 5, 6]⟩] = .ok ⟨2, [1, 2, 3, 4, 5, 6]⟩ := by rfl

/-- **C34.** `AggregateIndexes` of the indices of several indexed arrays is the index of the concatenation of their groups. -/
theorem C34_aggregate_indexes (gss : List (List (List α))) (hne : gss ≠ []) :
    aggregateIndexes (gss.map fun gs => some (skyIdx gs)) = .ok ((skyIdx gss.flatten).map some) := by
  have hcons : ∀ gs : List (List α), ∃ t, skyIdx gs = 0 :: t := fun gs => by
    refine ⟨(skyIdx gs).tail, ?_⟩
    simp [skyIdx, List.range_succ_eq_map]
  have hsz : aggregateIndexesSize (gss.map fun gs => some (skyIdx gs)) = .ok (gss.flatten.length + 1) := by
    have : wp ((gss.map fun gs => some (skyIdx gs)).foldlM aggregateIndexesSizeStep 1) (fun n => n = gss.flatten.length + 1) False := by
      rw [List.foldlM_map]
      refine wp_foldlM (E := False) (fun (pre : List (List (List α))) n => n = pre.flatten.length + 1) (by simp) ?_
      rintro pre x suf hl n rfl
      have hlen := skyIdx_length x
      obtain ⟨t, ht⟩ := hcons x
      rw [ht] at hlen ⊢
      simp only [aggregateIndexesSizeStep]
      rw [if_neg (by simp)]
      show _ = _
      rw [hlen]
      simp; omega
    obtain ⟨n, e, hn⟩ := wp_exists this
    unfold aggregateIndexesSize
    rw [e]
    show (if _ then _ else _) = _
    rw [if_neg (by simpa using hne), hn]
  unfold aggregateIndexes
  have hz : emit (newCur Int (gss.flatten.length + 1)) 0 = .ok (filled [0] (gss.flatten.length + 1)) := by
    rw [newCur_eq, emit_filled (by simp)]; rfl
  simp only [hsz, bind, Except.bind, hz]
  have : wp ((gss.map fun gs => some (skyIdx gs)).foldlM aggregateIndexesStep (filled [0] (gss.flatten.length + 1)))
      (fun s => s = filled (skyIdx gss.flatten) (gss.flatten.length + 1)) False := by
    rw [List.foldlM_map]
    refine wp_foldlM (E := False) (fun (pre : List (List (List α))) s => s = filled (skyIdx pre.flatten) (gss.flatten.length + 1))
      (by simp [skyIdx]) ?_
    rintro pre x suf hl s rfl
    unfold aggregateIndexesStep
    have hprev : rdI (filled (skyIdx pre.flatten) (gss.flatten.length + 1)).1
        ((filled (skyIdx pre.flatten) (gss.flatten.length + 1)).2 - 1) = .ok (pre.flatten.flatten.length : Int) := by
      apply rdI_ok
      · simp [filled]
      · simp only [filled, skyIdx_length]
        rw [show ((pre.flatten.length + 1 : Nat) - 1 : Int).toNat = pre.flatten.length by omega,
          List.getElem?_append_left (by simp), List.getElem?_map, skyIdx_getElem? _ (le_refl _), List.take_length]
        rfl
    rw [hprev]
    show wp (List.foldlM _ _ _) _ _
    have hle : pre.flatten.length + x.length ≤ gss.flatten.length := by rw [hl]; simp
    have hx : ∀ k, k ≤ x.length → ((skyIdx x).tail.take k).foldlM (fun s y => emit s (y + (pre.flatten.flatten.length : Int)))
        (filled (skyIdx pre.flatten) (gss.flatten.length + 1)) =
        .ok (filled (skyIdx (pre.flatten ++ x.take k)) (gss.flatten.length + 1)) := by
      intro k
      induction k with
      | zero => intro _; simp; rfl
      | succ k ih =>
        intro hk
        have ek : (skyIdx x).tail.take (k + 1) = (skyIdx x).tail.take k ++ [((x.take (k + 1)).flatten.length : Int)] := by
          have hget : (skyIdx x).tail[k]? = some ((x.take (k + 1)).flatten.length : Int) := by
            rw [List.getElem?_tail, skyIdx_getElem? x hk]
          obtain ⟨h1, h2⟩ := List.getElem?_eq_some_iff.mp hget
          rw [List.take_succ_eq_append_getElem h1, h2]
        rw [ek, List.foldlM_append, ih (by omega)]
        show (List.foldlM (m := Except Err) _ _ [_]) = _
        rw [List.foldlM_cons, emit_filled (by rw [skyIdx_length, List.length_append, List.length_take]; omega)]
        show Except.ok _ = _
        rw [List.take_succ_eq_append_getElem (show k < x.length by omega), ← List.append_assoc, skyIdx_snoc]
        congr 3
        simp only [List.flatten_append, List.length_append, List.flatten_cons, List.flatten_nil, List.length_nil]
        push_cast; ring_nf
    have := hx x.length (le_refl _)
    rw [List.take_of_length_le (by simp), List.take_length] at this
    simp only [Option.getD_some]
    rw [this]
    show _ = _
    simp
  obtain ⟨s, e, hs⟩ := wp_exists this
  rw [e]
  show Except.ok s.1 = _
  rw [hs, filled_full (by simp)]

example : aggregateIndexes [some [0, 2, 5], some [0, 1]] = .ok [some 0, some 2, some 5, some 6] := by decide

/-- **C34.** `AggregateIndexes` refuses null arrays, empty arrays, arrays not starting with 0 and the empty list. -/
theorem C34_aggregate_indexes_throws (arrs : List (Option (List Int)))
    (h : arrs = [] ∨ ∃ a ∈ arrs, a = none ∨ a = some [] ∨ ∃ f t, f ≠ 0 ∧ a = some (f :: t)) :
    aggregateIndexes arrs = .error .exn := by
  have : aggregateIndexesSize arrs = .error .exn := by
    rcases h with rfl | ⟨a, ha, hb⟩
    · rfl
    · unfold aggregateIndexesSize
      have : wp (arrs.foldlM aggregateIndexesSizeStep 1) (fun _ => False) True := by
        refine wp_mono (wp_foldlM (E := True) (fun (pre : List (Option (List Int))) (_ : Nat) =>
          ∀ a ∈ pre, ¬ (a = none ∨ a = some [] ∨ ∃ f t, f ≠ 0 ∧ a = some (f :: t))) (by simp) ?_) (fun n hn => hn a ha hb) id
        rintro pre x suf hl n h1
        match x with
        | none => trivial
        | some [] => trivial
        | some (f :: t) =>
          simp only [aggregateIndexesSizeStep]
          apply wp_ite
          · intro _; trivial
          · intro hf a ha
            rcases List.mem_append.mp ha with ha | ha
            · exact h1 a ha
            · simp at ha; subst ha; simpa using hf
      rw [wp_throws this]
      rfl
  unfold aggregateIndexes
  rw [this]; rfl

/-! ## C18 -/

/-- `id` designates a group lying inside `arr`. -/
def ValidGroup (arr : List α) (arrI : List Int) (id : Int) : Prop :=
  ValidRange arrI id ∧ 0 ≤ lowOf arrI id ∧ highOf arrI id ≤ arr.length

/-- the group number `id` -/
def groupOf (arr : List α) (arrI : List Int) (id : Int) : List α := slice arr (lowOf arrI id) (highOf arrI id)

theorem ValidGroup.length {arr : List α} {arrI : List Int} {id : Int} (h : ValidGroup arr arrI id) :
    ((groupOf arr arrI id).length : Int) = highOf arrI id - lowOf arrI id := slice_length h.2.1 h.1.get.2.2.2.2 h.2.2

/-- **C18.** `ExtractFromIndexedArrays`, on any ids and any index (well-formed or not), never accesses out of bounds; it returns
exactly when each id designates a group inside the array, and then the result represents the list of these groups. -/
theorem C18_extract (ids : List Int) (arr : List α) (arrI : List Int) (hne : arrI ≠ []) :
    ((∀ id ∈ ids, ValidGroup arr arrI id) → ∃ d dI, extractFromIndexedArrays ids arr arrI = .ok (d.map some, dI) ∧
      IsSky d dI (ids.map (groupOf arr arrI))) ∧
    ((∃ id ∈ ids, ¬ ValidGroup arr arrI id) → extractFromIndexedArrays ids arr arrI = .error .exn) := by
  have main : ∀ E : Prop, ((∃ id ∈ ids, ¬ ValidGroup arr arrI id) → E) → wp (extractFromIndexedArrays ids arr arrI)
      (fun r => (∀ id ∈ ids, ValidGroup arr arrI id) ∧ ∃ d, r.1 = d.map some ∧ IsSky d r.2 (ids.map (groupOf arr arrI))) E := by
    intro E hE
    unfold extractFromIndexedArrays
    have hl0 : 0 < arrI.length := List.length_pos_of_ne_nil hne
    rw [if_neg (by omega), wp_bind]
    let dl : Int → Int := fun id => highOf arrI id - lowOf arrI id
    refine wp_mono (wp_foldlM (E := E) (fun pre s => (∀ id ∈ pre, ValidRange arrI id) ∧ s.1 = offs (pre.map dl) ∧ s.2 = (pre.map dl).sum)
      ?_ ?_) ?_ id
    · simp [offs]
    · rintro pre x suf hl ⟨si, lg⟩ ⟨h1, h2, h3⟩
      simp only at h2 h3
      unfold extractIdxStep
      apply wp_ite
      · rintro ⟨hx0, hx1⟩
        rw [rd_ok (by omega) (by omega : (x + 1).toNat < arrI.length), rd_ok hx0 (by omega : x.toNat < arrI.length)]
        have e1 : arrI[x.toNat]? = some (arrI[x.toNat]'(by omega)) := by simp
        have e2 : arrI[x.toNat + 1]? = some (arrI[(x + 1).toNat]'(by omega)) := by
          simp [show (x + 1).toNat = x.toNat + 1 by omega]
        show wp (rd si _ >>= _) _ _
        simp only
        rw [h2, offs_last]
        show wp (if _ then _ else _) _ _
        have ed : dl x = arrI[(x + 1).toNat]'(by omega) - arrI[x.toNat]'(by omega) := by simp [dl, lowOf, highOf, e1, e2]
        rw [← ed]
        apply wp_ite
        · intro hle
          rw [← h3] at hle
          refine ⟨fun id hid => ?_, ?_, ?_⟩
          · rcases List.mem_append.mp hid with hid | hid
            · exact h1 id hid
            · simp at hid; subst hid
              exact ⟨hx0, _, _, e1, e2, by omega⟩
          · simp only [List.map_append, List.map_cons, List.map_nil]; rw [offs_snoc, h3]
          · simp [h3]
        · intro hlt
          refine hE ⟨x, by rw [hl]; simp, fun hv => ?_⟩
          have := hv.1.get.2.2.2.2
          rw [← h3] at hlt
          simp only [dl] at hlt
          omega
      · intro h
        refine hE ⟨x, by rw [hl]; simp, fun hv => h ⟨hv.1.get.1, hv.1.get.2.1⟩⟩
    · rintro ⟨si, lg⟩ ⟨h1, h2, h3⟩
      simp only at h2 h3
      simp only
      rw [wp_bind]
      refine wp_mono (wp_foldlM (E := E) (fun pre s => (∀ id ∈ pre, ValidGroup arr arrI id) ∧
        s = filled ((pre.map (groupOf arr arrI)).flatten) lg.toNat) ?_ ?_) ?_ id
      · exact ⟨by simp, newCur_eq _⟩
      · rintro pre x suf hl s ⟨g1, rfl⟩
        have hx := h1 x (by rw [hl]; simp)
        obtain ⟨x0, x1, x2, x3, x4⟩ := hx.get
        unfold extractCopyStep
        rw [rd_of_getElem? x0 x2, rd_of_getElem? (by omega) x3]
        show wp (if _ then _ else _) _ _
        apply wp_ite
        · rintro ⟨hlo, hhi⟩
          have hvx : ValidGroup arr arrI x := ⟨hx, hlo, hhi⟩
          have hpre : (((pre.map (groupOf arr arrI)).flatten).length : Int) = (pre.map dl).sum := by
            rw [flatten_length_sum, List.map_map]
            congr 1
            apply List.map_congr_left
            intro id hid
            exact (g1 id hid).length
          have hsuf : 0 ≤ (suf.map dl).sum := by
            apply List.sum_nonneg
            intro y hy
            obtain ⟨id, hid, rfl⟩ := List.mem_map.mp hy
            have := (h1 id (by rw [hl]; simp [hid])).get.2.2.2.2
            simp only [dl]; omega
          rw [emitCopy_filled hlo x4 hhi (by
            rw [hpre, h3, hl]; simp only [List.map_append, List.map_cons, List.sum_append, List.sum_cons]
            simp only [dl] at hsuf ⊢; omega)]
          refine ⟨fun id hid => ?_, ?_⟩
          · rcases List.mem_append.mp hid with hid | hid
            · exact g1 id hid
            · simp at hid; subst hid; exact hvx
          · simp [groupOf]
        · intro h
          exact hE ⟨x, by rw [hl]; simp, fun hv => h hv.2⟩
      · rintro s ⟨g1, rfl⟩
        have hall : (((ids.map (groupOf arr arrI)).flatten).length : Int) = (ids.map dl).sum := by
          rw [flatten_length_sum, List.map_map]
          congr 1
          apply List.map_congr_left
          intro id hid
          exact (g1 id hid).length
        refine ⟨g1, (ids.map (groupOf arr arrI)).flatten, filled_full (by omega), rfl, ?_⟩
        show si = _
        rw [h2, skyIdx_offs, List.map_map]
        congr 1
        apply List.map_congr_left
        intro id hid
        exact (g1 id hid).length.symm
  constructor
  · intro h
    obtain ⟨⟨r1, r2⟩, e, _, d, rfl, hs⟩ := wp_exists (main False (by rintro ⟨v, hv, h'⟩; exact h' (h v hv)))
    exact ⟨d, r2, e, hs⟩
  · rintro ⟨v, hv, h'⟩
    exact wp_throws (wp_mono (main True fun _ => trivial) (fun r h => h' (h.1 v hv)) id)

theorem IsSky.validGroup {arr : List α} {arrI : List Int} {g : List (List α)} (h : IsSky arr arrI g) {id : Int} (h0 : 0 ≤ id)
    (h1 : id < g.length) : ValidGroup arr arrI id ∧ some (groupOf arr arrI id) = g[id.toNat]? := by
  have hk : id.toNat < g.length := by omega
  obtain ⟨a1, a2, a3, a4⟩ := h.get hk
  have el : lowOf arrI id = ((g.take id.toNat).flatten.length : Int) := by simp [lowOf, a1]
  have eh : highOf arrI id = (g.take id.toNat).flatten.length + (g[id.toNat].length : Int) := by simp [highOf, a2]
  refine ⟨⟨⟨h0, _, _, a1, a2, by omega⟩, by omega, by omega⟩, ?_⟩
  rw [groupOf, el, eh, a4]; simp

/-- **C18** on well-formed indexed arrays: group `k` of the result is group `ids[k]` of the input; an exception is thrown
exactly when an id is out of range. -/
theorem C18_extract_sky (ids : List Int) (arr : List α) (arrI : List Int) (g : List (List α)) (h : IsSky arr arrI g) :
    (AllIn g.length ids → ∃ d dI g', extractFromIndexedArrays ids arr arrI = .ok (d.map some, dI) ∧ IsSky d dI g' ∧
      g'.length = ids.length ∧ ∀ k : Nat, ∀ id : Int, ids[k]? = some id → g'[k]? = g[id.toNat]?) ∧
    (¬ AllIn g.length ids → extractFromIndexedArrays ids arr arrI = .error .exn) := by
  have hl := h.idx_length
  have hne : arrI ≠ [] := by rintro rfl; simp at hl
  constructor
  · intro ha
    obtain ⟨d, dI, e, hs⟩ := (C18_extract ids arr arrI hne).1 fun id hid => (h.validGroup (ha id hid).1 (ha id hid).2).1
    refine ⟨d, dI, _, e, hs, by simp, fun k id hk => ?_⟩
    have hid := ha id (List.mem_of_getElem? hk)
    rw [List.getElem?_map, hk]
    exact (h.validGroup hid.1 hid.2).2
  · intro ha
    apply (C18_extract ids arr arrI hne).2
    unfold AllIn at ha
    push Not at ha
    obtain ⟨v, hv, hb⟩ := ha
    refine ⟨v, hv, fun hg => ?_⟩
    have := hg.1.get
    have := hb this.1
    omega

/-- **C18.** The slice variant is the extraction of the terms of the slice. -/
theorem C18_extract_slice (b e s : Int) (n : Nat) (arr : List α) (arrI : List Int) :
    (SliceOk b e s → IsTermCount b e s n →
      extractFromIndexedArraysSlice b e s arr arrI = extractFromIndexedArrays (progression b s n) arr arrI) ∧
    (¬ SliceOk b e s → extractFromIndexedArraysSlice b e s arr arrI = .error .exn) := by
  constructor
  · intro hok hn
    obtain ⟨n', hn', ht⟩ := (C01_relative_count b e s).1 hok
    have := ht.unique hn
    subst this
    unfold extractFromIndexedArraysSlice
    rw [hn']
    rfl
  · intro h
    unfold extractFromIndexedArraysSlice
    rw [(C01_relative_count b e s).2 h]; rfl

example : extractFromIndexedArrays [2, 0, 2] [10, 11, 12, 13, 14, 15] [0, 1, 3, 6] =
    .ok (([13, 14, 15, 10, 13, 14, 15] : List Int).map some, [0, 3, 4, 7]) := by decide
example : IsSky [10, 11, 12, 13, 14, 15] [0, 1, 3, 6] [[10], [11, 12], [13, 14, 15]] := by constructor <;> decide

/-! ## C19 -/

theorem flatten_length_set (g : List (List α)) {i : Nat} (hi : i < g.length) (y : List α) :
    (g.set i y).flatten.length + g[i].length = g.flatten.length + y.length := by
  induction g generalizing i with
  | nil => simp at hi
  | cons a g ih =>
    cases i with
    | zero => simp; omega
    | succ i =>
      simp only [List.set_cons_succ, List.flatten_cons, List.length_append, List.getElem_cons_succ]
      have := ih (i := i) (by simpa using hi)
      omega

/-- The groups after replacement of the groups of numbers `ids` by those of the source. -/
def replaced (g sg : List (List α)) (ids : List Int) : List (List α) :=
  (List.range g.length).map fun i : Nat => if (i : Int) ∈ ids then (sg[ids.idxOf (i : Int)]?).getD [] else (g[i]?).getD []

theorem replaced_snoc {g sg : List (List α)} {ids : List Int} {x : Int} (hx0 : 0 ≤ x) (hn : x ∉ ids) :
    replaced g sg (ids ++ [x]) = (replaced g sg ids).set x.toNat ((sg[ids.length]?).getD []) := by
  apply List.ext_getElem?
  intro i
  by_cases hi : i < g.length
  · by_cases hix : i = x.toNat
    · subst hix
      rw [List.getElem?_set_self (by simpa [replaced] using hi)]
      have : ((x.toNat : Nat) : Int) = x := by omega
      simp [replaced, List.getElem?_range hi, this, List.idxOf_append, hn]
    · rw [List.getElem?_set_ne (by omega)]
      have hne : (i : Int) ≠ x := by omega
      by_cases hm : (i : Int) ∈ ids
      · simp [replaced, List.getElem?_range hi, hm, List.idxOf_append]
      · simp [replaced, List.getElem?_range hi, hm, hne]
  · rw [List.getElem?_eq_none (by simp [replaced]; omega), List.getElem?_eq_none (by simp [replaced]; omega)]

theorem setPartMark_wp (ids : List Int) {arr src : List α} {arrI srcI : List Int} {g sg : List (List α)} (h : IsSky arr arrI g)
    (hs : IsSky src srcI sg) (hlen : ids.length ≤ sg.length) (E : Prop) (hE : ¬ AllIn g.length ids → E) :
    wp (ids.foldlM (setPartMark arrI srcI) (List.replicate (arrI.length - 1) true, 0, 0))
      (fun s => AllIn g.length ids ∧ s.1.length = g.length ∧ (∀ i : Nat, i < g.length → s.1[i]? = some (decide ((i : Int) ∉ ids))) ∧
        (ids.Nodup → s.2.1 = ((replaced g sg ids).flatten.length : Int) - g.flatten.length)) E := by
  have hl := h.idx_length
  refine wp_mono (wp_foldlM (E := E) (fun pre s => AllIn g.length pre ∧ s.1.length = g.length ∧
    (∀ i : Nat, i < g.length → s.1[i]? = some (decide ((i : Int) ∉ pre))) ∧ s.2.2 = (pre.length : Int) ∧
    (pre.Nodup → s.2.1 = ((replaced g sg pre).flatten.length : Int) - g.flatten.length)) ?_ ?_)
    (fun s hs => ⟨hs.1, hs.2.1, hs.2.2.1, hs.2.2.2.2⟩) id
  · refine ⟨by simp [AllIn], by simp [hl], ?_, rfl, fun _ => ?_⟩
    · intro i hi
      simp [hl, hi]
    · have : replaced g sg [] = g := by
        apply List.ext_getElem?
        intro i
        by_cases hi : i < g.length
        · simp [replaced, List.getElem?_range hi, hi]
        · rw [List.getElem?_eq_none (by simp [replaced]; omega), List.getElem?_eq_none (by omega)]
      rw [this]; simp
  · rintro pre x suf hids ⟨v, off, rk⟩ ⟨h1, h2, h3, h4, h5⟩
    simp only at h2 h3 h4 h5
    have hrk : pre.length < sg.length := by rw [hids] at hlen; simp at hlen; omega
    unfold setPartMark
    apply wp_ite
    · rintro ⟨hx0, hx1⟩
      have hxg : x.toNat < g.length := by omega
      rw [wp_bind]
      simp only
      apply wp_wr hx0 (by omega)
      obtain ⟨a1, a2, _, _⟩ := hs.get hrk
      obtain ⟨b1, b2, _, _⟩ := h.get hxg
      rw [h4, rd_of_getElem? (by omega) (by rw [show ((pre.length : Int) + 1).toNat = pre.length + 1 by omega]; exact a2),
        rd_of_getElem? (by omega) (by rw [Int.toNat_natCast]; exact a1),
        rd_of_getElem? (by omega) (by rw [show (x + 1).toNat = x.toNat + 1 by omega]; exact b2),
        rd_of_getElem? hx0 b1]
      refine ⟨?_, by simp [h2], ?_, by simp, fun hnd => ?_⟩
      · intro y hy
        rcases List.mem_append.mp hy with hy | hy
        · exact h1 y hy
        · simp at hy; subst hy; omega
      · intro i hi
        simp only
        by_cases hix : i = x.toNat
        · subst hix
          rw [List.getElem?_set_self (by omega)]
          simp; omega
        · rw [List.getElem?_set_ne (by omega), h3 i hi]
          have : (i : Int) ≠ x := by omega
          simp [this]
      · rw [List.nodup_append] at hnd
        have hxn : x ∉ pre := fun hm => hnd.2.2 x hm x (by simp) rfl
        rw [replaced_snoc hx0 hxn]
        have hxr : x.toNat < (replaced g sg pre).length := by simpa [replaced] using hxg
        have hfl := flatten_length_set (replaced g sg pre) hxr ((sg[pre.length]?).getD [])
        have hgx : (replaced g sg pre)[x.toNat] = g[x.toNat] := by
          have : ((x.toNat : Nat) : Int) ∉ pre := by rwa [show ((x.toNat : Nat) : Int) = x by omega]
          simp only [replaced, List.getElem_map, List.getElem_range, if_neg this]
          simp [hxg]
        rw [hgx] at hfl
        have := h5 hnd.1
        simp only [List.getElem?_eq_getElem hrk, Option.getD_some] at hfl ⊢
        omega
    · intro hh
      refine hE fun ha => hh ?_
      have := ha x (by rw [hids]; simp)
      omega

/-- **C19.** `SetPartOfIndexedArrays` on well-formed indexed arrays, with distinct ids and enough source groups: group `ids[k]` is
replaced by group `k` of the source, the other groups are unchanged, the result is well-formed and completely written. -/
theorem C19_set_part (ids : List Int) (arr src : List α) (arrI srcI : List Int) (g sg : List (List α)) (h : IsSky arr arrI g)
    (hs : IsSky src srcI sg) (hlen : ids.length ≤ sg.length) :
    (AllIn g.length ids → ids.Nodup → ∃ d dI ng, setPartOfIndexedArrays ids arr arrI src srcI = .ok (d.map some, dI) ∧
      IsSky d dI ng ∧ ng.length = g.length ∧ (∀ k : Nat, ∀ id : Int, ids[k]? = some id → ng[id.toNat]? = sg[k]?) ∧
      ∀ i : Nat, (i : Int) ∉ ids → ng[i]? = g[i]?) ∧
    (¬ AllIn g.length ids → setPartOfIndexedArrays ids arr arrI src srcI = .error .exn) := by
  have hl := h.idx_length
  constructor
  · intro ha hnd
    let ng := replaced g sg ids
    have hngl : ng.length = g.length := by simp [ng, replaced]
    have main : wp (setPartOfIndexedArrays ids arr arrI src srcI) (fun r => r = (ng.flatten.map some, skyIdx ng)) False := by
      unfold setPartOfIndexedArrays
      rw [if_neg (by omega), wp_bind]
      refine wp_mono (setPartMark_wp ids h hs hlen False (fun hh => hh ha)) ?_ id
      rintro ⟨v, off, rk⟩ ⟨_, h2, h3, h4⟩
      simp only at h2 h3 h4
      have h4 := h4 hnd
      have hsz : (arr.length : Int) + off = (ng.flatten.length : Int) := by
        rw [h4, h.1]; simp only [ng]; omega
      simp only
      rw [hsz, if_neg (by omega), wp_bind, Int.toNat_natCast]
      refine wp_mono (wp_loop (E := False) (fun k s => s.1 = filled ((ng.take k).flatten) ng.flatten.length ∧ s.2 = skyIdx (ng.take k))
        ?_ ?_) ?_ id
      · exact ⟨by rw [newCur_eq]; simp, by simp [skyIdx]⟩
      · rintro k hk ⟨c, o⟩ ⟨e1, e2⟩
        simp only at e1 e2
        have hkg : k < g.length := by omega
        have hkn : k < ng.length := by omega
        have hprev : rd o ((o.length : Int) - 1) = .ok ((ng.take k).flatten.length : Int) := by
          apply rd_of_getElem?
          · rw [e2]; simp
          · rw [e2, skyIdx_length, show (((ng.take k).length + 1 : Nat) - 1 : Int).toNat = (ng.take k).length by omega,
              skyIdx_getElem? _ (le_refl _), List.take_length]
        have hbound : (ng.take k).flatten.length + ng[k].length ≤ ng.flatten.length := by
          have := flatten_take_succ ng hkn
          have h2 : (ng.take (k + 1)).flatten.length ≤ ng.flatten.length := by
            conv_rhs => rw [← List.take_append_drop (k + 1) ng, List.flatten_append, List.length_append]
            omega
          rw [this, List.length_append] at h2
          exact h2
        unfold setPartCopy
        simp only
        rw [rd_of_getElem? (a := decide ((k : Int) ∉ ids)) (by omega) (by rw [Int.toNat_natCast]; exact h3 k hkg), hprev]
        show wp (if _ then _ else _) _ _
        apply wp_ite
        · intro hm
          have hm : (k : Int) ∉ ids := by simpa using hm
          obtain ⟨b1, b2, b3, b4⟩ := h.get hkg
          rw [rd_of_getElem? (by omega) (by rw [Int.toNat_natCast]; exact b1),
            rd_of_getElem? (by omega) (by rw [show ((k : Int) + 1).toNat = k + 1 by omega]; exact b2)]
          have hnk : ng[k] = g[k] := by
            simp only [ng, replaced, List.getElem_map, List.getElem_range, if_neg hm]; simp [hkg]
          show wp (emitCopy c _ _ _ >>= _) _ _
          rw [e1, emitCopy_filled (by omega) (by omega) b3 (by rw [hnk] at hbound; omega), b4, ← hnk]
          refine ⟨by rw [flatten_take_succ ng hkn], ?_⟩
          rw [e2, List.take_succ_eq_append_getElem hkn, skyIdx_snoc]
          have hll := congrArg List.length hnk
          simp only [List.append_cancel_left_eq, List.cons.injEq, and_true]
          push_cast; omega
        · intro hm
          have hm : (k : Int) ∈ ids := by simpa using hm
          have hp : ids.idxOf (k : Int) < sg.length := by
            have := List.idxOf_lt_length_of_mem hm; omega
          obtain ⟨b1, b2, b3, b4⟩ := hs.get hp
          rw [rd_of_getElem? (by omega) (by rw [Int.toNat_natCast]; exact b1),
            rd_of_getElem? (by omega) (by rw [show ((ids.idxOf (k : Int) : Int) + 1).toNat = ids.idxOf (k : Int) + 1 by omega]; exact b2)]
          have hnk : ng[k] = sg[ids.idxOf (k : Int)] := by
            simp only [ng, replaced, List.getElem_map, List.getElem_range, if_pos hm]; simp [hp]
          show wp (emitCopy c _ _ _ >>= _) _ _
          rw [e1, emitCopy_filled (by omega) (by omega) b3 (by rw [hnk] at hbound; omega), b4, ← hnk]
          refine ⟨by rw [flatten_take_succ ng hkn], ?_⟩
          rw [e2, List.take_succ_eq_append_getElem hkn, skyIdx_snoc]
          have hll := congrArg List.length hnk
          simp only [List.append_cancel_left_eq, List.cons.injEq, and_true]
          push_cast; omega
      · rintro ⟨c, o⟩ ⟨e1, e2⟩
        simp only at e1 e2
        show (c.1, o) = _
        rw [e1, e2, show arrI.length - 1 = ng.length by omega, List.take_length, filled_full rfl]
    obtain ⟨r, e, hr⟩ := wp_exists main
    refine ⟨ng.flatten, skyIdx ng, ng, by rw [e, hr], ⟨rfl, rfl⟩, hngl, ?_, ?_⟩
    · intro k id hk
      have hid := ha id (List.mem_of_getElem? hk)
      have hidm : ((id.toNat : Nat) : Int) = id := by omega
      have hkl := (List.getElem?_eq_some_iff.mp hk).1
      have hix : ids.idxOf id = k := by
        obtain ⟨_, he⟩ := List.getElem?_eq_some_iff.mp hk
        rw [← he]; exact hnd.idxOf_getElem k hkl
      simp only [ng, replaced]
      rw [List.getElem?_map, List.getElem?_range (by omega)]
      simp only [Option.map_some, hidm, if_pos (List.mem_of_getElem? hk), hix]
      rw [List.getElem?_eq_getElem (by omega : k < sg.length)]; rfl
    · intro i hi
      by_cases hig : i < g.length
      · simp only [ng, replaced]
        rw [List.getElem?_map, List.getElem?_range hig]
        simp only [Option.map_some, if_neg hi]
        rw [List.getElem?_eq_getElem hig]; rfl
      · rw [List.getElem?_eq_none (by omega), List.getElem?_eq_none (by omega)]
  · intro hna
    unfold setPartOfIndexedArrays
    rw [if_neg (by omega)]
    rw [wp_throws (wp_mono (setPartMark_wp ids h hs hlen True fun _ => trivial) (fun s hs => hna hs.1) id)]
    rfl

example : setPartOfIndexedArrays [2, 0] [10, 11, 12, 13, 14, 15] [0, 1, 3, 6] [7, 8, 8, 8] [0, 1, 4] =
    .ok (([8, 8, 8, 11, 12, 7] : List Int).map some, [0, 3, 5, 6]) := by decide

/-- **C19, finding.** With a repeated id the size of the result is computed wrongly: the copy overflows the allocated buffer. -/
theorem C19_repeated_overflow : setPartOfIndexedArrays [0, 0] ([1, 2] : List Int) [0, 2] [10, 20] [0, 1, 2] = .error .ub := by decide

/-- **C19, finding.** The number of source groups is not checked: with less groups than ids the source index is read out of
bounds. -/
theorem C19_short_source : setPartOfIndexedArrays [0, 1] ([1, 2] : List Int) [0, 1, 2] [10] [0, 1] = .error .ub := by decide

theorem copyInto_group (g : List (List α)) {i : Nat} (hi : i < g.length) (src : List α) {a b : Int} (ha : 0 ≤ a)
    (hb : b ≤ src.length) (hab : b - a = g[i].length) :
    copyInto src a b g.flatten ((g.take i).flatten.length : Int) = .ok (g.set i (slice src a b)).flatten := by
  have hfl : g.flatten = (g.take i).flatten ++ (g[i] ++ (g.drop (i + 1)).flatten) := by
    conv_lhs => rw [← List.take_append_drop i g, List.flatten_append, List.drop_eq_getElem_cons hi, List.flatten_cons]
  have hset : (g.set i (slice src a b)).flatten = (g.take i).flatten ++ (slice src a b ++ (g.drop (i + 1)).flatten) := by
    rw [List.set_eq_take_append_cons_drop, if_pos hi, List.flatten_append, List.flatten_cons]
  unfold copyInto
  rw [if_pos ⟨ha, by omega, hb, by omega, by rw [hfl]; simp only [List.length_append]; omega⟩, hset]
  congr 1
  rw [List.append_assoc]
  congr 1
  · rw [Int.toNat_natCast, hfl, List.take_left]
  · congr 1
    rw [hfl, show (((g.take i).flatten.length : Int) + (b - a)).toNat = (g.take i).flatten.length + g[i].length by omega,
      ← List.drop_drop, List.drop_left, List.drop_left]

/-- **C19.** `SetPartOfIndexedArraysSameIdx` on well-formed indexed arrays with enough source groups: it throws exactly when an id
is out of range or when a source group has not the size of the group it replaces; otherwise the index is still valid, each
listed group is replaced (the last one wins on repeated ids) and the others are unchanged. -/
theorem C19_same_idx (ids : List Int) (arr src : List α) (arrI srcI : List Int) (g sg : List (List α)) (h : IsSky arr arrI g)
    (hs : IsSky src srcI sg) (hlen : ids.length ≤ sg.length) :
    let Good := ∀ k : Nat, ∀ id : Int, ids[k]? = some id → 0 ≤ id ∧ id < g.length ∧ (sg[k]?).map List.length = (g[id.toNat]?).map List.length
    (Good → ∃ d ng, setPartOfIndexedArraysSameIdx ids arr arrI src srcI = .ok d ∧ IsSky d arrI ng ∧ ng.length = g.length ∧
      (∀ k : Nat, ∀ id : Int, ids[k]? = some id → (∀ k', k < k' → ids[k']? ≠ some id) → ng[id.toNat]? = sg[k]?) ∧
      ∀ i : Nat, (i : Int) ∉ ids → ng[i]? = g[i]?) ∧
    (¬ Good → setPartOfIndexedArraysSameIdx ids arr arrI src srcI = .error .exn) := by
  intro Good
  have hl := h.idx_length
  have main : ∀ E : Prop, (¬ Good → E) → wp (ids.foldlM (setSameIdxStep arrI src srcI) (arr, 0))
      (fun s => Good ∧ ∃ ng : List (List α), IsSky s.1 arrI ng ∧ ng.length = g.length ∧
        (∀ k : Nat, ∀ id : Int, ids[k]? = some id → (∀ k', k < k' → ids[k']? ≠ some id) → ng[id.toNat]? = sg[k]?) ∧
        ∀ i : Nat, (i : Int) ∉ ids → ng[i]? = g[i]?) E := by
    intro E hE
    refine wp_mono (wp_foldlM (E := E) (fun pre s =>
      (∀ k : Nat, ∀ id : Int, pre[k]? = some id → 0 ≤ id ∧ id < g.length ∧ (sg[k]?).map List.length = (g[id.toNat]?).map List.length) ∧
      s.2 = (pre.length : Int) ∧ ∃ ng : List (List α), IsSky s.1 arrI ng ∧ ng.length = g.length ∧
        (∀ i : Nat, (ng[i]?).map List.length = (g[i]?).map List.length) ∧
        (∀ k : Nat, ∀ id : Int, pre[k]? = some id → (∀ k', k < k' → pre[k']? ≠ some id) → ng[id.toNat]? = sg[k]?) ∧
        ∀ i : Nat, (i : Int) ∉ pre → ng[i]? = g[i]?) ?_ ?_) ?_ id
    · exact ⟨by simp, rfl, g, h, rfl, fun _ => rfl, by simp, by simp⟩
    · rintro pre x suf hids ⟨d, rk⟩ ⟨h1, h2, ng, h3, h4, h5, h6, h7⟩
      simp only at h2 h3
      have hrk : pre.length < sg.length := by rw [hids] at hlen; simp at hlen; omega
      have hxk : ids[pre.length]? = some x := by rw [hids]; simp
      unfold setSameIdxStep
      apply wp_ite
      · rintro ⟨hx0, hx1⟩
        have hxg : x.toNat < g.length := by omega
        have hxn : x.toNat < ng.length := by omega
        obtain ⟨a1, a2, a3, a4⟩ := hs.get hrk
        obtain ⟨b1, b2, b3, _⟩ := h3.get hxn
        simp only
        rw [h2, rd_of_getElem? (by omega) (by rw [show ((pre.length : Int) + 1).toNat = pre.length + 1 by omega]; exact a2),
          rd_of_getElem? (by omega) (by rw [Int.toNat_natCast]; exact a1),
          rd_of_getElem? (by omega) (by rw [show (x + 1).toNat = x.toNat + 1 by omega]; exact b2),
          rd_of_getElem? hx0 b1]
        show wp (if _ then _ else _) _ _
        have hsz := h5 x.toNat
        rw [List.getElem?_eq_getElem hxn, List.getElem?_eq_getElem hxg] at hsz
        simp only [Option.map_some, Option.some.injEq] at hsz
        apply wp_ite
        · intro heq
          have hd : d = ng.flatten := h3.1
          have hcopy : copyInto src ((sg.take pre.length).flatten.length : Int)
              ((sg.take pre.length).flatten.length + (sg[pre.length].length : Int)) d ((ng.take x.toNat).flatten.length : Int) =
              .ok (ng.set x.toNat sg[pre.length]).flatten := by
            rw [hd, copyInto_group ng hxn src (by omega) a3 (by omega), a4]
          rw [hcopy]
          have hlen' : ((sg[pre.length]?).map List.length) = (g[x.toNat]?).map List.length := by
            rw [List.getElem?_eq_getElem hrk, List.getElem?_eq_getElem hxg]
            simp only [Option.map_some, Option.some.injEq]
            omega
          show _ ∧ _ ∧ _
          refine ⟨?_, by simp, ng.set x.toNat sg[pre.length], ⟨rfl, ?_⟩, by simp [h4], ?_, ?_, ?_⟩
          · intro k id hk
            by_cases hkp : k < pre.length
            · rw [List.getElem?_append_left hkp] at hk; exact h1 k id hk
            · have := (List.getElem?_eq_some_iff.mp hk).1
              simp at this
              have hk' : k = pre.length := by omega
              subst hk'
              simp at hk; subst hk
              exact ⟨hx0, by omega, hlen'⟩
          · rw [h3.2, skyIdx_offs, skyIdx_offs, List.map_set]
            congr 1
            symm
            rw [show ((sg[pre.length].length : Nat) : Int) = (ng.map fun y => (y.length : Int))[x.toNat]'(by simpa using hxn) by
              simp; omega]
            exact List.set_getElem_self _
          · intro i
            by_cases hix : i = x.toNat
            · subst hix
              rw [List.getElem?_set_self hxn, ← hlen', List.getElem?_eq_getElem hrk]
            · rw [List.getElem?_set_ne (by omega)]; exact h5 i
          · intro k id hk hlast
            by_cases hkp : k < pre.length
            · rw [List.getElem?_append_left hkp] at hk
              have hidx : id ≠ x := by
                rintro rfl
                exact hlast pre.length hkp (by simp)
              have hid := (h1 k id hk).1
              rw [List.getElem?_set_ne (by omega)]
              refine h6 k id hk fun k' hk' he => ?_
              have hk'l := (List.getElem?_eq_some_iff.mp he).1
              exact hlast k' hk' (by rw [List.getElem?_append_left hk'l]; exact he)
            · have := (List.getElem?_eq_some_iff.mp hk).1
              simp at this
              have hk' : k = pre.length := by omega
              subst hk'
              simp at hk; subst hk
              rw [List.getElem?_set_self hxn, List.getElem?_eq_getElem hrk]
          · intro i hi
            simp only [List.mem_append, List.mem_singleton, not_or] at hi
            rw [List.getElem?_set_ne (by omega)]
            exact h7 i hi.1
        · intro hne
          refine hE fun hg => hne ?_
          have := (hg pre.length x hxk).2.2
          rw [List.getElem?_eq_getElem hrk, List.getElem?_eq_getElem hxg] at this
          simp only [Option.map_some, Option.some.injEq] at this
          omega
      · intro hh
        refine hE fun hg => hh ?_
        have := hg pre.length x hxk
        omega
    · rintro s ⟨h1, _, ng, h3, h4, _, h6, h7⟩
      exact ⟨h1, ng, h3, h4, h6, h7⟩
  unfold setPartOfIndexedArraysSameIdx
  constructor
  · intro hg
    obtain ⟨s, e, _, ng, r⟩ := wp_exists (main False fun hn => hn hg)
    rw [e]
    exact ⟨s.1, ng, rfl, r⟩
  · intro hg
    rw [wp_throws (wp_mono (main True fun _ => trivial) (fun s hs => hg hs.1) id)]; rfl

example : setPartOfIndexedArraysSameIdx [1, 0] ([10, 11, 12, 13, 14, 15] : List Int) [0, 1, 3, 6] [7, 8, 9] [0, 2, 3] =
    .ok [9, 7, 8, 13, 14, 15] := by decide

/-! ## C20 -/

/-- What `RemoveIdsFromIndexedArrays` computes on a well-formed indexed array: from each group the first `off` elements *and* the
listed values are dropped. -/
theorem removeIds_spec (ids arr arrI : List Int) (g : List (List Int)) (h : IsSky arr arrI g) (off : Nat) :
    ∃ b d dI, removeIdsFromIndexedArrays ids arr arrI (off : Int) = .ok (b, d, dI) ∧
      IsSky d dI (g.map fun gr => (gr.drop off).filter fun x => decide (x ∉ ids)) ∧
      (b = true ↔ d ≠ arr) := by
  let f : List Int → List Int := fun gr => (gr.drop off).filter fun x => decide (x ∉ ids)
  have hl := h.idx_length
  obtain ⟨i0, rest, hri⟩ : ∃ i0 rest, arrI = i0 :: rest := by
    cases arrI with
    | nil => simp at hl
    | cons a t => exact ⟨a, t, rfl⟩
  have hrest : ∀ k, k < g.length → rest[k]? = some ((g.take k).flatten.length + ((g[k]?).getD []).length : Int) := by
    intro k hk
    have := (h.get hk).2.1
    rw [hri] at this
    simpa [hk] using this
  have hrl : rest.length = g.length := by rw [hri] at hl; simpa using hl
  have hfs : ∀ x, x ∈ setInsertAll [] ids ↔ x ∈ ids := fun x => by rw [mem_setInsertAll]; simp
  have main : wp (rest.foldlM (removeStep (setInsertAll [] ids) arr off) ([0], 0, []))
      (fun st => st.1 = skyIdx (g.map f) ∧ st.2.2 = (g.map f).flatten) False := by
    refine wp_mono (wp_foldlM (E := False) (fun (pre : List Int) (st : List Int × Int × List Int) =>
      st.1 = skyIdx ((g.take pre.length).map f) ∧ st.2.1 = ((g.take pre.length).flatten.length : Int) ∧
      st.2.2 = ((g.take pre.length).map f).flatten) ?_ ?_) ?_ id
    · simp [skyIdx]
    · rintro pre x suf hp ⟨o, prev, out⟩ ⟨h1, h2, h3⟩
      simp only at h1 h2 h3
      have hk : pre.length < g.length := by rw [← hrl, hp]; simp
      have hx : x = ((g.take pre.length).flatten.length : Int) + g[pre.length].length := by
        have := hrest pre.length hk
        rw [hp] at this
        simpa [hk] using this
      obtain ⟨b1, b2, b3, b4⟩ := h.get hk
      have hout : removeLoop (setInsertAll [] ids) arr off prev x out = .ok (out ++ f g[pre.length]) := by
        unfold removeLoop
        have hfilt : ∀ l : List Int, (l.filter fun x => decide (x ∉ setInsertAll [] ids)) = l.filter fun x => decide (x ∉ ids) := by
          intro l
          apply List.filter_congr
          intro y _
          simp [hfs]
        by_cases hc : x - prev > (off : Int)
        · rw [if_pos hc, if_pos ⟨by omega, by omega⟩, hfilt]
          congr 3
          rw [← b4]
          unfold slice
          rw [List.drop_take, List.drop_drop]
          congr 1
          · omega
          · congr 1; omega
        · rw [if_neg hc]
          congr 1
          have : g[pre.length].drop off = [] := by rw [List.drop_eq_nil_iff]; omega
          simp [f, this]
      unfold removeStep
      simp only
      rw [hout]
      show _ ∧ _ ∧ _
      simp only [List.length_append, List.length_singleton]
      refine ⟨?_, ?_, ?_⟩
      · rw [List.take_succ_eq_append_getElem hk, List.map_append, List.map_singleton, skyIdx_snoc, ← h1, ← h3]
      · rw [flatten_take_succ g hk, List.length_append, hx]; push_cast; rfl
      · rw [List.take_succ_eq_append_getElem hk, List.map_append, List.flatten_append, ← h3]; simp
    · rintro st ⟨h1, _, h3⟩
      rw [hrl, List.take_length] at h1 h3
      exact ⟨h1, h3⟩
  obtain ⟨st, e, h1, h2⟩ := wp_exists main
  unfold removeIdsFromIndexedArrays
  rw [if_neg (by omega), hri]
  simp only
  rw [e]
  simp only [bind, Except.bind]
  have hsub : st.2.2.Sublist arr := by
    rw [h2, h.1]
    clear h2 h1 e main hrest h hl hri hrl
    induction g with
    | nil => simp
    | cons a g ih =>
      simp only [List.map_cons, List.flatten_cons]
      apply List.Sublist.append _ ih
      exact (List.filter_sublist).trans (List.drop_sublist _ _)
  by_cases hlen : arr.length = st.2.2.length
  · have heq : st.2.2 = arr := hsub.eq_of_length hlen.symm
    rw [if_pos hlen]
    exact ⟨false, arr, st.1, rfl, ⟨by rw [← heq, h2], h1⟩, by simp⟩
  · rw [if_neg hlen]
    exact ⟨true, st.2.2, st.1, rfl, ⟨h2, h1⟩, by simp; intro he; exact hlen (by rw [he])⟩

/-- **C20, partial.** With `offsetForRemoval = 0` (the default), `RemoveIdsFromIndexedArrays` removes from each group exactly the
listed values, keeps the order and the number of groups, leaves a well-formed index and tells whether the array changed.
Missing: `offsetForRemoval > 0`, for which the claim is false (`C20_offset_drops`). -/
theorem C20_remove_partial (ids arr arrI : List Int) (g : List (List Int)) (h : IsSky arr arrI g) :
    ∃ b d dI, removeIdsFromIndexedArrays ids arr arrI 0 = .ok (b, d, dI) ∧
      IsSky d dI (g.map fun gr => gr.filter fun x => decide (x ∉ ids)) ∧ (b = true ↔ d ≠ arr) := by
  obtain ⟨b, d, dI, e, h1, h2⟩ := removeIds_spec ids arr arrI g h 0
  exact ⟨b, d, dI, e, by simpa using h1, h2⟩

/-- **C20, finding.** With `offsetForRemoval = off > 0` the first `off` elements of each group, which the documentation keeps out
of the removal, are dropped whatever the ids: even an empty list of ids to remove alters the array. -/
theorem C20_offset_drops (ids arr arrI : List Int) (g : List (List Int)) (h : IsSky arr arrI g) (off : Nat) :
    (∃ b d dI, removeIdsFromIndexedArrays ids arr arrI (off : Int) = .ok (b, d, dI) ∧
      IsSky d dI (g.map fun gr => (gr.drop off).filter fun x => decide (x ∉ ids))) ∧
    removeIdsFromIndexedArrays [] [7, 8, 9] [0, 3] 1 = .ok (true, [8, 9], [0, 2]) := by
  obtain ⟨b, d, dI, e, h1, _⟩ := removeIds_spec ids arr arrI g h off
  exact ⟨⟨b, d, dI, e, h1⟩, by decide⟩

theorem C20_negative_offset (ids arr arrI : List Int) (off : Int) (h : off < 0) :
    removeIdsFromIndexedArrays ids arr arrI off = .error .exn := by
  unfold removeIdsFromIndexedArrays; rw [if_pos h]; rfl

example : removeIdsFromIndexedArrays [5, 7] [5, 6, 7, 8, 5] [0, 2, 2, 5] 0 = .ok (true, [6, 8], [0, 1, 1, 2]) := by decide

end MC
