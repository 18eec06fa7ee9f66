import Verif.SkyOpsProps

/-! # C21, C33 – theorems -/

namespace MC

/-! ## C21: `MakePartition` -/

/-- The words of each row encode the set `{i | S e i}`. -/
def SigOk (n W : Nat) (sig : List (List Nat)) (S : Int → Nat → Prop) : Prop :=
  sig.length = n ∧ ∀ e : Nat, e < n → ∃ row, sig[e]? = some row ∧ row.length = W ∧
    ∀ w b : Nat, ((row[w]?).getD 0).testBit b = true ↔ b < 64 ∧ S (e : Int) (64 * w + b)

theorem signStep_wp {n W i : Nat} {sig : List (List Nat)} {S : Int → Nat → Prop} (h : SigOk n W sig S) (hi : i / 64 < W) (e : Int)
    (E : Prop) (hE : ¬ (0 ≤ e ∧ e < n) → E) :
    wp (signStep n i sig e) (fun sig' => (0 ≤ e ∧ e < n) ∧ SigOk n W sig' fun f j => S f j ∨ (j = i ∧ f = e)) E := by
  obtain ⟨hl, hrow⟩ := h
  unfold signStep
  apply wp_ite
  · rintro ⟨h0, h1⟩
    obtain ⟨row, hr, hrl, hbits⟩ := hrow e.toNat (by omega)
    rw [rd_of_getElem? h0 hr]
    show wp (rd row _ >>= _) _ _
    rw [rd_natCast (by omega : i / 64 < row.length)]
    show wp (wr row _ _ >>= _) _ _
    rw [wr_natCast (by omega : i / 64 < row.length)]
    show wp (wr sig e _) _ _
    rw [wr_ok h0 (by omega)]
    refine ⟨⟨h0, h1⟩, by simp [hl], fun f hf => ?_⟩
    by_cases hfe : f = e.toNat
    · subst hfe
      refine ⟨_, List.getElem?_set_self (by omega), by simp [hrl], fun w b => ?_⟩
      have hee : ((e.toNat : Nat) : Int) = e := by omega
      by_cases hw : w = i / 64
      · subst hw
        rw [List.getElem?_set_self (by omega)]
        have := hbits (i / 64) b
        rw [List.getElem?_eq_getElem (by omega : i / 64 < row.length)] at this
        simp only [Option.getD_some] at this ⊢
        rw [Nat.testBit_or, Nat.one_shiftLeft, Nat.testBit_two_pow, Bool.or_eq_true, this, decide_eq_true_eq, hee]
        constructor
        · rintro (⟨a, b⟩ | rfl)
          · exact ⟨a, Or.inl b⟩
          · exact ⟨by omega, Or.inr ⟨by omega, rfl⟩⟩
        · rintro ⟨a, c | ⟨c, _⟩⟩
          · exact Or.inl ⟨a, c⟩
          · right; omega
      · rw [List.getElem?_set_ne (by omega), hbits w b]
        constructor
        · rintro ⟨a, c⟩; exact ⟨a, Or.inl c⟩
        · rintro ⟨a, c | ⟨c, _⟩⟩
          · exact ⟨a, c⟩
          · omega
    · obtain ⟨row', hr', hrl', hbits'⟩ := hrow f hf
      refine ⟨row', by rw [List.getElem?_set_ne (by omega)]; exact hr', hrl', fun w b => ?_⟩
      rw [hbits' w b]
      have : (f : Int) ≠ e := by omega
      simp [this]
  · exact hE

theorem SigOk.congr {n W : Nat} {sig : List (List Nat)} {S S' : Int → Nat → Prop} (h : SigOk n W sig S) (hs : ∀ e i, S e i ↔ S' e i) :
    SigOk n W sig S' := by
  have : S = S' := by funext e i; exact propext (hs e i)
  rwa [← this]

theorem signatures_wp (n : Nat) (groups : List (List Int)) (E : Prop) (hE : (∃ g ∈ groups, ¬ AllIn n g) → E) :
    wp (signatures n groups) (fun sig => (∀ g ∈ groups, AllIn n g) ∧
      SigOk n ((groups.length + 63) / 64) sig fun e i => ∃ g, groups[i]? = some g ∧ e ∈ g) E := by
  unfold signatures
  have hmem : ∀ p : List Int × Nat, p ∈ groups.zipIdx ↔ groups[p.2]? = some p.1 := fun p => List.mem_zipIdx_iff_getElem?
  refine wp_mono (wp_foldlM (E := E) (fun (pre : List (List Int × Nat)) sig => (∀ p ∈ pre, AllIn n p.1) ∧
    SigOk n ((groups.length + 63) / 64) sig fun e i => ∃ p ∈ pre, p.2 = i ∧ e ∈ p.1) ?_ ?_) ?_ id
  · refine ⟨by simp, by simp, fun e he => ⟨List.replicate ((groups.length + 63) / 64) 0, by simp [he], by simp, fun w b => ?_⟩⟩
    have : (((List.replicate ((groups.length + 63) / 64) 0)[w]?).getD 0 : Nat) = 0 := by
      by_cases hw : w < (groups.length + 63) / 64
      · simp [hw]
      · simp [hw]
    rw [this]; simp
  · rintro pre ⟨g, i⟩ suf hl sig ⟨h1, h2⟩
    have hgi : groups[i]? = some g := (hmem (g, i)).mp (by rw [hl]; simp)
    have hil := (List.getElem?_eq_some_iff.mp hgi).1
    refine wp_mono (wp_foldlM (E := E) (fun (pg : List Int) sig => AllIn n pg ∧ SigOk n ((groups.length + 63) / 64) sig
      fun e j => (∃ p ∈ pre, p.2 = j ∧ e ∈ p.1) ∨ (j = i ∧ e ∈ pg)) ?_ ?_) ?_ id
    · exact ⟨by simp [AllIn], h2.congr (by simp)⟩
    · rintro pg x sg hg sig ⟨h3, h4⟩
      refine wp_mono (signStep_wp h4 (by omega) x E fun hx => hE ⟨g, List.mem_of_getElem? hgi, fun ha => hx ?_⟩) ?_ id
      · have := ha x (by simp only at hg; rw [hg]; simp)
        omega
      · rintro sig' ⟨hx, h5⟩
        refine ⟨?_, h5.congr ?_⟩
        · intro y hy
          rcases List.mem_append.mp hy with hy | hy
          · exact h3 y hy
          · simp at hy; subst hy; exact hx
        · intro e j
          simp only [List.mem_append, List.mem_singleton, and_or_left, or_assoc]
    · rintro sig' ⟨h3, h4⟩
      refine ⟨?_, h4.congr ?_⟩
      · intro p hp
        rcases List.mem_append.mp hp with hp | hp
        · exact h1 p hp
        · simp at hp; subst hp; exact h3
      · intro e j
        simp only [List.mem_append, List.mem_singleton]
        constructor
        · rintro (⟨p, hp, h⟩ | ⟨rfl, h⟩)
          · exact ⟨p, Or.inl hp, h⟩
          · exact ⟨(g, j), Or.inr rfl, rfl, h⟩
        · rintro ⟨p, hp | rfl, h⟩
          · exact Or.inl ⟨p, hp, h⟩
          · exact Or.inr ⟨h.1.symm, h.2⟩
  · rintro sig ⟨h1, h2⟩
    refine ⟨fun g hg => ?_, h2.congr fun e i => ?_⟩
    · obtain ⟨i, hi⟩ := List.getElem?_of_mem hg
      exact h1 (g, i) ((hmem (g, i)).mpr hi)
    · constructor
      · rintro ⟨p, hp, rfl, he⟩; exact ⟨p.1, (hmem p).mp hp, he⟩
      · rintro ⟨g, hg, he⟩; exact ⟨(g, i), (hmem (g, i)).mpr hg, rfl, he⟩

theorem sigOk_rows_eq {n W : Nat} {sig : List (List Nat)} {S : Int → Nat → Prop} (h : SigOk n W sig S) {e f : Nat} (he : e < n) (hf : f < n) :
    sig[e]? = sig[f]? ↔ ∀ i, S (e : Int) i ↔ S (f : Int) i := by
  obtain ⟨r, hr, hrl, hrb⟩ := h.2 e he
  obtain ⟨r', hr', hrl', hrb'⟩ := h.2 f hf
  rw [hr, hr']
  constructor
  · intro heq i
    simp only [Option.some.injEq] at heq
    subst heq
    have a := hrb (i / 64) (i % 64)
    have b := hrb' (i / 64) (i % 64)
    rw [a] at b
    rw [show 64 * (i / 64) + i % 64 = i by omega] at b
    have : i % 64 < 64 := by omega
    tauto
  · intro hi
    simp only [Option.some.injEq]
    apply List.ext_getElem (by omega)
    intro w hw hw'
    apply Nat.eq_of_testBit_eq
    intro b
    have a := hrb w b
    have c := hrb' w b
    rw [List.getElem?_eq_getElem hw] at a
    rw [List.getElem?_eq_getElem hw'] at c
    simp only [Option.getD_some] at a c
    rw [Bool.eq_iff_iff, a, c, hi]

theorem sigFind_snoc (m : List (List Nat × Int)) (k s : List Nat) (v : Int) :
    sigFind (m ++ [(k, v)]) s = match sigFind m s with | some w => some w | none => if k = s then some v else none := by
  induction m with
  | nil => simp [sigFind]
  | cons a m ih =>
    obtain ⟨k', v'⟩ := a
    simp only [List.cons_append, sigFind]
    by_cases h : k' = s
    · simp [h]
    · simp [h, ih]

/-- invariant of the numbering loop -/
def PartInv (pre : List (List Nat)) (s : List (List Nat × Int) × Int × List Int) : Prop :=
  s.2.2.length = pre.length ∧ 1 ≤ s.2.1 ∧
  (∀ k v, sigFind s.1 k = some v → 1 ≤ v ∧ v < s.2.1) ∧
  (∀ v : Int, 1 ≤ v → v < s.2.1 → ∃ a : Nat, s.2.2[a]? = some v) ∧
  (∀ a : Nat, ∀ k, pre[a]? = some k → ∃ v, s.2.2[a]? = some v ∧ sigFind s.1 k = some v) ∧
  (∀ k k' v, sigFind s.1 k = some v → sigFind s.1 k' = some v → k = k')

theorem partition_inv (sig : List (List Nat)) : PartInv sig (sig.foldl partitionStep ([], 1, [])) := by
  induction sig using List.reverseRecOn with
  | nil => refine ⟨rfl, by simp, by simp [sigFind], fun v h1 h2 => ?_, by simp, by simp [sigFind]⟩; simp at h2; omega
  | append_singleton pre x ih =>
    rw [List.foldl_append]
    generalize pre.foldl partitionStep ([], 1, []) = s at ih
    obtain ⟨m, nx, ids⟩ := s
    obtain ⟨h1, h2, h3, h4, h5, h6⟩ := ih
    simp only at h1 h2 h3 h4 h5 h6
    show PartInv _ (partitionStep (m, nx, ids) x)
    unfold partitionStep
    cases hx : sigFind m x with
    | some v =>
      simp only
      refine ⟨by simp [h1], h2, h3, fun w hw1 hw2 => ?_, fun a k hk => ?_, h6⟩
      · obtain ⟨a, ha⟩ := h4 w hw1 hw2
        have := (List.getElem?_eq_some_iff.mp ha).1
        exact ⟨a, by rw [List.getElem?_append_left this]; exact ha⟩
      · by_cases ha : a < pre.length
        · rw [List.getElem?_append_left ha] at hk
          obtain ⟨w, hw, hf⟩ := h5 a k hk
          exact ⟨w, by rw [List.getElem?_append_left (by omega)]; exact hw, hf⟩
        · have := (List.getElem?_eq_some_iff.mp hk).1
          simp at this
          have : a = pre.length := by omega
          subst this
          simp at hk; subst hk
          exact ⟨v, by rw [← h1]; simp, hx⟩
    | none =>
      simp only
      refine ⟨by simp [h1], by show 1 ≤ nx + 1; omega, ?_, ?_, ?_, ?_⟩
      · intro k v hk
        simp only [sigFind_snoc] at hk
        cases hf : sigFind m k with
        | some w => rw [hf] at hk; simp at hk; subst hk; have := h3 k w hf; simp only; omega
        | none =>
          rw [hf] at hk
          by_cases e : x = k
          · simp [e] at hk; simp only; omega
          · simp [e] at hk
      · intro v hv1 hv2
        simp only at hv2 ⊢
        by_cases hv : v = nx
        · exact ⟨ids.length, by simp [hv]⟩
        · obtain ⟨a, ha⟩ := h4 v hv1 (by omega)
          have := (List.getElem?_eq_some_iff.mp ha).1
          exact ⟨a, by rw [List.getElem?_append_left this]; exact ha⟩
      · intro a k hk
        by_cases ha : a < pre.length
        · rw [List.getElem?_append_left ha] at hk
          obtain ⟨w, hw, hf⟩ := h5 a k hk
          exact ⟨w, by simp only; rw [List.getElem?_append_left (by omega)]; exact hw, by simp only [sigFind_snoc, hf]⟩
        · have := (List.getElem?_eq_some_iff.mp hk).1
          simp at this
          have : a = pre.length := by omega
          subst this
          simp at hk; subst hk
          exact ⟨nx, by simp only; rw [← h1]; simp, by simp [sigFind_snoc, hx]⟩
      · intro k k' v hk hk'
        simp only [sigFind_snoc] at hk hk'
        cases hf : sigFind m k with
        | some w =>
          rw [hf] at hk; simp at hk; subst hk
          cases hf' : sigFind m k' with
          | some w' => rw [hf'] at hk'; simp at hk'; subst hk'; exact h6 k k' _ hf hf'
          | none =>
            rw [hf'] at hk'
            have := h3 k w hf
            by_cases e : x = k'
            · simp [e] at hk'; omega
            · simp [e] at hk'
        | none =>
          rw [hf] at hk
          by_cases e : x = k
          · simp [e] at hk; subst hk
            cases hf' : sigFind m k' with
            | some w' => rw [hf'] at hk'; simp at hk'; subst hk'; have := h3 k' _ hf'; omega
            | none =>
              rw [hf'] at hk'
              by_cases e' : x = k'
              · rw [← e, e']
              · simp [e'] at hk'
          · simp [e] at hk

/-- **C21.** `MakePartition`: it throws exactly when an element of a group is out of `[0,newNb)`.  Otherwise two elements get the
same family id exactly when they belong to the same groups; the families of a group are given sorted without repetition and
the group is exactly the set of the elements of these families; the family ids are `1, ..., m`. -/
theorem C21_partition (groups : List (Option (List Int))) (n : Nat) :
    ((∀ g, some g ∈ groups → AllIn n g) → ∃ fam fids, makePartition groups n = .ok (fam, fids) ∧ fam.length = n ∧
      (∀ e f : Nat, e < n → f < n → (fam[e]? = fam[f]? ↔ ∀ g, some g ∈ groups → ((e : Int) ∈ g ↔ (f : Int) ∈ g))) ∧
      List.Forall₂ (fun g fs => StrictSorted fs ∧ ∀ e : Nat, e < n → ((e : Int) ∈ g ↔ ∃ v ∈ fs, fam[e]? = some v))
        (groups.filterMap id) fids ∧
      ∃ m : Int, ∀ v, v ∈ fam ↔ 1 ≤ v ∧ v ≤ m) ∧
    ((∃ g, some g ∈ groups ∧ ¬ AllIn n g) → makePartition groups n = .error .exn) := by
  have hmem : ∀ g, g ∈ groups.filterMap id ↔ some g ∈ groups := by simp [List.mem_filterMap]
  unfold makePartition
  constructor
  · intro hall
    obtain ⟨sig, es, _, hsig⟩ := wp_exists (signatures_wp n (groups.filterMap id) False (by
      rintro ⟨g, hg, h⟩; exact h (hall g ((hmem g).mp hg))))
    rw [es]
    have hinv := partition_inv sig
    simp only [bind, Except.bind]
    generalize sig.foldl partitionStep ([], 1, []) = s at hinv ⊢
    obtain ⟨h1, h2, h3, h4, h5, h6⟩ := hinv
    have hlen : s.2.2.length = n := by rw [h1, hsig.1]
    have hfam : ∀ e f : Nat, e < n → f < n → (s.2.2[e]? = s.2.2[f]? ↔ ∀ g, some g ∈ groups → ((e : Int) ∈ g ↔ (f : Int) ∈ g)) := by
      intro e f he hf
      have hse : sig[e]? = some (sig[e]'(by rw [hsig.1]; exact he)) := by simp
      have hsf : sig[f]? = some (sig[f]'(by rw [hsig.1]; exact hf)) := by simp
      have key : s.2.2[e]? = s.2.2[f]? ↔ sig[e]? = sig[f]? := by
        obtain ⟨v, hv, hv'⟩ := h5 e _ hse
        obtain ⟨w, hw, hw'⟩ := h5 f _ hsf
        rw [hv, hw]
        constructor
        · intro h
          simp only [Option.some.injEq] at h
          subst h
          rw [hse, hsf, h6 _ _ _ hv' hw']
        · intro h
          rw [hse, hsf] at h
          simp only [Option.some.injEq] at h
          rw [h] at hv'
          rw [← hv', ← hw']
      rw [key, sigOk_rows_eq hsig he hf]
      constructor
      · intro h g hg
        obtain ⟨i, hi⟩ := List.getElem?_of_mem ((hmem g).mpr hg)
        have := h i
        constructor
        · intro hm
          obtain ⟨g', hg', hm'⟩ := this.mp ⟨g, hi, hm⟩
          rw [hi] at hg'; simp at hg'; subst hg'; exact hm'
        · intro hm
          obtain ⟨g', hg', hm'⟩ := this.mpr ⟨g, hi, hm⟩
          rw [hi] at hg'; simp at hg'; subst hg'; exact hm'
      · intro h i
        constructor
        · rintro ⟨g, hg, hm⟩; exact ⟨g, hg, (h g ((hmem g).mp (List.mem_of_getElem? hg))).mp hm⟩
        · rintro ⟨g, hg, hm⟩; exact ⟨g, hg, (h g ((hmem g).mp (List.mem_of_getElem? hg))).mpr hm⟩
    have hf : wp ((groups.filterMap id).mapM (fidsOfGroup s.2.2)) (fun fids => List.Forall₂ (fun g fs => StrictSorted fs ∧
        ∀ e : Nat, e < n → ((e : Int) ∈ g ↔ ∃ v ∈ fs, s.2.2[e]? = some v)) (groups.filterMap id) fids) False := by
      apply wp_mapM
      intro g hg
      have hin := hall g ((hmem g).mp hg)
      unfold fidsOfGroup
      rw [wp_bind]
      refine wp_mono (wp_mapM (fun p v => s.2.2[p.toNat]? = some v) (fun p hp => ?_)) ?_ id
      · have := hin p hp
        rw [rd_ok this.1 (by omega)]
        simp
      · intro l hl
        refine ⟨sorted_setInsertAll List.Pairwise.nil, fun e he => ?_⟩
        have hml : ∀ v, v ∈ setInsertAll [] l ↔ ∃ p ∈ g, s.2.2[p.toNat]? = some v := by
          intro v
          rw [mem_setInsertAll]
          simp only [List.not_mem_nil, false_or]
          clear hin hg
          induction hl with
          | nil => simp
          | cons hab _ ih => 
            simp only [List.mem_cons, ih, exists_eq_or_imp, hab, Option.some.injEq]
            constructor
            · rintro (h | h)
              · exact Or.inl h.symm
              · exact Or.inr h
            · rintro (h | h)
              · exact Or.inl h.symm
              · exact Or.inr h
        constructor
        · intro hm
          have hv : s.2.2[e]? = some (s.2.2[e]'(by omega)) := by simp
          exact ⟨_, (hml _).mpr ⟨(e : Int), hm, by rw [Int.toNat_natCast]; exact hv⟩, hv⟩
        · rintro ⟨v, hv, he'⟩
          obtain ⟨p, hp, hpv⟩ := (hml v).mp hv
          have hpin := hin p hp
          have := (hfam e p.toNat he (by omega)).mp (by rw [he', hpv]) g ((hmem g).mp hg)
          rw [this, show ((p.toNat : Nat) : Int) = p by omega]
          exact hp
    obtain ⟨fids, ef, hfids⟩ := wp_exists hf
    rw [ef]
    refine ⟨_, fids, rfl, hlen, hfam, hfids, s.2.1 - 1, fun v => ?_⟩
    constructor
    · intro hv
      obtain ⟨a, ha⟩ := List.getElem?_of_mem hv
      have hal := (List.getElem?_eq_some_iff.mp ha).1
      obtain ⟨w, hw, hw'⟩ := h5 a (sig[a]'(by omega)) (by simp)
      rw [ha] at hw; simp at hw; subst hw
      have := h3 _ _ hw'
      omega
    · rintro ⟨hv1, hv2⟩
      obtain ⟨a, ha⟩ := h4 v hv1 (by omega)
      exact List.mem_of_getElem? ha
  · rintro ⟨g, hg, hbad⟩
    rw [wp_throws (wp_mono (signatures_wp n (groups.filterMap id) True fun _ => trivial) (fun s hs => hbad (hs.1 g ((hmem g).mpr hg))) id)]
    rfl

example : makePartition [some [0, 4], none, some [0, 1, 2]] 5 = .ok ([1, 2, 2, 3, 4], [[1, 4], [1, 2]]) := by decide

/-- **C21, finding.** An element which belongs to no group never gets the family 0, though the documentation says it does
(MEDCouplingMemArray.txx:9406-9430, example `[1,3,3,0,2]`). -/
theorem C21_never_zero (groups : List (Option (List Int))) (n : Nat) (fam : List Int) (fids : List (List Int))
    (h : makePartition groups n = .ok (fam, fids)) : (0 : Int) ∉ fam := by
  by_cases hall : ∀ g, some g ∈ groups → AllIn n g
  · obtain ⟨fam', fids', e, _, _, _, m, hm⟩ := (C21_partition groups n).1 hall
    rw [e] at h
    simp only [Except.ok.injEq, Prod.mk.injEq] at h
    rw [← h.1, hm]; omega
  · push Not at hall
    rw [(C21_partition groups n).2 hall] at h
    simp at h

/-! ## C33: `ConvertIndexArrayToO2N` -/

/-- The first element of the group of `i`, or `i` itself when it is in no group. -/
def repOf (gs : List (List Int)) (i : Nat) : Nat :=
  match gs.find? fun g => decide ((i : Int) ∈ g) with
  | some (h :: _) => h.toNat
  | _ => i

/-- the groups describe merges: non empty, disjoint, in range, the smallest element first -/
structure MergeGroups (n : Nat) (gs : List (List Int)) : Prop where
  ne : ∀ g ∈ gs, g ≠ []
  disj : gs.Pairwise List.Disjoint
  range : ∀ g ∈ gs, AllIn n g
  first : ∀ g ∈ gs, ∀ h t, g = h :: t → ∀ x ∈ g, h ≤ x

theorem disjoint_groups_same {gs : List (List Int)} (hp : gs.Pairwise List.Disjoint) {i j : Nat} {x : Int} {g g' : List Int} (hi : gs[i]? = some g)
    (hj : gs[j]? = some g') (hx : x ∈ g) (hx' : x ∈ g') : i = j := by
  obtain ⟨hi', ei⟩ := List.getElem?_eq_some_iff.mp hi
  obtain ⟨hj', ej⟩ := List.getElem?_eq_some_iff.mp hj
  by_contra hne
  rw [List.pairwise_iff_getElem] at hp
  rcases Nat.lt_or_gt_of_ne hne with hlt | hlt
  · have := hp i j hi' hj' hlt
    rw [ei, ej] at this
    exact this hx hx'
  · have := hp j i hj' hi' hlt
    rw [ei, ej] at this
    exact this hx' hx

theorem repOf_mem {n : Nat} {gs : List (List Int)} (hg : MergeGroups n gs) {j : Nat} {h : Int} {t : List Int} (hj : gs[j]? = some (h :: t))
    {i : Nat} (hi : (i : Int) ∈ h :: t) : (repOf gs i : Int) = h := by
  unfold repOf
  cases hf : gs.find? fun g => decide ((i : Int) ∈ g) with
  | none =>
    rw [List.find?_eq_none] at hf
    exact absurd hi (by simpa using hf _ (List.mem_of_getElem? hj))
  | some g =>
    have h1 := List.find?_some hf
    have h2 := List.mem_of_find?_eq_some hf
    simp only [decide_eq_true_eq] at h1
    obtain ⟨j', hj'⟩ := List.getElem?_of_mem h2
    have := disjoint_groups_same hg.disj hj hj' hi h1
    subst this
    rw [hj] at hj'
    simp only [Option.some.injEq] at hj'
    subst hj'
    simp only
    have := (hg.range _ h2 h (by simp)).1
    omega

theorem repOf_notin {gs : List (List Int)} {i : Nat} (h : ∀ g ∈ gs, (i : Int) ∉ g) : repOf gs i = i := by
  unfold repOf
  have : gs.find? (fun g => decide ((i : Int) ∈ g)) = none := by
    rw [List.find?_eq_none]; intro g hg; simpa using h g hg
  rw [this]

/-- either in no group, or in a group whose head is the representative -/
theorem repOf_cases {n : Nat} {gs : List (List Int)} (hg : MergeGroups n gs) (i : Nat) :
    ((∀ g ∈ gs, (i : Int) ∉ g) ∧ repOf gs i = i) ∨
    ∃ (j : Nat) (h : Int) (t : List Int), gs[j]? = some (h :: t) ∧ (i : Int) ∈ h :: t ∧ (repOf gs i : Int) = h := by
  by_cases hc : ∀ g ∈ gs, (i : Int) ∉ g
  · exact Or.inl ⟨hc, repOf_notin hc⟩
  · push Not at hc
    obtain ⟨g, hgm, hig⟩ := hc
    obtain ⟨j, hj⟩ := List.getElem?_of_mem hgm
    cases g with
    | nil => simp at hig
    | cons h t => exact Or.inr ⟨j, h, t, hj, hig, repOf_mem hg hj hig⟩

theorem repOf_le {n : Nat} {gs : List (List Int)} (hg : MergeGroups n gs) (i : Nat) : repOf gs i ≤ i := by
  rcases repOf_cases hg i with ⟨_, h⟩ | ⟨j, h, t, hj, hi, e⟩
  · omega
  · have := hg.first _ (List.mem_of_getElem? hj) h t rfl _ hi
    omega

theorem repOf_idem {n : Nat} {gs : List (List Int)} (hg : MergeGroups n gs) (i : Nat) : repOf gs (repOf gs i) = repOf gs i := by
  rcases repOf_cases hg i with ⟨_, h⟩ | ⟨j, h, t, hj, hi, e⟩
  · rw [h, h]
  · have := repOf_mem hg hj (i := repOf gs i) (by rw [e]; simp)
    omega

theorem repOf_eq_iff {n : Nat} {gs : List (List Int)} (hg : MergeGroups n gs) (i j : Nat) :
    repOf gs i = repOf gs j ↔ i = j ∨ ∃ g ∈ gs, (i : Int) ∈ g ∧ (j : Int) ∈ g := by
  constructor
  · intro h
    rcases repOf_cases hg i with ⟨hi, ei⟩ | ⟨a, hh, t, ha, hia, ea⟩
    · rcases repOf_cases hg j with ⟨hj, ej⟩ | ⟨b, hh', t', hb, hjb, eb⟩
      · left; omega
      · exfalso
        refine hi _ (List.mem_of_getElem? hb) ?_
        rw [show (i : Int) = hh' by omega]; simp
    · rcases repOf_cases hg j with ⟨hj, ej⟩ | ⟨b, hh', t', hb, hjb, eb⟩
      · exfalso
        refine hj _ (List.mem_of_getElem? ha) ?_
        rw [show (j : Int) = hh by omega]; simp
      · right
        have hhe : hh' = hh := by omega
        have := disjoint_groups_same hg.disj ha hb (x := hh) (by simp) (by simp [hhe])
        subst this
        rw [ha] at hb
        simp only [Option.some.injEq] at hb
        exact ⟨_, List.mem_of_getElem? ha, hia, by rw [hb]; exact hjb⟩
  · rintro (rfl | ⟨g, hgm, hi, hj⟩)
    · rfl
    · obtain ⟨a, ha⟩ := List.getElem?_of_mem hgm
      cases g with
      | nil => simp at hi
      | cons h t =>
        have := repOf_mem hg ha hi
        have := repOf_mem hg ha hj
        omega

/-- the number of representatives below `x` -/
def rankOf (gs : List (List Int)) (x : Nat) : Nat := ((List.range x).filter fun k => decide (repOf gs k = k)).length

theorem rankOf_succ (gs : List (List Int)) (x : Nat) : rankOf gs (x + 1) = rankOf gs x + if repOf gs x = x then 1 else 0 := by
  unfold rankOf
  rw [List.range_succ, List.filter_append, List.length_append]
  congr 1
  by_cases h : repOf gs x = x <;> simp [h]

theorem rankOf_mono (gs : List (List Int)) {x y : Nat} (h : x ≤ y) : rankOf gs x ≤ rankOf gs y := by
  induction h with
  | refl => exact le_refl _
  | step _ ih => rw [rankOf_succ]; omega

theorem rankOf_lt (gs : List (List Int)) {x y : Nat} (hx : repOf gs x = x) (h : x < y) : rankOf gs x < rankOf gs y := by
  have := rankOf_mono gs (show x + 1 ≤ y by omega)
  rw [rankOf_succ, if_pos hx] at this
  omega

theorem rankOf_onto (gs : List (List Int)) {n r : Nat} (h : r < rankOf gs n) : ∃ x < n, repOf gs x = x ∧ rankOf gs x = r := by
  induction n with
  | zero => simp [rankOf] at h
  | succ n ih =>
    rw [rankOf_succ] at h
    by_cases hr : r < rankOf gs n
    · obtain ⟨x, hx, e⟩ := ih hr; exact ⟨x, by omega, e⟩
    · by_cases hn : repOf gs n = n
      · rw [if_pos hn] at h; exact ⟨n, by omega, hn, by omega⟩
      · rw [if_neg hn] at h; omega

/-- marks left by the first loop -/
def Marked (gs : List (List Int)) (i k : Nat) (p : Int) : Prop :=
  (∃ j t, j < i ∧ gs[j]? = some ((k : Int) :: t) ∧ p = -((j : Int) + 2)) ∨ ((∀ j t, j < i → gs[j]? ≠ some ((k : Int) :: t)) ∧ p = -1)

theorem o2nMark_wp {n : Nat} {gs : List (List Int)} {arr arrI : List Int} (h : IsSky arr arrI gs) (hg : MergeGroups n gs) :
    wp (loop (arrI.length - 1) (List.replicate n (-1)) (o2nMark arr arrI))
      (fun pt => pt.length = n ∧ ∀ k < n, ∃ p, pt[k]? = some p ∧ Marked gs gs.length k p) False := by
  have hl := h.idx_length
  rw [show arrI.length - 1 = gs.length by omega]
  refine wp_loop (E := False) (fun i (pt : List Int) => pt.length = n ∧ ∀ k < n, ∃ p, pt[k]? = some p ∧ Marked gs i k p) ?_ ?_
  · refine ⟨by simp, fun k hk => ⟨-1, by simp [hk], Or.inr ⟨by simp, rfl⟩⟩⟩
  · rintro i hi pt ⟨h1, h2⟩
    obtain ⟨a1, a2, a3, a4⟩ := h.get hi
    cases hgi : gs[i] with
    | nil => exact absurd hgi (hg.ne _ (List.getElem_mem hi))
    | cons hd tl =>
      have hgi? : gs[i]? = some (hd :: tl) := by rw [List.getElem?_eq_getElem hi, hgi]
      have hhd := hg.range _ (List.mem_of_getElem? hgi?) hd (by simp)
      unfold o2nMark
      rw [rd_of_getElem? (by omega) (by rw [Int.toNat_natCast]; exact a1)]
      show wp (rd arr _ >>= _) _ _
      have hrd : rd arr ((gs.take i).flatten.length : Int) = .ok hd := by
        apply rd_of_getElem? (by omega)
        have := congrArg (fun l => l[0]?) a4
        simp only [slice, hgi] at this
        rw [List.getElem?_take_of_lt (by simp), List.getElem?_drop] at this
        simpa using this
      rw [hrd]
      show wp (wr pt hd _) _ _
      rw [wr_ok hhd.1 (by omega)]
      refine ⟨by simp [h1], fun k hk => ?_⟩
      by_cases hke : k = hd.toNat
      · subst hke
        refine ⟨_, List.getElem?_set_self (by omega), Or.inl ⟨i, tl, by omega, ?_, rfl⟩⟩
        rw [hgi?, show ((hd.toNat : Nat) : Int) = hd by omega]
      · obtain ⟨p, hp, hm⟩ := h2 k hk
        refine ⟨p, by rw [List.getElem?_set_ne (by omega)]; exact hp, ?_⟩
        rcases hm with ⟨j, t, hj, e1, e2⟩ | ⟨e1, e2⟩
        · exact Or.inl ⟨j, t, by omega, e1, e2⟩
        · refine Or.inr ⟨fun j t hj he => ?_, e2⟩
          by_cases hji : j = i
          · subst hji
            rw [hgi?] at he
            simp at he
            omega
          · exact e1 j t (by omega) he

/-- **C33.** `ConvertIndexArrayToO2N` on groups of elements to merge (non empty, pairwise disjoint, in range, each listed with its
smallest element first, possibly with repetitions): the result is a surjection onto `[0,newNb)` which identifies exactly the elements of a same group and which
numbers the classes in the order of their first elements. -/
theorem C33_o2n (n : Nat) (arr arrI : List Int) (gs : List (List Int)) (h : IsSky arr arrI gs) (hg : MergeGroups n gs) :
    ∃ r newNb, convertIndexArrayToO2N n arr arrI = .ok (r, newNb) ∧ r.length = n ∧
      (∀ i j : Nat, i < n → j < n → (r[i]? = r[j]? ↔ i = j ∨ ∃ g ∈ gs, (i : Int) ∈ g ∧ (j : Int) ∈ g)) ∧
      (∀ i j : Nat, ∀ a b, r[i]? = some a → r[j]? = some b → (a < b ↔ repOf gs i < repOf gs j)) ∧
      (∀ v, v ∈ r ↔ 0 ≤ v ∧ v < newNb) := by
  have main : wp (convertIndexArrayToO2N n arr arrI) (fun s => s.1.length = n ∧ s.2 = (rankOf gs n : Int) ∧
      ∀ k < n, s.1[k]? = some (rankOf gs (repOf gs k) : Int)) False := by
    unfold convertIndexArrayToO2N
    rw [wp_bind]
    refine wp_mono (o2nMark_wp h hg) ?_ id
    rintro pt0 ⟨hl0, hm0⟩
    refine wp_mono (wp_loop (E := False) (fun t (s : List Int × Int) => s.1.length = n ∧ s.2 = (rankOf gs t : Int) ∧
      ∀ k < n, (repOf gs k < t → s.1[k]? = some (rankOf gs (repOf gs k) : Int)) ∧
        (t ≤ repOf gs k → ∃ p, s.1[k]? = some p ∧ Marked gs gs.length k p)) ?_ ?_) ?_ id
    · exact ⟨hl0, by simp [rankOf], fun k hk => ⟨by omega, fun _ => hm0 k hk⟩⟩
    · rintro t ht ⟨pt, nb⟩ ⟨h1, h2, h3⟩
      simp only at h1 h2 h3
      unfold o2nStep
      have hle := repOf_le hg t
      simp only
      by_cases hrt : repOf gs t < t
      · rw [rd_of_getElem? (by omega) (by rw [Int.toNat_natCast]; exact (h3 t ht).1 hrt)]
        simp only [ok_bind]
        rw [if_neg (by omega)]
        refine ⟨h1, ?_, fun k hk => ⟨fun hk' => ?_, fun hk' => (h3 k hk).2 (by omega)⟩⟩
        · rw [rankOf_succ, if_neg (by omega)]; simpa using h2
        · refine (h3 k hk).1 ?_
          have hid := repOf_idem hg k
          rcases Nat.lt_or_ge (repOf gs k) t with hlt | hge
          · exact hlt
          · have : repOf gs k = t := by omega
            rw [this] at hid; omega
      · have hrt : repOf gs t = t := by omega
        obtain ⟨p, hp, hmk⟩ := (h3 t ht).2 (by omega)
        rw [rd_of_getElem? (by omega) (by rw [Int.toNat_natCast]; exact hp)]
        simp only [ok_bind]
        rcases hmk with ⟨j, tl, hj, e1, e2⟩ | ⟨e1, e2⟩
        · rw [if_pos (by omega), if_neg (by omega)]
          obtain ⟨a1, a2, a3, a4⟩ := h.get hj
          have hgj : gs[j] = (t : Int) :: tl := by
            rw [List.getElem?_eq_getElem hj] at e1; simpa using e1
          rw [show -(p + 2) = (j : Int) by omega, rd_of_getElem? (by omega) (by rw [Int.toNat_natCast]; exact a1),
            rd_of_getElem? (by omega) (by rw [show ((j : Int) + 1).toNat = j + 1 by omega]; exact a2)]
          simp only [ok_bind]
          rw [show (((gs.take j).flatten.length : Int) + (gs[j].length : Int) - ((gs.take j).flatten.length : Int)).toNat = gs[j].length by omega,
            wp_bind]
          have hin := hg.range _ (List.getElem_mem hj)
          refine wp_mono (wp_loop (E := False) (fun m (pt' : List Int) => pt'.length = n ∧
            ∀ k < n, pt'[k]? = if (k : Int) ∈ gs[j].take m then some nb else pt[k]?) ?_ ?_) ?_ id
          · exact ⟨h1, by simp⟩
          · rintro m hm pt' ⟨g1, g2⟩
            have hrd : rd arr (((gs.take j).flatten.length : Int) + (m : Int)) = .ok gs[j][m] := by
              apply rd_of_getElem? (by omega)
              have := congrArg (fun l => l[m]?) a4
              simp only [slice] at this
              rw [List.getElem?_take_of_lt (by omega), List.getElem?_drop] at this
              rw [show (((gs.take j).flatten.length : Int) + (m : Int)).toNat = ((gs.take j).flatten.length : Int).toNat + m by omega, this]
              simp
            have hmr := hin gs[j][m] (List.getElem_mem hm)
            unfold o2nGroup
            rw [hrd]
            show wp (if _ then _ else _) _ _
            rw [if_pos ⟨hmr.1, by omega⟩, wr_ok hmr.1 (by omega)]
            refine ⟨by simp [g1], fun k hk => ?_⟩
            have hmt : ∀ y, y ∈ gs[j].take (m + 1) ↔ y ∈ gs[j].take m ∨ y = gs[j][m] := by
              intro y
              rw [List.take_succ_eq_append_getElem hm, List.mem_append, List.mem_singleton]
            by_cases hke : k = gs[j][m].toNat
            · subst hke
              rw [List.getElem?_set_self (by omega), if_pos]
              rw [hmt]; right; omega
            · rw [List.getElem?_set_ne (by omega), g2 k hk]
              have : (k : Int) ≠ gs[j][m] := by omega
              have hiff : (k : Int) ∈ gs[j].take (m + 1) ↔ (k : Int) ∈ gs[j].take m := by rw [hmt]; simp [this]
              simp only [hiff]
          · rintro pt' ⟨g1, g2⟩
            rw [List.take_length] at g2
            refine ⟨g1, ?_, fun k hk => ?_⟩
            · rw [rankOf_succ, if_pos hrt, h2]; push_cast; rfl
            · simp only
              rw [g2 k hk]
              by_cases hkg : (k : Int) ∈ gs[j]
              · have hrk : repOf gs k = t := by
                  have := repOf_mem hg e1 (by rw [hgj] at hkg; exact hkg)
                  omega
                rw [if_pos hkg, hrk]
                exact ⟨fun _ => by rw [h2], by omega⟩
              · rw [if_neg hkg]
                have hrk : repOf gs k ≠ t := by
                  intro he
                  rcases repOf_cases hg k with ⟨hn, e⟩ | ⟨j', hd', t', hj', hk', e⟩
                  · rw [he] at e; subst e
                    exact hkg (by rw [hgj]; simp)
                  · have : hd' = (t : Int) := by omega
                    subst this
                    have := disjoint_groups_same hg.disj e1 hj' (x := (t : Int)) (by simp) (by simp)
                    subst this
                    rw [List.getElem?_eq_getElem hj] at hj'
                    simp only [Option.some.injEq] at hj'
                    rw [hj'] at hkg
                    exact hkg hk'
                exact ⟨fun hk' => (h3 k hk).1 (by omega), fun hk' => (h3 k hk).2 (by omega)⟩
        · rw [if_pos (by omega), if_pos e2, wr_natCast (by omega : t < pt.length)]
          refine ⟨by simp [h1], ?_, fun k hk => ?_⟩
          · rw [rankOf_succ, if_pos hrt]
            show nb + 1 = _
            rw [h2]; push_cast; rfl
          · simp only
            by_cases hkt : k = t
            · subst hkt
              rw [List.getElem?_set_self (by omega), hrt]
              exact ⟨fun _ => by rw [h2], by omega⟩
            · rw [List.getElem?_set_ne (by omega)]
              have hrk : repOf gs k ≠ t := by
                intro he
                rcases repOf_cases hg k with ⟨hn, e⟩ | ⟨j', hd', t', hj', hk', e⟩
                · omega
                · have : hd' = (t : Int) := by omega
                  subst this
                  exact e1 j' t' (List.getElem?_eq_some_iff.mp hj').1 hj'
              exact ⟨fun hk' => (h3 k hk).1 (by omega), fun hk' => (h3 k hk).2 (by omega)⟩
    · rintro ⟨pt, nb⟩ ⟨h1, h2, h3⟩
      refine ⟨h1, h2, fun k hk => (h3 k hk).1 ?_⟩
      have := repOf_le hg k
      omega
  obtain ⟨⟨r, nb⟩, e, h1, h2, h3⟩ := wp_exists main
  simp only at h1 h2 h3
  refine ⟨r, nb, e, h1, ?_, ?_, ?_⟩
  · intro i j hi hj
    rw [h3 i hi, h3 j hj, ← repOf_eq_iff hg]
    constructor
    · intro he
      simp only [Option.some.injEq, Nat.cast_inj] at he
      rcases Nat.lt_trichotomy (repOf gs i) (repOf gs j) with hlt | heq | hlt
      · have := rankOf_lt gs (repOf_idem hg i) hlt; omega
      · exact heq
      · have := rankOf_lt gs (repOf_idem hg j) hlt; omega
    · intro he; rw [he]
  · intro i j a b ha hb
    have hi := (List.getElem?_eq_some_iff.mp ha).1
    have hj := (List.getElem?_eq_some_iff.mp hb).1
    rw [h3 i (by omega)] at ha
    rw [h3 j (by omega)] at hb
    simp only [Option.some.injEq] at ha hb
    subst ha hb
    constructor
    · intro hlt
      by_contra hc
      have := rankOf_mono gs (show repOf gs j ≤ repOf gs i by omega)
      omega
    · intro hlt
      have := rankOf_lt gs (repOf_idem hg i) hlt
      omega
  · intro v
    constructor
    · intro hv
      obtain ⟨k, hk⟩ := List.getElem?_of_mem hv
      have hkl := (List.getElem?_eq_some_iff.mp hk).1
      rw [h3 k (by omega)] at hk
      simp only [Option.some.injEq] at hk
      have hle := repOf_le hg k
      have := rankOf_lt gs (repOf_idem hg k) (show repOf gs k < n by omega)
      omega
    · rintro ⟨hv0, hv1⟩
      obtain ⟨x, hx, hr, hk⟩ := rankOf_onto gs (n := n) (r := v.toNat) (by omega)
      have := h3 x hx
      rw [hr, hk, show ((v.toNat : Nat) : Int) = v by omega] at this
      exact List.mem_of_getElem? this

example : convertIndexArrayToO2N 10 [0, 3, 5, 7, 9] [0, 3, 5] = .ok ([0, 1, 2, 0, 3, 0, 4, 5, 6, 5], 7) := by decide
example : MergeGroups 10 [[0, 3, 5], [7, 9]] :=
  ⟨by decide, by simp [List.Disjoint], by unfold AllIn; decide, by rintro g hg h t rfl; simp at hg; rcases hg with ⟨rfl, rfl⟩ | ⟨rfl, rfl⟩ <;> simp⟩

/-- **C33, finding.** The first element of a group is not checked before it is used as a write position, though the documentation
announces an exception for an id out of range. -/
theorem C33_first_unchecked : convertIndexArrayToO2N 3 [5] [0, 1] = .error .ub := by decide

/-- **C33, finding.** When the smallest element of a group does not come first, a number is consumed which no element gets. -/
theorem C33_unsorted_group : convertIndexArrayToO2N 2 [1, 0] [0, 2] = .ok ([1, 1], 2) := by decide

end MC
