import Verif.CellKeep

/-!
# C74: aggregation of meshes sorted by type
-/

namespace MC
section

/-! ## Specification -/

/-- A chunk is a mesh number and a block of cells of this mesh of the same type; the chunks of the meshes, in order. -/
def chunksFrom : Nat → List (List (List Cell)) → List (Nat × List Cell)
  | _, [] => []
  | k, gs :: css => gs.map (fun g => (k, g)) ++ chunksFrom (k + 1) css

/-- the type of a chunk -/
def chunkType (g : Nat × List Cell) : Option Int := g.2.head?.map Cell.type

/-! ## Lists moved by a permutation -/

theorem IsPermArr.moved {α : Type} {n : Nat} {p : List Int} (hp : IsPermArr n p) {l : List α} (hl : l.length = n) :
    ∃ l' : List α, l'.length = n ∧ ∀ i j : Nat, p[i]? = some (j : Int) → l'[j]? = l[i]? := by
  have h : ∀ j : Nat, ∃ i : Nat, j < n → i < n ∧ p[i]? = some (j : Int) := fun j => by
    by_cases hj : j < n
    · obtain ⟨i, hi, e⟩ := hp.surj hj; exact ⟨i, fun _ => ⟨hi, e⟩⟩
    · exact ⟨0, fun h => absurd h hj⟩
  choose f hf using h
  have hall : ∀ k, k ≤ n → ∃ l' : List α, l'.length = k ∧ ∀ j, j < k → l'[j]? = l[f j]? := by
    intro k
    induction k with
    | zero => intro _; exact ⟨[], rfl, by simp⟩
    | succ k ih =>
      intro hk
      obtain ⟨l', h1, h2⟩ := ih (by omega)
      have hfk : f k < l.length := by rw [hl]; exact (hf k (by omega)).1
      refine ⟨l' ++ [l[f k]], by simp [h1], fun j hj => ?_⟩
      by_cases hjk : j = k
      · rw [hjk, List.getElem?_append_right (by omega), h1, Nat.sub_self, List.getElem?_eq_getElem hfk]; rfl
      · rw [List.getElem?_append_left (by omega)]; exact h2 j (by omega)
  obtain ⟨l', h1, h2⟩ := hall n (Nat.le_refl _)
  refine ⟨l', h1, fun i j hij => ?_⟩
  have hj := (hp.2.1 _ (List.mem_of_getElem? hij)).2
  have hj : j < n := by omega
  rw [h2 j hj]
  rw [hp.inj (hf j hj).2 hij]

theorem IsPermArr.moved_unique {α : Type} {n : Nat} {p : List Int} (hp : IsPermArr n p) {l l1 l2 : List α} (h1 : l1.length = n) (h2 : l2.length = n)
    (e1 : ∀ i j : Nat, p[i]? = some (j : Int) → l1[j]? = l[i]?) (e2 : ∀ i j : Nat, p[i]? = some (j : Int) → l2[j]? = l[i]?) : l1 = l2 := by
  apply List.ext_getElem?
  intro j
  by_cases hj : j < n
  · obtain ⟨i, -, e⟩ := hp.surj hj
    rw [e1 i j e, e2 i j e]
  · rw [List.getElem?_eq_none (by omega), List.getElem?_eq_none (by omega)]

theorem IsPermArr.moved_map {α β : Type} {p : List Int} {l l' : List α} (e : ∀ i j : Nat, p[i]? = some (j : Int) → l'[j]? = l[i]?) (f : α → β) :
    ∀ i j : Nat, p[i]? = some (j : Int) → (l'.map f)[j]? = (l.map f)[i]? := by
  intro i j h
  rw [List.getElem?_map, List.getElem?_map, e i j h]

/-- the loop which moves the elements -/
theorem move_loop {α : Type} {n : Nat} {p : List Int} (hp : IsPermArr n p) {l l' : List α} (hl : l.length = n) (hl' : l'.length = n)
    (e : ∀ i j : Nat, p[i]? = some (j : Int) → l'[j]? = l[i]?) :
    loop n (List.replicate n (none : Option α)) (fun i v => do
      let k ← rd p i
      let m ← rd l i
      wr v k (some m)) = .ok (l'.map some) := by
  have key : ∀ k, k ≤ n → wp (loop k (List.replicate n (none : Option α)) (fun i v => do
      let k ← rd p i
      let m ← rd l i
      wr v k (some m))) (fun v : List (Option α) => v.length = n ∧ ∀ i j : Nat, i < k → p[i]? = some (j : Int) → v[j]? = (l.map some)[i]?) False := by
    intro k
    induction k with
    | zero => intro _; exact ⟨by simp, fun i j h => by omega⟩
    | succ k ih =>
      intro hk
      rw [loop_succ]
      refine (wp_bind _ _ _ _).mpr (wp_mono (ih (by omega)) ?_ id)
      rintro v ⟨v1, v2⟩
      have hkp : k < p.length := by rw [hp.1]; omega
      have hv := hp.2.1 _ (List.getElem_mem hkp)
      obtain ⟨j, hj⟩ : ∃ j : Nat, p[k] = (j : Int) := ⟨p[k].toNat, by omega⟩
      rw [rd_natCast hkp, ok_bind, rd_natCast (by omega), ok_bind, hj, wr_natCast (by omega)]
      refine ⟨by simpa using v1, fun i j' hi hij => ?_⟩
      by_cases hik : i = k
      · subst hik
        rw [List.getElem?_eq_getElem hkp, hj, Option.some.injEq] at hij
        have : j = j' := by omega
        subst this
        rw [List.getElem?_set_self (by omega), List.getElem?_map, List.getElem?_eq_getElem (by omega)]; rfl
      · have hne : j ≠ j' := by
          rintro rfl
          exact hik (hp.inj hij (by rw [List.getElem?_eq_getElem hkp, hj]))
        rw [List.getElem?_set_ne hne]
        exact v2 i j' (by omega) hij
  obtain ⟨v, e1, v1, v2⟩ := wp_exists (key n (Nat.le_refl _))
  rw [e1]
  congr 1
  refine hp.moved_unique v1 (by simpa using hl') (fun i j h => v2 i j ?_ h) (IsPermArr.moved_map e some)
  have := (List.getElem?_eq_some_iff.mp h).1
  rw [hp.1] at this
  exact this

theorem renumber_moved {n : Nat} {p : List Int} (hp : IsPermArr n p) {l l' : List Int} (hl : l.length = n) (hl' : l'.length = n)
    (e : ∀ i j : Nat, p[i]? = some (j : Int) → l'[j]? = l[i]?) : renumber ⟨l.length, 1, l, by simp⟩ p = .ok (l'.map some) := by
  obtain ⟨r, r1, r2⟩ := C05_renumber ⟨l.length, 1, l, by simp⟩ p (by rw [hp.1]; exact hl.symm) (by rw [show (DArr.nt ⟨l.length, 1, l, by simp⟩) = l.length from rfl, hl]; exact hp.2.1)
  rw [r1]
  congr 1
  simp only [hl] at r2
  have hlen : r.length = n := by have := r2.1; simpa using this
  refine hp.moved_unique hlen (by simpa using hl') (fun i j hij => ?_) (IsPermArr.moved_map e some)
  have hi : i < n := by have := (List.getElem?_eq_some_iff.mp hij).1; rw [hp.1] at this; exact this
  have := (r2.perm (by simpa using hl) hp).1 i hi
  have hpi : p[i]'(by rw [hp.1]; exact hi) = (j : Int) := by
    have := List.getElem?_eq_getElem (l := p) (i := i) (by rw [hp.1]; exact hi)
    rw [hij] at this; simpa using this.symm
  rw [hpi, Int.toNat_natCast] at this
  have h3 := congrArg (fun t => t[0]?) this
  simpa [tup_getElem?] using h3

/-- a permutation which keeps the order of the elements with the same key gives the same elements for each key -/
theorem filter_moved {α κ : Type} [DecidableEq κ] {n : Nat} {p : List Int} (hp : IsPermArr n p) {l l' : List α} (hl : l.length = n) (hl' : l'.length = n)
    (e : ∀ i j : Nat, p[i]? = some (j : Int) → l'[j]? = l[i]?) (key : α → κ)
    (hs : ∀ (i j : Nat) (a b : α) (x y : Int), i < j → l[i]? = some a → l[j]? = some b → key a = key b → p[i]? = some x → p[j]? = some y → x < y) (t : κ) :
    (l'.filter fun a => decide (key a = t)) = l.filter fun a => decide (key a = t) := by
  -- filtering through the positions
  have pos : ∀ l : List α, (l.filter fun a => decide (key a = t)) =
      ((List.range l.length).filter fun i => decide ((l[i]?).map key = some t)).filterMap fun i => l[i]? := by
    intro l
    induction l using List.reverseRecOn with
    | nil => rfl
    | append_singleton l a ih =>
      rw [List.filter_append, ih, List.length_append, List.length_singleton, List.range_succ, List.filter_append, List.filterMap_append]
      congr 1
      · have h1 : ((List.range l.length).filter fun i => decide ((l[i]?).map key = some t)) =
            (List.range l.length).filter fun i => decide (((l ++ [a])[i]?).map key = some t) :=
          List.filter_congr fun i hi => by rw [List.getElem?_append_left (List.mem_range.mp hi)]
        rw [h1]
        refine List.filterMap_congr fun i hi => ?_
        rw [List.getElem?_append_left (List.mem_range.mp (List.mem_of_mem_filter hi))]
      · have hla : (l ++ [a])[l.length]? = some a := by simp
        by_cases hk : key a = t
        · rw [List.filter_cons, if_pos (by simpa using hk), List.filter_cons, if_pos (by rw [hla]; simpa using hk)]
          simp
        · rw [List.filter_cons, if_neg (by simpa using hk), List.filter_cons, if_neg (by rw [hla]; simpa using hk)]
          simp
  rw [pos l', pos l, hl, hl']
  set I := (List.range n).filter fun i => decide ((l[i]?).map key = some t) with hI
  set J := (List.range n).filter fun i => decide ((l'[i]?).map key = some t) with hJ
  have hget : ∀ i ∈ I, ∃ j : Nat, p[i]? = some (j : Int) := fun i hi => by
    have hi := List.mem_range.mp (List.mem_of_mem_filter hi)
    have hip : i < p.length := by rw [hp.1]; exact hi
    have := hp.2.1 _ (List.getElem_mem hip)
    exact ⟨p[i].toNat, by rw [List.getElem?_eq_getElem hip]; congr 1; omega⟩
  have hJI : J = I.map fun i => ((p[i]?).getD 0).toNat := by
    refine List.Perm.eq_of_pairwise (le := (· < ·)) (fun a b _ _ h1 h2 => by omega) (List.pairwise_lt_range.filter _) ?_ ?_
    · rw [List.pairwise_map]
      have : I.Pairwise (· < ·) := List.pairwise_lt_range.filter _
      refine this.imp_of_mem fun {a b} ha hb hab => ?_
      obtain ⟨x, hx⟩ := hget a ha
      obtain ⟨y, hy⟩ := hget b hb
      obtain ⟨-, ha⟩ := List.mem_filter.mp ha
      obtain ⟨-, hb⟩ := List.mem_filter.mp hb
      rw [decide_eq_true_eq, Option.map_eq_some_iff] at ha hb
      obtain ⟨a', ha1, ha2⟩ := ha
      obtain ⟨b', hb1, hb2⟩ := hb
      have := hs a b a' b' x y hab ha1 hb1 (by rw [ha2, hb2]) hx hy
      rw [hx, hy]
      simpa using this
    · refine (List.perm_ext_iff_of_nodup ((List.nodup_range).filter _) ?_).mpr fun j => ?_
      · refine ((List.nodup_range (n := n)).filter _).map_on fun a ha b hb hab => ?_
        obtain ⟨x, hx⟩ := hget a ha
        obtain ⟨y, hy⟩ := hget b hb
        rw [hx, hy] at hab
        have : x = y := by simpa using hab
        subst this
        exact hp.inj hx hy
      · rw [List.mem_map]
        constructor
        · intro hj
          obtain ⟨hj1, hj2⟩ := List.mem_filter.mp hj
          obtain ⟨i, hi, hij⟩ := hp.surj (List.mem_range.mp hj1)
          refine ⟨i, List.mem_filter.mpr ⟨List.mem_range.mpr hi, by rw [← e i j hij]; exact hj2⟩, by rw [hij]; simp⟩
        · rintro ⟨i, hi, rfl⟩
          obtain ⟨x, hx⟩ := hget i hi
          obtain ⟨-, hi2⟩ := List.mem_filter.mp hi
          rw [hx, Option.getD_some, Int.toNat_natCast]
          refine List.mem_filter.mpr ⟨List.mem_range.mpr ?_, by rw [e i x hx]; exact hi2⟩
          have := hp.2.1 _ (List.mem_of_getElem? hx)
          omega
  rw [hJI, List.filterMap_map]
  refine List.filterMap_congr fun i hi => ?_
  obtain ⟨x, hx⟩ := hget i hi
  simp only [Function.comp]
  rw [hx, Option.getD_some, Int.toNat_natCast, e i x hx]

/-! ## The chunks of the meshes -/

/-- a mesh holds a chunk -/
def HoldsChunk (coords : Nat) (dim : Int) (m : SMesh) (g : Nat × List Cell) : Prop := m.coords = coords ∧ m.dim = dim ∧ IsMesh m.conn m.connI g.2

theorem chunk_fold {dim : Int} (hd : dim ≠ -1) (coords k : Nat) : ∀ (sp : List (List Int × List Int)) (gs : List (List Cell)),
    List.Forall₂ (fun (m : List Int × List Int) (cs : List Cell) => IsMesh m.1 m.2 cs) sp gs → (∀ g ∈ gs, g ≠ []) →
    ∀ s : List SMesh × List SMesh × List Int × List Int, ∃ full single : List SMesh,
      sp.foldlM (fun (s : List SMesh × List SMesh × List Int × List Int) (m : List Int × List Int) => do
        let single ← buildPartOfMySelfKeep dim m.1 m.2 [0]
        (.ok (s.1 ++ [SMesh.mk dim coords m.1 m.2], s.2.1 ++ [SMesh.mk dim coords single.1 single.2], s.2.2.1 ++ [(m.2.length : Int) - 1],
          s.2.2.2 ++ [(k : Int)]) : M (List SMesh × List SMesh × List Int × List Int))) s = .ok (s.1 ++ full, s.2.1 ++ single, s.2.2.1 ++ gs.map (fun g : List Cell => (g.length : Int)), s.2.2.2 ++ gs.map fun _ => (k : Int)) ∧
      List.Forall₂ (HoldsChunk coords dim) full (gs.map fun g => (k, g)) ∧
      List.Forall₂ (HoldsChunk coords dim) single (gs.map fun g => (k, g.take 1)) := by
  intro sp gs h
  induction h with
  | nil => intro _ s; exact ⟨[], [], by simp; rfl, List.Forall₂.nil, List.Forall₂.nil⟩
  | cons h1 h2 ih =>
    rename_i m g sp gs
    intro hne s
    have hg := hne g List.mem_cons_self
    obtain ⟨c, g', rfl⟩ := List.exists_cons_of_ne_nil hg
    obtain ⟨c', i', e1, e2⟩ := buildPartKeep_spec (skin := [c]) (ids := [0]) hd h1 (List.Forall₂.cons ⟨0, rfl, rfl⟩ List.Forall₂.nil)
    rw [List.foldlM_cons, e1, ok_bind, ok_bind]
    obtain ⟨full, single, f1, f2, f3⟩ := ih (fun x hx => hne x (List.mem_cons_of_mem _ hx))
      (s.1 ++ [⟨dim, coords, m.1, m.2⟩], s.2.1 ++ [⟨dim, coords, c', i'⟩], s.2.2.1 ++ [(m.2.length : Int) - 1], s.2.2.2 ++ [(k : Int)])
    refine ⟨⟨dim, coords, m.1, m.2⟩ :: full, ⟨dim, coords, c', i'⟩ :: single, ?_, List.Forall₂.cons ⟨rfl, rfl, h1⟩ f2, List.Forall₂.cons ⟨rfl, rfl, e2⟩ f3⟩
    rw [f1]
    have hl : (m.2.length : Int) - 1 = ((c :: g').length : Int) := by rw [h1.length]; push_cast; omega
    simp [hl]

theorem chunks_fold {dim : Int} (hd : dim ≠ -1) (coords : Nat) : ∀ (ms : List SMesh) (cells : List (List Cell)) (css : List (List (List Cell))) (k : Nat)
    (s : List SMesh × List SMesh × List Int × List Int),
    List.Forall₂ (fun (m : SMesh) cs => IsMesh m.conn m.connI cs) ms cells → (∀ m ∈ ms, m.coords = coords ∧ m.dim = dim) →
    List.Forall₂ IsTypeSplit cells css → ∃ full single : List SMesh,
      (ms.zipIdx k).foldlM (aggregateStep coords dim) s = .ok (s.1 ++ full, s.2.1 ++ single,
        s.2.2.1 ++ (chunksFrom k css).map (fun g => (g.2.length : Int)), s.2.2.2 ++ (chunksFrom k css).map fun g => (g.1 : Int)) ∧
      List.Forall₂ (HoldsChunk coords dim) full (chunksFrom k css) ∧
      List.Forall₂ (HoldsChunk coords dim) single ((chunksFrom k css).map fun g => (g.1, g.2.take 1)) := by
  intro ms
  induction ms with
  | nil =>
    intro cells css k s h1 _ h2
    cases h1
    cases h2
    exact ⟨[], [], by simp [chunksFrom]; rfl, List.Forall₂.nil, List.Forall₂.nil⟩
  | cons m ms ih =>
    intro cells css k s h1 hsame h2
    cases h1 with
    | cons a1 a2 =>
    cases h2 with
    | cons b1 b2 =>
    rename_i cs cells gs css
    obtain ⟨m1, m2⟩ := hsame m List.mem_cons_self
    obtain ⟨sp, gs', p1, p2, p3⟩ := C74_splitByType hd a1
    have := p2.unique b1
    subst this
    obtain ⟨full1, single1, f1, f2, f3⟩ := chunk_fold hd coords k sp gs' p3 (fun g hg => (p2.2.1 g hg).1) s
    obtain ⟨full2, single2, g1, g2, g3⟩ := ih cells css (k + 1) _ a2 (fun x hx => hsame x (List.mem_cons_of_mem _ hx)) b2
    refine ⟨full1 ++ full2, single1 ++ single2, ?_, List.rel_append f2 g2, ?_⟩
    · rw [List.zipIdx_cons, List.foldlM_cons]
      have hstep : aggregateStep coords dim s (m, k) = .ok (s.1 ++ full1, s.2.1 ++ single1, s.2.2.1 ++ gs'.map (fun g => (g.length : Int)),
          s.2.2.2 ++ gs'.map fun _ => (k : Int)) := by
        unfold aggregateStep
        simp only
        rw [if_neg (by simp [m2]), if_neg (by simp [m1]), m2, p1, ok_bind]
        exact f1
      rw [hstep, ok_bind, g1]
      simp [chunksFrom, Function.comp_def]
    · rw [chunksFrom, List.map_append, List.map_map]
      exact List.rel_append f3 g3

theorem chunksFrom_split {cells : List (List Cell)} {css : List (List (List Cell))} (h : List.Forall₂ IsTypeSplit cells css) (k : Nat) :
    ∀ g ∈ chunksFrom k css, g.2 ≠ [] ∧ (∀ c ∈ g.2, ∀ d ∈ g.2, c.type = d.type) ∧ ∀ c ∈ g.2, ∃ cs ∈ cells, c ∈ cs := by
  induction h generalizing k with
  | nil => simp [chunksFrom]
  | cons h1 h2 ih =>
    intro g hg
    rw [chunksFrom] at hg
    rcases List.mem_append.mp hg with hg | hg
    · obtain ⟨x, hx, rfl⟩ := List.mem_map.mp hg
      obtain ⟨a, b⟩ := h1.2.1 x hx
      refine ⟨a, b, fun c hc => ⟨_, List.mem_cons_self, ?_⟩⟩
      rw [← h1.1]
      exact List.mem_flatten.mpr ⟨x, hx, hc⟩
    · obtain ⟨a, b, c⟩ := ih (k + 1) g hg
      refine ⟨a, b, fun x hx => ?_⟩
      obtain ⟨cs, h3, h4⟩ := c x hx
      exact ⟨cs, List.mem_cons_of_mem _ h3, h4⟩

/-- **C74.** `AggregateSortedByTypeMeshesOnSameCoords(ms)`: the blocks of cells of the same type of the meshes are put in the order of the
types of MED files, the blocks of the same type staying in the order of the meshes; the returned mesh is made of these blocks, and the two
arrays are the sizes of the blocks and the numbers of the meshes they come from. -/
theorem C74_aggregate {ms : List SMesh} {cells : List (List Cell)} {css : List (List (List Cell))} {coords : Nat} {dim : Int}
    (hm : List.Forall₂ (fun (m : SMesh) cs => IsMesh m.conn m.connI cs) ms cells) (hsame : ∀ m ∈ ms, m.coords = coords ∧ m.dim = dim)
    (hd : dim ≠ -1) (hd2 : dim ≠ -2) (hcss : List.Forall₂ IsTypeSplit cells css) (hne : ∃ cs ∈ cells, cs ≠ [])
    (htypes : ∀ cs ∈ cells, ∀ c ∈ cs, c.type ∈ medmemOrder) :
    ∃ (conn connI : List Int) (chunks : List (Nat × List Cell)),
      aggregateSortedByType ms = .ok ((conn.map some, connI.map some), (chunks.map fun g => (g.2.length : Int)).map some,
        (chunks.map fun g => (g.1 : Int)).map some) ∧
      IsMesh conn connI (chunks.flatMap Prod.snd) ∧
      chunks.Pairwise (fun g h => ∀ c ∈ g.2, ∀ d ∈ h.2, medmemOrder.idxOf c.type ≤ medmemOrder.idxOf d.type) ∧
      (∀ t, (chunks.filter fun g => decide (chunkType g = t)) = (chunksFrom 0 css).filter fun g => decide (chunkType g = t)) ∧
      checkConsecutiveCellTypesForMEDFileFrmt conn connI = .ok true := by
  obtain ⟨m0, mt, rfl⟩ : ∃ m0 mt, ms = m0 :: mt := by
    cases ms with
    | nil => cases hm; obtain ⟨cs, h, -⟩ := hne; simp at h
    | cons a b => exact ⟨a, b, rfl⟩
  obtain ⟨full, single, f1, f2, f3⟩ := chunks_fold hd coords (m0 :: mt) cells css 0 ([], [], [], []) hm hsame hcss
  simp only [List.nil_append] at f1
  set C := chunksFrom 0 css with hC
  have hCs := chunksFrom_split hcss 0
  rw [← hC] at hCs
  have hCne : C ≠ [] := by
    obtain ⟨cs, hcs, hne⟩ := hne
    obtain ⟨gs, hgs, hsp⟩ := forall₂_mem_left hcss hcs
    have hgne : gs ≠ [] := by rintro rfl; exact hne hsp.1.symm
    have : ∀ (k : Nat) (css : List (List (List Cell))), gs ∈ css → chunksFrom k css ≠ [] := by
      intro k css
      induction css generalizing k with
      | nil => simp
      | cons x css ih =>
        intro h
        rw [chunksFrom]
        rcases List.mem_cons.mp h with rfl | h
        · simp [hgne]
        · simp [ih (k + 1) h]
    exact this 0 css hgs
  have hfl : full.length = C.length := f2.length_eq
  have hsl : single.length = C.length := by rw [f3.length_eq]; simp
  -- the mesh with one cell per chunk
  have hs1 : List.Forall₂ (fun (m : SMesh) cs => IsMesh m.conn m.connI cs) single (C.map fun g => g.2.take 1) := by
    rw [List.forall₂_map_right_iff] at f3 ⊢
    exact f3.imp fun _ _ h => h.2.2
  have hs2 : ∀ m ∈ single, m.coords = coords ∧ m.dim = dim := fun m hm => by
    obtain ⟨g, -, h⟩ := forall₂_mem_left f3 hm
    exact ⟨h.1, h.2.1⟩
  obtain ⟨sc, si, s1, s2⟩ := (C60_mergeSameCoords single _ coords dim (by
    intro e; rw [e] at hsl; exact hCne (List.length_eq_zero_iff.mp hsl.symm)) hs1).1 hs2 hd2
  have hheads : ∀ g ∈ C, ∃ c, g.2.head? = some c ∧ g.2.take 1 = [c] ∧ c ∈ g.2 := fun g hg => by
    obtain ⟨c, l, e⟩ := List.exists_cons_of_ne_nil (hCs g hg).1
    exact ⟨c, by rw [e]; rfl, by rw [e]; rfl, by rw [e]; exact List.mem_cons_self⟩
  have hSl : (C.map fun g => g.2.take 1).flatten.length = C.length := by
    rw [List.length_flatten, List.map_map]
    have : (C.map (List.length ∘ fun g => g.2.take 1)) = C.map fun _ => 1 := List.map_congr_left fun g hg => by
      obtain ⟨c, -, e, -⟩ := hheads g hg
      simp only [Function.comp, e]; rfl
    rw [this]; simp
  have hSget : ∀ (i : Nat) (g : Nat × List Cell), C[i]? = some g → ((C.map fun g => g.2.take 1).flatten)[i]? = g.2.head? := by
    have : ∀ (C : List (Nat × List Cell)), (∀ g ∈ C, g.2 ≠ []) → ∀ (i : Nat) (g : Nat × List Cell), C[i]? = some g →
        ((C.map fun g => g.2.take 1).flatten)[i]? = g.2.head? := by
      intro C
      induction C with
      | nil => intro _ i g h; simp at h
      | cons x C ih =>
        intro hx i g h
        obtain ⟨c, l, e⟩ := List.exists_cons_of_ne_nil (hx x List.mem_cons_self)
        have e1 : x.2.take 1 = [c] := by rw [e]; rfl
        rw [List.map_cons, List.flatten_cons, e1]
        rcases i with _ | i
        · have : x = g := by simpa using h
          subst this
          simp [e]
        · simpa using ih (fun g hg => hx g (List.mem_cons_of_mem _ hg)) i g (by simpa using h)
    exact this C fun g hg => (hCs g hg).1
  have hSt : ∀ c ∈ (C.map fun g => g.2.take 1).flatten, c.type ∈ medmemOrder := fun c hc => by
    obtain ⟨x, hx, hc⟩ := List.mem_flatten.mp hc
    obtain ⟨g, hg, rfl⟩ := List.mem_map.mp hx
    obtain ⟨cs, h3, h4⟩ := (hCs g hg).2.2 c (List.mem_of_mem_take hc)
    exact htypes cs h3 c h4
  obtain ⟨o2n, c', i', S', r1, r2, r3, r4, r5, r6, -, r8⟩ := (C72_renum_array s2 medmemOrder).1 hSt
  rw [hSl] at r2
  obtain ⟨C', l1, l2⟩ := r2.moved (l := C) rfl
  obtain ⟨full', l3, l4⟩ := r2.moved (l := full) hfl
  -- the final mesh
  have hfull' : List.Forall₂ (HoldsChunk coords dim) full' C' := by
    rw [List.forall₂_iff_get]
    refine ⟨by omega, fun j h1 h2 => ?_⟩
    obtain ⟨i, hi, hij⟩ := r2.surj (j := j) (by omega)
    have e1 := l2 i j hij
    have e2 := l4 i j hij
    rw [List.getElem?_eq_getElem (by omega), List.getElem?_eq_getElem (by omega), Option.some.injEq] at e1 e2
    simp only [List.get_eq_getElem]
    rw [e1, e2]
    exact (List.forall₂_iff_get.mp f2).2 i (by omega) (by omega)
  have hf1 : List.Forall₂ (fun (m : SMesh) cs => IsMesh m.conn m.connI cs) full' (C'.map Prod.snd) := by
    rw [List.forall₂_map_right_iff]
    exact hfull'.imp fun _ _ h => h.2.2
  have hf2 : ∀ m ∈ full', m.coords = coords ∧ m.dim = dim := fun m hm => by
    obtain ⟨g, -, h⟩ := forall₂_mem_left hfull' hm
    exact ⟨h.1, h.2.1⟩
  have hCl : 0 < C.length := List.length_pos_of_ne_nil hCne
  obtain ⟨fc, fi, q1, q2⟩ := (C60_mergeSameCoords full' _ coords dim (by intro e; rw [e] at l3; simp at l3; omega) hf1).1 hf2 hd2
  rw [← List.flatMap_def] at q2
  have hmem' : ∀ g ∈ C', g ∈ C := fun g hg => by
    obtain ⟨j, hj, rfl⟩ := List.getElem_of_mem hg
    obtain ⟨i, hi, hij⟩ := r2.surj (j := j) (by omega)
    have e1 := l2 i j hij
    rw [List.getElem?_eq_getElem hj] at e1
    exact List.mem_of_getElem? e1.symm
  have hpw : C'.Pairwise (fun g h => ∀ c ∈ g.2, ∀ d ∈ h.2, medmemOrder.idxOf c.type ≤ medmemOrder.idxOf d.type) := by
    rw [List.pairwise_iff_getElem]
    intro j k hj hk hjk c hc d hd
    obtain ⟨i1, hi1, e1⟩ := r2.surj (j := j) (by omega)
    obtain ⟨i2, hi2, e2⟩ := r2.surj (j := k) (by omega)
    have a1 := l2 i1 j e1
    have a2 := l2 i2 k e2
    rw [List.getElem?_eq_getElem hj] at a1
    rw [List.getElem?_eq_getElem hk] at a2
    have b1 := (r5 i1 j e1).trans (hSget i1 _ a1.symm)
    have b2 := (r5 i2 k e2).trans (hSget i2 _ a2.symm)
    obtain ⟨x, x1, -, x2⟩ := hheads _ (hmem' _ (List.getElem_mem hj))
    obtain ⟨y, y1, -, y2⟩ := hheads _ (hmem' _ (List.getElem_mem hk))
    rw [x1] at b1
    rw [y1] at b2
    obtain ⟨hj', b1⟩ := List.getElem?_eq_some_iff.mp b1
    obtain ⟨hk', b2⟩ := List.getElem?_eq_some_iff.mp b2
    rw [List.pairwise_map, List.pairwise_iff_getElem] at r6
    have := r6 j k hj' hk' hjk
    rw [b1, b2] at this
    rw [(hCs _ (hmem' _ (List.getElem_mem hj))).2.1 c hc x x2, (hCs _ (hmem' _ (List.getElem_mem hk))).2.1 d hd y y2]
    exact this
  refine ⟨fc, fi, C', ?_, q2, hpw, fun t => ?_, ?_⟩
  · unfold aggregateSortedByType
    simp only
    rw [(hsame m0 List.mem_cons_self).1, (hsame m0 List.mem_cons_self).2, f1, ok_bind]
    simp only
    rw [s1, ok_bind]
    simp only
    rw [initialised_map_some, ok_bind, initialised_map_some, ok_bind]
    unfold sortCellsInMEDFileFrmt
    rw [r1, ok_bind, r3, ok_bind, ok_bind]
    simp only
    rw [hfl, move_loop r2 hfl l3 l4, ok_bind, definite_map_some, ok_bind, q1, ok_bind]
    rw [renumber_moved r2 (by simp) (l' := C'.map fun g => (g.2.length : Int)) (by simpa using l1) (IsPermArr.moved_map l2 _), ok_bind,
      renumber_moved r2 (by simp) (l' := C'.map fun g => (g.1 : Int)) (by simpa using l1) (IsPermArr.moved_map l2 _), ok_bind]
  · refine filter_moved r2 rfl l1 l2 chunkType (fun i j a b x y hij ha hb hk hx hy => ?_) t
    have e1 := hSget i a ha
    have e2 := hSget j b hb
    obtain ⟨c, c1, -, -⟩ := hheads a (List.mem_of_getElem? ha)
    obtain ⟨d, d1, -, -⟩ := hheads b (List.mem_of_getElem? hb)
    rw [c1] at e1
    rw [d1] at e2
    refine r8 i j c d x y hij e1 e2 ?_ hx hy
    unfold chunkType at hk
    rw [c1, d1] at hk
    simpa using hk
  · have hpw2 : ((C'.flatMap Prod.snd).map Cell.type).Pairwise (fun t u => medmemOrder.idxOf t ≤ medmemOrder.idxOf u) := by
      rw [List.pairwise_map, List.pairwise_flatMap]
      refine ⟨fun g hg => ?_, hpw⟩
      rw [List.pairwise_iff_getElem]
      intro i j hi hj hij
      rw [(hCs g (hmem' g hg)).2.1 _ (List.getElem_mem hi) _ (List.getElem_mem hj)]
    obtain ⟨T, t1, t2⟩ := sorted_of_ranks (order := medmemOrder) (fun t ht => by
      obtain ⟨c, hc, rfl⟩ := List.mem_map.mp ht
      obtain ⟨g, hg, hc⟩ := List.mem_flatMap.mp hc
      obtain ⟨cs, h3, h4⟩ := (hCs g (hmem' g hg)).2.2 c hc
      exact htypes cs h3 c h4) hpw2
    obtain ⟨r, e1, e2⟩ := C71_order q2 medmemOrder
    unfold checkConsecutiveCellTypesForMEDFileFrmt
    rw [e1, e2.mpr ⟨T, t1, t2.filter _⟩]

set_option maxRecDepth 40000 in
/-- two meshes: three triangles then a quadrangle, a triangle then a quadrangle -/
example : aggregateSortedByType [⟨2, 7, [3, 0, 1, 2, 3, 1, 2, 3, 4, 0, 1, 2, 3], [0, 4, 8, 13]⟩, ⟨2, 7, [3, 4, 5, 6, 4, 4, 5, 6, 7], [0, 4, 9]⟩] =
    .ok (([3, 0, 1, 2, 3, 1, 2, 3, 3, 4, 5, 6, 4, 0, 1, 2, 3, 4, 4, 5, 6, 7].map some, [0, 4, 8, 12, 17, 22].map some), [2, 1, 1, 1].map some,
      [0, 1, 0, 1].map some) ∧
    IsTypeSplit [⟨3, [0, 1, 2]⟩, ⟨3, [1, 2, 3]⟩, ⟨4, [0, 1, 2, 3]⟩] [[⟨3, [0, 1, 2]⟩, ⟨3, [1, 2, 3]⟩], [⟨4, [0, 1, 2, 3]⟩]] :=
  ⟨by decide, by decide, by decide, by simp⟩

/-- **C74.** No mesh, a mesh on other coordinates or of another dimension: an exception is thrown. -/
theorem C74_aggregate_throws : aggregateSortedByType [] = .error .exn ∧
    ∀ (m : SMesh) (cs : List Cell) (m' : SMesh) (ms : List SMesh), IsMesh m.conn m.connI cs → m.dim ≠ -1 → m'.coords ≠ m.coords ∨ m'.dim ≠ m.dim →
      aggregateSortedByType (m :: m' :: ms) = .error .exn := by
  refine ⟨rfl, fun m cs m' ms hm hd hdiff => ?_⟩
  obtain ⟨full, single, f1, -, -⟩ := chunks_fold hd m.coords [m] [cs] [_] 0 ([], [], [], []) (List.Forall₂.cons hm List.Forall₂.nil)
    (by simp) (List.Forall₂.cons (isTypeSplit_blocks cs) List.Forall₂.nil)
  unfold aggregateSortedByType
  simp only
  rw [List.zipIdx_cons, List.foldlM_cons]
  rw [List.zipIdx_cons, List.foldlM_cons] at f1
  cases hs : aggregateStep m.coords m.dim ([], [], [], []) (m, 0) with
  | error e => rw [hs] at f1; cases f1
  | ok s =>
    rw [ok_bind, List.zipIdx_cons, List.foldlM_cons]
    have : aggregateStep m.coords m.dim s (m', 0 + 1) = .error .exn := by
      unfold aggregateStep
      simp only
      by_cases h : m.dim ≠ m'.dim
      · rw [if_pos h]; rfl
      · rw [if_neg h, if_pos]
        · rfl
        · exact fun e => (hdiff.resolve_right fun e2 => h fun e3 => e2 e3.symm) e.symm
    rw [this]; rfl

end
end MC
