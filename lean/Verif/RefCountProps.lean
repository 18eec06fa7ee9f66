import Verif.RefCount
import Mathlib.Tactic.ByContra

/-!
# Reference counting and the smart pointer `MCAuto` (C26) – proofs
-/

namespace MC

/-! ## What is claimed -/

/-- The number of `MCAuto` members, of objects in existence, that point to `o`. -/
def fieldRefs (objs : List RObj) (o : Nat) : Nat := (objs.map fun ob => if ob.alive then ob.fields.count (some o) else 0).sum

/-- The number of owners of object `o`: smart pointer variables, smart pointer members, raw references. -/
def owners (s : RState) (o : Nat) : Nat := s.vars.count (some o) + s.raws.count o + fieldRefs s.objs o

/-- Every object in existence has an owner and its counter is the number of its owners; whatever has an owner exists. -/
structure Consistent (s : RState) : Prop where
  counter : ∀ o ob, s.objs[o]? = some ob → ob.alive = true → ob.cnt = (owners s o : Int) ∧ 0 < owners s o
  exist : ∀ o, 0 < owners s o → ∃ ob, s.objs[o]? = some ob ∧ ob.alive = true

/-- Somebody other than the smart pointer at `dst`, and not inside an object, owns `o`. -/
def HeldOutside (s : RState) (dst : PLoc) (o : Nat) : Prop := o ∈ s.raws ∨ ∃ j, s.vars[j]? = some (some o) ∧ dst ≠ .var j

/-- The smart pointer at `l` is there, and stays there whatever `dst` releases. -/
def LocOk (s : RState) (dst : PLoc) : PLoc → Prop
  | .var i => i < s.vars.length
  | .field a k => HeldOutside s dst a ∧ ∃ ob, s.objs[a]? = some ob ∧ k < ob.fields.length

/-- The smart pointer at `l` is there. -/
def Readable (s : RState) : PLoc → Prop
  | .var i => i < s.vars.length
  | .field a k => ∃ ob, s.objs[a]? = some ob ∧ ob.alive = true ∧ k < ob.fields.length

/-- The obligations of the caller of each operation. -/
def Legal (s : RState) : ROp → Prop
  | .new _ => True
  | .declRaw ptr => ∀ o, ptr = some o → o ∈ s.raws
  | .declCopy src => Readable s src
  | .endScope i => i < s.vars.length
  | .assign dst src => LocOk s dst dst ∧ LocOk s dst src
  | .assignRaw dst ptr => LocOk s dst dst ∧ ∀ o, ptr = some o → o ∈ s.raws
  | .takeRef dst ptr => LocOk s dst dst ∧ ∀ o, ptr = some o → HeldOutside s dst o
  | .nullify dst => LocOk s dst dst
  | .retn src => Readable s src
  | .incr o => ∃ ob, s.objs[o]? = some ob ∧ ob.alive = true
  | .decr o => o ∈ s.raws

/-- Every operation of the history is legal when its turn comes. -/
def LegalRun : RState → List ROp → Prop
  | _, [] => True
  | s, op :: l => Legal s op ∧ ∀ s', rstep s op = .ok s' → LegalRun s' l

/-! ## Sums over the heap -/

theorem mapIdx_sum_set {f : Nat → RObj → Nat} {l : List RObj} {o : Nat} {ob ob' : RObj} (h : l[o]? = some ob) :
    ((l.set o ob').mapIdx f).sum + f o ob = (l.mapIdx f).sum + f o ob' := by
  induction l generalizing f o with
  | nil => simp at h
  | cons a l ih =>
    cases o with
    | zero =>
      simp only [List.getElem?_cons_zero, Option.some.injEq] at h
      subst h
      simp only [List.set_cons_zero, List.mapIdx_cons, List.sum_cons]
      omega
    | succ o =>
      simp only [List.getElem?_cons_succ] at h
      have := ih (f := fun i => f (i + 1)) h
      simp only [List.set_cons_succ, List.mapIdx_cons, List.sum_cons] at this ⊢
      omega

theorem mapIdx_sum_le {f : Nat → RObj → Nat} {l : List RObj} {o : Nat} {ob : RObj} (h : l[o]? = some ob) :
    f o ob ≤ (l.mapIdx f).sum := by
  induction l generalizing f o with
  | nil => simp at h
  | cons a l ih =>
    cases o with
    | zero =>
      simp only [List.getElem?_cons_zero, Option.some.injEq] at h
      subst h
      simp only [List.mapIdx_cons, List.sum_cons]
      omega
    | succ o =>
      simp only [List.getElem?_cons_succ] at h
      have := ih (f := fun i => f (i + 1)) h
      simp only [List.mapIdx_cons, List.sum_cons] at this ⊢
      omega

theorem mapIdx_sum_congr {f g : Nat → RObj → Nat} {l : List RObj} (h : ∀ i ob, l[i]? = some ob → f i ob = g i ob) :
    (l.mapIdx f).sum = (l.mapIdx g).sum := by
  congr 1
  apply List.ext_getElem?
  intro i
  simp only [List.getElem?_mapIdx]
  cases hi : l[i]? with
  | none => rfl
  | some ob => simp [h i ob hi]

theorem map_eq_mapIdx {f : RObj → Nat} {l : List RObj} : l.map f = l.mapIdx fun _ => f := by
  apply List.ext_getElem?
  intro i
  simp [List.getElem?_mapIdx]

theorem le_sum_of_mem_nat {l : List Nat} {x : Nat} (h : x ∈ l) : x ≤ l.sum := by
  induction l with
  | nil => simp at h
  | cons a l ih =>
    simp only [List.sum_cons]
    rcases List.mem_cons.mp h with rfl | h
    · omega
    · have := ih h; omega

theorem map_sum_pos {f : RObj → Nat} {l : List RObj} (h : 0 < (l.map f).sum) : ∃ (i : Nat) (ob : RObj), l[i]? = some ob ∧ 0 < f ob := by
  induction l with
  | nil => simp at h
  | cons a l ih =>
    simp only [List.map_cons, List.sum_cons] at h
    by_cases ha : 0 < f a
    · exact ⟨0, a, rfl, ha⟩
    · obtain ⟨i, ob, h1, h2⟩ := ih (by omega)
      exact ⟨i + 1, ob, by simpa using h1, h2⟩

/-- The members of object `i` but for the one in the hole. -/
def effFields (h : Option (Nat × Nat)) (i : Nat) (ob : RObj) : List (Option Nat) :=
  match h with
  | some (i', k) => if i' = i then ob.fields.set k none else ob.fields
  | none => ob.fields

/-- The summand of `refsH`. -/
def contrib (h : Option (Nat × Nat)) (o : Nat) (i : Nat) (ob : RObj) : Nat :=
  if ob.alive then (effFields h i ob).count (some o) else 0

/-- `fieldRefs`, not counting the member in the hole. -/
def refsH (h : Option (Nat × Nat)) (objs : List RObj) (o : Nat) : Nat := (objs.mapIdx (contrib h o)).sum

theorem fieldRefs_eq (objs : List RObj) (o : Nat) : fieldRefs objs o = refsH none objs o := by
  unfold fieldRefs refsH
  rw [map_eq_mapIdx]
  rfl

theorem count_set {l : List (Option Nat)} {k : Nat} {p q : Option Nat} (x : Option Nat) (h : l[k]? = some p) :
    (l.set k q).count x + (if p = x then 1 else 0) = l.count x + (if q = x then 1 else 0) := by
  induction l generalizing k with
  | nil => simp at h
  | cons a l ih =>
    cases k with
    | zero =>
      simp only [List.getElem?_cons_zero, Option.some.injEq] at h
      subst h
      simp only [List.set_cons_zero, List.count_cons, beq_iff_eq]
      omega
    | succ k =>
      simp only [List.getElem?_cons_succ] at h
      have := ih h
      simp only [List.set_cons_succ, List.count_cons]
      omega

theorem count_filterMap_id (l : List (Option Nat)) (x : Nat) : (l.filterMap id).count x = l.count (some x) := by
  induction l with
  | nil => rfl
  | cons a l ih =>
    cases a with
    | none => simp [ih]
    | some a => simp [List.count_cons, ih]

theorem length_filterMap_id_le (l : List (Option Nat)) : (l.filterMap id).length ≤ l.length := List.length_filterMap_le ..

/-! ## The cascade of destructions -/

/-- The invariant while some references are being given back: `ext` counts the owners outside of the heap, `w` the `decrRef` calls
still to come. -/
structure Pending (h : Option (Nat × Nat)) (ext : Nat → Nat) (w : List Nat) (objs : List RObj) : Prop where
  counter : ∀ o ob, objs[o]? = some ob → ob.alive = true →
    ob.cnt = ((ext o + refsH h objs o + w.count o : Nat) : Int) ∧ 0 < ext o + refsH h objs o + w.count o
  exist : ∀ o, 0 < ext o + refsH h objs o + w.count o → ∃ ob, objs[o]? = some ob ∧ ob.alive = true

/-- No object appears, moves, comes back or changes its members. -/
def OnlyDeaths (objs objs' : List RObj) : Prop :=
  objs'.length = objs.length ∧
    ∀ (i : Nat) (ob' : RObj), objs'[i]? = some ob' → ∃ ob : RObj, objs[i]? = some ob ∧ ob'.fields = ob.fields ∧ (ob'.alive = true → ob.alive = true)

theorem OnlyDeaths.refl (objs : List RObj) : OnlyDeaths objs objs := ⟨rfl, fun _ ob h => ⟨ob, h, rfl, id⟩⟩

theorem OnlyDeaths.trans {a b c : List RObj} (h1 : OnlyDeaths a b) (h2 : OnlyDeaths b c) : OnlyDeaths a c := by
  refine ⟨h2.1.trans h1.1, fun i ob hi => ?_⟩
  obtain ⟨ob1, e1, f1, g1⟩ := h2.2 i ob hi
  obtain ⟨ob2, e2, f2, g2⟩ := h1.2 i ob1 e1
  exact ⟨ob2, e2, f1.trans f2, g2 ∘ g1⟩

theorem OnlyDeaths.set {objs : List RObj} {o : Nat} {ob ob' : RObj} (h : objs[o]? = some ob) (hf : ob'.fields = ob.fields)
    (ha : ob.alive = true) : OnlyDeaths objs (objs.set o ob') := by
  refine ⟨by simp, fun i x hi => ?_⟩
  rw [List.getElem?_set] at hi
  split at hi
  · next e =>
    subst e
    split at hi
    · simp only [Option.some.injEq] at hi
      subst hi
      exact ⟨ob, h, hf, fun _ => ha⟩
    · simp at hi
  · exact ⟨x, hi, rfl, id⟩

theorem getElem?_set_some {objs : List RObj} {o : Nat} {ob ob' : RObj} (h : objs[o]? = some ob) (x : Nat) :
    (objs.set o ob')[x]? = if x = o then some ob' else objs[x]? := by
  have hlt : o < objs.length := by
    by_contra hc
    rw [List.getElem?_eq_none (by omega)] at h
    simp at h
  rw [List.getElem?_set]
  by_cases hx : o = x
  · simp [hx, hx ▸ hlt]
  · have hx' : ¬ x = o := fun e => hx e.symm
    simp [hx, hx']

theorem liveFields_set {objs : List RObj} {o : Nat} {ob ob' : RObj} (h : objs[o]? = some ob) :
    liveFields (objs.set o ob') + (if ob.alive then ob.fields.length else 0) =
      liveFields objs + (if ob'.alive then ob'.fields.length else 0) := by
  unfold liveFields
  rw [map_eq_mapIdx, map_eq_mapIdx]
  exact mapIdx_sum_set h

theorem refsH_set {h : Option (Nat × Nat)} {objs : List RObj} {o : Nat} {ob ob' : RObj} (hob : objs[o]? = some ob) (x : Nat) :
    refsH h (objs.set o ob') x + contrib h x o ob = refsH h objs x + contrib h x o ob' := mapIdx_sum_set hob

theorem releaseLoop_spec {h : Option (Nat × Nat)} {ext : Nat → Nat} (hole : ∀ i k, h = some (i, k) → 0 < ext i) :
    ∀ (fuel : Nat) (w : List Nat) (objs : List RObj), Pending h ext w objs → w.length + liveFields objs ≤ fuel →
      wp (releaseLoop fuel w objs) (fun objs' => Pending h ext [] objs' ∧ OnlyDeaths objs objs') False := by
  intro fuel
  induction fuel with
  | zero =>
    intro w objs hp hf
    have : w = [] := List.length_eq_zero_iff.mp (by omega)
    subst this
    exact ⟨hp, OnlyDeaths.refl _⟩
  | succ fuel ih =>
    intro w objs hp hf
    cases w with
    | nil => exact ⟨hp, OnlyDeaths.refl _⟩
    | cons o w =>
      obtain ⟨ob, hob, hal⟩ := hp.exist o (by simp [List.count_cons]; omega)
      obtain ⟨hc, hpos⟩ := hp.counter o ob hob hal
      have hcount : ∀ x, (o :: w).count x = w.count x + if x = o then 1 else 0 := by
        intro x
        rw [List.count_cons]
        by_cases hx : x = o
        · simp [hx]
        · have hx' : ¬ o = x := fun e => hx e.symm
          simp [hx, hx']
      simp only [releaseLoop, hob]
      rw [if_pos hal]
      by_cases hz : ob.cnt - 1 = 0
      · rw [if_pos hz]
        have htot : ext o + refsH h objs o + (o :: w).count o = 1 := by omega
        have hno : effFields h o ob = ob.fields := by
          unfold effFields
          cases h with
          | none => rfl
          | some p =>
            obtain ⟨i, k⟩ := p
            simp only
            rw [if_neg]
            rintro rfl
            have := hole i k rfl
            rw [hcount] at htot
            simp at htot
            omega
        have hrefs : ∀ x, refsH h (objs.set o { ob with cnt := 0, alive := false }) x + ob.fields.count (some x) = refsH h objs x := by
          intro x
          have := refsH_set (h := h) (ob' := { ob with cnt := 0, alive := false }) hob x
          simp only [contrib, hal, if_true, hno] at this
          simpa using this
        refine wp_mono (ih _ _ ⟨fun x y hy hya => ?_, fun x hx => ?_⟩ ?_)
          (fun objs' hh => ⟨hh.1, (OnlyDeaths.set (ob' := { ob with cnt := 0, alive := false }) hob rfl hal).trans hh.2⟩) id
        · rw [getElem?_set_some hob] at hy
          split at hy
          · simp only [Option.some.injEq] at hy
            subst hy
            simp at hya
          · next hxo =>
            have h1 := hp.counter x y hy hya
            have h2 := hrefs x
            have h3 := hcount x
            rw [if_neg hxo] at h3
            rw [List.count_append, count_filterMap_id]
            constructor
            · rw [h1.1]
              congr 1
              omega
            · omega
        · have h2 := hrefs x
          have h3 := hcount x
          rw [List.count_append, count_filterMap_id] at hx
          rw [getElem?_set_some hob]
          by_cases hxo : x = o
          · subst hxo
            rw [if_pos rfl] at h3
            omega
          · rw [if_neg hxo] at h3 ⊢
            exact hp.exist x (by omega)
        · have := liveFields_set (ob' := { ob with cnt := 0, alive := false }) hob
          simp only [hal, if_true] at this
          have hl := length_filterMap_id_le ob.fields
          simp only [List.length_append, List.length_cons] at hf ⊢
          simp at this
          omega
      · rw [if_neg hz]
        have hrefs : ∀ x, refsH h (objs.set o { ob with cnt := ob.cnt - 1 }) x = refsH h objs x := by
          intro x
          have := refsH_set (h := h) (ob' := { ob with cnt := ob.cnt - 1 }) hob x
          have e : contrib h x o { ob with cnt := ob.cnt - 1 } = contrib h x o ob := rfl
          rw [e] at this
          omega
        refine wp_mono (ih _ _ ⟨fun x y hy hya => ?_, fun x hx => ?_⟩ ?_)
          (fun objs' hh => ⟨hh.1, (OnlyDeaths.set (ob' := { ob with cnt := ob.cnt - 1 }) hob rfl hal).trans hh.2⟩) id
        · rw [hrefs]
          have h3 := hcount x
          rw [getElem?_set_some hob] at hy
          split at hy
          · next hxo =>
            simp only [Option.some.injEq] at hy
            subst hy
            subst hxo
            simp only [if_true] at h3
            simp only
            constructor
            · rw [hc]; omega
            · omega
          · next hxo =>
            have h1 := hp.counter x y hy hya
            rw [if_neg hxo] at h3
            rw [h3] at h1
            exact h1
        · rw [hrefs] at hx
          have h3 := hcount x
          rw [getElem?_set_some hob]
          by_cases hxo : x = o
          · rw [if_pos hxo]
            exact ⟨_, rfl, hal⟩
          · rw [if_neg hxo]
            exact hp.exist x (by omega)
        · have := liveFields_set (ob' := { ob with cnt := ob.cnt - 1 }) hob
          rw [if_pos hal] at this
          simp only [List.length_cons] at hf
          omega

/-! ## One smart pointer set apart -/

/-- The owners outside of the heap, not counting the smart pointer at `dst`. -/
def extOf (s : RState) : PLoc → Nat → Nat
  | .var i, o => (s.vars.set i none).count (some o) + s.raws.count o
  | .field _ _, o => s.vars.count (some o) + s.raws.count o

/-- The member at `dst`, if it is one. -/
def holeOf : PLoc → Option (Nat × Nat)
  | .var _ => none
  | .field a k => some (a, k)

theorem count_set_ge {l : List (Option Nat)} {i j : Nat} {o : Nat} (h : l[j]? = some (some o)) (hij : i ≠ j) :
    0 < (l.set i none).count (some o) := by
  rw [List.count_pos_iff]
  refine List.mem_of_getElem? (i := j) ?_
  rw [List.getElem?_set_ne hij]
  exact h

theorem HeldOutside.pos {s : RState} {dst : PLoc} {o : Nat} (h : HeldOutside s dst o) : 0 < extOf s dst o := by
  rcases h with h | ⟨j, hj, hne⟩
  · have := List.count_pos_iff.mpr h
    cases dst <;> simp only [extOf] <;> omega
  · cases dst with
    | var i =>
      have : i ≠ j := by rintro rfl; exact hne rfl
      have := count_set_ge hj this
      simp only [extOf]
      omega
    | field a k =>
      have : 0 < s.vars.count (some o) := List.count_pos_iff.mpr (List.mem_of_getElem? hj)
      simp only [extOf]
      omega

/-- The owners of an object, the smart pointer at `dst` counted apart. -/
theorem owners_split {s : RState} {dst : PLoc} {p : Option Nat} (h : readPtr s dst = .ok p) (x : Nat) :
    owners s x = extOf s dst x + refsH (holeOf dst) s.objs x + p.toList.count x := by
  have hp : p.toList.count x = if p = some x then 1 else 0 := by
    cases p with
    | none => simp
    | some o =>
      by_cases ho : o = x
      · simp [ho]
      · simp [ho]
  rw [hp]
  cases dst with
  | var i =>
    simp only [readPtr] at h
    cases hi : s.vars[i]? with
    | none => rw [hi] at h; simp [undef] at h
    | some q =>
      rw [hi] at h
      simp only [Except.ok.injEq] at h
      subst h
      have := count_set (q := none) (some x) hi
      simp only [reduceCtorEq, if_false] at this
      simp only [owners, extOf, holeOf, fieldRefs_eq]
      omega
  | field a k =>
    simp only [readPtr] at h
    cases ha : s.objs[a]? with
    | none => rw [ha] at h; simp [undef] at h
    | some ob =>
      rw [ha] at h
      simp only at h
      split at h
      · next hal =>
        cases hk : ob.fields[k]? with
        | none => rw [hk] at h; simp [undef] at h
        | some q =>
          rw [hk] at h
          simp only [Except.ok.injEq] at h
          subst h
          have h1 := count_set (q := none) (some x) hk
          simp only [reduceCtorEq, if_false] at h1
          have h2 : refsH (some (a, k)) s.objs x + (if q = some x then 1 else 0) = refsH none s.objs x := by
            have e1 := refsH_set (h := none) (ob' := { ob with fields := ob.fields.set k none }) ha x
            have e2 : refsH (some (a, k)) s.objs x = refsH none (s.objs.set a { ob with fields := ob.fields.set k none }) x := by
              unfold refsH
              congr 1
              apply List.ext_getElem?
              intro i
              simp only [List.getElem?_mapIdx, getElem?_set_some ha]
              by_cases hi : i = a
              · subst hi
                simp [ha, contrib, effFields]
              · rw [if_neg hi]
                cases s.objs[i]? with
                | none => rfl
                | some ob' =>
                  have hi' : ¬ a = i := fun e => hi e.symm
                  simp [contrib, effFields, hi']
            have c1 : contrib none x a ob = ob.fields.count (some x) := by simp [contrib, hal, effFields]
            have c2 : contrib none x a { ob with fields := ob.fields.set k none } = (ob.fields.set k none).count (some x) := by
              simp [contrib, hal, effFields]
            rw [c1, c2] at e1
            rw [e2]
            omega
          simp only [owners, extOf, holeOf, fieldRefs_eq]
          omega
      · simp [undef] at h

theorem Consistent.pending {s : RState} {dst : PLoc} {p : Option Nat} (hc : Consistent s) (h : readPtr s dst = .ok p) :
    Pending (holeOf dst) (extOf s dst) p.toList s.objs := by
  constructor
  · intro o ob ho ha
    have := hc.counter o ob ho ha
    rw [owners_split h] at this
    exact this
  · intro o ho
    rw [← owners_split h] at ho
    exact hc.exist o ho

/-- The smart pointer at `dst` is still there when the heap is `objs`. -/
def LocThere (s : RState) (objs : List RObj) : PLoc → Prop
  | .var i => i < s.vars.length
  | .field a k => ∃ ob, objs[a]? = some ob ∧ ob.alive = true ∧ k < ob.fields.length

/-- A heap with the same objects up to their members. -/
def SameCounters (objs objs' : List RObj) : Prop :=
  ∀ i : Nat, (objs'[i]?).map (fun ob : RObj => (ob.cnt, ob.alive)) = (objs[i]?).map (fun ob : RObj => (ob.cnt, ob.alive))

theorem readPtr_of_there {s : RState} {objs : List RObj} {dst : PLoc} (h : LocThere s objs dst) :
    ∃ q, readPtr { s with objs := objs } dst = .ok q := by
  cases dst with
  | var i =>
    have hi : i < s.vars.length := h
    refine ⟨s.vars[i], ?_⟩
    simp only [readPtr, List.getElem?_eq_getElem hi]
  | field a k =>
    obtain ⟨ob, h1, h2, h3⟩ := h
    refine ⟨ob.fields[k], ?_⟩
    simp only [readPtr, h1, h2, if_true, List.getElem?_eq_getElem h3]

theorem writePtr_spec {s : RState} {objs : List RObj} {dst : PLoc} (h : LocThere s objs dst) (q : Option Nat) :
    ∃ s', writePtr { s with objs := objs } q dst = .ok s' ∧ s'.raws = s.raws ∧ SameCounters objs s'.objs ∧
      readPtr s' dst = .ok q ∧
      (∀ l, l ≠ dst → readPtr s' l = readPtr { s with objs := objs } l) ∧
      ∀ x, owners s' x = extOf s dst x + refsH (holeOf dst) objs x + q.toList.count x := by
  have key : ∃ s', writePtr { s with objs := objs } q dst = .ok s' ∧ s'.raws = s.raws ∧ SameCounters objs s'.objs ∧
      readPtr s' dst = .ok q ∧
      (∀ l, l ≠ dst → readPtr s' l = readPtr { s with objs := objs } l) ∧
      (∀ x, extOf s' dst x = extOf s dst x) ∧ ∀ x, refsH (holeOf dst) s'.objs x = refsH (holeOf dst) objs x := by
    cases dst with
    | var i =>
      have hi : i < s.vars.length := h
      refine ⟨{ s with objs := objs, vars := s.vars.set i q }, by simp [writePtr, hi], rfl, fun _ => rfl, ?_, ?_, ?_, fun _ => rfl⟩
      · simp [readPtr, hi]
      · intro l hl
        cases l with
        | var j =>
          have : i ≠ j := by rintro rfl; exact hl rfl
          simp only [readPtr]
          rw [List.getElem?_set_ne this]
        | field a k => rfl
      · intro x
        simp only [extOf, List.set_set]
    | field a k =>
      obtain ⟨ob, h1, h2, h3⟩ := h
      refine ⟨{ s with objs := objs.set a { ob with fields := ob.fields.set k q } }, by simp [writePtr, h1, h2, h3], rfl, ?_, ?_, ?_,
        fun _ => rfl, ?_⟩
      · intro i
        simp only [getElem?_set_some h1]
        by_cases hi : i = a
        · subst hi
          simp [h1]
        · simp [hi]
      · simp only [readPtr, getElem?_set_some h1, if_true, h2]
        simp [h3]
      · intro l hl
        cases l with
        | var j => rfl
        | field a' k' =>
          simp only [readPtr, getElem?_set_some h1]
          by_cases ha : a' = a
          · subst ha
            have : k ≠ k' := by rintro rfl; exact hl rfl
            simp only [if_true, h1, h2]
            rw [List.getElem?_set_ne this]
          · simp [ha]
      · intro x
        have := refsH_set (h := some (a, k)) (ob' := { ob with fields := ob.fields.set k q }) h1 x
        have e : contrib (some (a, k)) x a { ob with fields := ob.fields.set k q } = contrib (some (a, k)) x a ob := by
          simp [contrib, effFields]
        rw [e] at this
        simp only [holeOf]
        omega
  obtain ⟨s', e1, e2, e3, e4, e5, e6, e7⟩ := key
  refine ⟨s', e1, e2, e3, e4, e5, fun x => ?_⟩
  rw [owners_split e4, e6, e7]

theorem SameCounters.get {objs objs' : List RObj} (h : SameCounters objs objs') {i : Nat} {ob' : RObj} (hi : objs'[i]? = some ob') :
    ∃ ob, objs[i]? = some ob ∧ ob.cnt = ob'.cnt ∧ ob.alive = ob'.alive := by
  have := h i
  rw [hi] at this
  cases ho : objs[i]? with
  | none => rw [ho] at this; simp at this
  | some ob =>
    rw [ho] at this
    simp only [Option.map_some, Option.some.injEq, Prod.mk.injEq] at this
    exact ⟨ob, rfl, this.1.symm, this.2.symm⟩

theorem SameCounters.symm {objs objs' : List RObj} (h : SameCounters objs objs') : SameCounters objs' objs := fun i => (h i).symm

/-- `destroyPtr` on the smart pointer at `dst`. -/
theorem destroyPtr_spec {s : RState} {dst : PLoc} {p : Option Nat} (hc : Consistent s) (h : readPtr s dst = .ok p)
    (hok : LocOk s dst dst) :
    wp (destroyPtr p s.objs) (fun objs' => Pending (holeOf dst) (extOf s dst) [] objs' ∧ OnlyDeaths s.objs objs' ∧
      (∀ l, LocOk s dst l → LocThere s objs' l ∧ (l ≠ dst → readPtr { s with objs := objs' } l = readPtr s l))) False := by
  have hp := hc.pending h
  have hole : ∀ i k, holeOf dst = some (i, k) → 0 < extOf s dst i := by
    intro i k hik
    cases dst with
    | var j => simp [holeOf] at hik
    | field a b =>
      simp only [holeOf, Option.some.injEq, Prod.mk.injEq] at hik
      obtain ⟨rfl, rfl⟩ := hik
      exact hok.1.pos
  have main : wp (destroyPtr p s.objs) (fun objs' => Pending (holeOf dst) (extOf s dst) [] objs' ∧ OnlyDeaths s.objs objs') False := by
    cases p with
    | none => exact ⟨hp, OnlyDeaths.refl _⟩
    | some o => exact releaseLoop_spec hole _ _ _ hp (by simp)
  refine wp_mono main (fun objs' hh => ⟨hh.1, hh.2, fun l hl => ?_⟩) id
  cases l with
  | var i => exact ⟨hl, fun _ => rfl⟩
  | field a k =>
    obtain ⟨ho, ob, h1, h2⟩ := hl
    have hpos := ho.pos
    obtain ⟨ob', h3, h4⟩ := hh.1.exist a (by omega)
    obtain ⟨ob2, h5, h6, h7⟩ := hh.2.2 a ob' h3
    rw [h1] at h5
    simp only [Option.some.injEq] at h5
    subst h5
    refine ⟨⟨ob', h3, h4, by rw [h6]; exact h2⟩, fun _ => ?_⟩
    simp only [readPtr, h3, h1, h4, h7 h4, if_true, h6]

/-- What remains when nothing is in flight any more. -/
theorem consistent_of_pending {s' : RState} {h : Option (Nat × Nat)} {ext : Nat → Nat} {objs : List RObj} (hp : Pending h ext [] objs)
    (hs : SameCounters objs s'.objs) (ho : ∀ x, owners s' x = ext x + refsH h objs x) : Consistent s' := by
  constructor
  · intro o ob hob hal
    obtain ⟨ob2, h1, h2, h3⟩ := hs.get hob
    have := hp.counter o ob2 h1 (by rw [h3]; exact hal)
    rw [ho, ← h2]
    simpa using this
  · intro o hpos
    rw [ho] at hpos
    obtain ⟨ob, h1, h2⟩ := hp.exist o (by simpa using hpos)
    obtain ⟨ob', h3, _, h4⟩ := hs.symm.get h1
    exact ⟨ob', h3, by rw [h4]; exact h2⟩

theorem fieldRefs_of_cnt {objs : List RObj} {o : Nat} {ob : RObj} {c : Int} (h : objs[o]? = some ob) (x : Nat) :
    fieldRefs (objs.set o { ob with cnt := c }) x = fieldRefs objs x := by
  rw [fieldRefs_eq, fieldRefs_eq]
  have := refsH_set (h := none) (ob' := { ob with cnt := c }) h x
  have e : contrib none x o { ob with cnt := c } = contrib none x o ob := rfl
  rw [e] at this
  omega

/-- One more owner `x` of the object `o` whose counter was incremented. -/
theorem consistent_incr {s' : RState} {o : Nat} {ob : RObj} {tot : Nat → Nat} (hob : s'.objs[o]? = some ob) (hal : ob.alive = true)
    (hcnt : ∀ x y, s'.objs[x]? = some y → y.alive = true → y.cnt = (tot x : Int) ∧ 0 < tot x)
    (hex : ∀ x, 0 < tot x → ∃ y, s'.objs[x]? = some y ∧ y.alive = true)
    (ho : ∀ x, owners s' x = tot x + if x = o then 1 else 0) :
    incrRef o s'.objs = .ok (s'.objs.set o { ob with cnt := ob.cnt + 1 }) ∧
      Consistent { s' with objs := s'.objs.set o { ob with cnt := ob.cnt + 1 } } := by
  refine ⟨by simp [incrRef, hob, hal], ?_⟩
  have how : ∀ x, owners { s' with objs := s'.objs.set o { ob with cnt := ob.cnt + 1 } } x = tot x + if x = o then 1 else 0 := by
    intro x
    rw [← ho]
    simp only [owners, fieldRefs_of_cnt hob]
  constructor
  · intro x y hy hya
    rw [how]
    simp only [getElem?_set_some hob] at hy
    split at hy
    · next hx =>
      simp only [Option.some.injEq] at hy
      subst hy hx
      have := hcnt x ob hob hal
      constructor
      · rw [this.1, if_pos rfl]; push_cast; rfl
      · omega
    · next hx =>
      have := hcnt x y hy hya
      rw [if_neg hx]
      exact this
  · intro x hx
    rw [how] at hx
    simp only [getElem?_set_some hob]
    by_cases hxo : x = o
    · rw [if_pos hxo]
      exact ⟨_, rfl, hal⟩
    · rw [if_neg hxo] at hx ⊢
      exact hex x hx

/-- `referPtr` once `destroyPtr` is done. -/
theorem referPtr_spec {s : RState} {dst : PLoc} {objs : List RObj} {q : Option Nat}
    (hp : Pending (holeOf dst) (extOf s dst) [] objs) (ht : LocThere s objs dst)
    (hq : ∀ o, q = some o → 0 < extOf s dst o + refsH (holeOf dst) objs o) :
    ∃ s', referPtr dst q { s with objs := objs } = .ok s' ∧ Consistent s' ∧ readPtr s' dst = .ok q ∧ s'.raws = s.raws ∧
      (∀ j, dst ≠ .var j → s'.vars[j]? = s.vars[j]?) := by
  obtain ⟨s1, e1, e2, e3, e4, e5, e6⟩ := writePtr_spec ht q
  have hv : ∀ j, dst ≠ .var j → s1.vars[j]? = s.vars[j]? := by
    intro j hj
    cases dst with
    | var i =>
      have : i ≠ j := by rintro rfl; exact hj rfl
      have hi : i < s.vars.length := ht
      simp only [writePtr, hi, if_true, Except.ok.injEq] at e1
      subst e1
      simp only
      rw [List.getElem?_set_ne this]
    | field a k =>
      obtain ⟨ob, h1, h2, h3⟩ := ht
      simp only [writePtr, h1, h2, h3, and_self, if_true, Except.ok.injEq] at e1
      subst e1
      rfl
  cases q with
  | none =>
    refine ⟨s1, by simp [referPtr, e1, ok_bind], ?_, e4, e2, hv⟩
    refine consistent_of_pending hp e3 ?_
    intro x
    simpa using e6 x
  | some o =>
    obtain ⟨ob, h1, h2⟩ := hp.exist o (by simpa using hq o rfl)
    obtain ⟨ob1, h3, h4, h5⟩ := e3.symm.get h1
    have hal : ob1.alive = true := by rw [h5]; exact h2
    obtain ⟨c1, c2⟩ := consistent_incr (s' := s1) (tot := fun x => extOf s dst x + refsH (holeOf dst) objs x) h3 hal
      (by
        intro x y hy hya
        obtain ⟨y2, g1, g2, g3⟩ := e3.get hy
        have := hp.counter x y2 g1 (by rw [g3]; exact hya)
        rw [← g2]
        simpa using this)
      (by
        intro x hx
        obtain ⟨y, g1, g2⟩ := hp.exist x (by simpa using hx)
        obtain ⟨y', g3, _, g4⟩ := e3.symm.get g1
        exact ⟨y', g3, by rw [g4]; exact g2⟩)
      (by
        intro x
        rw [e6]
        by_cases hxo : x = o
        · simp [hxo]
        · have hxo' : ¬ o = x := fun e => hxo e.symm
          simp [hxo, hxo'])
    refine ⟨_, by simp only [referPtr, e1, ok_bind, c1], c2, ?_, e2, hv⟩
    rw [← e4]
    cases dst with
    | var i => rfl
    | field a k =>
      simp only [readPtr, getElem?_set_some h3]
      by_cases ha : a = o
      · subst ha
        simp [h3]
      · simp [ha]

theorem LocOk.there {s : RState} {dst l : PLoc} (hc : Consistent s) (h : LocOk s dst l) : LocThere s s.objs l := by
  cases l with
  | var i => exact h
  | field a k =>
    obtain ⟨ho, ob, h1, h2⟩ := h
    have : 0 < owners s a := by
      rcases ho with h | ⟨j, hj, _⟩
      · have := List.count_pos_iff.mpr h
        simp only [owners]; omega
      · have : 0 < s.vars.count (some a) := List.count_pos_iff.mpr (List.mem_of_getElem? hj)
        simp only [owners]; omega
    obtain ⟨ob', h3, h4⟩ := hc.exist a this
    rw [h1] at h3
    simp only [Option.some.injEq] at h3
    subst h3
    exact ⟨ob, h1, h4, h2⟩

/-- Another smart pointer than `dst` keeps its object. -/
theorem other_owner_pos {s : RState} {objs : List RObj} {dst l : PLoc} {o : Nat} (hne : l ≠ dst)
    (h : readPtr { s with objs := objs } l = .ok (some o)) : 0 < extOf s dst o + refsH (holeOf dst) objs o := by
  cases l with
  | var j =>
    simp only [readPtr] at h
    have hj : s.vars[j]? = some (some o) := by
      cases hv : s.vars[j]? with
      | none => rw [hv] at h; simp [undef] at h
      | some q => rw [hv] at h; simpa using h
    have := HeldOutside.pos (s := s) (dst := dst) (o := o) (Or.inr ⟨j, hj, fun e => hne e.symm⟩)
    omega
  | field a k =>
    simp only [readPtr] at h
    cases ha : objs[a]? with
    | none => rw [ha] at h; simp [undef] at h
    | some ob =>
      rw [ha] at h
      simp only at h
      split at h
      · next hal =>
        have hk : ob.fields[k]? = some (some o) := by
          cases hv : ob.fields[k]? with
          | none => rw [hv] at h; simp [undef] at h
          | some q => rw [hv] at h; simpa using h
        have h1 : 0 < contrib (holeOf dst) o a ob := by
          have hmem : 0 < ob.fields.count (some o) := List.count_pos_iff.mpr (List.mem_of_getElem? hk)
          simp only [contrib, hal, if_true, effFields]
          cases dst with
          | var i => exact hmem
          | field a' k' =>
            simp only [holeOf]
            split
            · next e =>
              subst e
              exact count_set_ge hk (by rintro rfl; exact hne rfl)
            · exact hmem
        have h2 : contrib (holeOf dst) o a ob ≤ refsH (holeOf dst) objs o := mapIdx_sum_le ha
        omega
      · simp [undef] at h

/-- `a = b` between smart pointers: the target ends up with the pointer of the source, nothing else changes hands. -/
theorem C26_assign {s : RState} {dst src : PLoc} (hc : Consistent s) (hd : LocOk s dst dst) (hs : LocOk s dst src) :
    ∃ s', assignAuto dst src s = .ok s' ∧ Consistent s' ∧ readPtr s' dst = readPtr s src ∧ s'.raws = s.raws ∧
      ∀ j, dst ≠ .var j → s'.vars[j]? = s.vars[j]? := by
  obtain ⟨p, hp⟩ := readPtr_of_there (hd.there hc)
  obtain ⟨q, hq⟩ := readPtr_of_there (hs.there hc)
  have hp : readPtr s dst = .ok p := hp
  have hq : readPtr s src = .ok q := hq
  simp only [assignAuto, hp, hq, ok_bind]
  by_cases hpq : p = q
  · subst hpq
    rw [if_neg (by simp)]
    exact ⟨s, rfl, hc, hp, rfl, fun _ _ => rfl⟩
  · rw [if_pos hpq]
    have hne : src ≠ dst := by
      rintro rfl
      rw [hp] at hq
      simp only [Except.ok.injEq] at hq
      exact hpq hq
    obtain ⟨objs, e1, e2, _, e4⟩ := wp_exists (destroyPtr_spec hc hp hd)
    have e5 : readPtr { s with objs := objs } src = .ok q := by rw [(e4 src hs).2 hne, hq]
    obtain ⟨s', f1, f2, f3, f4, f5⟩ := referPtr_spec e2 (e4 dst hd).1 (q := q) (by
      rintro o rfl
      exact other_owner_pos hne e5)
    exact ⟨s', by simp only [e1, ok_bind, e5, f1], f2, f3, f4, f5⟩

/-- `takeRef`: the target ends up with `ptr` and shares it with its other owners. -/
theorem C26_takeRef {s : RState} {dst : PLoc} {ptr : Option Nat} (hc : Consistent s) (hd : LocOk s dst dst)
    (hs : ∀ o, ptr = some o → HeldOutside s dst o) :
    ∃ s', takeRef dst ptr s = .ok s' ∧ Consistent s' ∧ readPtr s' dst = .ok ptr ∧ s'.raws = s.raws ∧
      ∀ j, dst ≠ .var j → s'.vars[j]? = s.vars[j]? := by
  obtain ⟨p, hp⟩ := readPtr_of_there (hd.there hc)
  have hp : readPtr s dst = .ok p := hp
  simp only [takeRef, hp, ok_bind]
  by_cases hpq : p = ptr
  · subst hpq
    rw [if_neg (by simp)]
    exact ⟨s, rfl, hc, hp, rfl, fun _ _ => rfl⟩
  · rw [if_pos hpq]
    obtain ⟨objs, e1, e2, _, e4⟩ := wp_exists (destroyPtr_spec hc hp hd)
    obtain ⟨s', f1, f2, f3, f4, f5⟩ := referPtr_spec e2 (e4 dst hd).1 (q := ptr) (by
      intro o ho
      have := (hs o ho).pos
      omega)
    exact ⟨s', by simp only [e1, ok_bind, f1], f2, f3, f4, f5⟩

theorem count_erase_add {l : List Nat} {o : Nat} (h : o ∈ l) (x : Nat) : (l.erase o).count x + (if x = o then 1 else 0) = l.count x := by
  have hp := (List.perm_cons_erase h).count_eq x
  rw [List.count_cons] at hp
  by_cases hx : x = o
  · subst hx
    simp at hp ⊢
    omega
  · have hx' : ¬ o = x := fun e => hx e.symm
    simp [hx, hx'] at hp ⊢

/-- `a = ptr`: the target ends up with `ptr`; it takes the reference of the caller over – unless it had the same pointer already. -/
theorem C26_assignRaw {s : RState} {dst : PLoc} {ptr : Option Nat} (hc : Consistent s) (hd : LocOk s dst dst)
    (hs : ∀ o, ptr = some o → o ∈ s.raws) :
    ∃ s', assignRaw dst ptr s = .ok s' ∧ Consistent s' ∧ readPtr s' dst = .ok ptr ∧
      (readPtr s dst = .ok ptr → s'.raws = s.raws) ∧ (∀ o, ptr = some o → readPtr s dst ≠ .ok ptr → s'.raws = s.raws.erase o) := by
  obtain ⟨p, hp⟩ := readPtr_of_there (hd.there hc)
  have hp : readPtr s dst = .ok p := hp
  simp only [assignRaw, hp, ok_bind]
  by_cases hpq : p = ptr
  · subst hpq
    rw [if_neg (by simp)]
    exact ⟨s, rfl, hc, hp, fun _ => rfl, fun _ _ h => absurd rfl h⟩
  · rw [if_pos hpq]
    obtain ⟨objs, e1, e2, _, e4⟩ := wp_exists (destroyPtr_spec hc hp hd)
    obtain ⟨s1, f1, f2, f3, f4, f5, f6⟩ := writePtr_spec (e4 dst hd).1 ptr
    simp only [e1, ok_bind, f1]
    cases ptr with
    | none =>
      refine ⟨s1, rfl, consistent_of_pending e2 f3 (fun x => by simpa using f6 x), f4, fun _ => f2, fun _ h => by simp at h⟩
    | some o =>
      have hmem := hs o rfl
      refine ⟨_, rfl, consistent_of_pending e2 f3 (fun x => ?_), ?_, ?_, ?_⟩
      · have h1 := f6 x
        have h2 := count_erase_add hmem x
        have h3 : (some o).toList.count x = if x = o then 1 else 0 := by
          by_cases hx : x = o
          · simp [hx]
          · have hx' : ¬ o = x := fun e => hx e.symm
            simp [hx, hx']
        rw [h3] at h1
        simp only [owners] at h1 ⊢
        rw [f2] at h1 ⊢
        omega
      · rw [← f4]
        cases dst <;> rfl
      · intro h
        simp only [hp, Except.ok.injEq] at h
        exact absurd h hpq
      · intro o' h _
        simp only [Option.some.injEq] at h
        subst h
        simp only [f2]

/-- `nullify` (and leaving the scope): the smart pointer is null. -/
theorem C26_nullify {s : RState} {dst : PLoc} (hc : Consistent s) (hd : LocOk s dst dst) :
    ∃ s', nullifyPtr dst s = .ok s' ∧ Consistent s' ∧ readPtr s' dst = .ok none ∧ s'.raws = s.raws := by
  obtain ⟨p, hp⟩ := readPtr_of_there (hd.there hc)
  have hp : readPtr s dst = .ok p := hp
  simp only [nullifyPtr, hp, ok_bind]
  obtain ⟨objs, e1, e2, _, e4⟩ := wp_exists (destroyPtr_spec hc hp hd)
  obtain ⟨s1, f1, f2, f3, f4, f5, f6⟩ := writePtr_spec (e4 dst hd).1 none
  exact ⟨s1, by simp only [e1, ok_bind, f1], consistent_of_pending e2 f3 (fun x => by simpa using f6 x), f4, f2⟩

/-- Another raw reference to an object in existence. -/
theorem incr_consistent {s : RState} {o : Nat} {ob : RObj} (hc : Consistent s) (h1 : s.objs[o]? = some ob) (h2 : ob.alive = true) :
    ∃ objs, incrRef o s.objs = .ok objs ∧ Consistent { s with objs := objs, raws := o :: s.raws } := by
  obtain ⟨c1, c2⟩ := consistent_incr (s' := { s with raws := o :: s.raws }) (tot := owners s) h1 h2 hc.counter hc.exist (by
    intro x
    simp only [owners, List.count_cons]
    by_cases hx : x = o
    · simp [hx]; omega
    · have hx' : ¬ o = x := fun e => hx e.symm
      simp [hx, hx'])
  exact ⟨_, c1, c2⟩

theorem readable_read {s : RState} {l : PLoc} (h : Readable s l) : ∃ p, readPtr s l = .ok p := by
  refine readPtr_of_there (s := s) (objs := s.objs) ?_
  cases l <;> exact h

theorem readPtr_alive {s : RState} {l : PLoc} {o : Nat} (hc : Consistent s) (h : readPtr s l = .ok (some o)) :
    ∃ ob, s.objs[o]? = some ob ∧ ob.alive = true := by
  refine hc.exist o ?_
  rw [owners_split h]
  simp

/-- Each legal operation succeeds and keeps the counters right. -/
theorem rstep_consistent {s : RState} {op : ROp} (hc : Consistent s) (hl : Legal s op) :
    ∃ s', rstep s op = .ok s' ∧ Consistent s' := by
  cases op with
  | new n =>
    refine ⟨_, rfl, ?_⟩
    have hn : owners s s.objs.length = 0 := by
      by_contra h
      obtain ⟨ob, h1, _⟩ := hc.exist s.objs.length (by omega)
      simp at h1
    have ho : ∀ x, owners { s with objs := s.objs ++ [⟨1, true, List.replicate n none⟩], raws := s.objs.length :: s.raws } x =
        owners s x + if x = s.objs.length then 1 else 0 := by
      intro x
      have : (List.replicate n (none : Option Nat)).count (some x) = 0 := by simp [List.count_replicate]
      simp only [owners, fieldRefs, List.map_append, List.sum_append, List.map_cons, List.map_nil, List.sum_cons, List.sum_nil, if_true,
        this, List.count_cons]
      by_cases hx : x = s.objs.length
      · simp [hx]; omega
      · have hx' : ¬ s.objs.length = x := fun e => hx e.symm
        simp [hx, hx']
    have hget : ∀ x, (s.objs ++ [(⟨1, true, List.replicate n none⟩ : RObj)])[x]? =
        if x = s.objs.length then some ⟨1, true, List.replicate n none⟩ else s.objs[x]? := by
      intro x
      by_cases hx : x = s.objs.length
      · simp [hx]
      · rw [if_neg hx]
        by_cases hlt : x < s.objs.length
        · rw [List.getElem?_append_left hlt]
        · rw [List.getElem?_eq_none (by simp; omega), List.getElem?_eq_none (by omega)]
    constructor
    · intro x y hy hya
      rw [ho]
      simp only [hget] at hy
      split at hy
      · next hx =>
        simp only [Option.some.injEq] at hy
        subst hy hx
        rw [hn]
        simp
      · next hx =>
        rw [if_neg hx]
        exact hc.counter x y hy hya
    · intro x hx
      rw [ho] at hx
      simp only [hget]
      by_cases hxn : x = s.objs.length
      · rw [if_pos hxn]
        exact ⟨_, rfl, rfl⟩
      · rw [if_neg hxn] at hx ⊢
        exact hc.exist x hx
  | declRaw ptr =>
    cases ptr with
    | none =>
      refine ⟨_, rfl, ?_⟩
      have ho : ∀ x, owners { s with vars := s.vars ++ [none] } x = owners s x := by
        intro x
        simp [owners]
      exact ⟨fun o ob h1 h2 => by rw [ho]; exact hc.counter o ob h1 h2, fun o h => hc.exist o (by rwa [ho] at h)⟩
    | some p =>
      refine ⟨_, rfl, ?_⟩
      have hmem := hl p rfl
      have ho : ∀ x, owners { s with vars := s.vars ++ [some p], raws := s.raws.erase p } x = owners s x := by
        intro x
        have := count_erase_add hmem x
        simp only [owners, List.count_append, List.count_singleton, beq_iff_eq, Option.some.injEq]
        by_cases hx : x = p
        · simp [hx] at this ⊢; omega
        · have hx' : ¬ p = x := fun e => hx e.symm
          simp [hx, hx'] at this ⊢
      exact ⟨fun o ob h1 h2 => by rw [ho]; exact hc.counter o ob h1 h2, fun o h => hc.exist o (by rwa [ho] at h)⟩
  | declCopy src =>
    obtain ⟨q, hq⟩ := readable_read hl
    have ho : ∀ x, owners { s with vars := s.vars ++ [none] } x = owners s x := by
      intro x
      simp [owners]
    have hc0 : Consistent { s with vars := s.vars ++ [none] } :=
      ⟨fun o ob h1 h2 => by rw [ho]; exact hc.counter o ob h1 h2, fun o h => hc.exist o (by rwa [ho] at h)⟩
    have hr : readPtr { s with vars := s.vars ++ [none] } (.var s.vars.length) = .ok none := by simp [readPtr]
    obtain ⟨s', f1, f2, _⟩ := referPtr_spec (q := q) (hc0.pending hr) (by simp [LocThere]) (by
      rintro o rfl
      obtain ⟨ob, g1, g2⟩ := readPtr_alive hc hq
      have := (hc.counter o ob g1 g2).2
      rw [← ho, owners_split hr] at this
      simpa using this)
    exact ⟨s', by simp only [rstep, hq, ok_bind]; exact f1, f2⟩
  | endScope i =>
    obtain ⟨s', h1, h2, _⟩ := C26_nullify (dst := .var i) hc hl
    exact ⟨s', h1, h2⟩
  | assign dst src =>
    obtain ⟨s', h1, h2, _⟩ := C26_assign hc hl.1 hl.2
    exact ⟨s', h1, h2⟩
  | assignRaw dst ptr =>
    obtain ⟨s', h1, h2, _⟩ := C26_assignRaw hc hl.1 hl.2
    exact ⟨s', h1, h2⟩
  | takeRef dst ptr =>
    obtain ⟨s', h1, h2, _⟩ := C26_takeRef hc hl.1 hl.2
    exact ⟨s', h1, h2⟩
  | nullify dst =>
    obtain ⟨s', h1, h2, _⟩ := C26_nullify hc hl
    exact ⟨s', h1, h2⟩
  | retn src =>
    obtain ⟨q, hq⟩ := readable_read hl
    simp only [rstep, retnPtr, hq, ok_bind]
    cases q with
    | none => exact ⟨s, rfl, hc⟩
    | some o =>
      obtain ⟨ob, g1, g2⟩ := readPtr_alive hc hq
      obtain ⟨objs, e1, e2⟩ := incr_consistent hc g1 g2
      exact ⟨_, by simp only [e1, ok_bind], e2⟩
  | incr o =>
    obtain ⟨ob, g1, g2⟩ := hl
    obtain ⟨objs, e1, e2⟩ := incr_consistent hc g1 g2
    exact ⟨_, by simp only [rstep, e1, ok_bind], e2⟩
  | decr o =>
    have hmem : o ∈ s.raws := hl
    have ho : ∀ x, owners s x = s.vars.count (some x) + (s.raws.erase o).count x + refsH none s.objs x + [o].count x := by
      intro x
      have := count_erase_add hmem x
      simp only [owners, fieldRefs_eq, List.count_singleton, beq_iff_eq]
      by_cases hx : x = o
      · simp [hx] at this ⊢; omega
      · have hx' : ¬ o = x := fun e => hx e.symm
        simp [hx, hx'] at this ⊢
    have hp : Pending none (fun x => s.vars.count (some x) + (s.raws.erase o).count x) [o] s.objs := by
      constructor
      · intro x y hy hya
        have := hc.counter x y hy hya
        rw [ho] at this
        exact this
      · intro x hx
        exact hc.exist x (by rw [ho]; exact hx)
    obtain ⟨objs, e1, e2, _⟩ := wp_exists (releaseLoop_spec (by simp) (1 + liveFields s.objs) _ _ hp (by simp))
    refine ⟨{ s with objs := objs, raws := s.raws.erase o }, by simp only [rstep, e1, ok_bind], ?_⟩
    exact consistent_of_pending e2 (fun _ => rfl) (fun x => by simp only [owners, fieldRefs_eq])

/-- **C26** A legal history of any length, over any number of objects and pointers, never touches a destroyed object (no double
deletion, no use after deletion); and at each moment the counter of every object in existence is the number of its owners, and
an object exists exactly as long as it has one. -/
theorem C26_history {s : RState} (hc : Consistent s) : ∀ {ops : List ROp}, LegalRun s ops → ∃ s', rrun s ops = .ok s' ∧ Consistent s' := by
  intro ops
  induction ops generalizing s with
  | nil => intro _; exact ⟨s, rfl, hc⟩
  | cons op l ih =>
    intro h
    obtain ⟨s1, h1, h2⟩ := rstep_consistent hc h.1
    obtain ⟨s2, h3, h4⟩ := ih h2 (h.2 s1 h1)
    exact ⟨s2, by simp only [rrun, h1, ok_bind, h3], h4⟩

/-- The state at the start of a program. -/
theorem consistent_empty : Consistent ⟨[], [], []⟩ :=
  ⟨fun o ob h => by simp at h, fun o h => by simp [owners, fieldRefs] at h⟩

/-- **C26** The owners are what one thinks: an object of a consistent state exists iff a raw reference, a smart pointer variable or
a smart pointer member of an existing object designates it. -/
theorem C26_alive_iff {s : RState} (hc : Consistent s) {o : Nat} {ob : RObj} (ho : s.objs[o]? = some ob) :
    ob.alive = true ↔ o ∈ s.raws ∨ some o ∈ s.vars ∨ ∃ (a : Nat) (x : RObj), s.objs[a]? = some x ∧ x.alive = true ∧ some o ∈ x.fields := by
  constructor
  · intro h
    have := (hc.counter o ob ho h).2
    simp only [owners] at this
    by_cases h1 : o ∈ s.raws
    · exact Or.inl h1
    · by_cases h2 : some o ∈ s.vars
      · exact Or.inr (Or.inl h2)
      · rw [List.count_eq_zero_of_not_mem h1, List.count_eq_zero_of_not_mem h2] at this
        obtain ⟨a, x, h3, h4⟩ := map_sum_pos (f := fun ob => if ob.alive then ob.fields.count (some o) else 0) (l := s.objs)
          (by simpa [fieldRefs] using this)
        refine Or.inr (Or.inr ⟨a, x, h3, ?_⟩)
        by_cases hx : x.alive = true
        · rw [if_pos hx] at h4
          exact ⟨hx, List.count_pos_iff.mp h4⟩
        · rw [if_neg hx] at h4
          omega
  · intro h
    have hpos : 0 < owners s o := by
      simp only [owners]
      rcases h with h | h | ⟨a, x, h1, h2, h3⟩
      · have := List.count_pos_iff.mpr h; omega
      · have := List.count_pos_iff.mpr h; omega
      · have e1 : contrib none o a x ≤ refsH none s.objs o := mapIdx_sum_le h1
        have e2 : contrib none o a x = x.fields.count (some o) := by simp [contrib, h2, effFields]
        have := List.count_pos_iff.mpr h3
        rw [fieldRefs_eq]
        omega
    obtain ⟨ob', h1, h2⟩ := hc.exist o hpos
    rw [ho] at h1
    simp only [Option.some.injEq] at h1
    subst h1
    exact h2

/-- **C26** No leak without cycles: if no variable and nobody else owns anything any more, and ownership between objects follows
some ranking, then every object has been destroyed. -/
theorem C26_no_leak {s : RState} (hc : Consistent s) (hv : ∀ p ∈ s.vars, p = none) (hr : s.raws = []) (rank : Nat → Nat)
    (hrank : ∀ (a : Nat) (x : RObj) (b : Nat), s.objs[a]? = some x → x.alive = true → some b ∈ x.fields → rank b < rank a) :
    ∀ (o : Nat) (ob : RObj), s.objs[o]? = some ob → ob.alive = false := by
  intro o ob ho
  by_contra hal
  simp only [Bool.not_eq_false] at hal
  -- an owner of an existing object is an existing object of higher rank
  have up : ∀ (o : Nat) (ob : RObj), s.objs[o]? = some ob → ob.alive = true → ∃ (a : Nat) (x : RObj), s.objs[a]? = some x ∧ x.alive = true ∧ rank o < rank a := by
    intro o ob ho hal
    rcases (C26_alive_iff hc ho).mp hal with h | h | ⟨a, x, h1, h2, h3⟩
    · rw [hr] at h; simp at h
    · exact absurd (hv _ h) (by simp)
    · exact ⟨a, x, h1, h2, hrank a x o h1 h2 h3⟩
  -- but ranks are bounded
  have climb : ∀ n, ∃ (o : Nat) (ob : RObj), s.objs[o]? = some ob ∧ ob.alive = true ∧ n ≤ rank o := by
    intro n
    induction n with
    | zero => exact ⟨o, ob, ho, hal, Nat.zero_le _⟩
    | succ n ih =>
      obtain ⟨o, ob, h1, h2, h3⟩ := ih
      obtain ⟨a, x, h4, h5, h6⟩ := up o ob h1 h2
      exact ⟨a, x, h4, h5, by omega⟩
  have bound : ∀ a, a < s.objs.length → rank a ≤ ((List.range s.objs.length).map rank).sum := by
    intro a ha
    exact le_sum_of_mem_nat (List.mem_map.mpr ⟨a, List.mem_range.mpr ha, rfl⟩)
  obtain ⟨a, x, h1, _, h3⟩ := climb (((List.range s.objs.length).map rank).sum + 1)
  have : a < s.objs.length := by
    by_contra h
    rw [List.getElem?_eq_none (by omega)] at h1
    simp at h1
  have := bound a this
  omega

/-- A mesh (object 0) owning its coordinates (object 1), shared with a second mesh (object 2): the coordinates survive the first mesh
and go with the second. -/
def exampleHistory : List ROp :=
  [.new 1, .declRaw (some 0), .new 0, .declRaw (some 1), .assign (.field 0 0) (.var 1), .new 1, .declRaw (some 2),
   .assign (.field 2 0) (.field 0 0), .nullify (.var 1), .endScope 0]

example : rrun ⟨[], [], []⟩ exampleHistory =
    .ok ⟨[⟨0, false, [some 1]⟩, ⟨1, true, []⟩, ⟨1, true, [some 1]⟩], [none, none, some 2], []⟩ := rfl
example : rrun ⟨[], [], []⟩ (exampleHistory ++ [.endScope 2]) =
    .ok ⟨[⟨0, false, [some 1]⟩, ⟨0, false, []⟩, ⟨0, false, [some 1]⟩], [none, none, none], []⟩ := rfl

theorem legalRun_cons {s s1 : RState} {op : ROp} {l : List ROp} (h1 : Legal s op) (h2 : rstep s op = .ok s1) (h3 : LegalRun s1 l) :
    LegalRun s (op :: l) := by
  refine ⟨h1, fun s' h => ?_⟩
  rw [h2] at h
  simp only [Except.ok.injEq] at h
  exact h ▸ h3

example : LegalRun ⟨[], [], []⟩ exampleHistory := by
  unfold exampleHistory
  refine legalRun_cons trivial rfl ?_
  refine legalRun_cons (by simp [Legal]) rfl ?_
  refine legalRun_cons trivial rfl ?_
  refine legalRun_cons (by simp [Legal]) rfl ?_
  refine legalRun_cons ⟨⟨Or.inr ⟨0, rfl, by simp⟩, _, rfl, by decide⟩, by simp [LocOk]⟩ rfl ?_
  refine legalRun_cons trivial rfl ?_
  refine legalRun_cons (by simp [Legal]) rfl ?_
  refine legalRun_cons ⟨⟨Or.inr ⟨2, rfl, by simp⟩, _, rfl, by decide⟩, ⟨Or.inr ⟨0, rfl, by simp⟩, _, rfl, by decide⟩⟩ rfl ?_
  refine legalRun_cons (by simp [Legal, LocOk]) rfl ?_
  exact legalRun_cons (by simp [Legal]) rfl trivial

/-! ## Where the discipline is needed -/

/-- `list = list->next`: the only owner of an object takes the pointer from inside this object.  The object is destroyed before its
member is read. -/
theorem C26_assign_from_inside :
    rrun ⟨[], [], []⟩ [.new 1, .declRaw (some 0), .new 0, .declRaw (some 1), .assign (.field 0 0) (.var 1), .nullify (.var 1),
      .assign (.var 0) (.field 0 0)] = .error .ub := rfl

/-- `p = p.retn()`: the reference made by `retn` is not taken over, and the object outlives its last smart pointer. -/
theorem C26_assign_same_raw_leaks :
    rrun ⟨[], [], []⟩ [.new 0, .declRaw (some 0), .retn (.var 0), .assignRaw (.var 0) (some 0), .endScope 0] =
      .ok ⟨[⟨1, true, []⟩], [none], [0]⟩ := rfl

/-- Two objects that own each other are never destroyed. -/
theorem C26_cycle_leaks :
    rrun ⟨[], [], []⟩ [.new 1, .declRaw (some 0), .new 1, .declRaw (some 1), .assign (.field 0 0) (.var 1),
      .assign (.field 1 0) (.var 0), .endScope 0, .endScope 1] =
      .ok ⟨[⟨1, true, [some 1]⟩, ⟨1, true, [some 0]⟩], [none, none], []⟩ := rfl

/-! ## Many threads -/

/-- All the references that exist. -/
def totalOwned (s : SharedObj) : Nat := (s.threads.map TRef.owned).sum

/-- A thread calls `incrRef` and `decrRef` only while it owns a reference, hands over only what it owns, and does the deletion it has
to do. -/
def TLegal (s : SharedObj) : TAct → Prop
  | .incr t => ∃ th, s.threads[t]? = some th ∧ 0 < th.owned
  | .decr t => ∃ th, s.threads[t]? = some th ∧ 0 < th.owned
  | .del t => ∃ th, s.threads[t]? = some th ∧ th.deleting = true
  | .give t u => (∃ th, s.threads[t]? = some th ∧ 0 < th.owned) ∧ u < s.threads.length

def TLegalRun : SharedObj → List TAct → Prop
  | _, [] => True
  | s, a :: l => TLegal s a ∧ ∀ s', tstep s a = .ok s' → TLegalRun s' l

/-- The counter is the number of references; as long as there are some, nobody is deleting and nothing was deleted; when there are
none, either it was deleted once, or exactly one thread is about to. -/
structure TInv (s : SharedObj) : Prop where
  counter : s.cnt = (totalOwned s : Int)
  busy : 0 < totalOwned s → s.deletions = 0 ∧ ∀ th ∈ s.threads, th.deleting = false
  done : totalOwned s = 0 → s.deletions + (s.threads.countP (·.deleting)) = 1

theorem sum_owned_set {l : List TRef} {t : Nat} {th th' : TRef} (h : l[t]? = some th) :
    ((l.set t th').map TRef.owned).sum + th.owned = (l.map TRef.owned).sum + th'.owned := by
  induction l generalizing t with
  | nil => simp at h
  | cons a l ih =>
    cases t with
    | zero =>
      simp only [List.getElem?_cons_zero, Option.some.injEq] at h
      subst h
      simp only [List.set_cons_zero, List.map_cons, List.sum_cons]
      omega
    | succ t =>
      simp only [List.getElem?_cons_succ] at h
      have := ih h
      simp only [List.set_cons_succ, List.map_cons, List.sum_cons]
      omega

theorem countP_deleting_set {l : List TRef} {t : Nat} {th th' : TRef} (h : l[t]? = some th) :
    (l.set t th').countP (·.deleting) + th.deleting.toNat = l.countP (·.deleting) + th'.deleting.toNat := by
  induction l generalizing t with
  | nil => simp at h
  | cons a l ih =>
    cases t with
    | zero =>
      simp only [List.getElem?_cons_zero, Option.some.injEq] at h
      subst h
      simp only [List.set_cons_zero, List.countP_cons]
      cases a.deleting <;> cases th'.deleting <;> simp
    | succ t =>
      simp only [List.getElem?_cons_succ] at h
      have := ih h
      simp only [List.set_cons_succ, List.countP_cons]
      omega

theorem owned_le_total {s : SharedObj} {t : Nat} {th : TRef} (h : s.threads[t]? = some th) : th.owned ≤ totalOwned s :=
  le_sum_of_mem_nat (List.mem_map.mpr ⟨th, List.mem_of_getElem? h, rfl⟩)

theorem countP_zero_of {l : List TRef} (h : ∀ th ∈ l, th.deleting = false) : l.countP (·.deleting) = 0 := by
  rw [List.countP_eq_zero]
  intro th hth
  simp [h th hth]

theorem of_countP_zero {l : List TRef} (h : l.countP (·.deleting) = 0) : ∀ th ∈ l, th.deleting = false := by
  intro th hth
  rw [List.countP_eq_zero] at h
  simpa using h th hth

theorem tstep_inv {s : SharedObj} {a : TAct} (hi : TInv s) (hl : TLegal s a) : ∃ s', tstep s a = .ok s' ∧ TInv s' := by
  cases a with
  | incr t =>
    obtain ⟨th, h1, h2⟩ := hl
    have hpos : 0 < totalOwned s := by have := owned_le_total h1; omega
    obtain ⟨hd, hn⟩ := hi.busy hpos
    refine ⟨_, by simp only [tstep, h1]; rw [if_pos hd], ?_⟩
    have hs := sum_owned_set (th' := { th with owned := th.owned + 1 }) h1
    have hcd := countP_deleting_set (th' := { th with owned := th.owned + 1 }) h1
    have ht : totalOwned { s with cnt := s.cnt + 1, threads := s.threads.set t { th with owned := th.owned + 1 } } = totalOwned s + 1 := by
      simp only [totalOwned] at hs ⊢; omega
    refine ⟨?_, fun _ => ⟨hd, ?_⟩, fun h => ?_⟩
    · rw [ht]; simp only; rw [hi.counter]; push_cast; rfl
    · refine of_countP_zero ?_
      have := countP_zero_of hn
      simp only at hcd ⊢
      omega
    · rw [ht] at h; omega
  | decr t =>
    obtain ⟨th, h1, h2⟩ := hl
    have hpos : 0 < totalOwned s := by have := owned_le_total h1; omega
    obtain ⟨hd, hn⟩ := hi.busy hpos
    refine ⟨_, by simp only [tstep, h1]; rw [if_pos hd], ?_⟩
    have hs := sum_owned_set (th' := { owned := th.owned - 1, deleting := decide (s.cnt - 1 = 0) }) h1
    have hcd := countP_deleting_set (th' := { owned := th.owned - 1, deleting := decide (s.cnt - 1 = 0) }) h1
    have hz := countP_zero_of hn
    have hth : th.deleting = false := hn th (List.mem_of_getElem? h1)
    have ht : totalOwned { s with cnt := s.cnt - 1, threads := s.threads.set t { owned := th.owned - 1, deleting := decide (s.cnt - 1 = 0) } } =
        totalOwned s - 1 := by
      simp only [totalOwned] at hs ⊢; omega
    have hcnt := hi.counter
    refine ⟨?_, fun h => ⟨hd, ?_⟩, fun h => ?_⟩
    · rw [ht]; simp only; omega
    · rw [ht] at h
      refine of_countP_zero ?_
      have : decide (s.cnt - 1 = 0) = false := by simp; omega
      simp only [this, hth, hz] at hcd ⊢
      simpa using hcd
    · rw [ht] at h
      have : decide (s.cnt - 1 = 0) = true := by simp; omega
      simp only [this, hth, hz] at hcd ⊢
      rw [hd]
      simpa using hcd
  | del t =>
    obtain ⟨th, h1, h2⟩ := hl
    have hmem := List.mem_of_getElem? h1
    have hzero : totalOwned s = 0 := by
      by_contra h
      have := (hi.busy (by omega)).2 th hmem
      rw [h2] at this
      simp at this
    have hdone := hi.done hzero
    have hge : 0 < s.threads.countP (·.deleting) := List.countP_pos_iff.mpr ⟨th, hmem, h2⟩
    have hd : s.deletions = 0 := by omega
    refine ⟨_, by simp only [tstep, h1]; rw [if_pos hd], ?_⟩
    have hs := sum_owned_set (th' := { th with deleting := false }) h1
    have hcd := countP_deleting_set (th' := { th with deleting := false }) h1
    have ht : totalOwned { s with deletions := 1, threads := s.threads.set t { th with deleting := false } } = 0 := by
      simp only [totalOwned] at hs hzero ⊢; omega
    refine ⟨?_, fun h => ?_, fun _ => ?_⟩
    · rw [ht]; simp only; rw [hi.counter, hzero]
    · rw [ht] at h; omega
    · simp only [h2] at hcd ⊢
      simp at hcd
      omega
  | give t u =>
    obtain ⟨⟨th, h1, h2⟩, hu⟩ := hl
    have h3 : s.threads[u]? = some s.threads[u] := List.getElem?_eq_getElem hu
    simp only [tstep, h1, h3]
    by_cases htu : t = u
    · rw [if_pos htu]
      exact ⟨s, rfl, hi⟩
    · rw [if_neg htu]
      have h4 : (s.threads.set t { th with owned := th.owned - 1 })[u]? = some s.threads[u] := by
        rw [List.getElem?_set_ne htu]; exact h3
      have hs1 := sum_owned_set (th' := { th with owned := th.owned - 1 }) h1
      have hs2 := sum_owned_set (th' := { s.threads[u] with owned := s.threads[u].owned + 1 }) h4
      have hc1 := countP_deleting_set (th' := { th with owned := th.owned - 1 }) h1
      have hc2 := countP_deleting_set (th' := { s.threads[u] with owned := s.threads[u].owned + 1 }) h4
      refine ⟨_, rfl, ?_⟩
      have ht : totalOwned ⟨s.cnt, s.deletions, (s.threads.set t { th with owned := th.owned - 1 }).set u
          { s.threads[u] with owned := s.threads[u].owned + 1 }⟩ = totalOwned s := by
        simp only [totalOwned] at hs1 hs2 ⊢; omega
      have hpos : 0 < totalOwned s := by have := owned_le_total h1; omega
      obtain ⟨hd, hn⟩ := hi.busy hpos
      have hz := countP_zero_of hn
      refine ⟨?_, fun _ => ⟨hd, of_countP_zero ?_⟩, fun h => ?_⟩
      · rw [ht]; exact hi.counter
      · simp only at hc1 hc2 ⊢; omega
      · rw [ht] at h; omega

/-- **C26** Whatever the interleaving of the threads: no call reaches a deleted object, it is deleted at most once; while references
exist it is not deleted; and when all have been given back, it has been deleted – or the one thread that made the counter 0 is just
about to. -/
theorem C26_threads {s : SharedObj} (hi : TInv s) : ∀ {acts : List TAct}, TLegalRun s acts → ∃ s', trun s acts = .ok s' ∧ TInv s' := by
  intro acts
  induction acts generalizing s with
  | nil => intro _; exact ⟨s, rfl, hi⟩
  | cons a l ih =>
    intro h
    obtain ⟨s1, h1, h2⟩ := tstep_inv hi h.1
    obtain ⟨s2, h3, h4⟩ := ih h2 (h.2 s1 h1)
    exact ⟨s2, by simp only [trun, h1, ok_bind, h3], h4⟩

/-- A new object owned by the first of `n + 1` threads. -/
theorem tinv_new (n : Nat) : TInv ⟨1, 0, ⟨1, false⟩ :: List.replicate n ⟨0, false⟩⟩ := by
  have ht : totalOwned ⟨1, 0, ⟨1, false⟩ :: List.replicate n ⟨0, false⟩⟩ = 1 := by simp [totalOwned]
  refine ⟨by rw [ht]; rfl, fun _ => ⟨rfl, ?_⟩, fun h => by rw [ht] at h; omega⟩
  intro th hth
  simp only [List.mem_cons, List.mem_replicate] at hth
  rcases hth with rfl | ⟨_, rfl⟩ <;> rfl

example : trun ⟨1, 0, [⟨1, false⟩, ⟨0, false⟩]⟩ [.incr 0, .give 0 1, .decr 0, .incr 1, .decr 1, .decr 1, .del 1] =
    .ok ⟨0, 1, [⟨0, false⟩, ⟨0, false⟩]⟩ := rfl

/-- Without owning a reference a thread must not call `incrRef`, even if the object was alive when it looked. -/
theorem C26_threads_need_ownership : trun ⟨1, 0, [⟨1, false⟩, ⟨0, false⟩]⟩ [.decr 0, .del 0, .incr 1] = .error .ub := rfl

end MC
