import Verif.ExprTree
import Mathlib.Tactic.IntervalCases

/-!
# Expressions: theorems
-/

namespace MC
variable {V : Type}

/-! ## Helpers -/

theorem keyVar_unit (k : Nat) (h : k < 18) : keyVar (unitName k) = some k := by
  interval_cases k <;> rfl

theorem keyVar_some {x : List Char} {k : Nat} (h : keyVar x = some k) : k < 18 ∧ x = unitName k := by
  unfold keyVar at h
  split at h
  · rename_i c
    split at h
    · simp at h
    · rename_i hc
      simp only [Option.some.injEq] at h
      have h1 : ¬ c < 'I' := fun h => hc (Or.inl h)
      have h2 : ¬ 'Z' < c := fun h => hc (Or.inr h)
      have h1' : 73 ≤ c.toNat := Nat.le_of_not_lt h1
      have h2' : c.toNat ≤ 90 := Nat.le_of_not_lt h2
      have h3 : 'I'.toNat = 73 := rfl
      refine ⟨by omega, ?_⟩
      unfold unitName
      rw [show 73 + k = c.toNat by omega, Char.ofNat_toNat]
  · simp at h

theorem linkLeaf_known {order : List (List Char)} {old nb j : Nat} {x : List Char} (hx : x ≠ []) (ho : order.length ≤ old) (hk : Known order nb x)
    (A : Arith V) (data : List V) :
    ∃ r, linkLeaf (V := V) (order ++ List.replicate (old - order.length) []) old nb j (.var x) = .ok r ∧
      ∀ i env, i * old + old ≤ data.length → Binds A order old data i j env → leafValue A ((data.drop (i * old)).take old) r = .ok (env x) := by
  have hmem : x ∈ order ++ List.replicate (old - order.length) [] ↔ x ∈ order := by
    simp only [List.mem_append, List.mem_replicate]
    constructor
    · rintro (h | h)
      · exact h
      · exact absurd h.2 hx
    · exact Or.inl
  by_cases h : x ∈ order
  · obtain ⟨k, hk⟩ : ∃ k, order.findIdx (fun y => decide (y = x)) = k := ⟨_, rfl⟩
    have hlt : k < order.length := by
      rw [← hk]; exact List.findIdx_lt_length_of_exists ⟨x, h, by simp⟩
    have he : order[k]? = some x := by
      rw [List.getElem?_eq_getElem hlt]
      have := List.findIdx_getElem (p := fun y => decide (y = x)) (xs := order) (w := by rw [hk]; exact hlt)
      simp only [hk, decide_eq_true_eq] at this
      rw [this]
    have hn : x ∉ order.take k := by
      intro hm
      obtain ⟨m, hm1, hm2⟩ := List.mem_take_iff_getElem.1 hm
      have := List.not_of_lt_findIdx (p := fun y => decide (y = x)) (xs := order) (i := m) (by omega)
      simp [hm2] at this
    refine ⟨.comp k, ?_, ?_⟩
    · unfold linkLeaf
      simp only
      rw [if_pos (hmem.2 h), List.findIdx_append, hk, if_pos hlt, if_neg (by omega)]
    · intro i env hi hb
      have := hb.comp k x he hn
      unfold leafValue
      simp only
      have hl : i * old + k < data.length := by omega
      rw [rd_of_getElem? (by omega) (a := env x)]
      simp only [Int.toNat_natCast]
      rw [List.getElem?_take_of_lt (by omega), List.getElem?_drop, this]
  · rcases hk with hk | ⟨k, h18, hnb, rfl⟩
    · exact absurd hk h
    · refine ⟨.unit k j, ?_, ?_⟩
      · unfold linkLeaf
        simp only
        rw [if_neg (by rw [hmem]; exact h), keyVar_unit k h18]
        simp only
        rw [if_neg (by omega)]
      · intro i env _ hb
        unfold leafValue
        rw [hb.unit k h18 h]

theorem linkLeaf_unknown {order : List (List Char)} {old nb j : Nat} {x : List Char} (hx : x ≠ []) (hk : ¬ Known order nb x) :
    linkLeaf (V := V) (order ++ List.replicate (old - order.length) []) old nb j (.var x) = .error .exn := by
  have h1 : x ∉ order ++ List.replicate (old - order.length) [] := by
    simp only [List.mem_append, List.mem_replicate]
    rintro (h | h)
    · exact hk (Or.inl h)
    · exact absurd h.2 hx
  unfold linkLeaf
  simp only
  rw [if_neg h1]
  cases hv : keyVar x with
  | none => rfl
  | some k =>
    obtain ⟨h18, he⟩ := keyVar_some hv
    simp only
    rw [if_pos]
    · rfl
    · by_contra h
      exact hk (Or.inr ⟨k, h18, by omega, he⟩)

theorem linkLeaf_dich (order : List (List Char)) (old nb j : Nat) (x : List Char) :
    (∃ r, linkLeaf (V := V) order old nb j (.var x) = .ok r) ∨ linkLeaf (V := V) order old nb j (.var x) = .error .exn := by
  unfold linkLeaf
  simp only
  split
  · split
    · exact Or.inr rfl
    · exact Or.inl ⟨_, rfl⟩
  · split
    · exact Or.inr rfl
    · split
      · exact Or.inr rfl
      · exact Or.inl ⟨_, rfl⟩

theorem vars_name (c : Cst) (h : c.WF IsNumber) : ∀ x ∈ c.vars, IsName x := by
  induction c with
  | num l => simp [Cst.vars]
  | var x => intro y hy; simp only [Cst.vars, List.mem_singleton] at hy; subst hy; exact h
  | sign sg e ih => exact ih h.2.2.2
  | call f e ih => exact ih h.2.2.2
  | call2 f a b iha ihb =>
    intro x hx
    simp only [Cst.vars, List.mem_append] at hx
    rcases hx with hx | hx
    · exact iha h.2.2.2.1 x hx
    · exact ihb h.2.2.2.2 x hx
  | callIf a b c iha ihb ihc =>
    intro x hx
    simp only [Cst.vars, List.mem_append] at hx
    rcases hx with (hx | hx) | hx
    · exact iha h.2.2.2.1 x hx
    · exact ihb h.2.2.2.2.1 x hx
    · exact ihc h.2.2.2.2.2 x hx
  | bin op a b iha ihb =>
    intro x hx
    simp only [Cst.vars, List.mem_append] at hx
    rcases hx with hx | hx
    · exact iha h.2.2.2.2.2.2.2.1 x hx
    · exact ihb h.2.2.2.2.2.2.2.2 x hx

theorem IsName.ne {x : List Char} (h : IsName x) : x ≠ [] := by
  obtain ⟨c, r, rfl, _⟩ := h; simp

/-- a list without repetition inside another one -/
theorem nodup_sub_length {α : Type} [DecidableEq α] {l m : List α} (h : l.Nodup) (hs : ∀ x ∈ l, x ∈ m) : l.length ≤ m.length := by
  induction l generalizing m with
  | nil => simp
  | cons a l ih =>
    rw [List.nodup_cons] at h
    have ha : a ∈ m := hs a (by simp)
    have := ih (m := m.erase a) h.2 (fun x hx => by
      rw [List.mem_erase_of_ne (by rintro rfl; exact h.1 hx)]
      exact hs x (by simp [hx]))
    rw [List.length_erase_of_mem ha] at this
    have : 0 < m.length := List.length_pos_of_mem ha
    simp only [List.length_cons]; omega

/-- the variables found by the code -/
theorem trueVars_spec (A : Arith V) (c : Cst) (h : c.WF IsNumber) :
    (trueVars (some (c.rtree (fun l => Leaf.val (A.lit l)) .var))).Pairwise (· < ·) ∧
    ∀ x, x ∈ trueVars (some (c.rtree (fun l => Leaf.val (A.lit l)) .var)) ↔ x ∈ c.vars ∧ ∀ k, k < 18 → x ≠ unitName k := by
  obtain ⟨hs, hm⟩ := setOfVars_rtree A.lit c h [] List.Pairwise.nil
  refine ⟨hs.sublist List.filter_sublist, ?_⟩
  intro x
  simp only [trueVars, List.mem_filter, hm, List.not_mem_nil, false_or]
  refine and_congr_right fun _ => ?_
  constructor
  · intro hk k h18 he
    rw [he, keyVar_unit k h18] at hk
    simp at hk
  · intro hk
    cases hv : keyVar x with
    | none => rfl
    | some k => exact absurd (keyVar_some hv).2 (hk k (keyVar_some hv).1)

theorem sorted_nodup {l : List (List Char)} (h : l.Pairwise (· < ·)) : l.Nodup :=
  h.imp (fun {a b} hlt he => by subst he; exact List.lt_irrefl a hlt)

theorem sorted_unique {l m : List (List Char)} (hl : l.Pairwise (· < ·)) (hm : m.Pairwise (· < ·)) (h : ∀ x, x ∈ l ↔ x ∈ m) : l = m := by
  induction l generalizing m with
  | nil =>
    cases m with
    | nil => rfl
    | cons b m => have := (h b).2 (by simp); simp at this
  | cons a l ih =>
    cases m with
    | nil => have := (h a).1 (by simp); simp at this
    | cons b m =>
      rw [List.pairwise_cons] at hl hm
      have hab : a = b := by
        rcases List.mem_cons.1 ((h a).1 (by simp)) with e | e
        · exact e
        · rcases List.mem_cons.1 ((h b).2 (by simp)) with e' | e'
          · exact e'.symm
          · exact absurd (List.lt_trans (hl.1 b e') (hm.1 a e)) (List.lt_irrefl a)
      subst hab
      rw [ih hl.2 hm.2]
      intro x
      constructor
      · intro hx
        rcases List.mem_cons.1 ((h x).1 (by simp [hx])) with e | e
        · subst e; exact absurd (hl.1 x hx) (List.lt_irrefl x)
        · exact e
      · intro hx
        rcases List.mem_cons.1 ((h x).2 (by simp [hx])) with e | e
        · subst e; exact absurd (hm.1 x hx) (List.lt_irrefl x)
        · exact e

theorem loop_ok_step {σ : Type} {n : Nat} {s r : σ} {f : Nat → σ → M σ} (h : loop n s f = .ok r) : ∀ k < n, ∃ s' s'', f k s' = .ok s'' := by
  induction n generalizing r with
  | zero => intro k hk; omega
  | succ n ih =>
    intro k hk
    unfold loop at h
    cases hl : loop n s f with
    | error e => rw [hl] at h; simp [bind, Except.bind] at h
    | ok s1 =>
      rw [hl, ok_bind] at h
      rcases Nat.lt_succ_iff_lt_or_eq.1 hk with hk | rfl
      · exact ih hl k hk
      · exact ⟨_, _, h⟩

/-- What is asked from the written expression and the names. -/
structure Written (A : Arith V) (c : Cst) (text : List Char) : Prop where
  laws : A.Laws
  wf : c.WF IsNumber
  long : LongLits 0 c.lits
  text_eq : text.filter (fun ch => !(ch = ' ' || ch = '\n')) = c.str

theorem Written.parse {A : Arith V} {c : Cst} {text : List Char} (h : Written A c text) :
    parseExpr A text = .ok (some (c.rtree (fun l => .val (A.lit l)) .var)) :=
  parseExpr_eq A h.laws c h.wf h.long text h.text_eq

theorem linked {A : Arith V} {c : Cst} {text : List Char} (h : Written A c text) {order : List (List Char)} {old nb j : Nat}
    (ho : order.length ≤ old) (hk : ∀ x ∈ c.vars, Known order nb x) (data : List V) :
    ∃ r, linkOpt (order ++ List.replicate (old - order.length) []) old nb j old (some (c.rtree (fun l => .val (A.lit l)) .var)) = .ok (some r) ∧
      ∀ i env safe s, i * old + old ≤ data.length → Binds A order old data i j env →
        evalPop A safe (some r) ((data.drop (i * old)).take old) s = match c.ev A safe env with | some v => .ok (v, s) | none => .error .exn := by
  classical
  have hne : ∀ x ∈ c.vars, x ≠ [] := fun x hx => (vars_name c h.wf x hx).ne
  let vl : List Char → RLeaf V := fun x => if hx : x ∈ c.vars then
    Classical.choose (linkLeaf_known (j := j) (hne x hx) ho (hk x hx) A data) else .unlinked
  have hvl : ∀ x ∈ c.vars, linkLeaf (V := V) (order ++ List.replicate (old - order.length) []) old nb j (.var x) = .ok (vl x) ∧
      ∀ i env, i * old + old ≤ data.length → Binds A order old data i j env → leafValue A ((data.drop (i * old)).take old) (vl x) = .ok (env x) := by
    intro x hx
    have := Classical.choose_spec (linkLeaf_known (j := j) (hne x hx) ho (hk x hx) A data)
    simpa only [vl, dif_pos hx] using this
  refine ⟨c.rtree (fun l => .val (A.lit l)) vl, ?_, ?_⟩
  · unfold linkOpt linkExpr
    simp only
    rw [if_neg (by simp; omega), mapLeaves_rtree (g := linkLeaf (order ++ List.replicate (old - order.length) []) old nb j) c (nl' := fun l => .val (A.lit l)) (vl' := vl) (fun l => rfl) (fun x hx => (hvl x hx).1)]
    rfl
  · intro i env safe s hi hb
    unfold evalPop
    simp only
    rw [evalTree_eq A h.laws safe _ env vl c h.wf (fun x hx => (hvl x hx).2 i env hi hb)]
    cases c.ev A safe env <;> rfl

theorem count_le {A : Arith V} {c : Cst} {text : List Char} (h : Written A c text) {order : List (List Char)} {old nb : Nat}
    (ho : order.length ≤ old) (hk : ∀ x ∈ c.vars, Known order nb x) :
    ¬ (trueVars (some (c.rtree (fun l => Leaf.val (A.lit l)) .var))).length > old := by
  obtain ⟨hs, hm⟩ := trueVars_spec A c h.wf
  have := nodup_sub_length (sorted_nodup hs) (m := order) (fun x hx => by
    obtain ⟨hv, hu⟩ := (hm x).1 hx
    rcases hk x hv with hk | ⟨k, h18, _, he⟩
    · exact hk
    · exact absurd he (hu k h18))
  omega

/-! ## C83: the value of an expression -/

/-- A constant expression is evaluated to its value. -/
theorem C83_constant {A : Arith V} {c : Cst} {text : List Char} (h : Written A c text) (hc : c.vars = []) (env : List Char → V) :
    ∃ v, c.ev A false env = some v ∧ (parseExpr A text >>= evaluateDouble A) = .ok v := by
  obtain ⟨v, hv⟩ := ev_unsafe A env c
  refine ⟨v, hv, ?_⟩
  rw [h.parse, ok_bind]
  unfold evaluateDouble
  simp only
  unfold noLink
  rw [mapLeaves_rtree (nl := fun l => Leaf.val (A.lit l)) (vl := Leaf.var) c (nl' := fun l => .val (A.lit l)) (vl' := fun _ => RLeaf.unlinked) (fun l => rfl) (fun x _ => rfl), ok_bind,
    evalTree_eq A h.laws false [] env _ c h.wf (by rw [hc]; simp), hv]
  rfl

/-! ## C84: arrays -/

theorem named_start {A : Arith V} {c : Cst} {text : List Char} (h : Written A c text) {order : List (List Char)} {old nb : Nat} (hnb : 0 < nb)
    (hcount : ¬ (trueVars (some (c.rtree (fun l => Leaf.val (A.lit l)) .var))).length > old) (nt : Nat) (data : List V) (safe : Bool) :
    applyFuncNamedCompo A nt old data nb order text safe = (loop nb (mallocN V (nt * nb), ([] : List V)) fun iComp st => do
        let r ← linkOpt (order ++ List.replicate (old - order.length) []) old nb iComp old (some (c.rtree (fun l => .val (A.lit l)) .var))
        loop nt st fun i st =>
          match evalPop A safe r ((data.drop (i * old)).take old) st.2 with
          | .ok (v, stck) => do
            let out ← wr st.1 ((i * nb + iComp : Nat) : Int) (some v)
            return (out, stck)
          | .error .ub => undef
          | .error .exn => if i * old + i * old + old ≤ data.length then throwX else undef) >>= fun res => pure res.1 := by
  unfold applyFuncNamedCompo
  rw [if_neg (by omega), h.parse]
  simp only [ok_bind]
  rw [if_neg hcount]
  rfl

theorem cell_lt {nt nb i j : Nat} (hi : i < nt) (hj : j < nb) : i * nb + j < nt * nb := by
  have : (i + 1) * nb ≤ nt * nb := Nat.mul_le_mul_right _ hi
  rw [Nat.succ_mul] at this
  omega

theorem cell_inj {nb i j i' j' : Nat} (hj : j < nb) (hj' : j' < nb) (h : i * nb + j = i' * nb + j') : i = i' ∧ j = j' := by
  have h1 : (i * nb + j) / nb = i := by
    rw [Nat.add_comm, Nat.mul_comm, Nat.add_mul_div_left _ _ (by omega), Nat.div_eq_of_lt hj]; omega
  have h2 : (i' * nb + j') / nb = i' := by
    rw [Nat.add_comm, Nat.mul_comm, Nat.add_mul_div_left _ _ (by omega), Nat.div_eq_of_lt hj']; omega
  have : i = i' := by rw [← h1, ← h2, h]
  subst this
  exact ⟨rfl, by omega⟩

/-- the run: either everything has a value and is stored, or an exception is allowed -/
theorem named_wp {A : Arith V} {c : Cst} {text : List Char} (h : Written A c text) {order : List (List Char)} {nt old nb : Nat} {data : List V}
    (hd : data.length = nt * old) (hnb : 0 < nb) (ho : order.length ≤ old) (hk : ∀ x ∈ c.vars, Known order nb x)
    (env : Nat → Nat → List Char → V) (henv : ∀ i < nt, ∀ j < nb, Binds A order old data i j (env i j)) (safe : Bool) (E : Prop)
    (hE : ∀ i < nt, ∀ j < nb, c.ev A safe (env i j) = none → 2 * i + 1 ≤ nt ∧ E) :
    wp (applyFuncNamedCompo A nt old data nb order text safe)
      (fun out => out.length = nt * nb ∧ ∀ i < nt, ∀ j < nb, out[i * nb + j]? = some (c.ev A safe (env i j))) E := by
  rw [named_start h hnb (count_le h ho hk), wp_bind]
  refine wp_mono (wp_loop (I := fun j st => st.2 = [] ∧ st.1.length = nt * nb ∧
      ∀ i < nt, ∀ j' < j, st.1[i * nb + j']? = some (c.ev A safe (env i j'))) ?_ ?_) ?_ id
  · exact ⟨rfl, by simp [mallocN], by omega⟩
  · intro j hj st ⟨hs, hl, hdone⟩
    obtain ⟨r, hr, hev⟩ := linked (j := j) h ho hk data
    rw [hr, ok_bind]
    refine wp_mono (wp_loop (I := fun i st => st.2 = [] ∧ st.1.length = nt * nb ∧
      (∀ i' < nt, ∀ j' < j, st.1[i' * nb + j']? = some (c.ev A safe (env i' j'))) ∧
      ∀ i' < i, st.1[i' * nb + j]? = some (c.ev A safe (env i' j))) ?_ ?_) ?_ id
    · exact ⟨hs, hl, hdone, by omega⟩
    · intro i hi st ⟨hs, hl, hdone, hcol⟩
      have hle : i * old + old ≤ data.length := by
        rw [hd]
        have : (i + 1) * old ≤ nt * old := Nat.mul_le_mul_right _ hi
        rwa [Nat.succ_mul] at this
      rw [hev i (env i j) safe st.2 hle (henv i hi j hj)]
      cases hv : c.ev A safe (env i j) with
      | none =>
        obtain ⟨h2, hE'⟩ := hE i hi j hj hv
        simp only
        rw [if_pos]
        · exact hE'
        · rw [hd]
          have : (2 * i + 1) * old ≤ nt * old := Nat.mul_le_mul_right _ h2
          have e : (2 * i + 1) * old = i * old + i * old + old := by
            rw [Nat.add_mul, Nat.mul_assoc, Nat.two_mul, Nat.one_mul]
          omega
      | some v =>
        simp only
        rw [wr_natCast (by rw [hl]; exact cell_lt hi hj), ok_bind, wp_pure]
        refine ⟨hs, by simp [hl], ?_, ?_⟩
        · intro i' hi' j' hj'
          rw [List.getElem?_set_ne]
          · exact hdone i' hi' j' hj'
          · intro he
            have := (cell_inj hj (by omega) he).2
            omega
        · intro i' hi'
          by_cases he : i' = i
          · subst he
            rw [List.getElem?_set_self (by rw [hl]; exact cell_lt hi hj), hv]
          · rw [List.getElem?_set_ne]
            · exact hcol i' (by omega)
            · intro he'
              exact he (cell_inj hj hj he').1.symm
    · rintro st ⟨hs, hl, hdone, hcol⟩
      refine ⟨hs, hl, ?_⟩
      intro i hi j' hj'
      rcases Nat.lt_succ_iff_lt_or_eq.1 hj' with h' | rfl
      · exact hdone i hi j' h'
      · exact hcol i hi
  · rintro st ⟨_, hl, hdone⟩
    rw [wp_pure]
    exact ⟨hl, hdone⟩

/-- `applyFuncNamedCompo`: the result has the asked number of components and each value is the value of the expression for the tuple and the
component. -/
theorem C84_named {A : Arith V} {c : Cst} {text : List Char} (h : Written A c text) {order : List (List Char)} {nt old nb : Nat} {data : List V}
    (hd : data.length = nt * old) (hnb : 0 < nb) (ho : order.length ≤ old) (hk : ∀ x ∈ c.vars, Known order nb x)
    (env : Nat → Nat → List Char → V) (henv : ∀ i < nt, ∀ j < nb, Binds A order old data i j (env i j)) (safe : Bool)
    (hv : ∀ i < nt, ∀ j < nb, c.ev A safe (env i j) ≠ none) :
    ∃ out, applyFuncNamedCompo A nt old data nb order text safe = .ok out ∧ out.length = nt * nb ∧
      ∀ i < nt, ∀ j < nb, out[i * nb + j]? = some (c.ev A safe (env i j)) :=
  wp_exists (named_wp h hd hnb ho hk env henv safe False (fun i hi j hj he => absurd he (hv i hi j hj)))

/-- Without the safe mode there is always a result. -/
theorem C84_named_unsafe {A : Arith V} {c : Cst} {text : List Char} (h : Written A c text) {order : List (List Char)} {nt old nb : Nat}
    {data : List V} (hd : data.length = nt * old) (hnb : 0 < nb) (ho : order.length ≤ old) (hk : ∀ x ∈ c.vars, Known order nb x)
    (env : Nat → Nat → List Char → V) (henv : ∀ i < nt, ∀ j < nb, Binds A order old data i j (env i j)) :
    ∃ out, applyFuncNamedCompo A nt old data nb order text false = .ok out ∧ out.length = nt * nb ∧
      ∀ i < nt, ∀ j < nb, ∃ v, out[i * nb + j]? = some (some v) ∧ c.ev A false (env i j) = some v := by
  have hs : ∀ i j, ∃ v, c.ev A false (env i j) = some v := fun i j => ev_unsafe A (env i j) c
  obtain ⟨out, h1, h2, h3⟩ := C84_named h hd hnb ho hk env henv false (fun i _ j _ => by obtain ⟨v, hv⟩ := hs i j; rw [hv]; simp)
  refine ⟨out, h1, h2, fun i hi j hj => ?_⟩
  obtain ⟨v, hv⟩ := hs i j
  exact ⟨v, by rw [h3 i hi j hj, hv], hv⟩

/-- In the safe mode no result is given when a function is applied outside its domain for one of the tuples. -/
theorem C84_safe_rejects {A : Arith V} {c : Cst} {text : List Char} (h : Written A c text) {order : List (List Char)} {nt old nb : Nat}
    {data : List V} (hd : data.length = nt * old) (ho : order.length ≤ old) (hk : ∀ x ∈ c.vars, Known order nb x)
    (env : Nat → Nat → List Char → V) (henv : ∀ i < nt, ∀ j < nb, Binds A order old data i j (env i j)) (safe : Bool)
    {i j : Nat} (hi : i < nt) (hj : j < nb) (hv : c.ev A safe (env i j) = none) :
    ∃ e, applyFuncNamedCompo A nt old data nb order text safe = .error e := by
  rw [named_start h (by omega) (count_le h ho hk)]
  cases hl : loop nb (mallocN V (nt * nb), ([] : List V)) _ with
  | error e => exact ⟨e, rfl⟩
  | ok res =>
    exfalso
    obtain ⟨s', s'', hs⟩ := loop_ok_step hl j hj
    obtain ⟨r, hr, hev⟩ := linked (j := j) h ho hk data
    rw [hr, ok_bind] at hs
    obtain ⟨t', t'', ht⟩ := loop_ok_step hs i hi
    have hle : i * old + old ≤ data.length := by
      rw [hd]
      have : (i + 1) * old ≤ nt * old := Nat.mul_le_mul_right _ hi
      rwa [Nat.succ_mul] at this
    simp only [hev i (env i j) safe t'.2 hle (henv i hi j hj), hv] at ht
    split at ht <;> simp [throwX, undef] at ht

/-- The exception is raised properly when the tuples in question are in the first half of the array. -/
theorem C84_safe_throws {A : Arith V} {c : Cst} {text : List Char} (h : Written A c text) {order : List (List Char)} {nt old nb : Nat}
    {data : List V} (hd : data.length = nt * old) (ho : order.length ≤ old) (hk : ∀ x ∈ c.vars, Known order nb x)
    (env : Nat → Nat → List Char → V) (henv : ∀ i < nt, ∀ j < nb, Binds A order old data i j (env i j)) (safe : Bool)
    {i j : Nat} (hi : i < nt) (hj : j < nb) (hv : c.ev A safe (env i j) = none)
    (hfirst : ∀ i < nt, ∀ j < nb, c.ev A safe (env i j) = none → 2 * i + 1 ≤ nt) :
    applyFuncNamedCompo A nt old data nb order text safe = .error .exn := by
  obtain ⟨e, he⟩ := C84_safe_rejects h hd ho hk env henv safe hi hj hv
  have := named_wp h hd (by omega) ho hk env henv safe True (fun i hi j hj hn => ⟨hfirst i hi j hj hn, trivial⟩)
  rw [he] at this ⊢
  cases e with
  | exn => rfl
  | ub => exact this.elim

/-- When the safe mode gives a result, it is the one which is given without the safe mode. -/
theorem C84_safe_same {A : Arith V} {c : Cst} {text : List Char} (h : Written A c text) {order : List (List Char)} {nt old nb : Nat}
    {data : List V} (hd : data.length = nt * old) (hnb : 0 < nb) (ho : order.length ≤ old) (hk : ∀ x ∈ c.vars, Known order nb x)
    (env : Nat → Nat → List Char → V) (henv : ∀ i < nt, ∀ j < nb, Binds A order old data i j (env i j)) {out : List (Option V)}
    (hs : applyFuncNamedCompo A nt old data nb order text true = .ok out) :
    applyFuncNamedCompo A nt old data nb order text false = .ok out := by
  have hv : ∀ i < nt, ∀ j < nb, c.ev A true (env i j) ≠ none := by
    intro i hi j hj hn
    obtain ⟨e, he⟩ := C84_safe_rejects h hd ho hk env henv true hi hj hn
    rw [hs] at he; simp at he
  obtain ⟨o1, h1, l1, v1⟩ := C84_named h hd hnb ho hk env henv true hv
  obtain ⟨o2, h2, l2, v2⟩ := C84_named_unsafe h hd hnb ho hk env henv
  rw [hs] at h1
  simp only [Except.ok.injEq] at h1
  subst h1
  rw [h2]
  congr 1
  apply List.ext_getElem?
  intro n
  by_cases hn : n < nt * nb
  · have hi : n / nb < nt := Nat.div_lt_of_lt_mul (by rwa [Nat.mul_comm])
    have hj : n % nb < nb := Nat.mod_lt _ hnb
    have e : n = n / nb * nb + n % nb := by rw [Nat.mul_comm]; exact (Nat.div_add_mod n nb).symm
    rw [e]
    obtain ⟨v, hv2, hev⟩ := v2 _ hi _ hj
    rw [hv2, v1 _ hi _ hj]
    cases hs : c.ev A true (env (n / nb) (n % nb)) with
    | none => exact absurd hs (hv _ hi _ hj)
    | some w =>
      have := ev_safe_le A _ c w hs
      rw [hev] at this
      exact congrArg some this
  · rw [List.getElem?_eq_none (by omega), List.getElem?_eq_none (by omega)]

/-- A variable which has no value is refused. -/
theorem C84_unknown {A : Arith V} {c : Cst} {text : List Char} (h : Written A c text) {order : List (List Char)} {nt old nb : Nat}
    {data : List V} (safe : Bool) {x : List Char} (hx : x ∈ c.vars) (hk : ¬ Known order nb x) :
    applyFuncNamedCompo A nt old data nb order text safe = .error .exn := by
  by_cases hnb : nb = 0
  · unfold applyFuncNamedCompo; rw [if_pos hnb]; rfl
  by_cases hcount : (trueVars (some (c.rtree (fun l => Leaf.val (A.lit l)) .var))).length > old
  · unfold applyFuncNamedCompo
    rw [if_neg hnb, h.parse]
    simp only [ok_bind]
    rw [if_pos hcount]; rfl
  · rw [named_start h (by omega) hcount]
    obtain ⟨m, rfl⟩ : ∃ m, nb = m + 1 := ⟨nb - 1, by omega⟩
    have hlink : ∀ j, linkOpt (order ++ List.replicate (old - order.length) []) old (m + 1) j old
        (some (c.rtree (fun l => Leaf.val (A.lit l)) .var)) = .error .exn := by
      intro j
      unfold linkOpt linkExpr
      simp only
      split
      · rfl
      · rw [mapLeaves_rtree_bad (g := linkLeaf (order ++ List.replicate (old - order.length) []) old (m + 1) j) (nl := fun l => Leaf.val (A.lit l)) (vl := Leaf.var)
          c h.wf (fun l => ⟨_, rfl⟩) (fun y => linkLeaf_dich _ _ _ _ y)
          ⟨x, hx, linkLeaf_unknown (vars_name c h.wf x hx).ne hk⟩]
        rfl
    have : ∀ (n : Nat) (s : List (Option V) × List V) (f : Nat → List (Option V) × List V → M (List (Option V) × List V)),
        (∀ j s, f j s = .error .exn) → loop (n + 1) s f = .error .exn := by
      intro n s f hf
      induction n with
      | zero => unfold loop loop; rw [ok_bind]; exact hf 0 s
      | succ n ih => rw [loop, ih]; rfl
    rw [this m _ _ (fun j s => by rw [hlink]; rfl)]
    rfl

/-- More names than components: refused. -/
theorem C84_too_long {A : Arith V} {c : Cst} {text : List Char} (h : Written A c text) {order : List (List Char)} {nt old nb : Nat}
    {data : List V} (safe : Bool) (ho : old < order.length) :
    applyFuncNamedCompo A nt old data nb order text safe = .error .exn := by
  by_cases hnb : nb = 0
  · unfold applyFuncNamedCompo; rw [if_pos hnb]; rfl
  by_cases hcount : (trueVars (some (c.rtree (fun l => Leaf.val (A.lit l)) .var))).length > old
  · unfold applyFuncNamedCompo
    rw [if_neg hnb, h.parse]
    simp only [ok_bind]
    rw [if_pos hcount]; rfl
  · rw [named_start h (by omega) hcount]
    obtain ⟨m, rfl⟩ : ∃ m, nb = m + 1 := ⟨nb - 1, by omega⟩
    have hlink : ∀ j, linkOpt (order ++ List.replicate (old - order.length) []) old (m + 1) j old
        (some (c.rtree (fun l => Leaf.val (A.lit l)) .var)) = .error .exn := by
      intro j
      unfold linkOpt linkExpr
      simp only
      rw [if_pos (by simp; omega)]
      rfl
    have : ∀ (n : Nat) (s : List (Option V) × List V) (f : Nat → List (Option V) × List V → M (List (Option V) × List V)),
        (∀ j s, f j s = .error .exn) → loop (n + 1) s f = .error .exn := by
      intro n s f hf
      induction n with
      | zero => unfold loop loop; rw [ok_bind]; exact hf 0 s
      | succ n ih => rw [loop, ih]; rfl
    rw [this m _ _ (fun j s => by rw [hlink]; rfl)]
    rfl

/-- `applyFunc(nbOfComp, func)` takes the variables in the alphabetical order. -/
theorem C84_alphabetical {A : Arith V} {c : Cst} {text : List Char} (h : Written A c text) {order : List (List Char)}
    (hs : order.Pairwise (· < ·)) (hm : ∀ x, x ∈ order ↔ x ∈ c.vars ∧ ∀ k, k < 18 → x ≠ unitName k)
    (nt old nb : Nat) (data : List V) (safe : Bool) :
    applyFuncN A nt old data nb text safe = applyFuncNamedCompo A nt old data nb order text safe := by
  unfold applyFuncN
  rw [h.parse, ok_bind]
  obtain ⟨h1, h2⟩ := trueVars_spec A c h.wf
  rw [sorted_unique h1 hs (fun x => (h2 x).trans (hm x).symm)]

/-- the values of the names for `applyFunc(func)` -/
def oneEnv (A : Arith V) (x : List Char) (v : V) (y : List Char) : V := if y = x then v else if y = unitName 0 then A.one else A.zero

/-- `applyFunc(func)`: each value is replaced by the value of the expression for it. -/
theorem C84_one {A : Arith V} {c : Cst} {text : List Char} (h : Written A c text) {nt nc : Nat} {data : List V} (hd : data.length = nt * nc)
    (hnc : 0 < nc) {x : List Char} (hx : x ∈ c.vars) (hxu : ∀ k, k < 18 → x ≠ unitName k) (hall : ∀ y ∈ c.vars, y = x ∨ y = unitName 0)
    (safe : Bool) :
    ((∀ v ∈ data, c.ev A safe (oneEnv A x v) ≠ none) → applyFunc A nt nc data text safe = .ok (data.map fun v => c.ev A safe (oneEnv A x v))) ∧
    ((∃ v ∈ data, c.ev A safe (oneEnv A x v) = none) → applyFunc A nt nc data text safe = .error .exn) := by
  have htv : trueVars (some (c.rtree (fun l => Leaf.val (A.lit l)) .var)) = [x] := by
    obtain ⟨h1, h2⟩ := trueVars_spec A c h.wf
    refine sorted_unique h1 (by simp) (fun y => (h2 y).trans ?_)
    simp only [List.mem_singleton]
    constructor
    · rintro ⟨hy, hu⟩
      rcases hall y hy with e | e
      · exact e
      · exact absurd e (hu 0 (by omega))
    · rintro rfl; exact ⟨hx, hxu⟩
  have hkn : ∀ y ∈ c.vars, Known [x] 1 y := by
    intro y hy
    rcases hall y hy with e | e
    · exact Or.inl (by simp [e])
    · exact Or.inr ⟨0, by omega, by omega, e⟩
  obtain ⟨r, hr, hev⟩ := linked (j := 0) (old := 1) h (by simp) hkn data
  simp only [List.length_singleton, Nat.sub_self, List.replicate_zero, List.append_nil] at hr
  have hstart : applyFunc A nt nc data text safe = (loop (nt * nc) (mallocN V (nt * nc), ([] : List V)) fun i st => do
        let x ← rd data i
        let (v, stck) ← evalPop A safe (some r) [x] st.2
        let out ← wr st.1 (i : Int) (some v)
        return (out, stck)) >>= fun res => pure res.1 := by
    unfold applyFunc
    rw [if_neg (by omega), h.parse]
    simp only [ok_bind, htv]
    rw [if_neg (by simp), if_neg (by simp), hr]
    rfl
  have hstep : ∀ i (hi : i < data.length) s, evalPop A safe (some r) [data[i]] s =
      match c.ev A safe (oneEnv A x data[i]) with | some v => .ok (v, s) | none => .error .exn := by
    intro i hi s
    have hb : Binds A [x] 1 data i 0 (oneEnv A x data[i]) := by
      constructor
      · intro k y hy _
        cases k with
        | zero =>
          simp only [List.getElem?_cons_zero, Option.some.injEq] at hy
          subst hy
          simp [hi, oneEnv]
        | succ k => simp at hy
      · intro k hk hn
        unfold oneEnv
        rw [if_neg (fun he => hxu k hk he.symm)]
        congr 1
        have : keyVar (unitName k) = some k := keyVar_unit k hk
        simp only [eq_iff_iff]
        constructor
        · intro he; rw [he] at this
          exact (Option.some.inj (this.symm.trans (keyVar_unit 0 (by omega))))
        · rintro rfl; rfl
    have := hev i _ safe s (by omega) hb
    rw [← this]
    congr 1
    rw [Nat.mul_one, List.drop_eq_getElem_cons hi]
    rfl
  rw [hstart]
  constructor
  · intro hv
    have := wp_loop (n := nt * nc) (s := (mallocN V (nt * nc), ([] : List V))) (E := False)
      (f := fun i st => do
        let x ← rd data i
        let (v, stck) ← evalPop A safe (some r) [x] st.2
        let out ← wr st.1 (i : Int) (some v)
        return (out, stck))
      (I := fun i st => st.1.length = nt * nc ∧ ∀ k < i, st.1[k]? = some ((data[k]?).bind fun v => c.ev A safe (oneEnv A x v)))
      ⟨by simp [mallocN], by omega⟩ (by
        intro i hi st ⟨hl, hdone⟩
        have hi' : i < data.length := by omega
        rw [rd_natCast hi', ok_bind, hstep i hi']
        cases he : c.ev A safe (oneEnv A x data[i]) with
        | none => exact absurd he (hv _ (List.getElem_mem hi'))
        | some v =>
          simp only [ok_bind]
          rw [wr_natCast (by omega), ok_bind, wp_pure]
          refine ⟨by simp [hl], ?_⟩
          intro k hk
          by_cases hki : k = i
          · subst hki
            rw [List.getElem?_set_self (by omega), List.getElem?_eq_getElem hi']
            simp [he]
          · rw [List.getElem?_set_ne (by omega)]
            exact hdone k (by omega))
    obtain ⟨res, h1, hl, hd'⟩ := wp_exists this
    rw [h1, ok_bind]
    congr 1
    apply List.ext_getElem?
    intro k
    by_cases hk : k < nt * nc
    · rw [hd' k hk, List.getElem?_map, List.getElem?_eq_getElem (by omega)]
      rfl
    · rw [List.getElem?_eq_none (by omega), List.getElem?_eq_none (by simp; omega)]
  · rintro ⟨v, hvm, hv⟩
    apply wp_throws
    rw [wp_bind]
    obtain ⟨k, hk, rfl⟩ := List.getElem_of_mem hvm
    refine wp_mono (wp_loop (I := fun i st => st.1.length = nt * nc ∧ i ≤ k) ⟨by simp [mallocN], by omega⟩ ?_) ?_ id
    · intro i hi st ⟨hl, hik⟩
      have hi' : i < data.length := by omega
      rw [rd_natCast hi', ok_bind, hstep i hi']
      cases he : c.ev A safe (oneEnv A x data[i]) with
      | none => trivial
      | some v =>
        simp only [ok_bind]
        rw [wr_natCast (by omega), ok_bind, wp_pure]
        refine ⟨by simp [hl], ?_⟩
        rcases Nat.lt_or_eq_of_le hik with h | rfl
        · omega
        · rw [hv] at he; simp at he
    · rintro st ⟨_, h⟩; omega

/-- `applyFunc(func)` with a constant: the array is filled with its value, whatever the safe mode. -/
theorem C84_one_constant {A : Arith V} {c : Cst} {text : List Char} (h : Written A c text) {nt nc : Nat} (data : List V) (hnc : 0 < nc)
    (hc : c.vars = []) (safe : Bool) (env : List Char → V) :
    applyFunc A nt nc data text safe = .ok (List.replicate (nt * nc) (c.ev A false env)) := by
  obtain ⟨v, hv, hp⟩ := C83_constant h hc env
  have htv : trueVars (some (c.rtree (fun l => Leaf.val (A.lit l)) .var)) = [] := by
    obtain ⟨h1, h2⟩ := trueVars_spec A c h.wf
    refine sorted_unique h1 (by simp) (fun y => (h2 y).trans ?_)
    simp [hc]
  rw [h.parse, ok_bind] at hp
  unfold applyFunc
  rw [if_neg (by omega), h.parse]
  simp only [ok_bind, htv]
  rw [if_neg (by simp), if_pos trivial, hp, hv]
  rfl

/-- `applyFunc(func)` with two variables or more is refused. -/
theorem C84_one_two {A : Arith V} {c : Cst} {text : List Char} (h : Written A c text) {nt nc : Nat} (data : List V) {x y : List Char}
    (hx : x ∈ c.vars) (hy : y ∈ c.vars) (hxy : x ≠ y) (hxu : ∀ k, k < 18 → x ≠ unitName k) (hyu : ∀ k, k < 18 → y ≠ unitName k) (safe : Bool) :
    applyFunc A nt nc data text safe = .error .exn := by
  unfold applyFunc
  by_cases hnc : nc = 0
  · rw [if_pos hnc]; rfl
  · rw [if_neg hnc, h.parse]
    simp only [ok_bind]
    obtain ⟨h1, h2⟩ := trueVars_spec A c h.wf
    have := nodup_sub_length (l := [x, y]) (by simp [hxy]) (m := trueVars (some (c.rtree (fun l => Leaf.val (A.lit l)) .var))) (by
      intro z hz
      simp only [List.mem_cons, List.not_mem_nil, or_false] at hz
      rcases hz with rfl | rfl
      · exact (h2 _).2 ⟨hx, hxu⟩
      · exact (h2 _).2 ⟨hy, hyu⟩)
    rw [if_pos (by simp only [List.length_cons, List.length_nil] at this; omega)]
    rfl

/-! ## Where the code does something else than what is written -/

/-- A number which starts with a point is not seen by the search of the numbers: it is taken as a rank in the list of the numbers.
`.5+3` is `3+3`. -/
theorem C83_finding_point (A : Arith V) (h : A.toInt (A.lit ['.', '5']) = 0) (h0 : A.toInt (A.lit ['0']) = 0) :
    (parseExpr A ['.', '5', '+', '3'] >>= evaluateDouble A) = .ok (A.add (A.lit ['3']) (A.lit ['3'])) := by
  have h1 : fillValues A ['.', '5', '+', '3'] = .ok (['.', '5', '+', '0'], [A.lit ['3']]) := rfl
  have h2 : parseDeep A 5 ['.', '5', '+', '0'] = .ok (.node [.leaf (.val (A.lit ['.', '5'])) [], .leaf (.val (A.lit ['0'])) []] [.f2 .plus]) := rfl
  have h3 : parseExpr A ['.', '5', '+', '3'] = .ok (some (.node [.leaf (.val (A.lit ['3'])) [], .leaf (.val (A.lit ['3'])) []] [.f2 .plus])) := by
    unfold parseExpr
    rw [show deleteWS ['.', '5', '+', '3'] = ['.', '5', '+', '3'] from rfl, if_neg (by simp), h1, ok_bind]
    simp only
    rw [show bracketsGo ['.', '5', '+', '0'] 0 = .ok () from rfl, ok_bind]
    show (parseDeep A 5 _ >>= _) = _
    rw [h2, ok_bind]
    simp [PExpr.mapLeaves, mapLeavesL, replaceLeaf, h, h0, Except.map, ok_bind, PExpr.reverseThis, reverseThisL, pure, Except.pure]
  rw [h3]; rfl

/-- and alone it is refused -/
theorem C83_finding_point_alone (A : Arith V) : parseExpr A ['.', '5'] = .error .exn := by
  unfold parseExpr
  rw [show deleteWS ['.', '5'] = ['.', '5'] from rfl, if_neg (by simp), show fillValues A ['.', '5'] = .ok (['.', '5'], []) from rfl, ok_bind]
  simp only
  rw [show bracketsGo ['.', '5'] 0 = .ok () from rfl, ok_bind]
  show (parseDeep A 3 _ >>= _) = _
  rw [show parseDeep A 3 ['.', '5'] = .ok (.leaf (.val (A.lit ['.', '5'])) []) from rfl, ok_bind]
  simp only [PExpr.mapLeaves, replaceLeaf, List.length_nil]
  rw [if_pos (by omega)]
  rfl

/-- `-cos(3)`: a sign before a function is refused -/
theorem C83_finding_sign_call (A : Arith V) : parseExpr A ['-', 'c', 'o', 's', '(', '3', ')'] = .error .exn := rfl

/-- `abs(max(2,3))`: a function of two parameters inside a function is refused -/
theorem C83_finding_nested (A : Arith V) : parseExpr A ['a', 'b', 's', '(', 'm', 'a', 'x', '(', '2', ',', '3', ')', ')'] = .error .exn := rfl

/-- `2*--3`: two signs after an operator are refused, while `--3` is accepted -/
theorem C83_finding_signs (A : Arith V) : parseExpr A ['2', '*', '-', '-', '3'] = .error .exn := rfl

/-- `(2>1)*3`: a comparison inside an operand is refused -/
theorem C83_finding_comparison (A : Arith V) : parseExpr A ['(', '2', '>', '1', ')', '*', '3'] = .error .exn := rfl

/-- A sum of fourteen numbers of one figure is refused. -/
theorem C83_finding_fourteen (A : Arith V) :
    parseExpr A ['1', '+', '1', '+', '1', '+', '1', '+', '1', '+', '1', '+', '1', '+', '1', '+', '1', '+', '1', '+', '1', '+', '1', '+', '1', '+', '1'] =
      .error .exn := rfl

/-- `applyFuncNamedCompo` in the safe mode: the tuple shown in the message is read outside the array. -/
theorem C84_finding_message (A : Arith V) (a b : V) (ha : A.lt a A.zero = false) (hb : A.lt b A.zero = true) :
    applyFuncNamedCompo A 2 1 [a, b] 1 [['x']] ['s', 'q', 'r', 't', '(', 'x', ')'] true = .error .ub := by
  have h1 : parseExpr A ['s', 'q', 'r', 't', '(', 'x', ')'] = .ok (some (.node [.leaf (.var ['x']) []] [.f1 .sqrt])) := rfl
  have h2 : linkOpt (V := V) [['x']] 1 1 0 1 (some (.node [.leaf (.var ['x']) []] [.f1 .sqrt])) =
      .ok (some (.node [.leaf (.comp 0) []] [.f1 .sqrt])) := rfl
  unfold applyFuncNamedCompo
  rw [if_neg (by decide), h1]
  simp only [ok_bind]
  rw [show trueVars (V := V) (some (.node [.leaf (.var ['x']) []] [.f1 .sqrt])) = [['x']] from rfl, if_neg (by decide)]
  simp only [loop, ok_bind]
  rw [show [['x']] ++ List.replicate (1 - [['x']].length) [] = [['x']] from rfl, h2]
  simp only [ok_bind]
  have e1 : evalPop A true (some (.node [.leaf (.comp 0) []] [.f1 .sqrt])) ((List.drop (0 * 1) [a, b]).take 1) [] = .ok (A.math .sqrt a, []) := by
    show (evalTree A true [a] _ [] >>= _) = _
    have : evalTree A true [a] (.node [.leaf (.comp 0) []] [.f1 .sqrt]) [] = .ok [A.math .sqrt a] := by
      show (operateStack A true (.f1 .sqrt) [a] >>= fun s => pure s) = _
      rw [operateStack_1]; simp [bad1, value1, ha]
    rw [this]; rfl
  have e2 : evalPop A true (some (.node [.leaf (.comp 0) []] [.f1 .sqrt])) ((List.drop (1 * 1) [a, b]).take 1) [] = .error .exn := by
    show (evalTree A true [b] _ [] >>= _) = _
    have : evalTree A true [b] (.node [.leaf (.comp 0) []] [.f1 .sqrt]) [] = .error .exn := by
      show (operateStack A true (.f1 .sqrt) [b] >>= fun s => pure s) = _
      rw [operateStack_1]; simp [bad1, value1, hb]
    rw [this]; rfl
  rw [e1]
  simp only
  rw [show (wr (mallocN V (2 * 1)) ((0 * 1 + 0 : Nat) : Int) (some (A.math .sqrt a)) : M (List (Option V))) = .ok [some (A.math .sqrt a), none] from rfl]
  simp only [ok_bind, pure_bind]
  rw [e2]
  rfl

/-- `applyFunc("IVec")` reads a number which was never written. -/
theorem C84_finding_unit_alone (A : Arith V) (nt nc : Nat) (h : 0 < nc) (data : List V) (safe : Bool) :
    applyFunc A nt nc data ['I', 'V', 'e', 'c'] safe = .error .ub := by
  unfold applyFunc
  rw [if_neg (by omega), show parseExpr A ['I', 'V', 'e', 'c'] = .ok (some (.leaf (.var ['I', 'V', 'e', 'c']) [])) from rfl]
  rfl

/-! ## A concrete case -/

/-- whole numbers: only the figures of a number are read -/
def intArith : Arith Int where
  lit l := Nat.ofDigitChars 10 l 0
  toInt v := v
  zero := 0
  one := 1
  top := 1000000
  neg v := -v
  add a b := a + b
  sub a b := a - b
  mul a b := a * b
  div a b := a / b
  pow a b := a ^ b.toNat
  lt a b := decide (a < b)
  eq a b := decide (a = b)
  math _ v := v

theorem intArith_laws : intArith.Laws where
  neg_neg v := by simp [intArith]
  toInt_lit k := by simp [intArith, Nat.ofDigitChars_toDigits]

/-- `3*(y - IVec)/x` -/
def sampleCst : Cst :=
  .bin .div (.bin .mult (.num ['3']) (.call .identity (.bin .minus (.var ['y']) (.var (unitName 0))))) (.var ['x'])

theorem sample_number : IsNumber ['3'] := ⟨['3'], [], [], rfl, by simp, by decide, Or.inl rfl, Or.inl rfl⟩

theorem sample_written : Written intArith sampleCst ['3', '*', ' ', '(', 'y', ' ', '-', ' ', 'I', 'V', 'e', 'c', ')', '/', 'x'] where
  laws := intArith_laws
  wf := by
    refine ⟨by decide, by decide, by decide, by decide, by decide, by decide, by decide,
      ⟨by decide, by decide, by decide, by decide, by decide, by decide, by decide, sample_number, by decide, by decide, by decide,
        by decide, by decide, by decide, by decide, by decide, by decide, by decide, ?_, ?_⟩, ?_⟩
    · exact ⟨'y', [], rfl, Or.inl (by decide), by decide⟩
    · exact ⟨'I', ['V', 'e', 'c'], rfl, Or.inl (by decide), by decide⟩
    · exact ⟨'x', [], rfl, Or.inl (by decide), by decide⟩
  long := ⟨by decide, trivial⟩
  text_eq := by decide

example : ∃ env : Nat → Nat → List Char → Int, ∀ i < 2, ∀ j < 2, Binds intArith [['x'], ['y']] 2 [1, 2, 3, 4] i j (env i j) :=
  ⟨fun i j y => if y = ['x'] then [1, 2, 3, 4].getD (i * 2) 0 else if y = ['y'] then [1, 2, 3, 4].getD (i * 2 + 1) 0 else
      if y = unitName j then 1 else 0, by
    intro i hi j hj
    constructor
    · intro k x hk hn
      match k with
      | 0 =>
        simp only [List.getElem?_cons_zero, Option.some.injEq] at hk
        subst hk
        interval_cases i <;> rfl
      | 1 =>
        simp only [List.getElem?_cons_succ, List.getElem?_cons_zero, Option.some.injEq] at hk
        subst hk
        interval_cases i <;> rfl
      | k + 2 => simp at hk
    · intro k hk hn
      interval_cases j <;> interval_cases k <;> rfl⟩

example : ∀ x ∈ sampleCst.vars, Known [['x'], ['y']] 2 x := by
  intro x hx
  simp only [sampleCst, Cst.vars, List.nil_append, List.mem_append, List.mem_singleton] at hx
  rcases hx with (rfl | rfl) | rfl
  · exact Or.inl (by simp)
  · exact Or.inr ⟨0, by omega, by omega, rfl⟩
  · exact Or.inl (by simp)

/-- a test: the whole run -/
example : applyFuncNamedCompo intArith 2 2 [1, 2, 3, 4] 2 [['x'], ['y']]
    ['3', '*', ' ', '(', 'y', ' ', '-', ' ', 'I', 'V', 'e', 'c', ')', '/', 'x'] true = .ok [some 3, some 6, some 3, some 4] := by decide +kernel

/-- the value is none in the safe mode when `x` is zero -/
example : sampleCst.ev intArith true (fun _ => 0) = none := by decide

/-- `-2^2` is 4 and `2^3^2` is 64 -/
example : (Cst.bin .pow (.sign ['-'] (.num ['2'])) (.num ['2'])).WF IsNumber ∧
    (Cst.bin .pow (.sign ['-'] (.num ['2'])) (.num ['2'])).ev intArith false (fun _ => 0) = some 4 :=
  ⟨⟨by decide, by decide, by decide, by decide, by decide, by decide, by decide, ⟨by decide, by decide, by decide,
    ⟨['2'], [], [], rfl, by simp, by decide, Or.inl rfl, Or.inl rfl⟩⟩, ⟨['2'], [], [], rfl, by simp, by decide, Or.inl rfl, Or.inl rfl⟩⟩, by decide⟩

/-- a constant: `2+3*4` -/
example : ∃ c : Cst, Written intArith c ['2', '+', '3', '*', '4'] ∧ c.vars = [] ∧ c.ev intArith false (fun _ => 0) = some 14 :=
  ⟨.bin .plus (.num ['2']) (.bin .mult (.num ['3']) (.num ['4'])), ⟨intArith_laws,
    ⟨by decide, by decide, by decide, by decide, by decide, by decide, by decide, ⟨['2'], [], [], rfl, by simp, by decide, Or.inl rfl, Or.inl rfl⟩,
      ⟨by decide, by decide, by decide, by decide, by decide, by decide, by decide, ⟨['3'], [], [], rfl, by simp, by decide, Or.inl rfl, Or.inl rfl⟩,
        ⟨['4'], [], [], rfl, by simp, by decide, Or.inl rfl, Or.inl rfl⟩⟩⟩,
    ⟨by decide, by decide, by decide, trivial⟩, by decide⟩, rfl, by decide⟩

/-- `x*x+IVec` on whole arrays, and the alphabetical order of `x` and `y` -/
example : ∃ c : Cst, Written intArith c ['x', '*', 'x', '+', 'I', 'V', 'e', 'c'] ∧ ['x'] ∈ c.vars ∧ (∀ y ∈ c.vars, y = ['x'] ∨ y = unitName 0) :=
  ⟨.bin .plus (.bin .mult (.var ['x']) (.var ['x'])) (.var (unitName 0)), ⟨intArith_laws,
    ⟨by decide, by decide, by decide, by decide, by decide, by decide, by decide,
      ⟨by decide, by decide, by decide, by decide, by decide, by decide, by decide, ⟨'x', [], rfl, Or.inl (by decide), by decide⟩,
        ⟨'x', [], rfl, Or.inl (by decide), by decide⟩⟩, ⟨'I', ['V', 'e', 'c'], rfl, Or.inl (by decide), by decide⟩⟩,
    trivial, by decide⟩, by simp [Cst.vars], by simp [Cst.vars]⟩

example : [['x'], ['y']].Pairwise (· < ·) ∧ ∀ x, x ∈ [['x'], ['y']] ↔ x ∈ sampleCst.vars ∧ ∀ k, k < 18 → x ≠ unitName k := by
  refine ⟨by decide, ?_⟩
  intro x
  simp only [sampleCst, Cst.vars, List.nil_append, List.mem_append, List.mem_singleton, List.mem_cons, List.not_mem_nil, or_false]
  constructor
  · rintro (rfl | rfl)
    · exact ⟨Or.inr rfl, fun k hk h => by have := congrArg List.length h; simp [unitName] at this⟩
    · exact ⟨Or.inl (Or.inl rfl), fun k hk h => by have := congrArg List.length h; simp [unitName] at this⟩
  · rintro ⟨(rfl | rfl) | rfl, h⟩
    · exact Or.inr rfl
    · exact absurd rfl (h 0 (by omega))
    · exact Or.inl rfl

end MC
