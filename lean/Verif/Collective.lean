import Verif.BlockTopo
import Mathlib.Algebra.BigOperators.Group.List.Basic

/-!
# Collective communications

A model of the MPI standard (not of `/repo`), as the communications are reached through `src/ParaMEDMEM/CommInterface.hxx`: all processors of a
communicator call the function, and the run is a function of what they all give.  Arguments which do not match are undefined.
-/

namespace MC
variable {α : Type}

/-- What a processor gives to `MPI_Alltoallv` to be sent: the buffer, and the number of values and the position for every processor.
A position may be an uninitialised value. -/
structure Snd (α : Type) where
  buf : List (Option α)
  counts : List Nat
  displs : List (Option Nat)
deriving DecidableEq, Repr

/-- What a processor gives to be filled. -/
structure Rcv (α : Type) where
  buf : List (Option α)
  counts : List Nat
  displs : List (Option Nat)
deriving DecidableEq, Repr

/-- copy of `n` cells between raw buffers -/
def copyCells (src : List (Option α)) (a n : Nat) (dst : List (Option α)) (c : Nat) : M (List (Option α)) :=
  if a + n ≤ src.length ∧ c + n ≤ dst.length then .ok (dst.take c ++ (src.drop a).take n ++ dst.drop (c + n)) else undef

/-- a cell which must have been initialised -/
def known : Option α → M α
  | some a => .ok a
  | none => undef

/-- `MPI_Alltoallv` as seen by processor `me` of a communicator of `U` processors: it fills its buffer from the buffers of all.  The numbers of values sent and
expected must be the same; nothing is read from the positions when there is no value. -/
def recvFrom (U me : Nat) (snds : List (Snd α)) (r : Rcv α) : M (List (Option α)) :=
  loop U r.buf fun i buf => do
    let s ← vget snds i
    let sc ← vget s.counts me
    let rc ← vget r.counts i
    if sc ≠ rc then undef
    else if rc = 0 then return buf
    else do
      let sd ← known (← vget s.displs me)
      let rd ← known (← vget r.displs i)
      copyCells s.buf sd sc buf rd

/-- `MPI_Alltoallv` on a communicator of `snds.length` processors -/
def allToAllV (snds : List (Snd α)) (rcvs : List (Rcv α)) : M (List (List (Option α))) :=
  (List.range rcvs.length).mapM fun me => do
    let r ← vget rcvs me
    recvFrom snds.length me snds r

/-! ## Buffers as pieces put end to end -/

/-- `F 0`, `F 1`, ..., `F (K - 1)` put end to end -/
def cat (K : Nat) (F : Nat → List α) : List α := ((List.range K).map F).flatten

@[simp] theorem cat_zero (F : Nat → List α) : cat 0 F = [] := rfl

theorem cat_succ (K : Nat) (F : Nat → List α) : cat (K + 1) F = cat K F ++ F K := by
  simp [cat, List.range_succ]

theorem cat_congr {K : Nat} {F G : Nat → List α} (h : ∀ i < K, F i = G i) : cat K F = cat K G := by
  induction K with
  | zero => rfl
  | succ K ih => rw [cat_succ, cat_succ, ih fun i hi => h i (by omega), h K (by omega)]

theorem cat_length (K : Nat) (F : Nat → List α) : (cat K F).length = ((List.range K).map fun i => (F i).length).sum := by
  induction K with
  | zero => rfl
  | succ K ih => rw [cat_succ, List.length_append, ih, List.range_succ]; simp

theorem cat_map {β : Type} (K : Nat) (F : Nat → List α) (f : α → β) : (cat K F).map f = cat K fun i => (F i).map f := by
  induction K with
  | zero => rfl
  | succ K ih => rw [cat_succ, cat_succ, List.map_append, ih]

theorem cat_length_mono {K : Nat} (F : Nat → List α) {j : Nat} (h : j < K) : (cat j F).length + (F j).length ≤ (cat K F).length := by
  induction K with
  | zero => omega
  | succ K ih =>
    rw [cat_succ, List.length_append]
    rcases Nat.lt_or_ge j K with hj | hj
    · have := ih hj; omega
    · have : j = K := by omega
      subst this; omega

theorem cat_get {K : Nat} (F : Nat → List α) {j k : Nat} (hj : j < K) (hk : k < (F j).length) :
    (cat K F)[(cat j F).length + k]? = (F j)[k]? := by
  induction K with
  | zero => omega
  | succ K ih =>
    rw [cat_succ]
    rcases Nat.lt_or_ge j K with hjK | hjK
    · rw [List.getElem?_append_left]
      · exact ih hjK
      · have := cat_length_mono F hjK; omega
    · have : j = K := by omega
      subst this
      rw [List.getElem?_append_right (by omega)]; simp

theorem cat_drop {K : Nat} (F : Nat → List α) {j : Nat} (hj : j < K) : ((cat K F).drop (cat j F).length).take (F j).length = F j := by
  induction K with
  | zero => omega
  | succ K ih =>
    rw [cat_succ]
    rcases Nat.lt_or_ge j K with hjK | hjK
    · have := cat_length_mono F hjK
      rw [List.drop_append_of_le_length (by omega), List.take_append_of_le_length (by rw [List.length_drop]; omega), ih hjK]
    · have : j = K := by omega
      subst this; simp

theorem cat_set {K : Nat} (F : Nat → List α) {j k : Nat} (hj : j < K) (hk : k < (F j).length) (v : α) :
    (cat K F).set ((cat j F).length + k) v = cat K fun i => if i = j then (F j).set k v else F i := by
  induction K with
  | zero => omega
  | succ K ih =>
    rw [cat_succ, cat_succ]
    rcases Nat.lt_or_ge j K with hjK | hjK
    · have := cat_length_mono F hjK
      rw [List.set_append_left _ _ (by omega), ih hjK, if_neg (show ¬ K = j by omega)]
    · have : j = K := by omega
      subst this
      rw [List.set_append_right _ _ (by omega), Nat.add_sub_cancel_left, if_pos rfl]
      congr 1
      exact cat_congr fun i hi => by rw [if_neg (by omega)]

/-- What processor `me` gets: the pieces of all processors, end to end, when its positions are the sums of the numbers of values before. -/
theorem recvFrom_ok {U me : Nat} {snds : List (Snd α)} {r : Rcv α} (F : Nat → List (Option α))
    (hs : ∀ i < U, ∃ s, snds[i]? = some s ∧ s.counts[me]? = some (F i).length ∧
      (F i ≠ [] → ∃ d, s.displs[me]? = some (some d) ∧ (s.buf.drop d).take (F i).length = F i ∧ d + (F i).length ≤ s.buf.length))
    (hc : ∀ i < U, r.counts[i]? = some (F i).length)
    (hd : ∀ i < U, F i ≠ [] → r.displs[i]? = some (some (cat i F).length))
    (hl : r.buf.length = (cat U F).length) : recvFrom U me snds r = .ok (cat U F) := by
  have key : ∀ k, k ≤ U → loop k r.buf (fun i buf => do
      let s ← vget snds i
      let sc ← vget s.counts me
      let rc ← vget r.counts i
      if sc ≠ rc then undef
      else if rc = 0 then return buf
      else do
        let sd ← known (← vget s.displs me)
        let rd ← known (← vget r.displs i)
        copyCells s.buf sd sc buf rd) = .ok (cat k F ++ r.buf.drop (cat k F).length) := by
    intro k
    induction k with
    | zero => intro _; simp [loop]
    | succ k ih =>
      intro hk
      unfold loop
      rw [ih (by omega), ok_bind]
      obtain ⟨s, h1, h2, h3⟩ := hs k (by omega)
      have hvs : vget snds k = .ok s := by simp [vget, h1]
      have hvc : vget s.counts me = .ok (F k).length := by simp [vget, h2]
      have hvr : vget r.counts k = .ok (F k).length := by simp [vget, hc k (by omega)]
      simp only [hvs, hvc, hvr, ok_bind, ne_eq, not_true_eq_false, if_false]
      by_cases hF : F k = []
      · rw [if_pos (by simp [hF]), cat_succ, hF]
        simp; rfl
      · have hlen : (F k).length ≠ 0 := by simpa using hF
        obtain ⟨d, hd1, hd2, hd3⟩ := h3 hF
        have hvd : vget s.displs me = .ok (some d) := by simp [vget, hd1]
        have hvd2 : vget r.displs k = .ok (some (cat k F).length) := by simp [vget, hd k (by omega) hF]
        rw [if_neg hlen]
        simp only [hvd, hvd2, ok_bind, known]
        unfold copyCells
        have hm := cat_length_mono F (show k < U by omega)
        rw [if_pos ⟨hd3, by rw [List.length_append, List.length_drop]; omega⟩, hd2, cat_succ]
        congr 1
        rw [List.take_append_of_le_length le_rfl, List.take_length, List.append_assoc, List.append_assoc, List.length_append]
        congr 2
        rw [List.drop_append, List.drop_of_length_le (by omega), List.nil_append, List.drop_drop]
        congr 1
        omega
  have := key U le_rfl
  rw [← hl, List.drop_of_length_le le_rfl, List.append_nil] at this
  exact this

end MC
