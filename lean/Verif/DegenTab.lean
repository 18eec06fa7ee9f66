import Verif.DegenEquiv
import Verif.CellModelProps
import Mathlib.Data.List.Cycle

/-!
# Polyhedra with the faces of a usual cell, on the positions of the nodes (C105)

The faces of a usual cell are given by the positions of their nodes.  A polyhedron with these faces, whatever their order and the first node of
each face, is recognized.  The tables cover all the cases for the faces which the search uses.
-/

namespace MC

/-- The same faces: in any order, each of them from any of its nodes, in the same direction. -/
def SameFaces {α : Type} (A B : List (List α)) : Prop :=
  (A.map fun l : List α => (l : Cycle α)).Perm (B.map fun l : List α => (l : Cycle α))

/-- The faces of a cell of a static type, given by its nodes -/
def sonsOf {α : Type} [Inhabited α] (cm : CellModel) (r : List α) : List (List α) := cm.sons.map fun s => pick r s.2

/-- The rotation which begins with the least value -/
def canonRot (l : List Nat) : List Nat := l.rotate (l.idxOf (l.foldl min (l.headD 0)))

/-- A test of `SameFaces` -/
def sameFacesB (A B : List (List Nat)) : Bool := (A.map canonRot).isPerm (B.map canonRot)

theorem canon_cycle (l : List Nat) : (canonRot l : Cycle Nat) = (l : Cycle Nat) :=
  Cycle.coe_eq_coe.mpr ⟨l.length - (l.idxOf (l.foldl min (l.headD 0))) % l.length, by
    unfold canonRot
    by_cases h : l = []
    · subst h; rfl
    · have hl : 0 < l.length := List.length_pos_of_ne_nil h
      have := Nat.mod_lt (l.idxOf (l.foldl min (l.headD 0))) hl
      rw [← List.rotate_mod l (l.idxOf _), List.rotate_rotate]
      rw [show l.idxOf (l.foldl min (l.headD 0)) % l.length + (l.length - l.idxOf (l.foldl min (l.headD 0)) % l.length) = l.length by omega,
        List.rotate_length]⟩

theorem sameFaces_of_test {A B : List (List Nat)} (h : sameFacesB A B = true) : SameFaces A B := by
  have hp := List.Perm.map (fun l : List Nat => (l : Cycle Nat)) (List.isPerm_iff.mp h)
  rw [List.map_map, List.map_map] at hp
  have e : ((fun l : List Nat => (l : Cycle Nat)) ∘ canonRot) = fun l : List Nat => (l : Cycle Nat) := by
    funext l
    exact canon_cycle l
  rw [e] at hp
  exact hp

/-- The rotations of a list -/
def rots (l : List Nat) : List (List Nat) := (List.range l.length).map fun k => l.rotate k

theorem mem_rots {l s : List Nat} (hs : s ≠ []) (h : (l : Cycle Nat) = (s : Cycle Nat)) : l ∈ rots s := by
  obtain ⟨n, hn⟩ := (Cycle.coe_eq_coe.mp h.symm)
  have hl : 0 < s.length := List.length_pos_of_ne_nil hs
  exact List.mem_map.mpr ⟨n % s.length, List.mem_range.mpr (Nat.mod_lt _ hl), by rw [List.rotate_mod]; exact hn⟩

/-- The prism found from a base, the opposite face and a side face has the faces of the cell. -/
def okPrism (cm : CellModel) (s0 s1 s2 : List Nat) : Bool :=
  match orientOppositeFace s0 (s1.take 1 ++ (s1.drop 1).reverse) s2 with
  | some r => sameFacesB (sonsOf cm (s0 ++ r)) (cm.sons.map Prod.snd)
  | none => false

/-- All the choices of the base, of the opposite face (with `n` nodes) and of a side face. -/
def prismTab (cm : CellModel) (n : Nat) : Bool :=
  (cm.sons.map Prod.snd).all fun a => (cm.sons.map Prod.snd).all fun b => (cm.sons.map Prod.snd).all fun c =>
    a.length != n || b.length != n || !(meet a b).isEmpty || a == b || a == c || b == c ||
      ((rots a).all fun a' => (rots b).all fun b' => (rots c).all fun c' => okPrism cm a' b' c')

set_option maxRecDepth 100000 in
theorem tab_hexa8 : prismTab cm_hexa8 4 = true := by decide +kernel

set_option maxRecDepth 100000 in
theorem tab_penta6 : prismTab cm_penta6 3 = true := by decide +kernel

set_option maxRecDepth 100000 in
theorem tab_hexgp12 : prismTab cm_hexgp12 6 = true := by decide +kernel

/-- The cone found from a base has the faces of the cell: all the choices of the base (with `n` nodes) and of another face. -/
def coneTab (cm : CellModel) (n : Nat) : Bool :=
  (cm.sons.map Prod.snd).all fun a => a.length != n || ((rots a).all fun a' => (List.range cm.nbPts).any fun p =>
    sameFacesB (sonsOf cm (a' ++ [p])) (cm.sons.map Prod.snd) &&
    (cm.sons.map Prod.snd).all fun b => a == b || ((rots b).all fun b' => (meet b' a').length == 2 && minus b' a' == [p]))

theorem tab_pyra5 : coneTab cm_pyra5 4 = true := by decide +kernel

theorem tab_tetra4 : coneTab cm_tetra4 3 = true := by decide +kernel

/-- The faces of the usual cells are different. -/
theorem sons_nodup : ∀ cm ∈ [cm_tetra4, cm_pyra5, cm_penta6, cm_hexa8, cm_hexgp12],
    ((cm.sons.map Prod.snd).map fun l : List Nat => (l : Cycle Nat)).Nodup ∧ (∀ s ∈ cm.sons, s.2 ≠ []) := by
  decide +kernel

end MC
