import Verif.GaussAdapt

/-!
# C97: conversion of the quadratic reference cells to linear ones
-/

namespace MC

/-- The quadratic functions combined with the values of the function `i` of the linear cell at the quadratic nodes. -/
def linE (q l : RefElt) (i : Nat) : PExp :=
  sumE (List.zipWith (fun r f => .mul (.num ((l.values r).getD i 0)) f) q.ref q.fn)

/-- The quadratic functions reproduce the functions of the linear cell. -/
def linOK (q l : RefElt) : Bool :=
  q.pole == l.pole && ((List.range l.fn.length).all fun i => PExp.eqv q.pole (linE q l i) (l.fn.getD i 0)) &&
    (match q.apex, l.apex with
      | some a, some b => (List.range l.fn.length).all fun i =>
          (List.zipWith (fun (r : List Rat) c => (l.values r).getD i 0 * c) q.ref a.1).sum = b.1.getD i 0
      | _, _ => true)

theorem lin_seg3 : linOK ge_seg3 ge_seg2a = true := by decide +kernel
theorem lin_tria6b : linOK ge_tria6b ge_tria3b = true := by decide +kernel
theorem lin_tria7a : linOK ge_tria7a ge_tria3b = true := by decide +kernel
theorem lin_quad8a : linOK ge_quad8a ge_quad4a = true := by decide +kernel
theorem lin_quad8b : linOK ge_quad8b ge_quad4b = true := by decide +kernel
theorem lin_quad9a : linOK ge_quad9a ge_quad4b = true := by decide +kernel
theorem lin_tetra10a : linOK ge_tetra10a ge_tetra4a = true := by decide +kernel
theorem lin_tetra10b : linOK ge_tetra10b ge_tetra4b = true := by decide +kernel
theorem lin_pyra13a : linOK ge_pyra13a ge_pyra5a = true := by decide +kernel
theorem lin_pyra13b : linOK ge_pyra13b ge_pyra5b = true := by decide +kernel
theorem lin_penta15a : linOK ge_penta15a ge_penta6a = true := by decide +kernel
theorem lin_penta15b : linOK ge_penta15b ge_penta6b = true := by decide +kernel
theorem lin_penta18a : linOK ge_penta18a ge_penta6a = true := by decide +kernel
theorem lin_penta18b : linOK ge_penta18b ge_penta6b = true := by decide +kernel
theorem lin_hexa20a : linOK ge_hexa20a ge_hexa8a = true := by decide +kernel
theorem lin_hexa20b : linOK ge_hexa20b ge_hexa8b = true := by decide +kernel
theorem lin_hexa27a : linOK ge_hexa27a ge_hexa8b = true := by decide +kernel

theorem linTable_ok (t : Int × Int × List (RefElt × RefElt)) (ht : t ∈ linTable) (p : RefElt × RefElt) (hp : p ∈ t.2.2)
    (hd : p.1.ref.Nodup) : linOK p.1 p.2 = true := by
  simp only [linTable, List.mem_cons, List.not_mem_nil, or_false] at ht
  rcases ht with rfl | rfl | rfl | rfl | rfl | rfl | rfl | rfl | rfl | rfl | rfl <;>
    simp only [List.mem_cons, List.not_mem_nil, or_false] at hp
  · subst hp; exact lin_seg3
  · rcases hp with rfl | rfl
    · exact absurd hd (by decide +kernel)
    · exact lin_tria6b
  · subst hp; exact lin_tria7a
  · rcases hp with rfl | rfl
    · exact lin_quad8a
    · exact lin_quad8b
  · subst hp; exact lin_quad9a
  · rcases hp with rfl | rfl
    · exact lin_tetra10a
    · exact lin_tetra10b
  · rcases hp with rfl | rfl
    · exact lin_pyra13a
    · exact lin_pyra13b
  · rcases hp with rfl | rfl
    · exact lin_penta15a
    · exact lin_penta15b
  · rcases hp with rfl | rfl
    · exact lin_penta18a
    · exact lin_penta18b
  · rcases hp with rfl | rfl
    · exact lin_hexa20a
    · exact lin_hexa20b
  · subst hp; exact lin_hexa27a

/-- The rows of the table of patterns: the cells are reference cells of their types, of the same dimension, the linear nodes
are the first quadratic ones, and the patterns are distinct. -/
theorem linTable_rows : ∀ t ∈ linTable, linTable.lookup t.1 = some t.2 ∧
    (∃ cm, getCellModel t.1 = .ok cm ∧ cm.quad = true ∧ cm.linearType = t.2.1) ∧
    t.2.2.Pairwise (fun a b => a.1.ref.flatten.length = b.1.ref.flatten.length ∧ matchQ a.1 b.1 = false) ∧
    ∀ p ∈ t.2.2, matchQ p.1 p.1 = true ∧ p.1.dim = p.2.dim ∧ p.2.ref = p.1.ref.take p.2.fn.length ∧
      p.2.ref.length = p.2.fn.length ∧ p.2.fn.length ≤ p.1.fn.length := by
  have h1 : ∀ t ∈ linTable, t.2.2.Pairwise (fun a b => a.1.ref.flatten.length = b.1.ref.flatten.length ∧ matchQ a.1 b.1 = false) ∧
    ∀ p ∈ t.2.2, matchQ p.1 p.1 = true ∧ p.1.dim = p.2.dim ∧ p.2.ref = p.1.ref.take p.2.fn.length ∧
      p.2.ref.length = p.2.fn.length ∧ p.2.fn.length ≤ p.1.fn.length := by decide +kernel
  have h2 : ∀ t ∈ linTable, ∃ cm, getCellModel t.1 = .ok cm ∧ cm.quad = true ∧ cm.linearType = t.2.1 := by
    intro t ht
    simp only [linTable, List.mem_cons, List.not_mem_nil, or_false] at ht
    rcases ht with rfl | rfl | rfl | rfl | rfl | rfl | rfl | rfl | rfl | rfl | rfl <;> exact ⟨_, rfl, rfl, rfl⟩
  have h3 : ∀ t ∈ linTable, linTable.lookup t.1 = some t.2 := by
    intro t ht
    simp only [linTable, List.mem_cons, List.not_mem_nil, or_false] at ht
    rcases ht with rfl | rfl | rfl | rfl | rfl | rfl | rfl | rfl | rfl | rfl | rfl <;> rfl
  exact fun t ht => ⟨h3 t ht, h2 t ht, h1 t ht⟩

end MC
