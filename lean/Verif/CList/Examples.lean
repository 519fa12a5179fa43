import Verif.CList.PropsIter

/-!
# Linked lists: concrete runs
-/

set_option autoImplicit false

namespace Osip.ListEx

open Osip

/-- A heap with a node of some other list at address 99. -/
def others : Heap := fun a => if a = 99 then some ⟨0, 5⟩ else none

/-- The list 11, 12, 13 made by adding at the end, in front and in the middle. -/
def three : Option (Heap × CList) := do
  let (_, h, li) ← list_add others {} 11 (-1) 40
  let (_, h, li) ← list_add h li 13 (-1) 20
  let (_, h, li) ← list_add h li 12 1 30
  return (h, li)

example : (three.bind fun (h, li) => do
    let a ← list_get h li 0
    let b ← list_get h li 1
    let c ← list_get h li 2
    let d ← list_get h li 3
    return (li.nb_elt, [a, b, c, d], (h 99).map (·.element))) =
    some (3, [some 11, some 12, some 13, none], some 5) := by decide +kernel

/-- The hypotheses of the theorems hold for it. -/
theorem three_owns : ∃ h li, three = some (h, li) ∧ Owns h li [11, 12, 13] others := by
  obtain ⟨h1, l1, e1, o1⟩ := (c25_add (owns_init others) (by decide) 11 (-1)
    (fresh := 40) (.inr (by decide))).2 (by decide)
  have hf : ∀ a, a ≠ 40 → h1 a = others a := by
    intro a ha
    have : some (((0 : Nat) : Int) + 1, h1, l1) = list_add others {} 11 (-1) 40 := e1.symm
    simp [list_add, incr] at this
    rw [this.1]
    exact Heap.set_ne _ _ ha
  obtain ⟨h2, l2, e2, o2⟩ := (c25_add o1 (by decide) 13 (-1)
    (fresh := 20) (.inr (by rw [hf 20 (by decide)]; decide))).2 (by decide)
  have ho : Owns h1 l1 [11] others := o1
  obtain ⟨cells, s, p, x, n⟩ := ho
  have hf2 : h2 30 = none := by
    have e2' := e2
    have e1' : list_add others {} 11 (-1) 40 = some (1, others.set 40 ⟨0, 11⟩, ⟨1, 40⟩) := by
      simp [list_add, incr]
    have : h1 = others.set 40 ⟨0, 11⟩ ∧ l1 = ⟨1, 40⟩ := by
      have e1'' : list_add others {} 11 (-1) 40 = some (1, h1, l1) := e1
      rw [e1'] at e1''
      simp at e1''
      exact ⟨e1''.1.symm, e1''.2.symm⟩
    rw [this.1, this.2] at e2'
    have : (list_add (others.set 40 ⟨0, 11⟩) ⟨1, 40⟩ 13 (-1) 20).map (fun r => r.2.1 30) =
        some none := by decide +kernel
    rw [e2'] at this
    simpa using this
  obtain ⟨h3, l3, e3, o3⟩ := (c25_add o2 (by decide) 12 1 (fresh := 30) (.inr hf2)).2 (by decide)
  refine ⟨h3, l3, ?_, o3⟩
  have e1' : list_add others {} 11 (-1) 40 = some (1, h1, l1) := e1
  simp only [three, e1', Option.bind_eq_bind, Option.bind_some]
  rw [e2]
  simp only [Option.bind_some]
  rw [e3]
  rfl

/-- Removing the elements 12 and 13 while walking leaves 11; the other list is untouched and the
nodes are freed. -/
example : (three.bind fun (h, li) => do
    let (v, h, li) ← walkList (fun _ e => e == some 12 || e == some 13) h li ⟨7, .next 3, 5⟩ 10
    let a ← list_get h li 0
    return (v, li.nb_elt, a, (h 20).isSome, (h 30).isSome, (h 99).isSome)) =
    some ([some 11, some 12, some 13], 1, some 11, false, false, true) := by decide +kernel

/-- Without memory nothing is added. -/
example : (three.bind fun (h, li) => (list_add h li 14 1 0).map (fun r => (r.1, r.2.2.nb_elt))) =
    some (OSIP_NOMEM, 3) := by decide +kernel

/-- A position below -1 means position 1. -/
example : (three.bind fun (h, li) => (list_add h li 14 (-7) 50).bind (fun r =>
    (list_get r.2.1 r.2.2 1))) = some (some 14) := by decide +kernel

/-- **C66** does not hold when memory runs out: cloning reports success although the second element
is missing in the copy (and leaked). -/
theorem c66_violated : ∃ h src h' dst, Owns h src [11, 12, 13] others ∧
    list_clone (fun x => .ok (x + 100)) (fun k _ => if k = 1 then 0 else 60 + k) h src {} ⟨0, .head, 0⟩
      10 = some (OSIP_SUCCESS, h', dst) ∧
    list_get h' dst 0 = some (some 111) ∧ list_get h' dst 1 = some (some 113) ∧
    list_size dst = 2 := by
  obtain ⟨h, src, e, o⟩ := three_owns
  have key : (three.bind fun (h, li) => (list_clone (fun x => .ok (x + 100))
      (fun k _ => if k = 1 then 0 else 60 + k) h li {} ⟨0, .head, 0⟩ 10).bind fun r => do
        let a ← list_get r.2.1 r.2.2 0
        let b ← list_get r.2.1 r.2.2 1
        return (r.1, a, b, list_size r.2.2)) = some (OSIP_SUCCESS, some 111, some 113, 2) := by
    decide +kernel
  simp only [e, Option.bind_some, Option.bind_eq_bind, Option.bind_eq_some_iff] at key
  obtain ⟨⟨i, h', dst⟩, h1, a, h2, b, h3, h4⟩ := key
  simp only [Option.pure_def, Option.some.injEq, Prod.mk.injEq] at h4
  rw [h4.1] at h1
  exact ⟨h, src, h', dst, o, h1, by rw [h2, h4.2.1], by rw [h3, h4.2.2.1], h4.2.2.2⟩

end Osip.ListEx
