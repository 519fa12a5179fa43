import Verif.Base

/-!
# Linked lists: `src/osipparser2/osip_list.c`

A heap maps addresses to list nodes; address 0 is NULL and an address which is not mapped is not
allocated (or already freed). The result `none` means undefined behaviour: a dereference of NULL or
of a freed node, `free` of a node not allocated, or overflow of the `int` counter. `osip_malloc` is
an oracle: functions which allocate take the address it returns (0: out of memory) as an argument.
The contents of the elements are not looked at by the list code: an element is a number standing
for a `void *`. Left out: the tests `li == NULL`, which return an error at once.
-/

set_option autoImplicit false

namespace Osip

/-- An address; 0 is NULL. -/
abbrev Addr := Nat

/-- `struct __node` (include/osipparser2/osip_list.h:55-58). -/
structure Node where
  next : Addr
  element : Nat
deriving DecidableEq, Repr

/-- The allocated nodes. -/
abbrev Heap := Addr → Option Node

/-- `struct osip_list` (include/osipparser2/osip_list.h:82-87). -/
structure CList where
  nb_elt : Int := 0
  node : Addr := 0
deriving DecidableEq, Repr

/-- The heap after writing a node. -/
def Heap.set (h : Heap) (a : Addr) (n : Node) : Heap := fun b => if b = a then some n else h b

/-- The heap after freeing a node. -/
def Heap.unset (h : Heap) (a : Addr) : Heap := fun b => if b = a then none else h b

/-- `*p` for a pointer to a node. -/
def Heap.deref (h : Heap) (a : Addr) : Option Node := if a = 0 then none else h a

/-- `osip_free (p)`; `free (NULL)` does nothing. -/
def Heap.free (h : Heap) (a : Addr) : Option Heap :=
  if a = 0 then some h else if (h a).isNone then none else some (h.unset a)

/-- `li->nb_elt++` on a 32-bit `int`. -/
def incr (n : Int) : Option Int := if n < 2^31 - 1 then some (n + 1) else none

/-- `osip_list_init` (src/osipparser2/osip_list.c:25-32). -/
def list_init : CList := {}

/-- `osip_list_size` (src/osipparser2/osip_list.c:80-87). -/
def list_size (li : CList) : Int := li.nb_elt

/-- `osip_list_eol` (src/osipparser2/osip_list.c:89-97). -/
def list_eol (li : CList) (i : Int) : Int := if i < li.nb_elt then OSIP_SUCCESS else 1

/-- The loops `while (bound > i) { i++; ntmp = ntmp->next; }` of `osip_list_add` (134-138),
`osip_list_get` (193-196) and `osip_list_remove` (281-284). -/
def advance (h : Heap) (bound i : Int) (ntmp : Addr) : Option Addr :=
  if bound > i then
    match h.deref ntmp with
    | none => none
    | some n => advance h bound (i + 1) n.next
  else some ntmp
termination_by (bound - i).toNat

/-- `osip_list_add` (src/osipparser2/osip_list.c:100-174); `fresh` is what `osip_malloc` returns. -/
def list_add (h : Heap) (li : CList) (el : Nat) (pos : Int) (fresh : Addr) :
    Option (Int × Heap × CList) :=
  if li.nb_elt = 0 then
    let li := { li with node := fresh }
    if fresh = 0 then some (OSIP_NOMEM, h, li)
    else do
      let n ← incr li.nb_elt
      return (n, h.set fresh ⟨0, el⟩, { li with nb_elt := n })
  else
    let pos := if pos = -1 ∨ pos ≥ li.nb_elt then li.nb_elt else pos
    let ntmp := li.node
    if pos = 0 then
      let li := { li with node := fresh }
      if fresh = 0 then some (OSIP_NOMEM, h, { li with node := ntmp })
      else do
        let n ← incr li.nb_elt
        return (n, h.set fresh ⟨ntmp, el⟩, { li with nb_elt := n })
    else do
      let ntmp ← advance h pos 1 ntmp
      if pos = li.nb_elt then
        let nd ← h.deref ntmp
        let h := h.set ntmp { nd with next := fresh }
        if fresh = 0 then return (OSIP_NOMEM, h, li)
        else
          let n ← incr li.nb_elt
          return (n, h.set fresh ⟨0, el⟩, { li with nb_elt := n })
      else
        let nd ← h.deref ntmp
        let nextnode := nd.next
        let h := h.set ntmp { nd with next := fresh }
        if fresh = 0 then return (OSIP_NOMEM, h.set ntmp { nd with next := nextnode }, li)
        else
          let n ← incr li.nb_elt
          return (n, h.set fresh ⟨nextnode, el⟩, { li with nb_elt := n })

/-- `osip_list_get` (src/osipparser2/osip_list.c:177-198); the inner option is NULL. -/
def list_get (h : Heap) (li : CList) (pos : Int) : Option (Option Nat) :=
  if pos < 0 ∨ pos ≥ li.nb_elt then some none
  else do
    let ntmp ← advance h pos 0 li.node
    let nd ← h.deref ntmp
    return some nd.element

/-- `osip_list_remove` (src/osipparser2/osip_list.c:258-296). -/
def list_remove (h : Heap) (li : CList) (pos : Int) : Option (Int × Heap × CList) :=
  if pos < 0 ∨ pos ≥ li.nb_elt then some (OSIP_UNDEFINED_ERROR, h, li)
  else
    let ntmp := li.node
    if pos = 0 then do
      let nd ← h.deref ntmp
      let h ← h.free ntmp
      return (li.nb_elt - 1, h, { nb_elt := li.nb_elt - 1, node := nd.next })
    else do
      let ntmp ← advance h pos 1 ntmp
      let nd ← h.deref ntmp
      let remnode := nd.next
      let rn ← h.deref remnode
      let h ← (h.set ntmp { nd with next := rn.next }).free remnode
      return (li.nb_elt - 1, h, { li with nb_elt := li.nb_elt - 1 })

/-- `osip_list_special_free` (src/osipparser2/osip_list.c:51-64), also `osip_list_ofchar_free`
(66-78): the elements given to `free_func`, in order, and the list left. `fuel` bounds the number of
turns of the loop; when it is used up the result is `none`. -/
def list_special_free (h : Heap) (li : CList) : Nat → Option (List (Option Nat) × Heap × CList)
  | 0 => none
  | fuel + 1 =>
    if list_eol li 0 ≠ 0 then some ([], h, li)
    else do
      let el ← list_get h li 0
      let (_, h, li) ← list_remove h li 0
      let (els, h, li) ← list_special_free h li fuel
      return (el :: els, h, li)

/-! ## Iterators -/

/-- A `__node_t **`: the field `node` of the list or the field `next` of a node. -/
inductive Loc
  | head
  | next (a : Addr)
deriving DecidableEq, Repr

/-- `osip_list_iterator_t` (include/osipparser2/osip_list.h:71-76). The field `li` is the list
given along with the iterator. `osip_list_get_first` leaves all fields but `actual` as they were
when the list is empty. -/
structure Iter where
  actual : Addr
  prev : Loc
  pos : Int
deriving DecidableEq, Repr

/-- `osip_list_iterator_has_elem` (include/osipparser2/osip_list.h:154). -/
def hasElem (li : CList) (it : Iter) : Bool := it.actual ≠ 0 && it.pos < li.nb_elt

/-- `osip_list_get_first` (src/osipparser2/osip_list.c:201-215); `it` is the iterator before, not
initialised in general. -/
def list_get_first (h : Heap) (li : CList) (it : Iter) : Option (Option Nat × Iter) :=
  if 0 ≥ li.nb_elt then some (none, { it with actual := 0 })
  else do
    let nd ← h.deref li.node
    return (some nd.element, { actual := li.node, prev := .head, pos := 0 })

/-- `osip_list_get_next` (src/osipparser2/osip_list.c:218-235). -/
def list_get_next (h : Heap) (li : CList) (it : Iter) : Option (Option Nat × Iter) :=
  if it.actual = 0 then some (none, it)
  else do
    let nd ← h.deref it.actual
    let it := { actual := nd.next, prev := .next it.actual, pos := it.pos + 1 : Iter }
    if hasElem li it then
      let nd ← h.deref it.actual
      return (some nd.element, it)
    else return (none, { it with actual := 0 })

/-- `*(iterator->prev) = a`. -/
def Loc.write (h : Heap) (li : CList) (l : Loc) (a : Addr) : Option (Heap × CList) :=
  match l with
  | .head => some (h, { li with node := a })
  | .next b => do
    let nd ← h.deref b
    return (h.set b { nd with next := a }, li)

/-- `*(iterator->prev)`. -/
def Loc.read (h : Heap) (li : CList) (l : Loc) : Option Addr :=
  match l with
  | .head => some li.node
  | .next b => (h.deref b).map (·.next)

/-- The unlinking part of `osip_list_iterator_remove` (src/osipparser2/osip_list.c:242-247). -/
def iterUnlink (h : Heap) (li : CList) (it : Iter) : Option (Heap × CList × Iter) := do
  let li := { li with nb_elt := li.nb_elt - 1 }
  let nd ← h.deref it.actual
  let (h, li) ← it.prev.write h li nd.next
  let h ← h.free it.actual
  let a ← it.prev.read h li
  return (h, li, { it with actual := a })

/-- `osip_list_iterator_remove` (src/osipparser2/osip_list.c:238-255). -/
def list_iterator_remove (h : Heap) (li : CList) (it : Iter) :
    Option (Option Nat × Heap × CList × Iter) := do
  let (h, li, it) ← if hasElem li it then iterUnlink h li it else some (h, li, it)
  if hasElem li it then
    let nd ← h.deref it.actual
    return (some nd.element, h, li, it)
  else return (none, h, li, it)

/-- The loop by which the library walks through a list, e.g. src/osip2/osip.c:552-560 or
src/osipparser2/osip_list.c:42-47, with removals: starting from element `el` it visits `el`, then
removes it or goes on according to `rem`, which is given the number of elements visited before and
the element. Result: the elements visited, the heap and the list. -/
def walk (rem : Nat → Option Nat → Bool) (k : Nat) (h : Heap) (li : CList) (it : Iter)
    (el : Option Nat) : Nat → Option (List (Option Nat) × Heap × CList)
  | 0 => none
  | fuel + 1 =>
    if ¬ hasElem li it then some ([], h, li)
    else if rem k el then do
      let (el', h, li, it) ← list_iterator_remove h li it
      let (els, h, li) ← walk rem (k + 1) h li it el' fuel
      return (el :: els, h, li)
    else do
      let (el', it) ← list_get_next h li it
      let (els, h, li) ← walk rem (k + 1) h li it el' fuel
      return (el :: els, h, li)

/-- A whole walk through a list. -/
def walkList (rem : Nat → Option Nat → Bool) (h : Heap) (li : CList) (it : Iter) (fuel : Nat) :
    Option (List (Option Nat) × Heap × CList) := do
  let (el, it) ← list_get_first h li it
  walk rem 0 h li it el fuel

/-- The loop of `osip_list_clone` (src/osipparser2/osip_list.c:42-47). `clone` is `clone_func`: the
copy or the error code; `malloc` is the allocator, which may depend on the number of calls before
and on the heap. The result of `osip_list_add` is ignored by the code. -/
def cloneLoop (clone : Nat → Except Int Nat) (malloc : Nat → Heap → Addr) (src : CList) (k : Nat)
    (h : Heap) (dst : CList) (it : Iter) (data : Option Nat) : Nat → Option (Int × Heap × CList)
  | 0 => none
  | fuel + 1 =>
    if ¬ hasElem src it then some (OSIP_SUCCESS, h, dst)
    else match clone (data.getD 0) with
      | .error i => some (i, h, dst)
      | .ok data2 => do
        let (_, h, dst) ← list_add h dst data2 (-1) (malloc k h)
        let (data, it) ← list_get_next h src it
        cloneLoop clone malloc src (k + 1) h dst it data fuel

/-- `osip_list_clone` (src/osipparser2/osip_list.c:34-49). -/
def list_clone (clone : Nat → Except Int Nat) (malloc : Nat → Heap → Addr) (h : Heap)
    (src dst : CList) (it : Iter) (fuel : Nat) : Option (Int × Heap × CList) := do
  let (data, it) ← list_get_first h src it
  cloneLoop clone malloc src 0 h dst it data fuel

end Osip
