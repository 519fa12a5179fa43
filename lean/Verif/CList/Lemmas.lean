import Verif.CList.Model

/-!
# Linked lists: ownership and helper lemmas
-/

set_option autoImplicit false

namespace Osip

/-- A chain of nodes from address `a` to address `z` (which is not part of it), given by the
addresses and elements of its nodes. -/
def Seg (h : Heap) : Addr → List (Addr × Nat) → Addr → Prop
  | a, [], z => a = z
  | a, (b, x) :: r, z => a = b ∧ a ≠ 0 ∧ ∃ n, h a = some ⟨n, x⟩ ∧ Seg h n r z

/-- The heap consists of exactly the nodes `cells` and of the part `F`. -/
structure Split (h : Heap) (cells : List (Addr × Nat)) (F : Heap) : Prop where
  nodup : (cells.map Prod.fst).Nodup
  rest : ∀ a, a ∉ cells.map Prod.fst → h a = F a
  free : ∀ a ∈ cells.map Prod.fst, F a = none

/-- The list `li` holds exactly the elements `xs`, the heap consists of exactly its nodes and of
the part `F`, which belongs to others. -/
def Owns (h : Heap) (li : CList) (xs : List Nat) (F : Heap) : Prop :=
  ∃ cells, Seg h li.node cells 0 ∧ Split h cells F ∧ cells.map Prod.snd = xs ∧
    li.nb_elt = xs.length

@[simp] theorem Heap.set_same (h : Heap) (a : Addr) (n : Node) : h.set a n a = some n := by
  simp [Heap.set]

theorem Heap.set_ne (h : Heap) {a b : Addr} (n : Node) (hb : b ≠ a) : h.set a n b = h b := by
  simp [Heap.set, hb]

@[simp] theorem Heap.unset_same (h : Heap) (a : Addr) : h.unset a a = none := by
  simp [Heap.unset]

theorem Heap.unset_ne (h : Heap) {a b : Addr} (hb : b ≠ a) : h.unset a b = h b := by
  simp [Heap.unset, hb]

theorem Heap.set_eq_self {h : Heap} {a : Addr} {n : Node} (ha : h a = some n) : h.set a n = h := by
  funext b
  unfold Heap.set
  split
  · next e => rw [e, ha]
  · rfl

@[simp] theorem Heap.set_set (h : Heap) (a : Addr) (n m : Node) :
    (h.set a n).set a m = h.set a m := by
  funext b; simp only [Heap.set]; split <;> rfl

theorem seg_append {h : Heap} {c1 c2 : List (Addr × Nat)} {a z : Addr} :
    Seg h a (c1 ++ c2) z ↔ ∃ m, Seg h a c1 m ∧ Seg h m c2 z := by
  induction c1 generalizing a with
  | nil => simp [Seg]
  | cons c cs ih =>
    obtain ⟨b, x⟩ := c
    simp only [List.cons_append, Seg, ih]
    constructor
    · rintro ⟨h1, h2, n, h3, m, h4, h5⟩
      exact ⟨m, ⟨h1, h2, n, h3, h4⟩, h5⟩
    · rintro ⟨m, ⟨h1, h2, n, h3, h4⟩, h5⟩
      exact ⟨h1, h2, n, h3, m, h4, h5⟩

theorem seg_congr {h h' : Heap} {c : List (Addr × Nat)} {a z : Addr} (hs : Seg h a c z)
    (hc : ∀ b ∈ c.map Prod.fst, h' b = h b) : Seg h' a c z := by
  induction c generalizing a with
  | nil => exact hs
  | cons c cs ih =>
    obtain ⟨b, x⟩ := c
    obtain ⟨h1, h2, n, h3, h4⟩ := hs
    subst h1
    refine ⟨rfl, h2, n, ?_, ih h4 (fun b hb => hc b (by simp only [List.map_cons, List.mem_cons]; exact .inr hb))⟩
    rw [hc a (by simp), h3]

/-- A chain ending in node `b`, after redirecting `b`. -/
theorem seg_redirect {h : Heap} {c : List (Addr × Nat)} {a b z z' : Addr} {x : Nat}
    (hs : Seg h a (c ++ [(b, x)]) z) (hnd : ((c ++ [(b, x)]).map Prod.fst).Nodup) :
    Seg (h.set b ⟨z', x⟩) a (c ++ [(b, x)]) z' := by
  rw [seg_append] at hs ⊢
  obtain ⟨m, h1, h2, h3, n, h4, h5⟩ := hs
  subst h2
  refine ⟨m, seg_congr h1 ?_, rfl, h3, z', by simp, rfl⟩
  intro b hb
  apply Heap.set_ne
  rintro rfl
  simp only [List.map_append, List.map_cons, List.map_nil, List.nodup_append] at hnd
  exact hnd.2.2 b hb b (by simp) rfl

theorem advance_seg {h : Heap} {c1 c2 : List (Addr × Nat)} {a z : Addr}
    (hs : Seg h a (c1 ++ c2) z) {bound i : Int} (hb : bound - i = c1.length) :
    ∃ m, advance h bound i a = some m ∧ Seg h a c1 m ∧ Seg h m c2 z := by
  induction c1 generalizing a i with
  | nil =>
    refine ⟨a, ?_, rfl, hs⟩
    rw [advance, if_neg]
    simp at hb; omega
  | cons c cs ih =>
    obtain ⟨b, x⟩ := c
    obtain ⟨h1, h2, n, h3, h4⟩ := hs
    have hb' : bound - (i + 1) = (cs.length : Int) := by simp at hb; omega
    obtain ⟨m, h5, h6, h7⟩ := ih h4 hb'
    refine ⟨m, ?_, ⟨h1, h2, n, h3, h6⟩, h7⟩
    rw [advance, if_pos (by simp at hb; omega)]
    simp only [Heap.deref, h2, if_false, h3]
    exact h5

theorem deref_some {h : Heap} {a : Addr} {n : Node} (h0 : a ≠ 0) (ha : h a = some n) :
    h.deref a = some n := by
  simp [Heap.deref, h0, ha]

/-- The list after insertion of a node. -/
theorem Split.insert {h h' : Heap} {c1 c2 : List (Addr × Nat)} {F : Heap} {a : Addr} {x : Nat}
    (hs : Split h (c1 ++ c2) F) (ha : h a = none)
    (hh : ∀ b, b ∉ (c1 ++ c2).map Prod.fst → b ≠ a → h' b = h b) (hn : a ∉ (c1 ++ c2).map Prod.fst) :
    Split h' (c1 ++ (a, x) :: c2) F := by
  have hmem : ∀ b, b ∈ (c1 ++ (a, x) :: c2).map Prod.fst ↔ b = a ∨ b ∈ (c1 ++ c2).map Prod.fst := by
    intro b; simp only [List.map_append, List.map_cons, List.mem_append, List.mem_cons]; grind
  refine ⟨?_, ?_, ?_⟩
  · have := hs.nodup
    simp only [List.map_append, List.map_cons, List.mem_append, not_or] at this hn ⊢
    rw [List.nodup_append] at this ⊢
    simp only [List.nodup_cons, List.mem_cons]
    refine ⟨this.1, ⟨hn.2, this.2.1⟩, ?_⟩
    rintro b hb c (rfl | hc)
    · rintro rfl; exact hn.1 hb
    · exact this.2.2 b hb c hc
  · intro b hb
    rw [hmem, not_or] at hb
    rw [hh b hb.2 hb.1]
    exact hs.rest b hb.2
  · intro b hb
    rw [hmem] at hb
    rcases hb with rfl | hb
    · rw [← hs.rest b hn, ha]
    · exact hs.free b hb

/-- The list after removal of a node. -/
theorem Split.remove {h h' : Heap} {c1 c2 : List (Addr × Nat)} {F : Heap} {a : Addr} {x : Nat}
    (hs : Split h (c1 ++ (a, x) :: c2) F) (ha : h' a = none)
    (hh : ∀ b, b ∉ (c1 ++ (a, x) :: c2).map Prod.fst → h' b = h b) :
    Split h' (c1 ++ c2) F := by
  have hmem : ∀ b, b ∈ (c1 ++ (a, x) :: c2).map Prod.fst ↔ b = a ∨ b ∈ (c1 ++ c2).map Prod.fst := by
    intro b; simp only [List.map_append, List.map_cons, List.mem_append, List.mem_cons]; grind
  refine ⟨?_, ?_, ?_⟩
  · refine hs.nodup.sublist (List.Sublist.map _ ?_)
    exact List.Sublist.append_left (List.sublist_cons_self _ _) _
  · intro b hb
    by_cases hba : b = a
    · subst hba
      rw [ha]
      exact (hs.free b ((hmem b).2 (.inl rfl))).symm
    · have : b ∉ (c1 ++ (a, x) :: c2).map Prod.fst := by rw [hmem]; simp only [not_or]; exact ⟨hba, hb⟩
      rw [hh b this]
      exact hs.rest b this
  · intro b hb
    exact hs.free b ((hmem b).2 (.inr hb))

theorem seg_nodup_split {c1 c2 : List (Addr × Nat)} {b : Addr} {x : Nat}
    (h : ((c1 ++ (b, x) :: c2).map Prod.fst).Nodup) :
    b ∉ c1.map Prod.fst ∧ b ∉ c2.map Prod.fst ∧
    (∀ d ∈ c1.map Prod.fst, d ∉ c2.map Prod.fst) := by
  simp only [List.map_append, List.map_cons, List.nodup_append, List.nodup_cons,
    List.mem_cons] at h
  obtain ⟨h1, ⟨h2, h3⟩, h4⟩ := h
  exact ⟨fun hb => h4 b hb b (.inl rfl) rfl, h2, fun d hd hd' => h4 d hd d (.inr hd') rfl⟩

/-- A node of a chain is allocated and not NULL. -/
theorem seg_mem {h : Heap} {c : List (Addr × Nat)} {a z : Addr} (hs : Seg h a c z) {b : Addr}
    (hb : b ∈ c.map Prod.fst) : b ≠ 0 ∧ h b ≠ none := by
  induction c generalizing a with
  | nil => simp at hb
  | cons c cs ih =>
    obtain ⟨d, x⟩ := c
    obtain ⟨h1, h2, n, h3, h4⟩ := hs
    subst h1
    simp only [List.map_cons, List.mem_cons] at hb
    rcases hb with rfl | hb
    · exact ⟨h2, by simp [h3]⟩
    · exact ih h4 hb

end Osip
