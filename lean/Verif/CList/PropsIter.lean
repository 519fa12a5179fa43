import Verif.CList.Props

/-!
# C26: iterating over a list, also while removing; cloning a list
-/

set_option autoImplicit false

namespace Osip

/-- The elements kept when the elements chosen by `rem` (by position, counted from `k`, and value)
are removed. -/
def keep (rem : Nat → Option Nat → Bool) : Nat → List Nat → List Nat
  | _, [] => []
  | k, x :: xs => if rem k (some x) then keep rem (k + 1) xs else x :: keep rem (k + 1) xs

/-- The iterator stands between `c1` and `c2`: on the first node of `c2`. -/
structure At (h : Heap) (li : CList) (it : Iter) (c1 c2 : List (Addr × Nat)) (F : Heap) : Prop where
  seg : Seg h li.node (c1 ++ c2) 0
  split : Split h (c1 ++ c2) F
  count : li.nb_elt = c1.length + c2.length
  actual : it.actual = match c2 with | [] => 0 | c :: _ => c.1
  pos : c2 ≠ [] → it.pos = c1.length
  prev : c2 ≠ [] → it.prev = match c1.getLast? with | none => .head | some c => .next c.1

theorem At.hasElem {h li it c1 c2 F} (ha : At h li it c1 c2 F) :
    hasElem li it = !c2.isEmpty := by
  unfold Osip.hasElem
  cases c2 with
  | nil => simp [ha.actual]
  | cons c c2 =>
    have h1 := ha.actual
    have h2 := ha.pos (by simp)
    have h3 := ha.count
    have h4 := (seg_mem ha.seg (b := c.1) (by simp)).1
    simp at h1 h3
    simp [h1, h2, h3, h4]
    omega

theorem At.deref {h li it c1 c c2 F} (ha : At h li it c1 (c :: c2) F) :
    ∃ n, h.deref it.actual = some ⟨n, c.2⟩ ∧ h it.actual = some ⟨n, c.2⟩ ∧ Seg h n c2 0 ∧
      it.actual = c.1 ∧ c.1 ≠ 0 := by
  have h1 := ha.actual
  obtain ⟨m, hm1, rfl, hm3, n, hm4, hm5⟩ := seg_append.1 ha.seg
  simp only at h1
  rw [h1]
  exact ⟨n, deref_some hm3 hm4, hm4, hm5, rfl, hm3⟩

/-- `osip_list_get_next` moves to the next node. -/
theorem next_at {h li it c1 c c2 F} (ha : At h li it c1 (c :: c2) F) :
    ∃ it', list_get_next h li it = some (c2.head?.map Prod.snd, it') ∧
      At h li it' (c1 ++ [c]) c2 F := by
  obtain ⟨n, h1, h2, h3, h4, h5⟩ := ha.deref
  have e : c1 ++ c :: c2 = (c1 ++ [c]) ++ c2 := by simp
  have hpos := ha.pos (by simp)
  have hat : At h li { actual := n, prev := .next it.actual, pos := it.pos + 1 } (c1 ++ [c]) c2 F := by
    refine ⟨e ▸ ha.seg, e ▸ ha.split, ?_, ?_, ?_, ?_⟩
    · rw [ha.count]; simp; omega
    · cases c2 with
      | nil => exact h3
      | cons d c2 => exact h3.1
    · intro _; simp [hpos]
    · intro _; simp [h4]
  have h0 : it.actual ≠ 0 := by rw [h4]; exact h5
  unfold list_get_next
  rw [if_neg h0]
  simp only [h1, Option.bind_eq_bind, Option.bind_some]
  rw [hat.hasElem]
  cases c2 with
  | nil =>
    simp only [List.isEmpty_nil, Bool.not_true, Bool.false_eq_true, if_false, List.head?_nil,
      Option.map_none]
    refine ⟨_, rfl, hat.seg, hat.split, hat.count, rfl, by simp, by simp⟩
  | cons d c2 =>
    obtain ⟨n', g1, -⟩ := hat.deref
    simp only [List.isEmpty_cons, Bool.not_false, if_true, g1, Option.bind_some, List.head?_cons,
      Option.map_some]
    exact ⟨_, rfl, hat⟩

/-- `osip_list_iterator_remove` removes the node and stands on the next one. -/
theorem remove_at {h li it c1 c c2 F} (ha : At h li it c1 (c :: c2) F) :
    ∃ h' li' it', list_iterator_remove h li it = some (c2.head?.map Prod.snd, h', li', it') ∧
      At h' li' it' c1 c2 F := by
  obtain ⟨n, h1, h2, h3, h4, h5⟩ := ha.deref
  have hh := ha.hasElem
  have hpos := ha.pos (by simp)
  have hprev := ha.prev (by simp)
  have hcount := ha.count
  obtain ⟨d, y⟩ := c
  simp only at h2 h4 h5
  -- the state after the first half
  have key : ∃ h' li' it', iterUnlink h li it = some (h', li', it') ∧ At h' li' it' c1 c2 F := by
    unfold iterUnlink
    rcases List.eq_nil_or_concat c1 with hc1 | ⟨c0, b, hc1⟩
    · subst hc1
      simp only [List.getLast?_nil] at hprev
      simp only [h1, hprev, Loc.write, Loc.read, Option.bind_eq_bind, Option.bind_some,
        Option.pure_def]
      rw [h4, free_some h5 (h4 ▸ h2)]
      simp only [Option.bind_some]
      obtain ⟨g1, g2⟩ := remove_first (c2 := c2) (d := d) (y := y) ha.seg ha.split h3
      have hnode : li.node = d := ha.seg.1
      rw [hnode] at g1 g2
      refine ⟨_, _, _, rfl, g1, g2, ?_, ?_, ?_, ?_⟩
      · simp at hcount ⊢; omega
      · cases c2 with
        | nil => exact h3
        | cons e c2 => exact h3.1
      · intro _; simpa using hpos
      · intro _; rfl
    · obtain ⟨b, x⟩ := b
      subst hc1
      have e1 : (c0 ++ [(b, x)]) ++ (d, y) :: c2 = c0 ++ (b, x) :: (d, y) :: c2 := by simp
      have e2 : (c0 ++ [(b, x)]) ++ c2 = c0 ++ (b, x) :: c2 := by simp
      simp only [List.concat_eq_append] at *
      simp only [List.getLast?_append, List.getLast?_singleton, Option.some_or] at hprev
      obtain ⟨g1, g2⟩ := remove_after (e1 ▸ ha.seg) (e1 ▸ ha.split) h3
      obtain ⟨m, -, hm2⟩ := seg_append.1 (e1 ▸ ha.seg)
      obtain ⟨rfl, hb0, n', hb, -⟩ := hm2
      have hne : d ≠ m := by
        have := (seg_nodup_split (e1 ▸ ha.split).nodup).2.1
        rintro rfl
        exact this (by simp)
      have hset : (h.set m ⟨n, x⟩) d = some ⟨n, y⟩ := by rw [Heap.set_ne _ _ hne, ← h4, h2]
      have hrd : ((h.set m ⟨n, x⟩).unset d).deref m = some ⟨n, x⟩ :=
        deref_some hb0 (by rw [Heap.unset_ne _ (Ne.symm hne)]; simp)
      simp only [h1, hprev, Loc.write, Loc.read, Option.bind_eq_bind, Option.bind_some,
        Option.pure_def, deref_some hb0 hb]
      rw [h4, free_some h5 hset]
      simp only [Option.bind_some, hrd, Option.map_some]
      refine ⟨_, _, _, rfl, e2 ▸ g1, e2 ▸ g2, ?_, ?_, ?_, ?_⟩
      · simp at hcount ⊢; omega
      · cases c2 with
        | nil => exact h3
        | cons e c2 => exact h3.1
      · intro _; exact hpos
      · intro _; simp [hprev]
  obtain ⟨h', li', it', hk, hat⟩ := key
  unfold list_iterator_remove
  rw [hh]
  simp only [List.isEmpty_cons, Bool.not_false, if_true, Option.bind_eq_bind, hk, Option.bind_some]
  rw [hat.hasElem]
  cases c2 with
  | nil => exact ⟨h', li', it', by simp, hat⟩
  | cons e c2 =>
    obtain ⟨n', g1, -⟩ := hat.deref
    simp only [List.isEmpty_cons, Bool.not_false, if_true, g1, Option.bind_some, List.head?_cons,
      Option.map_some]
    exact ⟨_, _, _, rfl, hat⟩

theorem walk_at {rem : Nat → Option Nat → Bool} {h li it c1 c2 F k} {fuel : Nat}
    (ha : At h li it c1 c2 F) (hf : c2.length < fuel) :
    ∃ h' li', walk rem k h li it (c2.head?.map Prod.snd) fuel =
        some (c2.map (fun c => some c.2), h', li') ∧
      Owns h' li' (c1.map Prod.snd ++ keep rem k (c2.map Prod.snd)) F := by
  induction fuel generalizing h li it c1 c2 k with
  | zero => omega
  | succ fuel ih =>
    unfold walk
    rw [ha.hasElem]
    cases c2 with
    | nil =>
      refine ⟨h, li, by simp, c1, by simpa using ha.seg, by simpa using ha.split, by simp [keep], ?_⟩
      have := ha.count
      simpa [keep] using this
    | cons c c2 =>
      simp only [List.isEmpty_cons, Bool.not_false, not_true_eq_false, if_false, List.head?_cons,
        Option.map_some]
      by_cases hr : rem k (some c.2) = true
      · simp only [hr, if_true]
        obtain ⟨h', li', it', e1, hat⟩ := remove_at ha
        obtain ⟨h2, li2, e2, ho⟩ := ih (k := k + 1) hat (by simp at hf; omega)
        refine ⟨h2, li2, ?_, by simpa [keep, hr] using ho⟩
        simp [e1, e2]
      · simp only [hr, if_false]
        obtain ⟨it', e1, hat⟩ := next_at ha
        obtain ⟨h2, li2, e2, ho⟩ := ih (k := k + 1) hat (by simp at hf; omega)
        refine ⟨h2, li2, ?_, by simpa [keep, hr] using ho⟩
        simp [e1, e2]

theorem first_at {h : Heap} {li : CList} {cells : List (Addr × Nat)} {F : Heap}
    (hs : Seg h li.node cells 0) (hp : Split h cells F) (hn : li.nb_elt = cells.length) (it : Iter) :
    ∃ it', list_get_first h li it = some (cells.head?.map Prod.snd, it') ∧
      At h li it' [] cells F := by
  unfold list_get_first
  cases cells with
  | nil =>
    rw [if_pos (by simp at hn; omega)]
    exact ⟨_, rfl, hs, hp, by simpa using hn, rfl, by simp, by simp⟩
  | cons c cs =>
    rw [if_neg (by simp at hn; omega)]
    obtain ⟨h00, h0, n, h1, h2⟩ := id hs
    simp only [deref_some h0 h1, Option.bind_eq_bind, Option.bind_some]
    exact ⟨_, rfl, hs, hp, by simpa using hn, h00, by simp, by simp⟩

/-- **C26.** Walking through a list with `get_first`/`get_next`/`iterator_remove`, for every choice
of the elements removed on the way and every former contents of the iterator: every element is
visited exactly once, in order; afterwards the list consists of exactly the elements not removed, in
order, its count is right, the removed nodes are freed and nothing else is touched; and the walk
ends and dereferences no invalid pointer. -/
theorem c26_walk {h : Heap} {li : CList} {xs : List Nat} {F : Heap} (ho : Owns h li xs F)
    (rem : Nat → Option Nat → Bool) (it : Iter) {fuel : Nat} (hf : xs.length < fuel) :
    ∃ h' li', walkList rem h li it fuel = some (xs.map some, h', li') ∧
      Owns h' li' (keep rem 0 xs) F := by
  obtain ⟨cells, hs, hp, hx, hn⟩ := ho
  have hcl : cells.length = xs.length := by rw [← hx]; simp
  obtain ⟨it', h1, hat⟩ := first_at hs hp (by omega) it
  obtain ⟨h', li', h2, h3⟩ := walk_at (rem := rem) (k := 0) hat (fuel := fuel) (by omega)
  refine ⟨h', li', ?_, by simpa [hx] using h3⟩
  simp [walkList, h1, h2, ← hx]

/-! ## C66: cloning a list -/

/-- The copies made before the first failure, and the result. -/
def cloneSpec (clone : Nat → Except Int Nat) : List Nat → Int × List Nat
  | [] => (OSIP_SUCCESS, [])
  | x :: xs => match clone x with
    | .error i => (i, [])
    | .ok y => ((cloneSpec clone xs).1, y :: (cloneSpec clone xs).2)

theorem owns_frame {h : Heap} {li : CList} {xs : List Nat} {G : Heap} (ho : Owns h li xs G)
    {a : Addr} (ha : G a ≠ none) : h a = G a := by
  obtain ⟨cells, hs, hp, -, -⟩ := ho
  exact hp.rest a (fun hm => ha (hp.free a hm))

theorem next_frame {h G : Heap} {li : CList} {it : Iter} {c1 c2 : List (Addr × Nat)} {F : Heap}
    (ha : At G li it c1 c2 F) (hf : ∀ a, G a ≠ none → h a = G a) :
    list_get_next h li it = list_get_next G li it := by
  have hd : ∀ a ∈ (c1 ++ c2).map Prod.fst, h.deref a = G.deref a := by
    intro a hm
    have := (seg_mem ha.seg hm).2
    unfold Heap.deref
    rw [hf a this]
  unfold list_get_next
  cases c2 with
  | nil =>
    have : it.actual = 0 := ha.actual
    simp [this]
  | cons c c2 =>
    obtain ⟨n, h1, h2, h3, h4, h5⟩ := ha.deref
    have e : h.deref it.actual = G.deref it.actual := hd _ (by rw [h4]; simp)
    rw [e, h1]
    simp only [Option.bind_eq_bind, Option.bind_some]
    cases c2 with
    | nil =>
      have : n = 0 := h3
      simp [hasElem, this]
    | cons d c2 =>
      have : n = d.1 := h3.1
      rw [this, hd d.1 (by simp)]

theorem cloneLoop_at {clone : Nat → Except Int Nat} {malloc : Nat → Heap → Addr}
    (hm : ∀ k h, MallocOk h (malloc k h) ∧ malloc k h ≠ 0) {src : CList} {k : Nat} {h G F : Heap}
    {dst : CList} {it : Iter} {c1 c2 : List (Addr × Nat)} {ys : List Nat} {fuel : Nat}
    (ha : At G src it c1 c2 F) (ho : Owns h dst ys G)
    (hlen : ys.length + c2.length < 2^31 - 1) (hf : c2.length < fuel) :
    ∃ h' dst', cloneLoop clone malloc src k h dst it (c2.head?.map Prod.snd) fuel =
        some ((cloneSpec clone (c2.map Prod.snd)).1, h', dst') ∧
      Owns h' dst' (ys ++ (cloneSpec clone (c2.map Prod.snd)).2) G := by
  induction fuel generalizing k h dst it c1 c2 ys with
  | zero => omega
  | succ fuel ih =>
    unfold cloneLoop
    rw [ha.hasElem]
    cases c2 with
    | nil => exact ⟨h, dst, by simp [cloneSpec], by simpa [cloneSpec] using ho⟩
    | cons c c2 =>
      simp only [List.isEmpty_cons, Bool.not_false, not_true_eq_false, if_false, List.head?_cons,
        Option.map_some, Option.getD_some, List.map_cons, cloneSpec]
      cases hc : clone c.2 with
      | error i => exact ⟨h, dst, rfl, by simpa using ho⟩
      | ok y =>
        obtain ⟨h1, d1, e1, o1⟩ := (c25_add ho (by simp at hlen; omega) y (-1) (hm k h).1).2 (hm k h).2
        have e0 : insertAt ys (-1) y = ys ++ [y] := by simp [insertAt]
        rw [e0] at o1
        obtain ⟨it', e2, hat⟩ := next_at ha
        have e3 := next_frame ha (fun a => owns_frame o1 (a := a))
        obtain ⟨h2, d2, e4, o2⟩ := ih (k := k + 1) hat o1 (by simp at hlen ⊢; omega)
          (by simp at hf; omega)
        refine ⟨h2, d2, ?_, by simpa using o2⟩
        simp only [e1, e3, e2, Option.bind_eq_bind, Option.bind_some]
        exact e4

/-- **C66** (partial: memory never runs out). Cloning a list appends the clones of its elements, in
order, to the target - up to the first element whose cloning fails, whose error is returned. The
source and everything else on the heap is untouched: `G` is the heap without the nodes of the
target, in which the source lives. The walk ends and dereferences no invalid pointer. -/
theorem c66_clone_partial {clone : Nat → Except Int Nat} {malloc : Nat → Heap → Addr}
    (hm : ∀ k h, MallocOk h (malloc k h) ∧ malloc k h ≠ 0) {h G F : Heap} {src dst : CList}
    {xs ys : List Nat} (hsrc : Owns G src xs F) (hdst : Owns h dst ys G)
    (hlen : ys.length + xs.length < 2^31 - 1) (it : Iter) {fuel : Nat} (hf : xs.length < fuel) :
    ∃ h' dst', list_clone clone malloc h src dst it fuel = some ((cloneSpec clone xs).1, h', dst') ∧
      Owns h' dst' (ys ++ (cloneSpec clone xs).2) G := by
  obtain ⟨cells, hs, hp, hx, hn⟩ := hsrc
  have hcl : cells.length = xs.length := by rw [← hx]; simp
  obtain ⟨it', h1, hat⟩ := first_at hs hp (by omega) it
  have e : list_get_first h src it = list_get_first G src it := by
    unfold list_get_first
    cases cells with
    | nil =>
      have h0 : 0 ≥ src.nb_elt := by simp at hcl; omega
      rw [if_pos h0, if_pos h0]
    | cons c cs =>
      have hmem := (seg_mem hs (b := c.1) (by simp)).2
      have : src.node = c.1 := hs.1
      rw [this]
      unfold Heap.deref
      rw [owns_frame hdst hmem]
  obtain ⟨h', d', h2, h3⟩ := cloneLoop_at (clone := clone) (malloc := malloc) hm (k := 0) hat hdst
    (by omega) (fuel := fuel) (by omega)
  refine ⟨h', d', ?_, by simpa [hx] using h3⟩
  simp only [list_clone, e, h1, Option.bind_eq_bind, Option.bind_some]
  rw [h2, hx]

end Osip
