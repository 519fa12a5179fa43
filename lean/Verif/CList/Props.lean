import Verif.CList.Lemmas

/-!
# C25: a list behaves as a sequence
-/

set_option autoImplicit false

namespace Osip

/-- What `osip_malloc` may return: NULL, or an address not in use. -/
def MallocOk (h : Heap) (fresh : Addr) : Prop := fresh = 0 ∨ h fresh = none

/-- Insertion of `el` into a sequence at an `int` position: -1 or a position at or beyond the end
means at the end. The function treats positions below -1 as position 1. -/
def insertAt (xs : List Nat) (pos : Int) (el : Nat) : List Nat :=
  if pos = -1 ∨ pos ≥ xs.length then xs ++ [el]
  else if 0 ≤ pos then xs.take pos.toNat ++ el :: xs.drop pos.toNat
  else xs.take 1 ++ el :: xs.drop 1

theorem not_mem_of_free {h : Heap} {cells : List (Addr × Nat)} {a z fresh : Addr}
    (hs : Seg h a cells z) (hf : h fresh = none) : fresh ∉ cells.map Prod.fst :=
  fun hm => (seg_mem hs hm).2 hf

/-- Insertion after the node number `c1.length`. -/
theorem insert_after {h : Heap} {node : Addr} {c1 c2 : List (Addr × Nat)} {b : Addr} {x : Nat}
    {F : Heap} {fresh : Addr} {el : Nat} (h0 : fresh ≠ 0) (hf : h fresh = none)
    (hs : Seg h node (c1 ++ (b, x) :: c2) 0) (hp : Split h (c1 ++ (b, x) :: c2) F) {n : Addr}
    (hb : h b = some ⟨n, x⟩) (hn : Seg h n c2 0) :
    let h' := (h.set b ⟨fresh, x⟩).set fresh ⟨n, el⟩
    Seg h' node (c1 ++ (b, x) :: (fresh, el) :: c2) 0 ∧
    Split h' (c1 ++ (b, x) :: (fresh, el) :: c2) F := by
  have hfr := not_mem_of_free hs hf
  obtain ⟨hd1, hd2, hd3⟩ := seg_nodup_split hp.nodup
  simp only [List.map_append, List.map_cons, List.mem_append, List.mem_cons, not_or] at hfr
  have hs' : Seg h node (c1 ++ [(b, x)]) n := by
    rw [seg_append] at hs ⊢
    obtain ⟨m, h1, h2, h3, n', h4, h5⟩ := hs
    subst h2
    rw [hb] at h4; cases h4
    exact ⟨m, h1, rfl, h3, n, hb, rfl⟩
  have hs2 := seg_redirect (z' := fresh) hs' (by
    have := hp.nodup
    refine this.sublist (List.Sublist.map _ ?_)
    exact List.Sublist.append_left (by simp) _)
  constructor
  · have e : c1 ++ (b, x) :: (fresh, el) :: c2 = (c1 ++ [(b, x)]) ++ (fresh, el) :: c2 := by simp
    rw [e, seg_append]
    refine ⟨fresh, seg_congr hs2 ?_, rfl, h0, n, by simp, seg_congr hn ?_⟩
    · intro d hd
      apply Heap.set_ne
      rintro rfl
      simp only [List.map_append, List.map_cons, List.map_nil, List.mem_append, List.mem_singleton] at hd
      grind
    · intro d hd
      rw [Heap.set_ne, Heap.set_ne]
      · rintro rfl; exact hd2 hd
      · rintro rfl; exact hfr.2.2 hd
  · have e : c1 ++ (b, x) :: (fresh, el) :: c2 = (c1 ++ [(b, x)]) ++ (fresh, el) :: c2 := by simp
    rw [e]
    have e2 : c1 ++ (b, x) :: c2 = (c1 ++ [(b, x)]) ++ c2 := by simp
    refine Split.insert (e2 ▸ hp) hf ?_ ?_
    · intro d hd hne
      rw [Heap.set_ne _ _ hne, Heap.set_ne]
      rintro rfl
      exact hd (by simp)
    · rw [← e2]
      simp only [List.map_append, List.map_cons, List.mem_append, List.mem_cons, not_or]
      exact hfr

theorem cells_split {cells : List (Addr × Nat)} {n : Nat} (h : n < cells.length) :
    ∃ c1 b x c2, cells = c1 ++ (b, x) :: c2 ∧ c1.length = n := by
  refine ⟨cells.take n, (cells[n]).1, (cells[n]).2, cells.drop (n + 1), ?_, by simp; omega⟩
  conv => lhs; rw [← List.take_append_drop n cells]
  rw [List.drop_eq_getElem_cons h]

/-- **C25** (adding). For every list, position and result of `malloc`: the call dereferences no
invalid pointer; without memory it changes nothing and says so; otherwise it has exactly the effect
of insertion into the sequence, returns the new length, and touches nothing else on the heap. -/
theorem c25_add {h : Heap} {li : CList} {xs : List Nat} {F : Heap} (ho : Owns h li xs F)
    (hlen : xs.length < 2^31 - 1) (el : Nat) (pos : Int) {fresh : Addr} (hm : MallocOk h fresh) :
    (fresh = 0 → list_add h li el pos fresh = some (OSIP_NOMEM, h, li)) ∧
    (fresh ≠ 0 → ∃ h' li', list_add h li el pos fresh = some ((xs.length : Int) + 1, h', li') ∧
      Owns h' li' (insertAt xs pos el) F) := by
  obtain ⟨cells, hs, hp, hx, hn⟩ := ho
  have hcl : cells.length = xs.length := by rw [← hx]; simp
  have hinc : incr li.nb_elt = some (xs.length + 1 : Int) := by
    rw [hn]; unfold incr; rw [if_pos]; omega
  unfold list_add
  by_cases h0 : li.nb_elt = 0
  · have hxe : xs = [] := by
      rw [h0] at hn; exact List.length_eq_zero_iff.1 (by omega)
    subst hxe
    have hce : cells = [] := List.length_eq_zero_iff.1 (by rw [hcl]; rfl)
    subst hce
    have hnode : li.node = 0 := hs
    rw [if_pos h0]
    refine ⟨fun hf => ?_, fun hf => ?_⟩
    · subst hf
      have : ({ li with node := 0 } : CList) = li := by rw [← hnode]
      simp [this]
    · rcases hm with hm | hm
      · exact absurd hm hf
      have := Split.insert (c1 := []) (c2 := []) (h' := h.set fresh ⟨0, el⟩) (x := el) hp hm
        (fun b _ hb => Heap.set_ne _ _ hb) (by simp)
      simp only [hf, if_false, hinc, Option.bind_eq_bind, Option.bind_some, Option.pure_def]
      refine ⟨_, _, rfl, [(fresh, el)], ⟨rfl, hf, 0, by simp, rfl⟩, this, ?_, ?_⟩
      · unfold insertAt; simp
      · unfold insertAt; simp
  · rw [if_neg h0]
    have hpos0 : 0 < xs.length := by omega
    generalize hposdef : (if pos = -1 ∨ pos ≥ li.nb_elt then li.nb_elt else pos) = p
    dsimp only
    by_cases hp0 : p = 0
    · -- at the front
      have hpz : pos = 0 := by
        split at hposdef
        · omega
        · omega
      subst hpz
      rw [if_pos hp0]
      refine ⟨fun hf => ?_, fun hf => ?_⟩
      · simp [hf]
      · rcases hm with hm | hm
        · exact absurd hm hf
        have := Split.insert (c1 := []) (c2 := cells) (h' := h.set fresh ⟨li.node, el⟩) (x := el) hp hm
          (fun b _ hb => Heap.set_ne _ _ hb) (not_mem_of_free hs hm)
        simp only [hf, if_false, hinc, Option.bind_eq_bind, Option.bind_some, Option.pure_def]
        refine ⟨_, _, rfl, (fresh, el) :: cells, ⟨rfl, hf, li.node, by simp, seg_congr hs ?_⟩, this, ?_, ?_⟩
        · intro b hb
          apply Heap.set_ne
          rintro rfl
          exact not_mem_of_free hs hm hb
        · unfold insertAt
          rw [if_neg (by omega), if_pos (by omega)]
          simp [hx]
        · unfold insertAt
          rw [if_neg (by omega), if_pos (by omega)]
          simp
    · rw [if_neg hp0]
      -- the node after which the element is inserted
      have hk : ∃ k : Nat, k < xs.length ∧ insertAt xs pos el = xs.take (k + 1) ++ el :: xs.drop (k + 1) ∧
          ∃ m : Int, m = (k : Int) ∧ (p - 1 = m ∨ (p < 0 ∧ m = 0)) ∧ (p = li.nb_elt → k + 1 = xs.length) ∧
            (p ≠ li.nb_elt → k + 1 < xs.length ∨ p < 0) := by
        unfold insertAt
        split at hposdef
        · next hc =>
          rw [if_pos (by omega)]
          refine ⟨xs.length - 1, by omega, ?_, _, rfl, .inl (by omega), by omega, by omega⟩
          have e : xs.length - 1 + 1 = xs.length := by omega
          rw [e]; simp
        · next hc =>
          rw [if_neg (by omega)]
          by_cases hneg : 0 ≤ pos
          · rw [if_pos hneg]
            refine ⟨pos.toNat - 1, by omega, ?_, _, rfl, .inl (by omega), by omega, by omega⟩
            have e : pos.toNat - 1 + 1 = pos.toNat := by omega
            rw [e]
          · rw [if_neg hneg]
            exact ⟨0, by omega, rfl, _, rfl, .inr ⟨by omega, rfl⟩, by omega, by omega⟩
      obtain ⟨k, hk1, hk2, m, hmk, hk3, hk4, hk5⟩ := hk
      obtain ⟨c1, b, x, c2, hc, hc1⟩ := cells_split (cells := cells) (n := k) (by omega)
      subst hc
      have hadv : ∃ m, advance h p 1 li.node = some m ∧ Seg h li.node c1 m ∧ Seg h m ((b, x) :: c2) 0 := by
        rcases hk3 with hk3 | ⟨hk3, hk3'⟩
        · exact advance_seg hs (by omega)
        · have hc1' : c1 = [] := List.length_eq_zero_iff.1 (by omega)
          subst hc1'
          refine ⟨li.node, ?_, rfl, hs⟩
          rw [advance, if_neg (by omega)]
      obtain ⟨q, hadv, hq1, hq2⟩ := hadv
      obtain ⟨rfl, hb0, n, hbn, hnc⟩ := hq2
      simp only [hadv, Option.bind_eq_bind, Option.bind_some, deref_some hb0 hbn]
      have hxs : xs = c1.map Prod.snd ++ x :: c2.map Prod.snd := by rw [← hx]; simp
      have hxs2 : insertAt xs pos el = c1.map Prod.snd ++ x :: el :: c2.map Prod.snd := by
        rw [hk2, hxs, ← hc1]
        have e : (c1.map Prod.snd ++ x :: c2.map Prod.snd) =
          (c1.map Prod.snd ++ [x]) ++ c2.map Prod.snd := by simp
        rw [e, List.take_left' (by simp), List.drop_left' (by simp)]
        simp
      have hlast : p = li.nb_elt → n = 0 := by
        intro hpl
        have := hk4 hpl
        have hc2 : c2 = [] := by
          have : c1.length + (c2.length + 1) = xs.length := by rw [hxs]; simp
          exact List.length_eq_zero_iff.1 (by omega)
        subst hc2
        exact hnc
      have hres : fresh ≠ 0 → ∀ n', n' = n →
          Owns ((h.set q ⟨fresh, x⟩).set fresh ⟨n', el⟩)
            { li with nb_elt := (xs.length + 1 : Int) } (insertAt xs pos el) F := by
        rintro hf n' rfl
        rcases hm with hm | hm
        · exact absurd hm hf
        obtain ⟨g1, g2⟩ := insert_after hf hm hs hp hbn hnc (el := el)
        refine ⟨_, g1, g2, ?_, ?_⟩
        · rw [hxs2]; simp
        · rw [hxs2, hxs]; simp; omega
      by_cases hpl : p = li.nb_elt
      · rw [if_pos hpl]
        refine ⟨fun hf => ?_, fun hf => ?_⟩
        · subst hf
          rw [if_pos rfl]
          have e : (⟨0, x⟩ : Node) = ⟨n, x⟩ := by rw [hlast hpl]
          rw [e, Heap.set_eq_self hbn]; rfl
        · rw [if_neg hf, hinc]
          exact ⟨_, _, rfl, hres hf 0 (hlast hpl).symm⟩
      · rw [if_neg hpl]
        refine ⟨fun hf => ?_, fun hf => ?_⟩
        · subst hf
          rw [if_pos rfl, Heap.set_set, Heap.set_eq_self hbn]; rfl
        · rw [if_neg hf, hinc]
          exact ⟨_, _, rfl, hres hf n rfl⟩

/-- **C25** (reading). `osip_list_get` is indexing; there is NULL outside the list. -/
theorem c25_get {h : Heap} {li : CList} {xs : List Nat} {F : Heap} (ho : Owns h li xs F)
    (pos : Int) :
    list_get h li pos = some (if 0 ≤ pos then xs[pos.toNat]? else none) := by
  obtain ⟨cells, hs, hp, hx, hn⟩ := ho
  have hcl : cells.length = xs.length := by rw [← hx]; simp
  unfold list_get
  split
  · next hc =>
    split
    · rw [List.getElem?_eq_none (by omega)]
    · rfl
  · next hc =>
    obtain ⟨c1, b, x, c2, hc', hc1⟩ := cells_split (cells := cells) (n := pos.toNat) (by omega)
    subst hc'
    obtain ⟨q, hq, -, hq2⟩ := advance_seg (bound := pos) (i := 0) hs (by omega)
    obtain ⟨rfl, hb0, n, hbn, -⟩ := hq2
    simp only [hq, Option.bind_eq_bind, Option.bind_some, deref_some hb0 hbn]
    rw [if_pos (by omega), ← hx, ← hc1]
    simp

/-- **C25** (length). -/
theorem c25_size {h : Heap} {li : CList} {xs : List Nat} {F : Heap} (ho : Owns h li xs F) :
    list_size li = xs.length ∧ ∀ i, list_eol li i = if i < (xs.length : Int) then 0 else 1 := by
  obtain ⟨cells, hs, hp, hx, hn⟩ := ho
  exact ⟨hn, fun i => by unfold list_eol; rw [hn]; rfl⟩

theorem free_some {h : Heap} {a : Addr} {n : Node} (h0 : a ≠ 0) (ha : h a = some n) :
    h.free a = some (h.unset a) := by
  simp [Heap.free, h0, ha]

/-- Removal of the node after a chain, which then leads to the next one. -/
theorem remove_after {h : Heap} {node : Addr} {c1 c2 : List (Addr × Nat)} {b d : Addr} {x y : Nat}
    {F : Heap} (hs : Seg h node (c1 ++ (b, x) :: (d, y) :: c2) 0)
    (hp : Split h (c1 ++ (b, x) :: (d, y) :: c2) F) {n : Addr} (hn : Seg h n c2 0) :
    let h' := (h.set b ⟨n, x⟩).unset d
    Seg h' node (c1 ++ (b, x) :: c2) 0 ∧ Split h' (c1 ++ (b, x) :: c2) F := by
  have e : c1 ++ (b, x) :: (d, y) :: c2 = (c1 ++ [(b, x)]) ++ (d, y) :: c2 := by simp
  have e2 : c1 ++ (b, x) :: c2 = (c1 ++ [(b, x)]) ++ c2 := by simp
  obtain ⟨hd1, hd2, hd3⟩ := seg_nodup_split hp.nodup
  obtain ⟨he1, he2, he3⟩ := seg_nodup_split (e ▸ hp.nodup)
  simp only [List.map_cons, List.mem_cons, not_or] at hd2
  constructor
  · rw [e] at hs
    rw [e2]
    obtain ⟨m, h1, h2⟩ := seg_append.1 hs
    have hs2 := seg_redirect (z' := n) h1 (by
      refine hp.nodup.sublist (List.Sublist.map _ ?_)
      rw [e]; simp)
    rw [seg_append]
    refine ⟨n, seg_congr hs2 ?_, seg_congr hn ?_⟩
    · intro f hf
      apply Heap.unset_ne
      rintro rfl
      exact he1 hf
    · intro f hf
      rw [Heap.unset_ne, Heap.set_ne]
      · rintro rfl; exact hd2.2 hf
      · rintro rfl; exact he2 hf
  · rw [e2]
    rw [e] at hp
    refine Split.remove hp (by simp) ?_
    intro f hf
    rw [Heap.unset_ne, Heap.set_ne]
    · rintro rfl; exact hf (by simp)
    · rintro rfl; exact hf (by simp)

/-- Removal of the first node. -/
theorem remove_first {h : Heap} {c2 : List (Addr × Nat)} {a d n : Addr} {y : Nat}
    {F : Heap} (hs : Seg h a ((d, y) :: c2) 0) (hp : Split h ((d, y) :: c2) F)
    (hn : Seg h n c2 0) :
    Seg (h.unset a) n c2 0 ∧ Split (h.unset a) c2 F := by
  obtain ⟨rfl, h0, n', h1, h2⟩ := hs
  obtain ⟨_, he2, _⟩ := seg_nodup_split (c1 := []) hp.nodup
  refine ⟨seg_congr hn ?_, Split.remove (c1 := []) (x := y) hp (by simp) ?_⟩
  · intro f hf
    apply Heap.unset_ne
    rintro rfl
    exact he2 hf
  · intro f hf
    apply Heap.unset_ne
    rintro rfl
    exact hf (by simp)

/-- **C25** (removing). A position outside the list is refused and changes nothing; otherwise
exactly that element goes, its node is freed, nothing else is touched, and the new length is
returned. -/
theorem c25_remove {h : Heap} {li : CList} {xs : List Nat} {F : Heap} (ho : Owns h li xs F)
    (pos : Int) :
    (pos < 0 ∨ pos ≥ xs.length → list_remove h li pos = some (OSIP_UNDEFINED_ERROR, h, li)) ∧
    (0 ≤ pos → pos < xs.length → ∃ h' li',
      list_remove h li pos = some ((xs.length : Int) - 1, h', li') ∧
      Owns h' li' (xs.eraseIdx pos.toNat) F) := by
  obtain ⟨cells, hs, hp, hx, hn⟩ := ho
  have hcl : cells.length = xs.length := by rw [← hx]; simp
  unfold list_remove
  refine ⟨fun hc => by rw [if_pos (by omega)], fun h0 h1 => ?_⟩
  rw [if_neg (by omega)]
  dsimp only
  by_cases hz : pos = 0
  · subst hz
    cases cells with
    | nil => simp at hcl; omega
    | cons c cs =>
      obtain ⟨d, y⟩ := c
      obtain ⟨hd, hd0, n, hn1, hn2⟩ := hs
      obtain ⟨g1, g2⟩ := remove_first ⟨hd, hd0, n, hn1, hn2⟩ hp hn2
      subst hd
      simp only [if_true, Option.bind_eq_bind, Option.bind_some, deref_some hd0 hn1,
        free_some hd0 hn1, Option.pure_def, hn]
      refine ⟨_, _, rfl, cs, g1, g2, ?_, ?_⟩
      · rw [← hx]; simp
      · rw [← hx]; simp
  · rw [if_neg hz]
    obtain ⟨c1, b, x, c2, hc', hc1⟩ := cells_split (cells := cells) (n := pos.toNat - 1) (by omega)
    cases c2 with
    | nil =>
      subst hc'
      simp at hcl; omega
    | cons c c2 =>
      obtain ⟨d, y⟩ := c
      subst hc'
      obtain ⟨q, hq, -, hq2⟩ := advance_seg (bound := pos) (i := 1) hs (by omega)
      obtain ⟨rfl, hb0, n, hbn, rfl, hd0, n', hdn, hn'⟩ := hq2
      obtain ⟨g1, g2⟩ := remove_after hs hp hn'
      obtain ⟨-, hd2, -⟩ := seg_nodup_split hp.nodup
      have hne : n ≠ q := by
        rintro rfl
        exact hd2 (by simp)
      have hset : (h.set q ⟨n', x⟩) n = some ⟨n', y⟩ := by rw [Heap.set_ne _ _ hne, hdn]
      simp only [hq, Option.bind_eq_bind, Option.bind_some, deref_some hb0 hbn, deref_some hd0 hdn,
        free_some hd0 hset, Option.pure_def, hn]
      have hpos : pos.toNat = (c1.map Prod.snd).length + 1 := by rw [List.length_map]; omega
      have hex : xs.eraseIdx pos.toNat = c1.map Prod.snd ++ x :: c2.map Prod.snd := by
        rw [← hx, hpos]
        simp only [List.map_append, List.map_cons]
        rw [List.eraseIdx_append_of_length_le (Nat.le_succ _)]
        simp
      refine ⟨_, _, rfl, _, g1, g2, ?_, ?_⟩
      · rw [hex]; simp
      · rw [List.length_eraseIdx_of_lt (by omega)]; simp only; omega

/-- An empty list. -/
theorem owns_init (F : Heap) : Owns F list_init [] F :=
  ⟨[], rfl, ⟨by simp, fun _ _ => rfl, by simp⟩, rfl, rfl⟩

/-- **C25** (freeing). `osip_list_special_free` hands each element exactly once, in order, to the
destructor, frees every node and nothing else, leaves an empty list, and ends. -/
theorem c25_free {h : Heap} {li : CList} {xs : List Nat} {F : Heap} (ho : Owns h li xs F)
    {fuel : Nat} (hf : xs.length < fuel) :
    ∃ h' li', list_special_free h li fuel = some (xs.map some, h', li') ∧ Owns h' li' [] F ∧
      h' = F := by
  induction fuel generalizing h li xs with
  | zero => omega
  | succ fuel ih =>
    unfold list_special_free
    cases xs with
    | nil =>
      rw [(c25_size ho).2 0]
      obtain ⟨cells, hs, hp, hx, hn⟩ := ho
      have hce : cells = [] := by simpa using hx
      refine ⟨h, li, by simp, ⟨cells, hs, hp, hx, hn⟩, ?_⟩
      funext a
      exact hp.rest a (by simp [hce])
    | cons x xs =>
      rw [(c25_size ho).2 0]
      obtain ⟨h', li', hr, ho'⟩ := (c25_remove ho 0).2 (by omega) (by simp)
      obtain ⟨h'', li'', hr2, ho2⟩ := ih ho' (by simp at hf ⊢; omega)
      have hc : ¬ ((if (0 : Int) < ((x :: xs).length : Int) then 0 else 1 : Int) ≠ 0) := by
        simp
      rw [if_neg hc]
      simp only [c25_get ho, hr, Option.bind_eq_bind, Option.bind_some]
      simp only [Int.toNat_zero, List.eraseIdx_zero, List.tail_cons] at hr2
      rw [hr2]
      exact ⟨h'', li'', by simp, ho2⟩

end Osip
