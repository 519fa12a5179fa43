import Verif.Copy.Model

/-!
# C112: copying messages when memory can run out
-/

set_option autoImplicit false

namespace Osip.Copy

/-! ## Specification -/

/-- The blocks of the fields. -/
def blocks : (fs : Fields) → Vals fs → List Nat
  | .nil, _ => []
  | .str _ _ _ r, (p, v) => (match p with | none => [] | some (id, _) => [id]) ++ blocks r v
  | .obj _ _ s _ r, (p, v) => (match p with | none => [] | some (id, w) => id :: blocks s w) ++ blocks r v
  | .list _ _ s _ r, (l, v) => l.flatMap (fun x => x.1 :: x.2.1 :: blocks s x.2.2) ++ blocks r v

/-- The contents without the numbers of the blocks. -/
def strip : (fs : Fields) → Vals fs → Vals fs
  | .nil, _ => ()
  | .str _ _ _ r, (p, v) => (p.map fun x => (0, x.2), strip r v)
  | .obj _ _ s _ r, (p, v) => (p.map fun x => (0, strip s x.2), strip r v)
  | .list _ _ s _ r, (l, v) => (l.map fun x => (0, 0, strip s x.2.2), strip r v)

/-- Elements of the second list, in order, some of them left out. -/
inductive Part {α : Type} (R : α → α → Prop) : List (Nat × Nat × α) → List (Nat × Nat × α) → Prop
  | nil : Part R [] []
  | keep {n id n' id' : Nat} {v v' : α} {l l' : List (Nat × Nat × α)} : R v v' → Part R l l' → Part R ((n, id, v) :: l) ((n', id', v') :: l')
  | skip {x : Nat × Nat × α} {l l' : List (Nat × Nat × α)} : Part R l l' → Part R l (x :: l')

/-- The first has nothing which is not in the second: strings are missing or equal. -/
def Sub : (fs : Fields) → Vals fs → Vals fs → Prop
  | .nil, _, _ => True
  | .str _ _ _ r, (p, v), (q, w) => (p = none ∨ p.map Prod.snd = q.map Prod.snd) ∧ Sub r v w
  | .obj _ _ s _ r, (p, v), (q, w) => (match p, q with | none, none => True | some x, some y => Sub s x.2 y.2 | _, _ => False) ∧ Sub r v w
  | .list _ _ s _ r, (l, v), (m, w) => Part (Sub s) l m ∧ Sub r v w

/-- Every structure inside has what the test of its `_clone` function asks for. -/
def Valid : (fs : Fields) → Vals fs → Prop
  | .nil, _ => True
  | .str _ _ _ r, (_, v) => Valid r v
  | .obj _ need s _ r, (p, v) => (∀ x ∈ p, need (strings s x.2) = true ∧ Valid s x.2) ∧ Valid r v
  | .list _ need s _ r, (l, v) => (∀ x ∈ l, need (strings s x.2.2) = true ∧ Valid s x.2.2) ∧ Valid r v

/-- Every field is given back. -/
def AllFreed : Fields → Prop
  | .nil => True
  | .str _ _ fr r => fr = true ∧ AllFreed r
  | .obj _ _ s fr r => fr = true ∧ AllFreed s ∧ AllFreed r
  | .list _ _ s fr r => fr = true ∧ AllFreed s ∧ AllFreed r

/-- Every copy of a string is tested. -/
def Checked : Fields → Prop
  | .nil => True
  | .str _ c _ r => c = .freed ∧ Checked r
  | .obj _ _ s _ r => Checked s ∧ Checked r
  | .list _ _ s _ r => Checked s ∧ Checked r

/-! ## Giving back -/

theorem free_ok {id : Nat} {h : Heap} {R : Nat → Nat} (hc : ∀ b, h.live.count b = [id].count b + R b) :
    ∃ h', free id h = some h' ∧ h'.next = h.next ∧ ∀ b, h'.live.count b = R b := by
  have hm : id ∈ h.live := by
    apply List.count_pos_iff.1
    have := hc id
    simp at this
    omega
  refine ⟨⟨h.next, h.live.erase id⟩, by simp [free, hm], rfl, fun b => ?_⟩
  have := hc b
  simp only [List.count_erase]
  rw [this]
  by_cases hb : b = id
  · subst hb; simp
  · have : id ≠ b := fun k => hb k.symm
    simp [this]

theorem freeList_ok {α : Type} {f : α → Heap → Option Heap} {bl : α → List Nat}
    (hf : ∀ v (h : Heap) (R : Nat → Nat), (∀ b, h.live.count b = (bl v).count b + R b) →
      ∃ h', f v h = some h' ∧ h'.next = h.next ∧ ∀ b, h'.live.count b = R b) (l : List (Nat × Nat × α)) :
    ∀ (h : Heap) (R : Nat → Nat), (∀ b, h.live.count b = (l.flatMap fun x => x.1 :: x.2.1 :: bl x.2.2).count b + R b) →
      ∃ h', freeList f l h = some h' ∧ h'.next = h.next ∧ ∀ b, h'.live.count b = R b := by
  induction l with
  | nil => intro h R hc; exact ⟨h, rfl, rfl, by simpa using hc⟩
  | cons x l ih =>
    obtain ⟨n, id, v⟩ := x
    intro h R hc
    simp only [List.flatMap_cons, List.cons_append, List.count_cons, List.count_append] at hc
    obtain ⟨h1, e1, n1, c1⟩ := free_ok (id := n) (h := h) (R := fun b => (bl v).count b + ((l.flatMap fun x => x.1 :: x.2.1 :: bl x.2.2).count b) +
      (if id == b then 1 else 0) + R b) (fun b => by rw [hc b]; simp [List.count_cons]; omega)
    obtain ⟨h2, e2, n2, c2⟩ := hf v h1 (fun b => ((l.flatMap fun x => x.1 :: x.2.1 :: bl x.2.2).count b) + (if id == b then 1 else 0) + R b)
      (fun b => by rw [c1 b]; omega)
    obtain ⟨h3, e3, n3, c3⟩ := free_ok (id := id) (h := h2) (R := fun b => ((l.flatMap fun x => x.1 :: x.2.1 :: bl x.2.2).count b) + R b)
      (fun b => by rw [c2 b]; simp [List.count_cons]; omega)
    obtain ⟨h4, e4, n4, c4⟩ := ih h3 R (fun b => by rw [c3 b])
    exact ⟨h4, by simp [freeList, e1, e2, e3, e4], by omega, c4⟩

theorem freeFields_ok (fs : Fields) : AllFreed fs → ∀ (v : Vals fs) (h : Heap) (R : Nat → Nat),
    (∀ b, h.live.count b = (blocks fs v).count b + R b) →
      ∃ h', freeFields fs v h = some h' ∧ h'.next = h.next ∧ ∀ b, h'.live.count b = R b := by
  induction fs with
  | nil => intro _ v h R hc; exact ⟨h, rfl, rfl, by simpa [blocks] using hc⟩
  | str nm c fr r ih =>
    rintro ⟨rfl, hr⟩ ⟨p, v⟩ h R hc
    cases p with
    | none =>
      obtain ⟨h1, e1, n1, c1⟩ := ih hr v h R (by simpa [blocks] using hc)
      exact ⟨h1, by simp [freeFields, e1], n1, c1⟩
    | some x =>
      obtain ⟨id, s⟩ := x
      simp only [blocks, List.count_append] at hc
      obtain ⟨h1, e1, n1, c1⟩ := free_ok (id := id) (h := h) (R := fun b => (blocks r v).count b + R b) (fun b => by rw [hc b]; omega)
      obtain ⟨h2, e2, n2, c2⟩ := ih hr v h1 R c1
      exact ⟨h2, by simp [freeFields, e1, e2], by omega, c2⟩
  | obj nm need s fr r ihs ih =>
    rintro ⟨rfl, hs, hr⟩ ⟨p, v⟩ h R hc
    cases p with
    | none =>
      obtain ⟨h1, e1, n1, c1⟩ := ih hr v h R (by simpa [blocks] using hc)
      exact ⟨h1, by simp [freeFields, e1], n1, c1⟩
    | some x =>
      obtain ⟨id, w⟩ := x
      simp only [blocks, List.count_append, List.count_cons] at hc
      obtain ⟨h0, e0, n0, c0⟩ := ihs hs w h (fun b => (if id == b then 1 else 0) + (blocks r v).count b + R b) (fun b => by rw [hc b]; omega)
      obtain ⟨h1, e1, n1, c1⟩ := free_ok (id := id) (h := h0) (R := fun b => (blocks r v).count b + R b)
        (fun b => by rw [c0 b]; simp [List.count_cons]; omega)
      obtain ⟨h2, e2, n2, c2⟩ := ih hr v h1 R c1
      exact ⟨h2, by simp [freeFields, e0, e1, e2], by omega, c2⟩
  | list nm need s fr r ihs ih =>
    rintro ⟨rfl, hs, hr⟩ ⟨l, v⟩ h R hc
    simp only [blocks, List.count_append] at hc
    obtain ⟨h1, e1, n1, c1⟩ := freeList_ok (ihs hs) l h (fun b => (blocks r v).count b + R b) (fun b => by rw [hc b]; omega)
    obtain ⟨h2, e2, n2, c2⟩ := ih hr v h1 R c1
    exact ⟨h2, by simp [freeFields, e1, e2], by omega, c2⟩

/-! ## Copying -/

/-- The blocks `bs` of a copy and the lost blocks `lk` are new, each is there once, and nothing else has changed. -/
structure Grown (ok : Kind → Nat → Bool) (h h' : Heap) (bs lk : List Nat) : Prop where
  next : h.next ≤ h'.next
  cnt : ∀ b, h'.live.count b = bs.count b + lk.count b + h.live.count b
  new : ∀ b, 0 < bs.count b + lk.count b → h.next ≤ b ∧ b < h'.next
  once : ∀ b, bs.count b + lk.count b ≤ 1
  leak : (∀ n, ok .node n = true) → lk = []

variable {ok : Kind → Nat → Bool}

theorem Grown.refl (h : Heap) : Grown ok h h [] [] := ⟨Nat.le_refl _, by simp, by simp, by simp, by simp⟩

theorem Grown.trans {h h1 h2 : Heap} {a b c d : List Nat} (g : Grown ok h h1 a b) (k : Grown ok h1 h2 c d) : Grown ok h h2 (a ++ c) (b ++ d) := by
  refine ⟨Nat.le_trans g.next k.next, fun x => ?_, fun x hx => ?_, fun x => ?_, fun hn => by rw [g.leak hn, k.leak hn]; rfl⟩
  · rw [k.cnt, g.cnt]; simp only [List.count_append]; omega
  · simp only [List.count_append] at hx
    have g1 := g.new x; have k1 := k.new x
    have := g.next; have := k.next
    by_cases hc : 0 < a.count x + b.count x
    · have := g1 hc; omega
    · have := k1 (by omega); omega
  · simp only [List.count_append]
    have g1 := g.new x; have k1 := k.new x
    have g2 := g.once x; have k2 := k.once x
    by_cases hc : 0 < a.count x + b.count x
    · by_cases hd : 0 < c.count x + d.count x
      · have := g1 hc; have := k1 hd; omega
      · omega
    · omega

/-- Blocks with the same counts. -/
theorem Grown.congr {h h' : Heap} {a b a' b' : List Nat} (g : Grown ok h h' a b) (e : ∀ x, a.count x + b.count x = a'.count x + b'.count x)
    (hl : (∀ n, ok .node n = true) → b' = []) : Grown ok h h' a' b' :=
  ⟨g.next, fun x => by rw [g.cnt, e], fun x hx => g.new x (by rw [e]; exact hx), fun x => by rw [← e]; exact g.once x, hl⟩

theorem Grown.mem {h h' : Heap} {a b : List Nat} (g : Grown ok h h' a b) {x : Nat} (hx : x ∈ h.live) : x ∈ h'.live := by
  have := List.count_pos_iff.2 hx
  exact List.count_pos_iff.1 (by rw [g.cnt]; omega)

theorem malloc_none {k : Kind} {h h' : Heap} (e : malloc ok k h = (none, h')) : Grown ok h h' [] [] ∧ ok k h.next = false := by
  unfold malloc at e
  split at e
  · cases e
  · injection e with _ e; subst e
    exact ⟨⟨Nat.le_succ _, by simp, by simp, by simp, by simp⟩, by grind⟩

theorem malloc_some {k : Kind} {h h' : Heap} {n : Nat} (e : malloc ok k h = (some n, h')) : Grown ok h h' [n] [] := by
  unfold malloc at e
  split at e
  · injection e with e1 e2; injection e1 with e1; subst e1; subst e2
    refine ⟨Nat.le_succ _, fun b => ?_, fun b hb => ?_, fun b => ?_, fun _ => rfl⟩
    · simp only [List.count_cons, List.count_nil]; omega
    · simp only [List.count_cons, List.count_nil] at hb
      split at hb
      · rename_i hx; simp at hx; subst hx; exact ⟨Nat.le_refl _, Nat.lt_succ_self _⟩
      · simp at hb
    · simp only [List.count_cons, List.count_nil]; split <;> simp
  · cases e

/-- What copying the fields gives. -/
def CopyOk (ok : Kind → Nat → Bool) (fs : Fields) (src : Vals fs) (h : Heap) (i : Int) (d : Vals fs) (h' : Heap) : Prop :=
  (∃ lk, Grown ok h h' (blocks fs d) lk) ∧ (i = 0 → Sub fs d src) ∧
    (i = 0 → (∀ n, ok .node n = true) → (Checked fs ∨ ∀ n, ok .other n = true) → strip fs d = strip fs src) ∧
    ((∀ k n, ok k n = true) → Valid fs src → i = 0)

/-- What copying a structure gives. -/
def ObjOk (ok : Kind → Nat → Bool) (s : Fields) (good : Vals s → Bool) (src : Vals s) (h : Heap) (i : Int) (q : Option (Nat × Vals s)) (h' : Heap) : Prop :=
  (∃ lk, Grown ok h h' (match q with | none => [] | some (id, w) => id :: blocks s w) lk) ∧ (i = 0 → ∃ id d, q = some (id, d) ∧ Sub s d src) ∧
    (i = 0 → (∀ n, ok .node n = true) → (Checked s ∨ ∀ n, ok .other n = true) → ∃ id d, q = some (id, d) ∧ strip s d = strip s src) ∧
    ((∀ k n, ok k n = true) → good src = true → Valid s src → i = 0) ∧ (i ≠ 0 → q = none)

theorem blocks_empty (fs : Fields) : blocks fs (empty fs) = [] := by
  induction fs <;> simp_all [blocks, empty]

theorem cloneObj_ok {s : Fields} (hs : AllFreed s)
    (ih : ∀ (v : Vals s) (h : Heap), (∀ b ∈ blocks s v, b ∈ h.live) → ∃ i d h', cloneFields ok s v h = some (i, d, h') ∧ CopyOk ok s v h i d h')
    (good : Vals s → Bool) (id : Nat) (v : Vals s) (h : Heap) (hb : ∀ b ∈ id :: blocks s v, b ∈ h.live) :
    ∃ i q h', cloneObj ok good (cloneFields ok s) (freeFields s) id v h = some (i, q, h') ∧ ObjOk ok s good v h i q h' := by
  have h0 : id ∈ h.live := hb id (by simp)
  unfold cloneObj
  simp only [h0, not_true_eq_false, if_false]
  by_cases hg : good v = false
  · simp only [hg, if_true]
    exact ⟨_, _, _, rfl, ⟨[], Grown.refl h⟩, by simp [OSIP_BADPARAMETER], by simp [OSIP_BADPARAMETER], fun _ hgd => (by rw [hg] at hgd; cases hgd), by simp⟩
  · simp only [hg, if_false]
    rcases hm : malloc ok .other h with ⟨m, h1⟩
    cases m with
    | none =>
      obtain ⟨g, hk⟩ := malloc_none hm
      refine ⟨_, _, _, rfl, ⟨[], g⟩, by simp [OSIP_NOMEM], by simp [OSIP_NOMEM], fun hall => ?_, by simp⟩
      rw [hall] at hk; cases hk
    | some n =>
      have g := malloc_some hm
      obtain ⟨i, d, h2, e2, ⟨lk, g2⟩, c1, c2, c3⟩ := ih v h1 (fun b hb' => g.mem (hb b (by simp [hb'])))
      simp only [e2, Option.bind_eq_bind, Option.bind_some]
      have gg := g.trans g2
      by_cases hi : i = 0
      · subst hi
        refine ⟨_, _, _, rfl, ⟨lk, by simpa using gg⟩, fun _ => ⟨n, d, rfl, c1 rfl⟩, fun _ hn hc => ⟨n, d, rfl, c2 rfl hn hc⟩, fun _ _ _ => rfl, by simp [OSIP_SUCCESS]⟩
      · obtain ⟨h3, e3, n3, k3⟩ := freeFields_ok s hs d h2 (fun b => [n].count b + lk.count b + h.live.count b) (fun b => by
          have := gg.cnt b; simp only [List.count_append, List.nil_append] at this; omega)
        obtain ⟨h4, e4, n4, k4⟩ := free_ok (id := n) (h := h3) (R := fun b => lk.count b + h.live.count b) (fun b => by rw [k3 b]; omega)
        simp only [ne_eq, hi, not_false_eq_true, if_true, e3, e4, Option.bind_some]
        refine ⟨_, _, _, rfl, ⟨lk, ?_⟩, fun k => absurd k hi, fun k => absurd k hi, fun hall _ hv => c3 hall hv, fun _ => rfl⟩
        refine ⟨by have := gg.next; omega, fun b => by rw [k4 b]; simp, fun b hb' => ?_, fun b => ?_, fun hn => ?_⟩
        · have := gg.new b (by simp only [List.count_append, List.nil_append, List.count_nil] at hb' ⊢; omega)
          omega
        · have := gg.once b; simp only [List.count_append, List.nil_append, List.count_nil] at this ⊢; omega
        · simpa using gg.leak hn

theorem cloneList_ok {s : Fields} {good : Vals s → Bool} {clone : Nat → Vals s → Heap → Option (Int × Option (Nat × Vals s) × Heap)}
    (hc : ∀ (id : Nat) (v : Vals s) (h : Heap), (∀ b ∈ id :: blocks s v, b ∈ h.live) →
      ∃ i q h', clone id v h = some (i, q, h') ∧ ObjOk ok s good v h i q h') (l : List (Nat × Nat × Vals s)) :
    ∀ (h : Heap), (∀ b ∈ l.flatMap (fun x => x.1 :: x.2.1 :: blocks s x.2.2), b ∈ h.live) →
      ∃ i d h', cloneList ok clone l h = some (i, d, h') ∧ (∃ lk, Grown ok h h' (d.flatMap (fun x => x.1 :: x.2.1 :: blocks s x.2.2)) lk) ∧
        (i = 0 → Part (Sub s) d l) ∧
        (i = 0 → (∀ n, ok .node n = true) → (Checked s ∨ ∀ n, ok .other n = true) →
          d.map (fun x => (0, 0, strip s x.2.2)) = l.map (fun x => ((0, 0, strip s x.2.2) : Nat × Nat × Vals s))) ∧
        ((∀ k n, ok k n = true) → (∀ x ∈ l, good x.2.2 = true ∧ Valid s x.2.2) → i = 0) := by
  induction l with
  | nil => intro h _; exact ⟨0, [], h, rfl, ⟨[], Grown.refl h⟩, fun _ => .nil, fun _ _ _ => rfl, fun _ _ => rfl⟩
  | cons x l ih =>
    obtain ⟨n, id, v⟩ := x
    intro h hb
    have h0 : n ∈ h.live := hb n (by simp)
    obtain ⟨i, q, h1, e1, ⟨lk, g⟩, c1, c2, c3, c4⟩ := hc id v h (fun b hb' => hb b (by
      rw [List.flatMap_cons]; exact List.mem_append_left _ (List.mem_cons_of_mem _ hb')))
    simp only [cloneList, h0, not_true_eq_false, if_false, e1, Option.bind_eq_bind, Option.bind_some]
    by_cases hi : i = 0
    · subst hi
      obtain ⟨id', d, rfl, hsub⟩ := c1 rfl
      simp only [ne_eq, not_true_eq_false, if_false, Option.bind_some]
      rcases hm : malloc ok .node h1 with ⟨m, h2⟩
      cases m with
      | none =>
        obtain ⟨g2, hk⟩ := malloc_none hm
        have gg := g.trans g2
        obtain ⟨i, d', h3, e3, ⟨lk3, g3⟩, d1, d2, d3⟩ := ih h2 (fun b hb' => gg.mem (hb b (by simp only [List.flatMap_cons, List.mem_append]; exact .inr hb')))
        refine ⟨i, d', h3, e3, ⟨(id' :: blocks s d) ++ lk ++ lk3, ?_⟩, fun k => .skip (d1 k), fun _ hn => ?_, fun hall => ?_⟩
        · refine (gg.trans g3).congr (fun x => ?_) (fun hn => ?_)
          · simp only [List.count_append, List.append_nil]; omega
          · rw [hn] at hk; cases hk
        · rw [hn] at hk; cases hk
        · rw [hall] at hk; cases hk
      | some m =>
        have g2 := malloc_some hm
        have gg := g.trans g2
        obtain ⟨i, d', h3, e3, ⟨lk3, g3⟩, d1, d2, d3⟩ := ih h2 (fun b hb' => gg.mem (hb b (by simp only [List.flatMap_cons, List.mem_append]; exact .inr hb')))
        simp only [e3, Option.bind_some]
        refine ⟨_, _, _, rfl, ⟨lk ++ lk3, ?_⟩, fun k => .keep hsub (d1 k), fun k hn hck => ?_, fun hall hv => d3 hall fun x hx => hv x (by simp [hx])⟩
        · refine (gg.trans g3).congr (fun x => ?_) (fun hn => ?_)
          · simp only [List.count_append, List.append_nil, List.flatMap_cons, List.count_cons, List.cons_append, List.nil_append]; simp; omega
          · rw [g.leak hn, g3.leak hn]; rfl
        · obtain ⟨_, d0, hq, hst⟩ := c2 rfl hn hck
          injection hq with hq; injection hq with _ hq; subst hq
          simp only [List.map_cons, hst, d2 k hn hck]
    · have hq := c4 hi
      subst hq
      simp only [ne_eq, hi, not_false_eq_true, if_true]
      refine ⟨_, _, _, rfl, ⟨lk, g⟩, fun k => absurd k hi, fun k => absurd k hi, fun hall hv => ?_⟩
      have := hv (n, id, v) (by simp)
      exact c3 hall this.1 this.2

theorem cloneFields_ok (fs : Fields) : AllFreed fs → ∀ (v : Vals fs) (h : Heap), (∀ b ∈ blocks fs v, b ∈ h.live) →
    ∃ i d h', cloneFields ok fs v h = some (i, d, h') ∧ CopyOk ok fs v h i d h' := by
  induction fs with
  | nil => intro _ v h _; exact ⟨0, (), h, rfl, ⟨[], Grown.refl h⟩, fun _ => trivial, fun _ _ _ => rfl, fun _ _ => rfl⟩
  | str nm c fr r ih =>
    rintro ⟨rfl, hr⟩ ⟨p, v⟩ h hb
    have hb' : ∀ b ∈ blocks r v, b ∈ h.live := fun b hb' => hb b (by simp only [blocks, List.mem_append]; exact .inr hb')
    cases p with
    | none =>
      obtain ⟨i, d, h1, e1, ⟨lk, g⟩, c1, c2, c3⟩ := ih hr v h hb'
      refine ⟨i, (none, d), h1, by simp [cloneFields, e1], ⟨lk, by simpa [blocks] using g⟩, fun k => ⟨.inl rfl, c1 k⟩, fun k hn hck => ?_, fun hall hv => c3 hall hv⟩
      have := c2 k hn (hck.imp (fun x => x.2) id)
      simp [strip, this] <;> rfl
    | some x =>
      obtain ⟨id, s⟩ := x
      have h0 : id ∈ h.live := hb id (by simp [blocks])
      rcases hm : malloc ok .other h with ⟨m, h1⟩
      cases m with
      | none =>
        obtain ⟨g0, hk⟩ := malloc_none hm
        by_cases hcf : c = .freed
        · refine ⟨OSIP_NOMEM, (none, empty r), h1, by simp [cloneFields, h0, hm, hcf], ⟨[], by simpa [blocks, blocks_empty] using g0⟩, by simp [OSIP_NOMEM],
            by simp [OSIP_NOMEM], fun hall => ?_⟩
          rw [hall] at hk; cases hk
        · obtain ⟨i, d, h2, e1, ⟨lk, g⟩, c1, c2, c3⟩ := ih hr v h1 (fun b hb2 => g0.mem (hb' b hb2))
          refine ⟨i, (none, d), h2, by simp [cloneFields, h0, hm, hcf, e1], ⟨lk, by simpa [blocks] using g0.trans g⟩, fun k => ⟨.inl rfl, c1 k⟩,
            fun k hn hck => ?_, fun hall hv => ?_⟩
          · rcases hck with hck | hck
            · exact absurd hck.1 hcf
            · rw [hck] at hk; cases hk
          · rw [hall] at hk; cases hk
      | some n =>
        have g0 := malloc_some hm
        obtain ⟨i, d, h2, e1, ⟨lk, g⟩, c1, c2, c3⟩ := ih hr v h1 (fun b hb2 => g0.mem (hb' b hb2))
        refine ⟨i, (some (n, s), d), h2, by simp [cloneFields, h0, hm, e1], ⟨lk, by simpa [blocks] using g0.trans g⟩, fun k => ⟨.inr rfl, c1 k⟩,
          fun k hn hck => ?_, fun hall hv => c3 hall hv⟩
        have := c2 k hn (hck.imp (fun x => x.2) _root_.id)
        simp [strip, this] <;> rfl
  | obj nm need s fr r ihs ih =>
    rintro ⟨rfl, hs, hr⟩ ⟨p, v⟩ h hb
    have hb' : ∀ b ∈ blocks r v, b ∈ h.live := fun b hb' => hb b (by simp only [blocks, List.mem_append]; exact .inr hb')
    cases p with
    | none =>
      obtain ⟨i, d, h1, e1, ⟨lk, g⟩, c1, c2, c3⟩ := ih hr v h hb'
      refine ⟨i, (none, d), h1, by simp [cloneFields, e1], ⟨lk, by simpa [blocks] using g⟩, fun k => ⟨trivial, c1 k⟩, fun k hn hck => ?_, fun hall hv => c3 hall hv.2⟩
      have := c2 k hn (hck.imp (fun x => x.2) id)
      simp [strip, this] <;> rfl
    | some x =>
      obtain ⟨id, w⟩ := x
      obtain ⟨i, q, h1, e1, ⟨lk, g⟩, c1, c2, c3, c4⟩ := cloneObj_ok hs (ihs hs) (fun w => need (strings s w)) id w h
        (fun b hb2 => hb b (by simp only [blocks, List.mem_append]; exact .inl hb2))
      by_cases hi : i = 0
      · subst hi
        obtain ⟨id', w', rfl, hsub⟩ := c1 rfl
        obtain ⟨j, d, h2, e2, ⟨lk2, g2⟩, d1, d2, d3⟩ := ih hr v h1 (fun b hb2 => g.mem (hb' b hb2))
        refine ⟨j, (some (id', w'), d), h2, by simp [cloneFields, e1, e2], ⟨lk ++ lk2, by simpa [blocks] using g.trans g2⟩, fun k => ⟨hsub, d1 k⟩, fun k hn hck => ?_,
          fun hall hv => d3 hall hv.2⟩
        obtain ⟨_, _, hq, hst⟩ := c2 rfl hn (hck.imp (fun x => x.1) _root_.id)
        injection hq with hq; injection hq with _ hq; subst hq
        have := d2 k hn (hck.imp (fun x => x.2) _root_.id)
        simp [strip, hst, this] <;> rfl
      · have hq := c4 hi
        subst hq
        refine ⟨i, (none, empty r), h1, by simp [cloneFields, e1, hi], ⟨lk, by simpa [blocks, blocks_empty] using g⟩, fun k => absurd k hi, fun k => absurd k hi, fun hall hv => ?_⟩
        have := hv.1 (id, w) rfl
        exact c3 hall this.1 this.2
  | list nm need s fr r ihs ih =>
    rintro ⟨rfl, hs, hr⟩ ⟨l, v⟩ h hb
    have hb' : ∀ b ∈ blocks r v, b ∈ h.live := fun b hb' => hb b (by simp only [blocks, List.mem_append]; exact .inr hb')
    obtain ⟨i, q, h1, e1, ⟨lk, g⟩, c1, c2, c3⟩ := cloneList_ok (cloneObj_ok hs (ihs hs) (fun w => need (strings s w))) l h
      (fun b hb2 => hb b (by simp only [blocks, List.mem_append]; exact .inl hb2))
    by_cases hi : i = 0
    · subst hi
      obtain ⟨j, d, h2, e2, ⟨lk2, g2⟩, d1, d2, d3⟩ := ih hr v h1 (fun b hb2 => g.mem (hb' b hb2))
      refine ⟨j, (q, d), h2, by simp [cloneFields, e1, e2], ⟨lk ++ lk2, by simpa [blocks] using g.trans g2⟩, fun k => ⟨c1 rfl, d1 k⟩, fun k hn hck => ?_,
        fun hall hv => d3 hall hv.2⟩
      have k1 := c2 rfl hn (hck.imp (fun x => x.1) id)
      have k2 := d2 k hn (hck.imp (fun x => x.2) id)
      simp only [strip, k1, k2]; rfl
    · refine ⟨i, (q, empty r), h1, by simp [cloneFields, e1, hi], ⟨lk, by simpa [blocks, blocks_empty] using g⟩, fun k => absurd k hi, fun k => absurd k hi,
        fun hall hv => c3 hall hv.1⟩

/-! ## The properties -/

/-- All types of the model. -/
def types : List Ty := [uriParam, uri, «from», via, cseq, callId, contentLength, contentType, callInfo, header, body, wwwAuthenticate, authorization,
  authenticationInfo, message]

/-- The blocks in use are different and have been allocated. -/
def Heap.Wf (h : Heap) : Prop := h.live.Nodup ∧ ∀ b ∈ h.live, b < h.next

theorem types_freed {ty : Ty} (h : ty ∈ types) : AllFreed ty.fields := by
  simp only [types, List.mem_cons, List.not_mem_nil, or_false] at h
  rcases h with rfl | rfl | rfl | rfl | rfl | rfl | rfl | rfl | rfl | rfl | rfl | rfl | rfl | rfl | rfl <;>
    simp [AllFreed, uriParam, uri, «from», via, cseq, callId, contentLength, contentType, callInfo, header, body, wwwAuthenticate, authorization,
      authenticationInfo, message, one, many]

theorem Grown.wf {h h' : Heap} {a b : List Nat} (g : Grown ok h h' a b) (w : h.Wf) : h'.Wf := by
  have hold : ∀ x, 0 < h.live.count x → x < h.next := fun x hx => w.2 x (List.count_pos_iff.1 hx)
  refine ⟨List.nodup_iff_count.2 fun x => ?_, fun x hx => ?_⟩
  · have := List.nodup_iff_count.1 w.1 x
    have g1 := g.new x; have g2 := g.once x; have g3 := hold x
    rw [g.cnt]
    by_cases hc : 0 < a.count x + b.count x
    · have := g1 hc; omega
    · omega
  · have hx := List.count_pos_iff.2 hx
    rw [g.cnt] at hx
    have g1 := g.new x; have g3 := hold x; have := g.next
    by_cases hc : 0 < a.count x + b.count x
    · exact (g1 hc).2
    · have := g3 (by omega); omega

theorem clone_ok {ty : Ty} (hty : ty ∈ types) (ok : Kind → Nat → Bool) {id : Nat} {v : Vals ty.fields} {h : Heap}
    (hb : ∀ b ∈ id :: blocks ty.fields v, b ∈ h.live) :
    ∃ i q h', ty.clone ok id v h = some (i, q, h') ∧ ObjOk ok ty.fields (fun w => ty.need (strings ty.fields w)) v h i q h' :=
  cloneObj_ok (types_freed hty) (cloneFields_ok _ (types_freed hty)) _ id v h hb

theorem free_obj {ty : Ty} (hty : ty ∈ types) {n : Nat} {d : Vals ty.fields} {h : Heap} {R : Nat → Nat}
    (hc : ∀ b, h.live.count b = (n :: blocks ty.fields d).count b + R b) :
    ∃ h', ty.free n d h = some h' ∧ ∀ b, h'.live.count b = R b := by
  obtain ⟨h1, e1, _, c1⟩ := freeFields_ok _ (types_freed hty) d h (fun b => [n].count b + R b) (fun b => by
    rw [hc b]; simp only [List.count_cons, List.count_nil]; omega)
  obtain ⟨h2, e2, _, c2⟩ := free_ok (id := n) c1
  exact ⟨h2, by simp [Ty.free, e1, e2], c2⟩

/-- **C112**, safety: whatever allocations fail, copying reads only blocks in use, gives back no block twice and none of the caller; a code
of 0 comes with a copy, every other code without. The blocks of a copy are new and different; it has nothing which the source has not; and it
can be given back. -/
theorem c112_safe {ty : Ty} (hty : ty ∈ types) (ok : Kind → Nat → Bool) {id : Nat} {v : Vals ty.fields} {h : Heap} (hw : h.Wf)
    (hb : ∀ b ∈ id :: blocks ty.fields v, b ∈ h.live) :
    ∃ i q h', ty.clone ok id v h = some (i, q, h') ∧ h'.Wf ∧ (∀ b ∈ h.live, b ∈ h'.live) ∧ (i = 0 ↔ q ≠ none) ∧
      ∀ n d, q = some (n, d) → (n :: blocks ty.fields d).Nodup ∧ (∀ b ∈ n :: blocks ty.fields d, b ∈ h'.live ∧ b ∉ h.live) ∧
        Sub ty.fields d v ∧ ∃ h'', ty.free n d h' = some h'' ∧ ∀ b ∈ h.live, b ∈ h''.live := by
  obtain ⟨i, q, h', e, ⟨lk, g⟩, c1, c2, c3, c4⟩ := clone_ok hty ok hb
  refine ⟨i, q, h', e, g.wf hw, fun b hb' => g.mem hb', ⟨fun hi => ?_, fun hq => ?_⟩, ?_⟩
  · obtain ⟨n, d, rfl, _⟩ := c1 hi; simp
  · by_cases hi : i = 0
    · exact hi
    · exact absurd (c4 hi) hq
  · rintro n d rfl
    have hi : i = 0 := by
      by_cases hi : i = 0
      · exact hi
      · have := c4 hi; cases this
    obtain ⟨_, _, hq, hsub⟩ := c1 hi
    injection hq with hq; injection hq with _ hq; subst hq
    simp only at g
    refine ⟨List.nodup_iff_count.2 fun x => ?_, fun x hx => ?_, hsub, ?_⟩
    · have := g.once x; omega
    · have hx := List.count_pos_iff.2 hx
      refine ⟨List.count_pos_iff.1 (by rw [g.cnt]; omega), fun hl => ?_⟩
      have := (g.new x (by omega)).1
      have := hw.2 x hl
      omega
    · obtain ⟨h2, e2, k2⟩ := free_obj hty (n := n) (d := d) (h := h') (R := fun b => lk.count b + h.live.count b) (fun b => by rw [g.cnt]; omega)
      refine ⟨h2, e2, fun b hb' => List.count_pos_iff.1 ?_⟩
      have := List.count_pos_iff.2 hb'
      rw [k2]; omega

/-- **C112** as far as it holds, no lost memory: if the allocations of list nodes succeed, a failed copy leaves the blocks as they were, a copy
adds its own blocks, and giving it back removes them. -/
theorem c112_no_leak_partial {ty : Ty} (hty : ty ∈ types) {ok : Kind → Nat → Bool} (hn : ∀ n, ok .node n = true) {id : Nat}
    {v : Vals ty.fields} {h : Heap} (hb : ∀ b ∈ id :: blocks ty.fields v, b ∈ h.live) :
    ∃ i q h', ty.clone ok id v h = some (i, q, h') ∧ (i ≠ 0 → q = none ∧ h'.live.Perm h.live) ∧
      ∀ n d, q = some (n, d) → i = 0 ∧ h'.live.Perm ((n :: blocks ty.fields d) ++ h.live) ∧
        ∃ h'', ty.free n d h' = some h'' ∧ h''.live.Perm h.live := by
  obtain ⟨i, q, h', e, ⟨lk, g⟩, c1, c2, c3, c4⟩ := clone_ok hty ok hb
  have hlk := g.leak hn
  subst hlk
  refine ⟨i, q, h', e, fun hi => ?_, ?_⟩
  · have hq := c4 hi
    subst hq
    exact ⟨rfl, List.perm_iff_count.2 fun b => by rw [g.cnt]; simp⟩
  · rintro n d rfl
    have hi : i = 0 := by
      by_cases hi : i = 0
      · exact hi
      · have := c4 hi; cases this
    simp only at g
    obtain ⟨h2, e2, k2⟩ := free_obj hty (n := n) (d := d) (h := h') (R := fun b => h.live.count b) (fun b => by rw [g.cnt]; simp)
    exact ⟨hi, List.perm_iff_count.2 fun b => by rw [g.cnt, List.count_append]; simp, h2, e2, List.perm_iff_count.2 k2⟩

/-- **C112** as far as it holds, equal copies: without a failing allocation every structure whose parts have what is needed is copied, and the
copy has the same contents. -/
theorem c112_equal_partial {ty : Ty} (hty : ty ∈ types) {ok : Kind → Nat → Bool} (hok : ∀ k n, ok k n = true) {id : Nat} {v : Vals ty.fields}
    {h : Heap} (hb : ∀ b ∈ id :: blocks ty.fields v, b ∈ h.live) (h1 : ty.need (strings ty.fields v) = true) (h2 : Valid ty.fields v) :
    ∃ n d h', ty.clone ok id v h = some (0, some (n, d), h') ∧ strip ty.fields d = strip ty.fields v := by
  obtain ⟨i, q, h', e, _, c1, c2, c3, c4⟩ := clone_ok hty ok hb
  have hi := c3 hok h1 h2
  subst hi
  obtain ⟨n, d, rfl, hs⟩ := c2 rfl (hok .node) (.inr (hok .other))
  exact ⟨n, d, h', e, hs⟩

/-- For headers of unknown name, challenges and single values the copy is equal whenever it succeeds. -/
theorem c112_equal_checked {ty : Ty} (hty : ty ∈ [contentLength, header, wwwAuthenticate]) {ok : Kind → Nat → Bool} (hn : ∀ n, ok .node n = true)
    {id : Nat} {v : Vals ty.fields} {h : Heap} (hb : ∀ b ∈ id :: blocks ty.fields v, b ∈ h.live) {q : Option (Nat × Vals ty.fields)} {h' : Heap}
    (e : ty.clone ok id v h = some (0, q, h')) : ∃ n d, q = some (n, d) ∧ strip ty.fields d = strip ty.fields v := by
  have ht : ty ∈ types := by
    simp only [List.mem_cons, List.not_mem_nil, or_false] at hty
    rcases hty with rfl | rfl | rfl <;> simp [types]
  have hck : Checked ty.fields := by
    simp only [List.mem_cons, List.not_mem_nil, or_false] at hty
    rcases hty with rfl | rfl | rfl <;> simp [Checked, contentLength, header, wwwAuthenticate]
  obtain ⟨i, q', h2, e', _, _, c2, _, _⟩ := clone_ok ht ok hb
  rw [e] at e'
  injection e' with e'; injection e' with e1 e'; injection e' with e2 e'
  subst e1; subst e2
  exact c2 rfl hn (.inl hck)

/-! ## Where it fails -/

/-- A parameter `tag=x`, with its node in block 1. -/
def tagParam : List (Nat × Nat × Vals uriParam.fields) := [(1, 2, (some (3, "tag".toList), some (4, "x".toList), ()))]

/-- The header From in block 0 with one parameter. -/
def fromWithTag : Vals «from».fields := (none, none, tagParam, ())

/-- Credentials in block 0 with a realm. -/
def auth0 : Vals authorization.fields := (some (1, "Digest".toList), none, some (2, "r".toList), none, none, none, none, none, none, none, none, none, none, none,
  none, none, none, ())

/-- The URI `sip:h` in block 0. -/
def uri0 : Vals uri.fields := (some (1, "sip".toList), none, none, some (2, "h".toList), none, none, [], [], ())

/-- **C112** fails: (1) if there is no memory for the node of a list the copy succeeds without the element, whose blocks are lost for ever (here
the tag of a From header); (2) a failed copy of the host of a URI is not noticed; (3) nor that of the realm of credentials, because the test
looks at the source; the copies succeed and lack the field. -/
theorem c112_violated :
    («from».clone (fun k _ => k = .other) 0 fromWithTag ⟨5, [0, 1, 2, 3, 4]⟩).map (fun x => (x.1, x.2.1.map fun y => blocks «from».fields y.2, x.2.2.live)) =
      some (0, some [], [8, 7, 6, 5, 0, 1, 2, 3, 4]) ∧
    (uri.clone (fun _ n => n ≠ 5) 0 uri0 ⟨3, [0, 1, 2]⟩).map (fun x => (x.1, x.2.1.map fun y => strings uri.fields y.2)) =
      some (0, some [some "sip".toList, none, none, none, none, none]) ∧
    (authorization.clone (fun _ n => n ≠ 5) 0 auth0 ⟨3, [0, 1, 2]⟩).map (fun x => (x.1, x.2.1.map fun y => (strings authorization.fields y.2).take 3)) =
      some (0, some [some "Digest".toList, none, none]) := by
  refine ⟨?_, ?_, ?_⟩ <;> decide +kernel

/-! ## Examples -/

/-- All goes well. -/
example : («from».clone (fun _ _ => true) 0 fromWithTag ⟨5, [0, 1, 2, 3, 4]⟩).map (fun x => (x.1, x.2.1.map fun y => blocks «from».fields y.2, x.2.2.live)) =
    some (0, some [9, 6, 7, 8], [9, 8, 7, 6, 5, 0, 1, 2, 3, 4]) := by decide +kernel

/-- The last of three strings fails: all is given back. -/
example : (via.clone (fun _ n => n ≠ 7) 0 (some (1, "2.0".toList), some (2, "UDP".toList), some (3, "h".toList), none, none, [], ()) ⟨4, [0, 1, 2, 3]⟩).map
      (fun x => (x.1, x.2.1.isSome, x.2.2)) = some (OSIP_NOMEM, false, ⟨8, [0, 1, 2, 3]⟩) := by decide +kernel

/-- A message with an empty body cannot be copied. -/
example : (body.clone (fun _ _ => true) 0 (some (1, []), none, some (2, ([], ())), ()) ⟨3, [0, 1, 2]⟩).map (fun x => (x.1, x.2.2)) =
    some (OSIP_BADPARAMETER, ⟨3, [0, 1, 2]⟩) := by decide +kernel

/-- A message with method, URI, CSeq and one Via. -/
def message0 : Vals message.fields := (some (1, "OPTIONS".toList), some (2, "SIP/2.0".toList), none, some (3, (some (4, "sip".toList), none, none, some (5, "h".toList), none,
  none, [], [], ())), [], [], [], [], [], [], [], [], [], [], [], none, [], none, none, some (6, (some (7, "OPTIONS".toList), some (8, "1".toList), ())), none, none, [], [], [], [],
  none, [(9, 10, (some (11, "2.0".toList), some (12, "UDP".toList), some (13, "h".toList), none, none, [], ()))], [], [], [], none, ())

/-- It has what is needed. -/
example : message.need (strings message.fields message0) = true ∧ Valid message.fields message0 := by
  simp [message, message0, Valid, all, one, many, uri, cseq, via, strings]

/-- Of its fourteen allocations any one may fail: either all is given back or there is a copy. -/
example : ((List.range 14).map fun n => ((message.clone (fun _ k => k ≠ 14 + n) 0 message0 ⟨14, List.range 14⟩).map fun x => (x.1, x.2.2.live.length))) =
    [some (-4, 14), some (-4, 14), some (-4, 14), some (-4, 14), some (0, 27), some (0, 27), some (-4, 14), some (0, 27), some (0, 27),
      some (-4, 14), some (-4, 14), some (-4, 14), some (-4, 14), some (0, 27)] := by decide +kernel

end Osip.Copy
