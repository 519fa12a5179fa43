import Verif.Own.Check

/-!
# The checker of Verif/Own/Check.lean is right
-/

set_option autoImplicit false

namespace Osip.Own

theorem AS.get_set (a : AS) (x y : Nat) (v : A) :
    (a.set x v).get y = if x = y ∧ x < a.vars.length then v else a.get y := by
  simp only [AS.get, AS.set, List.getElem?_set]
  grind

theorem St.get_set (s : St) (x y : Nat) (v : Val) :
    (s.set x v).get y = if x = y ∧ x < s.store.length then v else s.get y := by
  simp only [St.get, St.set, List.getElem?_set]
  grind

theorem St.cell_mark (s : St) (b d : Nat) (c : Cell) :
    (s.mark b c).cell d = if b = d ∧ b < s.heap.length then c else s.cell d := by
  simp only [St.cell, St.mark, List.getElem?_set]
  grind

theorem St.get_fresh (s : St) (x y : Nat) (c : Cell) :
    (s.fresh x c).get y = if x = y ∧ x < s.store.length then .ptr s.heap.length else s.get y := by
  simp only [St.get, St.set, St.fresh, List.getElem?_set]
  grind

theorem St.cell_fresh (s : St) (x d : Nat) (c : Cell) :
    (s.fresh x c).cell d = if d = s.heap.length then c else s.cell d := by
  simp only [St.cell, St.fresh, List.getElem?_append]
  grind

theorem St.cell_lt (s : St) (b : Nat) (h : s.cell b ≠ .freed) : b < s.heap.length := by
  simp only [St.cell] at h
  grind

theorem mem_join {α : Type} [DecidableEq α] (m l : List α) (a : α) : a ∈ join l m ↔ a ∈ l ∨ a ∈ m := by
  induction m generalizing l with
  | nil => simp [join]
  | cons b m ih => grind [join]

/-- What is known of a variable is true. -/
def Match (s : St) : A → Val → Prop
  | .dead, _ => True
  | .null, v => v = .null
  | .fresh, v => ∃ b, v = .ptr b ∧ s.cell b = .fresh
  | .live, v => ∃ b, v = .ptr b ∧ s.cell b = .live
  | .kept, v => ∃ b, v = .ptr b ∧ s.cell b = .kept
  | .gone, v => ∃ b, v = .ptr b ∧ b < s.heap.length ∧ s.cell b = .freed

theorem Match.same {s t : St} (h : t.heap = s.heap) {v : A} {w : Val} (hm : Match s v w) : Match t v w := by
  have hc : t.cell = s.cell := by funext b; simp only [St.cell, h]
  cases v <;> simp only [Match, hc, h] at hm ⊢ <;> exact hm

/-- The blocks that have to be given back are those of `R`, which belong to others, and those of the variables, each of one variable. -/
structure Inv (a : AS) (s : St) (R : Nat → Prop) : Prop where
  len : a.vars.length = s.store.length
  ok : a.ok = s.ok
  val : ∀ x, Match s (a.get x) (s.get x)
  inj : ∀ x y b, (a.get x).own = true → (a.get y).own = true → s.get x = .ptr b → s.get y = .ptr b → x = y
  out : ∀ x b, (a.get x).own = true → s.get x = .ptr b → ¬ R b
  all : ∀ b, (s.cell b).owed = true → R b ∨ ∃ x, (a.get x).own = true ∧ s.get x = .ptr b
  rest : ∀ b, R b → (s.cell b).owed = true

/-- What does not change. -/
structure Frame (s t : St) (R : Nat → Prop) : Prop where
  store : t.store.length = s.store.length
  heap : s.heap.length ≤ t.heap.length
  rest : ∀ b, R b → t.cell b = s.cell b
  kept : ∀ b, s.cell b = .kept → t.cell b = .kept
  freed : ∀ b, b < s.heap.length → s.cell b = .freed → t.cell b = .freed

theorem Frame.refl (s : St) (R : Nat → Prop) : Frame s s R := ⟨rfl, Nat.le_refl _, fun _ _ => rfl, fun _ h => h, fun _ _ h => h⟩

theorem Frame.trans {s t u : St} {R : Nat → Prop} (h : Frame s t R) (g : Frame t u R) : Frame s u R :=
  ⟨g.store.trans h.store, Nat.le_trans h.heap g.heap, fun b hb => (g.rest b hb).trans (h.rest b hb), fun b hb => g.kept b (h.kept b hb),
    fun b hl hb => g.freed b (Nat.lt_of_lt_of_le hl h.heap) (h.freed b hl hb)⟩

theorem Inv.next {a : AS} {s : St} {R : Nat → Prop} (h : Inv a s R) : Inv a s.next R := ⟨h.len, h.ok, h.val, h.inj, h.out, h.all, h.rest⟩

theorem Frame.next {s t : St} {R : Nat → Prop} (h : Frame s.next t R) : Frame s t R := ⟨h.store, h.heap, h.rest, h.kept, h.freed⟩

theorem Inv.setOk {a : AS} {s : St} {R : Nat → Prop} (h : Inv a s R) (k : Bool) : Inv { a with ok := k } { s with ok := k } R :=
  ⟨h.len, rfl, h.val, h.inj, h.out, h.all, h.rest⟩

theorem Frame.setOk {s t : St} {R : Nat → Prop} (h : Frame s t R) (k : Bool) : Frame s { t with ok := k } R :=
  ⟨h.store, h.heap, h.rest, h.kept, h.freed⟩

/-- What an own variable points to. -/
theorem Inv.own {a : AS} {s : St} {R : Nat → Prop} (h : Inv a s R) (x : Nat) (ho : (a.get x).own = true) :
    ∃ b, s.get x = .ptr b ∧ (s.cell b).owed = true := by
  have := h.val x
  generalize a.get x = v at *
  cases v <;> simp_all [A.own, Match] <;> obtain ⟨b, h1, h2⟩ := this <;> exact ⟨b, h1, by simp [h2, Cell.owed]⟩

/-- A value without a block to be given back is written to a variable without such a block. -/
theorem Inv.set {a : AS} {s : St} {R : Nat → Prop} (h : Inv a s R) (x : Nat) (v : A) (w : Val)
    (hx : (a.get x).own = false) (hv : v.own = false) (hm : Match s v w) :
    Inv (a.set x v) (s.set x w) R ∧ Frame s (s.set x w) R := by
  have hl := h.len
  refine ⟨⟨by simp [AS.set, St.set, hl], h.ok, ?_, ?_, ?_, ?_, h.rest⟩, ⟨by simp [St.set], Nat.le_refl _, fun _ _ => rfl, fun _ h => h, fun _ _ h => h⟩⟩
  · intro y
    rw [AS.get_set, St.get_set, hl]
    have := h.val y
    split
    · exact Match.same (by rfl) hm
    · exact Match.same (by rfl) this
  · intro y z b
    rw [AS.get_set, AS.get_set, St.get_set, St.get_set, hl]
    have := h.inj y z b
    grind
  · intro y b
    rw [AS.get_set, St.get_set, hl]
    have := h.out y b
    grind
  · intro b hb
    rcases h.all b hb with h1 | ⟨y, h1, h2⟩
    · exact .inl h1
    · refine .inr ⟨y, ?_, ?_⟩
      · rw [AS.get_set]; grind
      · rw [St.get_set]; grind

/-- A new block for a variable without a block to be given back. -/
theorem Inv.alloc {a : AS} {s : St} {R : Nat → Prop} (h : Inv a s R) (x : Nat) (v : A) (c : Cell) (hl' : x < a.vars.length)
    (hx : (a.get x).own = false) (hv : (v = .live ∧ c = .live) ∨ (v = .fresh ∧ c = .fresh)) :
    Inv (a.set x v) (s.fresh x c) R ∧ Frame s (s.fresh x c) R := by
  have hl := h.len
  have hn : ¬ R s.heap.length := by
    intro hr
    have := s.cell_lt s.heap.length (by intro e; have := h.rest _ hr; simp [e, Cell.owed] at this)
    omega
  have hlt : ∀ y b, s.get y = .ptr b → (a.get y).own = true → b < s.heap.length := by
    intro y b hb ho
    obtain ⟨d, h1, h2⟩ := h.own y ho
    have : d = b := by rw [hb] at h1; exact (Val.ptr.inj h1).symm
    exact this ▸ s.cell_lt d (by intro e; simp [e, Cell.owed] at h2)
  refine ⟨⟨by simp [AS.set, St.set, St.fresh, hl], h.ok, ?_, ?_, ?_, ?_, ?_⟩, ⟨by simp [St.set, St.fresh], by simp [St.fresh], ?_, ?_, ?_⟩⟩
  · intro y
    rw [AS.get_set, St.get_fresh, hl]
    have := h.val y
    split
    · rcases hv with ⟨rfl, rfl⟩ | ⟨rfl, rfl⟩ <;> exact ⟨_, rfl, by simp [St.cell_fresh]⟩
    · have hle : s.heap.length ≤ (s.fresh x c).heap.length := by simp [St.fresh]
      have hc : ∀ b, s.cell b ≠ .freed → (s.fresh x c).cell b = s.cell b := by
        intro b hb
        have := s.cell_lt b hb
        rw [St.cell_fresh, if_neg (by omega)]
      generalize a.get y = u at *
      cases u <;> simp only [Match] at this ⊢
      · exact this
      · obtain ⟨b, h1, h2⟩ := this; exact ⟨b, h1, by rw [hc b (by simp [h2]), h2]⟩
      · obtain ⟨b, h1, h2⟩ := this; exact ⟨b, h1, by rw [hc b (by simp [h2]), h2]⟩
      · obtain ⟨b, h1, h2⟩ := this; exact ⟨b, h1, by rw [hc b (by simp [h2]), h2]⟩
      · obtain ⟨b, h1, h2, h3⟩ := this
        exact ⟨b, h1, by omega, by rw [St.cell_fresh, if_neg (by omega), h3]⟩
  · intro y z b
    rw [AS.get_set, AS.get_set, St.get_fresh, St.get_fresh, hl]
    have := h.inj y z b
    have := hlt y b
    have := hlt z b
    grind
  · intro y b
    rw [AS.get_set, St.get_fresh, hl]
    have := h.out y b
    grind
  · intro b
    rw [St.cell_fresh]
    intro hb
    by_cases hbe : b = s.heap.length
    · refine .inr ⟨x, ?_, ?_⟩
      · rw [AS.get_set, if_pos ⟨rfl, hl'⟩]; rcases hv with ⟨rfl, rfl⟩ | ⟨rfl, rfl⟩ <;> rfl
      · rw [St.get_fresh, if_pos ⟨rfl, by omega⟩, hbe]
    · rw [if_neg hbe] at hb
      rcases h.all b hb with h1 | ⟨y, h1, h2⟩
      · exact .inl h1
      · refine .inr ⟨y, ?_, ?_⟩
        · rw [AS.get_set]; grind
        · rw [St.get_fresh]; grind
  · intro b hr
    have := h.rest b hr
    rw [St.cell_fresh, if_neg (by intro e; exact hn (e ▸ hr))]
    exact this
  · intro b hr
    rw [St.cell_fresh, if_neg (by intro e; exact hn (e ▸ hr))]
  · intro b hk
    have := s.cell_lt b (by simp [hk])
    rw [St.cell_fresh, if_neg (by omega), hk]
  · intro b hb hk
    rw [St.cell_fresh, if_neg (by omega), hk]

/-- The block of a variable changes its state. -/
theorem Inv.mark {a : AS} {s : St} {R : Nat → Prop} (h : Inv a s R) (x b : Nat) (v : A) (c : Cell)
    (hx : (a.get x).own = true) (hb : s.get x = .ptr b)
    (hv : (v = .live ∧ c = .live) ∨ (v = .kept ∧ c = .kept) ∨ (v = .gone ∧ c = .freed)) :
    Inv (a.set x v) (s.mark b c) R ∧ Frame s (s.mark b c) R := by
  have hl := h.len
  obtain ⟨d, h1, ho⟩ := h.own x hx
  have : d = b := by rw [hb] at h1; exact (Val.ptr.inj h1).symm
  subst this
  have hd := s.cell_lt d (by intro e; simp [e, Cell.owed] at ho)
  have hxl : x < a.vars.length := by
    have : a.get x ≠ .dead := by intro e; simp [e, A.own] at hx
    simp only [AS.get] at this
    grind
  have hr := h.out x d hx hb
  have hg : ∀ y, (s.mark d c).get y = s.get y := fun _ => rfl
  refine ⟨⟨by simp [AS.set, St.mark, hl], h.ok, ?_, ?_, ?_, ?_, ?_⟩, ⟨rfl, by simp [St.mark], ?_, ?_, ?_⟩⟩
  · intro y
    rw [AS.get_set, hg]
    split
    · rename_i he
      obtain ⟨rfl, -⟩ := he
      rcases hv with ⟨rfl, rfl⟩ | ⟨rfl, rfl⟩ | ⟨rfl, rfl⟩
      · exact ⟨d, hb, by simp [St.cell_mark, hd]⟩
      · exact ⟨d, hb, by simp [St.cell_mark, hd]⟩
      · exact ⟨d, hb, by simp [St.mark, hd], by simp [St.cell_mark, hd]⟩
    · rename_i he
      have hne : y ≠ x := by intro e; exact he ⟨e.symm, hxl⟩
      have hy := h.val y
      have hi := h.inj y x d
      have hle : (s.mark d c).heap.length = s.heap.length := by simp [St.mark]
      cases hu : a.get y <;> rw [hu] at hy hi <;> simp only [Match] at hy ⊢
      · exact hy
      · obtain ⟨e, h2, h3⟩ := hy
        refine ⟨e, h2, ?_⟩
        rw [St.cell_mark, if_neg, h3]
        rintro ⟨rfl, -⟩
        exact hne (hi rfl hx h2 hb)
      · obtain ⟨e, h2, h3⟩ := hy
        refine ⟨e, h2, ?_⟩
        rw [St.cell_mark, if_neg, h3]
        rintro ⟨rfl, -⟩
        exact hne (hi rfl hx h2 hb)
      · obtain ⟨e, h2, h3⟩ := hy
        refine ⟨e, h2, ?_⟩
        rw [St.cell_mark, if_neg, h3]
        rintro ⟨rfl, -⟩
        simp [h3, Cell.owed] at ho
      · obtain ⟨e, h2, h3, h4⟩ := hy
        refine ⟨e, h2, by omega, ?_⟩
        rw [St.cell_mark, if_neg, h4]
        rintro ⟨rfl, -⟩
        simp [h4, Cell.owed] at ho
  · intro y z e
    rw [AS.get_set, AS.get_set, hg, hg]
    have := h.inj y z e
    grind
  · intro y e
    rw [AS.get_set, hg]
    have := h.out y e
    grind
  · intro e
    rw [St.cell_mark]
    intro he
    by_cases hde : d = e
    · subst hde
      rw [if_pos ⟨rfl, hd⟩] at he
      refine .inr ⟨x, ?_, hb⟩
      rw [AS.get_set, if_pos ⟨rfl, hxl⟩]
      rcases hv with ⟨rfl, rfl⟩ | ⟨rfl, rfl⟩ | ⟨rfl, rfl⟩ <;> first | rfl | simp [Cell.owed] at he
    · rw [if_neg (by simp [hde])] at he
      rcases h.all e he with h1 | ⟨y, h1, h2⟩
      · exact .inl h1
      · refine .inr ⟨y, ?_, h2⟩
        rw [AS.get_set, if_neg]
        · exact h1
        · rintro ⟨rfl, -⟩
          rw [hb] at h2
          exact hde (Val.ptr.inj h2)
  · intro e he
    rw [St.cell_mark, if_neg]
    · exact h.rest e he
    · rintro ⟨rfl, -⟩; exact hr he
  · intro e he
    rw [St.cell_mark, if_neg]
    rintro ⟨rfl, -⟩; exact hr he
  · intro e he
    rw [St.cell_mark, if_neg]
    · exact he
    · rintro ⟨rfl, -⟩; simp [he, Cell.owed] at ho
  · intro e _ he
    rw [St.cell_mark, if_neg]
    · exact he
    · rintro ⟨rfl, -⟩; simp [he, Cell.owed] at ho

/-- A block goes from one variable to another. -/
theorem Inv.move {a : AS} {s : St} {R : Nat → Prop} (h : Inv a s R) (x y : Nat) (hxy : x ≠ y) (hxl : x < a.vars.length)
    (hx : (a.get x).own = false) (hy : (a.get y).own = true) :
    Inv ((a.set x (a.get y)).set y .dead) (s.set x (s.get y)) R ∧ Frame s (s.set x (s.get y)) R := by
  have hl := h.len
  have hyl : y < a.vars.length := by
    have : a.get y ≠ .dead := by intro e; simp [e, A.own] at hy
    simp only [AS.get] at this
    grind
  have hal : (a.set x (a.get y)).vars.length = a.vars.length := by simp [AS.set]
  refine ⟨⟨by simp [AS.set, St.set, hl], h.ok, ?_, ?_, ?_, ?_, h.rest⟩, ⟨by simp [St.set], Nat.le_refl _, fun _ _ => rfl, fun _ h => h, fun _ _ h => h⟩⟩
  · intro z
    rw [AS.get_set, AS.get_set, St.get_set, hal]
    have h1 := h.val z
    have h2 := h.val y
    by_cases hz : z = y
    · subst hz; rw [if_pos ⟨rfl, hyl⟩]; trivial
    · rw [if_neg (by grind)]
      by_cases hzx : z = x
      · subst hzx
        rw [if_pos ⟨rfl, hxl⟩, if_pos ⟨rfl, by omega⟩]
        exact Match.same (by rfl) h2
      · rw [if_neg (by grind), if_neg (by grind)]
        exact Match.same (by rfl) h1
  · intro z w b
    rw [AS.get_set, AS.get_set, AS.get_set, AS.get_set, St.get_set, St.get_set, hal]
    have h1 := h.inj z w b
    have h2 := h.inj z y b
    have h3 := h.inj y w b
    have : A.own .dead = false := rfl
    grind
  · intro z b
    rw [AS.get_set, AS.get_set, St.get_set, hal]
    have := h.out z b
    have := h.out y b
    have : A.own .dead = false := rfl
    grind
  · intro b hb
    rcases h.all b hb with h1 | ⟨z, h1, h2⟩
    · exact .inl h1
    · refine .inr ?_
      by_cases hz : z = y
      · subst hz
        refine ⟨x, ?_, ?_⟩
        · rw [AS.get_set, AS.get_set, if_neg (by grind), if_pos ⟨rfl, hxl⟩]; exact h1
        · rw [St.get_set, if_pos ⟨rfl, by omega⟩]; exact h2
      · refine ⟨z, ?_, ?_⟩
        · rw [AS.get_set, AS.get_set]; grind
        · rw [St.get_set]; grind

/-- The fields when a function returns. -/
theorem Inv.leave {R : Nat → Prop} (fs : List (Nat × Nat)) : ∀ {a c : AS} {s : St}, Inv a s R → a.leave fs = some c →
    ∃ t, s.leave fs = some t ∧ Inv c t R ∧ Frame s t R ∧ c.vars.length = a.vars.length := by
  induction fs with
  | nil =>
    intro a c s h e
    cases e
    exact ⟨s, rfl, h, .refl s R, rfl⟩
  | cons p r ih =>
    obtain ⟨x, o⟩ := p
    intro a c s h e
    have ho := h.val o
    have hx := h.val x
    have keep : ∀ (b : Nat), (a.get x).own = true → s.get x = .ptr b → (a.set x .kept).leave r = some c →
        ∃ t, (s.mark b .kept).leave r = some t ∧ Inv c t R ∧ Frame s t R ∧ c.vars.length = a.vars.length := by
      intro b h1 h2 h3
      obtain ⟨i, f⟩ := h.mark x b .kept .kept h1 h2 (.inr (.inl ⟨rfl, rfl⟩))
      obtain ⟨t, g1, g2, g3, g4⟩ := ih i h3
      exact ⟨t, g1, g2, f.trans g3, by simpa [AS.set] using g4⟩
    have use : ∀ (d : Nat), s.get o = .ptr d → (s.cell d).usable = true →
        (match a.get x with
          | .fresh => (a.set x .kept).leave r
          | .live => (a.set x .kept).leave r
          | .null => a.leave r
          | .kept => a.leave r
          | _ => none) = some c →
        ∃ t, s.leave ((x, o) :: r) = some t ∧ Inv c t R ∧ Frame s t R ∧ c.vars.length = a.vars.length := by
      intro d h1 h2 h3
      simp only [St.leave, h1, h2, if_true]
      cases hu : a.get x <;> rw [hu] at hx h3 <;> simp only [Match] at hx h3
      · simp at h3
      · rw [hx]; exact ih h h3
      · obtain ⟨b, h4, h5⟩ := hx
        simp only [h4, h5, Cell.owed, if_true]
        exact keep b (by rw [hu]; rfl) h4 h3
      · obtain ⟨b, h4, h5⟩ := hx
        simp only [h4, h5, Cell.owed, if_true]
        exact keep b (by rw [hu]; rfl) h4 h3
      · obtain ⟨b, h4, h5⟩ := hx
        simp only [h4, h5, Cell.owed, if_true]
        exact ih h h3
      · simp at h3
    simp only [AS.leave] at e
    cases hu : a.get o <;> rw [hu] at ho e <;> simp only [Match] at ho e
    · simp at e
    · simp only [St.leave, ho]; exact ih h e
    · obtain ⟨d, h1, h2⟩ := ho; exact use d h1 (by simp [h2, Cell.usable]) e
    · obtain ⟨d, h1, h2⟩ := ho; exact use d h1 (by simp [h2, Cell.usable]) e
    · obtain ⟨d, h1, h2⟩ := ho; exact use d h1 (by simp [h2, Cell.usable]) e
    · obtain ⟨d, h1, h2, h3⟩ := ho
      simp only [St.leave, h1, h3, Cell.usable]
      exact ih h e

theorem AS.back_len (xs : List Nat) : ∀ (vs : List A) (a : AS), (a.back xs vs).vars.length = a.vars.length := by
  induction xs with
  | nil => intro vs a; cases vs <;> rfl
  | cons x xs ih => intro vs a; cases vs with
    | nil => rfl
    | cons v vs => simp only [AS.back]; rw [ih]; simp [AS.set]

theorem AS.back_out (xs : List Nat) : ∀ (vs : List A) (a : AS) (y : Nat), y ∉ xs → (a.back xs vs).get y = a.get y := by
  induction xs with
  | nil => intro vs a y _; cases vs <;> rfl
  | cons x xs ih => intro vs a y hy; cases vs with
    | nil => rfl
    | cons v vs =>
      simp only [AS.back]
      rw [ih _ _ _ (fun h => hy (List.mem_cons_of_mem _ h)), AS.get_set, if_neg]
      rintro ⟨rfl, -⟩; exact hy List.mem_cons_self

theorem AS.back_in (xs : List Nat) : ∀ (vs : List A) (a : AS) (i : Nat) (y : Nat), xs.Nodup → (∀ x ∈ xs, x < a.vars.length) →
    xs[i]? = some y → i < vs.length → (a.back xs vs).get y = (vs[i]?).getD .dead := by
  induction xs with
  | nil => intro vs a i y _ _ h; simp at h
  | cons x xs ih => intro vs a i y hn hl h hi; cases vs with
    | nil => simp at hi
    | cons v vs =>
      simp only [AS.back]
      cases i with
      | zero =>
        simp only [List.getElem?_cons_zero, Option.some.injEq] at h
        subst h
        rw [AS.back_out _ _ _ _ (List.nodup_cons.1 hn).1, AS.get_set, if_pos ⟨rfl, hl _ List.mem_cons_self⟩]
        rfl
      | succ i =>
        simp only [List.getElem?_cons_succ] at h ⊢
        exact ih vs (a.set x v) i y (List.nodup_cons.1 hn).2 (fun z hz => by simpa [AS.set] using hl z (List.mem_cons_of_mem _ hz)) h
          (by simpa using hi)

theorem St.back_len (xs : List Nat) : ∀ (vs : List Val) (a : St), (a.back xs vs).store.length = a.store.length := by
  induction xs with
  | nil => intro vs a; cases vs <;> rfl
  | cons x xs ih => intro vs a; cases vs with
    | nil => rfl
    | cons v vs => simp only [St.back]; rw [ih]; simp [St.set]

theorem St.back_heap (xs : List Nat) : ∀ (vs : List Val) (a : St), (a.back xs vs).heap = a.heap ∧ (a.back xs vs).ok = a.ok := by
  induction xs with
  | nil => intro vs a; cases vs <;> exact ⟨rfl, rfl⟩
  | cons x xs ih => intro vs a; cases vs with
    | nil => exact ⟨rfl, rfl⟩
    | cons v vs => exact ih vs _

theorem St.back_out (xs : List Nat) : ∀ (vs : List Val) (a : St) (y : Nat), y ∉ xs → (a.back xs vs).get y = a.get y := by
  induction xs with
  | nil => intro vs a y _; cases vs <;> rfl
  | cons x xs ih => intro vs a y hy; cases vs with
    | nil => rfl
    | cons v vs =>
      simp only [St.back]
      rw [ih _ _ _ (fun h => hy (List.mem_cons_of_mem _ h)), St.get_set, if_neg]
      rintro ⟨rfl, -⟩; exact hy List.mem_cons_self

theorem St.back_in (xs : List Nat) : ∀ (vs : List Val) (a : St) (i : Nat) (y : Nat), xs.Nodup → (∀ x ∈ xs, x < a.store.length) →
    xs[i]? = some y → i < vs.length → (a.back xs vs).get y = (vs[i]?).getD .junk := by
  induction xs with
  | nil => intro vs a i y _ _ h; simp at h
  | cons x xs ih => intro vs a i y hn hl h hi; cases vs with
    | nil => simp at hi
    | cons v vs =>
      simp only [St.back]
      cases i with
      | zero =>
        simp only [List.getElem?_cons_zero, Option.some.injEq] at h
        subst h
        rw [St.back_out _ _ _ _ (List.nodup_cons.1 hn).1, St.get_set, if_pos ⟨rfl, hl _ List.mem_cons_self⟩]
        rfl
      | succ i =>
        simp only [List.getElem?_cons_succ] at h ⊢
        exact ih vs (a.set x v) i y (List.nodup_cons.1 hn).2 (fun z hz => by simpa [St.set] using hl z (List.mem_cons_of_mem _ hz)) h
          (by simpa using hi)

/-- What belongs to others while a function is called. -/
theorem Inv.weaken {a b : AS} {s : St} {R : Nat → Prop} (h : Inv a s R) (hl : b.vars.length = a.vars.length) (hk : b.ok = a.ok)
    (hw : ∀ x, b.get x = a.get x ∨ (b.get x = .dead ∧ (a.get x).own = false)) : Inv b s R := by
  have ho : ∀ x, (b.get x).own = (a.get x).own := by
    intro x
    rcases hw x with e | ⟨e, f⟩
    · rw [e]
    · rw [e, f]; rfl
  refine ⟨by rw [hl]; exact h.len, by rw [hk]; exact h.ok, ?_, ?_, ?_, ?_, h.rest⟩
  · intro x
    rcases hw x with e | ⟨e, f⟩
    · rw [e]; exact h.val x
    · rw [e]; trivial
  · intro x y c hx hy; rw [ho] at hx hy; exact h.inj x y c hx hy
  · intro x c hx; rw [ho] at hx; exact h.out x c hx
  · intro c hc
    rcases h.all c hc with r | ⟨x, hx, e⟩
    · exact .inl r
    · exact .inr ⟨x, by rw [ho]; exact hx, e⟩

theorem AS.back_ok (xs : List Nat) : ∀ (vs : List A) (a : AS), (a.back xs vs).ok = a.ok := by
  induction xs with
  | nil => intro vs a; cases vs <;> rfl
  | cons x xs ih => intro vs a; cases vs with
    | nil => rfl
    | cons v vs => simp only [AS.back]; rw [ih]; rfl

theorem fit_get : ∀ (es as : List A), fit es as = true → es.length = as.length ∧
    ∀ i : Nat, (es[i]?).getD A.dead = (as[i]?).getD A.dead ∨ ((es[i]?).getD A.dead = A.dead ∧ ((as[i]?).getD A.dead).own = false) := by
  intro es
  induction es with
  | nil => intro as h; cases as with
    | nil => simp
    | cons a as => simp [fit] at h
  | cons e es ih => intro as h; cases as with
    | nil => simp [fit] at h
    | cons a as =>
      simp only [fit, Bool.and_eq_true, Bool.or_eq_true, beq_iff_eq, Bool.not_eq_true'] at h
      obtain ⟨h1, h2⟩ := h
      obtain ⟨l, g⟩ := ih as h2
      refine ⟨by simp [l], ?_⟩
      intro i
      cases i with
      | zero => simpa using h1
      | succ i => simpa using g i

theorem fit_back {a : AS} {xs : List Nat} {es : List A} (hn : xs.Nodup) (hl : ∀ x ∈ xs, x < a.vars.length)
    (hf : fit es (a.args xs) = true) : es = (a.back xs es).args xs ∧
    ∀ x, (a.back xs es).get x = a.get x ∨ ((a.back xs es).get x = .dead ∧ (a.get x).own = false) := by
  obtain ⟨l, g⟩ := fit_get _ _ hf
  have l' : es.length = xs.length := by simpa [AS.args] using l
  have key : ∀ (i y : Nat), xs[i]? = some y → (a.back xs es).get y = (es[i]?).getD A.dead := by
    intro i y hi
    have : i < xs.length := by
      rcases Nat.lt_or_ge i xs.length with h | h
      · exact h
      · rw [List.getElem?_eq_none h] at hi; cases hi
    exact AS.back_in xs es a i y hn hl hi (by omega)
  constructor
  · apply List.ext_getElem?
    intro i
    simp only [AS.args, List.getElem?_map]
    cases hi : xs[i]? with
    | none => rw [List.getElem?_eq_none_iff] at hi; rw [List.getElem?_eq_none (by omega)]; rfl
    | some y =>
      have := key i y hi
      have hlt : i < es.length := by
        rcases Nat.lt_or_ge i xs.length with h | h
        · omega
        · rw [List.getElem?_eq_none h] at hi; cases hi
      simp only [Option.map_some, this, List.getElem?_eq_getElem hlt, Option.getD_some]
  · intro x
    by_cases hx : x ∈ xs
    · obtain ⟨i, hi⟩ := List.getElem?_of_mem hx
      rw [key i x hi]
      have := g i
      simpa [AS.args, List.getElem?_map, hi] using this
    · exact .inl (AS.back_out xs es a x hx)

def Others (a : AS) (s : St) (xs : List Nat) (R : Nat → Prop) (b : Nat) : Prop :=
  R b ∨ ∃ x, x ∉ xs ∧ (a.get x).own = true ∧ s.get x = .ptr b

theorem enter_a (xs : List Nat) (a : AS) (n i : Nat) (ok : Bool) :
    AS.get ⟨a.args xs ++ List.replicate n .dead, ok⟩ i = match xs[i]? with | some x => a.get x | none => .dead := by
  simp only [AS.get, AS.args, List.getElem?_append, List.getElem?_map, List.getElem?_replicate, List.length_map]
  by_cases h : i < xs.length
  · simp [h]; rfl
  · simp [h]; split <;> rfl

theorem enter_s {F : Type} (xs : List Nat) (s : St) (f : Fn F) (i : Nat) (h : List Cell) (ok : Bool) (p : List Bool) :
    St.get ⟨f.enter (s.args xs), h, ok, p⟩ i = match xs[i]? with | some x => s.get x | none => .junk := by
  simp only [St.get, St.args, Fn.enter, List.getElem?_append, List.getElem?_map, List.getElem?_replicate, List.length_map]
  by_cases h : i < xs.length
  · simp [h]; rfl
  · simp [h]; split <;> rfl

theorem nodup_idx {xs : List Nat} (h : xs.Nodup) {i j x : Nat} (hi : xs[i]? = some x) (hj : xs[j]? = some x) : i = j := by
  obtain ⟨h1, e1⟩ := List.getElem?_eq_some_iff.1 hi
  obtain ⟨h2, e2⟩ := List.getElem?_eq_some_iff.1 hj
  exact (List.getElem_inj h).1 (e1.trans e2.symm)

/-- The called function begins. -/
theorem Inv.enter {F : Type} {a : AS} {s : St} {R : Nat → Prop} (h : Inv a s R) (f : Fn F) (xs : List Nat) (hn : xs.Nodup)
    (hp : xs.length = f.params) :
    Inv ⟨a.args xs ++ List.replicate (f.vars - f.params) .dead, false⟩ { s with store := f.enter (s.args xs), ok := false }
      (Others a s xs R) := by
  refine ⟨?_, rfl, ?_, ?_, ?_, ?_, ?_⟩
  · simp [Fn.enter, AS.args, St.args]
  · intro i
    rw [enter_a, enter_s]
    cases hi : xs[i]? with
    | none => trivial
    | some x => exact Match.same (by rfl) (h.val x)
  · intro i j b
    rw [enter_a, enter_a, enter_s, enter_s]
    cases hi : xs[i]? with
    | none => intro e; simp [A.own] at e
    | some x =>
      cases hj : xs[j]? with
      | none => intro _ e; simp [A.own] at e
      | some y =>
        intro h1 h2 h3 h4
        have := h.inj x y b h1 h2 h3 h4
        subst this
        exact nodup_idx hn hi hj
  · intro i b
    rw [enter_a, enter_s]
    cases hi : xs[i]? with
    | none => intro e; simp [A.own] at e
    | some x =>
      rintro h1 h2 (h3 | ⟨y, h3, h4, h5⟩)
      · exact h.out x b h1 h2 h3
      · have := h.inj x y b h1 h4 h2 h5
        subst this
        exact h3 (List.mem_of_getElem? hi)
  · intro b hb
    rcases h.all b hb with h1 | ⟨x, h1, h2⟩
    · exact .inl (.inl h1)
    · by_cases hx : x ∈ xs
      · obtain ⟨i, hi⟩ := List.getElem?_of_mem hx
        refine .inr ⟨i, ?_, ?_⟩
        · rw [enter_a, hi]; exact h1
        · rw [enter_s, hi]; exact h2
      · exact .inl (.inr ⟨x, hx, h1, h2⟩)
  · rintro b (hr | ⟨x, h1, h2, h3⟩)
    · exact h.rest b hr
    · obtain ⟨d, h4, h5⟩ := h.own x h2
      have : d = b := by rw [h3] at h4; exact (Val.ptr.inj h4).symm
      exact this ▸ h5

/-- The called function returns. -/
theorem Inv.exit {a c : AS} {s t : St} {R : Nat → Prop} (h : Inv a s R) (xs : List Nat) (hn : xs.Nodup)
    (hl : ∀ x ∈ xs, x < a.vars.length) (hc : Inv c t (Others a s xs R)) (hk : ∀ b, s.cell b = .kept → t.cell b = .kept)
    (hf : ∀ b, b < s.heap.length → s.cell b = .freed → t.cell b = .freed) (hh : s.heap.length ≤ t.heap.length)
    (hr : ∀ b, Others a s xs R b → t.cell b = s.cell b) (hcl : xs.length ≤ c.vars.length)
    (hd : ∀ v ∈ c.vars.drop xs.length, v.own = false) (k : Bool) :
    Inv { a.back xs (c.vars.take xs.length) with ok := k } ({ s with heap := t.heap, picks := t.picks, ok := k }.back xs t.store) R ∧
    Frame s ({ s with heap := t.heap, picks := t.picks, ok := k }.back xs t.store) R := by
  have hcl' := hc.len
  have hheap := St.back_heap xs t.store { s with heap := t.heap, picks := t.picks, ok := k }
  have hcell : ∀ b, ({ s with heap := t.heap, picks := t.picks, ok := k }.back xs t.store).cell b = t.cell b := by
    intro b; simp only [St.cell, hheap.1]
  have hA : ∀ i y, xs[i]? = some y → AS.get { a.back xs (c.vars.take xs.length) with ok := k } y = c.get i := by
    intro i y hi
    have hi' : i < xs.length := (List.getElem?_eq_some_iff.1 hi).1
    have := AS.back_in xs (c.vars.take xs.length) a i y hn hl hi (by rw [List.length_take]; omega)
    refine this.trans ?_
    simp only [AS.get, List.getElem?_take, if_pos hi']
  have hS : ∀ i y, xs[i]? = some y → ({ s with heap := t.heap, picks := t.picks, ok := k }.back xs t.store).get y = t.get i := by
    intro i y hi
    have hi' : i < xs.length := (List.getElem?_eq_some_iff.1 hi).1
    exact St.back_in xs t.store _ i y hn (fun x hx => by simpa [← h.len] using hl x hx) hi (by omega)
  have hA' : ∀ y, y ∉ xs → AS.get { a.back xs (c.vars.take xs.length) with ok := k } y = a.get y := fun y hy => AS.back_out xs _ a y hy
  have hS' : ∀ y, y ∉ xs → ({ s with heap := t.heap, picks := t.picks, ok := k }.back xs t.store).get y = s.get y :=
    fun y hy => St.back_out xs _ _ y hy
  have hown : ∀ i, (c.get i).own = true → i < xs.length := by
    intro i hi
    by_cases hlt : i < xs.length
    · exact hlt
    · exfalso
      simp only [AS.get] at hi
      cases hv : c.vars[i]? with
      | none => rw [hv] at hi; simp [A.own] at hi
      | some v =>
        rw [hv] at hi
        have : v ∈ c.vars.drop xs.length := by
          have : (c.vars.drop xs.length)[i - xs.length]? = some v := by
            rw [List.getElem?_drop]
            rw [show xs.length + (i - xs.length) = i by omega, hv]
          exact List.mem_of_getElem? this
        have := hd v this
        simp at hi
        rw [this] at hi; cases hi
  refine ⟨⟨?_, ?_, ?_, ?_, ?_, ?_, ?_⟩, ⟨?_, ?_, ?_, ?_, ?_⟩⟩
  · rw [St.back_len]; exact (AS.back_len xs _ a).trans h.len
  · rw [hheap.2]
  · intro y
    by_cases hy : y ∈ xs
    · obtain ⟨i, hi⟩ := List.getElem?_of_mem hy
      rw [hA i y hi, hS i y hi]
      exact Match.same hheap.1 (hc.val i)
    · rw [hA' y hy, hS' y hy]
      refine Match.same hheap.1 ?_
      have hv := h.val y
      cases hu : a.get y <;> rw [hu] at hv <;> simp only [Match] at hv ⊢
      · exact hv
      · obtain ⟨b, h1, h2⟩ := hv
        exact ⟨b, h1, (hr b (.inr ⟨y, hy, by rw [hu]; rfl, h1⟩)).trans h2⟩
      · obtain ⟨b, h1, h2⟩ := hv
        exact ⟨b, h1, (hr b (.inr ⟨y, hy, by rw [hu]; rfl, h1⟩)).trans h2⟩
      · obtain ⟨b, h1, h2⟩ := hv
        exact ⟨b, h1, hk b h2⟩
      · obtain ⟨b, h1, h2, h3⟩ := hv
        exact ⟨b, h1, by omega, hf b h2 h3⟩
  · intro y z b
    by_cases hy : y ∈ xs <;> by_cases hz : z ∈ xs
    · obtain ⟨i, hi⟩ := List.getElem?_of_mem hy
      obtain ⟨j, hj⟩ := List.getElem?_of_mem hz
      rw [hA i y hi, hA j z hj, hS i y hi, hS j z hj]
      intro h1 h2 h3 h4
      have := hc.inj i j b h1 h2 h3 h4
      subst this
      rw [hi] at hj; exact Option.some.inj hj
    · obtain ⟨i, hi⟩ := List.getElem?_of_mem hy
      rw [hA i y hi, hA' z hz, hS i y hi, hS' z hz]
      intro h1 h2 h3 h4
      exact absurd (.inr ⟨z, hz, h2, h4⟩) (hc.out i b h1 h3)
    · obtain ⟨j, hj⟩ := List.getElem?_of_mem hz
      rw [hA' y hy, hA j z hj, hS' y hy, hS j z hj]
      intro h1 h2 h3 h4
      exact absurd (.inr ⟨y, hy, h1, h3⟩) (hc.out j b h2 h4)
    · rw [hA' y hy, hA' z hz, hS' y hy, hS' z hz]
      exact h.inj y z b
  · intro y b
    by_cases hy : y ∈ xs
    · obtain ⟨i, hi⟩ := List.getElem?_of_mem hy
      rw [hA i y hi, hS i y hi]
      intro h1 h2 h3
      exact hc.out i b h1 h2 (.inl h3)
    · rw [hA' y hy, hS' y hy]
      exact h.out y b
  · intro b hb
    rw [hcell] at hb
    rcases hc.all b hb with (h1 | ⟨y, hy, h1, h2⟩) | ⟨i, h1, h2⟩
    · exact .inl h1
    · exact .inr ⟨y, by rw [hA' y hy]; exact h1, by rw [hS' y hy]; exact h2⟩
    · have hi := hown i h1
      have he : xs[i]? = some xs[i] := List.getElem?_eq_getElem hi
      exact .inr ⟨xs[i], by rw [hA i _ he]; exact h1, by rw [hS i _ he]; exact h2⟩
  · intro b hb
    rw [hcell]; exact hc.rest b (.inl hb)
  · exact St.back_len xs _ _
  · rw [hheap.1]; exact hh
  · intro b hb; rw [hcell]; exact hr b (.inl hb)
  · intro b hb; rw [hcell]; exact hk b hb
  · intro b hl hb; rw [hcell]; exact hf b hl hb

/-- The outcome of an execution is one of those found by the checker. -/
def Good (s : St) (R : Nat → Prop) (o : Outs) : Res → Prop
  | .norm t => ∃ a ∈ o.norm, Inv a t R ∧ Frame s t R
  | .brk t => ∃ a ∈ o.brk, Inv a t R ∧ Frame s t R
  | .cont t => ∃ a ∈ o.cont, Inv a t R ∧ Frame s t R
  | .ret k t => ∃ a, (k, a) ∈ o.ret ∧ Inv a t R ∧ Frame s t R
  | .err => False
  | .more => True

theorem Good.mono {s : St} {R : Nat → Prop} {o p : Outs} (h1 : ∀ a ∈ o.norm, a ∈ p.norm) (h2 : ∀ a ∈ o.brk, a ∈ p.brk)
    (h3 : ∀ a ∈ o.cont, a ∈ p.cont) (h4 : ∀ a ∈ o.ret, a ∈ p.ret) {r : Res} (h : Good s R o r) : Good s R p r := by
  cases r with
  | norm t => obtain ⟨a, h, i⟩ := h; exact ⟨a, h1 a h, i⟩
  | brk t => obtain ⟨a, h, i⟩ := h; exact ⟨a, h2 a h, i⟩
  | cont t => obtain ⟨a, h, i⟩ := h; exact ⟨a, h3 a h, i⟩
  | ret k t => obtain ⟨a, h, i⟩ := h; exact ⟨a, h4 _ h, i⟩
  | err => exact h
  | more => trivial

theorem Good.left {s : St} {R : Nat → Prop} {o p : Outs} {r : Res} (h : Good s R o r) : Good s R (o.union p) r := by
  refine h.mono ?_ ?_ ?_ ?_ <;> intro a ha <;> simp only [Outs.union, mem_join] <;> exact .inl ha

theorem Good.right {s : St} {R : Nat → Prop} {o p : Outs} {r : Res} (h : Good s R p r) : Good s R (o.union p) r := by
  refine h.mono ?_ ?_ ?_ ?_ <;> intro a ha <;> simp only [Outs.union, mem_join] <;> exact .inr ha

theorem Good.frame {s t : St} {R : Nat → Prop} {o : Outs} {r : Res} (h : Good t R o r) (f : Frame s t R) : Good s R o r := by
  cases r with
  | norm t => obtain ⟨a, h, i, g⟩ := h; exact ⟨a, h, i, f.trans g⟩
  | brk t => obtain ⟨a, h, i, g⟩ := h; exact ⟨a, h, i, f.trans g⟩
  | cont t => obtain ⟨a, h, i, g⟩ := h; exact ⟨a, h, i, f.trans g⟩
  | ret k t => obtain ⟨a, h, i, g⟩ := h; exact ⟨a, h, i, f.trans g⟩
  | err => exact h
  | more => trivial

theorem Good.one {s t : St} {R : Nat → Prop} {a : AS} (h : Inv a t R ∧ Frame s t R) : Good s R (.one a) (.norm t) :=
  ⟨a, List.mem_singleton.2 rfl, h⟩

theorem checkAll_good {f : AS → Option Outs} {l : List AS} {o : Outs} (h : checkAll f l = some o) {a : AS} (ha : a ∈ l) :
    ∃ p, f a = some p ∧ ∀ s R r, Good s R p r → Good s R o r := by
  induction l generalizing o with
  | nil => cases ha
  | cons b l ih =>
    simp only [checkAll] at h
    cases h1 : f b with
    | none => simp [h1] at h
    | some p =>
      cases h2 : checkAll f l with
      | none => simp [h1, h2] at h
      | some q =>
        simp only [h1, h2, Option.some.injEq] at h
        subst h
        rcases List.mem_cons.1 ha with rfl | hm
        · exact ⟨p, h1, fun s R r hg => hg.left⟩
        · obtain ⟨q', h3, h4⟩ := ih h2 hm
          exact ⟨q', h3, fun s R r hg => (h4 s R r hg).right⟩

/-- The set of states found for a loop. -/
theorem checkLoop_good {f : AS → Option Outs} (k : Nat) : ∀ {l : List AS} {o : Outs}, checkLoop f k l = some o →
    ∃ (l' : List AS) (p : Outs), (∀ a ∈ l, a ∈ l') ∧ checkAll f l' = some p ∧ (∀ a ∈ p.norm, a ∈ l') ∧ (∀ a ∈ p.cont, a ∈ l') ∧
      o = ⟨p.brk, [], [], p.ret⟩ := by
  induction k with
  | zero => intro l o h; cases h
  | succ k ih =>
    intro l o h
    simp only [checkLoop] at h
    cases hc : checkAll f l with
    | none => simp [hc] at h
    | some p =>
      simp only [hc] at h
      split at h
      · rename_i hs
        exact ⟨l, p, fun _ h => h, hc, hs.1, hs.2, (Option.some.inj h).symm⟩
      · obtain ⟨l', q, h1, h2⟩ := ih h
        exact ⟨l', q, fun a ha => h1 a (by simp [mem_join, ha]), h2⟩

theorem put_some {a b : AS} {x : Nat} {v : A} (h : a.put x v = some b) : x < a.vars.length ∧ (a.get x).own = false ∧ b = a.set x v := by
  simp only [AS.put] at h
  split at h
  · rename_i hc; exact ⟨hc.1, hc.2, (Option.some.inj h).symm⟩
  · cases h

/-- `osip_malloc`. -/
theorem malloc_good {a : AS} {s : St} {R : Nat → Prop} {o : Outs} (h : Inv a s R) (x : Nat) (v : A) (c : Cell) (m : Bool)
    (hv : (v = .live ∧ c = .live) ∨ (v = .fresh ∧ c = .fresh)) (hc : may m (a.put x v) (a.put x .null) = some o) :
    Good s R o (.norm (s.malloc m x c)) := by
  cases m with
  | false =>
    simp only [may, Bool.false_eq_true, if_false, Option.map_eq_some_iff] at hc
    obtain ⟨b, hb, rfl⟩ := hc
    obtain ⟨h1, h2, rfl⟩ := put_some hb
    simp only [St.malloc, Bool.false_eq_true, if_false]
    exact Good.one (h.alloc x v c h1 h2 hv)
  | true =>
    simp only [may, if_true] at hc
    cases hb : a.put x v with
    | none => simp [two, hb] at hc
    | some b =>
      cases hd : a.put x .null with
      | none => simp [two, hb, hd] at hc
      | some d =>
        simp only [two, hb, hd, Option.some.injEq] at hc
        subst hc
        obtain ⟨h1, h2, rfl⟩ := put_some hb
        obtain ⟨-, -, rfl⟩ := put_some hd
        simp only [St.malloc, if_true]
        split
        · obtain ⟨i, f⟩ := h.next.set x .null .null h2 rfl rfl
          exact (Good.one ⟨i, f.next⟩).right
        · obtain ⟨i, f⟩ := h.next.alloc x v c h1 h2 hv
          exact (Good.one ⟨i, f.next⟩).left

/-- `osip_realloc` of a block. -/
theorem realloc_good {a : AS} {s : St} {R : Nat → Prop} {o : Outs} (h : Inv a s R) (x y b : Nat) (m : Mode) (hy : (a.get y).own = true)
    (hb : s.get y = .ptr b)
    (hc : (if m != .none ∧ x = y then none else may (m != .none) ((a.set y .gone).put x .live) (a.put x .null)) = some o) :
    Good s R o (if m = .none then .norm ((s.mark b .freed).fresh x .live)
        else if s.pick then .norm (s.next.set x .null)
        else .norm ((s.next.mark b .freed).fresh x .live)) := by
  have grow : ∀ (s : St), Inv a s R → s.get y = .ptr b → ∀ c, (a.set y .gone).put x .live = some c →
      Inv c ((s.mark b .freed).fresh x .live) R ∧ Frame s ((s.mark b .freed).fresh x .live) R := by
    intro s h hb c hc
    obtain ⟨i, f⟩ := h.mark y b .gone .freed hy hb (.inr (.inr ⟨rfl, rfl⟩))
    obtain ⟨h1, h2, rfl⟩ := put_some hc
    obtain ⟨j, g⟩ := i.alloc x .live .live h1 h2 (.inl ⟨rfl, rfl⟩)
    exact ⟨j, f.trans g⟩
  by_cases hm : m = .none
  · subst hm
    simp only [may, bne_self_eq_false, Bool.false_eq_true, false_and, if_false, Option.map_eq_some_iff] at hc
    obtain ⟨c, hc, rfl⟩ := hc
    simp only [if_true]
    exact Good.one (grow s h hb c hc)
  · have hm' : (m != .none) = true := by simpa using hm
    simp only [hm', if_neg hm, true_and, may, if_true] at hc ⊢
    split at hc
    · cases hc
    · rename_i hxy
      cases hp : (a.set y .gone).put x .live with
      | none => simp [two, hp] at hc
      | some c =>
        cases hq : a.put x .null with
        | none => simp [two, hp, hq] at hc
        | some d =>
          simp only [two, hp, hq, Option.some.injEq] at hc
          subst hc
          obtain ⟨h1, h2, rfl⟩ := put_some hq
          split
          · obtain ⟨i, f⟩ := h.next.set x .null .null h2 rfl rfl
            exact (Good.one ⟨i, f.next⟩).right
          · obtain ⟨i, f⟩ := grow s.next h.next hb c hp
            exact (Good.one ⟨i, f.next⟩).left

/-- The checker is right. -/
theorem sound {F : Type} {m : Mode} {tbl : F → Fn F} {con : F → Contract} (ht : ∀ f, (con f).all (checkEntry m con (tbl f)) = true)
    (n : Nat) : ∀ (st : Stmt F) (a : AS) (s : St) (R : Nat → Prop) (o : Outs), Inv a s R → check m con st a = some o →
      Good s R o (exec m tbl n st s) := by
  induction n using Nat.strongRecOn with
  | _ n ih0 =>
  cases n with
  | zero => intro st a s R o _ _; cases st <;> trivial
  | succ n =>
    have ih := ih0 n (Nat.lt_succ_self n)
    intro st a s R o h hc
    have get : ∀ x v, a.get x = v → Match s v (s.get x) := fun x v e => e ▸ h.val x
    cases st with
    | skip =>
      simp only [check, Option.some.injEq] at hc; subst hc
      exact Good.one ⟨h, .refl s R⟩
    | seq u v =>
      simp only [check] at hc
      cases h1 : check m con u a with
      | none => simp [h1] at hc
      | some p =>
        cases h2 : checkAll (check m con v) p.norm with
        | none => simp [h1, h2] at hc
        | some q =>
          simp only [h1, h2, Option.some.injEq] at hc; subst hc
          have g := ih u a s R p h h1
          simp only [exec]
          cases he : exec m tbl n u s with
          | norm t =>
            rw [he] at g
            obtain ⟨b, hb, i, f⟩ := g
            obtain ⟨q', h3, h4⟩ := checkAll_good h2 hb
            exact ((h4 _ _ _ (ih v b t R q' i h3)).frame f).right
          | brk t => rw [he] at g; obtain ⟨b, hb, i⟩ := g; exact Good.left (r := .brk t) ⟨b, hb, i⟩
          | cont t => rw [he] at g; obtain ⟨b, hb, i⟩ := g; exact Good.left (r := .cont t) ⟨b, hb, i⟩
          | ret k t => rw [he] at g; obtain ⟨b, hb, i⟩ := g; exact Good.left (r := .ret k t) ⟨b, hb, i⟩
          | err => rw [he] at g; exact g
          | more => trivial
    | alloc x => exact malloc_good h x .live .live _ (.inl ⟨rfl, rfl⟩) hc
    | make x => exact malloc_good h x .fresh .fresh _ (.inr ⟨rfl, rfl⟩) hc
    | realloc x y =>
      simp only [check] at hc
      cases hy : a.get y <;> simp only [hy] at hc <;> have hm := get y _ hy <;> simp only [Match] at hm
      · cases hc
      · simp only [exec, hm]
        exact malloc_good h x .live .live _ (.inl ⟨rfl, rfl⟩) hc
      · obtain ⟨b, hb, hcell⟩ := hm
        simp only [exec, hb, hcell, Cell.owed, if_true]
        exact realloc_good h x y b m (by rw [hy]; rfl) hb hc
      · obtain ⟨b, hb, hcell⟩ := hm
        simp only [exec, hb, hcell, Cell.owed, if_true]
        exact realloc_good h x y b m (by rw [hy]; rfl) hb hc
      · cases hc
      · cases hc
    | free x =>
      simp only [check] at hc
      cases hx : a.get x <;> simp only [hx] at hc <;> have hm := get x _ hx <;> simp only [Match] at hm
      · cases hc
      · simp only [exec, hm]; cases hc; exact Good.one ⟨h, .refl s R⟩
      · obtain ⟨b, hb, hcell⟩ := hm
        simp only [exec, hb, hcell, Cell.owed, if_true]
        cases hc
        exact Good.one (h.mark x b .gone .freed (by rw [hx]; rfl) hb (.inr (.inr ⟨rfl, rfl⟩)))
      · obtain ⟨b, hb, hcell⟩ := hm
        simp only [exec, hb, hcell, Cell.owed, if_true]
        cases hc
        exact Good.one (h.mark x b .gone .freed (by rw [hx]; rfl) hb (.inr (.inr ⟨rfl, rfl⟩)))
      · cases hc
      · cases hc
    | null x =>
      simp only [check, Option.map_eq_some_iff] at hc
      obtain ⟨b, hb, rfl⟩ := hc
      obtain ⟨h1, h2, rfl⟩ := put_some hb
      exact Good.one (h.set x .null .null h2 rfl rfl)
    | copy x y =>
      simp only [check] at hc
      split at hc
      · cases hc
      · rename_i hxy
        cases hy : a.get y <;> simp only [hy, Option.map_eq_some_iff, reduceCtorEq] at hc <;> have hm := get y _ hy
        · simp only [Match] at hm
          obtain ⟨b, hb, rfl⟩ := hc
          obtain ⟨h1, h2, rfl⟩ := put_some hb
          simp only [exec, hm]
          exact Good.one (h.set x .null .null h2 rfl rfl)
        · obtain ⟨b, hb, rfl⟩ := hc
          obtain ⟨h1, h2, rfl⟩ := put_some hb
          have := h.move x y hxy h1 h2 (by rw [hy]; rfl)
          obtain ⟨d, hd, -⟩ := hm
          simp only [exec, hd]
          rw [hy, hd] at this
          exact Good.one this
        · obtain ⟨b, hb, rfl⟩ := hc
          obtain ⟨h1, h2, rfl⟩ := put_some hb
          have := h.move x y hxy h1 h2 (by rw [hy]; rfl)
          obtain ⟨d, hd, -⟩ := hm
          simp only [exec, hd]
          rw [hy, hd] at this
          exact Good.one this
        · obtain ⟨b, hb, rfl⟩ := hc
          obtain ⟨h1, h2, rfl⟩ := put_some hb
          obtain ⟨d, hd, hk⟩ := hm
          simp only [exec, hd]
          exact Good.one (h.set x .kept (.ptr d) h2 rfl ⟨d, rfl, hk⟩)
    | use x =>
      simp only [check] at hc
      cases hx : a.get x <;> simp only [hx] at hc <;> have hm := get x _ hx <;> simp only [Match] at hm
      · cases hc
      · cases hc
      · obtain ⟨b, hb, hcell⟩ := hm
        simp only [exec, hb, hcell, Cell.usable, if_true]; cases hc; exact Good.one ⟨h, .refl s R⟩
      · obtain ⟨b, hb, hcell⟩ := hm
        simp only [exec, hb, hcell, Cell.usable, if_true]; cases hc; exact Good.one ⟨h, .refl s R⟩
      · obtain ⟨b, hb, hcell⟩ := hm
        simp only [exec, hb, hcell, Cell.usable, if_true]; cases hc; exact Good.one ⟨h, .refl s R⟩
      · cases hc
    | fill x =>
      simp only [check] at hc
      cases hx : a.get x <;> simp only [hx] at hc <;> have hm := get x _ hx <;> simp only [Match] at hm <;> try cases hc
      obtain ⟨b, hb, hcell⟩ := hm
      simp only [exec, hb, hcell, if_true]
      exact Good.one (h.mark x b .live .live (by rw [hx]; rfl) hb (.inl ⟨rfl, rfl⟩))
    | keep x =>
      simp only [check] at hc
      cases hx : a.get x <;> simp only [hx] at hc <;> have hm := get x _ hx <;> simp only [Match] at hm
      · cases hc
      · simp only [exec, hm]; cases hc; exact Good.one ⟨h, .refl s R⟩
      · obtain ⟨b, hb, hcell⟩ := hm
        simp only [exec, hb, hcell, Cell.owed, if_true]
        cases hc
        exact Good.one (h.mark x b .kept .kept (by rw [hx]; rfl) hb (.inr (.inl ⟨rfl, rfl⟩)))
      · obtain ⟨b, hb, hcell⟩ := hm
        simp only [exec, hb, hcell, Cell.owed, if_true]
        cases hc
        exact Good.one (h.mark x b .kept .kept (by rw [hx]; rfl) hb (.inr (.inl ⟨rfl, rfl⟩)))
      · cases hc
      · cases hc
    | field x =>
      simp only [check] at hc
      cases hb : a.put x .live with
      | none => simp [two, hb] at hc
      | some b =>
        cases hd : a.put x .null with
        | none => simp [two, hb, hd] at hc
        | some d =>
          simp only [two, hb, hd, Option.some.injEq] at hc
          subst hc
          obtain ⟨h1, h2, rfl⟩ := put_some hb
          obtain ⟨-, -, rfl⟩ := put_some hd
          simp only [exec]
          split
          · obtain ⟨i, f⟩ := h.next.alloc x .live .live h1 h2 (.inl ⟨rfl, rfl⟩)
            exact (Good.one ⟨i, f.next⟩).left
          · obtain ⟨i, f⟩ := h.next.set x .null .null h2 rfl rfl
            exact (Good.one ⟨i, f.next⟩).right
    | listAdd x =>
      simp only [check] at hc
      split at hc
      · rename_i hx
        obtain ⟨b, hb, ho⟩ := h.own x hx
        simp only [exec, hb, ho, if_true]
        have mk : ∀ (s : St), Inv a s R → s.get x = .ptr b →
            Inv { a.set x .kept with ok := true } { s.mark b .kept with ok := true } R ∧ Frame s { s.mark b .kept with ok := true } R := by
          intro s h hb
          obtain ⟨i, f⟩ := h.mark x b .kept .kept hx hb (.inr (.inl ⟨rfl, rfl⟩))
          exact ⟨i.setOk true, f.setOk true⟩
        by_cases hm : m = .any
        · subst hm
          simp only [may, beq_self_eq_true, if_true, two, Option.some.injEq] at hc
          subst hc
          simp only [if_true]
          split
          · exact (Good.one ⟨h.next.setOk false, ((Frame.refl s.next R).setOk false).next⟩).right
          · obtain ⟨i, f⟩ := mk s.next h.next hb
            exact (Good.one ⟨i, f.next⟩).left
        · have hm' : (m == .any) = false := by simpa using hm
          simp only [may, hm', Bool.false_eq_true, if_false, Option.map_some, Option.some.injEq] at hc
          subst hc
          simp only [if_neg hm]
          exact Good.one (mk s h hb)
      · cases hc
    | ifNull x u v =>
      simp only [check] at hc
      cases hx : a.get x <;> simp only [hx] at hc <;> have hm := get x _ hx <;> simp only [Match] at hm
      · cases hc
      · simp only [exec, hm]; exact ih u a s R o h hc
      · obtain ⟨b, hb, -⟩ := hm; simp only [exec, hb]; exact ih v a s R o h hc
      · obtain ⟨b, hb, -⟩ := hm; simp only [exec, hb]; exact ih v a s R o h hc
      · obtain ⟨b, hb, -⟩ := hm; simp only [exec, hb]; exact ih v a s R o h hc
      · cases hc
    | ifOk u v =>
      simp only [check] at hc
      simp only [exec, ← h.ok]
      split at hc
      · rename_i hk; rw [if_pos hk]; exact ih u a s R o h hc
      · rename_i hk; rw [if_neg hk]; exact ih v a s R o h hc
    | choose u v =>
      simp only [check] at hc
      cases h1 : check m con u a with
      | none => simp [h1] at hc
      | some p =>
        cases h2 : check m con v a with
        | none => simp [h1, h2] at hc
        | some q =>
          simp only [h1, h2, Option.some.injEq] at hc; subst hc
          simp only [exec]
          have fn : Frame s s.next R := ((Frame.refl s.next R)).next
          split
          · exact ((ih u a s.next R p h.next h1).frame fn).left
          · exact ((ih v a s.next R q h.next h2).frame fn).right
    | loop u =>
      simp only [check] at hc
      obtain ⟨l, p, h1, h2, h3, h4, rfl⟩ := checkLoop_good 12 hc
      have key : ∀ j, j ≤ n + 1 → ∀ a ∈ l, ∀ s, Inv a s R → Good s R ⟨p.brk, [], [], p.ret⟩ (exec m tbl j (.loop u) s) := by
        intro j
        induction j with
        | zero => intro _ a _ s _; trivial
        | succ j ihj =>
          intro hj a ha s h
          obtain ⟨q, h5, h6⟩ := checkAll_good h2 ha
          have g := h6 _ _ _ (ih0 j (by omega) u a s R q h h5)
          simp only [exec]
          cases he : exec m tbl j u s with
          | norm t =>
            rw [he] at g; obtain ⟨b, hb, i, f⟩ := g
            exact (ihj (by omega) b (h3 b hb) t i).frame f
          | cont t =>
            rw [he] at g; obtain ⟨b, hb, i, f⟩ := g
            exact (ihj (by omega) b (h4 b hb) t i).frame f
          | brk t => rw [he] at g; obtain ⟨b, hb, i⟩ := g; exact ⟨b, hb, i⟩
          | ret k t => rw [he] at g; obtain ⟨b, hb, i⟩ := g; exact ⟨b, hb, i⟩
          | err => rw [he] at g; exact g
          | more => trivial
      exact key (n + 1) (Nat.le_refl _) a (h1 a (List.mem_singleton.2 rfl)) s h
    | brk => simp only [check, Option.some.injEq] at hc; subst hc; exact ⟨a, List.mem_singleton.2 rfl, h, .refl s R⟩
    | cont => simp only [check, Option.some.injEq] at hc; subst hc; exact ⟨a, List.mem_singleton.2 rfl, h, .refl s R⟩
    | call k xs =>
      simp only [check] at hc
      split at hc
      · rename_i hx
        obtain ⟨hn, hl⟩ := hx
        cases hfind : (con k).find? fun e => fit e.1 (a.args xs) with
        | none => simp [hfind] at hc
        | some e =>
          simp only [hfind, Option.some.injEq] at hc
          subst hc
          obtain ⟨he1, hw⟩ := fit_back hn hl (by simpa using List.find?_some hfind)
          have hlb := AS.back_len xs e.1 a
          have h := h.weaken hlb (AS.back_ok xs e.1 a) hw
          rw [← hlb] at hl
          have hfm := List.mem_of_find?_eq_some hfind
          clear hfind hlb hw
          generalize a.back xs e.1 = a at *
          have hentry : checkEntry m con (tbl k) e = true := List.all_eq_true.1 (ht k) _ hfm
          simp only [checkEntry] at hentry
          split at hentry
          · rename_i hcond
            obtain ⟨c1, c2, c3⟩ := hcond
            have hp : xs.length = (tbl k).params := by rw [← c1, he1]; simp [AS.args]
            rw [he1] at hentry
            cases hch : check m con (tbl k).body ⟨a.args xs ++ List.replicate ((tbl k).vars - (tbl k).params) .dead, false⟩ with
            | none => simp [hch] at hentry
            | some p =>
              simp only [hch, Bool.and_eq_true, List.isEmpty_iff] at hentry
              obtain ⟨⟨⟨e1, e2⟩, e3⟩, e4⟩ := hentry
              have hi := h.enter (tbl k) xs hn hp
              have g := ih (tbl k).body _ _ _ p hi hch
              simp only [exec]
              cases hex : exec m tbl n (tbl k).body { s with store := (tbl k).enter (s.args xs), ok := false } with
              | norm t => rw [hex] at g; obtain ⟨b, hb, -⟩ := g; rw [e1] at hb; cases hb
              | brk t => rw [hex] at g; obtain ⟨b, hb, -⟩ := g; rw [e2] at hb; cases hb
              | cont t => rw [hex] at g; obtain ⟨b, hb, -⟩ := g; rw [e3] at hb; cases hb
              | err => rw [hex] at g; exact g
              | more => trivial
              | ret kk t =>
                rw [hex] at g
                obtain ⟨b, hb, i, fr⟩ := g
                have h4 := List.all_eq_true.1 e4 _ hb
                cases hlv : b.leave (tbl k).fields with
                | none => simp [hlv] at h4
                | some d =>
                  simp only [hlv, Bool.and_eq_true, decide_eq_true_eq, List.all_eq_true, Bool.not_eq_true'] at h4
                  obtain ⟨t', j1, j2, j3, j4⟩ := i.leave (tbl k).fields hlv
                  have fr' := fr.trans j3
                  have hlen : xs.length ≤ d.vars.length := by
                    rw [j2.len, fr'.store]
                    simp [Fn.enter, St.args]
                  simp only [j1]
                  have := h.exit xs hn hl j2 (fun b hb => fr'.kept b hb) (fun b hl hb => fr'.freed b hl hb) fr'.heap
                    (fun b hb => fr'.rest b hb) hlen (by rw [hp]; exact h4.2) kk
                  refine ⟨_, ?_, this⟩
                  simp only [callOuts, List.mem_map]
                  exact ⟨_, h4.1, by simp only [hp]⟩
          · cases hentry
      · cases hc
    | ret k => simp only [check, Option.some.injEq] at hc; subst hc; exact ⟨a, List.mem_singleton.2 rfl, h, .refl s R⟩
    | retI =>
      simp only [check, Option.some.injEq] at hc; subst hc
      simp only [exec, ← h.ok]
      exact ⟨a, List.mem_singleton.2 rfl, h, .refl s R⟩

end Osip.Own
