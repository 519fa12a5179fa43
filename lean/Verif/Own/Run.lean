import Verif.Own.Sound

/-!
# Calls from outside
-/

set_option autoImplicit false

namespace Osip.Own

def Arg.known : Arg → A
  | .none => .dead
  | .null => .null
  | .empty => .fresh
  | .block => .live
  | .kept => .kept

/-- The arguments in memory, after the blocks of `h`. -/
theorem place_inv (args : List Arg) : ∀ (h : List Cell),
    (place args h).1.length = args.length ∧ (∃ t, (place args h).2 = h ++ t) ∧
    (∀ (i : Nat) (a : Arg), args[i]? = some a → match a.cell with
      | some c => ∃ b, (place args h).1[i]? = some (Val.ptr b) ∧ h.length ≤ b ∧ (place args h).2[b]? = some c
      | Option.none => (place args h).1[i]? = some (if a = .null then Val.null else .junk)) ∧
    (∀ (i j b : Nat), (place args h).1[i]? = some (Val.ptr b) → (place args h).1[j]? = some (Val.ptr b) → i = j) ∧
    (∀ (i b : Nat), (place args h).1[i]? = some (Val.ptr b) → h.length ≤ b) ∧
    (∀ b : Nat, h.length ≤ b → b < (place args h).2.length → ∃ (i : Nat) (a : Arg), args[i]? = some a ∧ (place args h).1[i]? = some (Val.ptr b) ∧
      a.cell = (place args h).2[b]?) := by
  induction args with
  | nil =>
    intro h
    refine ⟨rfl, ⟨[], by simp [place]⟩, by simp, by simp [place], by simp [place], ?_⟩
    intro b h1 h2
    simp only [place] at h2
    omega
  | cons x l ih =>
    intro h
    cases hx : x.cell with
    | none =>
      obtain ⟨i1, ⟨t, i2⟩, i3, i4, i5, i6⟩ := ih h
      have hv : ∀ b, (if x = .null then Val.null else .junk) ≠ .ptr b := by intro b; split <;> simp
      simp only [place, hx]
      refine ⟨by simp [i1], ⟨t, i2⟩, ?_, ?_, ?_, ?_⟩
      · intro i a ha
        cases i with
        | zero => simp only [List.getElem?_cons_zero, Option.some.injEq] at ha; subst ha; simp [hx]
        | succ i => exact i3 i a ha
      · intro i j b h1 h2
        cases i with
        | zero => simp only [List.getElem?_cons_zero, Option.some.injEq] at h1; exact absurd h1 (hv b)
        | succ i =>
          cases j with
          | zero => simp only [List.getElem?_cons_zero, Option.some.injEq] at h2; exact absurd h2 (hv b)
          | succ j => rw [i4 i j b h1 h2]
      · intro i b h1
        cases i with
        | zero => simp only [List.getElem?_cons_zero, Option.some.injEq] at h1; exact absurd h1 (hv b)
        | succ i => exact i5 i b h1
      · intro b h1 h2
        obtain ⟨i, a, h3, h4, h5⟩ := i6 b h1 h2
        exact ⟨i + 1, a, h3, h4, h5⟩
    | some c =>
      obtain ⟨i1, ⟨t, i2⟩, i3, i4, i5, i6⟩ := ih (h ++ [c])
      simp only [place, hx]
      have hc : (place l (h ++ [c])).2[h.length]? = some c := by rw [i2]; simp
      refine ⟨by simp [i1], ⟨c :: t, by rw [i2]; simp⟩, ?_, ?_, ?_, ?_⟩
      · intro i a ha
        cases i with
        | zero =>
          simp only [List.getElem?_cons_zero, Option.some.injEq] at ha; subst ha
          rw [hx]
          exact ⟨h.length, rfl, Nat.le_refl _, hc⟩
        | succ i =>
          have := i3 i a ha
          cases hca : a.cell with
          | none => rw [hca] at this; exact this
          | some d =>
            rw [hca] at this
            obtain ⟨b, j1, j2, j3⟩ := this
            refine ⟨b, j1, ?_, j3⟩
            simp only [List.length_append, List.length_singleton] at j2
            omega
      · intro i j b h1 h2
        have low : ∀ i : Nat, (place l (h ++ [c])).1[i]? = some (Val.ptr b) → h.length < b := by
          intro i hi
          have := i5 i b hi
          simp only [List.length_append, List.length_singleton] at this
          omega
        cases i with
        | zero =>
          cases j with
          | zero => rfl
          | succ j =>
            simp only [List.getElem?_cons_zero, Option.some.injEq, Val.ptr.injEq] at h1
            have := low j h2
            omega
        | succ i =>
          cases j with
          | zero =>
            simp only [List.getElem?_cons_zero, Option.some.injEq, Val.ptr.injEq] at h2
            have := low i h1
            omega
          | succ j => rw [i4 i j b h1 h2]
      · intro i b h1
        cases i with
        | zero =>
          simp only [List.getElem?_cons_zero, Option.some.injEq, Val.ptr.injEq] at h1
          omega
        | succ i =>
          have := i5 i b h1
          simp only [List.length_append, List.length_singleton] at this
          omega
      · intro b h1 h2
        by_cases hb : b = h.length
        · subst hb
          exact ⟨0, x, rfl, rfl, by rw [hx, hc]⟩
        · obtain ⟨i, a, h3, h4, h5⟩ := i6 b (by simp only [List.length_append, List.length_singleton]; omega) h2
          exact ⟨i + 1, a, h3, h4, h5⟩

/-- A call from outside ends as the contract says. -/
theorem run_sound {F : Type} {m : Mode} {tbl : F → Fn F} {con : F → Contract}
    (ht : ∀ f, (con f).all (checkEntry m con (tbl f)) = true) (n : Nat) (f : F) (args : List Arg) (picks : List Bool)
    (e : List A × List (Bool × List A)) (he : e ∈ con f) (ha : e.1 = args.map Arg.known) :
    run m tbl n f args picks = .more ∨ ∃ ok t c, run m tbl n f args picks = .ret ok t ∧
      (ok, c.vars.take (tbl f).params) ∈ e.2 ∧ Inv c t (fun _ => False) ∧ (∀ v ∈ c.vars.drop (tbl f).params, v.own = false) ∧
      (tbl f).params ≤ c.vars.length ∧
      ∀ b, (place args []).2[b]? = some .kept → t.cell b = .kept := by
  have hentry : checkEntry m con (tbl f) e = true := List.all_eq_true.1 (ht f) _ he
  simp only [checkEntry] at hentry
  split at hentry
  · rename_i hcond
    obtain ⟨c1, c2, c3⟩ := hcond
    obtain ⟨p1, -, p3, p4, p5, p6⟩ := place_inv args []
    have hlen : args.length = (tbl f).params := by rw [← c1, ha, List.length_map]
    cases hch : check m con (tbl f).body ⟨e.1 ++ List.replicate ((tbl f).vars - (tbl f).params) .dead, false⟩ with
    | none => simp [hch] at hentry
    | some p =>
      simp only [hch, Bool.and_eq_true, List.isEmpty_iff] at hentry
      obtain ⟨⟨⟨e1, e2⟩, e3⟩, e4⟩ := hentry
      have ga : ∀ i, AS.get ⟨e.1 ++ List.replicate ((tbl f).vars - (tbl f).params) .dead, false⟩ i =
          match args[i]? with | some a => a.known | none => .dead := by
        intro i
        simp only [AS.get, ha, List.getElem?_append, List.getElem?_map, List.getElem?_replicate, List.length_map]
        by_cases h : i < args.length
        · simp [h]
        · rw [if_neg h, List.getElem?_eq_none (by omega : args.length ≤ i)]
          split <;> rfl
      have gs : ∀ i, St.get ⟨(tbl f).enter (place args []).1, (place args []).2, false, picks⟩ i =
          match (place args []).1[i]? with | some v => v | none => .junk := by
        intro i
        simp only [St.get, Fn.enter, List.getElem?_append, List.getElem?_replicate]
        by_cases h : i < (place args []).1.length
        · simp [h]
        · rw [if_neg h, List.getElem?_eq_none (by omega : (place args []).1.length ≤ i)]
          split <;> rfl
      have hi : Inv ⟨e.1 ++ List.replicate ((tbl f).vars - (tbl f).params) .dead, false⟩
          ⟨(tbl f).enter (place args []).1, (place args []).2, false, picks⟩ (fun _ => False) := by
        constructor
        · simp [Fn.enter, p1, ha]
        · rfl
        · intro i
          rw [ga, gs]
          cases hai : args[i]? with
          | none => trivial
          | some a =>
            have := p3 i a hai
            cases a <;> simp only [Arg.cell, Arg.known] at this ⊢
            · trivial
            · simp only [this]; rfl
            all_goals
              obtain ⟨b, j1, j2, j3⟩ := this
              simp only [j1]
              exact ⟨b, rfl, by simp only [St.cell, j3]; rfl⟩
        · intro i j b h1 h2 h3 h4
          rw [gs] at h3 h4
          refine p4 i j b ?_ ?_
          · split at h3 <;> simp_all
          · split at h4 <;> simp_all
        · intro i b h1 h2 h3; exact h3
        · intro b hb
          right
          have hl : b < (place args []).2.length := by
            refine St.cell_lt ⟨(tbl f).enter (place args []).1, (place args []).2, false, picks⟩ b ?_
            intro h; rw [h] at hb; simp [Cell.owed] at hb
          obtain ⟨i, a, h1, h2, h3⟩ := p6 b (Nat.zero_le _) hl
          refine ⟨i, ?_, ?_⟩
          · rw [ga, h1]
            simp only [St.cell, ← h3] at hb
            cases a <;> simp [Arg.known, A.own, Arg.cell, Cell.owed] at hb ⊢
          · rw [gs, h2]
        · intro b h; exact h.elim
      have g := sound ht n (tbl f).body _ _ _ p hi hch
      simp only [run]
      cases hex : exec m tbl n (tbl f).body ⟨(tbl f).enter (place args []).1, (place args []).2, false, picks⟩ with
      | norm t => rw [hex] at g; obtain ⟨b, hb, -⟩ := g; rw [e1] at hb; cases hb
      | brk t => rw [hex] at g; obtain ⟨b, hb, -⟩ := g; rw [e2] at hb; cases hb
      | cont t => rw [hex] at g; obtain ⟨b, hb, -⟩ := g; rw [e3] at hb; cases hb
      | err => rw [hex] at g; exact g.elim
      | more => exact .inl rfl
      | ret kk t =>
        rw [hex] at g
        obtain ⟨b, hb, i, fr⟩ := g
        have h4 := List.all_eq_true.1 e4 _ hb
        cases hlv : b.leave (tbl f).fields with
        | none => simp [hlv] at h4
        | some d =>
          simp only [hlv, Bool.and_eq_true, decide_eq_true_eq, List.all_eq_true, Bool.not_eq_true'] at h4
          obtain ⟨t', j1, j2, j3, j4⟩ := i.leave (tbl f).fields hlv
          have fr' := fr.trans j3
          refine .inr ⟨kk, t', d, by simp only [j1], h4.1, j2, h4.2, ?_, ?_⟩
          · rw [j2.len, fr'.store]
            simp [Fn.enter, p1, hlen]
          · intro b hb
            exact fr'.kept b (by simp only [St.cell, hb]; rfl)
  · cases hentry

end Osip.Own
