import Verif.Own.Props

/-!
# What follows from contracts, for any table of functions

`run_sound` (Verif/Own/Run.lean) in forms that are easier to use.
-/

set_option autoImplicit false

namespace Osip.Own

/-- A call from outside ends in one of the lines of the contract. -/
theorem run_line {F : Type} {m : Mode} {tbl : F → Fn F} {con : F → Contract}
    (ht : ∀ f, (con f).all (checkEntry m con (tbl f)) = true) (n : Nat) (f : F) (args : List Arg) (picks : List Bool)
    (e : List A × List (Bool × List A)) (he : e ∈ con f) (ha : e.1 = args.map Arg.known) :
    run m tbl n f args picks = .more ∨ ∃ ok s vs, run m tbl n f args picks = .ret ok s ∧ (ok, vs) ∈ e.2 ∧ StillKept args (.ret ok s) ∧
      (∀ (i : Nat) (v : A), vs[i]? = some v → Match s v (s.get i)) ∧
      (∀ d, (s.cell d).owed = true → ∃ (i : Nat) (v : A), i < (tbl f).params ∧ vs[i]? = some v ∧ v.own = true ∧ s.get i = .ptr d) := by
  rcases run_sound ht n f args picks e he ha with hr | ⟨ok, s, c, hr, h1, h2, h3, h4, h5⟩
  · exact .inl hr
  · refine .inr ⟨ok, s, _, hr, h1, h5, ?_, ?_⟩
    · intro i v hv
      have := h2.val i
      rw [take_get hv] at this
      exact this
    · intro d hd
      rcases h2.all d hd with h6 | ⟨x, h6, h7⟩
      · exact h6.elim
      · have hx : x < (tbl f).params := by
          apply Decidable.byContradiction
          intro hx
          have : c.get x ∈ c.vars.drop (tbl f).params ∨ c.get x = .dead := by
            simp only [AS.get]
            cases hv : c.vars[x]? with
            | none => exact .inr rfl
            | some v =>
              left
              refine List.mem_of_getElem? (i := x - (tbl f).params) ?_
              rw [List.getElem?_drop]
              rw [show (tbl f).params + (x - (tbl f).params) = x by omega]
              simpa using hv
          rcases this with h8 | h8
          · rw [h3 _ h8] at h6; cases h6
          · rw [h8] at h6; cases h6
        refine ⟨x, c.get x, hx, ?_, h6, h7⟩
        rw [List.getElem?_take, if_pos hx]
        simp only [AS.get]
        cases hv : c.vars[x]? with
        | none => simp only [AS.get, hv, Option.getD_none] at h6; cases h6
        | some v => rfl

/-- No block is lost. -/
theorem run_noLeak {F : Type} {m : Mode} {tbl : F → Fn F} {con : F → Contract}
    (ht : ∀ f, (con f).all (checkEntry m con (tbl f)) = true) (n : Nat) (f : F) (args : List Arg) (picks : List Bool)
    (e : List A × List (Bool × List A)) (he : e ∈ con f) (ha : e.1 = args.map Arg.known) :
    NoLeak (tbl f).params (run m tbl n f args picks) ∧ StillKept args (run m tbl n f args picks) := by
  rcases run_line ht n f args picks e he ha with hr | ⟨ok, s, vs, hr, -, h5, -, h6⟩
  · rw [hr]; exact ⟨trivial, trivial⟩
  · rw [hr]
    refine ⟨?_, h5⟩
    intro d hd
    obtain ⟨i, v, hi, -, -, hg⟩ := h6 d hd
    exact ⟨i, hi, hg⟩

/-- What a function that makes something leaves behind: on success the variable of the caller points to a new block, on an error it is NULL;
nothing else has to be given back. -/
def Made : Res → Prop
  | .ret true s => ∃ b, s.get 0 = .ptr b ∧ (s.cell b).owed = true ∧ ∀ d, (s.cell d).owed = true → d = b
  | .ret false s => s.get 0 = .null ∧ ∀ d, (s.cell d).owed = false
  | .more => True
  | _ => False

/-- Such a line of a contract. -/
def madeLine (r : Bool × List A) : Bool := decide (r = (false, [.null])) || decide (r = (true, [.live])) || decide (r = (true, [.fresh]))

theorem run_made {F : Type} {m : Mode} {tbl : F → Fn F} {con : F → Contract}
    (ht : ∀ f, (con f).all (checkEntry m con (tbl f)) = true) (n : Nat) (f : F) (args : List Arg) (picks : List Bool)
    (e : List A × List (Bool × List A)) (he : e ∈ con f) (ha : e.1 = args.map Arg.known) (hm : e.2.all madeLine = true) :
    Made (run m tbl n f args picks) := by
  rcases run_line ht n f args picks e he ha with hr | ⟨ok, s, vs, hr, h1, -, h5, h6⟩
  · rw [hr]; trivial
  · have := List.all_eq_true.1 hm _ h1
    simp only [madeLine, Bool.or_eq_true, decide_eq_true_eq, Prod.mk.injEq] at this
    rw [hr]
    have one : ∀ v : A, vs = [v] → ∀ d, (s.cell d).owed = true → v.own = true ∧ s.get 0 = .ptr d := by
      intro v hv d hd
      obtain ⟨i, w, -, h7, h8, h9⟩ := h6 d hd
      rw [hv] at h7
      match i, h7 with
      | 0, h7 =>
        simp only [List.getElem?_cons_zero, Option.some.injEq] at h7
        subst h7
        exact ⟨h8, h9⟩
      | i + 1, h7 => simp at h7
    rcases this with (⟨rfl, hv⟩ | ⟨rfl, hv⟩) | ⟨rfl, hv⟩
    · refine ⟨?_, ?_⟩
      · exact h5 0 .null (by rw [hv]; rfl)
      · intro d
        cases hd : (s.cell d).owed with
        | false => rfl
        | true => have := (one _ hv d hd).1; cases this
    all_goals
      obtain ⟨b, hb, hl⟩ := h5 0 _ (by rw [hv]; rfl)
      refine ⟨b, hb, by rw [hl]; rfl, ?_⟩
      intro d hd
      have := (one _ hv d hd).2
      rw [hb] at this
      cases this
      rfl

end Osip.Own
