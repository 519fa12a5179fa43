import Verif.Misc.Port

/-!
# C122, C123: texts of errors, waiting
-/

set_option autoImplicit false

namespace Osip.Port

/-- The codes of include/osipparser2/osip_port.h:314-331 and what they mean in words. -/
def codes : List (Int × String) :=
  [(0, "success"), (-1, "undefined error"), (-2, "bad parameter"), (-3, "wrong state"), (-4, "allocation failure"), (-5, "syntax error"),
   (-6, "not found"), (-7, "api not initialized"), (-10, "no network"), (-11, "busy port"), (-12, "unknown host"), (-30, "disk full"),
   (-31, "no rights"), (-32, "file not found"), (-50, "time out"), (-51, "too much call"), (-52, "wrong format"), (-53, "no common codec")]

theorem small_entries : ∀ n : Nat, n < 60 →
    ∃ s, osip_error_table[n]? = some s ∧
      (((-(n : Int)), s) ∈ codes ∨ (s = "undefined" ∧ ∀ w, ((-(n : Int)), w) ∉ codes)) := by
  intro n hn
  have key : ∀ m : Fin 60, ((osip_error_table[m.val]?).any fun s =>
      decide (((-(m.val : Int)), s) ∈ codes) || (s == "undefined" && codes.all fun p => p.1 != -(m.val : Int))) = true := by decide +kernel
  have h := key ⟨n, hn⟩
  rcases he : osip_error_table[n]? with _ | s
  · simp [he] at h
  · rw [he] at h
    simp only [Option.any_some, Bool.or_eq_true, decide_eq_true_eq, Bool.and_eq_true, beq_iff_eq, List.all_eq_true, bne_iff_ne] at h
    refine ⟨s, rfl, ?_⟩
    rcases h with h | ⟨h1, h2⟩
    · exact Or.inl h
    · exact Or.inr ⟨h1, fun w hw => h2 _ hw rfl⟩

/-- C122: whatever the number, `osip_strerror` stays in its table. A number that is a code of the library gives the words of the code;
another negative number gives "undefined", a positive number is no error. -/
theorem c122_strerror (err : Int) (h : IsInt err) :
    ∃ s, osip_strerror err = some s ∧
      (0 < err → s = "success") ∧
      (∀ w, (err, w) ∈ codes → s = w) ∧
      (err < 0 → (∀ w, (err, w) ∉ codes) → s = "undefined") := by
  by_cases h0 : err > 0
  · refine ⟨"success", ?_, fun _ => rfl, ?_, fun h1 => ?_⟩
    · simp only [osip_strerror, if_pos h0]
      decide
    · intro w hw
      exfalso
      simp only [codes, List.mem_cons, Prod.mk.injEq, List.not_mem_nil, or_false] at hw
      omega
    · omega
  · by_cases h1 : err > -60
    · obtain ⟨n, rfl⟩ : ∃ n : Nat, err = -(n : Int) := ⟨(-err).toNat, by omega⟩
      have hn : n < 60 := by omega
      obtain ⟨s, hs, hc⟩ := small_entries n hn
      refine ⟨s, ?_, fun h2 => by omega, ?_, ?_⟩
      · have hi : IsInt (-(-(n : Int))) := by unfold IsInt; omega
        simp only [osip_strerror, if_neg h0, if_pos h1, if_pos hi, entry]
        rw [if_pos (by omega)]
        have : (-(-(n : Int))).toNat = n := by omega
        rw [this, hs]
      · intro w hw
        rcases hc with hc | ⟨_, hc⟩
        · have key : ∀ p ∈ codes, ∀ q ∈ codes, p.1 = q.1 → p.2 = q.2 := by decide +kernel
          exact key _ hc _ hw rfl
        · exact absurd hw (hc w)
      · intro _ hno
        rcases hc with hc | ⟨hc, _⟩
        · exact absurd hc (hno s)
        · exact hc
    · refine ⟨"undefined", ?_, fun h2 => absurd h2 h0, ?_, fun _ _ => rfl⟩
      · simp only [osip_strerror, if_neg h0, if_neg h1]
        decide +kernel
      · intro w hw
        exfalso
        simp only [codes, List.mem_cons, Prod.mk.injEq, List.not_mem_nil, or_false] at hw
        omega

/-- C122: two codes of the library never have the same words. -/
theorem c122_distinct (a b : Int) (s : String) (ha : ∃ w, (a, w) ∈ codes) (hb : ∃ w, (b, w) ∈ codes)
    (h1 : osip_strerror a = some s) (h2 : osip_strerror b = some s) : a = b := by
  obtain ⟨wa, ha⟩ := ha
  obtain ⟨wb, hb⟩ := hb
  have key : ∀ p ∈ codes, ∀ q ∈ codes, osip_strerror p.1 = osip_strerror q.1 → p.1 = q.1 := by decide +kernel
  exact key _ ha _ hb (h1.trans h2.symm)

example : osip_strerror (-5) = some "syntax error" ∧ osip_strerror (-2147483648) = some "undefined" ∧ osip_strerror (-60) = some "undefined" ∧
    osip_strerror 2147483647 = some "success" := by decide +kernel

/-- C123 (partial: `osip_usleep` does not always wait as long as it was asked to, see `c123_violated`): it never waits longer; it waits
exactly as long if less than a second or whole seconds are asked for; less than a second is missing, and less than a half of what was
asked for; a negative number does not wait. -/
theorem c123_usleep_partial (u : Int) :
    osip_usleep u ≤ u.toNat ∧
    (0 ≤ u → u < 1000000 → (osip_usleep u : Int) = u) ∧
    (0 ≤ u → (1000000 : Int) ∣ u → (osip_usleep u : Int) = u) ∧
    u < osip_usleep u + 1000000 ∧
    (0 < u → u < 2 * osip_usleep u) ∧
    (u ≤ 0 → osip_usleep u = 0) := by
  have hneg : u < 0 → osip_usleep u = 0 := by
    intro h
    have hd : ¬ u.tdiv 1000000 > 0 := by
      have : 0 ≤ (-u).tdiv 1000000 := Int.tdiv_nonneg (by omega) (by omega)
      rw [Int.neg_tdiv] at this
      omega
    simp only [osip_usleep, osip_usleep_delay, if_neg hd, select_wait]
    rw [if_pos (Or.inr (Or.inl h))]
  have hsmall : 0 ≤ u → u < 1000000 → osip_usleep u = u.toNat := by
    intro h0 h1
    have hd : u.tdiv 1000000 = u / 1000000 := Int.tdiv_eq_ediv_of_nonneg h0
    have hz : ¬ u.tdiv 1000000 > 0 := by omega
    simp only [osip_usleep, osip_usleep_delay, if_neg hz, select_wait]
    rw [if_neg (by omega)]
    omega
  have hbig : 1000000 ≤ u → osip_usleep u = (u / 1000000 * 1000000).toNat := by
    intro h
    have hd : u.tdiv 1000000 = u / 1000000 := Int.tdiv_eq_ediv_of_nonneg (by omega)
    have hz : u.tdiv 1000000 > 0 := by omega
    simp only [osip_usleep, osip_usleep_delay, if_pos hz, select_wait]
    rw [hd, if_neg (by omega)]
    omega
  rcases Int.lt_or_le u 0 with h | h
  · have := hneg h
    omega
  · rcases Int.lt_or_le u 1000000 with h1 | h1
    · have := hsmall h h1
      omega
    · have := hbig h1
      omega

/-- C123 is violated: exactly if more than a second and not whole seconds are asked for, the wait is too short; 1.999999 seconds are
cut to one. -/
theorem c123_violated (u : Int) (h0 : 0 ≤ u) :
    ((osip_usleep u : Int) < u ↔ 1000000 < u ∧ ¬ (1000000 : Int) ∣ u) ∧ osip_usleep 1999999 = 1000000 := by
  refine ⟨?_, by decide +kernel⟩
  obtain ⟨h1, h2, h3, h4, h5, h6⟩ := c123_usleep_partial u
  rcases Int.lt_or_le u 1000000 with h | h
  · have := h2 h0 h
    omega
  · have hbig : osip_usleep u = (u / 1000000 * 1000000).toNat := by
      have hd : u.tdiv 1000000 = u / 1000000 := Int.tdiv_eq_ediv_of_nonneg (by omega)
      have hz : u.tdiv 1000000 > 0 := by omega
      simp only [osip_usleep, osip_usleep_delay, if_pos hz, select_wait]
      rw [hd, if_neg (by omega)]
      omega
    omega

example : osip_usleep 1000 = 1000 ∧ osip_usleep 2500000 = 2000000 ∧ osip_usleep (-7) = 0 := by decide +kernel

end Osip.Port
