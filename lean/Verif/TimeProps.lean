import Verif.Time

/-!
# Time stamps: C27
-/

namespace Osip

/-- A time stamp in microseconds. -/
def TimeVal.micros (t : TimeVal) : Int := t.sec * 1000000 + t.usec

/-- A normalised time stamp. -/
def TimeVal.Normal (t : TimeVal) : Prop := 0 ≤ t.usec ∧ t.usec < 1000000

instance (t : TimeVal) : Decidable t.Normal := inferInstanceAs (Decidable (_ ∧ _))

/-- **C27** (delays below 1000 seconds). `add_gettimeofday` advances a normalised time stamp by
exactly `ms` milliseconds and leaves it normalised.
Missing: delays of 1000000 ms or more, for which the code drops the microseconds
(`c27_violated`). -/
theorem c27_add_exact_partial {t : TimeVal} {ms : Int} (hn : t.Normal) (h0 : 0 ≤ ms)
    (hms : ms < 1000000) :
    (add_gettimeofday t ms).micros = t.micros + ms * 1000 ∧ (add_gettimeofday t ms).Normal := by
  unfold TimeVal.Normal at *
  unfold add_gettimeofday TimeVal.micros
  rw [if_neg (by omega)]
  have h : 0 ≤ t.usec + ms * 1000 := by omega
  simp only [Int.tdiv_eq_ediv_of_nonneg h, Int.tmod_eq_emod_of_nonneg h]
  omega

example : TimeVal.Normal ⟨5, 999999⟩ ∧ add_gettimeofday ⟨5, 999999⟩ 1 = ⟨6, 999⟩ := by
  decide

/-- **C27** (delays of 1000 seconds or more): the result is normalised and never late, and early by
the microseconds of the start time and the sub-second part of the delay. -/
theorem c27_add_long {t : TimeVal} {ms : Int} (hn : t.Normal) (hms : 1000000 ≤ ms) :
    (add_gettimeofday t ms).micros = t.micros + ms * 1000 - t.usec - ms % 1000 * 1000 ∧
    (add_gettimeofday t ms).Normal := by
  unfold TimeVal.Normal at *
  unfold add_gettimeofday TimeVal.micros
  rw [if_pos (by omega)]
  simp only [Int.tdiv_eq_ediv_of_nonneg (show 0 ≤ ms by omega)]
  omega

example : (1000000 : Int) ≤ 1500700 ∧ (⟨5, 300⟩ : TimeVal).Normal := by decide

/-- **C27 is violated**: adding 1000 seconds to 5.999999 s gives 1005.000000 s. -/
theorem c27_violated : ∃ t ms, t.Normal ∧ 0 ≤ ms ∧
    (add_gettimeofday t ms).micros ≠ t.micros + ms * 1000 :=
  ⟨⟨5, 999999⟩, 1000000, by decide, by decide, by decide⟩

/-- Strict comparison of normalised time stamps is comparison of microseconds. -/
theorem timerGt_iff {a b : TimeVal} (ha : a.Normal) (hb : b.Normal) :
    timerGt a b = true ↔ a.micros > b.micros := by
  unfold TimeVal.Normal at *
  unfold timerGt TimeVal.micros
  split <;> simp only [decide_eq_true_eq] <;> omega

end Osip
