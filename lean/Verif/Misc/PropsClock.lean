import Verif.Misc.Clock

/-!
# C104: the compensated clock never goes back and follows the real time
-/

set_option autoImplicit false

namespace Osip.Clock

theorem offset_mono (s : State) (a b : Reading) : s.offset ≤ (osip_compensatetime s a b).offset := by
  simp only [osip_compensatetime]
  grind [osip_gettimeofday]

theorem values_ge (rs : List (Reading × Reading)) : ∀ {s : State} {m : Int}, (∀ r ∈ rs, m ≤ r.2.mono) →
    ∀ v ∈ (calls s rs).2, m + s.offset ≤ v := by
  induction rs with
  | nil => simp [calls]
  | cons r rs ih =>
    intro s m hm v hv
    simp only [calls, List.mem_cons] at hv
    have ho := offset_mono s r.1 r.2
    rcases hv with rfl | hv
    · have := hm r (by simp)
      simp only [osip_getsystemtime, osip_gettimeofday]
      omega
    · have := ih (s := (osip_getsystemtime s r.1 r.2).1) (m := m) (fun x hx => hm x (by simp [hx])) v hv
      simp only [osip_getsystemtime] at this
      omega

/-- **C104**. Whatever the real clock shows, the times returned by `osip_getsystemtime` never go back if the monotonic clock does not. -/
theorem c104_never_back (s : State) {rs : List (Reading × Reading)} (h : rs.Pairwise fun a b => a.2.mono ≤ b.2.mono) :
    (calls s rs).2.Pairwise (· ≤ ·) := by
  induction rs generalizing s with
  | nil => simp [calls]
  | cons r rs ih =>
    obtain ⟨h1, h2⟩ := List.pairwise_cons.1 h
    simp only [calls, List.pairwise_cons]
    refine ⟨fun v hv => ?_, ih _ h2⟩
    have := values_ge rs h1 v hv
    simpa [osip_getsystemtime, osip_gettimeofday] using this

/-- At the last adjustment the clock was right. -/
def Right (r0 : Reading) (s : State) : Prop :=
  s.last_now_monotonic ≠ 0 ∧ s.last_now_real - r0.real = (s.last_now_monotonic + s.offset) - r0.mono

theorem right_step {r0 : Reading} {s : State} (h : Right r0 s) {r : Reading} (hr : r.mono ≠ 0) : Right r0 (osip_getsystemtime s r r).1 := by
  obtain ⟨h1, h2⟩ := h
  simp only [Right, osip_getsystemtime, osip_compensatetime]
  grind [osip_gettimeofday]

theorem right_calls {r0 : Reading} (rs : List Reading) : ∀ {s : State}, Right r0 s → (∀ r ∈ rs, r.mono ≠ 0) →
    Right r0 (calls s (rs.map fun r => (r, r))).1 := by
  induction rs with
  | nil => intro s h _; exact h
  | cons r rs ih =>
    intro s h hm
    simp only [List.map_cons, calls]
    exact ih (right_step h (hm r (by simp))) (fun x hx => hm x (by simp [hx]))

/-- **C104**, partial. Let the clocks be read for the first time, then any number of times, and once more when the last adjustment (or the
first reading) is between 5 seconds and one hour ago. Since the first reading the returned time is then behind the real time by
less than two seconds, however long the monotonic clock stood still. It is assumed that the clocks do not change during a call.
Missing: `c104_violated`. -/
theorem c104_follows_partial {r0 : Reading} (h0 : r0.real ≠ 0) (m0 : r0.mono ≠ 0) {rs : List Reading} (hm : ∀ r ∈ rs, r.mono ≠ 0) {r : Reading}
    (hr : r.real ≠ 0) {s : State} (hs : s = (calls {} ((r0 :: rs).map fun r => (r, r))).1)
    (h5 : 5 ≤ r.real - s.last_now_real) (h3600 : r.real - s.last_now_real ≤ 3600) :
    r.real - r0.real < (osip_getsystemtime s r r).2 - r0.mono + 2 := by
  have h1 : Right r0 (osip_getsystemtime {} r0 r0).1 := by
    simp only [Right, osip_getsystemtime, osip_compensatetime]
    grind [osip_gettimeofday]
  have hR : Right r0 s := by
    rw [hs]
    simp only [List.map_cons, calls]
    exact right_calls rs h1 hm
  obtain ⟨g1, g2⟩ := hR
  simp only [osip_getsystemtime, osip_compensatetime]
  grind [osip_gettimeofday]

/-- Nothing is adjusted any more. -/
theorem stuck {s : State} (h : s.last_now_monotonic ≠ 0) {a b : Reading} (ha : s.last_now_real + 3600 < a.real) :
    osip_compensatetime s a b = s := by
  simp only [osip_compensatetime]
  grind

/-- **C104** fails for good: if one hour passes without an adjustment, for example since there was nothing to adjust, no call changes
anything any more, whatever the clocks show from then on. -/
theorem c104_violated {s : State} (h : s.last_now_monotonic ≠ 0) {rs : List (Reading × Reading)}
    (hr : ∀ r ∈ rs, s.last_now_real + 3600 < r.1.real) : calls s rs = (s, rs.map fun r => r.2.mono + s.offset) := by
  induction rs with
  | nil => rfl
  | cons r rs ih =>
    have e := stuck h (b := r.2) (hr r (by simp))
    simp only [calls, osip_getsystemtime, e, ih (fun x hx => hr x (by simp [hx])), osip_gettimeofday, List.map_cons]

/-- A telephone that is awake for two hours and then asleep for `sleep` seconds: the returned time is behind by the whole sleep. -/
theorem c104_lag (sleep : Nat) : ∃ rs : List Reading,
    (∀ r ∈ rs, r.real = 1000000 + r.mono) ∧
    (calls {} ((rs ++ [(⟨1007300 + sleep, 7300⟩ : Reading)]).map fun r => (r, r))).2.getLast? = some 7300 := by
  refine ⟨[⟨1000100, 100⟩, ⟨1007300, 7300⟩], by simp, ?_⟩
  have h1 : calls {} [((⟨1000100, 100⟩ : Reading), (⟨1000100, 100⟩ : Reading))] = (⟨0, 100, 1000100⟩, [100]) := by decide +kernel
  have h2 := c104_violated (s := ⟨0, 100, 1000100⟩) (by decide)
    (rs := [(⟨1007300, 7300⟩, ⟨1007300, 7300⟩), (⟨1007300 + sleep, 7300⟩, ⟨1007300 + sleep, 7300⟩)]) (by simp; omega)
  simp only [calls] at h1 h2 ⊢
  simp_all [calls]

/-- Ten minutes of sleep half an hour after the start are made up for. -/
example : (calls {} (([⟨1000100, 100⟩, ⟨1001900, 1900⟩, ⟨1002500, 1900⟩] : List Reading).map fun r => (r, r))).2 = [100, 1900, 2500] := by decide +kernel

end Osip.Clock
