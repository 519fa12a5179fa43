import Verif.Fsm.Lemmas

/-!
# Reliable and unreliable transports; the timers of a new transaction
-/

namespace Osip

/-- The transport named by the top Via of a message. -/
def Msg.transport (m : Msg) : Option Str := m.vias.head?.bind (·.protocol)

/-- TCP, TLS and SCTP, in any case. -/
def ReliableName (p : Str) : Prop :=
  p.map toLowerC ∈ ["tcp".toList, "tls".toList, "sctp".toList]

/-- The message travels over an unreliable transport. -/
def Unreliable (m : Msg) : Prop := ∃ p, m.transport = some p ∧ ¬ ReliableName p

/-- The message travels over a reliable transport. -/
def Reliable (m : Msg) : Prop := ∃ p, m.transport = some p ∧ ReliableName p

theorem isReliable_iff (p : Str) : isReliable p = true ↔ ReliableName p := by
  have h1 : "TCP".toList.map toLowerC = "tcp".toList := by decide
  have h2 : "TLS".toList.map toLowerC = "tls".toList := by decide
  have h3 : "SCTP".toList.map toLowerC = "sctp".toList := by decide
  unfold isReliable ReliableName strcaseEq
  rw [h1, h2, h3]
  simp only [Bool.or_eq_true, beq_iff_eq, List.mem_cons, List.not_mem_nil, or_false, or_assoc]

theorem topViaProto_some {r : Ref} {p : Str} (h : r.m.transport = some p) :
    topViaProto (some r) = .inr (some p) := by
  unfold Msg.transport at h
  unfold topViaProto
  cases hv : r.m.vias with
  | nil => simp [hv] at h
  | cons v vs => simpa [hv] using h

theorem unreliable_proto {r : Ref} {p : Str} (hu : Unreliable r.m)
    (h : topViaProto (some r) = .inr (some p)) : isReliable p = false := by
  obtain ⟨q, hq, hn⟩ := hu
  rw [topViaProto_some hq] at h
  simp only [Sum.inr.injEq, Option.some.injEq] at h
  subst h
  rw [← isReliable_iff] at hn
  simpa using hn

theorem reliable_proto {r : Ref} {p : Str} (hu : Reliable r.m)
    (h : topViaProto (some r) = .inr (some p)) : isReliable p = true := by
  obtain ⟨q, hq, hn⟩ := hu
  rw [topViaProto_some hq] at h
  simp only [Sum.inr.injEq, Option.some.injEq] at h
  subst h
  rwa [← isReliable_iff] at hn

theorem init_ICT {n1 n2 req t} (h : transactionInit .ICT n1 n2 req = some (.ok t)) :
    ∃ p host port, req.transport = some p ∧ requestDestination req = some (host, port) ∧
      t = { ctx_type := .ICT, state := .ICT_PRE_CALLING, ict := {
        timer_a_length := 500, timer_a_start := add_gettimeofday n1 500,
        timer_b_length := 32000, timer_b_start := add_gettimeofday n2 32000,
        timer_d_length := if isReliable p then 0 else 32000, timer_d_start := ⟨-1, 0⟩,
        destination := host, port := port } } := by
  simp only [transactionInit, ict_init, Option.bind_eq_bind, Option.bind_eq_some_iff,
    Option.pure_def] at h
  obtain ⟨c, hc, h⟩ := h
  cases hv : req.vias with
  | nil => simp [hv] at hc; subst hc; simp at h
  | cons v vs =>
    cases hp : v.protocol with
    | none => simp [hv, hp] at hc; subst hc; simp at h
    | some p =>
      simp only [hv, hp, Option.bind_eq_some_iff, Prod.exists] at hc
      obtain ⟨ho, po, hd, hc⟩ := hc
      simp only [Option.some.injEq] at hc
      subst hc
      simp only [Option.some.injEq, Except.ok.injEq] at h
      refine ⟨p, ho, po, by simp [Msg.transport, hv, hp], hd, ?_⟩
      rw [← h]
      simp [DEFAULT_T1]

theorem init_NICT {n1 n2 req t} (h : transactionInit .NICT n1 n2 req = some (.ok t)) :
    ∃ p host port, req.transport = some p ∧ requestDestination req = some (host, port) ∧
      t = { ctx_type := .NICT, state := .NICT_PRE_TRYING, nict := {
        timer_e_length := 500, timer_e_start := ⟨-1, 0⟩,
        timer_f_length := 32000, timer_f_start := add_gettimeofday n1 32000,
        timer_k_length := if isReliable p then 0 else 5000, timer_k_start := ⟨-1, 0⟩,
        destination := host, port := port } } := by
  simp only [transactionInit, nict_init, Option.bind_eq_bind, Option.bind_eq_some_iff,
    Option.pure_def] at h
  obtain ⟨c, hc, h⟩ := h
  cases hv : req.vias with
  | nil => simp [hv] at hc; subst hc; simp at h
  | cons v vs =>
    cases hp : v.protocol with
    | none => simp [hv, hp] at hc; subst hc; simp at h
    | some p =>
      simp only [hv, hp, Option.bind_eq_some_iff, Prod.exists] at hc
      obtain ⟨ho, po, hd, hc⟩ := hc
      simp only [Option.some.injEq] at hc
      subst hc
      simp only [Option.some.injEq, Except.ok.injEq] at h
      refine ⟨p, ho, po, by simp [Msg.transport, hv, hp], hd, ?_⟩
      rw [← h]
      simp [DEFAULT_T1, DEFAULT_T4]

theorem init_IST {n1 n2 req t} (h : transactionInit .IST n1 n2 req = some (.ok t)) :
    ∃ p, req.transport = some p ∧
      t = { ctx_type := .IST, state := .IST_PRE_PROCEEDING, ist := {
        timer_g_length := if isReliable p then -1 else 500, timer_g_start := ⟨-1, 0⟩,
        timer_i_length := if isReliable p then 0 else 5000, timer_i_start := ⟨-1, 0⟩,
        timer_h_length := 32000, timer_h_start := ⟨-1, 0⟩ } } := by
  simp only [transactionInit, ist_init] at h
  cases hv : req.vias with
  | nil => simp [hv] at h
  | cons v vs =>
    cases hp : v.protocol with
    | none => simp [hv, hp] at h
    | some p =>
      simp only [hv, hp, Option.some.injEq, Except.ok.injEq] at h
      refine ⟨p, by simp [Msg.transport, hv, hp], ?_⟩
      rw [← h]
      simp [DEFAULT_T1, DEFAULT_T4]

theorem init_NIST {n1 n2 req t} (h : transactionInit .NIST n1 n2 req = some (.ok t)) :
    ∃ p, req.transport = some p ∧
      t = { ctx_type := .NIST, state := .NIST_PRE_TRYING, nist := {
        timer_j_length := if isReliable p then 0 else 32000, timer_j_start := ⟨-1, 0⟩ } } := by
  simp only [transactionInit, nist_init] at h
  cases hv : req.vias with
  | nil => simp [hv] at h
  | cons v vs =>
    cases hp : v.protocol with
    | none => simp [hv, hp] at h
    | some p =>
      simp only [hv, hp, Option.some.injEq, Except.ok.injEq] at h
      refine ⟨p, by simp [Msg.transport, hv, hp], ?_⟩
      rw [← h]
      simp [DEFAULT_T1]

/-! ## Doubling intervals -/

/-- min (2^n * T1, T2) in milliseconds. -/
def backoff (n : Nat) : Int := min (2 ^ n * 500) 4000

theorem backoff_pos (n : Nat) : 500 ≤ backoff n ∧ backoff n ≤ 4000 := by
  have : (0 : Int) < 2 ^ n := Int.pow_pos (by omega)
  unfold backoff
  omega

theorem backoff_succ {n : Nat} (h0 : n ≠ 0) :
    (if backoff (n - 1) * 2 > 4000 then 4000 else backoff (n - 1) * 2) = backoff n := by
  obtain ⟨k, rfl⟩ := Nat.exists_eq_succ_of_ne_zero h0
  have : (0 : Int) < 2 ^ k := Int.pow_pos (by omega)
  simp only [Nat.succ_eq_add_one, Nat.add_sub_cancel, backoff, Int.pow_succ]
  omega

end Osip
