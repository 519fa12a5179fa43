import Verif.Fsm.PropsIst

/-!
# Properties of the non-INVITE server transaction: C13
-/

namespace Osip

/-- The callbacks that announce a new request. -/
def nistNew : List Cb := [.NIST_REGISTER_RECEIVED, .NIST_BYE_RECEIVED, .NIST_OPTIONS_RECEIVED,
  .NIST_INFO_RECEIVED, .NIST_CANCEL_RECEIVED, .NIST_NOTIFY_RECEIVED, .NIST_SUBSCRIBE_RECEIVED,
  .NIST_UNKNOWN_REQUEST_RECEIVED]

theorem nistRcvCb_new {m : Msg} {c : Cb} (h : nistRcvCb m = some c) : c ∈ nistNew := by
  unfold nistRcvCb Msg.isMethod at h
  cases hr : m.isRequest <;> cases hm : m.sip_method <;> simp [hr, hm] at h
  all_goals repeat' split at h
  all_goals first | (simp at h; subst h; decide) | (subst h; decide)

def NistOnce (t : Tr) (tr : List Eff) : Prop :=
  tr.countP (Eff.isCbIn nistNew) = (if t.state = .NIST_PRE_TRYING then 0 else 1)

theorem nistOnce_exec {env t ev t' e r} (tr : List Eff) (hp : NistOnce t tr)
    (hk : t.ctx_type = .NIST)
    (he : osip_transaction_execute env t ev = some (t', e, r)) : NistOnce t' (tr ++ e) := by
  fsm_exec he hk hs ht
  all_goals try (simpa [NistOnce, List.countP_append] using hp; done)
  fsm_prune hs
  all_goals simp only [NistOnce, hs] at hp ⊢
  all_goals simp only [reduceCtorEq, if_false, if_true] at hp ⊢
  all_goals repeat' split
  all_goals count_cbs []
  all_goals try (rw [hp]; done)
  rename_i h1
  simp [hp, nistRcvCb_new h1]

/-- What was sent. -/
structure NistSends (t : Tr) (tr : List Eff) : Prop where
  last : t.state ≠ .NIST_TERMINATED → t.last_response = (sends tr).getLast?
  prov : t.state ≠ .NIST_COMPLETED → t.state ≠ .NIST_TERMINATED →
    ∀ s ∈ sends tr, s.m.isStatus 1 = true
  fin : t.state = .NIST_COMPLETED → ∀ s ∈ sends tr, s.m.isStatus 1 = true ∨ t.last_response = some s
  one : ∀ pre r post, sends tr = pre ++ r :: post → r.m.isStatus 1 = false → ∀ s ∈ post, s = r

theorem stable_snoc {l : List Ref} {x : Ref}
    (h : ∀ pre r post, l = pre ++ r :: post → r.m.isStatus 1 = false → ∀ s ∈ post, s = r)
    (hx : ∀ r ∈ l, r.m.isStatus 1 = false → x = r) :
    ∀ pre r post, l ++ [x] = pre ++ r :: post → r.m.isStatus 1 = false → ∀ s ∈ post, s = r := by
  intro pre r post he hr
  rcases List.eq_nil_or_concat post with rfl | ⟨post', y, rfl⟩
  · simp
  · rw [List.concat_eq_append, ← List.cons_append, ← List.append_assoc] at he
    obtain ⟨rfl, h1⟩ := List.append_inj' he rfl
    simp only [List.cons.injEq, and_true] at h1
    subst h1
    simp only [List.concat_eq_append, List.mem_append, List.mem_singleton]
    rintro s (hs | hs)
    · exact h _ _ _ rfl hr _ hs
    · exact hs.trans (hx r (by simp) hr)

theorem nistSends_exec {env t ev t' e r} (tr : List Eff) (hp : NistSends t tr) (hi : NistInv t)
    (hk : t.ctx_type = .NIST) (hev : EvOk ev)
    (he : osip_transaction_execute env t ev = some (t', e, r)) : NistSends t' (tr ++ e) := by
  have hst := evOk_status hev
  have hl := hi.last
  have hpr := hi.prov
  have hpre := hi.pre
  obtain ⟨h2, h3, h4, h5⟩ := hp
  fsm_exec he hk hs ht
  fsm_prune hs
  all_goals constructor
  all_goals try (simp; done)
  all_goals simp only [sends_append, sends_cons_send, sends_cons_cb, sends_cons_tpErr,
    sends_cons_kill, sends_nil, sends_freeOpt, sends_dropMsg, List.nil_append, List.append_nil]
  all_goals try exact h5
  all_goals try refine stable_snoc h5 ?_
  all_goals grind

theorem reach_nistSends {O : Op → Prop} {w : World} (h : ReachO O .NIST w) :
    NistOnce w.tr w.trace ∧ NistSends w.tr w.trace := by
  have := reach_inv (k := .NIST) (P := fun t tr => NistInv t ∧ NistOnce t tr ∧ NistSends t tr)
    ?_ ?_ ?_ h
  · exact this.2
  · intro n1 n2 req t hi
    obtain ⟨_, _, h2, _, h4⟩ := init_shape hi
    refine ⟨nistInv_init hi, by simp [NistOnce, h4], ?_⟩
    constructor <;> simp [h2]
  · rintro t tr id ⟨h1, h2, h3⟩
    refine ⟨h1, ?_, ?_⟩
    · simpa [NistOnce, List.countP_append, isCbIn_new] using h2
    · obtain ⟨a, b, c, d⟩ := h3
      constructor <;> simpa
  · rintro env t tr ev t' e r ⟨h1, h2, h3⟩ hk hev he
    exact ⟨nistInv_exec h1 hk hev he, nistOnce_exec tr h2 hk he, nistSends_exec tr h3 h1 hk hev he⟩

/-- **C13** (every history): the request is reported to the application as new at most once. -/
theorem c13_request_reported_once {w : World} (h : Reach .NIST w) :
    w.trace.countP (Eff.isCbIn [.NIST_REGISTER_RECEIVED, .NIST_BYE_RECEIVED,
      .NIST_OPTIONS_RECEIVED, .NIST_INFO_RECEIVED, .NIST_CANCEL_RECEIVED, .NIST_NOTIFY_RECEIVED,
      .NIST_SUBSCRIBE_RECEIVED, .NIST_UNKNOWN_REQUEST_RECEIVED]) ≤ 1 := by
  have := (reach_nistSends h).1
  unfold NistOnce nistNew at this
  rw [this]
  split <;> omega

/-- **C13** (every history). A retransmitted request in COMPLETED (a final response was sent and
timer J has not fired) or PROCEEDING is answered with exactly the last response sent. It is
reported as a retransmission. -/
theorem c13_retransmission {env : Env} {w : World} (h : Reach .NIST w)
    (hs : w.tr.state = .NIST_PROCEEDING ∨ w.tr.state = .NIST_COMPLETED) {ev : Ev} (hev : EvOk ev)
    (ht : ev.type = .RCV_REQUEST) :
    ∃ t' e r resp, osip_transaction_execute env w.tr ev = some (t', e, r) ∧
      (sends w.trace).getLast? = some resp ∧ sends e = [resp] ∧
      (resp.m.isStatus 1 = true ↔ w.tr.state = .NIST_PROCEEDING) ∧
      (callbacks e).head? = some (.NIST_REQUEST_RECEIVED_AGAIN, w.tr.orig_request) := by
  obtain ⟨t', e, r, he⟩ := exec_safe h env hev
  have hk := (reach_queue h).1
  have hi := reach_nistInv h
  have hlast := (reach_nistSends h).2.last (by rcases hs with h | h <;> simp [h])
  have hne : ∃ r, w.tr.last_response = some r ∧ r.m.vias ≠ [] ∧
      (r.m.isStatus 1 = true ↔ w.tr.state = .NIST_PROCEEDING) := by
    rcases hs with h1 | h1
    · obtain ⟨r, h2, h3, -, h5⟩ := hi.prov h1
      exact ⟨r, h2, h3, by simp [h1, h5]⟩
    · obtain ⟨r, h2, h3, -, h5⟩ := hi.last h1
      exact ⟨r, h2, h3, by simp [h1, h5]⟩
  obtain ⟨resp, h1, h2, h3⟩ := hne
  refine ⟨t', e, r, resp, he, by rw [← hlast, h1], ?_, h3, ?_⟩
  all_goals
    have hs0 := hs
    have ht0 := ht
    fsm_exec he hk hs ht
    all_goals try (rw [ht] at ht0; simp at ht0; done)
    fsm_prune hs
    all_goals try (simp [hs] at hs0; done)
    all_goals try (
      rcases hs0 with h1 | h1 <;> rw [h1, ht0, hk] at hs <;> exact absurd hs (by decide))
    all_goals simp
    all_goals grind

/-- **C13** (every history). After the first message sent that is not a 1xx, every message sent is
that same response. -/
theorem c13_one_final {w : World} (h : Reach .NIST w) {pre post : List Ref} {r : Ref}
    (hs : sends w.trace = pre ++ r :: post) (hr : r.m.isStatus 1 = false) : ∀ s ∈ post, s = r :=
  (reach_nistSends h).2.one _ _ _ hs hr

example : ∃ w, Reach .NIST w ∧ (w.tr.state = .NIST_COMPLETED ∧
    (sends w.trace).map (·.m.status_code) = [100, 100, 200, 200] ∧
    w.queue.map (·.type) = [.RCV_REQUEST]) :=
  Ex.reach_exists Ex.options [.incoming Ex.options, Ex.x,
    .outgoing (Ex.response 100 "UDP" "OPTIONS"), Ex.x, .incoming Ex.options, Ex.x,
    .outgoing (Ex.response 200 "UDP" "OPTIONS"), Ex.x, .incoming Ex.options, Ex.x,
    .outgoing (Ex.response 404 "UDP" "OPTIONS"), Ex.x, .incoming Ex.options]
    (by decide +kernel)

end Osip
