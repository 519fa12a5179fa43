import Verif.Fsm.Safe
import Verif.Fsm.PropsIct

/-!
# The application learns the outcome of every client transaction: C09
-/

namespace Osip

/-- The callbacks announcing a final response, per kind of client transaction. -/
def finalCbs : Kind → List Cb
  | .ICT => [.ICT_STATUS_2XX_RECEIVED, .ICT_STATUS_3XX_RECEIVED, .ICT_STATUS_4XX_RECEIVED,
      .ICT_STATUS_5XX_RECEIVED, .ICT_STATUS_6XX_RECEIVED]
  | .NICT => [.NICT_STATUS_2XX_RECEIVED, .NICT_STATUS_3XX_RECEIVED, .NICT_STATUS_4XX_RECEIVED,
      .NICT_STATUS_5XX_RECEIVED, .NICT_STATUS_6XX_RECEIVED]
  | _ => []

/-- The callback announcing a timeout, per kind of client transaction. -/
def timeoutCbs : Kind → List Cb
  | .ICT => [.ICT_STATUS_TIMEOUT]
  | .NICT => [.NICT_STATUS_TIMEOUT]
  | _ => []

/-- How often the application was told about a final response. -/
def finals (k : Kind) (tr : List Eff) : Nat := tr.countP (Eff.isCbIn (finalCbs k))
/-- How often the application was told about a timeout. -/
def timeouts (k : Kind) (tr : List Eff) : Nat := tr.countP (Eff.isCbIn (timeoutCbs k))
/-- How often the application was told about a transport error. -/
def tpErrors (tr : List Eff) : Nat := tr.countP Eff.isTpErr

theorem isTpErr_cb (c r) : Eff.isTpErr (.cb c r) = false := rfl
theorem isTpErr_send (r h p) : Eff.isTpErr (.send r h p) = false := rfl
theorem isTpErr_tpErr (k i) : Eff.isTpErr (.tpErr k i) = true := rfl
theorem isTpErr_kill (k) : Eff.isTpErr (.kill k) = false := rfl
theorem isTpErr_new (k) : Eff.isTpErr (.newMsg k) = false := rfl
theorem isTpErr_free (k) : Eff.isTpErr (.freeMsg k) = false := rfl

theorem nictFinalCb_mem (ty : EvType) (m : Msg) : nictFinalCb ty m ∈ finalCbs .NICT := by
  unfold nictFinalCb; repeat' split
  all_goals simp [finalCbs]

theorem nictFinalCb_not (ty : EvType) (m : Msg) : ¬ nictFinalCb ty m ∈ timeoutCbs .NICT := by
  unfold nictFinalCb; repeat' split
  all_goals simp [timeoutCbs]

theorem nictSentCb_not {m : Msg} {c : Cb} (h : nictSentCb m = some c) :
    ¬ c ∈ finalCbs .NICT ∧ ¬ c ∈ timeoutCbs .NICT := by
  unfold nictSentCb Msg.isMethod at h
  cases hr : m.isRequest <;> cases hm : m.sip_method <;> simp [hr, hm] at h
  · subst h; simp [finalCbs, timeoutCbs]
  · subst h; simp [finalCbs, timeoutCbs]
  · repeat' split at h
    all_goals
      simp at h
      subst h
      simp [finalCbs, timeoutCbs]

theorem ict3456Cb_mem' (m : Msg) : ict3456Cb m ∈ finalCbs .ICT := by
  unfold ict3456Cb; repeat' split
  all_goals simp [finalCbs]

theorem ict3456Cb_not' (m : Msg) : ¬ ict3456Cb m ∈ timeoutCbs .ICT := by
  unfold ict3456Cb; repeat' split
  all_goals simp [timeoutCbs]

/-! ## Non-INVITE client -/

def NictEnd (t : Tr) (tr : List Eff) : Prop :=
  (t.state = .NICT_PRE_TRYING ∨ t.state = .NICT_TRYING ∨ t.state = .NICT_PROCEEDING →
    finals .NICT tr = 0 ∧ timeouts .NICT tr = 0 ∧ tpErrors tr = 0) ∧
  (t.state = .NICT_COMPLETED →
    finals .NICT tr = 1 ∧ timeouts .NICT tr = 0 ∧ tpErrors tr = 0) ∧
  (t.state = .NICT_TERMINATED → finals .NICT tr + timeouts .NICT tr + tpErrors tr = 1)

theorem nictEnd_exec {env t ev t' e r} (tr : List Eff) (hp : NictEnd t tr)
    (hk : t.ctx_type = .NICT)
    (he : osip_transaction_execute env t ev = some (t', e, r)) : NictEnd t' (tr ++ e) := by
  have hm := nictFinalCb_mem
  have hn := nictFinalCb_not
  have hsn := @nictSentCb_not
  fsm_exec he hk hs ht
  all_goals try (simpa [NictEnd, finals, timeouts, tpErrors, List.countP_append] using hp; done)
  all_goals simp only [NictEnd, hs, finals, timeouts, tpErrors] at hp ⊢
  all_goals try (rename_i c hc _; have hs1 := (hsn hc).1; have hs2 := (hsn hc).2)
  all_goals try (rename_i c hc _ _; have hs1 := (hsn hc).1; have hs2 := (hsn hc).2)
  all_goals try (rename_i c hc _ _ _; have hs1 := (hsn hc).1; have hs2 := (hsn hc).2)
  all_goals try (rename_i c hc _ _ _ _; have hs1 := (hsn hc).1; have hs2 := (hsn hc).2)
  all_goals count_cbs [hm, hn, isTpErr_cb, isTpErr_send, isTpErr_tpErr, isTpErr_kill,
    countP_tpErr_freeOpt]
  all_goals simp (decide := true) [-List.countP_eq_zero, *] at hp ⊢
  all_goals omega

/-- **C09** (non-INVITE client, every history). A terminated transaction told the application
exactly one of: a final response, a timeout, a transport error; and a transaction that is not
terminated told it at most a final response. -/
theorem c09_nict_outcome {w : World} (h : Reach .NICT w) :
    (w.tr.state = .NICT_TERMINATED →
      finals .NICT w.trace + timeouts .NICT w.trace + tpErrors w.trace = 1) ∧
    (w.tr.state ≠ .NICT_TERMINATED →
      finals .NICT w.trace ≤ 1 ∧ timeouts .NICT w.trace = 0 ∧ tpErrors w.trace = 0) := by
  have := reach_inv (k := .NICT) (P := NictEnd) ?_ ?_ ?_ h
  · obtain ⟨h1, h2, h3⟩ := this
    refine ⟨h3, fun hne => ?_⟩
    rcases (reach_nictInv h).states with hs | hs | hs | hs | hs
    · have := h1 (.inl hs); omega
    · have := h1 (.inr (.inl hs)); omega
    · have := h1 (.inr (.inr hs)); omega
    · have := h2 hs; omega
    · exact absurd hs hne
  · intro n1 n2 req t h
    have := (init_shape h).2.2.2.2
    simp [NictEnd, this, finals, timeouts, tpErrors]
  · intro t tr id hp
    simpa [NictEnd, finals, timeouts, tpErrors, List.countP_append, isCbIn_new, isTpErr_new]
      using hp
  · intro env t tr ev t' e r hp hk _ he
    exact nictEnd_exec tr hp hk he

example : ∃ w, Reach .NICT w ∧ (w.tr.state = .NICT_TERMINATED ∧ timeouts .NICT w.trace = 1) :=
  Ex.reach_exists Ex.options [.outgoing Ex.options, Ex.x, .tick Ex.t2, Ex.x] (by decide +kernel)
example : ∃ w, Reach .NICT w ∧ (w.tr.state = .NICT_TERMINATED ∧ finals .NICT w.trace = 1) :=
  Ex.reach_exists Ex.options [.outgoing Ex.options, Ex.x,
    .incoming (Ex.response 404 "UDP" "OPTIONS"), Ex.x, .tick Ex.t2, Ex.x] (by decide +kernel)

/-! ## INVITE client -/

def IctEnd (t : Tr) (tr : List Eff) : Prop :=
  (t.state = .ICT_PRE_CALLING ∨ t.state = .ICT_CALLING ∨ t.state = .ICT_PROCEEDING →
    finals .ICT tr = 0 ∧ timeouts .ICT tr = 0 ∧ tpErrors tr = 0) ∧
  (t.state = .ICT_COMPLETED →
    finals .ICT tr = 1 ∧ timeouts .ICT tr = 0 ∧ tpErrors tr = 0) ∧
  (t.state = .ICT_TERMINATED → finals .ICT tr + timeouts .ICT tr ≤ 1 ∧ tpErrors tr ≤ 1)

theorem ictEnd_exec {env t ev t' e r} (tr : List Eff) (hp : IctEnd t tr)
    (hk : t.ctx_type = .ICT)
    (he : osip_transaction_execute env t ev = some (t', e, r)) : IctEnd t' (tr ++ e) := by
  have hm := ict3456Cb_mem'
  have hn := ict3456Cb_not'
  fsm_exec he hk hs ht
  all_goals try (simpa [IctEnd, finals, timeouts, tpErrors, List.countP_append] using hp; done)
  all_goals try (rename_i hz; rw [hs] at hz; simp at hz; done)
  all_goals simp only [IctEnd, hs, finals, timeouts, tpErrors] at hp ⊢
  all_goals count_cbs [hm, hn, isTpErr_cb, isTpErr_send, isTpErr_tpErr, isTpErr_kill, isTpErr_new,
    isTpErr_free, countP_tpErr_freeOpt]
  all_goals simp (decide := true) [-List.countP_eq_zero, -List.countP_pos_iff,
    -List.one_le_countP_iff, *] at hp ⊢
  all_goals omega

/-- Some outcome was reported if an ACK could always be built. -/
def IctTold (t : Tr) (tr : List Eff) : Prop :=
  (t.state = .ICT_COMPLETED → 1 ≤ finals .ICT tr) ∧
  (t.state = .ICT_TERMINATED → 1 ≤ finals .ICT tr + timeouts .ICT tr + tpErrors tr)

theorem ictTold_exec {env t ev t' e r} (tr : List Eff) (hp : IctTold t tr)
    (hk : t.ctx_type = .ICT)
    (hack : ∀ o m, t.orig_request = some o → ev.sip = some m → ev.type = .RCV_STATUS_3456XX →
      InviteComplete o.m ∧ ResponseComplete m.m)
    (he : osip_transaction_execute env t ev = some (t', e, r)) : IctTold t' (tr ++ e) := by
  have hm := ict3456Cb_mem'
  have hn := ict3456Cb_not'
  fsm_exec he hk hs ht
  all_goals try (simpa [IctTold, finals, timeouts, tpErrors, List.countP_append] using hp; done)
  all_goals try (
    rename_i hm _ ho _ hnone
    have := create_ack_isSome.2 (hack _ _ ho hm ht)
    rw [hnone] at this
    simp at this; done)
  all_goals try (rename_i hz; rw [hs] at hz; simp at hz; done)
  all_goals simp only [IctTold, hs, finals, timeouts, tpErrors] at hp ⊢
  all_goals count_cbs [hm, hn, isTpErr_cb, isTpErr_send, isTpErr_tpErr, isTpErr_kill, isTpErr_new,
    isTpErr_free, countP_tpErr_freeOpt]
  all_goals simp (decide := true) [-List.countP_eq_zero, -List.countP_pos_iff,
    -List.one_le_countP_iff, *] at hp ⊢
  all_goals omega

/-- **C09** (INVITE client, every history): at most one final response or timeout is reported,
never both, and at most one transport error. -/
theorem c09_ict_at_most_one {w : World} (h : Reach .ICT w) :
    finals .ICT w.trace + timeouts .ICT w.trace ≤ 1 ∧ tpErrors w.trace ≤ 1 := by
  have := reach_inv (k := .ICT) (P := IctEnd) ?_ ?_ ?_ h
  · obtain ⟨h1, h2, h3⟩ := this
    rcases (reach_ictInv h).states with hs | hs | hs | hs | hs
    · have := h1 (.inl hs); omega
    · have := h1 (.inr (.inl hs)); omega
    · have := h1 (.inr (.inr hs)); omega
    · have := h2 hs; omega
    · exact h3 hs
  · intro n1 n2 req t h
    have := (init_shape h).2.2.2.2
    simp [IctEnd, this, finals, timeouts, tpErrors]
  · intro t tr id hp
    simpa [IctEnd, finals, timeouts, tpErrors, List.countP_append, isCbIn_new, isTpErr_new]
      using hp
  · intro env t tr ev t' e r hp hk _ he
    exact ictEnd_exec tr hp hk he

example : ∃ w, Reach .ICT w ∧ (w.tr.state = .ICT_TERMINATED ∧ finals .ICT w.trace = 1 ∧
    tpErrors w.trace = 1) :=
  Ex.reach_exists Ex.invite [.outgoing Ex.invite, Ex.x,
    .incoming (Ex.response 486 "UDP" "INVITE"), Ex.x,
    .incoming (Ex.response 486 "UDP" "INVITE"), Ex.xf] (by decide +kernel)

/-- The messages the operation brings have the headers RFC 3261 requires. -/
def BringsComplete (o : Op) : Prop :=
  ∀ m, o = .incoming m ∨ o = .outgoing m →
    (m.isRequest = true → InviteComplete m) ∧ (m.isRequest = false → ResponseComplete m)

/-- **C09** (INVITE client, complete messages). If the messages have their mandatory headers, a
terminated INVITE client transaction has told the application a final response, a timeout or a
transport error, and never both of the first two.
Missing: messages lacking a header needed to build the ACK; for those the transaction ends without
telling the application anything (`c09_violated`). -/
theorem c09_ict_outcome_partial {w : World} (h : ReachO BringsComplete .ICT w)
    (hs : w.tr.state = .ICT_TERMINATED) :
    1 ≤ finals .ICT w.trace + timeouts .ICT w.trace + tpErrors w.trace ∧
    finals .ICT w.trace + timeouts .ICT w.trace ≤ 1 := by
  refine ⟨?_, (c09_ict_at_most_one (h.mono (fun _ _ => trivial))).1⟩
  have key := reachO_inv (O := BringsComplete) (k := .ICT) (I := fun w =>
    (∀ r, w.tr.orig_request = some r → InviteComplete r.m) ∧
    (∀ ev ∈ w.queue, ∀ r, ev.sip = some r → (r.m.isRequest = true → InviteComplete r.m) ∧
      (r.m.isRequest = false → ResponseComplete r.m)) ∧ IctTold w.tr w.trace) ?_ ?_ h
  · exact key.2.2.2 hs
  · intro n1 n2 req t h
    obtain ⟨h1, h2, h3, h4, h5⟩ := init_shape h
    exact ⟨by simp [World.init, h2], by simp [World.init], by simp [IctTold, World.init, h5]⟩
  · rintro w o w' hre ⟨h1, h2, h3⟩ hO hst
    obtain ⟨hk, hev⟩ := reach_queue hre
    rcases step_cases hst with ⟨q, rfl, hq⟩ | ⟨ev, m, hsip, hok, ho, rfl⟩ |
      ⟨_, _, _, ev, q, t, e, r, _, hqq, he, rfl⟩
    · refine ⟨h1, fun ev hev r hr => ?_, h3⟩
      rcases List.mem_append.1 hev with hm | hm
      · exact h2 ev hm r hr
      · rw [(hq ev hm).2] at hr; simp at hr
    · refine ⟨h1, fun ev' hev' r hr => ?_, ?_⟩
      · rcases List.mem_append.1 hev' with hm | hm
        · exact h2 ev' hm r hr
        · simp only [List.mem_singleton] at hm
          subst hm
          rw [hsip] at hr
          simp only [Option.some.injEq] at hr
          subst hr
          exact hO m ho
      · simpa [IctTold, finals, timeouts, tpErrors, List.countP_append, isCbIn_new, isTpErr_new]
          using h3
    · have hevq := h2 ev (by simp [hqq])
      have hevok := hev ev (by simp [hqq])
      refine ⟨?_, fun ev' hm => h2 ev' (by simp [hqq, hm]), ?_⟩
      · have hinv := evOk_snd_invite hevok
        have he' := he
        have h1' := h1
        clear h1 h2 h3 hst
        fsm_exec he' hk hs ht
        all_goals try (exact h1')
        all_goals
          intro r0 hr0
          obtain ⟨r1, hr1, hreq, -, -⟩ := hinv ht
          dsimp only at hr0
          rw [hr1] at hr0
          simp only [Option.some.injEq] at hr0
          subst hr0
          exact (hevq _ hr1).1 hreq
      · refine ictTold_exec _ h3 hk ?_ he
        intro o m ho hm ht
        obtain ⟨r, hr, hreq, -⟩ := (evOk_status hevok).2.2 (.inl ht)
        rw [hr] at hm
        simp only [Option.some.injEq] at hm
        subst hm
        exact ⟨h1 o ho, (hevq _ hr).2 hreq⟩

example : BringsComplete (.incoming (Ex.response 486 "UDP" "INVITE")) ∧
    BringsComplete (.outgoing Ex.invite) := by
  constructor <;> rintro m (h | h) <;> simp only [Op.incoming.injEq, Op.outgoing.injEq,
    reduceCtorEq] at h <;> subst h <;> refine ⟨fun h => ?_, fun h => ?_⟩
  · exact absurd h (by decide)
  · exact ⟨⟨_, rfl, by simp [FromOk, UriOk, Ex.from1, Ex.uri]⟩,
      ⟨_, rfl, by simp [FromOk, UriOk, Ex.to2, Ex.uri]⟩, ⟨_, rfl, rfl⟩, ⟨_, rfl, rfl, rfl⟩⟩
  · exact ⟨rfl, ⟨_, rfl, by simp [UriOk, Ex.uri]⟩, ⟨_, _, rfl, rfl, rfl, rfl⟩,
      by simp [Ex.invite, Ex.request]⟩
  · exact absurd h (by decide)

/-- **C09 is violated** for an INVITE client that receives a 486 without To: no ACK can be built,
the transaction is killed and the application hears of no response, timeout or transport error. -/
theorem c09_violated : ∃ w, Reach .ICT w ∧ (w.tr.state = .ICT_TERMINATED ∧
    finals .ICT w.trace = 0 ∧ timeouts .ICT w.trace = 0 ∧ tpErrors w.trace = 0) :=
  Ex.reach_exists Ex.invite [.outgoing Ex.invite, Ex.x,
    .incoming { Ex.response 486 "UDP" "INVITE" with to := none }, Ex.x] (by decide +kernel)

end Osip
