import Verif.Match.Inv

/-!
# C17-C22, C62: transactions of a stack and the messages that belong to them
-/

namespace Osip

/-! ## Specification -/

/-- `b` is the branch of a Via header: the value of its first parameter named "branch", in any
mix of cases. -/
def IsBranch (v : Via) (b : Str) : Prop :=
  ∃ before p after, v.via_params = before ++ p :: after ∧
    (∀ q ∈ before, q.gname.map toLowerC ≠ "branch".toList) ∧
    p.gname.map toLowerC = "branch".toList ∧ p.gvalue = some b

/-- The magic cookie of RFC 3261. -/
def Magic (b : Str) : Prop := ∃ rest, b = 'z' :: '9' :: 'h' :: 'G' :: '4' :: 'b' :: 'K' :: rest

/-- The sent-by part of two Via headers is the same, an absent port meaning 5060. -/
def SameSentBy (v1 v2 : Via) : Prop :=
  (∃ h, v1.host = some h ∧ v2.host = some h) ∧
    v1.port.getD "5060".toList = v2.port.getD "5060".toList

/-- The ids of all transactions of a stack. -/
def Stack.ids (s : Stack) : List Int :=
  (s.icts ++ s.ists ++ s.nicts ++ s.nists).map (·.transactionid)

/-! ## Lemmas -/

theorem strcaseEq_iff (a b : Str) (h : a.length = b.length) :
    strcaseEq a b = true ↔ a.map toLowerC = b.map toLowerC := by
  unfold strcaseEq
  simp

theorem byName_iff (p : Param) (n : String) (hn : n.toList.map toLowerC = n.toList) :
    (p.gname.length == n.toList.length && strcaseEq p.gname n.toList) = true ↔
      p.gname.map toLowerC = n.toList := by
  constructor
  · intro h
    simp only [Bool.and_eq_true, beq_iff_eq] at h
    have := (strcaseEq_iff _ _ h.1).1 h.2
    rwa [hn] at this
  · intro h
    have hl : p.gname.length = n.toList.length := by rw [← h, List.length_map]
    simp only [Bool.and_eq_true, beq_iff_eq]
    exact ⟨hl, (strcaseEq_iff _ _ hl).2 (by rw [h, hn])⟩

theorem isBranch_iff (v : Via) (b : Str) :
    IsBranch v b ↔ ∃ p, paramByName v.via_params "branch" = some p ∧ p.gvalue = some b := by
  have hn : "branch".toList.map toLowerC = "branch".toList := by decide
  unfold IsBranch paramByName
  constructor
  · rintro ⟨a, p, c, h1, h2, h3, h4⟩
    refine ⟨p, ?_, h4⟩
    rw [List.find?_eq_some_iff_append]
    refine ⟨(byName_iff p _ hn).2 h3, a, c, h1, ?_⟩
    intro q hq
    have := h2 q hq
    rw [Bool.not_eq_true', ← Bool.not_eq_true]
    rw [byName_iff q _ hn]
    exact this
  · rintro ⟨p, h1, h2⟩
    rw [List.find?_eq_some_iff_append] at h1
    obtain ⟨h3, a, c, h4, h5⟩ := h1
    refine ⟨a, p, c, h4, ?_, (byName_iff p _ hn).1 h3, h2⟩
    intro q hq
    have := h5 q hq
    rw [Bool.not_eq_true', ← Bool.not_eq_true, byName_iff q _ hn] at this
    exact this

theorem magic_iff (b : Str) : hasMagicCookie b = true ↔ Magic b := by
  unfold hasMagicCookie Magic
  rw [List.isPrefixOf_iff_prefix]
  constructor
  · rintro ⟨t, rfl⟩; exact ⟨t, rfl⟩
  · rintro ⟨t, rfl⟩; exact ⟨t, rfl⟩

theorem findM_some {α : Type} {p : α → Option Bool} {l : List α} {x : α}
    (h : findM p l = some (some x)) :
    ∃ a c, l = a ++ x :: c ∧ p x = some true ∧ ∀ y ∈ a, p y = some false := by
  induction l with
  | nil => cases h
  | cons y ys ih =>
    simp only [findM, Option.bind_eq_bind, Option.bind_eq_some_iff] at h
    obtain ⟨b, h1, h2⟩ := h
    cases b with
    | true =>
      simp only [if_true, Option.pure_def, Option.some.injEq] at h2
      subst h2
      exact ⟨[], ys, rfl, h1, by simp⟩
    | false =>
      simp only [Bool.false_eq_true, if_false] at h2
      obtain ⟨a, c, h3, h4, h5⟩ := ih h2
      refine ⟨y :: a, c, by rw [h3]; rfl, h4, ?_⟩
      intro z hz
      rcases List.mem_cons.1 hz with rfl | hz
      · exact h1
      · exact h5 z hz

theorem findM_none {α : Type} {p : α → Option Bool} {l : List α}
    (h : findM p l = some none) : ∀ y ∈ l, p y = some false := by
  induction l with
  | nil => simp
  | cons y ys ih =>
    simp only [findM, Option.bind_eq_bind, Option.bind_eq_some_iff] at h
    obtain ⟨b, h1, h2⟩ := h
    cases b with
    | true => simp at h2
    | false =>
      simp only [Bool.false_eq_true, if_false] at h2
      intro z hz
      rcases List.mem_cons.1 hz with rfl | hz
      · exact h1
      · exact ih h2 z hz

theorem findM_isSome {α : Type} {p : α → Option Bool} {l : List α}
    (h : ∀ y ∈ l, (p y).isSome = true) : (findM p l).isSome = true := by
  induction l with
  | nil => rfl
  | cons y ys ih =>
    obtain ⟨b, hb⟩ := Option.isSome_iff_exists.1 (h y (by simp))
    simp only [findM, hb, Option.bind_eq_bind, Option.bind_some]
    cases b with
    | true => rfl
    | false => exact ih (fun z hz => h z (by simp [hz]))

/-! ## C18: matching of responses -/

/-- **C18.** A response matches a client transaction exactly when the branch of its top Via is that
of the transaction's top Via and the CSeq methods are the same. -/
theorem c18_response_matching {e : Entry} (hk : e.kind = .ICT ∨ e.kind = .NICT) (r : Msg) :
    matching_response e r = some OSIP_SUCCESS ↔
      ∃ v b m, r.vias.head? = some v ∧ IsBranch v b ∧ IsBranch e.topvia b ∧
        r.cseq.bind (·.method) = some m ∧ e.cseq.method = some m := by
  simp only [isBranch_iff]
  unfold matching_response
  rw [if_neg (by rcases hk with h | h <;> simp [h])]
  constructor
  · intro h
    split at h
    · simp [OSIP_BADPARAMETER, OSIP_SUCCESS] at h
    next method hm =>
    split at h
    · simp [OSIP_SYNTAXERROR, OSIP_SUCCESS] at h
    next v vs hv =>
    split at h
    · simp [OSIP_SYNTAXERROR, OSIP_SUCCESS] at h
    next p hp =>
    split at h
    · simp [OSIP_SYNTAXERROR, OSIP_SUCCESS] at h
    next q hq =>
    split at h
    · next v1 v2 h1 h2 =>
      split at h
      · simp [OSIP_UNDEFINED_ERROR, OSIP_SUCCESS] at h
      · next hvv =>
        simp only [ne_eq, Decidable.not_not] at hvv
        subst hvv
        cases hem : e.cseq.method with
        | none => simp [strcmpEq, hem] at h
        | some m' =>
          simp only [strcmpEq, hem, Option.bind_eq_bind, Option.bind_some, Option.pure_def] at h
          by_cases hmm : method = m'
          · subst hmm
            exact ⟨v, v1, method, by simp [hv], ⟨q, hq, h2⟩, ⟨p, hp, h1⟩, hm, rfl⟩
          · simp [hmm, OSIP_UNDEFINED_ERROR, OSIP_SUCCESS] at h
    · simp [OSIP_SYNTAXERROR, OSIP_SUCCESS] at h
  · rintro ⟨v, b, m, hv, ⟨q, hq, h2⟩, ⟨p, hp, h1⟩, hm, hem⟩
    cases hvs : r.vias with
    | nil => simp [hvs] at hv
    | cons v0 vs =>
      simp only [hvs, List.head?_cons, Option.some.injEq] at hv
      subst hv
      simp only [hm, hp, hq, h1, h2, ne_eq, not_true, if_false, hem, strcmpEq,
        Option.bind_eq_bind, Option.bind_some, decide_true, if_true, Option.pure_def]

/-- **C18, at the level of the stack.** The transaction found for a received response is the first
client transaction, of the kind for its CSeq method, with the response's branch and method. -/
theorem c18_found {s : Stack} (hs : StackReach s) {r : Msg} (hr : r.status_code ≠ 0) {e : Entry}
    (h : osip_find_transaction s { incoming := true, m := r } = some (some e)) :
    ∃ v b m req k before after, r.vias.head? = some v ∧ IsBranch v b ∧ IsBranch e.topvia b ∧
      r.cseq.bind (·.method) = some m ∧ e.cseq.method = some m ∧
      CreatedBy req k e ∧ k = (if m = "INVITE".toList then .ICT else .NICT) ∧
      s.list k = before ++ e :: after ∧
      ∀ x ∈ before, matching_response x r ≠ some OSIP_SUCCESS := by
  have hreq : r.isRequest = false := by simp [Msg.isRequest, hr]
  have hinc : (MsgEv.type { incoming := true, m := r }).isIncomingReq = false := by
    simp only [MsgEv.type, if_true, evt_type_incoming, hreq, Bool.false_eq_true, if_false]
    repeat' split
    all_goals rfl
  have hresp : (MsgEv.type { incoming := true, m := r }).isIncomingResp = true := by
    simp only [MsgEv.type, if_true, evt_type_incoming, hreq, Bool.false_eq_true, if_false]
    repeat' split
    all_goals rfl
  unfold osip_find_transaction at h
  split at h
  · simp at h
  simp only [Option.bind_eq_bind, Option.bind_eq_some_iff] at h
  obtain ⟨k, hk, h⟩ := h
  simp only [searchKind, Option.bind_eq_bind, Option.bind_eq_some_iff, if_true, hreq,
    Bool.false_eq_true, if_false, Option.pure_def, Option.some.injEq, decide_eq_true_eq] at hk
  obtain ⟨m, hm, hk⟩ := hk
  simp only [osip_transaction_find, hinc, hresp, Bool.false_eq_true, if_false, if_true] at h
  obtain ⟨a, c, h1, h2, h3⟩ := findM_some h
  have hmem : e ∈ s.list k := by rw [h1]; simp
  obtain ⟨req, hc⟩ := (stackReach_sinv hs).created k e hmem
  have hkind : e.kind = .ICT ∨ e.kind = .NICT := by
    rw [hc.kind, ← hk]; split <;> simp
  have hmatch : matching_response e r = some OSIP_SUCCESS := by
    simp only [Option.map_eq_some_iff, beq_iff_eq] at h2
    obtain ⟨i, hi, rfl⟩ := h2
    exact hi
  obtain ⟨v, b, m', q1, q2, q3, q4, q5⟩ := (c18_response_matching hkind r).1 hmatch
  have : m' = m := by
    have := q4.symm.trans (Option.bind_eq_some_iff.2 hm)
    simpa using this
  subst this
  refine ⟨v, b, m', req, k, a, c, q1, q2, q3, q4, q5, hc, hk.symm, h1, ?_⟩
  intro x hx hxx
  have := h3 x hx
  rw [hxx] at this
  simp [OSIP_SUCCESS] at this

/-! ## C19: matching of requests with magic-cookie branches -/

/-- **C19.** When both branches start with the magic cookie, a request matches a server transaction
exactly when branch and sent-by agree and the methods agree, or the request is an ACK for a
transaction created by an INVITE. -/
theorem c19_request_matching {e : Entry} (hk : e.kind = .IST ∨ e.kind = .NIST)
    {r : Msg} {v : Via} {b1 b2 m1 m2 : Str} (hv : r.vias.head? = some v)
    (hm : r.cseq.bind (·.method) = some m2) (hem : e.cseq.method = some m1)
    (h1 : IsBranch e.topvia b1) (h2 : IsBranch v b2) (hc1 : Magic b1) (hc2 : Magic b2) :
    matching_request e r = some OSIP_SUCCESS ↔
      b1 = b2 ∧ SameSentBy e.topvia v ∧
        (m1 = m2 ∨ (m2 = "ACK".toList ∧ m1 = "INVITE".toList)) := by
  rw [isBranch_iff] at h1 h2
  rw [← magic_iff] at hc1 hc2
  obtain ⟨p1, hp1, hg1⟩ := h1
  obtain ⟨p2, hp2, hg2⟩ := h2
  unfold matching_request
  rw [if_neg (by rcases hk with h | h <;> simp [h])]
  cases hvs : r.vias with
  | nil => simp [hvs] at hv
  | cons v0 vs =>
    simp only [hvs, List.head?_cons, Option.some.injEq] at hv
    subst hv
    simp only [hm, hp1, hp2, hg1, hg2, hc1, hc2, Bool.and_self, if_true]
    by_cases hbb : b1 = b2
    · subst hbb
      simp only [ne_eq, not_true, if_false, matching_request_3261, hem]
      unfold SameSentBy
      cases hh1 : v0.host <;> cases hh2 : e.topvia.host <;>
        simp only [OSIP_UNDEFINED_ERROR, OSIP_SUCCESS, reduceCtorEq, false_and, and_false,
          exists_false, exists_const, false_iff, true_and, Option.some.injEq]
      all_goals try omega
      next a c =>
      by_cases hac : c = a
      · subst hac
        simp only [not_true, if_false, and_self, exists_eq_left', true_and]
        cases hq1 : v0.port <;> cases hq2 : e.topvia.port <;>
          simp only [Option.getD_none, Option.getD_some, decide_eq_true_eq,
            Bool.false_eq_true, if_false, true_and]
        all_goals grind
      · have : ¬ ∃ h, c = h ∧ a = h := by rintro ⟨h, rfl, rfl⟩; exact hac rfl
        simp [hac, this]
    · simp only [hbb, false_and, iff_false, matching_request_3261, ne_eq, not_false_eq_true, if_true]
      split <;> simp [OSIP_UNDEFINED_ERROR, OSIP_SUCCESS]

end Osip
