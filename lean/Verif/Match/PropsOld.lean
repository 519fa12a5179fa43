import Verif.Match.Examples

/-!
# C67: request matching for peers of RFC 2543
-/

set_option autoImplicit false

namespace Osip

/-! ## Specification -/

/-- `p` is the first parameter named `n`, in any mix of cases. -/
def FirstParam (ps : List Param) (n : String) (p : Param) : Prop :=
  ∃ before after, ps = before ++ p :: after ∧ (∀ q ∈ before, q.gname.map toLowerC ≠ n.toList) ∧
    p.gname.map toLowerC = n.toList

/-- No parameter is named `n`. -/
def NoParam (ps : List Param) (n : String) : Prop := ∀ q ∈ ps, q.gname.map toLowerC ≠ n.toList

/-- Neither header has a tag, or both have the same one. -/
def SameTag (f1 f2 : From) : Prop :=
  (NoParam f1.gen_params "tag" ∧ NoParam f2.gen_params "tag") ∨
  ∃ p1 p2 t, FirstParam f1.gen_params "tag" p1 ∧ FirstParam f2.gen_params "tag" p2 ∧
    p1.gvalue = some t ∧ p2.gvalue = some t

def SameCallId (c1 c2 : CallId) : Prop := c1.number.isSome ∧ c1.number = c2.number ∧ c1.host = c2.host

/-- The same number, and the same method, ACK and INVITE counting as the same. -/
def SameCSeq (c1 c2 : CSeq) : Prop :=
  ∃ n m1 m2, c1 = ⟨some m1, some n⟩ ∧ c2 = ⟨some m2, some n⟩ ∧
    (m1 = m2 ∨ (m1 ∈ ["INVITE".toList, "ACK".toList] ∧ m2 ∈ ["INVITE".toList, "ACK".toList]))

/-- Both Via headers are written with the same text. -/
def SameVia (v1 v2 : Via) : Prop := ∃ t, via_to_str (some v1) = .ok t ∧ via_to_str (some v2) = .ok t

/-- The branches tell that one of the peers does not follow RFC 3261: there is none, or they are not
both magic. (Branches of different length never match.) -/
def OldBranches (v1 v2 : Via) : Prop :=
  (NoParam v1.via_params "branch" ∧ NoParam v2.via_params "branch") ∨
  ∃ b1 b2, IsBranch v1 b1 ∧ IsBranch v2 b2 ∧ b1.length = b2.length ∧ ¬ (Magic b1 ∧ Magic b2)

/-! ## Lemmas -/

theorem firstParam_iff {ps : List Param} {n : String} {p : Param}
    (hn : n.toList.map toLowerC = n.toList) : paramByName ps n = some p ↔ FirstParam ps n p := by
  unfold paramByName FirstParam
  rw [List.find?_eq_some_iff_append]
  constructor
  · rintro ⟨h1, as, bs, h2, h3⟩
    refine ⟨as, bs, h2, fun q hq he => ?_, (byName_iff p n hn).1 h1⟩
    have := h3 q hq
    rw [(byName_iff q n hn).2 he] at this
    cases this
  · rintro ⟨as, bs, h1, h2, h3⟩
    refine ⟨(byName_iff p n hn).2 h3, as, bs, h1, fun q hq => ?_⟩
    cases hb : (q.gname.length == n.toList.length && strcaseEq q.gname n.toList) with
    | false => rfl
    | true => exact absurd ((byName_iff q n hn).1 hb) (h2 q hq)

theorem noParam_iff {ps : List Param} {n : String} (hn : n.toList.map toLowerC = n.toList) :
    paramByName ps n = none ↔ NoParam ps n := by
  unfold paramByName NoParam
  rw [List.find?_eq_none]
  exact ⟨fun h q hq he => h q hq ((byName_iff q n hn).2 he), fun h q hq he => h q hq ((byName_iff q n hn).1 he)⟩

theorem tag_lower : "tag".toList.map toLowerC = "tag".toList := by decide
theorem branch_lower : "branch".toList.map toLowerC = "branch".toList := by decide

theorem from_tag_match_iff (f1 f2 : From) :
    from_tag_match (some f1) (some f2) = 0 ↔ SameTag f1 f2 := by
  unfold SameTag from_tag_match
  simp only [← firstParam_iff tag_lower, ← noParam_iff tag_lower]
  cases paramByName f1.gen_params "tag" <;> cases paramByName f2.gen_params "tag" <;>
    simp [OSIP_SUCCESS, OSIP_UNDEFINED_ERROR]
  rename_i p1 p2
  cases p1.gvalue <;> cases p2.gvalue <;> simp
  constructor
  · intro h; exact h.symm
  · intro h; exact h.symm

theorem call_id_match_iff (c1 c2 : CallId) :
    call_id_match (some c1) (some c2) = 0 ↔ SameCallId c1 c2 := by
  obtain ⟨n1, h1⟩ := c1
  obtain ⟨n2, h2⟩ := c2
  unfold SameCallId call_id_match
  cases n1 <;> cases n2 <;> cases h1 <;> cases h2 <;>
    simp [OSIP_SUCCESS, OSIP_UNDEFINED_ERROR, OSIP_BADPARAMETER]
  grind

theorem cseq_match_iff (c1 c2 : CSeq) : cseq_match (some c1) (some c2) = 0 ↔ SameCSeq c1 c2 := by
  unfold SameCSeq cseq_match
  obtain ⟨m1, n1⟩ := c1
  obtain ⟨m2, n2⟩ := c2
  cases m1 <;> cases n1 <;> cases m2 <;> cases n2 <;>
    simp [OSIP_SUCCESS, OSIP_UNDEFINED_ERROR, OSIP_BADPARAMETER] <;> grind

theorem via_match_iff (v1 v2 : Via) : via_match (some v1) (some v2) = 0 ↔ SameVia v1 v2 := by
  have hne : ∀ {v : Via} {i : Int}, via_to_str (some v) = .error i → i ≠ 0 := by
    intro v i h
    unfold via_to_str at h
    simp only at h
    split at h
    · cases h
    · cases h; decide
  unfold SameVia via_match
  dsimp only
  cases h1 : via_to_str (some v1) with
  | error i => simp [hne h1]
  | ok t1 =>
    cases h2 : via_to_str (some v2) with
    | error i => simp [hne h2]
    | ok t2 => simp [OSIP_SUCCESS, OSIP_UNDEFINED_ERROR]; grind

/-- **C67**. When the branches are not both those of RFC 3261, a request matches a server transaction
exactly if Call-ID, CSeq, From tag and top Via agree, and the To tag agrees with that of the first
copy of the request - for an ACK, with that of the To of the transaction, which may have no tag. -/
theorem c67_request_matching {e : Entry} (hk : e.kind = .IST ∨ e.kind = .NIST) {r : Msg} {v : Via}
    {c : CallId} {s : CSeq} {f t : From} {m2 meth : Str} (hv : r.vias.head? = some v)
    (hc : r.call_id = some c) (hs : r.cseq = some s) (hm : s.method = some m2)
    (hf : r.from_ = some f) (ht : r.to = some t) (hreq : r.status_code = 0)
    (hmeth : r.sip_method = some meth) (hb : OldBranches e.topvia v) :
    matching_request e r = some OSIP_SUCCESS ↔
      SameCallId e.callid c ∧ SameCSeq e.cseq s ∧ SameTag e.from_ f ∧ SameVia e.topvia v ∧
      (if meth = "ACK".toList then
        SameTag e.to t ∨ (NoParam e.to.gen_params "tag" ∧ ¬ NoParam t.gen_params "tag")
       else ∃ (first : Ref) (t₁ : From), e.w.tr.orig_request = some first ∧ first.m.to = some t₁ ∧ SameTag t₁ t) := by
  have hold : matching_request e r = matching_request_2543 e r v := by
    unfold matching_request
    rw [if_neg (by rcases hk with h | h <;> simp [h])]
    cases hvs : r.vias with
    | nil => simp [hvs] at hv
    | cons v' vs =>
      simp only [hvs, List.head?_cons, Option.some.injEq] at hv
      subst hv
      simp only [hs, Option.bind_some, hm]
      rcases hb with ⟨h1, h2⟩ | ⟨b1, b2, h1, h2, h3, h4⟩
      · rw [← noParam_iff branch_lower] at h1 h2
        simp only [h1, h2]
      · rw [isBranch_iff] at h1 h2
        obtain ⟨p1, hp1, hg1⟩ := h1
        obtain ⟨p2, hp2, hg2⟩ := h2
        simp only [hp1, hp2, hg1, hg2, h3, ne_eq, not_true_eq_false, if_false]
        rw [if_neg]
        rw [Bool.and_eq_true, magic_iff, magic_iff]
        exact h4
  rw [hold]
  unfold matching_request_2543
  have hack : r.isMethod "ACK" = some (meth == "ACK".toList) := by
    simp [Msg.isMethod, Msg.isRequest, hreq, hmeth]
  simp only [hack, hc, hs, hf, ht, ← call_id_match_iff, ← cseq_match_iff, ← from_tag_match_iff, ← via_match_iff]
  have hz : (OSIP_SUCCESS : Int) = 0 := rfl
  have hu : (OSIP_UNDEFINED_ERROR : Int) = -1 := rfl
  have hrest : ∀ {P : Prop}, (if from_tag_match (some e.from_) (some f) ≠ 0 then some OSIP_UNDEFINED_ERROR
      else if cseq_match (some e.cseq) (some s) ≠ 0 then some OSIP_UNDEFINED_ERROR
      else if via_match (some e.topvia) (some v) ≠ 0 then some OSIP_UNDEFINED_ERROR
      else some OSIP_SUCCESS) = some OSIP_SUCCESS ↔ (cseq_match (some e.cseq) (some s) = 0 ∧
        from_tag_match (some e.from_) (some f) = 0 ∧ via_match (some e.topvia) (some v) = 0) := by
    intro _
    simp only [hz, hu]
    grind
  by_cases hcm : call_id_match (some e.callid) (some c) = 0
  · simp only [hcm, ne_eq, not_true_eq_false, if_false, true_and, Option.bind_eq_bind, Option.bind_some]
    by_cases ha : meth = "ACK".toList
    · simp only [ha, beq_self_eq_true, if_true]
      have hn : ∀ f : From, NoParam f.gen_params "tag" ↔ paramByName f.gen_params "tag" = none :=
        fun f => (noParam_iff tag_lower).symm
      have hft : from_tag_match (some e.to) (some t) = 0 ↔ SameTag e.to t := from_tag_match_iff _ _
      rw [hn, hn]
      cases h1 : paramByName e.to.gen_params "tag" <;> cases h2 : paramByName t.gen_params "tag"
      all_goals simp only [not_true_eq_false, and_false, false_and, or_false, reduceCtorEq, not_false_eq_true, and_self, or_true, and_true]
      · by_cases h3 : from_tag_match (some e.to) (some t) = 0
        · simp only [h3, not_true_eq_false, if_false, and_true]
          exact hrest (P := True)
        · simp [h3, hu, hz, pure]
      · exact hrest (P := True)
      · have : from_tag_match (some e.to) (some t) ≠ 0 := by
          simp [from_tag_match, h1, h2, OSIP_UNDEFINED_ERROR]
        simp [this, hu, hz, pure]
      · by_cases h3 : from_tag_match (some e.to) (some t) = 0
        · simp only [h3, not_true_eq_false, if_false, and_true]
          exact hrest (P := True)
        · simp [h3, hu, hz, pure]
    · have hbq : (meth == "ACK".toList) = false := by simpa using ha
      simp only [hbq, ha, Bool.false_eq_true, if_false]
      cases ho : e.w.tr.orig_request with
      | none => simp [hu, hz, pure]
      | some first =>
        cases ht1 : first.m.to with
        | none => simp [hu, hz, pure, ht1]
        | some t₁ =>
          simp only [ht1, Option.isNone_some, Bool.false_eq_true, if_false, Option.some.injEq]
          by_cases h3 : from_tag_match (some t₁) (some t) = 0
          · simp only [h3, not_true_eq_false, if_false]
            have hx : (∃ (first_1 : Ref) (t₁_1 : From), first = first_1 ∧ first_1.m.to = some t₁_1 ∧
                from_tag_match (some t₁_1) (some t) = 0) ↔ True := by
              simp only [iff_true]
              exact ⟨first, t₁, rfl, ht1, h3⟩
            rw [hx, and_true]
            exact hrest (P := True)
          · have hx : ¬ (∃ (first_1 : Ref) (t₁_1 : From), first = first_1 ∧ first_1.m.to = some t₁_1 ∧
                from_tag_match (some t₁_1) (some t) = 0) := by
              rintro ⟨a, b, rfl, h4, h5⟩
              rw [ht1] at h4
              cases h4
              exact h3 h5
            simp [h3, hu, hz, pure]
            intro _ _ _ a b e'
            rw [ht1] at b
            cases b
            exact h3 e'
  · simp [hcm, hu, hz, pure]

open Ex in
/-- The ACK of an RFC 2543 INVITE is found, one with another CSeq number or Call-ID host is not. -/
example : ∃ s, StackReach s ∧
    (((osip_find_transaction s ⟨true, oldRequest "ACK", 0⟩).map (·.map (·.transactionid))
        = some (some 1)) ∧
     ((osip_find_transaction s ⟨true, { oldRequest "ACK" with
          cseq := some ⟨some "ACK".toList, some "999".toList⟩ }, 0⟩).map (·.isSome) = some false) ∧
     ((osip_find_transaction s ⟨true, { oldRequest "ACK" with
          call_id := some ⟨(oldRequest "ACK").call_id.bind (·.number), some "elsewhere".toList⟩ },
          0⟩).map (·.isSome) = some false)) :=
  stack_exists [.receive (oldRequest "INVITE") t0 t0, .act 1 (.exec 0 t0 t0)] (by decide +kernel)

open Ex in
example : OldBranches oldVia oldVia := .inl ⟨by simp [NoParam, oldVia], by simp [NoParam, oldVia]⟩

end Osip
