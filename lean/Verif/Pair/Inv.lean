import Verif.Pair.Lemmas
import Verif.Fsm.PropsAck

/-!
# The invariant of the two sides (helper lemmas)
-/

set_option autoImplicit false

namespace Osip

/-! ## What the clients send -/

theorem nict_sends_exec {env t ev t' e r} (tr : List Eff) (hp : ∀ s ∈ sends tr, t.orig_request = some s)
    (hq : ∀ s, t.orig_request = some s → s.m.isRequest = true ∧ s.m.sip_method ≠ some "INVITE".toList ∧ s.m.sip_method ≠ some "ACK".toList)
    (hi : NictInv t) (hk : t.ctx_type = .NICT) (hev : EvOk ev)
    (he : osip_transaction_execute env t ev = some (t', e, r)) :
    (∀ s ∈ sends (tr ++ e), t'.orig_request = some s) ∧
    ∀ s, t'.orig_request = some s → s.m.isRequest = true ∧ s.m.sip_method ≠ some "INVITE".toList ∧ s.m.sip_method ≠ some "ACK".toList := by
  have hor := fun h => evOk_snd_request hev h
  obtain ⟨h1, h2, h3, h4, h5⟩ := hi
  fsm_exec he hk hs ht
  all_goals constructor
  all_goals try simp only [sends_append, sends_cons_send, sends_cons_cb, sends_cons_tpErr,
    sends_cons_kill, sends_nil, sends_freeOpt, sends_dropMsg, List.nil_append, List.append_nil]
  all_goals grind

theorem reach_nictSends {w : World} (h : Reach .NICT w) : ∀ s ∈ sends w.trace, w.tr.orig_request = some s ∧ s.m.isRequest = true ∧
    s.m.sip_method ≠ some "INVITE".toList ∧ s.m.sip_method ≠ some "ACK".toList := by
  have := reach_inv (k := .NICT) (P := fun t tr => NictInv t ∧ (∀ s ∈ sends tr, t.orig_request = some s) ∧
    ∀ s, t.orig_request = some s → s.m.isRequest = true ∧ s.m.sip_method ≠ some "INVITE".toList ∧ s.m.sip_method ≠ some "ACK".toList) ?_ ?_ ?_ h
  · exact fun s hs => ⟨this.2.1 s hs, this.2.2 s (this.2.1 s hs)⟩
  · intro n1 n2 req t hi
    obtain ⟨_, h1, h2, _, h4⟩ := init_shape hi
    exact ⟨nictInv_init hi, by simp, by simp [h1]⟩
  · rintro t tr id ⟨h1, h2, h3⟩
    exact ⟨h1, by simpa using h2, h3⟩
  · rintro env t tr ev t' e r ⟨h1, h2, h3⟩ hk hev he
    exact ⟨nictInv_exec h1 hk hev he, nict_sends_exec tr h2 h3 h1 hk hev he⟩

/-- The ICT sends its INVITE or its ACK. -/
theorem reach_ictSends {w : World} (h : Reach .ICT w) : ∀ s ∈ sends w.trace, s.m.isRequest = true ∧
    ((w.tr.orig_request = some s ∧ s.m.sip_method = some "INVITE".toList) ∨ (w.tr.ack = some s ∧ s.m.sip_method = some "ACK".toList)) := by
  intro s hs
  have hi := reach_ictInv h
  have hreq := reach_inv (k := .ICT) (P := fun t _ => IctInv t ∧ ∀ a, t.ack = some a → a.m.isRequest = true) ?_ ?_ ?_ h
  · rcases (reach_ictTrace h).2.2 s hs with ho | ho
    · by_cases hp : w.tr.state = .ICT_PRE_CALLING
      · rw [(hi.pre hp).1] at ho; simp at ho
      · obtain ⟨r, h1, h2, h3, h4⟩ := hi.orig hp
        rw [h1] at ho
        simp at ho
        subst ho
        exact ⟨h2, .inl ⟨h1, h3⟩⟩
    · exact ⟨hreq.2 s ho, .inr ⟨ho, hi.isack s ho⟩⟩
  · intro n1 n2 req t hi
    obtain ⟨_, h1, h2, h3, h4⟩ := init_shape hi
    exact ⟨ictInv_init hi, by simp [h3]⟩
  · exact fun _ _ _ h => h
  · rintro env t tr ev t' e r ⟨h1, h2⟩ hk hev he
    refine ⟨ictInv_exec h1 hk hev he, ?_⟩
    have hca := @create_ack_method
    clear hi h1 h hs
    fsm_exec he hk hs ht
    all_goals grind

/-- The program was told a 3xx-6xx response or a transport error. -/
def Told (tr : List Eff) : Bool := tr.any (fun e => e.isCbIn final3456 || e.isTpErr)

/-- When an ACK was sent, the program was told a 3xx-6xx response or a transport error. -/
theorem reach_ackTold {w : World} (h : Reach .ICT w) : ∀ a ∈ sends w.trace, a.m.sip_method = some "ACK".toList →
    Told w.trace = true := by
  have := reach_inv (k := .ICT) (P := fun t tr => IctInv t ∧ (t.ack.isSome = true → Told tr = true) ∧
    ∀ a ∈ sends tr, a.m.sip_method = some "ACK".toList → Told tr = true) ?_ ?_ ?_ h
  · exact this.2.2
  · intro n1 n2 req t hi
    obtain ⟨_, h1, h2, h3, h4⟩ := init_shape hi
    exact ⟨ictInv_init hi, by simp [h3]⟩
  · rintro t tr id ⟨h1, h2, h3⟩
    refine ⟨h1, ?_, ?_⟩
    · intro h; simp [Told] at h2 ⊢; exact .inl (h2 h)
    · intro a ha hm; simp [Told] at h3 ha ⊢; exact .inl (h3 a ha hm)
  · rintro env t tr ev t' e r ⟨h1, h2, h3⟩ hk hev he
    refine ⟨ictInv_exec h1 hk hev he, ?_⟩
    have hca := @create_ack_method
    have hor := fun h => evOk_snd_invite hev h
    have hm := ict3456Cb_mem
    have ht0 : ∀ a b, Told (a ++ b) = (Told a || Told b) := by simp [Told]
    have ht1 : ∀ a b, Told (a :: b) = ((a.isCbIn final3456 || a.isTpErr) || Told b) := by simp [Told]
    have ht2 : Told [] = false := rfl
    have ht3 : ∀ k i, Eff.isTpErr (.tpErr k i) = true := fun _ _ => rfl
    have ht4 : ∀ m r, Eff.isCbIn final3456 (.cb (ict3456Cb m) r) = true := by
      intro m r; simp [Eff.isCbIn, hm]
    obtain ⟨i1, i2, i3, i4, i5, i6, i7⟩ := h1
    fsm_exec he hk hs ht
    all_goals try simp only [sends_append, sends_cons_send, sends_cons_cb, sends_cons_tpErr, sends_cons_new, sends_cons_free,
      sends_cons_kill, sends_nil, sends_freeOpt, sends_dropMsg, List.nil_append, List.append_nil]
    all_goals try simp only [ht0, ht1, ht2, ht3, ht4, Bool.true_or, Bool.or_true, implies_true, and_self]
    all_goals grind

/-! ## The two sides -/

/-- Every message that arrived is one of `A`. -/
def RcvFrom (A : List Msg) (w : World) : Prop :=
  ∀ r : Ref, (⟨evt_type_incoming r.m, some r⟩ ∈ w.queue ∨ Arrived w.log r) → r.m ∈ A

theorem in_ne_out (m m' : Msg) : evt_type_incoming m ≠ evt_type_outgoing m' := by
  unfold evt_type_incoming evt_type_outgoing
  repeat' split
  all_goals simp

theorem rcvFrom_init (A : List Msg) (t : Tr) : RcvFrom A (World.init t) := by
  rintro r (h | ⟨d, h, -⟩) <;> simp [World.init] at h

theorem RcvFrom.mono {A B : List Msg} {w : World} (h : RcvFrom A w) (hs : ∀ m ∈ A, m ∈ B) : RcvFrom B w :=
  fun r hr => hs _ (h r hr)

theorem rcvFrom_step {A : List Msg} {w w' : World} {o : Op} (h : RcvFrom A w) (hs : w.step o = some w')
    (ho : ∀ m, o = .incoming m → m ∈ A) : RcvFrom A w' := by
  cases o with
  | incoming m =>
    simp only [World.step] at hs
    split at hs <;> simp at hs <;> subst hs
    · rintro r (hr | hr)
      · simp only [List.mem_append, List.mem_singleton] at hr
        rcases hr with hr | hr
        · exact h r (.inl hr)
        · simp at hr
          rw [hr.2]; exact ho m rfl
      · exact h r (.inr hr)
    · exact h
  | outgoing m =>
    simp only [World.step] at hs
    split at hs <;> simp at hs <;> subst hs
    · rintro r (hr | hr)
      · simp only [List.mem_append, List.mem_singleton] at hr
        rcases hr with hr | hr
        · exact h r (.inl hr)
        · simp at hr
          exact absurd hr.1 (in_ne_out _ _)
      · exact h r (.inr hr)
    · exact h
  | exec send n1 n2 =>
    rcases step_cases hs with ⟨q, rfl, hq⟩ | ⟨ev, m, _, _, ho, _⟩ | ⟨_, _, _, ev, q, t, e, r, _, hq, he, rfl⟩
    · rintro r (hr | hr)
      · rcases List.mem_append.1 hr with hr | hr
        · exact h r (.inl hr)
        · have := (hq _ hr).2
          simp at this
      · exact h r (.inr hr)
    · simp at ho
    · rintro r (hr | ⟨d, hd, hr⟩)
      · exact h r (.inl (by rw [hq]; exact List.mem_cons_of_mem _ hr))
      · rcases List.mem_append.1 hd with hd | hd
        · exact h r (.inr ⟨d, hd, hr⟩)
        · simp at hd
          subst hd
          exact h r (.inl (by rw [hq, ← hr]; simp))
  | tick _ | timer _ | kill =>
    rcases step_cases hs with ⟨q, rfl, hq⟩ | ⟨ev, m, _, _, ho, _⟩ | ⟨_, _, _, ev, q, t, e, r, ho, hq, he, rfl⟩
    · rintro r (hr | hr)
      · rcases List.mem_append.1 hr with hr | hr
        · exact h r (.inl hr)
        · have := (hq _ hr).2
          simp at this
      · exact h r (.inr hr)
    · simp at ho
    · simp at ho

theorem step_trace {w w' : World} {o : Op} (hs : w.step o = some w') : ∃ e, w'.trace = w.trace ++ e := by
  rcases step_cases hs with ⟨q, rfl, hq⟩ | ⟨ev, m, _, _, ho, rfl⟩ | ⟨_, _, _, ev, q, t, e, r, ho, hq, he, rfl⟩
  · exact ⟨[], by simp⟩
  · exact ⟨_, rfl⟩
  · exact ⟨_, rfl⟩

/-- The contents of everything sent so far. -/
def sentBy (w : World) : List Msg := (sends w.trace).map (·.m)

theorem sentBy_step {w w' : World} {o : Op} (hs : w.step o = some w') : ∀ m ∈ sentBy w, m ∈ sentBy w' := by
  obtain ⟨e, he⟩ := step_trace hs
  intro m hm
  simp only [sentBy, he, sends_append, List.map_append, List.mem_append]
  exact .inl hm

/-- The server transaction that belongs to a client transaction. -/
def serverOf : Kind → Kind
  | .ICT => .IST
  | _ => .NIST

def serverSent (p : Pair) : List Msg := (p.server.map sentBy).getD []

structure PInv (k : Kind) (p : Pair) : Prop where
  client : Reach k p.client
  fromServer : RcvFrom (serverSent p) p.client
  server : ∀ w, p.server = some w → Reach (serverOf k) w ∧ RcvFrom (sentBy p.client) w

theorem pinv_step {k : Kind} (hk : k = .ICT ∨ k = .NICT) {p p' : Pair} {a : PairAct} (h : PInv k p) (hs : p.step a = some p') : PInv k p' := by
  obtain ⟨h1, h2, h3⟩ := h
  have hcl : ∀ w, ∀ o, p.client.step o = some w → (∀ m, o = .incoming m → m ∈ serverSent p) → PInv k { p with client := w } := by
    intro w o hw ho
    refine ⟨h1.step trivial hw, rcvFrom_step h2 hw ho, ?_⟩
    intro v hv
    exact ⟨(h3 v hv).1, (h3 v hv).2.mono (sentBy_step hw)⟩
  have hsv : ∀ v w, ∀ o, Reach (serverOf k) v → RcvFrom (sentBy p.client) v → (p.server = some v ∨ p.server = none) → v.step o = some w →
      (∀ m, o = .incoming m → m ∈ sentBy p.client) → PInv k { p with server := some w } := by
    intro v w o hr hf hv hw ho
    refine ⟨h1, h2.mono ?_, ?_⟩
    · rcases hv with hv | hv
      · simpa [serverSent, hv] using sentBy_step hw
      · simp [serverSent, hv]
    · intro x hx
      simp only [Option.some.injEq] at hx
      subst hx
      exact ⟨hr.step trivial hw, rcvFrom_step hf hw ho⟩
  cases a with
  | client o =>
    simp only [Pair.step] at hs
    split at hs
    · next hl =>
      simp only [Option.map_eq_some_iff] at hs
      obtain ⟨w, hw, rfl⟩ := hs
      exact hcl w o hw (by rintro m rfl; simp [Op.isLocal] at hl)
    · simp at hs; subst hs; exact ⟨h1, h2, h3⟩
  | server o =>
    simp only [Pair.step] at hs
    split at hs
    · simp at hs; subst hs; exact ⟨h1, h2, h3⟩
    · next v hv =>
      split at hs
      · next hl =>
        simp only [Option.map_eq_some_iff] at hs
        obtain ⟨w, hw, rfl⟩ := hs
        exact hsv v w o (h3 v hv).1 (h3 v hv).2 (.inl hv) hw (by rintro m rfl; simp [Op.isLocal] at hl)
      · simp at hs; subst hs; exact ⟨h1, h2, h3⟩
  | toClient n =>
    simp only [Pair.step] at hs
    split at hs
    · simp at hs; subst hs; exact ⟨h1, h2, h3⟩
    · next r hr =>
      simp only [Option.map_eq_some_iff] at hs
      obtain ⟨w, hw, rfl⟩ := hs
      refine hcl w _ hw ?_
      rintro m hm
      simp only [Op.incoming.injEq] at hm
      subst hm
      simp only [Option.bind_eq_some_iff] at hr
      obtain ⟨v, hv, hr⟩ := hr
      simp only [serverSent, hv, Option.map_some, Option.getD_some, sentBy, List.mem_map]
      exact ⟨r, List.mem_of_getElem? hr, rfl⟩
  | toServer n n1 n2 =>
    simp only [Pair.step] at hs
    split at hs
    · simp at hs; subst hs; exact ⟨h1, h2, h3⟩
    · next r hr =>
      have hm : r ∈ sends p.client.trace := List.mem_of_getElem? hr
      have hin : ∀ m, Op.incoming r.m = .incoming m → m ∈ sentBy p.client := by
        intro m hm'
        simp only [Op.incoming.injEq] at hm'
        subst hm'
        exact List.mem_map.2 ⟨r, hm, rfl⟩
      split at hs
      · next v hv =>
        simp only [Option.map_eq_some_iff] at hs
        obtain ⟨w, hw, rfl⟩ := hs
        exact hsv v w _ (h3 v hv).1 (h3 v hv).2 (.inl hv) hw hin
      · next hv =>
        split at hs
        · simp at hs
        · simp at hs; subst hs; exact ⟨h1, h2, h3⟩
        · next v hn =>
          simp only [Option.map_eq_some_iff] at hs
          obtain ⟨w, hw, rfl⟩ := hs
          unfold newServer at hn
          split at hn
          · simp at hn
          · next hack =>
            split at hn
            · simp at hn
            · simp at hn
            · next t ht =>
              simp only [Option.some.injEq] at hn
              subst hn
              refine hsv _ w _ ?_ (rcvFrom_init _ _) (.inr hv) hw hin
              refine ⟨n1, n2, r.m, t, [], ?_, rfl, by simp⟩
              rw [← ht]
              congr 1
              rcases hk with rfl | rfl
              · rcases (reach_ictSends h1 r hm).2 with ⟨-, h⟩ | ⟨-, h⟩
                · simp [h, serverOf]
                · simp [h] at hack
              · have := (reach_nictSends h1 r hm).2.2.1
                rw [if_neg this]; rfl

theorem pinv_reach {k : Kind} (hk : k = .ICT ∨ k = .NICT) {p : Pair} (h : PReach k p) : PInv k p := by
  obtain ⟨n1, n2, req, t, acts, hi, hr⟩ := h
  have h0 : PInv k ⟨World.init t, none⟩ :=
    ⟨⟨n1, n2, req, t, [], hi, rfl, by simp⟩, rcvFrom_init _ _, by simp⟩
  revert h0 hr
  generalize (⟨World.init t, none⟩ : Pair) = q
  induction acts generalizing q with
  | nil => intro hr h0; simp [Pair.run] at hr; exact hr ▸ h0
  | cons a as ih =>
    intro hr h0
    simp only [Pair.run, Option.bind_eq_some_iff] at hr
    obtain ⟨q', h1, h2⟩ := hr
    exact ih q' h2 (pinv_step hk h0 h1)

/-- A response that arrived at the client was sent by the server. -/
theorem pinv_response {k : Kind} {p : Pair} (h : PInv k p) {r : Ref} (hr : Arrived p.client.log r) :
    ∃ w, p.server = some w ∧ ∃ s ∈ sends w.trace, s.m = r.m := by
  have := h.fromServer r (.inr hr)
  unfold serverSent at this
  cases hv : p.server with
  | none => simp [hv] at this
  | some w =>
    simp only [hv, Option.map_some, Option.getD_some, sentBy, List.mem_map] at this
    obtain ⟨s, h1, h2⟩ := this
    exact ⟨w, rfl, s, h1, h2⟩

theorem pinv_request {k : Kind} {p : Pair} (h : PInv k p) {w : World} (hw : p.server = some w) {r : Ref} (hr : Arrived w.log r) :
    ∃ s ∈ sends p.client.trace, s.m = r.m := by
  have := (h.server w hw).2 r (.inr hr)
  simpa only [sentBy, List.mem_map] using this

/-- All the final responses of a list in which nothing but `r` follows a final `r` are equal. -/
theorem finals_equal {l : List Ref} (h : ∀ pre r post, l = pre ++ r :: post → r.m.isStatus 1 = false → ∀ s ∈ post, s = r)
    {r s : Ref} (hr : r ∈ l) (hs : s ∈ l) (h1 : r.m.isStatus 1 = false) (h2 : s.m.isStatus 1 = false) : s = r := by
  obtain ⟨pre, post, rfl⟩ := List.append_of_mem hr
  simp only [List.mem_append, List.mem_cons] at hs
  rcases hs with hs | hs | hs
  · obtain ⟨a, b, rfl⟩ := List.append_of_mem hs
    exact (h a s (b ++ r :: post) (by simp) h2 r (by simp)).symm
  · exact hs
  · exact h pre r post rfl h1 s hs

end Osip
