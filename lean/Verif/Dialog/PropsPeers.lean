import Verif.Dialog.Examples

/-!
# The two ends of a dialog: C114
-/

set_option autoImplicit false

namespace Osip

/-- The headers which a response has in common when the callee sends it and when the caller receives
it: proxies may change the others. -/
structure SameDialogHeaders (a b : Msg) : Prop where
  from_ : a.from_ = b.from_
  to : a.to = b.to
  call_id : a.call_id = b.call_id
  cseq : a.cseq = b.cseq
  record_routes : a.record_routes = b.record_routes
  status_code : a.status_code = b.status_code

/-- A request made inside a dialog (RFC 3261 12.2.1.1): the local tag in From, the remote tag in To
and the Call-ID of the dialog. -/
structure BuiltFrom (d : Dialog) (m : Msg) : Prop where
  from_ : ∃ f v, m.from_ = some f ∧ d.local_tag = some v ∧ HasTag f v
  to : ∃ t v, m.to = some t ∧ d.remote_tag = some v ∧ HasTag t v
  call_id : ∃ c, d.call_id = some c ∧ CallIdText m c

/-- The same identification with the ends exchanged. -/
structure Peers (a b : Dialog) : Prop where
  call_id : a.call_id = b.call_id
  tags : a.local_tag = b.remote_tag
  tags' : a.remote_tag = b.local_tag

theorem opt_ext {a b : Option Str} (h : ∀ v, a = some v ↔ b = some v) : a = b := by
  cases a with
  | none => cases b with
    | none => rfl
    | some w => exact ((h w).2 rfl)
  | some v => exact ((h v).1 rfl).symm

theorem callIdText_unique {m m' : Msg} {a b : Str} (hm : m.call_id = m'.call_id)
    (ha : CallIdText m a) (hb : CallIdText m' b) : a = b := by
  rw [callIdText_iff] at ha hb
  rw [hm, hb] at ha
  simpa using ha.symm

/-- **C114** (the two ends mirror each other). The callee makes its dialog from the INVITE and a
response; the caller makes its own from that response as it arrives. Then the Call-ID is the same,
tags and URIs are exchanged, the route set is in reverse order, the local sequence number of the
caller is the remote one of the callee, and both are early or both are confirmed. -/
theorem c114_mirror {invite sent received : Msg} {ds dc : Dialog}
    (hs : dialog_init_as_uas invite sent = some (.ok ds))
    (hc : dialog_init_as_uac received = some (.ok dc)) (h : SameDialogHeaders received sent) :
    dc.call_id = ds.call_id ∧ dc.local_tag = ds.remote_tag ∧ dc.remote_tag = ds.local_tag ∧
    dc.local_uri = ds.remote_uri ∧ dc.remote_uri = ds.local_uri ∧
    dc.route_set = ds.route_set.reverse ∧ dc.local_cseq = ds.remote_cseq ∧ dc.state = ds.state := by
  obtain ⟨f, t, cs, cid, a1, a2, a3, a4, a5, -, a6, a7, a8, a9, -⟩ := c63_caller hc
  obtain ⟨f', t', cs', cid', b1, b2, b3, b4, b5, -, b6, b7, b8, b9, -⟩ := c63_callee hs
  have ef : f' = f := by
    have := h.from_; rw [a1, b1] at this; simpa using this.symm
  have et : t' = t := by
    have := h.to; rw [a2, b2] at this; simpa using this.symm
  subst ef et
  have ec := callIdText_unique h.call_id a4 b4
  have e1 := c33_caller hc
  have e2 := c33_callee_partial hs
  refine ⟨by rw [a5, b5, ec], opt_ext fun v => (a6 v).trans (b7 v).symm,
    opt_ext fun v => (a7 v).trans (b6 v).symm, by rw [a8, b9], by rw [a9, b8],
    by rw [e1, e2, h.record_routes], ?_, ?_⟩
  · unfold dialog_init_as_uac at hc
    unfold dialog_init_as_uas at hs
    split at hc <;> try (simp at hc; done)
    rename_i d1 hd1
    simp only [Option.some.injEq, Except.ok.injEq] at hc
    split at hs <;> try (simp at hs; done)
    rename_i cs0 hcs0
    split at hs <;> try (simp at hs; done)
    rename_i d2 hd2
    simp only [Option.some.injEq, Except.ok.injEq] at hs
    obtain ⟨l, r, c1, lt, -, -, h3, -, -, -, -, -, -, h10, -⟩ := dialog_init_ok hd1
    subst hc hs
    rw [h.cseq, hcs0] at h3
    cases h3
    exact h10
  · have s1 := (c63_caller hc)
    have s2 := (c63_callee hs)
    obtain ⟨_, _, _, _, _, _, _, _, _, _, _, _, _, _, _, _, _, _, x⟩ := s1
    obtain ⟨_, _, _, _, _, _, _, _, _, _, _, _, _, _, _, _, _, y⟩ := s2
    rw [h.status_code] at x
    have hst : ∀ {m l r rm inv d}, dialog_init inv m l r rm = some (.ok d) → d.state ≠ .CLOSED := by
      intro m l r rm inv d hd
      obtain ⟨_, _, _, _, _, _, _, _, _, _, _, _, _, _, _, _, _, h14⟩ := dialog_init_ok hd
      rw [h14]; split <;> simp
    have n1 : dc.state ≠ .CLOSED := by
      unfold dialog_init_as_uac at hc
      split at hc <;> try (simp at hc; done)
      rename_i d1 hd1
      simp only [Option.some.injEq, Except.ok.injEq] at hc
      subst hc
      have := hst hd1
      exact this
    have n2 : ds.state ≠ .CLOSED := by
      unfold dialog_init_as_uas at hs
      split at hs <;> try (simp at hs; done)
      split at hs <;> try (simp at hs; done)
      rename_i d2 hd2
      simp only [Option.some.injEq, Except.ok.injEq] at hs
      subst hs
      have := hst hd2
      exact this
    have xy := x.trans y.symm
    cases h1 : dc.state <;> cases h2 : ds.state <;> simp_all

example : dialog_init_as_uas DialogEx.invite (DialogEx.answer 200) = some (.ok DialogEx.callee) ∧
    dialog_init_as_uac (DialogEx.answer 200) = some (.ok (DialogEx.caller 200)) ∧
    SameDialogHeaders (DialogEx.answer 200) (DialogEx.answer 200) ∧
    DialogEx.callee.route_set = [DialogEx.rr "p2", DialogEx.rr "p1"] ∧
    (DialogEx.caller 200).local_cseq = 12 :=
  ⟨DialogEx.callee_ok, DialogEx.caller200_ok, ⟨rfl, rfl, rfl, rfl, rfl, rfl⟩, by decide +kernel,
    by decide +kernel⟩

/-! ## Requests inside the dialog -/

theorem ids_apply {d : Dialog} (op : DialogOp) :
    (op.apply d).call_id = d.call_id ∧ (op.apply d).local_tag = d.local_tag := by
  cases op with
  | routeSetUas m =>
    obtain ⟨c, hc⟩ := replaceContact_other d m
    have : (update_route_set_as_uas d m).2 = (replaceContact d m).2 := by
      unfold update_route_set_as_uas; split <;> simp_all
    simp [DialogOp.apply, this, hc]
  | cseqUas m =>
    simp only [DialogOp.apply, update_osip_cseq_as_uas]
    split
    · simp
    · split <;> simp
  | routeSetUac m =>
    obtain ⟨c, rs, st, h, -⟩ := update_route_set_as_uac_cases d m
    simp [DialogOp.apply, h]
  | tagUac m =>
    simp only [DialogOp.apply, update_tag_as_uac]
    split
    · simp
    · split
      · simp
      · split <;> simp
  | setState st => simp [DialogOp.apply, dialog_set_state]

theorem ids_after {d : Dialog} {t : Str} (ops : List DialogOp) (h : d.remote_tag = some t) :
    (d.after ops).call_id = d.call_id ∧ (d.after ops).local_tag = d.local_tag ∧
    (d.after ops).remote_tag = d.remote_tag := by
  refine ⟨?_, ?_, by rw [c34_never_changes ops h, h]⟩
  · clear h
    induction ops generalizing d with
    | nil => rfl
    | cons op ops ih => exact (ih (d := op.apply d)).trans (ids_apply op).1
  · clear h
    induction ops generalizing d with
    | nil => rfl
    | cons op ops ih => exact (ih (d := op.apply d)).trans (ids_apply op).2

theorem peers_request {a b : Dialog} {m : Msg} (hp : Peers a b) (hb : BuiltFrom a m) :
    dialog_match_as_uas (some b) m = some 0 := by
  obtain ⟨⟨f, v, f1, f2, f3⟩, ⟨t, w, t1, t2, t3⟩, c, c1, c2⟩ := hb
  exact (c35_match_partial (hp.call_id ▸ c1) (hp.tags' ▸ t2) (hp.tags ▸ f2) f1 t1 f3).2 ⟨c2, rfl⟩

theorem own_response {a : Dialog} {m : Msg} (hb : BuiltFrom a m) :
    dialog_match_as_uac (some a) m = some 0 := by
  obtain ⟨⟨f, v, f1, f2, f3⟩, ⟨t, w, t1, t2, t3⟩, c, c1, c2⟩ := hb
  exact (c36_match c1 f2 t2 f1 t1 f3 t3).2 ⟨c2, rfl, rfl⟩

/-- **C114** (requests are recognised at the other end). Take the dialogs of both ends as in
`c114_mirror`, with tags in From and To, and any later changes of them. A request made inside the
dialog by either end is recognised by the other end; the response to it, which has the same
Call-ID, From and To, is recognised by the end that made the request. -/
theorem c114_requests {invite sent received : Msg} {ds dc : Dialog} {f t : From} {v w : Str}
    (hs : dialog_init_as_uas invite sent = some (.ok ds))
    (hc : dialog_init_as_uac received = some (.ok dc)) (h : SameDialogHeaders received sent)
    (hf : sent.from_ = some f) (hv : HasTag f v) (ht : sent.to = some t) (hw : HasTag t w)
    (opsC opsS : List DialogOp) {m : Msg} :
    (BuiltFrom (dc.after opsC) m → dialog_match_as_uas (some (ds.after opsS)) m = some 0 ∧
      dialog_match_as_uac (some (dc.after opsC)) m = some 0) ∧
    (BuiltFrom (ds.after opsS) m → dialog_match_as_uas (some (dc.after opsC)) m = some 0 ∧
      dialog_match_as_uac (some (ds.after opsS)) m = some 0) := by
  obtain ⟨m1, m2, m3, -⟩ := c114_mirror hs hc h
  obtain ⟨f', t', cs', cid', b1, b2, b3, b4, b5, -, b6, b7, -⟩ := c63_callee hs
  rw [hf] at b1; rw [ht] at b2
  cases b1; cases b2
  have r1 := (b7 v).2 hv
  have r2 := (b6 w).2 hw
  obtain ⟨i1, i2, i3⟩ := ids_after opsS r1
  obtain ⟨j1, j2, j3⟩ := ids_after opsC (m3.trans r2)
  have p1 : Peers (dc.after opsC) (ds.after opsS) :=
    ⟨by rw [j1, i1, m1], by rw [j2, i3, m2], by rw [j3, i2, m3]⟩
  have p2 : Peers (ds.after opsS) (dc.after opsC) :=
    ⟨p1.call_id.symm, p1.tags'.symm, p1.tags.symm⟩
  exact ⟨fun hb => ⟨peers_request p1 hb, own_response hb⟩, fun hb => ⟨peers_request p2 hb, own_response hb⟩⟩

namespace DialogEx

/-- The answer of another branch of the call. -/
def answer2 : Msg := { answer 200 with to := some (party "b.org" [tag "t2"]) }

def get (r : Option (Except Int Dialog)) : Dialog := match r with | some (.ok d) => d | _ => {}

/-- The dialogs of both ends for the second branch. -/
def caller2 : Dialog := get (dialog_init_as_uac answer2)
def callee2 : Dialog := get (dialog_init_as_uas invite answer2)

end DialogEx

theorem builtFrom_bye : BuiltFrom (DialogEx.caller 200) (DialogEx.bye "t1") :=
  ⟨⟨_, "f1".toList, rfl, by decide +kernel, DialogEx.hasTag_ex _ _⟩,
    ⟨_, "t1".toList, rfl, by decide +kernel, DialogEx.hasTag_ex _ _⟩,
    "77@a.org".toList, by decide +kernel, DialogEx.cid, "77".toList, rfl, rfl,
    Or.inr ⟨"a.org".toList, rfl, rfl⟩⟩

/-- A BYE of the caller, after both ends changed their dialogs. -/
example : dialog_match_as_uas (some (DialogEx.callee.after [.cseqUas (DialogEx.bye "t1")]))
    (DialogEx.bye "t1") = some 0 :=
  ((c114_requests DialogEx.callee_ok DialogEx.caller200_ok ⟨rfl, rfl, rfl, rfl, rfl, rfl⟩ rfl
    (DialogEx.hasTag_ex "a.org" "f1") rfl (DialogEx.hasTag_ex "b.org" "t1") [] _).1 builtFrom_bye).1

/-! ## Other dialogs -/

/-- **C114** (other dialogs; the part that holds). A request made inside one dialog is not
recognised by a dialog with another Call-ID, nor by one whose remote tag is not the local tag of
the sender.
Missing: dialogs that differ in the local tag only (`c114_violated`). -/
theorem c114_other_partial {a d : Dialog} {m : Msg} {lt rt cid : Str} (hb : BuiltFrom a m)
    (h1 : d.call_id = some cid) (h2 : d.local_tag = some lt) (h3 : d.remote_tag = some rt)
    (hne : d.call_id ≠ a.call_id ∨ d.remote_tag ≠ a.local_tag) :
    dialog_match_as_uas (some d) m ≠ some 0 := by
  obtain ⟨⟨f, v, f1, f2, f3⟩, ⟨t, w, t1, t2, t3⟩, c, c1, c2⟩ := hb
  intro hm
  obtain ⟨hc, hv⟩ := (c35_match_partial h1 h2 h3 f1 t1 f3).1 hm
  have := callIdText_unique rfl c2 hc
  subst this hv
  rcases hne with hne | hne
  · exact hne (by rw [h1, c1])
  · exact hne (by rw [h3, f2])

/-- The requests of the two branches of a forked call are told apart by the caller. -/
example : dialog_match_as_uas (some (DialogEx.caller 200))
    { DialogEx.bye "f1" with from_ := some (DialogEx.party "b.org" [DialogEx.tag "t2"]) } ≠ some 0 ∧
    dialog_match_as_uas (some DialogEx.caller2)
    { DialogEx.bye "f1" with from_ := some (DialogEx.party "b.org" [DialogEx.tag "t2"]) } = some 0 := by
  decide +kernel

/-- **C114 is violated** at the callee: an INVITE that arrives twice over different ways is answered
with two To tags and makes two dialogs. A request which the caller makes inside the second is
recognised by the first: the To tag is not compared (src/osip2/osip_dialog.c:271-295). -/
theorem c114_violated :
    dialog_init_as_uas DialogEx.invite (DialogEx.answer 200) = some (.ok DialogEx.callee) ∧
    dialog_init_as_uas DialogEx.invite DialogEx.answer2 = some (.ok DialogEx.callee2) ∧
    dialog_init_as_uac DialogEx.answer2 = some (.ok DialogEx.caller2) ∧
    BuiltFrom DialogEx.caller2 (DialogEx.bye "t2") ∧
    DialogEx.callee.local_tag ≠ DialogEx.callee2.local_tag ∧
    dialog_match_as_uas (some DialogEx.callee) (DialogEx.bye "t2") = some 0 ∧
    dialog_match_as_uas (some DialogEx.callee2) (DialogEx.bye "t2") = some 0 := by
  refine ⟨DialogEx.callee_ok, by decide +kernel, by decide +kernel, ?_, by decide +kernel,
    by decide +kernel, by decide +kernel⟩
  exact ⟨⟨_, "f1".toList, rfl, by decide +kernel, DialogEx.hasTag_ex _ _⟩,
    ⟨_, "t2".toList, rfl, by decide +kernel, DialogEx.hasTag_ex _ _⟩,
    "77@a.org".toList, by decide +kernel, DialogEx.cid, "77".toList, rfl, rfl,
    Or.inr ⟨"a.org".toList, rfl, rfl⟩⟩

end Osip
