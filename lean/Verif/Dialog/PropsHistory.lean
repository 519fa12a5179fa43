import Verif.Dialog.Examples

/-!
# C139: What a dialog knows after any updates
-/

set_option autoImplicit false

namespace Osip

/-! ## Specification -/

/-- The sequence number that an update brings. -/
def DialogOp.number : DialogOp → Option Str
  | cseqUas m => m.cseq.bind (·.number)
  | _ => none

/-- The Contact that an update brings: the first one of the message. -/
def DialogOp.target : DialogOp → Option From
  | routeSetUas m => m.contacts.head?
  | routeSetUac m => m.contacts.head?
  | _ => none

/-- A header whose URI, if there is one, has a host or is of another scheme than `sip:`: what the parser makes. -/
def HasAddress (f : From) : Prop := ∀ u, f.url = some u → u.host ≠ none ∨ u.string ≠ none

/-! ## Lemmas -/

theorem clone_has {f : From} (h : HasAddress f) : fromClone (some f) = some f := by
  obtain ⟨dn, url, ps⟩ := f
  cases url with
  | none => rfl
  | some u =>
    have : ¬ (u.host.isNone && u.string.isNone) = true := by
      rcases h u rfl with h | h <;> simp [h]
    show (match uriClone (some u) with | none => none | some u' => some _) = _
    have hu : uriClone (some u) = some u := if_neg this
    rw [hu]

theorem replace_has {d : Dialog} {m : Msg} (h : ∀ c, m.contacts.head? = some c → HasAddress c) :
    replaceContact d m = (true, { d with remote_contact_uri := m.contacts.head?.or d.remote_contact_uri }) := by
  unfold replaceContact
  cases hm : m.contacts with
  | nil => rfl
  | cons c l =>
    rw [hm] at h
    show (match fromClone (some c) with | none => _ | some c' => _) = _
    rw [clone_has (h c rfl)]
    rfl

/-- What the update of the caller's route set does to the target. -/
theorem uac_target {d : Dialog} {m : Msg} (h : ∀ c, m.contacts.head? = some c → HasAddress c) :
    (update_route_set_as_uac d m).2.remote_contact_uri = m.contacts.head?.or d.remote_contact_uri := by
  unfold update_route_set_as_uac
  rw [replace_has h]
  dsimp only
  repeat' split
  all_goals rfl

theorem step_number (d : Dialog) (op : DialogOp) :
    (op.apply d).remote_cseq = (match op.number with | some s => osip_atoi (some s) | none => d.remote_cseq) := by
  cases op with
  | routeSetUas m =>
    obtain ⟨c, hc⟩ := replaceContact_other d m
    have : (update_route_set_as_uas d m).2 = (replaceContact d m).2 := by
      unfold update_route_set_as_uas; split <;> simp_all
    simp only [DialogOp.apply, this, hc, DialogOp.number]
  | cseqUas m =>
    simp only [DialogOp.apply, update_osip_cseq_as_uas, DialogOp.number]
    cases m.cseq with
    | none => rfl
    | some cs =>
      simp only [Option.bind_some]
      cases cs.number <;> rfl
  | routeSetUac m =>
    obtain ⟨c, rs, st, h1, _⟩ := update_route_set_as_uac_cases d m
    simp only [DialogOp.apply, h1, DialogOp.number]
  | tagUac m =>
    simp only [DialogOp.apply, update_tag_as_uac, DialogOp.number]
    repeat' split
    all_goals rfl
  | setState st => rfl

theorem step_fixed (d : Dialog) (op : DialogOp) :
    (op.apply d).local_cseq = d.local_cseq ∧ (op.apply d).call_id = d.call_id ∧ (op.apply d).local_tag = d.local_tag ∧
      (op.apply d).local_uri = d.local_uri ∧ (op.apply d).remote_uri = d.remote_uri ∧ (op.apply d).type = d.type := by
  cases op with
  | routeSetUas m =>
    obtain ⟨c, hc⟩ := replaceContact_other d m
    have : (update_route_set_as_uas d m).2 = (replaceContact d m).2 := by
      unfold update_route_set_as_uas; split <;> simp_all
    simp only [DialogOp.apply, this, hc, and_self]
  | cseqUas m =>
    simp only [DialogOp.apply, update_osip_cseq_as_uas]
    repeat' split
    all_goals exact ⟨rfl, rfl, rfl, rfl, rfl, rfl⟩
  | routeSetUac m =>
    obtain ⟨c, rs, st, h1, _⟩ := update_route_set_as_uac_cases d m
    simp only [DialogOp.apply, h1, and_self]
  | tagUac m =>
    simp only [DialogOp.apply, update_tag_as_uac]
    repeat' split
    all_goals exact ⟨rfl, rfl, rfl, rfl, rfl, rfl⟩
  | setState st => exact ⟨rfl, rfl, rfl, rfl, rfl, rfl⟩

theorem step_target (d : Dialog) (op : DialogOp) (h : ∀ c, op.target = some c → HasAddress c) :
    (op.apply d).remote_contact_uri = op.target.or d.remote_contact_uri := by
  cases op with
  | routeSetUas m =>
    simp only [DialogOp.apply, update_route_set_as_uas, replace_has (d := d) (m := m) h, DialogOp.target]
  | cseqUas m =>
    simp only [DialogOp.apply, update_osip_cseq_as_uas]
    repeat' split
    all_goals rfl
  | routeSetUac m => exact uac_target h
  | tagUac m =>
    simp only [DialogOp.apply, update_tag_as_uac]
    repeat' split
    all_goals rfl
  | setState st => rfl

theorem last_cons {α : Type} (o : Option α) (l : List α) (x : Option α) :
    ((o.toList ++ l).getLast?.or x) = l.getLast?.or (o.or x) := by
  cases l with
  | nil => cases o <;> rfl
  | cons a l =>
    cases o with
    | none => rfl
    | some b => simp [List.getLast?_cons]

/-! ## Property -/

/-- **C139**, sequence numbers: the remote one is that of the last request whose number was handed to the dialog, the local one does
not change. -/
theorem c139_sequence (d : Dialog) (ops : List DialogOp) :
    (d.after ops).local_cseq = d.local_cseq ∧
    ((∀ op ∈ ops, op.number = none) → (d.after ops).remote_cseq = d.remote_cseq) ∧
    ∀ before op rest n, ops = before ++ op :: rest → n < 2 ^ 31 → op.number = some (Nat.toDigits 10 n) → (∀ o ∈ rest, o.number = none) →
      (d.after ops).remote_cseq = n := by
  have hkeep : ∀ (ops : List DialogOp) (d : Dialog), (∀ op ∈ ops, op.number = none) → (d.after ops).remote_cseq = d.remote_cseq := by
    intro ops
    induction ops with
    | nil => intro d _; rfl
    | cons o l ih =>
      intro d h
      have h1 := step_number d o
      rw [h o (by simp)] at h1
      exact (ih (o.apply d) fun x hx => h x (by simp [hx])).trans h1
  refine ⟨?_, hkeep ops d, ?_⟩
  · induction ops generalizing d with
    | nil => rfl
    | cons o l ih => exact (ih (o.apply d)).trans (step_fixed d o).1
  · rintro before op rest n rfl hn hop hrest
    have : d.after (before ++ op :: rest) = (op.apply (d.after before)).after rest := by
      simp [Dialog.after, List.foldl_append]
    rw [this, hkeep rest _ hrest, step_number, hop]
    exact atoi_toDigits hn

/-- **C139**, remote target: the first Contact of the last message with one, of those handed to the dialog. -/
theorem c139_target (d : Dialog) (ops : List DialogOp) (h : ∀ op ∈ ops, ∀ c, op.target = some c → HasAddress c) :
    (d.after ops).remote_contact_uri = ((ops.filterMap DialogOp.target).getLast?).or d.remote_contact_uri := by
  induction ops generalizing d with
  | nil => rfl
  | cons o l ih =>
    have h1 := ih (o.apply d) fun op hop => h op (by simp [hop])
    have h2 := step_target d o (h o (by simp))
    rw [h2, ← last_cons] at h1
    refine h1.trans ?_
    cases ho : o.target <;> simp [List.filterMap_cons, ho]

/-- **C139**, identity: Call-ID, local tag, both URIs and the side do not change. -/
theorem c139_identity (d : Dialog) (ops : List DialogOp) :
    (d.after ops).call_id = d.call_id ∧ (d.after ops).local_tag = d.local_tag ∧ (d.after ops).local_uri = d.local_uri ∧
      (d.after ops).remote_uri = d.remote_uri ∧ (d.after ops).type = d.type := by
  induction ops generalizing d with
  | nil => exact ⟨rfl, rfl, rfl, rfl, rfl⟩
  | cons o l ih =>
    obtain ⟨-, h1, h2, h3, h4, h5⟩ := step_fixed d o
    obtain ⟨k1, k2, k3, k4, k5⟩ := ih (o.apply d)
    exact ⟨k1.trans h1, k2.trans h2, k3.trans h3, k4.trans h4, k5.trans h5⟩

/-- **C139**, a dialog made from a request that comes first, such as a NOTIFY: the receiver's identifiers are in To, the sender's in
From, the target in Contact, the route set in Record-Route in its order; the local sequence number is the one the program gives, the
remote one that of the request; and the dialog is confirmed. -/
theorem c139_from_request {request : Msg} {n : Int} {d : Dialog} (h : dialog_init_as_uac_with_remote_request request n = some (.ok d)) :
    ∃ f t cs cid, request.from_ = some f ∧ request.to = some t ∧ request.cseq = some cs ∧ CallIdText request cid ∧ d.call_id = some cid ∧
      ¬ NoTag t ∧ (∀ v, d.local_tag = some v ↔ HasTag t v) ∧ (∀ v, d.remote_tag = some v ↔ HasTag f v) ∧
      d.local_uri = some t ∧ d.remote_uri = some f ∧ d.remote_contact_uri = request.contacts.head? ∧ d.route_set = request.record_routes ∧
      d.local_cseq = n ∧ (∀ k, k < 2 ^ 31 → cs.number = some (Nat.toDigits 10 k) → d.remote_cseq = k) ∧
      d.type = .CALLER ∧ d.state = .CONFIRMED := by
  unfold dialog_init_as_uac_with_remote_request at h
  split at h
  · simp at h
  · rename_i cs0 hcs0
    split at h
    · simp at h
    · simp at h
    · rename_i d' hd
      simp only [Option.some.injEq, Except.ok.injEq] at h
      obtain ⟨l, r, cs, lt, h1, h2, h3, h4, h5, h6, h7, h8, h9, h10, h11, h12, h13, h14⟩ := dialog_init_ok hd
      subst h
      obtain ⟨cid, hcid⟩ := Option.isSome_iff_exists.1 h6
      refine ⟨r, l, cs0, cid, h2, h1, hcs0, ?_, hcid, ?_, ?_, ?_, h12, h11, h13, ?_, rfl, ?_, rfl, rfl⟩
      · rw [callIdText_iff, h5, hcid]; rfl
      · rw [noTag_iff, h4]; simp
      · intro v; rw [hasTag_iff, h4]; simp [h7]
      · intro v; rw [hasTag_iff]; simp [h8]
      · simpa using h9
      · intro k hk hc
        simp only [hc, atoi_toDigits hk]

theorem callee_line_of {invite : Option Msg} {response remote_msg : Msg} {loc rem : Option From} {d : Dialog}
    (h : dialog_init invite response loc rem remote_msg = some (.ok d)) : lineParam invite = some d.line_param := by
  unfold dialog_init at h
  split at h
  · dsimp only at h
    split at h
    · cases h
    split at h
    · cases h
    split at h
    · cases h
    next lp hlp =>
    rw [hlp]
    generalize (if invite.isNone = true then addFront [] response.record_routes else addBack [] response.record_routes) = pr at h
    obtain ⟨ok, l⟩ := pr
    cases ok with
    | false => cases h
    | true =>
    dsimp only [Bool.not_true] at h
    rw [if_neg (by decide)] at h
    split at h
    · split at h
      · cases h
      · rename_i d' hr
        have := replaceContact_true hr
        simp only [Option.some.injEq, Except.ok.injEq] at h
        rw [← h, this]
    · cases h
  · cases h

/-- **C139**, the parameter `line`: the callee's dialog has the one of the Request-URI of the INVITE, and keeps it. -/
theorem c139_line {invite response : Msg} {d : Dialog} (h : dialog_init_as_uas invite response = some (.ok d)) (ops : List DialogOp) :
    ∃ u, invite.req_uri = some u ∧ ∀ v, (d.after ops).line_param = some v ↔ ParamValue u.url_params "line".toList v := by
  have hk : ∀ (ops : List DialogOp) (d : Dialog), (d.after ops).line_param = d.line_param := by
    intro ops
    induction ops with
    | nil => intro d; rfl
    | cons o l ih =>
      intro d
      refine (ih (o.apply d)).trans ?_
      cases o with
      | routeSetUas m =>
        obtain ⟨c, hc⟩ := replaceContact_other d m
        have : (update_route_set_as_uas d m).2 = (replaceContact d m).2 := by
          unfold update_route_set_as_uas; split <;> simp_all
        simp only [DialogOp.apply, this, hc]
      | cseqUas m =>
        simp only [DialogOp.apply, update_osip_cseq_as_uas]
        repeat' split
        all_goals rfl
      | routeSetUac m =>
        obtain ⟨c, rs, st, h1, _⟩ := update_route_set_as_uac_cases d m
        simp only [DialogOp.apply, h1]
      | tagUac m =>
        simp only [DialogOp.apply, update_tag_as_uac]
        repeat' split
        all_goals rfl
      | setState st => rfl
  unfold dialog_init_as_uas at h
  split at h
  · simp at h
  · split at h
    · simp at h
    · simp at h
    · rename_i d' hd
      simp only [Option.some.injEq, Except.ok.injEq] at h
      have hl := callee_line_of hd
      have hd' : d.line_param = d'.line_param := by rw [← h]
      unfold lineParam at hl
      cases hu : invite.req_uri with
      | none => simp [hu] at hl
      | some u =>
        refine ⟨u, rfl, fun v => ?_⟩
        rw [hk, hd', paramValue_iff (by decide)]
        simp only [hu] at hl
        cases hp : paramByName u.url_params "line" with
        | none => rw [hp] at hl; simp at hl; simp [← hl]
        | some p => rw [hp] at hl; simp at hl; simp [← hl]

/-- A sequence number may go down: the dialog does not refuse a request out of order (RFC 3261 12.2.2). -/
theorem c139_goes_down : ∃ d ops, d.remote_cseq = 7 ∧ (Dialog.after d ops).remote_cseq = 3 :=
  ⟨{ remote_cseq := 7 }, [.cseqUas { cseq := some { number := some "3".toList, method := some "BYE".toList } }], rfl, by decide +kernel⟩

namespace DialogEx

/-- A re-INVITE brings number and target, a BYE a number only. -/
example :
    let d := callee.after [.cseqUas { cseq := some ⟨some "INVITE".toList, some "5".toList⟩ }, .routeSetUas { contacts := [party "new.org" []] },
      .cseqUas { cseq := some ⟨some "BYE".toList, some "6".toList⟩ }, .routeSetUas { contacts := [] }, .setState .CLOSED]
    d.remote_cseq = 6 ∧ d.remote_contact_uri = some (party "new.org" []) ∧ d.call_id = callee.call_id := by
  decide +kernel

/-- A NOTIFY that comes before the response to the SUBSCRIBE. -/
example : ∃ d, dialog_init_as_uac_with_remote_request
      { bye "t1" with contacts := [party "c.org" []], cseq := some ⟨some "NOTIFY".toList, some "12".toList⟩ } 4 = some (.ok d) ∧
    d.local_cseq = 4 ∧ d.remote_cseq = 12 ∧ d.remote_contact_uri = some (party "c.org" []) ∧ d.state = .CONFIRMED := by
  refine ⟨_, rfl, ?_⟩
  decide +kernel

example : ∃ d, dialog_init_as_uas { invite with req_uri := invite.req_uri.map fun u => { u with url_params := [⟨"Line".toList, some "3".toList⟩] } } (answer 200) =
      some (.ok d) ∧ d.line_param = some "3".toList := by
  refine ⟨_, rfl, ?_⟩
  decide +kernel

example : HasAddress (party "new.org" []) := by
  intro u hu
  left
  cases hu
  decide

end DialogEx

end Osip
