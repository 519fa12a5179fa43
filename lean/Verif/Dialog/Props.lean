import Verif.Dialog.Model
import Verif.ParamSpec

/-!
# Properties of dialogs: C33–C36, C63
-/

set_option autoImplicit false

namespace Osip

/-! ## Specification -/

/-- The header carries this tag. -/
def HasTag (f : From) (v : Str) : Prop := ParamValue f.gen_params "tag".toList v

/-- The header has no tag parameter. -/
def NoTag (f : From) : Prop := NoneNamed f.gen_params "tag".toList

/-- The text of the Call-ID header of the message: the part before `@`, and `@` with the host when
there is one. -/
def CallIdText (m : Msg) (s : Str) : Prop :=
  ∃ c n, m.call_id = some c ∧ c.number = some n ∧
    ((c.host = none ∧ s = n) ∨ ∃ h, c.host = some h ∧ s = n ++ "@".toList ++ h)

/-- A call to one of the functions which change an existing dialog. -/
inductive DialogOp
  | routeSetUas (invite : Msg)
  | cseqUas (invite : Msg)
  | routeSetUac (response : Msg)
  | tagUac (response : Msg)
  | setState (st : DialogState)

/-- The dialog after the call. -/
def DialogOp.apply (d : Dialog) : DialogOp → Dialog
  | routeSetUas m => (update_route_set_as_uas d m).2
  | cseqUas m => (update_osip_cseq_as_uas d m).2
  | routeSetUac m => (update_route_set_as_uac d m).2
  | tagUac m => (update_tag_as_uac d m).2
  | setState st => dialog_set_state d st

/-- The dialog after a history of calls. -/
def Dialog.after (d : Dialog) (ops : List DialogOp) : Dialog := ops.foldl DialogOp.apply d

/-! ## Lemmas -/

theorem lower_tag : "tag".toList.map toLowerC = "tag".toList := by decide

theorem hasTag_iff {f : From} {v : Str} :
    HasTag f v ↔ (paramByName f.gen_params "tag").bind (·.gvalue) = some v := paramValue_iff lower_tag

theorem noTag_iff {f : From} : NoTag f ↔ paramByName f.gen_params "tag" = none :=
  (paramByName_none lower_tag).symm

theorem callIdText_iff {m : Msg} {s : Str} : CallIdText m s ↔ call_id_to_str m.call_id = .ok s := by
  unfold CallIdText call_id_to_str
  cases m.call_id with
  | none => simp
  | some c => cases hn : c.number with
    | none => simp [hn]
    | some n => cases hh : c.host with
      | none => simp [hn, hh]; exact eq_comm
      | some h => simp [hn, hh]; exact eq_comm

theorem call_id_to_str_error {c : Option CallId} (h : call_id_to_str c = .error 0) : False := by
  revert h
  unfold call_id_to_str
  split
  · simp [OSIP_BADPARAMETER]
  · split
    · simp [OSIP_BADPARAMETER]
    · split <;> simp

theorem dlgFromClone_some {f g : From} (h : fromClone (some f) = some g) : g = f := by
  unfold fromClone uriClone at h
  cases hu : f.url with
  | none => simp [hu] at h; exact h.symm
  | some u =>
    simp only [hu] at h
    split at h
    · simp at h
    · rename_i u' hu'
      split at hu'
      · simp at hu'
      · simp only [Option.some.injEq] at hu' h
        subst hu'; rw [← h, ← hu]

theorem addFront_spec {rs set l : List From} (h : addFront set rs = (true, l)) :
    l = rs.reverse ++ set := by
  induction rs generalizing set with
  | nil => simp [addFront] at h; simp [h]
  | cons r rs ih =>
    simp only [addFront] at h
    split at h
    · simp at h
    · rename_i r' hr
      rw [dlgFromClone_some hr] at h
      rw [ih h]; simp

theorem addBack_spec {rs set l : List From} (h : addBack set rs = (true, l)) :
    l = set ++ rs := by
  induction rs generalizing set with
  | nil => simp [addBack] at h; simp [h]
  | cons r rs ih =>
    simp only [addBack] at h
    split at h
    · simp at h
    · rename_i r' hr
      rw [dlgFromClone_some hr] at h
      rw [ih h]; simp

theorem replaceContact_other (d : Dialog) (m : Msg) :
    ∃ c, (replaceContact d m).2 = { d with remote_contact_uri := c } := by
  unfold replaceContact
  split
  · exact ⟨d.remote_contact_uri, rfl⟩
  · split <;> exact ⟨_, rfl⟩

theorem replaceContact_true {d d' : Dialog} {m : Msg} (h : replaceContact d m = (true, d')) :
    d' = { d with remote_contact_uri := m.contacts.head?.or d.remote_contact_uri } := by
  unfold replaceContact at h
  split at h
  · rename_i hc; simp at h; simp [hc, h]
  · rename_i c cs hc
    split at h
    · simp at h
    · rename_i c' hc'
      rw [dlgFromClone_some hc'] at h
      simp at h; simp [hc, h]

/-- What `__osip_dialog_init` builds when it succeeds. -/
theorem dialog_init_ok {invite : Option Msg} {response remote_msg : Msg} {loc rem : Option From}
    {d : Dialog} (h : dialog_init invite response loc rem remote_msg = some (.ok d)) :
    ∃ l r cs lt, loc = some l ∧ rem = some r ∧ response.cseq = some cs ∧
      paramByName l.gen_params "tag" = some lt ∧
      call_id_to_str response.call_id = .ok (d.call_id.getD []) ∧ d.call_id.isSome = true ∧
      d.local_tag = lt.gvalue ∧ d.remote_tag = (paramByName r.gen_params "tag").bind (·.gvalue) ∧
      d.route_set = (if invite.isNone then response.record_routes.reverse else response.record_routes) ∧
      d.local_cseq = osip_atoi cs.number ∧ d.remote_uri = some r ∧ d.local_uri = some l ∧
      d.remote_contact_uri = remote_msg.contacts.head? ∧
      d.state = (if response.isStatus 2 then .CONFIRMED else .EARLY) := by
  unfold dialog_init at h
  split at h
  · rename_i cs l r hcs
    dsimp only at h
    split at h
    · simp at h
    · rename_i cid hcid
      split at h
      · simp at h
      · rename_i lt hlt
        split at h
        · simp at h
        · rename_i lp hlp
          cases hadd : (if invite.isNone = true then addFront [] response.record_routes
            else addBack [] response.record_routes) with
          | mk ok rs =>
          simp only [hadd] at h
          cases ok with
          | false => simp at h
          | true =>
            have hrs : rs = if invite.isNone then response.record_routes.reverse
                else response.record_routes := by
              split at hadd
              · rw [addFront_spec hadd]; simp [*]
              · rw [addBack_spec hadd]; simp [*]
            simp only [Bool.not_true, Bool.false_eq_true, if_false] at h
            split at h
            · rename_i r' l' hr hl
              rw [dlgFromClone_some hr, dlgFromClone_some hl] at h
              split at h
              · simp at h
              · rename_i d' hd
                have hd' := replaceContact_true hd
                simp only [Option.some.injEq, Except.ok.injEq] at h
                subst h
                subst hd'
                refine ⟨l, r, cs, lt, rfl, rfl, hcs, hlt, ?_⟩
                simp [hcid, hrs]
            · simp at h
  · simp at h

theorem update_route_set_as_uac_cases (d : Dialog) (m : Msg) :
    ∃ c rs st, (update_route_set_as_uac d m).2 =
        { d with remote_contact_uri := c, route_set := rs, state := st } ∧
      (d.state ≠ .EARLY → rs = d.route_set) ∧ (st = d.state ∨ st = .CONFIRMED) ∧
      ((update_route_set_as_uac d m).1 = 0 →
        (c = m.contacts.head?.or d.remote_contact_uri) ∧
        (d.state = .EARLY → rs = m.record_routes.reverse) ∧
        (m.isStatus 2 = true → st = .CONFIRMED) ∧ (m.isStatus 2 = false → st = d.state)) := by
  unfold update_route_set_as_uac
  cases hc : replaceContact d m with
  | mk ok d' =>
  obtain ⟨c, hc'⟩ := replaceContact_other d m
  cases ok with
  | false =>
    rw [hc] at hc'
    dsimp only at hc'
    subst hc'
    exact ⟨c, d.route_set, d.state, rfl, fun _ => rfl, Or.inl rfl, by simp [OSIP_BADPARAMETER]⟩
  | true =>
    have hd' := replaceContact_true hc
    subst hd'
    by_cases hs : d.state = .EARLY
    · cases ha : addFront [] m.record_routes with
      | mk ok2 l =>
      have he : addFront d.route_set m.record_routes = addFront [] m.record_routes ∨
          0 < d.route_set.length := by
        cases d.route_set with
        | nil => exact Or.inl rfl
        | cons _ _ => right; simp
      cases ok2 with
      | false =>
        refine ⟨m.contacts.head?.or d.remote_contact_uri, l, d.state, ?_, by simp [hs], Or.inl rfl, ?_⟩
        · by_cases hl : 0 < d.route_set.length
          · simp [hs, hl, ha]
          · have hn : d.route_set = [] := by simpa using hl
            simp [hs, hn, ha]
        · by_cases hl : 0 < d.route_set.length
          · simp [hs, hl, ha, OSIP_BADPARAMETER]
          · have hn : d.route_set = [] := by simpa using hl
            simp [hs, hn, ha, OSIP_BADPARAMETER]
      | true =>
        have hl' := addFront_spec ha
        refine ⟨m.contacts.head?.or d.remote_contact_uri, l,
          if m.isStatus 2 then .CONFIRMED else d.state, ?_, by simp [hs], ?_, ?_⟩
        · by_cases hl : 0 < d.route_set.length
          · simp [hs, hl, ha]; split <;> simp_all
          · have hn : d.route_set = [] := by simpa using hl
            simp [hs, hn, ha]; split <;> simp_all
        · split <;> simp
        · intro _
          simp [hl']
          constructor <;> (intro h h2; simp [h] at h2)
    · refine ⟨m.contacts.head?.or d.remote_contact_uri, d.route_set,
          if m.isStatus 2 then .CONFIRMED else d.state, ?_, by simp, ?_, ?_⟩
      · simp [hs]; split <;> simp_all
      · split <;> simp
      · intro _
        simp [hs]
        constructor <;> (intro h h2; simp [h] at h2)

/-! ## C33 -/

/-- The caller's route set is the Record-Route list of the response reversed. -/
theorem c33_caller {response : Msg} {d : Dialog}
    (h : dialog_init_as_uac response = some (.ok d)) :
    d.route_set = response.record_routes.reverse := by
  unfold dialog_init_as_uac at h
  split at h
  · simp at h
  · simp at h
  · rename_i d' hd
    simp only [Option.some.injEq, Except.ok.injEq] at h
    obtain ⟨l, r, cs, lt, h1⟩ := dialog_init_ok hd
    subst h
    simpa using h1.2.2.2.2.2.2.2.2.1

/-- The callee's route set is the Record-Route list, in order, of the response it sends.
Missing for C33: the code looks at the response, so the list is that of the request only when the
application has copied it there, as RFC 3261 12.1.1 demands. -/
theorem c33_callee_partial {invite response : Msg} {d : Dialog}
    (h : dialog_init_as_uas invite response = some (.ok d)) :
    d.route_set = response.record_routes := by
  unfold dialog_init_as_uas at h
  split at h
  · simp at h
  · split at h
    · simp at h
    · simp at h
    · rename_i d' hd
      simp only [Option.some.injEq, Except.ok.injEq] at h
      obtain ⟨l, r, cs', lt, h1⟩ := dialog_init_ok hd
      subst h
      simpa using h1.2.2.2.2.2.2.2.2.1

/-- Every successful update of an early dialog by the caller replaces the route set by the
reversed Record-Route list of that response, and a 2xx confirms the dialog. -/
theorem c33_update {d : Dialog} {response : Msg} (hs : d.state = .EARLY)
    (h : (update_route_set_as_uac d response).1 = 0) :
    (update_route_set_as_uac d response).2.route_set = response.record_routes.reverse ∧
    ((update_route_set_as_uac d response).2.state = .CONFIRMED ↔
      200 ≤ response.status_code ∧ response.status_code < 300) := by
  obtain ⟨c, rs, st, h1, _, _, h2⟩ := update_route_set_as_uac_cases d response
  obtain ⟨_, h3, h4, h5⟩ := h2 h
  rw [h1]
  refine ⟨h3 hs, ?_⟩
  dsimp only
  cases hst : response.isStatus 2 with
  | true =>
    simp only [h4 hst, true_iff]
    simpa [Msg.isStatus] using hst
  | false =>
    rw [h5 hst, hs]
    simp only [reduceCtorEq, false_iff]
    simpa [Msg.isStatus] using hst

theorem state_not_early {d : Dialog} {op : DialogOp} (hs : d.state ≠ .EARLY)
    (ho : op ≠ .setState .EARLY) : (op.apply d).state ≠ .EARLY ∧
      (op.apply d).route_set = d.route_set := by
  cases op with
  | routeSetUas m =>
    obtain ⟨c, hc⟩ := replaceContact_other d m
    have : (update_route_set_as_uas d m).2 = (replaceContact d m).2 := by
      unfold update_route_set_as_uas; split <;> simp_all
    simp only [DialogOp.apply, this, hc]
    exact ⟨hs, trivial⟩
  | cseqUas m =>
    simp only [DialogOp.apply, update_osip_cseq_as_uas]
    split <;> try split
    all_goals exact ⟨hs, rfl⟩
  | routeSetUac m =>
    obtain ⟨c, rs, st, h1, h2, h3, _⟩ := update_route_set_as_uac_cases d m
    simp only [DialogOp.apply, h1]
    refine ⟨?_, h2 hs⟩
    rcases h3 with h3 | h3 <;> rw [h3]
    · exact hs
    · simp
  | tagUac m =>
    simp only [DialogOp.apply, update_tag_as_uac]
    split
    · exact ⟨hs, rfl⟩
    · split
      · exact ⟨hs, rfl⟩
      · split <;> exact ⟨hs, rfl⟩
  | setState st =>
    simp only [DialogOp.apply, dialog_set_state]
    refine ⟨?_, trivial⟩
    intro h; subst h; exact ho rfl

/-- Once a dialog is no longer early its route set never changes again, whatever sequence of
updates follows (the application not putting it back to early itself). -/
theorem c33_fixed {d : Dialog} (ops : List DialogOp) (hs : d.state ≠ .EARLY)
    (ho : ∀ op ∈ ops, op ≠ .setState .EARLY) :
    (d.after ops).route_set = d.route_set := by
  induction ops generalizing d with
  | nil => rfl
  | cons op ops ih =>
    have h1 := state_not_early hs (ho op (by simp))
    have := ih h1.1 (fun o h => ho o (by simp [h]))
    simp only [Dialog.after, List.foldl_cons] at this ⊢
    rw [this, h1.2]

/-! ## C34 -/

/-- Setting the remote tag succeeds only if none was set; it takes the tag of the To header. -/
theorem c34_update {d : Dialog} {response : Msg} (h : (update_tag_as_uac d response).1 = 0) :
    d.remote_tag = none ∧ ∃ to, response.to = some to ∧
      ∀ v, (update_tag_as_uac d response).2.remote_tag = some v ↔ HasTag to v := by
  unfold update_tag_as_uac at h ⊢
  cases ht : response.to with
  | none => simp [ht, OSIP_BADPARAMETER] at h
  | some to =>
    simp only [ht] at h ⊢
    cases hr : d.remote_tag with
    | some t => simp [hr, OSIP_WRONG_STATE] at h
    | none =>
      refine ⟨rfl, to, rfl, fun v => ?_⟩
      rw [hasTag_iff]
      simp only [Option.isSome_none, Bool.false_eq_true, if_false]
      cases paramByName to.gen_params "tag" <;> simp

theorem remote_tag_apply {d : Dialog} {t : Str} (op : DialogOp) (h : d.remote_tag = some t) :
    (op.apply d).remote_tag = some t := by
  cases op with
  | routeSetUas m =>
    obtain ⟨c, hc⟩ := replaceContact_other d m
    have : (update_route_set_as_uas d m).2 = (replaceContact d m).2 := by
      unfold update_route_set_as_uas; split <;> simp_all
    simp only [DialogOp.apply, this, hc, h]
  | cseqUas m =>
    simp only [DialogOp.apply, update_osip_cseq_as_uas]
    split <;> try split
    all_goals exact h
  | routeSetUac m =>
    obtain ⟨c, rs, st, h1, _⟩ := update_route_set_as_uac_cases d m
    simp only [DialogOp.apply, h1, h]
  | tagUac m =>
    simp only [DialogOp.apply, update_tag_as_uac]
    split
    · exact h
    · simp [h]
  | setState st => exact h

/-- After the remote tag is set no sequence of updates alters it. -/
theorem c34_never_changes {d : Dialog} {t : Str} (ops : List DialogOp)
    (h : d.remote_tag = some t) : (d.after ops).remote_tag = some t := by
  induction ops generalizing d with
  | nil => exact h
  | cons op ops ih => exact ih (remote_tag_apply op h)

/-! ## C35 -/

/-- For a dialog with both tags, a request whose From carries a tag value is accepted exactly when
Call-ID and From tag are the dialog's. Missing for C35: the To tag is not compared
(`c35_violated`), and a From tag without a value makes the code call `strcmp` on NULL
(`c35_null_dereference`). -/
theorem c35_match_partial {d : Dialog} {m : Msg} {cid lt rt v : Str} {f t : From}
    (h1 : d.call_id = some cid) (h2 : d.local_tag = some lt) (h3 : d.remote_tag = some rt)
    (h4 : m.from_ = some f) (h5 : m.to = some t) (h6 : HasTag f v) :
    dialog_match_as_uas (some d) m = some 0 ↔ CallIdText m cid ∧ v = rt := by
  rw [hasTag_iff, Option.bind_eq_some_iff] at h6
  obtain ⟨p, hp, hv⟩ := h6
  rw [callIdText_iff]
  unfold dialog_match_as_uas
  cases hc : m.call_id with
  | none => simp [h1, h4, h5, hc, call_id_to_str, OSIP_BADPARAMETER]
  | some c =>
    simp only [h1, h4, h5, h2, h3, hp, hv]
    cases hcs : call_id_to_str (some c) with
    | error i =>
      simp only [reduceCtorEq, false_and, iff_false, Option.some.injEq]
      intro hi; subst hi
      exact call_id_to_str_error hcs
    | ok s =>
      by_cases hs : cid = s
      · by_cases hv : v = rt <;> simp [hs, hv, OSIP_SUCCESS, OSIP_UNDEFINED_ERROR]
      · have : ¬ s = cid := fun h => hs h.symm
        simp [hs, this, OSIP_UNDEFINED_ERROR]

/-- A request without a tag in From is never accepted for a dialog with a remote tag. -/
theorem c35_no_tag {d : Dialog} {m : Msg} {rt : Str} {f : From} (h3 : d.remote_tag = some rt)
    (h4 : m.from_ = some f) (h6 : NoTag f) : dialog_match_as_uas (some d) m ≠ some 0 := by
  rw [noTag_iff] at h6
  intro h
  unfold dialog_match_as_uas at h
  simp only [h4, h3] at h
  split at h
  · rename_i cid acid from_ to hcid hacid hf ht
    simp only [Option.some.injEq] at hf
    subst hf
    split at h
    · rename_i i hcs
      simp only [Option.some.injEq] at h
      subst h
      exact call_id_to_str_error hcs
    · simp only [h6] at h
      repeat' split at h
      all_goals simp [OSIP_UNDEFINED_ERROR, OSIP_SYNTAXERROR] at h
  · simp [OSIP_BADPARAMETER] at h

/-! ## C36 -/

/-- A response with a To tag matches a caller's dialog with a remote tag exactly when Call-ID,
From tag and To tag are the dialog's. -/
theorem c36_match {d : Dialog} {m : Msg} {cid lt rt v w : Str} {f t : From}
    (h1 : d.call_id = some cid) (h2 : d.local_tag = some lt) (h3 : d.remote_tag = some rt)
    (h4 : m.from_ = some f) (h5 : m.to = some t) (h6 : HasTag f v) (h7 : HasTag t w) :
    dialog_match_as_uac (some d) m = some 0 ↔ CallIdText m cid ∧ v = lt ∧ w = rt := by
  rw [hasTag_iff, Option.bind_eq_some_iff] at h6 h7
  obtain ⟨p, hp, hv⟩ := h6
  obtain ⟨q, hq, hw⟩ := h7
  rw [callIdText_iff]
  unfold dialog_match_as_uac
  cases hc : m.call_id with
  | none => simp [h1, h4, h5, hc, call_id_to_str, OSIP_BADPARAMETER]
  | some c =>
    simp only [h1, h4, h5, h2, h3, hp, hv, hq, hw]
    cases hcs : call_id_to_str (some c) with
    | error i =>
      simp only [reduceCtorEq, false_and, iff_false, Option.some.injEq]
      intro hi; subst hi
      exact call_id_to_str_error hcs
    | ok s =>
      by_cases hs : cid = s
      · by_cases hv : v = lt <;> by_cases hw : w = rt <;>
          simp [hs, hv, hw, OSIP_SUCCESS, OSIP_UNDEFINED_ERROR]
      · have : ¬ s = cid := fun h => hs h.symm
        simp [hs, this, OSIP_UNDEFINED_ERROR]

/-- Without a tag in From a response matches no dialog; without a tag in To it matches no dialog
having a remote tag. -/
theorem c36_no_tag {d : Dialog} {m : Msg} {f t : From}
    (h4 : m.from_ = some f) (h5 : m.to = some t)
    (h6 : NoTag f ∨ (NoTag t ∧ d.remote_tag ≠ none)) :
    dialog_match_as_uac (some d) m ≠ some 0 := by
  simp only [noTag_iff] at h6
  intro h
  unfold dialog_match_as_uac at h
  simp only [h4, h5] at h
  split at h
  · rename_i cid acid from_ to hcid hacid hf ht
    simp only [Option.some.injEq] at hf ht
    subst hf ht
    split at h
    · rename_i i hcs
      simp only [Option.some.injEq] at h
      subst h
      exact call_id_to_str_error hcs
    · rcases h6 with h6 | ⟨h6, h7⟩
      · simp only [h6] at h
        split at h <;> simp [OSIP_UNDEFINED_ERROR, OSIP_SYNTAXERROR] at h
      · obtain ⟨rt, hrt⟩ := Option.ne_none_iff_exists'.1 h7
        simp only [h6, hrt] at h
        repeat' split at h
        all_goals simp [OSIP_UNDEFINED_ERROR, OSIP_SYNTAXERROR] at h
  · simp [OSIP_BADPARAMETER] at h

/-! ## C35, C36: dialogs without a remote tag -/

/-- The value `v` of the first parameter whose name starts with "tag". -/
def TagLike (f : From) (v : Str) : Prop :=
  ∃ pre p post, f.gen_params = pre ++ p :: post ∧ p.gvalue = some v ∧ (∃ r, p.gname = "tag".toList ++ r) ∧
    ∀ q ∈ pre, ¬ ∃ r, q.gname = "tag".toList ++ r

/-- Two headers name the same party: the hosts are equal, and user names and tags are equal where both have one; of URIs that are not `sip`
URIs the texts are equal. -/
def SameParty (f g : From) : Prop :=
  ∃ u v, f.url = some u ∧ g.url = some v ∧
    ((∃ h, u.host = some h ∧ v.host = some h ∧ (∀ a b, u.username = some a → v.username = some b → a = b) ∧
        ∀ a b, TagLike f a → TagLike g b → a = b) ∨
      (u.host = none ∧ v.host = none ∧ ∃ s, u.string = some s ∧ v.string = some s))

theorem tagLike_iff (f : From) (v : Str) : TagLike f v ↔ compareTag f = some v := by
  have key : ∀ s : Str, (∃ r, s = "tag".toList ++ r) ↔ "tag".toList.isPrefixOf s = true := by
    intro s
    rw [List.isPrefixOf_iff_prefix]
    exact ⟨fun ⟨r, h⟩ => ⟨r, h.symm⟩, fun ⟨r, h⟩ => ⟨r, h.symm⟩⟩
  simp only [TagLike, compareTag, key, Option.bind_eq_some_iff, List.find?_eq_some_iff_append]
  constructor
  · rintro ⟨pre, p, post, h1, h2, h3, h4⟩
    exact ⟨p, ⟨h3, pre, post, h1, fun q hq => by have := h4 q hq; rw [Bool.not_eq_true] at this; rw [this]; rfl⟩, h2⟩
  · rintro ⟨p, ⟨h3, pre, post, h1, h4⟩, h2⟩
    exact ⟨pre, p, post, h1, h2, h3, fun q hq e => by have := h4 q hq; rw [e] at this; cases this⟩

theorem from_compare_iff (f g : From) : from_compare (some f) (some g) = 0 ↔ SameParty f g := by
  simp only [SameParty, tagLike_iff, from_compare]
  cases hu : f.url with
  | none => simp [OSIP_BADPARAMETER]
  | some u =>
    cases hv : g.url with
    | none => simp [OSIP_BADPARAMETER]
    | some v =>
      simp only [Option.some.injEq]
      cases h1 : u.host <;> cases h2 : v.host <;> cases h3 : u.string <;> cases h4 : v.string <;>
        cases h5 : u.username <;> cases h6 : v.username <;> cases h7 : compareTag f <;> cases h8 : compareTag g <;>
        simp [OSIP_UNDEFINED_ERROR, OSIP_SUCCESS, h1, h2, h3, h4, h5, h6] <;> grind

/-- A request matches a callee's dialog without a remote tag exactly if the Call-ID is the dialog's, From names the remote party and To the
local party. -/
theorem c35_untagged {d : Dialog} {m : Msg} {cid lt : Str} {f t r l : From}
    (h1 : d.call_id = some cid) (h2 : d.local_tag = some lt) (h3 : d.remote_tag = none)
    (h4 : m.from_ = some f) (h5 : m.to = some t) (h6 : d.remote_uri = some r) (h7 : d.local_uri = some l) :
    dialog_match_as_uas (some d) m = some 0 ↔ CallIdText m cid ∧ SameParty r f ∧ SameParty l t := by
  rw [callIdText_iff, ← from_compare_iff, ← from_compare_iff]
  unfold dialog_match_as_uas
  cases hc : m.call_id with
  | none => simp [h1, h4, h5, hc, call_id_to_str, OSIP_BADPARAMETER]
  | some c =>
    simp only [h1, h4, h5, h2, h3]
    cases hcs : call_id_to_str (some c) with
    | error i =>
      simp only [reduceCtorEq, false_and, iff_false, Option.some.injEq]
      intro hi; subst hi
      exact call_id_to_str_error hcs
    | ok s =>
      by_cases hs : cid = s
      · simp [hs, compareBoth, h6, h7, OSIP_SUCCESS, OSIP_UNDEFINED_ERROR]
      · have : ¬ s = cid := fun h => hs h.symm
        simp [hs, this, OSIP_UNDEFINED_ERROR]

/-- A response matches a caller's dialog without a remote tag exactly if Call-ID and From tag are the dialog's, From names the local party
and To the remote party. -/
theorem c36_untagged {d : Dialog} {m : Msg} {cid lt v : Str} {f t r l : From}
    (h1 : d.call_id = some cid) (h2 : d.local_tag = some lt) (h3 : d.remote_tag = none)
    (h4 : m.from_ = some f) (h5 : m.to = some t) (h6 : d.remote_uri = some r) (h7 : d.local_uri = some l) (h8 : HasTag f v) :
    dialog_match_as_uac (some d) m = some 0 ↔ CallIdText m cid ∧ v = lt ∧ SameParty l f ∧ SameParty r t := by
  rw [hasTag_iff, Option.bind_eq_some_iff] at h8
  obtain ⟨p, hp, hv⟩ := h8
  rw [callIdText_iff, ← from_compare_iff, ← from_compare_iff]
  unfold dialog_match_as_uac
  cases hc : m.call_id with
  | none => simp [h1, h4, h5, hc, call_id_to_str, OSIP_BADPARAMETER]
  | some c =>
    simp only [h1, h4, h5, h2, h3, hp, hv]
    cases hcs : call_id_to_str (some c) with
    | error i =>
      simp only [reduceCtorEq, false_and, iff_false, Option.some.injEq]
      intro hi; subst hi
      exact call_id_to_str_error hcs
    | ok s =>
      by_cases hs : cid = s
      · by_cases hv : v = lt <;> simp [hs, hv, compareBoth, h6, h7, OSIP_SUCCESS, OSIP_UNDEFINED_ERROR]
      · have : ¬ s = cid := fun h => hs h.symm
        simp [hs, this, OSIP_UNDEFINED_ERROR]

/-! ## C63: the state of a new dialog -/

/-- The caller's new dialog (RFC 3261 12.1.2): Call-ID of the response, local tag and URI from
From, remote tag and URI from To, remote target from Contact, local sequence number from CSeq, and
confirmed exactly by a 2xx. -/
theorem c63_caller {response : Msg} {d : Dialog}
    (h : dialog_init_as_uac response = some (.ok d)) :
    ∃ f t cs cid, response.from_ = some f ∧ response.to = some t ∧ response.cseq = some cs ∧
      CallIdText response cid ∧ d.call_id = some cid ∧ ¬ NoTag f ∧
      (∀ v, d.local_tag = some v ↔ HasTag f v) ∧ (∀ v, d.remote_tag = some v ↔ HasTag t v) ∧
      d.local_uri = some f ∧ d.remote_uri = some t ∧
      d.remote_contact_uri = response.contacts.head? ∧
      (∀ n, n < 2^31 → cs.number = some (Nat.toDigits 10 n) → d.local_cseq = n) ∧
      d.remote_cseq = -1 ∧ d.type = .CALLER ∧
      (d.state = .CONFIRMED ↔ 200 ≤ response.status_code ∧ response.status_code < 300) := by
  unfold dialog_init_as_uac at h
  split at h
  · simp at h
  · simp at h
  · rename_i d' hd
    simp only [Option.some.injEq, Except.ok.injEq] at h
    obtain ⟨l, r, cs, lt, h1, h2, h3, h4, h5, h6, h7, h8, h9, h10, h11, h12, h13, h14⟩ :=
      dialog_init_ok hd
    subst h
    obtain ⟨cid, hcid⟩ := Option.isSome_iff_exists.1 h6
    refine ⟨l, r, cs, cid, h1, h2, h3, ?_, hcid, ?_, ?_, ?_, h12, h11, h13, ?_, rfl, rfl, ?_⟩
    · rw [callIdText_iff, h5, hcid]; rfl
    · rw [noTag_iff, h4]; simp
    · intro v; rw [hasTag_iff, h4]; simp [h7]
    · intro v; rw [hasTag_iff]; simp [h8]
    · intro n hn hc
      simp only [h10, hc, atoi_toDigits hn]
    · simp only [h14]
      by_cases hst : response.isStatus 2 = true
      · simp only [hst, if_true, true_iff]; simpa [Msg.isStatus] using hst
      · simp only [hst, if_false]; simp [Msg.isStatus] at hst; simp; exact hst

/-- The callee's new dialog (RFC 3261 12.1.1): the same with From and To exchanged, the remote
target from the Contact of the request and the remote sequence number from CSeq. -/
theorem c63_callee {invite response : Msg} {d : Dialog}
    (h : dialog_init_as_uas invite response = some (.ok d)) :
    ∃ f t cs cid, response.from_ = some f ∧ response.to = some t ∧ response.cseq = some cs ∧
      CallIdText response cid ∧ d.call_id = some cid ∧ ¬ NoTag t ∧
      (∀ v, d.local_tag = some v ↔ HasTag t v) ∧ (∀ v, d.remote_tag = some v ↔ HasTag f v) ∧
      d.local_uri = some t ∧ d.remote_uri = some f ∧
      d.remote_contact_uri = invite.contacts.head? ∧
      (∀ n, n < 2^31 → cs.number = some (Nat.toDigits 10 n) → d.remote_cseq = n) ∧
      d.type = .CALLEE ∧
      (d.state = .CONFIRMED ↔ 200 ≤ response.status_code ∧ response.status_code < 300) := by
  unfold dialog_init_as_uas at h
  split at h
  · simp at h
  · rename_i cs0 hcs0
    split at h
    · simp at h
    · simp at h
    · rename_i d' hd
      simp only [Option.some.injEq, Except.ok.injEq] at h
      obtain ⟨l, r, cs, lt, h1, h2, h3, h4, h5, h6, h7, h8, h9, h10, h11, h12, h13, h14⟩ :=
        dialog_init_ok hd
      subst h
      obtain ⟨cid, hcid⟩ := Option.isSome_iff_exists.1 h6
      refine ⟨r, l, cs0, cid, h2, h1, hcs0, ?_, hcid, ?_, ?_, ?_, h12, h11, h13, ?_, rfl, ?_⟩
      · rw [callIdText_iff, h5, hcid]; rfl
      · rw [noTag_iff, h4]; simp
      · intro v; rw [hasTag_iff, h4]; simp [h7]
      · intro v; rw [hasTag_iff]; simp [h8]
      · intro n hn hc
        simp only [hc, atoi_toDigits hn]
      · simp only [h14]
        by_cases hst : response.isStatus 2 = true
        · simp only [hst, if_true, true_iff]; simpa [Msg.isStatus] using hst
        · simp only [hst, if_false]; simp [Msg.isStatus] at hst; simp; exact hst

/-- The caller's dialog recognises every later response carrying the same Call-ID, From tag and
To tag as the response which created it — in particular that response itself. -/
theorem c63_recognises {response later : Msg} {d : Dialog} {f t f' t' : From} {v w cid : Str}
    (h : dialog_init_as_uac response = some (.ok d))
    (hf : response.from_ = some f) (ht : response.to = some t)
    (hv : HasTag f v) (hw : HasTag t w) (hc : CallIdText response cid)
    (hf' : later.from_ = some f') (ht' : later.to = some t')
    (hv' : HasTag f' v) (hw' : HasTag t' w) (hc' : CallIdText later cid) :
    dialog_match_as_uac (some d) later = some 0 := by
  obtain ⟨f2, t2, cs, cid2, h1, h2, h3, h4, h5, h6, h7, h8, _⟩ := c63_caller h
  rw [hf] at h1; rw [ht] at h2
  simp only [Option.some.injEq] at h1 h2
  subst h1 h2
  have hcid : cid2 = cid := by
    rw [callIdText_iff] at hc h4
    rw [hc] at h4; simpa using h4.symm
  subst hcid
  exact (c36_match h5 ((h7 v).2 hv) ((h8 w).2 hw) hf' ht' hv' hw').2 ⟨hc', rfl, rfl⟩

end Osip
