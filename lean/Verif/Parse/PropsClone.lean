import Verif.Parse.Clone
import Verif.Parse.PropsMessage

/-!
# C60: a cloned message is an equal copy
-/

set_option autoImplicit false

namespace Osip

/-! ## Specification -/

/-- The URI has a host or is an opaque one. -/
def Uri.Complete (u : Uri) : Prop := u.host ≠ none ∨ u.string ≠ none

/-- What has to be there so that a header can be copied. -/
def HeaderVal.Complete (k : Setter) : HeaderVal → Prop
  | .via v => v.version ≠ none ∧ v.protocol ≠ none ∧ v.host ≠ none
  | .addr f => ∀ u ∈ f.url, u.Complete
  | .callId c => c.number ≠ none
  | .cseq c => c.method ≠ none ∧ c.number ≠ none
  | .auth t _ => k = .www_authenticate ∨ k = .proxy_authenticate → t ≠ none
  | .entry e => e.element ≠ none
  | .media _ | .value _ => True

/-- What has to be there so that a message can be copied. -/
structure Copyable (m : SipMessage) : Prop where
  uri : ∀ u ∈ m.start.req_uri, u.Complete
  known : ∀ k, ∀ x ∈ m.hdr k, x.Complete k
  other : ∀ h ∈ m.headers, h.hname ≠ none
  bodies : ∀ b ∈ m.bodies, b.body ≠ [] ∧ ∀ h ∈ b.headers, h.hname ≠ none

/-- The strings which `osip_www_authenticate_t`, `osip_authorization_t` and `osip_authentication_info_t` have besides `auth_type`
(include/osipparser2/headers/osip_www_authenticate.h:46-60, osip_authorization.h:46-66, osip_authentication_info.h:46-60), by the
names used in messages. -/
def members (k : Setter) : List String :=
  if k = .authorization ∨ k = .proxy_authorization then
    ["username", "realm", "nonce", "uri", "response", "digest", "algorithm", "cnonce", "opaque", "qop", "nc", "version", "targetname",
     "gssapi-data", "crand", "cnum"]
  else if k = .www_authenticate ∨ k = .proxy_authenticate then
    ["realm", "domain", "nonce", "opaque", "stale", "algorithm", "qop", "version", "targetname", "gssapi-data"]
  else
    ["nextnonce", "rspauth", "cnonce", "nc", "qop", "snum", "srand", "targetname", "realm", "opaque"]

/-- The credentials of the message have only the strings which the structures have. -/
def SipMessage.Proper (m : SipMessage) : Prop :=
  ∀ k t F, .auth t F ∈ m.hdr k → ∀ n, F n ≠ none → ∃ s ∈ members k, n = s.toList

/-! ## Lists -/

section

variable {α : Type}

theorem list_clone_ok {f : α → Int × Option α} : ∀ (xs dst : List α), (∀ x ∈ xs, f x = (OSIP_SUCCESS, some x)) →
    osip_list_clone f xs dst = (OSIP_SUCCESS, dst ++ xs)
  | [], dst, _ => by simp [osip_list_clone]
  | x :: xs, dst, h => by
    unfold osip_list_clone
    rw [h x (by simp)]
    have e := list_clone_ok (f := f) xs (dst ++ [x]) (fun y hy => h y (by simp [hy]))
    simp only [OSIP_SUCCESS, ne_eq, not_true, if_false, Option.toList_some] at e ⊢
    rw [e, List.append_assoc, List.singleton_append]

theorem list_clone_fail {f : α → Int × Option α} : ∀ (xs dst : List α),
    (∀ x ∈ xs, f x = (OSIP_SUCCESS, some x) ∨ f x = (OSIP_BADPARAMETER, none)) → (∃ x ∈ xs, f x = (OSIP_BADPARAMETER, none)) →
    (osip_list_clone f xs dst).1 = OSIP_BADPARAMETER
  | [], dst, _, h => by simp at h
  | x :: xs, dst, h, h' => by
    unfold osip_list_clone
    rcases h x (by simp) with hx | hx
    · rw [hx]
      have : ∃ y ∈ xs, f y = (OSIP_BADPARAMETER, none) := by
        obtain ⟨y, hy, e⟩ := h'
        rcases List.mem_cons.1 hy with rfl | hy
        · rw [hx] at e; simp at e
        · exact ⟨y, hy, e⟩
      have e := list_clone_fail (f := f) xs (dst ++ [x]) (fun y hy => h y (by simp [hy])) this
      simpa [OSIP_SUCCESS] using e
    · rw [hx]; simp [OSIP_BADPARAMETER]

end

theorem params_clone (ps dst : List Param) : osip_list_clone osip_uri_param_clone ps dst = (OSIP_SUCCESS, dst ++ ps) :=
  list_clone_ok _ _ fun _ _ => rfl

/-! ## Headers -/

theorem uri_clone {u : Uri} : (u.Complete → osip_uri_clone u = (OSIP_SUCCESS, some u)) ∧
    (¬ u.Complete → osip_uri_clone u = (OSIP_BADPARAMETER, none)) := by
  unfold osip_uri_clone Uri.Complete
  simp only [params_clone]
  constructor
  · intro h
    rw [if_neg (by rcases h with h | h <;> simp [h])]
    simp [OSIP_SUCCESS]
  · intro h
    rw [if_pos (by simpa using h)]

theorem uri_opt_clone {o : Option Uri} : ((∀ u ∈ o, u.Complete) → cloneOpt osip_uri_clone o = (OSIP_SUCCESS, o)) ∧
    (¬ (∀ u ∈ o, u.Complete) → cloneOpt osip_uri_clone o = (OSIP_BADPARAMETER, none)) := by
  cases o with
  | none => simp [cloneOpt]
  | some u => simpa [cloneOpt] using uri_clone

theorem copyFields_id {names : List Str} {F : Fields} (h : ∀ n, F n ≠ none → n ∈ names) : copyFields names F = F := by
  funext n
  unfold copyFields
  split
  · rfl
  · next hn => exact (Classical.byContradiction fun e => hn (h n (fun e' => e e'.symm)))

theorem header_clone {k : Setter} {x : HeaderVal}
    (hp : ∀ t F, x = .auth t F → ∀ n, F n ≠ none → ∃ s ∈ members k, n = s.toList) :
    (x.Complete k → cloneHeader k x = (OSIP_SUCCESS, some x)) ∧
    (¬ x.Complete k → cloneHeader k x = (OSIP_BADPARAMETER, none)) := by
  cases x with
  | via v =>
    unfold cloneHeader osip_via_clone HeaderVal.Complete
    simp only [params_clone]
    obtain ⟨ve, pr, ho, po, co, ps⟩ := v
    cases ve <;> cases pr <;> cases ho <;> simp [OSIP_SUCCESS, OSIP_BADPARAMETER]
  | addr f =>
    unfold cloneHeader osip_from_clone HeaderVal.Complete
    simp only [params_clone]
    constructor
    · intro h; rw [uri_opt_clone.1 h]; simp [OSIP_SUCCESS]
    · intro h; rw [uri_opt_clone.2 h]; simp [OSIP_BADPARAMETER]
  | callId c =>
    obtain ⟨n, h⟩ := c
    cases n <;> simp [cloneHeader, osip_call_id_clone, HeaderVal.Complete]
  | cseq c =>
    obtain ⟨n, h⟩ := c
    cases n <;> cases h <;> simp [cloneHeader, osip_cseq_clone, HeaderVal.Complete]
  | auth t F =>
    have hF := hp t F rfl
    unfold cloneHeader HeaderVal.Complete
    unfold members at hF
    by_cases h1 : k = .authorization ∨ k = .proxy_authorization
    · have h2 : ¬ (k = .www_authenticate ∨ k = .proxy_authenticate) := by rcases h1 with rfl | rfl <;> simp
      simp only [if_pos h1] at hF ⊢
      have : copyFields authCopied F = F := copyFields_id fun n hn => by
        obtain ⟨s, hs, rfl⟩ := hF n hn
        clear hn; revert s; decide
      simp [osip_authorization_clone, this, h2]
    · by_cases h2 : k = .www_authenticate ∨ k = .proxy_authenticate
      · simp only [if_neg h1, if_pos h2] at hF ⊢
        have : copyFields wwwCopied F = F := copyFields_id fun n hn => by
          obtain ⟨s, hs, rfl⟩ := hF n hn
          clear hn; revert s; decide
        cases t <;> simp [osip_www_authenticate_clone, this, h2]
      · simp only [if_neg h1, if_neg h2] at hF ⊢
        have : copyFields infoCopied F = F := copyFields_id fun n hn => by
          obtain ⟨s, hs, rfl⟩ := hF n hn
          clear hn; revert s; decide
        simp [osip_authentication_info_clone, this, h2]
  | entry e =>
    obtain ⟨n, ps⟩ := e
    unfold cloneHeader osip_entry_clone HeaderVal.Complete
    simp only [params_clone]
    cases n <;> simp [OSIP_SUCCESS, OSIP_BADPARAMETER]
  | media ct =>
    unfold cloneHeader osip_content_type_clone HeaderVal.Complete
    simp only [params_clone]
    simp [OSIP_SUCCESS]
  | value v => simp [cloneHeader, osip_content_length_clone, HeaderVal.Complete]

theorem other_clone {h : Header} : (h.hname ≠ none → osip_header_clone h = (OSIP_SUCCESS, some h)) ∧
    (¬ h.hname ≠ none → osip_header_clone h = (OSIP_BADPARAMETER, none)) := by
  unfold osip_header_clone
  constructor <;> intro e
  · rw [if_neg e]
  · rw [if_pos (Classical.not_not.1 e)]

theorem media_opt_clone (o : Option MediaType) : cloneOpt osip_content_type_clone o = (OSIP_SUCCESS, o) := by
  cases o with
  | none => rfl
  | some ct =>
    unfold cloneOpt osip_content_type_clone
    simp only [params_clone]
    simp [OSIP_SUCCESS]

theorem body_clone {b : Body} : ((b.body ≠ [] ∧ ∀ h ∈ b.headers, h.hname ≠ none) → osip_body_clone b = (OSIP_SUCCESS, some b)) ∧
    (¬ (b.body ≠ [] ∧ ∀ h ∈ b.headers, h.hname ≠ none) → osip_body_clone b = (OSIP_BADPARAMETER, none)) := by
  unfold osip_body_clone
  simp only [media_opt_clone]
  constructor
  · rintro ⟨h1, h2⟩
    rw [if_neg (by have := List.length_pos_iff.2 h1; omega), list_clone_ok _ _ fun x hx => other_clone.1 (h2 x hx)]
    simp [OSIP_SUCCESS]
  · intro h
    by_cases h1 : b.body = []
    · rw [if_pos (by simp [h1])]
    · rw [if_neg (by have := List.length_pos_iff.2 h1; omega)]
      have h2 : ¬ ∀ h ∈ b.headers, h.hname ≠ none := fun e => h ⟨h1, e⟩
      have e := list_clone_fail (f := osip_header_clone) b.headers []
        (fun x _ => (Classical.em _).imp other_clone.1 other_clone.2) (by
          obtain ⟨x, hx⟩ := Classical.not_forall.1 h2
          obtain ⟨hx, hn⟩ := Classical.not_imp.1 hx
          exact ⟨x, hx, other_clone.2 hn⟩)
      generalize hq : osip_list_clone osip_header_clone b.headers [] = q at e ⊢
      obtain ⟨i, hs⟩ := q
      simp at e; subst e
      simp [OSIP_SUCCESS, OSIP_BADPARAMETER]

/-! ## The message -/

theorem headers_clone_ok {m : SipMessage} (hp : m.Proper) : ∀ (ks : List Setter) (copy : SipMessage),
    (∀ k ∈ ks, copy.hdr k = []) → ks.Nodup → (∀ k ∈ ks, ∀ x ∈ m.hdr k, x.Complete k) →
    cloneHeaders m ks copy = (OSIP_SUCCESS, { copy with hdr := fun j => if j ∈ ks then m.hdr j else copy.hdr j })
  | [], copy, _, _, _ => by simp [cloneHeaders]
  | k :: ks, copy, hc, hn, h => by
    unfold cloneHeaders
    rw [List.nodup_cons] at hn
    rw [list_clone_ok _ _ fun x hx => (header_clone (k := k) fun t F e n hF => by
      subst e; exact hp k t F hx n hF).1 (h k (by simp) x hx), hc k (by simp)]
    simp only [OSIP_SUCCESS, ne_eq, not_true, if_false, List.nil_append]
    have := headers_clone_ok hp ks { copy with hdr := fun j => if j = k then m.hdr k else copy.hdr j }
      (fun j hj => by
        have : j ≠ k := fun e => hn.1 (e ▸ hj)
        simp [this, hc j (by simp [hj])]) hn.2 (fun j hj => h j (by simp [hj]))
    simp only [OSIP_SUCCESS] at this
    rw [this]
    congr 2
    funext j
    by_cases hj : j ∈ ks
    · simp [hj]
    · by_cases e : j = k
      · subst e; simp [hj]
      · simp [hj, e]

theorem headers_clone_fail {m : SipMessage} (hp : m.Proper) : ∀ (ks : List Setter) (copy : SipMessage),
    (∃ k ∈ ks, ∃ x ∈ m.hdr k, ¬ x.Complete k) → (cloneHeaders m ks copy).1 = OSIP_BADPARAMETER
  | [], copy, h => by simp at h
  | k :: ks, copy, h => by
    unfold cloneHeaders
    have hk := fun x (hx : x ∈ m.hdr k) => header_clone (k := k) (x := x) fun t F e n hF => by
      subst e; exact hp k t F hx n hF
    by_cases h1 : ∃ x ∈ m.hdr k, ¬ x.Complete k
    · have e := list_clone_fail (f := cloneHeader k) (m.hdr k) (copy.hdr k)
        (fun x hx => (Classical.em _).imp (hk x hx).1 (hk x hx).2) (by
          obtain ⟨x, hx, hn⟩ := h1
          exact ⟨x, hx, (hk x hx).2 hn⟩)
      generalize osip_list_clone (cloneHeader k) (m.hdr k) (copy.hdr k) = q at e ⊢
      obtain ⟨i, hs⟩ := q
      simp at e; subst e
      simp [OSIP_BADPARAMETER]
    · rw [list_clone_ok _ _ fun x hx => (hk x hx).1 (Classical.byContradiction fun e => h1 ⟨x, hx, e⟩)]
      have : ∃ k ∈ ks, ∃ x ∈ m.hdr k, ¬ x.Complete k := by
        obtain ⟨j, hj, hx⟩ := h
        rcases List.mem_cons.1 hj with rfl | hj
        · exact absurd hx h1
        · exact ⟨j, hj, hx⟩
      simpa [OSIP_SUCCESS] using headers_clone_fail hp ks { copy with hdr := fun j => if j = k then copy.hdr k ++ m.hdr k else copy.hdr j } this

theorem cloneOrder_all (k : Setter) : k ∈ cloneOrder := by cases k <;> decide

theorem cloneOrder_nodup : cloneOrder.Nodup := by decide

theorem clone_ok {m : SipMessage} (hp : m.Proper) (h : Copyable m) : osip_message_clone m =
    (OSIP_SUCCESS, some ⟨{ m with cached := none }, m.cached.map fun t => (strdupBlock t, t.length)⟩) := by
  unfold osip_message_clone
  rw [uri_opt_clone.1 h.uri]
  simp only [OSIP_SUCCESS, ne_eq, not_true, if_false]
  rw [headers_clone_ok hp cloneOrder _ (fun _ _ => rfl) cloneOrder_nodup (fun k _ => h.known k)]
  simp only [OSIP_SUCCESS, ne_eq, not_true, if_false, cloneOrder_all, if_true]
  rw [list_clone_ok _ _ fun x hx => other_clone.1 (h.other x hx), list_clone_ok _ _ fun x hx => body_clone.1 (h.bodies x hx)]
  simp [OSIP_SUCCESS]

theorem clone_fail {m : SipMessage} (hp : m.Proper) (h : ¬ Copyable m) : osip_message_clone m = (OSIP_BADPARAMETER, none) := by
  unfold osip_message_clone
  by_cases h1 : ∀ u ∈ m.start.req_uri, u.Complete
  rotate_left
  · rw [uri_opt_clone.2 h1]; simp [OSIP_BADPARAMETER]
  rw [uri_opt_clone.1 h1]
  simp only [OSIP_SUCCESS, ne_eq, not_true, if_false]
  by_cases h2 : ∀ k, ∀ x ∈ m.hdr k, x.Complete k
  rotate_left
  · generalize (SipMessage.mk _ _ _ _ _) = copy
    have e := headers_clone_fail hp cloneOrder copy (by
      obtain ⟨k, hk⟩ := Classical.not_forall.1 h2
      obtain ⟨x, hx⟩ := Classical.not_forall.1 hk
      obtain ⟨hx, hn⟩ := Classical.not_imp.1 hx
      exact ⟨k, cloneOrder_all k, x, hx, hn⟩)
    generalize cloneHeaders m cloneOrder copy = q at e ⊢
    obtain ⟨i, c⟩ := q
    simp at e; subst e
    simp [OSIP_BADPARAMETER]
  rw [headers_clone_ok hp cloneOrder _ (fun _ _ => rfl) cloneOrder_nodup (fun k _ => h2 k)]
  simp only [OSIP_SUCCESS, ne_eq, not_true, if_false]
  by_cases h3 : ∀ h ∈ m.headers, h.hname ≠ none
  rotate_left
  · have e := list_clone_fail (f := osip_header_clone) m.headers []
      (fun x _ => (Classical.em _).imp other_clone.1 other_clone.2) (by
        obtain ⟨x, hx⟩ := Classical.not_forall.1 h3
        obtain ⟨hx, hn⟩ := Classical.not_imp.1 hx
        exact ⟨x, hx, other_clone.2 hn⟩)
    generalize osip_list_clone osip_header_clone m.headers [] = q at e ⊢
    obtain ⟨i, c⟩ := q
    simp at e; subst e
    simp [OSIP_BADPARAMETER]
  rw [list_clone_ok _ _ fun x hx => other_clone.1 (h3 x hx)]
  simp only [OSIP_SUCCESS, ne_eq, not_true, if_false]
  have h4 : ¬ ∀ b ∈ m.bodies, b.body ≠ [] ∧ ∀ h ∈ b.headers, h.hname ≠ none := fun e => h ⟨h1, h2, h3, e⟩
  have e := list_clone_fail (f := osip_body_clone) m.bodies []
    (fun x _ => (Classical.em _).imp body_clone.1 body_clone.2) (by
      obtain ⟨x, hx⟩ := Classical.not_forall.1 h4
      obtain ⟨hx, hn⟩ := Classical.not_imp.1 hx
      exact ⟨x, hx, body_clone.2 hn⟩)
  generalize osip_list_clone osip_body_clone m.bodies [] = q at e ⊢
  obtain ⟨i, c⟩ := q
  simp at e; subst e
  simp [OSIP_BADPARAMETER]

/-! ## What can be written can be copied -/

/-- A Contact which is the star has no URI or one with a host. -/
def StarOk (m : SipMessage) : Prop := ∀ f, .addr f ∈ m.hdr .contact → f.displayname.any (·.head? = some '*') → ∀ u ∈ f.url, u.Complete

theorem bad_not_written : ¬ Written (some (OSIP_BADPARAMETER, none)) := by
  rintro ⟨s, h⟩; simp at h

theorem uri_written {fresh : Nat → Buf} {u : Uri} (h : ∃ i s, osip_uri_to_str fresh (some u) = some (i, some s)) : u.Complete := by
  unfold Uri.Complete
  unfold osip_uri_to_str at h
  cases hs : u.string with
  | some s => simp
  | none =>
    cases hh : u.host with
    | some s => simp
    | none => simp [hs, hh] at h

theorem from_written {fresh : Nat → Buf} {f : From} (h : Written (osip_from_to_str fresh (some f))) : ∀ u ∈ f.url, u.Complete := by
  intro u hu
  unfold osip_from_to_str at h
  simp only [Option.mem_def.1 hu] at h
  apply uri_written (fresh := fresh)
  obtain ⟨s, h⟩ := h
  simp only [Option.bind_eq_bind] at h
  cases e : osip_uri_to_str fresh (some u) with
  | none => simp [e] at h
  | some q =>
    obtain ⟨i, o⟩ := q
    cases o with
    | none => simp [e] at h
    | some t => exact ⟨i, t, rfl⟩

theorem header_written {fresh : Nat → Buf} {k : Setter} {x : HeaderVal} (h : Written (headerToStr fresh k x))
    (hstar : k = .contact → ∀ f, x = .addr f → f.displayname.any (·.head? = some '*') → ∀ u ∈ f.url, u.Complete) : x.Complete k := by
  cases x with
  | via v =>
    obtain ⟨ve, pr, ho, po, co, ps⟩ := v
    unfold headerToStr osip_via_to_str at h
    cases ve <;> cases pr <;> cases ho <;> first | exact absurd h bad_not_written | simp [HeaderVal.Complete]
  | addr f =>
    unfold headerToStr at h
    simp only [HeaderVal.Complete]
    by_cases hk : k = .contact
    · simp only [if_pos hk] at h
      unfold osip_contact_to_str at h
      cases hd : f.displayname with
      | none => simp only [hd] at h; exact from_written h
      | some d =>
        by_cases hd' : d.head? = some '*'
        · exact hstar hk f rfl (by simp [hd, hd'])
        · cases d with
          | nil => simp only [hd] at h; exact from_written h
          | cons c d =>
            have : c ≠ '*' := by simpa using hd'
            simp only [hd] at h
            split at h
            · next e => simp at e; exact absurd e.1 this
            · exact from_written h
    · simp only [if_neg hk] at h; exact from_written h
  | callId c =>
    obtain ⟨n, ho⟩ := c
    unfold headerToStr osip_call_id_to_str at h
    cases n <;> first | exact absurd h bad_not_written | simp [HeaderVal.Complete]
  | cseq c =>
    obtain ⟨n, ho⟩ := c
    unfold headerToStr osip_cseq_to_str at h
    cases n <;> cases ho <;> first | exact absurd h bad_not_written | simp [HeaderVal.Complete]
  | auth t F =>
    intro hk
    have : ¬ (k = .authorization ∨ k = .proxy_authorization) := by rcases hk with rfl | rfl <;> simp
    unfold headerToStr at h
    simp only [if_neg this, if_pos hk, osip_www_authenticate_to_str] at h
    cases t <;> first | exact absurd h bad_not_written | simp
  | entry e =>
    obtain ⟨n, ho⟩ := e
    unfold headerToStr osip_entry_to_str at h
    cases n <;> first | exact absurd h bad_not_written | simp [HeaderVal.Complete]
  | media ct => trivial
  | value v => trivial

theorem other_written {h : Header} (hw : Written (osip_header_to_str (some h))) : h.hname ≠ none := by
  obtain ⟨n, v⟩ := h
  unfold osip_header_to_str at hw
  cases n <;> first | exact absurd hw bad_not_written | simp

theorem body_headers_written : ∀ (hs : List Header) (n : Nat) (buf : Str) (n' : Nat) (buf' : Str),
    bodyHeadersStr hs n buf = some (0, n', buf') → ∀ h ∈ hs, h.hname ≠ none
  | [], _, _, _, _, _ => by simp
  | h :: hs, n, buf, n', buf', e => by
    unfold bodyHeadersStr at e
    simp only [Option.bind_eq_bind] at e
    cases hq : osip_header_to_str (some h) with
    | none => simp [hq] at e
    | some q =>
      obtain ⟨i, o⟩ := q
      simp only [hq, Option.bind_some] at e
      by_cases hi : i ≠ 0
      · simp [hi] at e
      · rw [if_neg hi] at e
        cases o with
        | none => simp at e
        | some t =>
          simp only [Option.bind_some] at e
          have hi' : i = OSIP_SUCCESS := Classical.not_not.1 hi
          subst hi'
          obtain ⟨b1, -, e⟩ := Option.bind_eq_some_iff.1 e
          obtain ⟨b2, -, e⟩ := Option.bind_eq_some_iff.1 e
          have ih := body_headers_written hs _ _ _ _ e
          intro x hx
          rcases List.mem_cons.1 hx with rfl | hx
          · exact other_written ⟨t, hq⟩
          · exact ih x hx

theorem body_written_complete {b : Body} (h : Written (osip_body_to_str b)) : b.body ≠ [] ∧ ∀ h ∈ b.headers, h.hname ≠ none := by
  obtain ⟨s, h⟩ := h
  unfold osip_body_to_str at h
  by_cases hb : b.body = []
  · simp [hb, OSIP_SUCCESS, OSIP_BADPARAMETER] at h
  rw [if_neg (by have := List.length_pos_iff.2 hb; omega)] at h
  refine ⟨hb, ?_⟩
  have key : ∀ n buf, ((bodyHeadersStr b.headers n buf).bind fun x =>
      if x.1 ≠ 0 then some (x.1, none) else bodyEnd b x.2.1 x.2.2) = some (OSIP_SUCCESS, some s) → ∀ h ∈ b.headers, h.hname ≠ none := by
    intro n buf e
    obtain ⟨⟨i, n', buf'⟩, e1, e⟩ := Option.bind_eq_some_iff.1 e
    by_cases hi : i ≠ 0
    · simp [hi] at e
    · have hi' : i = 0 := Classical.not_not.1 hi
      subst hi'
      exact body_headers_written _ _ _ _ _ e1
  cases hc : b.content_type with
  | none =>
    simp only [hc, Option.bind_eq_bind] at h
    exact key _ _ h
  | some ct =>
    simp only [hc, Option.bind_eq_bind] at h
    obtain ⟨b1, -, h⟩ := Option.bind_eq_some_iff.1 h
    obtain ⟨⟨i, t⟩, -, h⟩ := Option.bind_eq_some_iff.1 h
    by_cases hi : i ≠ 0
    · simp [hi] at h
    · simp only [if_neg hi] at h
      obtain ⟨t, -, h⟩ := Option.bind_eq_some_iff.1 h
      obtain ⟨b2, -, h⟩ := Option.bind_eq_some_iff.1 h
      obtain ⟨b3, -, h⟩ := Option.bind_eq_some_iff.1 h
      exact key _ _ h

theorem start_written {fresh : Nat → Buf} {st : StartLine} (h : Written (startline_to_str fresh st)) (hm : st.sip_method ≠ none) :
    ∀ u ∈ st.req_uri, u.Complete := by
  intro u hu
  obtain ⟨s, h⟩ := h
  unfold startline_to_str at h
  rw [if_pos hm] at h
  unfold startline_to_strreq at h
  obtain ⟨me, hme⟩ := Option.ne_none_iff_exists'.1 hm
  simp only [Option.mem_def.1 hu, hme, Option.bind_eq_bind] at h
  apply uri_written (fresh := fresh)
  cases e : osip_uri_to_str fresh (some u) with
  | none => simp [e] at h
  | some q =>
    obtain ⟨i, o⟩ := q
    cases o with
    | none => simp [e] at h
    | some t => exact ⟨i, t, rfl⟩

/-- Nothing is there which is neither written nor complete: the request URI of a response and the URI of a star. The header
Content-Length is computed when the message is written. -/
structure NoRemains (m : SipMessage) : Prop where
  uri : m.start.sip_method = none → ∀ u ∈ m.start.req_uri, u.Complete
  star : StarOk m
  length : ∀ x ∈ m.hdr .content_length, x.Complete .content_length

theorem serialisable_copyable {fresh : Nat → Buf} {m : SipMessage} (h : Serialisable fresh m) (hr : NoRemains m) : Copyable m := by
  refine ⟨?_, ?_, fun x hx => other_written (h.other x hx), fun b hb => body_written_complete (h.bodies b hb)⟩
  · by_cases hm : m.start.sip_method = none
    · exact hr.uri hm
    · exact start_written h.start hm
  · intro k x hx
    by_cases hk : k = .content_length
    · subst hk; exact hr.length x hx
    · exact header_written (h.known k hk x hx) fun e f ef => by
        subst e; subst ef; exact hr.star f hx

/-! ## C60 -/

/-- **C60**, the copy: a message is copied exactly if it has no incomplete part, and then the copy is equal to it. -/
theorem c60_copy {m : SipMessage} (hp : m.Proper) :
    (Copyable m → ∃ c, osip_message_clone m = (OSIP_SUCCESS, some c) ∧ c.msg = { m with cached := none }) ∧
    (¬ Copyable m → osip_message_clone m = (OSIP_BADPARAMETER, none)) :=
  ⟨fun h => ⟨_, clone_ok hp h, rfl⟩, clone_fail hp⟩

theorem takeWhile_noNul {t : List Char} (h : NUL ∉ t) : t.takeWhile (· ≠ NUL) = t := by
  induction t with
  | nil => rfl
  | cons c t ih =>
    simp only [List.mem_cons, not_or] at h
    rw [List.takeWhile_cons_of_pos (by simpa using fun e : c = NUL => h.1 e.symm), ih h.2]

theorem takeWhile_toNul {a b : List Char} (h : NUL ∉ a) : (a ++ NUL :: b).takeWhile (· ≠ NUL) = a := by
  rw [List.takeWhile_append_of_pos fun c hc => by simpa using fun e : c = NUL => h (e ▸ hc)]
  simp

/-- **C60**: whatever can be written can be copied, and the copy is written as the same bytes, if the text kept from an earlier
writing has no NUL. -/
theorem c60_clone_partial {fresh : Nat → Buf} {m : SipMessage} (hp : m.Proper) (hw : Serialisable fresh m) (hr : NoRemains m)
    (hn : ∀ t ∈ m.cached, NUL ∉ t) :
    ∃ c, osip_message_clone m = (OSIP_SUCCESS, some c) ∧
      ∀ sipfrag, c.to_str fresh sipfrag = (osip_message_to_str fresh sipfrag m).map fun r => (r.1, r.2.2) := by
  refine ⟨_, clone_ok hp (serialisable_copyable hw hr), fun sipfrag => ?_⟩
  obtain ⟨st, hdr, hs, bs, ca⟩ := m
  cases ca with
  | none => rfl
  | some t =>
    have ht : NUL ∉ t := hn t rfl
    simp only [MessageCopy.to_str, Option.map_some, osip_message_to_str, strdupBlock, takeWhile_noNul ht, memcpy]
    rw [if_pos (by simp; omega)]
    simp

/-- **C60** does not hold: the text kept from an earlier writing is copied only up to the first NUL, its length is kept, and writing the
copy reads behind the block. The message is the response `200 OK` with the body `he\0llo`. -/
theorem c60_violated :
    (∀ (fresh : Nat → Buf) (sipfrag : Bool) (m : SipMessage) (t : List Char) (c : MessageCopy), m.cached = some t → NUL ∈ t.dropLast →
      osip_message_clone m = (OSIP_SUCCESS, some c) → c.to_str fresh sipfrag = none) ∧
    ∃ m t m' t' c, osip_message_to_str (fun n => List.replicate n ' ') false m = some (OSIP_SUCCESS, m', some t) ∧
      osip_message_to_str (fun n => List.replicate n ' ') false m' = some (OSIP_SUCCESS, m', some t') ∧
      osip_message_clone m' = (OSIP_SUCCESS, some c) ∧ c.to_str (fun n => List.replicate n ' ') false = none := by
  refine ⟨?_, okExample, ?_⟩
  rotate_left
  · have h : ((osip_message_to_str (fun n => List.replicate n ' ') false okExample).any fun r => r.1 == 0 && r.2.2.isSome &&
        r.2.1.cached.isSome && (osip_message_clone r.2.1).1 == 0 &&
        (osip_message_clone r.2.1).2.any fun c => (c.to_str (fun n => List.replicate n ' ') false).isNone) = true := by decide +kernel
    cases e : osip_message_to_str (fun n => List.replicate n ' ') false okExample with
    | none => rw [e] at h; simp at h
    | some r =>
      obtain ⟨i, m', o⟩ := r
      rw [e] at h
      simp only [Option.any_some, Bool.and_eq_true, beq_iff_eq] at h
      obtain ⟨⟨⟨⟨h1, h2⟩, h3⟩, h4⟩, h5⟩ := h
      obtain ⟨t, rfl⟩ := Option.isSome_iff_exists.1 h2
      obtain ⟨t', ht'⟩ := Option.isSome_iff_exists.1 h3
      obtain ⟨c, hc, hc'⟩ := (Option.any_eq_true ..).1 h5
      refine ⟨t, m', t', c, by rw [h1]; rfl, ?_, Prod.ext h4 hc, Option.isNone_iff_eq_none.1 hc'⟩
      unfold osip_message_to_str
      rw [ht']
  intro fresh sipfrag m t c hc ht h
  have e : c.text = some (strdupBlock t, t.length) := by
    unfold osip_message_clone at h
    generalize cloneOpt osip_uri_clone m.start.req_uri = q at h
    obtain ⟨i, u⟩ := q
    dsimp only at h
    split at h
    · simp at h
    generalize cloneHeaders m cloneOrder _ = q at h
    obtain ⟨i, u⟩ := q
    dsimp only at h
    split at h
    · simp at h
    generalize osip_list_clone osip_header_clone _ _ = q at h
    obtain ⟨i, u⟩ := q
    dsimp only at h
    split at h
    · simp at h
    generalize osip_list_clone osip_body_clone _ _ = q at h
    obtain ⟨i, u⟩ := q
    dsimp only at h
    split at h
    · simp at h
    simp only [Prod.mk.injEq, Option.some.injEq, true_and] at h
    rw [← h, hc]
    rfl
  obtain ⟨a, b, hab, ha⟩ := mem_first ht
  have hb : t ≠ [] := by rintro rfl; simp at ht
  have ht' : t = a ++ NUL :: (b ++ [t.getLast hb]) := by
    conv => lhs; rw [← List.dropLast_concat_getLast hb, hab]
    simp
  unfold MessageCopy.to_str
  rw [e]
  generalize t.getLast hb = l at ht'
  subst ht'
  simp only [strdupBlock, takeWhile_toNul ha, memcpy]
  rw [if_neg (by simp; omega)]
  rfl

/-- A message with an incomplete header. -/
example : osip_message_clone (okWith (oneHeader .via (.via { version := some "2.0".toList, protocol := some "UDP".toList })) []) =
    (OSIP_BADPARAMETER, none) := by
  refine (c60_copy ?_).2 ?_
  · intro k t F h
    simp only [okWith, oneHeader] at h
    split at h <;> simp at h
  · intro h
    have := h.known .via (.via { version := some "2.0".toList, protocol := some "UDP".toList }) (by simp [okWith, oneHeader])
    exact this.2.2 rfl

/-- A message with all kinds of parts. -/
def copyExample : SipMessage :=
  { start := { sip_version := some "SIP/2.0".toList, sip_method := some "MESSAGE".toList,
               req_uri := some { scheme := some "sip".toList, username := some "a".toList, host := some "h".toList,
                                 url_params := [⟨"lr".toList, none⟩] } },
    hdr := fun k => if k = .www_authenticate then [.auth (some "Digest".toList) fun n => if n = "realm".toList then some "\"x\"".toList else none]
      else if k = .contact then [.addr { displayname := some "*".toList }] else if k = .content_type then [.media ⟨some "text".toList, some "plain".toList, []⟩]
      else [],
    headers := [⟨some "Subject".toList, some "x".toList⟩], bodies := [⟨"a\x00b".toList, [], none⟩] }

example : ∃ c, osip_message_clone copyExample = (OSIP_SUCCESS, some c) ∧ ∀ sipfrag,
    c.to_str (fun n => List.replicate n ' ') sipfrag =
      (osip_message_to_str (fun n => List.replicate n ' ') sipfrag copyExample).map fun r => (r.1, r.2.2) := by
  have hw : ∀ (q : Option (Int × Option Str)), (q.any fun r => r.1 = 0 ∧ r.2.isSome) = true → Written q := by
    intro q h
    obtain _ | ⟨i, _ | s⟩ := q
    · simp at h
    · simp at h
    · simp at h; exact ⟨s, by rw [h]; rfl⟩
  refine c60_clone_partial ?_ ⟨hw _ (by decide +kernel), ?_, ?_, ?_, ?_⟩ ⟨?_, ?_, ?_⟩ (by simp [copyExample])
  · intro k t F h n hn
    by_cases hk : k = .www_authenticate
    · subst hk
      simp only [copyExample, if_true, List.mem_singleton, HeaderVal.auth.injEq] at h
      rw [h.2] at hn
      by_cases e : n = "realm".toList
      · exact ⟨"realm", by decide, e⟩
      · exact absurd (if_neg e) hn
    · simp only [copyExample, if_neg hk] at h
      split at h
      · simp at h
      · split at h <;> simp at h
  · intro k hk x hx
    apply hw
    simp only [copyExample] at hx
    split at hx
    · next e => subst e; rw [List.mem_singleton.1 hx]; decide +kernel
    · split at hx
      · next e => subst e; rw [List.mem_singleton.1 hx]; decide +kernel
      · split at hx
        · next e => subst e; rw [List.mem_singleton.1 hx]; decide +kernel
        · simp at hx
  · intro h hh
    rw [List.mem_singleton.1 hh]
    exact hw _ (by decide +kernel)
  · intro h hh
    rw [List.mem_singleton.1 hh]
    exact hw _ (by decide +kernel)
  · intro _ d hd
    have : partBoundary copyExample = none := by decide +kernel
    rw [this] at hd; simp at hd
  · intro h; simp [copyExample] at h
  · intro f hf _ u hu
    simp only [copyExample, if_true, reduceCtorEq, if_false, List.mem_singleton, HeaderVal.addr.injEq] at hf
    subst hf; simp at hu
  · intro x hx; simp [copyExample] at hx

end Osip
