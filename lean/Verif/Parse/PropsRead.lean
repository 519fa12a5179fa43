import Verif.Parse.PropsSafe
import Verif.Parse.PropsClone

/-!
# C90: what is known of every message that was read
-/

set_option autoImplicit false

namespace Osip

theorem err_ne : OSIP_SYNTAXERROR ≠ OSIP_SUCCESS := by decide
theorem bad_ne : OSIP_BADPARAMETER ≠ OSIP_SUCCESS := by decide

theorem cseq_complete {h : List Char} {c : CSeq} (e : osip_cseq_parse h = some (OSIP_SUCCESS, c)) : c.method ≠ none ∧ c.number ≠ none := by
  have := err_ne
  simp only [osip_cseq_parse, Option.bind_eq_bind, Option.pure_def] at e
  grind [Option.bind_eq_some_iff]

theorem call_id_complete {h : List Char} {c : CallId} (e : osip_call_id_parse h = some (OSIP_SUCCESS, c)) : c.number ≠ none := by
  have := err_ne
  simp only [osip_call_id_parse, Option.bind_eq_bind, Option.pure_def] at e
  grind [Option.bind_eq_some_iff]

theorem entry_complete {h : List Char} {p : Option (List Char)} {c : ListEntry} (e : entryRest h p = some (OSIP_SUCCESS, c)) : c.element ≠ none := by
  have := err_ne
  have key : ∀ ps h p c, entryElement ps h p = some (OSIP_SUCCESS, c) → c.element ≠ none := by
    intro ps h p c e
    simp only [entryElement, Option.bind_eq_bind, Option.pure_def] at e
    grind [Option.bind_eq_some_iff]
  simp only [entryRest, Option.bind_eq_bind, Option.pure_def] at e
  grind [Option.bind_eq_some_iff, OSIP_SUCCESS]

theorem info_complete {h : List Char} {c : ListEntry} (e : osip_call_info_parse h = some (OSIP_SUCCESS, c)) : c.element ≠ none := by
  have := err_ne
  simp only [osip_call_info_parse, Option.bind_eq_bind, Option.pure_def] at e
  grind [Option.bind_eq_some_iff, entry_complete]

theorem encoding_complete {h : List Char} {c : ListEntry} (e : osip_accept_encoding_parse h = some (OSIP_SUCCESS, c)) : c.element ≠ none := by
  have := err_ne
  simp only [osip_accept_encoding_parse, Option.bind_eq_bind, Option.pure_def] at e
  grind [Option.bind_eq_some_iff, entry_complete]

theorem v6_complete {v : Via} {h p : List Char} {v6 : Option (List Char)} {r : Except Int (Via × Option (List Char))} (e : viaV6 v h p v6 = some r) :
    (∀ i, r = .error i → i ≠ OSIP_SUCCESS) ∧
      ∀ v' q, r = .ok (v', q) → v'.version = v.version ∧ v'.protocol = v.protocol ∧ (v6.isSome → v'.host ≠ none) := by
  have := err_ne
  simp only [viaV6, Option.bind_eq_bind, Option.pure_def] at e
  grind [Option.bind_eq_some_iff]

theorem port_complete {v : Via} {p : List Char} {q : Option (List Char)} {r : Except (Int × Via) (Via × List Char)} (e : viaPort v p q = some r) :
    (∀ i v', r = .error (i, v') → i ≠ OSIP_SUCCESS) ∧
      ∀ v' q, r = .ok (v', q) → v'.version = v.version ∧ v'.protocol = v.protocol ∧ v'.host = v.host := by
  have := err_ne
  simp only [viaPort, Option.bind_eq_bind, Option.pure_def] at e
  grind [Option.bind_eq_some_iff]

theorem host_port_complete {v v' : Via} {h p : List Char} (e : viaHostPort v h p = some (OSIP_SUCCESS, v')) :
    v'.host ≠ none ∧ v'.version = v.version ∧ v'.protocol = v.protocol := by
  have := err_ne
  simp only [viaHostPort, Option.bind_eq_bind, Option.pure_def] at e
  grind [Option.bind_eq_some_iff, v6_complete, port_complete]

theorem comment_complete {h : List Char} {i : Int} (e : viaComment h = some (.error i)) : i ≠ OSIP_SUCCESS := by
  have := err_ne
  simp only [viaComment, Option.bind_eq_bind, Option.pure_def] at e
  grind [Option.bind_eq_some_iff]

theorem via_complete {h : List Char} {c : Via} (e : osip_via_parse h = some (OSIP_SUCCESS, c)) :
    c.version ≠ none ∧ c.protocol ≠ none ∧ c.host ≠ none := by
  have := err_ne
  simp only [osip_via_parse, Option.bind_eq_bind, Option.pure_def, Option.bind_eq_some_iff] at e
  obtain ⟨a, -, e⟩ := e
  split at e
  · grind
  simp only [Option.bind_eq_some_iff] at e
  obtain ⟨b, -, e⟩ := e
  split at e
  · grind
  split at e
  · grind
  simp only [Option.bind_eq_some_iff] at e
  obtain ⟨v, -, d, -, e⟩ := e
  split at e
  · grind
  split at e
  · grind
  simp only [Option.bind_eq_some_iff] at e
  obtain ⟨p, -, f, hf, e⟩ := e
  split at e
  · grind [comment_complete]
  simp only [Option.bind_eq_some_iff] at e
  obtain ⟨g, -, e⟩ := e
  split at e
  · have := host_port_complete e; grind
  split at e
  · split at e
    · grind
    · simp only [Option.bind_eq_some_iff] at e
      obtain ⟨t, -, ⟨i, ps⟩, -, e⟩ := e
      split at e
      · grind [OSIP_SUCCESS]
      · have := host_port_complete e; grind
  · have := host_port_complete e; grind

theorem uri_host_complete {u u' : Uri} {h : List Char} {p : Nat} (e : uriHost u h p = some (OSIP_SUCCESS, u')) : u'.host ≠ none := by
  have := err_ne
  simp only [uriHost, Option.bind_eq_bind, Option.pure_def] at e
  grind [Option.bind_eq_some_iff]

theorem password_complete {sscanf : Str → Option Nat} {u : Uri} {a b : List Char} {r : Except (Int × Uri) (Uri × List Char)}
    (e : uriPassword sscanf u a b = some r) : ∀ i v', r = .error (i, v') → i ≠ OSIP_SUCCESS := by
  have := err_ne
  simp only [uriPassword, Option.bind_eq_bind, Option.pure_def] at e
  grind [Option.bind_eq_some_iff]

theorem user_complete {sscanf : Str → Option Nat} {u : Uri} {a b : List Char} {r : Except (Int × Uri) (Uri × List Char)}
    (e : uriUser sscanf u a b = some r) : ∀ i v', r = .error (i, v') → i ≠ OSIP_SUCCESS := by
  have := err_ne
  simp only [uriUser, Option.bind_eq_bind, Option.pure_def, Option.bind_eq_some_iff] at e
  obtain ⟨a, -, e⟩ := e
  split at e
  · grind
  simp only [Option.bind_eq_some_iff] at e
  obtain ⟨c, -, e⟩ := e
  split at e
  · grind
  simp only [Option.bind_eq_some_iff] at e
  obtain ⟨p, hp, e⟩ := e
  split at e
  · have := password_complete hp; grind
  split at e
  · grind
  simp only [Option.bind_eq_some_iff] at e
  obtain ⟨_, -, _, -, e⟩ := e
  grind

theorem tail_complete {sscanf : Str → Option Nat} {u : Uri} {a : List Char} {r : Except (Int × Uri) (Uri × List Char)}
    (e : uriTail sscanf u a = some r) : ∀ i v', r = .error (i, v') → i ≠ OSIP_SUCCESS := by
  have := err_ne
  simp only [uriTail, Option.bind_eq_bind, Option.pure_def] at e
  grind [Option.bind_eq_some_iff]

theorem uri_port_complete {u : Uri} {a b : List Char} {r : Except (Int × Uri) (Uri × Nat)}
    (e : uriPort u a b = some r) : ∀ i v', r = .error (i, v') → i ≠ OSIP_SUCCESS := by
  have := err_ne
  simp only [uriPort, Option.bind_eq_bind, Option.pure_def] at e
  grind [Option.bind_eq_some_iff]

theorem uri_sip_complete {sscanf : Str → Option Nat} {u u' : Uri} {a b : List Char} (e : uriSip sscanf u a b = some (OSIP_SUCCESS, u')) :
    u'.host ≠ none := by
  simp only [uriSip, Option.bind_eq_bind, Option.pure_def, Option.bind_eq_some_iff] at e
  obtain ⟨a, ha, e⟩ := e
  split at e
  · rename_i x; obtain ⟨i, v⟩ := x; cases e; exact absurd rfl (user_complete ha _ _ rfl)
  simp only [Option.bind_eq_some_iff] at e
  obtain ⟨a, ha, e⟩ := e
  split at e
  · rename_i x; obtain ⟨i, v⟩ := x; cases e; exact absurd rfl (tail_complete ha _ _ rfl)
  simp only [Option.bind_eq_some_iff] at e
  obtain ⟨a, ha, e⟩ := e
  split at e
  · rename_i x; obtain ⟨i, v⟩ := x; cases e; exact absurd rfl (uri_port_complete ha _ _ rfl)
  exact uri_host_complete e

theorem uri_complete {sscanf : Str → Option Nat} {h : List Char} {c : Uri} (e : osip_uri_parse sscanf h = some (OSIP_SUCCESS, c)) : c.Complete := by
  have := err_ne
  have := bad_ne
  unfold Uri.Complete
  simp only [osip_uri_parse, Option.bind_eq_bind, Option.pure_def, Option.bind_eq_some_iff] at e
  obtain ⟨a, -, e⟩ := e
  split at e
  · grind
  simp only [Option.bind_eq_some_iff] at e
  obtain ⟨a, -, e⟩ := e
  split at e
  · grind
  split at e
  · grind
  split at e
  · grind
  simp only [Option.bind_eq_some_iff] at e
  obtain ⟨a, -, b, -, e⟩ := e
  split at e
  · grind
  simp only [Option.bind_eq_some_iff] at e
  obtain ⟨a, -, b, -, e⟩ := e
  split at e
  · simp only [Option.bind_eq_some_iff] at e
    obtain ⟨a, -, e⟩ := e
    split at e <;> grind
  · exact .inl (uri_sip_complete e)

theorem rest_complete {sscanf : Str → Option Nat} {f : From} (hf : f.url = none) {h : List Char} {n : Int} {p : Option (List Char)} {c : From}
    (e : fromRest sscanf f h n p = some (OSIP_SUCCESS, c)) : ∀ u ∈ c.url, u.Complete := by
  have := err_ne
  simp only [fromRest, Option.bind_eq_bind, Option.pure_def] at e
  grind [Option.bind_eq_some_iff, uri_complete]

theorem url_complete {sscanf : Str → Option Nat} {f : From} (hf : f.url = none) {h : List Char} {c : From}
    (e : fromUrl sscanf f h = some (OSIP_SUCCESS, c)) : ∀ u ∈ c.url, u.Complete := by
  have := err_ne
  simp only [fromUrl, Option.bind_eq_bind, Option.pure_def] at e
  grind [Option.bind_eq_some_iff, rest_complete]

theorem from_complete {sscanf : Str → Option Nat} {h : List Char} {c : From} (e : osip_from_parse sscanf h = some (OSIP_SUCCESS, c)) :
    ∀ u ∈ c.url, u.Complete := by
  have := err_ne
  have hq : ∀ h c, fromQuoted sscanf h = some (OSIP_SUCCESS, c) → ∀ u ∈ c.url, u.Complete := by
    intro h c e
    simp only [fromQuoted, Option.bind_eq_bind, Option.pure_def, Option.bind_eq_some_iff] at e
    obtain ⟨a, -, e⟩ := e
    split at e
    · grind
    simp only [Option.bind_eq_some_iff] at e
    obtain ⟨a, -, b, -, c, -, e⟩ := e
    split at e
    · grind
    simp only [Option.bind_eq_some_iff] at e
    obtain ⟨a, -, e⟩ := e
    split at e
    · grind
    exact url_complete rfl e
  simp only [osip_from_parse, Option.bind_eq_bind, Option.pure_def, Option.bind_eq_some_iff] at e
  obtain ⟨a, -, b, -, e⟩ := e
  split at e
  · grind
  split at e
  · exact hq _ _ e
  simp only [Option.bind_eq_some_iff] at e
  obtain ⟨a, -, b, -, e⟩ := e
  split at e
  · grind
  split at e
  · simp only [Option.bind_eq_some_iff] at e
    obtain ⟨a, -, e⟩ := e
    split at e
    · grind
    split at e
    · simp only [Option.bind_eq_some_iff] at e
      obtain ⟨a, -, e⟩ := e
      exact url_complete rfl e
    · exact url_complete rfl e
  · exact url_complete rfl e

theorem contact_complete {sscanf : Str → Option Nat} {h : List Char} {c : From} (e : osip_contact_parse sscanf h = some (OSIP_SUCCESS, c)) :
    ∀ u ∈ c.url, u.Complete := by
  simp only [osip_contact_parse, Option.bind_eq_bind, Option.pure_def] at e
  grind [Option.bind_eq_some_iff, from_complete]

/-- Only the strings of the table are set. -/
theorem round_fields (T : List (DirKind × Str)) : ∀ {F : Fields} {s : List Char} {ok : Bool} {F' : Fields} {rd : Round},
    authRound T F s ok = some (F', rd) → ∀ n, F' n ≠ none → F n ≠ none ∨ n ∈ T.map (·.2) := by
  induction T with
  | nil => intro F s ok F' rd e n hn; cases e; exact .inl hn
  | cons q T ih =>
    obtain ⟨k, name⟩ := q
    intro F s ok F' rd e n hn
    simp only [authRound, Option.bind_eq_bind, Option.pure_def, Option.bind_eq_some_iff] at e
    obtain ⟨⟨i, v, next⟩, -, e⟩ := e
    have hset : (F.set name v) n ≠ none → F n ≠ none ∨ n ∈ ((k, name) :: T).map (·.2) := by
      intro h
      unfold Fields.set at h
      split at h
      · next e => right; simp [e]
      · exact .inl h
    simp only at e
    split at e
    · cases e; exact hset hn
    · split at e
      · cases e; exact hset hn
      · rcases ih e n hn with h | h
        · exact hset h
        · right; simp only [List.map_cons, List.mem_cons]; exact .inr h

theorem loop_fields (T : List (DirKind × Str)) (k : Nat) : ∀ {F : Fields} {s : List Char} {F' : Fields} {i : Int},
    authLoop T k F s = some (i, F') → ∀ n, F' n ≠ none → F n ≠ none ∨ n ∈ T.map (·.2) := by
  induction k with
  | zero => intro F s F' i e; cases e
  | succ k ih =>
    intro F s F' i e n hn
    simp only [authLoop, Option.bind_eq_bind, Option.pure_def, Option.bind_eq_some_iff] at e
    obtain ⟨⟨F1, rd⟩, h1, e⟩ := e
    have hr := round_fields T h1 n
    simp only at e
    have hgo : ∀ s, authLoop T k F1 s = some (i, F') → F n ≠ none ∨ n ∈ T.map (·.2) := by
      intro s e
      rcases ih e n hn with h | h
      · exact hr h
      · exact .inr h
    split at e
    · cases e; exact hr hn
    · exact hgo _ e
    · simp only [Option.bind_eq_some_iff] at e
      obtain ⟨r, -, e⟩ := e
      split at e
      · cases e; exact hr hn
      · exact hgo _ e

theorem credentials_fields {T : List (DirKind × Str)} {h : List Char} {i : Int} {t : Option Str} {F : Fields}
    (e : credentials_parse T h = some (i, t, F)) : (i = OSIP_SUCCESS → t ≠ none) ∧ ∀ n, F n ≠ none → n ∈ T.map (·.2) := by
  have := err_ne
  simp only [credentials_parse, Option.bind_eq_bind, Option.pure_def, Option.bind_eq_some_iff] at e
  obtain ⟨sp, -, e⟩ := e
  split at e
  · cases e; simpa using this
  · split at e
    · cases e; simpa using this
    · simp only [Option.bind_eq_some_iff] at e
      obtain ⟨t, -, ⟨j, F1⟩, h1, e⟩ := e
      cases e
      refine ⟨by simp, fun n hn => ?_⟩
      rcases loop_fields T _ h1 n hn with h | h
      · simp at h
      · exact h

theorem info_fields {h : List Char} {i : Int} {t : Option Str} {F : Fields}
    (e : osip_authentication_info_parse h = some (i, t, F)) : ∀ n, F n ≠ none → n ∈ infoTable.map (·.2) := by
  simp only [osip_authentication_info_parse, Option.bind_eq_bind, Option.pure_def, Option.bind_eq_some_iff] at e
  obtain ⟨sp, -, hk, -, e⟩ := e
  intro n hn
  have key : ∀ k s j, authLoop infoTable k (fun _ => none) s = some (j, F) → n ∈ infoTable.map (·.2) := by
    intro k s j e
    rcases loop_fields infoTable _ e n hn with h | h
    · simp at h
    · exact h
  split at e
  · split at e
    · simp only [Option.bind_eq_some_iff] at e
      obtain ⟨t, -, ⟨j, F1⟩, h1, e⟩ := e
      cases e; exact key _ _ _ h1
    · simp only [Option.bind_eq_some_iff] at e
      obtain ⟨⟨j, F1⟩, h1, e⟩ := e
      cases e; exact key _ _ _ h1
  · simp only [Option.bind_eq_some_iff] at e
    obtain ⟨⟨j, F1⟩, h1, e⟩ := e
    cases e; exact key _ _ _ h1

theorem www_members : ∀ n ∈ wwwTable.map (·.2), ∃ s ∈ members .www_authenticate, n = s.toList := by decide +kernel
theorem auth_members : ∀ n ∈ authTable.map (·.2), ∃ s ∈ members .authorization, n = s.toList := by decide +kernel
theorem info_members : ∀ n ∈ infoTable.map (·.2), ∃ s ∈ members .authentication_info, n = s.toList := by decide +kernel

/-- The header is complete and has only the strings which the structures have. -/
def HeaderVal.Fine (k : Setter) (x : HeaderVal) : Prop :=
  x.Complete k ∧ ∀ t F, x = .auth t F → ∀ n, F n ≠ none → ∃ s ∈ members k, n = s.toList

theorem www_fine {k : Setter} (hk : members k = members .www_authenticate) {v : Option (List Char)} {x : HeaderVal}
    (e : (v.bind fun h => (osip_www_authenticate_parse h).map fun (i, t, F) => (i, HeaderVal.auth t F)) = some (OSIP_SUCCESS, x)) : x.Fine k := by
  simp only [Option.bind_eq_some_iff, Option.map_eq_some_iff] at e
  obtain ⟨_, -, ⟨i, t, F⟩, h1, h2⟩ := e
  simp only [Prod.mk.injEq] at h2
  obtain ⟨rfl, rfl⟩ := h2
  have h := credentials_fields (T := wwwTable) h1
  refine ⟨fun _ => h.1 rfl, ?_⟩
  intro t' F' e n hn
  cases e
  rw [hk]
  exact www_members n (h.2 n hn)

theorem auth_fine {k : Setter} (hk : members k = members .authorization) {v : Option (List Char)} {x : HeaderVal}
    (e : (v.bind fun h => (osip_authorization_parse h).map fun (i, t, F) => (i, HeaderVal.auth t F)) = some (OSIP_SUCCESS, x)) : x.Fine k := by
  simp only [Option.bind_eq_some_iff, Option.map_eq_some_iff] at e
  obtain ⟨_, -, ⟨i, t, F⟩, h1, h2⟩ := e
  simp only [Prod.mk.injEq] at h2
  obtain ⟨rfl, rfl⟩ := h2
  have h := credentials_fields (T := authTable) h1
  refine ⟨fun _ => h.1 rfl, ?_⟩
  intro t' F' e n hn
  cases e
  rw [hk]
  exact auth_members n (h.2 n hn)

theorem info_fine {k : Setter} (hk : members k = members .authentication_info) (hk' : k ≠ .www_authenticate ∧ k ≠ .proxy_authenticate)
    {v : Option (List Char)} {x : HeaderVal}
    (e : (v.bind fun h => (osip_authentication_info_parse h).map fun (i, t, F) => (i, HeaderVal.auth t F)) = some (OSIP_SUCCESS, x)) : x.Fine k := by
  simp only [Option.bind_eq_some_iff, Option.map_eq_some_iff] at e
  obtain ⟨_, -, ⟨i, t, F⟩, h1, h2⟩ := e
  simp only [Prod.mk.injEq] at h2
  obtain ⟨rfl, rfl⟩ := h2
  have h := info_fields h1
  refine ⟨fun h => (h.elim hk'.1 hk'.2).elim, ?_⟩
  intro t' F' e n hn
  cases e
  rw [hk]
  exact info_members n (h n hn)

theorem plain_fine {α : Type} {k : Setter} {f : List Char → Option (Int × α)} {g : α → HeaderVal} (hg : ∀ a t F, g a ≠ .auth t F)
    (hf : ∀ h a, f h = some (OSIP_SUCCESS, a) → (g a).Complete k) {v : Option (List Char)} {x : HeaderVal}
    (e : (v.bind fun h => (f h).map fun (i, x) => (i, g x)) = some (OSIP_SUCCESS, x)) : x.Fine k := by
  simp only [Option.bind_eq_some_iff, Option.map_eq_some_iff] at e
  obtain ⟨_, -, ⟨i, y⟩, h1, h2⟩ := e
  simp only [Prod.mk.injEq] at h2
  obtain ⟨rfl, rfl⟩ := h2
  exact ⟨hf _ _ h1, fun t F e => absurd e (hg y t F)⟩

theorem any_fine {α : Type} {k : Setter} {o : Option (Int × α)} {g : α → HeaderVal} (hg : ∀ a t F, g a ≠ .auth t F)
    (hf : ∀ a, (g a).Complete k) {x : HeaderVal} (e : (o.map fun (i, x) => (i, g x)) = some (OSIP_SUCCESS, x)) : x.Fine k := by
  simp only [Option.map_eq_some_iff] at e
  obtain ⟨⟨i, y⟩, h1, h2⟩ := e
  simp only [Prod.mk.injEq] at h2
  obtain ⟨rfl, rfl⟩ := h2
  exact ⟨hf _, fun t F e => absurd e (hg y t F)⟩

theorem header_fine {sscanf : Str → Option Nat} {k : Setter} {v : Option (List Char)} {x : HeaderVal}
    (e : parseHeader sscanf k v = some (OSIP_SUCCESS, x)) : x.Fine k := by
  cases k
  case accept => exact any_fine (g := .media) (by simp) (fun _ => trivial) e
  case content_type => exact any_fine (g := .media) (by simp) (fun _ => trivial) e
  case content_length => exact any_fine (g := .value) (by simp) (fun _ => trivial) e
  case mime_version => exact any_fine (g := .value) (by simp) (fun _ => trivial) e
  case allow => exact any_fine (g := .value) (by simp) (fun _ => trivial) e
  case content_encoding => exact any_fine (g := .value) (by simp) (fun _ => trivial) e
  case via => exact plain_fine (g := .via) (by simp) (fun _ _ => via_complete) e
  case «from» => exact plain_fine (g := .addr) (by simp) (fun _ _ => from_complete) e
  case to => exact plain_fine (g := .addr) (by simp) (fun _ _ => from_complete) e
  case route => exact plain_fine (g := .addr) (by simp) (fun _ _ => from_complete) e
  case record_route => exact plain_fine (g := .addr) (by simp) (fun _ _ => from_complete) e
  case contact => exact plain_fine (g := .addr) (by simp) (fun _ _ => contact_complete) e
  case call_id => exact plain_fine (g := .callId) (by simp) (fun _ _ => call_id_complete) e
  case cseq => exact plain_fine (g := .cseq) (by simp) (fun _ _ => cseq_complete) e
  case www_authenticate => exact www_fine rfl e
  case proxy_authenticate => exact www_fine (by decide) e
  case authorization => exact auth_fine rfl e
  case proxy_authorization => exact auth_fine (by decide) e
  case authentication_info => exact info_fine rfl (by decide) e
  case proxy_authentication_info => exact info_fine (by decide) (by decide) e
  case accept_encoding => exact plain_fine (g := .entry) (by simp) (fun _ _ => encoding_complete) e
  case accept_language => exact plain_fine (g := .entry) (by simp) (fun _ _ => encoding_complete) e
  case call_info => exact plain_fine (g := .entry) (by simp) (fun _ _ => info_complete) e
  case alert_info => exact plain_fine (g := .entry) (by simp) (fun _ _ => info_complete) e
  case error_info => exact plain_fine (g := .entry) (by simp) (fun _ _ => info_complete) e

/-! ## Bodies -/

theorem memcpy_len {p d : List Char} {n : Int} (h : memcpy p n = some d) : (d.length : Int) = n := by
  unfold memcpy at h
  split at h
  · cases h; simp; omega
  · cases h

/-- What has to be there so that a body can be copied. -/
def Body.Fine (b : Body) : Prop := b.body ≠ [] ∧ ∀ h ∈ b.headers, h.hname ≠ none

theorem body_headers_fine (n : Nat) : ∀ {b b' : Body} {s : List Char} {i : Int} {o : Option (List Char)},
    bodyHeaders n b s = some (i, b', o) → (∀ h ∈ b.headers, h.hname ≠ none) → ∀ h ∈ b'.headers, h.hname ≠ none := by
  induction n with
  | zero => intro b b' s i o h; cases h
  | succ n ih =>
    intro b b' s i o e hb
    have hline : ∀ {a v : Str} {i : Int} {b' : Body}, bodyLine b a v = some (i, b') → ∀ h ∈ b'.headers, h.hname ≠ none := by
      intro a v i b' e
      simp only [bodyLine, Option.bind_eq_bind, Option.pure_def, Option.bind_eq_some_iff] at e
      obtain ⟨_, -, e⟩ := e
      split at e
      · simp only [osip_body_set_contenttype, Option.bind_eq_bind, Option.pure_def, Option.bind_eq_some_iff] at e
        obtain ⟨⟨j, ct⟩, -, e⟩ := e
        simp only at e
        split at e <;> (cases e; exact hb)
      · cases e
        intro h hh
        rcases List.mem_append.1 hh with hh | hh
        · exact hb h hh
        · rw [List.mem_singleton.1 hh]; simp
    simp only [bodyHeaders, Option.bind_eq_bind, Option.pure_def, Option.bind_eq_some_iff] at e
    obtain ⟨f, -, e⟩ := e
    split at e
    · cases e; exact hb
    simp only [Option.bind_eq_some_iff] at e
    obtain ⟨c, -, e⟩ := e
    split at e
    · cases e; exact hb
    split at e
    · cases e; exact hb
    simp only [Option.bind_eq_some_iff] at e
    obtain ⟨nm, -, e⟩ := e
    split at e
    · split at e
      · cases e; exact hb
      simp only [Option.bind_eq_some_iff] at e
      obtain ⟨hv, -, ⟨j, b1⟩, h1, e⟩ := e
      have hl := hline h1
      simp only at e
      split at e
      · cases e; exact hl
      simp only [Option.bind_eq_some_iff] at e
      obtain ⟨d, -, e⟩ := e
      split at e
      · cases e; exact hl
      · exact ih e hl
    · cases e; exact hb

theorem mime_fine {s : List Char} {n : Nat} {b : Body} (e : osip_body_parse_mime s n = some (OSIP_SUCCESS, b)) : b.Fine := by
  simp only [osip_body_parse_mime, Option.bind_eq_bind, Option.pure_def, Option.bind_eq_some_iff] at e
  obtain ⟨⟨i, b1, o⟩, h1, e⟩ := e
  have h1 := body_headers_fine _ h1 (by simp)
  simp only at e
  split at e
  · rename_i h; cases e; exact absurd rfl h
  simp only [Option.bind_eq_some_iff] at e
  obtain ⟨p, -, q, -, e⟩ := e
  split at e
  · cases e
  simp only [Option.bind_eq_some_iff] at e
  obtain ⟨d, hd, e⟩ := e
  cases e
  refine ⟨?_, h1⟩
  have := memcpy_len hd
  intro h
  simp only at h
  rw [h] at this
  simp only [List.length_nil] at this
  omega

theorem mime_loop_fine {sep : Str} {eb : List Char} (n : Nat) : ∀ {bs bs' : List Body} {s : List Char} {i : Int},
    mimeLoop sep eb n bs s = some (i, bs') → (∀ b ∈ bs, b.Fine) → ∀ b ∈ bs', b.Fine := by
  induction n with
  | zero => intro _ _ _ _ e; cases e
  | succ n ih =>
    intro bs bs' s i e hb
    simp only [mimeLoop, Option.bind_eq_bind, Option.pure_def, Option.bind_eq_some_iff] at e
    obtain ⟨o, -, e⟩ := e
    split at e
    · cases e; exact hb
    simp only [Option.bind_eq_some_iff] at e
    obtain ⟨o, -, e⟩ := e
    split at e
    · cases e; exact hb
    simp only [Option.bind_eq_some_iff] at e
    obtain ⟨⟨p, l⟩, -, t, -, ⟨j, b⟩, h1, e⟩ := e
    simp only at e
    split at e
    · cases e; exact hb
    rename_i hj
    have hj : j = OSIP_SUCCESS := Classical.not_not.1 hj
    subst hj
    have hb' : ∀ x ∈ bs ++ [b], x.Fine := by
      intro x hx
      rcases List.mem_append.1 hx with hx | hx
      · exact hb x hx
      · rw [List.mem_singleton.1 hx]; exact mime_fine h1
    simp only [Option.bind_eq_some_iff] at e
    obtain ⟨o, -, e⟩ := e
    split at e
    · cases e; exact hb'
    · exact ih e hb'

theorem plain_body_fine {cl cl' : Option Str} (hcl : ∀ v ∈ cl, osip_atoi (some v) > 0) {s : List Char} {n : Nat} {i : Int} {bs : List Body}
    (e : plainBody cl s n = some (i, bs, cl')) : ∀ b ∈ bs, b.Fine := by
  simp only [plainBody, Option.bind_eq_bind, Option.pure_def, Option.bind_eq_some_iff] at e
  obtain ⟨c, -, e⟩ := e
  split at e
  · cases e; simp
  split at e
  · cases e; simp
  simp only [Option.bind_eq_some_iff] at e
  obtain ⟨k, -, e⟩ := e
  split at e
  · cases e; simp
  rename_i hlen
  have key : ∀ (len : Int) (x : Option Str), 0 < len →
      (if (↑n - ↑k) % 2 ^ 64 < len then some (OSIP_SYNTAXERROR, [], x) else
        (memcpy (s.drop k) len).bind fun tmp => (osip_body_parse (tmp ++ [NUL]) tmp.length).bind fun r =>
          if r.1 ≠ 0 then some (r.1, [], x) else some (OSIP_SUCCESS, [r.2], x)) = some (i, bs, cl') → ∀ b ∈ bs, b.Fine := by
    intro len x hpos e
    split at e
    · cases e; simp
    simp only [Option.bind_eq_some_iff] at e
    obtain ⟨d, hd, ⟨j, b⟩, hb, e⟩ := e
    simp only at e
    split at e
    · cases e; simp
    cases e
    simp only [osip_body_parse, Option.bind_eq_bind, Option.pure_def, Option.bind_eq_some_iff] at hb
    obtain ⟨x, hx, hb⟩ := hb
    cases hb
    intro b hb
    rw [List.mem_singleton.1 hb]
    refine ⟨?_, by simp⟩
    have h1 := memcpy_len hd
    have h2 := memcpy_len hx
    intro h
    simp only at h
    rw [h] at h2
    simp only [List.length_nil] at h2
    omega
  cases cl with
  | none => exact key _ _ (by simp only; omega) e
  | some v =>
    have := hcl v rfl
    have hb : osip_atoi (some v) < 2 ^ 31 := by
      simp only [osip_atoi, toInt32]; omega
    exact key _ _ (by simp only; omega) e

theorem bodies_fine {ct : Option MediaType} {cl cl' : Option Str} (hcl : ∀ v ∈ cl, osip_atoi (some v) > 0) {s : List Char} {n : Nat} {i : Int}
    {bs : List Body} (e : msg_osip_body_parse ct cl s n = some (i, bs, cl')) : ∀ b ∈ bs, b.Fine := by
  unfold msg_osip_body_parse at e
  split at e
  · split at e
    · split at e
      · cases e; simp
      · split at e
        · cases e; simp
        · simp only [Option.bind_eq_bind, Option.pure_def, Option.bind_eq_some_iff] at e
          obtain ⟨⟨j, b⟩, h1, e⟩ := e
          cases e
          exact mime_loop_fine _ h1 (by simp)
    · exact plain_body_fine hcl e
  · cases e; simp

/-! ## The end of a message -/

/-- A message as it is after the headers. -/
structure Good (start : StartLine) (m : SipMessage) : Prop where
  start : m.start = start
  known : ∀ k, ∀ x ∈ m.hdr k, x.Fine k
  single : ∀ k, presentCode k ≠ none → (m.hdr k).length ≤ 1
  other : ∀ h ∈ m.headers, h.hname ≠ none
  bodies : ∀ b ∈ m.bodies, b.Fine
  cached : m.cached = none
  length : m.hdr .content_length = [] ∨ ∃ v, m.hdr .content_length = [.value (some v)]

theorem good_default {st : StartLine} {m : SipMessage} (h : Good st m) (v : Str) :
    Good st (m.defaultLength v) ∧ (m.defaultLength v).hdr .content_length ≠ [] := by
  unfold SipMessage.defaultLength
  rcases h.length with hl | ⟨w, hl⟩
  · have hc : m.contentLength = none := by simp [SipMessage.contentLength, hl]
    rw [if_pos hc]
    have hh : ∀ k, k ≠ .content_length → (m.add .content_length (.value (some v))).hdr k = m.hdr k := by
      intro k hk; simp [SipMessage.add, hk]
    have hcl : (m.add .content_length (.value (some v))).hdr .content_length = [.value (some v)] := by simp [SipMessage.add, hl]
    refine ⟨⟨h.start, ?_, ?_, h.other, h.bodies, rfl, .inr ⟨v, hcl⟩⟩, by rw [hcl]; simp⟩
    · intro k x hx
      by_cases hk : k = .content_length
      · subst hk
        rw [hcl, List.mem_singleton] at hx
        subst hx
        exact ⟨trivial, by simp⟩
      · rw [hh k hk] at hx; exact h.known k x hx
    · intro k hk'
      by_cases hk : k = .content_length
      · subst hk; rw [hcl]; simp
      · rw [hh k hk]; exact h.single k hk'
  · have hc : m.contentLength ≠ none := by simp [SipMessage.contentLength, hl]
    rw [if_neg hc]
    exact ⟨h, by rw [hl]; simp⟩

theorem rest_good {sscanf : Str → Option Nat} {st : StartLine} {m m' : SipMessage} (h : Filled sscanf st m) {tmp : List Char}
    (e : parseRest m tmp = some (OSIP_SUCCESS, m')) : Good st m' ∧ m'.hdr .content_length ≠ [] := by
  simp only [parseRest, Option.bind_eq_bind, Option.pure_def] at e
  generalize hmm : (if m.contentLength = some none then ({ m with hdr := fun j => if j = .content_length then [] else m.hdr j } : SipMessage) else m) = m1 at e
  have hf : ∀ k, ∀ x ∈ m.hdr k, x.Fine k := by
    intro k x hx
    obtain ⟨v, -, hp⟩ := h.hdr k x hx
    exact header_fine hp
  have hval : ∀ x ∈ m.hdr .content_length, ∃ v, x = .value v := by
    intro x hx
    obtain ⟨v, -, hp⟩ := h.hdr _ x hx
    simp only [parseHeader, Option.map_eq_some_iff] at hp
    obtain ⟨⟨i, y⟩, -, h2⟩ := hp
    simp only [Prod.mk.injEq] at h2
    exact ⟨y, h2.2.symm⟩
  have hg : Good st m1 := by
    rw [← hmm]
    split
    · refine ⟨h.start, ?_, ?_, h.other, by simp [h.bodies], h.cached, .inl (by simp)⟩
      · intro k x hx
        simp only at hx
        split at hx
        · cases hx
        · exact hf k x hx
      · intro k hk
        simp only
        split
        · simp
        · exact h.single k hk
    · rename_i hc
      refine ⟨h.start, hf, h.single, h.other, by simp [h.bodies], h.cached, ?_⟩
      have hs := h.single .content_length (by simp [presentCode])
      match hl : m.hdr .content_length with
      | [] => exact .inl rfl
      | [x] =>
        obtain ⟨v, rfl⟩ := hval x (by rw [hl]; simp)
        cases v with
        | none => exact absurd (by simp [SipMessage.contentLength, hl]) hc
        | some v => exact .inr ⟨v, rfl⟩
      | _ :: _ :: _ => rw [hl] at hs; simp at hs
  simp only [Option.bind_eq_some_iff] at e
  obtain ⟨b, hb, e⟩ := e
  split at e
  · rename_i hbt
    simp only [Option.bind_eq_some_iff] at e
    obtain ⟨⟨i, bs, cl⟩, hbs, e⟩ := e
    have hcl : ∀ v ∈ m1.contentLength.bind id, osip_atoi (some v) > 0 := by
      intro v hv
      simp only [Option.mem_def] at hv
      rw [hv] at hb
      simp only [hasBody, Option.some.injEq] at hb
      rw [hbt] at hb
      simpa using hb
    have hfine := bodies_fine hcl hbs
    simp only at e
    have key : ∀ m2 : SipMessage, Good st m2 → (if i ≠ 0 then some (i, ({ m2 with bodies := m2.bodies ++ bs, cached := none } : SipMessage)) else
        some (OSIP_SUCCESS, ({ m2 with bodies := m2.bodies ++ bs, cached := none } : SipMessage).defaultLength "0".toList)) =
          some (OSIP_SUCCESS, m') → Good st m' ∧ m'.hdr .content_length ≠ [] := by
      intro m2 h2 e
      split at e
      · rename_i hi; cases e; exact absurd rfl hi
      · cases e
        refine good_default (m := { m2 with bodies := m2.bodies ++ bs, cached := none }) ⟨h2.start, h2.known, h2.single, h2.other, ?_, rfl, h2.length⟩ _
        intro b hb
        rcases List.mem_append.1 hb with hb | hb
        · exact h2.bodies b hb
        · exact hfine b hb
    cases cl with
    | none => exact key m1 hg e
    | some v => exact key _ (good_default hg v).1 e
  · cases e
    exact good_default hg _

theorem skip_nul {c : Char} : ∀ {t a b : List Char}, lwsSkip t = some (a, b) → c ≠ ' ' → c ≠ '\t' → c ∈ t → c ∈ b := by
  intro t
  induction t with
  | nil => intro a b h; cases h
  | cons x t ih =>
    intro a b h h1 h2 hc
    unfold lwsSkip at h
    split at h
    · rename_i hx
      simp only [Option.bind_eq_bind, Option.pure_def, Option.bind_eq_some_iff] at h
      obtain ⟨⟨a', b'⟩, h', e⟩ := h
      cases e
      rcases List.mem_cons.1 hc with rfl | hc
      · exact absurd hx (by simp [h1, h2])
      · exact ih h' h1 h2 hc
    · cases h; exact hc

theorem lws_nul (n : Nat) : ∀ {p q : List Char}, lwsLoop n p = some q → NUL ∈ p → NUL ∈ q := by
  have hn1 : NUL ≠ ' ' := by decide
  have hn2 : NUL ≠ '\t' := by decide
  induction n with
  | zero => intro p q h; cases h
  | succ n ih =>
    intro p q h hp
    cases p with
    | nil => cases h
    | cons c0 t0 =>
    by_cases h0 : c0 = NUL
    · unfold lwsLoop at h; rw [if_pos h0] at h; cases h; exact hp
    cases t0 with
    | nil => unfold lwsLoop at h; rw [if_neg h0] at h; cases h
    | cons c1 t1 =>
    by_cases h1 : c1 = NUL
    · unfold lwsLoop at h; rw [if_neg h0] at h; simp only [if_pos h1] at h; cases h; exact hp
    cases t1 with
    | nil => unfold lwsLoop at h; rw [if_neg h0] at h; simp only [if_neg h1] at h; cases h
    | cons c2 t2 =>
    by_cases h2 : c2 = NUL
    · unfold lwsLoop at h; rw [if_neg h0] at h; simp only [if_neg h1, if_pos h2] at h; cases h; exact hp
    cases t2 with
    | nil => unfold lwsLoop at h; rw [if_neg h0] at h; simp only [if_neg h1, if_neg h2] at h; cases h
    | cons c3 t3 =>
    by_cases h3 : c3 = NUL
    · unfold lwsLoop at h; rw [if_neg h0] at h; simp only [if_neg h1, if_neg h2, if_pos h3] at h; cases h; exact hp
    unfold lwsLoop at h
    rw [if_neg h0] at h
    simp only [if_neg h1, if_neg h2, if_neg h3] at h
    have hp : NUL ∈ t3 := by
      simp only [List.mem_cons] at hp
      rcases hp with hp | hp | hp | hp | hp
      · exact absurd hp.symm h0
      · exact absurd hp.symm h1
      · exact absurd hp.symm h2
      · exact absurd hp.symm h3
      · exact hp
    split at h
    · cases h; simp [hp]
    · split at h
      · simp only [Option.bind_eq_bind, Option.pure_def, Option.bind_eq_some_iff] at h
        obtain ⟨⟨a, b⟩, hs, h⟩ := h
        have hb : NUL ∈ b := skip_nul hs hn1 hn2 (by simp [hp])
        simp only at h
        split at h
        · cases h
        · simp only [Option.bind_eq_some_iff] at h
          obtain ⟨r, hr, h⟩ := h
          cases h
          rcases List.mem_cons.1 hb with hb | hb
          · rw [hb]; simp
          · simp [ih hr hb]
      · simp only [Option.bind_eq_bind, Option.pure_def, Option.bind_eq_some_iff] at h
        obtain ⟨r, hr, h⟩ := h
        cases h
        exact List.mem_cons_of_mem _ (ih hr (by simp [hp]))

/-! ## C90 -/

/-- The start line is the one of a request or of a response. -/
def StartLine.Whole (s : StartLine) : Prop :=
  (∃ method u version, method ≠ [] ∧ u.Complete ∧ s = { sip_method := some method, req_uri := some u, sip_version := some version }) ∨
    ∃ version code reason, code ≠ 0 ∧ s = { sip_version := some version, status_code := code, reason_phrase := some reason }

/-- **C90**: what is known of every message that was read with success. -/
theorem c90_read_message {sscanf : Str → Option Nat} {sscanfD : Str → Option Int} {signed : Bool} {buf : List Char} {m : SipMessage}
    (h : osip_message_parse sscanf sscanfD signed (theTable signed false) buf = some (OSIP_SUCCESS, m)) :
    m.start.Whole ∧ m.Singles ∧ (∃ v, m.hdr .content_length = [.value (some v)]) ∧ Copyable m ∧ m.Proper ∧ m.cached = none := by
  unfold osip_message_parse at h
  rw [skip_total] at h
  simp only [Option.bind_eq_bind, Option.bind_some, Option.pure_def, Option.bind_eq_some_iff] at h
  obtain ⟨t, ht, ⟨i, sl, hd⟩, hs, h⟩ := h
  have hn : NUL ∈ t := lws_nul _ ht (by simp)
  obtain ⟨s, r, rfl, hso⟩ := mem_first hn
  simp only at h
  rcases c74_start_line sscanf sscanfD (s := s) hso r with ⟨d, k⟩ | ⟨d, rest, k, hl, -⟩
  · rw [k] at hs
    cases hs
    rw [if_pos (by decide)] at h
    cases h
  rw [k] at hs
  cases hs
  rw [if_neg (by decide)] at h
  simp only [Option.bind_eq_some_iff] at h
  obtain ⟨⟨j, m1, body⟩, hh, h⟩ := h
  have hw : sl.Whole := by
    rcases hl with ⟨m, w, v, e, u, -, -, h1, -, -, -, -, hu, rfl⟩ | ⟨v, c, reason, e, code, -, -, -, -, -, -, -, h1, rfl⟩
    · exact .inl ⟨m, u, v, h1, uri_complete hu, rfl⟩
    · exact .inr ⟨v, code, reason, h1, rfl⟩
  have hro : Str.Ok rest := by
    rcases hl with ⟨m, w, v, e, u, rfl, he, _⟩ | ⟨v, c, reason, e, k, rfl, he, _⟩
    · obtain ⟨p, rfl, _⟩ := eol_split he
      intro hm; exact hso (by simp [hm])
    · obtain ⟨p, rfl, _⟩ := eol_split he
      intro hm; exact hso (by simp [hm])
  have hI : Filled sscanf sl { start := sl } := ⟨rfl, by simp, by simp, by simp, rfl, rfl⟩
  simp only at h
  rcases headers_kept (Filled sscanf sl) (message_set_multiple sscanf signed (theTable signed false))
      (fun m a b h ha hb => set_multiple_total signed h ha hb) hro { start := sl } hI r with ⟨m2, k⟩ | ⟨calls, tail, m2, -, -, hI', k⟩
  · rw [k] at hh
    cases hh
    rw [if_pos (by decide)] at h
    cases h
  rw [k] at hh
  cases hh
  rw [if_neg (by decide)] at h
  obtain ⟨hg, hc⟩ := rest_good hI' h
  refine ⟨by rw [hg.start]; exact hw, ?_, ?_, ⟨?_, fun k x hx => (hg.known k x hx).1, hg.other, hg.bodies⟩, ?_, hg.cached⟩
  · intro k hk
    refine hg.single k ?_
    revert k
    decide
  · rcases hg.length with h | h
    · exact absurd h hc
    · exact h
  · intro u hu
    rw [hg.start] at hu
    rcases hw with ⟨_, u', _, _, hu', rfl⟩ | ⟨_, _, _, _, rfl⟩
    · cases hu; exact hu'
    · cases hu
  · intro k t F hm
    exact (hg.known k _ hm).2 t F rfl

/-- **C90**, copying: every message that was read can be copied, and the copy is the same message. -/
theorem c90_read_copied {sscanf : Str → Option Nat} {sscanfD : Str → Option Int} {signed : Bool} {buf : List Char} {m : SipMessage}
    (h : osip_message_parse sscanf sscanfD signed (theTable signed false) buf = some (OSIP_SUCCESS, m)) :
    ∃ c, osip_message_clone m = (OSIP_SUCCESS, some c) ∧ c.msg = m := by
  obtain ⟨-, -, -, hc, hp, hn⟩ := c90_read_message h
  obtain ⟨c, h1, h2⟩ := (c60_copy hp).1 hc
  refine ⟨c, h1, ?_⟩
  rw [h2]
  obtain ⟨a, b, c, d, e⟩ := m
  simp only at hn
  rw [hn]

/-- The headers that a message may have once, by their names, and must not have twice. (A second MIME-Version is ignored.) -/
def onceNames : List (Str × Setter) :=
  [("call-id".toList, .call_id), ("i".toList, .call_id), ("content-length".toList, .content_length), ("l".toList, .content_length),
   ("content-type".toList, .content_type), ("c".toList, .content_type), ("cseq".toList, .cseq), ("from".toList, .from),
   ("f".toList, .from), ("to".toList, .to), ("t".toList, .to)]

/-- **C90**, headers that may occur once: a second one with a value is refused, under its long and its short name, and the message is
left as it was. -/
theorem c90_second_refused (sscanf : Str → Option Nat) (signed : Bool) (m : SipMessage) (hname v : Str) (k : Setter)
    (hk : (hname, k) ∈ onceNames) (hp : m.hdr k ≠ []) (hv : v ≠ []) :
    ∃ i, message_set__header sscanf signed (theTable signed false) m hname (some v) = some (i, m) ∧ i ≠ 0 := by
  have hl : (m.hdr k).length ≠ 0 := fun h => hp (List.length_eq_zero_iff.1 h)
  have hi : ∃ i e, is_known_header signed false (theTable signed false) hname = some (some i) ∧ (pconfig false)[i]? = some e ∧
      e.setheader = k ∧ e.ignored_when_invalid = false := by
    have key : ∀ signed, onceNames.all (fun x => ((is_known_header signed false (theTable signed false) x.1).any fun o =>
        o.any fun i => ((pconfig false)[i]?).any fun e => e.setheader = x.2 && !e.ignored_when_invalid)) = true := by decide +kernel
    have := List.all_eq_true.1 (key signed) _ hk
    simp only [Option.any_eq_true, Bool.and_eq_true, decide_eq_true_eq, Bool.not_eq_true'] at this
    obtain ⟨_, h1, i, rfl, e, h2, h3, h4⟩ := this
    exact ⟨i, e, h1, h2, h3, h4⟩
  obtain ⟨i, e, h1, h2, h3, h4⟩ := hi
  have hc : ∃ j, callSetter sscanf k m (some v) = some (j, m) ∧ j ≠ 0 := by
    have : k ∈ [Setter.call_id, .content_length, .content_type, .cseq, .from, .to] := by
      simp only [onceNames, List.mem_cons, Prod.mk.injEq, List.not_mem_nil, or_false] at hk
      rcases hk with h | h | h | h | h | h | h | h | h | h | h <;> rw [h.2] <;> decide
    simp only [List.mem_cons, List.not_mem_nil, or_false] at this
    rcases this with rfl | rfl | rfl | rfl | rfl | rfl
    all_goals
      refine ⟨_, by simp only [callSetter, presentCode, Option.bind_eq_bind]; simp [hl, hv]; rfl, by decide⟩
  obtain ⟨j, e1, hj⟩ := hc
  refine ⟨j, ?_, hj⟩
  simp [message_set__header, h1, h2, h3, h4, e1]

/-! ## Examples -/

/-- A message with a second To is refused. -/
example : ((osip_message_parse sscanf2 sscanfD1 true (theTable true false)
    "SIP/2.0 200 OK\r\nTo: <sip:a>\r\nt: <sip:a>\r\n\r\n".toList).any fun r => r.1 == OSIP_SYNTAXERROR) = true := by decide +kernel


/-- A response with a Contact without URI, a header without value, and a body without Content-Length. -/
def sloppyText : List Char :=
  "SIP/2.0 200 OK\r\nContact: *\r\nVia: SIP/2.0/UDP a\r\nX:\r\nAuthorization: Digest a=b\r\nContent-Type: a/b\r\n\r\nhi".toList

/-- It is read, and it can be copied. -/
example : ∃ m c, osip_message_parse sscanf2 sscanfD1 true (theTable true false) sloppyText = some (OSIP_SUCCESS, m) ∧
    m.bodies = [{ body := "hi".toList }] ∧ m.contentLength = some (some "2".toList) ∧
    osip_message_clone m = (OSIP_SUCCESS, some c) ∧ c.msg = m := by
  have h : ((osip_message_parse sscanf2 sscanfD1 true (theTable true false) sloppyText).any fun r =>
        r.1 == 0 && r.2.bodies == [{ body := "hi".toList }] && r.2.contentLength == some (some "2".toList)) = true := by decide +kernel
  cases e : osip_message_parse sscanf2 sscanfD1 true (theTable true false) sloppyText with
  | none => rw [e] at h; simp at h
  | some r =>
    obtain ⟨i, m⟩ := r
    rw [e] at h
    simp only [Option.any_some, Bool.and_eq_true, beq_iff_eq] at h
    obtain ⟨⟨h1, h2⟩, h3⟩ := h
    subst h1
    obtain ⟨c, h4, h5⟩ := c90_read_copied e
    exact ⟨m, c, rfl, h2, h3, h4, h5⟩

end Osip
