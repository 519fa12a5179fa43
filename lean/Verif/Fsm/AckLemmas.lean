import Verif.Fsm.Spec

/-!
# When an ACK can be built (helper lemmas)
-/

namespace Osip

theorem uriClone_some {u : Option Uri} {v : Uri} :
    uriClone u = some v ↔ u = some v ∧ UriOk v := by
  cases u with
  | none => simp [uriClone]
  | some u =>
    simp only [uriClone, UriOk]
    cases hh : u.host <;> cases hs : u.string <;> simp
    · rintro rfl; simp [hh, hs]
    · rintro rfl; simp [hs]
    · rintro rfl; simp [hh]
    · rintro rfl; simp [hh]

theorem fromClone_some {f : Option From} {g : From} :
    fromClone f = some g ↔ f = some g ∧ FromOk g := by
  cases f with
  | none => simp [fromClone]
  | some f =>
    simp only [fromClone, FromOk]
    cases hu : f.url with
    | none => simp; rintro rfl; simp [hu]
    | some u =>
      cases hc : uriClone (some u) with
      | none =>
        simp only [hc]
        simp
        rintro rfl
        refine ⟨u, hu, fun hok => ?_⟩
        have := (uriClone_some (u := some u) (v := u)).2 ⟨rfl, hok⟩
        rw [hc] at this; simp at this
      | some u' =>
        have h := uriClone_some.1 hc
        simp at h
        obtain ⟨rfl, hok⟩ := h
        have : ({ f with url := some u } : From) = f := by rw [← hu]
        simp only [hc, this]
        simp
        rintro rfl u2 hu2
        rw [hu] at hu2; simp at hu2; exact hu2 ▸ hok

theorem cloneRoutes_some {rs ss : List From} :
    cloneRoutes rs = some ss ↔ rs = ss ∧ ∀ r ∈ rs, FromOk r := by
  induction rs generalizing ss with
  | nil => simp [cloneRoutes]
  | cons r rs ih =>
    simp only [cloneRoutes, Option.bind_eq_bind, Option.bind_eq_some_iff, fromClone_some,
      Option.pure_def, Option.some.injEq]
    constructor
    · rintro ⟨a, ⟨rfl, hok⟩, b, hb, rfl⟩
      obtain ⟨rfl, h⟩ := ih.1 hb
      exact ⟨rfl, by simpa using ⟨hok, h⟩⟩
    · rintro ⟨rfl, h⟩
      simp at h
      exact ⟨r, ⟨rfl, h.1⟩, rs, ih.2 ⟨rfl, h.2⟩, rfl⟩

theorem callIdClone_some {c : Option CallId} {d : CallId} :
    callIdClone c = some d ↔ c = some d ∧ d.number.isSome := by
  cases c with
  | none => simp [callIdClone]
  | some c =>
    simp only [callIdClone]
    cases hn : c.number <;> simp <;> rintro rfl <;> simp [hn]

theorem cseqClone_some {c : Option CSeq} {d : CSeq} :
    cseqClone c = some d ↔ c = some d ∧ d.method.isSome ∧ d.number.isSome := by
  cases c with
  | none => simp [cseqClone]
  | some c =>
    simp only [cseqClone]
    cases hn : c.number <;> cases hm : c.method <;> simp <;> rintro rfl <;> simp [hn, hm]

theorem viaClone_some {v : Option Via} {u : Via} :
    viaClone v = some u ↔ v = some u ∧ u.version.isSome ∧ u.protocol.isSome ∧ u.host.isSome := by
  cases v with
  | none => simp [viaClone]
  | some v =>
    simp only [viaClone]
    cases h1 : v.version <;> cases h2 : v.protocol <;> cases h3 : v.host <;> simp <;>
      rintro rfl <;> simp [h1, h2, h3]

/-- An ACK can be built exactly from a complete INVITE and a complete response. -/
theorem create_ack_isSome {orig resp : Msg} :
    (ict_create_ack orig resp).isSome ↔ InviteComplete orig ∧ ResponseComplete resp := by
  rw [Option.isSome_iff_exists]
  unfold ict_create_ack
  simp only [Option.bind_eq_bind, Option.bind_eq_some_iff, Option.pure_def, Option.some.injEq,
    uriClone_some, fromClone_some, cloneRoutes_some, callIdClone_some, cseqClone_some,
    viaClone_some]
  constructor
  · rintro ⟨a, f, ⟨hf, hf'⟩, t, ⟨ht, ht'⟩, c, ⟨hc, hc'⟩, q, ⟨hq, hq'⟩, ver, hver, u, ⟨hu, hu'⟩, v,
      ⟨hv, hv'⟩, rs, ⟨hrs, hrs'⟩, -⟩
    refine ⟨⟨by simp [hver], ⟨u, hu, hu'⟩, ?_, hrs'⟩, ⟨⟨f, hf, hf'⟩, ⟨t, ht, ht'⟩, ⟨c, hc, hc'⟩,
      ⟨q, hq, hq'⟩⟩⟩
    cases hvs : orig.vias with
    | nil => simp [hvs] at hv
    | cons w ws =>
      simp [hvs] at hv
      subst hv
      exact ⟨w, ws, rfl, hv'⟩
  · rintro ⟨⟨h1, ⟨u, hu, hu'⟩, ⟨v, vs, hv, hv'⟩, h4⟩, ⟨⟨f, hf, hf'⟩, ⟨t, ht, ht'⟩, ⟨c, hc, hc'⟩,
      ⟨q, hq, hq'⟩⟩⟩
    obtain ⟨ver, hver⟩ := Option.isSome_iff_exists.1 h1
    exact ⟨_, f, ⟨hf, hf'⟩, t, ⟨ht, ht'⟩, c, ⟨hc, hc'⟩, q, ⟨hq, hq'⟩, ver, hver, u, ⟨hu, hu'⟩, v,
      ⟨by simp [hv], hv'⟩, orig.routes, ⟨rfl, h4⟩, rfl⟩

/-- The content of the ACK. -/
theorem create_ack_eq {orig resp a : Msg} (h : ict_create_ack orig resp = some a) :
    ∃ f t c q u v vs, resp.from_ = some f ∧ resp.to = some t ∧ resp.call_id = some c ∧
      resp.cseq = some q ∧ orig.req_uri = some u ∧ orig.vias = v :: vs ∧
      a = { from_ := some f, to := some t, call_id := some c,
            cseq := some { q with method := some "ACK".toList },
            sip_method := some "ACK".toList, sip_version := orig.sip_version,
            status_code := 0, reason_phrase := none, req_uri := some u,
            vias := [v], routes := orig.routes,
            authorizations :=
              if resp.status_code ≠ 401 ∧ resp.status_code ≠ 407 then orig.authorizations else [],
            proxy_authorizations :=
              if resp.status_code ≠ 401 ∧ resp.status_code ≠ 407 then orig.proxy_authorizations
              else [] } := by
  unfold ict_create_ack at h
  simp only [Option.bind_eq_bind, Option.bind_eq_some_iff, Option.pure_def, Option.some.injEq,
    uriClone_some, fromClone_some, cloneRoutes_some, callIdClone_some, cseqClone_some,
    viaClone_some] at h
  obtain ⟨f, ⟨hf, hf'⟩, t, ⟨ht, ht'⟩, c, ⟨hc, hc'⟩, q, ⟨hq, hq'⟩, ver, hver, u, ⟨hu, hu'⟩, v,
      ⟨hv, hv'⟩, rs, ⟨hrs, hrs'⟩, rfl⟩ := h
  cases hvs : orig.vias with
  | nil => simp [hvs] at hv
  | cons w ws =>
    simp [hvs] at hv
    subst hv hrs
    refine ⟨f, t, c, q, u, w, ws, hf, ht, hc, hq, hu, rfl, ?_⟩
    simp [hver]

end Osip
