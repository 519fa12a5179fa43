import Verif.Parse.Via
import Verif.Parse.PropsParams

/-!
# C50, C51: Via
-/

set_option autoImplicit false

namespace Osip

/-! ## Specification -/

/-- A Via header which survives: no part contains a character which ends it. -/
structure WfVia (v : Via) where
  version : Str
  hversion : v.version = some version
  version_ok : version.Ok ∧ version ≠ [] ∧ Trimmed version ∧ '/' ∉ version
  protocol : Str
  hprotocol : v.protocol = some protocol
  protocol_ok : protocol.Ok ∧ protocol ≠ [] ∧ Trimmed protocol ∧ ' ' ∉ protocol
  host : Str
  hhost : v.host = some host
  host_ok : host.Ok ∧ host ≠ [] ∧ Trimmed host ∧ ∀ c ∈ ['(', ')', ';', '[', ']'], c ∉ host
  port_ok : ∀ p ∈ v.port, p.Ok ∧ p ≠ [] ∧ Trimmed p ∧ (∀ c ∈ ['(', ')', ';', '['], c ∉ p) ∧ 0 ≤ osip_atoi (some p)
  params_ok : ∀ p ∈ v.via_params, WfParam p ∧ ∀ c ∈ ['(', ')'], c ∉ p.gname ∧ ∀ x ∈ p.gvalue, c ∉ x
  comment_ok : ∀ c ∈ v.comment, c.Ok ∧ c ≠ [] ∧ ')' ∉ c ∧ (v.via_params = [] → ';' ∉ c)

/-! ## Lemmas -/

theorem clrncpy_total {t : Str} (ht : t.Ok) (r : List Char) {n : Int} (h0 : 0 ≤ n) (hn : n ≤ t.length) :
    clrncpy (t ++ NUL :: r) n = some (trim (t.take n.toNat)) := by
  rw [clrncpy, cstr_at ht]
  simp only [Option.bind_eq_bind, Option.bind_some]
  rw [if_pos ⟨h0, hn⟩]

theorem find_later {c : Char} (hn : c ≠ NUL) {x : Str} (hx : x.Ok) (hc : c ∉ x) {R : Str} (hR : R.Ok) (r : List Char) :
    ∃ q, cstrchr c (x ++ (R ++ NUL :: r)) = some q ∧ ∀ p ∈ q, 0 ≤ pdiff p (R ++ NUL :: r) := by
  rcases cstrchr_cases (c := c) (ok_append hx hR) hn r with ⟨_, h⟩ | ⟨a, b, e, _, h⟩
  · rw [List.append_assoc] at h
    exact ⟨none, h, by simp⟩
  · rw [List.append_assoc] at h
    refine ⟨_, h, fun p hp => ?_⟩
    have hp' : p = c :: b ++ NUL :: r := by simpa using hp.symm
    subst hp'
    have hl := congrArg List.length e
    have : x.length ≤ a.length := by
      rcases Nat.lt_or_ge a.length x.length with h4 | h4
      · exfalso
        have h3 := congrArg (·[a.length]?) e
        simp only [List.getElem?_append_right (Nat.le_refl _), Nat.sub_self, List.getElem?_cons_zero] at h3
        rw [List.getElem?_append_left h4] at h3
        exact hc (List.mem_of_getElem? h3)
      · exact h4
    simp only [pdiff, List.length_cons, List.length_append] at hl ⊢
    omega

theorem found_at {c : Char} {x : Str} (hx : x.Ok) (hc : c ∉ x) (u : List Char) :
    cstrchr c (x ++ c :: u) = some (some (c :: u)) := cstrchr_found hx hc u

theorem viaParamsStr_run (ps : List Param) (len : Nat) (buf : Str) (h : buf.length < len) :
    ∃ len', viaParamsStr ps len buf = some (buf ++ ps.flatMap paramToStr, len') ∧
      (buf ++ ps.flatMap paramToStr).length < len' := by
  induction ps generalizing len buf with
  | nil => exact ⟨len, by simp [viaParamsStr], by simpa using h⟩
  | cons p ps ih =>
    obtain ⟨name, value⟩ := p
    cases value with
    | none =>
      obtain ⟨len', h1, h2⟩ := ih (len + (name.length + 2)) (buf ++ ';' :: name) (by simp; omega)
      refine ⟨len', ?_, ?_⟩
      · simp only [viaParamsStr, put]
        rw [if_pos (by simp; omega)]
        simp only [Option.bind_eq_bind, Option.bind_some, h1, List.flatMap_cons, paramToStr]
        simp
      · simpa [paramToStr] using h2
    | some v =>
      obtain ⟨len', h1, h2⟩ := ih (len + (name.length + v.length + 3)) (buf ++ (';' :: name ++ '=' :: v))
        (by simp; omega)
      refine ⟨len', ?_, ?_⟩
      · simp only [viaParamsStr, put]
        rw [if_pos (by simp; omega)]
        simp only [Option.bind_eq_bind, Option.bind_some, h1, List.flatMap_cons, paramToStr]
        simp
      · simpa [paramToStr] using h2

/-- The host as it is written. -/
def hostText (h : Str) : Str := if ':' ∈ h then '[' :: (h ++ [']']) else h
/-- The port as it is written. -/
def portText : Option Str → Str
  | none => []
  | some p => ':' :: p
/-- The comment as it is written. -/
def commentText : Option Str → Str
  | none => []
  | some c => ' ' :: '(' :: (c ++ [')'])

theorem osip_via_to_str_eq {v : Via} {version protocol host : Str} (h1 : v.version = some version)
    (h2 : v.protocol = some protocol) (h3 : v.host = some host) :
    osip_via_to_str (some v) = some (OSIP_SUCCESS, some ("SIP/".toList ++ (version ++ '/' :: (protocol ++ ' ' ::
      (hostText host ++ (portText v.port ++ (v.via_params.flatMap paramToStr ++ commentText v.comment))))))) := by
  obtain ⟨_, _, _, port, comment, ps⟩ := v
  simp only at h1 h2 h3
  subst h1 h2 h3
  unfold osip_via_to_str
  have hpos : ∀ (len : Nat) (buf : Str), buf.length < len → viaTailStr ps comment len buf =
      some (OSIP_SUCCESS, some (buf ++ (ps.flatMap paramToStr ++ commentText comment))) := by
    intro len buf h
    obtain ⟨len', e1, e2⟩ := viaParamsStr_run ps len buf h
    unfold viaTailStr
    simp only [e1, Option.bind_eq_bind, Option.bind_some]
    cases comment with
    | none => simp [commentText]
    | some c =>
      simp only [putn]
      rw [if_pos (by omega)]
      rw [List.take_of_length_le]
      · simp [commentText]
      · simp only [List.length_append] at e2 ⊢
        have : " (".toList.length = 2 := rfl
        simp only [this, List.length_cons, List.length_nil]
        omega
  by_cases hc : ':' ∈ host
  · have hc' : host.contains ':' = true := by simpa using hc
    cases port with
    | none =>
      simp only [hc', put, List.nil_append]
      rw [if_pos (by simp; omega)]
      simp only [Option.bind_eq_bind, Option.bind_some]
      rw [hpos _ _ (by simp; omega)]
      simp [hostText, hc, portText]
    | some p =>
      simp only [hc', put, List.nil_append]
      rw [if_pos (by simp; omega)]
      simp only [Option.bind_eq_bind, Option.bind_some]
      rw [hpos _ _ (by simp; omega)]
      simp [hostText, hc, portText]
  · have hc' : host.contains ':' = false := by simpa using hc
    cases port with
    | none =>
      simp only [hc', put, List.nil_append]
      rw [if_pos (by simp; omega)]
      simp only [Option.bind_eq_bind, Option.bind_some]
      rw [hpos _ _ (by simp; omega)]
      simp [hostText, hc, portText]
    | some p =>
      simp only [hc', put, List.nil_append]
      rw [if_pos (by simp; omega)]
      simp only [Option.bind_eq_bind, Option.bind_some]
      rw [hpos _ _ (by simp; omega)]
      simp [hostText, hc, portText]

theorem viaComment_wf {A : Str} {cm : Option Str} (hA : A.Ok) (h1 : '(' ∉ A) (h2 : ')' ∉ A)
    (hc : ∀ c ∈ cm, c.Ok ∧ c ≠ [] ∧ ')' ∉ c) (r : List Char) :
    viaComment (' ' :: (A ++ (commentText cm ++ NUL :: r))) = some (.ok (cm, commentText cm ++ NUL :: r)) := by
  unfold viaComment
  cases cm with
  | none =>
    have hA' : Str.Ok (' ' :: A) := ok_cons.2 ⟨by decide, hA⟩
    have e1 := cstrchr_none (c := '(') hA' (by simp [h1]) (by decide) r
    have e2 := cstr_at hA' r
    have e3 := drop_len (s := ' ' :: A) (NUL :: r)
    simp only [List.cons_append] at e1 e2 e3
    simp only [commentText, List.nil_append, e1, e2, e3, Option.bind_eq_bind, Option.bind_some]
    rfl
  | some c =>
    obtain ⟨h3, h4, h5⟩ := hc c rfl
    have e1 := cstrchr_found (c := '(') (a := ' ' :: (A ++ [' ']))
      (ok_cons.2 ⟨by decide, ok_append hA (ok_cons.2 ⟨by decide, by simp [Str.Ok]⟩)⟩) (by simp [h1])
      (c ++ ')' :: NUL :: r)
    have e2 := cstrchr_found (c := ')') (a := ' ' :: (A ++ ' ' :: '(' :: c))
      (ok_cons.2 ⟨by decide, ok_append hA (ok_cons.2 ⟨by decide, ok_cons.2 ⟨by decide, h3⟩⟩)⟩) (by simp [h2, h5])
      (NUL :: r)
    simp only [List.cons_append, List.append_assoc, List.nil_append] at e1 e2
    simp only [commentText, List.cons_append, List.append_assoc, List.nil_append, e1, e2, Option.bind_eq_bind,
      Option.bind_some]
    have d1 : pdiff (')' :: NUL :: r) ('(' :: (c ++ ')' :: NUL :: r)) = c.length + 1 := by
      simp [pdiff]; omega
    have d2 : pdiff ('(' :: (c ++ ')' :: NUL :: r)) (' ' :: (A ++ ' ' :: '(' :: (c ++ ')' :: NUL :: r))) = A.length + 2 := by
      simp [pdiff]; omega
    have hl : 0 < c.length := List.length_pos_iff.2 h4
    have e3 := strncpy_at h3 (b := [')']) (by decide) r (n := (c.length : Int) + 1 - 1) (by omega)
    simp only [List.cons_append, List.nil_append] at e3
    rw [d1, d2, if_neg (by omega)]
    simp only [List.drop_succ_cons, List.drop_zero, e3, Option.bind_some]
    rw [if_neg (by omega)]
    have e4 : ((A.length : Int) + 2).toNat - 1 = (' ' :: A).length := by simp; omega
    have e5 := drop_len (s := ' ' :: A) (' ' :: '(' :: (c ++ ')' :: NUL :: r))
    simp only [List.cons_append] at e5
    rw [e4, e5]
    rfl

theorem ifBefore_none {p : Option (List Char)} {q : List Char} (h : ∀ x ∈ p, 0 ≤ pdiff x q) : ifBefore p q = none := by
  cases p with
  | none => rfl
  | some x =>
    have := h x rfl
    exact if_neg (by omega)

theorem ifBefore_some {p q : List Char} (h : pdiff p q < 0) : ifBefore (some p) q = some p := if_pos h

theorem viaPort_wf {via : Via} {port : Option Str} {R x : Str} {q : Option (List Char)}
    (hp : ∀ p ∈ port, p.Ok ∧ p ≠ [] ∧ Trimmed p ∧ 0 ≤ osip_atoi (some p)) (hR : R.Ok) (r : List Char)
    (hx : x.Ok) (hn : ':' ∉ x) (hq : cstrchr ':' (x ++ (portText port ++ (R ++ NUL :: r))) = some q) (hv : via.port = none) :
    viaPort via (R ++ NUL :: r) q = some (.ok ({ via with port := port }, portText port ++ (R ++ NUL :: r))) := by
  obtain ⟨ver, pro, ho, po, co, pa⟩ := via
  simp only at hv
  subst hv
  unfold viaPort
  cases port with
  | none =>
    obtain ⟨q', e, hq'⟩ := find_later (c := ':') (by decide) hx hn hR r
    simp only [portText, List.nil_append] at hq ⊢
    rw [hq] at e
    cases e
    rw [ifBefore_none hq']
  | some p =>
    obtain ⟨p1, p2, p3, p5⟩ := hp p rfl
    have hpl : 0 < p.length := List.length_pos_iff.2 p2
    have e := cstrchr_found (c := ':') hx hn (p ++ (R ++ NUL :: r))
    simp only [portText, List.cons_append] at hq ⊢
    rw [hq] at e
    cases e
    have d5 : pdiff (R ++ NUL :: r) (':' :: (p ++ (R ++ NUL :: r))) = p.length + 1 := by simp [pdiff]; omega
    have e5 := clrncpy_at p1 hR r (n := (p.length : Int) + 1 - 1) (by omega)
    rw [ifBefore_some (by simp [pdiff]; omega)]
    simp only [d5]
    rw [if_neg (by omega)]
    simp only [List.drop_succ_cons, List.drop_zero, e5, Option.bind_eq_bind, Option.bind_some, show trim p = p from p3]
    rw [if_neg (by omega)]
    rfl

theorem viaHostPort_wf {via : Via} {host : Str} {port : Option Str} {R : Str} (hh : host.Ok) (h0 : host ≠ [])
    (ht : Trimmed host) (hb : '[' ∉ host ∧ ']' ∉ host)
    (hp : ∀ p ∈ port, p.Ok ∧ p ≠ [] ∧ Trimmed p ∧ '[' ∉ p ∧ 0 ≤ osip_atoi (some p)) (hR : R.Ok)
    (hv : via.port = none) (r : List Char) :
    viaHostPort via (' ' :: (hostText host ++ (portText port ++ (R ++ NUL :: r)))) (R ++ NUL :: r) =
      some (OSIP_SUCCESS, { via with host := some host, port := port }) := by
  have hlen : 0 < host.length := List.length_pos_iff.2 h0
  have hpo : Str.Ok (portText port) := by
    cases port with
    | none => simp [portText, Str.Ok]
    | some p => exact ok_cons.2 ⟨by decide, (hp p rfl).1⟩
  have hp' : ∀ p ∈ port, p.Ok ∧ p ≠ [] ∧ Trimmed p ∧ 0 ≤ osip_atoi (some p) :=
    fun p h => ⟨(hp p h).1, (hp p h).2.1, (hp p h).2.2.1, (hp p h).2.2.2.2⟩
  have hsome : ∀ {x : Str}, x.Ok → ∃ q, cstrchr ':' (x ++ (portText port ++ (R ++ NUL :: r))) = some q := by
    intro x hx
    have e : x ++ (portText port ++ (R ++ NUL :: r)) = (x ++ (portText port ++ R)) ++ NUL :: r := by simp
    rw [e]
    rcases cstrchr_cases (c := ':') (ok_append hx (ok_append hpo hR)) (by decide) r with ⟨_, h⟩ | ⟨a, b, _, _, h⟩ <;>
      exact ⟨_, h⟩
  by_cases hc : ':' ∈ host
  · -- IPv6
    simp only [hostText, hc, if_true, List.cons_append, List.append_assoc, List.nil_append]
    unfold viaHostPort
    have e1 := cstrchr_found (c := '[') (a := [' ']) (by decide) (by decide) (host ++ ']' :: (portText port ++ (R ++ NUL :: r)))
    have e2 := cstrchr_found (c := ']') (a := '[' :: host) (ok_cons.2 ⟨by decide, hh⟩) (by simp [hb])
      (portText port ++ (R ++ NUL :: r))
    have e3 := clrncpy_at hh (b := ']' :: (portText port ++ R)) (ok_cons.2 ⟨by decide, ok_append hpo hR⟩) r
      (n := (host.length : Int) + 1 - 1) (by omega)
    obtain ⟨q, e4⟩ := hsome (x := [']']) (by decide)
    have e5 := viaPort_wf (via := { via with host := some host }) (x := [']']) hp' hR r (by decide) (by decide) e4 hv
    simp only [List.cons_append, List.append_assoc, List.nil_append] at e1 e2 e3 e4
    have d1 : pdiff ('[' :: (host ++ ']' :: (portText port ++ (R ++ NUL :: r)))) (R ++ NUL :: r) < 0 := by
      simp [pdiff]; omega
    have d2 : ¬ pdiff (']' :: (portText port ++ (R ++ NUL :: r))) (R ++ NUL :: r) > 0 := by
      simp [pdiff]; omega
    have d3 : pdiff (']' :: (portText port ++ (R ++ NUL :: r))) ('[' :: (host ++ ']' :: (portText port ++ (R ++ NUL :: r)))) =
        host.length + 1 := by
      simp [pdiff]; omega
    simp only [e1, Option.bind_eq_bind, Option.bind_some, ifBefore_some d1, viaV6, e2, d2, if_false, d3]
    rw [if_neg (by omega)]
    simp only [List.drop_succ_cons, List.drop_zero, e3, Option.bind_some, Option.pure_def, show trim host = host from ht, e4,
      e5, Option.isSome_some, if_true]
  · -- a name or an IPv4 address
    simp only [hostText, hc, if_false]
    have hx : Str.Ok (' ' :: (host ++ portText port)) := ok_cons.2 ⟨by decide, ok_append hh hpo⟩
    have hbp : '[' ∉ portText port := by
      cases port with
      | none => simp [portText]
      | some p => simp [portText, (hp p rfl).2.2.2.1]
    obtain ⟨q, e1, hq⟩ := find_later (c := '[') (by decide) hx (by simp [hb, hbp]) hR r
    have hx' : Str.Ok (' ' :: host) := ok_cons.2 ⟨by decide, hh⟩
    obtain ⟨q2, e4⟩ := hsome hx'
    have e5 := viaPort_wf (via := via) (x := ' ' :: host) hp' hR r hx' (by simp [hc]) e4 hv
    have e6 := clrncpy_at hh (b := portText port ++ R) (ok_append hpo hR) r
        (n := (host.length : Int) + 1 - 1) (by omega)
    have d6 : pdiff (portText port ++ (R ++ NUL :: r)) (' ' :: (host ++ (portText port ++ (R ++ NUL :: r)))) = host.length + 1 := by
      simp [pdiff]; omega
    simp only [List.cons_append, List.append_assoc] at e1 e4 e6
    unfold viaHostPort
    simp only [e1, Option.bind_eq_bind, Option.bind_some, ifBefore_none hq, viaV6, e4, Option.pure_def, e5,
      Option.isSome_none, d6]
    rw [if_neg (by decide), if_neg (by omega)]
    simp only [List.drop_succ_cons, List.drop_zero, e6, Option.bind_some, show trim host = host from ht]

theorem notin_params {c : Char} {ps : List Param} (h : ∀ p ∈ ps, c ∉ p.gname ∧ ∀ x ∈ p.gvalue, c ∉ x)
    (h1 : c ≠ ';') (h2 : c ≠ '=') : c ∉ ps.flatMap paramToStr := by
  intro hm
  obtain ⟨p, hp, hm⟩ := List.mem_flatMap.1 hm
  obtain ⟨e1, e2⟩ := h p hp
  cases hv : p.gvalue with
  | none => simp [paramToStr, hv, e1, h1] at hm
  | some v => simp [paramToStr, hv, e1, h1, h2, e2 v hv] at hm

/-- **C50**. Every Via header with well-formed parts - a name, an IPv4 or an IPv6 address, any number of
parameters - is written without overflow and read back. -/
theorem c50_via_round_trip_partial (v : Via) (h : WfVia v) (r : List Char) :
    ∃ s, osip_via_to_str (some v) = some (OSIP_SUCCESS, some s) ∧
      osip_via_parse (s ++ NUL :: r) = some (OSIP_SUCCESS, v) := by
  obtain ⟨version, hv1, ⟨v1, v2, v3, v4⟩, protocol, hp1, ⟨q1, q2, q3, q4⟩, host, hh1, ⟨o1, o2, o3, o4⟩, hport,
    hparams, hcomment⟩ := h
  refine ⟨_, osip_via_to_str_eq hv1 hp1 hh1, ?_⟩
  simp only [List.mem_cons, List.not_mem_nil, or_false, forall_eq_or_imp, forall_eq] at o4 hport hparams
  have hS := params_ok (fun p hp => (hparams p hp).1.1)
  have hSl := notin_params (c := '(') (fun p hp => (hparams p hp).2.1) (by decide) (by decide)
  have hSr := notin_params (c := ')') (fun p hp => (hparams p hp).2.2) (by decide) (by decide)
  obtain ⟨_, _, _, port, comment, ps⟩ := v
  simp only at hv1 hp1 hh1 hport hparams hcomment hS hSl hSr ⊢
  subst hv1 hp1 hh1
  have hvl : 0 < version.length := List.length_pos_iff.2 v2
  have hpl : 0 < protocol.length := List.length_pos_iff.2 q2
  have hC : Str.Ok (commentText comment) := by
    cases comment with
    | none => simp [commentText, Str.Ok]
    | some c => exact ok_cons.2 ⟨by decide, ok_cons.2 ⟨by decide, ok_append (hcomment c rfl).1 (by decide)⟩⟩
  have hH : Str.Ok (hostText host) := by
    unfold hostText
    split
    · exact ok_cons.2 ⟨by decide, ok_append o1 (by decide)⟩
    · exact o1
  have hP : Str.Ok (portText port) := by
    cases port with
    | none => simp [portText, Str.Ok]
    | some p => exact ok_cons.2 ⟨by decide, (hport p rfl).1⟩
  have hHn : ∀ c, c ∉ host → c ≠ '[' → c ≠ ']' → c ∉ hostText host := by
    intro c h1 h2 h3; unfold hostText; split <;> simp [h1, h2, h3]
  have hPn : ∀ c, (∀ p ∈ port, c ∉ p) → c ≠ ':' → c ∉ portText port := by
    intro c h1 h2
    cases port with
    | none => simp [portText]
    | some p => simp [portText, h1 p rfl, h2]
  have hC' : Str.Ok (' ' :: (hostText host ++ (portText port ++ (ps.flatMap paramToStr ++ commentText comment)))) :=
    ok_cons.2 ⟨by decide, ok_append hH (ok_append hP (ok_append hS hC))⟩
  unfold osip_via_parse
  have e1 := cstrchr_found (c := '/') (a := "SIP".toList) (by decide) (by decide)
    (version ++ '/' :: (protocol ++ ' ' :: (hostText host ++ (portText port ++ (ps.flatMap paramToStr ++
      (commentText comment ++ NUL :: r))))))
  have e2 := cstrchr_found (c := '/') v1 v4 (protocol ++ ' ' :: (hostText host ++ (portText port ++
    (ps.flatMap paramToStr ++ (commentText comment ++ NUL :: r)))))
  have e3 := clrncpy_at v1 (b := '/' :: (protocol ++ ' ' :: (hostText host ++ (portText port ++
    (ps.flatMap paramToStr ++ commentText comment))))) (ok_cons.2 ⟨by decide, ok_append q1 hC'⟩) r
    (n := (version.length : Int) + 1 - 1) (by omega)
  have e4 := cstrchr_found (c := ' ') q1 q4 (hostText host ++ (portText port ++
    (ps.flatMap paramToStr ++ (commentText comment ++ NUL :: r))))
  have e5 := clrncpy_at q1 (b := ' ' :: (hostText host ++ (portText port ++
    (ps.flatMap paramToStr ++ commentText comment)))) hC' r (n := (protocol.length : Int) + 1 - 1) (by omega)
  have e6 := viaComment_wf (A := hostText host ++ (portText port ++ ps.flatMap paramToStr)) (cm := comment)
    (ok_append hH (ok_append hP hS))
    (by simp [hHn '(' o4.1 (by decide) (by decide), hPn '(' (fun p hp => (hport p hp).2.2.2.1.1) (by decide)]
        simpa using hSl)
    (by simp [hHn ')' o4.2.1 (by decide) (by decide), hPn ')' (fun p hp => (hport p hp).2.2.2.1.2.1) (by decide)]
        simpa using hSr)
    (fun c hc => ⟨(hcomment c hc).1, (hcomment c hc).2.1, (hcomment c hc).2.2.1⟩) r
  have hsl : "SIP/".toList = "SIP".toList ++ ['/'] := rfl
  have d1 : ∀ (X : List Char), pdiff ('/' :: X) ('/' :: (version ++ '/' :: X)) = version.length + 1 := by
    intro X; simp [pdiff]; omega
  have d2 : ∀ (X : List Char), pdiff (' ' :: X) ('/' :: (protocol ++ ' ' :: X)) = protocol.length + 1 := by
    intro X; simp [pdiff]; omega
  have d3 : ∀ (X : List Char), ¬ pdiff (' ' :: X) (protocol ++ ' ' :: X) = 0 := by
    intro X; simp [pdiff]; omega
  rw [hsl]
  simp only [List.append_assoc, List.cons_append, List.nil_append] at e1 e2 e3 e4 e5 e6 ⊢
  have e4' : viaHost ('/' :: (protocol ++ ' ' :: (hostText host ++ (portText port ++
      (ps.flatMap paramToStr ++ (commentText comment ++ NUL :: r)))))) = some (some (' ' :: (hostText host ++ (portText port ++
      (ps.flatMap paramToStr ++ (commentText comment ++ NUL :: r)))))) := by
    unfold viaHost
    simp only [List.drop_succ_cons, List.drop_zero, e4, Option.bind_eq_bind, Option.bind_some, d3, if_false]
    rfl
  simp only [e1, Option.bind_eq_bind, Option.bind_some, List.drop_succ_cons, List.drop_zero, e2, d1, e3]
  rw [if_neg (by omega)]
  simp only [e4', Option.bind_some, d2, e5]
  rw [if_neg (by omega)]
  simp only [e6, Option.bind_some, show trim version = version from v3, show trim protocol = protocol from q3]
  have hfin : ∀ via : Via, via.port = none → viaHostPort via (' ' :: (hostText host ++ (portText port ++
      (ps.flatMap paramToStr ++ (commentText comment ++ NUL :: r))))) (ps.flatMap paramToStr ++ (commentText comment ++ NUL :: r)) =
      some (OSIP_SUCCESS, { via with host := some host, port := port }) := by
    intro via hvp
    have := viaHostPort_wf (via := via) (R := ps.flatMap paramToStr ++ commentText comment) o1 o2 o3 ⟨o4.2.2.2.1, o4.2.2.2.2⟩
      (fun p hp => ⟨(hport p hp).1, (hport p hp).2.1, (hport p hp).2.2.1, (hport p hp).2.2.2.1.2.2.2, (hport p hp).2.2.2.2⟩)
      (ok_append hS hC) hvp r
    simpa only [List.append_assoc] using this
  have hA : Str.Ok (' ' :: (hostText host ++ portText port)) := ok_cons.2 ⟨by decide, ok_append hH hP⟩
  have hAn : ';' ∉ ' ' :: (hostText host ++ portText port) := by
    simp [hHn ';' o4.2.2.1 (by decide) (by decide), hPn ';' (fun p hp => (hport p hp).2.2.2.1.2.2.1) (by decide)]
  by_cases hps : ps = []
  · subst hps
    have hcn : ';' ∉ commentText comment := by
      cases comment with
      | none => simp [commentText]
      | some c => simp [commentText, (hcomment c rfl).2.2.2 rfl]
    have e7 := cstrchr_none (c := ';') (ok_append hA hC) (by
      intro hm; rcases List.mem_append.1 hm with hm | hm
      · exact hAn hm
      · exact hcn hm) (by decide) r
    simp only [List.append_assoc, List.cons_append] at e7
    simp only [List.flatMap_nil, List.nil_append, e7, Option.bind_some] at hfin ⊢
    rw [hfin _ rfl]
  · obtain ⟨t, ht⟩ : ∃ t, ps.flatMap paramToStr = ';' :: t := by
      rcases params_follow ps with h | h
      · exact absurd ((params_nil_iff ps).1 h) hps
      · exact h
    have e7 := cstrchr_found (c := ';') hA hAn (t ++ (commentText comment ++ NUL :: r))
    have e7' : ';' :: (t ++ (commentText comment ++ NUL :: r)) = ps.flatMap paramToStr ++ (commentText comment ++ NUL :: r) := by
      rw [ht]; rfl
    rw [e7'] at e7
    simp only [List.append_assoc, List.cons_append] at e7
    simp only [e7, Option.bind_some]
    have hSl : 0 < (ps.flatMap paramToStr).length := by rw [ht]; simp
    have d4 : pdiff (ps.flatMap paramToStr ++ (commentText comment ++ NUL :: r)) (commentText comment ++ NUL :: r) < 0 := by
      simp only [pdiff, List.length_append]; omega
    have d5 : pdiff (commentText comment ++ NUL :: r) (ps.flatMap paramToStr ++ (commentText comment ++ NUL :: r)) =
        (ps.flatMap paramToStr).length := pdiff_app _ _
    have e8 := strncpy_at hS hC r (n := ((ps.flatMap paramToStr).length : Int)) rfl
    have e9 := c71_params_round_trip ps hps (fun p hp => (hparams p hp).1) [] []
    simp only [d4, if_true, d5, e8, Option.bind_some]
    rw [if_neg (by omega)]
    simp only [Str.buf, e9, Option.bind_some]
    rw [if_neg (by decide), hfin _ rfl]
    rfl

/-- **C50** does not hold for all headers which can be written: without parameters, a comment with a
semicolon ends up in the host. -/
theorem c50_violated :
    let v : Via := { version := some "2.0".toList, protocol := some "UDP".toList, host := some "a.b".toList,
                     comment := some "x;y".toList }
    ∃ s, osip_via_to_str (some v) = some (OSIP_SUCCESS, some s) ∧
      osip_via_parse (Str.buf s) = some (OSIP_SUCCESS, { v with host := some "a.b (x".toList }) := by
  exact ⟨"SIP/2.0/UDP a.b (x;y)".toList, by decide +kernel, by decide +kernel⟩

/-- Nor for quoted parameter values with a parenthesis, which are allowed: the header is rejected. -/
theorem c50_paren_violated :
    let v : Via := { version := some "2.0".toList, protocol := some "UDP".toList, host := some "a.b".toList,
                     via_params := [⟨"x".toList, some "\"(\"".toList⟩] }
    ∃ s v', osip_via_to_str (some v) = some (OSIP_SUCCESS, some s) ∧
      osip_via_parse (Str.buf s) = some (OSIP_SYNTAXERROR, v') := by
  exact ⟨"SIP/2.0/UDP a.b;x=\"(\"".toList, { version := some "2.0".toList, protocol := some "UDP".toList },
    by decide +kernel, by decide +kernel⟩

example : osip_via_to_str (some {
      version := some "2.0".toList, protocol := some "UDP".toList, host := some "::1".toList, port := some "5060".toList, comment := some "a;b".toList,
      via_params := [⟨"branch".toList, some "z9hG4bK1".toList⟩, ⟨"lr".toList, none⟩] }) =
    some (0, some "SIP/2.0/UDP [::1]:5060;branch=z9hG4bK1;lr (a;b)".toList) := by decide +kernel

/-! ## C51 -/

theorem cstrchr_str {c : Char} {s : Str} (hs : s.Ok) (hn : c ≠ NUL) :
    (c ∉ s ∧ ∀ r, cstrchr c (s ++ NUL :: r) = some none) ∨
    ∃ a b : Str, s = a ++ c :: b ∧ c ∉ a ∧ a.Ok ∧ b.Ok ∧ ∀ r, cstrchr c (s ++ NUL :: r) = some (some ((c :: b) ++ NUL :: r)) := by
  by_cases h : c ∈ s
  · obtain ⟨a, b, rfl, ha⟩ := mem_first h
    right
    obtain ⟨h1, h2⟩ := ok_append_iff.1 hs
    refine ⟨a, b, rfl, ha, h1, (ok_cons.1 h2).2, fun r => ?_⟩
    have := cstrchr_found (c := c) h1 ha (b ++ NUL :: r)
    simpa using this
  · exact .inl ⟨h, fun r => cstrchr_none hs h hn r⟩

theorem pdiff_nul (x y : Str) (r : List Char) : pdiff (x ++ NUL :: r) (y ++ NUL :: r) = (y.length : Int) - x.length := by
  simp [pdiff]; omega

theorem drop_nul (c : Char) (x : Str) (r : List Char) : ((c :: x) ++ NUL :: r).drop 1 = x ++ NUL :: r := rfl

theorem viaSpaces_str {t : Str} (ht : t.Ok) (h0 : t ≠ []) :
    (∀ r, viaSpaces (t ++ NUL :: r) = some none) ∨ t = [' '] ∨
      ∃ (c : Char) (u : Str), c ≠ NUL ∧ u.Ok ∧ (∃ w, t = w ++ c :: u) ∧ ∀ r, viaSpaces (t ++ NUL :: r) = some (some ((c :: u) ++ NUL :: r)) := by
  induction t with
  | nil => exact absurd rfl h0
  | cons c u ih =>
    obtain ⟨hc, hu⟩ := ok_cons.1 ht
    by_cases h : c = ' '
    · subst h
      by_cases hu0 : u = []
      · right; left; rw [hu0]
      · by_cases h1 : u.length = 1
        · left
          intro r
          simp [viaSpaces, cstr_at hu, h1]
        · have e : ∀ r, viaSpaces ((' ' :: u) ++ NUL :: r) = viaSpaces (u ++ NUL :: r) := by
            intro r; simp [viaSpaces, cstr_at hu, h1]
          rcases ih hu hu0 with h | h | ⟨c, v, h2, h3, ⟨w, h4⟩, h5⟩
          · left; intro r; rw [e, h r]
          · rw [h] at h1; exact absurd rfl h1
          · right; right
            exact ⟨c, v, h2, h3, ⟨' ' :: w, by rw [h4]; rfl⟩, fun r => by rw [e, h5 r]⟩
    · right; right
      exact ⟨c, u, hc, hu, ⟨[], rfl⟩, fun r => by simp [viaSpaces, h]⟩

theorem viaHost_str {p : Str} (hp : p.Ok) (h : p ≠ [' ']) :
    (∀ r, viaHost ('/' :: p ++ NUL :: r) = some none) ∨
      ∃ a b, p = a ++ ' ' :: b ∧ ∀ r, viaHost ('/' :: p ++ NUL :: r) = some (some ((' ' :: b) ++ NUL :: r)) := by
  unfold viaHost
  simp only [drop_nul]
  rcases cstrchr_str (c := ' ') hp (by decide) with ⟨h1, h2⟩ | ⟨a, b, rfl, h1, ha, hb, h2⟩
  · left; intro r; simp [h2]
  · simp only [h2, Option.bind_eq_bind, Option.bind_some, pdiff_nul]
    by_cases ha0 : a = []
    · subst ha0
      simp only [List.nil_append, Int.sub_self, if_true, List.cons_append]
      rcases viaSpaces_str (t := ' ' :: b) (by simpa using hp) (by simp) with h3 | h3 | ⟨c, u, h4, h5, ⟨w, h6⟩, h7⟩
      · simp only [List.cons_append] at h3
        left; intro r; simp [h3]
      · exact absurd h3 h
      · simp only [List.cons_append] at h7
        simp only [h7, Option.bind_some, List.cons_append, reduceCtorEq, if_false, List.drop_succ_cons, List.drop_zero]
        rcases cstrchr_str (c := ' ') h5 (by decide) with ⟨_, h8⟩ | ⟨x, y, rfl, _, _, _, h8⟩
        · left; exact h8
        · right
          exact ⟨w ++ c :: x, y, by rw [h6]; simp, h8⟩
    · right
      refine ⟨a, b, rfl, fun r => ?_⟩
      have : 0 < a.length := List.length_pos_iff.2 ha0
      rw [if_neg (by simp; omega)]
      rfl

theorem clrncpy_str {t : Str} (ht : t.Ok) {n : Int} (h0 : 0 ≤ n) (hn : n ≤ t.length) :
    ∃ u, ∀ r, clrncpy (t ++ NUL :: r) n = some u :=
  ⟨_, fun r => clrncpy_total ht r h0 hn⟩

theorem viaComment_str {b : Str} (hb : b.Ok) :
    (∃ i, ∀ r, viaComment ((' ' :: b) ++ NUL :: r) = some (.error i)) ∨
      ∃ cm x y, ' ' :: b = x ++ y ∧ ∀ r, viaComment ((' ' :: b) ++ NUL :: r) = some (.ok (cm, y ++ NUL :: r)) := by
  have hb' : Str.Ok (' ' :: b) := ok_cons.2 ⟨by decide, hb⟩
  unfold viaComment
  rcases cstrchr_str (c := '(') hb' (by decide) with ⟨_, h1⟩ | ⟨x, y, h1, _, hx, hy, h2⟩
  · right
    refine ⟨none, ' ' :: b, [], by simp, fun r => ?_⟩
    simp only [h1, Option.bind_eq_bind, Option.bind_some, cstr_at hb', List.drop_left', List.nil_append]
    rfl
  · rcases cstrchr_str (c := ')') hb' (by decide) with ⟨_, h3⟩ | ⟨x', y', h3, _, _, _, h4⟩
    · left
      exact ⟨_, fun r => by simp only [h2, h3, Option.bind_eq_bind, Option.bind_some]; rfl⟩
    · simp only [h2, h4, Option.bind_eq_bind, Option.bind_some, pdiff_nul, drop_nul]
      by_cases hlt : ((('(' :: y).length : Int) - (')' :: y').length) < 2
      · left
        exact ⟨_, fun r => by rw [if_pos hlt]; rfl⟩
      · right
        obtain ⟨d, x2, hx2⟩ : ∃ d x2, x = d :: x2 := by
          cases x with
          | nil => simp at h1
          | cons d x2 => exact ⟨d, x2, rfl⟩
        have hl : b.length + 1 = x.length + y.length + 1 := by
          have := congrArg List.length h1; simp at this; omega
        refine ⟨some (y.take ((('(' :: y).length : Int) - (')' :: y').length - 1).toNat), (' ' :: b).take (x.length - 1), (' ' :: b).drop (x.length - 1), (List.take_append_drop _ _).symm, fun r => ?_⟩
        rw [if_neg hlt]
        rw [strncpy_total hy r (by omega)]
        simp only [Option.bind_some]
        have hxl : 0 < x.length := by rw [hx2]; simp
        have hk : (((' ' :: b).length : Int) - ('(' :: y).length) = x.length := by simp; omega
        rw [hk, if_neg (by omega)]
        have : ((x.length : Int).toNat - 1) = x.length - 1 := by omega
        rw [this, List.drop_append_of_le_length (by simp; omega)]
        rfl

theorem viaPort_str (via : Via) {P : Str} {q : Option Str} (hP : P.Ok) (hq : ∀ x ∈ q, Str.Ok x ∧ ∃ d t, x = d :: t) :
    (∃ e, ∀ r, viaPort via (P ++ NUL :: r) (q.map (· ++ NUL :: r)) = some (.error e)) ∨
      ∃ v y, (P.length ≤ y.length) ∧ ∀ r, viaPort via (P ++ NUL :: r) (q.map (· ++ NUL :: r)) = some (.ok (v, y ++ NUL :: r)) := by
  unfold viaPort
  cases q with
  | none => right; exact ⟨via, P, Nat.le_refl _, fun r => rfl⟩
  | some x =>
    obtain ⟨hx, d, t, hdt⟩ := hq x rfl
    have ht : Str.Ok t := by rw [hdt] at hx; exact (ok_cons.1 hx).2
    by_cases hlt : P.length < x.length
    · have e : ∀ r, ifBefore (some (x ++ NUL :: r)) (P ++ NUL :: r) = some (x ++ NUL :: r) := fun r =>
        ifBefore_some (by rw [pdiff_nul]; omega)
      simp only [Option.map_some, e, pdiff_nul]
      by_cases h2 : ((x.length : Int) - P.length) < 2
      · left; exact ⟨_, fun r => by rw [if_pos h2]; rfl⟩
      · have hl : x.length = t.length + 1 := by rw [hdt]; rfl
        have e2 : ∀ r, clrncpy ((x ++ NUL :: r).drop 1) ((x.length : Int) - P.length - 1) =
            some (trim (t.take ((x.length : Int) - P.length - 1).toNat)) := fun r => by
          rw [hdt, drop_nul]
          exact clrncpy_total ht r (by rw [hdt] at h2; omega) (by simp; omega)
        simp only [h2, if_false, e2, Option.bind_eq_bind, Option.bind_some]
        split
        · left; exact ⟨_, fun r => rfl⟩
        · right; exact ⟨_, x, by omega, fun r => rfl⟩
    · right
      refine ⟨via, P, Nat.le_refl _, fun r => ?_⟩
      have : ifBefore (some (x ++ NUL :: r)) (P ++ NUL :: r) = none :=
        ifBefore_none (by intro z hz; cases hz; rw [pdiff_nul]; omega)
      simp only [Option.map_some, this]

theorem viaHostPort_str (via : Via) {b P : Str} (hb : b.Ok) (hP : P.Ok) (hPb : P.length ≤ b.length + 1) :
    ∃ res, ∀ r, viaHostPort via ((' ' :: b) ++ NUL :: r) (P ++ NUL :: r) = some res := by
  have hb' : Str.Ok (' ' :: b) := ok_cons.2 ⟨by decide, hb⟩
  unfold viaHostPort
  have fin : ∀ (via : Via) (q : Option Str), (∀ x ∈ q, Str.Ok x ∧ ∃ d t, x = d :: t) →
      (∀ x ∈ q, x.length ≤ b.length + 1) → ∀ v6 : Bool,
      ∃ res, ∀ r, ((viaPort via (P ++ NUL :: r) (q.map (· ++ NUL :: r))).bind fun x => match x with
        | .error x => (pure x : Option (Int × Via))
        | .ok (via, port) =>
          if v6 = true then pure (OSIP_SUCCESS, via)
          else if pdiff port ((' ' :: b) ++ NUL :: r) < 2 then pure (OSIP_SYNTAXERROR, via)
          else (clrncpy (((' ' :: b) ++ NUL :: r).drop 1) (pdiff port ((' ' :: b) ++ NUL :: r) - 1)).bind fun h =>
            pure (OSIP_SUCCESS, { via with host := some h })) = some res := by
    intro via q hq hqb v6
    rcases viaPort_str via hP hq with ⟨e, he⟩ | ⟨v, y, hy, he⟩
    · exact ⟨e, fun r => by simp [he]⟩
    · simp only [he, Option.bind_some, pdiff_nul, drop_nul]
      by_cases h6 : v6 = true
      · exact ⟨_, fun r => by rw [if_pos h6]; rfl⟩
      · simp only [h6]
        by_cases h2 : (((' ' :: b).length : Int) - y.length) < 2
        · exact ⟨_, fun r => by simp only [h2, if_true]; rfl⟩
        · have e : ∀ r, clrncpy (b ++ NUL :: r) (((' ' :: b).length : Int) - y.length - 1) = _ := fun r =>
            clrncpy_total hb r (by omega) (by simp; omega)
          exact ⟨_, fun r => by simp only [h2, if_false, e]; rfl⟩
  rcases cstrchr_str (c := '[') hb' (by decide) with ⟨_, h1⟩ | ⟨x, y, h1, _, _, hy, h2⟩
  all_goals rcases cstrchr_str (c := ':') hb' (by decide) with ⟨_, h3⟩ | ⟨x3, y3, h3, _, _, hy3, h4⟩
  · obtain ⟨res, h⟩ := fin via none (by simp) (by simp) false
    refine ⟨res, fun r => ?_⟩
    have := h r
    simp only [h1, Option.bind_eq_bind, Option.bind_some, ifBefore, viaV6, h3, Option.isSome_none]
    exact this
  · obtain ⟨res, h⟩ := fin via (some (':' :: y3)) (by simp; exact ok_cons.2 ⟨by decide, hy3⟩)
      (by intro z hz; cases hz; have := congrArg List.length h3; simp at this ⊢; omega) false
    refine ⟨res, fun r => ?_⟩
    have := h r
    simp only [h1, Option.bind_eq_bind, Option.bind_some, ifBefore, viaV6, h4, Option.isSome_none]
    exact this
  all_goals
    have hyl : y.length ≤ b.length := by have := congrArg List.length h1; simp at this; omega
    have hy' : Str.Ok ('[' :: y) := ok_cons.2 ⟨by decide, hy⟩
    by_cases hlt : P.length < y.length + 1
    · have e : ∀ r, ifBefore (some (('[' :: y) ++ NUL :: r)) (P ++ NUL :: r) = some (('[' :: y) ++ NUL :: r) := fun r =>
        ifBefore_some (by rw [pdiff_nul]; simp; omega)
      simp only [h2, Option.bind_eq_bind, Option.bind_some, e, viaV6, Option.isSome_some]
      rcases cstrchr_str (c := ']') hy' (by decide) with ⟨_, h5⟩ | ⟨x5, y5, h5, _, _, hy5, h6⟩
      · exact ⟨_, fun r => by simp only [h5, Option.bind_some]; rfl⟩
      · simp only [h6, Option.bind_some, pdiff_nul, drop_nul]
        by_cases g1 : ((P.length : Int) - (']' :: y5).length) > 0
        · exact ⟨_, fun r => by simp only [g1, if_true]; rfl⟩
        · simp only [g1, if_false]
          by_cases g2 : ((('[' :: y).length : Int) - (']' :: y5).length) < 2
          · exact ⟨_, fun r => by simp only [g2, if_true]; rfl⟩
          · simp only [g2, if_false]
            have hy5l : y5.length ≤ y.length := by have := congrArg List.length h5; simp at this; omega
            have e7 : ∀ r, clrncpy (y ++ NUL :: r) ((('[' :: y).length : Int) - (']' :: y5).length - 1) = _ := fun r =>
              clrncpy_total hy r (by omega) (by simp; omega)
            simp only [e7, Option.bind_some]
            rcases cstrchr_str (c := ':') (s := ']' :: y5) (ok_cons.2 ⟨by decide, hy5⟩) (by decide) with
              ⟨_, h8⟩ | ⟨x8, y8, h8, _, _, hy8, h9⟩
            · obtain ⟨res, h⟩ := fin { via with host := some _ } none (by simp) (by simp) true
              refine ⟨res, fun r => ?_⟩
              have := h r
              simp only [h8, Option.bind_some]
              exact this
            · obtain ⟨res, h⟩ := fin { via with host := some _ } (some (':' :: y8)) (by simp; exact ok_cons.2 ⟨by decide, hy8⟩)
                (by intro z hz; cases hz; have := congrArg List.length h8; simp at this ⊢; omega) true
              refine ⟨res, fun r => ?_⟩
              have := h r
              simp only [h9, Option.bind_some]
              exact this
    · have e : ∀ r, ifBefore (some (('[' :: y) ++ NUL :: r)) (P ++ NUL :: r) = none := fun r =>
        ifBefore_none (by intro z hz; cases hz; rw [pdiff_nul]; simp; omega)
      simp only [h2, Option.bind_eq_bind, Option.bind_some, e, viaV6, Option.isSome_none]
      first
        | (obtain ⟨res, h⟩ := fin via none (by simp) (by simp) false
           refine ⟨res, fun r => ?_⟩
           have := h r
           simp only [h3, Option.bind_some]
           exact this)
        | (obtain ⟨res, h⟩ := fin via (some (':' :: y3)) (by simp; exact ok_cons.2 ⟨by decide, hy3⟩)
             (by intro z hz; cases hz; have := congrArg List.length h3; simp at this ⊢; omega) false
           refine ⟨res, fun r => ?_⟩
           have := h r
           simp only [h4, Option.bind_some]
           exact this)

/-- **C51** The parser of Via headers reads nothing outside the string it is given: whatever follows the
terminator in memory, even nothing, the result is the same. Missing for the full property: strings which end
with one space after the second slash, see `c51_violated`. -/
theorem c51_via_in_bounds_partial {s : Str} (hs : s.Ok)
    (h : ∀ a b, '/' ∉ a → '/' ∉ b → s ≠ a ++ '/' :: (b ++ "/ ".toList)) :
    ∃ res, ∀ r, osip_via_parse (s ++ NUL :: r) = some res := by
  unfold osip_via_parse
  rcases cstrchr_str (c := '/') hs (by decide) with ⟨_, h1⟩ | ⟨a, s1, rfl, ha, _, hs1, h1⟩
  · exact ⟨_, fun r => by simp only [h1, Option.bind_eq_bind, Option.bind_some]; rfl⟩
  simp only [h1, Option.bind_eq_bind, Option.bind_some, drop_nul]
  rcases cstrchr_str (c := '/') hs1 (by decide) with ⟨_, h2⟩ | ⟨b, s2, rfl, hb, hbok, hs2, h2⟩
  · exact ⟨_, fun r => by simp only [h2, Option.bind_some]; rfl⟩
  simp only [h2, Option.bind_some, pdiff_nul, drop_nul]
  by_cases g1 : (((('/' :: (b ++ '/' :: s2)).length : Int) - ('/' :: s2).length)) < 2
  · exact ⟨_, fun r => by simp only [g1, if_true]; rfl⟩
  simp only [g1, if_false]
  have e1 : ∀ r, clrncpy (b ++ '/' :: s2 ++ NUL :: r) ((('/' :: (b ++ '/' :: s2)).length : Int) - ('/' :: s2).length - 1) = _ :=
    fun r => clrncpy_total (t := b ++ '/' :: s2) hs1 r (by omega) (by simp; omega)
  simp only [e1, Option.bind_some]
  have hs2' : s2 ≠ [' '] := by
    intro hc
    exact h a b ha hb (by rw [hc]; rfl)
  rcases viaHost_str hs2 hs2' with h3 | ⟨c, d, rfl, h3⟩
  · exact ⟨_, fun r => by simp only [h3, Option.bind_some]; rfl⟩
  simp only [h3, Option.bind_some, pdiff_nul, drop_nul]
  by_cases g2 : ((('/' :: (c ++ ' ' :: d)).length : Int) - (' ' :: d).length) < 2
  · exact ⟨_, fun r => by simp only [g2, if_true]; rfl⟩
  simp only [g2, if_false]
  have e2 : ∀ r, clrncpy (c ++ ' ' :: d ++ NUL :: r) ((('/' :: (c ++ ' ' :: d)).length : Int) - (' ' :: d).length - 1) = _ :=
    fun r => clrncpy_total (t := c ++ ' ' :: d) hs2 r (by omega) (by simp; omega)
  simp only [e2, Option.bind_some]
  have hd' : Str.Ok (' ' :: d) := (ok_append_iff.1 hs2).2
  have hd : Str.Ok d := (ok_cons.1 hd').2
  rcases viaComment_str hd with ⟨i, h4⟩ | ⟨cm, x, y, hxy, h4⟩
  · exact ⟨_, fun r => by simp only [h4, Option.bind_some]; rfl⟩
  simp only [h4, Option.bind_some]
  have hyl : y.length ≤ d.length + 1 := by have := congrArg List.length hxy; simp at this; omega
  have hy : Str.Ok y := by rw [hxy] at hd'; exact (ok_append_iff.1 hd').2
  rcases cstrchr_str (c := ';') hd' (by decide) with ⟨_, h5⟩ | ⟨x5, y5, h5, _, _, hy5, h6⟩
  · simp only [h5, Option.bind_some]
    exact viaHostPort_str _ hd hy hyl
  simp only [h6, Option.bind_some, pdiff_nul]
  have hy5' : Str.Ok (';' :: y5) := ok_cons.2 ⟨by decide, hy5⟩
  have hy5l : (';' :: y5).length ≤ d.length + 1 := by have := congrArg List.length h5; simp at this ⊢; omega
  split
  · next g3 =>
    split
    · exact ⟨_, fun r => rfl⟩
    · next g4 =>
      simp only [strncpy_total hy5' _ (show (0 : Int) ≤ ((';' :: y5).length : Int) - y.length by omega), Option.bind_some]
      have hk : 0 < (((';' :: y5).length : Int) - y.length).toNat := by omega
      obtain ⟨res, h7⟩ := c71_params_in_bounds (s := (';' :: y5).take (((';' :: y5).length : Int) - y.length).toNat)
        (fun hm => hy5' (List.mem_of_mem_take hm)) (by
          intro hc
          have := congrArg List.length hc
          simp at this
          simp at hk
          omega) [] []
      simp only [Str.buf, h7, Option.bind_some]
      split
      · exact ⟨_, fun r => rfl⟩
      · exact viaHostPort_str _ hd hy5' hy5l
  · exact viaHostPort_str _ hd hy5' hy5l

example : ∃ res, ∀ r, osip_via_parse ("SIP/2.0/UDP a:1 (".toList ++ NUL :: r) = some res := by
  refine c51_via_in_bounds_partial (by decide) ?_
  intro a b _ _ h
  have h2 := congrArg List.getLast? (h.trans (show a ++ '/' :: (b ++ "/ ".toList) = (a ++ '/' :: (b ++ ['/'])) ++ [' '] by simp))
  rw [List.getLast?_concat] at h2
  exact absurd h2 (by decide)

/-- **C51** does not hold: after `SIP/2.0/ ` the byte behind the terminator is read. -/
theorem c51_violated {a b : Str} (ha : a.Ok) (hb : b.Ok) (ha' : '/' ∉ a) (hb' : '/' ∉ b) (h0 : b ≠ []) :
    osip_via_parse (Str.buf (a ++ '/' :: (b ++ "/ ".toList))) = none := by
  have hl : 0 < b.length := List.length_pos_iff.2 h0
  have e1 := cstrchr_found (c := '/') ha ha' (b ++ '/' :: ' ' :: [NUL])
  have e2 := cstrchr_found (c := '/') hb hb' (' ' :: [NUL])
  have e3 := clrncpy_at hb (b := "/ ".toList) (by decide) [] (n := (b.length : Int) + 1 - 1) (by omega)
  have d1 : pdiff ('/' :: ' ' :: [NUL]) ('/' :: (b ++ '/' :: ' ' :: [NUL])) = b.length + 1 := by simp [pdiff]; omega
  have e4 : viaHost ('/' :: ' ' :: [NUL]) = none := by decide
  have hs : Str.buf (a ++ '/' :: (b ++ "/ ".toList)) = a ++ '/' :: (b ++ '/' :: ' ' :: [NUL]) := by simp [Str.buf]
  have e3' : clrncpy (b ++ '/' :: ' ' :: [NUL]) ((b.length : Int) + 1 - 1) = some (trim b) := by simpa using e3
  rw [hs]
  unfold osip_via_parse
  simp only [e1, Option.bind_eq_bind, Option.bind_some, List.drop_succ_cons, List.drop_zero, e2, d1, e3', e4]
  rw [if_neg (by omega)]
  rfl

example : osip_via_parse (Str.buf "SIP/2.0/ ".toList) = none := by decide +kernel

example : osip_via_parse (Str.buf "SIP/2.0/UDP [::1]:5060;branch=z9hG4bK1;lr (a;b)".toList) =
    some (0, { version := some "2.0".toList, protocol := some "UDP".toList, host := some "::1".toList,
               port := some "5060".toList, comment := some "a;b".toList,
               via_params := [⟨"branch".toList, some "z9hG4bK1".toList⟩, ⟨"lr".toList, none⟩] }) := by decide +kernel

end Osip
