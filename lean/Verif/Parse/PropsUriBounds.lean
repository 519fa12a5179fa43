import Verif.Parse.PropsUri

/-!
# C72: URI parsing stays inside the string
-/

set_option autoImplicit false

namespace Osip

theorem drop_str {s : Str} {j : Nat} (h : j ≤ s.length) (r : List Char) : (s ++ NUL :: r).drop j = s.drop j ++ NUL :: r := by
  rw [List.drop_append_of_le_length h]

theorem get_str {s : Str} {j : Nat} (h : j ≤ s.length) : ∃ c, ∀ r, (s ++ NUL :: r)[j]? = some c := by
  rcases Nat.lt_or_ge j s.length with h1 | h1
  · exact ⟨s[j], fun r => by rw [List.getElem?_append_left h1, List.getElem?_eq_getElem h1]⟩
  · obtain rfl : j = s.length := by omega
    exact ⟨NUL, fun r => by simp⟩

theorem backScan_str (s : Str) (stop : Char → Bool) {i : Nat} (h : i ≤ s.length) :
    ∃ j, j ≤ i ∧ ∀ r, backScan (s ++ NUL :: r) stop i = some j := by
  induction i with
  | zero => exact ⟨0, Nat.le_refl _, fun r => rfl⟩
  | succ i ih =>
    obtain ⟨c, hc⟩ := get_str h
    by_cases hs : stop c = true
    · exact ⟨i + 1, Nat.le_refl _, fun r => by simp [backScan, hc, hs]⟩
    · obtain ⟨j, h1, h2⟩ := ih (by omega)
      exact ⟨j, by omega, fun r => by simp [backScan, hc, hs, h2]⟩

theorem findOpen_str (s : Str) {i : Nat} (h : i ≤ s.length) :
    ∃ j, j ≤ i ∧ ∀ r, findOpen (s ++ NUL :: r) i = some j := by
  induction s generalizing i with
  | nil =>
    obtain rfl : i = 0 := by simpa using h
    exact ⟨0, Nat.le_refl _, fun r => rfl⟩
  | cons c s ih =>
    cases i with
    | zero => exact ⟨0, Nat.le_refl _, fun r => rfl⟩
    | succ i =>
      by_cases hc : c = '['
      · exact ⟨0, by omega, fun r => by simp [findOpen, hc]⟩
      · obtain ⟨j, h1, h2⟩ := ih (i := i) (by simpa using h)
        exact ⟨j + 1, by omega, fun r => by simp [findOpen, hc, h2]⟩

theorem take_ok {s : Str} (h : s.Ok) (n : Nat) : Str.Ok (s.take n) := fun hm => h (List.mem_of_mem_take hm)
theorem drop_ok {s : Str} (h : s.Ok) (n : Nat) : Str.Ok (s.drop n) := fun hm => h (List.mem_of_mem_drop hm)

theorem clrncpy_drop {s : Str} (hs : s.Ok) {j : Nat} (hj : j ≤ s.length) {n : Int} (h0 : 0 ≤ n) (hn : n ≤ s.length - j) :
    ∃ u, ∀ r, clrncpy ((s ++ NUL :: r).drop j) n = some u :=
  ⟨_, fun r => by
    rw [drop_str hj]
    exact clrncpy_total (drop_ok hs j) r h0 (by simp; omega)⟩

/-! ## The parts -/

theorem uriHost_str (url : Uri) {s : Str} (hs : s.Ok) {port : Nat} (hp : port ≤ s.length) :
    ∃ res, ∀ r, uriHost url (s ++ NUL :: r) port = some res := by
  obtain ⟨tmp, t1, t2⟩ := backScan_str s (fun c => c == ']') hp
  obtain ⟨c, hc⟩ := get_str (s := s) (j := tmp) (by omega)
  unfold uriHost
  simp only [t2, hc, Option.bind_eq_bind, Option.bind_some]
  by_cases hcb : c = ']'
  · obtain ⟨h, h1, h2⟩ := findOpen_str s (i := tmp) (by omega)
    simp only [hcb, if_true, h2, Option.bind_some]
    by_cases g1 : h ≥ tmp
    · exact ⟨_, fun r => by rw [if_pos g1]; rfl⟩
    · by_cases g2 : tmp - h < 2
      · exact ⟨_, fun r => by rw [if_neg g1, if_pos g2]; rfl⟩
      · obtain ⟨u, e⟩ := clrncpy_drop hs (j := h + 1) (n := (tmp : Int) - h - 1) (by omega) (by omega) (by omega)
        exact ⟨_, fun r => by rw [if_neg g1, if_neg g2, e]; rfl⟩
  · simp only [hcb, if_false]
    by_cases g : port < 2
    · exact ⟨_, fun r => by rw [if_pos g]; rfl⟩
    · obtain ⟨u, e⟩ := clrncpy_drop hs (j := 1) (n := (port : Int) - 1) (by omega) (by omega) (by omega)
      exact ⟨_, fun r => by rw [if_neg g, e]; rfl⟩

theorem uriPort_str (url : Uri) {x y : Str} (hx : x ≠ []) (hs : Str.Ok (x ++ y)) :
    (∃ e, ∀ r, uriPort url (x ++ y ++ NUL :: r) (y ++ NUL :: r) = some (.error e)) ∨
    ∃ url' port, port ≤ (x ++ y).length ∧ ∀ r, uriPort url (x ++ y ++ NUL :: r) (y ++ NUL :: r) = some (.ok (url', port)) := by
  have hl : 0 < x.length := List.length_pos_iff.2 hx
  have d : ∀ r, (pdiff (y ++ NUL :: r) (x ++ y ++ NUL :: r)).toNat = x.length := fun r => by
    rw [pdiff_nul, List.length_append]; omega
  obtain ⟨port, p1, p2⟩ := backScan_str (x ++ y) (fun c => c == ']' || c == ':') (i := x.length - 1) (by simp; omega)
  obtain ⟨c, hc⟩ := get_str (s := x ++ y) (j := port) (by simp; omega)
  unfold uriPort
  simp only [d, p2, hc, Option.bind_eq_bind, Option.bind_some]
  simp only [show ¬ x.length = 0 by omega, if_false]
  by_cases hcc : c = ':'
  · simp only [hcc, if_true]
    by_cases h0 : port = 0
    · exact .inr ⟨_, x.length, by simp, fun r => by rw [if_pos h0]; rfl⟩
    · by_cases g : x.length - port < 2 ∨ x.length - port > 8
      · exact .inl ⟨_, fun r => by rw [if_neg h0, if_pos g]; rfl⟩
      · obtain ⟨u, e⟩ := clrncpy_drop hs (j := port + 1) (n := (x.length : Int) - port - 1) (by simp; omega) (by omega)
          (by simp; omega)
        exact .inr ⟨_, port, by simp; omega, fun r => by rw [if_neg h0, if_neg g, e]; rfl⟩
  · simp only [hcc, if_false]
    exact .inr ⟨_, x.length, by simp, fun r => rfl⟩

theorem uriHeadersLoop_str (sscanf : Str → Option Nat) (t : Str) (ht : t.Ok) (acc : List Param) (c : Char) (hc : c ≠ '=')
    (hc0 : c ≠ NUL) : ∃ res, ∀ n, t.length < n → ∀ r, uriHeadersLoop sscanf n acc ((c :: t) ++ NUL :: r) = some res := by
  generalize hm : t.length = m
  induction m using Nat.strongRecOn generalizing t acc c with
  | _ m ih =>
  have hct : Str.Ok (c :: t) := ok_cons.2 ⟨hc0, ht⟩
  rcases cstrchr_str (c := '=') hct (by decide) with ⟨_, e1⟩ | ⟨a, b, e0, _, ha, hb, e1⟩
  · refine ⟨(OSIP_SYNTAXERROR, acc), fun n hn r => ?_⟩
    obtain ⟨n, rfl⟩ : ∃ k, n = k + 1 := ⟨n - 1, by omega⟩
    rcases cstrchr_str (c := '&') ht (by decide) with ⟨_, e2⟩ | ⟨_, _, _, _, _, _, e2⟩ <;>
      simp only [uriHeadersLoop, e1, drop_nul, e2, Option.bind_eq_bind, Option.bind_some] <;> rfl
  · obtain ⟨a, rfl⟩ : ∃ a', a = c :: a' := by
      cases a with
      | nil => simp only [List.nil_append] at e0; injection e0 with h _; exact absurd h hc
      | cons d a => injection e0 with h _; exact ⟨a, by rw [h]⟩
    obtain rfl : t = a ++ '=' :: b := by injection e0
    have hb' : Str.Ok ('=' :: b) := ok_cons.2 ⟨by decide, hb⟩
    have d1 : ∀ r, pdiff (('=' :: b) ++ NUL :: r) ((c :: (a ++ '=' :: b)) ++ NUL :: r) - 1 = a.length := fun r => by
      rw [pdiff_nul]; simp only [List.length_cons, List.length_append]; omega
    have n1 : ∀ r, strncpy (((c :: (a ++ '=' :: b)) ++ NUL :: r).drop 1) (a.length : Int) = some a := fun r => by
      rw [drop_nul, List.append_assoc]; exact strncpy_at (ok_cons.1 ha).2 hb' r rfl
    obtain ⟨hname, un⟩ := unesc_total sscanf (ok_cons.1 ha).2
    rcases cstrchr_str (c := '&') ht (by decide) with ⟨_, e2⟩ | ⟨a2, b2, e0', _, ha2, hb2, e2⟩
    · have d2 : ∀ r, ((c :: (a ++ '=' :: b)).length : Int) - pdiff (('=' :: b) ++ NUL :: r) ((c :: (a ++ '=' :: b)) ++ NUL :: r) =
          b.length + 1 := fun r => by
        rw [pdiff_nul]; simp only [List.length_cons, List.length_append]; omega
      have n2 : ∀ r, strncpy ((('=' :: b) ++ NUL :: r).drop 1) ((b.length : Int) + 1) = some b := fun r => by
        rw [drop_nul, strncpy_total hb r (by omega), List.take_of_length_le (by omega)]
      obtain ⟨hvalue, uv⟩ := unesc_total sscanf hb
      refine ⟨(OSIP_SUCCESS, param_add acc hname (some hvalue)), fun n hn r => ?_⟩
      obtain ⟨n, rfl⟩ : ∃ k, n = k + 1 := ⟨n - 1, by omega⟩
      simp only [uriHeadersLoop, e1, drop_nul, e2, Option.bind_eq_bind, Option.bind_some, d1]
      rw [← drop_nul c, n1]
      simp only [Option.bind_some, un, cstr_at hct, d2]
      rw [if_neg (by omega), ← drop_nul '=', n2]
      simp only [Option.bind_some, uv]
      rfl
    · have d2 : ∀ r, pdiff (('&' :: b2) ++ NUL :: r) (('=' :: b) ++ NUL :: r) = (b.length : Int) - b2.length := fun r => by
        rw [pdiff_nul]; simp only [List.length_cons]; omega
      by_cases hlt : (b.length : Int) - b2.length < 2
      · refine ⟨(OSIP_SYNTAXERROR, acc), fun n hn r => ?_⟩
        obtain ⟨n, rfl⟩ : ∃ k, n = k + 1 := ⟨n - 1, by omega⟩
        simp only [uriHeadersLoop, e1, drop_nul, e2, Option.bind_eq_bind, Option.bind_some, d1]
        rw [← drop_nul c, n1]
        simp only [Option.bind_some, un, d2]
        rw [if_pos hlt]
        rfl
      · have n2 : ∀ r, strncpy ((('=' :: b) ++ NUL :: r).drop 1) ((b.length : Int) - b2.length - 1) =
            some (b.take ((b.length : Int) - b2.length - 1).toNat) := fun r => by
          rw [drop_nul]; exact strncpy_total hb r (by omega)
        obtain ⟨hvalue, uv⟩ := unesc_total sscanf (take_ok hb ((b.length : Int) - b2.length - 1).toNat)
        have hlen := congrArg List.length e0'
        simp only [List.length_append, List.length_cons] at hlen hm
        obtain ⟨res, hres⟩ := ih b2.length (by omega) b2 hb2 (param_add acc hname (some hvalue)) '&' (by decide) (by decide) rfl
        refine ⟨res, fun n hn r => ?_⟩
        obtain ⟨n, rfl⟩ : ∃ k, n = k + 1 := ⟨n - 1, by omega⟩
        simp only [uriHeadersLoop, e1, drop_nul, e2, Option.bind_eq_bind, Option.bind_some, d1]
        rw [← drop_nul c, n1]
        simp only [Option.bind_some, un, d2]
        rw [if_neg hlt, ← drop_nul '=', n2]
        simp only [Option.bind_some, uv]
        exact hres n (by omega) r

theorem uriParam_str (sscanf : Str → Option Nat) {t b : Str} (ht : t.Ok) (c : Char) (acc : List Param) {equal : Option (List Char)}
    (he : equal = none ∨ ∃ u : Str, u.Ok ∧ equal = some (('=' :: u) ++ [NUL])) :
    ∃ res, uriParam sscanf ((c :: t) ++ [NUL]) equal (b ++ [NUL]) acc = some res := by
  rcases he with rfl | ⟨u, hu, rfl⟩
  · simp only [uriParam]
    by_cases h : pdiff (b ++ [NUL]) (c :: t ++ [NUL]) < 2
    · exact ⟨_, by rw [if_pos h]; rfl⟩
    · rw [if_neg h, drop_nul c t [], strncpy_total ht [] (by omega)]
      obtain ⟨pname, hn⟩ := unesc_total sscanf (take_ok ht (pdiff (b ++ [NUL]) (c :: t ++ [NUL]) - 1).toNat)
      simp only [Option.bind_eq_bind, Option.bind_some, hn]
      exact ⟨_, rfl⟩
  · simp only [uriParam]
    by_cases h : pdiff (b ++ [NUL]) ('=' :: u ++ [NUL]) < 2
    · exact ⟨_, by rw [if_pos h]; rfl⟩
    · rw [if_neg h, drop_nul '=' u [], strncpy_total hu [] (by omega)]
      obtain ⟨pvalue, hv⟩ := unesc_total sscanf (take_ok hu (pdiff (b ++ [NUL]) ('=' :: u ++ [NUL]) - 1).toNat)
      simp only [Option.bind_eq_bind, Option.bind_some, hv]
      by_cases h2 : pdiff ('=' :: u ++ [NUL]) (c :: t ++ [NUL]) < 2
      · exact ⟨_, by rw [if_pos h2]; rfl⟩
      · rw [if_neg h2, drop_nul c t [], strncpy_total ht [] (by omega)]
        obtain ⟨pname, hn⟩ := unesc_total sscanf (take_ok ht (pdiff ('=' :: u ++ [NUL]) (c :: t ++ [NUL]) - 1).toNat)
        simp only [Option.bind_some, hn]
        exact ⟨_, rfl⟩

theorem uriParamsLoop_str (sscanf : Str → Option Nat) (t : Str) (ht : t.Ok) (acc : List Param) (c : Char) (hc0 : c ≠ NUL)
    (n : Nat) (hn : t.length < n) : ∃ res, uriParamsLoop sscanf n acc ((c :: t) ++ [NUL]) = some res := by
  induction n generalizing t acc c with
  | zero => omega
  | succ n ih =>
    have hct : Str.Ok (c :: t) := ok_cons.2 ⟨hc0, ht⟩
    obtain ⟨equal, e1, e2⟩ : ∃ equal, next_separator (t ++ [NUL]) '=' ';' = some equal ∧
        (equal = none ∨ ∃ u : Str, u.Ok ∧ equal = some (('=' :: u) ++ [NUL])) := by
      rcases next_separator_into ht (f := '=') (b := ';') (by decide) (by decide) [] with h | ⟨a, u, e, h⟩
      · exact ⟨none, h, .inl rfl⟩
      · exact ⟨_, h, .inr ⟨u, (ok_cons.1 (ok_append_iff.1 (e ▸ ht)).2).2, rfl⟩⟩
    simp only [uriParamsLoop, drop_nul c t [], e1, Option.bind_eq_bind, Option.bind_some]
    rcases cstrchr_str (c := ';') ht (by decide) with ⟨_, e3⟩ | ⟨a, b, e0, _, ha, hb, e3⟩
    · obtain ⟨res, hr⟩ := uriParam_str sscanf (b := []) ht c acc e2
      simp only [e3, Option.bind_some, cstr_at hct []]
      rw [show ((c :: t ++ [NUL]).drop (c :: t).length) = [] ++ [NUL] from drop_len _, hr]
      simp only [Option.bind_some]
      cases res with
      | error i => exact ⟨_, rfl⟩
      | ok acc => exact ⟨_, rfl⟩
    · obtain ⟨res, hr⟩ := uriParam_str sscanf (b := ';' :: b) ht c acc e2
      simp only [e3, Option.bind_some, hr]
      cases res with
      | error i => exact ⟨_, rfl⟩
      | ok acc =>
        have := congrArg List.length e0
        simp only [List.length_append, List.length_cons] at this
        exact ih b hb acc ';' (by decide) (by omega)

theorem uriTail_str (sscanf : Str → Option Nat) (url : Uri) {s : Str} (hs : s.Ok) (h0 : ∃ c t, s = c :: t ∧ (c = ':' ∨ c = '@')) :
    (∃ e, ∀ r, uriTail sscanf url (s ++ NUL :: r) = some (.error e)) ∨
    ∃ (url' : Uri) (x y : Str), s = x ++ y ∧ x ≠ [] ∧ ∀ r, uriTail sscanf url (s ++ NUL :: r) = some (.ok (url', y ++ NUL :: r)) := by
  -- the headers
  have H : ∃ (hs' : List Param) (x y : Str), s = x ++ y ∧ x ≠ [] ∧ ∀ r, ∃ q, cstrchr '?' (s ++ NUL :: r) = some q ∧
      uriHeaders sscanf url.url_headers q = some hs' ∧ q.getD ((s ++ NUL :: r).drop s.length) = y ++ NUL :: r := by
    rcases cstrchr_str (c := '?') hs (by decide) with ⟨_, e⟩ | ⟨a, b, e0, _, ha, hb, e⟩
    · obtain ⟨c, t, rfl, _⟩ := h0
      exact ⟨_, c :: t, [], by simp, by simp, fun r => ⟨none, e r, rfl, by simp⟩⟩
    · obtain ⟨res, hres⟩ := uriHeadersLoop_str sscanf b hb url.url_headers '?' (by decide) (by decide)
      refine ⟨res.2, a, '?' :: b, e0, ?_, fun r => ⟨_, e r, ?_, rfl⟩⟩
      · rintro rfl
        obtain ⟨c, t, rfl, h | h⟩ := h0 <;> (subst h; injection e0 with h _; exact absurd h (by decide))
      · rw [uriHeaders, uri_parse_headers, hres _ (by simp; omega)]; rfl
  obtain ⟨hs', x, y, hxy, hx, H⟩ := H
  rcases cstrchr_str (c := ';') hs (by decide) with ⟨_, e⟩ | ⟨a, b, e0, _, ha, hb, e⟩
  · refine .inr ⟨{ url with url_headers := hs' }, x, y, hxy, hx, fun r => ?_⟩
    obtain ⟨q, q1, q2, q3⟩ := H r
    simp only [uriTail, cstr_at hs, q1, q2, e, q3, Option.bind_eq_bind, Option.bind_some]
    rfl
  · have d : ∀ r, pdiff (y ++ NUL :: r) (';' :: b ++ NUL :: r) = (b.length : Int) + 1 - y.length := fun r => by
      rw [pdiff_nul]; simp
    by_cases hlt : (b.length : Int) + 1 - y.length + 1 < 2
    · refine .inl ⟨(OSIP_SYNTAXERROR, { url with url_headers := hs' }), fun r => ?_⟩
      obtain ⟨q, q1, q2, q3⟩ := H r
      simp only [uriTail, cstr_at hs, q1, q2, e, q3, Option.bind_eq_bind, Option.bind_some, d]
      rw [if_pos hlt]
      rfl
    · have hb' : Str.Ok (';' :: b) := ok_cons.2 ⟨by decide, hb⟩
      have n : ∀ r, strncpy (';' :: b ++ NUL :: r) ((b.length : Int) + 1 - y.length) =
          some (';' :: b.take ((b.length : Int) + 1 - y.length - 1).toNat) := fun r => by
        rw [strncpy_total hb' r (by omega)]
        rw [show ((b.length : Int) + 1 - y.length).toNat = ((b.length : Int) + 1 - y.length - 1).toNat + 1 by omega]
        rfl
      obtain ⟨res, hres⟩ := uriParamsLoop_str sscanf _ (take_ok hb ((b.length : Int) + 1 - y.length - 1).toNat)
        url.url_params ';' (by decide) (Str.buf (';' :: b.take ((b.length : Int) + 1 - y.length - 1).toNat)).length
        (by simp [Str.buf]; omega)
      refine .inr ⟨{ url with url_headers := hs', url_params := res.2 }, a, ';' :: b, e0, ?_, fun r => ?_⟩
      · rintro rfl
        obtain ⟨c, t, rfl, h | h⟩ := h0 <;> (subst h; injection e0 with h _; exact absurd h (by decide))
      obtain ⟨q, q1, q2, q3⟩ := H r
      simp only [uriTail, cstr_at hs, q1, q2, e, q3, Option.bind_eq_bind, Option.bind_some, d]
      rw [if_neg hlt, n]
      simp only [Option.bind_some, uri_parse_params]
      rw [Str.buf] at hres ⊢
      rw [hres]
      rfl

theorem uriPassword_str (sscanf : Str → Option Nat) (url : Uri) {t b : Str} (ht : t.Ok) :
    (∃ e, ∀ r, uriPassword sscanf url ((':' :: t) ++ NUL :: r) (b ++ NUL :: r) = some (.error e)) ∨
    ∃ (url' : Uri) (p : Str), ∀ r, uriPassword sscanf url ((':' :: t) ++ NUL :: r) (b ++ NUL :: r) = some (.ok (url', p ++ NUL :: r)) := by
  have N : (∀ r, next_separator (t ++ NUL :: r) ':' '@' = some none) ∨
      ∃ u : Str, u.Ok ∧ ∀ r, next_separator (t ++ NUL :: r) ':' '@' = some (some ((':' :: u) ++ NUL :: r)) := by
    unfold next_separator
    rcases cstrchr_str (c := ':') ht (by decide) with ⟨_, e⟩ | ⟨a, u, e0, _, ha, hu, e⟩
    · left; intro r; simp only [e]; rfl
    · rcases cstrchr_str (c := '@') ht (by decide) with ⟨_, e'⟩ | ⟨a', u', e0', _, ha', hu', e'⟩
      · right; exact ⟨u, hu, fun r => by simp only [e, e']; rfl⟩
      · simp only [e, e', Option.bind_eq_bind, Option.bind_some, pdiff_nul]
        by_cases hlt : ((('@' :: u').length : Int) - (':' :: u).length) < 0
        · right; exact ⟨u, hu, fun r => by rw [if_pos hlt]; rfl⟩
        · left; intro r; rw [if_neg hlt]; rfl
  unfold uriPassword
  simp only [drop_nul]
  rcases N with h | ⟨u, hu, h⟩
  · exact .inr ⟨url, b, fun r => by simp only [h]; rfl⟩
  · have d : ∀ r, pdiff (b ++ NUL :: r) (':' :: u ++ NUL :: r) = (u.length : Int) + 1 - b.length := fun r => by
      rw [pdiff_nul]; simp
    simp only [h, Option.bind_eq_bind, Option.bind_some, d, drop_nul]
    by_cases hlt : (u.length : Int) + 1 - b.length < 2
    · exact .inl ⟨_, fun r => by rw [if_pos hlt]; rfl⟩
    · obtain ⟨p, hp⟩ := unesc_total sscanf (take_ok hu ((u.length : Int) + 1 - b.length - 1).toNat)
      refine .inr ⟨{ url with password := some p }, ':' :: u, fun r => ?_⟩
      rw [if_neg hlt, strncpy_total hu r (by omega)]
      simp only [Option.bind_some, hp]
      rfl

theorem uriUser_str (sscanf : Str → Option Nat) (url : Uri) {sc t : Str} (hsc : sc.Ok) (hsa : '@' ∉ sc) (ht : t.Ok) :
    (∃ e, ∀ r, uriUser sscanf url (sc ++ ':' :: (t ++ NUL :: r)) ((':' :: t) ++ NUL :: r) = some (.error e)) ∨
    ∃ (url' : Uri) (c : Char) (u : Str), (c = ':' ∨ c = '@') ∧ u.Ok ∧
      ∀ r, uriUser sscanf url (sc ++ ':' :: (t ++ NUL :: r)) ((':' :: t) ++ NUL :: r) = some (.ok (url', (c :: u) ++ NUL :: r)) := by
  have hall : Str.Ok (sc ++ ':' :: t) := ok_append hsc (ok_cons.2 ⟨by decide, ht⟩)
  have hto : Str.Ok (':' :: t) := ok_cons.2 ⟨by decide, ht⟩
  unfold uriUser
  rcases cstrchr_str (c := '@') hall (by decide) with ⟨_, e⟩ | ⟨a, b, e0, _, ha, hb, e⟩
  · simp only [List.append_assoc, List.cons_append] at e
    exact .inr ⟨url, ':', t, .inl rfl, ht, fun r => by simp only [e]; rfl⟩
  · simp only [List.append_assoc, List.cons_append] at e
    by_cases hd : ∃ u, t = '@' :: u
    · obtain ⟨u, rfl⟩ := hd
      exact .inr ⟨url, '@', u, .inr rfl, (ok_cons.1 ht).2, fun r => by
        simp only [List.cons_append] at e
        simp only [e, List.drop_one, List.tail_cons, Option.bind_eq_bind, Option.bind_some, deref, List.cons_append, List.head?_cons, if_true]; rfl⟩
    · obtain ⟨c, hc, hca⟩ : ∃ c, (∀ r, deref (t ++ NUL :: r) = some c) ∧ c ≠ '@' := by
        cases t with
        | nil => exact ⟨NUL, fun r => rfl, by decide⟩
        | cons c u => exact ⟨c, fun r => rfl, fun h => hd ⟨u, by rw [h]⟩⟩
      simp only [e, drop_nul, Option.bind_eq_bind, Option.bind_some, hc, hca, if_false]
      rcases uriPassword_str sscanf url (b := '@' :: b) ht with ⟨x, hx⟩ | ⟨url', p, hp⟩
      · exact .inl ⟨x, fun r => by simp only [List.cons_append] at hx ⊢; simp only [hx]; rfl⟩
      · simp only [List.cons_append] at hp ⊢
        simp only [hp, Option.bind_some]
        have d : ∀ r, pdiff (p ++ NUL :: r) (':' :: (t ++ NUL :: r)) = (t.length : Int) + 1 - p.length := fun r => by
          simp [pdiff]; omega
        simp only [d]
        by_cases hlt : (t.length : Int) + 1 - p.length < 2
        · exact .inl ⟨_, fun r => by rw [if_pos hlt]; rfl⟩
        · obtain ⟨w, hw⟩ := unesc_total sscanf (take_ok ht ((t.length : Int) + 1 - p.length - 1).toNat)
          refine .inr ⟨{ url' with username := some w }, '@', b, .inr rfl, hb, fun r => ?_⟩
          rw [if_neg hlt, strncpy_total ht r (by omega)]
          simp only [Option.bind_some, hw]
          rfl

/-- **C72**. The URI parser on every string, with any bytes after the terminator: it neither reads nor writes
outside the string, its terminator and the blocks it has allocated, it ends, and its result depends on the
string alone. `sscanf` is any function. -/
theorem c72_uri_in_bounds (sscanf : Str → Option Nat) {s : Str} (hs : s.Ok) :
    ∃ res, ∀ r, osip_uri_parse sscanf (s ++ NUL :: r) = some res := by
  cases s with
  | nil => exact ⟨(OSIP_BADPARAMETER, {}), fun r => by simp [osip_uri_parse, deref]⟩
  | cons c0 s0 =>
    have hc0 := (ok_cons.1 hs).1
    have hd : ∀ r, deref ((c0 :: s0) ++ NUL :: r) = some c0 := fun r => rfl
    generalize hss : c0 :: s0 = s at *
    rcases cstrchr_str (c := ':') hs (by decide) with ⟨_, e⟩ | ⟨a, b, rfl, _, ha, hb, e⟩
    · exact ⟨_, fun r => by simp only [osip_uri_parse, hd, Option.bind_eq_bind, Option.bind_some, hc0, if_false, e]; rfl⟩
    · have d : ∀ r, pdiff (':' :: b ++ NUL :: r) (a ++ ':' :: b ++ NUL :: r) = a.length := fun r => by
        rw [pdiff_nul]; simp
      by_cases hl : (a.length : Int) < 2
      · exact ⟨_, fun r => by
          simp only [osip_uri_parse, hd, Option.bind_eq_bind, Option.bind_some, hc0, if_false, e, d]; rw [if_pos hl]; rfl⟩
      · by_cases hal : a.all isAlpha = true
        · have hal' : ∀ c ∈ a, ('a' ≤ c ∧ c ≤ 'z') ∨ ('A' ≤ c ∧ c ≤ 'Z') := by
            intro c hc
            simpa [isAlpha] using List.all_eq_true.1 hal c hc
          have k := fun r => uri_parse_scheme (sscanf := sscanf) (sc := a) (by omega) hal' hb r
          simp only [List.append_assoc, List.cons_append]
          simp only [k]
          by_cases h3 : lower (a.take 3) = "sip".toList
          · simp only [h3, if_true, uriSip]
            rcases uriUser_str sscanf { scheme := some a } ha (letter_ne hal' (by decide)) hb with ⟨x, hx⟩ | ⟨url, c, u, hc, hu, hx⟩
            · simp only [List.cons_append] at hx
              exact ⟨_, fun r => by simp only [hx]; rfl⟩
            · simp only [List.cons_append] at hx
              simp only [hx, Option.bind_eq_bind, Option.bind_some]
              have hcu : Str.Ok (c :: u) := ok_cons.2 ⟨by rcases hc with rfl | rfl <;> decide, hu⟩
              rcases uriTail_str sscanf url hcu ⟨c, u, rfl, hc⟩ with ⟨x, hx2⟩ | ⟨url', x, y, hxy, hx0, hx2⟩
              · simp only [List.cons_append] at hx2
                exact ⟨_, fun r => by simp only [hx2]; rfl⟩
              · rw [hxy] at hcu
                rcases uriPort_str url' hx0 hcu with ⟨z, hx3⟩ | ⟨url'', port, hp, hx3⟩
                · simp only [← hxy, List.cons_append] at hx2 hx3
                  exact ⟨_, fun r => by simp only [hx2, Option.bind_some, hx3]; rfl⟩
                · obtain ⟨res, hx4⟩ := uriHost_str url'' hcu hp
                  simp only [← hxy, List.cons_append] at hx2 hx3 hx4
                  exact ⟨res, fun r => by simp only [hx2, Option.bind_some, hx3, hx4]⟩
          · simp only [h3, if_false]
            by_cases hb2 : b.length < 2
            · exact ⟨_, fun r => by rw [if_pos hb2]⟩
            · exact ⟨_, fun r => by rw [if_neg hb2]⟩
        · have tk : ∀ r, (a ++ ':' :: b ++ NUL :: r).take ((a.length : Int)).toNat = a := fun r => by simp
          exact ⟨_, fun r => by
            simp only [osip_uri_parse, hd, Option.bind_eq_bind, Option.bind_some, hc0, if_false, e, d]
            rw [if_neg hl, tk, if_pos (by simp [hal])]; rfl⟩

/-! ## Examples -/

example : (osip_uri_parse sscanf2 (Str.buf "sip:@]:;=?&".toList)).map (·.1) = some OSIP_SYNTAXERROR := by decide +kernel
example : (osip_uri_parse sscanf2 (Str.buf "sip:a%4".toList)).map (·.2.host) = some (some "a%4".toList) := by decide +kernel

end Osip
