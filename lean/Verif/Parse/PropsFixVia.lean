import Verif.Parse.FixVia
import Verif.Parse.Ptr
import Verif.ParamSpec

/-!
# C56: the top Via of a received request
-/

set_option autoImplicit false

namespace Osip

/-- The parameters after the port has been filled in. -/
def RportFilled (port : Nat) (ps ps' : List Param) : Prop :=
  (∃ before p after, ps = before ++ p :: after ∧ (∀ q ∈ before, q.gname.map toLowerC ≠ "rport".toList) ∧
    p.gname.map toLowerC = "rport".toList ∧ p.gvalue = none ∧
    ps' = before ++ ⟨p.gname, some (Nat.toDigits 10 port)⟩ :: after) ∨
  ((∀ p, FirstNamed ps "rport".toList p → p.gvalue ≠ none) ∧ ps' = ps)

theorem fixRport_spec {port : Nat} (hp : (Nat.toDigits 10 port).length ≤ 7) (ps : List Param) :
    RportFilled port ps (fixRport port ps) := by
  induction ps with
  | nil =>
    right
    refine ⟨?_, rfl⟩
    rintro p ⟨a, b, h, _⟩
    simp at h
  | cons p ps ih =>
    have ht : (intText port).take 7 = Nat.toDigits 10 port := by
      unfold intText
      rw [if_neg (by omega), Int.natAbs_natCast, List.take_of_length_le hp]
    unfold fixRport
    have hn := named_iff p "rport" (by decide)
    by_cases h : p.gname.map toLowerC = "rport".toList
    · rw [if_pos (hn.2 h)]
      cases hv : p.gvalue with
      | none =>
        left
        exact ⟨[], p, ps, rfl, by simp, h, hv, by simp only [List.nil_append]; rw [ht]⟩
      | some v =>
        right
        refine ⟨?_, rfl⟩
        intro q hq
        have : FirstNamed (p :: ps) "rport".toList p := ⟨[], ps, rfl, by simp, h⟩
        rw [FirstNamed.unique hq this, hv]
        simp
    · rw [if_neg (fun k => h (hn.1 k))]
      rcases ih with ⟨a, q, b, rfl, h1, h2, h3, h4⟩ | ⟨h1, h2⟩
      · left
        refine ⟨p :: a, q, b, rfl, ?_, h2, h3, by rw [h4]; rfl⟩
        simpa using ⟨h, h1⟩
      · right
        refine ⟨?_, by rw [h2]⟩
        rintro q ⟨a, b, e, h3, h4⟩
        cases a with
        | nil =>
          simp only [List.nil_append, List.cons.injEq] at e
          exact absurd (e.1 ▸ h4) h
        | cons x a =>
          simp only [List.cons_append, List.cons.injEq] at e
          exact h1 q ⟨a, b, e.2, fun y hy => h3 y (by simp [hy]), h4⟩

theorem digits_short {n : Nat} (h : n < 65536) : (Nat.toDigits 10 n).length ≤ 7 := by
  have := Nat.length_toDigits_le_iff (b := 10) (k := 7) (n := n) (by omega) (by omega)
  exact this.2 (by omega)

/-- **C56**. On a request from `ip`, `port` with a Via the top Via gets the port in the first parameter `rport` exactly if that has no value,
and `received` exactly if its host is another one; nothing else changes. -/
theorem c56_request {m : Msg} (hreq : m.status_code = 0) {via : Via} {vias : List Via} (hv : m.vias = via :: vias) {host : Str}
    (hh : via.host = some host) {ip : Str} (hip : Trimmed ip) {port : Nat} (hp : port < 65536) :
    ∃ ps, RportFilled port via.via_params ps ∧
      fix_last_via_header (some m) ip port = (OSIP_SUCCESS, some { m with
        vias := { via with via_params := ps ++ (if host = ip then [] else [⟨"received".toList, some ip⟩]) } :: vias }) := by
  refine ⟨_, fixRport_spec (digits_short hp) via.via_params, ?_⟩
  unfold fix_last_via_header
  simp only [Msg.isResponse, hreq, bne_self_eq_false, Bool.false_eq_true, if_false, hv, hh]
  by_cases h : host = ip
  · simp [h]
  · simp only [h, if_false]
    rw [show trim ip = ip from hip]

/-- **C56**. Responses and requests without top Via or host in it stay as they are. -/
theorem c56_untouched {m : Msg} (h : m.status_code ≠ 0 ∨ m.vias.head?.bind (·.host) = none) (ip : Str) (port : Int) :
    (fix_last_via_header (some m) ip port).2 = some m ∧
      ((fix_last_via_header (some m) ip port).1 = OSIP_SUCCESS ↔ m.status_code ≠ 0) := by
  unfold fix_last_via_header Msg.isResponse
  by_cases h0 : m.status_code = 0
  · have h1 : m.vias.head?.bind (·.host) = none := h.resolve_left (by simpa using h0)
    simp only [h0, bne_self_eq_false, Bool.false_eq_true, if_false, ne_eq, not_true_eq_false, iff_false]
    split
    · exact ⟨rfl, show ¬ OSIP_BADPARAMETER = OSIP_SUCCESS by decide⟩
    · next via vias hv =>
      rw [hv] at h1
      simp only [List.head?_cons, Option.bind_some] at h1
      rw [h1]
      exact ⟨rfl, show ¬ OSIP_BADPARAMETER = OSIP_SUCCESS by decide⟩
  · simp [h0]

example : (fix_last_via_header (some { vias := [{ host := some "a.org".toList, via_params := [⟨"branch".toList, some "z".toList⟩,
        ⟨"RPort".toList, none⟩] }] }) "10.0.0.1".toList 5062).2.map (·.vias) =
    some [{ host := some "a.org".toList, via_params := [⟨"branch".toList, some "z".toList⟩, ⟨"RPort".toList, some "5062".toList⟩,
      ⟨"received".toList, some "10.0.0.1".toList⟩] }] := by decide +kernel

example : (fix_last_via_header (some { vias := [{ host := some "10.0.0.1".toList, via_params := [⟨"rport".toList, some "1".toList⟩] }] })
      "10.0.0.1".toList 5062).2.map (·.vias) =
    some [{ host := some "10.0.0.1".toList, via_params := [⟨"rport".toList, some "1".toList⟩] }] := by decide +kernel

end Osip
