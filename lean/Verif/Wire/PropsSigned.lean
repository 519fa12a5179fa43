import Verif.Wire.PropsMini
import Verif.Parse.PropsFrag

/-!
# C138: Reading does not depend on whether plain `char` is signed
-/

set_option autoImplicit false

namespace Osip

/-! ## The look-up -/

theorem known_alike (minisize : Bool) (n : Str) :
    is_known_header true minisize (theTable true minisize) n = is_known_header false minisize (theTable false minisize) n := by
  obtain ⟨o, h1, h2⟩ := is_known_iff true minisize n
  obtain ⟨o', h1', h2'⟩ := is_known_iff false minisize n
  rw [h1, h1']
  congr 1
  cases o with
  | none =>
    cases o' with
    | none => rfl
    | some i => exact (h2 i).2 ((h2' i).1 rfl)
  | some i => exact ((h2' i).2 ((h2 i).1 rfl)).symm

theorem set_signed (sscanf : Str → Option Nat) :
    message_set_multiple sscanf true (theTable true false) = message_set_multiple sscanf false (theTable false false) := by
  funext m n v
  simp only [message_set_multiple, message_set__header, known_alike]

theorem mini_set_signed (sscanf : Str → Option Nat) :
    mini_set_multiple sscanf true (theTable true true) = mini_set_multiple sscanf false (theTable false true) := by
  funext m n v
  simp only [mini_set_multiple, mini_set__header, known_alike]

/-! ## Property -/

/-- **C138.** A machine on which plain `char` is signed and one on which it is not read the same message from the same bytes,
although they look for the name of a header in different slots of their tables. `tolower` is taken to leave bytes above 127 as
they are, also if handed to it as negative numbers (glibc, "C" locale); ISO C says nothing about these. -/
theorem c138_message (sscanf : Str → Option Nat) (sscanfD : Str → Option Int) {t t' : List (Option Nat)}
    (ht : parser_init true false = some t) (ht' : parser_init false false = some t') (buf : List Char) :
    osip_message_parse sscanf sscanfD true t buf = osip_message_parse sscanf sscanfD false t' buf := by
  rw [parser_init_ok] at ht ht'
  cases ht
  cases ht'
  simp only [osip_message_parse, set_signed]

/-- **C138**, fragments. -/
theorem c138_fragment (sscanf : Str → Option Nat) (sscanfD : Str → Option Int) {t t' : List (Option Nat)}
    (ht : parser_init true false = some t) (ht' : parser_init false false = some t') (buf : List Char) :
    osip_message_parse_sipfrag sscanf sscanfD true t buf = osip_message_parse_sipfrag sscanf sscanfD false t' buf := by
  rw [parser_init_ok] at ht ht'
  cases ht
  cases ht'
  simp only [osip_message_parse_sipfrag, set_signed]

/-- **C138**, with `MINISIZE`. -/
theorem c138_mini (sscanf : Str → Option Nat) (sscanfD : Str → Option Int) {t t' : List (Option Nat)}
    (ht : parser_init true true = some t) (ht' : parser_init false true = some t') (buf : List Char) :
    mini_message_parse sscanf sscanfD true t buf = mini_message_parse sscanf sscanfD false t' buf := by
  rw [parser_init_ok] at ht ht'
  cases ht
  cases ht'
  simp only [mini_message_parse, mini_set_signed]

/-- **C138**, stacks: they go through the same states. -/
theorem c138_stack (sscanf : Str → Option Nat) (sscanfD : Str → Option Int) {t t' : List (Option Nat)}
    (ht : parser_init true false = some t) (ht' : parser_init false false = some t') (s : Stack) (ops : List NetOp) :
    s.netRun ⟨sscanf, sscanfD, true, t⟩ ops = s.netRun ⟨sscanf, sscanfD, false, t'⟩ ops := by
  induction ops generalizing s with
  | nil => rfl
  | cons o os ih =>
    have : s.net ⟨sscanf, sscanfD, true, t⟩ o = s.net ⟨sscanf, sscanfD, false, t'⟩ o := by
      cases o with
      | datagram bytes src now1 now2 => simp only [Stack.net, Stack.datagram, osip_parse, c138_message sscanf sscanfD ht ht' bytes]
      | _ => rfl
    simp only [Stack.netRun, this, ih]

/-- The slot for a name with a byte above 127 does depend on it. -/
example : osip_hash true "tö".toList % HASH_TABLE_SIZE ≠ osip_hash false "tö".toList % HASH_TABLE_SIZE := by decide +kernel

/-- Such a header is kept by both. -/
example : ∀ b : Bool, ((osip_message_parse sscanf2 sscanfD1 b (theTable b false) "SIP/2.0 200 OK\r\ntö: x\r\nVia: SIP/2.0/UDP a\r\n\r\n".toList).any
    fun r => r.1 == 0 && r.2.headers == [⟨some "tö".toList, some "x".toList⟩] && (r.2.hdr .via).length == 1) = true := by
  decide +kernel

end Osip
