import Verif.Own.SdpSpec
import Verif.Own.Check

/-!
# The contracts of the functions of Verif/Own/Sdp.lean

Nothing here is part of the model; these are hints for the checker, which checks them (`contracts_ok`).
-/

set_option autoImplicit false
set_option Elab.async false

namespace Osip.Own.Sdp

/-- Nothing changes. -/
def cSame (e : List A) : List A × List (Bool × List A) := (e, [(false, e), (true, e)])
def cFree : Contract := [([.null], [(true, [.null])]), ([.live], [(true, [.gone])])]
def cNone : Contract := [cSame []]

/-- A string of the caller belongs to the session. -/
def given (v : A) : A := if v = .live then .kept else v

/-- The strings are given to the session, or nothing changes and there is an error. `half`: the first string may still be the caller's. -/
def cGive (half : Bool) : List A → List A × List (Bool × List A)
  | s :: r => (s :: r, [(false, s :: r), (true, s :: r.map given)] ++ if half then [(true, s :: r)] else [])
  | [] => ([], [])

def cGiven (half : Bool) (r : List A) : Contract := [cGive half (.null :: r), cGive half (.live :: r), cGive half (.kept :: r)]

/-- sdp_message_parse_i and sdp_message_parse_k -/
def cField : Contract := [
  ([.null, .null, .null], [(false, [.null, .null, .null]), (true, [.null, .null, .null]), (true, [.live, .null, .null])]),
  ([.null, .null, .kept], [(false, [.null, .null, .kept]), (true, [.null, .null, .kept]), (true, [.null, .live, .kept])]),
  ([.live, .null, .kept], [(false, [.live, .null, .kept]), (true, [.live, .null, .kept]), (true, [.live, .live, .kept])])]

def cMedia (e : List A) : List A × List (Bool × List A) := (e, [(false, e), (true, e), (true, [.kept, .null, .null])])

/-- The contracts. -/
def contract (m : Mode) : Fun → Contract
  | .structInit => [([.dead], [(false, [.null]), (true, [.fresh])])]
  | .setNextToken => [([.null], [(false, [.null]), (true, [.live])]), ([.dead], [(false, [.dead]), (false, [.null]), (true, [.live])])]
  | .pairFree => cFree
  | .timeDescrFree => cFree
  | .connectionFree => cFree
  | .mediaFree => cFree
  | .messageFree => cFree
  | .parseV _ => [cSame [.live]]
  | .parseO _ => [cSame [.live]]
  | .parseU _ => [cSame [.live]]
  | .parseZ _ => [cSame [.live]]
  | .parseS => [([.null], [(false, [.null]), (true, [.null]), (true, [.live])])]
  | .parseI => cField
  | .parseK => cField
  | .parseE => cNone
  | .parseT => cNone
  | .parseR => cNone
  | .parseC => [
    ([.null, .null], [(false, [.null, .null]), (true, [.null, .null]), (true, [.live, .null])]),
    cSame [.null, .kept], cSame [.live, .kept]]
  | .parseB => [cSame [.null], cSame [.kept]]
  | .parseA => [cSame [.null], cSame [.kept]]
  | .parseM => [cMedia [.null, .null, .null], cMedia [.kept, .null, .null], cMedia [.kept, .null, .live], cMedia [.kept, .live, .null],
    cMedia [.kept, .live, .live]]
  | .messageParse .old => [cSame [.live]]
  | .messageParse _ => [([.fresh], [(false, [.live]), (true, [.live])])]
  | .appendString => [cSame [.live]]
  | .appendConnection => [cSame [.live]]
  | .appendPair => [cSame [.live]]
  | .appendTimeDescr => [cSame [.live]]
  | .appendMedia => [cSame [.live]]
  | .toStr => [([.dead], [(false, [.null]), (true, [.live])])]
  | .messageClone _ => [([.dead], [(false, [.null]), (false, [.gone]), (true, [.live])])]
  | .valueSet _ => cGiven false [.live]
  | .infoSet _ => cGiven false [.live]
  | .originSet _ => cGiven false [.live, .live, .live, .live, .live, .live]
  | .keySet _ => cGiven false [.live, .live] ++ cGiven false [.live, .null]
  | .portSet => [cGive false [.live, .live], cGive false [.kept, .live]]
  | .stringAdd => cGiven (m == .any) [.live]
  | .stringAddAt => cGiven (m == .any) [.live]
  | .timeDescrAdd => cGiven false [.live, .live]
  | .pairAdd => cGiven false [.live, .live] ++ cGiven false [.live, .null]
  | .connectionAdd _ => cGiven false [.live, .live, .live, .live, .live] ++ cGiven false [.live, .live, .live, .null, .null]
  | .mediaAdd => [cGive false [.live, .live, .live, .live, .live], cGive false [.live, .live, .live, .null, .live],
    cGive false [.kept, .live, .live, .live, .live], cGive false [.kept, .live, .live, .null, .live]]
  | .attributeDel => [cSame [.null], cSame [.live], cSame [.kept]]
  | .payloadDel => [cSame [.live], cSame [.kept]]

/-- The functions that are not in `unsafeFuns` (`safe_iff`). -/
def safe (m : Mode) : Fun → Bool
  | .parseV old => !old
  | .parseO old => !old
  | .parseU old => !old
  | .parseZ old => !old
  | .messageParse .ordered => m != .any
  | .messageParse _ => false
  | .messageClone twice => m == .none && !twice
  | .valueSet unset => unset
  | .infoSet unset => unset
  | .originSet unset => unset
  | .keySet unset => unset
  | .connectionAdd unset => m != .any && unset
  | .appendString => m == .none
  | .appendConnection => m == .none
  | .appendPair => m == .none
  | .appendTimeDescr => m == .none
  | .appendMedia => m == .none
  | .toStr => m == .none
  | .parseE => m != .any
  | .parseC => m != .any
  | .parseB => m != .any
  | .parseT => m != .any
  | .parseR => m != .any
  | .parseA => m != .any
  | .parseM => m != .any
  | .timeDescrAdd => m != .any
  | .pairAdd => m != .any
  | .mediaAdd => m != .any
  | _ => true

def contracts (m : Mode) (f : Fun) : Contract := if safe m f then contract m f else []

/-- All functions. -/
def allFuns : List Fun :=
  [.structInit, .setNextToken, .pairFree, .timeDescrFree, .connectionFree, .mediaFree, .messageFree, .parseV false, .parseV true, .parseO false,
    .parseO true, .parseS, .parseI, .parseU false, .parseU true, .parseE, .parseC, .parseB, .parseT, .parseR, .parseZ false, .parseZ true,
    .parseK, .parseA, .parseM, .messageParse .ordered, .messageParse .new, .messageParse .old, .appendString, .appendConnection, .appendPair,
    .appendTimeDescr, .appendMedia, .toStr, .messageClone false, .messageClone true, .valueSet false, .valueSet true, .infoSet false,
    .infoSet true, .originSet false, .originSet true, .keySet false, .keySet true, .portSet, .stringAdd, .stringAddAt, .timeDescrAdd, .pairAdd,
    .connectionAdd false, .connectionAdd true, .mediaAdd, .attributeDel, .payloadDel]

theorem mem_allFuns (f : Fun) : f ∈ allFuns := by
  cases f with
  | parseV b => cases b <;> decide +kernel
  | parseO b => cases b <;> decide +kernel
  | parseU b => cases b <;> decide +kernel
  | parseZ b => cases b <;> decide +kernel
  | messageParse h => cases h <;> decide +kernel
  | messageClone b => cases b <;> decide +kernel
  | valueSet b => cases b <;> decide +kernel
  | infoSet b => cases b <;> decide +kernel
  | originSet b => cases b <;> decide +kernel
  | keySet b => cases b <;> decide +kernel
  | connectionAdd b => cases b <;> decide +kernel
  | _ => decide +kernel

theorem safe_all : ∀ m ∈ [Mode.none, .notNodes, .any], ∀ f ∈ allFuns, safe m f = !decide (f ∈ unsafeFuns m) := by decide +kernel

theorem safe_of {m : Mode} {f : Fun} (h : f ∉ unsafeFuns m) : safe m f = true := by
  rw [safe_all m (by cases m <;> decide) f (mem_allFuns f)]
  simpa using h

theorem contracts_none : ∀ f ∈ allFuns, (contracts .none f).all (checkEntry .none (contracts .none) (code f)) = true := by decide +kernel

theorem contracts_notNodes : ∀ f ∈ allFuns,
    (contracts .notNodes f).all (checkEntry .notNodes (contracts .notNodes) (code f)) = true := by decide +kernel

theorem contracts_any : ∀ f ∈ allFuns, (contracts .any f).all (checkEntry .any (contracts .any) (code f)) = true := by decide +kernel

theorem contracts_ok (m : Mode) (f : Fun) : (contracts m f).all (checkEntry m (contracts m) (code f)) = true := by
  cases m
  · exact contracts_none f (mem_allFuns f)
  · exact contracts_notNodes f (mem_allFuns f)
  · exact contracts_any f (mem_allFuns f)

end Osip.Own.Sdp
