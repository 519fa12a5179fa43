import Verif.Own.Sdp

/-!
# How the functions of Verif/Own/Sdp.lean are called, and which of them are wrong
-/

set_option autoImplicit false

namespace Osip.Own.Sdp

/-- The functions that overwrite a pointer to a block. -/
def overwriting : List Fun :=
  [.parseV true, .parseO true, .parseU true, .parseZ true, .messageParse .new, .messageParse .old, .messageClone true, .valueSet false,
    .infoSet false, .originSet false, .keySet false, .connectionAdd false]

/-- The functions that do not look at the result of osip_realloc. -/
def writing : List Fun :=
  [.appendString, .appendConnection, .appendPair, .appendTimeDescr, .appendMedia, .toStr, .messageClone false]

/-- The functions that do not look at the result of osip_list_add, and are the only ones to know the element. -/
def adding : List Fun :=
  [.parseE, .parseC, .parseB, .parseT, .parseR, .parseA, .parseM, .messageParse .ordered, .timeDescrAdd, .pairAdd, .connectionAdd true, .mediaAdd]

/-- The functions that lose a block or use NULL. `m` tells which allocations may fail. -/
def unsafeFuns (m : Mode) : List Fun := overwriting ++ (if m = .none then [] else writing) ++ (if m = .any then adding else [])

/-- The session is NULL, the caller's, or one that something else keeps; the other arguments are `l`. -/
def sessions (l : List Arg) : List (List Arg) := [.null :: l, .block :: l, .kept :: l]

/-- How the functions may be called. -/
def calls : Fun → List (List Arg)
  | .setNextToken => [[.null], [.none]]
  | .pairFree => [[.null], [.block]]
  | .timeDescrFree => [[.null], [.block]]
  | .connectionFree => [[.null], [.block]]
  | .mediaFree => [[.null], [.block]]
  | .messageFree => [[.null], [.block]]
  | .parseV _ => [[.block]]
  | .parseO _ => [[.block]]
  | .parseU _ => [[.block]]
  | .parseZ _ => [[.block]]
  | .parseS => [[.null]]
  | .parseI => [[.null, .null, .null], [.null, .null, .kept], [.block, .null, .kept]]
  | .parseK => [[.null, .null, .null], [.null, .null, .kept], [.block, .null, .kept]]
  | .parseE => [[]]
  | .parseT => [[]]
  | .parseR => [[]]
  | .parseC => [[.null, .null], [.null, .kept], [.block, .kept]]
  | .parseB => [[.null], [.kept]]
  | .parseA => [[.null], [.kept]]
  | .parseM => [[.null, .null, .null], [.kept, .null, .null], [.kept, .null, .block], [.kept, .block, .null], [.kept, .block, .block]]
  | .messageParse .old => [[.block]]
  | .messageParse _ => [[.empty]]
  | .appendString => [[.block]]
  | .appendConnection => [[.block]]
  | .appendPair => [[.block]]
  | .appendTimeDescr => [[.block]]
  | .appendMedia => [[.block]]
  | .valueSet _ => sessions [.block]
  | .infoSet _ => sessions [.block]
  | .originSet _ => sessions [.block, .block, .block, .block, .block, .block]
  | .keySet _ => sessions [.block, .block] ++ sessions [.block, .null]
  | .portSet => [[.block, .block], [.kept, .block]]
  | .stringAdd => sessions [.block]
  | .stringAddAt => sessions [.block]
  | .timeDescrAdd => sessions [.block, .block]
  | .pairAdd => sessions [.block, .block] ++ sessions [.block, .null]
  | .connectionAdd _ => sessions [.block, .block, .block, .block, .block] ++ sessions [.block, .block, .block, .null, .null]
  | .mediaAdd => [[.block, .block, .block, .block, .block], [.block, .block, .block, .null, .block],
    [.kept, .block, .block, .block, .block], [.kept, .block, .block, .null, .block]]
  | .attributeDel => [[.null], [.block], [.kept]]
  | .payloadDel => [[.block], [.kept]]
  | _ => [[.none]]

/-- The functions that make a structure or a text for the caller. -/
def makers : List Fun := [.structInit, .toStr]

/-- The functions that give a structure back. -/
def freers : List Fun := [.pairFree, .timeDescrFree, .connectionFree, .mediaFree, .messageFree]

/-- The functions that give strings of the caller to the session. -/
def givers : List Fun :=
  [.valueSet true, .infoSet true, .originSet true, .keySet true, .portSet, .stringAdd, .stringAddAt, .timeDescrAdd, .pairAdd,
    .connectionAdd true, .mediaAdd]

end Osip.Own.Sdp
