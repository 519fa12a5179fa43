import Verif.Own.Stack

/-!
# How the functions of Verif/Own/Stack.lean are called, and which of them are wrong
-/

set_option autoImplicit false

namespace Osip.Own.Stack

/-- The functions that lose a block. `m` tells which allocations may fail. -/
def unsafeFuns (m : Mode) : List Fun :=
  .osipRelease true ::
  (if m = .any then
    [.listClone .param, .listClone .header, .listClone .sender, .listClone .via, .listClone .acceptEncoding, .listClone .contentType,
      .listClone .contentLength, .listClone .callInfo, .listClone .www, .listClone .authorization, .listClone .authInfo, .listClone .body,
      .uriClone, .fromClone, .viaClone, .contentTypeClone, .callInfoClone, .acceptEncodingClone, .bodyClone, .messageClone,
      .updateRouteSetAsUas, .updateRouteSetAsUac, .dialogInit, .dialogInitAsUac, .dialogInitAsUas, .setTopvia, .setFrom, .setTo,
      .transactionInit, .createTransaction, .ictCreateAck, .ictRcv3456xx, .transactionExecute, .execute, .timersExecute, .start200ok, .startAck]
  else [])

/-- How the functions may be called. -/
def calls : Fun → List (List Arg)
  | .listClone _ => [[]]
  | .matchAsUac => [[]]
  | .matchAsUas => [[]]
  | .execute => [[]]
  | .timersExecute => [[]]
  | .start200ok => [[]]
  | .startAck => [[]]
  | .stopIxt => [[]]
  | .updateRouteSetAsUas => [[.null], [.block], [.kept]]
  | .updateRouteSetAsUac => [[.null], [.block], [.kept]]
  | .updateTagAsUac => [[.null], [.block], [.kept]]
  | .dialogFree => [[.null], [.block]]
  | .setDestination =>
    [[.null, .none, .none], [.block, .null, .null], [.block, .null, .block], [.block, .block, .null], [.block, .block, .block],
      [.kept, .null, .null], [.kept, .null, .block], [.kept, .block, .null], [.kept, .block, .block]]
  | .fifoInit => [[.block]]
  | .fifoAdd => [[.block]]
  | .addIxt => [[.block]]
  | .transactionFree2 => [[.null], [.block]]
  | .newOutgoing => [[.null, .none], [.block, .none]]
  | .eventFree => [[.null], [.block]]
  | .findAndAddEvent => [[.null], [.block]]
  | .takeRequest => [[.block]]
  | .takeResponse => [[.block]]
  | .ictRetransmitAck => [[.block]]
  | .serverRcvRequest => [[.block]]
  | .istRcvAck => [[.block]]
  | .ixtFree => [[.block]]
  | .osipRelease _ => [[.block]]
  | .ictRcv3456xx => [[.block, .block], [.kept, .block]]
  | .transactionExecute => [[.block, .block], [.kept, .block]]
  | _ => [[.none]]

/-- The functions that make a new structure or text for the caller. -/
def makers : List Fun :=
  [.structInit, .bodyInit, .paramClone, .uriClone, .fromClone, .viaClone, .callIdClone, .cseqClone, .headerClone, .contentTypeClone,
    .contentLengthClone, .callInfoClone, .acceptEncodingClone, .wwwClone, .authorizationClone, .authInfoClone, .messageClone, .callIdToStr,
    .dialogInit, .dialogInitAsUac, .dialogInitAsUas, .ictInit true, .nictInit, .istInit, .nistInit, .setTopvia, .setFrom, .setTo, .setCallId,
    .setCseq, .transactionInit, .createTransaction, .eventNew, .ictCreateAck, .osipInit, .ixtInit]

/-- The functions that give a structure back. -/
def freers : List Fun := [.dialogFree, .transactionFree2, .eventFree, .ictRetransmitAck, .ixtFree, .osipRelease false]

/-- The functions that take over a message. -/
def takers : List Fun := [.takeRequest, .takeResponse, .ictRetransmitAck, .serverRcvRequest, .istRcvAck]

end Osip.Own.Stack
