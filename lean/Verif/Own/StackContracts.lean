import Verif.Own.StackSpec
import Verif.Own.Check

/-!
# The contracts of the functions of Verif/Own/Stack.lean

Nothing here is part of the model; these are hints for the checker, which checks them (`contracts_all`).
-/

set_option autoImplicit false

namespace Osip.Own.Stack

def cMake : Contract := [([.dead], [(false, [.null]), (true, [.live])])]
def cFresh : Contract := [([.dead], [(false, [.null]), (true, [.fresh])])]
def cNone : Contract := [([], [(false, []), (true, [])])]
def cStay : Contract :=
  [([.null], [(false, [.null])]), ([.live], [(false, [.live]), (true, [.live])]), ([.kept], [(false, [.kept]), (true, [.kept])])]
def cFree : Contract := [([.live], [(true, [.gone])])]
def cFreeN : Contract := ([.null], [(false, [.null]), (true, [.null])]) :: cFree
def cKeep : Contract := [([.live], [(true, [.kept])])]
/-- The element of a list, whose node may not be there. -/
def cAdd (m : Mode) : Contract := [([.live], if m = .any then [(true, [.kept]), (true, [.live])] else [(true, [.kept])])]

/-- The contracts. -/
def contract (m : Mode) : Fun → Contract
  | .structInit => cFresh
  | .bodyInit => cFresh
  | .ixtInit => cFresh
  | .listClone _ => cNone
  | .matchAsUac => cNone
  | .matchAsUas => cNone
  | .execute => cNone
  | .timersExecute => cNone
  | .start200ok => cNone
  | .startAck => cNone
  | .stopIxt => cNone
  | .bodyClone => [([.dead], [(false, [.dead]), (true, [.live])])]
  | .updateRouteSetAsUas => cStay
  | .updateRouteSetAsUac => cStay
  | .updateTagAsUac => cStay
  | .dialogFree => cFreeN
  | .setDestination => [
    ([.null, .dead, .dead], [(false, [.null, .dead, .dead])]),
    ([.live, .null, .null], [(true, [.live, .null, .null])]),
    ([.live, .null, .live], [(true, [.live, .live, .dead])]),
    ([.live, .live, .null], [(true, [.live, .null, .null])]),
    ([.live, .live, .live], [(true, [.live, .live, .dead])]),
    ([.kept, .null, .null], [(true, [.kept, .null, .null])]),
    ([.kept, .null, .live], [(true, [.kept, .live, .dead])]),
    ([.kept, .live, .null], [(true, [.kept, .null, .null])]),
    ([.kept, .live, .live], [(true, [.kept, .live, .dead])])]
  | .ictInit false => [([.dead], [(false, [.null]), (false, [.gone]), (true, [.live])])]
  | .fifoInit => [([.live], [(true, [.live])])]
  | .fifoAdd => cAdd m
  | .addIxt => cAdd m
  | .transactionFree2 => cFreeN
  | .newOutgoing => [([.null, .dead], [(false, [.null, .null])]), ([.live, .dead], [(false, [.live, .null]), (true, [.kept, .live])])]
  | .eventFree => cFreeN
  | .findAndAddEvent => [([.null], [(false, [.null])]),
    ([.live], (false, [.live]) :: if m = .any then [(true, [.kept]), (true, [.live])] else [(true, [.kept])])]
  | .takeRequest => cKeep
  | .takeResponse => cKeep
  | .istRcvAck => cKeep
  | .ictRetransmitAck => cFree
  | .serverRcvRequest => [([.live], [(true, [.kept]), (true, [.gone])])]
  | .ixtFree => cFree
  | .osipRelease _ => cFree
  | .ictRcv3456xx => [([.live, .live], [(true, [.live, .kept])]), ([.kept, .live], [(true, [.kept, .kept])])]
  | .transactionExecute => [([.live, .live], [(true, [.live, .gone])]), ([.kept, .live], [(true, [.kept, .gone])])]
  | _ => cMake

def contracts (m : Mode) (f : Fun) : Contract := if f ∈ unsafeFuns m then [] else contract m f

/-- All functions. -/
def allFuns : List Fun :=
  [.structInit, .bodyInit, .listClone .param, .listClone .header, .listClone .sender, .listClone .via, .listClone .acceptEncoding,
    .listClone .contentType, .listClone .contentLength, .listClone .callInfo, .listClone .www, .listClone .authorization,
    .listClone .authInfo, .listClone .body, .paramClone, .uriClone, .fromClone, .viaClone, .callIdClone, .cseqClone, .headerClone,
    .contentTypeClone, .contentLengthClone, .callInfoClone, .acceptEncodingClone, .wwwClone, .authorizationClone, .authInfoClone, .bodyClone,
    .messageClone, .callIdToStr, .updateRouteSetAsUas, .updateRouteSetAsUac, .updateTagAsUac, .matchAsUac, .matchAsUas, .dialogInit,
    .dialogInitAsUac, .dialogInitAsUas, .dialogFree, .setDestination, .ictInit true, .ictInit false, .nictInit, .istInit, .nistInit,
    .setTopvia, .setFrom, .setTo, .setCallId, .setCseq, .fifoInit, .fifoAdd, .transactionInit, .createTransaction, .transactionFree2,
    .eventNew, .newOutgoing, .eventFree, .findAndAddEvent, .takeRequest, .takeResponse, .ictCreateAck, .ictRcv3456xx, .ictRetransmitAck,
    .serverRcvRequest, .istRcvAck, .transactionExecute, .execute, .timersExecute, .osipInit, .osipRelease true, .osipRelease false, .ixtInit,
    .ixtFree, .addIxt, .start200ok, .startAck, .stopIxt]

theorem mem_allFuns (f : Fun) : f ∈ allFuns := by
  cases f with
  | listClone e => cases e <;> decide +kernel
  | ictInit b => cases b <;> decide +kernel
  | osipRelease b => cases b <;> decide +kernel
  | _ => decide +kernel

theorem contracts_all : ∀ m ∈ [Mode.none, .notNodes, .any], ∀ f ∈ allFuns,
    (contracts m f).all (checkEntry m (contracts m) (code f)) = true := by decide +kernel

theorem contracts_ok (m : Mode) (f : Fun) : (contracts m f).all (checkEntry m (contracts m) (code f)) = true :=
  contracts_all m (by cases m <;> decide) f (mem_allFuns f)

end Osip.Own.Stack
