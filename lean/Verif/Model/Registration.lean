/-!
# Registering services

The handshake with which a participant registers the receivers of a service at its peers:
`SilKit/source/core/vasio/VAsioConnection.hpp` and `SilKit/source/core/vasio/VAsioConnection.cpp`.
-/
namespace SilKit.Registration

/-- A pending acknowledge, `PendingAcksIdentifier`: a peer and a subscription. Peers stand for the peer objects, subscriptions for
`(receiverIdx, networkName, msgTypeName)` (the version takes no part in the comparison, VAsioDatatypes.hpp:153); both are numbers. -/
abbrev Ack := Nat × Nat

/-- The part of `VAsioConnection` involved. -/
structure Conn where
  /-- `_peers`. -/
  peers : List Nat := []
  /-- `_vasioUniqueReceiverIds`. -/
  known : List Nat := []
  /-- `_pendingSubscriptionAcknowledges`. -/
  pendingSync : List Ack := []
  /-- `_pendingAsyncSubscriptionAcknowledges`. -/
  pendingAsync : List Ack := []
  /-- The registration whose promise is in `_receivedAllSubscriptionAcknowledges` and has not been satisfied. -/
  promise : Option Nat := none
  /-- `RegisterSilKitServiceImpl` calls posted to the I/O thread: synchronous or not, number of the call, receivers of the service. -/
  posted : List (Bool × Nat × List Nat) := []
  /-- `_hasPendingAsyncSubscriptions`. -/
  hasAsync : Bool := false
  /-- `_asyncSubscriptionsCompletionHandlers`. -/
  handlers : List Nat := []
deriving Repr, DecidableEq

/-- What can be observed: besides calls and returns, also the messages received from the peers. -/
inductive Out where
  | joined (p : Nat)
  | gone (p : Nat)
  /-- The call to register a service is made (`sync`: the caller waits). -/
  | called (sync : Bool) (k : Nat) (receivers : List Nat)
  /-- The I/O thread subscribes at all peers for those receivers of the service that are new. -/
  | subscribed (sync : Bool) (k : Nat) (subs : List Nat)
  /-- A peer acknowledges a subscription, positively or negatively. -/
  | acked (p s : Nat)
  /-- The synchronous call returns. -/
  | returned (k : Nat)
  /-- A handler for the completion of the asynchronous registrations is added. -/
  | handlerAdded (j : Nat)
  /-- A handler waiting for the asynchronous registrations is called. -/
  | handlerCalled (j : Nat)
  | exception
deriving Repr, DecidableEq

inductive Event where
  | join (p : Nat)
  | leave (p : Nat)
  | register (sync : Bool) (k : Nat) (receivers : List Nat)
  /-- The I/O thread runs the next posted function. -/
  | execute
  | ack (p s : Nat)
  /-- `AddAsyncSubscriptionsCompletionHandler`. -/
  | addHandler (j : Nat)
deriving Repr, DecidableEq

/-- `SyncSubscriptionsCompleted`, VAsioConnection.cpp:1940-1943. A promise that is already satisfied throws `std::future_error`. -/
def syncCompleted (c : Conn) : Conn × List Out :=
  match c.promise with
  | some k => ({ c with promise := none }, [.returned k])
  | none => (c, [.exception])

/-- `AsyncSubscriptionsCompleted`, VAsioConnection.cpp:1945-1950. -/
def asyncCompleted (c : Conn) : Conn × List Out :=
  ({ c with handlers := [], hasAsync := false }, c.handlers.map .handlerCalled)

/-- `RegisterSilKitService`, VAsioConnection.hpp:105-136. A promise that is overwritten before it is satisfied is broken, which ends the
wait of its caller. -/
def register (c : Conn) (sync : Bool) (k : Nat) (receivers : List Nat) : Conn × List Out :=
  if sync then
    if c.pendingSync = [] then
      ({ c with promise := some k, posted := c.posted ++ [(true, k, receivers)] },
       c.promise.toList.map .returned ++ [.called true k receivers])
    else (c, [.called true k receivers, .exception])
  else ({ c with hasAsync := true, posted := c.posted ++ [(false, k, receivers)] }, [.called false k receivers])

/-- The receivers that are new: the test of `isNewReceiver`, VAsioConnection.hpp:320-323, for each receiver of a service. -/
def newReceivers (known : List Nat) : List Nat → List Nat
  | [] => []
  | s :: rest => if s ∈ known then newReceivers known rest else s :: newReceivers (s :: known) rest

/-- The pending acknowledges added by `RegisterSilKitMsgReceiver`, VAsioConnection.hpp:341-359. -/
def acksFor (peers subs : List Nat) : List Ack := subs.flatMap (fun s => peers.map (fun p => (p, s)))

/-- `RegisterSilKitServiceImpl`, VAsioConnection.hpp:372-403. -/
def executeOne (c : Conn) (sync : Bool) (k : Nat) (receivers : List Nat) : Conn × List Out :=
  let subs := newReceivers c.known receivers
  let acks := acksFor c.peers subs
  if sync then
    let c := { c with known := c.known ++ subs, pendingSync := c.pendingSync ++ acks }
    let r := if c.pendingSync = [] then syncCompleted c else (c, [])
    (r.1, .subscribed true k subs :: r.2)
  else
    let c := { c with known := c.known ++ subs, pendingAsync := c.pendingAsync ++ acks }
    let r := if c.pendingAsync = [] then asyncCompleted c else (c, [])
    (r.1, .subscribed false k subs :: r.2)

/-- The next posted function runs. -/
def execute (c : Conn) : Conn × List Out :=
  match c.posted with
  | [] => (c, [])
  | (sync, k, receivers) :: rest => executeOne { c with posted := rest } sync k receivers

/-- The first half of `RemovePendingSubscription`, VAsioConnection.cpp:1678-1687. -/
def ackSync (c : Conn) (a : Ack) : Conn × List Out :=
  if a ∈ c.pendingSync then
    let c := { c with pendingSync := c.pendingSync.erase a }
    if c.pendingSync = [] then syncCompleted c else (c, [])
  else (c, [])

/-- The second half of `RemovePendingSubscription`, VAsioConnection.cpp:1689-1698. -/
def ackAsync (c : Conn) (a : Ack) : Conn × List Out :=
  if a ∈ c.pendingAsync then
    let c := { c with pendingAsync := c.pendingAsync.erase a }
    if c.pendingAsync = [] then asyncCompleted c else (c, [])
  else (c, [])

/-- `ReceiveSubscriptionAcknowledge`, VAsioConnection.cpp:1660-1674, whatever the status of the acknowledge. -/
def onAck (c : Conn) (p s : Nat) : Conn × List Out :=
  if p ∈ c.peers then
    let r := ackSync c (p, s)
    let r' := ackAsync r.1 (p, s)
    (r'.1, .acked p s :: (r.2 ++ r'.2))
  else (c, [])

/-- The first half of `RemovePeerFromPendingAcknowledges`, VAsioConnection.cpp:1705-1714. -/
def goneSync (c : Conn) (p : Nat) : Conn × List Out :=
  if c.pendingSync.any (·.1 = p) then
    let c := { c with pendingSync := c.pendingSync.filter (·.1 ≠ p) }
    if c.pendingSync = [] then syncCompleted c else (c, [])
  else (c, [])

/-- The second half, VAsioConnection.cpp:1716-1725. -/
def goneAsync (c : Conn) (p : Nat) : Conn × List Out :=
  if c.pendingAsync.any (·.1 = p) then
    let c := { c with pendingAsync := c.pendingAsync.filter (·.1 ≠ p) }
    if c.pendingAsync = [] then asyncCompleted c else (c, [])
  else (c, [])

/-- `OnPeerShutdown`, VAsioConnection.cpp:1355-1392, as far as it concerns registrations. -/
def leave (c : Conn) (p : Nat) : Conn × List Out :=
  if p ∈ c.peers then
    let r := goneSync { c with peers := c.peers.filter (· ≠ p) } p
    let r' := goneAsync r.1 p
    (r'.1, .gone p :: (r.2 ++ r'.2))
  else (c, [])

/-- `AddPeer`, VAsioConnection.cpp:1329-1353. A peer that joins is told the existing subscriptions in the handshake; they are not
acknowledged individually. -/
def join (c : Conn) (p : Nat) : Conn × List Out :=
  if p ∈ c.peers then (c, []) else ({ c with peers := c.peers ++ [p] }, [.joined p])

/-- `AddAsyncSubscriptionsCompletionHandler`, VAsioConnection.cpp:1854-1864. -/
def addHandler (c : Conn) (j : Nat) : Conn × List Out :=
  if c.hasAsync then ({ c with handlers := c.handlers ++ [j] }, [.handlerAdded j]) else (c, [.handlerAdded j, .handlerCalled j])

def on (c : Conn) : Event → Conn × List Out
  | .join p => join c p
  | .leave p => leave c p
  | .register sync k receivers => register c sync k receivers
  | .execute => execute c
  | .ack p s => onAck c p s
  | .addHandler j => addHandler c j

end SilKit.Registration
