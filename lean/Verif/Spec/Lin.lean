import Verif.Model.LinNet
import Verif.Spec.Handling
/-!
# Specification of LIN controllers and networks (C31, C32, C39)

What the users of a controller have configured, from their calls alone - and, for `SendFrame` with a slave's response, from the announcements of slaves.
-/
namespace SilKit.Lin.Spec

/-- What happens to one controller. -/
inductive Input
  | call (a : Call)
  | recv (src : Nat) (m : Msg)
deriving Repr, DecidableEq

def _root_.SilKit.Lin.Ctl.input (c : Ctl) : Input → R
  | .call a => c.api a
  | .recv src m => c.receive src m

def onInput (r : R) (x : Input) : R := ((r.1.input x).1, r.2 ++ (r.1.input x).2)

/-- Controller `i`, after these inputs, and its outputs. -/
def solo (i : Nat) (net : String) (h : List Input) : R := h.foldl onInput ({ self := i, net := net }, [])

/-- What has been configured at a controller. -/
structure Conf where
  /-- `inactive`: not initialized. -/
  mode : Mode := .inactive
  /-- Initialized for dynamic responses. -/
  isDynamic : Bool := false
  asleep : Bool := false
  resp : Nat → Response := fun _ => {}
  /-- The controllers known as slaves. -/
  slaves : Nat → Bool := fun _ => false
  /-- The identifiers for which some slave has announced a response. -/
  announced : Nat → Bool := fun _ => false
  /-- The other controllers known to respond dynamically. -/
  dynamics : List Nat := []

def Conf.set (c : Conf) (r : Response) : Conf := if r.frame.id < 64 then { c with resp := fun i => if i = r.frame.id then r else c.resp i } else c

/-- A frame with other data. -/
def withData (r : Response) (d : List Nat) : Response := ⟨⟨r.frame.id, r.frame.checksum, r.frame.dataLength, d⟩, r.mode⟩

def Conf.initWith (c : Conf) (mode : Mode) (dyn : Bool) (rs : List Response) : Conf :=
  if c.mode = .inactive ∧ mode ≠ .inactive then rs.foldl Conf.set { c with mode := mode, isDynamic := dyn } else c

/-- Frame responses can be configured: the controller is initialized, and not for dynamic responses. -/
def Conf.static (c : Conf) : Prop := c.mode ≠ .inactive ∧ c.isDynamic = false

instance (c : Conf) : Decidable c.static := inferInstanceAs (Decidable (_ ∧ _))

def Conf.call (c : Conf) : Call → Conf
  | .init mode rs => c.initWith mode false rs
  | .initDynamic mode => c.initWith mode true []
  | .setFrameResponse r => if c.static ∧ r.mode ≠ .unused ∧ (c.resp r.frame.id).mode = .unused then c.set r else c
  | .updateTxBuffer f => if c.static ∧ (c.resp f.id).mode = .tx then { c with resp := fun i => if i = f.id then withData (c.resp i) f.data else c.resp i } else c
  | .sendFrame f .masterResponse => if c.static ∧ c.mode = .master then c.set ⟨f, .tx⟩ else c
  | .sendFrame f .slaveResponse =>
      if c.static ∧ c.mode = .master ∧ (c.announced f.id ∨ c.dynamics ≠ []) ∧ (c.resp f.id).mode = .unused then c.set ⟨f, .rx⟩ else c
  | .sendDynamicResponse f => c.set ⟨f, .tx⟩
  | .goToSleep => if c.mode = .master then { c with asleep := true } else c
  | .goToSleepInternal => if c.mode ≠ .inactive then { c with asleep := true } else c
  | .wakeup | .wakeupInternal => if c.mode ≠ .inactive then { c with asleep := false } else c
  | _ => c

/-- Identifiers with a response in `rs` are announced. -/
def Conf.announce (c : Conf) (src : Nat) (rs : List Response) : Conf :=
  if c.slaves src then { c with announced := fun id => c.announced id || rs.any (fun r => r.mode == .tx && r.frame.id == id) } else c

def Conf.recv (c : Conf) (i src : Nat) : Msg → Conf
  | .config mode dyn rs =>
      if src = i then c
      else Conf.announce { c with
        slaves := fun a => if a = src then mode == .slave else c.slaves a
        dynamics := (if dyn then [src] else []) ++ c.dynamics.filter (· != src) } src rs
  | .responses rs => if src = i then c else c.announce src rs
  | _ => c

def Conf.input (i : Nat) (c : Conf) : Input → Conf
  | .call a => c.call a
  | .recv src m => c.recv i src m

/-- What has been configured at controller `i`. -/
def conf (i : Nat) (h : List Input) : Conf := h.foldl (Conf.input i) {}

/-- The identifiers given to the call are LIN identifiers. (`Init` and `SetFrameResponse` check the identifiers themselves.) -/
def _root_.SilKit.Lin.Call.Valid : Call → Prop
  | .sendDynamicResponse f | .sendFrame f _ | .updateTxBuffer f => f.id < 64
  | .sendFrameHeader id => id < 64
  | .sim (.msg _ (.header id)) => id < 64
  | _ => True

/-- The call is not about a network simulation. -/
def _root_.SilKit.Lin.Call.noSim : Call → Prop
  | .sim _ => False
  | _ => True

/-- The call is not about dynamic responses. -/
def _root_.SilKit.Lin.Call.isStatic : Call → Prop
  | .initDynamic _ | .sendDynamicResponse _ => False
  | _ => True

/-- The call is not allowed at a controller with this configuration. -/
def Conf.forbids (c : Conf) : Call → Prop
  | .init mode _ | .initDynamic mode => mode = .inactive ∨ c.mode ≠ .inactive
  | .sendFrame _ _ => c.mode ≠ .master ∨ c.isDynamic = true
  | .sendFrameHeader _ | .goToSleep | .getSlaveConfiguration => c.mode ≠ .master
  | .updateTxBuffer f => c.mode = .inactive ∨ c.isDynamic = true ∨ (f.id < 64 ∧ (c.resp f.id).mode ≠ .tx)
  | .setFrameResponse _ => c.mode = .inactive ∨ c.isDynamic = true
  | .goToSleepInternal | .wakeup | .wakeupInternal => c.mode = .inactive
  | _ => False

/-- The status of the controller. -/
def Conf.status (c : Conf) : Status := if c.mode = .inactive then .unknown else if c.asleep then .sleep else .operational

/-! ## The network -/

def on (r : Net × List Ev) (a : Act) : Net × List Ev := ((r.1.step a).1, r.2 ++ (r.1.step a).2)

def run (k : Nat) (net : String) (h : List Act) : Net × List Ev := h.foldl on (Net.init k net, [])

/-- What happens in a network of `k` controllers. -/
def trace (k : Nat) (net : String) (h : List Act) : List Ev := (run k net h).2

def inputOf (i : Nat) : Ev → Option Input
  | .call j a => if j = i then some (.call a) else none
  | .recv j src m => if j = i then some (.recv src m) else none
  | .out _ _ => none

/-- What happens to controller `i`. -/
def inputs (i : Nat) (t : List Ev) : List Input := t.filterMap (inputOf i)

def outOf (i : Nat) : Ev → Option Out
  | .out j o => if j = i then some o else none
  | _ => none

def outs (i : Nat) (t : List Ev) : List Out := t.filterMap (outOf i)

/-- The events that controller `i` reports to its handlers. -/
def reported (i : Nat) (t : List Ev) : List Notice := Handling.Spec.tolds (outs i t)

/-- What has been configured at controller `i`. -/
def confAt (i : Nat) (t : List Ev) : Conf := conf i (inputs i t)

/-- There is no network simulation, no controller responds dynamically or leaves, and only LIN identifiers are used. -/
def Plain (h : List Act) : Prop :=
  (∀ i a, Act.api i a ∈ h → a.Valid ∧ a.noSim ∧ a.isStatic) ∧ ∀ i j, Act.close i j ∉ h

/-- Controllers are used when all subscriptions have arrived. -/
def OpenFirst (k : Nat) (h : List Act) : Prop :=
  ∀ pre i a post, h = pre ++ .api i a :: post → i < k → ∀ j, j < k → j ≠ i → ∀ ty, Act.open i j ty ∈ pre

/-- No message is on its way. -/
def Settled (k : Nat) (net : String) (h : List Act) : Prop := ∀ i j, (run k net h).1.chan i j = []

/-- Nothing but messages being delivered. -/
def Deliveries (ds : List Act) : Prop := ∀ a ∈ ds, ∃ i j, a = Act.deliver i j

/-- The controllers that are configured to respond. -/
def responders (k : Nat) (t : List Ev) (id : Nat) : List Nat := (List.range k).filter fun i => ((confAt i t).resp id).mode == .tx

/-- The call requests the frame `id`, at a controller with this configuration. -/
def Conf.requests (c : Conf) (id : Nat) : Call → Prop
  | .sendFrameHeader x => x = id ∧ c.mode = .master
  | .sendFrame f .masterResponse => f.id = id ∧ c.mode = .master ∧ c.asleep = false
  | .sendFrame f .slaveResponse => f.id = id ∧ c.mode = .master ∧ c.asleep = false ∧ c.announced id = true ∧ (c.resp id).mode ≠ .tx
  | .sendFrame f .slaveToSlave => f.id = id ∧ c.mode = .master ∧ c.asleep = false ∧ c.announced id = true
  | _ => False

/-- What `SendFrame` reports immediately. -/
def firstReport : Call → List Notice
  | .sendFrame f .slaveToSlave => [.frame f .txOk]
  | _ => []

/-- The length and the checksum model are those configured, as far as they are known. -/
def fits (configured received : Frame) : Bool :=
  (configured.dataLength == lengthUnknown || configured.dataLength == received.dataLength) &&
  (configured.checksum == .unknown || received.checksum == .unknown || configured.checksum == received.checksum)

/-- The status for a node that itself transmits. -/
def asTx : FrameStatus → FrameStatus
  | .rxOk => .txOk
  | .rxError => .txError
  | .rxBusy => .txBusy
  | s => s

/-- What a controller with this configuration reports if the frame `f` is on the bus. -/
def Conf.sees (c : Conf) (f : Frame) (s : FrameStatus) : List Notice :=
  if c.mode = .inactive ∨ c.asleep = true ∨ (8 < f.dataLength ∧ f.dataLength ≠ lengthUnknown) then []
  else (match (c.resp f.id).mode with
    | .unused => []
    | .rx => [.frame f (if fits (c.resp f.id).frame f then s else .rxError)]
    | .tx => [.frame f (asTx s)]) ++ (if c.mode = .slave ∧ f.id = goToSleepFrame.id ∧ f.data = goToSleepFrame.data then [.goToSleep] else [])

end SilKit.Lin.Spec
