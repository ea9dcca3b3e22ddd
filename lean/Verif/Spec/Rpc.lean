import Verif.Model.Rpc
/-!
# Specification of remote procedure calls
-/
namespace SilKit.Rpc.Spec

abbrev R := Client × List Out

def onInput (r : R) (x : In) : R := ((r.1.step x).1, r.2 ++ (r.1.step x).2)

/-- A client and all that happens to it. -/
def solo (h : List In) : R := h.foldl onInput ({}, [])

def resultOf : Out → Option Result
  | .result r => some r
  | _ => none

/-- The results that the handler gets with the user context `ctx`. -/
def results (ctx : Ctx) (t : List Out) : List Result := (t.filterMap resultOf).filter fun r => r.ctx == ctx

def callOf : Out → Option Call
  | .sent m => some m
  | _ => none

/-- The calls that are sent. -/
def sentCalls (t : List Out) : List Call := t.filterMap callOf

/-- The number of servers that are known. -/
def knownCount (h : List In) : Int := (h.count .found : Int) - h.count .lost

def uuidOf : In → Option Uuid
  | .call _ u _ _ _ => some u
  | _ => none

/-- The identifiers of all calls. -/
def uuids (h : List In) : List Uuid := h.filterMap uuidOf

def ctxOf : In → Option Ctx
  | .call _ _ c _ _ => some c
  | _ => none

/-- The user contexts of all calls. -/
def ctxs (h : List In) : List Ctx := h.filterMap ctxOf

def answerTo (u : Uuid) : In → Option Response
  | .hear m => if m.uuid = u then some m else none
  | _ => none

/-- The responses to a call, as they arrive. -/
def answers (u : Uuid) (h : List In) : List Response := h.filterMap (answerTo u)

/-- The result for a response, with the user context of the call. -/
def asResult (ctx : Ctx) (m : Response) : Result :=
  { now := m.now, ctx := ctx, data := m.data
    status := match m.status with | .success => .success | .internalError => .internalServerError | .other => .undefinedError }

def durOf : In → Nat
  | .tick _ d => d
  | _ => 0

/-- The simulation time that passes. -/
def elapsed (h : List In) : Nat := (h.map durOf).sum

def isTick : In → Bool
  | .tick _ _ => true
  | _ => false

/-- Whether, after a call with the timeout `t`, the time has passed. -/
def Expired (t : Int) (h : List In) : Prop := (∃ x ∈ h, isTick x = true) ∧ t ≤ elapsed h

def serialStep (s : Option Bool) (x : In) : Option Bool :=
  match s, x with
  | some false, .hear _ => some true
  | some false, .done => none
  | some false, _ => some false
  | some true, .done => some false
  | some true, .hear _ => none
  | some true, .tick _ _ => none
  | some true, _ => some true
  | none, _ => none

/-- Messages are handled one after the other, and time does not pass while a message is handled. This is so if the participant uses time
synchronization, as both messages and steps are then handled by the same thread. What the user does in between, in a handler or in another thread,
is arbitrary. -/
def Serial (h : List In) : Prop := (h.foldl serialStep (some false)).isSome = true

/-- Between the histories `a` and `b`, a call `u` is made with the user context `ctx`: both are used for this call only, and the client always has a
result handler. -/
structure Case (a : List In) (u : Uuid) (ctx : Ctx) (b : List In) : Prop where
  freshA : u ∉ uuids a
  freshB : u ∉ uuids b
  ctxA : ctx ∉ ctxs a
  ctxB : ctx ∉ ctxs b
  handler : In.setHandler false ∉ a ++ b

def timeless : In → Bool
  | .call _ _ _ _ (some _) => false
  | _ => true

/-! ## Clients and servers -/

abbrev NR := Net × List Ev

def onAct (r : NR) (a : Act) : NR := ((r.1.step a).1, r.2 ++ (r.1.step a).2)

/-- Clients and servers, and all that happens to them. -/
def net (h : List Act) : NR := h.foldl onAct ({}, [])

def inputOf (i : Nat) : Ev → Option In
  | .input i' x => if i' = i then some x else none
  | _ => none

/-- What happens to client `i`. -/
def inputs (i : Nat) (t : List Ev) : List In := t.filterMap (inputOf i)

def outputOf (i : Nat) : Ev → Option Out
  | .client i' o => if i' = i then some o else none
  | _ => none

/-- What client `i` does. -/
def outputs (i : Nat) (t : List Ev) : List Out := t.filterMap (outputOf i)

def uuidOfEv : Ev → Option Uuid
  | .input _ x => uuidOf x
  | _ => none

/-- The identifiers of the calls of all clients. -/
def allUuids (t : List Ev) : List Uuid := t.filterMap uuidOfEv

def heardFrom (i j : Nat) (u : Uuid) : Ev → Option Response
  | .heard i' j' m => if i' = i ∧ j' = j ∧ m.uuid = u then some m else none
  | _ => none

/-- The responses of server `j` that reach client `i`, for the call `u`. -/
def repliesFrom (i j : Nat) (u : Uuid) (t : List Ev) : List Response := t.filterMap (heardFrom i j u)

def heardAny (i : Nat) (u : Uuid) : Ev → Option (Nat × Response)
  | .heard i' j m => if i' = i ∧ m.uuid = u then some (j, m) else none
  | _ => none

/-- The responses that reach client `i`, for the call `u`, with the server. -/
def replies (i : Nat) (u : Uuid) (t : List Ev) : List (Nat × Response) := t.filterMap (heardAny i u)

/-- Nothing is left to do for the call `u` of client `i`: no message of it is under way, and no server owes a result. -/
structure Settled (n : Net) (i : Nat) (u : Uuid) : Prop where
  calls : ∀ j, ∀ m ∈ n.calls i j, m.uuid ≠ u
  resps : ∀ j, ∀ m ∈ n.resps i j, m.uuid ≠ u
  servers : ∀ j, (n.servers j).alive u = false

/-- In the history `h`, the user of server `j` submits the result `d` for a call `u`: with `SubmitResult` later, or in the handler that is called for `u`. -/
def Submits (j : Nat) (u : Uuid) (d : Data) (h : List Act) : Prop :=
  ∃ a x c, h = a ++ x :: c ∧
    ((∃ now, x = .submit j now u d) ∨ ∃ k now inl e, x = .take k j now inl ∧ d ∈ inl ∧ Ev.server j (.called k u e) ∈ ((net a).1.step x).2)

def calledFor (i j : Nat) (u : Uuid) : Ev → Bool
  | .server j' (.called i' u' _) => j' == j && i' == i && u' == u
  | _ => false

/-- How often the handler of server `j` is called for the call `u` of client `i`. -/
def calledN (i j : Nat) (u : Uuid) (t : List Ev) : Nat := t.countP (calledFor i j u)

end SilKit.Rpc.Spec
