import Verif.Model.Replay
/-!
# What replaying should do, in terms of the history of calls and steps
-/
namespace SilKit.Replay.Spec
open SilKit.Replay

/-- The simulation steps of a history. -/
def steps (h : List In) : List (Int × Int) := h.filterMap fun | .step n d => some (n, d) | _ => none

/-- What a controller sent, with the times. -/
def sends (id : Nat) (es : List (Nat × Effect)) : List (Int × List UInt8) :=
  es.filterMap fun | (i, .sent t data) => if i = id then some (t, data) else none | _ => none

/-- What was given to the handlers of a controller, with the time stamps. -/
def deliveries (id : Nat) (es : List (Nat × Effect)) : List (Int × List UInt8) :=
  es.filterMap fun | (i, .delivered t data) => if i = id then some (t, data) else none | _ => none

/-- Each step begins where the one before it ends. -/
def Contiguous : List (Int × Int) → Prop
  | [] => True
  | [(_, d)] => 0 ≤ d
  | (n, d) :: (n', d') :: r => 0 ≤ d ∧ n' = n + d ∧ Contiguous ((n', d') :: r)

/-- When the first step begins. -/
def startOf : List (Int × Int) → Int
  | [] => 0
  | (n, _) :: _ => n

/-- When the last step ends. -/
def endOf (l : List (Int × Int)) : Int :=
  match l.getLast? with
  | none => 0
  | some (n, d) => n + d

/-- The controller is created once in the history, between `pre` and `post`. -/
def CreatedOnce (c : Ctl) (pre post : List In) : Prop :=
  (∀ c', .create c' ∈ pre → c'.id ≠ c.id) ∧ (∀ c', .create c' ∈ post → c'.id ≠ c.id)

/-- The recorded messages whose time has come: those up to the first one that is not before the end of the current step. Times of recorded messages
count from the first step of the participant. -/
def due (ms : List Msg) (pre post : List In) : List Msg :=
  if steps post = [] then []
  else ms.takeWhile (fun m => decide (startOf (steps (pre ++ post)) + m.time < endOf (steps (pre ++ post))))

/-- What the user sends by the controller, with the time of the call; `now` is the time at the beginning. -/
def userSends (id : Nat) : Int → List In → List (Int × List UInt8)
  | _, [] => []
  | _, .step n _ :: h => userSends id n h
  | now, .send i data :: h => if i = id then (now, data) :: userSends id now h else userSends id now h
  | now, _ :: h => userSends id now h

/-- What arrives for the controller. -/
def arrivals (id : Nat) (h : List In) : List (Int × List UInt8) :=
  h.filterMap fun | .receive i t data => if i = id then some (t, data) else none | _ => none

/-- The time at the end of a history. -/
def nowAfter (h : List In) : Int :=
  match (steps h).getLast? with
  | none => -2 ^ 63
  | some (n, _) => n

/-- The reader returns these frames, one after the other. -/
def Yields (r : Pcap.Reader) (fs : List Pcap.Frame) : Prop :=
  ∀ k, ((r.seek k).2 = true ↔ k = 0 ∨ k < fs.length) ∧ ((r.seek k).2 = true → (r.seek k).1.current = fs[k]?)

end SilKit.Replay.Spec
