import Verif.Model.TimeSync
/-!
# Specification of the virtual time of one participant (C12, C16)
-/
namespace SilKit.TimeSync.Spec

/-- A participant before the simulation starts. -/
def start (blocking coordinated coupled : Bool) : Part :=
  { cfg := { blocking := blocking }, coordinated := coordinated, coupled := coupled }

/-- React to one event; events that cannot happen are ignored. -/
def react (s : Part) (e : Event) : Part × List Out := (s.on e).getD (s, [])

/-- State and outputs after a history. -/
def history (s : Part) (h : List Event) : Part × List Out :=
  h.foldl (fun r e => ((react r.1 e).1, r.2 ++ (react r.1 e).2)) (s, [])

/-- The simulation steps executed: start and duration as passed to the handler. -/
def steps (outs : List Out) : List Task :=
  outs.filterMap (fun o => match o with | .step tp dur => some ⟨tp, dur⟩ | _ => none)

/-- The user only asks for positive step durations. -/
def PositiveDurations (h : List Event) : Prop := ∀ d, Event.setStepDuration d ∈ h → 0 < d

/-- Each step starts where the previous one ended. -/
def Contiguous (l : List Task) : Prop := ∀ i (h : i + 1 < l.length), l[i + 1].tp = l[i].tp + l[i].dur

/-- The time points announced by a participant for its next step. -/
def announcedPoints (t : Task) : List Int := [t.tp, t.tp + t.dur]

/-- The events of a history that happened (not those that were impossible or rejected). -/
def occurred (s : Part) (h : List Event) : List Event :=
  (h.foldl (fun r e => ((react r.1 e).1, if (r.1.on e).isSome then r.2 ++ [e] else r.2)) (s, ([] : List Event))).2

/-- What participant `q` has announced for its next step, according to the events that happened: nothing unless it takes part,
`-1` until its first announcement. -/
def announced (q : String) (h : List Event) : Option Task :=
  h.foldl (fun v e => match e with
    | .discovered a => if a = q then some (v.getD ⟨-1, 0⟩) else v
    | .lost a => if a = q then none else v
    | .receive a t => if a = q then v.map (fun _ => t) else v
    | _ => v) none

/-- The step duration asked for last (1 ms unless set). -/
def configuredDuration (h : List Event) : Int :=
  h.foldl (fun d e => match e with | .setStepDuration d' => d' | _ => d) 1000000

/-- Whether dynamic step durations are enabled. -/
def dynamicEnabled (h : List Event) : Bool :=
  h.foldl (fun b e => match e with | .setDynamic b' => b' | _ => b) false

end SilKit.TimeSync.Spec
