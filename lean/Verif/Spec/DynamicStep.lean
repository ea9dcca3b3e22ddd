import Verif.Model.DynamicStep
/-!
# Specification of who uses dynamic simulation steps (C80)

The rules are those of docs/configuration/experimental-configuration.rst:38-68.
-/
namespace SilKit.DynamicStep.Spec
open SilKit.DynamicStep

/-- The calls that have happened. -/
def calls (trace : List Out) : List Call := trace.filterMap fun | .called c => some c | _ => none

/-- The setting: that of the last configuration, absent before. -/
def Setting (cs : List Call) (c : Option Bool) : Prop :=
  (c = none ∧ ∀ c', Call.configure c' ∉ cs) ∨ ∃ a b, cs = a ++ .configure c :: b ∧ ∀ c', Call.configure c' ∉ b

/-- Another participant `q` has advertised the request, and is still there. -/
def Requests (own : String) (cs : List Call) (q : String) : Prop := q ≠ own ∧ ∃ a b, cs = a ++ .seen q true :: b ∧ .gone q ∉ b

/-- The documented rule: on if set to `true`, never on if set to `false`, and otherwise on if and only if at least one peer advertises the request. -/
def Documented (own : String) (cs : List Call) (on : Bool) : Prop :=
  (Setting cs (some true) → on = true) ∧ (Setting cs (some false) → on = false) ∧ (Setting cs none → (on = true ↔ ∃ q, Requests own cs q))

/-- At some time in this history, there was no setting, and another participant was there that requests dynamic steps. -/
def WasRequested (own : String) (cs : List Call) : Prop := ∃ a b, cs = a ++ b ∧ Setting a none ∧ ∃ q, Requests own a q

/-- No thread is inside one of these calls. -/
def Quiet (s : State) : Prop := ∀ t, s.pc t = .idle

/-- In this schedule, a call begins only when no other one is in progress. -/
def OneAtATime (own : String) (ops : List Op) : Prop := ∀ a b, ops = a ++ b → ∀ t t', (run own a).1.pc t ≠ .idle → (run own a).1.pc t' ≠ .idle → t = t'

/-- A whole call of thread `t`, with nothing in between. -/
def whole (t : Bool) (c : Call) : List Op := [.call t c, .compute t, .store t, .notify t]

end SilKit.DynamicStep.Spec
