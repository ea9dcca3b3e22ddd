import Verif.Model.AutonomousCheck
/-!
# Specification of the check of autonomous participants with virtual time (C81)
-/
namespace SilKit.AutonomousCheck.Spec
open SilKit.AutonomousCheck

/-- The calls of the user. -/
def userCalls (ops : List Op) : List Op := ops.filter fun | .configure _ | .createTimeSync | .startLifecycle => true | _ => false

/-- The user creates a lifecycle (autonomous or not) and its time synchronization, and starts it; or has got part of the way. -/
def Usual (autonomous : Bool) (ops : List Op) : Prop := userCalls ops <+: [.configure autonomous, .createTimeSync, .startLifecycle]

/-- Each participant `q` has the capability or not (`cap q`), and connections stay. -/
def Capable (cap : String → Bool) (ops : List Op) : Prop := ∀ q c, .peer q c ∈ ops → c = some (cap q)

/-- A participant is connected before its services are discovered. -/
def Connected (ops : List Op) : Prop := ∀ a b q x, ops = a ++ .discover q x :: b → ∃ c, .peer q c ∈ a

/-- The synchronized participant `q` is there. -/
def Present (tr : List Out) (q : String) : Prop := ∃ a b, tr = a ++ .seen q :: b ∧ .gone q ∉ b

end SilKit.AutonomousCheck.Spec
