import Verif.Model.Connecting
/-! # Specification: two participants get connected -/
namespace SilKit.Connecting.Spec
open SilKit SilKit.Connecting

/-- Both participants have declared that the registry may relay, and the declaration can be read. -/
def mayRelay (c : Setup) : Prop := c.a.proxy = true ∧ c.b.proxy = true ∧ c.parses = true

/-- Both participants have declared that one may ask the other to connect. -/
def mayAsk (c : Setup) : Prop := c.a.request = true ∧ c.b.request = true ∧ c.parses = true

instance (c : Setup) : Decidable (mayRelay c) := inferInstanceAs (Decidable (_ ∧ _ ∧ _))
instance (c : Setup) : Decidable (mayAsk c) := inferInstanceAs (Decidable (_ ∧ _ ∧ _))

/-- The ways in which A has announced itself to B. -/
def announcements (o : List Out) : List Way := o.filterMap (fun x => match x with | .announced w => some w | _ => none)

/-- The ways in which B has accepted A. -/
def joins (o : List Out) : List Way := o.filterMap (fun x => match x with | .joined w => some w | _ => none)

end SilKit.Connecting.Spec
