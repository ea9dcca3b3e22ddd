import Verif.Model.DataFlow
import Verif.Spec.Links
/-!
# Specification of publish/subscribe from end to end
-/
namespace SilKit.DataFlow
open SilKit.Links (MsgType)
open SilKit.Discovery SilKit.Spec SilKit.Labels

variable {V : Type}

/-- What happens at the links; `off` says for which publishers the history is switched off. -/
def trace (off : Nat → MsgType → String → Bool) (h : List (Event V)) : List (Links.Out V) := Links.Spec.trace off (runControl h).2

/-- Publisher `u` has been created by participant `p` with description `s`. -/
def Created (h : List (Event V)) (u p : Nat) (s : Service) : Prop := (runControl h).1.pubs u = some (p, s)

/-- The values that publisher `u` of participant `p` has published. -/
def publishedBy (p u : Nat) (t : List (Links.Out V)) : List V := Links.Spec.published p .dataMessage (channel u) t

/-- The values that the handler of subscriber `j` of participant `q` was called with, as far as they come from publisher `u` of participant `p`. -/
def handled (q j p u : Nat) (t : List (Links.Out V)) : List V := Links.Spec.received q (internal j) .dataMessage (channel u) p t

/-- Publisher and subscriber match. -/
def Matches (topic mediaType : String) (i : Info) (s : Service) : Prop :=
  s.key = topic ∧ matchMediaType mediaType s.mediaType = true ∧ matchLabels i.labels s.labels = true

/-- Participant `q` knows of publisher `s` and has subscriber `i`, they match, and discovery can tell: no optional label of one side has a key that the
other side lacks (see C10). -/
def Meets (h : List (Event V)) (q : Nat) (topic mediaType : String) (i : Info) (s : Service) : Prop :=
  .subscribe topic mediaType i ∈ (runControl h).1.news q ∧ s ∈ publishers topic ((runControl h).1.news q) ∧ Matches topic mediaType i s ∧
    ∀ s', .publish s' ∈ (runControl h).1.news q → s'.key = topic → matchLabels i.labels s'.labels = true → Indexable i.labels s'.labels

/-- The connection from `p` to `q` is in use, and `q` has handled all that `p` has sent. -/
def Drained (off : Nat → MsgType → String → Bool) (h : List (Event V)) (p q : Nat) : Prop := Links.Spec.Drained off (runControl h).2 p q

end SilKit.DataFlow
