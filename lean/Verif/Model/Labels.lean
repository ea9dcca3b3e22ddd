/-!
# Model of label and media type matching

`SilKit/source/util/LabelMatching.cpp`, `services/pubsub/DataMessageDatatypeUtils.cpp`, `services/rpc/RpcDatatypeUtils.cpp`.
-/
namespace SilKit.Labels

/-- `MatchingLabel::Kind`, include/silkit/services/datatypes.hpp. -/
inductive Kind where
  | optional
  | mandatory
deriving Repr, DecidableEq

/-- `MatchingLabel`, include/silkit/services/datatypes.hpp. -/
structure Label where
  key : String
  value : String
  kind : Kind
deriving Repr, DecidableEq

/-- `TryFindLabelByKey`, LabelMatching.cpp:13-23: the first label with the key. -/
def tryFind (key : String) : List Label → Option Label
  | [] => none
  | l :: ls => if l.key = key then some l else tryFind key ls

/-- `LabelMatchesLabelList`, LabelMatching.cpp:25-45. -/
def labelMatchesList (label : Label) (labels : List Label) : Bool :=
  match tryFind label.key labels with
  | none => decide (label.kind ≠ .mandatory)
  | some found => decide (label.value = found.value)

/-- `MatchLabels`, LabelMatching.cpp:47-67. -/
def matchLabels (labels1 labels2 : List Label) : Bool :=
  labels1.all (fun l => labelMatchesList l labels2) && labels2.all (fun l => labelMatchesList l labels1)

/-- `MatchMediaType`, DataMessageDatatypeUtils.cpp:24-27 and RpcDatatypeUtils.cpp:12-15: the first argument is the media type
of the subscriber (respectively of the client). -/
def matchMediaType (listener announcer : String) : Bool := decide (listener = "" ∨ listener = announcer)

end SilKit.Labels
