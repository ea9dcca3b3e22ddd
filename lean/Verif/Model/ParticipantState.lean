/-!
# `ParticipantState`

`SilKit/include/silkit/services/orchestration/OrchestrationDatatypes.hpp`.
-/
namespace SilKit

/-- `enum class ParticipantState`, OrchestrationDatatypes.hpp. -/
inductive ParticipantState where
  | invalid | servicesCreated | communicationInitializing | communicationInitialized | readyToRun | running | paused
  | stopping | stopped | error | shuttingDown | shutdown | aborting
deriving Repr, DecidableEq

end SilKit
