import Verif.Spec.TimeSyncLive
/-!
# Specification of the progress of time synchronization when participants join, pause, continue and leave (C14)

`ps` are the participants that take part at the moment, the one that joined last first. `held` are those among them that hold the
others back on purpose: they have joined but not started their time yet, they have paused, or they are about to stop.

A participant that joins is connected to all that joined before, and its announcements are the first thing it sends to them
(`VAsioConnection::JoinSimulation` waits for all connections, core/vasio/VAsioConnection.cpp:441-466; services are announced when
they are created, core/service/ServiceDiscovery.cpp:90-104, i.e. before the time is started). So nobody receives anything of a
participant that joined later without having discovered it first. The other way round a participant is told about those that
joined before only when they have noticed it (`AnnounceLocalParticipantTo`, ServiceDiscovery.cpp:152-182, sent before the time
synchronization service of the new participant is noticed), so it can receive, and ignore, older messages of theirs.
-/
namespace SilKit.TimeSync.Spec

/-- `p` takes `q` into account in its time synchronization. -/
def Knows (n : Net) (p q : String) : Prop := ∃ t, (q, t) ∈ (n.part p).cfg.others

/-- `x` has joined before `y`. -/
def Before (ps : List String) (x y : String) : Prop := [y, x].Sublist ps

/-- The oldest message from `x` to `y` may arrive before `y` has discovered `x`: `x` was there before `y`, and it has not noticed
`y` yet, or has not begun its first step, or is still going to announce its next time point, or that announcement follows. -/
def MayMiss (ps : List String) (n : Net) (x y : String) : Prop :=
  Before ps x y ∧ (¬ Knows n x y ∨ (n.part x).cfg.current.tp < 0 ∨ (n.part x).lastSent ≠ (n.part x).cfg.next.tp ∨
    ∃ m t rest, n.chan x y = m :: rest ∧ .task t ∈ rest)

/-- What may happen to the participants `ps`. -/
def May (ps held : List String) (n : Net) : Act → Prop
  | .event p (.setStepDuration d) => p ∈ ps ∧ 0 < d
  | .event p (.setDynamic _) => p ∈ ps
  | .event p .request => p ∈ ps ∧ p ∉ held ∧ (n.part p).asyncExecuting = false
  | .event p .poll => p ∈ ps
  | .event p .stepReturned => p ∈ ps
  | .event p .complete => p ∈ ps ∧ (n.part p).asyncExecuting = true
  -- only those who hold the others back change their state
  | .event p (.lifecycle _ _ _) => p ∈ ps ∧ p ∈ held
  -- the others are discovered, and those who have left are lost
  | .event p (.discovered q) => p ∈ ps ∧ q ∈ ps ∧ ¬ Knows n p q
  | .event p (.lost q) => p ∈ ps ∧ q ∉ ps
  | .deliver x y => y ∈ ps ∧ (x ∉ ps ∨ Knows n y x ∨ (∃ m t rest, n.chan x y = .data m t :: rest) ∨ MayMiss ps n x y)
  | .data p _ => p ∈ ps
  | _ => False

/-- The state of the time synchronization of a participant that joins. -/
def Newcomer (s : Part) : Prop :=
  ∃ blocking coordinated dyn d state stop pause, 0 < d ∧
    s = { cfg := { blocking := blocking, dynamic := dyn, next := ⟨0, d⟩ }, state := state, stopRequested := stop,
          pauseRequested := pause, coordinated := coordinated }

/-- `y` joins in state `s`, with new connections to everybody. -/
def joined (n : Net) (y : String) (s : Part) : Net :=
  { part := fun x => if x = y then s else n.part x
    chan := fun a b => if a = y ∨ b = y then [] else n.chan a b }

/-- `p` is running, nothing is requested from it and it does not execute a step. -/
def Ready (s : Part) : Prop := s.state = .running ∧ s.stopRequested = false ∧ s.pauseRequested = false ∧ s.asyncExecuting = false

/-- The participants `ps` can be in state `n` having shown `tr`, and nobody aborted the simulation. -/
inductive Changing : List String → List String → Net → List Obs → Prop
  /-- nobody takes part yet -/
  | init {n} : Initial n → Changing [] [] n []
  | step {ps held n tr a n' obs} : Changing ps held n tr → May ps held n a → n.act a = some (n', obs) →
      (∀ p, .out p .abort ∉ obs) → Changing ps held n' (tr ++ obs)
  /-- somebody new joins; a participant that comes back counts as a new one -/
  | join {ps held n tr y s} : Changing ps held n tr → y ∉ ps → (∀ x, ¬ Knows n x y) → Newcomer s →
      Changing (y :: ps) (y :: held) (joined n y s) tr
  /-- somebody is going to pause or to stop -/
  | hold {ps held n tr p} : Changing ps held n tr → p ∈ ps → Changing ps (p :: held) n tr
  /-- somebody starts its time, or continues after a pause -/
  | resume {ps held n tr p n' obs} : Changing ps held n tr → p ∈ ps → Ready (n.part p) →
      n.act (.event p .request) = some (n', obs) → Changing ps (held.filter (· ≠ p)) n' (tr ++ obs)
  /-- somebody leaves -/
  | leave {ps held n tr p} : Changing ps held n tr → Changing (ps.filter (· ≠ p)) (held.filter (· ≠ p)) n tr

/-- Everybody has noticed who has joined and who has left. -/
def Settled (ps : List String) (n : Net) : Prop := ∀ p ∈ ps, ∀ q, Knows n p q ↔ q ∈ ps ∧ q ≠ p

/-- Nobody who could abort the simulation has yet to begin its first step: everybody has already examined whether it joined a
running simulation (which it does when it begins its first step) or is autonomous. -/
def Engaged (ps : List String) (n : Net) : Prop := ∀ p ∈ ps, (n.part p).hopOnEvaluated = true ∨ (n.part p).coordinated = false

/-- Work that is done sooner or later: as before; moreover somebody notices that somebody has joined or left. -/
def Pending (ps : List String) (n : Net) : Act → Prop
  | .event p (.discovered q) => q ∈ ps ∧ q ≠ p ∧ ¬ Knows n p q
  | .event p (.lost q) => q ∉ ps ∧ Knows n p q
  | .deliver _ _ => True
  | a => Work n a

end SilKit.TimeSync.Spec
