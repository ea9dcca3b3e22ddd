import Verif.Model.WatchDog
/-!
# Specification of the watchdog
-/
namespace SilKit.WatchDog.Spec

def onIn (c : Config) (r : Dog × List Out) (x : In) : Dog × List Out := ((r.1.step c x).1, r.2 ++ (r.1.step c x).2)

/-- A watchdog and all it does. -/
def run (c : Config) (h : List In) : Dog × List Out := h.foldl (onIn c) ({}, [])

def timeOf : In → Option Int
  | .start t => some t
  | .reset t => some t
  | .look t => some t
  | .load => none

/-- The clock does not go back. -/
def Clock (h : List In) : Prop := (h.filterMap timeOf).Pairwise (· ≤ ·)

def startOf : In → Option Int
  | .start t => some t
  | _ => none

/-- When the steps start. -/
def starts (h : List In) : List Int := h.filterMap startOf

def warnOf (k : Nat) : Out → Option Int
  | .warn k' d => if k' = k then some d else none
  | _ => none

/-- The calls of the warning handler for step `k`, with the durations that are reported. -/
def warns (k : Nat) (t : List Out) : List Int := t.filterMap (warnOf k)

def errorOf (k : Nat) : Out → Option Int
  | .error k' d => if k' = k then some d else none
  | _ => none

/-- The calls of the timeout handler for step `k`. -/
def errors (k : Nat) (t : List Out) : List Int := t.filterMap (errorOf k)

def lookOf (k : Nat) : Out → Option Int
  | .looked k' d => if k' = k then some d else none
  | _ => none

/-- The durations of step `k` that the watchdog sees. -/
def looks (k : Nat) (t : List Out) : List Int := t.filterMap (lookOf k)

def inTime (c : Config) (d : Int) : Bool := decide (d ≤ c.warn ∧ d ≤ c.error)

/-- Whether the last that the watchdog has seen is in order. -/
def calmStep (c : Config) (s : Bool) : Out → Bool
  | .idle => true
  | .looked _ d => inTime c d
  | _ => s

def calm (c : Config) (t : List Out) : Bool := t.foldl (calmStep c) true

def isLook (k : Nat) : Out → Bool
  | .looked k' _ => k' == k
  | _ => false

/-- The watchdog sees something that is in order, at the latest when it looks at step `k` for the first time. -/
def Fresh (c : Config) (k : Nat) (t : List Out) : Prop := calm c (t.takeWhile fun o => !isLook k o) = true ∨ (looks k t).head?.any (inTime c) = true

/-- The beginning and the end of each step. -/
def spanStep (l : List (Int × Option Int)) : In → List (Int × Option Int)
  | .start t => l ++ [(t, none)]
  | .reset t => match l.getLast? with | some (s, none) => l.dropLast ++ [(s, some t)] | _ => l
  | _ => l

def spans (h : List In) : List (Int × Option Int) := h.foldl spanStep []

def promptStep (s : Option Bool) (x : In) : Option Bool :=
  match s, x with
  | none, _ => none
  | some _, .load => some true
  | some _, .look _ => some false
  | some false, _ => some false
  | some true, _ => none

/-- The watchdog reads the clock at once after it has loaded the start time. (This has no effect if no step is running.) -/
def Prompt (h : List In) : Prop := (h.foldl promptStep (some false)).isSome = true

end SilKit.WatchDog.Spec
