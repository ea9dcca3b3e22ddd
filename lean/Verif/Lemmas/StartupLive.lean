import Verif.Lemmas.Startup
/-!
# Lemmas: the coordinated start comes to an end
-/
namespace SilKit.Startup
open SilKit.Lifecycle (Config Life Out Throws)
open Spec

/-! ## The states of the start, in order -/

def rank : ParticipantState → Nat
  | .servicesCreated => 1
  | .communicationInitializing => 2
  | .communicationInitialized => 3
  | .readyToRun => 4
  | .running => 5
  | _ => 0

def ofRank : Nat → ParticipantState
  | 1 => .servicesCreated
  | 2 => .communicationInitializing
  | 3 => .communicationInitialized
  | 4 => .readyToRun
  | 5 => .running
  | _ => .invalid

theorem ofRank_rank {s : ParticipantState} (h : 1 ≤ rank s) : ofRank (rank s) = s := by
  cases s <;> first | rfl | simp [rank] at h

theorem rank_ofRank {k : Nat} (h : k ≤ 5) : rank (ofRank k) = k := by
  rcases k with _ | _ | _ | _ | _ | _ | k <;> first | rfl | omega

theorem rank_le (s : ParticipantState) : rank s ≤ 5 := by cases s <;> decide

/-- The states after rank `a` up to rank `b`. -/
def between (a b : Nat) : List ParticipantState := (List.range' (a + 1) (b - a)).map ofRank

theorem between_self (a : Nat) : between a a = [] := by simp [between]

theorem between_append {a b c : Nat} (h1 : a ≤ b) (h2 : b ≤ c) : between a b ++ between b c = between a c := by
  unfold between
  rw [← List.map_append]
  have : b + 1 = a + 1 + (b - a) := by omega
  rw [this, List.range'_append_1]
  congr 2
  omega

theorem between_succ (a : Nat) : between a (a + 1) = [ofRank (a + 1)] := by
  unfold between
  rw [Nat.add_sub_cancel_left]
  rfl

theorem between_cons {a b : Nat} {s : ParticipantState} {rest : List ParticipantState} (h : between a b = s :: rest) : a < b ∧ s = ofRank (a + 1) ∧ rest = between (a + 1) b := by
  by_cases hab : a < b
  · have := between_append (Nat.le_add_right a 1) hab
    rw [between_succ, h] at this
    simp only [List.cons_append, List.nil_append, List.cons.injEq] at this
    exact ⟨hab, this.1.symm, this.2.symm⟩
  · have : b - a = 0 := by omega
    simp [between, this] at h

theorem between_nil {a b : Nat} (h : between a b = []) : b ≤ a := by
  unfold between at h
  rw [List.map_eq_nil_iff, List.range'_eq_nil_iff] at h
  omega

theorem between_last {a b : Nat} (h : a < b) : (between a b).getLast? = some (ofRank b) := by
  have h1 : a ≤ b - 1 := by omega
  have h2 : b - 1 ≤ b := by omega
  rw [← between_append h1 h2]
  have h3 : between (b - 1) b = [ofRank b] := by
    have := between_succ (b - 1)
    rw [Nat.sub_add_cancel (by omega)] at this
    exact this
  rw [h3]
  simp

/-! ## The lifecycle during the start -/

/-- What a lifecycle is doing, if the system state it was last told of has rank `σ`. -/
inductive Shape (cfg : Config) : Nat → Life → Prop
  | invalid {l : Life} : l.state = .invalid → l.pending = [] → l.active = none → l.subsWaiting = 0 → l.commInvoked = false → l.completing = 0 → Shape cfg 0 l
  | created {l : Life} : l.state = .servicesCreated → l.pending = [] → l.active = none → l.subsWaiting = 0 → l.commInvoked = false → l.completing = 0 → Shape cfg 0 l
  | posting {l : Life} : l.state = .servicesCreated → l.pending = [.servicesCreated] → l.active = none → l.subsWaiting = 0 → l.commInvoked = false → l.completing = 0 → Shape cfg 1 l
  | waiting {l : Life} : l.state = .servicesCreated → l.pending = [] → l.active = some .servicesCreated → l.subsWaiting = 0 → l.commInvoked = false → l.completing = 0 → Shape cfg 1 l
  | initializing {l : Life} {σ : Nat} : l.state = .communicationInitializing → l.pending = [] → l.active = none → l.subsWaiting = 1 → l.commInvoked = false → l.completing = 0 → 1 ≤ σ → σ ≤ 2 → Shape cfg σ l
  | initialized {l : Life} {σ : Nat} : l.state = .communicationInitialized → l.pending = [] → l.active = none → l.subsWaiting = 0 → l.commInvoked = false → l.completing = 0 → 1 ≤ σ → σ ≤ 2 → Shape cfg σ l
  | called {l : Life} : l.state = .communicationInitialized → l.pending = [] → l.active = none → l.subsWaiting = 0 → l.commInvoked = true →
      (l.commCompleted = false ∧ l.completing = 0 ∨ l.commCompleted = true ∧ l.completing = 1) → Shape cfg 3 l
  | ready {l : Life} : l.state = .readyToRun → l.pending = [] → l.active = none → l.subsWaiting = 0 → (l.commInvoked = true → l.commCompleted = true) → l.completing = 0 → Shape cfg 3 l
  | running {l : Life} {σ : Nat} : l.state = .running → l.pending = [] → l.active = none → l.subsWaiting = 0 → (l.commInvoked = true → l.commCompleted = true) → l.completing = 0 → 4 ≤ σ → Shape cfg σ l

/-- The result of a reaction. -/
structure Next (cfg : Config) (σ : Nat) (l : Life) (r : Life × List Out) : Prop where
  shape : Shape cfg σ r.1
  le : rank l.state ≤ rank r.1.state
  pub : r.2.filterMap pubOf = between (rank l.state) (rank r.1.state)

theorem next_same {cfg : Config} {σ : Nat} {l : Life} (h : Shape cfg σ l) : Next cfg σ l (l, []) := ⟨h, Nat.le_refl _, (between_self _).symm⟩

theorem next_await {cfg : Config} {σ : Nat} {l : Life} (hc : cfg.autonomous = false) (hs : l.state = .communicationInitializing) (h1 : l.pending = []) (h2 : l.active = none) (h3 : l.subsWaiting = 0)
    (h4 : l.commInvoked = false) (h5 : l.completing = 0) (h6 : 1 ≤ σ) (h7 : σ ≤ 2) : Next cfg σ l (Lifecycle.awaitSubscriptions cfg {} l) := by
  unfold Lifecycle.awaitSubscriptions
  split
  · refine ⟨Shape.initializing hs h1 h2 ?_ h4 h5 h6 h7, Nat.le_refl _, (between_self _).symm⟩
    rw [h3]
  · simp only [Lifecycle.subscriptionsDone, Lifecycle.andThen, Lifecycle.setState, hc]
    refine ⟨Shape.initialized rfl h1 h2 h3 h4 h5 h6 h7, ?_, ?_⟩
    · rw [hs]; exact Nat.le_of_ble_eq_true rfl
    · rw [hs]; rfl

theorem next_complete {cfg : Config} {l : Life} (hc : cfg.autonomous = false) (hs : l.state = .servicesCreated) (h1 : l.pending = []) (h2 : l.active = none) (h3 : l.subsWaiting = 0)
    (h4 : l.commInvoked = false) (h5 : l.completing = 0) : Next cfg 1 l (Lifecycle.complete cfg {} .servicesCreated l) := by
  have h := next_await (cfg := cfg) (σ := 1) (l := (Lifecycle.setState l .communicationInitializing).1) hc rfl h1 h2 h3 h4 h5 (by decide) (by decide)
  refine ⟨h.shape, ?_, ?_⟩
  · refine Nat.le_trans ?_ h.le
    rw [hs]; exact Nat.le_of_ble_eq_true rfl
  · show (.published .communicationInitializing :: _ : List Out).filterMap pubOf = _
    rw [List.filterMap_cons]
    show .communicationInitializing :: List.filterMap pubOf (Lifecycle.awaitSubscriptions cfg {} (Lifecycle.setState l .communicationInitializing).1).2 = _
    rw [h.pub, hs]
    exact between_append (a := 1) (b := 2) (by decide) h.le

theorem shape_on {cfg : Config} {σ : Nat} {l : Life} (hc : cfg.autonomous = false) (h : Shape cfg σ l) (e : Lifecycle.Event) (he : undisturbed e = true) (hs : ∀ s, e ≠ .systemState s)
    (hi : e = .init → l.state = .invalid) : Next cfg σ l (Lifecycle.on cfg l e {}) := by
  cases e with
  | init =>
    have hl := hi rfl
    cases h with
    | invalid a b c d f g =>
      simp only [Lifecycle.on, Lifecycle.initState, hl, Lifecycle.setState]
      refine ⟨Shape.created rfl b c d f g, ?_, ?_⟩
      · rw [hl]; exact Nat.le_of_ble_eq_true rfl
      · rw [hl]; rfl
    | _ => simp_all
  | startAutonomous =>
    simp only [Lifecycle.on, hc]
    exact next_same h
  | systemState s => exact absurd rfl (hs s)
  | completeAsync =>
    simp only [Lifecycle.on]
    split
    · rename_i hx
      simp only [Bool.and_eq_true, Bool.not_eq_true'] at hx
      refine ⟨?_, Nat.le_refl _, (between_self _).symm⟩
      cases h with
      | called a b c d f g =>
        refine Shape.called a b c d f (.inr ⟨rfl, ?_⟩)
        rcases g with ⟨_, g⟩ | ⟨g, _⟩
        · show l.completing + 1 = 1
          rw [g]
        · rw [hx.2] at g; cases g
      | _ => simp_all
    · exact next_same h
  | completeCommReady =>
    simp only [Lifecycle.on]
    split
    · exact next_same h
    · rename_i m hm
      cases h with
      | called a b c d f g =>
        rcases g with ⟨_, g⟩ | ⟨g, g'⟩
        · rw [g] at hm; cases hm
        · have hm0 : m = 0 := by omega
          subst hm0
          simp only [Lifecycle.completeCommReady, a, if_true, Lifecycle.completeCommReadyInInitialized, Lifecycle.andThen, Lifecycle.setState, hc]
          refine ⟨Shape.ready rfl b c d (fun _ => g) rfl, ?_, ?_⟩
          · rw [a]; exact Nat.le_of_ble_eq_true rfl
          · rw [a]; rfl
      | _ => simp_all
  | reportError => cases he
  | pause => cases he
  | resume => cases he
  | stop => cases he
  | abort => cases he
  | barrierStart alone =>
    simp only [Lifecycle.on, Lifecycle.barrierStart]
    cases h with
    | posting a b c d f g =>
      rw [b]
      simp only [c, Option.isSome_none, Bool.false_eq_true, if_false]
      split
      · have hn := next_complete (cfg := cfg) (l := { l with pending := [], active := none }) hc a rfl rfl d f g
        exact ⟨hn.shape, hn.le, hn.pub⟩
      · exact ⟨Shape.waiting a rfl rfl d f g, Nat.le_refl _, (between_self _).symm⟩
    | invalid a b c d f g => rw [b]; exact next_same (.invalid a b c d f g)
    | created a b c d f g => rw [b]; exact next_same (.created a b c d f g)
    | waiting a b c d f g => rw [b]; exact next_same (.waiting a b c d f g)
    | initializing a b c d f g x y => rw [b]; exact next_same (.initializing a b c d f g x y)
    | initialized a b c d f g x y => rw [b]; exact next_same (.initialized a b c d f g x y)
    | called a b c d f g => rw [b]; exact next_same (.called a b c d f g)
    | ready a b c d f g => rw [b]; exact next_same (.ready a b c d f g)
    | running a b c d f g x => rw [b]; exact next_same (.running a b c d f g x)
  | barrierDone =>
    simp only [Lifecycle.on, Lifecycle.barrierDone]
    cases h with
    | waiting a b c d f g =>
      rw [c]
      have hn := next_complete (cfg := cfg) (l := { l with active := none }) hc a b rfl d f g
      exact ⟨hn.shape, hn.le, hn.pub⟩
    | invalid a b c d f g => rw [c]; exact next_same (.invalid a b c d f g)
    | created a b c d f g => rw [c]; exact next_same (.created a b c d f g)
    | posting a b c d f g => rw [c]; exact next_same (.posting a b c d f g)
    | initializing a b c d f g x y => rw [c]; exact next_same (.initializing a b c d f g x y)
    | initialized a b c d f g x y => rw [c]; exact next_same (.initialized a b c d f g x y)
    | called a b c d f g => rw [c]; exact next_same (.called a b c d f g)
    | ready a b c d f g => rw [c]; exact next_same (.ready a b c d f g)
    | running a b c d f g x => rw [c]; exact next_same (.running a b c d f g x)
  | subscriptionsAdded =>
    refine ⟨?_, Nat.le_refl _, (between_self _).symm⟩
    cases h with
    | invalid a b c d f g => exact .invalid a b c d f g
    | created a b c d f g => exact .created a b c d f g
    | posting a b c d f g => exact .posting a b c d f g
    | waiting a b c d f g => exact .waiting a b c d f g
    | initializing a b c d f g x y => exact .initializing a b c d f g x y
    | initialized a b c d f g x y => exact .initialized a b c d f g x y
    | called a b c d f g => exact .called a b c d f g
    | ready a b c d f g => exact .ready a b c d f g
    | running a b c d f g x => exact .running a b c d f g x
  | subscriptionsCompleted =>
    simp only [Lifecycle.on]
    cases h with
    | initializing a b c d f g x y =>
      rw [d]
      simp only [Lifecycle.allSubscriptionsDone, Lifecycle.subscriptionsDone, Lifecycle.andThen, Lifecycle.setState, hc]
      refine ⟨Shape.initialized rfl b c rfl f g x y, ?_, ?_⟩
      · rw [a]; exact Nat.le_of_ble_eq_true rfl
      · rw [a]; rfl
    | invalid a b c d f g => rw [d]; exact ⟨.invalid a b c rfl f g, Nat.le_refl _, (between_self _).symm⟩
    | created a b c d f g => rw [d]; exact ⟨.created a b c rfl f g, Nat.le_refl _, (between_self _).symm⟩
    | posting a b c d f g => rw [d]; exact ⟨.posting a b c rfl f g, Nat.le_refl _, (between_self _).symm⟩
    | waiting a b c d f g => rw [d]; exact ⟨.waiting a b c rfl f g, Nat.le_refl _, (between_self _).symm⟩
    | initialized a b c d f g x y => rw [d]; exact ⟨.initialized a b c rfl f g x y, Nat.le_refl _, (between_self _).symm⟩
    | called a b c d f g => rw [d]; exact ⟨.called a b c rfl f g, Nat.le_refl _, (between_self _).symm⟩
    | ready a b c d f g => rw [d]; exact ⟨.ready a b c rfl f g, Nat.le_refl _, (between_self _).symm⟩
    | running a b c d f g x => rw [d]; exact ⟨.running a b c rfl f g x, Nat.le_refl _, (between_self _).symm⟩

theorem next_ready {cfg : Config} {l : Life} (hc : cfg.autonomous = false) (a : l.state = .communicationInitialized) (b : l.pending = []) (c : l.active = none) (d : l.subsWaiting = 0)
    (f : l.commInvoked = false) (g : l.completing = 0) : Next cfg 3 l (Lifecycle.completeCommReadyInInitialized cfg {} l) := by
  simp only [Lifecycle.completeCommReadyInInitialized, Lifecycle.andThen, Lifecycle.setState, hc]
  refine ⟨Shape.ready rfl b c d (fun x => ?_) g, ?_, ?_⟩
  · have : l.commInvoked = true := x
    rw [f] at this; cases this
  · rw [a]; exact Nat.le_of_ble_eq_true rfl
  · rw [a]; rfl

theorem shape_told {cfg : Config} {σ : Nat} {l : Life} (hc : cfg.autonomous = false) (h : Shape cfg σ l) (hr : σ + 1 ≤ rank l.state) :
    Next cfg (σ + 1) l (Lifecycle.on cfg l (.systemState (ofRank (σ + 1))) {}) := by
  cases h with
  | invalid a b c d f g => rw [a] at hr; cases hr
  | created a b c d f g =>
    simp only [Lifecycle.on, Lifecycle.newSystemState, hc, ofRank, Lifecycle.servicesCreated, a, Lifecycle.callAfterAllReplied]
    simp only [Bool.false_eq_true, if_false]
    refine ⟨Shape.posting rfl ?_ c d f g, ?_, ?_⟩
    · show l.pending ++ _ = _
      rw [b]; rfl
    · rw [a]; exact Nat.le_refl _
    · rw [a]; rfl
  | posting a b c d f g => rw [a] at hr; simp [rank] at hr
  | waiting a b c d f g => rw [a] at hr; simp [rank] at hr
  | initializing a b c d f g x y =>
    rw [a] at hr
    have hr' : σ + 1 ≤ 2 := hr
    have : σ = 1 := by omega
    subst this
    simp only [Lifecycle.on, Lifecycle.newSystemState, hc, ofRank]
    exact next_same (.initializing a b c d f g (by decide) (by decide))
  | initialized a b c d f g x y =>
    rcases (by omega : σ = 1 ∨ σ = 2) with rfl | rfl
    · simp only [Lifecycle.on, Lifecycle.newSystemState, hc, ofRank]
      exact next_same (.initialized a b c d f g (by decide) (by decide))
    · simp only [Lifecycle.on, Lifecycle.newSystemState, hc, ofRank, Lifecycle.commInitialized, a, Lifecycle.commInitializedInInitialized]
      cases hr : cfg.commReady with
      | none => exact next_ready hc a b c d f g
      | some async =>
        cases async with
        | false =>
          have hn := next_ready hc a b c d f g
          simp only [Lifecycle.andThen]
          exact ⟨hn.shape, hn.le, hn.pub⟩
        | true =>
          simp only [f, Lifecycle.andThen]
          simp only [Bool.false_eq_true, if_false]
          refine ⟨Shape.called rfl b c d rfl (.inl ⟨rfl, g⟩), ?_, ?_⟩
          · rw [a]; exact Nat.le_refl _
          · rw [a]; rfl
  | called a b c d f g => rw [a] at hr; simp [rank] at hr
  | ready a b c d f g =>
    simp only [Lifecycle.on, Lifecycle.newSystemState, hc, ofRank, Lifecycle.readyToRun, a, Lifecycle.readyToRunInReadyToRun, Lifecycle.andThen, Lifecycle.setState]
    by_cases ht : cfg.timeSync = true
    · rw [if_neg (by simp), if_pos ht]
      refine ⟨Shape.running rfl b c d f g (by decide), ?_, ?_⟩
      · rw [a]; exact Nat.le_of_ble_eq_true rfl
      · rw [a]; rfl
    · rw [if_neg (by simp), if_neg ht, if_neg (by simp)]
      refine ⟨Shape.running rfl b c d f g (by decide), ?_, ?_⟩
      · rw [a]; exact Nat.le_of_ble_eq_true rfl
      · rw [a]
        cases cfg.starting <;> rfl
  | running a b c d f g x =>
    rw [a] at hr
    have hr' : σ + 1 ≤ 5 := hr
    have : σ = 4 := by omega
    subst this
    simp only [Lifecycle.on, Lifecycle.newSystemState, hc, ofRank]
    exact next_same (.running a b c d f g (by decide))

/-! ## The system monitor during the start -/

/-- The rank of the last status of `q` that was received. -/
def seen (t : SystemState.Tracker) (q : String) : Nat :=
  match t.status q with
  | none => 0
  | some s => rank s

def Same (names R : List String) : Prop := ∀ q, q ∈ names ↔ q ∈ R

/-- The system state is that of the slowest required participant. -/
structure Sig (R : List String) (t : SystemState.Tracker) : Prop where
  sys : ofRank (rank t.system) = t.system
  stat : ∀ q ∈ R, ∀ s, t.status q = some s → 1 ≤ rank s
  low : ∀ q ∈ R, rank t.system ≤ seen t q
  min : ∃ q ∈ R, seen t q ≤ rank t.system

theorem allIn_iff {R : List String} {t : SystemState.Tracker} (hs : ∀ q ∈ R, ∀ s, t.status q = some s → 1 ≤ rank s) (hr : Same t.required R) {states : List ParticipantState} {k : Nat} (hk : 1 ≤ k)
    (hst : ∀ s, 1 ≤ rank s → states.contains s = decide (k ≤ rank s)) : t.allIn states = true ↔ ∀ q ∈ R, k ≤ seen t q := by
  unfold SystemState.Tracker.allIn
  rw [List.all_eq_true]
  constructor
  · intro h q hq
    have h1 := h q ((hr q).mpr hq)
    cases hx : t.status q with
    | none => rw [hx] at h1; cases h1
    | some s =>
      rw [hx] at h1
      have h2 : states.contains s = true := h1
      rw [hst s (hs q hq s hx)] at h2
      simpa [seen, hx] using h2
  · intro h q hq
    have hq' := (hr q).mp hq
    have h1 := h q hq'
    cases hx : t.status q with
    | none => simp [seen, hx] at h1; omega
    | some s =>
      show states.contains s = true
      rw [hst s (hs q hq' s hx)]
      simpa [seen, hx] using h1

theorem compute_all {R : List String} {t : SystemState.Tracker} (hs : ∀ q ∈ R, ∀ s, t.status q = some s → 1 ≤ rank s) (hr : Same t.required R) {k : Nat} (hk : 1 ≤ k) (hk5 : k ≤ 5)
    (h : ∀ q ∈ R, k ≤ seen t q) : t.compute (ofRank k) = ofRank k := by
  rcases (by omega : k = 1 ∨ k = 2 ∨ k = 3 ∨ k = 4 ∨ k = 5) with rfl | rfl | rfl | rfl | rfl
  all_goals
    simp only [ofRank, SystemState.Tracker.compute, SystemState.alternatives, SystemState.Tracker.firstOf]
    rw [if_pos ((allIn_iff hs hr hk (fun s hs' => by cases s <;> first | rfl | simp [rank] at hs')).mpr h)]

theorem compute_not {R : List String} {t : SystemState.Tracker} (hs : ∀ q ∈ R, ∀ s, t.status q = some s → 1 ≤ rank s) (hr : Same t.required R) {k : Nat} (hk : 1 ≤ k) (hk5 : k ≤ 5)
    (h : ¬ ∀ q ∈ R, k ≤ seen t q) : t.compute (ofRank k) = t.base := by
  have key : ∀ states : List ParticipantState, (∀ s, 1 ≤ rank s → states.contains s = decide (k ≤ rank s)) → ¬ t.allIn states = true :=
    fun states hst hx => h ((allIn_iff hs hr hk hst).mp hx)
  rcases (by omega : k = 1 ∨ k = 2 ∨ k = 3 ∨ k = 4 ∨ k = 5) with rfl | rfl | rfl | rfl | rfl
  all_goals
    simp only [ofRank, SystemState.Tracker.compute, SystemState.alternatives, SystemState.Tracker.firstOf]
    rw [if_neg (key _ (fun s hs' => by cases s <;> first | rfl | simp [rank] at hs'))]
  rw [if_neg (key _ (fun s hs' => by cases s <;> first | rfl | simp [rank] at hs')), if_neg (key _ (fun s hs' => by cases s <;> first | rfl | simp [rank] at hs')),
    if_neg (key _ (fun s hs' => by cases s <;> first | rfl | simp [rank] at hs')), if_neg (key _ (fun s hs' => by cases s <;> first | rfl | simp [rank] at hs'))]

theorem base_system {t : SystemState.Tracker} (h : t.cache ≠ []) : t.base = t.system := by
  unfold SystemState.Tracker.base
  cases hc : t.cache with
  | nil => exact absurd hc h
  | cons x c => rfl

theorem cache_ne {t : SystemState.Tracker} {q : String} {s : ParticipantState} (h : t.status q = some s) : t.cache ≠ [] := by
  intro hc
  simp [SystemState.Tracker.status, hc] at h

/-- Computing the system state again changes nothing. -/
theorem recompute {R : List String} {t : SystemState.Tracker} (h : Sig R t) (hr : Same t.required R) : t.compute t.anyRequired = t.system := by
  obtain ⟨q0, hq0, _⟩ := h.min
  unfold SystemState.Tracker.anyRequired
  cases hreq : t.required with
  | nil =>
    have := (hr q0).mpr hq0
    rw [hreq] at this
    cases this
  | cons a rest =>
    have ha : a ∈ R := (hr a).mp (by rw [hreq]; exact List.mem_cons_self)
    show t.compute ((t.status a).getD .invalid) = _
    cases hst : t.status a with
    | none =>
      show t.base = _
      have hs0 : seen t a = 0 := by simp [seen, hst]
      have h0 : rank t.system = 0 := by have := h.low a ha; omega
      have hsy : t.system = .invalid := by rw [← h.sys, h0]; rfl
      unfold SystemState.Tracker.base
      split
      · rw [hsy]
      · rfl
    | some s =>
      show t.compute s = _
      have h1 := h.stat a ha s hst
      have hsn : seen t a = rank s := by simp [seen, hst]
      rw [← ofRank_rank h1]
      by_cases hall : ∀ q ∈ R, rank s ≤ seen t q
      · rw [compute_all h.stat hr h1 (rank_le s) hall]
        obtain ⟨q, hq, hmin⟩ := h.min
        have h2 := hall q hq
        have h3 := h.low a ha
        have : rank s = rank t.system := by omega
        rw [this, h.sys]
      · rw [compute_not h.stat hr h1 (rank_le s) hall, base_system (cache_ne hst)]

theorem sig_require {R : List String} {t : SystemState.Tracker} (h : Sig R t) {names : List String} (hn : Same names R) : t.require names = ({ t with required := names }, false) := by
  have h' : Sig R { t with required := names } := ⟨h.sys, h.stat, h.low, h.min⟩
  have hc := recompute h' hn
  unfold SystemState.Tracker.require
  show (({ t with required := names, system := SystemState.Tracker.compute { t with required := names } _ } : SystemState.Tracker), _) = _
  rw [hc]
  simp

theorem seen_congr {t t' : SystemState.Tracker} {q : String} (h : t'.status q = t.status q) : seen t' q = seen t q := by
  unfold seen
  rw [h]

/-- Removing somebody who is not required changes nothing. -/
theorem sig_remove {R : List String} {t : SystemState.Tracker} (h : Sig R t) (hr : t.required = [] ∧ t.system = .invalid ∨ Same t.required R) {p : String} (hp : p ∉ R) :
    Sig R (t.remove p).1 ∧ (t.remove p).2 = false ∧ (t.remove p).1.required = t.required ∧ (t.remove p).1.system = t.system ∧ ∀ q ∈ R, (t.remove p).1.status q = t.status q := by
  unfold SystemState.Tracker.remove
  split
  · exact ⟨h, rfl, rfl, rfl, fun _ _ => rfl⟩
  · generalize ht' : ({ t with cache := t.cache.filter (fun e => e.1 ≠ p) } : SystemState.Tracker) = t'
    have hst : ∀ q ∈ R, t'.status q = t.status q := by
      intro q hq
      subst ht'
      have : (t.cache.filter (fun e => decide (e.1 ≠ p))).lookup q = _ := lookup_filter_ne t.cache p q
      rw [if_neg (show ¬ q = p from fun e => hp (e ▸ hq))] at this
      exact this
    have hreq : t'.required = t.required := by subst ht'; rfl
    have hsys : t'.system = t.system := by subst ht'; rfl
    have h' : Sig R t' := by
      refine ⟨by rw [hsys]; exact h.sys, fun q hq s hs => h.stat q hq s (by rw [← hst q hq]; exact hs), fun q hq => ?_, ?_⟩
      · rw [hsys, seen_congr (hst q hq)]; exact h.low q hq
      · obtain ⟨q, hq, hm⟩ := h.min
        exact ⟨q, hq, by rw [hsys, seen_congr (hst q hq)]; exact hm⟩
    have hcomp : t'.compute t'.anyRequired = t'.system := by
      rcases hr with ⟨h0, h1⟩ | h0
      · have ha : t'.anyRequired = .invalid := anyRequired_nil (hreq.trans h0)
        rw [ha]
        show t'.base = _
        unfold SystemState.Tracker.base
        rw [hsys, h1]
        split <;> rfl
      · exact recompute h' (by rw [hreq]; exact h0)
    have he : ({ t' with system := t'.compute t'.anyRequired } : SystemState.Tracker) = t' := by rw [hcomp]
    dsimp only
    refine ⟨by rw [he]; exact h', ?_, hreq, hcomp.trans hsys, by rw [he]; exact hst⟩
    rw [hcomp]
    simp

/-- A status of somebody who is not required changes nothing. -/
theorem sig_update_other {R : List String} {t : SystemState.Tracker} (h : Sig R t) (hr : t.required = [] ∧ t.system = .invalid ∨ Same t.required R) {p : String} (hp : p ∉ R) (s : ParticipantState) :
    Sig R (t.update p s).tracker ∧ (t.update p s).systemChanged = false ∧ (t.update p s).tracker.required = t.required ∧ (t.update p s).tracker.system = t.system ∧
      ∀ q ∈ R, (t.update p s).tracker.status q = t.status q := by
  have hset : ∀ s, Sig R (t.setStatus p s) ∧ ∀ q ∈ R, (t.setStatus p s).status q = t.status q := by
    intro s
    have hst : ∀ q ∈ R, (t.setStatus p s).status q = t.status q := by
      intro q hq
      rw [status_setStatus, if_neg (show ¬ q = p from fun e => hp (e ▸ hq))]
    refine ⟨⟨h.sys, fun q hq s hs => h.stat q hq s (by rw [← hst q hq]; exact hs), fun q hq => ?_, ?_⟩, hst⟩
    · rw [seen_congr (hst q hq)]; exact h.low q hq
    · obtain ⟨q, hq, hm⟩ := h.min
      exact ⟨q, hq, by rw [seen_congr (hst q hq)]; exact hm⟩
  have hnc : ¬ t.required.contains p = true := by
    intro hc
    have hc' : p ∈ t.required := by simpa using hc
    rcases hr with ⟨h0, _⟩ | h0
    · rw [h0] at hc'; cases hc'
    · exact hp ((h0 p).mp hc')
  unfold SystemState.Tracker.update
  dsimp only
  split
  · split
    · exact ⟨(hset _).1, rfl, rfl, rfl, (hset _).2⟩
    · exact ⟨h, rfl, rfl, rfl, fun _ _ => rfl⟩
  · split
    · exact ⟨h, rfl, rfl, rfl, fun _ _ => rfl⟩
    · split
      · exact ⟨(hset _).1, rfl, rfl, rfl, (hset _).2⟩
      · rw [if_neg (show ¬ (t.setStatus p s).required.contains p = true from hnc)]
        exact ⟨(hset _).1, rfl, rfl, rfl, (hset _).2⟩

/-- The next status of somebody who is required. -/
theorem sig_update {R : List String} {t : SystemState.Tracker} (h : Sig R t) {q : String} (hq : q ∈ R) (hk : seen t q + 1 ≤ 5)
    (hr : t.required = [] ∧ t.system = .invalid ∧ (∃ p ∈ R, p ≠ q ∧ seen t p = 0) ∨ Same t.required R) :
    Sig R (t.update q (ofRank (seen t q + 1))).tracker ∧ (t.update q (ofRank (seen t q + 1))).tracker.required = t.required ∧
      (∀ x, seen (t.update q (ofRank (seen t q + 1))).tracker x = if x = q then seen t q + 1 else seen t x) ∧
      (t.update q (ofRank (seen t q + 1))).throws = false ∧
      ((t.update q (ofRank (seen t q + 1))).systemChanged = false ∧ (t.update q (ofRank (seen t q + 1))).tracker.system = t.system ∨
        (t.update q (ofRank (seen t q + 1))).systemChanged = true ∧ (t.update q (ofRank (seen t q + 1))).tracker.system = ofRank (rank t.system + 1) ∧ rank t.system + 1 ≤ 5) := by
  have hrk : rank (ofRank (seen t q + 1)) = seen t q + 1 := rank_ofRank hk
  have hi : ofRank (seen t q + 1) ≠ .invalid := by intro e; rw [e] at hrk; cases hrk
  have hsd : (t.status q).getD .invalid ≠ .shutdown := by
    intro e
    cases hst : t.status q with
    | none => rw [hst] at e; cases e
    | some s =>
      rw [hst] at e
      have := h.stat q hq s hst
      have e' : s = .shutdown := e
      rw [e'] at this
      cases this
  have hne : (t.status q).getD .invalid ≠ ofRank (seen t q + 1) := by
    intro e
    have : rank ((t.status q).getD .invalid) = seen t q := by
      unfold seen
      cases t.status q <;> rfl
    rw [e, hrk] at this
    omega
  generalize hk' : seen t q + 1 = k at *
  have hst : ∀ x, (t.setStatus q (ofRank k)).status x = if x = q then some (ofRank k) else t.status x := fun x => status_setStatus t q x _
  have hsn : ∀ x, seen (t.setStatus q (ofRank k)) x = if x = q then k else seen t x := by
    intro x
    by_cases hx : x = q
    · have := hst x
      rw [if_pos hx] at this
      unfold seen
      rw [this, if_pos hx]
      exact hrk
    · rw [if_neg hx]
      exact seen_congr (by rw [hst x, if_neg hx])
  have hstat : ∀ x ∈ R, ∀ s, (t.setStatus q (ofRank k)).status x = some s → 1 ≤ rank s := by
    intro x hx s hs
    rw [hst x] at hs
    split at hs
    · cases hs; omega
    · exact h.stat x hx s hs
  unfold SystemState.Tracker.update
  dsimp only
  rw [if_neg hi, if_neg hsd, if_neg hne]
  rcases hr with ⟨h0, h1, p, hp, hpq, hp0⟩ | hr
  · have hc : ¬ (t.setStatus q (ofRank k)).required.contains q = true := by
      show ¬ t.required.contains q = true
      rw [h0]; simp
    rw [if_neg hc]
    refine ⟨⟨h.sys, hstat, fun x hx => ?_, p, hp, ?_⟩, rfl, hsn, rfl, .inl ⟨rfl, rfl⟩⟩
    · show rank t.system ≤ _
      rw [h1]; exact Nat.zero_le _
    · rw [hsn p, if_neg hpq, hp0]; exact Nat.zero_le _
  · have hc : (t.setStatus q (ofRank k)).required.contains q = true := by
      have := (hr q).mpr hq
      show t.required.contains q = true
      simpa using this
    rw [if_pos hc]
    have hbase : (t.setStatus q (ofRank k)).base = t.system := base_system (cache_ne (q := q) (s := ofRank k) (by rw [hst q, if_pos rfl]))
    by_cases hall : ∀ x ∈ R, k ≤ seen (t.setStatus q (ofRank k)) x
    · have hcomp := compute_all (k := k) hstat (show Same (t.setStatus q (ofRank k)).required R from hr) (by omega) hk hall
      have hold : rank t.system + 1 = k := by
        obtain ⟨x, hx, hm⟩ := h.min
        have h1 := h.low q hq
        have h2 := hall x hx
        rw [hsn x] at h2
        split at h2
        · rename_i hxq; rw [hxq] at hm; omega
        · omega
      refine ⟨⟨?_, hstat, fun x hx => ?_, q, hq, ?_⟩, rfl, hsn, rfl, .inr ⟨?_, ?_, by omega⟩⟩
      · show ofRank (rank (SystemState.Tracker.compute _ _)) = SystemState.Tracker.compute _ _
        rw [hcomp, hrk]
      · show rank (SystemState.Tracker.compute _ _) ≤ seen (t.setStatus q (ofRank k)) x
        rw [hcomp, hrk]
        exact hall x hx
      · show seen (t.setStatus q (ofRank k)) q ≤ rank (SystemState.Tracker.compute _ _)
        rw [hcomp, hrk, hsn q, if_pos rfl]
        exact Nat.le_refl _
      · simp only [decide_eq_true_eq]
        rw [hcomp]
        show t.system ≠ ofRank k
        intro e
        rw [e, hrk] at hold
        omega
      · show SystemState.Tracker.compute _ _ = _
        rw [hcomp, hold]
    · have hcomp := compute_not (k := k) hstat (show Same (t.setStatus q (ofRank k)).required R from hr) (by omega) hk hall
      rw [hbase] at hcomp
      refine ⟨⟨?_, hstat, fun x hx => ?_, ?_⟩, rfl, hsn, rfl, .inl ⟨?_, ?_⟩⟩
      · show ofRank (rank (SystemState.Tracker.compute _ _)) = SystemState.Tracker.compute _ _
        rw [hcomp]; exact h.sys
      · show rank (SystemState.Tracker.compute _ _) ≤ seen (t.setStatus q (ofRank k)) x
        rw [hcomp, hsn x]
        have := h.low x hx
        split
        · rename_i hxq; rw [hxq] at this; omega
        · exact this
      · obtain ⟨x, hx, hm⟩ := h.min
        by_cases hxq : x = q
        · -- the slowest was `q`: then there is another one as slow
          have : ∃ y ∈ R, ¬ k ≤ seen (t.setStatus q (ofRank k)) y := by
            apply Classical.byContradiction
            intro hno
            apply hall
            intro y hy
            apply Classical.byContradiction
            exact fun hn => hno ⟨y, hy, hn⟩
          obtain ⟨y, hy, hyk⟩ := this
          have hyq : y ≠ q := by
            intro e
            rw [e, hsn q, if_pos rfl] at hyk
            exact hyk (Nat.le_refl _)
          refine ⟨y, hy, ?_⟩
          show seen (t.setStatus q (ofRank k)) y ≤ rank (SystemState.Tracker.compute _ _)
          rw [hcomp, hsn y, if_neg hyq]
          rw [hsn y, if_neg hyq] at hyk
          rw [hxq] at hm
          omega
        · refine ⟨x, hx, ?_⟩
          show seen (t.setStatus q (ofRank k)) x ≤ rank (SystemState.Tracker.compute _ _)
          rw [hcomp, hsn x, if_neg hxq]
          exact hm
      · rw [hcomp]
        show decide (t.system ≠ t.system) = false
        simp
      · exact hcomp

/-! ## All participants during the start -/

def statusOf : Msg → Option ParticipantState
  | .status s => some s
  | .workflow _ => none

theorem statusOf_map (l : List ParticipantState) : (l.map Msg.status).filterMap statusOf = l := by
  induction l with
  | nil => rfl
  | cons x l ih => simp [statusOf, ih]

def rk (n : Net) (q : String) : Nat := rank (n.nodes q).life.state

structure Core (cfgs : String → Config) (R : List String) (n : Net) : Prop where
  cfg : ∀ p ∈ R, (n.nodes p).cfg = cfgs p
  req : ∀ p ∈ R, (n.nodes p).monitor.tracker.required = [] ∧ (n.nodes p).listening = false ∧ (n.nodes p).monitor.tracker.system = .invalid ∨ Same (n.nodes p).monitor.tracker.required R
  sig : ∀ p ∈ R, Sig R (n.nodes p).monitor.tracker
  seen_le : ∀ p ∈ R, ∀ q ∈ R, seen (n.nodes p).monitor.tracker q ≤ rk n q
  chans : ∀ p ∈ R, ∀ q ∈ R, (n.nodes p).joined = true → (n.chan q p).filterMap statusOf = between (seen (n.nodes p).monitor.tracker q) (rk n q)
  unjoined : ∀ p ∈ R, (n.nodes p).joined = false → (n.nodes p).listening = false ∧ rk n p = 0 ∧ ∀ q ∈ R, n.chan q p = [] ∧ seen (n.nodes p).monitor.tracker q = 0
  hist : ∀ q ∈ R, (n.nodes q).status = if rk n q = 0 then none else some (ofRank (rk n q))

structure Local (cfg : Config) (x : Node) : Prop where
  shape : Shape cfg (rank x.monitor.tracker.system) x.life
  lis : x.listening = false → x.life.state = .invalid
  post : x.posted = true → x.life.state = .invalid ∧ x.listening = true
  ini : x.listening = true → x.posted = false → x.life.state ≠ .invalid

/-- Everybody names the same required participants. -/
structure WV (R : List String) (n : Net) : Prop where
  chan : ∀ q p names, Msg.workflow names ∈ n.chan q p → Same names R
  work : ∀ q names, (n.nodes q).workflow = some names → Same names R

structure LV (cfgs : String → Config) (R : List String) (n : Net) : Prop where
  core : Core cfgs R n
  loc : ∀ p ∈ R, Local (cfgs p) (n.nodes p)
  work : WV R n

theorem set_self (n : Net) (p : String) (x : Node) : (n.set p x).nodes p = x := if_pos rfl

theorem set_ne (n : Net) {p q : String} (h : q ≠ p) (x : Node) : (n.set p x).nodes q = n.nodes q := if_neg h

theorem node_eq {x y : Node} (h1 : x.cfg = y.cfg) (h2 : x.life = y.life) (h3 : x.monitor = y.monitor) (h4 : x.joined = y.joined) (h5 : x.listening = y.listening) (h6 : x.posted = y.posted)
    (h7 : x.status = y.status) (h8 : x.workflow = y.workflow) : x = y := by
  cases x; cases y; simp_all

theorem framed_other {p : String} {outs : List Out} {n n' : Net} (h : Framed p outs n n') {q : String} (hq : q ≠ p) : n'.nodes q = n.nodes q :=
  node_eq (h.cfg q) (h.life q) (h.monitor q) (h.joined q) (h.listening q) (h.posted q) (by rw [h.status, if_neg hq]) (h.workflow q)

theorem core_congr {cfgs : String → Config} {R : List String} {n n' : Net} (h : Core cfgs R n) (hn : ∀ q ∈ R, n'.nodes q = n.nodes q) (hc : ∀ a ∈ R, ∀ b ∈ R, n'.chan a b = n.chan a b) : Core cfgs R n' := by
  have hrk : ∀ q ∈ R, rk n' q = rk n q := fun q hq => by unfold rk; rw [hn q hq]
  refine ⟨fun p hp => ?_, fun p hp => ?_, fun p hp => ?_, fun p hp q hq => ?_, fun p hp q hq => ?_, fun p hp => ?_, fun q hq => ?_⟩
  · rw [hn p hp]; exact h.cfg p hp
  · rw [hn p hp]; exact h.req p hp
  · rw [hn p hp]; exact h.sig p hp
  · rw [hn p hp, hrk q hq]; exact h.seen_le p hp q hq
  · rw [hn p hp, hrk q hq, hc q hq p hp]; exact h.chans p hp q hq
  · rw [hn p hp, hrk p hp]
    intro hj
    obtain ⟨h1, h2, h3⟩ := h.unjoined p hp hj
    exact ⟨h1, h2, fun q hq => by rw [hc q hq p hp]; exact h3 q hq⟩
  · rw [hn q hq, hrk q hq]; exact h.hist q hq

theorem core_react {cfgs : String → Config} {R : List String} {n n' : Net} (h : Core cfgs R n) {p : String} (hp : p ∈ R) {l' : Life} {outs : List Out}
    (hf : Framed p outs (n.set p { n.nodes p with life := l' }) n') (hle : rk n p ≤ rank l'.state) (hpub : outs.filterMap pubOf = between (rk n p) (rank l'.state))
    (hun : (n.nodes p).joined = false → rank l'.state = 0) : Core cfgs R n' := by
  have hset : ∀ {α : Type} (f : Node → α) (_ : ∀ x l, f { x with life := l } = f x) (q : String), f ((n.set p { n.nodes p with life := l' }).nodes q) = f (n.nodes q) := by
    intro α f hf q
    show f (if q = p then _ else _) = _
    split
    · rename_i hq; rw [hq, hf]
    · rfl
  have hcfg : ∀ q, (n'.nodes q).cfg = (n.nodes q).cfg := fun q => (hf.cfg q).trans (hset (·.cfg) (fun _ _ => rfl) q)
  have hmon : ∀ q, (n'.nodes q).monitor = (n.nodes q).monitor := fun q => (hf.monitor q).trans (hset (·.monitor) (fun _ _ => rfl) q)
  have hjoin : ∀ q, (n'.nodes q).joined = (n.nodes q).joined := fun q => (hf.joined q).trans (hset (·.joined) (fun _ _ => rfl) q)
  have hlis : ∀ q, (n'.nodes q).listening = (n.nodes q).listening := fun q => (hf.listening q).trans (hset (·.listening) (fun _ _ => rfl) q)
  have hrk : ∀ q, rk n' q = if q = p then rank l'.state else rk n q := by
    intro q
    unfold rk
    rw [hf.life]
    show rank (if q = p then _ else _ : Node).life.state = _
    split <;> rfl
  have hmono : ∀ q, rk n q ≤ rk n' q := by
    intro q
    rw [hrk]
    split
    · rename_i hq; rw [hq]; exact hle
    · exact Nat.le_refl _
  refine ⟨fun q hq => ?_, fun q hq => ?_, fun q hq => ?_, fun b hb a ha => ?_, fun b hb a ha hj => ?_, fun b hb hj => ?_, fun q hq => ?_⟩
  · rw [hcfg]; exact h.cfg q hq
  · rw [hmon, hlis]; exact h.req q hq
  · rw [hmon]; exact h.sig q hq
  · rw [hmon]; exact Nat.le_trans (h.seen_le b hb a ha) (hmono a)
  · rw [hjoin] at hj
    rw [hmon, hf.chan, hrk]
    have hjs : ((n.set p { n.nodes p with life := l' }).nodes b).joined = true := (hset (·.joined) (fun _ _ => rfl) b).trans hj
    by_cases hap : a = p
    · rw [if_pos ⟨hap, hjs⟩, if_pos hap, List.filterMap_append, statusOf_map, hpub]
      show (n.chan a b).filterMap statusOf ++ _ = _
      have h1 := h.seen_le b hb a ha
      rw [h.chans b hb a ha hj]
      subst hap
      exact between_append h1 hle
    · rw [if_neg (fun x => hap x.1), if_neg hap]
      exact h.chans b hb a ha hj
  · rw [hjoin] at hj
    obtain ⟨h1, h2, h3⟩ := h.unjoined b hb hj
    refine ⟨by rw [hlis]; exact h1, ?_, fun a ha => ⟨?_, by rw [hmon]; exact (h3 a ha).2⟩⟩
    · rw [hrk]
      split
      · rename_i hbp; subst hbp; exact hun hj
      · exact h2
    · rw [hf.chan]
      have hjs : ((n.set p { n.nodes p with life := l' }).nodes b).joined = false := (hset (·.joined) (fun _ _ => rfl) b).trans hj
      rw [if_neg (fun x => by rw [hjs] at x; cases x.2)]
      exact (h3 a ha).1
  · rw [hf.status, hrk]
    have hst : ((n.set p { n.nodes p with life := l' }).nodes q).status = (n.nodes q).status := hset (·.status) (fun _ _ => rfl) q
    rw [hst]
    by_cases hqp : q = p
    · rw [if_pos hqp, if_pos hqp, hpub]
      subst hqp
      rcases Nat.lt_or_eq_of_le hle with hlt | heq
      · rw [between_last hlt, if_neg (by omega)]
        rfl
      · rw [← heq, between_self]
        exact h.hist q hq
    · rw [if_neg hqp, if_neg hqp]
      exact h.hist q hq

/-- The lifecycle was started, or a workflow configuration is kept. -/
theorem core_node {cfgs : String → Config} {R : List String} {n : Net} (h : Core cfgs R n) (p : String) (x : Node) (h1 : x.cfg = (n.nodes p).cfg) (h2 : x.life = (n.nodes p).life)
    (h3 : x.monitor = (n.nodes p).monitor) (h4 : x.joined = (n.nodes p).joined) (h5 : x.status = (n.nodes p).status)
    (h6 : x.listening = (n.nodes p).listening ∨ (n.nodes p).joined = true ∧ (n.nodes p).monitor.tracker.required ≠ []) : Core cfgs R (n.set p x) := by
  have key : ∀ {α : Type} (f : Node → α) (_ : f x = f (n.nodes p)) (q : String), f ((n.set p x).nodes q) = f (n.nodes q) := by
    intro α f hf q
    show f (if q = p then _ else _) = _
    split
    · rename_i hq; rw [hq]; exact hf
    · rfl
  have hcfg := key (·.cfg) h1
  have hlife := key (·.life) h2
  have hmon := key (·.monitor) h3
  have hjoin := key (·.joined) h4
  have hst := key (·.status) h5
  have hrk : ∀ q, rk (n.set p x) q = rk n q := fun q => by unfold rk; exact congrArg (fun l : Life => rank l.state) (hlife q)
  have hlis : ∀ q, ((n.set p x).nodes q).listening = (n.nodes q).listening ∨ (n.nodes q).joined = true ∧ (n.nodes q).monitor.tracker.required ≠ [] := by
    intro q
    by_cases hq : q = p
    · rw [hq, set_self]; exact h6
    · rw [set_ne n hq]; exact .inl rfl
  refine ⟨fun q hq => ?_, fun q hq => ?_, fun q hq => ?_, fun b hb a ha => ?_, fun b hb a ha hj => ?_, fun b hb hj => ?_, fun q hq => ?_⟩
  · exact (hcfg q).trans (h.cfg q hq)
  · have hm := hmon q
    rw [hm]
    rcases h.req q hq with ⟨a, b, c⟩ | a
    · rcases hlis q with hl | ⟨_, hl⟩
      · exact .inl ⟨a, hl.trans b, c⟩
      · exact absurd a hl
    · exact .inr a
  · have hm := hmon q
    rw [hm]; exact h.sig q hq
  · have hm := hmon b
    rw [hm, hrk]; exact h.seen_le b hb a ha
  · have hm := hmon b
    rw [hm, hrk]; exact h.chans b hb a ha ((hjoin b).symm.trans hj)
  · have hj' := (hjoin b).symm.trans hj
    obtain ⟨a1, a2, a3⟩ := h.unjoined b hb hj'
    have hm := hmon b
    rw [hm, hrk]
    refine ⟨?_, a2, a3⟩
    rcases hlis b with hl | ⟨hl, _⟩
    · exact hl.trans a1
    · have : (n.nodes b).joined = false := hj'
      rw [hl] at this; cases this
  · have := hst q
    rw [this, hrk]; exact h.hist q hq

/-- The system monitor of `p` has received something. -/
theorem core_track {cfgs : String → Config} {R : List String} {n : Net} (h : Core cfgs R n) {p : String} (hp : p ∈ R) (m' : SystemState.Monitor) (chan' : String → String → List Msg)
    (hreq : m'.tracker.required = [] ∧ (n.nodes p).listening = false ∧ m'.tracker.system = .invalid ∨ Same m'.tracker.required R) (hsig : Sig R m'.tracker)
    (hseen : ∀ q ∈ R, seen m'.tracker q ≤ rk n q) (hchan : ∀ q ∈ R, (n.nodes p).joined = true → (chan' q p).filterMap statusOf = between (seen m'.tracker q) (rk n q))
    (hun : (n.nodes p).joined = false → ∀ q ∈ R, chan' q p = [] ∧ seen m'.tracker q = 0) (hother : ∀ a b, b ≠ p → chan' a b = n.chan a b) :
    Core cfgs R (Net.set { n with chan := chan' } p { n.nodes p with monitor := m' }) := by
  have hrk : ∀ q, rk (Net.set { n with chan := chan' } p { n.nodes p with monitor := m' }) q = rk n q := by
    intro q
    unfold rk
    show rank (if q = p then _ else _ : Node).life.state = _
    split
    · rename_i hq; rw [hq]
    · rfl
  have hself := set_self { n with chan := chan' } p { n.nodes p with monitor := m' }
  have hne : ∀ q, q ≠ p → (Net.set { n with chan := chan' } p { n.nodes p with monitor := m' }).nodes q = n.nodes q := fun q hq => set_ne _ hq _
  refine ⟨fun q hq => ?_, fun q hq => ?_, fun q hq => ?_, fun b hb a ha => ?_, fun b hb a ha => ?_, fun b hb => ?_, fun q hq => ?_⟩
  · by_cases hqp : q = p
    · rw [hqp, hself]; exact h.cfg p hp
    · rw [hne q hqp]; exact h.cfg q hq
  · by_cases hqp : q = p
    · rw [hqp, hself]; exact hreq
    · rw [hne q hqp]; exact h.req q hq
  · by_cases hqp : q = p
    · rw [hqp, hself]; exact hsig
    · rw [hne q hqp]; exact h.sig q hq
  · rw [hrk]
    by_cases hqp : b = p
    · rw [hqp, hself]; exact hseen a ha
    · rw [hne b hqp]; exact h.seen_le b hb a ha
  · rw [hrk]
    by_cases hqp : b = p
    · rw [hqp, hself]; exact hchan a ha
    · rw [hne b hqp]
      show _ → (chan' a b).filterMap statusOf = _
      rw [hother a b hqp]; exact h.chans b hb a ha
  · rw [hrk]
    by_cases hqp : b = p
    · rw [hqp, hself]
      intro hj
      obtain ⟨a1, a2, _⟩ := h.unjoined p hp hj
      exact ⟨a1, a2, hun hj⟩
    · rw [hne b hqp]
      intro hj
      obtain ⟨a1, a2, a3⟩ := h.unjoined b hb hj
      refine ⟨a1, a2, fun q hq => ⟨?_, (a3 q hq).2⟩⟩
      show chan' q b = []
      rw [hother q b hqp]; exact (a3 q hq).1
  · rw [hrk]
    by_cases hqp : q = p
    · rw [hqp, hself]; exact h.hist p hp
    · rw [hne q hqp]; exact h.hist q hq

theorem wv_framed {R : List String} {p : String} {outs : List Out} {n n' : Net} (h : WV R n) (hf : Framed p outs n n') : WV R n' := by
  refine ⟨fun a b names hm => ?_, fun q names hn => h.work q names (by rw [← hf.workflow]; exact hn)⟩
  rw [hf.chan] at hm
  split at hm
  · rcases List.mem_append.mp hm with hm | hm
    · exact h.chan a b names hm
    · obtain ⟨s, _, hs⟩ := List.mem_map.mp hm
      cases hs
  · exact h.chan a b names hm

theorem wv_set {R : List String} {n : Net} (h : WV R n) (p : String) (x : Node) (hx : ∀ names, x.workflow = some names → Same names R) : WV R (n.set p x) := by
  refine ⟨h.chan, fun q names hn => ?_⟩
  by_cases hq : q = p
  · rw [hq, set_self] at hn; exact hx names hn
  · rw [set_ne n hq] at hn; exact h.work q names hn

theorem wv_react {R : List String} {n : Net} (h : WV R n) (p : String) (e : Lifecycle.Event) (o : Throws) : WV R (n.react p e o).1 :=
  wv_framed (wv_set h p { n.nodes p with life := (Lifecycle.on (n.nodes p).cfg (n.nodes p).life e o).1 } (h.work p)) (react_spec n p e o)

theorem wv_tell {R : List String} (p : String) (o : Throws) (outs : List SystemState.Out) {r : Net × Trace} (h : WV R r.1) : WV R (outs.foldl (Net.tell p o) r).1 := by
  induction outs generalizing r with
  | nil => exact h
  | cons x outs ih =>
    rw [List.foldl_cons]
    refine ih ?_
    cases x with
    | systemState s =>
      show WV R (if (r.1.nodes p).listening = true then ((r.1.react p (.systemState s) o).1, r.2 ++ (r.1.react p (.systemState s) o).2) else r).1
      split
      · exact wv_react h p _ o
      · exact h
    | participantStatus a b => exact h
    | connected a => exact h
    | disconnected a => exact h
    | exception => exact h

theorem wv_monitor {R : List String} {n : Net} (h : WV R n) (p : String) (e : SystemState.Event) (o : Throws) : WV R (n.monitor p e o).1 :=
  wv_tell p o _ (wv_set h p { n.nodes p with monitor := ((n.nodes p).monitor.on e).1 } (h.work p))

/-! ## One step -/

/-- What a participant that is not required does is of no consequence. -/
theorem react_other {n : Net} {p : String} (e : Lifecycle.Event) (o : Throws) : (∀ q, q ≠ p → (n.react p e o).1.nodes q = n.nodes q) ∧ ∀ a b, a ≠ p → (n.react p e o).1.chan a b = n.chan a b := by
  have hf := react_spec n p e o
  refine ⟨fun q hq => ?_, fun a b ha => ?_⟩
  · rw [framed_other hf hq, set_ne n hq]
  · rw [hf.chan, if_neg (fun x => ha x.1)]
    rfl

theorem tell_other {p : String} (o : Throws) (outs : List SystemState.Out) (r : Net × Trace) :
    (∀ q, q ≠ p → (outs.foldl (Net.tell p o) r).1.nodes q = r.1.nodes q) ∧ ∀ a b, a ≠ p → (outs.foldl (Net.tell p o) r).1.chan a b = r.1.chan a b := by
  induction outs generalizing r with
  | nil => exact ⟨fun _ _ => rfl, fun _ _ _ => rfl⟩
  | cons x outs ih =>
    rw [List.foldl_cons]
    have h1 : (∀ q, q ≠ p → (Net.tell p o r x).1.nodes q = r.1.nodes q) ∧ ∀ a b, a ≠ p → (Net.tell p o r x).1.chan a b = r.1.chan a b := by
      unfold Net.tell
      split
      · split
        · exact react_other _ o
        · exact ⟨fun _ _ => rfl, fun _ _ _ => rfl⟩
      · exact ⟨fun _ _ => rfl, fun _ _ _ => rfl⟩
    have h2 := ih (Net.tell p o r x)
    exact ⟨fun q hq => (h2.1 q hq).trans (h1.1 q hq), fun a b ha => (h2.2 a b ha).trans (h1.2 a b ha)⟩

theorem monitor_other {n : Net} {p : String} (e : SystemState.Event) (o : Throws) : (∀ q, q ≠ p → (n.monitor p e o).1.nodes q = n.nodes q) ∧ ∀ a b, a ≠ p → (n.monitor p e o).1.chan a b = n.chan a b := by
  have h := tell_other (p := p) o ((n.nodes p).monitor.on e).2 (n.set p { n.nodes p with monitor := ((n.nodes p).monitor.on e).1 }, [])
  exact ⟨fun q hq => (h.1 q hq).trans (set_ne n hq _), h.2⟩

theorem lv_congr {cfgs : String → Config} {R : List String} {n n' : Net} (h : LV cfgs R n) (hw : WV R n') (hn : ∀ q ∈ R, n'.nodes q = n.nodes q) (hc : ∀ a ∈ R, ∀ b ∈ R, n'.chan a b = n.chan a b) : LV cfgs R n' :=
  ⟨core_congr h.core hn hc, fun p hp => by rw [hn p hp]; exact h.loc p hp, hw⟩

/-- A required participant's lifecycle reacts. -/
theorem lv_react {cfgs : String → Config} {R : List String} {n : Net} (hcore : Core cfgs R n) (hloc : ∀ q ∈ R, q ≠ p → Local (cfgs q) (n.nodes q)) (hw : WV R n) (hp : p ∈ R)
    (e : Lifecycle.Event) (hnext : Next (cfgs p) (rank (n.nodes p).monitor.tracker.system) (n.nodes p).life (Lifecycle.on (cfgs p) (n.nodes p).life e {}))
    (hlis : (n.nodes p).listening = false → (Lifecycle.on (cfgs p) (n.nodes p).life e {}).1.state = .invalid)
    (hpost : (n.nodes p).posted = true → (Lifecycle.on (cfgs p) (n.nodes p).life e {}).1.state = .invalid ∧ (n.nodes p).listening = true)
    (hini : (n.nodes p).listening = true → (n.nodes p).posted = false → (Lifecycle.on (cfgs p) (n.nodes p).life e {}).1.state ≠ .invalid) : LV cfgs R (n.react p e {}).1 := by
  have hf := react_spec n p e {}
  have hw' := wv_react hw p e {}
  have ho := react_other (n := n) (p := p) e {}
  generalize (n.react p e {}).1 = n' at *
  rw [hcore.cfg p hp] at hf
  generalize Lifecycle.on (cfgs p) (n.nodes p).life e {} = r at *
  refine ⟨core_react hcore hp hf hnext.le hnext.pub ?_, fun q hq => ?_, hw'⟩
  · intro hj
    have := (hcore.unjoined p hp hj).1
    rw [hlis this]; rfl
  · by_cases hqp : q = p
    · subst hqp
      have h1 : (n'.nodes q).life = r.1 := by rw [hf.life, set_self]
      have h2 : (n'.nodes q).monitor = (n.nodes q).monitor := by rw [hf.monitor, set_self]
      have h3 : (n'.nodes q).listening = (n.nodes q).listening := by rw [hf.listening, set_self]
      have h4 : (n'.nodes q).posted = (n.nodes q).posted := by rw [hf.posted, set_self]
      refine ⟨by rw [h1, h2]; exact hnext.shape, by rw [h1, h3]; exact hlis, by rw [h1, h3, h4]; exact hpost, by rw [h1, h3, h4]; exact hini⟩
    · rw [ho.1 q hqp]
      exact hloc q hq hqp

theorem shape_rank {cfg : Config} {σ : Nat} {l : Life} (h : Shape cfg σ l) (hr : 2 ≤ rank l.state) : 1 ≤ σ := by
  cases h with
  | invalid a => rw [a] at hr; simp [rank] at hr
  | created a => rw [a] at hr; simp [rank] at hr
  | _ => omega

theorem shape_invalid {cfg : Config} {σ : Nat} {l : Life} (h : Shape cfg σ l) (hr : l.state = .invalid) : σ = 0 := by
  cases h <;> simp_all

theorem shape_state {cfg : Config} {σ : Nat} {l : Life} (h : Shape cfg σ l) : ofRank (rank l.state) = l.state := by
  cases h <;> simp_all [rank, ofRank]

theorem shape_rank0 {cfg : Config} {σ : Nat} {l : Life} (h : Shape cfg σ l) (hr : rank l.state = 0) : l.state = .invalid := by
  rw [← shape_state h, hr]; rfl

theorem lv_join {cfgs : String → Config} {R : List String} {n : Net} (h : LV cfgs R n) (p : String) : LV cfgs R (n.join p) := by
  unfold Net.join
  split
  · exact h
  · rename_i hj0
    have hj : (n.nodes p).joined = false := by simpa using hj0
    have hnodes : ∀ q, q ≠ p → (if q = p then { n.nodes p with joined := true } else n.nodes q : Node) = n.nodes q := fun q hq => if_neg hq
    have hw : WV R { nodes := fun q => if q = p then { n.nodes p with joined := true } else n.nodes q, chan := fun a b => if b = p ∧ (n.nodes a).joined = true then (n.nodes a).history else n.chan a b } := by
      refine ⟨fun a b names hm => ?_, fun q names hn => ?_⟩
      · dsimp only at hm
        split at hm
        · simp only [Node.history, List.mem_append, Option.mem_toList, Option.map_eq_some_iff] at hm
          rcases hm with ⟨w, hw, hx⟩ | ⟨s, _, hx⟩
          · cases hx; exact h.work.work a names hw
          · cases hx
        · exact h.work.chan a b names hm
      · dsimp only at hn
        split at hn
        · exact h.work.work p names hn
        · exact h.work.work q names hn
    by_cases hp : p ∈ R
    · obtain ⟨u1, u2, u3⟩ := h.core.unjoined p hp hj
      generalize hn' : ({ nodes := fun q => if q = p then { n.nodes p with joined := true } else n.nodes q, chan := fun a b => if b = p ∧ (n.nodes a).joined = true then (n.nodes a).history else n.chan a b } : Net) = n' at *
      have hself : n'.nodes p = { n.nodes p with joined := true } := by subst hn'; exact if_pos rfl
      have hne : ∀ q, q ≠ p → n'.nodes q = n.nodes q := by intro q hq; subst hn'; exact if_neg hq
      have hchan : ∀ a b, n'.chan a b = if b = p ∧ (n.nodes a).joined = true then (n.nodes a).history else n.chan a b := by intro a b; subst hn'; rfl
      have hrk : ∀ q, rk n' q = rk n q := by
        intro q
        unfold rk
        by_cases hq : q = p
        · rw [hq, hself]
        · rw [hne q hq]
      have hmon : ∀ q, (n'.nodes q).monitor = (n.nodes q).monitor := by
        intro q
        by_cases hq : q = p
        · rw [hq, hself]
        · rw [hne q hq]
      refine ⟨⟨fun q hq => ?_, fun q hq => ?_, fun q hq => ?_, fun b hb a ha => ?_, fun b hb a ha hjb => ?_, fun b hb hjb => ?_, fun q hq => ?_⟩, fun q hq => ?_, hw⟩
      · by_cases hqp : q = p
        · rw [hqp, hself]; exact h.core.cfg p hp
        · rw [hne q hqp]; exact h.core.cfg q hq
      · by_cases hqp : q = p
        · rw [hqp, hself]; exact h.core.req p hp
        · rw [hne q hqp]; exact h.core.req q hq
      · rw [hmon]; exact h.core.sig q hq
      · rw [hmon, hrk]; exact h.core.seen_le b hb a ha
      · rw [hmon, hrk, hchan]
        by_cases hbp : b = p
        · subst hbp
          rw [(u3 a ha).2]
          by_cases haj : (n.nodes a).joined = true
          · rw [if_pos ⟨rfl, haj⟩]
            have hle : rk n a ≤ 1 := by
              apply Classical.byContradiction
              intro hx
              have h1 := shape_rank (h.loc a ha).shape (by unfold rk at hx; omega)
              have h2 := (h.core.sig a ha).low b hb
              have h3 := h.core.seen_le a ha b hb
              omega
            unfold Node.history
            rw [List.filterMap_append]
            have h1 : (((n.nodes a).workflow.map Msg.workflow).toList).filterMap statusOf = [] := by
              cases (n.nodes a).workflow <;> rfl
            rw [h1, h.core.hist a ha]
            rcases (by omega : rk n a = 0 ∨ rk n a = 1) with h0 | h0 <;> rw [h0] <;> rfl
          · rw [if_neg (fun x => haj x.2), (u3 a ha).1]
            have haj' : (n.nodes a).joined = false := by simpa using haj
            rw [(h.core.unjoined a ha haj').2.1]
            rfl
        · rw [if_neg (fun x => hbp x.1)]
          rw [hne b hbp] at hjb
          exact h.core.chans b hb a ha hjb
      · by_cases hbp : b = p
        · rw [hbp, hself] at hjb; cases hjb
        · rw [hne b hbp] at hjb
          obtain ⟨a1, a2, a3⟩ := h.core.unjoined b hb hjb
          refine ⟨by rw [hne b hbp]; exact a1, by rw [hrk]; exact a2, fun a ha => ⟨?_, by rw [hmon]; exact (a3 a ha).2⟩⟩
          rw [hchan, if_neg (fun x => hbp x.1)]
          exact (a3 a ha).1
      · rw [hrk]
        by_cases hqp : q = p
        · rw [hqp, hself]; exact h.core.hist p hp
        · rw [hne q hqp]; exact h.core.hist q hq
      · by_cases hqp : q = p
        · rw [hqp, hself]
          have := h.loc p hp
          exact ⟨this.shape, this.lis, this.post, this.ini⟩
        · rw [hne q hqp]; exact h.loc q hq
    · refine lv_congr h hw (fun q hq => hnodes q (fun e => hp (e ▸ hq))) (fun a _ b hb => if_neg (fun (x : b = p ∧ _) => hp (x.1 ▸ hb)))

theorem on_invalid (cfg : Config) (l : Life) (o : Throws) : Lifecycle.on cfg l (.systemState .invalid) o = (l, []) := by
  simp only [Lifecycle.on, Lifecycle.newSystemState]
  split <;> rfl

theorem lv_start {cfgs : String → Config} {R : List String} {n : Net} (h : LV cfgs R n) (p : String) (o : Throws) (ho : p ∈ R → o = {}) (ht : p ∈ R → (n.nodes p).monitor.tracker.required ≠ []) :
    LV cfgs R (n.start p o).1 := by
  unfold Net.start
  split
  · exact h
  · rename_i hc
    have hj : (n.nodes p).joined = true := by
      cases hx : (n.nodes p).joined with
      | true => rfl
      | false => exact absurd (.inl hx) hc
    have hl : (n.nodes p).listening = false := by
      cases hx : (n.nodes p).listening with
      | false => rfl
      | true => exact absurd (.inr hx) hc
    have hw := wv_set h.work p { n.nodes p with listening := true, posted := true } (h.work.work p)
    by_cases hp : p ∈ R
    · rw [ho hp]
      have hloc := h.loc p hp
      have hinv := hloc.lis hl
      have h0 := shape_invalid hloc.shape hinv
      have hsys : (n.nodes p).monitor.tracker.system = .invalid := by
        rw [← (h.core.sig p hp).sys, h0]; rfl
      have hself := set_self n p { n.nodes p with listening := true, posted := true }
      rw [hsys]
      refine lv_react (core_node h.core p { n.nodes p with listening := true, posted := true } rfl rfl rfl rfl rfl (.inr ⟨hj, ht hp⟩)) ?_ hw hp _ ?_ ?_ ?_ ?_
      · intro q hq hqp
        rw [set_ne n hqp]; exact h.loc q hq
      · rw [on_invalid, hself]
        exact next_same hloc.shape
      · rw [hself]; intro hx; cases hx
      · rw [hself, on_invalid]; exact fun _ => ⟨hinv, rfl⟩
      · rw [hself]; intro _ hx; cases hx
    · have h1 := react_other (n := n.set p { n.nodes p with listening := true, posted := true }) (p := p) (.systemState (n.nodes p).monitor.tracker.system) o
      refine lv_congr h (wv_react hw p _ o) (fun q hq => ?_) (fun a ha b _ => ?_)
      · have hqp : q ≠ p := fun e => hp (e ▸ hq)
        exact (h1.1 q hqp).trans (set_ne n hqp _)
      · exact h1.2 a b (fun e => hp (e ▸ ha))

/-- Only starting makes an invalid lifecycle valid. -/
theorem on_stays {cfg : Config} {σ : Nat} {l : Life} (hc : cfg.autonomous = false) (h : Shape cfg σ l) (e : Lifecycle.Event) (he : undisturbed e = true) (hs : ∀ s, e ≠ .systemState s) (hi : e ≠ .init)
    (hl : l.state = .invalid) : (Lifecycle.on cfg l e {}).1.state = .invalid := by
  cases h with
  | invalid a b c d f g =>
    cases e with
    | init => exact absurd rfl hi
    | systemState s => exact absurd rfl (hs s)
    | startAutonomous => simp only [Lifecycle.on, hc]; exact a
    | completeAsync => simp only [Lifecycle.on, f]; exact a
    | completeCommReady => simp only [Lifecycle.on, g]; exact a
    | barrierStart alone => simp only [Lifecycle.on, Lifecycle.barrierStart, b]; exact a
    | barrierDone => simp only [Lifecycle.on, Lifecycle.barrierDone, c]; exact a
    | subscriptionsAdded => exact a
    | subscriptionsCompleted => simp only [Lifecycle.on, d, Lifecycle.allSubscriptionsDone]; exact a
    | _ => cases he
  | _ => simp_all

theorem rank_pos {s : ParticipantState} (h : 1 ≤ rank s) : s ≠ .invalid := by
  intro e; rw [e] at h; cases h

theorem lv_life {cfgs : String → Config} {R : List String} {n : Net} (hco : ∀ p ∈ R, (cfgs p).autonomous = false) (h : LV cfgs R n) (p : String) (e : Lifecycle.Event) (o : Throws)
    (ho : p ∈ R → o = {} ∧ undisturbed e = true) : LV cfgs R (n.life p e o).1 := by
  by_cases hp : p ∈ R
  · obtain ⟨rfl, he⟩ := ho hp
    have hloc := h.loc p hp
    have hgen : (∀ s, e ≠ .systemState s) → e ≠ .init → LV cfgs R (n.react p e {}).1 := by
      intro h1 h2
      have hn := shape_on (hco p hp) hloc.shape e he h1 (fun x => absurd x h2)
      refine lv_react h.core (fun q hq _ => h.loc q hq) h.work hp e hn ?_ ?_ ?_
      · exact fun hl => on_stays (hco p hp) hloc.shape e he h1 h2 (hloc.lis hl)
      · exact fun hl => ⟨on_stays (hco p hp) hloc.shape e he h1 h2 (hloc.post hl).1, (hloc.post hl).2⟩
      · intro hl hpo
        have h3 := hloc.ini hl hpo
        refine rank_pos (Nat.le_trans ?_ hn.le)
        apply Classical.byContradiction
        intro hx
        exact h3 (shape_rank0 hloc.shape (by omega))
    unfold Net.life
    split
    · exact h
    · split
      · rename_i hpo
        have hself := set_self n p { n.nodes p with posted := false }
        have hinv := (hloc.post hpo).1
        have hn := shape_on (hco p hp) hloc.shape .init rfl (fun _ => by simp) (fun _ => hinv)
        have hst : (Lifecycle.on (cfgs p) (n.nodes p).life .init {}).1.state = .servicesCreated := by
          simp only [Lifecycle.on, Lifecycle.initState, hinv, Lifecycle.setState]
        have hj : (n.nodes p).listening = true := (hloc.post hpo).2
        refine lv_react (core_node h.core p { n.nodes p with posted := false } rfl rfl rfl rfl rfl (.inl rfl)) ?_ (wv_set h.work p { n.nodes p with posted := false } (h.work.work p)) hp .init ?_ ?_ ?_ ?_
        · intro q hq hqp
          rw [set_ne n hqp]; exact h.loc q hq
        · rw [hself]; exact hn
        · rw [hself]
          intro hx
          have : (n.nodes p).listening = false := hx
          rw [hj] at this; cases this
        · rw [hself]; intro hx; cases hx
        · rw [hself, hst]; intro _ _ hx; cases hx
      · exact h
    · rename_i h1 h2
      exact hgen (fun s hs => h1 s hs) (fun hs => h2 hs)
  · have hw : WV R (n.life p e o).1 := by
      unfold Net.life
      split
      · exact h.work
      · split
        · exact wv_react (wv_set h.work p { n.nodes p with posted := false } (h.work.work p)) p _ o
        · exact h.work
      · exact wv_react h.work p _ o
    have h1 : (∀ q, q ≠ p → (n.life p e o).1.nodes q = n.nodes q) ∧ ∀ a b, a ≠ p → (n.life p e o).1.chan a b = n.chan a b := by
      unfold Net.life
      split
      · exact ⟨fun _ _ => rfl, fun _ _ _ => rfl⟩
      · split
        · have := react_other (n := n.set p { n.nodes p with posted := false }) (p := p) .init o
          exact ⟨fun q hq => (this.1 q hq).trans (set_ne n hq _), this.2⟩
        · exact ⟨fun _ _ => rfl, fun _ _ _ => rfl⟩
      · exact react_other _ o
    exact lv_congr h hw (fun q hq => h1.1 q (fun e => hp (e ▸ hq))) (fun a ha b _ => h1.2 a b (fun e => hp (e ▸ ha)))

theorem core_chan {cfgs : String → Config} {R : List String} {n : Net} (h : Core cfgs R n) (chan' : String → String → List Msg)
    (hc : ∀ a ∈ R, ∀ b ∈ R, (n.nodes b).joined = true → (chan' a b).filterMap statusOf = (n.chan a b).filterMap statusOf)
    (hu : ∀ a ∈ R, ∀ b ∈ R, (n.nodes b).joined = false → chan' a b = n.chan a b) : Core cfgs R { n with chan := chan' } := by
  refine ⟨h.cfg, h.req, h.sig, h.seen_le, fun p hp q hq hj => ?_, fun p hp hj => ?_, h.hist⟩
  · show (chan' q p).filterMap statusOf = _
    rw [hc q hq p hp hj]
    exact h.chans p hp q hq hj
  · obtain ⟨h1, h2, h3⟩ := h.unjoined p hp hj
    refine ⟨h1, h2, fun q hq => ⟨?_, (h3 q hq).2⟩⟩
    show chan' q p = []
    rw [hu q hq p hp hj]
    exact (h3 q hq).1

theorem lv_configure {cfgs : String → Config} {R : List String} {n : Net} (h : LV cfgs R n) (p : String) (names : List String) (hn : Same names R) : LV cfgs R (n.configure p names) := by
  unfold Net.configure
  split
  · have hcore := core_node h.core p { n.nodes p with workflow := some names } rfl rfl rfl rfl rfl (.inl rfl)
    have hw := wv_set h.work p { n.nodes p with workflow := some names } (fun x hx => by cases hx; exact hn)
    have hloc : ∀ q ∈ R, Local (cfgs q) ((n.set p { n.nodes p with workflow := some names }).nodes q) := by
      intro q hq
      by_cases hqp : q = p
      · rw [hqp, set_self]
        have := h.loc p (hqp ▸ hq)
        exact ⟨this.shape, this.lis, this.post, this.ini⟩
      · rw [set_ne n hqp]; exact h.loc q hq
    generalize n.set p { n.nodes p with workflow := some names } = n' at *
    refine ⟨core_chan hcore _ (fun a _ b _ _ => ?_) (fun a _ b _ hj => ?_), hloc, ⟨fun a b x hx => ?_, hw.work⟩⟩
    · split
      · rw [List.filterMap_append]
        simp [statusOf]
      · rfl
    · rw [if_neg (fun x => by rw [hj] at x; cases x.2)]
    · have hx' : Msg.workflow x ∈ if a = p ∧ (n'.nodes b).joined = true then n'.chan a b ++ [.workflow names] else n'.chan a b := hx
      split at hx'
      · rcases List.mem_append.mp hx' with hx' | hx'
        · exact hw.chan a b x hx'
        · simp only [List.mem_singleton, Msg.workflow.injEq] at hx'
          rw [hx']; exact hn
      · exact hw.chan a b x hx'
  · exact h

/-- The system monitor learns of something, but the system state and what it knows of the required participants stay the same. -/
theorem lv_quiet {cfgs : String → Config} {R : List String} {n : Net} (h : LV cfgs R n) {p : String} (hp : p ∈ R) (m' : SystemState.Monitor) (chan' : String → String → List Msg)
    (hreq : m'.tracker.required = (n.nodes p).monitor.tracker.required ∨ Same m'.tracker.required R) (hsys : m'.tracker.system = (n.nodes p).monitor.tracker.system)
    (hst : ∀ q ∈ R, m'.tracker.status q = (n.nodes p).monitor.tracker.status q)
    (hchan : ∀ q ∈ R, (chan' q p).filterMap statusOf = (n.chan q p).filterMap statusOf) (hun : (n.nodes p).joined = false → ∀ q ∈ R, chan' q p = n.chan q p)
    (hother : ∀ a b, b ≠ p → chan' a b = n.chan a b) (hw : ∀ a b names, Msg.workflow names ∈ chan' a b → Msg.workflow names ∈ n.chan a b) :
    LV cfgs R (Net.set { n with chan := chan' } p { n.nodes p with monitor := m' }) := by
  have hs := h.core.sig p hp
  have hsn : ∀ q ∈ R, seen m'.tracker q = seen (n.nodes p).monitor.tracker q := fun q hq => seen_congr (hst q hq)
  refine ⟨core_track h.core hp m' chan' ?_ ⟨by rw [hsys]; exact hs.sys, fun q hq s hx => hs.stat q hq s (by rw [← hst q hq]; exact hx), fun q hq => ?_, ?_⟩ (fun q hq => ?_) (fun q hq hj => ?_)
    (fun hj q hq => ?_) hother, fun q hq => ?_, ⟨fun a b names hm => h.work.chan a b names (hw a b names hm), fun q names hn => ?_⟩⟩
  · rcases hreq with hreq | hreq
    · rw [hreq, hsys]; exact h.core.req p hp
    · exact .inr hreq
  · rw [hsys, hsn q hq]; exact hs.low q hq
  · obtain ⟨q, hq, hm⟩ := hs.min
    exact ⟨q, hq, by rw [hsys, hsn q hq]; exact hm⟩
  · rw [hsn q hq]; exact h.core.seen_le p hp q hq
  · rw [hsn q hq, hchan q hq]; exact h.core.chans p hp q hq hj
  · rw [hsn q hq, hun hj q hq]; exact (h.core.unjoined p hp hj).2.2 q hq
  · by_cases hqp : q = p
    · rw [hqp, set_self]
      have := h.loc p hp
      exact ⟨by rw [hsys]; exact this.shape, this.lis, this.post, this.ini⟩
    · rw [set_ne _ hqp]; exact h.loc q hq
  · by_cases hqp : q = p
    · rw [hqp, set_self] at hn; exact h.work.work p names hn
    · rw [set_ne _ hqp] at hn; exact h.work.work q names hn

theorem tell_silent (p : String) (o : Throws) (outs : List SystemState.Out) (r : Net × Trace) (h : ∀ s, SystemState.Out.systemState s ∉ outs) : outs.foldl (Net.tell p o) r = r := by
  induction outs generalizing r with
  | nil => rfl
  | cons x outs ih =>
    have hx : Net.tell p o r x = r := by
      cases x with
      | systemState s => exact absurd List.mem_cons_self (h s)
      | participantStatus a b => rfl
      | connected a => rfl
      | disconnected a => rfl
      | exception => rfl
    rw [List.foldl_cons, hx]
    exact ih r (fun s hs => h s (List.mem_cons_of_mem _ hs))

theorem monitor_silent {n : Net} {p : String} {e : SystemState.Event} (o : Throws) (h : ∀ s, SystemState.Out.systemState s ∉ ((n.nodes p).monitor.on e).2) :
    (n.monitor p e o).1 = n.set p { n.nodes p with monitor := ((n.nodes p).monitor.on e).1 } := by
  unfold Net.monitor
  dsimp only
  rw [tell_silent p o _ _ h]

theorem receive_silent {m : SystemState.Monitor} {p : String} {s : ParticipantState} (h : (m.tracker.update p s).systemChanged = false) (k : ParticipantState) :
    SystemState.Out.systemState k ∉ (m.receive p s).2 := by
  unfold SystemState.Monitor.receive
  simp only [h, Bool.false_eq_true, if_false, List.append_nil, List.mem_append]
  rintro (hx | hx) <;> split at hx <;> simp at hx

/-- What a participant that is not required says or loses is of no consequence. -/
theorem on_other {R : List String} {m : SystemState.Monitor} (h : Sig R m.tracker) (hr : m.tracker.required = [] ∧ m.tracker.system = .invalid ∨ Same m.tracker.required R) {q : String} (hq : q ∉ R)
    (e : SystemState.Event) (he : (∃ s, e = .status q s) ∨ e = .disconnected q) :
    (∀ s, SystemState.Out.systemState s ∉ (m.on e).2) ∧ (m.on e).1.tracker.required = m.tracker.required ∧ (m.on e).1.tracker.system = m.tracker.system ∧
      ∀ x ∈ R, (m.on e).1.tracker.status x = m.tracker.status x := by
  rcases he with ⟨s, rfl⟩ | rfl
  · obtain ⟨_, h2, h3, h4, h5⟩ := sig_update_other h hr hq s
    exact ⟨fun k => receive_silent h2 k, h3, h4, h5⟩
  · have h1 : (∀ s, SystemState.Out.systemState s ∉ (m.reportCrash q).2) ∧ Sig R (m.reportCrash q).1.tracker ∧ (m.reportCrash q).1.tracker.required = m.tracker.required ∧
        (m.reportCrash q).1.tracker.system = m.tracker.system ∧ ∀ x ∈ R, (m.reportCrash q).1.tracker.status x = m.tracker.status x := by
      unfold SystemState.Monitor.reportCrash
      split
      · exact ⟨fun _ hx => (by cases hx), h, rfl, rfl, fun _ _ => rfl⟩
      · exact ⟨fun _ hx => (by cases hx), h, rfl, rfl, fun _ _ => rfl⟩
      · exact ⟨fun _ hx => (by cases hx), h, rfl, rfl, fun _ _ => rfl⟩
      · obtain ⟨h1, h2, h3, h4, h5⟩ := sig_update_other h hr hq .error
        exact ⟨fun k => receive_silent h2 k, h1, h3, h4, h5⟩
    obtain ⟨a1, a2, a3, a4, a5⟩ := h1
    have hr' : (m.reportCrash q).1.tracker.required = [] ∧ (m.reportCrash q).1.tracker.system = .invalid ∨ Same (m.reportCrash q).1.tracker.required R := by
      rw [a3, a4]; exact hr
    obtain ⟨_, b2, b3, b4, b5⟩ := sig_remove a2 hr' hq
    refine ⟨fun k hk => ?_, b3.trans a3, b4.trans a4, fun x hx => (b5 x hx).trans (a5 x hx)⟩
    simp only [SystemState.Monitor.on, List.mem_append] at hk
    rcases hk with hk | hk
    · exact a1 k hk
    · simp only [SystemState.Monitor.forget, b2, Bool.false_eq_true, if_false, List.nil_append, List.mem_singleton] at hk
      cases hk

theorem core_reqW {cfgs : String → Config} {R : List String} {n : Net} (h : Core cfgs R n) {p : String} (hp : p ∈ R) :
    (n.nodes p).monitor.tracker.required = [] ∧ (n.nodes p).monitor.tracker.system = .invalid ∨ Same (n.nodes p).monitor.tracker.required R :=
  (h.req p hp).imp (fun x => ⟨x.1, x.2.2⟩) id

theorem lv_lost {cfgs : String → Config} {R : List String} {n : Net} (h : LV cfgs R n) (p q : String) (o : Throws) (hc : p ∉ R ∨ q ∉ R) : LV cfgs R (n.lost p q o).1 := by
  have hw0 : WV R { n with chan := fun a b => if a = q ∧ b = p then [] else n.chan a b } := by
    refine ⟨fun a b names hm => ?_, h.work.work⟩
    dsimp only at hm
    split at hm
    · cases hm
    · exact h.work.chan a b names hm
  by_cases hp : p ∈ R
  · have hq : q ∉ R := by
      rcases hc with hc | hc
      · exact absurd hp hc
      · exact hc
    obtain ⟨h1, h2, h3, h4⟩ := on_other (h.core.sig p hp) (core_reqW h.core hp) hq (.disconnected q) (.inr rfl)
    unfold Net.lost
    rw [monitor_silent (n := { n with chan := fun a b => if a = q ∧ b = p then [] else n.chan a b }) o h1]
    refine lv_quiet h hp _ _ (.inl h2) h3 h4 (fun x hx => ?_) (fun _ x hx => ?_) (fun a b hb => ?_) (fun a b names hm => ?_)
    · rw [if_neg (fun (e : x = q ∧ _) => hq (e.1 ▸ hx))]
    · exact if_neg (fun (e : x = q ∧ _) => hq (e.1 ▸ hx))
    · exact if_neg (fun e => hb e.2)
    · split at hm
      · cases hm
      · exact hm
  · have h1 := monitor_other (n := { n with chan := fun a b => if a = q ∧ b = p then [] else n.chan a b }) (p := p) (.disconnected q) o
    refine lv_congr h (wv_monitor hw0 p _ o) (fun x hx => h1.1 x (fun e => hp (e ▸ hx))) (fun a ha b hb => ?_)
    have := h1.2 a b (fun e => hp (e ▸ ha))
    refine this.trans ?_
    exact if_neg (fun (e : a = q ∧ b = p) => hp (e.2 ▸ hb))

theorem filterMap_tail {x : Msg} {rest : List Msg} {l : List ParticipantState} (h : (x :: rest).filterMap statusOf = l) :
    (∃ names, x = .workflow names ∧ rest.filterMap statusOf = l) ∨ ∃ s, x = .status s ∧ l = s :: rest.filterMap statusOf := by
  cases x with
  | status s => exact .inr ⟨s, rfl, by rw [← h]; rfl⟩
  | workflow names => exact .inl ⟨names, rfl, by rw [← h]; rfl⟩

theorem lv_deliver {cfgs : String → Config} {R : List String} {n : Net} (hco : ∀ p ∈ R, (cfgs p).autonomous = false) (h : LV cfgs R n) (q p : String) (o : Throws) (ho : p ∈ R → o = {}) :
    LV cfgs R (n.deliver q p o).1 := by
  unfold Net.deliver
  split
  · exact h
  · rename_i m rest hm
    have hpop : ∀ a b names, Msg.workflow names ∈ (if a = q ∧ b = p then rest else n.chan a b) → Msg.workflow names ∈ n.chan a b := by
      intro a b names hx
      split at hx
      · rename_i hab
        rw [hab.1, hab.2, hm]
        exact List.mem_cons_of_mem _ hx
      · exact hx
    have hw0 : WV R { n with chan := fun a b => if a = q ∧ b = p then rest else n.chan a b } := ⟨fun a b names hx => h.work.chan a b names (hpop a b names hx), h.work.work⟩
    by_cases hp : p ∈ R
    · rw [ho hp]
      have hsig := h.core.sig p hp
      have hoth : ∀ a b, b ≠ p → (if a = q ∧ b = p then rest else n.chan a b) = n.chan a b := fun a b hb => if_neg (fun e => hb e.2)
      cases m with
      | workflow names =>
        have hn : Same names R := h.work.chan q p names (by rw [hm]; exact List.mem_cons_self)
        have hreq := sig_require hsig hn
        have hout : ((n.nodes p).monitor.on (.workflow names)).2 = [] := by
          simp only [SystemState.Monitor.on, SystemState.Monitor.workflow, hreq]
          rfl
        have hmon : ((n.nodes p).monitor.on (.workflow names)).1.tracker = { (n.nodes p).monitor.tracker with required := names } := by
          simp only [SystemState.Monitor.on, SystemState.Monitor.workflow, hreq]
        rw [show Msg.event q (.workflow names) = .workflow names from rfl,
          monitor_silent (n := { n with chan := fun a b => if a = q ∧ b = p then rest else n.chan a b }) {} (fun s hs => by rw [hout] at hs; cases hs)]
        refine lv_quiet h hp _ _ (.inr (by rw [hmon]; exact hn)) (by rw [hmon]) (fun x _ => by rw [hmon]; rfl) (fun x _ => ?_) (fun hj x hx => ?_) hoth hpop
        · split
          · rename_i e
            rw [e.1, hm]
            rfl
          · rfl
        · split
          · rename_i e
            have := ((h.core.unjoined p hp hj).2.2 x hx).1
            rw [e.1, hm] at this
            cases this
          · rfl
      | status s =>
        by_cases hq : q ∈ R
        · have hj : (n.nodes p).joined = true := by
            cases hx : (n.nodes p).joined with
            | true => rfl
            | false =>
              have := ((h.core.unjoined p hp hx).2.2 q hq).1
              rw [hm] at this
              cases this
          have hch := h.core.chans p hp q hq hj
          rw [hm] at hch
          have hch' : between (seen (n.nodes p).monitor.tracker q) (rk n q) = s :: rest.filterMap statusOf := hch.symm
          obtain ⟨hlt, hs, hrest⟩ := between_cons hch'
          have hk : seen (n.nodes p).monitor.tracker q + 1 ≤ 5 := Nat.le_trans hlt (rank_le _)
          have hr : (n.nodes p).monitor.tracker.required = [] ∧ (n.nodes p).monitor.tracker.system = .invalid ∧ (∃ x ∈ R, x ≠ q ∧ seen (n.nodes p).monitor.tracker x = 0) ∨
              Same (n.nodes p).monitor.tracker.required R := by
            rcases h.core.req p hp with ⟨a1, a2, a3⟩ | a1
            · have hi := (h.loc p hp).lis a2
              have h0 : rk n p = 0 := by unfold rk; rw [hi]; rfl
              have hsp := h.core.seen_le p hp p hp
              refine .inl ⟨a1, a3, p, hp, fun e => ?_, by omega⟩
              rw [e] at h0 hsp
              omega
            · exact .inr a1
          obtain ⟨b1, b2, b3, b4, b5⟩ := sig_update hsig hq hk hr
          rw [← hs] at b1 b2 b3 b4 b5
          have hcore : Core cfgs R (Net.set { n with chan := fun a b => if a = q ∧ b = p then rest else n.chan a b } p
              { n.nodes p with monitor := ((n.nodes p).monitor.on (.status q s)).1 }) := by
            refine core_track h.core hp _ _ ?_ b1 (fun x hx => ?_) (fun x hx _ => ?_) (fun hx => by rw [hj] at hx; cases hx) hoth
            · show ((n.nodes p).monitor.tracker.update q s).tracker.required = [] ∧ _ ∧ ((n.nodes p).monitor.tracker.update q s).tracker.system = _ ∨ Same ((n.nodes p).monitor.tracker.update q s).tracker.required R
              rw [b2]
              rcases h.core.req p hp with ⟨a1, a2, a3⟩ | a1
              · refine .inl ⟨a1, a2, ?_⟩
                rcases b5 with ⟨_, c⟩ | ⟨_, c, _⟩
                · exact c.trans a3
                · -- the system state does not change as long as nothing is required
                  exfalso
                  have hi := (h.loc p hp).lis a2
                  have h0 : rk n p = 0 := by unfold rk; rw [hi]; rfl
                  have hsp := h.core.seen_le p hp p hp
                  have hpq : p ≠ q := by intro e; rw [e] at h0 hsp; omega
                  have h1 := b1.low p hp
                  rw [b3 p, if_neg hpq, c, rank_ofRank (by rw [a3]; decide)] at h1
                  omega
              · exact .inr a1
            · show seen ((n.nodes p).monitor.tracker.update q s).tracker x ≤ _
              rw [b3 x]
              split
              · rename_i e; rw [e]; exact hlt
              · exact h.core.seen_le p hp x hx
            · show List.filterMap statusOf (if x = q ∧ p = p then rest else n.chan x p) = between (seen ((n.nodes p).monitor.tracker.update q s).tracker x) _
              rw [b3 x]
              by_cases e : x = q
              · rw [if_pos ⟨e, rfl⟩, if_pos e, hrest, e]
              · rw [if_neg (fun y => e y.1), if_neg e]
                exact h.core.chans p hp x hx hj
          have hw := wv_set hw0 p { n.nodes p with monitor := ((n.nodes p).monitor.on (.status q s)).1 } (h.work.work p)
          have hlocO : ∀ x ∈ R, x ≠ p → Local (cfgs x) ((Net.set { n with chan := fun a b => if a = q ∧ b = p then rest else n.chan a b } p
              { n.nodes p with monitor := ((n.nodes p).monitor.on (.status q s)).1 }).nodes x) := fun x hx e => by rw [set_ne _ e]; exact h.loc x hx
          have hself := set_self { n with chan := fun a b => if a = q ∧ b = p then rest else n.chan a b } p { n.nodes p with monitor := ((n.nodes p).monitor.on (.status q s)).1 }
          have hloc := h.loc p hp
          rw [show Msg.event q (.status s) = .status q s from rfl]
          rcases b5 with ⟨c1, c2⟩ | ⟨c1, c2, c3⟩
          · rw [monitor_silent (n := { n with chan := fun a b => if a = q ∧ b = p then rest else n.chan a b }) {} (p := p) (e := .status q s) (fun k => receive_silent c1 k)]
            refine ⟨hcore, fun x hx => ?_, hw⟩
            by_cases e : x = p
            · subst e
              rw [hself]
              refine ⟨?_, hloc.lis, hloc.post, hloc.ini⟩
              show Shape _ (rank ((n.nodes x).monitor.tracker.update q s).tracker.system) _
              rw [c2]; exact hloc.shape
            · exact hlocO x hx e
          · -- the system state has changed: the lifecycle is told
            have hrank : rank ((n.nodes p).monitor.tracker.update q s).tracker.system = rank (n.nodes p).monitor.tracker.system + 1 := by rw [c2, rank_ofRank c3]
            have hself1 := b1.low p hp
            have hup : rank (n.nodes p).monitor.tracker.system + 1 ≤ rk n p := by
              have h2 : seen ((n.nodes p).monitor.tracker.update q s).tracker p ≤ rk n p := by
                rw [b3 p]
                split
                · rename_i e; rw [← e] at hlt ⊢; exact hlt
                · exact h.core.seen_le p hp p hp
              omega
            have hval : (n.nodes p).life.state ≠ .invalid := rank_pos (by unfold rk at hup; omega)
            have hl : (n.nodes p).listening = true := by
              cases hx : (n.nodes p).listening with
              | true => rfl
              | false => exact absurd (hloc.lis hx) hval
            have hpo : (n.nodes p).posted = false := by
              cases hx : (n.nodes p).posted with
              | false => rfl
              | true => exact absurd (hloc.post hx).1 hval
            have hnext := shape_told (hco p hp) hloc.shape (by unfold rk at hup; omega)
            have hmon : (Net.monitor { n with chan := fun a b => if a = q ∧ b = p then rest else n.chan a b } p (.status q s) {}).1 =
                ((Net.set { n with chan := fun a b => if a = q ∧ b = p then rest else n.chan a b } p { n.nodes p with monitor := ((n.nodes p).monitor.on (.status q s)).1 }).react p
                  (.systemState (ofRank (rank (n.nodes p).monitor.tracker.system + 1))) {}).1 := by
              have hrec : ((n.nodes p).monitor.on (.status q s)).2 = (if ((n.nodes p).monitor.tracker.update q s).participantChanged then [SystemState.Out.participantStatus q s] else []) ++
                  [.systemState (ofRank (rank (n.nodes p).monitor.tracker.system + 1))] := by
                show (if ((n.nodes p).monitor.tracker.update q s).throws = true then _ else _) ++ _ ++ (if ((n.nodes p).monitor.tracker.update q s).systemChanged = true then
                  [SystemState.Out.systemState ((n.nodes p).monitor.tracker.update q s).tracker.system] else []) = _
                rw [b4, c1, c2]
                simp
              unfold Net.monitor
              dsimp only
              rw [hrec, List.foldl_append, tell_silent p {} (if ((n.nodes p).monitor.tracker.update q s).participantChanged then _ else _) _ (fun k hk => by split at hk <;> simp at hk)]
              rw [List.foldl_cons, List.foldl_nil]
              unfold Net.tell
              dsimp only
              rw [if_pos (by rw [set_self]; exact hl)]
            rw [hmon]
            refine lv_react hcore hlocO hw hp _ ?_ ?_ ?_ ?_
            · rw [hself]
              show Next _ (rank ((n.nodes p).monitor.tracker.update q s).tracker.system) (n.nodes p).life _
              rw [hrank]
              exact hnext
            · rw [hself]
              intro hx
              have : (n.nodes p).listening = false := hx
              rw [hl] at this; cases this
            · rw [hself]
              intro hx
              have : (n.nodes p).posted = true := hx
              rw [hpo] at this; cases this
            · rw [hself]
              intro _ _
              exact rank_pos (Nat.le_trans (by unfold rk at hup; omega) hnext.le)
        · obtain ⟨h1, h2, h3, h4⟩ := on_other hsig (core_reqW h.core hp) hq (.status q s) (.inl ⟨s, rfl⟩)
          rw [show Msg.event q (.status s) = .status q s from rfl, monitor_silent (n := { n with chan := fun a b => if a = q ∧ b = p then rest else n.chan a b }) {} h1]
          refine lv_quiet h hp _ _ (.inl h2) h3 h4 (fun x hx => ?_) (fun _ x hx => ?_) hoth hpop
          · rw [if_neg (fun (e : x = q ∧ _) => hq (e.1 ▸ hx))]
          · exact if_neg (fun (e : x = q ∧ _) => hq (e.1 ▸ hx))
    · have h1 := monitor_other (n := { n with chan := fun a b => if a = q ∧ b = p then rest else n.chan a b }) (p := p) (m.event q) o
      refine lv_congr h (wv_monitor hw0 p _ o) (fun x hx => h1.1 x (fun e => hp (e ▸ hx))) (fun a ha b hb => ?_)
      refine (h1.2 a b (fun e => hp (e ▸ ha))).trans ?_
      exact if_neg (fun (e : a = q ∧ b = p) => hp (e.2 ▸ hb))

theorem lv_step {cfgs : String → Config} {R : List String} {n : Net} (hco : ∀ p ∈ R, (cfgs p).autonomous = false) (h : LV cfgs R n) (e : Event) (he : calm R e)
    (ht : informed R n e) : LV cfgs R (n.step e).1 := by
  cases e with
  | join p => exact lv_join h p
  | start p o => exact lv_start h p o he ht
  | life p e o => exact lv_life hco h p e o he
  | configure p names => exact lv_configure h p names he
  | deliver q p o => exact lv_deliver hco h q p o he
  | lost p q o => exact lv_lost h p q o he

theorem lv_run {cfgs : String → Config} {R : List String} (hco : ∀ p ∈ R, (cfgs p).autonomous = false) (es : List Event) {n : Net} (h : LV cfgs R n) (he : ∀ e ∈ es, calm R e)
    (ht : InTime R es n) : LV cfgs R (Net.run es n).1 := by
  induction es generalizing n with
  | nil => exact h
  | cons e es ih => exact ih (lv_step hco h e (he e List.mem_cons_self) ht.1) (fun x hx => he x (List.mem_cons_of_mem _ hx)) ht.2

theorem lv_init (cfgs : String → Config) {R : List String} (hR : R ≠ []) : LV cfgs R (Net.init cfgs) := by
  obtain ⟨q0, hq0⟩ := List.exists_mem_of_ne_nil R hR
  refine ⟨⟨fun _ _ => rfl, fun _ _ => .inl ⟨rfl, rfl, rfl⟩, fun _ _ => ⟨rfl, fun _ _ _ hs => (by cases hs), fun _ _ => Nat.zero_le _, q0, hq0, Nat.le_refl _⟩, fun _ _ _ _ => Nat.le_refl _,
    fun _ _ _ _ hj => (by cases hj), fun _ _ _ => ⟨rfl, rfl, fun _ _ => ⟨rfl, rfl⟩⟩, fun _ _ => rfl⟩,
    fun _ _ => ⟨.invalid rfl rfl rfl rfl rfl rfl, fun _ => rfl, fun hx => (by cases hx), fun hx => (by cases hx)⟩,
    ⟨fun _ _ _ hm => (by cases hm), fun _ _ hn => (by cases hn)⟩⟩

/-- Nothing is left to do: everybody runs. -/
theorem lv_quiet_running {cfgs : String → Config} {R : List String} {n : Net} (h : LV cfgs R n) (hq : Quiet R n) : ∀ p ∈ R, (n.nodes p).life.state = .running := by
  have hseen : ∀ p ∈ R, ∀ q ∈ R, seen (n.nodes p).monitor.tracker q = rk n q := by
    intro p hp q hq'
    have h1 := h.core.chans p hp q hq' (hq p hp).1.1
    rw [(hq p hp).2 q hq'] at h1
    have := between_nil h1.symm
    have := h.core.seen_le p hp q hq'
    omega
  -- what an idle participant can be doing
  have hidle : ∀ p ∈ R, rk n p ≤ rank (n.nodes p).monitor.tracker.system → (n.nodes p).life.state = .running := by
    intro p hp hle
    obtain ⟨_, i2, i3, i4, i5, i6, i7, i8⟩ := (hq p hp).1
    have hini := (h.loc p hp).ini i2 i3
    have hs := (h.loc p hp).shape
    unfold rk at hle
    generalize rank (n.nodes p).monitor.tracker.system = σ at *
    cases hs with
    | invalid a => exact absurd a hini
    | created a => rw [a] at hle; cases hle
    | posting a b => rw [i4] at b; cases b
    | waiting a b c => rw [i5] at c; cases c
    | initializing a b c d => rw [i6] at d; cases d
    | initialized a b c d f g x y =>
      rw [a] at hle
      have : 3 ≤ σ := hle
      omega
    | called a b c d f g =>
      rcases g with ⟨g, _⟩ | ⟨_, g⟩
      · rw [i8 f] at g; cases g
      · rw [i7] at g; cases g
    | ready a => rw [a] at hle; exact absurd hle (by decide)
    | running a => exact a
  intro p hp
  -- the slowest participant runs
  obtain ⟨q, hqR, hmin⟩ := (h.core.sig p hp).min
  have hq2 : rk n q ≤ rank (n.nodes q).monitor.tracker.system := by
    obtain ⟨x, hx, hm⟩ := (h.core.sig q hqR).min
    have h1 := (h.core.sig p hp).low x hx
    rw [hseen p hp] at h1 hmin
    · rw [hseen q hqR x hx] at hm
      omega
    · exact hqR
    · exact hx
  have hrun := hidle q hqR hq2
  have h5 : rk n q = 5 := by unfold rk; rw [hrun]; rfl
  have h6 := (h.core.sig p hp)
  have h7 : 5 ≤ rank (n.nodes p).monitor.tracker.system := by
    rw [hseen p hp q hqR, h5] at hmin
    exact hmin
  exact hidle p hp (Nat.le_trans (rank_le _) h7)

end SilKit.Startup
