import Verif.Lemmas.LifecycleWait
/-!
# Lemmas for C71: a test that tells whether a history is careful (for the examples)
-/
namespace SilKit.LifecycleWait
open Spec

/-- Threads that are in a call are known. -/
def Known (w : World) : Prop := ∀ t, w.threads t ≠ .idle → t ∈ w.known

theorem known_go {w : World} (h : Known w) (t : Nat) (hv : ∀ t a o ref v, w.threads t = .adding a o ref (some v) → v ∈ w.known) :
    Known (LifecycleWait.step w (.go t)) := by
  intro t'
  have h' := h t'
  simp only [LifecycleWait.step]
  cases hp : w.threads t with
  | adding a o ref v =>
    cases v with
    | none => simp only [upd]; grind
    | some v =>
      have := hv t a o ref v hp
      simp only
      split <;> grind [upd]
  | idle => exact h'
  | calling a o => dsimp only; split <;> grind [upd]
  | holding a id o => dsimp only; repeat' split
                      all_goals grind [upd]
  | checked a id o => dsimp only; repeat' split
                      all_goals grind [upd]
  | getting a id o r => dsimp only; repeat' split
                        all_goals grind [upd]
  | leaving a o s => grind [upd]

/-- Threads that will be started are known. -/
def Spawned (w : World) : Prop := ∀ t a o ref v, w.threads t = .adding a o ref (some v) → v ∈ w.known

theorem known_step {w : World} (h : Known w) (hs : Spawned w) (op : Op) : Known (LifecycleWait.step w op) ∧ Spawned (LifecycleWait.step w op) := by
  cases op with
  | create a => simp only [LifecycleWait.step]; split <;> exact ⟨h, hs⟩
  | destroy a => simp only [LifecycleWait.step]; split <;> exact ⟨h, hs⟩
  | finish a s => simp only [LifecycleWait.step]; split <;> (try split) <;> exact ⟨h, hs⟩
  | start t a ok v =>
    simp only [LifecycleWait.step]
    split
    · exact ⟨h, hs⟩
    · split
      · simp only [Known, Spawned] at *
        constructor <;> grind [upd]
      · exact ⟨h, hs⟩
  | wait t a =>
    simp only [LifecycleWait.step]
    split
    · exact ⟨h, hs⟩
    · split
      · simp only [Known, Spawned] at *
        constructor <;> grind [upd]
      · exact ⟨h, hs⟩
  | go t =>
    refine ⟨known_go h t hs, ?_⟩
    intro t' a' o' ref' v'
    have h' := hs t' a' o' ref' v'
    simp only [LifecycleWait.step]
    cases hp : w.threads t with
    | adding a o ref v =>
      cases v with
      | none => simp only [upd]; grind
      | some v => simp only; split <;> grind [upd]
    | _ =>
      dsimp only
      repeat' split
      all_goals grind [upd]

/-- The test for one step. -/
def carefulB (w : World) : Op → Bool
  | .start _ a _ waiter => (w.known.all fun t => about (w.threads t) != some a) && ((w.live a).all fun o => !(w.services o).taken)
      && waiter.all fun v => w.threads v == .idle
  | .wait _ a => w.known.all fun t => about (w.threads t) != some a
  | .destroy a => (w.known.all fun t => about (w.threads t) != some a) && (w.live a).all fun o =>
      !(w.events.any fun e => match e with | .started _ o' => o' == o | _ => false)
      || w.events.any fun e => match e with | .returned _ _ o' (.success _) => o' == o | _ => false
  | _ => true

theorem quiet_of {w : World} (h : Known w) {a : Nat} (hq : (w.known.all fun t => about (w.threads t) != some a) = true) : Quiet w a := by
  intro t ht
  by_cases hk : t ∈ w.known
  · have := List.all_eq_true.mp hq t hk
    simp [ht] at this
  · have : w.threads t = .idle := by
      by_cases hi : w.threads t = .idle
      · exact hi
      · exact absurd (h t hi) hk
    rw [this] at ht
    cases ht

theorem carefulB_sound {w : World} (h : Known w) {op : Op} (hb : carefulB w op = true) : Careful w op := by
  cases op with
  | create a => trivial
  | finish a s => trivial
  | go t => trivial
  | wait t a => exact quiet_of h hb
  | start t a ok v =>
    simp only [carefulB, Bool.and_eq_true] at hb
    refine ⟨quiet_of h hb.1.1, ?_, ?_⟩
    · intro o ho
      have := hb.1.2
      simpa [ho] using this
    · intro u hu
      have := hb.2
      simpa [hu] using this
  | destroy a =>
    simp only [carefulB, Bool.and_eq_true] at hb
    refine ⟨quiet_of h hb.1, ?_⟩
    rintro o ho ⟨b, hs⟩
    have := hb.2
    rw [ho] at this
    simp only [Option.all_some, Bool.or_eq_true, Bool.not_eq_true'] at this
    rcases this with h1 | h1
    · rw [List.any_eq_false] at h1
      exact absurd (by simp) (h1 _ hs)
    · obtain ⟨e, he, h2⟩ := List.any_eq_true.mp h1
      split at h2
      · rename_i t' a' o' s
        simp only [beq_iff_eq] at h2
        subst h2
        exact ⟨t', a', s, he⟩
      · cases h2

/-- The test for a history. -/
def carefulFrom (w : World) : List Op → Bool
  | [] => true
  | op :: rest => carefulB w op && carefulFrom (LifecycleWait.step w op) rest

theorem carefulFrom_sound {ops : List Op} (hb : carefulFrom {} ops = true) : AllCareful ops := by
  have key : ∀ (ops : List Op) (w : World), Known w → Spawned w → carefulFrom w ops = true →
      ∀ pre op post, ops = pre ++ op :: post → Careful (pre.foldl LifecycleWait.step w) op := by
    intro ops
    induction ops with
    | nil => intro w _ _ _ pre op post he; simp at he
    | cons o rest ih =>
      intro w hk hs hb pre op post he
      simp only [carefulFrom, Bool.and_eq_true] at hb
      cases pre with
      | nil =>
        simp only [List.nil_append, List.cons.injEq] at he
        obtain ⟨rfl, -⟩ := he
        exact carefulB_sound hk hb.1
      | cons p pre =>
        simp only [List.cons_append, List.cons.injEq] at he
        obtain ⟨rfl, he⟩ := he
        exact ih _ (known_step hk hs o).1 (known_step hk hs o).2 hb.2 pre op post he
  exact key ops {} (fun t h => absurd rfl h) (fun t a o ref v h => by cases h) hb

end SilKit.LifecycleWait
