import Verif.Spec.StopSignal
/-! # Lemmas: ending a simulation with Ctrl-C -/
namespace SilKit.StopSignal
open Spec SilKit.ConfigText

/-- Three waits of `d` are one wait of three times `d`. -/
theorem three (d f t : Nat) :
    (match (if f ≤ t + d then some (max t f) else none) with
      | some r => some r
      | none => match (if f ≤ t + d + d then some (max (t + d) f) else none) with
        | some r => some r
        | none => match (if f ≤ t + d + d + d then some (max (t + d + d) f) else none) with
          | some r => some r
          | none => none) = if f ≤ t + (d + d + d) then some (max t f) else none := by
  by_cases h1 : f ≤ t + d
  · have h2 : f ≤ t + (d + d + d) := by omega
    simp only [if_pos h1, if_pos h2]
  · simp only [if_neg h1]
    by_cases h2 : f ≤ t + d + d
    · have h3 : f ≤ t + (d + d + d) := by omega
      simp only [if_pos h2, if_pos h3]
      have : max (t + d) f = max t f := by omega
      rw [this]
    · simp only [if_neg h2]
      by_cases h3 : f ≤ t + d + d + d
      · have h4 : f ≤ t + (d + d + d) := by omega
        simp only [if_pos h3, if_pos h4]
        have : max (t + d + d) f = max t f := by omega
        rw [this]
      · have h4 : ¬ f ≤ t + (d + d + d) := by omega
        simp only [if_neg h3, if_neg h4]

theorem waitLoop_three (final : Option Nat) (t : Nat) :
    waitLoop final 3 t = (match final with | none => none | some f => if f ≤ t + 15000 then some (max t f) else none) := by
  cases final with
  | none => rfl
  | some f => exact three 5000 f t

theorem waitLoop_none (final : Option Nat) (t : Nat) : waitLoop final 3 t = none ↔ still final (t + 15000) := by
  rw [waitLoop_three final t]
  cases final with
  | none => simp [still]
  | some f =>
    dsimp only
    unfold still
    split
    · constructor
      · intro h; exact nomatch h
      · intro h; have := h f rfl; omega
    · refine ⟨fun _ g e => ?_, fun _ => rfl⟩
      cases e; omega

theorem waitLoop_some (final : Option Nat) (t r : Nat) (h : waitLoop final 3 t = some r) : ∃ f, final = some f ∧ f ≤ t + 15000 ∧ r = max t f := by
  rw [waitLoop_three final t] at h
  cases final with
  | none => exact nomatch h
  | some f =>
    dsimp only at h
    split at h
    · rename_i hf
      exact ⟨f, rfl, hf, (Option.some.inj h).symm⟩
    · exact nomatch h

/-- What the handler does after the first reaction. -/
theorem waitAborted_eq (final : Option Nat) (t : Nat) :
    (still final (t + 15000) ∧ waitAborted final t = ([(t + 15000, .reportError)], t + 15000)) ∨
    (∃ f, final = some f ∧ f ≤ t + 15000 ∧ waitAborted final t = ([], max t f)) := by
  unfold waitAborted
  cases h : waitLoop final 3 t with
  | none => exact Or.inl ⟨(waitLoop_none final t).mp h, rfl⟩
  | some r =>
    obtain ⟨f, h1, h2, h3⟩ := waitLoop_some final t r h
    exact Or.inr ⟨f, h1, h2, by rw [h3]⟩

theorem wait_eq (aborted : Bool) (final : Option Nat) :
    (∃ f, final = some f ∧ f ≤ 15000 ∧ wait aborted final 0 = ([], f)) ∨
    (still final 15000 ∧ aborted = true ∧ wait aborted final 0 = ([(15000, .reportError)], 15000)) ∨
    (∃ f, final = some f ∧ 15000 < f ∧ f ≤ 30000 ∧ aborted = false ∧ wait aborted final 0 = ([(15000, .abort)], f)) ∨
    (still final 30000 ∧ aborted = false ∧ wait aborted final 0 = ([(15000, .abort), (30000, .reportError)], 30000)) := by
  unfold wait
  cases aborted with
  | true =>
    rw [if_pos rfl]
    rcases waitAborted_eq final 0 with ⟨h1, h2⟩ | ⟨f, h1, h2, h3⟩
    · exact Or.inr (Or.inl ⟨h1, rfl, h2⟩)
    · exact Or.inl ⟨f, h1, by omega, by rw [h3, Nat.zero_max]⟩
  | false =>
    rw [if_neg (by simp)]
    cases h : waitLoop final 3 0 with
    | some r =>
      obtain ⟨f, h1, h2, h3⟩ := waitLoop_some final 0 r h
      exact Or.inl ⟨f, h1, by omega, by rw [h3, Nat.zero_max]⟩
    | none =>
      have hs := (waitLoop_none final 0).mp h
      dsimp only
      rcases waitAborted_eq final (0 + 15000) with ⟨h1, h2⟩ | ⟨f, h1, h2, h3⟩
      · rw [h2]
        exact Or.inr (Or.inr (Or.inr ⟨h1, rfl, rfl⟩))
      · have hf := hs f h1
        refine Or.inr (Or.inr (Or.inl ⟨f, h1, by omega, by omega, rfl, ?_⟩))
        rw [h3]
        have : max (0 + 15000) f = f := by omega
        rw [this]

theorem handler_eq (env : Env) : handler env =
    ((stopOrAbort env.reads).1.map (fun a => (0, a)) ++ (wait (stopOrAbort env.reads).2 env.final 0).1, (wait (stopOrAbort env.reads).2 env.final 0).2) := rfl

/-! ## The signal handler -/

structure Inv (ops : List Op) (m : Monitor) : Prop where
  number : m.number = -1 ∨ ∃ k ∈ signals ops, m.number = (k : Int)
  pending : m.finished = false → m.calls = []
  once : m.calls.length ≤ 1
  calls : ∀ x ∈ m.calls, ∃ k ∈ signals ops, x = (k : Int)
  done : m.finished = true → m.woken = true
  fresh : m.closing = false → m.number = -1 → signals ops = [] ∧ m.pipe = 0 ∧ m.woken = false
  full : m.closing = false → m.woken = false → m.pipe = (signals ops).length
  missed : m.closing = false → m.finished = true → m.calls ≠ []

theorem signals_snoc (ops : List Op) (o : Op) : signals (ops ++ [o]) = signals ops ++ (match o with | .signal k => [k] | _ => []) := by
  unfold signals
  rw [List.filterMap_append]
  cases o <;> rfl

theorem inv_step (ops : List Op) (m : Monitor) (o : Op) (h : Inv ops m) : Inv (ops ++ [o]) (m.step o) := by
  have hs := signals_snoc ops o
  have hmem : ∀ k ∈ signals ops, k ∈ signals (ops ++ [o]) := by intro k hk; rw [hs]; exact List.mem_append_left _ hk
  have hnum : m.number = -1 ∨ ∃ k ∈ signals (ops ++ [o]), m.number = (k : Int) := h.number.imp id (fun ⟨k, a, b⟩ => ⟨k, hmem k a, b⟩)
  have hcalls : ∀ x ∈ m.calls, ∃ k ∈ signals (ops ++ [o]), x = (k : Int) := fun x hx => (h.calls x hx).imp (fun k a => ⟨hmem k a.1, a.2⟩)
  cases o with
  | signal k =>
    have hk : k ∈ signals (ops ++ [Op.signal k]) := by rw [hs]; simp
    unfold Monitor.step
    dsimp only
    split
    · rename_i hc
      exact ⟨hnum, h.pending, h.once, hcalls, h.done, fun a => absurd hc (by simp [a]), fun a => absurd hc (by simp [a]), fun a => absurd hc (by simp [a])⟩
    · rename_i hc
      have hc' : m.closing = false := by simpa using hc
      refine ⟨Or.inr ⟨k, hk, rfl⟩, h.pending, h.once, hcalls, h.done, ?_, ?_, h.missed⟩
      · intro _ e
        exact absurd e (by dsimp only; omega)
      · intro _ hw
        dsimp only
        rw [h.full hc' hw, hs]; simp
  | wake =>
    have hs' : signals (ops ++ [Op.wake]) = signals ops := by rw [hs]; simp
    unfold Monitor.step
    dsimp only
    split
    · rename_i hc
      refine ⟨hnum, h.pending, h.once, hcalls, fun _ => rfl, ?_, ?_, h.missed⟩
      · intro a b
        have := (h.fresh a b).2.1
        omega
      · intro _ hw; exact absurd hw (by simp)
    · exact ⟨hnum, h.pending, h.once, hcalls, h.done, by rw [hs']; exact h.fresh, by rw [hs']; exact h.full, h.missed⟩
  | work =>
    have hs' : signals (ops ++ [Op.work]) = signals ops := by rw [hs]; simp
    unfold Monitor.step
    dsimp only
    split
    · rename_i hc
      have hnil := h.pending hc.2
      refine ⟨hnum, fun a => absurd a (by simp), ?_, ?_, fun _ => hc.1, ?_, ?_, ?_⟩
      · dsimp only; split <;> simp [hnil]
      · intro x hx
        dsimp only at hx
        split at hx
        · rename_i hn
          rw [hnil] at hx
          simp at hx
          subst hx
          exact hnum.resolve_left hn
        · rw [hnil] at hx; exact absurd hx (by simp)
      · rw [hs']; exact h.fresh
      · intro a b
        exact absurd hc.1 (by rw [show m.woken = false from b]; simp)
      · intro a _
        dsimp only
        split
        · simp
        · rename_i hn
          have := (h.fresh a (Classical.not_not.mp hn)).2.2
          exact absurd hc.1 (by rw [this]; simp)
    · exact ⟨hnum, h.pending, h.once, hcalls, h.done, by rw [hs']; exact h.fresh, by rw [hs']; exact h.full, h.missed⟩
  | shutdown =>
    unfold Monitor.step
    dsimp only
    split
    · rename_i hc
      exact ⟨hnum, h.pending, h.once, hcalls, h.done, fun a => absurd hc (by simp [a]), fun a => absurd hc (by simp [a]), fun a => absurd hc (by simp [a])⟩
    · exact ⟨Or.inl rfl, h.pending, h.once, hcalls, h.done, fun a => absurd a (by simp), fun a => absurd a (by simp), fun a => absurd a (by simp)⟩

theorem snoc_induction {α : Type} {P : List α → Prop} (hnil : P []) (hsnoc : ∀ l a, P l → P (l ++ [a])) : ∀ l, P l := by
  intro l
  have : ∀ r : List α, P r.reverse := by
    intro r
    induction r with
    | nil => exact hnil
    | cons a r ih => rw [List.reverse_cons]; exact hsnoc _ _ ih
  have h := this l.reverse
  rwa [List.reverse_reverse] at h

theorem run_snoc (ops : List Op) (o : Op) : Monitor.run (ops ++ [o]) = (Monitor.run ops).step o := by
  unfold Monitor.run; rw [List.foldl_append]; rfl

theorem inv_run : ∀ ops, Inv ops (Monitor.run ops) := by
  refine snoc_induction ?_ ?_
  · refine ⟨Or.inl rfl, fun _ => rfl, by simp [Monitor.run], by simp [Monitor.run], fun h => absurd h (by simp [Monitor.run]), fun _ _ => ⟨rfl, rfl, rfl⟩,
      fun _ _ => rfl, fun _ h => absurd h (by simp [Monitor.run])⟩
  · intro ops o ih
    rw [run_snoc]
    exact inv_step ops _ o ih

theorem closing_iff : ∀ ops, Op.shutdown ∉ ops → (Monitor.run ops).closing = false := by
  refine snoc_induction ?_ ?_
  · intro _; rfl
  · intro ops o ih hno
    have h1 := ih (fun h => hno (List.mem_append_left _ h))
    rw [run_snoc]
    cases o with
    | signal k => unfold Monitor.step; dsimp only; split <;> exact h1
    | wake => unfold Monitor.step; dsimp only; split <;> exact h1
    | work => unfold Monitor.step; dsimp only; split <;> exact h1
    | shutdown => exact absurd (by simp) hno

/-! ## The option `--log` -/

theorem upper_cases (c : Char) (k : Fin 26) (h : upper c = Char.ofNat (k.val + 65)) : c = Char.ofNat (k.val + 65) ∨ c = Char.ofNat (k.val + 97) := by
  unfold upper at h
  split at h
  · rename_i hc
    right
    have h1 : 97 ≤ c.toNat := hc.1
    have h2 : c.toNat ≤ 122 := hc.2
    have key : ∀ a b : Fin 26, Char.ofNat (a.val + 97 - 32) = Char.ofNat (b.val + 65) → a = b := by decide
    have := key ⟨c.toNat - 97, by omega⟩ k (by
      have : c.toNat - 97 + 97 - 32 = c.toNat - 32 := by omega
      dsimp only
      rw [this]; exact h)
    have e : k.val + 97 = c.toNat := by
      rw [← this]; dsimp only; omega
    rw [e, Char.ofNat_toNat]
  · exact Or.inl h

theorem configLevel_cases (s : List Char) (k : Fin 26) (r : List Char) (h : configLevel s = Char.ofNat (k.val + 65) :: r) :
    s = Char.ofNat (k.val + 65) :: r ∨ s = Char.ofNat (k.val + 97) :: r := by
  cases s with
  | nil => exact nomatch h
  | cons c s =>
    obtain ⟨h1, h2⟩ := List.cons.inj h
    subst h2
    rcases upper_cases c k h1 with e | e
    · exact Or.inl (by rw [e])
    · exact Or.inr (by rw [e])

end SilKit.StopSignal
