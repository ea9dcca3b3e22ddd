import Verif.Spec.LifecycleWait
import Verif.Lemmas.ConfigFiles
/-!
# Lemmas for C71
-/
namespace SilKit.LifecycleWait
open Spec

/-- What holds as long as users are careful. -/
structure Inv (w : World) : Prop where
  noUb : w.ub = false
  liveLt : ∀ a o, w.live a = some o → o < w.nextService
  liveInj : ∀ a b o, w.live a = some o → w.live b = some o → a = b
  fresh : ∀ o, w.nextService ≤ o → w.services o = {} ∧ (∀ a, Event.started a o ∉ w.events) ∧ ∀ t a c, Event.returned t a o c ∉ w.events
  one : ∀ t t' a, about (w.threads t) = some a → about (w.threads t') = some a → t = t'
  intact : ∀ a o, w.live a = some o → (w.services o).outcome ≠ some .broken
  adding : ∀ t a o ref v, w.threads t = .adding a o ref v → w.live a = some o ∧ ref = some o ∧ w.table a = none ∧ (w.services o).taken = true
    ∧ (∀ b, Event.started b o ∉ w.events) ∧ ¬ Waited w.events o
  calling : ∀ t a o, w.threads t = .calling a o → w.live a = some o
  holding : ∀ t a id o, w.threads t = .holding a id o → w.live a = some o ∧ w.table a = some { id := id, ref := some o }
  checked : ∀ t a id o, w.threads t = .checked a id o → w.live a = some o ∧ w.table a = some { id := id, ref := some o }
  getting : ∀ t a id o r, w.threads t = .getting a id o r → r = o ∧ w.live a = some o ∧ w.table a = some { id := id, ref := some o }
  leaving : ∀ t a o s, w.threads t = .leaving a o s → w.live a = some o ∧ (∃ id, w.table a = some { id := id, ref := none }) ∧ (w.services o).outcome = some (.ended s)
  entry : ∀ a n, w.table a = some n → ∃ o, w.live a = some o ∧ Event.started a o ∈ w.events ∧ ¬ Waited w.events o ∧ (w.services o).taken = true
    ∧ (n.ref = some o ∨ n.ref = none)
  noref : ∀ a n, w.table a = some n → n.ref = none → ∃ t o s, w.threads t = .leaving a o s
  noEntry : ∀ a o, w.live a = some o → w.table a = none → (∃ b, Event.started b o ∈ w.events) → Waited w.events o
  untaken : ∀ o, (w.services o).taken = false → ∀ b, Event.started b o ∉ w.events
  result : ∀ t a o c, Event.returned t a o c ∈ w.events → (∃ s, c = .success s ∧ (w.services o).outcome = some (.ended s) ∧ Event.started a o ∈ w.events) ∨ c = .unknown

theorem Waited.mono {es es' : List Event} {o : Nat} (h : Waited es o) (hs : ∀ e ∈ es, e ∈ es') : Waited es' o := by
  obtain ⟨t, a, s, h⟩ := h
  exact ⟨t, a, s, hs _ h⟩

theorem raced_false {w : World} (h : Inv w) {t a id : Nat} (ha : about (w.threads t) = some a) : raced w t a id = false := by
  rw [Bool.eq_false_iff]
  intro hr
  simp only [raced, List.any_eq_true, Bool.and_eq_true, decide_eq_true_eq] at hr
  obtain ⟨t', -, hne, hg⟩ := hr
  apply hne
  refine h.one t' t a ?_ ha
  cases hp : w.threads t' <;> simp_all [inGet, about]

theorem Inv.init : Inv {} := by
  constructor <;> simp [about, Waited]

/-- A service that has not been started has not been waited for. -/
theorem Inv.notWaited {w : World} (h : Inv w) {o : Nat} (hn : ∀ b, Event.started b o ∉ w.events) : ¬ Waited w.events o := by
  rintro ⟨t, a, s, hm⟩
  rcases h.result t a o _ hm with ⟨s', -, -, hs⟩ | hc
  · exact hn a hs
  · cases hc

theorem Inv.create {w : World} (h : Inv w) (a : Nat) : Inv (LifecycleWait.step w (.create a)) := by
  simp only [LifecycleWait.step]
  split
  · obtain ⟨h1, h2, h3, h4, h5, h6, h7, h8, h9, h10, h11, h12, h13, hnr, h14, h15, h16⟩ := h
    constructor
    case noref =>
      intro a1 n1 hn1 hr1
      by_cases hax : w.table a1 = some n1
      · obtain ⟨t1, o1, s1, ht1⟩ := hnr a1 n1 hax hr1
        exact ⟨t1, o1, s1, by grind [upd, about]⟩
      · clear hnr; grind [upd, about]
    all_goals (clear hnr; grind [upd, Waited, about])
  · exact h

theorem Inv.destroy {w : World} (h : Inv w) (a : Nat) (hc : Careful w (.destroy a)) : Inv (LifecycleWait.step w (.destroy a)) := by
  simp only [LifecycleWait.step]
  split
  · exact h
  · obtain ⟨hq, hd⟩ := hc
    obtain ⟨h1, h2, h3, h4, h5, h6, h7, h8, h9, h10, h11, h12, h13, hnr, h14, h15, h16⟩ := h
    simp only [Quiet] at hq
    constructor
    case noref =>
      intro a1 n1 hn1 hr1
      by_cases hax : w.table a1 = some n1
      · obtain ⟨t1, o1, s1, ht1⟩ := hnr a1 n1 hax hr1
        exact ⟨t1, o1, s1, by grind [upd, about]⟩
      · clear hnr; grind [upd, about]
    all_goals (clear hnr; grind [upd, Waited, about])

theorem Inv.finish {w : World} (h : Inv w) (a s : Nat) : Inv (LifecycleWait.step w (.finish a s)) := by
  simp only [LifecycleWait.step]
  split
  · exact h
  · split
    · obtain ⟨h1, h2, h3, h4, h5, h6, h7, h8, h9, h10, h11, h12, h13, hnr, h14, h15, h16⟩ := h
      constructor
      case noref =>
        intro a1 n1 hn1 hr1
        by_cases hax : w.table a1 = some n1
        · obtain ⟨t1, o1, s1, ht1⟩ := hnr a1 n1 hax hr1
          exact ⟨t1, o1, s1, by grind [upd, about]⟩
        · clear hnr; grind [upd, about]
      all_goals (clear hnr; grind [upd, Waited, about])
    · exact h

set_option maxHeartbeats 2000000 in
theorem Inv.start {w : World} (h : Inv w) (t a : Nat) (ok : Bool) (v : Option Nat) (hc : Careful w (.start t a ok v)) :
    Inv (LifecycleWait.step w (.start t a ok v)) := by
  simp only [LifecycleWait.step]
  split
  · exact h
  · rename_i o ho
    split
    · rename_i hg
      obtain ⟨hq, ht, hv⟩ := hc
      have htk := ht o ho
      have hns := h.untaken o htk
      have hnw := h.notWaited hns
      have htab : w.table a = none := by
        cases hx : w.table a with
        | none => rfl
        | some n =>
          obtain ⟨o', ho', hs, -⟩ := h.entry a n hx
          rw [ho] at ho'
          cases ho'
          exact absurd hs (hns a)
      have hlt := h.liveLt a o ho
      obtain ⟨h1, h2, h3, h4, h5, h6, h7, h8, h9, h10, h11, h12, h13, hnr, h14, h15, h16⟩ := h
      simp only [Quiet] at hq
      rw [if_neg (by simp [htk])]
      clear ht hv
      constructor
      case noref =>
        intro a1 n1 hn1 hr1
        by_cases hax : w.table a1 = some n1
        · obtain ⟨t1, o1, s1, ht1⟩ := hnr a1 n1 hax hr1
          exact ⟨t1, o1, s1, by grind [upd, about]⟩
        · clear hnr; grind [upd, about]
      all_goals (clear hnr; grind [upd, about])
    · exact h

set_option maxHeartbeats 2000000 in
theorem Inv.wait {w : World} (h : Inv w) (t a : Nat) (hc : Careful w (.wait t a)) : Inv (LifecycleWait.step w (.wait t a)) := by
  simp only [LifecycleWait.step]
  split
  · exact h
  · split
    · simp only [Careful, Quiet] at hc
      obtain ⟨h1, h2, h3, h4, h5, h6, h7, h8, h9, h10, h11, h12, h13, hnr, h14, h15, h16⟩ := h
      constructor
      case noref =>
        intro a1 n1 hn1 hr1
        by_cases hax : w.table a1 = some n1
        · obtain ⟨t1, o1, s1, ht1⟩ := hnr a1 n1 hax hr1
          exact ⟨t1, o1, s1, by grind [upd, about]⟩
        · clear hnr; grind [upd, about]
      all_goals (clear hnr; grind [upd, about])
    · exact h

set_option maxHeartbeats 4000000 in
theorem Inv.go {w : World} (h : Inv w) (t : Nat) : Inv (LifecycleWait.step w (.go t)) := by
  simp only [LifecycleWait.step]
  cases hp : w.threads t with
  | idle => exact h
  | adding a o ref v =>
    obtain ⟨ha, hr, htab, htk, hns, hnw⟩ := h.adding t a o ref v hp
    have hrace := fun id => raced_false h (t := t) (a := a) (id := id) (by rw [hp]; rfl)
    subst hr
    dsimp only
    rw [htab]
    dsimp only
    rw [if_neg (by simp [hrace])]
    have hlt := h.liveLt a o ha
    obtain ⟨h1, h2, h3, h4, h5, h6, h7, h8, h9, h10, h11, h12, h13, hnr, h14, h15, h16⟩ := h
    clear hrace
    cases v with
    | none =>
      dsimp only
      constructor
      case noref =>
        intro a1 n1 hn1 hr1
        by_cases hax : w.table a1 = some n1
        · obtain ⟨t1, o1, s1, ht1⟩ := hnr a1 n1 hax hr1
          exact ⟨t1, o1, s1, by grind [upd, about]⟩
        · clear hnr; grind [upd, about]
      all_goals (clear hnr; grind [upd, about, Waited])
    | some u =>
      dsimp only
      split
      · constructor
        case noref =>
          intro a1 n1 hn1 hr1
          by_cases hax : w.table a1 = some n1
          · obtain ⟨t1, o1, s1, ht1⟩ := hnr a1 n1 hax hr1
            exact ⟨t1, o1, s1, by grind [upd, about]⟩
          · clear hnr; grind [upd, about]
        case adding =>
          intro t1 a1 o1 ref1 v1 he
          have he' : w.threads t1 = .adding a1 o1 ref1 v1 ∧ t1 ≠ t := by grind [upd]
          have hne : a1 ≠ a := by intro hx; subst hx; exact he'.2 (h5 t1 t a1 (by rw [he'.1]; rfl) (by rw [hp]; rfl))
          obtain ⟨x1, x2, x3, x4, x5, x6⟩ := h7 _ _ _ _ _ he'.1
          have hno : o1 ≠ o := by intro hx; subst hx; exact hne (h3 _ _ _ x1 ha)
          clear hnr h8 h9 h10 h11 h12 h13 h14 h15 h16
          refine ⟨x1, x2, ?_, x4, ?_, ?_⟩
          · simp [upd, hne, x3]
          · intro b hb; simp only [List.mem_append, List.mem_singleton, Event.started.injEq] at hb; rcases hb with hb | ⟨-, hb⟩
            · exact x5 b hb
            · exact hno hb
          · rintro ⟨t2, a2, s2, h2'⟩
            apply x6
            simp at h2'
            exact ⟨t2, a2, s2, h2'⟩
        case entry =>
          intro a1 n1 hn1
          by_cases hax : a1 = a
          · subst hax
            simp only [upd, if_true, Option.some.injEq] at hn1
            subst hn1
            refine ⟨o, ha, by simp, ?_, htk, Or.inl rfl⟩
            rintro ⟨t2, a2, s2, h2'⟩
            simp at h2'
            exact hnw ⟨t2, a2, s2, h2'⟩
          · simp only [upd, if_neg hax] at hn1
            obtain ⟨o1, x1, x2, x3, x4, x5⟩ := h13 a1 n1 hn1
            refine ⟨o1, x1, by simp [x2], ?_, x4, x5⟩
            rintro ⟨t2, a2, s2, h2'⟩
            simp at h2'
            exact x3 ⟨t2, a2, s2, h2'⟩
        any_goals (clear hnr; grind [upd, about, Waited])
      · constructor
        case noref =>
          intro a1 n1 hn1 hr1
          by_cases hax : w.table a1 = some n1
          · obtain ⟨t1, o1, s1, ht1⟩ := hnr a1 n1 hax hr1
            exact ⟨t1, o1, s1, by grind [upd, about]⟩
          · clear hnr; grind [upd, about]
        case adding =>
          intro t1 a1 o1 ref1 v1 he
          have he' : w.threads t1 = .adding a1 o1 ref1 v1 ∧ t1 ≠ t := by grind [upd]
          have hne : a1 ≠ a := by intro hx; subst hx; exact he'.2 (h5 t1 t a1 (by rw [he'.1]; rfl) (by rw [hp]; rfl))
          obtain ⟨x1, x2, x3, x4, x5, x6⟩ := h7 _ _ _ _ _ he'.1
          have hno : o1 ≠ o := by intro hx; subst hx; exact hne (h3 _ _ _ x1 ha)
          clear hnr h8 h9 h10 h11 h12 h13 h14 h15 h16
          refine ⟨x1, x2, ?_, x4, ?_, ?_⟩
          · simp [upd, hne, x3]
          · intro b hb; simp only [List.mem_append, List.mem_singleton, Event.started.injEq] at hb; rcases hb with hb | ⟨-, hb⟩
            · exact x5 b hb
            · exact hno hb
          · rintro ⟨t2, a2, s2, h2'⟩
            apply x6
            simp at h2'
            exact ⟨t2, a2, s2, h2'⟩
        case entry =>
          intro a1 n1 hn1
          by_cases hax : a1 = a
          · subst hax
            simp only [upd, if_true, Option.some.injEq] at hn1
            subst hn1
            refine ⟨o, ha, by simp, ?_, htk, Or.inl rfl⟩
            rintro ⟨t2, a2, s2, h2'⟩
            simp at h2'
            exact hnw ⟨t2, a2, s2, h2'⟩
          · simp only [upd, if_neg hax] at hn1
            obtain ⟨o1, x1, x2, x3, x4, x5⟩ := h13 a1 n1 hn1
            refine ⟨o1, x1, by simp [x2], ?_, x4, x5⟩
            rintro ⟨t2, a2, s2, h2'⟩
            simp at h2'
            exact x3 ⟨t2, a2, s2, h2'⟩
        any_goals (clear hnr; grind [upd, about, Waited])
  | calling a o =>
    dsimp only
    have hl := h.calling t a o hp
    cases htab : w.table a with
    | none =>
      dsimp only
      obtain ⟨h1, h2, h3, h4, h5, h6, h7, h8, h9, h10, h11, h12, h13, hnr, h14, h15, h16⟩ := h
      constructor
      case noref =>
        intro a1 n1 hn1 hr1
        by_cases hax : w.table a1 = some n1
        · obtain ⟨t1, o1, s1, ht1⟩ := hnr a1 n1 hax hr1
          exact ⟨t1, o1, s1, by grind [upd, about]⟩
        · clear hnr; grind [upd, about]
      all_goals (clear hnr; grind [upd, about, Waited])
    | some n =>
      dsimp only
      obtain ⟨o', ho', hs, hnw, htk, hr⟩ := h.entry a n htab
      rw [hl] at ho'
      cases ho'
      have hr : n.ref = some o := by
        rcases hr with hr | hr
        · exact hr
        · obtain ⟨t', o', s, ht'⟩ := h.noref a n htab hr
          have := h.one t t' a (by rw [hp]; rfl) (by rw [ht']; rfl)
          subst this
          rw [hp] at ht'
          cases ht'
      have hn : n = { id := n.id, ref := some o } := by cases n; simp_all
      obtain ⟨h1, h2, h3, h4, h5, h6, h7, h8, h9, h10, h11, h12, h13, hnr, h14, h15, h16⟩ := h
      constructor
      case noref =>
        intro a1 n1 hn1 hr1
        by_cases hax : w.table a1 = some n1
        · obtain ⟨t1, o1, s1, ht1⟩ := hnr a1 n1 hax hr1
          exact ⟨t1, o1, s1, by grind [upd, about]⟩
        · clear hnr; grind [upd, about]
      all_goals (clear hnr; grind [upd, about])
  | holding a id o =>
    obtain ⟨hl, htab⟩ := h.holding t a id o hp
    have hrace := raced_false h (t := t) (a := a) (id := id) (by rw [hp]; rfl)
    simp only [htab, hrace]
    simp
    obtain ⟨h1, h2, h3, h4, h5, h6, h7, h8, h9, h10, h11, h12, h13, hnr, h14, h15, h16⟩ := h
    constructor
    case noref =>
      intro a1 n1 hn1 hr1
      by_cases hax : w.table a1 = some n1
      · obtain ⟨t1, o1, s1, ht1⟩ := hnr a1 n1 hax hr1
        exact ⟨t1, o1, s1, by grind [upd, about]⟩
      · clear hnr; grind [upd, about]
    all_goals (clear hnr; grind [upd, about])
  | checked a id o =>
    obtain ⟨hl, htab⟩ := h.checked t a id o hp
    have hrace := raced_false h (t := t) (a := a) (id := id) (by rw [hp]; rfl)
    simp only [htab, hrace]
    simp
    obtain ⟨h1, h2, h3, h4, h5, h6, h7, h8, h9, h10, h11, h12, h13, hnr, h14, h15, h16⟩ := h
    constructor
    case noref =>
      intro a1 n1 hn1 hr1
      by_cases hax : w.table a1 = some n1
      · obtain ⟨t1, o1, s1, ht1⟩ := hnr a1 n1 hax hr1
        exact ⟨t1, o1, s1, by grind [upd, about]⟩
      · clear hnr; grind [upd, about]
    all_goals (clear hnr; grind [upd, about])
  | getting a id o r =>
    obtain ⟨hr, hl, htab⟩ := h.getting t a id o r hp
    subst hr
    dsimp only
    cases hout : (w.services r).outcome with
    | none => exact h
    | some out =>
      dsimp only
      simp only [htab]
      simp
      have hne := h.intact a r hl
      cases out with
      | broken => exact absurd hout hne
      | ended s =>
        dsimp only
        obtain ⟨h1, h2, h3, h4, h5, h6, h7, h8, h9, h10, h11, h12, h13, hnr, h14, h15, h16⟩ := h
        constructor
        case noref =>
          intro a1 n1 hn1 hr1
          by_cases hax : w.table a1 = some n1
          · obtain ⟨t1, o1, s1, ht1⟩ := hnr a1 n1 hax hr1
            exact ⟨t1, o1, s1, by grind [upd, about]⟩
          · exact ⟨t, r, s, by grind [upd]⟩
        case leaving =>
          intro t1 a1 o1 s1 he
          by_cases ht1 : t1 = t
          · subst ht1
            simp only [upd, if_true, Phase.leaving.injEq] at he
            obtain ⟨rfl, rfl, rfl⟩ := he
            exact ⟨hl, ⟨id, by simp [upd]⟩, hout⟩
          · simp only [upd, if_neg ht1] at he
            have hne : a1 ≠ a := by intro hx; subst hx; exact ht1 (h5 t1 t a1 (by rw [he]; rfl) (by rw [hp]; rfl))
            obtain ⟨x1, ⟨i1, x2⟩, x3⟩ := h12 _ _ _ _ he
            exact ⟨x1, ⟨i1, by simp [upd, hne, x2]⟩, x3⟩
        any_goals (clear hnr; grind [upd, about])
  | leaving a o s =>
    obtain ⟨hl, ⟨id, htab⟩, hout⟩ := h.leaving t a o s hp
    dsimp only
    obtain ⟨o', ho', hs, hnw, htk, -⟩ := h.entry a _ htab
    rw [hl] at ho'
    cases ho'
    obtain ⟨h1, h2, h3, h4, h5, h6, h7, h8, h9, h10, h11, h12, h13, hnr, h14, h15, h16⟩ := h
    constructor
    case noref =>
      intro a1 n1 hn1 hr1
      by_cases hax : w.table a1 = some n1
      · obtain ⟨t1, o1, s1, ht1⟩ := hnr a1 n1 hax hr1
        exact ⟨t1, o1, s1, by grind [upd, about]⟩
      · clear hnr; grind [upd, about]
    all_goals (clear hnr; grind [upd, about, Waited])

theorem Inv.step {w : World} (h : Inv w) (op : Op) (hc : Careful w op) : Inv (LifecycleWait.step w op) := by
  cases op with
  | create a => exact h.create a
  | destroy a => exact h.destroy a hc
  | finish a s => exact h.finish a s
  | start t a ok v => exact h.start t a ok v hc
  | wait t a => exact h.wait t a hc
  | go t => exact h.go t

theorem run_snoc (ops : List Op) (op : Op) : LifecycleWait.run (ops ++ [op]) = LifecycleWait.step (LifecycleWait.run ops) op := by
  simp [LifecycleWait.run]

theorem careful_snoc {ops : List Op} {op : Op} (h : AllCareful (ops ++ [op])) : AllCareful ops ∧ Careful (LifecycleWait.run ops) op := by
  constructor
  · intro pre o post he
    exact h pre o (post ++ [op]) (by rw [he]; simp)
  · exact h ops op [] rfl

theorem Inv.run {ops : List Op} (h : AllCareful ops) : Inv (LifecycleWait.run ops) := by
  induction ops using ConfigFiles.snoc_induction with
  | nil => exact Inv.init
  | snoc ops op ih =>
    obtain ⟨h1, h2⟩ := careful_snoc h
    rw [run_snoc]
    exact (ih h1).step op h2

/-- Events are added one by one, and a report that a service is unknown is justified. -/
theorem step_events {w : World} (h : Inv w) (op : Op) :
    (LifecycleWait.step w op).events = w.events
    ∨ ∃ e, (LifecycleWait.step w op).events = w.events ++ [e] ∧ ∀ t a o, e = .returned t a o .unknown → (∀ b, Event.started b o ∉ w.events) ∨ Waited w.events o := by
  cases op with
  | create a => left; simp only [LifecycleWait.step]; split <;> rfl
  | destroy a => left; simp only [LifecycleWait.step]; split <;> rfl
  | finish a s => left; simp only [LifecycleWait.step]; split <;> (try split) <;> rfl
  | start t a ok v => left; simp only [LifecycleWait.step]; split <;> (try split) <;> rfl
  | wait t a => left; simp only [LifecycleWait.step]; split <;> (try split) <;> rfl
  | go t =>
    simp only [LifecycleWait.step]
    cases hp : w.threads t with
    | idle => exact Or.inl rfl
    | adding a o ref v => exact Or.inr ⟨_, rfl, by intro _ _ _ h; cases h⟩
    | calling a o =>
      dsimp only
      cases htab : w.table a with
      | none =>
        refine Or.inr ⟨_, rfl, ?_⟩
        intro t' a' o' he
        cases he
        by_cases hs : ∃ b, Event.started b o ∈ w.events
        · exact Or.inr (h.noEntry a o (h.calling t a o hp) htab hs)
        · left
          intro b hb
          exact hs ⟨b, hb⟩
      | some n => exact Or.inl rfl
    | holding a id o =>
      dsimp only
      split
      · exact Or.inl rfl
      · split
        · exact Or.inl rfl
        · split
          · exact Or.inr ⟨_, rfl, by intro _ _ _ h; cases h⟩
          · exact Or.inl rfl
    | checked a id o =>
      dsimp only
      split
      · exact Or.inl rfl
      · split
        · exact Or.inl rfl
        · split <;> exact Or.inl rfl
    | getting a id o r =>
      dsimp only
      split
      · exact Or.inl rfl
      · split
        · exact Or.inl rfl
        · split
          · exact Or.inl rfl
          · split
            · exact Or.inl rfl
            · exact Or.inr ⟨_, rfl, by intro _ _ _ h; cases h⟩
    | leaving a o s => exact Or.inr ⟨_, rfl, by intro _ _ _ h; cases h⟩

theorem unknown_justified {ops : List Op} (h : AllCareful ops) : ∀ pre t a o post, (LifecycleWait.run ops).events = pre ++ .returned t a o .unknown :: post →
    (∀ b, Event.started b o ∉ pre) ∨ Waited pre o := by
  induction ops using ConfigFiles.snoc_induction with
  | nil =>
    intro pre t a o post he
    simp [LifecycleWait.run] at he
  | snoc ops op ih =>
    obtain ⟨h1, h2⟩ := careful_snoc h
    intro pre t a o post he
    rw [run_snoc] at he
    rcases step_events (Inv.run h1) op with hs | ⟨e, hs, hj⟩
    · exact ih h1 pre t a o post (hs ▸ he)
    · rw [hs] at he
      rcases List.append_eq_append_iff.mp he with ⟨x, hx1, hx2⟩ | ⟨x, hx1, hx2⟩
      · cases x with
        | nil =>
          simp only [List.append_nil] at hx1
          subst hx1
          simp only [List.nil_append, List.cons.injEq] at hx2
          exact hj t a o hx2.1
        | cons y ys => simp at hx2
      · cases x with
        | nil =>
          simp only [List.append_nil] at hx1
          subst hx1
          simp only [List.nil_append, List.cons.injEq] at hx2
          exact hj t a o hx2.1.symm
        | cons y ys =>
          simp only [List.cons_append, List.cons.injEq] at hx2
          obtain ⟨rfl, -⟩ := hx2
          exact ih h1 pre t a o ys hx1

/-- In a leaving phase one step is enough, and so on. -/
theorem goes_leaving {w : World} {t a o s : Nat} (h : w.threads t = .leaving a o s) : Event.returned t a o (.success s) ∈ (goes t 1 w).events := by
  simp [goes, LifecycleWait.step, h]

theorem goes_succ (t n : Nat) (w : World) : goes t (n + 1) w = goes t n (LifecycleWait.step w (.go t)) := by
  simp [goes, List.replicate_succ]

theorem go_grows (w : World) (t : Nat) {e : Event} (he : e ∈ w.events) : e ∈ (LifecycleWait.step w (.go t)).events := by
  simp only [LifecycleWait.step]
  repeat' split
  all_goals first | exact he | exact List.mem_append_left _ he

theorem goes_grows (t n : Nat) (w : World) {e : Event} (he : e ∈ w.events) : e ∈ (goes t n w).events := by
  induction n generalizing w with
  | zero => exact he
  | succ n ih =>
    rw [goes_succ]
    exact ih _ (go_grows w t he)

/-- Going on keeps what has become of the lifecycles. -/
theorem go_services (w : World) (t : Nat) : (LifecycleWait.step w (.go t)).services = w.services := by
  simp only [LifecycleWait.step]
  repeat' split
  all_goals rfl

theorem through {w : World} (h : Inv w) {t o s : Nat} (hw : WaitingFor (w.threads t) o) (hs : ∃ b, Event.started b o ∈ w.events) (hn : ¬ Waited w.events o)
    (ho : (w.services o).outcome = some (.ended s)) : ∃ a, Event.returned t a o (.success s) ∈ (goes t 5 w).events := by
  -- from each phase the next one is reached
  have leave : ∀ {w : World} {a s' : Nat} (n : Nat), Inv w → (w.services o).outcome = some (.ended s) → w.threads t = .leaving a o s' →
      ∃ a, Event.returned t a o (.success s) ∈ (goes t (n + 1) w).events := by
    intro w a s' n h ho hp
    have := (h.leaving t a o s' hp).2.2
    rw [ho] at this
    simp only [Option.some.injEq, Outcome.ended.injEq] at this
    subst this
    refine ⟨a, ?_⟩
    rw [goes_succ]
    apply goes_grows
    simp [LifecycleWait.step, hp]
  have get : ∀ {w : World} {a id r : Nat} (n : Nat), Inv w → (w.services o).outcome = some (.ended s) → w.threads t = .getting a id o r →
      ∃ a, Event.returned t a o (.success s) ∈ (goes t (n + 2) w).events := by
    intro w a id r n h ho hp
    obtain ⟨hr, hl, htab⟩ := h.getting t a id o r hp
    subst hr
    rw [show n + 2 = (n + 1) + 1 from rfl, goes_succ]
    refine leave (a := a) (s' := s) n (h.go t) (by rw [go_services]; exact ho) ?_
    simp [LifecycleWait.step, hp, ho, htab, upd]
  have check : ∀ {w : World} {a id : Nat} (n : Nat), Inv w → (w.services o).outcome = some (.ended s) → w.threads t = .checked a id o →
      ∃ a, Event.returned t a o (.success s) ∈ (goes t (n + 3) w).events := by
    intro w a id n h ho hp
    obtain ⟨hl, htab⟩ := h.checked t a id o hp
    have hrace := raced_false h (t := t) (a := a) (id := id) (by rw [hp]; rfl)
    rw [show n + 3 = (n + 2) + 1 from rfl, goes_succ]
    refine get (a := a) (id := id) (r := o) n (h.go t) (by rw [go_services]; exact ho) ?_
    simp [LifecycleWait.step, hp, htab, upd, hrace]
  have hold : ∀ {w : World} {a id : Nat} (n : Nat), Inv w → (w.services o).outcome = some (.ended s) → w.threads t = .holding a id o →
      ∃ a, Event.returned t a o (.success s) ∈ (goes t (n + 4) w).events := by
    intro w a id n h ho hp
    obtain ⟨hl, htab⟩ := h.holding t a id o hp
    have hrace := raced_false h (t := t) (a := a) (id := id) (by rw [hp]; rfl)
    rw [show n + 4 = (n + 3) + 1 from rfl, goes_succ]
    refine check (a := a) (id := id) n (h.go t) (by rw [go_services]; exact ho) ?_
    simp [LifecycleWait.step, hp, htab, upd, hrace]
  rcases hw with ⟨a, hp⟩ | ⟨a, id, hp⟩ | ⟨a, id, hp⟩ | ⟨a, id, r, hp⟩ | ⟨a, s', hp⟩
  · have hl := h.calling t a o hp
    cases htab : w.table a with
    | none => exact absurd (h.noEntry a o hl htab hs) hn
    | some m =>
      rw [show 5 = (0 + 4) + 1 from rfl, goes_succ]
      refine hold (a := a) (id := m.id) 0 (h.go t) (by rw [go_services]; exact ho) ?_
      simp [LifecycleWait.step, hp, htab, upd]
  · exact hold 1 h ho hp
  · exact check 2 h ho hp
  · exact get 3 h ho hp
  · exact leave 4 h ho hp

end SilKit.LifecycleWait
