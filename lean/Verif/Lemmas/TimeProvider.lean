import Verif.Spec.TimeProvider
/-! # Lemmas for C67 -/
namespace SilKit.TimeProvider
open Spec

theorem set_same (s : State) (p : Nat) (i : Impl) : (set s p i).impl p = i := by simp [set]

theorem set_other (s : State) {p q : Nat} (i : Impl) (h : q ≠ p) : (set s p i).impl q = s.impl q := by simp [set, h]

/-- What holds between the model and the view of the history. -/
structure Inv (s : State) (v : View) : Prop where
  cur : s.cur = v.configured
  handlers : s.handlers = v.registered
  next : s.next = v.added
  fresh : ∀ h ∈ s.handlers, h < s.next
  nodup : s.handlers.Nodup
  mode0 : v.mode = none → (s.impl s.cur).kind = .noSync ∧ (s.impl s.cur).active = false
  mode : ∀ k, v.mode = some k → (s.impl s.cur).kind = k ∧ (s.impl s.cur).active = true
  time : v.mode = some .syncTime → (s.impl s.cur).now = v.time
  syncNow : (s.impl s.cur).kind ≠ .syncTime → v.time = none
  old : ∀ p, p ≠ s.cur → (s.impl p).active = false ∧ (s.impl p).running = false
  inside : ∀ p, (s.impl p).phase = .inside ↔ s.holder = some (.timer p)
  joinHolds : s.joining ≠ none → s.holder ≠ none
  appJoins : ∀ n, s.holder = some (.app n) → s.joining ≠ none
  joinPhase : s.joining ≠ none → (s.impl s.cur).kind ≠ .syncTime ∧ (s.impl s.cur).running = false ∧ (s.impl s.cur).phase ≠ .none ∧
    (s.impl s.cur).phase ≠ .inside
  alive : v.addedSince = true → (s.impl s.cur).kind ≠ .syncTime → (s.impl s.cur).phase ≠ .none
  runs : s.joining = none → (s.impl s.cur).phase ≠ .none → (s.impl s.cur).running = true
  unstarted : v.addedSince = false → (s.impl s.cur).phase = .none
  sync : (s.impl s.cur).kind = .syncTime → (s.impl s.cur).phase = .none
  flight : v.inFlight = true ↔ ∃ c, (s.impl s.cur).phase = .pending c
  calm : ∀ p c, p ≠ s.cur → (s.impl p).phase = .pending c → v.calm = false

theorem inv_init : Inv init {} := by
  refine ⟨rfl, rfl, rfl, ?_, ?_, ?_, ?_, ?_, ?_, ?_, ?_, ?_, ?_, ?_, ?_, ?_, ?_, ?_, ?_, ?_⟩ <;> simp [init]

theorem locks_join {s : State} {t : Thread} (h : locks s t = true) : s.joining = none := by
  cases t <;> simp [locks] at h <;> exact h.1

theorem locks_app {s : State} {n : Nat} (h : locks s (.app n) = true) : s.holder = none := by
  simp [locks] at h; exact h.2

theorem locks_timer {s : State} {p : Nat} (h : locks s (.timer p) = true) : s.holder = some (.timer p) := by
  simp [locks] at h; exact h.2

theorem inv_add {s : State} {v : View} (i : Inv s v) {t : Thread} (hl : locks s t = true) (hd : (add s t).1.dead = false) :
    Inv (add s t).1 (v.next (.add t)) := by
  have hfresh : ∀ h ∈ s.handlers ++ [s.next], h < s.next + 1 := by
    intro h hm
    rcases List.mem_append.mp hm with hm | hm
    · have := i.fresh h hm; omega
    · have : h = s.next := by simpa using hm
      omega
  have hnodup : (s.handlers ++ [s.next]).Nodup := by
    refine List.nodup_append.mpr ⟨i.nodup, by simp, ?_⟩
    intro a ha b hb e
    have h1 := i.fresh a ha
    have h2 : b = s.next := by simpa using hb
    omega
  have hj := locks_join hl
  revert hd
  unfold add
  dsimp only
  by_cases hk : (s.impl s.cur).kind = .syncTime
  · rw [if_pos hk]
    intro _
    refine ⟨i.cur, ?_, ?_, hfresh, hnodup, i.mode0, i.mode, i.time, i.syncNow, i.old, i.inside, i.joinHolds, i.appJoins, i.joinPhase, ?_, i.runs, ?_,
      i.sync, i.flight, i.calm⟩
    · simp only [View.next, i.handlers, i.next]
    · simp only [View.next, i.next]
    · intro _ h; exact absurd hk h
    · intro h; cases h
  · rw [if_neg hk]
    cases hp : (s.impl s.cur).phase with
    | none =>
      intro _
      dsimp only
      refine ⟨i.cur, ?_, ?_, hfresh, hnodup, ?_, ?_, ?_, ?_, ?_, ?_, i.joinHolds, i.appJoins, ?_, ?_, ?_, ?_, ?_, ?_, ?_⟩
      · simp only [View.next, i.handlers, i.next, set]
      · simp only [View.next, i.next, set]
      · intro h; simpa [set] using i.mode0 h
      · intro k h; simpa [set] using i.mode k h
      · intro h; simpa [set, View.next] using i.time h
      · intro h; exact i.syncNow (by simpa [set] using h)
      · intro p hpc
        have : p ≠ s.cur := hpc
        simpa [set, this] using i.old p this
      · intro p
        by_cases hpc : p = s.cur
        · subst hpc
          have := i.inside s.cur
          rw [hp] at this
          simp only [set, if_true]
          constructor
          · intro h; cases h
          · intro h; cases this.mpr h
        · simpa [set, hpc] using i.inside p
      · intro h; exact absurd hj h
      · intro _ _; simp [set]
      · intro _ _; simp [set]
      · intro h; cases h
      · intro h; exact absurd (by simpa [set] using h) hk
      · have := i.flight
        rw [hp] at this
        simp only [View.next, set, if_true]
        constructor
        · intro h; obtain ⟨c, hc⟩ := this.mp h; cases hc
        · rintro ⟨c, hc⟩; cases hc
      · intro p c hpc
        have : p ≠ s.cur := hpc
        simpa [set, this, View.next] using i.calm p c this
    | idle =>
      dsimp only
      split
      · intro h; cases h
      · rename_i ht
        intro _
        have hh : ∃ x, t = x := ⟨t, rfl⟩
        refine ⟨i.cur, ?_, ?_, hfresh, hnodup, ?_, ?_, ?_, ?_, ?_, ?_, ?_, ?_, ?_, ?_, ?_, ?_, ?_, ?_, ?_⟩
        · simp only [View.next, i.handlers, i.next, set]
        · simp only [View.next, i.next, set]
        · intro h; simpa [set] using i.mode0 h
        · intro k h; simpa [set] using i.mode k h
        · intro h; simpa [set, View.next] using i.time h
        · intro h; exact i.syncNow (by simpa [set] using h)
        · intro p hpc
          have : p ≠ s.cur := hpc
          simpa [set, this] using i.old p this
        · intro p
          have hin : (s.impl p).phase = .inside ↔ some t = some (.timer p) := by
            cases t with
            | app n =>
              have := i.inside p
              rw [locks_app hl] at this
              constructor
              · intro h; cases this.mp h
              · intro h; cases h
            | timer q =>
              have := i.inside p
              rw [locks_timer hl] at this
              exact this
          by_cases hpc : p = s.cur
          · subst hpc; simpa [set, hp] using hin
          · simpa [set, hpc] using hin
        · intro _ h; cases h
        · intro _ _ h; cases h
        · intro _; simp [set, hk, hp]
        · intro _ _; simp [set, hp]
        · intro h; cases h
        · intro h; cases h
        · intro h; exact absurd (by simpa [set] using h) hk
        · simpa [set, View.next, hp] using i.flight
        · intro p c hpc
          have : p ≠ s.cur := hpc
          simpa [set, this, View.next] using i.calm p c this
    | pending c0 =>
      dsimp only
      split
      · intro h; cases h
      · rename_i ht
        intro _
        refine ⟨i.cur, ?_, ?_, hfresh, hnodup, ?_, ?_, ?_, ?_, ?_, ?_, ?_, ?_, ?_, ?_, ?_, ?_, ?_, ?_, ?_⟩
        · simp only [View.next, i.handlers, i.next, set]
        · simp only [View.next, i.next, set]
        · intro h; simpa [set] using i.mode0 h
        · intro k h; simpa [set] using i.mode k h
        · intro h; simpa [set, View.next] using i.time h
        · intro h; exact i.syncNow (by simpa [set] using h)
        · intro p hpc
          have : p ≠ s.cur := hpc
          simpa [set, this] using i.old p this
        · intro p
          have hin : (s.impl p).phase = .inside ↔ some t = some (.timer p) := by
            cases t with
            | app n =>
              have := i.inside p
              rw [locks_app hl] at this
              constructor
              · intro h; cases this.mp h
              · intro h; cases h
            | timer q =>
              have := i.inside p
              rw [locks_timer hl] at this
              exact this
          by_cases hpc : p = s.cur
          · subst hpc; simpa [set, hp] using hin
          · simpa [set, hpc] using hin
        · intro _ h; cases h
        · intro _ _ h; cases h
        · intro _; simp [set, hk, hp]
        · intro _ _; simp [set, hp]
        · intro h; cases h
        · intro h; cases h
        · intro h; exact absurd (by simpa [set] using h) hk
        · simpa [set, View.next, hp] using i.flight
        · intro p c hpc
          have : p ≠ s.cur := hpc
          simpa [set, this, View.next] using i.calm p c this
    | inside =>
      have hh := (i.inside s.cur).mp hp
      have ht : t = .timer s.cur := by
        cases t with
        | app n => rw [locks_app hl] at hh; cases hh
        | timer q => rw [locks_timer hl] at hh; exact Option.some.inj hh
      dsimp only
      rw [if_pos ht]
      intro h; cases h

theorem inv_configure {s : State} {v : View} (i : Inv s v) {t : Thread} {k : Kind} (hl : locks s t = true)
    (hd : (configure s t k).1.dead = false) (hh : s.holder = none ∨ t = .timer s.cur) : Inv (configure s t k).1 (v.next (.configure t k)) := by
  have hj := locks_join hl
  revert hd
  unfold configure
  dsimp only
  split
  · intro h; cases h
  · rename_i ht
    intro _
    have hh : s.holder = none := by
      rcases hh with h | h
      · exact h
      · exact absurd h ht
    have ne : ∀ p, p = s.cur → p ≠ s.cur + 1 := by intro p h; omega
    refine ⟨?_, i.handlers, i.next, i.fresh, i.nodup, ?_, ?_, ?_, ?_, ?_, ?_, i.joinHolds, i.appJoins, ?_, ?_, ?_, ?_, ?_, ?_, ?_⟩
    · simp only [View.next, i.cur]
    · intro h; cases h
    · intro k' h
      have : k = k' := Option.some.inj h
      simp [set, this]
    · intro _; simp [set, View.next]
    · intro _; rfl
    · intro p hp
      have hp' : p ≠ s.cur + 1 := hp
      by_cases hc : p = s.cur
      · subst hc; simp [set]
      · simpa [set, hp', hc] using i.old p hc
    · intro p
      have hn : (s.impl p).phase ≠ .inside := by
        intro h
        have := (i.inside p).mp h
        rw [hh] at this; cases this
      have hr : ¬ (set (set s s.cur { s.impl s.cur with active := false, running := false }) (s.cur + 1) { kind := k, active := true }).holder
          = some (.timer p) := by
        intro h
        have : s.holder = some (.timer p) := h
        rw [hh] at this; cases this
      constructor
      · intro h
        exfalso
        by_cases h1 : p = s.cur + 1
        · subst h1; simp [set] at h
        · by_cases h2 : p = s.cur
          · subst h2; simp [set] at h; exact hn h
          · simp [set, h1, h2] at h; exact hn h
      · intro h; exact absurd h hr
    · intro h; exact absurd hj h
    · intro h; cases h
    · intro _ h; simp [set] at h
    · intro _; simp [set]
    · intro _; simp [set]
    · simp [set, View.next]
    · intro p c hp
      have hp' : p ≠ s.cur + 1 := hp
      by_cases hc : p = s.cur
      · subst hc
        intro h
        have h' : (s.impl s.cur).phase = .pending c := by simpa [set] using h
        have := i.flight.mpr ⟨c, h'⟩
        simp [View.next, this]
      · intro h
        have h' : (s.impl p).phase = .pending c := by simpa [set, hp', hc] using h
        have := i.calm p c hc h'
        simp [View.next, this]

/-- A timer changes what it is doing. -/
theorem inv_step {s : State} {v : View} (i : Inv s v) {e : Event} {s' : State} {o : List Out} (h : step s e = some (s', o)) (hd : s'.dead = false) :
    Inv s' (v.next e) := by
  unfold step at h
  split at h
  · cases h
  · rename_i hsd
    cases e with
    | add t =>
      dsimp only at h
      split at h
      · rename_i hl
        have e1 := Option.some.inj h
        have : s' = (add s t).1 := by rw [e1]
        subst this
        exact inv_add i hl hd
      · cases h
    | remove t x =>
      dsimp only at h
      split at h
      · cases h
        refine ⟨i.cur, ?_, i.next, ?_, ?_, i.mode0, i.mode, i.time, i.syncNow, i.old, i.inside, i.joinHolds, i.appJoins, i.joinPhase, i.alive, i.runs,
          i.unstarted, i.sync, i.flight, i.calm⟩
        · simp only [View.next, i.handlers]
        · intro y hy; exact i.fresh y (List.mem_filter.mp hy).1
        · exact i.nodup.filter _
      · cases h
    | configure t k =>
      dsimp only at h
      split at h
      · rename_i hl
        have e1 := Option.some.inj h
        have : s' = (configure s t k).1 := by rw [e1]
        subst this
        simp only [Bool.and_eq_true, Bool.or_eq_true, Option.isNone_iff_eq_none, beq_iff_eq] at hl
        exact inv_configure i hl.1 hd hl.2
      · cases h
    | setTime t now duration =>
      dsimp only at h
      split at h
      · unfold setTime at h
        dsimp only at h
        by_cases hk : (s.impl s.cur).kind = .syncTime
        · rw [if_pos hk] at h
          have hm : v.mode = some .syncTime := by
            cases hv : v.mode with
            | none => have := (i.mode0 hv).1; rw [hk] at this; cases this
            | some k => have := (i.mode k hv).1; rw [hk] at this; rw [this]
          cases h
          have hv : v.next (.setTime t now duration) = { v with time := some now } := by simp [View.next, hm]
          rw [hv]
          refine ⟨i.cur, i.handlers, i.next, i.fresh, i.nodup, ?_, ?_, ?_, ?_, ?_, ?_, i.joinHolds, i.appJoins, ?_, ?_, ?_, ?_, ?_, ?_, ?_⟩
          · intro h; simpa [set] using i.mode0 h
          · intro k h; simpa [set] using i.mode k h
          · intro _; simp [set]
          · intro h; exact absurd (by simpa [set] using hk) h
          · intro p hp
            have : p ≠ s.cur := hp
            simpa [set, this] using i.old p this
          · intro p
            by_cases hc : p = s.cur
            · subst hc; simpa [set] using i.inside s.cur
            · simpa [set, hc] using i.inside p
          · intro h; simpa [set] using i.joinPhase h
          · intro h1 h2; simpa [set] using i.alive h1 (by simpa [set] using h2)
          · intro h1 h2; simpa [set] using i.runs h1 (by simpa [set] using h2)
          · intro h; simpa [set] using i.unstarted h
          · intro h; simpa [set] using i.sync (by simpa [set] using h)
          · simpa [set] using i.flight
          · intro p c hp
            have : p ≠ s.cur := hp
            simpa [set, this, View.next] using i.calm p c this
        · rw [if_neg hk] at h
          have hm : v.mode ≠ some .syncTime := fun hv => hk (i.mode _ hv).1
          cases h
          have hv : v.next (.setTime t now duration) = v := by simp [View.next, hm]
          rw [hv]; exact i
      · cases h
    | now t clock =>
      dsimp only at h
      split at h
      · cases h; exact i
      · cases h
    | tick p clock =>
      dsimp only at h
      split at h
      · rename_i hp
        by_cases ha : (s.impl p).active = true
        · rw [if_pos ha] at h
          have hpc : p = s.cur := by
            refine Classical.byContradiction fun hc => ?_
            have := (i.old p hc).1
            rw [ha] at this; cases this
          subst hpc
          have hm : v.mode ≠ none := by
            intro hv
            have := (i.mode0 hv).2
            rw [ha] at this; cases this
          cases h
          have hv : v.next (.tick s.cur clock) = { v with inFlight := true } := by simp [View.next, hm, i.cur]
          rw [hv]
          refine ⟨i.cur, i.handlers, i.next, i.fresh, i.nodup, ?_, ?_, ?_, ?_, ?_, ?_, i.joinHolds, i.appJoins, ?_, ?_, ?_, ?_, ?_, ?_, ?_⟩
          · intro h; exact absurd h hm
          · intro k h; simpa [set] using i.mode k h
          · intro h; simpa [set, View.next] using i.time h
          · intro h; exact i.syncNow (by simpa [set] using h)
          · intro q hq
            have : q ≠ s.cur := hq
            simpa [set, this] using i.old q this
          · intro q
            by_cases hc : q = s.cur
            · subst hc
              have := i.inside s.cur
              rw [hp.1] at this
              simp only [set, if_true]
              constructor
              · intro h; cases h
              · intro h; cases this.mpr h
            · simpa [set, hc] using i.inside q
          · intro h
            have := i.joinPhase h
            simpa [set] using ⟨this.1, this.2.1⟩
          · intro _ _; simp [set]
          · intro _ _; simpa [set] using hp.2
          · intro h
            have := i.unstarted h
            rw [hp.1] at this; cases this
          · intro h
            have := i.sync (by simpa [set] using h)
            rw [hp.1] at this; cases this
          · simp [set]
          · intro q c hq
            have : q ≠ s.cur := hq
            simpa [set, this] using i.calm q c this
        · rw [if_neg ha] at h
          cases h
          have hv : v.next (.tick p clock) = v := by
            simp only [View.next]
            rw [if_neg]
            rintro ⟨h1, h2⟩
            cases hm : v.mode with
            | none => exact h2 hm
            | some k =>
              have := (i.mode k hm).2
              rw [i.cur, ← h1] at this
              exact ha this
          rw [hv]; exact i
      · cases h
    | enter p =>
      dsimp only at h
      split at h
      · rename_i clock hp
        split at h
        · rename_i hf
          have hf : s.holder = none := by simpa using hf
          cases h
          have hj : s.joining = none := by
            refine Classical.byContradiction fun h => i.joinHolds h hf
          have hin : ∀ q, (s.impl q).phase ≠ .inside := by
            intro q h
            have := (i.inside q).mp h
            rw [hf] at this; cases this
          have hnx : (v.next (.enter p)).mode = v.mode ∧ (v.next (.enter p)).time = v.time ∧ (v.next (.enter p)).registered = v.registered
              ∧ (v.next (.enter p)).added = v.added ∧ (v.next (.enter p)).configured = v.configured
              ∧ (v.next (.enter p)).addedSince = v.addedSince ∧ (v.next (.enter p)).calm = v.calm
              ∧ (v.next (.enter p)).inFlight = (if p = v.configured then false else v.inFlight) := by
            simp only [View.next]; split <;> simp
          obtain ⟨n1, n2, n3, n4, n5, n6, n7, n8⟩ := hnx
          refine ⟨?_, ?_, ?_, i.fresh, i.nodup, ?_, ?_, ?_, ?_, ?_, ?_, ?_, ?_, ?_, ?_, ?_, ?_, ?_, ?_, ?_⟩
          · rw [n5]; exact i.cur
          · rw [n3]; exact i.handlers
          · rw [n4]; exact i.next
          · rw [n1]; intro h
            by_cases hc : s.cur = p
            · subst hc; simpa [set] using i.mode0 h
            · simpa [set, hc] using i.mode0 h
          · rw [n1]; intro k h
            by_cases hc : s.cur = p
            · subst hc; simpa [set] using i.mode k h
            · simpa [set, hc] using i.mode k h
          · rw [n1, n2]; intro h
            by_cases hc : s.cur = p
            · subst hc; simpa [set, View.next] using i.time h
            · simpa [set, hc, View.next] using i.time h
          · rw [n2]; intro h
            refine i.syncNow ?_
            by_cases hc : s.cur = p
            · subst hc; simpa [set] using h
            · simpa [set, hc] using h
          · intro q hq
            have hq : q ≠ s.cur := hq
            by_cases hc : q = p
            · subst hc; simpa [set] using i.old q hq
            · simpa [set, hc] using i.old q hq
          · intro q
            by_cases hc : q = p
            · subst hc; simp [set]
            · have := hin q
              simp only [set, if_neg hc]
              constructor
              · intro h; exact absurd h this
              · intro h
                have := Option.some.inj h
                exact absurd (Thread.timer.inj this).symm hc
          · intro _ h; cases h
          · intro n h; cases h
          · intro h; exact absurd hj h
          · rw [n6]; intro h1 h2
            by_cases hc : s.cur = p
            · subst hc; simp [set]
            · simpa [set, hc] using i.alive h1 (by simpa [set, hc] using h2)
          · intro _ h2
            by_cases hc : s.cur = p
            · subst hc
              have := i.runs hj (by rw [hp]; intro h; cases h)
              simpa [set] using this
            · simpa [set, hc] using i.runs hj (by simpa [set, hc] using h2)
          · rw [n6]; intro h
            by_cases hc : s.cur = p
            · subst hc
              have := i.unstarted h
              rw [hp] at this; cases this
            · simpa [set, hc] using i.unstarted h
          · intro h
            by_cases hc : s.cur = p
            · subst hc
              have := i.sync (by simpa [set] using h)
              rw [hp] at this; cases this
            · simpa [set, hc] using i.sync (by simpa [set, hc] using h)
          · rw [n8]
            by_cases hc : s.cur = p
            · subst hc
              rw [if_pos i.cur]
              simp [set]
            · rw [if_neg (fun h => hc (i.cur.trans h.symm))]
              simpa [set, hc] using i.flight
          · rw [n7]; intro q c hq h
            have hq : q ≠ s.cur := hq
            by_cases hc : q = p
            · subst hc; simp [set] at h
            · exact i.calm q c hq (by simpa [set, hc] using h)
        · cases h
      · cases h
    | leave p =>
      dsimp only at h
      split at h
      · rename_i hp
        obtain ⟨hp, hj⟩ := hp
        cases h
        have hh := (i.inside p).mp hp
        refine ⟨i.cur, i.handlers, i.next, i.fresh, i.nodup, ?_, ?_, ?_, ?_, ?_, ?_, ?_, ?_, ?_, ?_, ?_, ?_, ?_, ?_, ?_⟩
        · intro h
          by_cases hc : s.cur = p
          · subst hc; simpa [set] using i.mode0 h
          · simpa [set, hc] using i.mode0 h
        · intro k h
          by_cases hc : s.cur = p
          · subst hc; simpa [set] using i.mode k h
          · simpa [set, hc] using i.mode k h
        · intro h
          by_cases hc : s.cur = p
          · subst hc; simpa [set, View.next] using i.time h
          · simpa [set, hc, View.next] using i.time h
        · intro h
          refine i.syncNow ?_
          by_cases hc : s.cur = p
          · subst hc; simpa [set] using h
          · simpa [set, hc] using h
        · intro q hq
          have hq : q ≠ s.cur := hq
          by_cases hc : q = p
          · subst hc; simpa [set] using i.old q hq
          · simpa [set, hc] using i.old q hq
        · intro q
          by_cases hc : q = p
          · subst hc; simp [set]
          · simp only [set, if_neg hc]
            constructor
            · intro h
              have := (i.inside q).mp h
              rw [hh] at this
              exact absurd (Thread.timer.inj (Option.some.inj this)).symm hc
            · intro h; cases h
        · intro h; exact absurd hj h
        · intro n h; cases h
        · intro h; exact absurd hj h
        · intro h1 h2
          by_cases hc : s.cur = p
          · subst hc; simp [set]
          · simpa [set, hc] using i.alive h1 (by simpa [set, hc] using h2)
        · intro _ h2
          by_cases hc : s.cur = p
          · subst hc
            have := i.runs hj (by rw [hp]; intro h; cases h)
            simpa [set] using this
          · simpa [set, hc] using i.runs hj (by simpa [set, hc] using h2)
        · intro h
          by_cases hc : s.cur = p
          · subst hc
            have := i.unstarted h
            rw [hp] at this; cases this
          · simpa [set, hc] using i.unstarted h
        · intro h
          by_cases hc : s.cur = p
          · subst hc
            have := i.sync (by simpa [set] using h)
            rw [hp] at this; cases this
          · simpa [set, hc] using i.sync (by simpa [set, hc] using h)
        · by_cases hc : s.cur = p
          · subst hc
            have := i.flight
            rw [hp] at this
            simp only [View.next, set, if_true]
            constructor
            · intro h; obtain ⟨c, hc⟩ := this.mp h; cases hc
            · rintro ⟨c, hc⟩; cases hc
          · simpa [set, hc, View.next] using i.flight
        · intro q c hq h
          have hq : q ≠ s.cur := hq
          by_cases hc : q = p
          · subst hc; simp [set] at h
          · exact i.calm q c hq (by simpa [set, hc] using h)
      · cases h
    | exit p =>
      dsimp only at h
      split at h
      · rename_i hp
        obtain ⟨hp, hr⟩ := hp
        have hold : ∀ (hj : s.joining = none ∨ p ≠ s.cur), Inv (set s p { s.impl p with phase := .none }) v := by
          intro hj
          have hpc : s.cur ≠ p := by
            rcases hj with hj | hj
            · intro hc
              subst hc
              have := i.runs hj (by rw [hp]; intro h; cases h)
              rw [hr] at this; cases this
            · exact fun h => hj h.symm
          refine ⟨i.cur, i.handlers, i.next, i.fresh, i.nodup, ?_, ?_, ?_, ?_, ?_, ?_, i.joinHolds, i.appJoins, ?_, ?_, ?_, ?_, ?_, ?_, ?_⟩
          · intro h; simpa [set, hpc] using i.mode0 h
          · intro k h; simpa [set, hpc] using i.mode k h
          · intro h; simpa [set, hpc] using i.time h
          · intro h; exact i.syncNow (by simpa [set, hpc] using h)
          · intro q hq
            have hq : q ≠ s.cur := hq
            by_cases hc : q = p
            · subst hc; simpa [set] using i.old q hq
            · simpa [set, hc] using i.old q hq
          · intro q
            by_cases hc : q = p
            · subst hc
              have := i.inside q
              rw [hp] at this
              simp only [set, if_true]
              constructor
              · intro h; cases h
              · intro h; cases this.mpr h
            · simpa [set, hc] using i.inside q
          · intro h; simpa [set, hpc] using i.joinPhase h
          · intro h1 h2; simpa [set, hpc] using i.alive h1 (by simpa [set, hpc] using h2)
          · intro h1 h2; simpa [set, hpc] using i.runs h1 (by simpa [set, hpc] using h2)
          · intro h; simpa [set, hpc] using i.unstarted h
          · intro h; simpa [set, hpc] using i.sync (by simpa [set, hpc] using h)
          · simpa [set, hpc] using i.flight
          · intro q c hq h
            have hq : q ≠ s.cur := hq
            by_cases hc : q = p
            · subst hc; simp [set] at h
            · exact i.calm q c hq (by simpa [set, hc] using h)
        cases hj : s.joining with
        | none => rw [hj] at h; dsimp only at h; cases h; exact hold (Or.inl hj)
        | some x =>
          rw [hj] at h; dsimp only at h
          split at h
          · rename_i hc
            subst hc
            have hjp := i.joinPhase (by rw [hj]; intro h; cases h)
            cases h
            refine ⟨i.cur, i.handlers, i.next, i.fresh, i.nodup, ?_, ?_, ?_, ?_, ?_, ?_, ?_, ?_, ?_, ?_, ?_, ?_, ?_, ?_, ?_⟩
            · intro h; simpa [set] using i.mode0 h
            · intro k h; simpa [set] using i.mode k h
            · intro h; simpa [set, View.next] using i.time h
            · intro h; exact i.syncNow (by simpa [set] using h)
            · intro q hq
              have hq : q ≠ s.cur := hq
              simpa [set, hq] using i.old q hq
            · intro q
              have hi := i.inside q
              have hs : ((set s s.cur { s.impl s.cur with running := true }).impl q).phase = (s.impl q).phase := by
                by_cases hc : q = s.cur
                · subst hc; simp [set]
                · simp [set, hc]
              dsimp only
              rw [show ((set s s.cur { s.impl s.cur with running := true }).impl q).phase = (s.impl q).phase from hs]
              cases hho : s.holder with
              | none => rw [hho] at hi; simpa [set, hho] using hi
              | some t =>
                cases t with
                | app n => rw [hho] at hi; simpa [set, hho] using hi
                | timer r => rw [hho] at hi; simpa [set, hho] using hi
            · intro h; exact absurd rfl h
            · intro n h
              dsimp only [set] at h
              split at h
              · cases h
              · cases h
            · intro h; exact absurd rfl h
            · intro h1 h2; simpa [set] using i.alive h1 (by simpa [set] using h2)
            · intro _ _; simp [set]
            · intro h; simpa [set] using i.unstarted h
            · intro h; exact absurd (by simpa [set] using h) hjp.1
            · simpa [set, View.next] using i.flight
            · intro q c hq h
              have hq : q ≠ s.cur := hq
              exact i.calm q c hq (by simpa [set, hq] using h)
          · rename_i hc
            cases h
            exact hold (Or.inr hc)
      · cases h

theorem step_alive {s s' : State} {e : Event} {o : List Out} (h : step s e = some (s', o)) : s.dead = false := by
  unfold step at h
  split at h
  · cases h
  · rename_i hd; simpa using hd

theorem run_dead {s s' : State} {es : List Event} {o : List Out} (h : run s es = some (s', o)) (hd : s'.dead = false) : s.dead = false := by
  cases es with
  | nil => cases h; exact hd
  | cons e es =>
    unfold run at h
    split at h
    · cases h
    · rename_i hs; exact step_alive hs

theorem inv_run : ∀ (es : List Event) {s s' : State} {v : View} {o : List Out}, Inv s v → run s es = some (s', o) → s'.dead = false →
    Inv s' (es.foldl View.next v)
  | [], _, _, _, _, i, h, _ => by cases h; exact i
  | e :: es, s, s', v, o, i, h, hd => by
    unfold run at h
    split at h
    · cases h
    · rename_i s1 o1 hs
      split at h
      · cases h
      · rename_i s2 o2 hr
        cases h
        exact inv_run es (inv_step i hs (run_dead hr hd)) hr hd

theorem inv_of_run {h : List Event} {s : State} {o : List Out} (hr : run init h = some (s, o)) (hd : s.dead = false) : Inv s (view h) :=
  inv_run h inv_init hr hd

theorem run_append : ∀ (a b : List Event) (s : State), run s (a ++ b) = match run s a with
    | none => none
    | some (s', o) => match run s' b with
      | none => none
      | some (s'', o') => some (s'', o ++ o')
  | [], b, s => by
    simp only [List.nil_append, run]
    cases run s b with
    | none => rfl
    | some x => rfl
  | e :: a, b, s => by
    simp only [List.cons_append, run]
    cases step s e with
    | none => rfl
    | some x =>
      dsimp only
      rw [run_append a b x.1]
      cases run x.1 a with
      | none => rfl
      | some y =>
        dsimp only
        cases run y.1 b with
        | none => rfl
        | some z => simp [List.append_assoc]

end SilKit.TimeProvider

namespace SilKit.TimeProvider
open Spec

theorem run_one {s s' : State} {e : Event} {o : List Out} (h : step s e = some (s', o)) : run s [e] = some (s', o) := by
  simp [run, h]

theorem run_cons {s s' s'' : State} {e : Event} {o os : List Out} {es : List Event} (h : step s e = some (s', o)) (hr : run s' es = some (s'', os)) :
    run s (e :: es) = some (s'', o ++ os) := by
  simp only [run, h, hr]

theorem mode_kind {s : State} {v : View} (i : Inv s v) {k : Kind} (hk : k ≠ .noSync) (h : (s.impl s.cur).kind = k) : v.mode = some k := by
  cases hv : v.mode with
  | none => have := (i.mode0 hv).1; rw [h] at this; exact absurd this hk
  | some k' => have := (i.mode k' hv).1; rw [h] at this; rw [this]

/-- The wheels are locked: the thread that has the mutex waits for a timer thread that waits for the mutex. -/
structure Stuck (s : State) : Prop where
  joining : s.joining ≠ none
  holder : s.holder ≠ none
  pending : ∃ c, (s.impl s.cur).phase = .pending c
  old : ∀ p, p ≠ s.cur → (s.impl p).active = false

theorem stuck_locks {s : State} (h : Stuck s) (t : Thread) : locks s t = false := by
  have := h.joining
  cases hj : s.joining with
  | none => exact absurd hj this
  | some x => cases t <;> simp [locks, hj]

theorem stuck_step {s s' : State} {e : Event} {o : List Out} (hs : Stuck s) (h : step s e = some (s', o)) :
    Stuck s' ∧ s'.cur = s.cur ∧ s'.holder = s.holder ∧ ∀ x ∈ o, ∃ p, x = .exited p := by
  unfold step at h
  split at h
  · cases h
  · cases e with
    | add t => simp [stuck_locks hs t] at h
    | remove t x => simp [stuck_locks hs t] at h
    | configure t k => simp [stuck_locks hs t] at h
    | setTime t n d => simp [stuck_locks hs t] at h
    | now t c => simp [stuck_locks hs t] at h
    | tick p clock =>
      dsimp only at h
      split at h
      · rename_i hp
        have hpc : p ≠ s.cur := by
          intro hc
          subst hc
          obtain ⟨c, hc⟩ := hs.pending
          rw [hc] at hp; cases hp.1
        have ha := hs.old p hpc
        rw [ha] at h
        cases h
        exact ⟨hs, rfl, rfl, by simp⟩
      · cases h
    | enter p =>
      dsimp only at h
      split at h
      · split at h
        · rename_i hf
          exact absurd (by simpa using hf) hs.holder
        · cases h
      · cases h
    | leave p =>
      dsimp only at h
      split at h
      · rename_i hp; exact absurd hp.2 hs.joining
      · cases h
    | exit p =>
      dsimp only at h
      split at h
      · rename_i hp
        have hpc : p ≠ s.cur := by
          intro hc
          subst hc
          obtain ⟨c, hc⟩ := hs.pending
          rw [hc] at hp; cases hp.1
        have key : ∀ s'', s'' = set s p { s.impl p with phase := .none } → Stuck s'' ∧ s''.cur = s.cur ∧ s''.holder = s.holder := by
          intro s'' e; subst e
          refine ⟨⟨hs.joining, hs.holder, ?_, ?_⟩, rfl, rfl⟩
          · obtain ⟨c, hc⟩ := hs.pending
            have hpc' : s.cur ≠ p := fun h => hpc h.symm
            exact ⟨c, by simpa [set, hpc'] using hc⟩
          · intro q hq
            by_cases hc : q = p
            · subst hc; simpa [set] using hs.old q hq
            · simpa [set, hc] using hs.old q hq
        cases hj : s.joining with
        | none => exact absurd hj hs.joining
        | some x =>
          rw [hj] at h
          dsimp only at h
          rw [if_neg hpc] at h
          cases h
          obtain ⟨k1, k2, k3⟩ := key _ rfl
          exact ⟨k1, k2, k3, by simp⟩
      · cases h

theorem stuck_run : ∀ (es : List Event) {s s' : State} {o : List Out}, Stuck s → run s es = some (s', o) →
    Stuck s' ∧ s'.holder = s.holder ∧ ∀ x ∈ o, ∃ p, x = .exited p
  | [], _, _, _, hs, h => by cases h; exact ⟨hs, rfl, by simp⟩
  | e :: es, s, s', o, hs, h => by
    unfold run at h
    split at h
    · cases h
    · rename_i s1 o1 h1
      obtain ⟨k1, _, k2, k3⟩ := stuck_step hs h1
      split at h
      · cases h
      · rename_i s2 o2 hr
        cases h
        obtain ⟨r1, r2, r3⟩ := stuck_run es k1 hr
        refine ⟨r1, r2.trans k2, ?_⟩
        intro x hx
        rcases List.mem_append.mp hx with hx | hx
        · exact k3 x hx
        · exact r3 x hx

/-- All calls of one event. -/
theorem step_calls {s s' : State} {v : View} {e : Event} {o : List Out} (i : Inv s v) (h : step s e = some (s', o)) {x : Nat} {n d : Int}
    (hx : Out.called x n d ∈ o) :
    x ∈ v.registered ∧ ((∃ t, e = .setTime t n d ∧ v.mode = some .syncTime) ∨
      (∃ p, e = .enter p ∧ (s.impl p).phase = .pending n ∧ d = period (s.impl p).kind)) := by
  unfold step at h
  split at h
  · cases h
  · cases e with
    | add t =>
      dsimp only at h
      split at h
      · have e1 := Option.some.inj h
        have e2 : o = (add s t).2 := by rw [e1]
        rw [e2] at hx
        unfold add at hx
        dsimp only at hx
        split at hx
        · simp at hx
        · split at hx
          · simp at hx
          · split at hx <;> simp at hx
      · cases h
    | remove t y => dsimp only at h; split at h <;> cases h; simp at hx
    | configure t k =>
      dsimp only at h
      split at h
      · have e1 := Option.some.inj h
        have e2 : o = (configure s t k).2 := by rw [e1]
        rw [e2] at hx
        unfold configure at hx
        dsimp only at hx
        split at hx <;> simp at hx
      · cases h
    | setTime t now duration =>
      dsimp only at h
      split at h
      · unfold setTime at h
        dsimp only at h
        split at h
        · rename_i hk
          cases h
          split at hx
          · simp only [invokeAll, List.mem_map] at hx
            obtain ⟨y, hy, e⟩ := hx
            cases e
            exact ⟨i.handlers ▸ hy, Or.inl ⟨t, rfl, mode_kind i (by intro h; cases h) hk⟩⟩
          · simp at hx
        · cases h; simp at hx
      · cases h
    | now t c => dsimp only at h; split at h <;> cases h; simp at hx
    | tick p clock =>
      dsimp only at h
      split at h
      · split at h <;> cases h <;> simp at hx
      · cases h
    | enter p =>
      dsimp only at h
      split at h
      · rename_i clock hp
        split at h
        · cases h
          simp only [invokeAll, List.mem_map] at hx
          obtain ⟨y, hy, e⟩ := hx
          cases e
          exact ⟨i.handlers ▸ hy, Or.inr ⟨p, rfl, hp, rfl⟩⟩
        · cases h
      · cases h
    | leave p => dsimp only at h; split at h <;> cases h; simp at hx
    | exit p =>
      dsimp only at h
      split at h
      · split at h
        · split at h <;> cases h <;> simp at hx
        · cases h; simp at hx
      · cases h

end SilKit.TimeProvider

namespace SilKit.TimeProvider
open Spec

/-- Only a configuration changes kinds, and only a tick is put on its way. -/
theorem step_kinds {s s' : State} {e : Event} {o : List Out} (h : step s e = some (s', o)) :
    ((∃ t k, e = .configure t k ∧ s'.cur = s.cur + 1 ∧ ∀ p, (s'.impl p).kind = if p = s.cur + 1 then k else (s.impl p).kind) ∨
      ((∀ t k, e ≠ .configure t k) ∧ s'.cur = s.cur ∧ ∀ p, (s'.impl p).kind = (s.impl p).kind)) ∧
    (∀ p c, (s'.impl p).phase = .pending c → (s.impl p).phase = .pending c ∨ e = .tick p c) := by
  unfold step at h
  split at h
  · cases h
  · cases e with
    | add t =>
      dsimp only at h
      split at h
      · have e1 := Option.some.inj h
        have e2 : s' = (add s t).1 := by rw [e1]
        subst e2
        refine ⟨Or.inr ⟨by simp, ?_⟩, ?_⟩
        · unfold add; dsimp only
          split
          · exact ⟨rfl, fun _ => rfl⟩
          · split
            · refine ⟨rfl, fun p => ?_⟩
              by_cases hc : p = s.cur <;> simp [set, hc]
            · split
              · exact ⟨rfl, fun _ => rfl⟩
              · refine ⟨rfl, fun p => ?_⟩
                by_cases hc : p = s.cur <;> simp [set, hc]
        · intro p c
          unfold add; dsimp only
          split
          · exact Or.inl
          · split
            · by_cases hc : p = s.cur <;> simp [set, hc]
            · split
              · exact Or.inl
              · rename_i hph _
                by_cases hc : p = s.cur
                · subst hc
                  simpa [set] using fun h => h
                · simp [set, hc]
      · cases h
    | remove t y => dsimp only at h; split at h <;> cases h; exact ⟨Or.inr ⟨by simp, rfl, fun _ => rfl⟩, fun _ _ => Or.inl⟩
    | configure t k =>
      dsimp only at h
      split at h
      · have e1 := Option.some.inj h
        have e2 : s' = (configure s t k).1 := by rw [e1]
        subst e2
        refine ⟨Or.inl ⟨t, k, rfl, ?_, ?_⟩, ?_⟩
        · unfold configure; dsimp only; split <;> rfl
        · intro p
          unfold configure; dsimp only
          split <;> (by_cases h1 : p = s.cur + 1
                     · simp [set, h1]
                     · by_cases h2 : p = s.cur
                       · subst h2; simp [set]
                       · simp [set, h1, h2])
        · intro p c
          unfold configure; dsimp only
          split <;> (by_cases h1 : p = s.cur + 1
                     · simp [set, h1]
                     · by_cases h2 : p = s.cur
                       · subst h2; simp [set]
                       · simp [set, h1, h2])
      · cases h
    | setTime t n d =>
      dsimp only at h
      split at h
      · unfold setTime at h
        dsimp only at h
        split at h
        · cases h
          refine ⟨Or.inr ⟨by simp, rfl, fun p => ?_⟩, fun p c => ?_⟩
          · by_cases hc : p = s.cur <;> simp [set, hc]
          · by_cases hc : p = s.cur <;> simp [set, hc]
        · cases h; exact ⟨Or.inr ⟨by simp, rfl, fun _ => rfl⟩, fun _ _ => Or.inl⟩
      · cases h
    | now t c => dsimp only at h; split at h <;> cases h; exact ⟨Or.inr ⟨by simp, rfl, fun _ => rfl⟩, fun _ _ => Or.inl⟩
    | tick q clock =>
      dsimp only at h
      split at h
      · split at h
        · cases h
          refine ⟨Or.inr ⟨by simp, rfl, fun p => ?_⟩, fun p c => ?_⟩
          · by_cases hc : p = q <;> simp [set, hc]
          · by_cases hc : p = q
            · subst hc
              intro h
              have : clock = c := by simpa [set] using h
              exact Or.inr (by rw [this])
            · intro h; exact Or.inl (by simpa [set, hc] using h)
        · cases h; exact ⟨Or.inr ⟨by simp, rfl, fun _ => rfl⟩, fun _ _ => Or.inl⟩
      · cases h
    | enter q =>
      dsimp only at h
      split at h
      · split at h
        · cases h
          refine ⟨Or.inr ⟨by simp, rfl, fun p => ?_⟩, fun p c => ?_⟩
          · by_cases hc : p = q <;> simp [set, hc]
          · by_cases hc : p = q <;> simp [set, hc]
        · cases h
      · cases h
    | leave q =>
      dsimp only at h
      split at h
      · cases h
        refine ⟨Or.inr ⟨by simp, rfl, fun p => ?_⟩, fun p c => ?_⟩
        · by_cases hc : p = q <;> simp [set, hc]
        · by_cases hc : p = q <;> simp [set, hc]
      · cases h
    | exit q =>
      dsimp only at h
      split at h
      · split at h
        · split at h
          · cases h
            refine ⟨Or.inr ⟨by simp, rfl, fun p => ?_⟩, fun p c => ?_⟩
            · by_cases hc : p = q <;> simp [set, hc]
            · by_cases hc : p = q
              · subst hc; intro h; exact Or.inl (by simpa [set] using h)
              · simp [set, hc]
          · cases h
            refine ⟨Or.inr ⟨by simp, rfl, fun p => ?_⟩, fun p c => ?_⟩
            · by_cases hc : p = q <;> simp [set, hc]
            · by_cases hc : p = q <;> simp [set, hc]
        · cases h
          refine ⟨Or.inr ⟨by simp, rfl, fun p => ?_⟩, fun p c => ?_⟩
          · by_cases hc : p = q <;> simp [set, hc]
          · by_cases hc : p = q <;> simp [set, hc]
      · cases h

theorem view_kinds_step (v : View) (e : Event) : (v.next e).kinds = match e with | .configure _ k => v.kinds ++ [k] | _ => v.kinds := by
  cases e <;> simp only [View.next] <;> split <;> rfl

/-- The kinds of the implementations, and where their pending ticks come from. -/
theorem origins : ∀ (es : List Event) {s s' : State} {v : View} {o : List Out}, run s es = some (s', o) → v.kinds.length = s.cur + 1 →
    (∀ p, p ≤ s.cur → v.kinds[p]? = some (s.impl p).kind) →
    (es.foldl View.next v).kinds.length = s'.cur + 1 ∧ (∀ p, p ≤ s'.cur → (es.foldl View.next v).kinds[p]? = some (s'.impl p).kind) ∧
    ∀ p c, (s'.impl p).phase = .pending c → (s.impl p).phase = .pending c ∨ Event.tick p c ∈ es
  | [], _, _, _, _, h, h1, h2 => by cases h; exact ⟨h1, h2, fun _ _ => Or.inl⟩
  | e :: es, s, s', v, o, h, h1, h2 => by
    unfold run at h
    split at h
    · cases h
    · rename_i s1 o1 hs
      split at h
      · cases h
      · rename_i s2 o2 hr
        cases h
        obtain ⟨hk, hp⟩ := step_kinds hs
        have hv := view_kinds_step v e
        have key : (v.next e).kinds.length = s1.cur + 1 ∧ ∀ p, p ≤ s1.cur → (v.next e).kinds[p]? = some (s1.impl p).kind := by
          rcases hk with ⟨t, k, rfl, hc, hkk⟩ | ⟨hn, hc, hkk⟩
          · dsimp only at hv
            rw [hv, hc]
            refine ⟨by simp [h1], fun p hle => ?_⟩
            rw [hkk p]
            by_cases he : p = s.cur + 1
            · subst he; rw [← h1]; simp
            · rw [if_neg he, List.getElem?_append_left (by omega)]
              exact h2 p (by omega)
          · have : (v.next e).kinds = v.kinds := by
              rw [hv]
              cases e <;> first | rfl | exact absurd rfl (hn _ _)
            rw [this, hc]
            exact ⟨h1, fun p hle => by rw [hkk p]; exact h2 p hle⟩
        obtain ⟨r1, r2, r3⟩ := origins es hr key.1 key.2
        refine ⟨r1, r2, fun p c hpc => ?_⟩
        rcases r3 p c hpc with h | h
        · rcases hp p c h with h | h
          · exact Or.inl h
          · exact Or.inr (by rw [h]; exact List.mem_cons_self)
        · exact Or.inr (List.mem_cons_of_mem _ h)

theorem origins_init {h : List Event} {s : State} {o : List Out} (hr : run init h = some (s, o)) :
    (view h).kinds.length = s.cur + 1 ∧ (∀ p, p ≤ s.cur → (view h).kinds[p]? = some (s.impl p).kind) ∧
    ∀ p c, (s.impl p).phase = .pending c → Event.tick p c ∈ h := by
  have := origins h (v := {}) hr rfl (by intro p hp; have : p = 0 := by simpa [init] using hp
                                         subst this; rfl)
  refine ⟨this.1, this.2.1, fun p c hp => ?_⟩
  rcases this.2.2 p c hp with h | h
  · simp [init] at h
  · exact h

end SilKit.TimeProvider

namespace SilKit.TimeProvider
open Spec

/-- A timer that does not exist yet does nothing. -/
theorem step_future {s s' : State} {e : Event} {o : List Out} (h : step s e = some (s', o)) (hf : ∀ p, s.cur < p → (s.impl p).phase = .none) :
    ∀ p, s'.cur < p → (s'.impl p).phase = .none := by
  unfold step at h
  split at h
  · cases h
  · cases e with
    | add t =>
      dsimp only at h
      split at h
      · have e1 := Option.some.inj h
        have e2 : s' = (add s t).1 := by rw [e1]
        subst e2
        unfold add; dsimp only
        split
        · exact hf
        · split
          · intro p hp
            have hp : s.cur < p := hp
            have : p ≠ s.cur := by omega
            simpa [set, this] using hf p hp
          · split
            · exact hf
            · intro p hp
              have hp : s.cur < p := hp
              have : p ≠ s.cur := by omega
              simpa [set, this] using hf p hp
      · cases h
    | remove t y => dsimp only at h; split at h <;> cases h; exact hf
    | configure t k =>
      dsimp only at h
      split at h
      · have e1 := Option.some.inj h
        have e2 : s' = (configure s t k).1 := by rw [e1]
        subst e2
        have hc : (configure s t k).1.cur = s.cur + 1 := by unfold configure; dsimp only; split <;> rfl
        intro p hp
        rw [hc] at hp
        have h1 : p ≠ s.cur := by omega
        have h2 : p ≠ s.cur + 1 := by omega
        unfold configure; dsimp only
        split <;> simpa [set, h1, h2] using hf p (by omega)
      · cases h
    | setTime t n d =>
      dsimp only at h
      split at h
      · unfold setTime at h
        dsimp only at h
        split at h
        · cases h
          intro p hp
          have hp : s.cur < p := hp
          have : p ≠ s.cur := by omega
          simpa [set, this] using hf p hp
        · cases h; exact hf
      · cases h
    | now t c => dsimp only at h; split at h <;> cases h; exact hf
    | tick q clock =>
      dsimp only at h
      split at h
      · rename_i hq
        split at h
        · cases h
          intro p hp
          have hp : s.cur < p := hp
          have : p ≠ q := by intro e; subst e; rw [hf p hp] at hq; cases hq.1
          simpa [set, this] using hf p hp
        · cases h; exact hf
      · cases h
    | enter q =>
      dsimp only at h
      split at h
      · rename_i hq
        split at h
        · cases h
          intro p hp
          have hp : s.cur < p := hp
          have : p ≠ q := by intro e; subst e; rw [hf p hp] at hq; cases hq
          simpa [set, this] using hf p hp
        · cases h
      · cases h
    | leave q =>
      dsimp only at h
      split at h
      · rename_i hq
        cases h
        intro p hp
        have hp : s.cur < p := hp
        have : p ≠ q := by intro e; subst e; rw [hf p hp] at hq; cases hq.1
        simpa [set, this] using hf p hp
      · cases h
    | exit q =>
      dsimp only at h
      split at h
      · rename_i hq
        have key : ∀ p, s.cur < p → p ≠ q := by intro p hp e; subst e; rw [hf p hp] at hq; cases hq.1
        split at h
        · split at h
          · cases h
            intro p hp
            have hp : s.cur < p := hp
            simpa [set, key p hp] using hf p hp
          · cases h
            intro p hp
            have hp : s.cur < p := hp
            simpa [set, key p hp] using hf p hp
        · cases h
          intro p hp
          have hp : s.cur < p := hp
          simpa [set, key p hp] using hf p hp
      · cases h

theorem run_future : ∀ (es : List Event) {s s' : State} {o : List Out}, run s es = some (s', o) → (∀ p, s.cur < p → (s.impl p).phase = .none) →
    ∀ p, s'.cur < p → (s'.impl p).phase = .none
  | [], _, _, _, h, hf => by cases h; exact hf
  | e :: es, s, s', o, h, hf => by
    unfold run at h
    split at h
    · cases h
    · rename_i s1 o1 hs
      split at h
      · cases h
      · rename_i s2 o2 hr
        cases h
        exact run_future es hr (step_future hs hf)

/-- Synchronized time has no timer. -/
theorem step_sync {s s' : State} {e : Event} {o : List Out} (h : step s e = some (s', o))
    (hf : ∀ p, (s.impl p).kind = .syncTime → (s.impl p).phase = .none) : ∀ p, (s'.impl p).kind = .syncTime → (s'.impl p).phase = .none := by
  intro p hk
  rcases (step_kinds h).1 with ⟨t, k, rfl, hc, hkk⟩ | ⟨hn, hc, hkk⟩
  · unfold step at h
    split at h
    · cases h
    · dsimp only at h
      split at h
      · have e1 := Option.some.inj h
        have e2 : s' = (configure s t k).1 := by rw [e1]
        subst e2
        have hp := hkk p
        rw [hk] at hp
        have : (s.impl p).kind = .syncTime ∨ p = s.cur + 1 := by
          by_cases h1 : p = s.cur + 1
          · exact Or.inr h1
          · rw [if_neg h1] at hp; exact Or.inl hp.symm
        unfold configure; dsimp only
        split <;> (by_cases h1 : p = s.cur + 1
                   · simp [set, h1]
                   · have h3 := hf p (this.resolve_right h1)
                     by_cases h2 : p = s.cur
                     · subst h2; simpa [set] using h3
                     · simpa [set, h1, h2] using h3)
      · cases h
  · rw [hkk p] at hk
    have hp := hf p hk
    unfold step at h
    split at h
    · cases h
    · cases e with
      | configure t k => exact absurd rfl (hn t k)
      | add t =>
        dsimp only at h
        split at h
        · have e1 := Option.some.inj h
          have e2 : s' = (add s t).1 := by rw [e1]
          subst e2
          unfold add; dsimp only
          split
          · exact hp
          · rename_i hks
            have hpc : p ≠ s.cur := by intro e; subst e; exact hks hk
            split
            · simpa [set, hpc] using hp
            · split
              · exact hp
              · simpa [set, hpc] using hp
        · cases h
      | remove t y => dsimp only at h; split at h <;> cases h; exact hp
      | setTime t n d =>
        dsimp only at h
        split at h
        · unfold setTime at h
          dsimp only at h
          split at h
          · cases h
            by_cases hpc : p = s.cur
            · subst hpc; simpa [set] using hp
            · simpa [set, hpc] using hp
          · cases h; exact hp
        · cases h
      | now t c => dsimp only at h; split at h <;> cases h; exact hp
      | tick q clock =>
        dsimp only at h
        split at h
        · rename_i hq
          have : p ≠ q := by intro e; subst e; rw [hp] at hq; cases hq.1
          split at h
          · cases h; simpa [set, this] using hp
          · cases h; exact hp
        · cases h
      | enter q =>
        dsimp only at h
        split at h
        · rename_i hq
          have : p ≠ q := by intro e; subst e; rw [hp] at hq; cases hq
          split at h
          · cases h; simpa [set, this] using hp
          · cases h
        · cases h
      | leave q =>
        dsimp only at h
        split at h
        · rename_i hq
          have : p ≠ q := by intro e; subst e; rw [hp] at hq; cases hq.1
          cases h; simpa [set, this] using hp
        · cases h
      | exit q =>
        dsimp only at h
        split at h
        · rename_i hq
          have : p ≠ q := by intro e; subst e; rw [hp] at hq; cases hq.1
          split at h
          · split at h <;> cases h <;> simpa [set, this] using hp
          · cases h; simpa [set, this] using hp
        · cases h

theorem run_sync : ∀ (es : List Event) {s s' : State} {o : List Out}, run s es = some (s', o) → (∀ p, (s.impl p).kind = .syncTime → (s.impl p).phase = .none) →
    ∀ p, (s'.impl p).kind = .syncTime → (s'.impl p).phase = .none
  | [], _, _, _, h, hf => by cases h; exact hf
  | e :: es, s, s', o, h, hf => by
    unfold run at h
    split at h
    · cases h
    · rename_i s1 o1 hs
      split at h
      · cases h
      · rename_i s2 o2 hr
        cases h
        exact run_sync es hr (step_sync hs hf)

theorem sync_silent (h : List Event) {s : State} {o : List Out} (hr : run init h = some (s, o)) (p : Nat) (c : Int)
    (hp : (s.impl p).phase = .pending c) : (s.impl p).kind ≠ .syncTime := by
  intro hk
  have := run_sync h hr (by intro q _; rfl) p hk
  rw [hp] at this; cases this

theorem forgotten_run : ∀ (es : List Event) {s s' : State} {v : View} {o : List Out}, Inv s v → v.calm = true → v.addedSince = false →
    v.mode ≠ some .syncTime → (∀ e ∈ es, ∀ t, e ≠ .add t) → (∀ e ∈ es, ∀ t k, e ≠ .configure t k) → run s es = some (s', o) →
    ∀ x ∈ o, isCall x = false
  | [], _, _, _, _, _, _, _, _, _, _, h => by cases h; simp
  | e :: es, s, s', v, o, i, hc, ha, hm, h1, h2, h => by
    unfold run at h
    split at h
    · cases h
    · rename_i s1 o1 hs
      split at h
      · cases h
      · rename_i s2 o2 hr
        cases h
        have hv : (v.next e).calm = v.calm ∧ (v.next e).addedSince = v.addedSince ∧ (v.next e).mode = v.mode := by
          cases e with
          | add t => exact absurd rfl (h1 _ List.mem_cons_self t)
          | configure t k => exact absurd rfl (h2 _ List.mem_cons_self t k)
          | _ => unfold View.next <;> dsimp only <;> (try split) <;> exact ⟨rfl, rfl, rfl⟩
        have fst : ∀ x ∈ o1, isCall x = false := by
          intro x hx
          cases x with
          | called y n d =>
            exfalso
            rcases (step_calls i hs hx).2 with ⟨t, _, hmm⟩ | ⟨p, _, hp, _⟩
            · exact hm hmm
            · by_cases hpc : p = s.cur
              · subst hpc
                have := i.unstarted ha
                rw [hp] at this; cases this
              · have := i.calm p n hpc hp
                rw [hc] at this; cases this
          | _ => rfl
        intro x hx
        rcases List.mem_append.mp hx with hx | hx
        · exact fst x hx
        · cases es with
          | nil => cases hr; simp at hx
          | cons e' es' =>
            have hd1 : s1.dead = false := by
              unfold run at hr
              split at hr
              · cases hr
              · rename_i hs'; exact step_alive hs'
            exact forgotten_run (e' :: es') (inv_step i hs hd1) (hv.1.trans hc) (hv.2.1.trans ha) (by rw [hv.2.2]; exact hm)
              (fun a ha => h1 a (List.mem_cons_of_mem _ ha)) (fun a ha => h2 a (List.mem_cons_of_mem _ ha)) hr x hx

theorem forgotten {h es : List Event} {s s' : State} {os o' : List Out} {t : Thread} {k : Kind}
    (hr : run init (h ++ [.configure t k]) = some (s, os)) (hc : (view (h ++ [.configure t k])).calm = true) (hk : k ≠ .syncTime)
    (hes : ∀ e ∈ es, ∀ t, e ≠ .add t) (hes' : ∀ e ∈ es, ∀ t k, e ≠ .configure t k) (he : run s es = some (s', o')) :
    ∀ x ∈ o', isCall x = false := by
  cases hd : s.dead with
  | true =>
    cases es with
    | nil => cases he; simp
    | cons e es =>
      unfold run at he
      split at he
      · cases he
      · rename_i hs; have := step_alive hs; rw [hd] at this; cases this
  | false =>
    have i := inv_of_run hr hd
    refine forgotten_run es i hc ?_ ?_ hes hes' he
    · simp [view, List.foldl_append, View.next]
    · simp [view, List.foldl_append, View.next, hk]

theorem pending_le {h : List Event} {s : State} {o : List Out} (hr : run init h = some (s, o)) {p : Nat} {c : Int}
    (hp : (s.impl p).phase = .pending c) : p ≤ s.cur := by
  refine Nat.le_of_not_lt fun hlt => ?_
  have := run_future h hr (by intro q _; rfl) p hlt
  rw [hp] at this; cases this

/-- After a tick that gets the mutex. -/
theorem enter_now {s : State} {p : Nat} {c : Int} (hd : s.dead = false) (hp : (s.impl p).phase = .pending c) (hh : s.holder = none) :
    step s (.enter p) = some ({ set s p { s.impl p with phase := .inside } with holder := some (.timer p) },
      invokeAll s c (period (s.impl p).kind)) := by
  simp [step, hd, hp, hh]

/-- From a state in which nothing is under way, one tick leads to calls of all handlers. -/
theorem idle_ticks {s : State} {v : View} (i : Inv s v) (hd : s.dead = false) {k : Kind} (hm : v.mode = some k) (hj : s.joining = none)
    (hh : s.holder = none) (hp : (s.impl s.cur).phase = .idle) (c : Int) :
    ∃ s', run s [.tick s.cur c, .enter s.cur] = some (s', invokeAll s c (period k)) := by
  have hr := i.runs hj (by rw [hp]; intro h; cases h)
  obtain ⟨hk, ha⟩ := i.mode k hm
  have h1 : step s (.tick s.cur c) = some (set s s.cur { s.impl s.cur with phase := .pending c }, []) := by
    simp [step, hd, hp, hr, ha]
  have h2 := enter_now (s := set s s.cur { s.impl s.cur with phase := .pending c }) (p := s.cur) (c := c) hd (by simp [set]) hh
  have h3 := run_cons h1 (run_one h2)
  have h4 : invokeAll (set s s.cur { s.impl s.cur with phase := .pending c }) c
      (period ((set s s.cur { s.impl s.cur with phase := .pending c }).impl s.cur).kind) = invokeAll s c (period k) := by
    simp [set, invokeAll, hk]
  rw [h4] at h3
  exact ⟨_, h3⟩

/-- The same if the mutex is free. -/
theorem free_ticks {s : State} {v : View} (i : Inv s v) (hd : s.dead = false) {k : Kind} (hm : v.mode = some k) (hk : k ≠ .syncTime)
    (ha : v.addedSince = true) (hj : s.joining = none) (hh : s.holder = none) :
    ∃ es s' c, es.length ≤ 2 ∧ (∀ e ∈ es, steadyEvent e = true) ∧ run s es = some (s', invokeAll s c (period k)) := by
  obtain ⟨hk', _⟩ := i.mode k hm
  cases hp : (s.impl s.cur).phase with
  | none => exact absurd hp (i.alive ha (by rw [hk']; exact hk))
  | inside => have := (i.inside s.cur).mp hp; rw [hh] at this; cases this
  | pending c =>
    have h1 := enter_now hd hp hh
    rw [hk'] at h1
    exact ⟨[.enter s.cur], _, c, by simp, by simp [steadyEvent], run_one h1⟩
  | idle =>
    obtain ⟨s', h⟩ := idle_ticks i hd hm hj hh hp 0
    exact ⟨_, s', 0, by simp, by simp [steadyEvent], h⟩

theorem step_handlers {s s' : State} {e : Event} {o : List Out} (h : step s e = some (s', o)) (he : ∃ p, e = .leave p ∨ e = .exit p) :
    s'.handlers = s.handlers ∧ s'.dead = s.dead := by
  obtain ⟨p, rfl | rfl⟩ := he
  · unfold step at h
    split at h
    · cases h
    · dsimp only at h
      split at h <;> cases h
      exact ⟨rfl, rfl⟩
  · unfold step at h
    split at h
    · cases h
    · dsimp only at h
      split at h
      · split at h
        · split at h <;> cases h <;> exact ⟨rfl, rfl⟩
        · cases h; exact ⟨rfl, rfl⟩
      · cases h

/-- The same if no handler is being added. -/
theorem unjoined_ticks {s : State} {v : View} (i : Inv s v) (hd : s.dead = false) {k : Kind} (hm : v.mode = some k) (hk : k ≠ .syncTime)
    (ha : v.addedSince = true) (hj : s.joining = none) :
    ∃ es s' c, es.length ≤ 3 ∧ (∀ e ∈ es, steadyEvent e = true) ∧ run s es = some (s', invokeAll s c (period k)) := by
  cases hh : s.holder with
  | none =>
    obtain ⟨es, s', c, h1, h2, h3⟩ := free_ticks i hd hm hk ha hj hh
    exact ⟨es, s', c, by omega, h2, h3⟩
  | some t =>
    cases t with
    | app n => exact absurd hj (i.appJoins n hh)
    | timer p =>
      have hp := (i.inside p).mpr hh
      have hl : step s (.leave p) = some ({ set s p { s.impl p with phase := .idle } with holder := none }, []) := by
        simp [step, hd, hp, hj]
      have i' := inv_step i hl hd
      obtain ⟨es, s', c, h1, h2, h3⟩ := free_ticks i' hd (k := k) hm hk ha hj rfl
      refine ⟨.leave p :: es, s', c, by simp; omega, ?_, ?_⟩
      · intro e he
        rcases List.mem_cons.mp he with rfl | he
        · rfl
        · exact h2 e he
      · have := run_cons hl h3
        simpa [set, invokeAll] using this

end SilKit.TimeProvider
