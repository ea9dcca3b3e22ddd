import Verif.Spec.WallClock
/-!
# Lemmas about the coupling to the wall clock
-/
namespace SilKit.WallClock
open SilKit.TimeSync
open SilKit.WallClock.Spec

/-- What `ProcessSimulationTimeUpdate` did. -/
inductive Did (p : Part) (r : Part × List Out) : Prop
  | none : r.2 = [] → r.1.cfg = p.cfg → r.1.wallClock = p.wallClock → r.1.hopOnEvaluated = p.hopOnEvaluated → Did p r
  | step (d : Int) : p.hopOnEvaluated = true → r.1.hopOnEvaluated = true → r.2 = [.step p.cfg.next.tp d] → p.cfg.next.tp ≤ p.wallClock → r.1.wallClock = p.wallClock →
      r.1.cfg.next = ⟨p.cfg.next.tp + d, p.cfg.next.dur⟩ → r.1.cfg.current.tp = p.cfg.next.tp → r.1.cfg.others = p.cfg.others → d ≤ p.cfg.next.dur → Did p r
  | first (t d : Int) : p.hopOnEvaluated = false → r.1.hopOnEvaluated = true → r.2 = [.step t d] → r.1.wallClock = t →
      r.1.cfg.next = ⟨t + d, p.cfg.next.dur⟩ → r.1.cfg.current.tp = t → r.1.cfg.others = p.cfg.others → d ≤ p.cfg.next.dur → Did p r
  | aborted : p.hopOnEvaluated = false → r.1.hopOnEvaluated = true → r.2 = [.abort] → r.1.wallClock = p.wallClock → r.1.cfg = p.cfg.hopOn → Did p r

theorem nextCurrent_tp (c : TimeConfig) : c.nextCurrent.tp = c.next.tp := by
  unfold TimeConfig.nextCurrent
  dsimp only
  split <;> rfl

theorem nextCurrent_dur (c : TimeConfig) : c.nextCurrent.dur ≤ c.next.dur := by
  unfold TimeConfig.nextCurrent
  dsimp only
  split
  · rename_i h; exact Int.le_of_lt h.2
  · exact Int.le_refl _

theorem execute_eq (p : Part) : p.execute = ({ p with cfg := p.cfg.advance }, [.step p.cfg.next.tp p.cfg.nextCurrent.dur]) := by
  unfold Part.execute
  rw [show p.cfg.advance.current = p.cfg.nextCurrent from rfl, nextCurrent_tp]

theorem advance_did {p q : Part} (hc : p.coupled = true) (hp : p.cfg.next.tp ≤ p.wallClock) (hr : p.state = .running) (e1 : q.cfg = p.cfg)
    (e2 : q.wallClock = p.wallClock) (e3 : q.hopOnEvaluated = p.hopOnEvaluated) (e4 : q.coupled = p.coupled) (e5 : q.state = p.state) :
    Did p q.advanceAndExecute ∧ q.advanceAndExecute.1.coupled = true := by
  unfold Part.advanceAndExecute
  rw [if_pos (by rw [e5, hr]; exact .inr rfl)]
  split
  · rename_i hh
    rw [execute_eq]
    refine ⟨.step q.cfg.nextCurrent.dur (by rw [← e3]; exact hh) hh (by rw [e1]) hp e2 ?_ ?_ ?_ ?_, by rw [← hc, ← e4]⟩
    · show q.cfg.advance.next = _
      unfold TimeConfig.advance
      rw [nextCurrent_tp, e1]
    · show q.cfg.advance.current.tp = _
      unfold TimeConfig.advance
      rw [nextCurrent_tp, e1]
    · show q.cfg.advance.others = _
      rw [← e1]; rfl
    · rw [e1]; exact nextCurrent_dur _
  · rename_i hh
    have hh : q.hopOnEvaluated = false := by simpa using hh
    have hf : p.hopOnEvaluated = false := by rw [← e3]; exact hh
    split
    · split
      · exact ⟨.aborted hf rfl rfl e2 (by rw [e1]), by rw [← hc, ← e4]⟩
      · unfold Part.startWallClock
        rw [if_pos (by rw [← hc, ← e4])]
        rw [execute_eq]
        refine ⟨.first q.cfg.hopOn.next.tp q.cfg.hopOn.nextCurrent.dur hf rfl rfl rfl ?_ ?_ ?_ ?_, by rw [← hc, ← e4]⟩
        · show q.cfg.hopOn.advance.next = _
          unfold TimeConfig.advance
          rw [nextCurrent_tp, ← e1]
          rfl
        · show q.cfg.hopOn.advance.current.tp = _
          unfold TimeConfig.advance
          rw [nextCurrent_tp]
        · show q.cfg.hopOn.advance.others = _
          rw [← e1]; rfl
        · have := nextCurrent_dur q.cfg.hopOn
          rw [← e1]
          exact this
    · unfold Part.startWallClock
      rw [if_pos (by rw [← hc, ← e4])]
      rw [execute_eq]
      refine ⟨.first q.cfg.next.tp q.cfg.nextCurrent.dur hf rfl rfl rfl ?_ ?_ ?_ ?_, by rw [← hc, ← e4]⟩
      · show q.cfg.advance.next = _
        unfold TimeConfig.advance
        rw [nextCurrent_tp, e1]
      · show q.cfg.advance.current.tp = _
        unfold TimeConfig.advance
        rw [nextCurrent_tp]
      · show q.cfg.advance.others = _
        rw [← e1]; rfl
      · rw [e1]; exact nextCurrent_dur _

theorem did_ne {p : Part} {r : Part × List Out} (h : Did p r) {r' : Part × List Out} (e1 : r'.1.cfg = r.1.cfg) (e2 : r'.1.wallClock = r.1.wallClock)
    (e3 : r'.1.hopOnEvaluated = r.1.hopOnEvaluated) (e4 : r'.2 = r.2) : Did p r' := by
  cases h with
  | none h1 h2 h3 h4 => exact .none (by rw [e4, h1]) (by rw [e1, h2]) (by rw [e2, h3]) (by rw [e3, h4])
  | step d h1 h2 h3 h4 h5 h6 h7 h8 h9 => exact .step d h1 (by rw [e3, h2]) (by rw [e4, h3]) h4 (by rw [e2, h5]) (by rw [e1, h6]) (by rw [e1, h7]) (by rw [e1, h8]) h9
  | first t d h1 h2 h3 h4 h5 h6 h7 h8 => exact .first t d h1 (by rw [e3, h2]) (by rw [e4, h3]) (by rw [e2, h4]) (by rw [e1, h5]) (by rw [e1, h6]) (by rw [e1, h7]) h8
  | aborted h1 h2 h3 h4 h5 => exact .aborted h1 (by rw [e3, h2]) (by rw [e4, h3]) (by rw [e2, h4]) (by rw [e1, h5])

theorem afterSyncStep_coupled {p : Part} (hc : p.coupled = true) : p.afterSyncStep = (p, []) := by
  unfold Part.afterSyncStep
  rw [if_neg (by rw [hc]; simp)]

theorem process_did {p : Part} (hc : p.coupled = true) : Did p p.process ∧ p.process.1.coupled = true := by
  unfold Part.process
  split
  · rename_i ha
    simp only [Part.advancePossible, hc, Bool.and_eq_true, Bool.not_eq_true', Bool.true_and, beq_iff_eq, decide_eq_false_iff_not, Int.not_lt] at ha
    have hp : p.cfg.next.tp ≤ p.wallClock := ha.2
    have hr : p.state = .running := ha.1.1.1.1.1
    split
    · obtain ⟨h1, h2⟩ := advance_did (q := p) hc hp hr rfl rfl rfl rfl rfl
      unfold Part.advanceSync
      dsimp only
      split
      · rw [afterSyncStep_coupled h2, List.append_nil]
        exact ⟨h1, h2⟩
      · exact ⟨did_ne h1 rfl rfl rfl rfl, h2⟩
    · unfold Part.advanceAsync
      split
      · exact ⟨.none rfl rfl rfl rfl, hc⟩
      · exact advance_did (q := { p with asyncExecuting := true }) hc hp hr rfl rfl rfl rfl rfl
  · exact ⟨.none rfl rfl rfl rfl, hc⟩

/-! ### Logs -/

theorem started_append (a b : List Entry) : started (a ++ b) = started a ++ started b := List.filterMap_append ..

theorem fromFirst_append {a : List Entry} (b : List Entry) (h : started a ≠ []) : fromFirst (a ++ b) = fromFirst a ++ b := by
  unfold fromFirst
  induction a with
  | nil => exact absurd rfl h
  | cons e a ih =>
    rw [List.cons_append, List.dropWhile_cons, List.dropWhile_cons]
    cases he : stepOf e with
    | some x => simp
    | none =>
      have : started a ≠ [] := by
        intro h'
        apply h
        unfold started
        rw [List.filterMap_cons, he]
        exact h'
      simpa using ih this

theorem fromFirst_none {a : List Entry} (b : List Entry) (h : started a = []) : fromFirst (a ++ b) = fromFirst b := by
  unfold fromFirst
  induction a with
  | nil => rfl
  | cons e a ih =>
    unfold started at h
    rw [List.filterMap_cons] at h
    cases he : stepOf e with
    | some x => rw [he] at h; cases h
    | none =>
      rw [he] at h
      rw [List.cons_append, List.dropWhile_cons, he]
      simpa using ih h

/-- The bound for something at virtual time `t` and wall clock `x`. -/
def Within (num den slack t0 w0 t x : Int) : Prop := num * (t - t0) ≤ den * (x - w0) + num * slack

/-- What holds while the thread is there; `t0` and `w0` are the time of the first step. -/
structure Live (lo hi : Int) (w : World) (t0 w0 : Int) : Prop where
  hop : w.part.hopOnEvaluated = true
  first : ∃ rest, started w.log = (t0, w0) :: rest
  steps : ∀ x ∈ started w.log, Within w.num w.den (hi - lo) t0 w0 x.1 x.2
  told : ∀ x ∈ announced (fromFirst w.log), Within w.num w.den (hi - lo + hi) t0 w0 x.1 x.2
  next : w.part.cfg.next.tp ≤ w.part.wallClock + hi
  current : w.part.cfg.current.tp ≤ w.part.wallClock
  thread : (w.phase = .created ∧ w.part.wallClock = t0 ∧ w0 ≤ w.wall) ∨
    (w.phase ≠ .off ∧ w.phase ≠ .created ∧ w0 ≤ w.start ∧ w.start ≤ w.wall ∧ ∃ d0, lo ≤ d0 ∧ w.due = w.num * (w.part.wallClock - t0 + d0) ∧ w.due ≤ w.den * (w.wall - w.start) + w.num * hi)

structure Inv (lo hi : Int) (w : World) : Prop where
  coupled : w.part.coupled = true
  dur : lo ≤ w.part.cfg.next.dur ∧ w.part.cfg.next.dur ≤ hi
  others : ∀ e ∈ w.part.cfg.others, 0 ≤ e.2.dur
  num : 0 ≤ w.num
  den : 0 ≤ w.den
  pos : 0 ≤ lo
  state : (w.phase = .off ∧ w.part.wallClock = 0 ∧ started w.log = [] ∧ (w.part.hopOnEvaluated = true → 0 < w.part.cfg.next.tp)) ∨ ∃ t0 w0, Live lo hi w t0 w0

theorem within_now {lo hi : Int} {w : World} {t0 w0 : Int} (hi' : Inv lo hi w) (h : Live lo hi w t0 w0) : Within w.num w.den (hi - lo) t0 w0 w.part.wallClock w.wall := by
  unfold Within
  have hlohi : 0 ≤ hi - lo := by have := hi'.dur; omega
  have hn := Int.mul_nonneg hi'.num hlohi
  rcases h.thread with ⟨_, h1, h2⟩ | ⟨_, _, h1, _, d0, h2, h3, h4⟩
  · have := Int.mul_nonneg hi'.den (show 0 ≤ w.wall - w0 by omega)
    rw [h1, Int.sub_self, Int.mul_zero]
    omega
  · have e1 : w.num * (w.part.wallClock - t0 + d0) = w.num * (w.part.wallClock - t0) + w.num * d0 := Int.mul_add ..
    have e2 : w.num * lo ≤ w.num * d0 := Int.mul_le_mul_of_nonneg_left h2 hi'.num
    have e3 : w.den * (w.wall - w.start) ≤ w.den * (w.wall - w0) := Int.mul_le_mul_of_nonneg_left (by omega) hi'.den
    have e4 : w.num * (hi - lo) = w.num * hi - w.num * lo := Int.mul_sub ..
    omega

theorem within_mono {num den slack t0 w0 t t' x : Int} (hn : 0 ≤ num) (ht : t ≤ t') (h : Within num den slack t0 w0 t' x) : Within num den slack t0 w0 t x := by
  unfold Within at *
  have := Int.mul_le_mul_of_nonneg_left (show t - t0 ≤ t' - t0 by omega) hn
  omega

theorem within_add {num den slack t0 w0 t x : Int} (a : Int) (h : Within num den slack t0 w0 t x) : Within num den (slack + a) t0 w0 (t + a) x := by
  unfold Within at *
  have e1 : num * (t + a - t0) = num * (t - t0) + num * a := by rw [← Int.mul_add]; congr 1; omega
  have e2 : num * (slack + a) = num * slack + num * a := Int.mul_add ..
  omega

theorem hopOn_pos (c : TimeConfig) (h : ∀ e ∈ c.others, 0 ≤ e.2.dur) : 0 < c.hopOn.next.tp := by
  show 0 < c.ahead.foldl min maxNs
  have key : ∀ (l : List Int) (m : Int), 0 < m → (∀ x ∈ l, 0 < x) → 0 < l.foldl min m := by
    intro l
    induction l with
    | nil => intro m hm _; exact hm
    | cons x l ih =>
      intro m hm hl
      refine ih _ ?_ (fun y hy => hl y (List.mem_cons_of_mem _ hy))
      have := hl x (List.mem_cons_self ..)
      omega
  refine key _ _ (by unfold maxNs; omega) (fun x hx => ?_)
  unfold TimeConfig.ahead at hx
  obtain ⟨e, h1, rfl⟩ := List.mem_map.1 hx
  obtain ⟨h2, h3⟩ := List.mem_filter.1 h1
  have := h e h2
  simp only [decide_eq_true_eq] at h3
  omega

/-- A part that differs in nothing that matters. -/
structure Same (lo hi : Int) (p q : Part) : Prop where
  coupled : q.coupled = p.coupled
  wall : q.wallClock = p.wallClock
  hop : q.hopOnEvaluated = p.hopOnEvaluated
  next : q.cfg.next.tp = p.cfg.next.tp
  current : q.cfg.current.tp = p.cfg.current.tp
  dur : lo ≤ q.cfg.next.dur ∧ q.cfg.next.dur ≤ hi
  others : ∀ e ∈ q.cfg.others, 0 ≤ e.2.dur

theorem Inv.same {lo hi : Int} {w : World} (h : Inv lo hi w) : Same lo hi w.part w.part := ⟨rfl, rfl, rfl, rfl, rfl, h.dur, h.others⟩

/-- Outputs that are not steps, and announce what is known. -/
def Tells (p : Part) (outs : List Out) : Prop := ∀ o ∈ outs, (∃ t, o = .send t ∧ (t.tp = p.cfg.next.tp ∨ t.tp = p.cfg.current.tp)) ∨ o = .reportError

theorem tells_started {p : Part} {outs : List Out} (h : Tells p outs) (x : Int) : started (outs.map (⟨·, x⟩)) = [] := by
  unfold started
  rw [List.filterMap_eq_nil_iff]
  intro e he
  obtain ⟨o, ho, rfl⟩ := List.mem_map.1 he
  rcases h o ho with ⟨t, rfl, _⟩ | rfl <;> rfl

/-- Nothing but announcements. -/
theorem inv_tells {lo hi : Int} {w : World} (h : Inv lo hi w) {q : Part} {outs : List Out} (hs : Same lo hi w.part q) (ht : Tells q outs) (n : Nat) :
    Inv lo hi ({ w with requests := n }.took (q, outs)) := by
  have hst : started (w.log ++ outs.map (⟨·, w.wall⟩)) = started w.log := by rw [started_append, tells_started ht, List.append_nil]
  refine ⟨by rw [← h.coupled, ← hs.coupled]; rfl, hs.dur, hs.others, h.num, h.den, h.pos, ?_⟩
  rcases h.state with ⟨h1, h2, h3, h4⟩ | ⟨t0, w0, hl⟩
  · left
    exact ⟨h1, by rw [← h2, ← hs.wall]; rfl, hst.trans h3, fun hx => by
      show 0 < q.cfg.next.tp
      rw [hs.next]
      exact h4 (by rw [← hs.hop]; exact hx)⟩
  · right
    refine ⟨t0, w0, hs.hop.trans hl.hop, ?_, ?_, ?_, ?_, ?_, ?_⟩
    · obtain ⟨rest, hr⟩ := hl.first
      exact ⟨rest, hst.trans hr⟩
    · intro x hx
      change x ∈ started (w.log ++ outs.map (⟨·, w.wall⟩)) at hx
      rw [hst] at hx
      exact hl.steps x hx
    · intro x hx
      change x ∈ announced (fromFirst (w.log ++ outs.map (⟨·, w.wall⟩))) at hx
      obtain ⟨rest, hr⟩ := hl.first
      rw [fromFirst_append _ (by rw [hr]; simp)] at hx
      unfold announced at hx
      rw [List.filterMap_append] at hx
      rcases List.mem_append.1 hx with h1 | h1
      · exact hl.told x h1
      · obtain ⟨e, h2, h3⟩ := List.mem_filterMap.1 h1
        obtain ⟨o, ho, rfl⟩ := List.mem_map.1 h2
        have hnow := within_now h hl
        have hhi : 0 ≤ hi := by have := h.dur; have := h.pos; omega
        rcases ht o ho with ⟨t, rfl, h4⟩ | rfl
        · simp only [sendOf, Option.some.injEq] at h3
          subst h3
          refine within_mono (t' := w.part.wallClock + hi) h.num ?_ (within_add hi hnow)
          have := hl.next
          have := hl.current
          have := hs.next
          have := hs.current
          dsimp only
          rcases h4 with h4 | h4 <;> omega
        · simp [sendOf] at h3
    · show q.cfg.next.tp ≤ q.wallClock + hi
      rw [hs.next, hs.wall]; exact hl.next
    · show q.cfg.current.tp ≤ q.wallClock
      rw [hs.current, hs.wall]; exact hl.current
    · have : ((({ w with requests := n } : World).took (q, outs)).part).wallClock = w.part.wallClock := hs.wall
      rw [this]
      exact hl.thread

theorem begin_same {w : World} {p : Part} {outs : List Out} (h : w.part.hopOnEvaluated = p.hopOnEvaluated) : w.begin p outs = w := by
  unfold World.begin
  rw [if_neg]
  rintro ⟨h1, h2, _⟩
  rw [h, h1] at h2
  cases h2

/-- A call of `ProcessSimulationTimeUpdate`. -/
theorem inv_did {lo hi : Int} {w : World} (h : Inv lo hi w) {q : Part} {r : Part × List Out} (hs : Same lo hi w.part q) (hd : Did q r) (hc : r.1.coupled = true) :
    Inv lo hi ((w.took r).begin w.part r.2) := by
  cases hd with
  | none h1 h2 h3 h4 =>
    obtain ⟨q', outs⟩ := r
    dsimp only at h1 h2 h3 h4 hc
    subst h1
    rw [begin_same (by show q'.hopOnEvaluated = _; rw [h4, hs.hop])]
    exact inv_tells h (n := w.requests) ⟨by rw [hc, h.coupled], by rw [h3, hs.wall], by rw [h4, hs.hop], by rw [h2, hs.next], by rw [h2, hs.current], by rw [h2]; exact hs.dur, by rw [h2]; exact hs.others⟩
      (fun o ho => by cases ho)
  | step d h1 h2 h3 h4 h5 h6 h7 h8 h9 =>
    obtain ⟨q', outs⟩ := r
    dsimp only at h1 h2 h3 h4 h5 h6 h7 h8 hc
    subst h3
    rw [begin_same (by show q'.hopOnEvaluated = _; rw [h2, ← h1, hs.hop])]
    rcases h.state with ⟨g1, g2, g3, g4⟩ | ⟨t0, w0, hl⟩
    · exfalso
      have := g4 (by rw [← hs.hop]; exact h1)
      have := hs.next
      have := hs.wall
      omega
    · have hnow := within_now h hl
      refine ⟨hc, by show _ ≤ q'.cfg.next.dur ∧ q'.cfg.next.dur ≤ _; rw [h6]; exact hs.dur, by show ∀ e ∈ q'.cfg.others, _; rw [h8]; exact hs.others, h.num, h.den, h.pos, .inr ⟨t0, w0, h2, ?_, ?_, ?_, ?_, ?_, ?_⟩⟩
      · obtain ⟨rest, hr⟩ := hl.first
        refine ⟨rest ++ [(q.cfg.next.tp, w.wall)], ?_⟩
        show started (w.log ++ [_]) = _
        rw [started_append, hr]
        rfl
      · intro x hx
        change x ∈ started (w.log ++ [⟨.step q.cfg.next.tp d, w.wall⟩]) at hx
        rw [started_append] at hx
        rcases List.mem_append.1 hx with hx | hx
        · exact hl.steps x hx
        · change x ∈ [(q.cfg.next.tp, w.wall)] at hx
          rw [List.mem_singleton] at hx
          subst hx
          refine within_mono h.num ?_ hnow
          rw [← hs.wall]
          exact h4
      · intro x hx
        change x ∈ announced (fromFirst (w.log ++ [⟨.step q.cfg.next.tp d, w.wall⟩])) at hx
        obtain ⟨rest, hr⟩ := hl.first
        rw [fromFirst_append _ (by rw [hr]; simp)] at hx
        unfold announced at hx
        rw [List.filterMap_append] at hx
        rcases List.mem_append.1 hx with hx | hx
        · exact hl.told x hx
        · simp [sendOf] at hx
      · show q'.cfg.next.tp ≤ q'.wallClock + hi
        rw [h6, h5]
        have := hs.dur
        dsimp only
        omega
      · show q'.cfg.current.tp ≤ q'.wallClock
        rw [h7, h5]
        exact h4
      · have : (w.took (q', [.step q.cfg.next.tp d])).part.wallClock = w.part.wallClock := h5.trans hs.wall
        rw [this]
        exact hl.thread
  | first t d h1 h2 h3 h4 h5 h6 h7 h8 =>
    obtain ⟨q', outs⟩ := r
    dsimp only at h1 h2 h3 h4 h5 h6 h7 hc
    subst h3
    rcases h.state with ⟨g1, g2, g3, g4⟩ | ⟨t0, w0, hl⟩
    · have hb : (w.took (q', [.step t d])).begin w.part [.step t d] = { w.took (q', [.step t d]) with phase := .created } := by
        unfold World.begin
        rw [if_pos ⟨by rw [← hs.hop]; exact h1, h2, hc, by simp⟩]
      rw [hb]
      have hlohi : 0 ≤ hi - lo := by have := h.dur; omega
      have hn := Int.mul_nonneg h.num hlohi
      have hst : started (w.log ++ [⟨.step t d, w.wall⟩]) = [(t, w.wall)] := by rw [started_append, g3]; rfl
      refine ⟨hc, by show _ ≤ q'.cfg.next.dur ∧ q'.cfg.next.dur ≤ _; rw [h5]; exact hs.dur, by show ∀ e ∈ q'.cfg.others, _; rw [h7]; exact hs.others, h.num, h.den, h.pos, .inr ⟨t, w.wall, h2, ⟨[], hst⟩, ?_, ?_, ?_, ?_, ?_⟩⟩
      · intro x hx
        change x ∈ started (w.log ++ [⟨.step t d, w.wall⟩]) at hx
        rw [hst, List.mem_singleton] at hx
        subst hx
        show _ ≤ _
        dsimp only
        rw [Int.sub_self, Int.sub_self, Int.mul_zero, Int.mul_zero, Int.zero_add]
        exact hn
      · intro x hx
        change x ∈ announced (fromFirst (w.log ++ [⟨.step t d, w.wall⟩])) at hx
        rw [fromFirst_none _ g3] at hx
        cases hx
      · show q'.cfg.next.tp ≤ q'.wallClock + hi
        rw [h5, h4]
        have := hs.dur
        dsimp only
        omega
      · show q'.cfg.current.tp ≤ q'.wallClock
        rw [h6, h4]
        exact Int.le_refl _
      · exact .inl ⟨rfl, h4, Int.le_refl _⟩
    · exfalso
      have := hl.hop
      rw [← hs.hop, h1] at this
      cases this
  | aborted h1 h2 h3 h4 h5 =>
    obtain ⟨q', outs⟩ := r
    dsimp only at h1 h2 h3 h4 h5 hc
    subst h3
    have hb : (w.took (q', [.abort])).begin w.part [.abort] = w.took (q', [.abort]) := by
      unfold World.begin
      rw [if_neg (fun hx => hx.2.2.2 (List.mem_singleton.2 rfl))]
    rw [hb]
    rcases h.state with ⟨g1, g2, g3, g4⟩ | ⟨t0, w0, hl⟩
    · refine ⟨hc, by show _ ≤ q'.cfg.next.dur ∧ q'.cfg.next.dur ≤ _; rw [h5]; exact hs.dur, by show ∀ e ∈ q'.cfg.others, _; rw [h5]; exact hs.others, h.num, h.den, h.pos, .inl ⟨g1, ?_, ?_, ?_⟩⟩
      · show q'.wallClock = 0
        rw [h4, hs.wall, g2]
      · show started (w.log ++ [⟨.abort, w.wall⟩]) = []
        rw [started_append, g3]
        rfl
      · intro _
        show 0 < q'.cfg.next.tp
        rw [h5]
        exact hopOn_pos _ hs.others
    · exfalso
      have := hl.hop
      rw [← hs.hop, h1] at this
      cases this

theorem request_tells (p : Part) : Tells p.requestNextStep.1 p.requestNextStep.2 ∧ p.requestNextStep.1.cfg = p.cfg ∧ p.requestNextStep.1.wallClock = p.wallClock ∧
    p.requestNextStep.1.hopOnEvaluated = p.hopOnEvaluated ∧ p.requestNextStep.1.coupled = p.coupled := by
  unfold Part.requestNextStep
  split
  · refine ⟨fun o ho => ?_, rfl, rfl, rfl, rfl⟩
    dsimp only at ho
    split at ho
    · rw [List.mem_singleton] at ho; subst ho; exact .inl ⟨_, rfl, .inl rfl⟩
    · cases ho
  · exact ⟨(fun o ho => by cases ho), rfl, rfl, rfl, rfl⟩

theorem inv_request {lo hi : Int} {w : World} (h : Inv lo hi w) {q : Part} (hs : Same lo hi w.part q) (n : Nat) :
    Inv lo hi ({ w with requests := n }.took q.requestNextStep) := by
  obtain ⟨h1, h2, h3, h4, h5⟩ := request_tells q
  exact inv_tells h (q := q.requestNextStep.1) (outs := q.requestNextStep.2)
    ⟨by rw [h5, hs.coupled], by rw [h3, hs.wall], by rw [h4, hs.hop], by rw [h2, hs.next], by rw [h2, hs.current], by rw [h2]; exact hs.dur, by rw [h2]; exact hs.others⟩ h1 n

/-- Events that only announce. -/
theorem inv_event_tells {lo hi : Int} {w : World} (h : Inv lo hi w) {q : Part} {outs : List Out} (hs : Same lo hi w.part q) (ht : Tells q outs) :
    Inv lo hi ((w.took (q, outs)).begin w.part outs) := by
  rw [begin_same (by show q.hopOnEvaluated = _; rw [hs.hop])]
  exact inv_tells h hs ht w.requests

theorem inv_process {lo hi : Int} {w : World} (h : Inv lo hi w) {q : Part} (hs : Same lo hi w.part q) :
    Inv lo hi ((w.took q.process).begin w.part q.process.2) := by
  obtain ⟨h1, h2⟩ := process_did (p := q) (by rw [hs.coupled, h.coupled])
  exact inv_did h hs h1 h2

theorem no_tells (p : Part) : Tells p [] := fun o ho => by cases ho

theorem inv_event {lo hi : Int} {w w' : World} (h : Inv lo hi w) {e : Event} (hd : ∀ d, e = .setStepDuration d → lo ≤ d ∧ d ≤ hi) (ho : ∀ q t, e = .receive q t → 0 ≤ t.dur)
    (hw : w.event e = some w') : Inv lo hi w' := by
  have hs := h.same
  have key : ∀ r, w.part.on e = some r → w' = (w.took r).begin w.part r.2 → Inv lo hi w' := by
    intro r hr hw
    subst hw
    unfold Part.on at hr
    split at hr
    · cases hr
    · cases e with
      | lifecycle st stop pause => cases hr; exact inv_event_tells h ⟨hs.coupled, hs.wall, hs.hop, hs.next, hs.current, hs.dur, hs.others⟩ (no_tells _)
      | systemError b => cases hr; exact inv_event_tells h ⟨hs.coupled, hs.wall, hs.hop, hs.next, hs.current, hs.dur, hs.others⟩ (no_tells _)
      | wallClock t r => cases hw
      | request => cases hw
      | setStepDuration d =>
        dsimp only at hr
        unfold TimeConfig.setStepDuration at hr
        split at hr
        · cases hr
        · cases hr; exact inv_event_tells h ⟨hs.coupled, hs.wall, hs.hop, hs.next, hs.current, hd d rfl, hs.others⟩ (no_tells _)
      | setDynamic b => cases hr; exact inv_event_tells h ⟨hs.coupled, hs.wall, hs.hop, hs.next, hs.current, hs.dur, hs.others⟩ (no_tells _)
      | discovered q =>
        cases hr
        unfold Part.discovered
        have hn : (w.part.cfg.add q).next = w.part.cfg.next ∧ (w.part.cfg.add q).current = w.part.cfg.current ∧ ∀ e ∈ (w.part.cfg.add q).others, 0 ≤ e.2.dur := by
          unfold TimeConfig.add
          split
          · exact ⟨rfl, rfl, hs.others⟩
          · refine ⟨rfl, rfl, fun e he => ?_⟩
            rcases List.mem_append.1 he with h1 | h1
            · exact hs.others e h1
            · rw [List.mem_singleton] at h1; subst h1; exact Int.le_refl _
        refine inv_event_tells h ⟨hs.coupled, hs.wall, hs.hop, by dsimp only; rw [hn.1], by dsimp only; rw [hn.2.1], by dsimp only; rw [hn.1]; exact hs.dur, hn.2.2⟩ ?_
        intro o ho'
        dsimp only at ho'
        split at ho'
        · rw [List.mem_singleton] at ho'
          subst ho'
          left
          refine ⟨_, rfl, ?_⟩
          split
          · exact .inr rfl
          · exact .inl rfl
        · cases ho'
      | lost q =>
        cases hr
        unfold Part.lost
        split
        · exact inv_process h ⟨hs.coupled, hs.wall, hs.hop, hs.next, hs.current, hs.dur, fun e he => hs.others e (List.mem_filter.1 he).1⟩
        · exact inv_event_tells h hs (no_tells _)
      | receive q t =>
        cases hr
        have hs' : Same lo hi w.part { w.part with cfg := w.part.cfg.receive q t } := by
          refine ⟨hs.coupled, hs.wall, hs.hop, hs.next, hs.current, hs.dur, fun e he => ?_⟩
          obtain ⟨e', h1, rfl⟩ := List.mem_map.1 he
          split
          · exact ho q t rfl
          · exact hs.others e' h1
        unfold Part.receive
        dsimp only
        split
        · exact inv_process h hs'
        · exact inv_process h hs'
        · exact inv_event_tells h hs' (fun o ho' => by rw [List.mem_singleton] at ho'; exact .inr ho')
        · exact inv_event_tells h hs' (no_tells _)
      | poll =>
        dsimp only at hr
        split at hr
        · cases hr
        · cases hr
          exact inv_process h ⟨hs.coupled, hs.wall, hs.hop, hs.next, hs.current, hs.dur, hs.others⟩
      | stepReturned =>
        dsimp only at hr
        split at hr
        · cases hr
          rw [afterSyncStep_coupled (p := { w.part with inHandler := false }) h.coupled]
          exact inv_event_tells h ⟨hs.coupled, hs.wall, hs.hop, hs.next, hs.current, hs.dur, hs.others⟩ (no_tells _)
        · cases hr
      | complete =>
        cases hr
        unfold Part.complete
        dsimp only
        split
        · have hs' : Same lo hi w.part { w.part with asyncExecuting := false, wallClockReached := false } := ⟨hs.coupled, hs.wall, hs.hop, hs.next, hs.current, hs.dur, hs.others⟩
          have hx := inv_request h hs' w.requests
          rw [begin_same]
          · exact hx
          · exact (request_tells _).2.2.2.1
        · exact inv_event_tells h ⟨hs.coupled, hs.wall, hs.hop, hs.next, hs.current, hs.dur, hs.others⟩ (no_tells _)
  unfold World.event at hw
  split at hw
  · cases hw
  · cases hw
  · obtain ⟨r, h1, h2⟩ := Option.map_eq_some_iff.1 hw
    exact key r h1 h2.symm

theorem inv_step {lo hi : Int} {w w' : World} (h : Inv lo hi w) {o : Op} (hd : ∀ d, o = .event (.setStepDuration d) → lo ≤ d ∧ d ≤ hi)
    (ho : ∀ q t, o = .event (.receive q t) → 0 ≤ t.dur) (hw : w.step o = some w') : Inv lo hi w' := by
  cases o with
  | elapse d =>
    cases hw
    refine ⟨h.coupled, h.dur, h.others, h.num, h.den, h.pos, ?_⟩
    rcases h.state with h1 | ⟨t0, w0, hl⟩
    · exact .inl h1
    · refine .inr ⟨t0, w0, hl.hop, hl.first, hl.steps, hl.told, hl.next, hl.current, ?_⟩
      rcases hl.thread with ⟨h1, h2, h3⟩ | ⟨h1, h2, h3, h4, d0, h5, h6, h7⟩
      · left; refine ⟨h1, h2, ?_⟩; dsimp only; omega
      · right
        refine ⟨h1, h2, h3, by dsimp only; omega, d0, h5, h6, ?_⟩
        dsimp only
        have := Int.mul_le_mul_of_nonneg_left (show w.wall - w.start ≤ w.wall + d - w.start by omega) h.den
        omega
  | launch =>
    simp only [World.step] at hw
    split at hw
    · rename_i hp
      cases hw
      refine ⟨h.coupled, h.dur, h.others, h.num, h.den, h.pos, ?_⟩
      rcases h.state with ⟨h1, _⟩ | ⟨t0, w0, hl⟩
      · rw [h1] at hp; cases hp
      · refine .inr ⟨t0, w0, hl.hop, hl.first, hl.steps, hl.told, hl.next, hl.current, ?_⟩
        rcases hl.thread with ⟨h1, h2, h3⟩ | ⟨h1, h2, _⟩
        · right
          refine ⟨by simp, by simp, h3, Int.le_refl _, w.part.cfg.next.dur, h.dur.1, ?_, ?_⟩
          · dsimp only; rw [h2, Int.sub_self, Int.zero_add, Int.mul_comm]
          · dsimp only
            rw [Int.sub_self, Int.mul_zero, Int.zero_add, Int.mul_comm]
            exact Int.mul_le_mul_of_nonneg_left h.dur.2 h.num
        · exact absurd hp h2
    · cases hw
  | tick =>
    simp only [World.step] at hw
    split at hw
    · rename_i hp
      cases hw
      unfold World.move
      split
      · refine ⟨h.coupled, h.dur, h.others, h.num, h.den, h.pos, ?_⟩
        rcases h.state with ⟨h1, _⟩ | ⟨t0, w0, hl⟩
        · rw [h1] at hp; cases hp.1
        · have hpos : 0 ≤ w.part.cfg.next.dur := by have := h.dur; have := h.pos; omega
          refine .inr ⟨t0, w0, hl.hop, hl.first, hl.steps, hl.told, by have := hl.next; dsimp only; omega, by have := hl.current; dsimp only; omega, ?_⟩
          rcases hl.thread with ⟨h1, _⟩ | ⟨h1, h2, h3, h4, d0, h5, h6, h7⟩
          · rw [h1] at hp; cases hp.1
          · right
            refine ⟨by simp, by simp, h3, h4, d0, h5, ?_, ?_⟩
            · dsimp only
              rw [h6, Int.mul_comm _ w.num, ← Int.mul_add]
              congr 1
              omega
            · dsimp only
              have := Int.mul_le_mul_of_nonneg_left h.dur.2 h.num
              rw [Int.mul_comm w.part.cfg.next.dur]
              have := hp.2
              omega
      · exact h
    · cases hw
  | check =>
    simp only [World.step] at hw
    have hph : ∀ (ph : Phase) (n : Nat), w.phase = .moved → ph ≠ .off → ph ≠ .created → Inv lo hi { w with phase := ph, requests := n } := by
      intro ph n hp h1 h2
      refine ⟨h.coupled, h.dur, h.others, h.num, h.den, h.pos, ?_⟩
      rcases h.state with ⟨h3, _⟩ | ⟨t0, w0, hl⟩
      · rw [h3] at hp; cases hp
      · refine .inr ⟨t0, w0, hl.hop, hl.first, hl.steps, hl.told, hl.next, hl.current, ?_⟩
        rcases hl.thread with ⟨h3, _⟩ | ⟨_, _, h4⟩
        · rw [h3] at hp; cases hp
        · exact .inr ⟨h1, h2, h4⟩
    split at hw
    · rename_i hp
      split at hw
      · cases hw; exact hph .late w.requests hp (by simp) (by simp)
      · cases hw; exact hph .waiting (w.requests + 1) hp (by simp) (by simp)
    · cases hw
  | mark =>
    simp only [World.step] at hw
    split at hw
    · rename_i hp
      cases hw
      refine ⟨h.coupled, h.dur, h.others, h.num, h.den, h.pos, ?_⟩
      rcases h.state with ⟨h3, _⟩ | ⟨t0, w0, hl⟩
      · rw [h3] at hp; cases hp
      · refine .inr ⟨t0, w0, hl.hop, hl.first, hl.steps, hl.told, hl.next, hl.current, ?_⟩
        rcases hl.thread with ⟨h3, _⟩ | ⟨_, _, h4⟩
        · rw [h3] at hp; cases hp
        · exact .inr ⟨by simp, by simp, h4⟩
    · cases hw
  | ask =>
    cases hw
    refine ⟨h.coupled, h.dur, h.others, h.num, h.den, h.pos, ?_⟩
    rcases h.state with h1 | ⟨t0, w0, hl⟩
    · exact .inl h1
    · exact .inr ⟨t0, w0, hl.hop, hl.first, hl.steps, hl.told, hl.next, hl.current, hl.thread⟩
  | request =>
    simp only [World.step] at hw
    split at hw
    · cases hw
    · obtain ⟨r, h1, h2⟩ := Option.map_eq_some_iff.1 hw
      subst h2
      unfold Part.on at h1
      split at h1
      · cases h1
      · cases h1
        exact inv_request h h.same _
  | event e => exact inv_event h (fun d he => hd d (by rw [he])) (fun q t he => ho q t (by rw [he])) hw

theorem inv_run {lo hi : Int} {w : World} (h : Inv lo hi w) {os : List Op} (hd : Durations lo hi os) : Inv lo hi (w.run os) := by
  induction os generalizing w with
  | nil => exact h
  | cons o os ih =>
    show Inv lo hi (World.run ((w.step o).getD w) os)
    refine ih ?_ ⟨fun d hx => hd.1 d (List.mem_cons_of_mem _ hx), fun q t hx => hd.2 q t (List.mem_cons_of_mem _ hx)⟩
    cases hs : w.step o with
    | none => exact h
    | some w' => exact inv_step h (fun d he => hd.1 d (by rw [he]; exact List.mem_cons_self ..)) (fun q t he => hd.2 q t (by rw [he]; exact List.mem_cons_self ..)) hs

theorem inv_coupled (blocking coordinated : Bool) {num den d lo hi : Int} (hn : 0 ≤ num) (hd : 0 ≤ den) (hl : 0 ≤ lo) (h : lo ≤ d ∧ d ≤ hi) :
    Inv lo hi (coupled blocking coordinated num den d) :=
  ⟨rfl, h, fun e he => (nomatch he), hn, hd, hl, .inl ⟨rfl, rfl, rfl, fun hx => (nomatch hx)⟩⟩

theorem took_num (w : World) (r : Part × List Out) : (w.took r).num = w.num ∧ (w.took r).den = w.den := ⟨rfl, rfl⟩

theorem begin_num (w : World) (p : Part) (outs : List Out) : (w.begin p outs).num = w.num ∧ (w.begin p outs).den = w.den := by
  unfold World.begin
  split <;> exact ⟨rfl, rfl⟩

theorem step_num {w w' : World} {o : Op} (h : w.step o = some w') : w'.num = w.num ∧ w'.den = w.den := by
  cases o with
  | elapse d => cases h; exact ⟨rfl, rfl⟩
  | launch => simp only [World.step] at h; split at h <;> cases h; exact ⟨rfl, rfl⟩
  | tick => simp only [World.step] at h; split at h <;> cases h; unfold World.move; split <;> exact ⟨rfl, rfl⟩
  | check =>
    simp only [World.step] at h
    split at h
    · split at h <;> cases h <;> exact ⟨rfl, rfl⟩
    · cases h
  | mark => simp only [World.step] at h; split at h <;> cases h; exact ⟨rfl, rfl⟩
  | ask => cases h; exact ⟨rfl, rfl⟩
  | request =>
    simp only [World.step] at h
    split at h
    · cases h
    · obtain ⟨r, _, h2⟩ := Option.map_eq_some_iff.1 h
      subst h2
      exact ⟨rfl, rfl⟩
  | event e =>
    change w.event e = some w' at h
    unfold World.event at h
    split at h
    · cases h
    · cases h
    · obtain ⟨r, _, h2⟩ := Option.map_eq_some_iff.1 h
      subst h2
      exact begin_num _ _ _

theorem run_num (w : World) (os : List Op) : (w.run os).num = w.num ∧ (w.run os).den = w.den := by
  induction os generalizing w with
  | nil => exact ⟨rfl, rfl⟩
  | cons o os ih =>
    have := ih ((w.step o).getD w)
    change (World.run ((w.step o).getD w) os).num = _ ∧ (World.run ((w.step o).getD w) os).den = _
    rw [this.1, this.2]
    cases hs : w.step o with
    | none => exact ⟨rfl, rfl⟩
    | some w' => exact step_num hs

/-! ### Falling behind -/

/-- Pending requests for a step. -/
def pend (w : World) : Int :=
  w.requests + w.part.polls + (if w.part.wallClockReached then 1 else 0) + (if w.phase = .moved ∨ w.phase = .late then 1 else 0)

def debt (w : World) : Int := w.part.wallClock - w.part.cfg.next.tp - w.part.cfg.next.dur * pend w

structure Going (d : Int) (w : World) : Prop where
  coupled : w.part.coupled = true
  hop : w.part.hopOnEvaluated = true
  dur : w.part.cfg.next.dur = d

theorem request_pend (p : Part) : p.requestNextStep.1.polls ≤ p.polls + 1 ∧ p.requestNextStep.1.wallClockReached = p.wallClockReached := by
  unfold Part.requestNextStep
  split
  · exact ⟨Nat.le_refl _, rfl⟩
  · exact ⟨Nat.le_succ _, rfl⟩

theorem advance_keeps {q : Part} (hh : q.hopOnEvaluated = true) : q.advanceAndExecute.1.polls = q.polls ∧ q.advanceAndExecute.1.wallClockReached = q.wallClockReached := by
  unfold Part.advanceAndExecute
  split
  · exact ⟨rfl, rfl⟩
  · exact ⟨rfl, rfl⟩

theorem process_keeps {q : Part} (hc : q.coupled = true) (hh : q.hopOnEvaluated = true) : q.process.1.polls = q.polls ∧ q.process.1.wallClockReached = q.wallClockReached := by
  unfold Part.process
  split
  · rename_i ha
    simp only [Part.advancePossible, hc, Bool.and_eq_true, Bool.not_eq_true', Bool.true_and, beq_iff_eq, decide_eq_false_iff_not, Int.not_lt] at ha
    split
    · obtain ⟨h1, h2⟩ := advance_keeps hh
      obtain ⟨_, h3⟩ := advance_did (q := q) hc ha.2 ha.1.1.1.1.1 rfl rfl rfl rfl rfl
      unfold Part.advanceSync
      dsimp only
      split
      · rw [afterSyncStep_coupled h3]; exact ⟨h1, h2⟩
      · exact ⟨h1, h2⟩
    · unfold Part.advanceAsync
      split
      · exact ⟨rfl, rfl⟩
      · exact advance_keeps (q := { q with asyncExecuting := true }) hh
  · exact ⟨rfl, rfl⟩

theorem debt_le {w w' : World} {d : Int} (hd : 0 ≤ d) (h1 : w.part.cfg.next.dur = d) (h2 : w'.part.cfg.next.dur = d) (k : Int)
    (h : w.part.wallClock - w.part.cfg.next.tp + d * k ≤ w'.part.wallClock - w'.part.cfg.next.tp) (hp : pend w' ≤ pend w + k) : debt w ≤ debt w' := by
  unfold debt
  rw [h1, h2]
  have := Int.mul_le_mul_of_nonneg_left hp hd
  rw [Int.mul_add] at this
  omega

/-- Everything that happens by itself while a participant without others runs. -/
theorem going_step {d : Int} (hd : 0 ≤ d) {w w' : World} (h : Going d w) {o : Op}
    (ho : (∃ n, o = .elapse n) ∨ o = .tick ∨ o = .check ∨ o = .mark ∨ o = .request ∨ o = .event .poll ∨ o = .event .stepReturned ∨ o = .event .complete)
    (hw : w.step o = some w') : Going d w' ∧ debt w ≤ debt w' := by
  rcases ho with ⟨n, rfl⟩ | rfl | rfl | rfl | rfl | rfl | rfl | rfl
  · cases hw
    exact ⟨⟨h.coupled, h.hop, h.dur⟩, Int.le_refl _⟩
  · simp only [World.step] at hw
    split at hw
    · rename_i hp
      cases hw
      unfold World.move
      split
      · refine ⟨⟨h.coupled, h.hop, h.dur⟩, debt_le hd h.dur h.dur 1 ?_ ?_⟩
        · dsimp only; rw [h.dur]; omega
        · simp [pend, hp.1]
      · exact ⟨h, Int.le_refl _⟩
    · cases hw
  · simp only [World.step] at hw
    split at hw
    · rename_i hp
      split at hw
      · cases hw
        refine ⟨⟨h.coupled, h.hop, h.dur⟩, debt_le hd h.dur h.dur 0 (by simp) ?_⟩
        simp [pend, hp]
      · cases hw
        refine ⟨⟨h.coupled, h.hop, h.dur⟩, debt_le hd h.dur h.dur 0 (by simp) ?_⟩
        simp [pend, hp]
        omega
    · cases hw
  · simp only [World.step] at hw
    split at hw
    · rename_i hp
      cases hw
      refine ⟨⟨h.coupled, h.hop, h.dur⟩, debt_le hd h.dur h.dur 0 (by simp) ?_⟩
      simp only [pend, hp]
      split <;> simp <;> omega
    · cases hw
  · simp only [World.step] at hw
    split at hw
    · cases hw
    · rename_i hr
      obtain ⟨r, h1, h2⟩ := Option.map_eq_some_iff.1 hw
      subst h2
      unfold Part.on at h1
      split at h1
      · cases h1
      · cases h1
        obtain ⟨_, g2, g3, g4, g5⟩ := request_tells w.part
        obtain ⟨g6, g7⟩ := request_pend w.part
        refine ⟨⟨g5.trans h.coupled, g4.trans h.hop, ?_⟩, debt_le hd h.dur ?_ 0 ?_ ?_⟩
        · show w.part.requestNextStep.1.cfg.next.dur = d
          rw [g2]; exact h.dur
        · show w.part.requestNextStep.1.cfg.next.dur = d
          rw [g2]; exact h.dur
        · show _ ≤ w.part.requestNextStep.1.wallClock - w.part.requestNextStep.1.cfg.next.tp
          rw [g2, g3]; simp
        · unfold pend World.took
          dsimp only
          rw [g7]
          omega
  · obtain ⟨r, h1, h2⟩ := Option.map_eq_some_iff.1 hw
    subst h2
    unfold Part.on at h1
    split at h1
    · cases h1
    · dsimp only at h1
      split at h1
      · cases h1
      · rename_i hpolls
        cases h1
        generalize hq : ({ w.part with polls := w.part.polls - 1 } : Part) = q
        have e1 : q.cfg = w.part.cfg := by subst hq; rfl
        have e2 : q.wallClock = w.part.wallClock := by subst hq; rfl
        have e3 : q.hopOnEvaluated = true := by subst hq; exact h.hop
        have e4 : q.coupled = true := by subst hq; exact h.coupled
        have e5 : q.polls = w.part.polls - 1 := by subst hq; rfl
        have e6 : q.wallClockReached = w.part.wallClockReached := by subst hq; rfl
        obtain ⟨g1, g2⟩ := process_did e4
        obtain ⟨g3, g4⟩ := process_keeps e4 e3
        have hhop : q.process.1.hopOnEvaluated = true := by
          cases g1 with
          | none _ _ _ h4 => rw [h4, e3]
          | step _ _ h4 => exact h4
          | first _ _ _ h4 => exact h4
          | aborted _ h4 => exact h4
        rw [begin_same (by show q.process.1.hopOnEvaluated = _; rw [hhop, h.hop])]
        have hnext : q.process.1.cfg.next.dur = d ∧ q.process.1.wallClock = w.part.wallClock ∧ q.process.1.cfg.next.tp ≤ w.part.cfg.next.tp + d := by
          cases g1 with
          | none h1 h2 h3 h4 => rw [h2, e1, h3, e2]; exact ⟨h.dur, rfl, by omega⟩
          | step d' h1 h2 h3 h4 h5 h6 h7 h8 h9 =>
            rw [h6, h5, e1, e2]
            rw [e1, h.dur] at h9
            exact ⟨h.dur, rfl, by dsimp only; omega⟩
          | first t d' h1 => rw [e3] at h1; cases h1
          | aborted h1 => rw [e3] at h1; cases h1
        refine ⟨⟨g2, hhop, hnext.1⟩, debt_le hd h.dur hnext.1 (-1) ?_ ?_⟩
        · show _ ≤ q.process.1.wallClock - q.process.1.cfg.next.tp
          rw [hnext.2.1]
          have := hnext.2.2
          omega
        · unfold pend World.took
          dsimp only
          rw [g3, g4, e5, e6]
          omega
  · obtain ⟨r, h1, h2⟩ := Option.map_eq_some_iff.1 hw
    subst h2
    unfold Part.on at h1
    split at h1
    · cases h1
    · dsimp only at h1
      split at h1
      · cases h1
        rw [afterSyncStep_coupled (p := { w.part with inHandler := false }) h.coupled, begin_same (by rfl)]
        exact ⟨⟨h.coupled, h.hop, h.dur⟩, Int.le_refl _⟩
      · cases h1
  · obtain ⟨r, h1, h2⟩ := Option.map_eq_some_iff.1 hw
    subst h2
    unfold Part.on at h1
    split at h1
    · cases h1
    · cases h1
      unfold Part.complete
      dsimp only
      split
      · rename_i hx
        have hx : w.part.wallClockReached = true := by
          rcases hx with hx | hx
          · rw [h.coupled] at hx; cases hx
          · exact hx
        generalize hq : ({ w.part with asyncExecuting := false, wallClockReached := false } : Part) = q
        obtain ⟨_, g2, g3, g4, g5⟩ := request_tells q
        obtain ⟨g6, g7⟩ := request_pend q
        have e1 : q.cfg = w.part.cfg := by subst hq; rfl
        have e2 : q.wallClock = w.part.wallClock := by subst hq; rfl
        have e3 : q.hopOnEvaluated = w.part.hopOnEvaluated := by subst hq; rfl
        have e4 : q.coupled = true := by subst hq; exact h.coupled
        have e5 : q.polls = w.part.polls := by subst hq; rfl
        have e6 : q.wallClockReached = false := by subst hq; rfl
        rw [begin_same (by show q.requestNextStep.1.hopOnEvaluated = _; rw [g4, e3])]
        refine ⟨⟨g5.trans e4, (g4.trans e3).trans h.hop, ?_⟩, debt_le hd h.dur ?_ 0 ?_ ?_⟩
        · show q.requestNextStep.1.cfg.next.dur = d
          rw [g2, e1]; exact h.dur
        · show q.requestNextStep.1.cfg.next.dur = d
          rw [g2, e1]; exact h.dur
        · show _ ≤ q.requestNextStep.1.wallClock - q.requestNextStep.1.cfg.next.tp
          rw [g2, g3, e1, e2]; simp
        · unfold pend World.took
          dsimp only
          rw [g7, e6, hx]
          rw [e5] at g6
          simp
          omega
      · rw [begin_same (by rfl)]
        exact ⟨⟨h.coupled, h.hop, h.dur⟩, Int.le_refl _⟩

theorem going_run {d : Int} (hd : 0 ≤ d) {w : World} (h : Going d w) {os : List Op}
    (ho : ∀ o ∈ os, (∃ n, o = .elapse n) ∨ o = .tick ∨ o = .check ∨ o = .mark ∨ o = .request ∨ o = .event .poll ∨ o = .event .stepReturned ∨ o = .event .complete) :
    Going d (w.run os) ∧ debt w ≤ debt (w.run os) := by
  induction os generalizing w with
  | nil => exact ⟨h, Int.le_refl _⟩
  | cons o os ih =>
    have hstep : Going d ((w.step o).getD w) ∧ debt w ≤ debt ((w.step o).getD w) := by
      cases hs : w.step o with
      | none => exact ⟨h, Int.le_refl _⟩
      | some w' => exact going_step hd h (ho o (List.mem_cons_self ..)) hs
    obtain ⟨h1, h2⟩ := ih hstep.1 (fun o' ho' => ho o' (List.mem_cons_of_mem _ ho'))
    exact ⟨h1, Int.le_trans hstep.2 h2⟩

/-! ### Rounds -/

/-- A participant without others that runs, where nothing is pending. -/
structure Ready (d : Int) (w : World) : Prop where
  state : w.part.state = .running
  stop : w.part.stopRequested = false
  pause : w.part.pauseRequested = false
  error : w.part.systemError = false
  coupled : w.part.coupled = true
  reached : w.part.wallClockReached = false
  executing : w.part.asyncExecuting = false
  hop : w.part.hopOnEvaluated = true
  inHandler : w.part.inHandler = false
  polls : w.part.polls = 0
  others : w.part.cfg.others = []
  dur : w.part.cfg.next.dur = d
  requests : w.requests = 0
  phase : w.phase = .waiting

theorem advance_alone {c : TimeConfig} (h : c.others = []) (hd : c.next.dur ≤ maxNs) : c.nextCurrent = c.next := by
  unfold TimeConfig.nextCurrent TimeConfig.minimalAligned
  dsimp only
  rw [h]
  simp only [List.isEmpty_nil, if_true]
  rw [if_neg (by omega)]

theorem process_alone {p : Part} (h1 : p.state = .running) (h2 : p.stopRequested = false) (h3 : p.pauseRequested = false) (h4 : p.systemError = false)
    (h5 : p.coupled = true) (h6 : p.hopOnEvaluated = true) (h7 : p.cfg.others = []) (h8 : p.cfg.next.dur ≤ maxNs) (h9 : p.cfg.next.tp ≤ p.wallClock) (h10 : p.asyncExecuting = false) :
    p.process = (if p.cfg.blocking then { p with cfg := { p.cfg with current := p.cfg.next, next := ⟨p.cfg.next.tp + p.cfg.next.dur, p.cfg.next.dur⟩ }, inHandler := true }
      else { p with cfg := { p.cfg with current := p.cfg.next, next := ⟨p.cfg.next.tp + p.cfg.next.dur, p.cfg.next.dur⟩ }, asyncExecuting := true },
      [.step p.cfg.next.tp p.cfg.next.dur]) := by
  have hadv : p.advancePossible = true := by
    simp [Part.advancePossible, h1, h2, h3, h4, h5, TimeConfig.otherLower, h7]
    omega
  have hae : ∀ q : Part, q.state = .running → q.hopOnEvaluated = true → q.cfg = p.cfg → q.advanceAndExecute =
      ({ q with cfg := { p.cfg with current := p.cfg.next, next := ⟨p.cfg.next.tp + p.cfg.next.dur, p.cfg.next.dur⟩ } }, [.step p.cfg.next.tp p.cfg.next.dur]) := by
    intro q g1 g2 g3
    unfold Part.advanceAndExecute
    rw [if_pos (.inr g1), if_pos g2, execute_eq]
    unfold TimeConfig.advance
    rw [g3, advance_alone h7 h8]
  unfold Part.process
  rw [if_pos hadv]
  split
  · rename_i hb
    unfold Part.advanceSync
    rw [hae p h1 h6 rfl]
    simp
  · rename_i hb
    unfold Part.advanceAsync
    rw [h10]
    rw [if_neg (by simp), hae { p with asyncExecuting := true } h1 h6 rfl]

theorem run_cons (w : World) (o : Op) (os : List Op) {w' : World} (h : w.step o = some w') : w.run (o :: os) = w'.run os := by
  show World.run ((w.step o).getD w) os = _
  rw [h]
  rfl

theorem run_append (w : World) (a b : List Op) : w.run (a ++ b) = (w.run a).run b := List.foldl_append ..

theorem round_spec {d : Int} {w : World} (h : Ready d w) (hd : d ≤ maxNs) (e : Nat) (hdue : w.due ≤ w.den * (w.wall + e - w.start))
    (hnext : w.part.cfg.next.tp ≤ w.part.wallClock + d) :
    ∃ w', w.run (round w.part.cfg.blocking e) = w' ∧ Ready d w' ∧ w'.part.cfg.blocking = w.part.cfg.blocking ∧ w'.wall = w.wall + e ∧ w'.due = w.due + d * w.num ∧
      w'.start = w.start ∧ w'.num = w.num ∧ w'.den = w.den ∧ w'.part.wallClock = w.part.wallClock + d ∧ w'.part.cfg.next.tp = w.part.cfg.next.tp + d ∧
      started w'.log = started w.log ++ [(w.part.cfg.next.tp, w.wall + e)] := by
  obtain ⟨s1, s2, s3, s4, s5, s6, s7, s8, s9, s10, s11, s12, s13, s14⟩ := h
  obtain ⟨p, num, den, wall, ph, start, due, req, log⟩ := w
  dsimp only at *
  subst s13 s14 s12
  unfold round
  rw [run_cons _ _ _ rfl]
  rw [run_cons _ _ _ (w' := ⟨{ p with wallClock := p.wallClock + p.cfg.next.dur }, num, den, wall + e, .moved, start, due + p.cfg.next.dur * num, 0, log⟩)
    (by simp only [World.step]; rw [if_pos (by simpa using hdue)]; unfold World.move; dsimp only; rw [if_pos s1])]
  rw [run_cons _ _ _ (w' := ⟨{ p with wallClock := p.wallClock + p.cfg.next.dur }, num, den, wall + e, .waiting, start, due + p.cfg.next.dur * num, 1, log⟩)
    (by simp [World.step, s7])]
  obtain ⟨log1, hreq, hlog1⟩ : ∃ log1, (World.step ⟨{ p with wallClock := p.wallClock + p.cfg.next.dur }, num, den, wall + e, .waiting, start, due + p.cfg.next.dur * num, 1, log⟩ .request)
      = some ⟨{ p with wallClock := p.wallClock + p.cfg.next.dur, lastSent := p.cfg.next.tp, polls := 1 }, num, den, wall + e, .waiting, start, due + p.cfg.next.dur * num, 0, log1⟩ ∧ started log1 = started log := by
    refine ⟨log ++ (if p.lastSent ≠ p.cfg.next.tp then [Out.send p.cfg.next] else []).map (⟨·, wall + e⟩), ?_, ?_⟩
    · simp [World.step, Part.on, Part.requestNextStep, World.took, s1, s2, s3, s9, s10]
    · rw [started_append]
      split <;> simp [started, stepOf]
  rw [run_cons _ _ _ hreq]
  have hproc := process_alone (p := { p with wallClock := p.wallClock + p.cfg.next.dur, lastSent := p.cfg.next.tp, polls := 0 }) s1 s2 s3 s4 s5 s8 s11 hd hnext s7
  have hpoll : World.step ⟨{ p with wallClock := p.wallClock + p.cfg.next.dur, lastSent := p.cfg.next.tp, polls := 1 }, num, den, wall + e, .waiting, start, due + p.cfg.next.dur * num, 0, log1⟩ (.event .poll)
      = some ⟨(if p.cfg.blocking then { p with wallClock := p.wallClock + p.cfg.next.dur, lastSent := p.cfg.next.tp, polls := 0, cfg := { p.cfg with current := p.cfg.next, next := ⟨p.cfg.next.tp + p.cfg.next.dur, p.cfg.next.dur⟩ }, inHandler := true }
        else { p with wallClock := p.wallClock + p.cfg.next.dur, lastSent := p.cfg.next.tp, polls := 0, cfg := { p.cfg with current := p.cfg.next, next := ⟨p.cfg.next.tp + p.cfg.next.dur, p.cfg.next.dur⟩ }, asyncExecuting := true }),
        num, den, wall + e, .waiting, start, due + p.cfg.next.dur * num, 0, log1 ++ [⟨.step p.cfg.next.tp p.cfg.next.dur, wall + e⟩]⟩ := by
    have hon : Part.on { p with wallClock := p.wallClock + p.cfg.next.dur, lastSent := p.cfg.next.tp, polls := 1 } .poll =
        some (Part.process { p with wallClock := p.wallClock + p.cfg.next.dur, lastSent := p.cfg.next.tp, polls := 0 }) := by
      unfold Part.on
      rw [if_neg (by simp [s9])]
      rfl
    simp only [World.step, World.event]
    rw [hon, hproc]
    dsimp only [Option.map_some]
    rw [begin_same (by cases hb : p.cfg.blocking <;> simp [World.took])]
    simp [World.took]
  rw [run_cons _ _ _ hpoll]
  cases hb : p.cfg.blocking with
  | true =>
    refine ⟨_, rfl, ?_⟩
    rw [run_cons _ _ _ (w' := ⟨{ p with wallClock := p.wallClock + p.cfg.next.dur, lastSent := p.cfg.next.tp, polls := 0, cfg := { p.cfg with current := p.cfg.next, next := ⟨p.cfg.next.tp + p.cfg.next.dur, p.cfg.next.dur⟩ }, inHandler := false },
      num, den, wall + e, .waiting, start, due + p.cfg.next.dur * num, 0, log1 ++ [⟨.step p.cfg.next.tp p.cfg.next.dur, wall + e⟩]⟩)
      (by simp [World.step, World.event, Part.on, Event.onIoThread, Part.afterSyncStep, s5, World.took, World.begin])]
    refine ⟨⟨s1, s2, s3, s4, s5, s6, s7, s8, rfl, rfl, s11, rfl, rfl, rfl⟩, hb, rfl, rfl, rfl, rfl, rfl, rfl, rfl, ?_⟩
    show started (log1 ++ _) = _
    rw [started_append, hlog1]
    rfl
  | false =>
    refine ⟨_, rfl, ?_⟩
    rw [run_cons _ _ _ (w' := ⟨{ p with wallClock := p.wallClock + p.cfg.next.dur, lastSent := p.cfg.next.tp, polls := 0, cfg := { p.cfg with current := p.cfg.next, next := ⟨p.cfg.next.tp + p.cfg.next.dur, p.cfg.next.dur⟩ }, asyncExecuting := false },
      num, den, wall + e, .waiting, start, due + p.cfg.next.dur * num, 0, log1 ++ [⟨.step p.cfg.next.tp p.cfg.next.dur, wall + e⟩]⟩)
      (by simp [World.step, World.event, Part.on, s9, Part.complete, s5, s6, World.took, World.begin])]
    refine ⟨⟨s1, s2, s3, s4, s5, s6, rfl, s8, s9, rfl, s11, rfl, rfl, rfl⟩, hb, rfl, rfl, rfl, rfl, rfl, rfl, rfl, ?_⟩
    show started (log1 ++ _) = _
    rw [started_append, hlog1]
    rfl

theorem latePeriod_spec {w : World} (h1 : w.part.state = .running) (h2 : w.part.asyncExecuting = true) (h3 : w.phase = .waiting) (e : Nat) (hdue : w.due ≤ w.den * (w.wall + e - w.start)) :
    w.run (latePeriod e) = { w with part := { w.part with wallClock := w.part.wallClock + w.part.cfg.next.dur, wallClockReached := true }, wall := w.wall + e, due := w.due + w.part.cfg.next.dur * w.num } := by
  obtain ⟨p, num, den, wall, ph, start, due, req, log⟩ := w
  dsimp only at *
  subst h3
  unfold latePeriod
  rw [run_cons _ _ _ rfl]
  rw [run_cons _ _ _ (w' := ⟨{ p with wallClock := p.wallClock + p.cfg.next.dur }, num, den, wall + e, .moved, start, due + p.cfg.next.dur * num, req, log⟩)
    (by simp only [World.step]; rw [if_pos (by simpa using hdue)]; unfold World.move; dsimp only; rw [if_pos h1])]
  rw [run_cons _ _ _ (w' := ⟨{ p with wallClock := p.wallClock + p.cfg.next.dur }, num, den, wall + e, .late, start, due + p.cfg.next.dur * num, req, log⟩)
    (by simp [World.step, h2])]
  rfl

theorem latePeriods_spec {d : Int} {w : World} (h1 : w.part.state = .running) (h2 : w.part.asyncExecuting = true) (h3 : w.phase = .waiting) (hd : w.part.cfg.next.dur = d) (e : Nat)
    (he : w.num * d ≤ w.den * e) (hdue : w.due ≤ w.den * (w.wall - w.start) + w.num * d) (n : Nat) :
    ∃ due', w.run (latePeriods e (n + 1)) = { w with part := { w.part with wallClock := w.part.wallClock + (n + 1) * d, wallClockReached := true }, wall := w.wall + (n + 1) * e, due := due' } ∧
      due' ≤ w.den * (w.wall + (n + 1) * e - w.start) + w.num * d := by
  have key : ∀ {v : World}, v.due ≤ v.den * (v.wall - v.start) + w.num * d → v.den = w.den → v.due ≤ v.den * (v.wall + e - v.start) := by
    intro v hv hden
    have : v.den * (v.wall + e - v.start) = v.den * (v.wall - v.start) + v.den * e := by rw [← Int.mul_add]; congr 1; omega
    rw [hden] at hv this ⊢
    omega
  induction n with
  | zero =>
    refine ⟨w.due + d * w.num, ?_, ?_⟩
    · show w.run ([] ++ latePeriod e) = _
      rw [List.nil_append, latePeriod_spec h1 h2 h3 e (key hdue rfl), hd]
      simp
    · have := key hdue rfl
      rw [Int.mul_comm d]
      simp only [Int.natCast_zero, Int.zero_add, Int.one_mul]
      omega
  | succ n ih =>
    obtain ⟨due', g1, g2⟩ := ih
    refine ⟨due' + d * w.num, ?_, ?_⟩
    · show w.run (latePeriods e (n + 1) ++ latePeriod e) = _
      rw [run_append, g1, latePeriod_spec (w := { w with part := { w.part with wallClock := w.part.wallClock + (n + 1) * d, wallClockReached := true }, wall := w.wall + (n + 1) * e, due := due' }) h1 h2 h3 e
        (key (v := { w with wall := w.wall + (n + 1) * e, due := due' }) g2 rfl)]
      dsimp only
      rw [hd]
      have hx : w.part.wallClock + (↑n + 1) * d + d = w.part.wallClock + (↑(n + 1) + 1) * d := by
        rw [Int.natCast_add, Int.add_mul, Int.add_mul, Int.add_mul]; simp; omega
      have hy : w.wall + (↑n + 1) * ↑e + ↑e = w.wall + (↑(n + 1) + 1) * ↑e := by
        rw [Int.natCast_add, Int.add_mul, Int.add_mul, Int.add_mul]; simp; omega
      rw [hx, hy]
    · have h4 := key (v := { w with wall := w.wall + (n + 1) * e, due := due' }) g2 rfl
      dsimp only at h4
      have hy : w.wall + (↑n + 1) * ↑e + ↑e = w.wall + (↑(n + 1) + 1) * ↑e := by
        rw [Int.natCast_add, Int.add_mul, Int.add_mul, Int.add_mul]; simp; omega
      rw [hy] at h4
      rw [Int.mul_comm d]
      omega

/-- The step is completed, and the next one is executed at once. -/
theorem catchUp_spec {d : Int} {w : World} (hb : w.part.cfg.blocking = false) (s1 : w.part.state = .running) (s2 : w.part.stopRequested = false) (s3 : w.part.pauseRequested = false) (s4 : w.part.systemError = false)
    (s5 : w.part.coupled = true) (s6 : w.part.wallClockReached = true) (s8 : w.part.hopOnEvaluated = true) (s9 : w.part.inHandler = false) (s10 : w.part.polls = 0)
    (s11 : w.part.cfg.others = []) (s12 : w.part.cfg.next.dur = d) (s13 : w.requests = 0) (s14 : w.phase = .waiting) (hd : d ≤ maxNs) (hnext : w.part.cfg.next.tp ≤ w.part.wallClock) :
    ∃ w', w.run [.event .complete, .event .poll, .event .complete] = w' ∧ Ready d w' ∧ w'.part.cfg.blocking = false ∧ w'.wall = w.wall ∧ w'.due = w.due ∧
      w'.start = w.start ∧ w'.num = w.num ∧ w'.den = w.den ∧ w'.part.wallClock = w.part.wallClock ∧ w'.part.cfg.next.tp = w.part.cfg.next.tp + d ∧
      started w'.log = started w.log ++ [(w.part.cfg.next.tp, w.wall)] := by
  obtain ⟨p, num, den, wall, ph, start, due, req, log⟩ := w
  dsimp only at *
  subst s13 s14 s12
  obtain ⟨log1, hcomp, hlog1⟩ : ∃ log1, (World.step ⟨p, num, den, wall, .waiting, start, due, 0, log⟩ (.event .complete))
      = some ⟨{ p with asyncExecuting := false, wallClockReached := false, lastSent := p.cfg.next.tp, polls := 1 }, num, den, wall, .waiting, start, due, 0, log1⟩ ∧ started log1 = started log := by
    refine ⟨log ++ (if p.lastSent ≠ p.cfg.next.tp then [Out.send p.cfg.next] else []).map (⟨·, wall⟩), ?_, ?_⟩
    · simp [World.step, World.event, Part.on, Part.complete, Part.requestNextStep, World.took, World.begin, s1, s2, s3, s6, s8, s9, s10]
    · rw [started_append]
      split <;> simp [started, stepOf]
  rw [run_cons _ _ _ hcomp]
  have hproc := process_alone (p := { p with asyncExecuting := false, wallClockReached := false, lastSent := p.cfg.next.tp, polls := 0 }) s1 s2 s3 s4 s5 s8 s11 hd hnext rfl
  have hpoll : World.step ⟨{ p with asyncExecuting := false, wallClockReached := false, lastSent := p.cfg.next.tp, polls := 1 }, num, den, wall, .waiting, start, due, 0, log1⟩ (.event .poll)
      = some ⟨{ p with wallClockReached := false, lastSent := p.cfg.next.tp, polls := 0, cfg := { p.cfg with current := p.cfg.next, next := ⟨p.cfg.next.tp + p.cfg.next.dur, p.cfg.next.dur⟩ }, asyncExecuting := true },
        num, den, wall, .waiting, start, due, 0, log1 ++ [⟨.step p.cfg.next.tp p.cfg.next.dur, wall⟩]⟩ := by
    have hon : Part.on { p with asyncExecuting := false, wallClockReached := false, lastSent := p.cfg.next.tp, polls := 1 } .poll =
        some (Part.process { p with asyncExecuting := false, wallClockReached := false, lastSent := p.cfg.next.tp, polls := 0 }) := by
      unfold Part.on
      rw [if_neg (by simp [s9])]
      rfl
    simp only [World.step, World.event]
    rw [hon, hproc]
    dsimp only [Option.map_some]
    rw [begin_same (by simp [World.took, hb])]
    simp [World.took, hb]
  rw [run_cons _ _ _ hpoll]
  refine ⟨_, rfl, ?_⟩
  rw [run_cons _ _ _ (w' := ⟨{ p with wallClockReached := false, lastSent := p.cfg.next.tp, polls := 0, cfg := { p.cfg with current := p.cfg.next, next := ⟨p.cfg.next.tp + p.cfg.next.dur, p.cfg.next.dur⟩ }, asyncExecuting := false },
    num, den, wall, .waiting, start, due, 0, log1 ++ [⟨.step p.cfg.next.tp p.cfg.next.dur, wall⟩]⟩)
    (by simp [World.step, World.event, Part.on, s9, Part.complete, s5, World.took, World.begin])]
  refine ⟨⟨s1, s2, s3, s4, s5, rfl, rfl, s8, s9, rfl, s11, rfl, rfl, rfl⟩, hb, rfl, rfl, rfl, rfl, rfl, rfl, rfl, ?_⟩
  show started (log1 ++ _) = _
  rw [started_append, hlog1]
  rfl

theorem rounds_spec {d : Int} {w : World} (h : Ready d w) (hd : d ≤ maxNs) (e : Nat) (he : w.num * d ≤ w.den * e) (hdue : w.due ≤ w.den * (w.wall - w.start) + w.num * d)
    (hnext : w.part.cfg.next.tp ≤ w.part.wallClock + d) (n : Nat) :
    ∃ w', w.run (rounds w.part.cfg.blocking e n) = w' ∧ Ready d w' ∧ w'.part.cfg.blocking = w.part.cfg.blocking ∧ w'.wall = w.wall + n * e ∧
      w'.due ≤ w.den * (w'.wall - w.start) + w.num * d ∧ w'.start = w.start ∧ w'.num = w.num ∧ w'.den = w.den ∧
      w'.part.wallClock = w.part.wallClock + n * d ∧ w'.part.cfg.next.tp = w.part.cfg.next.tp + n * d ∧
      started w'.log = started w.log ++ (List.range n).map (fun (i : Nat) => (w.part.cfg.next.tp + i * d, w.wall + (i + 1) * e)) := by
  induction n with
  | zero => exact ⟨w, rfl, h, rfl, by simp, hdue, rfl, rfl, rfl, by simp, by simp, by simp⟩
  | succ n ih =>
    obtain ⟨w1, g1, g2, g3, g4, g5, g6, g7, g8, g9, g10, g11⟩ := ih
    have hdue' : w1.due ≤ w1.den * (w1.wall + e - w1.start) := by
      rw [g8, g6]
      have : w.den * (w1.wall + e - w.start) = w.den * (w1.wall - w.start) + w.den * e := by rw [← Int.mul_add]; congr 1; omega
      omega
    obtain ⟨w2, k1, k2, k3, k4, k5, k6, k7, k8, k9, k10, k11⟩ := round_spec g2 hd e hdue' (by rw [g9, g10]; omega)
    have hmul : ∀ x : Int, ((n + 1 : Nat) : Int) * x = n * x + x := fun x => by rw [Int.natCast_add, Int.add_mul]; simp
    refine ⟨w2, ?_, k2, k3.trans g3, ?_, ?_, k6.trans g6, k7.trans g7, k8.trans g8, ?_, ?_, ?_⟩
    · show w.run (rounds w.part.cfg.blocking e n ++ round w.part.cfg.blocking e) = w2
      rw [run_append, g1, ← g3, k1]
    · rw [k4, g4, hmul]; omega
    · rw [k5, k4, g7]
      have : w.den * (w1.wall + e - w.start) = w.den * (w1.wall - w.start) + w.den * e := by rw [← Int.mul_add]; congr 1; omega
      rw [Int.mul_comm d]
      omega
    · rw [k9, g9, hmul]; omega
    · rw [k10, g10, hmul]; omega
    · rw [k11, g11, List.range_succ, List.map_append, ← List.append_assoc]
      congr 1
      simp only [List.map_cons, List.map_nil, List.cons.injEq, and_true]
      rw [g10, g4]
      congr 1
      rw [Int.add_mul]
      omega

end SilKit.WallClock
