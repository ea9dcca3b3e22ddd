import Verif.Spec.Metrics
/-! # Lemmas: metrics (manager, processor, network) -/
namespace SilKit.Metrics
open SilKit.Metrics.Spec
open SilKit.Logging (Text)

/-! ## Manager -/

def names (m : Manager) : List Text := m.metrics.map (·.1)

theorem find_iff {m : Manager} (hn : (names m).Nodup) {name : Text} {x : Metric} : m.find name = some x ↔ (name, x) ∈ m.metrics := by
  unfold Manager.find
  unfold names at hn
  generalize m.metrics = l at hn
  induction l with
  | nil => simp
  | cons e l ih =>
    rw [List.map_cons, List.nodup_cons] at hn
    rw [List.find?_cons]
    by_cases h : e.1 = name
    · rw [show (e.1 == name) = true by simp [h]]
      constructor
      · intro hx
        simp only [Option.map_some, Option.some.injEq] at hx
        rw [← h, ← hx]; exact List.mem_cons_self
      · intro hx
        rcases List.mem_cons.mp hx with hx | hx
        · simp only [Option.map_some, Option.some.injEq]
          exact (congrArg Prod.snd hx).symm
        · exact absurd (List.mem_map.mpr ⟨_, hx, h.symm⟩) hn.1
    · rw [show (e.1 == name) = false by simp [h]]
      simp only []
      rw [ih hn.2, List.mem_cons]
      constructor
      · exact Or.inr
      · rintro (hx | hx)
        · exact absurd (congrArg Prod.fst hx).symm h
        · exact hx

theorem find_none {m : Manager} {name : Text} : m.find name = none ↔ name ∉ names m := by
  unfold Manager.find names
  simp only [Option.map_eq_none_iff, List.find?_eq_none, List.mem_map, not_exists, not_and, beq_iff_eq]

theorem names_modify (m : Manager) (name : Text) (f : Metric → Metric) : names (m.modify name f) = names m := by
  unfold names Manager.modify
  rw [List.map_map]
  refine List.map_congr_left fun e _ => ?_
  simp only [Function.comp]
  split <;> rfl

theorem find_modify (m : Manager) (name name' : Text) (f : Metric → Metric) :
    (m.modify name f).find name' = if name' = name then (m.find name').map f else m.find name' := by
  unfold Manager.modify Manager.find
  simp only []
  generalize m.metrics = l
  induction l with
  | nil => simp
  | cons e l ih =>
    rw [List.map_cons, List.find?_cons, List.find?_cons]
    by_cases h : e.1 = name
    · rw [if_pos h]
      by_cases hh : e.1 = name'
      · have : name' = name := hh.symm.trans h
        simp [hh, this]
      · rw [show (e.1 == name') = false by simp [hh]]
        exact ih
    · rw [if_neg h]
      by_cases hh : e.1 = name'
      · have : ¬ name' = name := fun hx => h (hh.trans hx)
        simp [hh, this]
      · rw [show (e.1 == name') = false by simp [hh]]
        exact ih

theorem foldl_read (l : List (Text × Metric)) (m : Manager) :
    l.foldl Manager.read m = { m with collected := (m.collected ++ (l.filter (fun e => decide (m.lastSubmit < e.2.stamp))).map (fun e => { timestamp := e.2.stamp, name := e.1, value := e.2.value })) } := by
  induction l generalizing m with
  | nil => simp
  | cons e l ih =>
    rw [List.foldl_cons, ih]
    unfold Manager.read
    by_cases h : e.2.stamp ≤ m.lastSubmit
    · rw [if_pos h, List.filter_cons_of_neg (by simpa using h)]
    · rw [if_neg h, List.filter_cons_of_pos (by simpa using h)]
      simp

theorem submit_eq (m : Manager) (hc : m.collected = []) (now : Nat) :
    m.submit now = ({ m with lastSubmit := now, collected := [] },
      (m.metrics.filter (fun e => decide (m.lastSubmit < e.2.stamp))).map (fun e => { timestamp := e.2.stamp, name := e.1, value := e.2.value })) := by
  unfold Manager.submit
  rw [foldl_read]
  unfold Manager.finish
  simp [hc]

/-- The state of the manager after a history, in terms of the history. -/
structure Inv (t0 : Nat) (ops : List Op) (m : Manager) : Prop where
  nodup : (names m).Nodup
  collected : m.collected = []
  last : m.lastSubmit = lastSubmission t0 ops
  find : ∀ name, m.find name = (tracked name ops).map (fun x => { stamp := x.2.getD 0, value := x.1 })

theorem lastSubmission_append (t : Nat) (a b : List Op) : lastSubmission t (a ++ b) = lastSubmission (lastSubmission t a) b := by
  induction a generalizing t with
  | nil => rfl
  | cons o a ih => cases o <;> simp only [List.cons_append, lastSubmission, ih]

theorem tracked_append (name : Text) (ops : List Op) (o : Op) : tracked name (ops ++ [o]) = track name (tracked name ops) o := by
  unfold tracked; rw [List.foldl_append]; rfl

theorem track_some_get (name : Text) (x : Value × Option Nat) (n : List Text) (k : Kind) : track name (some x) (.get n k) = some x := rfl

theorem track_submit (name : Text) (x : Option (Value × Option Nat)) (now : Nat) : track name x (.submit now) = x := by
  cases x <;> rfl

theorem track_none_update (name : Text) (n : List Text) (u : Update) (now : Nat) : track name none (.update n u now) = none := rfl

theorem inv_step {t0 : Nat} {ops : List Op} {m : Manager} (h : Inv t0 ops m) (o : Op) : Inv t0 (ops ++ [o]) (m.step o).1 := by
  cases o with
  | get n k =>
    have hl : lastSubmission t0 (ops ++ [.get n k]) = lastSubmission t0 ops := by rw [lastSubmission_append]; rfl
    simp only [Manager.step, Manager.get]
    cases hf : m.find (joinName n) with
    | none =>
      simp only [Option.getD_some]
      have hnn := find_none.mp hf
      refine ⟨?_, h.collected, by rw [hl]; exact h.last, fun name => ?_⟩
      · unfold names at *
        rw [List.map_append]
        refine List.nodup_append.mpr ⟨h.nodup, by simp, ?_⟩
        intro a ha b hb hab
        simp only [List.map_cons, List.map_nil, List.mem_singleton] at hb
        exact hnn (by rw [← hb, ← hab]; exact ha)
      · rw [tracked_append]
        have hfn := h.find name
        by_cases hx : joinName n = name
        · subst hx
          rw [hf] at hfn
          have ht : tracked (joinName n) ops = none := by
            cases hq : tracked (joinName n) ops with
            | none => rfl
            | some _ => rw [hq] at hfn; cases hfn
          rw [ht]
          simp only [track, if_true, Option.map_some, Option.getD_none]
          unfold Manager.find at hf ⊢
          rw [List.find?_append]
          rw [Option.map_eq_none_iff] at hf
          rw [hf]
          simp
        · have hq : track name (tracked name ops) (.get n k) = tracked name ops := by
            cases hq : tracked name ops with
            | none => simp [track, hx]
            | some _ => rfl
          rw [hq, ← hfn]
          unfold Manager.find
          rw [List.find?_append]
          have : ([(joinName n, ({ value := .fresh k } : Metric))].find? (fun e => e.1 == name)) = none := by simp [hx]
          rw [this, Option.or_none]
    | some x =>
      have hm : ((if x.value.kind = k then some m else none).getD m) = m := by split <;> rfl
      simp only [hm]
      refine ⟨h.nodup, h.collected, by rw [hl]; exact h.last, fun name => ?_⟩
      rw [tracked_append, h.find]
      congr 1
      cases hq : tracked name ops with
      | some _ => rfl
      | none =>
        have : joinName n ≠ name := by
          intro hx
          subst hx
          have := h.find (joinName n)
          rw [hf, hq] at this; cases this
        simp [track, this]
  | update n u now =>
    have hl : lastSubmission t0 (ops ++ [.update n u now]) = lastSubmission t0 ops := by rw [lastSubmission_append]; rfl
    have hx := h.find (joinName n)
    simp only [Manager.step]
    have keep : (∀ name, track name (tracked name ops) (.update n u now) = tracked name ops) → Inv t0 (ops ++ [.update n u now]) m := by
      intro hk
      exact ⟨h.nodup, h.collected, by rw [hl]; exact h.last, fun name => by rw [tracked_append, hk]; exact h.find name⟩
    cases hf : m.find (joinName n) with
    | none =>
      refine keep fun name => ?_
      cases hq : tracked name ops with
      | none => rfl
      | some y =>
        have : joinName n ≠ name := by
          intro hy
          subst hy
          rw [hf, hq] at hx; cases hx
        obtain ⟨v, t⟩ := y
        simp [track, this]
    | some x =>
      simp only []
      rw [hf] at hx
      cases hq : tracked (joinName n) ops with
      | none => rw [hq] at hx; cases hx
      | some y =>
        obtain ⟨v, t⟩ := y
        rw [hq] at hx
        simp only [Option.map_some, Option.some.injEq] at hx
        by_cases ho : x.value.kind.offers u = true
        · rw [if_pos ho]
          refine ⟨?_, h.collected, by rw [hl]; exact h.last, fun name => ?_⟩
          · unfold Manager.update Manager.stamp Manager.write
            rw [names_modify, names_modify]; exact h.nodup
          · unfold Manager.update Manager.stamp Manager.write
            rw [find_modify, find_modify, tracked_append]
            by_cases hnn : name = joinName n
            · subst hnn
              rw [if_pos rfl, if_pos rfl, hf, hq]
              subst hx
              simp only [] at ho
              simp [track, ho]
            · rw [if_neg hnn, if_neg hnn, h.find]
              congr 1
              cases hq : tracked name ops with
              | none => rfl
              | some y =>
                obtain ⟨v, t⟩ := y
                have : ¬ joinName n = name := fun e => hnn e.symm
                simp [track, this]
        · rw [if_neg ho]
          refine keep fun name => ?_
          by_cases hnn : name = joinName n
          · subst hnn
            rw [hq]
            subst hx
            simp only [] at ho
            simp [track, ho]
          · cases hq : tracked name ops with
            | none => rfl
            | some y =>
              obtain ⟨v, t⟩ := y
              have : ¬ joinName n = name := fun e => hnn e.symm
              simp [track, this]
  | submit now =>
    simp only [Manager.step, submit_eq m h.collected]
    refine ⟨h.nodup, rfl, ?_, fun name => ?_⟩
    · rw [lastSubmission_append]; rfl
    · rw [tracked_append, track_submit]; exact h.find name

theorem inv_init (t0 : Nat) : Inv t0 [] { lastSubmit := t0 } := ⟨by simp [names], rfl, rfl, fun _ => rfl⟩

theorem run_append (m : Manager) (a b : List Op) :
    m.run (a ++ b) = (((m.run a).1.run b).1, (m.run a).2 ++ ((m.run a).1.run b).2) := by
  induction a generalizing m with
  | nil => rfl
  | cons o a ih => simp only [List.cons_append, Manager.run, ih]

theorem inv_run (t0 : Nat) (ops : List Op) : Inv t0 ops (Manager.run { lastSubmit := t0 } ops).1 := by
  suffices ∀ (b a : List Op), Inv t0 a (Manager.run { lastSubmit := t0 } a).1 → Inv t0 (a ++ b) (Manager.run { lastSubmit := t0 } (a ++ b)).1 from
    this ops [] (inv_init t0)
  intro b
  induction b with
  | nil => intro a h; simpa using h
  | cons o b ih =>
    intro a h
    have := ih (a ++ [o]) (by rw [run_append]; exact inv_step h o)
    rwa [List.append_assoc] at this

/-- The message of a submission. -/
theorem mem_message {t0 : Nat} {ops : List Op} {m : Manager} (h : Inv t0 ops m) (now : Nat) (x : Data) :
    x ∈ (m.submit now).2 ↔ ∃ v ts, tracked x.name ops = some (v, some ts) ∧ lastSubmission t0 ops < ts ∧ x.timestamp = ts ∧ x.value = v := by
  rw [submit_eq m h.collected]
  simp only [List.mem_map, List.mem_filter, decide_eq_true_eq]
  constructor
  · rintro ⟨e, ⟨he, hs⟩, rfl⟩
    have hf := (find_iff h.nodup).mpr (show (e.1, e.2) ∈ m.metrics from he)
    rw [h.find] at hf
    cases hq : tracked e.1 ops with
    | none => rw [hq] at hf; cases hf
    | some y =>
      obtain ⟨v, t⟩ := y
      rw [hq] at hf
      simp only [Option.map_some, Option.some.injEq] at hf
      rw [← hf, h.last] at hs
      cases t with
      | none => exact absurd hs (Nat.not_lt_zero _)
      | some ts =>
        refine ⟨v, ts, rfl, hs, ?_, ?_⟩
        · rw [← hf]; rfl
        · rw [← hf]
  · rintro ⟨v, ts, hq, hlt, h1, h2⟩
    have hf := h.find x.name
    rw [hq] at hf
    have he := (find_iff h.nodup).mp hf
    refine ⟨_, ⟨he, ?_⟩, ?_⟩
    · rw [h.last]; exact hlt
    · cases x; subst h1; subst h2; rfl

theorem message_nodup {t0 : Nat} {ops : List Op} {m : Manager} (h : Inv t0 ops m) (now : Nat) : ((m.submit now).2.map Data.name).Nodup := by
  rw [submit_eq m h.collected]
  simp only [List.map_map]
  have : (Data.name ∘ fun e : Text × Metric => ({ timestamp := e.2.stamp, name := e.1, value := e.2.value } : Data)) = (fun e => e.1) := rfl
  rw [this]
  exact List.Nodup.sublist ((List.filter_sublist).map _) h.nodup

/-! ## What has been reported -/

/-- The last reading of the clock. -/
def lastTime (t : Nat) : List Op → Nat
  | [] => t
  | .get _ _ :: l => lastTime t l
  | .update _ _ now :: l => lastTime now l
  | .submit now :: l => lastTime now l

theorem lastTime_append (t : Nat) (a b : List Op) : lastTime t (a ++ b) = lastTime (lastTime t a) b := by
  induction a generalizing t with
  | nil => rfl
  | cons o a ih => cases o <;> simp only [List.cons_append, lastTime, ih]

theorem clock_append {t : Nat} {a b : List Op} : Clock t (a ++ b) ↔ Clock t a ∧ Clock (lastTime t a) b := by
  induction a generalizing t with
  | nil => simp [Clock, lastTime]
  | cons o a ih => cases o <;> simp only [List.cons_append, lastTime, Clock, ih, and_assoc]

structure Rep (t0 : Nat) (ops : List Op) (messages : List (List Data)) : Prop where
  last : lastSubmission t0 ops ≤ lastTime t0 ops
  time : ∀ name v ts, tracked name ops = some (v, some ts) → ts ≤ lastTime t0 ops
  never : ∀ name, (∀ v ts, tracked name ops ≠ some (v, some ts)) → reportsOn name messages = []
  done : ∀ name v ts, tracked name ops = some (v, some ts) → ts ≤ lastSubmission t0 ops →
    (reportsOn name messages).getLast? = some { timestamp := ts, name := name, value := v }

theorem reportsOn_append (name : Text) (a : List (List Data)) (d : List Data) :
    reportsOn name (a ++ [d]) = reportsOn name a ++ d.filter (fun x => x.name == name) := by
  unfold reportsOn; simp

theorem filter_name {l : List Data} (hn : (l.map Data.name).Nodup) {x : Data} (hx : x ∈ l) : l.filter (fun d => d.name == x.name) = [x] := by
  induction l with
  | nil => cases hx
  | cons e l ih =>
    rw [List.map_cons, List.nodup_cons] at hn
    rcases List.mem_cons.mp hx with rfl | hx
    · rw [List.filter_cons_of_pos (by simp)]
      congr 1
      rw [List.filter_eq_nil_iff]
      intro y hy hyx
      exact hn.1 (List.mem_map.mpr ⟨y, hy, by simpa using hyx⟩)
    · rw [List.filter_cons_of_neg, ih hn.2 hx]
      intro hex
      exact hn.1 (List.mem_map.mpr ⟨x, hx, by simpa using Eq.symm (by simpa using hex)⟩)

theorem rep_step {t0 : Nat} {ops : List Op} {m : Manager} {ms : List (List Data)} (h : Inv t0 ops m) (r : Rep t0 ops ms) {o : Op}
    (hc : Clock (lastTime t0 ops) [o]) : Rep t0 (ops ++ [o]) (ms ++ [(m.step o).2]) := by
  have trackedMono : ∀ name v ts, tracked name ops = some (v, some ts) → ts ≤ lastTime t0 ops := r.time
  cases o with
  | get n k =>
    have hm : (m.step (.get n k)).2 = [] := rfl
    have hl : lastSubmission t0 (ops ++ [.get n k]) = lastSubmission t0 ops := by rw [lastSubmission_append]; rfl
    have ht : lastTime t0 (ops ++ [.get n k]) = lastTime t0 ops := by rw [lastTime_append]; rfl
    have hq : ∀ name v ts, tracked name (ops ++ [.get n k]) = some (v, some ts) ↔ tracked name ops = some (v, some ts) := by
      intro name v ts
      rw [tracked_append]
      cases tracked name ops with
      | none =>
        simp only [track]
        split <;> simp
      | some y => rfl
    have hr : ∀ name, reportsOn name (ms ++ [(m.step (.get n k)).2]) = reportsOn name ms := by
      intro name; rw [reportsOn_append, hm]; simp
    refine ⟨by rw [hl, ht]; exact r.last, ?_, ?_, ?_⟩
    · intro name v ts hx; rw [ht]; exact r.time name v ts ((hq ..).mp hx)
    · intro name hx; rw [hr]; exact r.never name fun v ts he => hx v ts ((hq ..).mpr he)
    · intro name v ts hx hle; rw [hr]; exact r.done name v ts ((hq ..).mp hx) (by rw [← hl]; exact hle)
  | update n u now =>
    have hm : (m.step (.update n u now)).2 = [] := by
      simp only [Manager.step]
      split
      · split <;> rfl
      · rfl
    have hl : lastSubmission t0 (ops ++ [.update n u now]) = lastSubmission t0 ops := by rw [lastSubmission_append]; rfl
    have ht : lastTime t0 (ops ++ [.update n u now]) = now := by rw [lastTime_append]; rfl
    have hlt : lastTime t0 ops < now := hc.1
    have hq : ∀ name v ts, tracked name (ops ++ [.update n u now]) = some (v, some ts) → tracked name ops = some (v, some ts) ∨ ts = now := by
      intro name v ts hx
      rw [tracked_append] at hx
      cases hy : tracked name ops with
      | none => rw [hy] at hx; cases hx
      | some y =>
        obtain ⟨v', t'⟩ := y
        rw [hy] at hx
        simp only [track] at hx
        split at hx
        · right; cases hx; rfl
        · left; exact hx
    have hr : ∀ name, reportsOn name (ms ++ [(m.step (.update n u now)).2]) = reportsOn name ms := by
      intro name; rw [reportsOn_append, hm]; simp
    refine ⟨by rw [hl, ht]; exact Nat.le_trans r.last (Nat.le_of_lt hlt), ?_, ?_, ?_⟩
    · intro name v ts hx
      rw [ht]
      rcases hq name v ts hx with hx | hx
      · exact Nat.le_trans (r.time name v ts hx) (Nat.le_of_lt hlt)
      · exact Nat.le_of_eq hx
    · intro name hx
      rw [hr]
      refine r.never name fun v ts he => ?_
      by_cases hno : joinName n = name ∧ v.kind.offers u = true
      · exact hx (v.apply u) now (by rw [tracked_append, he]; simp [track, hno])
      · exact hx v ts (by rw [tracked_append, he]; simp only [track]; rw [if_neg hno])
    · intro name v ts hx hle
      rw [hr]
      rw [hl] at hle
      rcases hq name v ts hx with hx | hx
      · exact r.done name v ts hx hle
      · have := r.last; omega
  | submit now =>
    have hm : (m.step (.submit now)).2 = (m.submit now).2 := rfl
    have hl : lastSubmission t0 (ops ++ [.submit now]) = now := by rw [lastSubmission_append]; rfl
    have ht : lastTime t0 (ops ++ [.submit now]) = now := by rw [lastTime_append]; rfl
    have hlt : lastTime t0 ops < now := hc.1
    have hq : ∀ name, tracked name (ops ++ [.submit now]) = tracked name ops := by
      intro name; rw [tracked_append, track_submit]
    have empty : ∀ name, (∀ v ts, tracked name ops = some (v, some ts) → ts ≤ lastSubmission t0 ops) →
        (m.submit now).2.filter (fun x => x.name == name) = [] := by
      intro name hx
      rw [List.filter_eq_nil_iff]
      intro x hxm hxn
      have hxn : x.name = name := by simpa using hxn
      obtain ⟨v, ts, h1, h2, _⟩ := (mem_message h now x).mp hxm
      have := hx v ts (hxn ▸ h1)
      omega
    refine ⟨by rw [hl, ht]; exact Nat.le_refl _, ?_, ?_, ?_⟩
    · intro name v ts hx
      rw [hq] at hx; rw [ht]
      exact Nat.le_trans (r.time name v ts hx) (Nat.le_of_lt hlt)
    · intro name hx
      have hx' : ∀ v ts, tracked name ops ≠ some (v, some ts) := fun v ts => by have := hx v ts; rwa [hq] at this
      rw [reportsOn_append, r.never name hx', hm, empty name (fun v ts he => absurd he (hx' v ts))]; rfl
    · intro name v ts hx _
      rw [hq] at hx
      rw [reportsOn_append, hm]
      by_cases hp : lastSubmission t0 ops < ts
      · have hin : ({ timestamp := ts, name := name, value := v } : Data) ∈ (m.submit now).2 :=
          (mem_message h now _).mpr ⟨v, ts, hx, hp, rfl, rfl⟩
        have := filter_name (message_nodup h now) hin
        simp only [] at this
        rw [this]; simp
      · rw [empty name (fun v' ts' he => by rw [hx] at he; cases he; omega), List.append_nil]
        exact r.done name v ts hx (by omega)

theorem rep_init (t0 : Nat) : Rep t0 [] [] := by
  refine ⟨Nat.le_refl _, ?_, fun _ _ => rfl, ?_⟩ <;> intro name v ts hx <;> cases hx

theorem rep_run {t0 : Nat} {ops : List Op} (hc : Clock t0 ops) : Rep t0 ops (Manager.run { lastSubmit := t0 } ops).2 := by
  suffices ∀ (b a : List Op), Clock t0 (a ++ b) → Rep t0 a (Manager.run { lastSubmit := t0 } a).2 →
      Rep t0 (a ++ b) (Manager.run { lastSubmit := t0 } (a ++ b)).2 from this ops [] hc (rep_init t0)
  intro b
  induction b with
  | nil => intro a _ h; simpa using h
  | cons o b ih =>
    intro a hc h
    have hc' : Clock t0 ((a ++ [o]) ++ b) := by rwa [List.append_assoc]
    have hco := (clock_append.mp (clock_append.mp hc').1).2
    have := ih (a ++ [o]) hc' (by
      rw [run_append]
      exact rep_step (inv_run t0 a) h hco)
    rwa [List.append_assoc] at this

/-! ## Interleavings -/

theorem find_read (m : Manager) (e : Text × Metric) (name : Text) : (m.read e).find name = m.find name := by
  unfold Manager.read; split <;> rfl

/-- A metric whose change was not seen by the submission that ended after it is not reported until it is changed again. -/
theorem lost_forever (name : Text) (ts : Nat) (l : List Fine) (hs : ∀ o ∈ l, ∀ t, o ≠ .stamp name t)
    (hf : ∀ t, Fine.finish t ∈ l → ts ≤ t) (m : Manager) (hm : ∀ x, m.find name = some x → x.stamp ≤ ts) (hl : ts ≤ m.lastSubmit)
    (hc : ∀ d ∈ m.collected, d.name ≠ name) : ∀ d ∈ (m.fineRun l).2.flatten, d.name ≠ name := by
  induction l generalizing m with
  | nil => simp [Manager.fineRun]
  | cons o l ih =>
    have ih' := ih (fun o ho => hs o (List.mem_cons_of_mem _ ho)) (fun t ht => hf t (List.mem_cons_of_mem _ ht))
    have go : ∀ m', (m.fine o).1 = m' → (∀ d ∈ (m.fine o).2, d.name ≠ name) → (∀ x, m'.find name = some x → x.stamp ≤ ts) → ts ≤ m'.lastSubmit →
        (∀ d ∈ m'.collected, d.name ≠ name) → ∀ d ∈ (m.fineRun (o :: l)).2.flatten, d.name ≠ name := by
      intro m' he hout h1 h2 h3 d hd
      simp only [Manager.fineRun, List.flatten_cons, List.mem_append] at hd
      rcases hd with hd | hd
      · exact hout d hd
      · rw [he] at hd; exact ih' m' h1 h2 h3 d hd
    cases o with
    | stamp n t =>
      have hn : name ≠ n := fun e => hs _ List.mem_cons_self t (by rw [e])
      refine go _ rfl (by simp [Manager.fine]) (fun x hx => ?_) hl hc
      simp only [Manager.fine, Manager.stamp, find_modify, if_neg hn] at hx
      exact hm x hx
    | write n u =>
      refine go _ rfl (by simp [Manager.fine]) (fun x hx => ?_) hl hc
      simp only [Manager.fine, Manager.write, find_modify] at hx
      split at hx
      · rw [Option.map_eq_some_iff] at hx
        obtain ⟨y, hy, rfl⟩ := hx
        exact hm y hy
      · exact hm x hx
    | read n =>
      cases hx : m.find n with
      | none =>
        exact go m (by simp [Manager.fine, hx]) (by simp [Manager.fine, hx]) hm hl hc
      | some x =>
        refine go (m.read (n, x)) (by simp [Manager.fine, hx]) (by simp [Manager.fine, hx]) (fun y hy => ?_) ?_ ?_
        · rw [find_read] at hy; exact hm y hy
        · unfold Manager.read; split <;> exact hl
        · unfold Manager.read
          split
          · exact hc
          · rename_i hlt
            intro d hd
            rcases List.mem_append.mp hd with hd | hd
            · exact hc d hd
            · rw [List.mem_singleton] at hd
              rw [hd]
              intro hn
              simp only [] at hn hlt
              have := hm x (hn ▸ hx)
              omega
    | finish t =>
      refine go _ rfl ?_ ?_ ?_ ?_
      · exact hc
      · exact fun x hx => hm x hx
      · exact hf t List.mem_cons_self
      · simp [Manager.fine, Manager.finish]

/-! ## Names -/

theorem joinName_cons (s s' : Text) (l : List Text) : joinName (s :: s' :: l) = s ++ '/' :: joinName (s' :: l) := rfl

theorem joinName_inj {a b : List Text} (ha : a ≠ []) (hb : b ≠ []) (hsa : ∀ s ∈ a, '/' ∉ s) (hsb : ∀ s ∈ b, '/' ∉ s)
    (h : joinName a = joinName b) : a = b := by
  have split : ∀ (x y p q : Text), '/' ∉ x → '/' ∉ y → x ++ '/' :: p = y ++ '/' :: q → x = y ∧ p = q := by
    intro x
    induction x with
    | nil =>
      intro y p q _ hy h
      cases y with
      | nil => exact ⟨rfl, (List.cons.inj h).2⟩
      | cons c y =>
        rw [List.nil_append, List.cons_append] at h
        exact absurd (by rw [(List.cons.inj h).1]; exact List.mem_cons_self) hy
    | cons c x ih =>
      intro y p q hx hy h
      cases y with
      | nil =>
        rw [List.nil_append, List.cons_append] at h
        exact absurd (by rw [← (List.cons.inj h).1]; exact List.mem_cons_self) hx
      | cons c' y =>
        rw [List.cons_append, List.cons_append] at h
        obtain ⟨h1, h2⟩ := List.cons.inj h
        obtain ⟨h3, h4⟩ := ih y p q (fun hh => hx (List.mem_cons_of_mem _ hh)) (fun hh => hy (List.mem_cons_of_mem _ hh)) h2
        exact ⟨by rw [h1, h3], h4⟩
  induction a generalizing b with
  | nil => exact absurd rfl ha
  | cons s a ih =>
    cases b with
    | nil => exact absurd rfl hb
    | cons s' b =>
      have hs := hsa s List.mem_cons_self
      have hs' := hsb s' List.mem_cons_self
      cases a with
      | nil =>
        cases b with
        | nil => rw [show s = s' from h]
        | cons t b =>
          have h : s = s' ++ '/' :: joinName (t :: b) := h
          exact absurd (by rw [h]; simp) hs
      | cons t a =>
        cases b with
        | nil =>
          have h : s ++ '/' :: joinName (t :: a) = s' := h
          exact absurd (by rw [← h]; simp) hs'
        | cons t' b =>
          rw [joinName_cons, joinName_cons] at h
          obtain ⟨h1, h2⟩ := split _ _ _ _ hs hs' h
          rw [h1, ih (by simp) (by simp) (fun x hx => hsa x (List.mem_cons_of_mem _ hx)) (fun x hx => hsb x (List.mem_cons_of_mem _ hx)) h2]

/-! ## Processor -/

theorem dataOf_append (o : Text) (a b : List (Text × List Data)) : dataOf o (a ++ b) = dataOf o a ++ dataOf o b := by
  unfold dataOf; simp

theorem dataOf_single (o o' : Text) (d : List Data) : dataOf o [(o', d)] = if o' = o then d else [] := by
  unfold dataOf
  by_cases h : o' = o <;> simp [h]

theorem dataOf_cons (o : Text) (e : Text × List Data) (l : List (Text × List Data)) :
    dataOf o (e :: l) = (if e.1 = o then e.2 else []) ++ dataOf o l := by
  rw [show e :: l = [e] ++ l from rfl, dataOf_append, dataOf_single]

theorem dataOf_cacheAdd (l : List (Text × List Data)) (o o' : Text) (d : List Data) (hn : (l.map (·.1)).Nodup) :
    dataOf o (cacheAdd l o' d) = dataOf o l ++ (if o' = o then d else []) ∧ ((cacheAdd l o' d).map (·.1)).Nodup ∧
      ∀ x, x ∈ (cacheAdd l o' d).map (·.1) → x = o' ∨ x ∈ l.map (·.1) := by
  induction l with
  | nil =>
    unfold cacheAdd
    refine ⟨by rw [dataOf_single]; rfl, by simp, by simp⟩
  | cons e l ih =>
    rw [List.map_cons, List.nodup_cons] at hn
    obtain ⟨i1, i2, i3⟩ := ih hn.2
    unfold cacheAdd
    by_cases h : e.1 = o'
    · rw [if_pos h, dataOf_cons, dataOf_cons, h]
      refine ⟨?_, ?_, ?_⟩
      · by_cases ho : o' = o
        · simp only [ho, if_true]
          have : dataOf o l = [] := by
            unfold dataOf
            rw [List.filter_eq_nil_iff.mpr]
            · rfl
            · intro x hx hxo
              exact hn.1 (List.mem_map.mpr ⟨x, hx, by rw [h, ho]; simpa using hxo⟩)
          rw [this]; simp
        · simp [ho]
      · rw [List.map_cons, List.nodup_cons]; exact ⟨by rw [← h]; exact hn.1, hn.2⟩
      · intro x hx
        rw [List.map_cons] at hx ⊢
        rcases List.mem_cons.mp hx with hx | hx
        · exact Or.inl hx
        · exact Or.inr (List.mem_cons_of_mem _ hx)
    · rw [if_neg h, dataOf_cons, dataOf_cons, i1]
      refine ⟨by rw [List.append_assoc], ?_, ?_⟩
      · rw [List.map_cons, List.nodup_cons]
        refine ⟨fun hx => ?_, i2⟩
        rcases i3 _ hx with hx | hx
        · exact h hx
        · exact hn.1 hx
      · intro x hx
        rw [List.map_cons] at hx ⊢
        rcases List.mem_cons.mp hx with hx | hx
        · exact Or.inr (by rw [hx]; exact List.mem_cons_self)
        · rcases i3 _ hx with hx | hx
          · exact Or.inl hx
          · exact Or.inr (List.mem_cons_of_mem _ hx)

theorem handed_cons (self : Text) (x : ProcOp) (ops : List ProcOp) : handed self (x :: ops) = handed self [x] ++ handed self ops := by
  unfold handed
  rw [show x :: ops = [x] ++ ops from rfl, List.filterMap_append]

/-- Once there are sinks, they get everything at once. -/
theorem ready_run (self : Text) (ops : List ProcOp) (c : List (Text × List Data)) :
    (Processor.run self { ready := true, cache := c } ops).2 = handed self ops := by
  induction ops with
  | nil => rfl
  | cons x ops ih =>
    rw [handed_cons]
    cases x with
    | process o d => simp only [Processor.run, Processor.step, Processor.process, if_true, ih]; rfl
    | setSinks => simp only [Processor.run, Processor.step, Processor.setSinks, if_true, ih]; rfl
    | received o d =>
      simp only [Processor.run, Processor.step, Processor.received]
      by_cases h : o = self
      · rw [if_pos h, ih]
        simp [handed, h]
      · simp only [if_neg h, Processor.process, if_true, ih]
        simp [handed, h]

theorem waiting_run (self : Text) (ops : List ProcOp) (c : List (Text × List Data)) (hn : (c.map (·.1)).Nodup) (o : Text) :
    ((∃ x ∈ ops, x = .setSinks) → dataOf o (Processor.run self { cache := c } ops).2 = dataOf o c ++ dataOf o (handed self ops)) ∧
    ((∀ x ∈ ops, x ≠ .setSinks) → (Processor.run self { cache := c } ops).2 = []) := by
  induction ops generalizing c with
  | nil => simp [Processor.run]
  | cons x ops ih =>
    have stepProc : ∀ o' d, handed self [x] = [(o', d)] → (Processor.step self { cache := c } x) = ({ cache := cacheAdd c o' d }, []) → x ≠ .setSinks →
        ((∃ y ∈ x :: ops, y = .setSinks) → dataOf o (Processor.run self { cache := c } (x :: ops)).2 = dataOf o c ++ dataOf o (handed self (x :: ops))) ∧
        ((∀ y ∈ x :: ops, y ≠ .setSinks) → (Processor.run self { cache := c } (x :: ops)).2 = []) := by
      intro o' d hh hs hx
      obtain ⟨c1, c2, _⟩ := dataOf_cacheAdd c o o' d hn
      obtain ⟨j1, j2⟩ := ih (cacheAdd c o' d) c2
      simp only [Processor.run, hs, List.nil_append]
      refine ⟨?_, fun h => j2 fun y hy => h y (List.mem_cons_of_mem _ hy)⟩
      rintro ⟨y, hy, he⟩
      rw [j1, handed_cons, hh, c1, dataOf_append, dataOf_single, List.append_assoc]
      rcases List.mem_cons.mp hy with hy | hy
      · exact absurd (hy.symm.trans he) hx
      · exact ⟨y, hy, he⟩
    cases x with
    | process o' d => exact stepProc o' d rfl rfl (by simp)
    | received o' d =>
      by_cases h : o' = self
      · have hh : handed self [.received o' d] = [] := by simp [handed, h]
        have hs : Processor.step self { cache := c } (.received o' d) = ({ cache := c }, []) := by
          simp [Processor.step, Processor.received, h]
        obtain ⟨j1, j2⟩ := ih c hn
        simp only [Processor.run, hs, List.nil_append]
        refine ⟨?_, fun h => j2 fun y hy => h y (List.mem_cons_of_mem _ hy)⟩
        rintro ⟨y, hy, he⟩
        rw [j1, handed_cons, hh, List.nil_append]
        rcases List.mem_cons.mp hy with hy | hy
        · rw [he] at hy; cases hy
        · exact ⟨y, hy, he⟩
      · refine stepProc o' d (by simp [handed, h]) ?_ (by simp)
        simp [Processor.step, Processor.received, h, Processor.process]
    | setSinks =>
      refine ⟨fun _ => ?_, fun h => absurd rfl (h _ List.mem_cons_self)⟩
      have hh : handed self [.setSinks] = [] := rfl
      rw [handed_cons, hh, List.nil_append]
      show dataOf o (c ++ (Processor.run self { ready := true, cache := [] } ops).2) = _
      rw [ready_run, dataOf_append]

/-! ## Network -/

theorem submissions_append (p : Nat) (a b : List NetOp) : submissions p (a ++ b) = submissions p a ++ submissions p b := by
  unfold submissions; rw [List.filterMap_append]

theorem filed_append (n : Net) (q : Nat) (origin : Text) (l : List (Text × List Data)) :
    filed { n with files := fun a => if a = q then n.files a ++ l else n.files a } q origin =
      filed n q origin ++ (l.filter (fun e => e.1 == origin)).map (·.2) := by
  unfold filed; simp

theorem flatMap_replicate_append (k : Nat) (a b : List (List Data)) :
    (a ++ b).flatMap (List.replicate k) = a.flatMap (List.replicate k) ++ b.flatMap (List.replicate k) := by simp

structure NetInv (cfg : Nat → Config) (nm : Nat → Text) (ops : List NetOp) (n : Net) : Prop where
  own : ∀ p, 0 < (cfg p).files → filed n p (nm p) = submissions p ops
  others : ∀ p q, nm p ≠ nm q → 0 < (cfg q).files → (cfg q).collect = true →
    filed n q (nm p) ++ n.link p q = (submissions p ops).flatMap (List.replicate (cfg p).remotes)
  flight : ∀ p q, (cfg q).collect = false → n.link p q = []
  alien : ∀ p q, nm p ≠ nm q → (cfg q).collect = false → filed n q (nm p) = []
  nofiles : ∀ q, (cfg q).files = 0 → n.files q = []

theorem netInv_init (cfg : Nat → Config) (nm : Nat → Text) : NetInv cfg nm [] {} :=
  ⟨fun _ _ => rfl, fun _ _ _ _ _ => rfl, fun _ _ _ => rfl, fun _ _ _ _ => rfl, fun _ _ => rfl⟩

theorem filed_apply (cfg : Nat → Config) (nm : Nat → Text) (n : Net) (p : Nat) (origin : Text) (d : List Data) (q : Nat) (o : Text) :
    filed (n.apply cfg nm p origin d) q o = filed n q o ++ (if q = p ∧ origin = o ∧ 0 < (cfg p).files then [d] else []) := by
  unfold filed Net.apply sinksProcess
  simp only []
  by_cases hq : q = p
  · subst hq
    by_cases hf : (cfg q).files = 0
    · simp [hf]
    · by_cases ho : origin = o
      · simp [hf, ho, Nat.pos_of_ne_zero hf]
      · simp [hf, ho]
  · simp [hq]

theorem link_apply (cfg : Nat → Config) (nm : Nat → Text) (n : Net) (p : Nat) (origin : Text) (d : List Data) (a b : Nat) :
    (n.apply cfg nm p origin d).link a b =
      n.link a b ++ (if a = p ∧ (cfg b).collect = true ∧ origin = nm p then List.replicate (cfg p).remotes d else []) := by
  unfold Net.apply sinksProcess
  simp only []
  by_cases ha : a = p <;> by_cases hb : (cfg b).collect = true <;> by_cases ho : origin = nm p <;> simp [ha, hb, ho]

theorem netInv_step {cfg : Nat → Config} {nm : Nat → Text} (hnm : ∀ p q, nm p = nm q → p = q) {ops : List NetOp} {n : Net}
    (h : NetInv cfg nm ops n) (o : NetOp) : NetInv cfg nm (ops ++ [o]) (n.step cfg nm o) := by
  cases o with
  | submit p d =>
    by_cases hd : d = []
    · have hs : ∀ x, submissions x (ops ++ [.submit p d]) = submissions x ops := by
        intro x; rw [submissions_append]; simp [submissions, hd]
      have : n.step cfg nm (.submit p d) = n := by simp [Net.step, hd]
      rw [this]
      exact ⟨fun x => by rw [hs]; exact h.own x, fun x y => by rw [hs]; exact h.others x y, h.flight, h.alien, h.nofiles⟩
    · have hs : ∀ x, submissions x (ops ++ [.submit p d]) = submissions x ops ++ (if x = p then [d] else []) := by
        intro x
        rw [submissions_append]
        by_cases hx : x = p
        · simp [submissions, hx, hd]
        · have : ¬ p = x := fun e => hx e.symm
          simp [submissions, hx, this]
      have : n.step cfg nm (.submit p d) = n.apply cfg nm p (nm p) d := by simp [Net.step, hd]
      rw [this]
      refine ⟨fun x hx => ?_, fun x y hxy hf hc => ?_, fun x y hc => ?_, fun x y hxy hc => ?_, fun y hf => ?_⟩
      · rw [filed_apply, hs, h.own x hx]
        by_cases hxp : x = p
        · subst hxp; simp [hx]
        · simp [hxp]
      · rw [filed_apply, link_apply, hs, flatMap_replicate_append, ← h.others x y hxy hf hc]
        by_cases hxp : x = p
        · subst hxp
          have : ¬ (y = x) := fun e => hxy (by rw [e])
          simp [this, hc]
        · have : ¬ (nm p = nm x) := fun e => hxp (hnm _ _ e.symm)
          simp [hxp, this]
      · rw [link_apply, h.flight x y hc]; simp [hc]
      · rw [filed_apply, h.alien x y hxy hc]
        rw [if_neg, List.append_nil]
        rintro ⟨h1, h2, _⟩
        exact hxy (by rw [h1, h2])
      · simp only [Net.apply, sinksProcess]
        by_cases hy : y = p
        · subst hy; simp [h.nofiles y hf, hf]
        · simp [hy, h.nofiles y hf]
  | deliver p q =>
    have hs : ∀ x, submissions x (ops ++ [.deliver p q]) = submissions x ops := by
      intro x; rw [submissions_append]; simp [submissions]
    cases hl : n.link p q with
    | nil =>
      have : n.step cfg nm (.deliver p q) = n := by simp [Net.step, hl]
      rw [this]
      exact ⟨fun x => by rw [hs]; exact h.own x, fun x y => by rw [hs]; exact h.others x y, h.flight, h.alien, h.nofiles⟩
    | cons d rest =>
      have hcol : (cfg q).collect = true := by
        cases hc : (cfg q).collect with
        | true => rfl
        | false => rw [h.flight p q hc] at hl; cases hl
      by_cases hpq : nm p = nm q
      · have hpq' : p = q := hnm _ _ hpq
        have : n.step cfg nm (.deliver p q) = { n with link := fun a b => if a = p ∧ b = q then rest else n.link a b } := by
          simp only [Net.step, hl, if_pos hpq]
        rw [this]
        refine ⟨fun x => by rw [hs]; exact h.own x, fun x y hxy hf hc => ?_, fun x y hc => ?_, h.alien, h.nofiles⟩
        · rw [hs, ← h.others x y hxy hf hc]
          have : ¬ (x = p ∧ y = q) := by rintro ⟨rfl, rfl⟩; exact hxy hpq
          simp only [if_neg this]; rfl
        · have : ¬ (x = p ∧ y = q) := by rintro ⟨rfl, rfl⟩; rw [hcol] at hc; cases hc
          simp only [if_neg this]; exact h.flight x y hc
      · have hne : p ≠ q := fun e => hpq (by rw [e])
        have : n.step cfg nm (.deliver p q) =
            ({ n with link := fun a b => if a = p ∧ b = q then rest else n.link a b } : Net).apply cfg nm q (nm p) d := by
          simp only [Net.step, hl, if_neg hpq]
        rw [this]
        have hf' : ∀ y o, filed ({ n with link := fun a b => if a = p ∧ b = q then rest else n.link a b } : Net) y o = filed n y o := fun _ _ => rfl
        refine ⟨fun x hx => ?_, fun x y hxy hf hc => ?_, fun x y hc => ?_, fun x y hxy hc => ?_, fun y hf => ?_⟩
        · rw [filed_apply, hf', hs, h.own x hx]
          have : ¬ (x = q ∧ nm p = nm x ∧ 0 < (cfg q).files) := by rintro ⟨rfl, h2, _⟩; exact hpq h2
          rw [if_neg this, List.append_nil]
        · rw [filed_apply, link_apply, hf', hs, ← h.others x y hxy hf hc]
          have h0 : ¬ (x = q ∧ (cfg y).collect = true ∧ nm p = nm q) := fun e => hpq e.2.2
          rw [if_neg h0, List.append_nil]
          by_cases he : x = p ∧ y = q
          · obtain ⟨rfl, rfl⟩ := he
            simp [hf, hl]
          · have : ¬ (y = q ∧ nm p = nm x ∧ 0 < (cfg q).files) := by
              rintro ⟨h1, h2, _⟩; exact he ⟨(hnm _ _ h2).symm, h1⟩
            simp only [if_neg this, if_neg he, List.append_nil]
        · rw [link_apply]
          have h0 : ¬ (x = q ∧ (cfg y).collect = true ∧ nm p = nm q) := fun e => hpq e.2.2
          have h1 : ¬ (x = p ∧ y = q) := by rintro ⟨rfl, rfl⟩; rw [hcol] at hc; cases hc
          simp only [if_neg h0, if_neg h1, List.append_nil]
          exact h.flight x y hc
        · rw [filed_apply, hf', h.alien x y hxy hc]
          have : ¬ (y = q ∧ nm p = nm x ∧ 0 < (cfg q).files) := by rintro ⟨rfl, _, _⟩; rw [hcol] at hc; cases hc
          rw [if_neg this]; rfl
        · simp only [Net.apply, sinksProcess]
          by_cases hy : y = q
          · subst hy; simp [h.nofiles y hf, hf]
          · simp [hy, h.nofiles y hf]

theorem netInv_run {cfg : Nat → Config} {nm : Nat → Text} (hnm : ∀ p q, nm p = nm q → p = q) (ops : List NetOp) :
    NetInv cfg nm ops (Net.run cfg nm {} ops) := by
  suffices ∀ (b a : List NetOp), NetInv cfg nm a (Net.run cfg nm {} a) → NetInv cfg nm (a ++ b) (Net.run cfg nm {} (a ++ b)) from
    this ops [] (netInv_init cfg nm)
  intro b
  induction b with
  | nil => intro a h; simpa using h
  | cons o b ih =>
    intro a h
    have := ih (a ++ [o]) (by unfold Net.run; rw [List.foldl_append]; exact netInv_step hnm h o)
    rwa [List.append_assoc] at this

/-! ## Statistics -/

def Stat.takes (s : Stat) (vs : List Rat) : Stat := vs.foldl Stat.take s

theorem takes_min {vs : List Rat} {s : Stat} {m : Rat} (h : s.minimum = some m) :
    ∃ m', (s.takes vs).minimum = some m' ∧ (m' = m ∨ m' ∈ vs) ∧ m' ≤ m ∧ ∀ v ∈ vs, m' ≤ v := by
  induction vs generalizing s m with
  | nil => exact ⟨m, h, Or.inl rfl, Rat.le_refl, by simp⟩
  | cons v vs ih =>
    have hm : (s.take v).minimum = some (if v < m then v else m) := by simp [Stat.take, h]
    obtain ⟨m', h1, h2, h3, h4⟩ := ih hm
    refine ⟨m', h1, ?_, ?_, ?_⟩
    · rcases h2 with h2 | h2
      · by_cases hv : v < m
        · rw [if_pos hv] at h2; exact Or.inr (by rw [h2]; exact List.mem_cons_self)
        · rw [if_neg hv] at h2; exact Or.inl h2
      · exact Or.inr (List.mem_cons_of_mem _ h2)
    · by_cases hv : v < m
      · rw [if_pos hv] at h3; grind
      · rw [if_neg hv] at h3; exact h3
    · intro x hx
      rcases List.mem_cons.mp hx with rfl | hx
      · by_cases hv : x < m
        · rw [if_pos hv] at h3; exact h3
        · rw [if_neg hv] at h3; grind
      · exact h4 x hx

theorem takes_max {vs : List Rat} {s : Stat} {m : Rat} (h : s.maximum = some m) :
    ∃ m', (s.takes vs).maximum = some m' ∧ (m' = m ∨ m' ∈ vs) ∧ m ≤ m' ∧ ∀ v ∈ vs, v ≤ m' := by
  induction vs generalizing s m with
  | nil => exact ⟨m, h, Or.inl rfl, Rat.le_refl, by simp⟩
  | cons v vs ih =>
    have hm : (s.take v).maximum = some (if m < v then v else m) := by simp [Stat.take, h]
    obtain ⟨m', h1, h2, h3, h4⟩ := ih hm
    refine ⟨m', h1, ?_, ?_, ?_⟩
    · rcases h2 with h2 | h2
      · by_cases hv : m < v
        · rw [if_pos hv] at h2; exact Or.inr (by rw [h2]; exact List.mem_cons_self)
        · rw [if_neg hv] at h2; exact Or.inl h2
      · exact Or.inr (List.mem_cons_of_mem _ h2)
    · by_cases hv : m < v
      · rw [if_pos hv] at h3; grind
      · rw [if_neg hv] at h3; exact h3
    · intro x hx
      rcases List.mem_cons.mp hx with rfl | hx
      · by_cases hv : m < x
        · rw [if_pos hv] at h3; exact h3
        · rw [if_neg hv] at h3; grind
      · exact h4 x hx

theorem takes_variance {vs : List Rat} {s : Stat} (h : 0 ≤ s.variance) : 0 ≤ (s.takes vs).variance := by
  induction vs generalizing s with
  | nil => exact h
  | cons v vs ih =>
    refine ih ?_
    simp only [Stat.take]
    have : 0 ≤ (v - s.mean) * (v - s.mean) := by
      rcases Rat.le_total (a := 0) (b := v - s.mean) with hx | hx
      · exact Rat.mul_nonneg hx hx
      · have := Rat.mul_nonneg (a := -(v - s.mean)) (b := -(v - s.mean)) (by grind) (by grind)
        grind
    grind

theorem takes_mean {vs : List Rat} {s : Stat} {a b : Rat} (h1 : a ≤ s.mean) (h2 : s.mean ≤ b) (hv : ∀ v ∈ vs, a ≤ v ∧ v ≤ b) :
    a ≤ (s.takes vs).mean ∧ (s.takes vs).mean ≤ b := by
  induction vs generalizing s with
  | nil => exact ⟨h1, h2⟩
  | cons v vs ih =>
    have := hv v List.mem_cons_self
    refine ih ?_ ?_ (fun x hx => hv x (List.mem_cons_of_mem _ hx))
    · simp only [Stat.take]; grind
    · simp only [Stat.take]; grind

end SilKit.Metrics
