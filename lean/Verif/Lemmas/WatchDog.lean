import Verif.Spec.WatchDog
/-!
# Lemmas about the watchdog
-/
namespace SilKit.WatchDog
open Spec

theorem run_snoc (c : Config) (h : List In) (x : In) : run c (h ++ [x]) = onIn c (run c h) x := by simp [run, List.foldl_append]

theorem in_induction {P : List In → Prop} (nil : P []) (snoc : ∀ l x, P l → P (l ++ [x])) (h : List In) : P h := by
  rw [← List.reverse_reverse h]
  induction h.reverse with
  | nil => exact nil
  | cons x l ih => rw [List.reverse_cons]; exact snoc _ x ih

theorem clock_prefix {a b : List In} (h : Clock (a ++ b)) : Clock a := by
  unfold Clock at h ⊢
  rw [List.filterMap_append, List.pairwise_append] at h
  exact h.1

theorem clock_le {a : List In} {x : In} (h : Clock (a ++ [x])) {t : Int} (hx : timeOf x = some t) : ∀ s ∈ a.filterMap timeOf, s ≤ t := by
  unfold Clock at h
  rw [List.filterMap_append, List.pairwise_append] at h
  exact fun s hs => h.2.2 s hs t (by simp [hx])

theorem starts_snoc (h : List In) (x : In) : starts (h ++ [x]) = starts h ++ (startOf x).toList := by
  unfold starts
  rw [List.filterMap_append]
  cases hx : startOf x <;> simp [hx]

theorem starts_time {h : List In} {k : Nat} {s : Int} (hk : (starts h)[k]? = some s) : s ∈ h.filterMap timeOf := by
  have := List.mem_of_getElem? hk
  obtain ⟨x, hx, e⟩ := List.mem_filterMap.1 this
  refine List.mem_filterMap.2 ⟨x, hx, ?_⟩
  cases x <;> simp [startOf] at e
  simp [timeOf, e]

theorem millis_mono {s a b : Int} (h : a ≤ b) : millis s a ≤ millis s b := by
  unfold millis
  exact Int.tdiv_le_tdiv (by omega) (by omega)

structure Base (c : Config) (h : List In) (r : Dog × List Out) : Prop where
  count : r.1.count = (starts h).length
  start : ∀ j s, r.1.start = some (j, s) → (starts h)[j]? = some s ∧ j + 1 = r.1.count
  loaded : ∀ j s, r.1.loaded = some (j, s) → (starts h)[j]? = some s
  order : ∀ i j s s', r.1.loaded = some (i, s) → r.1.start = some (j, s') → i ≤ j
  seen : ∀ k d, d ∈ looks k r.2 → ∃ s T, (starts h)[k]? = some s ∧ T ∈ h.filterMap timeOf ∧ d = millis s T
  past : ∀ k, looks k r.2 ≠ [] → (∀ j s, r.1.loaded = some (j, s) → k ≤ j) ∧ (∀ j s, r.1.start = some (j, s) → k ≤ j)
  sorted : ∀ k, (looks k r.2).Pairwise (· ≤ ·)

theorem judge_fields (c : Config) (d : Dog) (k : Nat) (ms : Int) :
    (judge c d k ms).1.count = d.count ∧ (judge c d k ms).1.start = d.start ∧ (judge c d k ms).1.loaded = d.loaded := by
  unfold judge
  split
  · split <;> exact ⟨rfl, rfl, rfl⟩
  · split
    · split <;> exact ⟨rfl, rfl, rfl⟩
    · exact ⟨rfl, rfl, rfl⟩

theorem judge_looks (c : Config) (d : Dog) (k j : Nat) (ms : Int) : looks j (judge c d k ms).2 = [] := by
  unfold judge
  split
  · split <;> rfl
  · split
    · split <;> rfl
    · rfl

theorem looks_append (k : Nat) (a b : List Out) : looks k (a ++ b) = looks k a ++ looks k b := List.filterMap_append
theorem warns_append (k : Nat) (a b : List Out) : warns k (a ++ b) = warns k a ++ warns k b := List.filterMap_append
theorem errors_append (k : Nat) (a b : List Out) : errors k (a ++ b) = errors k a ++ errors k b := List.filterMap_append

theorem looks_looked (c : Config) (d : Dog) (k j : Nat) (ms : Int) : looks j (.looked k ms :: (judge c d k ms).2) = if k = j then [ms] else [] := by
  have := judge_looks c d k j ms
  unfold looks at this ⊢
  by_cases h : k = j
  · rw [if_pos h, List.filterMap_cons_some (b := ms) (by simp [lookOf, h]), this]
  · rw [if_neg h, List.filterMap_cons_none (by simp [lookOf, h]), this]

theorem base_step {c : Config} {h : List In} {r : Dog × List Out} (b : Base c h r) (x : In) (hc : Clock (h ++ [x])) : Base c (h ++ [x]) (onIn c r x) := by
  have le : ∀ {l : List Int} {k : Nat} {s : Int} (t : List Int), l[k]? = some s → (l ++ t)[k]? = some s := by
    intro l k s t hk
    have hlt : k < l.length := by
      rcases Nat.lt_or_ge k l.length with h | h
      · exact h
      · rw [List.getElem?_eq_none h] at hk; cases hk
    rw [List.getElem?_append_left hlt, hk]
  have lk : ∀ k d, d ∈ looks k r.2 → ∃ s T, (starts (h ++ [x]))[k]? = some s ∧ T ∈ (h ++ [x]).filterMap timeOf ∧ d = millis s T := by
    intro k d hd
    obtain ⟨s, T, h1, h2, h3⟩ := b.seen k d hd
    refine ⟨s, T, by rw [starts_snoc]; exact le _ h1, ?_, h3⟩
    rw [List.filterMap_append]; exact List.mem_append_left _ h2
  have lt : ∀ k, looks k r.2 ≠ [] → k < r.1.count := by
    intro k hk
    obtain ⟨d, hd⟩ := List.exists_mem_of_ne_nil _ hk
    obtain ⟨s, _, h1, _⟩ := b.seen k d hd
    rw [b.count]
    rcases Nat.lt_or_ge k (starts h).length with h | h
    · exact h
    · rw [List.getElem?_eq_none h] at h1; cases h1
  cases x with
  | start now =>
    have e : onIn c r (.start now) = ({ r.1 with count := r.1.count + 1, start := some (r.1.count, now) }, r.2) := by
      simp [onIn, Dog.step]
    rw [e]
    have es : starts (h ++ [.start now]) = starts h ++ [now] := by rw [starts_snoc]; rfl
    refine ⟨?_, fun j s hj => ?_, fun j s hj => ?_, fun i j s s' hi hj => ?_, lk, fun k hk => ⟨(b.past k hk).1, fun j s hj => ?_⟩, b.sorted⟩
    · rw [es, List.length_append, ← b.count]; rfl
    · simp only [Option.some.injEq, Prod.mk.injEq] at hj
      obtain ⟨rfl, rfl⟩ := hj
      refine ⟨?_, rfl⟩
      rw [es, b.count]; simp
    · rw [es]; exact le _ (b.loaded j s hj)
    · simp only [Option.some.injEq, Prod.mk.injEq] at hj
      have := b.loaded i s hi
      rw [← hj.1, b.count]
      rcases Nat.lt_or_ge i (starts h).length with h | h
      · omega
      · rw [List.getElem?_eq_none h] at this; cases this
    · simp only [Option.some.injEq, Prod.mk.injEq] at hj
      have := lt k hk
      omega
  | reset now =>
    have e : onIn c r (.reset now) = ({ r.1 with start := none }, r.2) := by simp [onIn, Dog.step]
    rw [e]
    have es : starts (h ++ [.reset now]) = starts h := by rw [starts_snoc]; simp [startOf]
    refine ⟨by rw [es]; exact b.count, fun j s hj => (by cases hj), fun j s hj => (by rw [es]; exact b.loaded j s hj), fun i j s s' hi hj => (by cases hj), lk,
      fun k hk => ⟨(b.past k hk).1, fun j s hj => (by cases hj)⟩, b.sorted⟩
  | load =>
    have es : starts (h ++ [.load]) = starts h := by rw [starts_snoc]; simp [startOf]
    simp only [onIn, Dog.step]
    cases hl : r.1.loaded with
    | some l =>
      simp only [List.append_nil]
      exact ⟨by rw [es]; exact b.count, fun j s hj => by rw [es]; exact b.start j s hj, fun j s hj => by rw [es]; exact b.loaded j s hj, b.order, lk, b.past, b.sorted⟩
    | none =>
      simp only
      cases hs : r.1.start with
      | none =>
        have e : ∀ k, looks k (r.2 ++ [.idle]) = looks k r.2 := fun k => by rw [looks_append]; simp [looks, lookOf]
        refine ⟨by rw [es]; exact b.count, fun j s hj => ?_, fun j s hj => ?_, fun i j s s' hi => ?_, fun k d hd => lk k d (by rwa [e] at hd),
          fun k hk => ⟨fun j s hj => ?_, fun j s hj => ?_⟩, fun k => by rw [e]; exact b.sorted k⟩
        · cases hj
        · simp only [hl] at hj; cases hj
        · simp only [hl] at hi; cases hi
        · simp only [hl] at hj; cases hj
        · simp only [hs] at hj; cases hj
      | some p =>
        simp only [List.append_nil]
        refine ⟨by rw [es]; exact b.count, fun j s hj => ?_, fun j s hj => ?_, fun i j s s' hi hj => ?_, lk,
          fun k hk => ⟨fun j s hj => ?_, fun j s hj => ?_⟩, b.sorted⟩
        · rw [es]; exact b.start j s (hs.trans hj)
        · simp only [Option.some.injEq] at hj
          rw [es]; exact (b.start j s (hs.trans (by rw [hj]))).1
        · simp only [Option.some.injEq] at hi
          simp only [hi, Option.some.injEq, Prod.mk.injEq] at hj
          omega
        · simp only [Option.some.injEq] at hj
          exact (b.past k hk).2 j s (hs.trans (by rw [hj]))
        · exact (b.past k hk).2 j s (hs.trans hj)
  | look now =>
    have es : starts (h ++ [.look now]) = starts h := by rw [starts_snoc]; simp [startOf]
    simp only [onIn, Dog.step]
    cases hl : r.1.loaded with
    | none =>
      simp only [List.append_nil]
      exact ⟨by rw [es]; exact b.count, fun j s hj => by rw [es]; exact b.start j s hj, fun j s hj => by rw [es]; exact b.loaded j s hj, b.order, lk, b.past, b.sorted⟩
    | some p =>
      simp only
      obtain ⟨j0, s0⟩ := p
      obtain ⟨f1, f2, f3⟩ := judge_fields c { r.1 with loaded := none } j0 (millis s0 now)
      have e : ∀ k, looks k (r.2 ++ .looked j0 (millis s0 now) :: (judge c { r.1 with loaded := none } j0 (millis s0 now)).2) =
          looks k r.2 ++ if j0 = k then [millis s0 now] else [] := fun k => by rw [looks_append, looks_looked]
      have hnow : now ∈ (h ++ [In.look now]).filterMap timeOf := by rw [List.filterMap_append]; simp [timeOf]
      refine ⟨?_, fun j s hj => ?_, fun j s hj => ?_, fun i j s s' hi => ?_, fun k d hd => ?_, fun k hk => ⟨fun j s hj => ?_, fun j s hj => ?_⟩, fun k => ?_⟩
      · rw [es]; exact f1.trans b.count
      · rw [es]
        have := b.start j s (f2.symm.trans hj)
        exact ⟨this.1, this.2.trans f1.symm⟩
      · have := f3.symm.trans hj; cases this
      · have := f3.symm.trans hi; cases this
      · rw [e] at hd
        rcases List.mem_append.1 hd with hd | hd
        · exact lk k d hd
        · split at hd
          · rename_i hk
            rw [List.mem_singleton] at hd
            refine ⟨s0, now, ?_, hnow, hd⟩
            rw [es, ← hk]; exact b.loaded j0 s0 hl
          · cases hd
      · have := f3.symm.trans hj; cases this
      · have hj' : r.1.start = some (j, s) := f2.symm.trans hj
        by_cases hk' : looks k r.2 = []
        · simp only [e, hk', List.nil_append] at hk
          split at hk
          · rename_i hjk
            rw [← hjk]; exact b.order j0 j s0 s hl hj'
          · exact absurd rfl hk
        · exact (b.past k hk').2 j s hj'
      · rw [e, List.pairwise_append]
        refine ⟨b.sorted k, by split <;> simp, fun d hd d' hd' => ?_⟩
        split at hd'
        · rename_i hjk
          rw [List.mem_singleton] at hd'
          obtain ⟨s, T, h1, h2, h3⟩ := b.seen k d hd
          have := b.loaded j0 s0 hl
          rw [hjk, h1] at this
          injection this with this
          rw [hd', h3, this]
          exact millis_mono (clock_le hc rfl T h2)
        · cases hd'

theorem run_base (c : Config) (h : List In) : Clock h → Base c h (run c h) := by
  refine in_induction (P := fun h => Clock h → Base c h (run c h)) (fun _ => ?_) (fun l x ih hc => ?_) h
  · exact ⟨rfl, fun _ _ h => (by cases h), fun _ _ h => (by cases h), fun _ _ _ _ h => (by cases h), fun _ _ h => (by cases h), fun _ h => absurd rfl h,
      fun _ => List.Pairwise.nil⟩
  · rw [run_snoc]
    exact base_step (ih (clock_prefix hc)) x hc

/-! ## What is reported -/

/-- The watchdog may still look at step `k`. -/
def Alive (k : Nat) (d : Dog) : Prop := (∃ s, d.start = some (k, s)) ∨ ∃ s, d.loaded = some (k, s)

theorem judge_cases (c : Config) (d : Dog) (k : Nat) (ms : Int) :
    (c.warn < ms ∧ ms ≤ c.error ∧ d.health = .healthy ∧ judge c d k ms = ({ d with health := .warn }, [.warn k ms])) ∨
    (c.warn < ms ∧ ms ≤ c.error ∧ d.health ≠ .healthy ∧ judge c d k ms = (d, [])) ∨
    (c.error < ms ∧ d.health ≠ .error ∧ judge c d k ms = ({ d with health := .error }, [.error k ms])) ∨
    (c.error < ms ∧ d.health = .error ∧ judge c d k ms = (d, [])) ∨
    (ms ≤ c.warn ∧ ms ≤ c.error ∧ judge c d k ms = ({ d with health := .healthy }, [])) := by
  unfold judge
  by_cases h1 : c.warn < ms ∧ ms ≤ c.error
  · rw [if_pos h1]
    by_cases h2 : d.health = .healthy
    · rw [if_pos h2]; exact .inl ⟨h1.1, h1.2, h2, rfl⟩
    · rw [if_neg h2]; exact .inr (.inl ⟨h1.1, h1.2, h2, rfl⟩)
  · rw [if_neg h1]
    by_cases h2 : c.error < ms
    · rw [if_pos h2]
      by_cases h3 : d.health = .error
      · rw [if_neg (by simp [h3])]; exact .inr (.inr (.inr (.inl ⟨h2, h3, rfl⟩)))
      · rw [if_pos h3]; exact .inr (.inr (.inl ⟨h2, h3, rfl⟩))
    · rw [if_neg h2]
      exact .inr (.inr (.inr (.inr ⟨by omega, by omega, rfl⟩)))

structure Quiet (k : Nat) (r r' : Dog × List Out) : Prop where
  warns : warns k r'.2 = Spec.warns k r.2
  errors : errors k r'.2 = Spec.errors k r.2
  looks : looks k r'.2 = Spec.looks k r.2
  alive : Alive k r'.1 → Spec.looks k r.2 ≠ [] → Alive k r.1 ∧ r'.1.health = r.1.health

theorem judge_other {c : Config} {d : Dog} {j k : Nat} (h : j ≠ k) (ms : Int) :
    warns k (judge c d j ms).2 = [] ∧ errors k (judge c d j ms).2 = [] := by
  rcases judge_cases c d j ms with ⟨_, _, _, e⟩ | ⟨_, _, _, e⟩ | ⟨_, _, e⟩ | ⟨_, _, e⟩ | ⟨_, _, e⟩ <;> rw [e] <;> simp [warns, errors, warnOf, errorOf, h]

/-- What a step has to do with the step `k` of the simulation. -/
theorem quiet_or {c : Config} {h : List In} {r : Dog × List Out} (b : Base c h r) (x : In) (k : Nat) :
    Quiet k r (onIn c r x) ∨ ∃ s now, x = .look now ∧ r.1.loaded = some (k, s) ∧
      onIn c r x = ((judge c { r.1 with loaded := none } k (millis s now)).1,
        r.2 ++ .looked k (millis s now) :: (judge c { r.1 with loaded := none } k (millis s now)).2) := by
  cases x with
  | start now =>
    left
    have e : onIn c r (.start now) = ({ r.1 with count := r.1.count + 1, start := some (r.1.count, now) }, r.2) := by simp [onIn, Dog.step]
    rw [e]
    refine ⟨rfl, rfl, rfl, fun ha hl => ⟨?_, rfl⟩⟩
    rcases ha with ⟨s, ha⟩ | ha
    · exfalso
      simp only [Option.some.injEq, Prod.mk.injEq] at ha
      obtain ⟨d, hd⟩ := List.exists_mem_of_ne_nil _ hl
      obtain ⟨s, _, h1, _⟩ := b.seen k d hd
      rw [← ha.1, b.count, List.getElem?_eq_none (Nat.le_refl _)] at h1
      cases h1
    · exact .inr ha
  | reset now =>
    left
    have e : onIn c r (.reset now) = ({ r.1 with start := none }, r.2) := by simp [onIn, Dog.step]
    rw [e]
    refine ⟨rfl, rfl, rfl, fun ha hl => ⟨?_, rfl⟩⟩
    rcases ha with ⟨s, ha⟩ | ha
    · cases ha
    · exact .inr ha
  | load =>
    left
    simp only [onIn, Dog.step]
    cases hl : r.1.loaded with
    | some l =>
      simp only [List.append_nil]
      exact ⟨rfl, rfl, rfl, fun ha _ => ⟨ha, rfl⟩⟩
    | none =>
      simp only
      cases hs : r.1.start with
      | none =>
        refine ⟨?_, ?_, ?_, fun ha _ => ?_⟩
        · rw [warns_append]; simp [warns, warnOf]
        · rw [errors_append]; simp [errors, errorOf]
        · rw [looks_append]; simp [looks, lookOf]
        · exfalso
          rcases ha with ⟨s, ha⟩ | ⟨s, ha⟩
          · cases ha
          · cases ha
      | some p =>
        simp only [List.append_nil]
        refine ⟨rfl, rfl, rfl, fun ha _ => ⟨?_, rfl⟩⟩
        rcases ha with ⟨s, ha⟩ | ⟨s, ha⟩
        · exact .inl ⟨s, hs.trans ha⟩
        · simp only [Option.some.injEq] at ha
          exact .inl ⟨s, hs.trans (by rw [ha])⟩
  | look now =>
    simp only [onIn, Dog.step]
    cases hl : r.1.loaded with
    | none =>
      simp only [List.append_nil]
      exact .inl ⟨rfl, rfl, rfl, fun ha _ => ⟨ha, rfl⟩⟩
    | some p =>
      obtain ⟨j, s⟩ := p
      by_cases hj : j = k
      · subst hj
        exact .inr ⟨s, now, rfl, rfl, rfl⟩
      · left
        obtain ⟨f1, f2, f3⟩ := judge_fields c { r.1 with loaded := none } j (millis s now)
        obtain ⟨j1, j2⟩ := judge_other (c := c) (d := { r.1 with loaded := none }) hj (millis s now)
        refine ⟨?_, ?_, ?_, fun ha hne => ?_⟩
        · rw [warns_append, show warns k (.looked j (millis s now) :: (judge c { r.1 with loaded := none } j (millis s now)).2) = [] from j1, List.append_nil]
        · rw [errors_append, show errors k (.looked j (millis s now) :: (judge c { r.1 with loaded := none } j (millis s now)).2) = [] from j2, List.append_nil]
        · rw [looks_append, looks_looked, if_neg hj, List.append_nil]
        · exfalso
          rcases ha with ⟨s', ha⟩ | ⟨s', ha⟩
          · have h1 := b.order j k s s' hl (f2.symm.trans ha)
            have h2 := (b.past k hne).1 j s hl
            omega
          · cases f3.symm.trans ha

/-- The next look at step `k` finds it to last at least as long as before. -/
theorem later {c : Config} {h : List In} {r : Dog × List Out} (b : Base c h r) {k : Nat} {s now : Int} (hc : Clock (h ++ [.look now]))
    (hl : r.1.loaded = some (k, s)) : ∀ d ∈ looks k r.2, d ≤ millis s now := by
  intro d hd
  obtain ⟨s', T, h1, h2, h3⟩ := b.seen k d hd
  rw [b.loaded k s hl] at h1
  injection h1 with h1
  rw [h3, ← h1]
  exact millis_mono (clock_le hc rfl T h2)

theorem looks_here (c : Config) (d : Dog) (k : Nat) (ms : Int) (t : List Out) : looks k (t ++ .looked k ms :: (judge c d k ms).2) = looks k t ++ [ms] := by
  rw [looks_append, looks_looked, if_pos rfl]

theorem warns_here (k : Nat) (ms : Int) (t o : List Out) : warns k (t ++ .looked k ms :: o) = warns k t ++ warns k o := by
  rw [warns_append]; rfl

theorem errors_here (k : Nat) (ms : Int) (t o : List Out) : errors k (t ++ .looked k ms :: o) = errors k t ++ errors k o := by
  rw [errors_append]; rfl

structure Once (c : Config) (k : Nat) (r : Dog × List Out) : Prop where
  w1 : (warns k r.2).length ≤ 1
  e1 : (errors k r.2).length ≤ 1
  w : warns k r.2 ≠ [] → (∃ d ∈ looks k r.2, c.warn < d) ∧ (Alive k r.1 → r.1.health ≠ .healthy)
  e : errors k r.2 ≠ [] → (∃ d ∈ looks k r.2, c.error < d) ∧ (Alive k r.1 → r.1.health = .error)

theorem once_step {c : Config} {h : List In} {r : Dog × List Out} (b : Base c h r) {k : Nat} (o : Once c k r) (x : In) (hc : Clock (h ++ [x])) :
    Once c k (onIn c r x) := by
  rcases quiet_or b x k with q | ⟨s, now, rfl, hl, e⟩
  · refine ⟨by rw [q.warns]; exact o.w1, by rw [q.errors]; exact o.e1, fun hw => ?_, fun he => ?_⟩
    · rw [q.warns] at hw
      rw [q.looks]
      obtain ⟨⟨d, hd, hd'⟩, h2⟩ := o.w hw
      refine ⟨⟨d, hd, hd'⟩, fun ha => ?_⟩
      obtain ⟨a1, a2⟩ := q.alive ha (List.ne_nil_of_mem hd)
      rw [a2]; exact h2 a1
    · rw [q.errors] at he
      rw [q.looks]
      obtain ⟨⟨d, hd, hd'⟩, h2⟩ := o.e he
      refine ⟨⟨d, hd, hd'⟩, fun ha => ?_⟩
      obtain ⟨a1, a2⟩ := q.alive ha (List.ne_nil_of_mem hd)
      rw [a2]; exact h2 a1
  · have lat := later b hc hl
    have al : Alive k r.1 := .inr ⟨s, hl⟩
    rw [e]
    have keepw : ∀ (o' : List Out), warns k o' = [] → warns k (r.2 ++ .looked k (millis s now) :: o') = warns k r.2 := by
      intro o' ho
      rw [warns_here, ho, List.append_nil]
    have keepe : ∀ (o' : List Out), errors k o' = [] → errors k (r.2 ++ .looked k (millis s now) :: o') = errors k r.2 := by
      intro o' ho
      rw [errors_here, ho, List.append_nil]
    have hlk := looks_here c { r.1 with loaded := none } k (millis s now) r.2
    have mem : millis s now ∈ looks k r.2 ++ [millis s now] := by simp
    rcases judge_cases c { r.1 with loaded := none } k (millis s now) with ⟨h1, h2, h3, e'⟩ | ⟨h1, h2, h3, e'⟩ | ⟨h1, h3, e'⟩ | ⟨h1, h3, e'⟩ | ⟨h1, h2, e'⟩ <;>
      rw [e'] at hlk ⊢
    · have wn : warns k r.2 = [] := by
        cases hw : warns k r.2 with
        | nil => rfl
        | cons => exact absurd h3 ((o.w (by rw [hw]; simp)).2 al)
      have en : errors k r.2 = [] := by
        cases he : errors k r.2 with
        | nil => rfl
        | cons => exact absurd (h3.symm.trans ((o.e (by rw [he]; simp)).2 al)) (by simp)
      refine ⟨?_, by rw [keepe _ (by simp [errors, errorOf]), en]; simp, fun _ => ⟨⟨_, by rw [hlk]; exact mem, h1⟩, fun _ => by simp⟩, fun he => ?_⟩
      · rw [warns_here, wn]; simp [warns, warnOf]
      · rw [keepe _ (by simp [errors, errorOf]), en] at he
        exact absurd rfl he
    · refine ⟨by rw [keepw _ rfl]; exact o.w1, by rw [keepe _ rfl]; exact o.e1, fun hw => ?_, fun he => ?_⟩
      · exact ⟨⟨_, by rw [hlk]; exact mem, h1⟩, fun _ => h3⟩
      · exfalso
        rw [keepe _ rfl] at he
        obtain ⟨⟨d, hd, hd'⟩, _⟩ := o.e he
        have := lat d hd
        omega
    · have en : errors k r.2 = [] := by
        cases he : errors k r.2 with
        | nil => rfl
        | cons => exact absurd ((o.e (by rw [he]; simp)).2 al) h3
      refine ⟨by rw [keepw _ (by simp [warns, warnOf])]; exact o.w1, ?_, fun hw => ?_, fun he => ?_⟩
      · rw [errors_here, en]; simp [errors, errorOf]
      · rw [keepw _ (by simp [warns, warnOf])] at hw
        obtain ⟨⟨d, hd, hd'⟩, _⟩ := o.w hw
        exact ⟨⟨d, by rw [hlk]; exact List.mem_append_left _ hd, hd'⟩, fun _ => by simp⟩
      · exact ⟨⟨_, by rw [hlk]; exact mem, h1⟩, fun _ => rfl⟩
    · refine ⟨by rw [keepw _ rfl]; exact o.w1, by rw [keepe _ rfl]; exact o.e1, fun hw => ?_, fun he => ?_⟩
      · rw [keepw _ rfl] at hw
        obtain ⟨⟨d, hd, hd'⟩, _⟩ := o.w hw
        exact ⟨⟨d, by rw [hlk]; exact List.mem_append_left _ hd, hd'⟩, fun _ => by rw [show r.1.health = .error from h3]; simp⟩
      · exact ⟨⟨_, by rw [hlk]; exact mem, h1⟩, fun _ => h3⟩
    · refine ⟨by rw [keepw _ rfl]; exact o.w1, by rw [keepe _ rfl]; exact o.e1, fun hw => ?_, fun he => ?_⟩
      · exfalso
        rw [keepw _ rfl] at hw
        obtain ⟨⟨d, hd, hd'⟩, _⟩ := o.w hw
        have := lat d hd
        omega
      · exfalso
        rw [keepe _ rfl] at he
        obtain ⟨⟨d, hd, hd'⟩, _⟩ := o.e he
        have := lat d hd
        omega

theorem run_once (c : Config) (k : Nat) (h : List In) : Clock h → Once c k (run c h) := by
  refine in_induction (P := fun h => Clock h → Once c k (run c h)) (fun _ => ?_) (fun l x ih hc => ?_) h
  · exact ⟨by simp [run, warns], by simp [run, errors], fun h => absurd rfl h, fun h => absurd rfl h⟩
  · rw [run_snoc]
    exact once_step (run_base c l (clock_prefix hc)) (ih (clock_prefix hc)) x hc

/-! ## Exactly what is reported -/

def cls (c : Config) (d : Int) : Health := if c.warn < d ∧ d ≤ c.error then .warn else if c.error < d then .error else .healthy

def inWarn (c : Config) (d : Int) : Bool := decide (c.warn < d ∧ d ≤ c.error)

theorem cls_healthy {c : Config} {d : Int} : cls c d = .healthy ↔ d ≤ c.warn ∧ d ≤ c.error := by
  unfold cls
  split
  · simp; omega
  · split
    · simp; omega
    · simp; omega

theorem cls_error {c : Config} {d : Int} : cls c d = .error ↔ c.error < d := by
  unfold cls
  split
  · simp; omega
  · split
    · simp; omega
    · simp; omega

theorem cls_warn {c : Config} {d : Int} : cls c d = .warn ↔ c.warn < d ∧ d ≤ c.error := by
  unfold cls
  split
  · simp; omega
  · split
    · simp; omega
    · simp; omega

theorem calm_append (c : Config) (a b : List Out) : calm c (a ++ b) = b.foldl (calmStep c) (calm c a) := by simp [calm, List.foldl_append]

theorem run_calm (c : Config) (h : List In) : calm c (run c h).2 = true ↔ (run c h).1.health = .healthy := by
  refine in_induction (P := fun h => calm c (run c h).2 = true ↔ (run c h).1.health = .healthy) (by simp [run, calm]) (fun l x ih => ?_) h
  rw [run_snoc]
  generalize run c l = r at ih ⊢
  cases x with
  | start now => simpa [onIn, Dog.step] using ih
  | reset now => simpa [onIn, Dog.step] using ih
  | load =>
    simp only [onIn, Dog.step]
    cases hl : r.1.loaded with
    | some l => simpa using ih
    | none =>
      simp only
      cases hs : r.1.start with
      | none => rw [calm_append]; simp [calmStep]
      | some p => simpa using ih
  | look now =>
    simp only [onIn, Dog.step]
    cases hl : r.1.loaded with
    | none => simpa using ih
    | some p =>
      simp only
      rw [calm_append]
      rcases judge_cases c { r.1 with loaded := none } p.1 (millis p.2 now) with ⟨h1, h2, h3, e'⟩ | ⟨h1, h2, h3, e'⟩ | ⟨h1, h3, e'⟩ | ⟨h1, h3, e'⟩ | ⟨h1, h2, e'⟩ <;>
        rw [e']
      · simp [calmStep, inTime]; omega
      · simp [calmStep, inTime, show ¬ r.1.health = .healthy from h3]; omega
      · simp [calmStep, inTime]; omega
      · simp [calmStep, inTime, show r.1.health = .error from h3]; omega
      · simp [calmStep, inTime, h1, h2]

theorem isLook_iff {k : Nat} {o : Out} : isLook k o = true ↔ ∃ d, lookOf k o = some d := by
  cases o <;> simp [isLook, lookOf]

theorem looks_nil {k : Nat} {t : List Out} : looks k t = [] ↔ ∀ o ∈ t, isLook k o = false := by
  unfold looks
  rw [List.filterMap_eq_nil_iff]
  constructor
  · intro h o ho
    cases hi : isLook k o with
    | false => rfl
    | true =>
      obtain ⟨d, hd⟩ := isLook_iff.1 hi
      rw [h o ho] at hd; cases hd
  · intro h o ho
    cases hl : lookOf k o with
    | none => rfl
    | some d =>
      have := isLook_iff.2 ⟨d, hl⟩
      rw [h o ho] at this; cases this

theorem takeWhile_all {α : Type} {p : α → Bool} {l : List α} (h : ∀ x ∈ l, p x = true) (m : List α) : (l ++ m).takeWhile p = l ++ m.takeWhile p := by
  induction l with
  | nil => rfl
  | cons x l ih =>
    rw [List.cons_append, List.takeWhile_cons_of_pos (h x (by simp)), ih fun y hy => h y (by simp [hy])]
    rfl

theorem takeWhile_some {α : Type} {p : α → Bool} {l : List α} (h : ∃ x ∈ l, p x = false) (m : List α) : (l ++ m).takeWhile p = l.takeWhile p := by
  induction l with
  | nil => obtain ⟨x, hx, _⟩ := h; cases hx
  | cons x l ih =>
    rw [List.cons_append]
    cases hp : p x with
    | false => rw [List.takeWhile_cons_of_neg (by simp [hp]), List.takeWhile_cons_of_neg (by simp [hp])]
    | true =>
      rw [List.takeWhile_cons_of_pos hp, List.takeWhile_cons_of_pos hp, ih]
      obtain ⟨y, hy, hpy⟩ := h
      rcases List.mem_cons.1 hy with rfl | hy
      · rw [hp] at hpy; cases hpy
      · exact ⟨y, hy, hpy⟩

theorem fresh_keep {c : Config} {k : Nat} {t : List Out} (h : looks k t ≠ []) (o : List Out) : Fresh c k (t ++ o) ↔ Fresh c k t := by
  unfold Fresh
  have h1 : ∃ x ∈ t, (!isLook k x) = false := by
    apply Classical.byContradiction
    intro hn
    refine h (looks_nil.2 fun x hx => ?_)
    cases hi : isLook k x with
    | false => rfl
    | true => exact absurd ⟨x, hx, by simp [hi]⟩ hn
  rw [takeWhile_some h1, looks_append]
  cases hl : looks k t with
  | nil => exact absurd hl h
  | cons d ds => rfl

theorem fresh_first {c : Config} {k : Nat} {t : List Out} (h : looks k t = []) (d : Dog) (ms : Int) :
    Fresh c k (t ++ .looked k ms :: (judge c d k ms).2) ↔ calm c t = true ∨ inTime c ms = true := by
  unfold Fresh
  rw [looks_here, h, takeWhile_all (fun x hx => by simp [looks_nil.1 h x hx]), List.takeWhile_cons_of_neg (by simp [isLook])]
  simp

structure Exact (c : Config) (k : Nat) (r : Dog × List Out) : Prop where
  w : warns k r.2 = ((looks k r.2).find? (inWarn c)).toList
  e : errors k r.2 = ((looks k r.2).find? fun d => decide (c.error < d)).toList
  last : ∀ a l, looks k r.2 = a ++ [l] → Alive k r.1 → r.1.health = cls c l

theorem find_none {p : Int → Bool} {l : List Int} (h : ∀ d ∈ l, p d = false) : l.find? p = none := by
  rw [List.find?_eq_none]
  intro d hd
  simp [h d hd]

theorem once_nil {c : Config} {k : Nat} {r : Dog × List Out} (o : Once c k r) (h : looks k r.2 = []) : warns k r.2 = [] ∧ errors k r.2 = [] := by
  constructor
  · cases hw : warns k r.2 with
    | nil => rfl
    | cons =>
      obtain ⟨⟨d, hd, _⟩, _⟩ := o.w (by rw [hw]; simp)
      rw [h] at hd; cases hd
  · cases hw : errors k r.2 with
    | nil => rfl
    | cons =>
      obtain ⟨⟨d, hd, _⟩, _⟩ := o.e (by rw [hw]; simp)
      rw [h] at hd; cases hd

theorem exact_step {c : Config} {h : List In} (x : In) (hc : Clock (h ++ [x])) {k : Nat} (ih : Fresh c k (run c h).2 → looks k (run c h).2 ≠ [] → Exact c k (run c h)) :
    Fresh c k (run c (h ++ [x])).2 → looks k (run c (h ++ [x])).2 ≠ [] → Exact c k (run c (h ++ [x])) := by
  have b := run_base c h (clock_prefix hc)
  have o := run_once c k h (clock_prefix hc)
  have hcalm := run_calm c h
  rw [run_snoc]
  intro hf hne
  have hpre : ∃ t, (onIn c (run c h) x).2 = (run c h).2 ++ t := ⟨_, rfl⟩
  generalize run c h = r at *
  rcases quiet_or b x k with q | ⟨s, now, rfl, hl, e⟩
  · obtain ⟨t, ht⟩ := hpre
    rw [q.looks] at hne
    rw [ht, fresh_keep hne] at hf
    obtain ⟨h1, h2, h3⟩ := ih hf hne
    refine ⟨by rw [q.warns, q.looks]; exact h1, by rw [q.errors, q.looks]; exact h2, fun a l hal ha => ?_⟩
    obtain ⟨a1, a2⟩ := q.alive ha hne
    rw [a2]
    exact h3 a l (by rw [← q.looks]; exact hal) a1
  · have lat := later b hc hl
    have al : Alive k r.1 := .inr ⟨s, hl⟩
    rw [e] at hf ⊢
    clear hne hpre
    generalize millis s now = ms at *
    have hlk := looks_here c { r.1 with loaded := none } k ms r.2
    -- what the watchdog knows
    have know : (looks k r.2 = [] ∧ (r.1.health = .healthy ∨ ms ≤ c.warn ∧ ms ≤ c.error)) ∨ ∃ a l, looks k r.2 = a ++ [l] ∧ r.1.health = cls c l ∧ Exact c k r := by
      cases hd : looks k r.2 with
      | nil =>
        left
        rw [fresh_first hd] at hf
        refine ⟨rfl, hf.imp hcalm.1 fun h => ?_⟩
        simpa [inTime] using h
      | cons d ds =>
        right
        have hne : looks k r.2 ≠ [] := by rw [hd]; simp
        rw [fresh_keep hne] at hf
        have ex := ih hf hne
        obtain ⟨a, l, hal⟩ : ∃ a l, d :: ds = a ++ [l] := ⟨(d :: ds).dropLast, (d :: ds).getLast (by simp), (List.dropLast_concat_getLast (by simp)).symm⟩
        exact ⟨a, l, hal, ex.last a l (hd.trans hal) al, ex⟩
    have exw : warns k r.2 = ((looks k r.2).find? (inWarn c)).toList := by
      rcases know with ⟨hn, _⟩ | ⟨_, _, _, _, ex⟩
      · rw [hn, (once_nil o hn).1]; rfl
      · exact ex.w
    have exe : errors k r.2 = ((looks k r.2).find? fun d => decide (c.error < d)).toList := by
      rcases know with ⟨hn, _⟩ | ⟨_, _, _, _, ex⟩
      · rw [hn, (once_nil o hn).2]; rfl
      · exact ex.e
    have all : ∀ a l, looks k r.2 = a ++ [l] → ∀ d ∈ looks k r.2, d ≤ l := by
      intro a l hal d hd
      have hs := b.sorted k
      rw [hal] at hd hs
      rw [List.pairwise_append] at hs
      rcases List.mem_append.1 hd with hd | hd
      · exact hs.2.2 d hd l (by simp)
      · rw [List.mem_singleton] at hd; omega
    have cl : ∀ (d : Dog) (o' : List Out), d.health = cls c ms → ∀ a l, looks k (r.2 ++ .looked k ms :: o') = a ++ [l] →
        looks k (r.2 ++ .looked k ms :: o') = looks k r.2 ++ [ms] → d.health = cls c l := by
      intro d o' hd a l h1 h2
      rw [h2] at h1
      have := (List.append_inj' h1 rfl).2
      injection this with this
      rw [← this]; exact hd
    have noe : ms ≤ c.error → ((looks k r.2).find? fun d => decide (c.error < d)) = none := fun hm => find_none fun d hd => by
      have := lat d hd
      simp; omega
    have now_ : ms ≤ c.warn → (looks k r.2).find? (inWarn c) = none := fun hm => find_none fun d hd => by
      have := lat d hd
      simp [inWarn]; omega
    rcases judge_cases c { r.1 with loaded := none } k ms with ⟨h1, h2, h3, e'⟩ | ⟨h1, h2, h3, e'⟩ | ⟨h1, h3, e'⟩ | ⟨h1, h3, e'⟩ | ⟨h1, h2, e'⟩ <;>
      rw [e'] at hlk ⊢
    · have hz : (looks k r.2).find? (inWarn c) = none := by
        rcases know with ⟨hn, _⟩ | ⟨a, l, hal, hcl, _⟩
        · rw [hn]; rfl
        · refine find_none fun d hd => ?_
          have := all a l hal d hd
          have := cls_healthy.1 (hcl.symm.trans h3)
          simp [inWarn]; omega
      refine ⟨?_, ?_, fun a l hal _ => cl _ _ (cls_warn.2 ⟨h1, h2⟩).symm a l hal hlk⟩
      · rw [hlk, warns_here, exw, List.find?_append, hz]
        simp [warns, warnOf, inWarn, h1, h2]
      · rw [hlk, errors_here, exe, List.find?_append, noe h2]
        have : ¬ c.error < ms := by omega
        simp [errors, errorOf, this]
    · have hz : ∃ d, (looks k r.2).find? (inWarn c) = some d := by
        rcases know with ⟨hn, hh⟩ | ⟨a, l, hal, hcl, _⟩
        · exfalso
          rcases hh with hh | hh
          · exact h3 hh
          · omega
        · have hl' := lat l (by rw [hal]; simp)
          have : cls c l = .warn := by
            cases hq : cls c l with
            | warn => rfl
            | healthy => exact absurd (hcl.trans hq) h3
            | error => have := cls_error.1 hq; omega
          cases hfd : (looks k r.2).find? (inWarn c) with
          | some d => exact ⟨d, rfl⟩
          | none =>
            rw [List.find?_eq_none] at hfd
            have := hfd l (by rw [hal]; simp)
            simp [inWarn] at this
            have := cls_warn.1 ‹cls c l = .warn›
            omega
      have hh : r.1.health = .warn := by
        rcases know with ⟨hn, hh⟩ | ⟨a, l, hal, hcl, _⟩
        · exfalso
          rcases hh with hh | hh
          · exact h3 hh
          · omega
        · have hl' := lat l (by rw [hal]; simp)
          cases hq : cls c l with
          | warn => rw [hcl, hq]
          | healthy => exact absurd (hcl.trans hq) h3
          | error => have := cls_error.1 hq; omega
      obtain ⟨d, hd⟩ := hz
      refine ⟨?_, ?_, fun a l hal _ => cl { r.1 with loaded := none } _ (hh.trans (cls_warn.2 ⟨h1, h2⟩).symm) a l hal hlk⟩
      · rw [hlk, warns_here, exw, List.find?_append, hd]
        simp [warns]
      · rw [hlk, errors_here, exe, List.find?_append, noe h2]
        have : ¬ c.error < ms := by omega
        simp [errors, this]
    · have hz : ((looks k r.2).find? fun d => decide (c.error < d)) = none := by
        rcases know with ⟨hn, _⟩ | ⟨a, l, hal, hcl, _⟩
        · rw [hn]; rfl
        · refine find_none fun d hd => ?_
          have := all a l hal d hd
          have : ¬ c.error < l := fun hh => h3 (hcl.trans (cls_error.2 hh))
          simp; omega
      refine ⟨?_, ?_, fun a l hal _ => cl _ _ (cls_error.2 h1).symm a l hal hlk⟩
      · rw [hlk, warns_here, exw, List.find?_append]
        have : inWarn c ms = false := by simp [inWarn]; omega
        simp [warns, warnOf, this]
      · rw [hlk, errors_here, exe, List.find?_append, hz]
        simp [errors, errorOf, h1]
    · have hz : ∃ d, ((looks k r.2).find? fun d => decide (c.error < d)) = some d := by
        rcases know with ⟨hn, hh⟩ | ⟨a, l, hal, hcl, _⟩
        · exfalso
          rcases hh with hh | hh
          · cases hh.symm.trans h3
          · omega
        · cases hfd : ((looks k r.2).find? fun d => decide (c.error < d)) with
          | some d => exact ⟨d, rfl⟩
          | none =>
            rw [List.find?_eq_none] at hfd
            have := hfd l (by rw [hal]; simp)
            exact absurd (cls_error.1 (hcl.symm.trans h3)) (by simpa using this)
      obtain ⟨d, hd⟩ := hz
      refine ⟨?_, ?_, fun a l hal _ => cl { r.1 with loaded := none } _ (Eq.trans h3 (cls_error.2 h1).symm) a l hal hlk⟩
      · rw [hlk, warns_here, exw, List.find?_append]
        have : inWarn c ms = false := by simp [inWarn]; omega
        simp [warns, this]
      · rw [hlk, errors_here, exe, List.find?_append, hd]
        simp [errors]
    · refine ⟨?_, ?_, fun a l hal _ => cl _ _ (cls_healthy.2 ⟨h1, h2⟩).symm a l hal hlk⟩
      · rw [hlk, warns_here, exw, List.find?_append, now_ h1]
        have : inWarn c ms = false := by simp [inWarn]; omega
        simp [warns, this]
      · rw [hlk, errors_here, exe, List.find?_append, noe h2]
        have : ¬ c.error < ms := by omega
        simp [errors, this]

theorem run_exact (c : Config) (k : Nat) (h : List In) : Clock h → Fresh c k (run c h).2 → looks k (run c h).2 ≠ [] → Exact c k (run c h) := by
  refine in_induction (P := fun h => Clock h → Fresh c k (run c h).2 → looks k (run c h).2 ≠ [] → Exact c k (run c h)) (fun _ _ h => absurd rfl h) (fun l x ih hc => ?_) h
  exact exact_step x hc (ih (clock_prefix hc))

/-! ## Steps that end -/

theorem spans_snoc (h : List In) (x : In) : spans (h ++ [x]) = spanStep (spans h) x := by simp [spans, List.foldl_append]

/-- `spans` and `starts` tell the same. -/
theorem spans_starts (h : List In) : (spans h).map (·.1) = starts h := by
  refine in_induction (P := fun h => (spans h).map (·.1) = starts h) rfl (fun l x ih => ?_) h
  rw [spans_snoc, starts_snoc, ← ih]
  cases x with
  | start t => simp [spanStep, startOf]
  | load => simp [spanStep, startOf]
  | look t => simp [spanStep, startOf]
  | reset t =>
    simp only [spanStep, startOf]
    split
    · rename_i s hs
      obtain ⟨a, ha⟩ := List.getLast?_eq_some_iff.1 hs
      rw [ha]; simp
    · simp

def Seen (h : List In) (r : Dog × List Out) : Prop :=
  (∀ j s, r.1.start = some (j, s) → ∃ a, spans h = a ++ [(s, none)] ∧ a.length = j) ∧
  (r.1.start = none → ∀ a s, spans h ≠ a ++ [(s, none)])  ∧
  (∀ k d, d ∈ looks k r.2 → ∀ s e, (spans h)[k]? = some (s, some e) → d ≤ millis s e)

def promptState (h : List In) : Option Bool := h.foldl promptStep (some false)

theorem promptState_snoc (h : List In) (x : In) : promptState (h ++ [x]) = promptStep (promptState h) x := by simp [promptState, List.foldl_append]

theorem prompt_prefix {h : List In} {x : In} (hp : Prompt (h ++ [x])) : Prompt h := by
  unfold Prompt at hp ⊢
  rw [show (h ++ [x]).foldl promptStep (some false) = promptState (h ++ [x]) from rfl, promptState_snoc] at hp
  rw [show h.foldl promptStep (some false) = promptState h from rfl]
  cases hq : promptState h with
  | none => rw [hq] at hp; cases hp
  | some b => rfl

theorem prompt_prefixes {h b : List In} : Prompt (h ++ b) → Prompt h := by
  refine in_induction (P := fun b => Prompt (h ++ b) → Prompt h) (by simp) (fun l x ih hp => ?_) b
  rw [← List.append_assoc] at hp
  exact ih (prompt_prefix hp)

theorem prompt_loaded (c : Config) (h : List In) : Prompt h → (∀ p, (run c h).1.loaded = some p → (run c h).1.start = some p) ∧
    (promptState h = some false → (run c h).1.loaded = none) := by
  refine in_induction (P := fun h => Prompt h → (∀ p, (run c h).1.loaded = some p → (run c h).1.start = some p) ∧
    (promptState h = some false → (run c h).1.loaded = none)) (fun _ => ⟨fun p hp => (by cases hp), fun _ => rfl⟩) (fun l x ih hp => ?_) h
  obtain ⟨i1, i2⟩ := ih (prompt_prefix hp)
  have hps : (promptState (l ++ [x])).isSome = true := hp
  rw [run_snoc]
  rw [promptState_snoc] at hps ⊢
  cases hq : promptState l with
  | none => rw [hq] at hps; simp [promptStep] at hps
  | some b =>
    rw [hq] at hps i2
    cases x with
    | start now =>
      cases b with
      | true => simp [promptStep] at hps
      | false =>
        have hn := i2 rfl
        simp [onIn, Dog.step, hn]
    | reset now =>
      cases b with
      | true => simp [promptStep] at hps
      | false =>
        have hn := i2 rfl
        simp [onIn, Dog.step, hn]
    | load =>
      simp only [onIn, Dog.step, promptStep]
      cases hl : (run c l).1.loaded with
      | some p => exact ⟨by simpa [hl] using i1 p hl, fun h => (by cases h)⟩
      | none =>
        cases hs : (run c l).1.start with
        | none => simp [hl]
        | some p => simp
    | look now =>
      simp only [onIn, Dog.step, promptStep]
      cases hl : (run c l).1.loaded with
      | none => simp [hl]
      | some p =>
        have := judge_fields c { (run c l).1 with loaded := none } p.1 (millis p.2 now)
        simp only [this.2.2]
        simp

theorem seen_step {c : Config} {h : List In} (x : In) (hc : Clock (h ++ [x])) (hp : Prompt (h ++ [x])) (ih : Seen h (run c h)) : Seen (h ++ [x]) (run c (h ++ [x])) := by
  have b := run_base c h (clock_prefix hc)
  have pl := (prompt_loaded c h (prompt_prefix hp)).1
  obtain ⟨i1, i2, i3⟩ := ih
  have lt : ∀ k d, d ∈ looks k (run c h).2 → k < (spans h).length := by
    intro k d hd
    obtain ⟨s, _, h1, _⟩ := b.seen k d hd
    rw [← spans_starts] at h1
    rcases Nat.lt_or_ge k (spans h).length with h | h
    · exact h
    · rw [List.getElem?_eq_none (by simpa using h)] at h1; cases h1
  rw [run_snoc]
  unfold Seen
  rw [spans_snoc]
  cases x with
  | start now =>
    simp only [onIn, Dog.step, spanStep, List.append_nil]
    refine ⟨fun j s hj => ?_, fun hn => (by cases hn), fun k d hd s e hk => ?_⟩
    · simp only [Option.some.injEq, Prod.mk.injEq] at hj
      refine ⟨_, by rw [hj.2], ?_⟩
      rw [← hj.1, b.count, ← spans_starts, List.length_map]
    · rw [List.getElem?_append_left (lt k d hd)] at hk
      exact i3 k d hd s e hk
  | reset now =>
    simp only [onIn, Dog.step, spanStep, List.append_nil]
    refine ⟨fun j s hj => (by cases hj), fun _ a s ha => ?_, fun k d hd s e hk => ?_⟩
    · split at ha
      · have := (List.append_inj' ha rfl).2
        simp at this
      · rename_i hx
        refine hx s ?_
        rw [ha]; simp
    · split at hk
      · rename_i s' hs'
        obtain ⟨a, ha⟩ := List.getLast?_eq_some_iff.1 hs'
        rw [ha] at hk
        have hlt := lt k d hd
        rw [ha, List.length_append, List.length_singleton] at hlt
        simp only [List.dropLast_concat] at hk
        by_cases hka : k < a.length
        · rw [List.getElem?_append_left hka] at hk
          exact i3 k d hd s e (by rw [ha, List.getElem?_append_left hka]; exact hk)
        · have : k = a.length := by omega
          subst this
          simp only [List.getElem?_concat_length, Option.some.injEq, Prod.mk.injEq] at hk
          obtain ⟨s'', T, h1, h2, h3⟩ := b.seen _ d hd
          rw [← spans_starts, ha] at h1
          simp at h1
          rw [h3, ← h1, ← hk.1, ← hk.2]
          exact millis_mono (clock_le hc rfl T h2)
      · exact i3 k d hd s e hk
  | load =>
    simp only [onIn, Dog.step, spanStep]
    cases hl : (run c h).1.loaded with
    | some p => simpa using ⟨i1, i2, i3⟩
    | none =>
      cases hs : (run c h).1.start with
      | none =>
        refine ⟨fun j s hj => ?_, fun _ => i2 hs, fun k d hd => ?_⟩
        · cases hj
        · rw [looks_append] at hd
          rcases List.mem_append.1 hd with hd | hd
          · exact i3 k d hd
          · simp [looks, lookOf] at hd
      | some p =>
        refine ⟨fun j s hj => i1 j s (by rw [hs]; exact hj), fun hn => ?_, fun k d hd => i3 k d (by simpa using hd)⟩
        cases hn
  | look now =>
    simp only [onIn, Dog.step, spanStep]
    cases hl : (run c h).1.loaded with
    | none => simpa using ⟨i1, i2, i3⟩
    | some p =>
      have jf := judge_fields c { (run c h).1 with loaded := none } p.1 (millis p.2 now)
      have hs := pl p hl
      simp only [jf.2.1]
      refine ⟨i1, i2, fun k d hd s e hk => ?_⟩
      rw [looks_append, looks_looked] at hd
      rcases List.mem_append.1 hd with hd | hd
      · exact i3 k d hd s e hk
      · split at hd
        · rename_i hpk
          obtain ⟨a, ha, hlen⟩ := i1 p.1 p.2 hs
          rw [ha, ← hpk, ← hlen, List.getElem?_concat_length] at hk
          cases hk
        · cases hd

theorem run_seen (c : Config) (h : List In) : Clock h → Prompt h → Seen h (run c h) := by
  refine in_induction (P := fun h => Clock h → Prompt h → Seen h (run c h)) (fun _ _ => ⟨fun j s hj => (by cases hj), fun _ a s ha => (by simp [spans] at ha), fun k d hd => (by cases hd)⟩)
    (fun l x ih hc hp => seen_step x hc hp (ih (clock_prefix hc) (prompt_prefix hp))) h

theorem run_append (c : Config) (a b : List In) : ∃ t, (run c (a ++ b)).2 = (run c a).2 ++ t := by
  refine in_induction (P := fun b => ∃ t, (run c (a ++ b)).2 = (run c a).2 ++ t) ⟨[], by simp⟩ (fun l x ⟨t, ih⟩ => ?_) b
  rw [← List.append_assoc, run_snoc]
  exact ⟨t ++ _, by rw [← List.append_assoc, ← ih]; rfl⟩

/-- Who looks while a step runs sees it. -/
theorem sees {c : Config} {a b : List In} {T : Int} (hc : Clock (a ++ .load :: .look T :: b)) (hp : Prompt (a ++ .load :: .look T :: b)) {l : List (Int × Option Int)} {s : Int}
    (hs : spans a = l ++ [(s, none)]) : Out.looked l.length (millis s T) ∈ (run c (a ++ .load :: .look T :: b)).2 := by
  have e : a ++ .load :: .look T :: b = (a ++ [.load] ++ [.look T]) ++ b := by simp
  have hca : Clock a := clock_prefix hc
  have hpa : Prompt a := prompt_prefixes hp
  obtain ⟨i1, i2, _⟩ := run_seen c a hca hpa
  have st : (run c a).1.start = some (l.length, s) := by
    cases hq : (run c a).1.start with
    | none => exact absurd hs (i2 hq l s)
    | some p =>
      obtain ⟨a', ha', hlen⟩ := i1 p.1 p.2 hq
      rw [ha'] at hs
      have h1 := List.append_inj' hs rfl
      rw [← h1.1, hlen]
      have := h1.2
      simp only [List.cons.injEq, Prod.mk.injEq, and_true] at this
      rw [← this]
  have ld : (run c (a ++ [.load])).1.loaded = some (l.length, s) := by
    rw [run_snoc]
    simp only [onIn, Dog.step]
    cases hl : (run c a).1.loaded with
    | some p =>
      have := (prompt_loaded c a hpa).1 p hl
      rw [st] at this
      injection this with this
      simp only [hl, this]
    | none => simp only [st]
  obtain ⟨t, ht⟩ := run_append c (a ++ [.load] ++ [.look T]) b
  rw [e, ht]
  refine List.mem_append_left _ ?_
  rw [run_snoc]
  simp only [onIn, Dog.step, ld]
  exact List.mem_append_right _ (by simp)

theorem mem_looks {k : Nat} {d : Int} {t : List Out} : d ∈ looks k t ↔ Out.looked k d ∈ t := by
  unfold looks
  rw [List.mem_filterMap]
  constructor
  · rintro ⟨o, ho, e⟩
    cases o <;> simp [lookOf] at e
    obtain ⟨rfl, rfl⟩ := e
    exact ho
  · exact fun h => ⟨_, h, by simp [lookOf]⟩

theorem mem_warns {k : Nat} {d : Int} {t : List Out} : d ∈ warns k t ↔ Out.warn k d ∈ t := by
  unfold warns
  rw [List.mem_filterMap]
  constructor
  · rintro ⟨o, ho, e⟩
    cases o <;> simp [warnOf] at e
    obtain ⟨rfl, rfl⟩ := e
    exact ho
  · exact fun h => ⟨_, h, by simp [warnOf]⟩

theorem mem_errors {k : Nat} {d : Int} {t : List Out} : d ∈ errors k t ↔ Out.error k d ∈ t := by
  unfold errors
  rw [List.mem_filterMap]
  constructor
  · rintro ⟨o, ho, e⟩
    cases o <;> simp [errorOf] at e
    obtain ⟨rfl, rfl⟩ := e
    exact ho
  · exact fun h => ⟨_, h, by simp [errorOf]⟩

/-- Nothing is reported that was not seen. -/
theorem reported (c : Config) (h : List In) : (∀ k d, Out.warn k d ∈ (run c h).2 → Out.looked k d ∈ (run c h).2 ∧ c.warn < d ∧ d ≤ c.error) ∧
    (∀ k d, Out.error k d ∈ (run c h).2 → Out.looked k d ∈ (run c h).2 ∧ c.error < d) := by
  refine in_induction (P := fun h => (∀ k d, Out.warn k d ∈ (run c h).2 → Out.looked k d ∈ (run c h).2 ∧ c.warn < d ∧ d ≤ c.error) ∧
    (∀ k d, Out.error k d ∈ (run c h).2 → Out.looked k d ∈ (run c h).2 ∧ c.error < d)) ⟨fun k d hd => (by cases hd), fun k d hd => (by cases hd)⟩ (fun l x ih => ?_) h
  rw [run_snoc]
  generalize run c l = r at ih ⊢
  have old : ∀ o, (∀ k d, Out.warn k d ∈ o → Out.looked k d ∈ o ∧ c.warn < d ∧ d ≤ c.error) → (∀ k d, Out.error k d ∈ o → Out.looked k d ∈ o ∧ c.error < d) →
      (∀ k d, Out.warn k d ∈ r.2 ++ o → Out.looked k d ∈ r.2 ++ o ∧ c.warn < d ∧ d ≤ c.error) ∧
      (∀ k d, Out.error k d ∈ r.2 ++ o → Out.looked k d ∈ r.2 ++ o ∧ c.error < d) := by
    intro o h1 h2
    refine ⟨fun k d hd => ?_, fun k d hd => ?_⟩
    · rcases List.mem_append.1 hd with hd | hd
      · exact ⟨List.mem_append_left _ (ih.1 k d hd).1, (ih.1 k d hd).2⟩
      · exact ⟨List.mem_append_right _ (h1 k d hd).1, (h1 k d hd).2⟩
    · rcases List.mem_append.1 hd with hd | hd
      · exact ⟨List.mem_append_left _ (ih.2 k d hd).1, (ih.2 k d hd).2⟩
      · exact ⟨List.mem_append_right _ (h2 k d hd).1, (h2 k d hd).2⟩
  refine old _ ?_ ?_
  · intro k d hd
    cases x with
    | start now => cases hd
    | reset now => cases hd
    | load =>
      simp only [Dog.step] at hd
      cases hl : r.1.loaded <;> cases hs : r.1.start <;> simp [hl, hs] at hd
    | look now =>
      simp only [Dog.step] at hd ⊢
      cases hl : r.1.loaded with
      | none => simp [hl] at hd
      | some p =>
        simp only [hl] at hd ⊢
        rcases judge_cases c { r.1 with loaded := none } p.1 (millis p.2 now) with ⟨h1, h2, h3, e'⟩ | ⟨h1, h2, h3, e'⟩ | ⟨h1, h3, e'⟩ | ⟨h1, h3, e'⟩ | ⟨h1, h2, e'⟩ <;>
          rw [e'] at hd ⊢ <;> simp at hd ⊢
        obtain ⟨rfl, rfl⟩ := hd
        exact ⟨⟨rfl, rfl⟩, h1, h2⟩
  · intro k d hd
    cases x with
    | start now => cases hd
    | reset now => cases hd
    | load =>
      simp only [Dog.step] at hd
      cases hl : r.1.loaded <;> cases hs : r.1.start <;> simp [hl, hs] at hd
    | look now =>
      simp only [Dog.step] at hd ⊢
      cases hl : r.1.loaded with
      | none => simp [hl] at hd
      | some p =>
        simp only [hl] at hd ⊢
        rcases judge_cases c { r.1 with loaded := none } p.1 (millis p.2 now) with ⟨h1, h2, h3, e'⟩ | ⟨h1, h2, h3, e'⟩ | ⟨h1, h3, e'⟩ | ⟨h1, h3, e'⟩ | ⟨h1, h2, e'⟩ <;>
          rw [e'] at hd ⊢ <;> simp at hd ⊢
        obtain ⟨rfl, rfl⟩ := hd
        exact ⟨⟨rfl, rfl⟩, h1⟩

theorem millis_lt {s e m : Int} (hm : 0 ≤ m) (h : m < millis s e) : (m + 1) * 1000000 ≤ e - s := by
  unfold millis at h
  rcases Int.lt_or_le (e - s) 0 with hn | hp
  · have : (e - s).tdiv 1000000 ≤ 0 := by
      have := Int.tdiv_le_tdiv (c := 1000000) (by omega) (show e - s ≤ 0 by omega)
      simpa using this
    omega
  · rw [Int.tdiv_eq_ediv_of_nonneg hp] at h
    omega

end SilKit.WatchDog
