import Verif.Lemmas.TimeSyncLive
/-!
# Progress of time synchronization: no deadlock, termination measure, no spurious abort
-/
namespace SilKit.TimeSync
open Spec

/-! ## No deadlock -/

theorem exists_min (ps : List String) (f : String → Int) (h : ps ≠ []) : ∃ p ∈ ps, ∀ q ∈ ps, f p ≤ f q := by
  induction ps with
  | nil => exact absurd rfl h
  | cons a l ih =>
    by_cases hl : l = []
    · subst hl; exact ⟨a, by simp, by simp⟩
    · obtain ⟨p, hp, hm⟩ := ih hl
      by_cases hap : f a ≤ f p
      · refine ⟨a, by simp, ?_⟩
        intro q hq
        rcases List.mem_cons.mp hq with rfl | hq
        · exact Int.le_refl _
        · have := hm q hq; omega
      · refine ⟨p, by simp [hp], ?_⟩
        intro q hq
        rcases List.mem_cons.mp hq with rfl | hq
        · omega
        · exact hm q hq

/-- Among those with a property, one that comes last in the list. -/
theorem exists_last {ps : List String} (hn : ps.Nodup) {P : String → Prop} (h : ∃ p ∈ ps, P p) :
    ∃ p ∈ ps, P p ∧ ∀ q ∈ ps, P q → ¬ [p, q].Sublist ps := by
  classical
  induction ps with
  | nil => obtain ⟨_, h, _⟩ := h; cases h
  | cons a l ih =>
    rw [List.nodup_cons] at hn
    by_cases hl : ∃ p ∈ l, P p
    · obtain ⟨p, hp, h1, h2⟩ := ih hn.2 hl
      refine ⟨p, List.mem_cons_of_mem _ hp, h1, fun q _ hq hs => ?_⟩
      have hs' : [p, q].Sublist l := by
        cases hs with
        | cons _ hs => exact hs
        | cons_cons _ hs => exact absurd hp hn.1
      exact h2 q (hs'.subset (by simp)) hq hs'
    · obtain ⟨p, hp, h1⟩ := h
      rcases List.mem_cons.mp hp with rfl | hp
      · refine ⟨p, List.mem_cons_self, h1, fun q _ hq hs => ?_⟩
        cases hs with
        | cons _ hs => exact hl ⟨p, hs.subset (by simp), h1⟩
        | cons_cons _ hs => exact hl ⟨q, hs.subset (by simp), hq⟩
      · exact absurd ⟨p, hp, h1⟩ hl

theorem enabled_busy {n : Net} {p : String} (h : (n.part p).busy = true) {ps} (hp : p ∈ ps) :
    ∃ a, Allowed ps n a ∧ (n.act a).isSome ∧ Work n a := by
  cases hi : (n.part p).inHandler with
  | true =>
    refine ⟨.event p .stepReturned, hp, ?_, trivial⟩
    simp [Net.act, Event.allowedFor, Part.on, Event.onIoThread, hi]
  | false =>
    have ha : (n.part p).asyncExecuting = true := by simpa [Part.busy, hi] using h
    refine ⟨.event p .complete, ⟨hp, ha⟩, ?_, trivial⟩
    simp [Net.act, Event.allowedFor, Part.on, Event.onIoThread, hi]

/-- Somebody whose next time point is minimal; if possible somebody who has not executed a step yet, and then the last one. -/
theorem exists_next {ps n tr} (h : LiveInv ps n tr) (hne : ps ≠ []) :
    ∃ p ∈ ps, ∀ q ∈ ps, (n.part p).cfg.next.tp ≤ (n.part q).cfg.next.tp ∧ ¬ ((n.part q).cfg.current.tp < 0 ∧ [p, q].Sublist ps) := by
  by_cases hu : ∃ p ∈ ps, (n.part p).cfg.current.tp < 0
  · obtain ⟨p, hp, h1, h2⟩ := exists_last h.nodup hu
    refine ⟨p, hp, fun q hq => ⟨?_, fun hx => h2 q hq hx.1 hx.2⟩⟩
    rw [h.zero p hp h1]; exact (h.net.ok q).next0
  · obtain ⟨p, hp, hmin⟩ := exists_min ps (fun p => (n.part p).cfg.next.tp) hne
    exact ⟨p, hp, fun q hq => ⟨hmin q hq, fun hx => hu ⟨q, hq, hx.1⟩⟩⟩

theorem no_deadlock {ps n tr} (h : LiveInv ps n tr) (hne : ps ≠ []) (hs : ∀ p ∈ ps, Started p tr) :
    ∃ a, Allowed ps n a ∧ (n.act a).isSome ∧ (Work n a ∨ ∃ q p, a = .deliver q p) := by
  by_cases hb : ∃ p ∈ ps, (n.part p).busy = true
  · obtain ⟨p, hp, hb⟩ := hb
    obtain ⟨a, h1, h2, h3⟩ := enabled_busy hb hp
    exact ⟨a, h1, h2, Or.inl h3⟩
  have hidle : ∀ p ∈ ps, (n.part p).busy = false := by
    intro p hp
    cases hx : (n.part p).busy with
    | false => rfl
    | true => exact absurd ⟨p, hp, hx⟩ hb
  have hin : ∀ p ∈ ps, (n.part p).inHandler = false := by
    intro p hp; have := hidle p hp; simp [Part.busy] at this; exact this.1
  by_cases hpoll : ∃ p ∈ ps, (n.part p).polls ≠ 0
  · obtain ⟨p, hp, hx⟩ := hpoll
    refine ⟨.event p .poll, hp, ?_, Or.inl trivial⟩
    simp [Net.act, Event.allowedFor, Part.on, hin p hp, hx]
  by_cases hc : ∃ q ∈ ps, ∃ p ∈ ps, n.chan q p ≠ []
  · obtain ⟨q, hq, p, hp, hx⟩ := hc
    refine ⟨.deliver q p, ⟨hq, hp⟩, ?_, Or.inr ⟨q, p, rfl⟩⟩
    simp only [Net.act]
    split
    · next he => exact absurd he hx
    · simp [Part.on, hin p hp]
    · simp [hin p hp]
  exfalso
  obtain ⟨p, hp, hmin⟩ := exists_next h hne
  have hpolls : (n.part p).polls = 0 := Decidable.byContradiction (fun hx => hpoll ⟨p, hp, hx⟩)
  have hw := h.waits p hp (h.started p hp (hs p hp)) (hidle p hp) hpolls
  simp only [TimeConfig.otherLower, List.any_eq_true, decide_eq_true_eq] at hw
  obtain ⟨⟨q, t⟩, hm, hlt⟩ := hw
  have hq := (h.keys p hp q).mp ⟨t, hm⟩
  have hch : n.chan q p = [] := Decidable.byContradiction (fun hx => hc ⟨q, hq.1, p, hp, hx⟩)
  have h1 := h.sent q p hq.1 hp hq.2 t hm
  rw [hch] at h1
  have h2 := h.idle q hq.1 (h.started q hq.1 (hs q hq.1)) (hidle q hq.1)
  obtain ⟨h3, h4⟩ := hmin q hq.1
  simp only [lastTp, List.foldl_nil] at h1
  dsimp only at hlt h3
  rcases h1 with h1 | h1
  · omega
  · exact h4 h1

/-! ## The measure -/

def sumOver (ps : List String) (f : String → Nat) : Nat := (ps.map f).sum

theorem sumOver_le {ps : List String} {f g : String → Nat} (h : ∀ x ∈ ps, f x ≤ g x) : sumOver ps f ≤ sumOver ps g := by
  induction ps with
  | nil => exact Nat.le_refl _
  | cons a l ih =>
    have h1 := h a (by simp)
    have h2 := ih (fun x hx => h x (by simp [hx]))
    simp only [sumOver, List.map_cons, List.sum_cons] at h2 ⊢
    omega

theorem sumOver_congr {ps : List String} {f g : String → Nat} (h : ∀ x ∈ ps, f x = g x) : sumOver ps f = sumOver ps g :=
  Nat.le_antisymm (sumOver_le (fun x hx => Nat.le_of_eq (h x hx))) (sumOver_le (fun x hx => Nat.le_of_eq (h x hx).symm))

theorem sumOver_add {ps : List String} {f g : String → Nat} {c : Nat} (h : ∀ x ∈ ps, f x ≤ g x + c) :
    sumOver ps f ≤ sumOver ps g + ps.length * c := by
  induction ps with
  | nil => simp [sumOver]
  | cons a l ih =>
    have h1 := h a (by simp)
    have h2 := ih (fun x hx => h x (by simp [hx]))
    simp only [sumOver, List.map_cons, List.sum_cons, List.length_cons, Nat.add_mul, Nat.one_mul] at h2 ⊢
    omega

/-- Only the value at `p` changes. -/
theorem sumOver_point {ps : List String} (hn : ps.Nodup) {f g : String → Nat} {p : String} (hp : p ∈ ps)
    (h : ∀ x ∈ ps, x ≠ p → f x = g x) : sumOver ps f + g p = sumOver ps g + f p := by
  induction ps with
  | nil => simp at hp
  | cons a l ih =>
    rw [List.nodup_cons] at hn
    simp only [sumOver, List.map_cons, List.sum_cons] at ih ⊢
    by_cases hap : a = p
    · subst hap
      have : sumOver l f = sumOver l g := sumOver_congr (fun x hx => h x (by simp [hx]) (fun he => hn.1 (he ▸ hx)))
      simp only [sumOver] at this
      omega
    · have h1 := h a (by simp) hap
      have h2 := ih hn.2 (by simpa [Ne.symm hap] using hp) (fun x hx => h x (by simp [hx]))
      omega

/-- Announcements on a channel. -/
def tasks (l : List Msg) : Nat := l.countP (fun m => match m with | .task _ => true | _ => false)

def inTransit (ps : List String) (n : Net) : Nat := sumOver ps (fun a => sumOver ps (fun b => tasks (n.chan a b)))

/-- Work left in one participant until its next step is at `T` or later; a step is worth `K`. -/
def weight (K : Nat) (T : Int) (s : Part) : Nat :=
  s.polls + K * (if s.busy then 1 else 0) + K * ((T - s.cfg.next.tp).toNat + if s.hopOnEvaluated then 0 else 1)

def potential (ps : List String) (T : Int) (n : Net) : Nat :=
  sumOver ps (fun p => weight (ps.length + 2) T (n.part p)) + inTransit ps n

theorem tasks_append (a b : List Msg) : tasks (a ++ b) = tasks a + tasks b := by simp [tasks]

theorem inTransit_commit {ps : List String} (hn : ps.Nodup) (n : Net) (p : String) (hp : p ∈ ps) (r : Part × List Out) :
    inTransit ps (n.commit p r).1 ≤ inTransit ps n + ps.length * tasks (sends r.2) := by
  have := sumOver_point hn (f := fun a => sumOver ps (fun b => tasks ((n.commit p r).1.chan a b)))
    (g := fun a => sumOver ps (fun b => tasks (n.chan a b))) hp (by
      intro a _ hne
      apply sumOver_congr
      intro b _
      rw [commit_chan, if_neg (fun h => hne h.1)])
  have h2 : sumOver ps (fun b => tasks ((n.commit p r).1.chan p b)) ≤ sumOver ps (fun b => tasks (n.chan p b)) + ps.length * tasks (sends r.2) := by
    apply sumOver_add
    intro b _
    rw [commit_chan]
    split
    · rw [tasks_append]; exact Nat.le_refl _
    · omega
  simp only [inTransit] at this ⊢
  omega

theorem inTransit_setChan {ps : List String} (hn : ps.Nodup) (n : Net) (q p : String) (hq : q ∈ ps) (hp : p ∈ ps) (l : List Msg) :
    inTransit ps (n.setChan q p l) + tasks (n.chan q p) = inTransit ps n + tasks l := by
  have h1 := sumOver_point hn (f := fun a => sumOver ps (fun b => tasks ((n.setChan q p l).chan a b)))
    (g := fun a => sumOver ps (fun b => tasks (n.chan a b))) hq (by
      intro a _ hne
      apply sumOver_congr
      intro b _
      simp only [Net.setChan]
      rw [if_neg (fun h => hne h.1)])
  have h2 := sumOver_point hn (f := fun b => tasks ((n.setChan q p l).chan q b)) (g := fun b => tasks (n.chan q b)) hp (by
      intro b _ hne
      simp only [Net.setChan]
      rw [if_neg (fun h => hne h.2)])
  simp only [Net.setChan, and_self, if_true] at h1 h2
  simp only [inTransit, Net.setChan]
  omega

theorem part_sum {ps : List String} (hn : ps.Nodup) {K T} (n : Net) {n0 : Net} (h0 : n0.part = n.part) (p : String) (hp : p ∈ ps)
    (r : Part × List Out) :
    sumOver ps (fun x => weight K T ((n0.commit p r).1.part x)) + weight K T (n.part p) =
      sumOver ps (fun x => weight K T (n.part x)) + weight K T r.1 := by
  have := sumOver_point hn (f := fun x => weight K T ((n0.commit p r).1.part x)) (g := fun x => weight K T (n.part x)) hp (by
    intro x _ hne; rw [commit_part, if_neg hne, h0])
  simpa [commit_part] using this

theorem weight_poll (K : Nat) (T : Int) {s : Part} (h : 0 < s.polls) : weight K T { s with polls := s.polls - 1 } + 1 = weight K T s := by
  have h1 : weight K T { s with polls := s.polls - 1 } =
    s.polls - 1 + K * (if s.busy then 1 else 0) + K * ((T - s.cfg.next.tp).toNat + if s.hopOnEvaluated then 0 else 1) := rfl
  rw [h1]
  unfold weight
  omega

theorem outcome_weight {s s' : Part} {outs : List Out} {K : Nat} {T : Int} (hT : T ≤ maxNs) (o : Outcome s s' outs)
    (hlow : s.hopOnEvaluated = true → s.cfg.next.tp < T ∨ ∃ v ∈ s.cfg.others, v.2.tp < T) :
    weight K T s' ≤ weight K T s ∧ sends outs = [] := by
  cases o with
  | idle hs ho hw => subst hs; subst ho; exact ⟨Nat.le_refl _, rfl⟩
  | start t d ho hb hb' hp hl hh hv hr hn hd hd' ht hs hw hc =>
    subst ho
    refine ⟨?_, rfl⟩
    unfold weight
    rw [hp, hb, hb', hh, hn]
    simp only [if_true, Bool.false_eq_true, if_false, Nat.mul_one, Nat.mul_zero, Nat.add_zero]
    suffices (T - (t + d)).toNat + 1 ≤ (T - s.cfg.next.tp).toNat + (if s.hopOnEvaluated then 0 else 1) by
      have := Nat.mul_le_mul_left K this
      rw [Nat.mul_add, Nat.mul_one] at this
      omega
    cases he : s.hopOnEvaluated with
    | false =>
      simp only [Bool.false_eq_true, if_false]
      omega
    | true =>
      simp only [if_true]
      have h1 := hs (Or.inl he)
      have h2 := hw (Or.inl he)
      have hlt : s.cfg.next.tp < T := by
        rcases hlow he with h | ⟨v, hv1, hv2⟩
        · exact h
        · have := h2 v hv1; omega
      have := hd' (by omega)
      omega

/-- Every piece of work brings the simulation closer to the moment when everybody has reached `T`. -/
theorem potential_act {ps n tr a n' obs} {T : Int} (hT : T ≤ maxNs) (h : LiveInv ps n tr) (hal : Allowed ps n a)
    (ha : n.act a = some (n', obs)) (hab : ∀ p, .out p .abort ∉ obs) (hreq : ∀ p, a ≠ .event p .request)
    (hlow : ∃ q ∈ ps, (n.part q).cfg.next.tp < T) (hlow' : ∃ q ∈ ps, (n'.part q).cfg.next.tp < T) :
    potential ps T n' ≤ potential ps T n ∧ (Work n a → potential ps T n' < potential ps T n) := by
  -- whoever is idle and at `T` or beyond cannot start a step
  have hwait : ∀ p ∈ ps, ∀ n' : Net, NetInv n' → (∀ p ∈ ps, ∀ q, (∃ t, (q, t) ∈ (n'.part p).cfg.others) ↔ q ∈ ps ∧ q ≠ p) →
      (∃ q ∈ ps, (n'.part q).cfg.next.tp < T) → (n'.part p).cfg.next.tp < T ∨ ∃ v ∈ (n'.part p).cfg.others, v.2.tp < T := by
    intro p hp n' hi hk ⟨q, hq, hlt⟩
    by_cases hqp : q = p
    · subst hqp; exact Or.inl hlt
    · right
      obtain ⟨t, ht⟩ := (hk p hp q).mpr ⟨hq, hqp⟩
      have h1 := hi.views p q t ht
      have h2 := (hi.ok q).bound_le
      exact ⟨_, ht, by dsimp only; omega⟩
  have h' := live_step h hal ha hab
  rcases live_act h hal ha hab with ⟨p, e, s', outs, n0, hp, hre, hn, h0, hcase⟩ | ⟨q, p, x, t, rest, rfl, hch, rfl, rfl⟩ |
      ⟨p, x, t, rfl, rfl, rfl⟩
  · have hpart : n'.part p = s' := by rw [← hn, commit_part, if_pos rfl]
    have hsum := part_sum h.nodup (K := ps.length + 2) (T := T) n h0 p hp (s', outs)
    have htr := inTransit_commit h.nodup n0 p hp (s', outs)
    rw [hn] at hsum htr
    dsimp only at hsum htr
    have hfin : (n.part p).busy = true → Finishes (n.part p) s' outs →
        weight (ps.length + 2) T s' + ps.length * tasks (sends outs) < weight (ps.length + 2) T (n.part p) := by
      intro hb f
      unfold weight
      rw [f.polls, f.idle, hb, f.cfg, f.hop, f.outs]
      have : tasks (sends (if (n.part p).lastSent ≠ (n.part p).cfg.next.tp then [.send (n.part p).cfg.next] else [])) ≤ 1 := by
        split
        · exact Nat.le_refl _
        · exact Nat.zero_le _
      have := Nat.mul_le_mul_left ps.length this
      simp only [if_true, Bool.false_eq_true, if_false, Nat.mul_one, Nat.mul_zero, Nat.add_zero] at this ⊢
      omega
    unfold potential
    rcases hcase with ⟨rfl, rfl, hnr, _⟩ | ⟨q, t, rest, hq, rfl, rfl, hch, rfl, _⟩
    · rcases hre with ⟨r, he⟩ | ⟨rfl, _⟩ | ⟨he, hb, f⟩ | ⟨rfl, hpos, o⟩ | ⟨q, t, rfl, o⟩
      · have hw : weight (ps.length + 2) T s' = weight (ps.length + 2) T (n0.part p) := by
          unfold weight; rw [r.polls, r.busy, r.next, r.hop]
        have ho : tasks (sends outs) = 0 := by rw [r.outs]; rfl
        rw [ho] at htr
        refine ⟨by omega, ?_⟩
        intro hwork
        rcases he with ⟨d, rfl, _⟩ | ⟨b, rfl, _⟩ <;> exact absurd hwork (by simp [Work])
      · exact absurd rfl (hreq p)
      · have := hfin hb f
        exact ⟨by omega, fun _ => by omega⟩
      · have hw := outcome_weight (K := ps.length + 2) hT o (fun _ => hwait p hp n0 h.net h.keys hlow)
        rw [hw.2] at htr
        have := weight_poll (ps.length + 2) T hpos
        have hz : ps.length * tasks [] = 0 := by simp [tasks]
        exact ⟨by omega, fun _ => by omega⟩
      · exact absurd rfl (hnr q t)
    · rcases hre with ⟨r, he⟩ | ⟨he, _⟩ | ⟨he, hb, f⟩ | ⟨he, _⟩ | ⟨q', t', he, o⟩
      · rcases he with ⟨d, he, _⟩ | ⟨b, he, _⟩ <;> cases he
      · cases he
      · rcases he with he | he <;> cases he
      · cases he
      · cases he
        have hset := inTransit_setChan h.nodup n q p hq hp rest
        have ht : tasks (n.chan q p) = tasks rest + 1 := by rw [hch]; simp [tasks]
        have hlow1 : (n.part p).cfg.next.tp < T ∨ ∃ v ∈ ((n.part p).cfg.receive q t).others, v.2.tp < T := by
          -- the new view is bounded as well
          rcases hlow' with ⟨y, hy, hlt⟩
          by_cases hyp : y = p
          · subst hyp
            have hs := summary (h.net.ok y) (h.runs y hy) (Or.inr (Or.inr (Or.inr (Or.inr ⟨q, t, rfl, o⟩))))
            have := hs.next
            rw [hpart] at hlt
            left; omega
          · right
            obtain ⟨u, hu⟩ := (h'.keys p hp y).mpr ⟨hy, hyp⟩
            have h1 := h'.net.views p y u hu
            have h2 := (h'.net.ok y).bound_le
            have hs := summary (h.net.ok p) (h.runs p hp) (Or.inr (Or.inr (Or.inr (Or.inr ⟨q, t, rfl, o⟩))))
            rw [hpart, hs.others] at hu
            exact ⟨_, hu, by dsimp only; omega⟩
        have hw := outcome_weight (K := ps.length + 2) hT o (fun _ => hlow1)
        rw [hw.2] at htr
        have he : weight (ps.length + 2) T s' ≤ weight (ps.length + 2) T (n.part p) := hw.1
        have hz : ps.length * tasks [] = 0 := by simp [tasks]
        exact ⟨by omega, fun _ => by omega⟩
  · have hset := inTransit_setChan h.nodup n q p hal.1 hal.2 rest
    have ht : tasks (n.chan q p) = tasks rest := by rw [hch]; simp [tasks]
    have : sumOver ps (fun y => weight (ps.length + 2) T ((n.setChan q p rest).part y)) =
      sumOver ps (fun y => weight (ps.length + 2) T (n.part y)) := rfl
    unfold potential
    refine ⟨by omega, ?_⟩
    rintro ⟨t', rest', hc⟩
    rw [hch] at hc; cases hc
  · have hsame : inTransit ps { n with chan := fun a b => if a = p ∧ b ≠ p then n.chan a b ++ [.data x t] else n.chan a b } = inTransit ps n := by
      apply sumOver_congr
      intro a _
      apply sumOver_congr
      intro b _
      dsimp only
      split
      · rw [tasks_append]; rfl
      · rfl
    unfold potential
    rw [hsame]
    exact ⟨Nat.le_refl _, fun hw => absurd hw (by simp [Work])⟩

/-- Time never goes back. -/
theorem next_mono {ps n tr a n' obs} (h : LiveInv ps n tr) (hal : Allowed ps n a)
    (ha : n.act a = some (n', obs)) (hab : ∀ p, .out p .abort ∉ obs) (q : String) : (n.part q).cfg.next.tp ≤ (n'.part q).cfg.next.tp := by
  rcases live_act h hal ha hab with ⟨p, e, s', outs, n0, hp, hre, hn, h0, hcase⟩ | ⟨q', p, x, t, rest, rfl, hch, rfl, rfl⟩ |
      ⟨p, x, t, rfl, rfl, rfl⟩
  · rw [← hn, commit_part, h0]
    split
    · next he => subst he; exact (summary (h.net.ok q) (h.runs q hp) hre).next
    · exact Int.le_refl _
  · exact Int.le_refl _
  · exact Int.le_refl _

theorem continues_live {ps n tr k n' obs} (h : Live ps n tr) (hc : Continues ps n k n' obs) : Live ps n' (tr ++ obs) := by
  induction hc with
  | refl => simpa using h
  | work _ hal ha hab _ ih => rw [← List.append_assoc]; exact Live.step ih hal ha hab
  | other _ hal ha hab _ _ ih => rw [← List.append_assoc]; exact Live.step ih hal ha hab

theorem continues_inv {ps n tr k n' obs} (h : LiveInv ps n tr) (hc : Continues ps n k n' obs) : LiveInv ps n' (tr ++ obs) := by
  induction hc with
  | refl => simpa using h
  | work _ hal ha hab _ ih => rw [← List.append_assoc]; exact live_step ih hal ha hab
  | other _ hal ha hab _ _ ih => rw [← List.append_assoc]; exact live_step ih hal ha hab

theorem continues_potential {ps n tr k n' obs} {T : Int} (hT : T ≤ maxNs) (h : LiveInv ps n tr) (hc : Continues ps n k n' obs)
    (hlow : ∃ q ∈ ps, (n'.part q).cfg.next.tp < T) : potential ps T n' + k ≤ potential ps T n := by
  induction hc with
  | refl => exact Nat.le_refl _
  | @work k n1 tr1 a n2 obs hc1 hal ha hab hw ih =>
    have hi := continues_inv h hc1
    obtain ⟨q, hq, hlt⟩ := hlow
    have hm := next_mono hi hal ha hab q
    have hlow1 : ∃ q ∈ ps, (n1.part q).cfg.next.tp < T := ⟨q, hq, by omega⟩
    have h1 := ih hlow1
    have hreq : ∀ p, a ≠ .event p .request := by intro p he; subst he; exact hw
    have h2 := (potential_act hT hi hal ha hab hreq hlow1 ⟨q, hq, hlt⟩).2 hw
    omega
  | @other k n1 tr1 a n2 obs hc1 hal ha hab hw hreq ih =>
    have hi := continues_inv h hc1
    obtain ⟨q, hq, hlt⟩ := hlow
    have hm := next_mono hi hal ha hab q
    have hlow1 : ∃ q ∈ ps, (n1.part q).cfg.next.tp < T := ⟨q, hq, by omega⟩
    have h1 := ih hlow1
    have h2 := (potential_act hT hi hal ha hab hreq hlow1 ⟨q, hq, hlt⟩).1
    omega

/-! ## No spurious abort -/

/-- Whoever has not executed its first step yet sees nobody beyond their first step. -/
def NoHop (ps : List String) (n : Net) : Prop :=
  ∀ p ∈ ps, (n.part p).hopOnEvaluated = false →
    (∀ q ∈ ps, (n.part q).cfg.next.tp ≤ (n.part q).cfg.next.dur) ∧
    (∀ q ∈ ps, ∀ t, .task t ∈ n.chan q p → t.tp ≤ t.dur) ∧
    (∀ v ∈ (n.part p).cfg.others, v.2.tp ≤ v.2.dur) ∧ (n.part p).cfg.hoppedOn = false

theorem noHop_isHopOn {c : TimeConfig} (h : ∀ v ∈ c.others, v.2.tp ≤ v.2.dur) (hh : c.hoppedOn = false) : c.isHopOn = false := by
  have : c.ahead = [] := by
    simp only [TimeConfig.ahead, List.map_eq_nil_iff, List.filter_eq_nil_iff, decide_eq_true_eq]
    intro v hv hlt
    have := h v hv
    omega
  simp [TimeConfig.isHopOn, this, hh]

theorem advanceAndExecute_abort {s : Part} (h : .abort ∈ s.advanceAndExecute.2) : s.hopOnEvaluated = false ∧ s.cfg.isHopOn = true := by
  unfold Part.advanceAndExecute at h
  split at h
  · split at h
    · simp [Part.execute] at h
    · next hh =>
      split at h
      · next hi => exact ⟨by simpa using hh, hi⟩
      · simp [Part.execute] at h
  · simp at h

theorem request_no_abort (s : Part) : .abort ∉ s.requestNextStep.2 := by
  unfold Part.requestNextStep
  split
  · dsimp only; split <;> simp
  · simp

theorem afterSyncStep_no_abort (s : Part) : .abort ∉ s.afterSyncStep.2 := by
  unfold Part.afterSyncStep
  split
  · exact request_no_abort s
  · simp

theorem process_abort {s : Part} (h : .abort ∈ s.process.2) : s.hopOnEvaluated = false ∧ s.cfg.isHopOn = true := by
  unfold Part.process at h
  split at h
  · split at h
    · unfold Part.advanceSync at h
      dsimp only at h
      split at h
      · rcases List.mem_append.mp h with h | h
        · exact advanceAndExecute_abort h
        · exact absurd h (afterSyncStep_no_abort _)
      · exact advanceAndExecute_abort h
    · unfold Part.advanceAsync at h
      split at h
      · simp at h
      · exact advanceAndExecute_abort (s := { s with asyncExecuting := true }) h
  · simp at h

theorem on_abort {s s' : Part} {e : Event} {outs} (ho : s.on e = some (s', outs)) (hab : .abort ∈ outs) (hk : e.ofRunning) :
    s.hopOnEvaluated = false ∧ (s.cfg.isHopOn = true ∨ ∃ q t, e = .receive q t ∧ (s.cfg.receive q t).isHopOn = true) := by
  unfold Part.on at ho
  split at ho
  · cases ho
  · rcases hk with ⟨d, rfl⟩ | ⟨b, rfl⟩ | rfl | rfl | rfl | rfl | ⟨q, t, rfl⟩
    · simp only [Option.map_eq_some_iff, Prod.mk.injEq] at ho
      obtain ⟨c, _, _, rfl⟩ := ho
      simp at hab
    · simp only [Option.some.injEq, Prod.mk.injEq] at ho
      obtain ⟨_, rfl⟩ := ho
      simp at hab
    · simp only [Option.some.injEq] at ho
      have := request_no_abort s; rw [ho] at this; exact absurd hab this
    · dsimp only at ho
      split at ho
      · simp only [Option.some.injEq] at ho
        have := afterSyncStep_no_abort { s with inHandler := false }; rw [ho] at this; exact absurd hab this
      · cases ho
    · simp only [Option.some.injEq, Part.complete] at ho
      split at ho
      · have := request_no_abort { s with asyncExecuting := false, wallClockReached := false }; rw [ho] at this; exact absurd hab this
      · cases ho; simp at hab
    · dsimp only at ho
      split at ho
      · cases ho
      · simp only [Option.some.injEq] at ho
        have := process_abort (s := { s with polls := s.polls - 1 }) (by rw [ho]; exact hab)
        exact ⟨this.1, Or.inl this.2⟩
    · simp only [Option.some.injEq, Part.receive] at ho
      have key : ({ s with cfg := s.cfg.receive q t } : Part).process = (s', outs) → s.hopOnEvaluated = false ∧
          (s.cfg.isHopOn = true ∨ ∃ q' t', Event.receive q t = .receive q' t' ∧ (s.cfg.receive q' t').isHopOn = true) := by
        intro ho
        have := process_abort (s := { s with cfg := s.cfg.receive q t }) (by rw [ho]; exact hab)
        exact ⟨this.1, Or.inr ⟨q, t, rfl, this.2⟩⟩
      split at ho
      · exact key ho
      · exact key ho
      · cases ho; simp at hab
      · cases ho; simp at hab

theorem steady_no_abort {ps n a n' obs} (hno : NoHop ps n) (hal : Allowed ps n a)
    (ha : n.act a = some (n', obs)) : ∀ p, .out p .abort ∉ obs := by
  have hcfg : ∀ p ∈ ps, (n.part p).hopOnEvaluated = false → (n.part p).cfg.isHopOn = false := by
    intro p hp hh
    have := hno p hp hh
    exact noHop_isHopOn this.2.2.1 this.2.2.2
  intro x hx
  cases a with
  | event p e =>
    simp only [Net.act] at ha
    split at ha
    · next hae =>
      simp only [Option.map_eq_some_iff, Prod.mk.injEq] at ha
      obtain ⟨⟨s', outs⟩, ho, hn, rfl⟩ := ha
      have hnr : ∀ q t, e ≠ .receive q t := by intro q t he; subst he; simp [Event.allowedFor] at hae
      have hp : p ∈ ps ∧ e.ofRunning := by cases e <;> simp only [Allowed] at hal <;> simp_all [Event.ofRunning]
      simp only [Net.commit, List.mem_cons, reduceCtorEq, List.mem_map, Obs.out.injEq, false_or] at hx
      obtain ⟨o, hm, _, rfl⟩ := hx
      obtain ⟨h1, h2 | ⟨q, t, he, _⟩⟩ := on_abort ho hm hp.2
      · rw [hcfg p hp.1 h1] at h2; cases h2
      · exact hnr q t he
    · cases ha
  | deliver q p =>
    simp only [Net.act] at ha
    split at ha
    · cases ha
    · next t rest hch =>
      simp only [Option.map_eq_some_iff] at ha
      obtain ⟨⟨s', outs⟩, ho, hc⟩ := ha
      have h2 := (congrArg Prod.snd hc)
      dsimp only [Net.commit] at h2
      rw [← h2] at hx
      simp only [List.mem_map, Obs.out.injEq] at hx
      obtain ⟨o, hm, _, rfl⟩ := hx
      obtain ⟨h1, h2 | ⟨q', t', he, h2⟩⟩ := on_abort ho hm (Or.inr (Or.inr (Or.inr (Or.inr (Or.inr (Or.inr ⟨q, t, rfl⟩))))))
      · rw [hcfg p hal.2 h1] at h2; cases h2
      · cases he
        have hn := hno p hal.2 h1
        rw [noHop_isHopOn (c := (n.part p).cfg.receive q t) ?_ hn.2.2.2] at h2
        · cases h2
        · intro v hv
          rcases receive_others _ _ _ v hv with hv | rfl
          · exact hn.2.2.1 v hv
          · exact hn.2.1 q hal.1 t (by rw [hch]; simp)
    · split at ha
      · cases ha
      · simp only [Option.some.injEq, Prod.mk.injEq] at ha
        rw [← ha.2] at hx; simp at hx
  | data p y =>
    simp only [Net.act] at ha
    split at ha
    · simp only [Option.some.injEq, Prod.mk.injEq] at ha
      rw [← ha.2] at hx; simp at hx
    · cases ha

/-- How the announced task changes. -/
theorem reacts_next {s e s' outs} (hok : Ok s) (h : Reacts s e s' outs) (hs : ∀ d, e = .setStepDuration d → s.cfg.next.dur ≤ d)
    (hle : s.cfg.next.tp ≤ s.cfg.next.dur) (hhop : s.hopOnEvaluated = true ∨ (∀ v ∈ othersAfter s.cfg e, v.2.tp ≤ v.2.dur) ∧ s.cfg.hoppedOn = false)
    (hp : (∃ v ∈ othersAfter s.cfg e, v.2.tp ≤ 0) ∨ s.hopOnEvaluated = false) : s'.cfg.next.tp ≤ s'.cfg.next.dur := by
  have hout : ∀ s0 : Part, Outcome s0 s' outs → s0.cfg.next = s.cfg.next → s0.hopOnEvaluated = s.hopOnEvaluated →
      s0.cfg.others = othersAfter s.cfg e → s0.cfg.hoppedOn = s.cfg.hoppedOn → s'.cfg.next.tp ≤ s'.cfg.next.dur := by
    intro s0 o h1 h2 h3 h4
    cases o with
    | idle hs ho hw => subst hs; rw [h1]; exact hle
    | start t d ho hb hb' hp' hl hh hv hr hn hd hd' ht hs' hw hc =>
      have hj : s0.hopOnEvaluated = true ∨ s0.cfg.isHopOn = false := by
        rcases hhop with hx | ⟨hx, hy⟩
        · exact Or.inl (h2.trans hx)
        · exact Or.inr (noHop_isHopOn (h3 ▸ hx) (h4.trans hy))
      have ht0 : t ≤ 0 := by
        rcases hp with ⟨v, hv1, hv2⟩ | hx
        · have := hw hj v (h3 ▸ hv1); omega
        · have h5 := hs' hj
          have := (hok.fresh hx).2
          rw [h1] at h5; omega
      omega
  rcases h with ⟨r, ⟨d, rfl, he⟩ | ⟨b, rfl, he⟩⟩ | ⟨rfl, _, f⟩ | ⟨_, _, f⟩ | ⟨rfl, _, o⟩ | ⟨q, t, rfl, o⟩
  · rw [he, r.next]; have := hs d rfl; omega
  · rw [he, r.next]; exact hle
  · rw [f.cfg]; exact hle
  · rw [f.cfg]; exact hle
  · exact hout _ o rfl rfl rfl rfl
  · exact hout _ o rfl rfl rfl rfl

theorem reacts_fresh {s e s' outs} (h : Reacts s e s' outs) (hf : s'.hopOnEvaluated = false) :
    s.hopOnEvaluated = false ∧ s'.cfg.hoppedOn = s.cfg.hoppedOn := by
  rcases h with ⟨r, _⟩ | ⟨rfl, _, f⟩ | ⟨_, _, f⟩ | ⟨rfl, _, o⟩ | ⟨q, t, rfl, o⟩
  · exact ⟨r.hop.symm.trans hf, r.hopped⟩
  · exact ⟨f.hop.symm.trans hf, by rw [f.cfg]⟩
  · exact ⟨f.hop.symm.trans hf, by rw [f.cfg]⟩
  · cases o with
    | idle hs ho hw => subst hs; exact ⟨hf, rfl⟩
    | start t d ho hb hb' hp hl hh => rw [hh] at hf; cases hf
  · cases o with
    | idle hs ho hw => subst hs; exact ⟨hf, rfl⟩
    | start t d ho hb hb' hp hl hh => rw [hh] at hf; cases hf

theorem reacts_sends {s e s' outs t} (h : Reacts s e s' outs) (ht : .task t ∈ sends outs) : t = s.cfg.next := by
  have hout : ∀ s0 : Part, Outcome s0 s' outs → False := by
    intro s0 o
    cases o with
    | idle hs ho hw => subst ho; simp [sends] at ht
    | start t d ho => subst ho; simp [sends] at ht
  have hfin : Finishes s s' outs → t = s.cfg.next := by
    intro f
    rw [f.outs] at ht
    split at ht
    · simpa [sends] using ht
    · simp [sends] at ht
  rcases h with ⟨r, _⟩ | ⟨rfl, _, f⟩ | ⟨_, _, f⟩ | ⟨rfl, _, o⟩ | ⟨q, t, rfl, o⟩
  · rw [r.outs] at ht; simp [sends] at ht
  · exact hfin f
  · exact hfin f
  · exact (hout _ o).elim
  · exact (hout _ o).elim

theorem steady_step {ps n tr a n' obs} (h : LiveInv ps n tr) (hno : NoHop ps n) (hal : Allowed ps n a) (hns : NotShortened n a)
    (ha : n.act a = some (n', obs)) : NoHop ps n' := by
  have hab := steady_no_abort hno hal ha
  have h' := live_step h hal ha hab
  rcases live_act h hal ha hab with ⟨p, e, s', outs, n0, hp, hre, hn, h0, hcase⟩ | ⟨q, p, x, t, rest, rfl, hch, rfl, rfl⟩ |
      ⟨p, x, t, rfl, rfl, rfl⟩
  · have hs := summary (h.net.ok p) (h.runs p hp) hre
    have hpart : ∀ x, n'.part x = if x = p then s' else n.part x := by intro x; rw [← hn, commit_part, h0]
    have hsub : ∀ a b, ∀ m ∈ n0.chan a b, m ∈ n.chan a b := by
      intro a b m hm
      rcases hcase with ⟨_, rfl, _⟩ | ⟨q, u, rest, _, _, _, hch, rfl, _⟩
      · exact hm
      · simp only [Net.setChan] at hm
        split at hm
        · next hx => rw [hx.1, hx.2, hch]; exact List.mem_cons_of_mem _ hm
        · exact hm
    have hset : ∀ d, e = .setStepDuration d → (n.part p).cfg.next.dur ≤ d := by
      intro d he
      subst he
      rcases hcase with ⟨rfl, _⟩ | ⟨q, u, rest, _, _, he, _⟩
      · exact hns
      · cases he
    -- the views of a participant that is fresh before
    have hviews : (n.part p).hopOnEvaluated = false → ∀ v ∈ othersAfter (n.part p).cfg e, v.2.tp ≤ v.2.dur := by
      intro hf v hv
      have hi := hno p hp hf
      rcases hcase with ⟨_, rfl, hnr, _⟩ | ⟨q, u, rest, hq, _, rfl, hch, rfl, _⟩
      · rw [othersAfter_same (reacts_ofRunning hre) hnr] at hv
        exact hi.2.2.1 v hv
      · rcases receive_others _ _ _ v hv with hv | rfl
        · exact hi.2.2.1 v hv
        · exact hi.2.1 q hq u (by rw [hch]; simp)
    intro x hx hf
    have hfx : (n.part x).hopOnEvaluated = false := by
      rw [hpart] at hf
      split at hf
      · next he => subst he; exact (reacts_fresh hre hf).1
      · exact hf
    have hi := hno x hx hfx
    refine ⟨?_, ?_, ?_, ?_⟩
    · intro q hq
      rw [hpart]
      split
      · next hqp =>
        subst hqp
        refine reacts_next (h.net.ok q) hre hset (hi.1 q hp) ?_ ?_
        · cases hqh : (n.part q).hopOnEvaluated with
          | true => exact Or.inl rfl
          | false => exact Or.inr ⟨hviews hqh, (hno q hp hqh).2.2.2⟩
        · by_cases hxq : x = q
          · subst hxq; exact Or.inr hfx
          · left
            obtain ⟨v, hv⟩ := (h'.keys q hp x).mpr ⟨hx, hxq⟩
            have hb := h'.net.views q x v hv
            have hb2 := (h'.net.ok x).bound_le
            have hz := ((h'.net.ok x).fresh hf).2
            rw [hpart, if_pos rfl, hs.others] at hv
            exact ⟨_, hv, by dsimp only; omega⟩
      · exact hi.1 q hq
    · intro q hq t ht
      rw [← hn, commit_chan] at ht
      split at ht
      · next hqx =>
        rcases List.mem_append.mp ht with ht | ht
        · exact hi.2.1 q hq t (hsub _ _ _ ht)
        · obtain ⟨rfl, _⟩ := hqx
          rw [reacts_sends hre ht]
          exact hi.1 q hp
      · exact hi.2.1 q hq t (hsub _ _ _ ht)
    · intro v hv
      rw [hpart] at hv
      split at hv
      · next he => subst he; rw [hs.others] at hv; exact hviews hfx v hv
      · exact hi.2.2.1 v hv
    · rw [hpart] at hf ⊢
      split
      · next he =>
        subst he
        rw [if_pos rfl] at hf
        rw [(reacts_fresh hre hf).2]; exact hi.2.2.2
      · exact hi.2.2.2
  · intro y hy hf
    have hi := hno y hy hf
    refine ⟨hi.1, ?_, hi.2.2⟩
    intro a ha' u hu
    refine hi.2.1 a ha' u ?_
    simp only [Net.setChan] at hu
    split at hu
    · next hx => rw [hx.1, hx.2, hch]; exact List.mem_cons_of_mem _ hu
    · exact hu
  · intro y hy hf
    have hi := hno y hy hf
    refine ⟨hi.1, ?_, hi.2.2⟩
    intro a ha' u hu
    refine hi.2.1 a ha' u ?_
    dsimp only at hu
    split at hu
    · simpa using hu
    · exact hu

/-- User data on its way. -/
def dataOn (l : List Msg) : Nat := l.countP (fun m => match m with | .data _ _ => true | _ => false)

theorem steady_inv {ps n tr} (h : Steady ps n tr) : Live ps n tr ∧ NoHop ps n := by
  induction h with
  | init h =>
    refine ⟨Live.init h, ?_⟩
    intro p hp _
    refine ⟨?_, ?_, ?_, ?_⟩
    · intro q hq
      obtain ⟨b, c, dy, d, hd, hpart⟩ := h.part q hq
      rw [hpart]; exact Int.le_of_lt hd
    · intro q _ t ht; rw [h.chan] at ht; simp at ht
    · obtain ⟨b, c, dy, d, hd, hpart⟩ := h.part p hp
      rw [hpart]
      intro v hv
      simp only [List.mem_map] at hv
      obtain ⟨_, _, rfl⟩ := hv
      dsimp only; omega
    · obtain ⟨b, c, dy, d, hd, hpart⟩ := h.part p hp
      rw [hpart]
  | step _ hal hns ha ih =>
    exact ⟨Live.step ih.1 hal ha (steady_no_abort ih.2 hal ha), steady_step (live_inv ih.1) ih.2 hal hns ha⟩

/-- The next piece of work is always possible, after some user data has been delivered. -/
theorem not_shortened {n a} (h : Work n a ∨ ∃ q p, a = .deliver q p) : NotShortened n a := by
  rcases h with h | ⟨q, p, rfl⟩
  · cases a with
    | event p e => cases e <;> first | trivial | exact h.elim
    | deliver q p => trivial
    | data p x => trivial
  · trivial

/-- A condition under which nobody aborts. -/
def Calm (ps : List String) (I : Net → Prop) : Prop :=
  ∀ n tr a n' obs, LiveInv ps n tr → I n → Allowed ps n a → NotShortened n a → n.act a = some (n', obs) →
    I n' ∧ ∀ p, .out p .abort ∉ obs

theorem noHop_calm (ps : List String) : Calm ps (NoHop ps) :=
  fun _ _ _ _ _ h hno hal hns ha => ⟨steady_step h hno hal hns ha, steady_no_abort hno hal ha⟩

theorem next_work {ps n0 tr} {I : Net → Prop} (hI : Calm ps I) (hne : ps ≠ []) (D : Nat) :
    ∀ {k n obs0}, Continues ps n0 k n obs0 → LiveInv ps n (tr ++ obs0) → I n →
    (∀ p ∈ ps, Started p (tr ++ obs0)) → sumOver ps (fun a => sumOver ps (fun b => dataOn (n.chan a b))) = D →
    ∃ n1 obs1, Continues ps n0 (k + 1) n1 obs1 ∧ LiveInv ps n1 (tr ++ obs1) ∧ I n1 ∧ ∀ p ∈ ps, Started p (tr ++ obs1) := by
  induction D with
  | zero =>
    intro k n obs0 hc hi hno hst hd
    obtain ⟨a, hal, hen, hw⟩ := no_deadlock hi hne hst
    obtain ⟨⟨n1, obs⟩, ha⟩ := Option.isSome_iff_exists.mp hen
    have hns : NotShortened n a := not_shortened hw
    obtain ⟨hno', hab⟩ := hI _ _ _ _ _ hi hno hal hns ha
    by_cases hwork : Work n a
    · refine ⟨n1, _, Continues.work hc hal ha hab hwork, ?_, hno', ?_⟩
      · rw [← List.append_assoc]; exact live_step hi hal ha hab
      · intro p hp
        have := hst p hp
        simp only [Started, List.mem_append] at this ⊢
        rcases this with h | h
        · exact Or.inl h
        · exact Or.inr (Or.inl h)
    · exfalso
      rcases hw with hw | ⟨q, p, rfl⟩
      · exact hwork hw
      · have h1 := sumOver_point hi.nodup (f := fun a => sumOver ps (fun b => dataOn (n.chan a b))) (g := fun a => if a = q then 0 else
          sumOver ps (fun b => dataOn (n.chan a b))) hal.1 (by intro x _ hx; rw [if_neg hx])
        have h2 := sumOver_point hi.nodup (f := fun b => dataOn (n.chan q b)) (g := fun b => if b = p then 0 else dataOn (n.chan q b)) hal.2
          (by intro x _ hx; rw [if_neg hx])
        simp only [if_true] at h1 h2
        cases hch : n.chan q p with
        | nil => simp [Net.act, hch] at ha
        | cons m l =>
          cases m with
          | task t => exact hwork ⟨t, l, hch⟩
          | data x t => rw [hch] at h2; simp [dataOn] at h2 h1 hd; omega
  | succ D ih =>
    intro k n obs0 hc hi hno hst hd
    obtain ⟨a, hal, hen, hw⟩ := no_deadlock hi hne hst
    obtain ⟨⟨n1, obs⟩, ha⟩ := Option.isSome_iff_exists.mp hen
    have hns : NotShortened n a := not_shortened hw
    obtain ⟨hno', hab⟩ := hI _ _ _ _ _ hi hno hal hns ha
    have hst' : ∀ p ∈ ps, Started p (tr ++ (obs0 ++ obs)) := by
      intro p hp
      have := hst p hp
      simp only [Started, List.mem_append] at this ⊢
      rcases this with h | h
      · exact Or.inl h
      · exact Or.inr (Or.inl h)
    by_cases hwork : Work n a
    · refine ⟨n1, _, Continues.work hc hal ha hab hwork, ?_, hno', hst'⟩
      rw [← List.append_assoc]; exact live_step hi hal ha hab
    · rcases hw with hw | ⟨q, p, rfl⟩
      · exact absurd hw hwork
      · have hs1 : LiveInv ps n1 (tr ++ (obs0 ++ obs)) := by rw [← List.append_assoc]; exact live_step hi hal ha hab
        refine ih (Continues.other hc hal ha hab hwork (by simp)) hs1 hno' hst' ?_
        cases hch : n.chan q p with
        | nil => simp [Net.act, hch] at ha
        | cons m l =>
          cases m with
          | task t => exact absurd ⟨t, l, hch⟩ hwork
          | data x t =>
            have hn1 : n1 = n.setChan q p l := by
              simp only [Net.act, hch] at ha
              split at ha
              · cases ha
              · simp only [Option.some.injEq, Prod.mk.injEq] at ha; exact ha.1.symm
            have h1 := sumOver_point hi.nodup (f := fun a => sumOver ps (fun b => dataOn ((n.setChan q p l).chan a b)))
              (g := fun a => sumOver ps (fun b => dataOn (n.chan a b))) hal.1 (by
                intro a _ hne
                apply sumOver_congr
                intro b _
                simp only [Net.setChan]
                rw [if_neg (fun h => hne h.1)])
            have h2 := sumOver_point hi.nodup (f := fun b => dataOn ((n.setChan q p l).chan q b)) (g := fun b => dataOn (n.chan q b)) hal.2 (by
                intro b _ hne
                simp only [Net.setChan]
                rw [if_neg (fun h => hne h.2)])
            have h3 : dataOn (n.chan q p) = dataOn l + 1 := by rw [hch]; simp [dataOn]
            have h4 : dataOn ((n.setChan q p l).chan q p) = dataOn l := by simp [Net.setChan]
            rw [hn1]
            omega

theorem work_forever {ps n tr} {I : Net → Prop} (hI : Calm ps I) (hne : ps ≠ []) (h : LiveInv ps n tr) (hno : I n) (hst : ∀ p ∈ ps, Started p tr) (k : Nat) :
    ∃ n' obs, Continues ps n k n' obs ∧ LiveInv ps n' (tr ++ obs) ∧ I n' ∧ ∀ p ∈ ps, Started p (tr ++ obs) := by
  induction k with
  | zero => exact ⟨n, [], Continues.refl, by simpa using h, hno, by simpa using hst⟩
  | succ k ih =>
    obtain ⟨n1, obs1, h1, h2, h3, h4⟩ := ih
    exact next_work hI hne _ h1 h2 h3 h4 rfl

/-- Every time is reached. -/
theorem time_grows {ps n tr} (h : LiveInv ps n tr) (T : Int) (h0 : 0 < T) (hT : T ≤ maxNs) :
    ∃ N, ∀ k n' obs, Continues ps n k n' obs → N ≤ k → ∀ p ∈ ps, ∃ t d, .out p (.step t d) ∈ tr ++ obs ∧ T ≤ t + d := by
  refine ⟨potential ps T n + 1, ?_⟩
  intro k n' obs hc hk p hp
  have hi := continues_inv h hc
  have hge : T ≤ (n'.part p).cfg.next.tp := by
    refine Int.not_lt.mp (fun hlt => ?_)
    have := continues_potential hT h hc ⟨p, hp, hlt⟩
    omega
  obtain ⟨t, d, h1, h2⟩ := hi.steps p hp (by omega)
  exact ⟨t, d, h1, by omega⟩

/-- When everything has been delivered, somebody can execute its next step. -/
theorem quiet_steps {ps n tr} (hi : LiveInv ps n tr) (hne : ps ≠ []) (hs : ∀ p ∈ ps, Started p tr)
    (hchan : ∀ q ∈ ps, ∀ p ∈ ps, n.chan q p = []) (hidle : ∀ p ∈ ps, (n.part p).busy = false) :
    ∃ p ∈ ps, ∃ n' obs, n.act (.event p .poll) = some (n', obs) ∧ ((∃ t d, .out p (.step t d) ∈ obs) ∨ .out p .abort ∈ obs) := by
  obtain ⟨p, hp, hmin⟩ := exists_next hi hne
  have hlow : (n.part p).cfg.otherLower = false := by
    simp only [TimeConfig.otherLower, List.any_eq_false, decide_eq_true_eq]
    rintro ⟨q, t⟩ hm hlt
    have hq := (hi.keys p hp q).mp ⟨t, hm⟩
    have h1 := hi.sent q p hq.1 hp hq.2 t hm
    rw [hchan q hq.1 p hp] at h1
    have h2 := hi.idle q hq.1 (hi.started q hq.1 (hs q hq.1)) (hidle q hq.1)
    obtain ⟨h3, h4⟩ := hmin q hq.1
    simp only [lastTp, List.foldl_nil] at h1
    dsimp only at hlt h3
    rcases h1 with h1 | h1
    · omega
    · exact h4 h1
  have hpolls : (n.part p).polls ≠ 0 := by
    intro hz
    have := hi.waits p hp (hi.started p hp (hs p hp)) (hidle p hp) hz
    rw [hlow] at this; cases this
  have hb := hidle p hp
  have hin : (n.part p).inHandler = false := by simp [Part.busy] at hb; exact hb.1
  have hon : (n.part p).on .poll = some ({ n.part p with polls := (n.part p).polls - 1 } : Part).process := by
    simp [Part.on, hin, hpolls]
  refine ⟨p, hp, _, _, by simp only [Net.act, Event.allowedFor, if_true, hon, Option.map_some]; rfl, ?_⟩
  by_cases hab : .abort ∈ ({ n.part p with polls := (n.part p).polls - 1 } : Part).process.2
  · exact Or.inr (List.mem_cons_of_mem _ (List.mem_map.mpr ⟨_, hab, rfl⟩))
  · left
    have hok := hi.net.ok p
    have hr := hi.runs p hp
    have ho := process_live (s := { n.part p with polls := (n.part p).polls - 1 })
      ⟨hok.dur, hok.next0, hok.cur, hok.fresh, hok.sync, hok.async, hok.views⟩ ⟨hr.state, hr.stop, hr.pause, hr.coupled, hr.noError⟩ hin hab
    cases ho with
    | idle _ _ hw => rw [show TimeConfig.otherLower _ = true from hw hb] at hlow; cases hlow
    | start t d ho => exact ⟨t, d, List.mem_cons_of_mem _ (List.mem_map.mpr ⟨_, by rw [ho]; simp, rfl⟩)⟩

end SilKit.TimeSync
