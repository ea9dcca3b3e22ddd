import Verif.Spec.Targeted
import Verif.Lemmas.ConfigFiles
namespace SilKit.Targeted
open Spec

variable {V : Type} {history : Bool}

theorem run_snoc (h : List (Event V)) (e : Event V) :
    run history (h ++ [e]) = ((on history (run history h).1 e).1, (run history h).2 ++ (on history (run history h).1 e).2) := by
  simp [run, List.foldl_append]

theorem meantFor_append (p q : Nat) (a b : List (Out V)) : meantFor p q (a ++ b) = meantFor p q a ++ meantFor p q b := List.filterMap_append ..
theorem attempted_append (p : Nat) (a b : List (Out V)) : attempted p (a ++ b) = attempted p a ++ attempted p b := List.filterMap_append ..
theorem arrivals_append (q p : Nat) (a b : List (Out V)) : arrivals q p (a ++ b) = arrivals q p a ++ arrivals q p b := List.filterMap_append ..

theorem foldl_push (p : Nat) (v : V) (rs : List Nat) (s : State V) :
    (rs.foldl (fun s q => s.push p q [v]) s).remotes = s.remotes ∧ (rs.foldl (fun s q => s.push p q [v]) s).last = s.last ∧
    (rs.foldl (fun s q => s.push p q [v]) s).gone = s.gone ∧
    ∀ a b, (rs.foldl (fun s q => s.push p q [v]) s).chan a b = s.chan a b ++ (if a = p then List.replicate (rs.count b) v else []) := by
  induction rs generalizing s with
  | nil => exact ⟨rfl, rfl, rfl, fun a b => by simp⟩
  | cons r rs ih =>
    obtain ⟨h1, h2, h3, h4⟩ := ih (s.push p r [v])
    refine ⟨h1, h2, h3, fun a b => ?_⟩
    rw [List.foldl_cons, h4 a b]
    by_cases ha : a = p
    · by_cases hb : b = r
      · subst ha hb
        simp [State.push, List.replicate_succ]
      · have : ¬ r = b := fun e => hb e.symm
        simp [State.push, ha, hb, List.count_cons, this]
    · simp [State.push, ha]

theorem save_fields (s : State V) (p : Nat) (v : V) :
    (s.save history p v).remotes = s.remotes ∧ (s.save history p v).chan = s.chan ∧ (s.save history p v).gone = s.gone := by
  unfold State.save; split <;> exact ⟨rfl, rfl, rfl⟩

structure Inv (history : Bool) (p q : Nat) (s : State V) (t : List (Out V)) : Prop where
  nodup : (s.remotes p).Nodup
  member : q ∈ s.remotes p ↔ Out.accepted p q ∈ t ∧ Out.left p q ∉ t
  gone : s.gone p q = true ↔ Out.left p q ∈ t
  last : history = true → s.last p = (attempted p t).getLast?
  before : Out.accepted p q ∉ t → arrivals q p t = [] ∧ s.chan p q = []
  since : ∀ a b, t = a ++ .accepted p q :: b →
    Out.accepted p q ∉ a ∧ arrivals q p t ++ s.chan p q <+: repeated history p a ++ meantFor p q b ∧
    (q ∈ s.remotes p → arrivals q p t ++ s.chan p q = repeated history p a ++ meantFor p q b)

theorem init_inv (p q : Nat) : Inv history p q ({} : State V) [] := by
  constructor <;> simp [attempted, arrivals]

/-- A step that does not accept this subscription and that sends `vs` to `q`. -/
theorem Inv.keep {p q : Nat} {s s' : State V} {t u : List (Out V)} (i : Inv history p q s t) (hu : Out.accepted p q ∉ u)
    (hnd : (s'.remotes p).Nodup) (hm : q ∈ s'.remotes p ↔ q ∈ s.remotes p ∧ Out.left p q ∉ u)
    (hg : s'.gone p q = true ↔ s.gone p q = true ∨ Out.left p q ∈ u)
    (hl : history = true → s'.last p = (attempted p u).getLast?.or (s.last p))
    (hc : arrivals q p u ++ s'.chan p q = s.chan p q ++ (if q ∈ s.remotes p then meantFor p q u else [])) : Inv history p q s' (t ++ u) := by
  constructor
  · exact hnd
  · rw [hm, i.member]
    simp only [List.mem_append, not_or]
    constructor
    · rintro ⟨⟨h1, h2⟩, h3⟩; exact ⟨.inl h1, h2, h3⟩
    · rintro ⟨h1 | h1, h2, h3⟩
      · exact ⟨⟨h1, h2⟩, h3⟩
      · exact absurd h1 hu
  · rw [hg, i.gone, List.mem_append]
  · intro hh
    rw [hl hh, attempted_append, List.getLast?_append, i.last hh]
  · intro hn
    have hn' : Out.accepted p q ∉ t := fun h => hn (List.mem_append_left _ h)
    obtain ⟨h1, h2⟩ := i.before hn'
    have hq : q ∉ s.remotes p := fun h => hn' (i.member.mp h).1
    rw [h2, if_neg hq, List.append_nil] at hc
    have := List.append_eq_nil_iff.mp hc
    exact ⟨by rw [arrivals_append, h1, this.1]; rfl, this.2⟩
  · intro a b e
    have hmem : ∃ b', t = a ++ .accepted p q :: b' ∧ b = b' ++ u := by
      rcases List.append_eq_append_iff.mp e with ⟨c, hc1, hc2⟩ | ⟨c, hc1, hc2⟩
      · exact absurd (by rw [hc2]; simp) hu
      · cases c with
        | nil =>
          simp only [List.nil_append] at hc2
          exact absurd (by rw [← hc2]; simp) hu
        | cons x c =>
          simp only [List.cons_append, List.cons.injEq] at hc2
          obtain ⟨rfl, rfl⟩ := hc2
          exact ⟨c, hc1, rfl⟩
    obtain ⟨b', e', rfl⟩ := hmem
    obtain ⟨f1, f2, f3⟩ := i.since a b' e'
    refine ⟨f1, ?_, ?_⟩
    · rw [arrivals_append, List.append_assoc, hc, meantFor_append, ← List.append_assoc, ← List.append_assoc]
      by_cases hq : q ∈ s.remotes p
      · rw [if_pos hq, f3 hq]
        exact List.prefix_rfl
      · rw [if_neg hq, List.append_nil]
        exact f2.trans (List.prefix_append ..)
    · intro hq'
      have hq := (hm.mp hq').1
      rw [arrivals_append, List.append_assoc, hc, if_pos hq, meantFor_append, ← List.append_assoc, ← List.append_assoc, f3 hq]

theorem Inv.keepNothing {p q : Nat} {s : State V} {t : List (Out V)} (i : Inv history p q s t) : Inv history p q s (t ++ []) := by
  rw [List.append_nil]; exact i

theorem send_inv {p q : Nat} {s : State V} {t : List (Out V)} (i : Inv history p q s t) (x : Nat) (v : V) :
    Inv history p q (send history s x v).1 (t ++ (send history s x v).2) := by
  unfold send
  dsimp only
  obtain ⟨h1, h2, h3, h4⟩ := foldl_push x v (s.remotes x) (s.save history x v)
  obtain ⟨g1, g2, g3⟩ := save_fields (history := history) s x v
  refine i.keep (by simp) ?_ ?_ ?_ ?_ ?_
  · rw [h1, g1]; exact i.nodup
  · rw [h1, g1]; simp
  · rw [h3, g3]; simp
  · intro hh
    rw [h2]
    subst hh
    simp only [State.save, if_true]
    by_cases hx : x = p
    · subst hx; simp [attempted]
    · have : ¬ p = x := fun h => hx h.symm
      simp [attempted, hx, this]
  · rw [h4, g2]
    by_cases hx : x = p
    · subst hx
      have hcount : (s.remotes x).count q = if q ∈ s.remotes x then 1 else 0 := i.nodup.count
      rw [if_pos rfl, hcount]
      split <;> simp [arrivals, meantFor]
    · have : ¬ p = x := fun h => hx h.symm
      simp [arrivals, meantFor, hx, this]

theorem sendTo_inv {p q : Nat} {s : State V} {t : List (Out V)} (i : Inv history p q s t) (x y : Nat) (v : V) :
    Inv history p q (sendTo history s x y v).1 (t ++ (sendTo history s x y v).2) := by
  unfold sendTo
  dsimp only
  obtain ⟨g1, g2, g3⟩ := save_fields (history := history) s x v
  have glast : history = true → (s.save history x v).last p = if p = x then some v else s.last p := by
    intro hh; subst hh; rfl
  split
  · refine i.keep (by simp) i.nodup (by simp) (by simp) ?_ ?_
    · intro _; simp [attempted]
    · simp [arrivals, meantFor]
  · split
    · rename_i hm
      rw [g1] at hm
      refine i.keep (by simp) ?_ ?_ ?_ ?_ ?_
      · simp only [State.push]; rw [g1]; exact i.nodup
      · simp only [State.push]; rw [g1]; simp
      · simp only [State.push]; rw [g3]; simp
      · intro hh
        simp only [State.push]
        rw [glast hh]
        by_cases hx : x = p
        · subst hx; simp [attempted]
        · have : ¬ p = x := fun h => hx h.symm
          simp [attempted, hx, this]
      · simp only [State.push]
        rw [g2]
        by_cases hx : x = p
        · subst hx
          by_cases hy : y = q
          · subst hy
            simp [arrivals, meantFor, hm]
          · have : ¬ q = y := fun h => hy h.symm
            simp [arrivals, meantFor, hy, this]
        · have : ¬ p = x := fun h => hx h.symm
          simp [arrivals, meantFor, hx, this]
    · refine i.keep (by simp) ?_ ?_ ?_ ?_ ?_
      · rw [g1]; exact i.nodup
      · rw [g1]; simp
      · rw [g3]; simp
      · intro hh
        rw [glast hh]
        by_cases hx : x = p
        · subst hx; simp [attempted]
        · have : ¬ p = x := fun h => hx h.symm
          simp [attempted, hx, this]
      · rw [g2]; simp [arrivals, meantFor]

theorem on_inv {p q : Nat} {s : State V} {t : List (Out V)} (hpq : p ≠ q) (i : Inv history p q s t) (e : Event V) :
    Inv history p q (on history s e).1 (t ++ (on history s e).2) := by
  cases e with
  | subscribe x y =>
    unfold on subscribe
    dsimp only
    split
    · exact i.keepNothing
    · rename_i hn
      simp only [not_or] at hn
      by_cases hxy : x = p ∧ y = q
      · obtain ⟨rfl, rfl⟩ := hxy
        have hleft : Out.left x y ∉ t := fun h => hn.2.1 (i.gone.mpr h)
        have hacc : Out.accepted x y ∉ t := fun h => hn.2.2 (i.member.mpr ⟨h, hleft⟩)
        obtain ⟨h1, h2⟩ := i.before hacc
        have hchan : arrivals y x (t ++ [.accepted x y]) = [] := by rw [arrivals_append, h1]; rfl
        constructor
        · simp only [State.push, if_true]
          rw [List.nodup_append]
          refine ⟨i.nodup, by simp, ?_⟩
          intro a ha b hb
          simp at hb; subst hb
          exact fun e => hn.2.2 (e ▸ ha)
        · simp [State.push, hleft]
        · simp only [State.push]; rw [i.gone]; simp
        · intro hh
          simp only [State.push]
          rw [i.last hh, attempted_append]
          simp [attempted]
        · intro h; exact absurd (by simp) h
        · intro a b e
          have : a = t ∧ b = [] := by
            rcases List.append_eq_append_iff.mp e with ⟨c, hc1, hc2⟩ | ⟨c, hc1, hc2⟩
            · cases c with
              | nil => simp only [List.nil_append, List.cons.injEq, true_and] at hc2; exact ⟨by simpa using hc1, hc2.symm⟩
              | cons z c => simp at hc2
            · cases c with
              | nil => simp only [List.nil_append, List.cons.injEq, true_and] at hc2; exact ⟨by simpa using hc1.symm, hc2⟩
              | cons z c =>
                simp only [List.cons_append, List.cons.injEq] at hc2
                obtain ⟨rfl, _⟩ := hc2
                exact absurd (by rw [hc1]; simp) hacc
          obtain ⟨rfl, rfl⟩ := this
          have hval : arrivals y x (a ++ [Out.accepted x y]) ++ (State.push { s with remotes := fun a => if a = x then s.remotes a ++ [y] else s.remotes a } x y
              (if history then (s.last x).toList else [])).chan x y = repeated history x a ++ meantFor x y ([] : List (Out V)) := by
            rw [hchan]
            simp only [State.push, and_self, if_true, h2, List.nil_append, repeated]
            cases history with
            | false => rfl
            | true => simp only [if_true, i.last rfl]; simp [meantFor]
          exact ⟨hacc, by rw [hval]; exact List.prefix_rfl, fun _ => hval⟩
      · have hxy' : ¬ (p = x ∧ q = y) := fun h => hxy ⟨h.1.symm, h.2.symm⟩
        refine i.keep ?_ ?_ ?_ ?_ ?_ ?_
        · simp only [List.mem_singleton, Out.accepted.injEq]; exact hxy'
        · simp only [State.push]
          split
          · rename_i hp
            subst hp
            rw [List.nodup_append]
            refine ⟨i.nodup, by simp, ?_⟩
            intro a ha b hb
            simp at hb; subst hb
            exact fun e => hn.2.2 (e ▸ ha)
          · exact i.nodup
        · simp only [State.push]
          split
          · rename_i hp
            subst hp
            have : ¬ q = y := fun h => hxy' ⟨rfl, h⟩
            simp [this]
          · simp
        · simp [State.push]
        · intro _; simp [State.push, attempted]
        · simp [State.push, hxy', arrivals, meantFor]
  | leave x y =>
    unfold on leave
    dsimp only
    split
    · exact i.keepNothing
    · refine i.keep (by simp) ?_ ?_ ?_ ?_ ?_
      · dsimp only
        split
        · exact i.nodup.filter _
        · exact i.nodup
      · dsimp only
        split
        · rename_i hp
          subst hp
          simp
        · rename_i hp
          simp [hp]
      · dsimp only
        split
        · rename_i hp
          simp [hp.1, hp.2]
        · rename_i hp
          simp only [List.mem_singleton, Out.left.injEq, hp, or_false]
      · intro _; simp [attempted]
      · simp [arrivals, meantFor]
  | call x o v =>
    refine i.keep (by simp [on, call]) i.nodup (by simp [on, call]) (by simp [on, call]) ?_ ?_
    · intro _; simp [on, call, attempted]
    · simp [on, call, arrivals, meantFor]
  | work x =>
    simp only [on, work]
    split
    · exact i.keepNothing
    · rename_i o v cs hc
      have j : Inv history p q { s with posted := fun a => if a = x then cs else s.posted a } t := ⟨i.nodup, i.member, i.gone, i.last, i.before, i.since⟩
      cases o with
      | none => exact send_inv j x v
      | some y => exact sendTo_inv j x y v
  | deliver x y =>
    unfold on deliver
    dsimp only
    split
    · exact i.keepNothing
    · rename_i v vs hc
      refine i.keep (by simp) i.nodup (by simp) (by simp) ?_ ?_
      · intro _; simp [attempted]
      · by_cases hxy : p = x ∧ q = y
        · obtain ⟨rfl, rfl⟩ := hxy
          simp [arrivals, meantFor, hc]
        · have : ¬ (y = q ∧ x = p) := fun h => hxy ⟨h.2.symm, h.1.symm⟩
          simp [arrivals, meantFor, this, hxy]

theorem run_inv {p q : Nat} (hpq : p ≠ q) (h : List (Event V)) : Inv history p q (run history h).1 (run history h).2 := by
  induction h using ConfigFiles.snoc_induction with
  | nil => exact init_inv p q
  | snoc h e ih => rw [run_snoc]; exact on_inv hpq ih e

/-- Nothing is on the way to the participant itself. -/
def NoSelf (p : Nat) (s : State V) (t : List (Out V)) : Prop := s.chan p p = [] ∧ p ∉ s.remotes p ∧ ∀ v, Out.arrived p p v ∉ t

theorem send_self {p : Nat} {s : State V} {t : List (Out V)} (i : NoSelf p s t) (x : Nat) (v : V) :
    NoSelf p (send history s x v).1 (t ++ (send history s x v).2) := by
  obtain ⟨i1, i2, i3⟩ := i
  unfold send
  dsimp only
  obtain ⟨h1, h2, h3, h4⟩ := foldl_push x v (s.remotes x) (s.save history x v)
  obtain ⟨g1, g2, g3⟩ := save_fields (history := history) s x v
  refine ⟨?_, by rw [h1, g1]; exact i2, by simpa using i3⟩
  rw [h4, g2, i1]
  split
  · rename_i hp
    subst hp
    rw [List.count_eq_zero_of_not_mem i2]; rfl
  · rfl

theorem sendTo_self {p : Nat} {s : State V} {t : List (Out V)} (i : NoSelf p s t) (x y : Nat) (v : V) :
    NoSelf p (sendTo history s x y v).1 (t ++ (sendTo history s x y v).2) := by
  obtain ⟨i1, i2, i3⟩ := i
  unfold sendTo
  dsimp only
  obtain ⟨g1, g2, g3⟩ := save_fields (history := history) s x v
  split
  · exact ⟨i1, i2, by simpa using i3⟩
  · rename_i hxy
    split
    · refine ⟨?_, by simp only [State.push]; rw [g1]; exact i2, by simpa using i3⟩
      have : ¬ (p = x ∧ p = y) := fun h => hxy (h.1.symm.trans h.2)
      simp only [State.push, if_neg this]
      rw [g2]; exact i1
    · exact ⟨by rw [g2]; exact i1, by rw [g1]; exact i2, by simpa using i3⟩

/-- Nothing comes from the participant itself. -/
theorem self_none (p : Nat) (h : List (Event V)) : (run history h).1.chan p p = [] ∧ p ∉ (run history h).1.remotes p ∧ ∀ v, Out.arrived p p v ∉ trace history h := by
  unfold trace
  induction h using ConfigFiles.snoc_induction with
  | nil => exact ⟨rfl, by simp [run], by simp [run]⟩
  | snoc h e ih =>
    rw [run_snoc]
    generalize (run history h).1 = s at ih
    generalize (run history h).2 = t at ih
    obtain ⟨i1, i2, i3⟩ := ih
    cases e with
    | subscribe x y =>
      unfold on subscribe
      dsimp only
      split
      · exact ⟨i1, i2, by simpa using i3⟩
      · rename_i hn
        simp only [not_or] at hn
        refine ⟨?_, ?_, by simpa using i3⟩
        · have : ¬ (p = x ∧ p = y) := fun h => hn.1 (h.1.symm.trans h.2)
          simp [State.push, this, i1]
        · simp only [State.push]
          split
          · rename_i hp
            have : ¬ p = y := fun h => hn.1 (hp.symm.trans h)
            simp [i2, this]
          · exact i2
    | leave x y =>
      unfold on leave
      dsimp only
      split
      · exact ⟨i1, i2, by simpa using i3⟩
      · refine ⟨i1, ?_, by simpa using i3⟩
        dsimp only
        split
        · intro h; exact i2 (List.mem_filter.mp h).1
        · exact i2
    | call x o v => exact ⟨i1, i2, by simpa [on, call] using i3⟩
    | work x =>
      simp only [on, work]
      split
      · exact ⟨i1, i2, by simpa using i3⟩
      · rename_i o v cs hc
        have j : NoSelf p { s with posted := fun a => if a = x then cs else s.posted a } t := ⟨i1, i2, i3⟩
        cases o with
        | none => exact send_self j x v
        | some y => exact sendTo_self j x y v
    | deliver x y =>
      unfold on deliver
      dsimp only
      split
      · exact ⟨i1, i2, by simpa using i3⟩
      · rename_i v vs hc
        have hxy : ¬ (p = x ∧ p = y) := by
          rintro ⟨rfl, rfl⟩
          rw [i1] at hc; cases hc
        refine ⟨by simp [hxy, i1], i2, ?_⟩
        intro w hw
        rcases List.mem_append.mp hw with hw | hw
        · exact i3 w hw
        · simp only [List.mem_singleton, Out.arrived.injEq] at hw
          exact hxy ⟨hw.2.1, hw.1⟩

theorem send_posted (s : State V) (p : Nat) (v : V) : (send history s p v).1.posted = s.posted ∧ (send history s p v).2 = [.sent p v] := by
  refine ⟨?_, rfl⟩
  have hs : (s.save history p v).posted = s.posted := by unfold State.save; split <;> rfl
  have : ∀ (rs : List Nat) (s : State V), (rs.foldl (fun s q => s.push p q [v]) s).posted = s.posted := by
    intro rs
    induction rs with
    | nil => intro s; rfl
    | cons r rs ih => intro s; rw [List.foldl_cons, ih]; rfl
  show (((s.remotes p).foldl (fun s q => s.push p q [v]) (s.save history p v))).posted = _
  rw [this, hs]

theorem sendTo_posted (s : State V) (p t : Nat) (v : V) : (sendTo history s p t v).1.posted = s.posted ∧
    ((sendTo history s p t v).2 = [.toSelf p v] ∧ p = t ∨ (sendTo history s p t v).2 = [.addressed p t v] ∨ (sendTo history s p t v).2 = [.refused p t v]) := by
  have hs : (s.save history p v).posted = s.posted := by unfold State.save; split <;> rfl
  unfold sendTo
  dsimp only
  split
  · rename_i h; exact ⟨rfl, .inl ⟨rfl, h⟩⟩
  · split
    · exact ⟨hs, .inr (.inl rfl)⟩
    · exact ⟨hs, .inr (.inr rfl)⟩

theorem calls_append (p : Nat) (a b : List (Out V)) : calls p (a ++ b) = calls p a ++ calls p b := List.filterMap_append ..
theorem carriedOut_append (p : Nat) (a b : List (Out V)) : carriedOut p (a ++ b) = carriedOut p a ++ carriedOut p b := List.filterMap_append ..

theorem queue_inv (p : Nat) (h : List (Event V)) :
    carriedOut p (run history h).2 ++ (run history h).1.posted p = calls p (run history h).2 := by
  induction h using ConfigFiles.snoc_induction with
  | nil => rfl
  | snoc h e ih =>
    rw [run_snoc]
    dsimp only
    rw [carriedOut_append, calls_append, ← ih]
    generalize (run history h).1 = s
    cases e with
    | subscribe x y => simp only [on, subscribe]; split <;> simp [carriedOut, calls, State.push]
    | leave x y => simp only [on, leave]; split <;> simp [carriedOut, calls]
    | deliver x y => simp only [on, deliver]; split <;> simp [carriedOut, calls]
    | call x o v =>
      by_cases hx : x = p
      · subst hx; simp [on, call, carriedOut, calls]
      · have : ¬ p = x := fun h => hx h.symm
        simp [on, call, carriedOut, calls, hx, this]
    | work x =>
      simp only [on, work]
      split
      · simp [carriedOut, calls]
      · rename_i o v cs hc
        cases o with
        | none =>
          dsimp only
          rw [(send_posted _ _ _).1, (send_posted _ _ _).2]
          by_cases hx : x = p
          · subst hx; simp [carriedOut, calls, hc]
          · have : ¬ p = x := fun h => hx h.symm
            simp [carriedOut, calls, hx, this]
        | some y =>
          dsimp only
          obtain ⟨g1, g2⟩ := sendTo_posted (history := history) { s with posted := fun a => if a = x then cs else s.posted a } x y v
          rw [g1]
          rcases g2 with ⟨g2, gy⟩ | g2 | g2 <;> rw [g2] <;> by_cases hx : x = p
          · subst hx; subst gy; simp [carriedOut, calls, hc]
          · have : ¬ p = x := fun h => hx h.symm
            simp [carriedOut, calls, hx, this]
          · subst hx; simp [carriedOut, calls, hc]
          · have : ¬ p = x := fun h => hx h.symm
            simp [carriedOut, calls, hx, this]
          · subst hx; simp [carriedOut, calls, hc]
          · have : ¬ p = x := fun h => hx h.symm
            simp [carriedOut, calls, hx, this]

end SilKit.Targeted
