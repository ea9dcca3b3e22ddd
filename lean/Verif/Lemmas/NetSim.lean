import Verif.Spec.NetSim
/-!
# Lemmas about the network simulator
-/
namespace SilKit.NetSim
open SilKit.NetSim.Spec

/-! ## Maps -/
section
variable {α β : Type} [DecidableEq α]

theorem get_del (m : List (α × β)) (k k' : α) : get (del m k) k' = if k' = k then none else get m k' := by
  unfold get del
  induction m with
  | nil => simp
  | cons e m ih =>
    by_cases h : e.1 = k
    · rw [List.filter_cons_of_neg (by simpa using h)]
      rw [ih]
      by_cases h' : k' = k
      · simp [h']
      · rw [if_neg h', if_neg h', List.find?_cons_of_neg (by simp; rw [h]; exact fun x => h' x.symm)]
    · rw [List.filter_cons_of_pos (by simpa using h)]
      by_cases h' : e.1 = k'
      · rw [List.find?_cons_of_pos (by simpa using h'), List.find?_cons_of_pos (by simpa using h'), if_neg (by rw [← h']; exact h)]
      · rw [List.find?_cons_of_neg (by simpa using h'), List.find?_cons_of_neg (by simpa using h'), ih]

theorem get_cons (m : List (α × β)) (k k' : α) (v : β) : get ((k, v) :: m) k' = if k' = k then some v else get m k' := by
  unfold get
  by_cases h : k' = k
  · rw [List.find?_cons_of_pos (by simpa using h.symm), if_pos h]
    rfl
  · rw [List.find?_cons_of_neg (by simpa using fun x => h x.symm), if_neg h]

theorem get_put (m : List (α × β)) (k k' : α) (v : β) : get (put m k v) k' = if k' = k then some v else get m k' := by
  unfold put
  rw [get_cons, get_del]
  split <;> rfl

theorem get_insertNew {m : List (α × β)} {k : α} (h : get m k = none) (k' : α) (v : β) : get (insertNew m k v) k' = if k' = k then some v else get m k' := by
  unfold insertNew
  rw [h]
  exact get_cons ..

end

/-! ## Networks -/

theorem net?_key {s : Sim} {k : Key} {n : Net} (h : s.net? k = some n) : n.key = k := by
  unfold Sim.net? at h
  simpa using List.find?_some h

theorem net?_setNet (s : Sim) (m : Net) (k : Key) : (s.setNet m).net? k = if k = m.key ∧ (s.net? k).isSome then some m else s.net? k := by
  unfold Sim.net? Sim.setNet
  dsimp only
  induction s.nets with
  | nil => simp
  | cons n ns ih =>
    rw [List.map_cons]
    by_cases h1 : n.key = m.key
    · rw [if_pos h1]
      by_cases h2 : k = m.key
      · rw [List.find?_cons_of_pos (by simpa using h2.symm), List.find?_cons_of_pos (by simp [h1, h2])]
        simp [h2]
      · rw [List.find?_cons_of_neg (by simpa using fun x => h2 x.symm), List.find?_cons_of_neg (by rw [h1]; simpa using fun x => h2 x.symm), ih]
    · rw [if_neg h1]
      by_cases h2 : n.key = k
      · rw [List.find?_cons_of_pos (by simpa using h2), List.find?_cons_of_pos (by simpa using h2), if_neg (by rw [← h2]; exact fun x => h1 x.1)]
      · rw [List.find?_cons_of_neg (by simpa using h2), List.find?_cons_of_neg (by simpa using h2), ih]

/-! ## What is offered -/

theorem offered_append (a b : List Out) (k : Key) : offered (a ++ b) k = b.foldl (offer k) (offered a k) := List.foldl_append ..

/-- Observations that do not change what is offered. -/
def silent : Out → Bool
  | .provide _ _ _ _ => false
  | .removed _ _ => false
  | _ => true

theorem offered_silent {a b : List Out} (h : ∀ o ∈ b, silent o = true) (k : Key) : offered (a ++ b) k = offered a k := by
  rw [offered_append]
  generalize offered a k = l
  induction b generalizing l with
  | nil => rfl
  | cons o b ih =>
    rw [List.foldl_cons]
    have h1 : offer k l o = l := by
      have := h o List.mem_cons_self
      cases o <;> first | rfl | exact absurd this (by simp [silent])
    rw [h1]
    exact ih (fun o ho => h o (List.mem_cons_of_mem _ ho)) l

/-- The tables of a network agree with what is offered. -/
structure Table (n : Net) (off : List (Nat × Service × Option Nat)) (next : Nat) : Prop where
  des : ∀ a d, get n.descriptors a = some d ↔ ∃ svc ans, (d, svc, ans) ∈ off ∧ svc.addr = a
  ctl : ∀ a h, get n.controllers a = some h ↔ ∃ d svc, (d, svc, some h) ∈ off ∧ svc.addr = a
  tgt : ∀ d a, get n.targets d = some a ↔ ∃ svc h, (d, svc, some h) ∈ off ∧ svc.addr = a
  kind : ∀ x ∈ off, 0 < x.1 ∧ x.1 ≤ next ∧ x.2.1.kind = .controller ∧ x.2.1.net = n.key
  ids : ∀ x ∈ off, ∀ y ∈ off, x.1 = y.1 → x = y
  addrs : ∀ x ∈ off, ∀ y ∈ off, x.2.1.addr = y.2.1.addr → x = y

theorem table_new (k : Key) (next : Nat) : Table { key := k } [] next where
  des := by intro a d; simp [get]
  ctl := by intro a d; simp [get]
  tgt := by intro a d; simp [get]
  kind := by intro x hx; cases hx
  ids := by intro x hx; cases hx
  addrs := by intro x hx; cases hx

theorem table_le {n : Net} {off : List (Nat × Service × Option Nat)} {a b : Nat} (h : Table n off a) (hab : a ≤ b) : Table n off b :=
  { h with kind := fun x hx => ⟨(h.kind x hx).1, Nat.le_trans (h.kind x hx).2.1 hab, (h.kind x hx).2.2⟩ }

theorem table_producer {n : Net} {off : List (Nat × Service × Option Nat)} {a : Nat} (h : Table n off a) (b : Bool) : Table { n with producer := b } off a :=
  ⟨h.des, h.ctl, h.tgt, h.kind, h.ids, h.addrs⟩

theorem table_add {n : Net} {off : List (Nat × Service × Option Nat)} {next : Nat} (h : Table n off next) {svc : Service} (hk : svc.kind = .controller) (hn : svc.net = n.key)
    (hnew : ∀ x ∈ off, x.2.1.addr ≠ svc.addr) (ans : Option Nat) : Table (n.add svc (next + 1) ans) (off ++ [(next + 1, svc, ans)]) (next + 1) := by
  have hid : ∀ x ∈ off, x.1 ≠ next + 1 := fun x hx => by have := (h.kind x hx).2.1; omega
  have hkey : (n.add svc (next + 1) ans).key = n.key := by unfold Net.add; cases ans <;> rfl
  have hdes : (n.add svc (next + 1) ans).descriptors = put n.descriptors svc.addr (next + 1) := by unfold Net.add; cases ans <;> rfl
  have hc0 : get n.controllers svc.addr = none := by
    cases hg : get n.controllers svc.addr with
    | none => rfl
    | some v =>
      obtain ⟨d, s, h1, h2⟩ := (h.ctl _ _).mp hg
      exact absurd h2 (hnew _ h1)
  have ht0 : get n.targets (next + 1) = none := by
    cases hg : get n.targets (next + 1) with
    | none => rfl
    | some v =>
      obtain ⟨d, s, h1, h2⟩ := (h.tgt _ _).mp hg
      exact absurd rfl (hid _ h1)
  have hctl : ∀ a, get (n.add svc (next + 1) ans).controllers a = if a = svc.addr then ans else get n.controllers a := by
    intro a
    cases ans with
    | none =>
      show get n.controllers a = _
      split
      · rename_i h1; rw [h1]; exact hc0
      · rfl
    | some v =>
      show get (insertNew n.controllers svc.addr v) a = _
      rw [get_insertNew hc0]
  have htgt : ∀ d, get (n.add svc (next + 1) ans).targets d = if d = next + 1 then ans.map (fun _ => svc.addr) else get n.targets d := by
    intro d
    cases ans with
    | none =>
      show get n.targets d = _
      split
      · rename_i h1; rw [h1]; exact ht0
      · rfl
    | some v =>
      show get (insertNew n.targets (next + 1) svc.addr) d = _
      rw [get_insertNew ht0]
      rfl
  refine ⟨?_, ?_, ?_, ?_, ?_, ?_⟩
  · intro a d
    rw [hdes, get_put]
    constructor
    · intro g
      split at g
      · rename_i h1
        cases g
        exact ⟨svc, ans, by simp, h1.symm⟩
      · obtain ⟨s, t, h1, h2⟩ := (h.des a d).mp g
        exact ⟨s, t, List.mem_append_left _ h1, h2⟩
    · rintro ⟨s, t, h1, h2⟩
      rcases List.mem_append.mp h1 with h3 | h3
      · rw [if_neg (by rw [← h2]; exact hnew _ h3)]
        exact (h.des a d).mpr ⟨s, t, h3, h2⟩
      · simp only [List.mem_singleton, Prod.mk.injEq] at h3
        rw [if_pos (by rw [← h2, h3.2.1]), h3.1]
  · intro a v
    rw [hctl]
    constructor
    · intro g
      split at g
      · rename_i h1
        exact ⟨next + 1, svc, by simp [g], h1.symm⟩
      · obtain ⟨s, t, h1, h2⟩ := (h.ctl a v).mp g
        exact ⟨s, t, List.mem_append_left _ h1, h2⟩
    · rintro ⟨s, t, h1, h2⟩
      rcases List.mem_append.mp h1 with h3 | h3
      · rw [if_neg (by rw [← h2]; exact hnew _ h3)]
        exact (h.ctl a v).mpr ⟨s, t, h3, h2⟩
      · simp only [List.mem_singleton, Prod.mk.injEq] at h3
        rw [if_pos (by rw [← h2, h3.2.1]), h3.2.2]
  · intro d a
    rw [htgt]
    constructor
    · intro g
      split at g
      · rename_i h1
        cases ans with
        | none => cases g
        | some v =>
          cases g
          exact ⟨svc, v, by simp [h1], rfl⟩
      · obtain ⟨s, t, h1, h2⟩ := (h.tgt d a).mp g
        exact ⟨s, t, List.mem_append_left _ h1, h2⟩
    · rintro ⟨s, t, h1, h2⟩
      rcases List.mem_append.mp h1 with h3 | h3
      · rw [if_neg (hid _ h3)]
        exact (h.tgt d a).mpr ⟨s, t, h3, h2⟩
      · simp only [List.mem_singleton, Prod.mk.injEq] at h3
        rw [if_pos h3.1, ← h3.2.2, ← h2, h3.2.1]
        rfl
  · intro x hx
    rw [hkey]
    rcases List.mem_append.mp hx with h3 | h3
    · obtain ⟨a, b, c⟩ := h.kind x h3
      exact ⟨a, by omega, c⟩
    · rw [List.mem_singleton] at h3
      subst h3
      exact ⟨by simp, by simp, hk, hn⟩
  · intro x hx y hy e
    rcases List.mem_append.mp hx with h3 | h3 <;> rcases List.mem_append.mp hy with h4 | h4
    · exact h.ids x h3 y h4 e
    · rw [List.mem_singleton] at h4
      subst h4
      exact absurd e (hid x h3)
    · rw [List.mem_singleton] at h3
      subst h3
      exact absurd e.symm (hid y h4)
    · rw [List.mem_singleton] at h3 h4
      rw [h3, h4]
  · intro x hx y hy e
    rcases List.mem_append.mp hx with h3 | h3 <;> rcases List.mem_append.mp hy with h4 | h4
    · exact h.addrs x h3 y h4 e
    · rw [List.mem_singleton] at h4
      subst h4
      exact absurd e (hnew x h3)
    · rw [List.mem_singleton] at h3
      subst h3
      exact absurd e.symm (hnew y h4)
    · rw [List.mem_singleton] at h3 h4
      rw [h3, h4]

theorem table_remove {n : Net} {off : List (Nat × Service × Option Nat)} {next : Nat} (h : Table n off next) (svc : Service) {d : Nat} (hd : get n.descriptors svc.addr = some d) :
    Table (n.remove svc).1 (off.filter (fun x => x.1 ≠ d)) next := by
  obtain ⟨s0, a0, hm0, hs0⟩ := (h.des _ _).mp hd
  have hne : ∀ x ∈ off, x.1 ≠ d ↔ x.2.1.addr ≠ svc.addr := by
    intro x hx
    constructor
    · intro g e
      exact g (by rw [h.addrs x hx _ hm0 (e.trans hs0.symm)])
    · intro g e
      exact g (by rw [h.ids x hx _ hm0 e]; exact hs0)
  have hr : (n.remove svc).1 = { n with descriptors := del n.descriptors svc.addr, targets := del n.targets d, controllers := del n.controllers svc.addr } := by
    unfold Net.remove
    rw [hd]
  rw [hr]
  have hmem : ∀ x, x ∈ off.filter (fun x => x.1 ≠ d) ↔ x ∈ off ∧ x.1 ≠ d := by intro x; simp
  refine ⟨?_, ?_, ?_, ?_, ?_, ?_⟩
  · intro a d'
    show get (del n.descriptors svc.addr) a = _ ↔ _
    rw [get_del]
    constructor
    · intro g
      split at g
      · cases g
      · rename_i hq
        obtain ⟨s, t, h1, h2⟩ := (h.des a d').mp g
        exact ⟨s, t, (hmem _).mpr ⟨h1, (hne _ h1).mpr (by rw [h2]; exact hq)⟩, h2⟩
    · rintro ⟨s, t, h1, h2⟩
      obtain ⟨h3, h4⟩ := (hmem _).mp h1
      rw [if_neg (by rw [← h2]; exact (hne _ h3).mp h4)]
      exact (h.des a d').mpr ⟨s, t, h3, h2⟩
  · intro a d'
    show get (del n.controllers svc.addr) a = _ ↔ _
    rw [get_del]
    constructor
    · intro g
      split at g
      · cases g
      · rename_i hq
        obtain ⟨s, t, h1, h2⟩ := (h.ctl a d').mp g
        exact ⟨s, t, (hmem _).mpr ⟨h1, (hne _ h1).mpr (by rw [h2]; exact hq)⟩, h2⟩
    · rintro ⟨s, t, h1, h2⟩
      obtain ⟨h3, h4⟩ := (hmem _).mp h1
      rw [if_neg (by rw [← h2]; exact (hne _ h3).mp h4)]
      exact (h.ctl a d').mpr ⟨s, t, h3, h2⟩
  · intro d' a
    show get (del n.targets d) d' = _ ↔ _
    rw [get_del]
    constructor
    · intro g
      split at g
      · cases g
      · rename_i hq
        obtain ⟨s, t, h1, h2⟩ := (h.tgt d' a).mp g
        exact ⟨s, t, (hmem _).mpr ⟨h1, hq⟩, h2⟩
    · rintro ⟨s, t, h1, h2⟩
      obtain ⟨h3, h4⟩ := (hmem _).mp h1
      rw [if_neg h4]
      exact (h.tgt d' a).mpr ⟨s, t, h3, h2⟩
  · exact fun x hx => h.kind x ((hmem x).mp hx).1
  · exact fun x hx y hy => h.ids x ((hmem x).mp hx).1 y ((hmem y).mp hy).1
  · exact fun x hx y hy => h.addrs x ((hmem x).mp hx).1 y ((hmem y).mp hy).1

/-! ## The invariant -/

/-- What holds of a simulator that has seen the services `seen` and made the observations `outs`. -/
structure Inv (s : Sim) (outs : List Out) (seen : List Service) : Prop where
  table : ∀ k n, s.net? k = some n → Table n (offered outs k) s.next
  absent : ∀ k, s.net? k = none → offered outs k = []
  svcs : ∀ k n, s.net? k = some n → ∀ svc, (∃ d a, (d, svc, a) ∈ offered outs k) ↔ svc ∈ seen ∧ svc.kind = .controller ∧ svc.net = k
  nodup : seen.Nodup
  distinct : ∀ x ∈ seen, ∀ y ∈ seen, x.kind = .controller → y.kind = .controller → x.addr = y.addr → x = y
  order : (descriptors outs).Pairwise (· < ·)
  bound : ∀ d ∈ descriptors outs, 0 < d ∧ d ≤ s.next
  gone : ∀ a k d b, outs = a ++ .removed k d :: b → ∃ svc ans, (d, svc, ans) ∈ offered a k

theorem descriptors_append (a b : List Out) : descriptors (a ++ b) = descriptors a ++ descriptors b := List.filterMap_append ..

theorem descriptors_silent {b : List Out} (h : ∀ o ∈ b, silent o = true) : descriptors b = [] := by
  unfold descriptors
  rw [List.filterMap_eq_nil_iff]
  intro o ho
  have := h o ho
  cases o <;> first | rfl | exact absurd this (by simp [silent])

theorem gone_append {outs new : List Out} (h : ∀ a k d b, outs = a ++ .removed k d :: b → ∃ svc ans, (d, svc, ans) ∈ offered a k)
    (h' : ∀ a k d b, new = a ++ .removed k d :: b → ∃ svc ans, (d, svc, ans) ∈ offered (outs ++ a) k) :
    ∀ a k d b, outs ++ new = a ++ .removed k d :: b → ∃ svc ans, (d, svc, ans) ∈ offered a k := by
  intro a k d b e
  rcases List.append_eq_append_iff.mp e with ⟨c, h1, h2⟩ | ⟨c, h1, h2⟩
  · rw [h1]
    exact h' c k d b h2
  · cases c with
    | nil =>
      rw [List.append_nil] at h1
      obtain ⟨svc, ans, h3⟩ := h' [] k d b (by simpa using h2.symm)
      rw [List.append_nil, h1] at h3
      exact ⟨svc, ans, h3⟩
    | cons x c =>
      simp only [List.cons_append, List.cons.injEq] at h2
      rw [← h2.1] at h1
      exact h a k d c h1

theorem gone_silent {outs new : List Out} (hs : ∀ o ∈ new, silent o = true) :
    ∀ a k d b, new = a ++ .removed k d :: b → ∃ svc ans, (d, svc, ans) ∈ offered (outs ++ a) k := by
  intro a k d b e
  have := hs (.removed k d) (by rw [e]; simp)
  exact absurd this (by simp [silent])

/-- The networks are the same, up to the flag of the event producer. -/
def Same (s s' : Sim) : Prop := s'.next = s.next ∧ ∀ k, (s.net? k = none ∧ s'.net? k = none) ∨ ∃ n b, s.net? k = some n ∧ s'.net? k = some { n with producer := b }

theorem same_of_nets {s s' : Sim} (h : s'.nets = s.nets) (hn : s'.next = s.next) : Same s s' := by
  refine ⟨hn, fun k => ?_⟩
  have : s'.net? k = s.net? k := by unfold Sim.net?; rw [h]
  rw [this]
  cases hk : s.net? k with
  | none => exact .inl ⟨rfl, rfl⟩
  | some n => exact .inr ⟨n, n.producer, rfl, rfl⟩

theorem inv_same {s s' : Sim} {outs new : List Out} {seen : List Service} (h : Inv s outs seen) (hs : Same s s') (hq : ∀ o ∈ new, silent o = true) : Inv s' (outs ++ new) seen := by
  refine ⟨?_, ?_, ?_, h.nodup, h.distinct, ?_, ?_, gone_append h.gone (gone_silent hq)⟩
  · intro k n hn
    rw [offered_silent hq, hs.1]
    rcases hs.2 k with ⟨-, h1⟩ | ⟨m, b, h1, h2⟩
    · rw [h1] at hn; cases hn
    · rw [h2] at hn
      cases hn
      exact table_producer (h.table k m h1) b
  · intro k hn
    rw [offered_silent hq]
    rcases hs.2 k with ⟨h1, -⟩ | ⟨m, b, h1, h2⟩
    · exact h.absent k h1
    · rw [h2] at hn; cases hn
  · intro k n hn
    rw [offered_silent hq]
    rcases hs.2 k with ⟨-, h1⟩ | ⟨m, b, h1, h2⟩
    · rw [h1] at hn; cases hn
    · exact h.svcs k m h1
  · rw [descriptors_append, descriptors_silent hq, List.append_nil]
    exact h.order
  · rw [descriptors_append, descriptors_silent hq, List.append_nil, hs.1]
    exact h.bound

theorem nodup_snoc {α : Type} {l : List α} {x : α} (h : l.Nodup) (hx : x ∉ l) : (l ++ [x]).Nodup := by
  rw [List.nodup_append]
  refine ⟨h, by simp, ?_⟩
  intro a ha b hb e
  rw [List.mem_singleton] at hb
  subst hb e
  exact hx ha

/-- A service that is no controller. -/
theorem inv_other {s : Sim} {outs : List Out} {seen : List Service} (h : Inv s outs seen) {svc : Service} (hk : svc.kind ≠ .controller) (hn : svc ∉ seen) : Inv s outs (seen ++ [svc]) := by
  refine ⟨h.table, h.absent, ?_, nodup_snoc h.nodup hn, ?_, h.order, h.bound, h.gone⟩
  · intro k n hk' x
    rw [h.svcs k n hk' x]
    constructor
    · rintro ⟨a, b⟩
      exact ⟨List.mem_append_left _ a, b⟩
    · rintro ⟨a, b⟩
      rcases List.mem_append.mp a with a | a
      · exact ⟨a, b⟩
      · rw [List.mem_singleton] at a
        subst a
        exact absurd b.1 hk
  · intro x hx y hy kx ky e
    rcases List.mem_append.mp hx with a | a <;> rcases List.mem_append.mp hy with b | b
    · exact h.distinct x a y b kx ky e
    · rw [List.mem_singleton] at b; subst b; exact absurd ky hk
    · rw [List.mem_singleton] at a; subst a; exact absurd kx hk
    · rw [List.mem_singleton] at a; subst a; exact absurd kx hk

theorem inv_other_removed {s : Sim} {outs : List Out} {seen : List Service} (h : Inv s outs seen) {svc : Service} (hk : svc.kind ≠ .controller) : Inv s outs (seen.erase svc) := by
  refine ⟨h.table, h.absent, ?_, h.nodup.erase _, ?_, h.order, h.bound, h.gone⟩
  · intro k n hk' x
    rw [h.svcs k n hk' x, h.nodup.mem_erase_iff]
    constructor
    · rintro ⟨a, b⟩
      exact ⟨⟨fun e => hk (e ▸ b.1), a⟩, b⟩
    · rintro ⟨a, b⟩
      exact ⟨a.2, b⟩
  · exact fun x hx y hy => h.distinct x (List.mem_of_mem_erase hx) y (List.mem_of_mem_erase hy)

theorem networkDiscovered_same (s : Sim) (k : Key) : Same s (s.networkDiscovered k).1 ∧ ∀ o ∈ (s.networkDiscovered k).2, silent o = true := by
  unfold Sim.networkDiscovered
  dsimp only
  split
  · exact ⟨same_of_nets rfl rfl, by simp⟩
  · generalize hs' : ({ name := s.name, started := s.started, listening := s.listening, nets := s.nets, dangling := s.dangling, next := s.next, counts := put s.counts k.name ((get s.counts k.name).getD 0 + 1), discovered := k.name :: s.discovered, known := s.known } : Sim) = s'
    have hnets : s'.nets = s.nets := by subst hs'; rfl
    have hnext : s'.next = s.next := by subst hs'; rfl
    have hnet : ∀ k, s'.net? k = s.net? k := by intro k; unfold Sim.net?; rw [hnets]
    cases hk : s'.net? k with
    | none => exact ⟨same_of_nets hnets hnext, by simp⟩
    | some n =>
      dsimp only
      split
      · exact ⟨same_of_nets hnets hnext, by simp⟩
      · refine ⟨⟨hnext, fun k' => ?_⟩, by simp [silent]⟩
        rw [net?_setNet]
        dsimp only
        rw [net?_key hk]
        split
        · rename_i h1
          obtain ⟨rfl, h2⟩ := h1
          exact .inr ⟨n, true, by rw [← hnet]; exact hk, by simp [net?_key hk]⟩
        · rw [hnet]
          cases hk' : s.net? k' with
          | none => exact .inl ⟨rfl, rfl⟩
          | some n => exact .inr ⟨n, n.producer, rfl, rfl⟩

theorem inv_controllerDiscovered {s : Sim} {outs : List Out} {seen : List Service} (h : Inv s outs seen) (user : Key → Nat → Option Nat) {svc : Service} (hk : svc.kind = .controller)
    (hnew : svc ∉ seen) (haddr : ∀ x ∈ seen, x.kind = .controller → x.addr ≠ svc.addr) :
    Inv (s.controllerDiscovered user svc).1 (outs ++ (s.controllerDiscovered user svc).2) (seen ++ [svc]) := by
  have hdis : ∀ x ∈ seen ++ [svc], ∀ y ∈ seen ++ [svc], x.kind = .controller → y.kind = .controller → x.addr = y.addr → x = y := by
    intro x hx y hy kx ky e
    rcases List.mem_append.mp hx with a | a <;> rcases List.mem_append.mp hy with b | b
    · exact h.distinct x a y b kx ky e
    · rw [List.mem_singleton] at b; subst b; exact absurd e (haddr x a kx)
    · rw [List.mem_singleton] at a; subst a; exact absurd e.symm (haddr y b ky)
    · rw [List.mem_singleton] at a b; rw [a, b]
  unfold Sim.controllerDiscovered
  dsimp only
  generalize hs' : ({ name := s.name, started := s.started, listening := s.listening, nets := s.nets, dangling := s.dangling, next := s.next + 1, counts := s.counts, discovered := s.discovered, known := s.known } : Sim) = s'
  have hnets : s'.nets = s.nets := by subst hs'; rfl
  have hnext : s'.next = s.next + 1 := by subst hs'; rfl
  have hnet : ∀ k, s'.net? k = s.net? k := by intro k; unfold Sim.net?; rw [hnets]
  rw [hnet]
  cases hn : s.net? svc.net with
  | none =>
    dsimp only
    rw [List.append_nil]
    refine ⟨?_, ?_, ?_, nodup_snoc h.nodup hnew, hdis, h.order, fun d hd => ⟨(h.bound d hd).1, by have := (h.bound d hd).2; omega⟩, h.gone⟩
    · intro k n hk'
      rw [hnet] at hk'
      exact table_le (h.table k n hk') (by omega)
    · intro k hk'
      rw [hnet] at hk'
      exact h.absent k hk'
    · intro k n hk' x
      rw [hnet] at hk'
      rw [h.svcs k n hk' x]
      constructor
      · rintro ⟨a, b⟩
        exact ⟨List.mem_append_left _ a, b⟩
      · rintro ⟨a, b⟩
        rcases List.mem_append.mp a with a | a
        · exact ⟨a, b⟩
        · rw [List.mem_singleton] at a
          subst a
          rw [b.2, hk'] at hn
          cases hn
  | some n =>
    dsimp only
    have hkey := net?_key hn
    have haddkey : ∀ d a, (n.add svc d a).key = svc.net := by intro d a; unfold Net.add; cases a <;> exact hkey
    have htab := h.table _ _ hn
    have hoffnew : ∀ x ∈ offered outs svc.net, x.2.1.addr ≠ svc.addr := by
      rintro ⟨d, x, a⟩ hx
      obtain ⟨h1, h2, h3⟩ := (h.svcs _ _ hn x).mp ⟨d, a, hx⟩
      exact haddr x h1 h2
    have hoff : ∀ k, offered (outs ++ [Out.provide svc.net (s.next + 1) svc (user svc.net (s.next + 1))]) k =
        if svc.net = k then offered outs k ++ [(s.next + 1, svc, user svc.net (s.next + 1))] else offered outs k := by
      intro k
      rw [offered_append, List.foldl_cons, List.foldl_nil, offer]
    have hsn : ∀ k, (s'.setNet (n.add svc (s.next + 1) (user svc.net (s.next + 1)))).net? k = if k = svc.net then some (n.add svc (s.next + 1) (user svc.net (s.next + 1))) else s.net? k := by
      intro k
      rw [net?_setNet, haddkey, hnet]
      by_cases hkk : k = svc.net
      · rw [if_pos ⟨hkk, by rw [hkk, hn]; rfl⟩, if_pos hkk]
      · rw [if_neg (fun hx => hkk hx.1), if_neg hkk]
    refine ⟨?_, ?_, ?_, nodup_snoc h.nodup hnew, hdis, ?_, ?_, ?_⟩
    · intro k m hm
      rw [hsn] at hm
      rw [hoff]
      show Table m _ s'.next
      rw [hnext]
      split at hm
      · rename_i hkk
        subst hkk
        cases hm
        rw [if_pos rfl]
        exact table_add htab hk hkey.symm hoffnew _
      · rename_i hkk
        rw [if_neg (fun e => hkk e.symm)]
        exact table_le (h.table k m hm) (by omega)
    · intro k hm
      rw [hsn] at hm
      split at hm
      · cases hm
      · rename_i hkk
        rw [hoff, if_neg (fun e => hkk e.symm)]
        exact h.absent k hm
    · intro k m hm x
      rw [hsn] at hm
      rw [hoff]
      split at hm
      · rename_i hkk
        subst hkk
        rw [if_pos rfl]
        have hx := h.svcs _ _ hn x
        constructor
        · rintro ⟨d, a, hmem⟩
          rcases List.mem_append.mp hmem with hmem | hmem
          · obtain ⟨h1, h2⟩ := hx.mp ⟨d, a, hmem⟩
            exact ⟨List.mem_append_left _ h1, h2⟩
          · simp only [List.mem_singleton, Prod.mk.injEq] at hmem
            rw [hmem.2.1]
            exact ⟨by simp, hk, rfl⟩
        · rintro ⟨h1, h2⟩
          rcases List.mem_append.mp h1 with h1 | h1
          · obtain ⟨d, a, h3⟩ := hx.mpr ⟨h1, h2⟩
            exact ⟨d, a, List.mem_append_left _ h3⟩
          · rw [List.mem_singleton] at h1
            subst h1
            exact ⟨_, _, List.mem_append_right _ (List.mem_singleton.mpr rfl)⟩
      · rename_i hkk
        rw [if_neg (fun e => hkk e.symm), h.svcs k m hm x]
        constructor
        · rintro ⟨a, b⟩
          exact ⟨List.mem_append_left _ a, b⟩
        · rintro ⟨a, b⟩
          rcases List.mem_append.mp a with a | a
          · exact ⟨a, b⟩
          · rw [List.mem_singleton] at a
            subst a
            exact absurd b.2.symm hkk
    · rw [descriptors_append, List.pairwise_append]
      refine ⟨h.order, by simp [descriptors, descOf], ?_⟩
      intro a ha b hb
      simp only [descriptors, descOf, List.filterMap_cons, List.filterMap_nil, List.mem_singleton] at hb
      have := (h.bound a ha).2
      omega
    · intro d hd
      show 0 < d ∧ d ≤ s'.next
      rw [descriptors_append] at hd
      rcases List.mem_append.mp hd with hd | hd
      · have := h.bound d hd
        omega
      · simp only [descriptors, descOf, List.filterMap_cons, List.filterMap_nil, List.mem_singleton] at hd
        omega
    · apply gone_append h.gone
      intro a k d b e
      cases a with
      | nil => cases e
      | cons x a =>
        simp at e

theorem handleCreated_inv {s : Sim} {outs : List Out} {seen : List Service} (h : Inv s outs seen) (user : Key → Nat → Option Nat) {svc : Service}
    (hnew : svc ∉ seen) (haddr : svc.kind = .controller → ∀ x ∈ seen, x.kind = .controller → x.addr ≠ svc.addr) :
    Inv (s.handleCreated user svc).1 (outs ++ (s.handleCreated user svc).2) (seen ++ [svc]) := by
  unfold Sim.handleCreated
  cases hk : svc.kind with
  | link =>
    dsimp only
    split
    · exact inv_other (inv_same h (same_of_nets rfl rfl) (by simp [silent])) (by rw [hk]; simp) hnew
    · rw [List.append_nil]
      exact inv_other h (by rw [hk]; simp) hnew
  | other =>
    rw [List.append_nil]
    exact inv_other h (by rw [hk]; simp) hnew
  | controller =>
    dsimp only
    obtain ⟨h1, h2⟩ := networkDiscovered_same s svc.net
    rw [← List.append_assoc]
    exact inv_controllerDiscovered (inv_same h h1 h2) user hk hnew (haddr hk)

theorem handleRemoved_inv {s : Sim} {outs : List Out} {seen : List Service} (h : Inv s outs seen) {svc : Service} (hin : svc ∈ seen) :
    Inv (s.handleRemoved svc).1 (outs ++ (s.handleRemoved svc).2) (seen.erase svc) := by
  unfold Sim.handleRemoved
  cases hk : svc.kind with
  | link =>
    dsimp only
    split
    · exact inv_other_removed (inv_same h (same_of_nets rfl rfl) (by simp [silent])) (by rw [hk]; simp)
    · rw [List.append_nil]
      exact inv_other_removed h (by rw [hk]; simp)
  | other =>
    rw [List.append_nil]
    exact inv_other_removed h (by rw [hk]; simp)
  | controller =>
    dsimp only
    have hsame : Same s (s.networkRemoved svc.net) := by
      unfold Sim.networkRemoved
      dsimp only
      split <;> exact same_of_nets rfl rfl
    have h' := inv_same (new := []) h hsame (by simp)
    rw [List.append_nil] at h'
    generalize s.networkRemoved svc.net = s' at h'
    unfold Sim.controllerRemoved
    cases hn : s'.net? svc.net with
    | none =>
      dsimp only
      rw [List.append_nil]
      refine ⟨h'.table, h'.absent, ?_, h'.nodup.erase _, fun x hx y hy => h'.distinct x (List.mem_of_mem_erase hx) y (List.mem_of_mem_erase hy), h'.order, h'.bound, h'.gone⟩
      intro k n hk' x
      rw [h'.svcs k n hk' x, h'.nodup.mem_erase_iff]
      constructor
      · rintro ⟨a, b⟩
        refine ⟨⟨?_, a⟩, b⟩
        rintro rfl
        rw [b.2, hk'] at hn
        cases hn
      · rintro ⟨a, b⟩
        exact ⟨a.2, b⟩
    | some n =>
      dsimp only
      have hkey := net?_key hn
      have htab := h'.table _ _ hn
      obtain ⟨d0, a0, hm0⟩ := (h'.svcs _ _ hn svc).mpr ⟨hin, hk, rfl⟩
      have hdes := (htab.des svc.addr d0).mpr ⟨svc, a0, hm0, rfl⟩
      have hr : (n.remove svc).2 = [.removed svc.net d0] := by
        unfold Net.remove
        rw [hdes, hkey]
      have hrk : (n.remove svc).1.key = svc.net := by
        unfold Net.remove
        rw [hdes]
        exact hkey
      rw [hr]
      have hoff : ∀ k, offered (outs ++ [Out.removed svc.net d0]) k = if svc.net = k then (offered outs k).filter (fun x => x.1 ≠ d0) else offered outs k := by
        intro k
        rw [offered_append, List.foldl_cons, List.foldl_nil, offer]
      have hsn : ∀ k, (s'.setNet (n.remove svc).1).net? k = if k = svc.net then some (n.remove svc).1 else s'.net? k := by
        intro k
        rw [net?_setNet, hrk]
        by_cases hkk : k = svc.net
        · rw [if_pos ⟨hkk, by rw [hkk, hn]; rfl⟩, if_pos hkk]
        · rw [if_neg (fun hx => hkk hx.1), if_neg hkk]
      refine ⟨?_, ?_, ?_, h'.nodup.erase _, fun x hx y hy => h'.distinct x (List.mem_of_mem_erase hx) y (List.mem_of_mem_erase hy), ?_, ?_, ?_⟩
      · intro k m hm
        rw [hsn] at hm
        rw [hoff]
        show Table m _ s'.next
        split at hm
        · rename_i hkk
          subst hkk
          cases hm
          rw [if_pos rfl]
          exact table_remove htab svc hdes
        · rename_i hkk
          rw [if_neg (fun e => hkk e.symm)]
          exact h'.table k m hm
      · intro k hm
        rw [hsn] at hm
        split at hm
        · cases hm
        · rename_i hkk
          rw [hoff, if_neg (fun e => hkk e.symm)]
          exact h'.absent k hm
      · intro k m hm x
        rw [hsn] at hm
        rw [hoff, h'.nodup.mem_erase_iff]
        split at hm
        · rename_i hkk
          subst hkk
          rw [if_pos rfl]
          have hx := h'.svcs _ _ hn x
          constructor
          · rintro ⟨d, a, hmem⟩
            simp only [List.mem_filter, ne_eq, decide_eq_true_eq] at hmem
            obtain ⟨h1, h2⟩ := hx.mp ⟨d, a, hmem.1⟩
            refine ⟨⟨?_, h1⟩, h2⟩
            rintro rfl
            apply hmem.2
            rw [show d = d0 from congrArg (·.1) (htab.addrs _ hmem.1 _ hm0 rfl)]
          · rintro ⟨⟨h1, h2⟩, h3⟩
            obtain ⟨d, a, h4⟩ := hx.mpr ⟨h2, h3⟩
            refine ⟨d, a, ?_⟩
            simp only [List.mem_filter, ne_eq, decide_eq_true_eq]
            refine ⟨h4, fun e => h1 ?_⟩
            have := htab.ids _ h4 _ hm0 e
            exact congrArg (·.2.1) this
        · rename_i hkk
          rw [if_neg (fun e => hkk e.symm), h'.svcs k m hm x]
          constructor
          · rintro ⟨a, b⟩
            refine ⟨⟨?_, a⟩, b⟩
            rintro rfl
            exact hkk b.2.symm
          · rintro ⟨a, b⟩
            exact ⟨a.2, b⟩
      · rw [descriptors_append, show descriptors [Out.removed svc.net d0] = [] from rfl, List.append_nil]
        exact h'.order
      · rw [descriptors_append, show descriptors [Out.removed svc.net d0] = [] from rfl, List.append_nil]
        exact h'.bound
      · apply gone_append h'.gone
        intro a k d b e
        cases a with
        | nil =>
          simp only [List.nil_append, List.cons.injEq, Out.removed.injEq] at e
          obtain ⟨⟨rfl, rfl⟩, -⟩ := e
          rw [List.append_nil]
          exact ⟨_, _, hm0⟩
        | cons x a =>
          simp at e

/-! ## Histories -/

/-- What is not touched by the discovery handler. -/
def Frame (s s' : Sim) : Prop := s'.name = s.name ∧ s'.started = s.started ∧ s'.listening = s.listening ∧ s'.known = s.known ∧ s'.dangling = s.dangling ∧ ∀ k, (s'.net? k).isSome = (s.net? k).isSome

theorem frame_refl (s : Sim) : Frame s s := ⟨rfl, rfl, rfl, rfl, rfl, fun _ => rfl⟩

theorem frame_trans {a b c : Sim} (h : Frame a b) (h' : Frame b c) : Frame a c :=
  ⟨h'.1.trans h.1, h'.2.1.trans h.2.1, h'.2.2.1.trans h.2.2.1, h'.2.2.2.1.trans h.2.2.2.1, h'.2.2.2.2.1.trans h.2.2.2.2.1, fun k => (h'.2.2.2.2.2 k).trans (h.2.2.2.2.2 k)⟩

theorem frame_setNet (s : Sim) (m : Net) : Frame s (s.setNet m) := by
  refine ⟨rfl, rfl, rfl, rfl, rfl, fun k => ?_⟩
  rw [net?_setNet]
  split
  · rename_i h
    rw [h.2]
    rfl
  · rfl

theorem frame_networkDiscovered (s : Sim) (k : Key) : Frame s (s.networkDiscovered k).1 := by
  unfold Sim.networkDiscovered
  dsimp only
  split
  · exact frame_refl s
  · split
    · split
      · exact frame_refl s
      · exact frame_setNet _ _
    · exact frame_refl s

theorem frame_handleCreated (user : Key → Nat → Option Nat) (s : Sim) (svc : Service) : Frame s (s.handleCreated user svc).1 := by
  unfold Sim.handleCreated
  cases svc.kind with
  | link => dsimp only; split <;> exact frame_refl s
  | other => exact frame_refl s
  | controller =>
    dsimp only
    refine frame_trans (frame_networkDiscovered s svc.net) ?_
    generalize (s.networkDiscovered svc.net).1 = s'
    unfold Sim.controllerDiscovered
    dsimp only
    split
    · exact frame_setNet _ _
    · exact frame_refl _

theorem frame_handleRemoved (s : Sim) (svc : Service) : Frame s (s.handleRemoved svc).1 := by
  unfold Sim.handleRemoved
  cases svc.kind with
  | link => dsimp only; split <;> exact frame_refl s
  | other => exact frame_refl s
  | controller =>
    dsimp only
    have h1 : Frame s (s.networkRemoved svc.net) := by
      unfold Sim.networkRemoved
      dsimp only
      split <;> exact frame_refl s
    refine frame_trans h1 ?_
    generalize s.networkRemoved svc.net = s'
    unfold Sim.controllerRemoved
    split
    · exact frame_setNet _ _
    · exact frame_refl _

/-- Services that can exist at the same time. -/
structure Apart (l : List Service) : Prop where
  nodup : l.Nodup
  distinct : ∀ x ∈ l, ∀ y ∈ l, x.kind = .controller → y.kind = .controller → x.addr = y.addr → x = y

theorem apart_created {l : List Service} (h : Apart l) {svc : Service} (hf : fits l (.created svc)) : Apart (l ++ [svc]) := by
  refine ⟨nodup_snoc h.nodup hf.1, ?_⟩
  intro x hx y hy kx ky e
  rcases List.mem_append.mp hx with a | a <;> rcases List.mem_append.mp hy with b | b
  · exact h.distinct x a y b kx ky e
  · rw [List.mem_singleton] at b; subst b; exact absurd e (hf.2 ky x a kx)
  · rw [List.mem_singleton] at a; subst a; exact absurd e.symm (hf.2 kx y b ky)
  · rw [List.mem_singleton] at a b; rw [a, b]

theorem apart_removed {l : List Service} (h : Apart l) (svc : Service) : Apart (l.erase svc) :=
  ⟨h.nodup.erase _, fun x hx y hy => h.distinct x (List.mem_of_mem_erase hx) y (List.mem_of_mem_erase hy)⟩

theorem apart_fits {seen rest : List Service} {svc : Service} (h : Apart (seen ++ svc :: rest)) : svc ∉ seen ∧ (svc.kind = .controller → ∀ x ∈ seen, x.kind = .controller → x.addr ≠ svc.addr) := by
  have hd := List.nodup_append.mp h.nodup
  have h1 : svc ∉ seen := fun hx => hd.2.2 svc hx svc List.mem_cons_self rfl
  refine ⟨h1, fun hk x hx hkx e => ?_⟩
  have := h.distinct x (List.mem_append_left _ hx) svc (List.mem_append_right _ List.mem_cons_self) hkx hk e
  exact h1 (this ▸ hx)

theorem register_inv (user : Key → Nat → Option Nat) {rest : List Service} {s : Sim} {outs : List Out} {seen : List Service} (h : Inv s outs seen) (hl : s.listening = false) (ha : Apart (seen ++ rest)) :
    ∃ seen', Inv (Sim.register user rest s).1 (outs ++ (Sim.register user rest s).2) seen' ∧ ((Sim.register user rest s).1.listening = true → seen' = seen ++ rest) ∧
      ((Sim.register user rest s).1.listening = true ∨ Out.error ∈ (Sim.register user rest s).2) ∧ (Sim.register user rest s).1.started = s.started ∧ (Sim.register user rest s).1.known = s.known ∧
      (Sim.register user rest s).1.dangling = s.dangling ∧ ∀ k, ((Sim.register user rest s).1.net? k).isSome = (s.net? k).isSome := by
  induction rest generalizing s outs seen with
  | nil =>
    refine ⟨seen, ?_, fun _ => (List.append_nil _).symm, .inl rfl, rfl, rfl, rfl, fun _ => rfl⟩
    exact inv_same h (same_of_nets rfl rfl) (by intro o ho; cases ho)
  | cons svc rest ih =>
    obtain ⟨f1, f2⟩ := apart_fits ha
    have hc := handleCreated_inv h user f1 f2
    obtain ⟨-, g1, g2, g3, g4, g5⟩ := frame_handleCreated user s svc
    unfold Sim.register
    dsimp only
    split
    · rename_i he
      refine ⟨_, hc, fun hx => ?_, .inr he, g1, g3, g4, g5⟩
      rw [g2, hl] at hx
      cases hx
    · obtain ⟨seen', i1, i2, i3, i4, i5, i6, i7⟩ := ih hc (g2.trans hl) (by rw [List.append_assoc]; exact ha)
      refine ⟨seen', by rw [← List.append_assoc]; exact i1, fun hx => by rw [i2 hx, List.append_assoc]; rfl, ?_, i4.trans g1, i5.trans g3, i6.trans g4, fun k => (i7 k).trans (g5 k)⟩
      rcases i3 with i3 | i3
      · exact .inl i3
      · exact .inr (List.mem_append_right _ i3)

/-- What holds after a history with the services `l`. -/
structure Top (s : Sim) (outs : List Out) (l : List Service) : Prop where
  known : s.known = l
  apart : Apart l
  seen : ∃ seen, Inv s outs seen ∧ (s.listening = true → seen = l) ∧ (s.started = false → seen = [])
  quiet : s.started = false → s.listening = false
  failed : s.started = true → s.listening = true ∨ Out.error ∈ outs
  dangling : ∀ k ∈ s.dangling, Out.error ∈ outs

theorem top_step {s : Sim} {outs : List Out} {l : List Service} (h : Top s outs l) (user : Key → Nat → Option Nat) {o : Op} (hf : fits l o) {r : Sim × List Out} (hr : s.step user o = .ok r) :
    Top r.1 (outs ++ r.2) (existing l o) := by
  obtain ⟨seen, hi, hs1, hs2⟩ := h.seen
  have hfail : ∀ {new : List Out}, s.started = true → s.listening = true ∨ Out.error ∈ outs ++ new := fun hx => (h.failed hx).imp id (List.mem_append_left _)
  cases o with
  | simulate k =>
    cases hr
    unfold Sim.simulate
    split
    · rename_i hst
      exact ⟨h.known, h.apart, ⟨seen, by simpa using hi, hs1, hs2⟩, h.quiet, hfail, fun k hk => List.mem_append_left _ (h.dangling k hk)⟩
    · rename_i hst
      split
      · exact ⟨h.known, h.apart, ⟨seen, inv_same hi (same_of_nets rfl rfl) (by simp [silent]), hs1, hs2⟩, h.quiet, hfail, fun k hk => by simp⟩
      · rename_i hnone
        have hst' : s.started = false := by simpa using hst
        refine ⟨h.known, h.apart, ⟨[], ?_, fun hx => ?_, fun _ => rfl⟩, h.quiet, hfail, fun k hk => List.mem_append_left _ (h.dangling k hk)⟩
        · have hi' := hs2 hst' ▸ hi
          have hnet : ∀ k', ({ s with nets := s.nets ++ [{ key := k }] } : Sim).net? k' = if k' = k then some { key := k } else s.net? k' := by
            intro k'
            show (s.nets ++ [({ key := k } : Net)]).find? _ = _
            rw [List.find?_append]
            by_cases hkk : k' = k
            · rw [if_pos hkk, hkk]
              rw [show s.nets.find? (fun n => decide (n.key = k)) = none from hnone]
              simp
            · rw [if_neg hkk, List.find?_cons_of_neg (by simpa using fun x => hkk x.symm)]
              simp [Sim.net?]
          refine ⟨?_, ?_, ?_, hi'.nodup, hi'.distinct, by simpa using hi'.order, by simpa using hi'.bound, by simpa using hi'.gone⟩
          · intro k' n hn
            rw [hnet] at hn
            rw [List.append_nil]
            split at hn
            · rename_i hkk
              cases hn
              rw [hkk, hi'.absent k hnone]
              exact table_new k _
            · exact hi'.table k' n hn
          · intro k' hn
            rw [hnet] at hn
            rw [List.append_nil]
            split at hn
            · cases hn
            · exact hi'.absent k' hn
          · intro k' n hn
            rw [hnet] at hn
            rw [List.append_nil]
            split at hn
            · rename_i hkk
              rw [hkk, hi'.absent k hnone]
              intro svc
              simp
            · exact hi'.svcs k' n hn
        · have := h.quiet hst'
          rw [show s.listening = true from hx] at this
          cases this
  | start =>
    cases hr
    unfold Sim.start
    split
    · exact ⟨h.known, h.apart, ⟨seen, by simpa using hi, hs1, hs2⟩, h.quiet, hfail, fun k hk => List.mem_append_left _ (h.dangling k hk)⟩
    · rename_i hst
      have hst' : s.started = false := by simpa using hst
      have hi' : Inv { s with started := true } outs [] := by
        have := inv_same (s := s) (s' := { s with started := true }) (new := []) (hs2 hst' ▸ hi) (same_of_nets rfl rfl) (by simp)
        rwa [List.append_nil] at this
      obtain ⟨seen', i1, i2, i3, i4, i5, i6, -⟩ := register_inv user (rest := s.known) hi' (h.quiet hst') (by rw [List.nil_append, h.known]; exact h.apart)
      refine ⟨i5.trans h.known, h.apart, ⟨seen', i1, fun hx => ?_, fun hx => ?_⟩, fun hx => ?_, fun _ => ?_, fun k hk => ?_⟩
      · rw [i2 hx, List.nil_append, h.known]; rfl
      · rw [i4] at hx; cases hx
      · rw [i4] at hx; cases hx
      · exact i3.imp id (List.mem_append_right _)
      · rw [i6] at hk
        exact List.mem_append_left _ (h.dangling k hk)
  | created svc =>
    cases hr
    unfold Sim.created
    dsimp only
    have hi' : Inv { s with known := s.known ++ [svc] } outs seen := by
      have := inv_same (s' := { s with known := s.known ++ [svc] }) (new := []) hi (same_of_nets rfl rfl) (by simp)
      rwa [List.append_nil] at this
    split
    · rename_i hl
      have hl' : s.listening = true := hl
      obtain rfl := hs1 hl'
      obtain ⟨g0, g1, g2, g3, g4, g5⟩ := frame_handleCreated user { s with known := s.known ++ [svc] } svc
      have hstarted : s.started = true := by
        cases hst : s.started with
        | true => rfl
        | false => rw [h.quiet hst] at hl'; cases hl'
      refine ⟨g3.trans (by show s.known ++ [svc] = _; rw [h.known]; rfl), apart_created h.apart hf, ⟨_, handleCreated_inv hi' user hf.1 hf.2, fun _ => rfl, fun hx => ?_⟩, fun hx => ?_, fun hx => .inl (g2.trans hl'), fun k hk => ?_⟩
      · rw [g1] at hx
        rw [show s.started = false from hx] at hstarted; cases hstarted
      · rw [g1] at hx
        rw [show s.started = false from hx] at hstarted; cases hstarted
      · rw [g4] at hk
        exact List.mem_append_left _ (h.dangling k hk)
    · rename_i hl
      refine ⟨by show s.known ++ [svc] = _; rw [h.known]; rfl, apart_created h.apart hf, ⟨seen, by rw [List.append_nil]; exact hi', fun hx => absurd hx hl, hs2⟩, h.quiet, hfail, fun k hk => List.mem_append_left _ (h.dangling k hk)⟩
  | removed svc =>
    cases hr
    unfold Sim.removed
    dsimp only
    have hi' : Inv { s with known := s.known.erase svc } outs seen := by
      have := inv_same (s' := { s with known := s.known.erase svc }) (new := []) hi (same_of_nets rfl rfl) (by simp)
      rwa [List.append_nil] at this
    split
    · rename_i hl
      have hl' : s.listening = true := hl
      obtain rfl := hs1 hl'
      obtain ⟨g0, g1, g2, g3, g4, g5⟩ := frame_handleRemoved { s with known := s.known.erase svc } svc
      have hstarted : s.started = true := by
        cases hst : s.started with
        | true => rfl
        | false => rw [h.quiet hst] at hl'; cases hl'
      refine ⟨g3.trans (by show s.known.erase svc = _; rw [h.known]; rfl), apart_removed h.apart svc, ⟨_, handleRemoved_inv hi' hf, fun _ => rfl, fun hx => ?_⟩, fun hx => ?_, fun hx => .inl (g2.trans hl'), fun k hk => ?_⟩
      · rw [g1] at hx
        rw [show s.started = false from hx] at hstarted; cases hstarted
      · rw [g1] at hx
        rw [show s.started = false from hx] at hstarted; cases hstarted
      · rw [g4] at hk
        exact List.mem_append_left _ (h.dangling k hk)
    · rename_i hl
      refine ⟨by show s.known.erase svc = _; rw [h.known]; rfl, apart_removed h.apart svc, ⟨seen, by rw [List.append_nil]; exact hi', fun hx => absurd hx hl, hs2⟩, h.quiet, hfail, fun k hk => List.mem_append_left _ (h.dangling k hk)⟩
  | receive k p i b m =>
    have key : r.1 = s ∧ ∀ o ∈ r.2, silent o = true := by
      simp only [Sim.step, Sim.receive] at hr
      split at hr
      · cases hr
      · split at hr
        · cases hr
          refine ⟨rfl, ?_⟩
          unfold Net.receive
          split
          · simp
          · split <;> simp [silent]
        · cases hr
          exact ⟨rfl, by simp⟩
    rw [key.1]
    exact ⟨h.known, h.apart, ⟨seen, inv_same hi (same_of_nets rfl rfl) key.2, hs1, hs2⟩, h.quiet, hfail, fun k hk => List.mem_append_left _ (h.dangling k hk)⟩
  | produce k m rs =>
    have key : r.1 = s ∧ ∀ o ∈ r.2, silent o = true := by
      simp only [Sim.step, Sim.produce] at hr
      split at hr
      · split at hr
        · cases hr
          refine ⟨rfl, ?_⟩
          intro o ho
          simp only [Net.send, List.mem_flatMap] at ho
          obtain ⟨d, -, ho⟩ := ho
          unfold Net.sendTo at ho
          split at ho
          · rw [List.mem_singleton] at ho
            subst ho
            rfl
          · cases ho
        · cases hr
          exact ⟨rfl, by simp⟩
      · cases hr
        exact ⟨rfl, by simp⟩
    rw [key.1]
    exact ⟨h.known, h.apart, ⟨seen, inv_same hi (same_of_nets rfl rfl) key.2, hs1, hs2⟩, h.quiet, hfail, fun k hk => List.mem_append_left _ (h.dangling k hk)⟩

theorem top_run {os : List Op} {s : Sim} {outs : List Out} {l : List Service} (h : Top s outs l) (user : Key → Nat → Option Nat) (hf : Orderly os l) {r : Sim × List Out} (hr : Sim.run user os s = .ok r) :
    Top r.1 (outs ++ r.2) (os.foldl existing l) := by
  induction os generalizing s outs l r with
  | nil =>
    cases hr
    rw [List.append_nil]
    exact h
  | cons o os ih =>
    unfold Sim.run at hr
    cases h1 : s.step user o with
    | «throw» m => rw [h1] at hr; cases hr
    | ub m => rw [h1] at hr; cases hr
    | ok r1 =>
      rw [h1] at hr
      simp only [Res.bind] at hr
      cases h2 : Sim.run user os r1.1 with
      | «throw» m => rw [h2] at hr; cases hr
      | ub m => rw [h2] at hr; cases hr
      | ok r2 =>
        rw [h2] at hr
        cases hr
        rw [← List.append_assoc, List.foldl_cons]
        exact ih (top_step h user hf.1 h1) hf.2 h2

theorem top_init (name : String) : Top { name := name } [] [] where
  known := rfl
  apart := ⟨List.nodup_nil, fun x hx => nomatch hx⟩
  seen := ⟨[], ⟨(fun k n hn => by cases hn), (fun k _ => rfl), (fun k n hn => by cases hn), List.nodup_nil, (fun x hx => nomatch hx), List.Pairwise.nil, (fun d hd => nomatch hd), (fun a k d b e => by cases a <;> cases e)⟩, (fun _ => rfl), (fun _ => rfl)⟩
  quiet := fun _ => rfl
  failed := fun h => by cases h
  dangling := fun k hk => nomatch hk

/-! ## Event producers -/

/-- The network has an event producer. -/
def has (s : Sim) (k : Key) : Prop := ∃ n, s.net? k = some n ∧ n.producer = true

/-- `outs` are the observations so far, for network `k`. -/
structure PInv (s : Sim) (outs : List Out) (k : Key) : Prop where
  flag : has s k ↔ Out.producer k ∈ outs
  once : outs.count (Out.producer k) ≤ 1
  idle : s.started = false → s.listening = false ∧ s.discovered = []

theorem count_append_zero {outs new : List Out} {k : Key} (h : Out.producer k ∉ new) : (outs ++ new).count (Out.producer k) = outs.count (Out.producer k) := by
  rw [List.count_append, List.count_eq_zero.mpr h, Nat.add_zero]

theorem has_same {s s' : Sim} {k : Key} (h : s'.net? k = s.net? k) : has s' k ↔ has s k := by unfold has; rw [h]

theorem pinv_plain {s s' : Sim} {outs new : List Out} {k : Key} (h : PInv s outs k) (hh : has s' k ↔ has s k) (hn : Out.producer k ∉ new) (hi : s'.started = false → s'.listening = false ∧ s'.discovered = []) : PInv s' (outs ++ new) k := by
  refine ⟨?_, ?_, hi⟩
  · rw [hh, h.flag, List.mem_append]
    exact ⟨.inl, fun g => g.resolve_right hn⟩
  · rw [count_append_zero hn]
    exact h.once

theorem pinv_networkDiscovered {s : Sim} {outs : List Out} {k : Key} (h : PInv s outs k) (hst : s.started = true) (k' : Key) :
    PInv (s.networkDiscovered k').1 (outs ++ (s.networkDiscovered k').2) k ∧
      (k' = k → (s.net? k).isSome = true → k.name ∉ s.discovered → Out.producer k ∈ outs ++ (s.networkDiscovered k').2) ∧ k'.name ∈ (s.networkDiscovered k').1.discovered ∧
      (∀ x ∈ (s.networkDiscovered k').1.discovered, x = k'.name ∨ x ∈ s.discovered) ∧ (∀ x ∈ s.discovered, x ∈ (s.networkDiscovered k').1.discovered) := by
  have hst' : ∀ {P : Prop}, s.started = false → P := fun hx => by rw [hst] at hx; cases hx
  unfold Sim.networkDiscovered
  dsimp only
  by_cases hin : k'.name ∈ s.discovered
  · rw [if_pos hin]
    exact ⟨pinv_plain h Iff.rfl (by simp) (fun hx => hst' hx), fun e _ hx => absurd (e ▸ hin) hx, hin, fun x hx => .inr hx, fun x hx => hx⟩
  · rw [if_neg hin]
    generalize hs' : ({ name := s.name, started := s.started, listening := s.listening, nets := s.nets, dangling := s.dangling, next := s.next, counts := put s.counts k'.name ((get s.counts k'.name).getD 0 + 1), discovered := k'.name :: s.discovered, known := s.known } : Sim) = s'
    have hnet : ∀ k, s'.net? k = s.net? k := by intro k; subst hs'; rfl
    have hd : s'.discovered = k'.name :: s.discovered := by subst hs'; rfl
    have hst2 : s'.started = s.started := by subst hs'; rfl
    cases hk : s'.net? k' with
    | none =>
      dsimp only
      refine ⟨pinv_plain h (has_same (hnet k)) (by simp) (fun hx => hst' (hst2 ▸ hx)), fun e hsome _ => ?_, by rw [hd]; simp, fun x hx => by rw [hd] at hx; simpa using hx, fun x hx => by rw [hd]; simp [hx]⟩
      subst e
      rw [← hnet, hk] at hsome
      cases hsome
    | some n =>
      have hkey := net?_key hk
      dsimp only
      split
      · rename_i hp
        refine ⟨pinv_plain h (has_same (hnet k)) (by simp) (fun hx => hst' (hst2 ▸ hx)), fun e hsome _ => ?_, by rw [hd]; simp, fun x hx => by rw [hd] at hx; simpa using hx, fun x hx => by rw [hd]; simp [hx]⟩
        subst e
        exact List.mem_append_left _ (h.flag.mp ⟨n, by rw [← hnet]; exact hk, hp⟩)
      · rename_i hp
        have hsn : ∀ x, (s'.setNet { n with producer := true }).net? x = if x = k' then some { n with producer := true } else s.net? x := by
          intro x
          rw [net?_setNet, hnet]
          dsimp only
          rw [hkey]
          by_cases hx : x = k'
          · rw [if_pos ⟨hx, by rw [hx, ← hnet, hk]; rfl⟩, if_pos hx]
          · rw [if_neg (fun hy => hx hy.1), if_neg hx]
        refine ⟨?_, ?_, by show k'.name ∈ s'.discovered; rw [hd]; simp, fun x hx => by have hx : x ∈ s'.discovered := hx; rw [hd] at hx; simpa using hx, fun x hx => by show x ∈ s'.discovered; rw [hd]; simp [hx]⟩
        · by_cases hkk : k = k'
          · subst hkk
            have hno : Out.producer k ∉ outs := by
              rw [← h.flag]
              rintro ⟨m, h1, h2⟩
              rw [← hnet, hk] at h1
              cases h1
              exact hp h2
            refine ⟨⟨fun _ => by simp, fun _ => ⟨{ n with producer := true }, by rw [hsn, if_pos rfl], rfl⟩⟩, ?_, fun hx => hst' (hst2 ▸ hx)⟩
            rw [List.count_append, List.count_eq_zero.mpr hno]
            simp
          · exact pinv_plain h (has_same (by rw [hsn, if_neg hkk])) (by simpa using hkk) (fun hx => hst' (hst2 ▸ hx))
        · intro e _ _
          subst e
          simp

theorem has_setNet {s : Sim} {k k' : Key} {n m : Net} (hn : s.net? k' = some n) (hm : m.key = k') (hp : m.producer = n.producer) : has (s.setNet m) k ↔ has s k := by
  unfold has
  rw [net?_setNet, hm]
  by_cases hk : k = k'
  · subst hk
    rw [if_pos ⟨rfl, by rw [hn]; rfl⟩, hn]
    simp [hp]
  · rw [if_neg (fun hx => hk hx.1)]

theorem add_producer (n : Net) (svc : Service) (d : Nat) (a : Option Nat) : (n.add svc d a).producer = n.producer ∧ (n.add svc d a).key = n.key := by
  unfold Net.add; cases a <;> exact ⟨rfl, rfl⟩

theorem remove_producer (n : Net) (svc : Service) : (n.remove svc).1.producer = n.producer ∧ (n.remove svc).1.key = n.key := by
  unfold Net.remove
  split <;> exact ⟨rfl, rfl⟩

theorem pinv_controllerDiscovered {s : Sim} {outs : List Out} {k : Key} (h : PInv s outs k) (hst : s.started = true) (user : Key → Nat → Option Nat) (svc : Service) :
    PInv (s.controllerDiscovered user svc).1 (outs ++ (s.controllerDiscovered user svc).2) k ∧ (s.controllerDiscovered user svc).1.discovered = s.discovered := by
  have hst' : ∀ {P : Prop}, s.started = false → P := fun hx => by rw [hst] at hx; cases hx
  unfold Sim.controllerDiscovered
  dsimp only
  split
  · rename_i n hn
    exact ⟨pinv_plain h ((has_setNet hn ((add_producer ..).2.trans (net?_key hn)) (add_producer ..).1).trans Iff.rfl) (by simp) (fun hx => hst' hx), rfl⟩
  · exact ⟨pinv_plain h Iff.rfl (by simp) (fun hx => hst' hx), rfl⟩

/-- The event producer is there before the controllers, if `P` holds: the name of the network is not used for another type. -/
structure BInv (P : Prop) (s : Sim) (outs : List Out) (k : Key) : Prop where
  base : PInv s outs k
  disc : P → (s.net? k).isSome = true → k.name ∈ s.discovered → Out.producer k ∈ outs
  before : P → ∀ a d svc ans b, outs = a ++ .provide k d svc ans :: b → Out.producer k ∈ a

def provides (k : Key) : Out → Bool
  | .provide k' _ _ _ => k' = k
  | _ => false

theorem before_append {outs new : List Out} {k : Key} (h : ∀ a d svc ans b, outs = a ++ .provide k d svc ans :: b → Out.producer k ∈ a)
    (h' : ∀ a d svc ans b, new = a ++ .provide k d svc ans :: b → Out.producer k ∈ outs ++ a) :
    ∀ a d svc ans b, outs ++ new = a ++ .provide k d svc ans :: b → Out.producer k ∈ a := by
  intro a d svc ans b e
  rcases List.append_eq_append_iff.mp e with ⟨c, h1, h2⟩ | ⟨c, h1, h2⟩
  · rw [h1]
    exact h' c d svc ans b h2
  · cases c with
    | nil =>
      rw [List.append_nil] at h1
      have h3 := h' [] d svc ans b (by simpa using h2.symm)
      rwa [List.append_nil, h1] at h3
    | cons x c =>
      simp only [List.cons_append, List.cons.injEq] at h2
      rw [← h2.1] at h1
      exact h a d svc ans c h1

theorem before_none {outs new : List Out} {k : Key} (hn : ∀ o ∈ new, provides k o = false) :
    ∀ a d svc ans b, new = a ++ .provide k d svc ans :: b → Out.producer k ∈ outs ++ a := by
  intro a d svc ans b e
  have := hn (.provide k d svc ans) (by rw [e]; simp)
  simp [provides] at this

theorem binv_plain {P : Prop} {s s' : Sim} {outs new : List Out} {k : Key} (h : BInv P s outs k) (hh : has s' k ↔ has s k) (hsome : (s'.net? k).isSome = true → (s.net? k).isSome = true ∨ s'.discovered = [])
    (hn : Out.producer k ∉ new) (hi : s'.started = false → s'.listening = false ∧ s'.discovered = []) (hd : ∀ x ∈ s'.discovered, x ∈ s.discovered)
    (hp : ∀ o ∈ new, provides k o = false) : BInv P s' (outs ++ new) k := by
  refine ⟨pinv_plain h.base hh hn hi, fun p hs hx => ?_, fun p => before_append (h.before p) (before_none hp)⟩
  rcases hsome hs with g | g
  · exact List.mem_append_left _ (h.disc p g (hd _ hx))
  · rw [g] at hx; cases hx

theorem networkDiscovered_provides (s : Sim) (k k' : Key) : ∀ o ∈ (s.networkDiscovered k').2, provides k o = false := by
  unfold Sim.networkDiscovered
  dsimp only
  split
  · simp
  · split
    · split <;> simp [provides]
    · simp

theorem binv_handleCreated {P : Prop} {s : Sim} {outs : List Out} {k : Key} (h : BInv P s outs k) (hst : s.started = true) (user : Key → Nat → Option Nat) {svc : Service}
    (honly : P → svc.kind = .controller → svc.net.name = k.name → svc.net = k) : BInv P (s.handleCreated user svc).1 (outs ++ (s.handleCreated user svc).2) k := by
  have hst' : ∀ {P : Prop}, s.started = false → P := fun hx => by rw [hst] at hx; cases hx
  unfold Sim.handleCreated
  cases hk : svc.kind with
  | link =>
    dsimp only
    split
    · exact binv_plain h Iff.rfl .inl (by simp) (fun hx => hst' hx) (fun x hx => hx) (by simp [provides])
    · exact binv_plain h Iff.rfl .inl (by simp) (fun hx => hst' hx) (fun x hx => hx) (by simp)
  | other => exact binv_plain h Iff.rfl .inl (by simp) (fun hx => hst' hx) (fun x hx => hx) (by simp)
  | controller =>
    dsimp only
    obtain ⟨h1, h2, h3, h4, h5⟩ := pinv_networkDiscovered h.base hst svc.net
    obtain ⟨-, f1, f2, f3, f4, f5⟩ := frame_networkDiscovered s svc.net
    have hprov := networkDiscovered_provides s k svc.net
    generalize (s.networkDiscovered svc.net) = r at *
    obtain ⟨h6, h7⟩ := pinv_controllerDiscovered h1 (f1.trans hst) user svc
    have hsome : ((r.1.controllerDiscovered user svc).1.net? k).isSome = (s.net? k).isSome := by
      rw [← f5]
      unfold Sim.controllerDiscovered
      dsimp only
      split
      · exact (frame_setNet _ _).2.2.2.2.2 k
      · rfl
    have key : P → (s.net? k).isSome = true → svc.net.name = k.name → Out.producer k ∈ outs ++ r.2 := by
      intro p hs hn
      have hnet := honly p hk hn
      by_cases hd : k.name ∈ s.discovered
      · exact List.mem_append_left _ (h.disc p hs hd)
      · exact h2 hnet hs hd
    rw [← List.append_assoc]
    refine ⟨h6, ?_, ?_⟩
    · intro p hs hx
      rw [hsome] at hs
      rw [h7] at hx
      apply List.mem_append_left
      rcases h4 _ hx with g | g
      · exact key p hs g.symm
      · exact List.mem_append_left _ (h.disc p hs g)
    · intro p
      refine before_append (before_append (h.before p) (before_none hprov)) ?_
      unfold Sim.controllerDiscovered
      dsimp only
      split
      · rename_i n hn
        intro a d x ans b e
        cases a with
        | nil =>
          simp only [List.nil_append, List.cons.injEq, Out.provide.injEq] at e
          rw [List.append_nil]
          have hkk : svc.net = k := e.1.1
          apply key p
          · rw [← f5, ← hkk]
            have : r.1.net? svc.net = some n := hn
            rw [this]; rfl
          · rw [hkk]
        | cons y a => simp at e
      · intro a d x ans b e
        simp at e

theorem binv_handleRemoved {P : Prop} {s : Sim} {outs : List Out} {k : Key} (h : BInv P s outs k) (hst : s.started = true) (svc : Service) : BInv P (s.handleRemoved svc).1 (outs ++ (s.handleRemoved svc).2) k := by
  have hst' : ∀ {P : Prop}, s.started = false → P := fun hx => by rw [hst] at hx; cases hx
  unfold Sim.handleRemoved
  cases hk : svc.kind with
  | link =>
    dsimp only
    split
    · exact binv_plain h Iff.rfl .inl (by simp) (fun hx => hst' hx) (fun x hx => hx) (by simp [provides])
    · exact binv_plain h Iff.rfl .inl (by simp) (fun hx => hst' hx) (fun x hx => hx) (by simp)
  | other => exact binv_plain h Iff.rfl .inl (by simp) (fun hx => hst' hx) (fun x hx => hx) (by simp)
  | controller =>
    dsimp only
    have hnet : ∀ k', (s.networkRemoved svc.net).net? k' = s.net? k' := by
      intro k'
      unfold Sim.networkRemoved
      dsimp only
      split <;> rfl
    have hstt : (s.networkRemoved svc.net).started = s.started := by
      unfold Sim.networkRemoved
      dsimp only
      split <;> rfl
    have hdd : ∀ x ∈ (s.networkRemoved svc.net).discovered, x ∈ s.discovered := by
      unfold Sim.networkRemoved
      dsimp only
      split
      · intro x hx
        exact (List.mem_filter.mp hx).1
      · exact fun x hx => hx
    generalize s.networkRemoved svc.net = s' at *
    unfold Sim.controllerRemoved
    split
    · rename_i n hn
      have hsome : ((s'.setNet (n.remove svc).1).net? k).isSome = (s.net? k).isSome := by rw [← hnet]; exact (frame_setNet _ _).2.2.2.2.2 k
      refine binv_plain h ((has_setNet hn ((remove_producer n svc).2.trans (net?_key hn)) (remove_producer n svc).1).trans (has_same (hnet k))) (fun hx => .inl (by rw [← hsome]; exact hx)) ?_
        (fun hx => hst' (hstt.symm.trans hx)) hdd ?_
      · unfold Net.remove; split <;> simp
      · unfold Net.remove; split <;> simp [provides]
    · exact binv_plain h (has_same (hnet k)) (fun hx => .inl (by rw [← hnet]; exact hx)) (by simp) (fun hx => hst' (hstt.symm.trans hx)) hdd (by simp)

theorem binv_register {P : Prop} (user : Key → Nat → Option Nat) {rest : List Service} {s : Sim} {outs : List Out} {k : Key} (h : BInv P s outs k) (hst : s.started = true)
    (honly : P → ∀ svc ∈ rest, svc.kind = .controller → svc.net.name = k.name → svc.net = k) : BInv P (Sim.register user rest s).1 (outs ++ (Sim.register user rest s).2) k := by
  induction rest generalizing s outs with
  | nil =>
    have hst' : ∀ {P : Prop}, s.started = false → P := fun hx => by rw [hst] at hx; cases hx
    exact binv_plain h Iff.rfl .inl (by simp [Sim.register]) (fun hx => hst' hx) (fun x hx => hx) (by simp [Sim.register])
  | cons svc rest ih =>
    have hc := binv_handleCreated h hst user (fun p => honly p svc List.mem_cons_self)
    unfold Sim.register
    dsimp only
    split
    · exact hc
    · rw [← List.append_assoc]
      exact ih hc ((frame_handleCreated user s svc).2.1.trans hst) (fun p x hx => honly p x (List.mem_cons_of_mem _ hx))

/-- The constraint on the services that are created. -/
def onlyOf (k : Key) : Op → Prop
  | .created svc => svc.kind = .controller → svc.net.name = k.name → svc.net = k
  | _ => True

theorem binv_step {P : Prop} {s : Sim} {outs : List Out} {k : Key} (h : BInv P s outs k) (hl : s.listening = true → s.started = true) (hknown : P → ∀ svc ∈ s.known, svc.kind = .controller → svc.net.name = k.name → svc.net = k)
    (user : Key → Nat → Option Nat) {o : Op} (ho : P → onlyOf k o) {r : Sim × List Out} (hr : s.step user o = .ok r) :
    BInv P r.1 (outs ++ r.2) k ∧ (r.1.listening = true → r.1.started = true) ∧ (P → ∀ svc ∈ r.1.known, svc.kind = .controller → svc.net.name = k.name → svc.net = k) := by
  cases o with
  | simulate k' =>
    cases hr
    unfold Sim.simulate
    split
    · exact ⟨by simpa using h, hl, hknown⟩
    · rename_i hst
      have hst' : s.started = false := by simpa using hst
      split
      · exact ⟨binv_plain h Iff.rfl .inl (by simp) h.base.idle (fun x hx => hx) (by simp [provides]), hl, hknown⟩
      · rename_i hnone
        refine ⟨binv_plain h ?_ (fun _ => .inr (h.base.idle hst').2) (by simp) h.base.idle (fun x hx => hx) (by simp), hl, hknown⟩
        have hnet : ∀ x, ({ s with nets := s.nets ++ [{ key := k' }] } : Sim).net? x = if x = k' then some { key := k' } else s.net? x := by
          intro x
          show (s.nets ++ [({ key := k' } : Net)]).find? _ = _
          rw [List.find?_append]
          by_cases hkk : x = k'
          · rw [if_pos hkk, hkk]
            rw [show s.nets.find? (fun n => decide (n.key = k')) = none from hnone]
            simp
          · rw [if_neg hkk, List.find?_cons_of_neg (by simpa using fun e => hkk e.symm)]
            simp [Sim.net?]
        unfold has
        rw [hnet]
        by_cases hkk : k = k'
        · rw [if_pos hkk, hkk, hnone]
          simp
        · rw [if_neg hkk]
  | start =>
    cases hr
    unfold Sim.start
    split
    · exact ⟨by simpa using h, hl, hknown⟩
    · rename_i hst
      have hb : BInv P { s with started := true } outs k := by
        have := binv_plain (s' := { s with started := true }) (new := []) h Iff.rfl .inl (by simp) (fun hx => by cases hx) (fun x hx => hx) (by simp)
        rwa [List.append_nil] at this
      have hfr : ∀ (rest : List Service) (t : Sim), (Sim.register user rest t).1.started = t.started ∧ (Sim.register user rest t).1.known = t.known := by
        intro rest
        induction rest with
        | nil => intro t; exact ⟨rfl, rfl⟩
        | cons svc rest ih =>
          intro t
          obtain ⟨-, g1, -, g3, -, -⟩ := frame_handleCreated user t svc
          unfold Sim.register
          dsimp only
          split
          · exact ⟨g1, g3⟩
          · exact ⟨(ih _).1.trans g1, (ih _).2.trans g3⟩
      refine ⟨binv_register user hb rfl hknown, fun _ => (hfr _ _).1, ?_⟩
      rw [(hfr _ _).2]
      exact hknown
  | created svc =>
    cases hr
    have hk' : P → ∀ x ∈ s.known ++ [svc], x.kind = .controller → x.net.name = k.name → x.net = k := by
      intro p x hx
      rcases List.mem_append.mp hx with hx | hx
      · exact hknown p x hx
      · rw [List.mem_singleton] at hx
        rw [hx]
        exact ho p
    have hb : BInv P { s with known := s.known ++ [svc] } outs k := by
      have := binv_plain (s' := { s with known := s.known ++ [svc] }) (new := []) h Iff.rfl .inl (by simp) h.base.idle (fun x hx => hx) (by simp)
      rwa [List.append_nil] at this
    unfold Sim.created
    dsimp only
    split
    · rename_i hlis
      have hst := hl hlis
      obtain ⟨-, g1, g2, g3, -, -⟩ := frame_handleCreated user { s with known := s.known ++ [svc] } svc
      refine ⟨binv_handleCreated hb hst user ho, fun _ => g1.trans hst, ?_⟩
      rw [g3]
      exact hk'
    · exact ⟨by simpa using hb, hl, hk'⟩
  | removed svc =>
    cases hr
    have hk' : P → ∀ x ∈ s.known.erase svc, x.kind = .controller → x.net.name = k.name → x.net = k := fun p x hx => hknown p x (List.mem_of_mem_erase hx)
    have hb : BInv P { s with known := s.known.erase svc } outs k := by
      have := binv_plain (s' := { s with known := s.known.erase svc }) (new := []) h Iff.rfl .inl (by simp) h.base.idle (fun x hx => hx) (by simp)
      rwa [List.append_nil] at this
    unfold Sim.removed
    dsimp only
    split
    · rename_i hlis
      have hst := hl hlis
      obtain ⟨-, g1, g2, g3, -, -⟩ := frame_handleRemoved { s with known := s.known.erase svc } svc
      refine ⟨binv_handleRemoved hb hst svc, fun _ => g1.trans hst, ?_⟩
      rw [g3]
      exact hk'
    · exact ⟨by simpa using hb, hl, hk'⟩
  | receive k' p i b m =>
    have key : r.1 = s ∧ Out.producer k ∉ r.2 ∧ ∀ o ∈ r.2, provides k o = false := by
      simp only [Sim.step, Sim.receive] at hr
      split at hr
      · cases hr
      · split at hr
        · cases hr
          refine ⟨rfl, ?_⟩
          unfold Net.receive
          split
          · simp
          · split <;> simp [provides]
        · cases hr
          exact ⟨rfl, by simp⟩
    rw [key.1]
    exact ⟨binv_plain h Iff.rfl .inl key.2.1 h.base.idle (fun x hx => hx) key.2.2, hl, hknown⟩
  | produce k' m rs =>
    have key : r.1 = s ∧ Out.producer k ∉ r.2 ∧ ∀ o ∈ r.2, provides k o = false := by
      simp only [Sim.step, Sim.produce] at hr
      split at hr
      · rename_i n hn
        split at hr
        · cases hr
          have : ∀ o ∈ n.send m rs, ∃ a b c d, o = Out.send a b c d := by
            intro o ho
            simp only [Net.send, List.mem_flatMap] at ho
            obtain ⟨d, -, ho⟩ := ho
            unfold Net.sendTo at ho
            split at ho
            · rw [List.mem_singleton] at ho
              exact ⟨_, _, _, _, ho⟩
            · cases ho
          refine ⟨rfl, ?_, ?_⟩
          · intro hx
            obtain ⟨_, _, _, _, e⟩ := this _ hx
            cases e
          · intro o ho
            obtain ⟨_, _, _, _, e⟩ := this _ ho
            rw [e]
            rfl
        · cases hr
          exact ⟨rfl, by simp⟩
      · cases hr
        exact ⟨rfl, by simp⟩
    rw [key.1]
    exact ⟨binv_plain h Iff.rfl .inl key.2.1 h.base.idle (fun x hx => hx) key.2.2, hl, hknown⟩

theorem binv_run {P : Prop} {os : List Op} {s : Sim} {outs : List Out} {k : Key} (h : BInv P s outs k) (hl : s.listening = true → s.started = true) (hknown : P → ∀ svc ∈ s.known, svc.kind = .controller → svc.net.name = k.name → svc.net = k)
    (user : Key → Nat → Option Nat) (ho : P → ∀ o ∈ os, onlyOf k o) {r : Sim × List Out} (hr : Sim.run user os s = .ok r) : BInv P r.1 (outs ++ r.2) k := by
  induction os generalizing s outs r with
  | nil =>
    cases hr
    rw [List.append_nil]
    exact h
  | cons o os ih =>
    unfold Sim.run at hr
    cases h1 : s.step user o with
    | «throw» m => rw [h1] at hr; cases hr
    | ub m => rw [h1] at hr; cases hr
    | ok r1 =>
      rw [h1] at hr
      simp only [Res.bind] at hr
      cases h2 : Sim.run user os r1.1 with
      | «throw» m => rw [h2] at hr; cases hr
      | ub m => rw [h2] at hr; cases hr
      | ok r2 =>
        rw [h2] at hr
        cases hr
        rw [← List.append_assoc]
        obtain ⟨g1, g2, g3⟩ := binv_step h hl hknown user (fun p => ho p o List.mem_cons_self) h1
        exact ih g1 g2 g3 (fun p x hx => ho p x (List.mem_cons_of_mem _ hx)) h2

theorem binv_init (P : Prop) (name : String) (k : Key) : BInv P { name := name } [] k :=
  ⟨⟨⟨(fun ⟨n, h, _⟩ => by cases h), (fun h => nomatch h)⟩, by simp, (fun _ => ⟨rfl, rfl⟩)⟩, (fun _ h => by cases h), (fun _ a d svc ans b e => by cases a <;> cases e)⟩

/-! ## Histories -/

theorem run_append (user : Key → Nat → Option Nat) (a b : List Op) (s : Sim) :
    Sim.run user (a ++ b) s = (Sim.run user a s).bind fun r => (Sim.run user b r.1).bind fun r' => .ok (r'.1, r.2 ++ r'.2) := by
  induction a generalizing s with
  | nil =>
    show Sim.run user b s = (Sim.run user b s).bind _
    cases Sim.run user b s <;> rfl
  | cons o a ih =>
    simp only [List.cons_append, Sim.run]
    cases s.step user o with
    | «throw» m => rfl
    | ub m => rfl
    | ok r =>
      simp only [Res.bind]
      rw [ih]
      cases Sim.run user a r.1 with
      | «throw» m => rfl
      | ub m => rfl
      | ok r1 =>
        simp only [Res.bind]
        cases Sim.run user b r1.1 with
        | «throw» m => rfl
        | ub m => rfl
        | ok r2 => simp only [Res.bind, List.append_assoc]

theorem register_frame (user : Key → Nat → Option Nat) (rest : List Service) (t : Sim) :
    (Sim.register user rest t).1.started = t.started ∧ ∀ k, ((Sim.register user rest t).1.net? k).isSome = (t.net? k).isSome := by
  induction rest generalizing t with
  | nil => exact ⟨rfl, fun _ => rfl⟩
  | cons svc rest ih =>
    obtain ⟨-, g1, -, -, -, g5⟩ := frame_handleCreated user t svc
    unfold Sim.register
    dsimp only
    split
    · exact ⟨g1, g5⟩
    · exact ⟨(ih _).1.trans g1, fun k => ((ih _).2 k).trans (g5 k)⟩

theorem step_keeps {user : Key → Nat → Option Nat} {s : Sim} {o : Op} {r : Sim × List Out} (hr : s.step user o = .ok r) :
    (r.1.started = true ↔ s.started = true ∨ o = .start) ∧ (∀ k, (r.1.net? k).isSome = true ↔ (s.net? k).isSome = true ∨ (s.started = false ∧ o = .simulate k)) := by
  cases o with
  | simulate k' =>
    cases hr
    unfold Sim.simulate
    split
    · rename_i hs
      simp [hs]
    · rename_i hs
      have hs' : s.started = false := by simpa using hs
      split
      · rename_i n hn
        refine ⟨by simp, fun k => ⟨fun h => .inl h, ?_⟩⟩
        rintro (h | ⟨-, h⟩)
        · exact h
        · cases h
          show (s.net? k').isSome = true
          rw [hn]; rfl
      · rename_i hn
        refine ⟨by simp, fun k => ?_⟩
        simp only [Sim.net?, List.find?_append, hs', true_and, Op.simulate.injEq, Option.isSome_or]
        by_cases hk : k' = k
        · simp [hk]
        · simp [hk]
  | start =>
    cases hr
    unfold Sim.start
    split
    · rename_i hs
      simp [hs]
    · obtain ⟨g1, g2⟩ := register_frame user s.known { s with started := true }
      refine ⟨by simp [g1], fun k => ?_⟩
      rw [g2]
      simp [Sim.net?]
  | created svc =>
    cases hr
    unfold Sim.created
    dsimp only
    split
    · obtain ⟨-, g1, -, -, -, g5⟩ := frame_handleCreated user { s with known := s.known ++ [svc] } svc
      refine ⟨by simp [g1], fun k => ?_⟩
      rw [g5]
      simp [Sim.net?]
    · simp [Sim.net?]
  | removed svc =>
    cases hr
    unfold Sim.removed
    dsimp only
    split
    · obtain ⟨-, g1, -, -, -, g5⟩ := frame_handleRemoved { s with known := s.known.erase svc } svc
      refine ⟨by simp [g1], fun k => ?_⟩
      rw [g5]
      simp [Sim.net?]
    · simp [Sim.net?]
  | receive k' p i b m =>
    have : r.1 = s := by
      simp only [Sim.step, Sim.receive] at hr
      split at hr
      · cases hr
      · split at hr <;> (cases hr; rfl)
    rw [this]
    simp
  | produce k' m rs =>
    have : r.1 = s := by
      simp only [Sim.step, Sim.produce] at hr
      split at hr
      · split at hr <;> (cases hr; rfl)
      · cases hr; rfl
    rw [this]
    simp

theorem run_cons_ok {user : Key → Nat → Option Nat} {o : Op} {os : List Op} {s : Sim} {r : Sim × List Out} (hr : Sim.run user (o :: os) s = .ok r) :
    ∃ r1 r2, s.step user o = .ok r1 ∧ Sim.run user os r1.1 = .ok r2 ∧ r = (r2.1, r1.2 ++ r2.2) := by
  unfold Sim.run at hr
  cases h1 : s.step user o with
  | «throw» m => rw [h1] at hr; cases hr
  | ub m => rw [h1] at hr; cases hr
  | ok r1 =>
    rw [h1] at hr
    simp only [Res.bind] at hr
    cases h2 : Sim.run user os r1.1 with
    | «throw» m => rw [h2] at hr; cases hr
    | ub m => rw [h2] at hr; cases hr
    | ok r2 =>
      rw [h2] at hr
      cases hr
      exact ⟨r1, r2, rfl, h2, rfl⟩

theorem run_keeps {user : Key → Nat → Option Nat} {os : List Op} {s : Sim} {r : Sim × List Out} (hr : Sim.run user os s = .ok r) :
    (r.1.started = true ↔ s.started = true ∨ Op.start ∈ os) ∧ (∀ k, (s.net? k).isSome = true → (r.1.net? k).isSome = true) ∧
      (s.started = false → Op.start ∉ os → ∀ k, Op.simulate k ∈ os → (r.1.net? k).isSome = true) := by
  induction os generalizing s r with
  | nil => cases hr; simp
  | cons o os ih =>
    obtain ⟨r1, r2, h1, h2, rfl⟩ := run_cons_ok hr
    obtain ⟨g1, g2⟩ := step_keeps h1
    obtain ⟨i1, i2, i3⟩ := ih h2
    refine ⟨?_, fun k h => i2 k ((g2 k).mpr (.inl h)), fun hs hn k hk => ?_⟩
    · show r2.1.started = true ↔ _
      rw [i1, g1, or_assoc, List.mem_cons, eq_comm (a := o)]
    · rcases List.mem_cons.mp hk with hk | hk
      · exact i2 k ((g2 k).mpr (.inr ⟨hs, hk.symm⟩))
      · apply i3 _ (fun h => hn (List.mem_cons_of_mem _ h)) k hk
        cases hx : r1.1.started with
        | false => rfl
        | true =>
          rcases g1.mp hx with h | h
          · rw [hs] at h; cases h
          · exact absurd (by rw [h]; exact List.mem_cons_self) hn

theorem simulates_net {user : Key → Nat → Option Nat} {os : List Op} {name : String} {k : Key} (h : Simulates os k) {r : Sim × List Out} (hr : Sim.run user os { name := name } = .ok r) :
    r.1.started = true ∧ (r.1.net? k).isSome = true := by
  obtain ⟨pre, post, rfl, hn, hk⟩ := h
  refine ⟨(run_keeps hr).1.mpr (.inr (by simp)), ?_⟩
  rw [run_append] at hr
  cases h1 : Sim.run user pre { name := name } with
  | «throw» m => rw [h1] at hr; cases hr
  | ub m => rw [h1] at hr; cases hr
  | ok r1 =>
    rw [h1] at hr
    simp only [Res.bind] at hr
    cases h2 : Sim.run user (Op.start :: post) r1.1 with
    | «throw» m => rw [h2] at hr; cases hr
    | ub m => rw [h2] at hr; cases hr
    | ok r2 =>
      rw [h2] at hr
      cases hr
      exact (run_keeps h2).2.1 k ((run_keeps h1).2.2 rfl hn k hk)

/-- The handle of an address is in the table of the router. -/
theorem table_handle {n : Net} {off : List (Nat × Service × Option Nat)} {next : Nat} (h : Table n off next) (a : String × Nat) : get n.controllers a = handleOf off a := by
  have key : ∀ v, get n.controllers a = some v ↔ handleOf off a = some v := by
    intro v
    rw [h.ctl]
    unfold handleOf
    constructor
    · rintro ⟨d, svc, hm, ha⟩
      cases hf : off.find? (fun x => decide (x.2.1.addr = a)) with
      | none => exact absurd (decide_eq_true ha) (List.find?_eq_none.mp hf _ hm)
      | some x =>
        have hx := List.mem_of_find?_eq_some hf
        have hxa : x.2.1.addr = a := by simpa using List.find?_some hf
        rw [h.addrs x hx _ hm (hxa.trans ha.symm)]
        rfl
    · intro hv
      cases hf : off.find? (fun x => decide (x.2.1.addr = a)) with
      | none => rw [hf] at hv; cases hv
      | some x =>
        rw [hf] at hv
        have hx := List.mem_of_find?_eq_some hf
        have hxa : x.2.1.addr = a := by simpa using List.find?_some hf
        obtain ⟨d, svc, ans⟩ := x
        have : ans = some v := hv
        subst this
        exact ⟨d, svc, hx, hxa⟩
  cases h1 : get n.controllers a with
  | some v => exact ((key v).mp h1).symm
  | none =>
    cases h2 : handleOf off a with
    | none => rfl
    | some v => rw [(key v).mpr h2] at h1; cases h1

theorem find_desc {n : Net} {off : List (Nat × Service × Option Nat)} {next : Nat} (h : Table n off next) {x : Nat × Service × Option Nat} (hx : x ∈ off) :
    off.find? (fun y => decide (y.1 = x.1)) = some x := by
  cases hf : off.find? (fun y => decide (y.1 = x.1)) with
  | none => exact absurd (decide_eq_true rfl) (List.find?_eq_none.mp hf _ hx)
  | some y =>
    have hy := List.mem_of_find?_eq_some hf
    have hyd : y.1 = x.1 := by simpa using List.find?_some hf
    rw [h.ids y hy x hx hyd]

theorem table_send {n : Net} {off : List (Nat × Service × Option Nat)} {next : Nat} (h : Table n off next) (m d : Nat) : n.sendTo m d = toReceiver n.key m off d := by
  unfold Net.sendTo toReceiver
  cases ht : get n.targets d with
  | some a =>
    obtain ⟨svc, v, hm, ha⟩ := (h.tgt d a).mp ht
    rw [find_desc h hm]
    rw [← ha]
    rfl
  | none =>
    cases hf : off.find? (fun y => decide (y.1 = d)) with
    | none => rfl
    | some y =>
      have hy := List.mem_of_find?_eq_some hf
      have hyd : y.1 = d := by simpa using List.find?_some hf
      obtain ⟨d', svc, ans⟩ := y
      cases ans with
      | none => rfl
      | some v =>
        have hyd : d' = d := hyd
        subst hyd
        have := (h.tgt d' svc.addr).mpr ⟨svc, v, hy, rfl⟩
        rw [ht] at this
        cases this

/-! ## Controllers -/

theorem mem_links_step {l : List Service} {svc : Service} : ∀ x, x ∈ l ++ [svc] ↔ x ∈ l ∨ x = svc := by simp

theorem mode_events {net : Key} {es : List (Bool × Service)} {l : List Service} {c : Ctl} (hc : c.net = net) (hnd : l.Nodup) (h : OneSimulator net es l)
    (huniq : ∀ x ∈ l, x.kind = .link → x.net.name = net.name → x.net = net ∧ ∀ y ∈ l, y.kind = .link → y.net.name = net.name → y = x)
    (hl : ∀ S, c.link = some S ↔ ∃ svc ∈ l, svc.kind = .link ∧ svc.net = net ∧ svc.participant = S) :
    ∀ S, (Spec.Ctl.events c es).link = some S ↔ ∃ svc ∈ es.foldl (fun l e => if e.1 then l ++ [e.2] else l.erase e.2) l, svc.kind = .link ∧ svc.net = net ∧ svc.participant = S := by
  induction es generalizing l c with
  | nil => exact hl
  | cons e es ih =>
    obtain ⟨b, svc⟩ := e
    cases b with
    | true =>
      obtain ⟨h1, h2, h3⟩ := h
      show ∀ S, (Spec.Ctl.events (c.onCreated svc) es).link = some S ↔ _
      refine ih (l := l ++ [svc]) ?_ (nodup_snoc hnd h1) h3 ?_ ?_
      · unfold Ctl.onCreated
        split
        · split <;> exact hc
        · exact hc
      · intro x hx hxk hxn
        rcases List.mem_append.mp hx with hx1 | hx
        · refine ⟨(huniq x hx1 hxk hxn).1, fun y hy hyk hyn => ?_⟩
          rcases List.mem_append.mp hy with hy1 | hy
          · exact (huniq x hx1 hxk hxn).2 y hy1 hyk hyn
          · rw [List.mem_singleton] at hy
            subst hy
            exact absurd hxn ((h2 hyk hyn).2 x hx1 hxk)
        · rw [List.mem_singleton] at hx
          subst hx
          refine ⟨(h2 hxk hxn).1, fun y hy hyk hyn => ?_⟩
          rcases List.mem_append.mp hy with hy | hy
          · exact absurd hyn ((h2 hxk hxn).2 y hy hyk)
          · exact List.mem_singleton.mp hy
      · intro S
        by_cases hrel : svc.kind = .link ∧ svc.net.name = net.name
        · have h2' := h2 hrel.1 hrel.2
          have hnone : c.link = none := by
            cases hcl : c.link with
            | none => rfl
            | some S' =>
              obtain ⟨x, hx, hxk, hxn, -⟩ := (hl S').mp hcl
              exact absurd (by rw [hxn]) (h2'.2 x hx hxk)
          have hr : c.relevant svc = true := by simp [Ctl.relevant, hc, hrel.1, hrel.2]
          simp only [Ctl.onCreated, hnone, hr, if_true, Option.some.injEq]
          constructor
          · intro e
            exact ⟨svc, by simp, hrel.1, h2'.1, e⟩
          · rintro ⟨x, hx, hxk, hxn, hxS⟩
            rcases List.mem_append.mp hx with hx | hx
            · exact absurd (by rw [hxn]) (h2'.2 x hx hxk)
            · rw [List.mem_singleton] at hx
              rw [← hx]; exact hxS
        · have hr : c.relevant svc = false := by
            simp only [Ctl.relevant, hc]
            simpa using hrel
          have hcc : c.onCreated svc = c := by
            unfold Ctl.onCreated
            split
            · simp [hr]
            · rfl
          rw [hcc, hl]
          constructor
          · rintro ⟨x, hx, g⟩
            exact ⟨x, List.mem_append_left _ hx, g⟩
          · rintro ⟨x, hx, hxk, hxn, hxS⟩
            rcases List.mem_append.mp hx with hx | hx
            · exact ⟨x, hx, hxk, hxn, hxS⟩
            · rw [List.mem_singleton] at hx
              subst hx
              exact absurd ⟨hxk, by rw [hxn]⟩ hrel
    | false =>
      obtain ⟨h1, h3⟩ := h
      show ∀ S, (Spec.Ctl.events (c.onRemoved svc) es).link = some S ↔ _
      refine ih (l := l.erase svc) ?_ (hnd.erase svc) h3 ?_ ?_
      · unfold Ctl.onRemoved
        split
        · exact hc
        · split <;> exact hc
      · intro x hx hxk hxn
        have hx' := List.mem_of_mem_erase hx
        exact ⟨(huniq x hx' hxk hxn).1, fun y hy hyk hyn => (huniq x hx' hxk hxn).2 y (List.mem_of_mem_erase hy) hyk hyn⟩
      · intro S
        by_cases hrel : svc.kind = .link ∧ svc.net.name = net.name
        · have hu := huniq svc h1 hrel.1 hrel.2
          have hsome := (hl svc.participant).mpr ⟨svc, h1, hrel.1, hu.1, rfl⟩
          have hr : c.relevant svc = true := by simp [Ctl.relevant, hc, hrel.1, hrel.2]
          simp only [Ctl.onRemoved, hsome, hr, if_true]
          constructor
          · intro e; cases e
          · rintro ⟨x, hx, hxk, hxn, hxS⟩
            have hxx := hu.2 x (List.mem_of_mem_erase hx) hxk (by rw [hxn])
            rw [hxx, hnd.mem_erase_iff] at hx
            exact absurd rfl hx.1
        · have hr : c.relevant svc = false := by
            simp only [Ctl.relevant, hc]
            simpa using hrel
          have hcc : c.onRemoved svc = c := by
            unfold Ctl.onRemoved
            split
            · rfl
            · simp [hr]
          rw [hcc, hl]
          constructor
          · rintro ⟨x, hx, hxk, hxn, hxS⟩
            refine ⟨x, (hnd.mem_erase_iff).mpr ⟨?_, hx⟩, hxk, hxn, hxS⟩
            rintro rfl
            exact hrel ⟨hxk, by rw [hxn]⟩
          · rintro ⟨x, hx, g⟩
            exact ⟨x, List.mem_of_mem_erase hx, g⟩

/-! ## Event producers -/

theorem bus_ctl_put (b : Bus) (d d' : Nat) (v : Status) : ({ b with ctls := put b.ctls d v } : Bus).ctl d' = if d' = d then v else b.ctl d' := by
  unfold Bus.ctl
  rw [get_put]
  split <;> rfl

theorem receive_same (m : Status) : m.receive m = (m, []) := by simp [Status.receive]

theorem tell_run (m : Status) (rs : List Nat) (r : Bus × List (Nat × Change)) (d : Nat) :
    (rs.foldl (Bus.tell m) r).1.producer = r.1.producer ∧ (rs.foldl (Bus.tell m) r).1.ctl d = (if d ∈ rs then m else r.1.ctl d) ∧
      noticesOf d (rs.foldl (Bus.tell m) r).2 = noticesOf d r.2 ++ (if d ∈ rs then ((r.1.ctl d).receive m).2 else []) := by
  induction rs generalizing r with
  | nil => simp
  | cons x rs ih =>
    rw [List.foldl_cons]
    obtain ⟨h1, h2, h3⟩ := ih (Bus.tell m r x)
    have hc : (Bus.tell m r x).1.ctl d = if d = x then m else r.1.ctl d := bus_ctl_put _ _ _ _
    have hn : noticesOf d (Bus.tell m r x).2 = noticesOf d r.2 ++ (if d = x then ((r.1.ctl d).receive m).2 else []) := by
      unfold Bus.tell noticesOf
      simp only [List.filter_append, List.map_append]
      congr 1
      by_cases hd : d = x
      · subst hd
        rw [if_pos rfl]
        induction ((r.1.ctl d).receive m).2 with
        | nil => rfl
        | cons y ys ihy => simp [ihy]
      · rw [if_neg hd]
        induction ((r.1.ctl x).receive m).2 with
        | nil => rfl
        | cons y ys ihy =>
          have hd' : ¬ x = d := fun e => hd e.symm
          simp [hd']
    refine ⟨h1, ?_, ?_⟩
    · rw [h2, hc]
      by_cases hd : d = x <;> by_cases hm : d ∈ rs <;> simp [hd, hm]
    · rw [h3, hn, hc]
      by_cases hd : d = x
      · subst hd
        rw [if_pos rfl, if_pos rfl, receive_same]
        simp
      · simp [hd]

theorem changes_cons_ne {v x : Nat} (h : v ≠ x) (xs : List Nat) : changes v (x :: xs) = x :: changes x xs := by
  have h' : ¬ x = v := fun e => h e.symm
  simp [changes, h']

theorem notices_run {es : List (Change × List Nat)} {b : Bus} {d : Nat} (hd : ∀ e ∈ es, d ∈ e.2) (hb : b.ctl d = b.producer) :
    (noticesOf d (Bus.run es b).2).filterMap stateOf = changes b.producer.state (es.filterMap (fun e => stateOf e.1)) ∧
      (noticesOf d (Bus.run es b).2).filterMap errorOf = changes b.producer.error (es.filterMap (fun e => errorOf e.1)) := by
  induction es generalizing b with
  | nil => exact ⟨rfl, rfl⟩
  | cons e es ih =>
    obtain ⟨c, rs⟩ := e
    have hin : d ∈ rs := hd (c, rs) List.mem_cons_self
    obtain ⟨h1, h2, h3⟩ := tell_run (b.producer.produce c) rs ({ b with producer := b.producer.produce c }, []) d
    rw [if_pos hin] at h2 h3
    have hctl : ({ b with producer := b.producer.produce c } : Bus).ctl d = b.producer := hb
    rw [hctl] at h3
    have hnil : noticesOf d [] = [] := rfl
    rw [hnil, List.nil_append] at h3
    have hp : (b.produce c rs).1.producer = b.producer.produce c := h1
    obtain ⟨i1, i2⟩ := ih (b := (b.produce c rs).1) (fun e he => hd e (List.mem_cons_of_mem _ he)) (by rw [hp]; exact h2)
    have hsplit : noticesOf d (Bus.run ((c, rs) :: es) b).2 = (b.producer.receive (b.producer.produce c)).2 ++ noticesOf d (Bus.run es (b.produce c rs).1).2 := by
      rw [← h3]
      simp [Bus.run, noticesOf, Bus.produce]
    rw [hsplit, List.filterMap_append, List.filterMap_append, i1, i2, hp]
    cases c with
    | state v =>
      by_cases hv : b.producer.state = v
      · simp [Status.receive, Status.produce, stateOf, errorOf, hv, changes]
      · simp [Status.receive, Status.produce, stateOf, errorOf, hv, changes_cons_ne]
    | error v =>
      by_cases hv : b.producer.error = v
      · simp [Status.receive, Status.produce, stateOf, errorOf, hv, changes]
      · simp [Status.receive, Status.produce, stateOf, errorOf, hv, changes_cons_ne]

end SilKit.NetSim
