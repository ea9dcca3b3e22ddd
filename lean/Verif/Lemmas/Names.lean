import Verif.Spec.Names
/-! # Lemmas for C69 -/
namespace SilKit.Names
open Spec

/-- The identifier without overflow. -/
def val (h : Nat) : Name → Nat
  | [] => h
  | c :: n => val (h * 33 + c) n

theorem val_append (a b : Name) : ∀ h, val h (a ++ b) = val (val h a) b := by
  induction a with
  | nil => intro h; rfl
  | cons c a ih => intro h; exact ih _

theorem foldl_nameId (n : Name) (hn : ∀ c ∈ n, c < 128) : ∀ h g, h % word = g % word →
    n.foldl (fun h c => (h * 33 + ext c) % word) h % word = val g n % word := by
  induction n with
  | nil => intro h g hg; exact hg
  | cons c n ih =>
    intro h g hg
    have hc := hn c List.mem_cons_self
    simp only [List.foldl_cons, val]
    apply ih (fun x hx => hn x (List.mem_cons_of_mem _ hx))
    simp only [ext, hc, if_true]
    rw [Nat.mod_mod, Nat.add_mod, Nat.mul_mod, hg, ← Nat.mul_mod, ← Nat.add_mod]

theorem foldl_lt (n : Name) : ∀ h, h < word → n.foldl (fun h c => (h * 33 + ext c) % word) h < word := by
  induction n with
  | nil => intro h hh; exact hh
  | cons c n ih => intro h _; exact ih _ (Nat.mod_lt _ (by decide))

theorem nameId_lt (n : Name) : nameId n < word := foldl_lt n _ (by decide)

theorem nameId_val (n : Name) (hn : ∀ c ∈ n, c < 128) : nameId n = val 5381 n % word := by
  have h := foldl_nameId n hn 5381 5381 rfl
  have : nameId n % word = nameId n := Nat.mod_eq_of_lt (nameId_lt n)
  rw [← this]; exact h

theorem val_lower (n : Name) : ∀ h, h * 33 ^ n.length ≤ val h n := by
  induction n with
  | nil => intro h; simp [val]
  | cons c n ih =>
    intro h
    have := ih (h * 33 + c)
    simp only [val, List.length_cons]
    have h2 : h * 33 * 33 ^ n.length ≤ (h * 33 + c) * 33 ^ n.length := Nat.mul_le_mul_right _ (by omega)
    rw [Nat.pow_succ, Nat.mul_comm (33 ^ n.length) 33, ← Nat.mul_assoc]
    omega

theorem val_upper (n : Name) (hn : ∀ c ∈ n, c < 128) : ∀ h, val h n + 4 ≤ (h + 4) * 33 ^ n.length := by
  induction n with
  | nil => intro h; simp [val]
  | cons c n ih =>
    intro h
    have hc := hn c List.mem_cons_self
    have := ih (fun x hx => hn x (List.mem_cons_of_mem _ hx)) (h * 33 + c)
    simp only [val, List.length_cons]
    have h2 : (h * 33 + c + 4) * 33 ^ n.length ≤ ((h + 4) * 33) * 33 ^ n.length := Nat.mul_le_mul_right _ (by omega)
    rw [Nat.pow_succ, Nat.mul_comm (33 ^ n.length) 33, ← Nat.mul_assoc]
    omega

theorem val_inj (lo : Nat) : ∀ (a b : Name), a.length = b.length → (∀ c ∈ a, lo ≤ c ∧ c < lo + 33) → (∀ c ∈ b, lo ≤ c ∧ c < lo + 33) →
    ∀ h g, val h a = val g b → h = g ∧ a = b
  | [], [], _, _, _, _, _, e => ⟨e, rfl⟩
  | [], _ :: _, hl, _, _, _, _, _ => by simp at hl
  | _ :: _, [], hl, _, _, _, _, _ => by simp at hl
  | x :: a, y :: b, hl, ha, hb, h, g, e => by
    have hx := ha x List.mem_cons_self
    have hy := hb y List.mem_cons_self
    obtain ⟨e1, e2⟩ := val_inj lo a b (by simpa using hl) (fun c hc => ha c (List.mem_cons_of_mem _ hc)) (fun c hc => hb c (List.mem_cons_of_mem _ hc)) _ _ e
    have : h = g := by omega
    subst this
    refine ⟨rfl, ?_⟩
    have : x = y := by omega
    rw [this, e2]

theorem val_small (n : Name) (hn : ∀ c ∈ n, c < 128) (hl : n.length ≤ 10) : val 5381 n < word := by
  have h1 := val_upper n hn 5381
  have h2 : 33 ^ n.length ≤ 33 ^ 10 := Nat.pow_le_pow_right (by decide) hl
  have h3 : (5381 + 4) * 33 ^ n.length ≤ (5381 + 4) * 33 ^ 10 := Nat.mul_le_mul_left _ h2
  have h4 : (5381 + 4) * 33 ^ 10 < word := by decide
  omega

theorem val_longer (a b : Name) (ha : ∀ c ∈ a, c < 128) (hl : a.length < b.length) : val 5381 a < val 5381 b := by
  have h1 := val_upper a ha 5381
  have h2 := val_lower b 5381
  have h3 : 33 ^ (a.length + 1) ≤ 33 ^ b.length := Nat.pow_le_pow_right (by decide) hl
  rw [Nat.pow_succ] at h3
  omega

theorem nameId_inj (lo : Nat) (a b : Name) (ha : inWindow lo a) (hb : inWindow lo b) (la : a.length ≤ 10) (lb : b.length ≤ 10) (e : nameId a = nameId b) : a = b := by
  have ha' : ∀ c ∈ a, c < 128 := fun c hc => by have := ha.2 c hc; have := ha.1; omega
  have hb' : ∀ c ∈ b, c < 128 := fun c hc => by have := hb.2 c hc; have := hb.1; omega
  rw [nameId_val a ha', nameId_val b hb', Nat.mod_eq_of_lt (val_small a ha' la), Nat.mod_eq_of_lt (val_small b hb' lb)] at e
  rcases Nat.lt_trichotomy a.length b.length with h | h | h
  · have := val_longer a b ha' h; omega
  · exact (val_inj lo a b h ha.2 hb.2 _ _ e).2
  · have := val_longer b a hb' h; omega

/-! ## Every identifier belongs to a name -/

def rep : Nat → Nat
  | 0 => 0
  | n + 1 => 33 ^ n + rep n

theorem pow_rep : ∀ n, 33 ^ n = 32 * rep n + 1
  | 0 => rfl
  | n + 1 => by
    have := pow_rep n
    rw [Nat.pow_succ, rep]; omega

theorem represent : ∀ (n h d : Nat), d ≤ 94 * rep n → ∃ l : Name, l.length = n ∧ isPrintable l ∧ val h l = h * 33 ^ n + 32 * rep n + d
  | 0, h, d, hd => ⟨[], rfl, by simp [isPrintable], by simp [rep] at hd; simp [val, rep, hd]⟩
  | n + 1, h, d, hd => by
    have hp := pow_rep n
    generalize hP : 33 ^ n = P at *
    have key : ∃ e d', e ≤ 94 ∧ d = e * P + d' ∧ d' ≤ 94 * rep n := by
      by_cases hc : 94 * P ≤ d
      · refine ⟨94, d - 94 * P, Nat.le_refl _, by omega, ?_⟩
        simp only [rep, hP] at hd; omega
      · refine ⟨d / P, d % P, ?_, ?_, ?_⟩
        · have : d / P < 94 := Nat.div_lt_of_lt_mul (by rw [Nat.mul_comm]; omega)
          omega
        · have := Nat.div_add_mod d P
          rw [Nat.mul_comm] at this; omega
        · have := Nat.mod_lt d (show 0 < P by omega)
          omega
    obtain ⟨e, d', he, hd1, hd2⟩ := key
    obtain ⟨l, hl, hpr, hv⟩ := represent n (h * 33 + (32 + e)) d' hd2
    refine ⟨(32 + e) :: l, by simp [hl], ?_, ?_⟩
    · intro c hc
      rcases List.mem_cons.mp hc with rfl | hc
      · omega
      · exact hpr c hc
    · simp only [val]
      rw [hv, hP, Nat.pow_succ, hP, rep, hP, hd1, Nat.add_mul, Nat.add_mul, Nat.mul_assoc h 33 P, Nat.mul_comm 33 P]
      omega

theorem printable_ascii {n : Name} (h : isPrintable n) : ∀ c ∈ n, c < 128 := fun c hc => by have := h c hc; omega

theorem id_has_name (n id : Nat) (hn : word ≤ 94 * rep n) (hid : id < word) : ∃ l : Name, l.length = n ∧ isPrintable l ∧ nameId l = id := by
  have hw : 0 < word := by decide
  let k := 5381 * 33 ^ n + 32 * rep n
  let d := (id + (word - k % word)) % word
  have hd : d < word := Nat.mod_lt _ hw
  obtain ⟨l, h1, h2, h3⟩ := represent n 5381 d (by omega)
  refine ⟨l, h1, h2, ?_⟩
  rw [nameId_val l (printable_ascii h2), h3]
  show (k + d) % word = id
  have hk := Nat.mod_lt k hw
  have h4 : (k + d) % word = (k % word + d) % word := (Nat.mod_add_mod k word d).symm
  rw [h4]
  show (k % word + (id + (word - k % word)) % word) % word = id
  rw [Nat.add_mod_mod]
  have h5 : k % word + (id + (word - k % word)) = id + word := by omega
  rw [h5, Nat.add_mod_right, Nat.mod_eq_of_lt hid]

theorem foldl_congr_mod (s : Name) : ∀ h g, h % word = g % word → s ≠ [] →
    s.foldl (fun h c => (h * 33 + ext c) % word) h = s.foldl (fun h c => (h * 33 + ext c) % word) g := by
  intro h g e hs
  cases s with
  | nil => exact absurd rfl hs
  | cons c s =>
    simp only [List.foldl_cons]
    have : (h * 33 + ext c) % word = (g * 33 + ext c) % word := by
      rw [Nat.add_mod, Nat.mul_mod, e, ← Nat.mul_mod, ← Nat.add_mod]
    rw [this]

theorem step_neighbours (h a b : Nat) (ha : a + 1 < 128) (hb : b + 33 < 128) :
    ((h * 33 + ext a) % word * 33 + ext (b + 33)) % word = ((h * 33 + ext (a + 1)) % word * 33 + ext b) % word := by
  have h1 : ext a = a := by simp [ext]; omega
  have h2 : ext (b + 33) = b + 33 := by simp [ext, hb]
  have h3 : ext (a + 1) = a + 1 := by simp [ext, ha]
  have h4 : ext b = b := by simp [ext]; omega
  rw [h1, h2, h3, h4]
  generalize word = w
  have e1 : ∀ x y : Nat, (x % w * 33 + y) % w = (x * 33 + y) % w := fun x y => by
    rw [Nat.add_mod, Nat.mul_mod, Nat.mod_mod, ← Nat.mul_mod, ← Nat.add_mod]
  rw [e1, e1]
  have : (h * 33 + a) * 33 + (b + 33) = (h * 33 + (a + 1)) * 33 + b := by omega
  rw [this]

theorem nameId_neighbours (p s : Name) (a b : Nat) (ha : a + 1 < 128) (hb : b + 33 < 128) : nameId (p ++ [a, b + 33] ++ s) = nameId (p ++ [a + 1, b] ++ s) := by
  unfold nameId
  simp only [List.foldl_append, List.foldl_cons, List.foldl_nil]
  rw [step_neighbours _ a b ha hb]

/-! ## The receivers of a link -/

theorem present_snoc (ops : List Op) (o : Op) : present (ops ++ [o]) = match o with
    | .connect p => present ops ++ [p]
    | .subscribe _ => present ops
    | .leave p => (present ops).filter (fun q => q ≠ p) := by
  simp only [present, List.foldl_append, List.foldl_cons, List.foldl_nil]
  cases o <;> rfl

theorem listens_snoc (p : Peer) (ops : List Op) (o : Op) : listens p (ops ++ [o]) = match o with
    | .connect _ => listens p ops
    | .subscribe q => listens p ops || q == p
    | .leave q => listens p ops && q != p := by
  simp only [listens, List.foldl_append, List.foldl_cons, List.foldl_nil]
  cases o <;> rfl

theorem run_snoc (ops : List Op) (o : Op) : Link.run (ops ++ [o]) = (Link.run ops).step o := by simp [Link.run]

theorem wellFormed_init {ops : List Op} {o : Op} (h : wellFormed (ops ++ [o])) : wellFormed ops ∧ possible ops o := by
  refine ⟨fun pre x post e => h pre x (post ++ [o]) (by simp [e]), h ops o [] (by simp)⟩

theorem snoc_induction {α : Type} {P : List α → Prop} (h0 : P []) (hs : ∀ l a, P l → P (l ++ [a])) (l : List α) : P l := by
  have : ∀ r : List α, P r.reverse := by
    intro r
    induction r with
    | nil => exact h0
    | cons a r ih => rw [List.reverse_cons]; exact hs _ _ ih
  simpa using this l.reverse

structure LinkInv (ops : List Op) (l : Link) : Prop where
  alive : l.alive = present ops
  nodup : (present ops).Pairwise (fun a b => a.handle ≠ b.handle ∧ a.name ≠ b.name)
  recv : ∀ p, p ∈ l.receivers ↔ listens p ops = true
  once : l.receivers.Nodup
  sub : ∀ p ∈ l.receivers, p ∈ present ops
  named : ∀ p ∈ present ops, p.name ∈ names ops

theorem names_snoc (ops : List Op) (o : Op) : names (ops ++ [o]) = names ops ++ names [o] := by simp [names]

theorem same_name {ps : List Peer} (h : ps.Pairwise (fun a b => a.handle ≠ b.handle ∧ a.name ≠ b.name)) {p q : Peer} (hp : p ∈ ps) (hq : q ∈ ps)
    (e : p.name = q.name) : p = q := by
  induction ps with
  | nil => cases hp
  | cons x ps ih =>
    obtain ⟨h1, h2⟩ := List.pairwise_cons.mp h
    rcases List.mem_cons.mp hp with rfl | hp1
    · rcases List.mem_cons.mp hq with rfl | hq1
      · rfl
      · exact absurd e (h1 q hq1).2
    · rcases List.mem_cons.mp hq with rfl | hq1
      · exact absurd e.symm (h1 p hp1).2
      · exact ih h2 hp1 hq1

theorem erase_eq_filter : ∀ {l : List Peer} (_ : l.Nodup) (p : Peer), l.erase p = l.filter (fun q => q ≠ p)
  | [], _, _ => rfl
  | x :: l, h, p => by
    obtain ⟨h1, h2⟩ := List.nodup_cons.mp h
    by_cases e : x = p
    · subst e
      rw [List.erase_cons_head]
      simp
      symm
      rw [List.filter_eq_self]
      intro y hy
      simp
      intro e; exact h1 (e ▸ hy)
    · rw [List.erase_cons_tail (by simpa using e), erase_eq_filter h2]
      simp [e]

theorem eraseP_eq_filter {P : Peer → Bool} (p : Peer) : ∀ {l : List Peer} (_ : l.Nodup), (∀ q ∈ l, P q = true ↔ q = p) → l.eraseP P = l.filter (fun q => q ≠ p)
  | [], _, _ => rfl
  | x :: l, h, hP => by
    obtain ⟨h1, h2⟩ := List.nodup_cons.mp h
    have hx := hP x List.mem_cons_self
    by_cases e : x = p
    · subst e
      rw [List.eraseP_cons_of_pos (hx.mpr rfl)]
      simp
      symm
      rw [List.filter_eq_self]
      intro y hy
      simp
      intro e; exact h1 (e ▸ hy)
    · rw [List.eraseP_cons_of_neg (fun h => e (hx.mp h)), eraseP_eq_filter p h2 (fun q hq => hP q (List.mem_cons_of_mem _ hq))]
      simp [e]

theorem nodup_of_pairwise {ps : List Peer} (h : ps.Pairwise (fun a b => a.handle ≠ b.handle ∧ a.name ≠ b.name)) : ps.Nodup := by
  refine List.Pairwise.imp ?_ h
  intro a b hab e
  exact hab.1 (by rw [e])

theorem link_inv (ops : List Op) : wellFormed ops → toldApart (names ops) → LinkInv ops (Link.run ops) := by
  refine snoc_induction (P := fun ops => wellFormed ops → toldApart (names ops) → LinkInv ops (Link.run ops)) ?_ ?_ ops
  · intro _ _
    constructor <;> simp [Link.run, present, listens]
  · intro ops o ih hw ht
    obtain ⟨hw1, hpos⟩ := wellFormed_init hw
    have ht1 : toldApart (names ops) := by
      intro a ha b hb
      rw [names_snoc] at ht
      exact ht a (List.mem_append_left _ ha) b (List.mem_append_left _ hb)
    obtain ⟨i1, i2, i3, i4, i5, i6⟩ := ih hw1 ht1
    rw [run_snoc]
    generalize hl : Link.run ops = l at *
    cases o with
    | connect p =>
      refine ⟨by simp [Link.step, present_snoc, i1], ?_, ?_, i4, ?_, ?_⟩
      · rw [present_snoc]
        refine List.pairwise_append.mpr ⟨i2, by simp, ?_⟩
        intro a ha b hb
        simp at hb
        subst hb
        exact hpos a ha
      · intro q; rw [listens_snoc]; exact i3 q
      · intro q hq; rw [present_snoc]; exact List.mem_append_left _ (i5 q hq)
      · intro q hq
        rw [present_snoc] at hq
        rw [names_snoc]
        rcases List.mem_append.mp hq with h | h
        · exact List.mem_append_left _ (i6 q h)
        · simp at h; subst h; exact List.mem_append_right _ (by simp [names])
    | subscribe p =>
      have hpos : p ∈ present ops := hpos
      refine ⟨?_, by rw [present_snoc]; exact i2, ?_, ?_, ?_, ?_⟩
      · rw [present_snoc]; simp only [Link.step, Link.add]; split <;> exact i1
      · intro q
        rw [listens_snoc]
        simp only [Link.step, Link.add]
        split
        · rename_i hc
          simp at hc
          rw [i3 q]
          constructor
          · intro h; simp [h]
          · intro h
            simp at h
            rcases h with h | h
            · exact h
            · subst h; exact (i3 _).mp hc
        · simp only [List.mem_append, List.mem_singleton, i3 q, Bool.or_eq_true, beq_iff_eq]
          exact ⟨fun h => h.imp id Eq.symm, fun h => h.imp id Eq.symm⟩
      · simp only [Link.step, Link.add]
        split
        · exact i4
        · rename_i hc
          simp at hc
          simp [List.nodup_append, i4]
          intro a ha e; exact hc (e ▸ ha)
      · intro q hq
        rw [present_snoc]
        simp only [Link.step, Link.add] at hq
        split at hq
        · exact i5 q hq
        · rcases List.mem_append.mp hq with h | h
          · exact i5 q h
          · simp at h; subst h; exact hpos
      · intro q hq
        rw [present_snoc] at hq
        rw [names_snoc]
        exact List.mem_append_left _ (i6 q hq)
    | leave p =>
      have hpos : p ∈ present ops := hpos
      have hr : ((l.remove p).receivers) = l.receivers.filter (fun q => q ≠ p) := by
        simp only [Link.remove]
        apply eraseP_eq_filter p i4
        intro q hq
        simp only [beq_iff_eq]
        constructor
        · intro e
          exact same_name i2 (i5 q hq) hpos (ht1 _ (i6 q (i5 q hq)) _ (i6 p hpos) e)
        · intro e; rw [e]
      refine ⟨?_, ?_, ?_, ?_, ?_, ?_⟩
      · rw [present_snoc]; simp only [Link.step]; rw [i1]; exact erase_eq_filter (nodup_of_pairwise i2) p
      · rw [present_snoc]; exact List.Pairwise.filter _ i2
      · intro q
        rw [listens_snoc]
        show q ∈ (l.remove p).receivers ↔ _
        rw [hr]
        simp only [List.mem_filter, i3 q, Bool.and_eq_true, bne_iff_ne, ne_eq, decide_eq_true_eq]
        exact ⟨fun h => ⟨h.1, fun e => h.2 e.symm⟩, fun h => ⟨h.1, fun e => h.2 e.symm⟩⟩
      · show (l.remove p).receivers.Nodup
        rw [hr]; exact List.Pairwise.filter _ i4
      · intro q hq
        have hq : q ∈ (l.remove p).receivers := hq
        rw [hr] at hq
        rw [present_snoc]
        simp only [List.mem_filter] at hq ⊢
        exact ⟨i5 q hq.1, hq.2⟩
      · intro q hq
        rw [present_snoc] at hq
        rw [names_snoc]
        exact List.mem_append_left _ (i6 q (List.mem_filter.mp hq).1)

/-! ## The nodes of a LIN network -/

theorem get_set {C : Type} (a : Nat × Nat) (c : C) : ∀ (t : Nodes C) (b : Nat × Nat), (t.set a c).get b = if b = a then some c else t.get b
  | [], b => by
    by_cases h : a = b
    · subst h; simp [Nodes.set, Nodes.get]
    · have h2 : ¬ b = a := fun e => h e.symm
      simp [Nodes.set, Nodes.get, h, h2]
  | x :: t, b => by
    have ih := get_set a c t b
    simp only [Nodes.get] at ih
    unfold Nodes.set
    split
    · rename_i hx
      by_cases h : a = b
      · subst h; simp [Nodes.get]
      · have h2 : ¬ b = a := fun e => h e.symm
        have h3 : ¬ x.1 = b := fun e => h (hx.symm.trans e)
        simp [Nodes.get, h, h2, h3]
    · rename_i hx
      by_cases h3 : x.1 = b
      · have h2 : ¬ b = a := fun e => hx (h3.trans e)
        simp [Nodes.get, h3, h2]
      · simp only [Nodes.get, List.find?_cons, h3, decide_false]
        exact ih

theorem lin_nodes {C : Type} (own d : Desc) (ms : List (Desc × C)) (ht : toldApart (own.participant :: d.participant :: ms.map (·.1.participant)))
    (hd : ¬ (d.participant = own.participant ∧ d.id = own.id)) :
    (ms.foldl (receiveConfig own) []).get d.address = lastConfig d.participant d.id ms := by
  revert ht
  refine snoc_induction (P := fun ms => toldApart (own.participant :: d.participant :: ms.map (·.1.participant)) →
    (ms.foldl (receiveConfig own) []).get d.address = lastConfig d.participant d.id ms) ?_ ?_ ms
  · intro _; rfl
  · intro ms m ih ht
    have ih := ih (fun a ha b hb => ht a (by simp at ha ⊢; rcases ha with h | h | h <;> simp [h]) b (by simp at hb ⊢; rcases hb with h | h | h <;> simp [h]))
    have hmd : nameId m.1.participant = nameId d.participant → m.1.participant = d.participant := ht _ (by simp) _ (by simp)
    have hmo : nameId m.1.participant = nameId own.participant → m.1.participant = own.participant := ht _ (by simp) _ (by simp)
    rw [List.foldl_append]
    simp only [List.foldl_cons, List.foldl_nil]
    have hlast : lastConfig d.participant d.id (ms ++ [m]) =
        if m.1.participant = d.participant ∧ m.1.id = d.id then some m.2 else lastConfig d.participant d.id ms := by
      unfold lastConfig
      rw [List.filter_append]
      by_cases h : m.1.participant = d.participant ∧ m.1.id = d.id
      · simp [h]
      · simp [h]
    rw [hlast]
    unfold receiveConfig
    split
    · rename_i hs
      simp [Desc.same] at hs
      have h1 := hmo hs.1.1.1
      have : ¬ (m.1.participant = d.participant ∧ m.1.id = d.id) := by
        intro h
        exact hd ⟨h.1.symm.trans h1, h.2.symm.trans hs.2⟩
      rw [if_neg this]; exact ih
    · rw [get_set]
      by_cases h : m.1.participant = d.participant ∧ m.1.id = d.id
      · rw [if_pos h, if_pos (by simp [Desc.address, h.1, h.2])]
      · rw [if_neg h, if_neg]
        · exact ih
        · intro e
          simp [Desc.address] at e
          exact h ⟨hmd e.1.symm, e.2.symm⟩

theorem rep_mono {n m : Nat} (h : n ≤ m) : rep n ≤ rep m := by
  induction h with
  | refl => exact Nat.le_refl _
  | step _ ih => exact Nat.le_trans ih (Nat.le_add_left _ _)

theorem isSafe_iff (c : Nat) : isSafe c = true ↔ c ∈ fileChars := by
  have h1 : ∀ c, c < 127 → (isSafe c = true ↔ c ∈ fileChars) := by decide +kernel
  have h2 : ∀ c ∈ fileChars, c < 127 := by decide +kernel
  by_cases h : c < 127
  · exact h1 c h
  · refine ⟨fun hc => ?_, fun hc => absurd (h2 c hc) h⟩
    simp [isSafe] at hc
    omega

theorem printable_safe (n : Name) (hn : ∀ c ∈ n, c < 256) : ∀ c ∈ printable n, isSafe c = true := by
  have hex : ∀ d, d < 16 → isSafe (hexDigit d) = true := by decide
  intro c hc
  simp only [printable, List.mem_flatMap] at hc
  obtain ⟨x, hx, hc⟩ := hc
  have hb := hn x hx
  split at hc
  · rename_i h
    simp at hc
    subst hc; exact h
  · simp at hc
    rcases hc with rfl | rfl
    · exact hex _ (by omega)
    · exact hex _ (by omega)

theorem printable_id (n : Name) (hn : ∀ c ∈ n, isSafe c = true) : printable n = n := by
  induction n with
  | nil => rfl
  | cons c n ih =>
    have h1 := hn c List.mem_cons_self
    have h2 := ih (fun x hx => hn x (List.mem_cons_of_mem _ hx))
    simp only [printable] at h2
    simp [printable, h1, h2]

theorem printable_append (a b : Name) : printable (a ++ b) = printable a ++ printable b := by simp [printable]

/-! ## Keys -/

theorem split_slash : ∀ {a b c d : Name}, plain a → plain c → a ++ slash :: b = c ++ slash :: d → a = c ∧ b = d
  | [], b, [], d, _, _, e => by simp at e; exact ⟨rfl, e⟩
  | [], b, y :: c, d, _, hc, e => by
    simp at e
    exact absurd (by rw [e.1]; exact List.mem_cons_self) hc
  | x :: a, b, [], d, ha, _, e => by
    simp at e
    exact absurd (by rw [← e.1]; exact List.mem_cons_self) ha
  | x :: a, b, y :: c, d, ha, hc, e => by
    simp only [List.cons_append, List.cons.injEq] at e
    have h := split_slash (a := a) (c := c) (fun h => ha (List.mem_cons_of_mem _ h)) (fun h => hc (List.mem_cons_of_mem _ h)) e.2
    exact ⟨by rw [e.1, h.1], h.2⟩

theorem text_plain (t : ServiceType) : plain t.text := by cases t <;> (unfold plain; decide)

theorem text_inj {t u : ServiceType} (h : t.text = u.text) : t = u := by
  cases t <;> cases u <;> first | rfl | (exact absurd h (by decide))

/-- What follows the type in a key. -/
def keyRest (d : Desc) : Option Name :=
  match d.type with
  | .link => some (d.netType ++ slash :: d.network)
  | .controller =>
    match d.controllerType with
    | none => none
    | some t => some (t ++ slash :: (d.network ++ slash :: d.service))
  | .simulatedController =>
    match d.controllerType with
    | none => none
    | some t => some (t ++ slash :: (d.network ++ slash :: d.service))
  | .internalController => some d.service
  | .undefined => some (d.network ++ slash :: d.service)

theorem key_rest {d : Desc} {k : Name} (h : d.key = some k) : ∃ x, keyRest d = some x ∧ k = d.participant ++ slash :: (d.type.text ++ slash :: x) := by
  obtain ⟨a1, a2, a3, a4, a5, a6, a7⟩ := d
  cases a2 <;> simp only [Desc.key] at h
  case controller =>
    cases a7 with
    | none => cases h
    | some t => exact ⟨_, rfl, by rw [← Option.some.inj h]; simp⟩
  case simulatedController =>
    cases a7 with
    | none => cases h
    | some t => exact ⟨_, rfl, by rw [← Option.some.inj h]; simp⟩
  all_goals exact ⟨_, rfl, by rw [← Option.some.inj h]; simp⟩

end SilKit.Names
