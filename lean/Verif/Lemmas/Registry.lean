import Verif.Spec.Registry
import Verif.Lemmas.Util
/-! # Invariants of the registry -/
namespace SilKit.Registry
open Spec SilKit.Util

theorem run_append (h : List Event) (e : Event) :
    run (h ++ [e]) = ((on (run h).1 e).1, (run h).2 ++ (on (run h).1 e).2) := by
  simp [run, List.foldl_append]

theorem member_append (a b : List Out) (p : Nat) (k : Key) : member (a ++ b) p k = b.foldl (memberStep p k) (member a p k) := by
  simp [member, List.foldl_append]

/-- Outputs that do not change who is admitted. -/
def Still : Out → Prop
  | .admitted .. | .left _ => False
  | _ => True

theorem member_still (p : Nat) (k : Key) : ∀ (u : List Out) (b : Bool), (∀ o ∈ u, Still o) → u.foldl (memberStep p k) b = b
  | [], _, _ => rfl
  | o :: u, b, h => by
      have ho := h o (by simp)
      rw [List.foldl_cons, member_still p k u _ (fun x hx => h x (by simp [hx]))]
      cases o <;> simp_all [Still, memberStep]

/-- What holds of all histories. -/
structure Base (s : State) (t : List Out) : Prop where
  uniq : UniqueKeys s.connected
  mem : ∀ p k, member t p k = true → (k, p) ∈ s.connected

theorem Base.still {s s' : State} {t u : List Out} (b : Base s t) (hc : s'.connected = s.connected) (hu : ∀ o ∈ u, Still o) :
    Base s' (t ++ u) := by
  refine ⟨hc ▸ b.uniq, ?_⟩
  intro p k h
  rw [member_append, member_still p k u _ hu] at h
  rw [hc]; exact b.mem p k h

theorem announce_cases (s : State) (p : Nat) (k : Key) :
    ((lookup s.connected k).isSome = true ∧ announce s p k = (s.setInfo p k, [.rejected p k])) ∨
    (lookup s.connected k = none ∧ (knownTo s p k.1).all (fun x => (s.setInfo p k).alive x.2) = true ∧
      announce s p k = ({ s.setInfo p k with connected := s.connected ++ [(k, p)], names := if (lookup s.names k).isSome then s.names else s.names ++ [(k, p)] },
        [.told p ((knownTo s p k.1).map (fun x => (x.1.2, x.2))), .admitted p k])) ∨
    (lookup s.connected k = none ∧ (knownTo s p k.1).all (fun x => (s.setInfo p k).alive x.2) = false ∧
      announce s p k = ({ s.setInfo p k with dead := true }, [.ub])) := by
  unfold announce
  cases h : lookup s.connected k with
  | some q => left; simp [State.setInfo, h]
  | none =>
      right
      have e : knownTo (s.setInfo p k) p k.1 = knownTo s p k.1 := rfl
      cases h2 : (knownTo s p k.1).all (fun x => (s.setInfo p k).alive x.2)
      · right
        refine ⟨rfl, rfl, ?_⟩
        dsimp only
        rw [e, h2]
        simp [State.setInfo, h]
      · left
        refine ⟨rfl, rfl, ?_⟩
        dsimp only
        rw [e, h2]
        simp [State.setInfo, h]
        rfl

theorem sendTo_still (s : State) (k : Key) (m : Nat → Out) (hm : ∀ q, Still (m q)) :
    (sendTo s k m).1.connected = s.connected ∧ ∀ o ∈ (sendTo s k m).2, Still o := by
  unfold sendTo
  split
  · simp [Still]
  · split
    · simpa using hm _
    · simp [Still]

theorem proxy_still (s : State) (k : Key) (a b : String) :
    (proxy s k a b).1.connected = s.connected ∧ ∀ o ∈ (proxy s k a b).2, Still o := by
  unfold proxy
  split
  · split
    · simp [Still]
    · split <;> simp [Still]
  · simp

theorem Base.on {s : State} {t : List Out} (b : Base s t) (e : Event) : Base (on s e).1 (t ++ (on s e).2) := by
  unfold Registry.on
  split
  · simpa using b
  · cases e with
    | connect p =>
        dsimp only
        split
        · simpa using b
        · exact b.still rfl (by simp)
    | announce p k =>
        dsimp only
        split
        · rcases announce_cases s p k with ⟨h1, e⟩ | ⟨h1, h2, e⟩ | ⟨h1, h2, e⟩ <;> rw [e]
          · exact b.still rfl (by simp [Still])
          · refine ⟨b.uniq.snoc (find_none h1), ?_⟩
            intro q k' h
            rw [member_append] at h
            simp only [List.foldl_cons, List.foldl_nil, memberStep] at h
            split at h
            · rename_i hq
              simp [hq.1, hq.2]
            · exact List.mem_append_left _ (b.mem q k' h)
          · exact b.still rfl (by simp [Still])
        · simpa using b
    | disconnect p =>
        dsimp only
        split
        · rename_i k hk
          unfold disconnect
          split
          · have hstill : ∀ o ∈ (notified s k).map (fun q => Out.sourceGone q k) ++ (registryShutdown s p k).2, Still o := by
              intro o ho
              rcases List.mem_append.1 ho with ho | ho
              · obtain ⟨q, -, rfl⟩ := List.mem_map.1 ho
                simp [Still]
              · unfold registryShutdown at ho
                split at ho
                · simp at ho
                · split at ho
                  · dsimp only at ho
                    split at ho <;> simp at ho
                    · rcases ho with rfl | rfl <;> simp [Still]
                    · subst ho; simp [Still]
                  · simp at ho
            refine ⟨?_, ?_⟩
            · dsimp only [removeFromConnection]
              unfold registryShutdown
              split
              · exact b.uniq
              · split
                · exact b.uniq.filter _
                · exact b.uniq
            · intro q k' h
              dsimp only at h
              rw [member_append, List.foldl_append, member_still q k' _ _ hstill] at h
              simp only [List.foldl_cons, List.foldl_nil, memberStep] at h
              split at h
              · cases h
              · rename_i hne
                have hm := b.mem q k' h
                dsimp only [removeFromConnection]
                unfold registryShutdown
                split
                · exact hm
                · rename_i q' hl
                  split
                  · rename_i hq
                    subst hq
                    dsimp only
                    rw [List.mem_filter]
                    refine ⟨hm, ?_⟩
                    simp only [bne_iff_ne, ne_eq]
                    intro he
                    have he' : k' = k := he
                    subst he'
                    exact hne (b.uniq.eq (find_mem hl) hm)
                  · exact hm
          · exact b.still rfl (by simp [Still])
        · simpa using b
    | proxy p a c =>
        dsimp only
        split
        · exact b.still (proxy_still ..).1 (proxy_still ..).2
        · simpa using b
    | request p a =>
        dsimp only
        split
        · exact b.still (sendTo_still _ _ _ (by simp [Still])).1 (sendTo_still _ _ _ (by simp [Still])).2
        · simpa using b
    | answer p a =>
        dsimp only
        split
        · exact b.still (sendTo_still _ _ _ (by simp [Still])).1 (sendTo_still _ _ _ (by simp [Still])).2
        · simpa using b

theorem base_run (h : List Event) : Base (run h).1 (run h).2 := by
  rw [← List.reverse_reverse h]
  induction h.reverse with
  | nil => exact ⟨by simp [run, UniqueKeys], by simp [run, member]⟩
  | cons e l ih =>
      rw [List.reverse_cons, run_append]
      exact ih.on e

theorem info_mem {s : State} {p : Nat} {k : Key} (h : s.info p = some k) : (p, k) ∈ s.peers := find_mem h

theorem info_of_mem {s : State} (hu : UniqueKeys s.peers) {p : Nat} {k : Key} (h : (p, k) ∈ s.peers) : s.info p = some k :=
  find_some_of_mem hu h

theorem alive_iff {s : State} {p : Nat} : s.alive p = true ↔ ∃ k, (p, k) ∈ s.peers := by
  simp only [State.alive, List.any_eq_true, beq_iff_eq]
  constructor
  · rintro ⟨⟨q, k⟩, h, rfl⟩; exact ⟨k, h⟩
  · rintro ⟨k, h⟩; exact ⟨_, h, rfl⟩

theorem mem_setInfo {s : State} {p q : Nat} {k k' : Key} (ha : s.alive p = true) :
    (q, k') ∈ (s.setInfo p k).peers ↔ (q = p ∧ k' = k) ∨ (q ≠ p ∧ (q, k') ∈ s.peers) := by
  simp only [State.setInfo, List.mem_map]
  constructor
  · rintro ⟨x, hx, e⟩
    split at e
    · cases e; exact Or.inl ⟨rfl, rfl⟩
    · rename_i hne; subst e; exact Or.inr ⟨hne, hx⟩
  · rintro (⟨rfl, rfl⟩ | ⟨hne, h⟩)
    · obtain ⟨k0, h0⟩ := alive_iff.1 ha
      exact ⟨_, h0, by simp⟩
    · exact ⟨_, h, by simp [hne]⟩

theorem unique_setInfo {s : State} {p : Nat} {k : Key} (h : UniqueKeys s.peers) : UniqueKeys (s.setInfo p k).peers := by
  unfold UniqueKeys State.setInfo
  dsimp only
  rw [List.pairwise_map]
  refine List.Pairwise.imp ?_ h
  intro x y hne
  split <;> split <;> simp_all

/-- What the message with the known participants contains. -/
def ToldOk (t : List Out) : Prop :=
  ∀ a p l b, t = a ++ .told p l :: b → ∃ k b', b = .admitted p k :: b' ∧ ∀ n q, (n, q) ∈ l ↔ q ≠ p ∧ member a q (k.1, n) = true

def AdmittedOk (t : List Out) : Prop :=
  ∀ a p k b, t = a ++ .admitted p k :: b → ∃ a' l, a = a' ++ [.told p l]

/-- When it is found that all participants are gone. -/
def GoneOk (t : List Out) : Prop :=
  ∀ a b, t = a ++ .allGone :: b → ∃ p b', b = .left p :: b' ∧ ∀ q k, member (a ++ [.allGone, .left p]) q k = false

/-- What holds when connections announce only one participant. -/
structure Well (s : State) (t : List Out) : Prop where
  alive : s.dead = false
  noUb : Out.ub ∉ t
  uniqP : UniqueKeys s.peers
  uniqC : UniqueKeys s.connected
  mem : ∀ p k, (k, p) ∈ s.connected ↔ member t p k = true
  info : ∀ p k, (k, p) ∈ s.connected → (p, k) ∈ s.peers
  names : ∀ p k, (k, p) ∈ s.names → (k, p) ∈ s.connected
  prov : ∀ r k, (r, k) ∈ s.peers → k = ("", "") ∨ (k, r) ∈ s.connected ∨ Out.rejected r k ∈ t
  clean : ∀ k, k ≠ ("", "") → NoRejectedLeft t k → ∀ p, (k, p) ∈ s.connected → (k, p) ∈ s.names
  told : ToldOk t
  adm : AdmittedOk t
  gone : GoneOk t

theorem noRej_prefix {t u : List Out} {k : Key} (h : NoRejectedLeft (t ++ u) k) : NoRejectedLeft t k := by
  intro a r b e hl
  exact h a r (b ++ u) (by rw [e]; simp) (List.mem_append_left _ hl)

theorem told_append {t u : List Out} (h : ToldOk t) (hu : ∀ p l, Out.told p l ∉ u) : ToldOk (t ++ u) := by
  intro a p l b e
  rcases split_append e with ⟨b', e1, e2⟩ | ⟨a', e1, e2⟩
  · obtain ⟨k, b'', e3, hl⟩ := h a p l b' e1
    exact ⟨k, b'' ++ u, by rw [e2, e3]; rfl, hl⟩
  · exact absurd (by rw [e2]; simp) (hu p l)

theorem adm_append {t u : List Out} (h : AdmittedOk t) (hu : ∀ p l, Out.admitted p l ∉ u) : AdmittedOk (t ++ u) := by
  intro a p l b e
  rcases split_append e with ⟨b', e1, e2⟩ | ⟨a', e1, e2⟩
  · exact h a p l b' e1
  · exact absurd (by rw [e2]; simp) (hu p l)

theorem gone_append {t u : List Out} (h : GoneOk t) (hu : Out.allGone ∉ u) : GoneOk (t ++ u) := by
  intro a b e
  rcases split_append e with ⟨b', e1, e2⟩ | ⟨a', e1, e2⟩
  · obtain ⟨p, b'', e3, hl⟩ := h a b' e1
    exact ⟨p, b'' ++ u, by rw [e2, e3]; rfl, hl⟩
  · exact absurd (by rw [e2]; simp) hu

/-- Outputs of no importance for the invariant. -/
def Plain : Out → Prop
  | .relayed .. | .requested .. | .answered .. | .undeliverable _ => True
  | _ => False

theorem plain_still {u : List Out} (h : ∀ o ∈ u, Plain o) : ∀ o ∈ u, Still o := by
  intro o ho
  have := h o ho
  cases o <;> simp_all [Plain, Still]

theorem Well.plain {s s' : State} {t u : List Out} (w : Well s t) (hd : s'.dead = s.dead) (hp : s'.peers = s.peers)
    (hc : s'.connected = s.connected) (hn : s'.names = s.names) (hu : ∀ o ∈ u, Plain o) : Well s' (t ++ u) := by
  have hst := plain_still hu
  refine ⟨hd ▸ w.alive, ?_, hp ▸ w.uniqP, hc ▸ w.uniqC, ?_, ?_, ?_, ?_, ?_, told_append w.told ?_, adm_append w.adm ?_, gone_append w.gone ?_⟩
  · intro h
    rcases List.mem_append.1 h with h | h
    · exact w.noUb h
    · exact hu _ h
  · intro p k; rw [hc, member_append, member_still p k u _ hst]; exact w.mem p k
  · rw [hc, hp]; exact w.info
  · rw [hc, hn]; exact w.names
  · intro r k h
    rw [hc]
    rcases w.prov r k (hp ▸ h) with h | h | h
    · exact Or.inl h
    · exact Or.inr (Or.inl h)
    · exact Or.inr (Or.inr (List.mem_append_left _ h))
  · intro k hk hr p h
    rw [hn]
    exact w.clean k hk (noRej_prefix hr) p (hc ▸ h)
  · intro p l h; exact hu _ h
  · intro p l h; exact hu _ h
  · intro h; exact hu _ h

theorem Well.lookup_alive {s : State} {t : List Out} (w : Well s t) {k : Key} {q : Nat} (h : lookup s.names k = some q) :
    s.alive q = true := alive_iff.2 ⟨k, w.info q k (w.names q k (find_mem h))⟩

theorem sendTo_plain {s : State} {t : List Out} (w : Well s t) (k : Key) (m : Nat → Out) (hm : ∀ q, Plain (m q)) :
    Well (sendTo s k m).1 (t ++ (sendTo s k m).2) := by
  unfold sendTo
  split
  · exact w.plain rfl rfl rfl rfl (by simp [Plain])
  · rename_i q hq
    rw [if_pos (w.lookup_alive hq)]
    exact w.plain rfl rfl rfl rfl (by simpa using hm q)

theorem proxy_plain {s : State} {t : List Out} (w : Well s t) (k : Key) (a b : String) :
    Well (proxy s k a b).1 (t ++ (proxy s k a b).2) := by
  unfold proxy
  split
  · split
    · exact w.plain rfl rfl rfl rfl (by simp [Plain])
    · rename_i q hq
      rw [if_pos (w.lookup_alive hq)]
      exact w.plain rfl rfl rfl rfl (by simp [Plain])
  · exact w.plain rfl rfl rfl rfl (by simp)

theorem Well.connect {s : State} {t : List Out} (w : Well s t) (p : Nat) (hp : ¬ s.alive p = true) :
    Well { s with peers := s.peers ++ [(p, ("", ""))] } t := by
  refine ⟨w.alive, w.noUb, ?_, w.uniqC, w.mem, ?_, w.names, ?_, w.clean, w.told, w.adm, w.gone⟩
  · refine w.uniqP.snoc ?_
    intro x hx he
    exact hp (alive_iff.2 ⟨x.2, by rw [← he]; exact hx⟩)
  · intro q k h; exact List.mem_append_left _ (w.info q k h)
  · intro r k h
    rcases List.mem_append.1 h with h | h
    · exact w.prov r k h
    · simp at h; exact Or.inl h.2

theorem Well.reject {s : State} {t : List Out} (w : Well s t) {p : Nat} {k : Key} (ha : s.alive p = true)
    (hm : ∀ k', member t p k' = false) : Well (s.setInfo p k) (t ++ [.rejected p k]) := by
  have hst : ∀ o ∈ [Out.rejected p k], Still o := by simp [Still]
  refine ⟨w.alive, by simpa using w.noUb, unique_setInfo w.uniqP, w.uniqC, ?_, ?_, w.names, ?_, ?_, told_append w.told (by simp),
    adm_append w.adm (by simp), gone_append w.gone (by simp)⟩
  · intro q k'; rw [member_append, member_still q k' _ _ hst]; exact w.mem q k'
  · intro q k' h
    have hq : q ≠ p := by
      intro e; subst e
      have := (w.mem q k').1 h
      rw [hm k'] at this; cases this
    exact (mem_setInfo ha).2 (Or.inr ⟨hq, w.info q k' h⟩)
  · intro r k' h
    rcases (mem_setInfo ha).1 h with ⟨rfl, rfl⟩ | ⟨-, h⟩
    · exact Or.inr (Or.inr (by simp))
    · rcases w.prov r k' h with h | h | h
      · exact Or.inl h
      · exact Or.inr (Or.inl h)
      · exact Or.inr (Or.inr (List.mem_append_left _ h))
  · intro k' hk hr q h
    exact w.clean k' hk (noRej_prefix hr) q h

theorem Well.admit {s : State} {t : List Out} (w : Well s t) {p : Nat} {k : Key} (ha : s.alive p = true)
    (hm : ∀ k', member t p k' = false) (hl : lookup s.connected k = none) :
    Well { s.setInfo p k with connected := s.connected ++ [(k, p)], names := if (lookup s.names k).isSome then s.names else s.names ++ [(k, p)] }
      (t ++ [.told p ((knownTo s p k.1).map (fun x => (x.1.2, x.2))), .admitted p k]) := by
  have hln : lookup s.names k = none := by
    cases h : lookup s.names k with
    | none => rfl
    | some q => exact absurd rfl (find_none hl _ (w.names q k (find_mem h)))
  have hne : ∀ q k', (k', q) ∈ s.connected → q ≠ p := by
    intro q k' h e; subst e
    have := (w.mem q k').1 h
    rw [hm k'] at this; cases this
  have hn : (if (lookup s.names k).isSome then s.names else s.names ++ [(k, p)]) = s.names ++ [(k, p)] := by rw [hln]; rfl
  rw [hn]
  have hmem : ∀ q k', (k', q) ∈ s.connected ++ [(k, p)] ↔
      member (t ++ [.told p ((knownTo s p k.1).map (fun x => (x.1.2, x.2))), .admitted p k]) q k' = true := by
    intro q k'
    rw [member_append]
    simp only [List.mem_append, List.mem_singleton, Prod.mk.injEq, w.mem, List.foldl_cons, List.foldl_nil, memberStep]
    split
    · rename_i h; simp [h.1, h.2]
    · rename_i h
      constructor
      · rintro (h' | ⟨rfl, rfl⟩)
        · exact h'
        · exact absurd ⟨rfl, rfl⟩ h
      · exact Or.inl
  refine ⟨w.alive, by simpa using w.noUb, unique_setInfo w.uniqP, w.uniqC.snoc (find_none hl), hmem, ?_, ?_, ?_, ?_, ?_, ?_,
    gone_append w.gone (by simp)⟩
  · intro q k' h
    rcases List.mem_append.1 h with h | h
    · exact (mem_setInfo ha).2 (Or.inr ⟨hne q k' h, w.info q k' h⟩)
    · simp at h; exact (mem_setInfo ha).2 (Or.inl ⟨h.2, h.1⟩)
  · intro q k' h
    rcases List.mem_append.1 h with h | h
    · exact List.mem_append_left _ (w.names q k' h)
    · exact List.mem_append_right _ h
  · intro r k' h
    rcases (mem_setInfo ha).1 h with ⟨rfl, rfl⟩ | ⟨-, h⟩
    · exact Or.inr (Or.inl (by simp))
    · rcases w.prov r k' h with h | h | h
      · exact Or.inl h
      · exact Or.inr (Or.inl (List.mem_append_left _ h))
      · exact Or.inr (Or.inr (List.mem_append_left _ h))
  · intro k' hk hr q h
    rcases List.mem_append.1 h with h | h
    · exact List.mem_append_left _ (w.clean k' hk (noRej_prefix hr) q h)
    · exact List.mem_append_right _ h
  · intro a q l b e
    rcases split_append e with ⟨b', e1, e2⟩ | ⟨a', e1, e2⟩
    · obtain ⟨k0, b'', e3, hl⟩ := w.told a q l b' e1
      exact ⟨k0, b'' ++ _, by rw [e2, e3]; rfl, hl⟩
    · cases a' with
      | nil =>
          simp only [List.nil_append, List.cons.injEq, Out.told.injEq] at e2
          obtain ⟨⟨rfl, rfl⟩, rfl⟩ := e2
          refine ⟨k, [], rfl, ?_⟩
          intro n q
          simp only [List.append_nil] at e1
          subst e1
          rw [List.mem_map]
          constructor
          · rintro ⟨⟨⟨s1, n1⟩, q1⟩, hx, hh⟩
            simp only [knownTo, List.mem_filter, Bool.and_eq_true, beq_iff_eq, bne_iff_ne] at hx
            cases hh
            exact ⟨hx.2.2, (w.mem _ _).1 (hx.2.1 ▸ hx.1)⟩
          · rintro ⟨h1, h2⟩
            refine ⟨((k.1, n), q), ?_, rfl⟩
            simp only [knownTo, List.mem_filter, Bool.and_eq_true, beq_iff_eq, bne_iff_ne]
            exact ⟨(w.mem _ _).2 h2, trivial, h1⟩
      | cons o a' =>
          cases a' with
          | nil => simp at e2
          | cons o' a' => simp at e2
  · intro a q l b e
    rcases split_append e with ⟨b', e1, e2⟩ | ⟨a', e1, e2⟩
    · exact w.adm a q l b' e1
    · cases a' with
      | nil => simp at e2
      | cons o a' =>
          cases a' with
          | nil =>
              simp only [List.cons_append, List.nil_append, List.cons.injEq, Out.admitted.injEq] at e2
              obtain ⟨rfl, ⟨rfl, rfl⟩, rfl⟩ := e2
              exact ⟨t, _, e1⟩
          | cons o' a' => simp at e2

theorem registryShutdown_spec {s : State} {t : List Out} (w : Well s t) {p : Nat} {k : Key} (hk : (p, k) ∈ s.peers) :
    ((registryShutdown s p k).1 = { s with connected := s.connected.filter (fun x => x.2 != p) }) ∧
    ((∀ k', (k', p) ∉ s.connected) ∧ (registryShutdown s p k).2 = [] ∨
     ((k, p) ∈ s.connected ∧ (registryShutdown s p k).2 =
       if (s.connected.filter (fun x => x.2 != p)).isEmpty then [.disconnected k, .allGone] else [.disconnected k])) := by
  by_cases hc : (k, p) ∈ s.connected
  · have hl : lookup s.connected k = some p := find_some_of_mem w.uniqC hc
    have hf : s.connected.filter (fun x => x.1 != k) = s.connected.filter (fun x => x.2 != p) := by
      apply List.filter_congr
      rintro ⟨k', q⟩ hx
      rw [Bool.eq_iff_iff]
      simp only [bne_iff_ne, ne_eq]
      constructor
      · intro hn he; rw [show q = p from he] at hx; exact hn (w.uniqP.eq (w.info _ _ hx) hk)
      · intro hn he; rw [show k' = k from he] at hx; exact hn (w.uniqC.eq hx hc)
    unfold registryShutdown
    rw [hl]
    simp only [if_true]
    rw [hf]
    exact ⟨rfl, Or.inr ⟨hc, rfl⟩⟩
  · have hno : ∀ k', (k', p) ∉ s.connected := by
      intro k' h
      have := w.uniqP.eq (w.info _ _ h) hk
      subst this; exact hc h
    have hf : s.connected.filter (fun x => x.2 != p) = s.connected := by
      rw [List.filter_eq_self]
      rintro ⟨k', q⟩ hx
      simp only [bne_iff_ne, ne_eq]
      intro he; rw [show q = p from he] at hx; exact hno k' hx
    rw [hf]
    unfold registryShutdown
    split
    · exact ⟨rfl, Or.inl ⟨hno, rfl⟩⟩
    · rename_i q hq
      split
      · rename_i he; subst he; exact absurd (find_mem hq) hc
      · exact ⟨rfl, Or.inl ⟨hno, rfl⟩⟩

theorem Well.disconnect {s : State} {t : List Out} (w : Well s t) {p : Nat} {k : Key} (hk : (p, k) ∈ s.peers) :
    Well (disconnect s p k).1 (t ++ (disconnect s p k).2) := by
  have hall : (notified s k).all s.alive = true := by
    rw [List.all_eq_true]
    intro q hq
    obtain ⟨x, -, hx⟩ := List.mem_filterMap.1 hq
    exact w.lookup_alive hx
  unfold Registry.disconnect
  rw [if_pos hall]
  dsimp only
  obtain ⟨h1, h2⟩ := registryShutdown_spec w hk
  rw [h1]
  generalize hg : (notified s k).map (fun q => Out.sourceGone q k) = g
  have hgg : ∀ o ∈ g, ∃ q, o = .sourceGone q k := by
    intro o ho; rw [← hg] at ho; obtain ⟨q, -, rfl⟩ := List.mem_map.1 ho; exact ⟨q, rfl⟩
  -- the outputs in the middle
  have hr : ∀ o ∈ (registryShutdown s p k).2, o = .disconnected k ∨ o = .allGone := by
    intro o ho
    rcases h2 with ⟨-, e⟩ | ⟨-, e⟩
    · rw [e] at ho; simp at ho
    · rw [e] at ho; split at ho <;> simp at ho
      · exact ho
      · exact Or.inl ho
  have hmid : ∀ o ∈ g ++ (registryShutdown s p k).2, (∃ q, o = .sourceGone q k) ∨ o = .disconnected k ∨ o = .allGone := by
    intro o ho
    rcases List.mem_append.1 ho with ho | ho
    · exact Or.inl (hgg o ho)
    · exact Or.inr (hr o ho)
  have hst : ∀ o ∈ g ++ (registryShutdown s p k).2, Still o := by
    intro o ho
    rcases hmid o ho with ⟨q, rfl⟩ | rfl | rfl <;> simp [Still]
  have hnot : ∀ o ∈ g ++ (registryShutdown s p k).2 ++ [.left p], (∃ q, o = .sourceGone q k) ∨ o = .disconnected k ∨ o = .allGone ∨ o = .left p := by
    intro o ho
    rcases List.mem_append.1 ho with ho | ho
    · rcases hmid o ho with h | h | h
      · exact Or.inl h
      · exact Or.inr (Or.inl h)
      · exact Or.inr (Or.inr (Or.inl h))
    · simp at ho; exact Or.inr (Or.inr (Or.inr ho))
  have hmemb : ∀ q k', member (t ++ (g ++ (registryShutdown s p k).2 ++ [.left p])) q k' = if q = p then false else member t q k' := by
    intro q k'
    rw [member_append, List.foldl_append, member_still q k' _ _ hst]
    simp only [List.foldl_cons, List.foldl_nil, memberStep]
    by_cases h : p = q
    · simp [h]
    · simp [h, Ne.symm h]
  have hmem' : ∀ q k', (k', q) ∈ s.connected.filter (fun x => x.2 != p) ↔
      member (t ++ (g ++ (registryShutdown s p k).2 ++ [.left p])) q k' = true := by
    intro q k'
    rw [hmemb, List.mem_filter, w.mem]
    by_cases h : q = p <;> simp [h]
  refine ⟨w.alive, ?_, w.uniqP.filter _, w.uniqC.filter _, hmem', ?_, ?_, ?_, ?_, told_append w.told ?_, adm_append w.adm ?_, ?_⟩
  · intro h
    rcases List.mem_append.1 h with h | h
    · exact w.noUb h
    · rcases hnot _ h with ⟨q, h⟩ | h | h | h <;> cases h
  · intro q k' h
    have := List.mem_filter.1 h
    refine List.mem_filter.2 ⟨w.info q k' this.1, ?_⟩
    simpa using this.2
  · intro q k' h
    have h' := List.mem_filter.1 h
    refine List.mem_filter.2 ⟨w.names q k' h'.1, ?_⟩
    have hne : k' ≠ k := by simpa using h'.2
    simp only [bne_iff_ne, ne_eq]
    intro e
    have e' : q = p := e
    subst e'
    exact hne (w.uniqP.eq (w.info _ _ (w.names _ _ h'.1)) hk)
  · intro r k' h
    have h' := List.mem_filter.1 h
    have hne : r ≠ p := by simpa using h'.2
    rcases w.prov r k' h'.1 with h | h | h
    · exact Or.inl h
    · exact Or.inr (Or.inl (List.mem_filter.2 ⟨h, by simpa using hne⟩))
    · exact Or.inr (Or.inr (List.mem_append_left _ h))
  · intro k' hk' hr' q h
    have h' := List.mem_filter.1 h
    have hne : q ≠ p := by simpa using h'.2
    refine List.mem_filter.2 ⟨w.clean k' hk' (noRej_prefix hr') q h'.1, ?_⟩
    simp only [bne_iff_ne, ne_eq]
    intro e
    have e' : k' = k := e
    subst e'
    rcases w.prov p k' hk with h | h | h
    · exact hk' h
    · exact hne (w.uniqC.eq h'.1 h)
    · obtain ⟨a, b, e⟩ := List.append_of_mem h
      exact hr' a p _ (by rw [e]; simp; rfl) (by simp)
  · intro q l h
    rcases hnot _ h with ⟨q, h⟩ | h | h | h <;> cases h
  · intro q l h
    rcases hnot _ h with ⟨q, h⟩ | h | h | h <;> cases h
  · intro a b e
    rcases split_append e with ⟨b', e1, e2⟩ | ⟨a', e1, e2⟩
    · obtain ⟨q, b'', e3, hl⟩ := w.gone a b' e1
      exact ⟨q, b'' ++ _, by rw [e2, e3]; rfl, hl⟩
    · rcases split_append (t := g ++ (registryShutdown s p k).2) (u := [.left p]) e2 with ⟨b', e3, e4⟩ | ⟨a'', e3, e4⟩
      · rcases split_append e3 with ⟨b'', e5, -⟩ | ⟨a'', e5, e6⟩
        · obtain ⟨q, hq⟩ := hgg .allGone (by rw [e5]; simp)
          cases hq
        · rcases h2 with ⟨-, e7⟩ | ⟨-, e7⟩
          · rw [e7] at e6; simp at e6
          · rw [e7] at e6
            split at e6
            · rename_i hemp
              have : a'' = [.disconnected k] ∧ b' = [] := by
                cases a'' with
                | nil => simp at e6
                | cons o a'' =>
                    cases a'' with
                    | nil => simp at e6; exact ⟨by rw [e6.1], e6.2⟩
                    | cons o' a'' => simp at e6
              obtain ⟨ha, hb⟩ := this
              refine ⟨p, [], by rw [e4, hb]; rfl, ?_⟩
              intro q k'
              have hfull : a ++ [.allGone, .left p] = t ++ (g ++ (registryShutdown s p k).2 ++ [.left p]) := by
                rw [e, e4, hb]; rfl
              cases hmm : member (a ++ [.allGone, .left p]) q k' with
              | false => rfl
              | true =>
                  rw [hfull] at hmm
                  have := (hmem' q k').2 hmm
                  rw [List.isEmpty_iff.1 hemp] at this
                  cases this
            · cases a'' with
              | nil => simp at e6
              | cons o a'' => simp at e6
      · cases a'' with
        | nil => simp at e4
        | cons o a'' => simp at e4

theorem Well.on {s : State} {t : List Out} (w : Well s t) (e : Event)
    (he : ∀ p k, e = .announce p k → ∀ k', member t p k' = false) : Well (on s e).1 (t ++ (on s e).2) := by
  unfold Registry.on
  rw [if_neg (by rw [w.alive]; simp)]
  cases e with
  | connect p =>
      dsimp only
      split
      · simpa using w
      · rename_i h; simpa using w.connect p h
  | announce p k =>
      dsimp only
      split
      · rename_i ha
        have hm := he p k rfl
        rcases announce_cases s p k with ⟨h1, e⟩ | ⟨h1, h2, e⟩ | ⟨h1, h2, e⟩ <;> rw [e]
        · exact w.reject ha hm
        · exact w.admit ha hm h1
        · exfalso
          have : (knownTo s p k.1).all (fun x => (s.setInfo p k).alive x.2) = true := by
            rw [List.all_eq_true]
            intro x hx
            have hc := (List.mem_filter.1 hx).1
            have hi := w.info x.2 x.1 hc
            refine alive_iff.2 ?_
            by_cases h : x.2 = p
            · exact ⟨k, (mem_setInfo ha).2 (Or.inl ⟨h, rfl⟩)⟩
            · exact ⟨x.1, (mem_setInfo ha).2 (Or.inr ⟨h, hi⟩)⟩
          rw [this] at h2; cases h2
      · simpa using w
  | disconnect p =>
      dsimp only
      split
      · rename_i k hk; exact w.disconnect (info_mem hk)
      · simpa using w
  | proxy p a c =>
      dsimp only
      split
      · exact proxy_plain w ..
      · simpa using w
  | request p a =>
      dsimp only
      split
      · exact sendTo_plain w _ _ (by simp [Plain])
      · simpa using w
  | answer p a =>
      dsimp only
      split
      · exact sendTo_plain w _ _ (by simp [Plain])
      · simpa using w

theorem alive_connect (s : State) (p q : Nat) (k : Key) : ({ s with peers := s.peers ++ [(p, k)] } : State).alive q = (s.alive q || p == q) := by
  simp [State.alive, List.any_append]

theorem alive_setInfo (s : State) (p q : Nat) (k : Key) : (s.setInfo p k).alive q = s.alive q := by
  simp only [State.alive, State.setInfo, List.any_map]
  congr 1
  funext x
  simp only [Function.comp]
  split
  · rename_i h; simp [h]
  · rfl

theorem alive_on {s : State} {t : List Out} (w : Well s t) (e : Event) (he : ∀ p k, e = .announce p k → ∀ k', member t p k' = false)
    (q : Nat) : (on s e).1.alive q = openStep q (s.alive q) e := by
  have w' := w.on e he
  have hnub : Out.ub ∉ (Registry.on s e).2 := fun h => w'.noUb (List.mem_append_right _ h)
  unfold Registry.on at hnub ⊢
  rw [if_neg (by rw [w.alive]; simp)] at hnub ⊢
  cases e with
  | connect p =>
      dsimp only [openStep]
      split
      · rename_i h; split
        · rename_i e; subst e; exact h
        · rfl
      · dsimp only
        rw [alive_connect]
        by_cases h : p = q <;> simp [h]
  | announce p k =>
      dsimp only [openStep] at hnub ⊢
      split
      · rcases announce_cases s p k with ⟨h1, e⟩ | ⟨h1, h2, e⟩ | ⟨h1, h2, e⟩ <;> rw [e]
        · exact alive_setInfo ..
        · exact alive_setInfo ..
        · exact alive_setInfo ..
      · rfl
  | disconnect p =>
      dsimp only [openStep] at hnub ⊢
      split
      · rename_i k hk
        rw [hk] at hnub
        unfold Registry.disconnect at hnub ⊢
        split
        · dsimp only
          rw [(registryShutdown_spec w (info_mem hk)).1]
          simp only [removeFromConnection, State.alive]
          by_cases h : p = q
          · subst h; simp
          · rw [if_neg h]
            rw [Bool.eq_iff_iff]
            simp only [List.any_eq_true, List.mem_filter, beq_iff_eq, bne_iff_ne]
            constructor
            · rintro ⟨x, ⟨hx, -⟩, e⟩; exact ⟨x, hx, e⟩
            · rintro ⟨x, hx, e⟩; exact ⟨x, ⟨hx, by rw [e]; exact Ne.symm h⟩, e⟩
        · rename_i h; dsimp only at hnub; rw [if_neg h] at hnub; simp at hnub
      · rename_i hk
        split
        · rename_i e; subst e
          cases ha : s.alive p with
          | false => rfl
          | true =>
              obtain ⟨k, h⟩ := alive_iff.1 ha
              rw [info_of_mem w.uniqP h] at hk; cases hk
        · rfl
  | proxy p a c =>
      dsimp only [openStep] at hnub ⊢
      split
      · unfold proxy
        split
        · split
          · rfl
          · split <;> rfl
        · rfl
      · rfl
  | request p a =>
      dsimp only [openStep] at hnub ⊢
      split
      · unfold sendTo
        split
        · rfl
        · split <;> rfl
      · rfl
  | answer p a =>
      dsimp only [openStep] at hnub ⊢
      split
      · unfold sendTo
        split
        · rfl
        · split <;> rfl
      · rfl

theorem Well.init : Well {} [] := by
  refine ⟨rfl, by simp, by simp [UniqueKeys], by simp [UniqueKeys], by simp [member], by simp, by simp, by simp, by simp, ?_, ?_, ?_⟩
  · intro a p l b e; simp at e
  · intro a p l b e; simp at e
  · intro a b e; simp at e

theorem wellBehaved_prefix {h : List Event} {e : Event} (ho : WellBehaved (h ++ [e])) : WellBehaved h := by
  intro a b p k e'
  exact ho a (b ++ [e]) p k (by rw [e']; simp)

theorem well_run (h : List Event) (ho : WellBehaved h) : Well (run h).1 (run h).2 := by
  revert ho
  rw [← List.reverse_reverse h]
  induction h.reverse with
  | nil => intro _; exact Well.init
  | cons e l ih =>
      rw [List.reverse_cons]
      intro ho
      rw [run_append]
      refine (ih (wellBehaved_prefix ho)).on e ?_
      intro p k he
      exact ho l.reverse [] p k (by rw [he])

theorem alive_run (h : List Event) (ho : WellBehaved h) (q : Nat) : (run h).1.alive q = isOpen h q := by
  revert ho
  rw [← List.reverse_reverse h]
  induction h.reverse with
  | nil => intro _; rfl
  | cons e l ih =>
      rw [List.reverse_cons]
      intro ho
      have hp := wellBehaved_prefix ho
      rw [run_append]
      dsimp only
      rw [alive_on (well_run _ hp) e (fun p k he => ho l.reverse [] p k (by rw [he])), ih hp]
      simp [isOpen, List.foldl_append]

end SilKit.Registry
