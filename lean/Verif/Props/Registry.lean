import Verif.Lemmas.Registry
/-!
# C24, C25: the registry

Apart from the uniqueness of names, C24 is proved for connections that announce only one participant while they are admitted
(`WellBehaved`), as the implementation of participants does; the theorems are therefore marked `_partial`. For other connections the
claims are false: `C24_second_announcement_is_undefined_behaviour`.
-/
namespace SilKit.Props
open SilKit.Registry SilKit.Registry.Spec SilKit.Util

/-- **C24.** Whatever the connections send, no two connections are admitted at the same time with the same simulation and participant name. -/
theorem C24_unique_names (h : List Event) (p q : Nat) (k : Key) (hp : member (trace h) p k = true) (hq : member (trace h) q k = true) :
    p = q :=
  (base_run h).uniq.eq ((base_run h).mem p k hp) ((base_run h).mem q k hq)

/-- **C24.** A connection is told about the known participants exactly when it is admitted, and it is told about exactly the participants
of its own simulation that are admitted at this time. -/
theorem C24_told_of_all_present_partial (h : List Event) (hw : WellBehaved h) (a b : List Out) (p : Nat) (l : List (String × Nat))
    (e : trace h = a ++ .told p l :: b) :
    ∃ k b', b = .admitted p k :: b' ∧ ∀ n q, (n, q) ∈ l ↔ q ≠ p ∧ member a q (k.1, n) = true :=
  (well_run h hw).told a p l b e

theorem C24_admission_tells_partial (h : List Event) (hw : WellBehaved h) (a b : List Out) (p : Nat) (k : Key)
    (e : trace h = a ++ .admitted p k :: b) : ∃ a' l, a = a' ++ [.told p l] :=
  (well_run h hw).adm a p k b e

/-- **C24.** Of two participants of the same simulation, the one admitted later is told about the one admitted earlier (which has not
left) when it is admitted, and the earlier one was not told about the later one. -/
theorem C24_later_is_told_of_earlier_partial (h : List Event) (hw : WellBehaved h) (a b c : List Out) (p q : Nat) (sim n m : String) (hpq : p ≠ q)
    (hq : ∀ k, member a q k = false)
    (e : trace h = a ++ .admitted p (sim, n) :: (b ++ .admitted q (sim, m) :: c)) (hstay : Out.left p ∉ b) :
    (∃ b' l, b = b' ++ [.told q l] ∧ (n, p) ∈ l) ∧ (∃ a' l, a = a' ++ [.told p l] ∧ ∀ x, (x, q) ∉ l) := by
  have w := well_run h hw
  obtain ⟨a1, l1, e1⟩ := w.adm (a ++ .admitted p (sim, n) :: b) q (sim, m) c (by show (run h).2 = _; rw [show (run h).2 = trace h from rfl, e]; simp)
  obtain ⟨a2, l2, e2⟩ := w.adm a p (sim, n) _ e
  constructor
  · have hb : ∃ b', b = b' ++ [.told q l1] := by
      rcases List.eq_nil_or_concat b with rfl | ⟨b', o, rfl⟩
      · have := List.append_inj' (s₁ := a) (t₁ := [.admitted p (sim, n)]) e1 rfl
        simp at this
      · have := List.append_inj' (s₁ := a ++ .admitted p (sim, n) :: b') (t₁ := [o]) (s₂ := a1) (t₂ := [.told q l1])
          (by simpa using e1) rfl
        simp at this
        exact ⟨b', by rw [this.2, List.concat_eq_append]⟩
    obtain ⟨b', hb⟩ := hb
    refine ⟨b', l1, hb, ?_⟩
    obtain ⟨k, b'', e4, hl⟩ := w.told (a ++ .admitted p (sim, n) :: b') q l1 (.admitted q (sim, m) :: c)
      (by rw [show (run h).2 = trace h from rfl, e, hb]; simp)
    simp only [List.cons.injEq, Out.admitted.injEq, true_and] at e4
    obtain ⟨rfl, -⟩ := e4
    rw [hl]
    refine ⟨hpq, ?_⟩
    rw [member_append, List.foldl_cons]
    have hstay' : Out.left p ∉ b' := fun hx => hstay (by rw [hb]; simp [hx])
    have key : ∀ (u : List Out), Out.left p ∉ u → ∀ b0, b0 = true → u.foldl (memberStep p (sim, n)) b0 = true := by
      intro u
      induction u with
      | nil => intro _ b0 h; exact h
      | cons o u ih =>
          intro hu b0 hb0
          rw [List.foldl_cons]
          apply ih (fun hx => hu (by simp [hx]))
          cases o <;> simp_all [memberStep]
          intro h; subst h; exact absurd rfl hu.1
    exact key b' hstay' _ (by simp [memberStep])
  · refine ⟨a2, l2, e2, ?_⟩
    intro x hx
    obtain ⟨k, b'', -, hl⟩ := w.told a2 p l2 (.admitted p (sim, n) :: (b ++ .admitted q (sim, m) :: c))
      (by rw [show (run h).2 = trace h from rfl, e, e2]; simp)
    have := ((hl x q).1 hx).2
    have h2 := hq (k.1, x)
    rw [e2, member_append] at h2
    simp only [List.foldl_cons, List.foldl_nil, memberStep] at h2
    rw [this] at h2; cases h2

/-- **C24.** A connection that announces a participant is admitted if nobody is admitted under this name in this simulation, and rejected
otherwise. -/
theorem C24_admission_decision_partial (h : List Event) (p : Nat) (k : Key) (hw : WellBehaved (h ++ [.announce p k])) (hp : isOpen h p = true) :
    ((∀ q, member (trace h) q k = false) → ∃ l, trace (h ++ [.announce p k]) = trace h ++ [.told p l, .admitted p k]) ∧
    ((∃ q, member (trace h) q k = true) → trace (h ++ [.announce p k]) = trace h ++ [.rejected p k]) := by
  have w := well_run h (wellBehaved_prefix hw)
  have w' := well_run _ hw
  have ha : (run h).1.alive p = true := by rw [alive_run h (wellBehaved_prefix hw)]; exact hp
  have e : trace (h ++ [.announce p k]) = trace h ++ (announce (run h).1 p k).2 := by
    show (run (h ++ [.announce p k])).2 = _
    rw [run_append]
    simp [Registry.on, w.alive, ha, trace]
  have hnub : Out.ub ∉ (announce (run h).1 p k).2 := by
    intro hx
    apply w'.noUb
    rw [show (run (h ++ [.announce p k])).2 = trace (h ++ [.announce p k]) from rfl, e]
    exact List.mem_append_right _ hx
  rw [e]
  constructor
  · intro hn
    have hl : lookup (run h).1.connected k = none := by
      cases hc : lookup (run h).1.connected k with
      | none => rfl
      | some q =>
          have := (w.mem q k).1 (find_mem hc)
          rw [show (run h).2 = trace h from rfl, hn q] at this; cases this
    rcases announce_cases (run h).1 p k with ⟨h1, e'⟩ | ⟨h1, h2, e'⟩ | ⟨h1, h2, e'⟩
    · rw [hl] at h1; cases h1
    · exact ⟨_, by rw [e']⟩
    · rw [e'] at hnub; simp at hnub
  · rintro ⟨q, hq⟩
    have hm := (w.mem q k).2 hq
    have hl : lookup (run h).1.connected k = some q := find_some_of_mem w.uniqC hm
    rcases announce_cases (run h).1 p k with ⟨h1, e'⟩ | ⟨h1, h2, e'⟩ | ⟨h1, h2, e'⟩
    · rw [e']
    · rw [hl] at h1; cases h1
    · rw [hl] at h1; cases h1

/-- **C24.** The registry finds all participants gone only when nobody is admitted any more. -/
theorem C24_all_gone_means_empty_partial (h : List Event) (hw : WellBehaved h) (a b : List Out) (e : trace h = a ++ .allGone :: b) :
    ∃ p b', b = .left p :: b' ∧ ∀ q k, member (a ++ [.allGone, .left p]) q k = false :=
  (well_run h hw).gone a b e

/-- **C24.** And it does find so: when the last admitted participant disconnects. -/
theorem C24_last_one_leaves_partial (h : List Event) (hw : WellBehaved h) (p : Nat) (k : Key) (hp : member (trace h) p k = true)
    (hlast : ∀ q k', member (trace h) q k' = true → q = p) :
    ∃ u, trace (h ++ [.disconnect p]) = trace h ++ u ++ [.disconnected k, .allGone, .left p] ∧ ∀ o ∈ u, ∃ q, o = .sourceGone q k := by
  have w := well_run h hw
  have hc := (w.mem p k).2 hp
  have hk := w.info p k hc
  have hi : (run h).1.info p = some k := info_of_mem w.uniqP hk
  have hall : (notified (run h).1 k).all (run h).1.alive = true := by
    rw [List.all_eq_true]
    intro q hq
    obtain ⟨x, -, hx⟩ := List.mem_filterMap.1 hq
    exact w.lookup_alive hx
  have hemp : ((run h).1.connected.filter (fun x => x.2 != p)).isEmpty = true := by
    rw [List.isEmpty_iff, List.filter_eq_nil_iff]
    rintro ⟨k', q⟩ hx
    have := hlast q k' ((w.mem q k').1 hx)
    simp [this]
  have hr : (registryShutdown (run h).1 p k).2 = [.disconnected k, .allGone] := by
    rcases (registryShutdown_spec w hk).2 with ⟨hno, -⟩ | ⟨-, e⟩
    · exact absurd hc (hno k)
    · rw [e, if_pos hemp]
  refine ⟨(notified (run h).1 k).map (fun q => .sourceGone q k), ?_, ?_⟩
  · show (run (h ++ [.disconnect p])).2 = _
    rw [run_append]
    simp only [Registry.on, w.alive, hi, Registry.disconnect, hall, if_true, hr]
    simp [trace]
  · intro o ho
    obtain ⟨q, -, rfl⟩ := List.mem_map.1 ho
    exact ⟨q, rfl⟩

/-- **C24.** As long as connections announce one participant only, the registry does not access connections that are gone. -/
theorem C24_no_dangling_connection_partial (h : List Event) (hw : WellBehaved h) : Out.ub ∉ trace h := (well_run h hw).noUb

def wellBehavedB (h : List Event) : Bool :=
  (List.range h.length).all fun n => match h[n]? with
    | some (.announce p _) => (trace (h.take n)).all fun o => match o with
        | .admitted q k => q != p || !member (trace (h.take n)) p k
        | _ => true
    | _ => true

theorem wellBehaved_of_check (h : List Event) (hb : wellBehavedB h = true) : WellBehaved h := by
  intro a b p k e k'
  simp only [wellBehavedB, List.all_eq_true, List.mem_range] at hb
  have := hb a.length (by rw [e]; simp)
  rw [e] at this
  simp only [List.getElem?_append_right (Nat.le_refl _), Nat.sub_self, List.getElem?_cons_zero, List.take_left, List.all_eq_true] at this
  cases hm : member (trace a) p k' with
  | false => rfl
  | true =>
      exfalso
      -- a member was admitted
      have key : ∀ (u : List Out) (b0 : Bool), u.foldl (memberStep p k') b0 = true → b0 = true ∨ Out.admitted p k' ∈ u := by
        intro u
        induction u with
        | nil => intro b0 h; exact Or.inl h
        | cons o u ih =>
            intro b0 h
            rw [List.foldl_cons] at h
            rcases ih _ h with h | h
            · cases o with
              | admitted q k2 =>
                  simp only [memberStep] at h
                  split at h
                  · rename_i hh; right; rw [hh.1, hh.2]; simp
                  · exact Or.inl h
              | left q =>
                  simp only [memberStep] at h
                  split at h
                  · cases h
                  · exact Or.inl h
              | _ => exact Or.inl h
            · exact Or.inr (by simp [h])
      rcases key (trace a) false hm with h | h
      · cases h
      · have := this _ h
        simp [hm] at this

/-- The scenario of the examples: two simulations, a rejected duplicate, a rejoin. -/
def registryExample : List Event :=
  [.connect 1, .announce 1 ("s", "A"), .connect 2, .announce 2 ("s", "B"), .connect 3, .announce 3 ("t", "A"), .connect 4,
   .announce 4 ("s", "A"), .disconnect 1, .connect 5, .announce 5 ("s", "A")]

example : trace registryExample =
    [.told 1 [], .admitted 1 ("s", "A"), .told 2 [("A", 1)], .admitted 2 ("s", "B"), .told 3 [], .admitted 3 ("t", "A"),
     .rejected 4 ("s", "A"), .disconnected ("s", "A"), .left 1, .told 5 [("B", 2)], .admitted 5 ("s", "A")] := by decide +kernel

example : WellBehaved registryExample := wellBehaved_of_check _ (by decide +kernel)

/-- All destinations of a participant are told that it is gone, also if others have sent in between. -/
example : (trace [.connect 1, .announce 1 ("s", "A"), .connect 2, .announce 2 ("s", "B"), .connect 3, .announce 3 ("s", "C"), .proxy 3 "C" "B", .proxy 1 "A" "B", .proxy 2 "B" "C",
    .proxy 1 "A" "C", .disconnect 1]).filter (fun o => match o with | .sourceGone _ _ => true | _ => false) = [.sourceGone 2 ("s", "A"), .sourceGone 3 ("s", "A")] := by decide +kernel

example : trace [.connect 1, .announce 1 ("s", "A"), .disconnect 1] =
    [.told 1 [], .admitted 1 ("s", "A"), .disconnected ("s", "A"), .allGone, .left 1] := by decide +kernel

/-- **C24, disagreement.** A connection that announces a second participant after it was admitted, and disconnects, leaves an entry with a
dangling pointer: the next participant to join makes the registry access freed memory. -/
theorem C24_second_announcement_is_undefined_behaviour :
    ∃ h, trace h = [.told 1 [], .admitted 1 ("s", "A"), .told 1 [], .admitted 1 ("s", "B"), .disconnected ("s", "B"), .left 1, .ub] :=
  ⟨[.connect 1, .announce 1 ("s", "A"), .announce 1 ("s", "B"), .disconnect 1, .connect 2, .announce 2 ("s", "C")], by decide +kernel⟩

/-- **C25.** An admitted participant is reachable through the registry: requests to connect, answers to these and proxy messages from other
participants of its simulation are delivered to it, provided that no connection has disconnected that was rejected because of the same
name. That it fails otherwise is `C25_rejected_duplicate_makes_unreachable`. -/
theorem C25_participant_is_reachable_partial (h : List Event) (hw : WellBehaved h) (p q : Nat) (sim n m : String)
    (hp : member (trace h) p (sim, n) = true) (hq : member (trace h) q (sim, m) = true) (hne : (sim, n) ≠ ("", ""))
    (hr : NoRejectedLeft (trace h) (sim, n)) :
    trace (h ++ [.request q n]) = trace h ++ [.requested p q] ∧
    trace (h ++ [.answer q n]) = trace h ++ [.answered p (sim, m)] ∧
    trace (h ++ [.proxy q m n]) = trace h ++ [.relayed p (sim, m)] := by
  have w := well_run h hw
  have hcp := (w.mem p (sim, n)).2 hp
  have hcq := (w.mem q (sim, m)).2 hq
  have hname := w.clean _ hne hr p hcp
  have hl : lookup (run h).1.names (sim, n) = some p := by
    cases hx : lookup (run h).1.names (sim, n) with
    | none => exact absurd rfl (find_none hx _ hname)
    | some p' => rw [w.uniqC.eq hcp (w.names p' _ (find_mem hx))]
  have hi : (run h).1.info q = some (sim, m) := info_of_mem w.uniqP (w.info _ _ hcq)
  have ha := w.lookup_alive hl
  refine ⟨?_, ?_, ?_⟩
  · show (run (h ++ [.request q n])).2 = _
    rw [run_append]
    simp [Registry.on, w.alive, hi, sendTo, hl, ha, trace]
  · show (run (h ++ [.answer q n])).2 = _
    rw [run_append]
    simp [Registry.on, w.alive, hi, sendTo, hl, ha, trace]
  · show (run (h ++ [.proxy q m n])).2 = _
    rw [run_append]
    simp [Registry.on, w.alive, hi, proxy, hl, ha, trace]

/-- C25 is not vacuous; a rejected connection that stays does no harm. -/
example : trace (registryExample.take 8 ++ [.request 2 "A"]) = trace (registryExample.take 8) ++ [.requested 1 2] := by decide +kernel

/-- **C25, disagreement.** When a rejected connection disconnects, the entry of the participant whose name it used is removed: requests to
connect and proxy messages no longer reach this participant, although it is connected and admitted. -/
theorem C25_rejected_duplicate_makes_unreachable :
    ∃ h, WellBehaved h ∧ member (trace h) 1 ("s", "A") = true ∧ member (trace h) 2 ("s", "B") = true ∧
      trace (h ++ [.request 2 "A"]) = trace h ++ [.undeliverable ("s", "A")] ∧
      trace (h ++ [.proxy 2 "B" "A"]) = trace h ++ [.undeliverable ("s", "A")] :=
  ⟨[.connect 1, .announce 1 ("s", "A"), .connect 2, .announce 2 ("s", "B"), .connect 3, .announce 3 ("s", "A"), .disconnect 3],
    wellBehaved_of_check _ (by decide +kernel), by decide +kernel, by decide +kernel, by decide +kernel, by decide +kernel⟩

/-- **C25, disagreement.** Moreover, participants that are connected to it by proxy are told that it is gone. -/
theorem C25_rejected_duplicate_is_reported_gone :
    ∃ h, WellBehaved h ∧ member (trace h) 1 ("s", "A") = true ∧
      trace (h ++ [.disconnect 3]) = trace h ++ [.sourceGone 2 ("s", "A"), .left 3] :=
  ⟨[.connect 1, .announce 1 ("s", "A"), .connect 2, .announce 2 ("s", "B"), .proxy 1 "A" "B", .connect 3, .announce 3 ("s", "A")],
    wellBehaved_of_check _ (by decide +kernel), by decide +kernel, by decide +kernel⟩

end SilKit.Props
