import Verif.Lemmas.ServiceDiscovery
/-!
# C11 – discovery events alternate created / removed per service
-/
namespace SilKit.Props
open ServiceDiscovery ServiceDiscovery.Spec

/-- **C11 (alternation).** In every history, each handler hears created, removed, created, … about each service. -/
theorem C11_events_alternate (self : String) (h : List Op) (ho : ∀ op ∈ h, op.Honest) (i : Nat) (k : String × List Char) :
    Alternating (heard i k (run self h).2) := by
  obtain ⟨hi, _, hn⟩ := inv_run self h ho
  rcases Nat.lt_or_ge i (run self h).1.handlers with hlt | hge
  · exact (hi.told i k hlt).1
  · rw [hi.untold i k hge]; intro j hj; simp at hj

/-- **C11 (current).** A registered handler's last word about a service is "created" exactly when the service is alive. -/
theorem C11_last_event_is_current (self : String) (h : List Op) (ho : ∀ op ∈ h, op.Honest) (i : Nat) (hi : i < registered h)
    (k : String × List Char) :
    (heard i k (run self h).2).getLast? = some true ↔ alive self h k = true := by
  obtain ⟨hinv, _, hn⟩ := inv_run self h ho
  obtain ⟨h1, h2⟩ := hinv.told i k (by omega)
  generalize heard i k (run self h).2 = l at h1 h2
  rw [List.getLast?_eq_getElem?, ← h2]
  rcases Nat.eq_zero_or_pos l.length with h0 | h0
  · simp [List.eq_nil_of_length_eq_zero h0]
  · have h3 := h1 (l.length - 1) (by omega)
    rw [List.getElem?_eq_getElem (by omega), h3]
    simp only [Option.some.injEq, beq_iff_eq]
    omega

/-- **C11 (late handlers).** A handler registered at any time is immediately told "created" once for precisely the services
alive, and nobody else is told anything. -/
theorem C11_late_handler_sees_alive_services (self : String) (h : List Op) (ho : ∀ op ∈ h, op.Honest) (k : String × List Char) :
    heard (registered h) k (react (run self h).1 .register).2 = (if alive self h k then [true] else []) ∧
    ∀ i, i ≠ registered h → heard i k (react (run self h).1 .register).2 = [] := by
  obtain ⟨hinv, _, hn⟩ := inv_run self h ho
  simp only [react, State.registerHandler, heard_map_call, hn]
  constructor
  · have hc := getServices_count hinv k
    rw [if_pos trivial]
    by_cases ha : alive self h k = true
    · rw [if_pos ha] at hc ⊢
      obtain ⟨d, hd⟩ := List.length_eq_one_iff.mp hc
      rw [hd]; rfl
    · rw [if_neg ha] at hc ⊢
      rw [List.eq_nil_of_length_eq_zero hc]; rfl
  · intro i hi
    rw [if_neg hi]

/-- **C11 (disconnects).** When the connection to a participant is lost, every service of it that a handler had been told
about has been reported removed. -/
theorem C11_disconnect_removes_all (self : String) (h : List Op) (ho : ∀ op ∈ h, op.Honest) (p : String) (hp : p ≠ self)
    (i : Nat) (key : List Char) :
    heard i (p, key) (run self (h ++ [.disconnected p])).2 = [] ∨
    (heard i (p, key) (run self (h ++ [.disconnected p])).2).getLast? = some false := by
  have ho' : ∀ op ∈ h ++ [.disconnected p], op.Honest := by
    intro op hop
    rcases List.mem_append.mp hop with hop | hop
    · exact ho op hop
    · simp at hop; subst hop; trivial
  have hdead : alive self (h ++ [.disconnected p]) (p, key) = false := by
    rw [alive_append]; simp [aliveStep, hp]
  rcases Nat.lt_or_ge i (registered (h ++ [.disconnected p])) with hlt | hge
  · have hiff := C11_last_event_is_current self _ ho' i hlt (p, key)
    rw [hdead] at hiff
    cases hl : (heard i (p, key) (run self (h ++ [.disconnected p])).2).getLast? with
    | none => left; simpa using hl
    | some b =>
      right
      cases b with
      | false => rfl
      | true => exact absurd (hiff.mp hl) (by simp)
  · obtain ⟨hinv, _, hn⟩ := inv_run self _ ho'
    left; exact hinv.untold i _ (by omega)

/-- **C11 (index).** The index used for publishers, subscribers and RPC is fed with alternating changes, too. -/
theorem C11_index_changes_alternate (self : String) (h : List Op) (ho : ∀ op ∈ h, op.Honest) (k : String × List Char) :
    Alternating (indexed k (run self h).2) :=
  ((inv_run self h ho).1.index k).1

/-- **C11 (own announcements are honest).** Whatever a participant receives from honest participants, it only ever announces
its own services under its own name, so honesty is an invariant of the whole simulation. -/
theorem C11_announcements_are_honest (self : String) (h : List Op) (ho : ∀ op ∈ h, op.Honest) (target sender : String)
    (services : List Desc) (hout : Output.announce target sender services ∈ (run self h).2) :
    sender = self ∧ Op.Honest (.announcement sender services) := by
  rw [← List.reverse_reverse h] at ho hout
  generalize h.reverse = h at ho hout
  induction h with
  | nil => simp [run] at hout
  | cons op h ih =>
    rw [List.reverse_cons] at ho hout
    have ho1 : ∀ op ∈ h.reverse, op.Honest := fun op' h' => ho op' (List.mem_append_left _ h')
    rw [run_append] at hout
    rcases List.mem_append.mp hout with hout | hout
    · exact ih ho1 hout
    · obtain ⟨hinv, hself, _⟩ := inv_run self h.reverse ho1
      generalize (run self h.reverse).1 = s at *
      have hadd : ∀ d, Output.announce target sender services ∈ (s.onServiceAddition d).2 →
          sender = self ∧ Op.Honest (.announcement sender services) := by
        intro d hd
        unfold State.onServiceAddition at hd
        dsimp only at hd
        split at hd
        · simp at hd
        · rcases List.mem_append.mp hd with hd | hd
          · split at hd
            · simp only [List.mem_singleton, State.announceLocalTo, Output.announce.injEq] at hd
              obtain ⟨_, rfl, rfl⟩ := hd
              refine ⟨hself, ?_⟩
              intro d' hd'
              obtain ⟨e, he, rfl⟩ := List.mem_map.mp hd'
              exact (hinv.entry _ e he).2
            · simp at hd
          · simp [State.callHandlers] at hd
      cases op with
      | announcement p ds =>
        have := announcement_sends_nothing target sender services p ds (s.touch p, []) hout
        simp at this
      | remoteCreated d => exact hadd d hout
      | localCreated d =>
        rcases List.mem_append.mp hout with hout | hout
        · exact hadd d hout
        · simp at hout
      | remoteRemoved d =>
        simp only [react, State.onServiceRemoval] at hout
        split at hout <;> simp [State.callHandlers] at hout
      | localRemoved d =>
        simp only [react, State.notifyServiceRemoved, State.onServiceRemoval] at hout
        split at hout <;> simp [State.callHandlers] at hout
      | disconnected p =>
        simp only [react, State.onParticipantRemoval] at hout
        split at hout <;> simp [State.callHandlers, State.removeAll] at hout
      | register => simp [react, State.registerHandler] at hout

/-- **C11 (identity).** Services are identified by their printed name; if no name contains a slash, that is the identity one
expects. -/
theorem C11_names_identify_services (a b : Desc) (ha : SlashFree a) (hb : SlashFree b) :
    ident a = ident b ↔ SameService a b := by
  have hname : ∀ t : ServiceType, '/' ∉ t.name.toList := by intro t; cases t <;> decide
  have free : ∀ d, SlashFree d → ∀ p ∈ d.parts, '/' ∉ p.toList := by
    intro d hd p hp
    unfold Desc.parts at hp
    simp only [List.mem_cons] at hp
    rcases hp with rfl | rfl | hp
    · exact hd _ (by simp)
    · exact hname _
    · apply hd
      split at hp <;> simp at hp <;> grind
  constructor
  · intro h
    have hparts : a.parts = b.parts := by
      refine joinSlash_inj _ _ (free a ha) (free b hb) (by simp [Desc.parts]) (by simp [Desc.parts]) ?_
      exact congrArg Prod.snd h
    have h2 : a.type.name = b.type.name := by
      have := congrArg (fun l => l[1]?) hparts
      simpa [Desc.parts] using this
    have ht : a.type = b.type := by
      revert h2
      cases a.type <;> cases b.type <;> simp [ServiceType.name]
    refine ⟨congrArg Prod.fst h, ht, ?_⟩
    unfold Desc.parts at hparts
    rw [← ht] at hparts
    cases hta : a.type <;> simp [hta] at hparts <;> simp [hparts]
  · rintro ⟨h1, h2, h3, h4, h5, h6⟩
    have hparts : a.parts = b.parts := by
      unfold Desc.parts
      rw [← h2, ← h1]
      cases hta : a.type <;> simp [hta] at h3 h4 h5 h6 <;> simp [*]
    simp [ident, Desc.key, h1, hparts]

/-- **Names with slashes collide.** Two CAN controllers of one participant, `b` on network `n/a` and `a/b` on network `n`, have
the same identity: handlers are never told about the second one. -/
theorem C11_slash_in_name_hides_a_service :
    let c1 : Desc := { participant := "P", type := .controller, controllerType := "CanController", network := "n/a", service := "b", serviceId := 1 }
    let c2 : Desc := { participant := "P", type := .controller, controllerType := "CanController", network := "n", service := "a/b", serviceId := 2 }
    (run "Me" [.register, .remoteCreated c1, .remoteCreated c2]).2 = [.store true c1, .call 0 true c1] := by
  decide +kernel

/-- A service used in the examples. -/
def canOf (p s : String) : Desc := { participant := p, type := .controller, controllerType := "CanController", network := "n", service := s }

/-- A history meeting the hypotheses of the theorems above: duplicate announcements, a removal, a disconnect, a late handler. -/
example :
    let h : List Op := [.register, .announcement "P" [canOf "P" "a", canOf "P" "b"], .remoteCreated (canOf "P" "a"),
      .remoteRemoved (canOf "P" "b"), .remoteCreated (canOf "P" "b"), .register, .localCreated (canOf "Me" "x"),
      .disconnected "P", .remoteCreated (canOf "P" "a")]
    (∀ op ∈ h, op.Honest) ∧
    heard 0 (ident (canOf "P" "b")) (run "Me" h).2 = [true, false, true, false] ∧
    heard 1 (ident (canOf "P" "b")) (run "Me" h).2 = [true, false] ∧
    heard 1 (ident (canOf "P" "a")) (run "Me" h).2 = [true, false, true] ∧
    alive "Me" h (ident (canOf "P" "a")) = true ∧
    SlashFree (canOf "P" "a") := by
  refine ⟨?_, by decide +kernel, by decide +kernel, by decide +kernel, by decide +kernel, by rintro s (rfl | rfl | rfl | rfl | rfl) <;> decide⟩
  intro op hop
  simp only [List.mem_cons, List.not_mem_nil, or_false] at hop
  rcases hop with rfl | rfl | rfl | rfl | rfl | rfl | rfl | rfl | rfl <;> simp [Op.Honest, canOf]

/-- An announcement is really sent: a new participant's discovery service appears. -/
example :
    let sd : Desc := { participant := "P", type := .internalController, service := "ServiceDiscovery", controllerType := "ServiceDiscovery" }
    Output.announce "P" "Me" [canOf "Me" "x"] ∈ (run "Me" [.localCreated (canOf "Me" "x"), .remoteCreated sd]).2 := by
  decide +kernel

end SilKit.Props
