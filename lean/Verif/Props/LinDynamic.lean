import Verif.Lemmas.LinDynamic
import Verif.Lemmas.LinReject
/-!
# Dynamic LIN responses (C78)

`h` is an arbitrary history of `k` LIN controllers on a network without network simulation: calls of the API, and deliveries of messages and of subscriptions in
any order. Some controllers may be dynamic (`InitDynamic`), others not (`Init`). `busReports i t` is what controller `i` reports to its handlers, and
`confAt i t` what its user has configured.
-/
namespace SilKit.Props
open SilKit.Lin SilKit.Lin.Spec SilKit.Handling.Spec

section
variable {k : Nat} {net : String} {h : List Act} {m : Nat} {id : Nat} {ds ds' : List Act}

/-- The master `m` sends the header `id`, and then all messages are delivered. If nobody but the controller `r` has ever offered a response to it, and `r` is
dynamic, then every dynamic controller - the master too, if it is one - reports the header, exactly once, and nothing else is reported by anybody.

Missing: identifiers to which several controllers have responded, see `C78_counterexample_second_responder`. -/
theorem C78_header_is_reported_to_all_partial {r : Nat} (hp : Unsimulated (h ++ [.api m (.sendFrameHeader id)])) (ho : OpenFirst k (h ++ [.api m (.sendFrameHeader id)]))
    (hm : m < k) (hs : Settled k net h) (ha : (confAt m (trace k net h)).asks) (hone : ∀ i a, Act.api i a ∈ h → a.offers id → i = r)
    (hdyn : ((confAt r (trace k net h)).resp id).mode = .tx → (confAt r (trace k net h)).isDynamic = true)
    (hds : Deliveries ds) (hend : Settled k net (h ++ [.api m (.sendFrameHeader id)] ++ ds)) {i : Nat} (hi : i < k) :
    busReports i (trace k net (h ++ [.api m (.sendFrameHeader id)] ++ ds)) = busReports i (trace k net h) ++
      if (confAt i (trace k net h)).isDynamic = true then [.header id] else [] :=
  header_heard hp ho hm hs ha hone hdyn hds hend hi

/-- The first request for `id`: nobody has offered a response. -/
theorem C78_first_header_is_reported_to_all (hp : Unsimulated (h ++ [.api m (.sendFrameHeader id)])) (ho : OpenFirst k (h ++ [.api m (.sendFrameHeader id)]))
    (hm : m < k) (hs : Settled k net h) (ha : (confAt m (trace k net h)).asks) (hno : ∀ i a, Act.api i a ∈ h → ¬ a.offers id)
    (hds : Deliveries ds) (hend : Settled k net (h ++ [.api m (.sendFrameHeader id)] ++ ds)) {i : Nat} (hi : i < k) :
    busReports i (trace k net (h ++ [.api m (.sendFrameHeader id)] ++ ds)) = busReports i (trace k net h) ++
      if (confAt i (trace k net h)).isDynamic = true then [.header id] else [] :=
  header_heard (r := k) hp ho hm hs ha (fun i a hx hf => absurd hf (hno i a hx))
    (fun ht => absurd ((DI.run (k := k) (net := net) (O := fun _ => False) (unsimulated_prefix hp) fun i a hx hf => hno i a hx hf).conf k ht) fun h => h) hds hend hi

/-- Everybody knows of every dynamic slave. -/
theorem C78_dynamic_slaves_are_known (hp : Unsimulated h) (ho : OpenFirst k h) (hs : Settled k net h) {i j : Nat} (hi : i < k) (hj : j < k) (hij : i ≠ j)
    (hm : (confAt i (trace k net h)).mode = .slave) (hd : (confAt i (trace k net h)).isDynamic = true) : i ∈ (confAt j (trace k net h)).dynamics :=
  dynamic_known hp ho hs hi hj hij hm hd

/-- The same in terms of what the users have done only: the master `m`, dynamic or not, sends a header nobody has offered a response to. Every dynamic slave `d`
reports it. -/
theorem C78_dynamic_slave_gets_the_header {d : Nat} (hp : Unsimulated (h ++ [.api m (.sendFrameHeader id)])) (ho : OpenFirst k (h ++ [.api m (.sendFrameHeader id)]))
    (hm : m < k) (hs : Settled k net h) (hmm : (confAt m (trace k net h)).mode = .master) (hno : ∀ i a, Act.api i a ∈ h → ¬ a.offers id)
    (hds : Deliveries ds) (hend : Settled k net (h ++ [.api m (.sendFrameHeader id)] ++ ds)) (hd : d < k)
    (hdm : (confAt d (trace k net h)).mode = .slave) (hdd : (confAt d (trace k net h)).isDynamic = true) :
    busReports d (trace k net (h ++ [.api m (.sendFrameHeader id)] ++ ds)) = busReports d (trace k net h) ++ [.header id] := by
  have hne : d ≠ m := by rintro rfl; rw [hmm] at hdm; cases hdm
  have ha : (confAt m (trace k net h)).asks :=
    ⟨hmm, .inr (List.ne_nil_of_mem (dynamic_known (unsimulated_prefix hp) (openFirst_prefix ho) hs hd hm hne hdm hdd))⟩
  rw [C78_first_header_is_reported_to_all hp ho hm hs ha hno hds hend hd, if_pos hdd]

/-- The controller `r` gives the response `f`, and then all messages are delivered: `r` reports the transmission of `f`, every other dynamic controller that
is awake its reception, and the others what they are configured to (`hears`); each of them exactly once. -/
theorem C78_response_is_received_by_all {r : Nat} {f : Frame} (hp : Unsimulated (h ++ [.api r (.sendDynamicResponse f)]))
    (ho : OpenFirst k (h ++ [.api r (.sendDynamicResponse f)])) (hr : r < k) (hs : Settled k net h) (hl : f.dataLength ≠ lengthUnknown)
    (hds : Deliveries ds) (hend : Settled k net (h ++ [.api r (.sendDynamicResponse f)] ++ ds)) {i : Nat} (hi : i < k) :
    busReports i (trace k net (h ++ [.api r (.sendDynamicResponse f)] ++ ds)) = busReports i (trace k net h) ++
      if i = r then [.frame f .txOk] else (confAt i (trace k net h)).hears f .rxOk :=
  response_heard hp ho hr hs hl hds hend hi

/-- A dynamic controller that is awake reports the frame as it was sent. -/
theorem C78_dynamic_controllers_receive_every_response {r : Nat} {f : Frame} (hp : Unsimulated (h ++ [.api r (.sendDynamicResponse f)]))
    (ho : OpenFirst k (h ++ [.api r (.sendDynamicResponse f)])) (hr : r < k) (hs : Settled k net h) (hl : f.dataLength ≤ 8)
    (hds : Deliveries ds) (hend : Settled k net (h ++ [.api r (.sendDynamicResponse f)] ++ ds)) {i : Nat} (hi : i < k) (hir : i ≠ r)
    (hd : (confAt i (trace k net h)).isDynamic = true) (haw : (confAt i (trace k net h)).asleep = false) :
    ∃ sleep, busReports i (trace k net (h ++ [.api r (.sendDynamicResponse f)] ++ ds)) = busReports i (trace k net h) ++ .frame f .rxOk :: sleep ∧
      (f.data ≠ goToSleepFrame.data → sleep = []) := by
  have hne : f.dataLength ≠ lengthUnknown := by intro e; rw [e] at hl; exact absurd hl (by decide)
  rw [response_heard hp ho hr hs hne hds hend hi, if_neg hir, Conf.hears, if_neg (by rw [hd]; simp), if_neg (by rw [haw]; simp; omega)]
  exact ⟨_, rfl, fun hn => if_neg fun h => hn h.2.2⟩

/-- A round: the master sends a header, it is delivered, `r` responds, and the response is delivered. -/
theorem C78_round_partial {r : Nat} {f : Frame}
    (hp : Unsimulated (h ++ [.api m (.sendFrameHeader id)] ++ ds ++ [.api r (.sendDynamicResponse f)]))
    (ho : OpenFirst k (h ++ [.api m (.sendFrameHeader id)] ++ ds ++ [.api r (.sendDynamicResponse f)]))
    (hm : m < k) (hr : r < k) (hs : Settled k net h) (ha : (confAt m (trace k net h)).asks) (hone : ∀ i a, Act.api i a ∈ h → a.offers id → i = r)
    (hdyn : ((confAt r (trace k net h)).resp id).mode = .tx → (confAt r (trace k net h)).isDynamic = true) (hl : f.dataLength ≠ lengthUnknown)
    (hds : Deliveries ds) (hmid : Settled k net (h ++ [.api m (.sendFrameHeader id)] ++ ds)) (hds' : Deliveries ds')
    (hend : Settled k net (h ++ [.api m (.sendFrameHeader id)] ++ ds ++ [.api r (.sendDynamicResponse f)] ++ ds')) {i : Nat} (hi : i < k) :
    busReports i (trace k net (h ++ [.api m (.sendFrameHeader id)] ++ ds ++ [.api r (.sendDynamicResponse f)] ++ ds')) =
      busReports i (trace k net h) ++ (if (confAt i (trace k net h)).isDynamic = true then [.header id] else []) ++
        (if i = r then [.frame f .txOk] else (confAt i (trace k net (h ++ [.api m (.sendFrameHeader id)] ++ ds))).hears f .rxOk) := by
  have hp0 : Unsimulated (h ++ [.api m (.sendFrameHeader id)]) := ⟨fun i a hx => hp.1 i a (by
    simp only [List.mem_append] at hx ⊢
    exact .inl (.inl hx)), fun i j hx => hp.2 i j (by
    simp only [List.mem_append] at hx ⊢
    exact .inl (.inl hx))⟩
  have ho0 : OpenFirst k (h ++ [.api m (.sendFrameHeader id)]) := by
    intro pre i a post e
    exact ho pre i a (post ++ ds ++ [.api r (.sendDynamicResponse f)]) (by rw [e]; simp)
  rw [response_heard hp ho hr hmid hl hds' hend hi, header_heard hp0 ho0 hm hs ha hone hdyn hds hmid hi]

/-- `SendDynamicResponse` is never rejected, whatever has happened to the controller, if the length of the frame is known: not before `Init`, not at a controller
that is not dynamic, and not without a header that it could respond to - although all of these should throw. -/
theorem C78_response_is_never_rejected (i : Nat) (net : String) (h : List Input) (hv : ∀ x ∈ h, Input.Valid i x) (f : Frame) (hid : f.id < 64)
    (hl : f.dataLength ≠ lengthUnknown) : ∃ os, (solo i net (h ++ [.call (.sendDynamicResponse f)])).2 = (solo i net h).2 ++ os ∧ Handling.Out.did Did.threw ∉ os ∧
      tolds os = [.frame f .txOk] := by
  obtain ⟨h1, h2, h3⟩ := solo_Q i net h hv
  obtain ⟨_, d2, d3⟩ := dynamic_response h2 h3 hid hl
  have e : (solo i net h).1.api (.sendDynamicResponse f) = (solo i net h).1.apiAlive (.sendDynamicResponse f) := by rw [Ctl.api, if_neg (by simp [h1])]
  refine ⟨_, ?_, d3, d2⟩
  rw [solo_append]
  simp only [onInput, Ctl.input, e]

end

/-! ## Non-vacuity -/

private def Unsimulated.ok : Act → Bool
  | .api _ a => match a with
    | .sim _ => false
    | .sendFrame f _ | .updateTxBuffer f | .sendDynamicResponse f => decide (f.id < 64)
    | .sendFrameHeader id => decide (id < 64)
    | _ => true
  | .close _ _ => false
  | _ => true

private theorem unsimulated_of (h : List Act) (e : h.all Unsimulated.ok = true) : Unsimulated h := by
  rw [List.all_eq_true] at e
  refine ⟨fun i a ha => ?_, fun i j hc => by have := e _ hc; simp [Unsimulated.ok] at this⟩
  have := e _ ha
  cases a <;> simp_all [Unsimulated.ok, Call.Valid, Call.noSim]

private def dynOpens : List Act :=
  (List.range 3).flatMap fun i => (List.range 3).flatMap fun j =>
    [Ty.frameRequest, .header, .transmission, .wakeup, .config, .responses, .status].map fun ty => .open i j ty

private def dynNoApi : Act → Bool
  | .api _ _ => false
  | _ => true

private theorem dynOpenFirst (rest : List Act) : OpenFirst 3 (dynOpens ++ rest) := by
  intro pre i a post e hi j hj hji ty
  have hno : dynOpens.all dynNoApi = true := by decide +kernel
  have hmem : Act.open i j ty ∈ dynOpens := by
    simp only [dynOpens, List.mem_flatMap, List.mem_range, List.mem_map]
    exact ⟨i, hi, j, hj, ty, by cases ty <;> simp, rfl⟩
  rcases List.append_eq_append_iff.1 e with ⟨c, e1, e2⟩ | ⟨c, e1, e2⟩
  · rw [e1]; simp [hmem]
  · cases c with
    | nil => rw [List.append_nil] at e1; rw [← e1]; exact hmem
    | cons x t =>
      rw [List.cons_append] at e2
      injection e2 with e2 _
      have := List.all_eq_true.1 hno x (by rw [e1]; simp)
      rw [← e2] at this
      simp [dynNoApi] at this

private theorem dynSettled (net : String) (h : List Act) (e : ((List.range 3).all fun i => (List.range 3).all fun j => ((run 3 net h).1.chan i j).isEmpty) = true) :
    Settled 3 net h := by
  intro i j
  by_cases hij : i < 3 ∧ j < 3
  · rw [List.all_eq_true] at e
    have := e i (List.mem_range.2 hij.1)
    rw [List.all_eq_true] at this
    exact List.isEmpty_iff.1 (this j (List.mem_range.2 hij.2))
  · exact (chan_self 3 net h).2.2 i j hij

private def dynData (x : Nat) : List Nat := x :: List.replicate 7 0

/-- A dynamic master and two dynamic slaves. -/
private def dynSetup : List Act :=
  dynOpens ++ [.api 0 (.initDynamic .master), .api 1 (.initDynamic .slave), .api 2 (.initDynamic .slave), .deliver 1 0, .deliver 1 2, .deliver 2 0, .deliver 2 1]

/-- Everybody receives all messages of `i`. -/
private def dynAll (i : Nat) : List Act := (List.range 3).flatMap fun j => [.deliver i j, .deliver i j]

private theorem dynAll_deliveries (i : Nat) : Deliveries (dynAll i) := by
  intro a ha
  simp only [dynAll, List.mem_flatMap, List.mem_cons, List.not_mem_nil, or_false] at ha
  obtain ⟨j, _, h | h⟩ := ha <;> exact ⟨i, j, h⟩

private def dynFrame (x : Nat) : Frame := ⟨5, .classic, 8, dynData x⟩

private def dynHeader : List Act := dynSetup ++ [.api 0 (.sendFrameHeader 5)] ++ dynAll 0

/-- The hypotheses of `C78_first_header_is_reported_to_all` and `C78_round_partial` hold, and this is what is reported. -/
example : Unsimulated (dynHeader ++ [.api 1 (.sendDynamicResponse (dynFrame 1))]) ∧ OpenFirst 3 (dynHeader ++ [.api 1 (.sendDynamicResponse (dynFrame 1))]) ∧
    Settled 3 "LIN1" dynSetup ∧ (confAt 0 (trace 3 "LIN1" dynSetup)).asks ∧ (∀ i a, Act.api i a ∈ dynSetup → ¬ a.offers 5) ∧ Settled 3 "LIN1" dynHeader ∧
    Settled 3 "LIN1" (dynHeader ++ [.api 1 (.sendDynamicResponse (dynFrame 1))] ++ dynAll 1) := by
  refine ⟨unsimulated_of _ (by decide +kernel), ?_, dynSettled _ _ (by decide +kernel), ⟨by decide +kernel, .inl (by decide +kernel)⟩, ?_, dynSettled _ _ (by decide +kernel),
    dynSettled _ _ (by decide +kernel)⟩
  · rw [dynHeader, dynSetup]
    simp only [List.append_assoc]
    exact dynOpenFirst _
  · intro i a ha
    rw [dynSetup, List.mem_append] at ha
    rcases ha with ha | ha
    · have hno : dynOpens.all dynNoApi = true := by decide +kernel
      have := List.all_eq_true.1 hno _ ha
      simp [dynNoApi] at this
    · simp only [List.mem_cons, Act.api.injEq, List.not_mem_nil, or_false, reduceCtorEq] at ha
      rcases ha with ⟨_, rfl⟩ | ⟨_, rfl⟩ | ⟨_, rfl⟩ <;> simp [Call.offers]

private def dynRound : List Act := dynHeader ++ [.api 1 (.sendDynamicResponse (dynFrame 1))] ++ dynAll 1

example : busReports 0 (trace 3 "LIN1" dynRound) = [.header 5, .frame (dynFrame 1) .rxOk] ∧ busReports 1 (trace 3 "LIN1" dynRound) = [.header 5, .frame (dynFrame 1) .txOk] ∧
    busReports 2 (trace 3 "LIN1" dynRound) = [.header 5, .frame (dynFrame 1) .rxOk] := by decide +kernel

/-- A second round with the same responder: the first theorem applies again. -/
example : busReports 2 (trace 3 "LIN1" (dynRound ++ [.api 0 (.sendFrameHeader 5)] ++ dynAll 0 ++ [.api 1 (.sendDynamicResponse (dynFrame 7))] ++ dynAll 1)) =
    [.header 5, .frame (dynFrame 1) .rxOk, .header 5, .frame (dynFrame 7) .rxOk] := by decide +kernel

/-- A master that is not dynamic, and two slaves that are. -/
private def dynStatic : List Act :=
  dynOpens ++ [.api 0 (.init .master []), .api 1 (.initDynamic .slave), .api 2 (.initDynamic .slave)] ++ dynAll 0 ++ dynAll 1 ++ dynAll 2

/-- The hypotheses of `C78_dynamic_slave_gets_the_header` hold, and this is what is reported. -/
example : Settled 3 "LIN1" dynStatic ∧ (confAt 0 (trace 3 "LIN1" dynStatic)).mode = .master ∧ (confAt 0 (trace 3 "LIN1" dynStatic)).isDynamic = false ∧
    (confAt 1 (trace 3 "LIN1" dynStatic)).mode = .slave ∧ (confAt 1 (trace 3 "LIN1" dynStatic)).isDynamic = true ∧
    Settled 3 "LIN1" (dynStatic ++ [.api 0 (.sendFrameHeader 5)] ++ dynAll 0) ∧
    busReports 0 (trace 3 "LIN1" (dynStatic ++ [.api 0 (.sendFrameHeader 5)] ++ dynAll 0)) = [] ∧
    busReports 1 (trace 3 "LIN1" (dynStatic ++ [.api 0 (.sendFrameHeader 5)] ++ dynAll 0)) = [.header 5] ∧
    busReports 2 (trace 3 "LIN1" (dynStatic ++ [.api 0 (.sendFrameHeader 5)] ++ dynAll 0)) = [.header 5] :=
  ⟨dynSettled _ _ (by decide +kernel), by decide +kernel, by decide +kernel, by decide +kernel, by decide +kernel, dynSettled _ _ (by decide +kernel), by decide +kernel,
    by decide +kernel, by decide +kernel⟩

/-! ## Counterexamples: what the code does instead -/

private def dynSecond : List Act :=
  dynRound ++ [.api 0 (.sendFrameHeader 5)] ++ dynAll 0 ++ [.api 2 (.sendDynamicResponse (dynFrame 2))] ++ dynAll 2 ++ [.api 0 (.sendFrameHeader 5)] ++ dynAll 0

/-- Two slaves have responded to the same identifier, each to another header. From then on, the master takes both of them for responders: the third header is never
sent, and everybody reports an error. -/
theorem C78_counterexample_second_responder :
    busReports 0 (trace 3 "LIN1" dynSecond) = [.header 5, .frame (dynFrame 1) .rxOk, .header 5, .frame (dynFrame 2) .rxOk, .frame (dynFrame 2) .rxError] ∧
    busReports 1 (trace 3 "LIN1" dynSecond) = [.header 5, .frame (dynFrame 1) .txOk, .header 5, .frame (dynFrame 2) .rxOk, .frame (dynFrame 2) .rxError] ∧
    Settled 3 "LIN1" dynSecond := ⟨by decide +kernel, by decide +kernel, dynSettled _ _ (by decide +kernel)⟩

/-- Both slaves respond to one header: two good frames are reported, and no error. -/
theorem C78_counterexample_two_responses :
    let t := trace 3 "LIN1" (dynRound ++ [.api 2 (.sendDynamicResponse (dynFrame 2))] ++ dynAll 2)
    busReports 0 t = [.header 5, .frame (dynFrame 1) .rxOk, .frame (dynFrame 2) .rxOk] ∧
    busReports 1 t = [.header 5, .frame (dynFrame 1) .txOk, .frame (dynFrame 2) .rxOk] := by decide +kernel

/-- Nobody responds: nothing is reported, neither then nor when the next header is sent. -/
theorem C78_counterexample_no_response_is_not_reported :
    busReports 0 (trace 3 "LIN1" (dynHeader ++ [.api 0 (.sendFrameHeader 6)] ++ dynAll 0)) = [.header 5, .header 6] := by decide +kernel

/-- A response without a header, and one to another header than the last: not rejected, and received by the others. -/
theorem C78_counterexample_response_without_header :
    busReports 0 (trace 3 "LIN1" (dynSetup ++ [.api 1 (.sendDynamicResponse (dynFrame 1))] ++ dynAll 1)) = [.frame (dynFrame 1) .rxOk] ∧
    busReports 0 (trace 3 "LIN1" (dynSetup ++ [.api 0 (.sendFrameHeader 6)] ++ dynAll 0 ++ [.api 1 (.sendDynamicResponse (dynFrame 1))] ++ dynAll 1)) =
      [.header 6, .frame (dynFrame 1) .rxOk] := by decide +kernel

/-- A response of unknown length is rejected, but the controller counts as a responder from then on: together with the good response of another one, the next header
is not sent. -/
theorem C78_counterexample_rejected_response_counts :
    let h := dynHeader ++ [.api 1 (.sendDynamicResponse ⟨5, .classic, lengthUnknown, dynData 1⟩)] ++ dynAll 1
    Handling.Out.did .threw ∈ outs 1 (trace 3 "LIN1" h) ∧ busReports 0 (trace 3 "LIN1" h) = [.header 5] ∧
    busReports 0 (trace 3 "LIN1" (h ++ [.api 2 (.sendDynamicResponse (dynFrame 2))] ++ dynAll 2 ++ [.api 0 (.sendFrameHeader 5)] ++ dynAll 0)) =
      [.header 5, .frame (dynFrame 2) .rxOk, .frame (dynFrame 2) .rxError] := by decide +kernel

end SilKit.Props
