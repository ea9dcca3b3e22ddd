import Verif.Lemmas.Replay
import Verif.Props.Pcap
/-!
# Replaying recorded messages (C45, C46)

`run files (pre ++ .create c :: post)` is a history of a participant with the trace sources `files`, in which the controller `c` is created between `pre` and
`post`. Its second component are the effects.
-/
namespace SilKit.Props
open SilKit.Replay SilKit.Replay.Spec

/-- When the replay is active for sending and for receiving: if it is configured for this direction or for both. -/
theorem replay_active_iff (cfg : Config) :
    (enabledFor cfg .send = true ↔ cfg.direction = .send ∨ cfg.direction = .both) ∧
    (enabledFor cfg .receive = true ↔ cfg.direction = .receive ∨ cfg.direction = .both) := by
  obtain ⟨d, n⟩ := cfg
  cases d <;> simp [enabledFor]

/-- If the replay of a controller is active for sending, then it sends what is due among the recorded messages, and nothing else: no message that the user
sends. -/
theorem replay_sends (files : List (Nat × List Msg)) (c : Ctl) (pre post : List In) (hc : CreatedOnce c pre post) (hs : Contiguous (steps (pre ++ post)))
    (hk : c.kind ≠ .subscriber) (he : enabledFor c.cfg .send = true) (n : Nat) (ms : List Msg) (hn : c.cfg.source = some n) (hl : files.lookup n = some ms) :
    (sends c.id (run files (pre ++ .create c :: post)).2).map (·.2) = ((due ms pre post).filter (fun m => decide (m.dir = .tx))).map (·.data) := by
  obtain ⟨hch, hv⟩ := channel_of he hn hl
  rw [sends_eq, due_eq]
  induction post using snoc_induction with
  | nil => rw [(after_init hc.1).2]; rfl
  | snoc post i ih =>
    obtain ⟨new, h1, h2⟩ := sends_snoc (files := files) hc hs
    obtain ⟨hc0, hs0⟩ := prefix_hyps hc hs
    have ih := ih hc0 hs0
    rw [h2, sentOf_append, List.map_append, ih]
    have hother : ∀ j : In, steps [j] = [] → i = j → sentOf (effectOf c (nowAfter (pre ++ post)) new j) = [] →
        List.map (·.data) (List.filter (fun m => decide (m.dir = .tx)) (upTo (bound pre post) ms)) ++ (sentOf (effectOf c (nowAfter (pre ++ post)) new i)).map (·.2) =
        List.map (·.data) (List.filter (fun m => decide (m.dir = .tx)) (upTo (bound pre (post ++ [i])) ms)) := by
      intro j hj hij hz
      rw [hij, hz, bound_other _ _ _ hj]
      simp
    cases i with
    | create c' => exact hother _ rfl rfl rfl
    | step nn d =>
      unfold newDue at h1
      rw [hch] at h1
      simp only at h1
      rw [h1, List.filter_append, List.map_append]
      congr 1
      show (sentOf (new.flatMap (fun m => replayMessage c.kind c.cfg nn m))).map (·.2) = _
      rw [sentOf_replay hk he hv, List.map_map]
      rfl
    | send j data =>
      refine hother _ rfl rfl ?_
      show sentOf (if j = c.id then userSend c.kind c.cfg _ data else []) = []
      unfold userSend
      split
      · cases hkk : c.kind <;> simp [he, sentOf] at hk ⊢
      · rfl
    | receive j t data =>
      refine hother _ rfl rfl ?_
      show sentOf (if j = c.id then networkReceive c.kind c.cfg t data else []) = []
      unfold networkReceive
      split
      · cases c.kind <;> cases enabledFor c.cfg .receive <;> simp [sentOf]
      · rfl

/-- If the replay is active for receiving, then the handlers of the controller get what is due among the recorded messages, with the recorded times, and
nothing that arrives from other participants. -/
theorem replay_deliveries (files : List (Nat × List Msg)) (c : Ctl) (pre post : List In) (hc : CreatedOnce c pre post) (hs : Contiguous (steps (pre ++ post)))
    (hk : c.kind ≠ .publisher) (he : enabledFor c.cfg .receive = true) (n : Nat) (ms : List Msg) (hn : c.cfg.source = some n) (hl : files.lookup n = some ms) :
    deliveries c.id (run files (pre ++ .create c :: post)).2 = ((due ms pre post).filter (fun m => decide (m.dir = .rx))).map (fun m => (m.time, m.data)) := by
  obtain ⟨hch, hv⟩ := channel_of he hn hl
  rw [deliveries_eq, due_eq]
  induction post using snoc_induction with
  | nil => rw [(after_init hc.1).2]; rfl
  | snoc post i ih =>
    obtain ⟨new, h1, h2⟩ := sends_snoc (files := files) hc hs
    obtain ⟨hc0, hs0⟩ := prefix_hyps hc hs
    have ih := ih hc0 hs0
    rw [h2, deliveredOf_append, ih]
    have hother : ∀ j : In, steps [j] = [] → i = j → deliveredOf (effectOf c (nowAfter (pre ++ post)) new j) = [] →
        List.map (fun m => (m.time, m.data)) (List.filter (fun m => decide (m.dir = .rx)) (upTo (bound pre post) ms)) ++ deliveredOf (effectOf c (nowAfter (pre ++ post)) new i) =
        List.map (fun m => (m.time, m.data)) (List.filter (fun m => decide (m.dir = .rx)) (upTo (bound pre (post ++ [i])) ms)) := by
      intro j hj hij hz
      rw [hij, hz, bound_other _ _ _ hj]
      simp
    cases i with
    | create c' => exact hother _ rfl rfl rfl
    | step nn d =>
      unfold newDue at h1
      rw [hch] at h1
      simp only at h1
      rw [h1, List.filter_append, List.map_append]
      congr 1
      exact deliveredOf_replay hk he hv _ _
    | send j data =>
      refine hother _ rfl rfl ?_
      show deliveredOf (if j = c.id then userSend c.kind c.cfg _ data else []) = []
      unfold userSend
      split
      · cases c.kind <;> cases enabledFor c.cfg .send <;> simp [deliveredOf]
      · rfl
    | receive j t data =>
      refine hother _ rfl rfl ?_
      show deliveredOf (if j = c.id then networkReceive c.kind c.cfg t data else []) = []
      unfold networkReceive
      split
      · cases hkk : c.kind <;> simp [he, deliveredOf] at hk ⊢
      · rfl

/-- If the replay is not active for sending, then the controller sends exactly what the user sends, at once. -/
theorem replay_inactive_sends (files : List (Nat × List Msg)) (c : Ctl) (pre post : List In) (hc : CreatedOnce c pre post)
    (hs : Contiguous (steps (pre ++ post))) (hk : c.kind ≠ .subscriber) (he : enabledFor c.cfg .send = false) :
    sends c.id (run files (pre ++ .create c :: post)).2 = userSends c.id (nowAfter pre) post := by
  rw [sends_eq]
  induction post using snoc_induction with
  | nil => rw [(after_init hc.1).2]; rfl
  | snoc post i ih =>
    obtain ⟨new, _, h2⟩ := sends_snoc (files := files) hc hs
    obtain ⟨hc0, hs0⟩ := prefix_hyps hc hs
    rw [h2, sentOf_append, ih hc0 hs0, userSends_snoc, ← nowAfter_append]
    congr 1
    cases i with
    | create c' => rfl
    | step nn d => exact sentOf_no_replay he _ _
    | send j data =>
      show sentOf (if j = c.id then userSend c.kind c.cfg _ data else []) = if j = c.id then [(_, data)] else []
      unfold userSend
      split
      · cases hkk : c.kind <;> simp [he, sentOf, hkk] at hk ⊢
      · rfl
    | receive j t data =>
      show sentOf (if j = c.id then networkReceive c.kind c.cfg t data else []) = []
      unfold networkReceive
      split
      · cases c.kind <;> cases enabledFor c.cfg .receive <;> simp [sentOf]
      · rfl

/-- If the replay is not active for receiving, then the handlers get exactly what arrives. -/
theorem replay_inactive_deliveries (files : List (Nat × List Msg)) (c : Ctl) (pre post : List In) (hc : CreatedOnce c pre post)
    (hs : Contiguous (steps (pre ++ post))) (hk : c.kind ≠ .publisher) (he : enabledFor c.cfg .receive = false) :
    deliveries c.id (run files (pre ++ .create c :: post)).2 = arrivals c.id post := by
  rw [deliveries_eq]
  induction post using snoc_induction with
  | nil => rw [(after_init hc.1).2]; rfl
  | snoc post i ih =>
    obtain ⟨new, _, h2⟩ := sends_snoc (files := files) hc hs
    obtain ⟨hc0, hs0⟩ := prefix_hyps hc hs
    rw [h2, deliveredOf_append, ih hc0 hs0]
    have ha : arrivals c.id (post ++ [i]) = arrivals c.id post ++ arrivals c.id [i] := List.filterMap_append
    rw [ha]
    congr 1
    cases i with
    | create c' => rfl
    | step nn d => exact deliveredOf_no_replay he _ _
    | send j data =>
      show deliveredOf (if j = c.id then userSend c.kind c.cfg _ data else []) = []
      unfold userSend
      split
      · cases c.kind <;> cases enabledFor c.cfg .send <;> simp [deliveredOf]
      · rfl
    | receive j t data =>
      have : arrivals c.id [.receive j t data] = if j = c.id then [(t, data)] else [] := by
        unfold arrivals
        simp only [List.filterMap_cons, List.filterMap_nil]
        split <;> rename_i hx <;> split at hx <;> simp_all
      rw [this]
      show deliveredOf (if j = c.id then networkReceive c.kind c.cfg t data else []) = _
      unfold networkReceive
      split
      · cases hkk : c.kind <;> simp [he, deliveredOf, hkk] at hk ⊢
      · rfl

/-- The hypotheses are met by a participant that was configured to replay two messages and has made two steps. -/
example : ∃ (files : List (Nat × List Msg)) (c : Ctl) (post : List In) (ms : List Msg), CreatedOnce c [] post ∧ Contiguous (steps post) ∧
    enabledFor c.cfg .send = true ∧ c.cfg.source = some 1 ∧ files.lookup 1 = some ms ∧
    sends c.id (run files (.create c :: post)).2 = [(10, [1]), (15, [2])] ∧ due ms [] post = ms := by
  refine ⟨[(1, [⟨2, .tx, [1]⟩, ⟨5, .tx, [2]⟩])], ⟨7, .ethernet, ⟨.both, some 1⟩⟩, [.step 10 5, .send 7 [9], .step 15 5],
    [⟨2, .tx, [1]⟩, ⟨5, .tx, [2]⟩], ⟨by simp, by simp⟩, by simp [steps, Contiguous], by decide, rfl, rfl, by decide +kernel, by decide +kernel⟩

/-- The schedule: if the recorded messages are in the order of their times, then each step but the first one of the participant sends those whose time lies
within the step. Times count from the first step of the participant. -/
theorem replay_step (files : List (Nat × List Msg)) (c : Ctl) (pre post : List In) (now dur : Int) (hc : CreatedOnce c pre post)
    (hs : Contiguous (steps (pre ++ (post ++ [.step now dur])))) (hp : steps post ≠ [])
    (hk : c.kind ≠ .subscriber) (he : enabledFor c.cfg .send = true) (n : Nat) (ms : List Msg) (hn : c.cfg.source = some n) (hl : files.lookup n = some ms)
    (hsorted : ms.Pairwise (fun a b => a.time ≤ b.time)) :
    sends c.id (run files (pre ++ .create c :: (post ++ [.step now dur]))).2 = sends c.id (run files (pre ++ .create c :: post)).2 ++
      (ms.filter (fun m => decide (now ≤ startOf (steps (pre ++ post)) + m.time ∧ startOf (steps (pre ++ post)) + m.time < now + dur ∧ m.dir = .tx))).map
        (fun m => (now, m.data)) := by
  have hc' : CreatedOnce c pre (post ++ [.step now dur]) := ⟨hc.1, fun c' hm => hc.2 c' (by simpa using hm)⟩
  obtain ⟨hch, hv⟩ := channel_of he hn hl
  obtain ⟨new, h1, h2⟩ := sends_snoc (files := files) hc' hs
  rw [sends_eq, sends_eq, h2, sentOf_append]
  congr 1
  show sentOf (new.flatMap (fun m => replayMessage c.kind c.cfg now m)) = _
  rw [sentOf_replay hk he hv]
  have hsteps : steps (pre ++ (post ++ [.step now dur])) = steps (pre ++ post) ++ [(now, dur)] := by
    rw [← List.append_assoc, steps_append _ [.step now dur]]; rfl
  rw [hsteps] at hs
  obtain ⟨_, k2, k3⟩ := contiguous_snoc hs
  have hne : steps (pre ++ post) ≠ [] := by
    rw [steps_append]
    intro h0
    exact hp (List.append_eq_nil_iff.1 h0).2
  have hb1 : bound pre post = some (now - startOf (steps (pre ++ post))) := by
    unfold bound
    rw [if_neg hp, k3 hne]
  have hb2 : bound pre (post ++ [.step now dur]) = some (now + dur - startOf (steps (pre ++ post))) := by
    unfold bound
    rw [if_neg (by rw [steps_append]; show steps post ++ [(now, dur)] ≠ []; simp), hsteps, endOf_snoc, startOf_snoc' hne]
  unfold newDue at h1
  rw [hch, hb1, hb2] at h1
  simp only [upTo] at h1
  have hcut := upTo_mono ms (show now - startOf (steps (pre ++ post)) ≤ now + dur - startOf (steps (pre ++ post)) by omega)
  rw [hcut] at h1
  have hnew := (List.append_cancel_left h1).symm
  rw [hnew]
  generalize startOf (steps (pre ++ post)) = s0 at *
  clear h1 h2 hnew hcut hb1 hb2 hl hs hch
  induction ms with
  | nil => rfl
  | cons m ms ih =>
    have hrest := ih (List.pairwise_cons.1 hsorted).2
    have hle := (List.pairwise_cons.1 hsorted).1
    by_cases ha : m.time < now - s0
    · rw [List.dropWhile_cons, List.filter_cons (x := m)]
      simp only [ha, decide_true, if_true]
      rw [hrest, if_neg (by simp only [decide_eq_true_eq]; omega)]
    · have hall : ∀ x ∈ m :: ms, ¬ x.time < now - s0 := by
        intro x hx
        rcases List.mem_cons.1 hx with rfl | hx'
        · exact ha
        · have := hle x hx'; omega
      rw [List.dropWhile_cons]
      simp only [ha, decide_false, Bool.false_eq_true, if_false]
      clear hrest ih
      have htw : ∀ l : List Msg, l.Pairwise (fun a b => a.time ≤ b.time) → (∀ x ∈ l, ¬ x.time < now - s0) →
          (l.takeWhile (fun m => decide (m.time < now + dur - s0))).filter (fun m => decide (m.dir = .tx)) =
          l.filter (fun m => decide (now ≤ s0 + m.time ∧ s0 + m.time < now + dur ∧ m.dir = .tx)) := by
        intro l hl hx
        induction l with
        | nil => rfl
        | cons y l ih =>
          have hy := hx y (by simp)
          have ih := ih (List.pairwise_cons.1 hl).2 (fun x hm => hx x (by simp [hm]))
          by_cases hb : y.time < now + dur - s0
          · rw [List.takeWhile_cons]
            simp only [hb, decide_true, if_true]
            rw [List.filter_cons, List.filter_cons, ih]
            by_cases hd : y.dir = .tx
            · simp only [hd, decide_true, if_true, and_true]
              rw [if_pos (by simp only [decide_eq_true_eq]; omega)]
            · simp [hd]
          · rw [List.takeWhile_cons]
            simp only [hb, decide_false, Bool.false_eq_true, if_false, List.filter_nil]
            symm
            rw [List.filter_eq_nil_iff]
            intro x hm
            have : y.time ≤ x.time := by
              rcases List.mem_cons.1 hm with rfl | hm'
              · omega
              · exact (List.pairwise_cons.1 hl).1 x hm'
            simp only [decide_eq_true_eq]
            omega
      rw [htw _ hsorted hall]

/-- If the replay is configured for sending without a trace source, or if the participant has no such source, then the controller never sends anything. -/
theorem C45_sends_nothing_without_source (files : List (Nat × List Msg)) (c : Ctl) (pre post : List In) (hc : CreatedOnce c pre post)
    (hs : Contiguous (steps (pre ++ post))) (he : enabledFor c.cfg .send = true) (hn : ∀ n, c.cfg.source = some n → files.lookup n = none) :
    sends c.id (run files (pre ++ .create c :: post)).2 = [] := by
  have hch : channel files c.cfg = none := by
    unfold channel
    split
    · cases hsrc : c.cfg.source with
      | none => rfl
      | some n => exact hn n hsrc
    · rfl
  rw [sends_eq]
  induction post using snoc_induction with
  | nil => rw [(after_init hc.1).2]; rfl
  | snoc post i ih =>
    obtain ⟨new, h1, h2⟩ := sends_snoc (files := files) hc hs
    obtain ⟨hc0, hs0⟩ := prefix_hyps hc hs
    rw [h2, sentOf_append, ih hc0 hs0]
    unfold newDue at h1
    rw [hch] at h1
    simp only at h1
    cases i with
    | create c' => rfl
    | step nn d => rw [h1]; rfl
    | send j data =>
      show sentOf (if j = c.id then userSend c.kind c.cfg _ data else []) = []
      unfold userSend
      split
      · cases c.kind <;> simp [he, sentOf]
      · rfl
    | receive j t data =>
      show sentOf (if j = c.id then networkReceive c.kind c.cfg t data else []) = []
      unfold networkReceive
      split
      · cases c.kind <;> cases enabledFor c.cfg .receive <;> simp [sentOf]
      · rfl

/-- With trace sources, creating a controller throws exactly if its replay is configured, with a direction and a source, and there is no source of this name. -/
theorem C45_creation_throws_for_missing_source_only (s : State) (c : Ctl) :
    configure s c = none ↔ s.files ≠ [] ∧ c.cfg.direction ≠ .undefined ∧ ∃ n, c.cfg.source = some n ∧ ∀ ms, (n, ms) ∉ s.files := by
  have hl : ∀ n, s.files.lookup n = none ↔ ∀ ms, (n, ms) ∉ s.files := by
    intro n
    rw [List.lookup_eq_none_iff]
    constructor
    · intro h ms hm; simpa using h _ hm
    · intro h x hx
      have : n ≠ x.1 := fun e => h x.2 (by rw [e]; exact hx)
      simpa using this
  unfold configure valid
  cases hf : s.files with
  | nil => simp
  | cons f fs =>
    rw [← hf]
    have hne : s.files.isEmpty = false := by rw [hf]; rfl
    have hne' : s.files ≠ [] := by rw [hf]; simp
    cases hs : c.cfg.source with
    | none => simp [hne]
    | some n =>
      by_cases hd : c.cfg.direction = .undefined
      · simp [hne, hd]
      · have e : (∃ m, some n = some m ∧ ∀ ms, (m, ms) ∉ s.files) ↔ s.files.lookup n = none := by
          rw [hl]; exact ⟨fun ⟨m, h1, h2⟩ => by cases h1; exact h2, fun h => ⟨n, rfl, h⟩⟩
        rw [e]
        clear hl e hf
        rw [hne, if_neg (by simp), if_neg (by simp [hd]), Option.bind_some]
        cases s.files.lookup n with
        | none => exact ⟨fun _ => ⟨hne', hd, rfl⟩, fun _ => rfl⟩
        | some ms => exact ⟨fun h => (by cases h), fun h => (by cases h.2.2)⟩

example : configure { files := [(1, [])] } ⟨7, .can, ⟨.both, some 2⟩⟩ = none := by decide +kernel
example : configure { files := [(1, [])] } ⟨7, .can, ⟨.both, none⟩⟩ ≠ none := by decide +kernel

/-- Such a controller exists: the user sends, no message is sent, and the creation of the controller did not throw. -/
theorem C45_blocked_without_replay : ∃ (c : Ctl) (post : List In), configure { files := [] } c ≠ none ∧ Contiguous (steps post) ∧
    userSends c.id 0 post ≠ [] ∧ sends c.id (run [] (.create c :: post)).2 = [] :=
  ⟨⟨7, .ethernet, ⟨.send, some 1⟩⟩, [.step 0 5, .send 7 [9]], by decide, by simp [steps, Contiguous], by decide, by decide +kernel⟩

/-- The first step of a participant, after the controller was created. -/
theorem replay_first_step (files : List (Nat × List Msg)) (c : Ctl) (pre post : List In) (now dur : Int) (hc : CreatedOnce c pre post) (hd : 0 ≤ dur)
    (hp : steps (pre ++ post) = []) (hk : c.kind ≠ .subscriber) (he : enabledFor c.cfg .send = true) (n : Nat) (ms : List Msg)
    (hn : c.cfg.source = some n) (hl : files.lookup n = some ms) (hsorted : ms.Pairwise (fun a b => a.time ≤ b.time)) :
    sends c.id (run files (pre ++ .create c :: (post ++ [.step now dur]))).2 = sends c.id (run files (pre ++ .create c :: post)).2 ++
      (ms.filter (fun m => decide (m.time < dur ∧ m.dir = .tx))).map (fun m => (now, m.data)) := by
  have hc' : CreatedOnce c pre (post ++ [.step now dur]) := ⟨hc.1, fun c' hm => hc.2 c' (by simpa using hm)⟩
  have hsteps : steps (pre ++ (post ++ [.step now dur])) = [(now, dur)] := by
    rw [← List.append_assoc, steps_append _ [.step now dur], hp]; rfl
  have hs : Contiguous (steps (pre ++ (post ++ [.step now dur]))) := by rw [hsteps]; exact hd
  have hp2 : steps post = [] := by rw [steps_append] at hp; exact (List.append_eq_nil_iff.1 hp).2
  obtain ⟨hch, hv⟩ := channel_of he hn hl
  obtain ⟨new, h1, h2⟩ := sends_snoc (files := files) hc' hs
  rw [sends_eq, sends_eq, h2, sentOf_append]
  congr 1
  show sentOf (new.flatMap (fun m => replayMessage c.kind c.cfg now m)) = _
  rw [sentOf_replay hk he hv]
  have hb1 : bound pre post = none := by unfold bound; rw [if_pos hp2]
  have hb2 : bound pre (post ++ [.step now dur]) = some dur := by
    unfold bound
    rw [if_neg (by rw [steps_append]; show steps post ++ [(now, dur)] ≠ []; simp), hsteps]
    show some (now + dur - now) = some dur
    congr 1
    omega
  unfold newDue at h1
  rw [hch, hb1, hb2] at h1
  simp only [upTo, List.nil_append] at h1
  rw [← h1, takeWhile_sorted hsorted, List.filter_filter]
  congr 1
  apply List.filter_congr
  intro m _
  by_cases h : m.dir = .tx <;> simp [h]

/-- All that is replayed in a simulation, step by step. -/
theorem replay_schedule (files : List (Nat × List Msg)) (c : Ctl) (pre post : List In) (hc : CreatedOnce c pre post) (hpre : steps pre = [])
    (hs : Contiguous (steps post)) (hk : c.kind ≠ .subscriber) (he : enabledFor c.cfg .send = true) (n : Nat) (ms : List Msg)
    (hn : c.cfg.source = some n) (hl : files.lookup n = some ms) (hsorted : ms.Pairwise (fun a b => a.time ≤ b.time)) (hpos : ∀ m ∈ ms, 0 ≤ m.time) :
    sends c.id (run files (pre ++ .create c :: post)).2 = (steps post).flatMap (fun s =>
      (ms.filter (fun m => decide (s.1 ≤ startOf (steps post) + m.time ∧ startOf (steps post) + m.time < s.1 + s.2 ∧ m.dir = .tx))).map
        (fun m => (s.1, m.data))) := by
  have hsp : ∀ q, steps (pre ++ q) = steps q := fun q => by rw [steps_append, hpre, List.nil_append]
  induction post using snoc_induction with
  | nil => rw [sends_eq, (after_init hc.1).2]; rfl
  | snoc post i ih =>
    have hs' : Contiguous (steps (pre ++ (post ++ [i]))) := by rw [hsp]; exact hs
    obtain ⟨hc0, hs0⟩ := prefix_hyps hc hs'
    rw [hsp] at hs0
    have ih := ih hc0 hs0
    have hother : steps [i] = [] → (∀ new, sentOf (effectOf c (nowAfter (pre ++ post)) new i) = []) →
        sends c.id (run files (pre ++ .create c :: (post ++ [i]))).2 = sends c.id (run files (pre ++ .create c :: post)).2 ∧ steps (post ++ [i]) = steps post := by
      intro hi hz
      obtain ⟨new, h1, h2⟩ := sends_snoc (files := files) hc hs'
      rw [sends_eq, sends_eq, h2, sentOf_append, hz, List.append_nil, steps_append, hi, List.append_nil]
      exact ⟨rfl, rfl⟩
    cases i with
    | create c' =>
      obtain ⟨h1, h2⟩ := hother rfl (fun _ => rfl)
      rw [h1, h2]; exact ih
    | step nn d =>
      rw [steps_append] at hs
      have hsnoc : steps (post ++ [.step nn d]) = steps post ++ [(nn, d)] := by rw [steps_append]; rfl
      by_cases hp : steps post = []
      · rw [replay_first_step files c pre post nn d hc0 (by rw [hp] at hs; exact hs) (by rw [hsp, hp]) hk he n ms hn hl hsorted, ih, hsnoc, hp]
        show _ = (List.map _ (List.filter _ ms)) ++ []
        rw [List.append_nil]
        show List.map _ (List.filter _ ms) = _
        congr 1
        apply List.filter_congr
        intro m hm
        have := hpos m hm
        show decide _ = decide (nn ≤ nn + m.time ∧ nn + m.time < nn + d ∧ m.dir = .tx)
        rw [decide_eq_decide]
        constructor
        · rintro ⟨a, b⟩; exact ⟨by omega, by omega, b⟩
        · rintro ⟨_, a, b⟩; exact ⟨by omega, b⟩
      · rw [replay_step files c pre post nn d hc0 hs' hp hk he n ms hn hl hsorted, ih, hsnoc, List.flatMap_append, startOf_snoc' hp, hsp]
        congr 1
        show _ = (List.map _ (List.filter _ ms)) ++ []
        rw [List.append_nil]
    | send j data =>
      obtain ⟨h1, h2⟩ := hother rfl (fun _ => by
        show sentOf (if j = c.id then userSend c.kind c.cfg _ data else []) = []
        unfold userSend
        split
        · cases hkk : c.kind <;> simp [he, sentOf] at hk ⊢
        · rfl)
      rw [h1, h2]; exact ih
    | receive j t data =>
      obtain ⟨h1, h2⟩ := hother rfl (fun _ => by
        show sentOf (if j = c.id then networkReceive c.kind c.cfg t data else []) = []
        unfold networkReceive
        split
        · cases c.kind <;> cases enabledFor c.cfg .receive <;> simp [sentOf]
        · rfl)
      rw [h1, h2]; exact ih

/-- Recording and replaying (C46). An Ethernet controller `c` that does not replay is traced to a PCAP file. Another run of a simulation with the same steps
replays that file by the controller `c'`. If `c` did not receive any frames, the steps begin at multiples of a microsecond, and the first one at 0, then
`c'` sends the same frames at the same times. -/
theorem record_replay (files files' : List (Nat × List Msg)) (c c' : Ctl) (pre post pre' post' : List In) (sink : Pcap.Sink) (fs : List Pcap.Frame)
    (hc : CreatedOnce c pre post) (hc' : CreatedOnce c' pre' post') (hk : c.kind = .ethernet) (hk' : c'.kind = .ethernet)
    (he : c.cfg.direction = .undefined) (he' : enabledFor c'.cfg .send = true)
    (hpre : steps pre = []) (hpre' : steps pre' = []) (hsame : steps post' = steps post) (hs : Contiguous (steps post))
    (hstart : startOf (steps post) = 0) (hmicro : ∀ s ∈ steps post, s.1 % 1000 = 0 ∧ 0 < s.2)
    (hfs : fs = traced c.id (run files (pre ++ .create c :: post)).2) (hrx : arrivals c.id post = [])
    (hrec : ∀ f ∈ fs, Pcap.Spec.Recordable f)
    (n : Nat) (ms : List Msg) (hn : c'.cfg.source = some n) (hl : files'.lookup n = some ms)
    (hread : ∃ r gs, Pcap.openReader (sink.openFile.traceAll fs).file = .ok r ∧ Yields r gs ∧ ms = gs.map ofFrame) :
    sends c'.id (run files' (pre' ++ .create c' :: post')).2 = sends c.id (run files (pre ++ .create c :: post)).2 := by
  -- what the user sent
  have hfs : sends c.id (run files (pre ++ .create c :: post)).2 = fs.map (fun f => (f.time, f.raw)) := by
    rw [hfs]
    apply traced_sends
    rw [replay_inactive_deliveries files c pre post hc (by rw [steps_append, hpre]; exact hs) (by rw [hk]; decide) (by unfold enabledFor; rw [if_pos he]), hrx]
  have hu := replay_inactive_sends files c pre post hc (by rw [steps_append, hpre]; exact hs) (by rw [hk]; decide) (by unfold enabledFor; rw [if_pos he])
  have htimes : ∀ x ∈ sends c.id (run files (pre ++ .create c :: post)).2, ∃ s ∈ steps post, x.1 = s.1 := by
    intro x hx
    have hx' := hx
    rw [hu] at hx'
    rcases userSends_mem _ _ _ x hx' with h1 | h1
    · rw [hfs] at hx
      obtain ⟨f, hf, rfl⟩ := List.mem_map.1 hx
      have h0 := (hrec f hf).1
      have h2 : nowAfter pre = -2 ^ 63 := by unfold nowAfter; rw [hpre]; rfl
      have h3 : f.time = nowAfter pre := h1
      omega
    · exact h1
  have hsorted : (sends c.id (run files (pre ++ .create c :: post)).2).Pairwise (fun a b => a.1 ≤ b.1) := by
    rw [hu]
    refine userSends_sorted _ _ _ hs (fun s hx => ?_)
    have h2 : nowAfter pre = -2 ^ 63 := by unfold nowAfter; rw [hpre]; rfl
    have h3 : 0 ≤ s.1 := by
      generalize steps post = S at hs hstart hx
      cases S with
      | nil => cases hx
      | cons x S =>
        obtain ⟨n, d⟩ := x
        obtain ⟨h4, _, h5⟩ := contiguous_cons hs
        have h6 : n = 0 := hstart
        rcases List.mem_cons.1 hx with rfl | hx'
        · show 0 ≤ n; omega
        · have := h5 s hx'; omega
    omega
  rw [hfs] at htimes hsorted ⊢
  -- what is read
  obtain ⟨r, gs, h1, h2, h3⟩ := hread
  obtain ⟨r', h1', h2'⟩ := pcap_roundtrip_whole sink fs hrec
  have hrr : r' = r := by rw [h1] at h1'; cases h1'; rfl
  subst hrr
  have hrecorded : ∀ f ∈ fs, Pcap.Spec.recorded f = f := by
    intro f hf
    obtain ⟨s, hs1, hs2⟩ := htimes (f.time, f.raw) (List.mem_map.2 ⟨f, hf, rfl⟩)
    have := (hmicro s hs1).1
    have ht : f.time = s.1 := hs2
    unfold Pcap.Spec.recorded
    have : f.time / 1000 * 1000 = f.time := by omega
    rw [this]
  have hgs : gs = fs := by
    apply yields_unique h2
    intro k
    refine ⟨(h2' k).1, fun hx => ?_⟩
    rw [(h2' k).2 hx]
    cases hg : fs[k]? with
    | none => rfl
    | some f => rw [Option.map_some, hrecorded f (List.mem_of_getElem? hg)]
  subst hgs
  subst h3
  have hpos : ∀ m ∈ gs.map ofFrame, 0 ≤ m.time := by
    intro m hm
    obtain ⟨f, hf, rfl⟩ := List.mem_map.1 hm
    exact (hrec f hf).1
  have hsrt : (gs.map ofFrame).Pairwise (fun a b => a.time ≤ b.time) := by
    rw [List.pairwise_map] at hsorted ⊢
    exact hsorted
  rw [replay_schedule files' c' pre' post' hc' hpre' (by rw [hsame]; exact hs) (by rw [hk']; decide) he' n _ hn hl hsrt hpos, hsame, hstart]
  rw [← group_steps (steps post) hs (fun s h => (hmicro s h).2) _ hsorted htimes]
  apply flatMap_congr'
  intro s hm
  rw [List.filter_map, List.filter_map, List.map_map]
  have hfilter : gs.filter ((fun m => decide (s.1 ≤ 0 + m.time ∧ 0 + m.time < s.1 + s.2 ∧ m.dir = .tx)) ∘ ofFrame) =
      gs.filter ((fun x => decide (x.1 = s.1)) ∘ fun f => (f.time, f.raw)) := by
    apply List.filter_congr
    intro f hf
    obtain ⟨s', hs1, hs2⟩ := htimes (f.time, f.raw) (List.mem_map.2 ⟨f, hf, rfl⟩)
    have ht : f.time = s'.1 := hs2
    have hpos' := (hmicro s hm).2
    show decide (s.1 ≤ 0 + f.time ∧ 0 + f.time < s.1 + s.2 ∧ Dir.tx = .tx) = decide (f.time = s.1)
    rw [decide_eq_decide]
    constructor
    · rintro ⟨h1, h2, _⟩
      rw [ht]
      exact steps_disjoint hs (fun s h => (hmicro s h).2) hs1 hm (by omega) (by omega)
    · intro h
      exact ⟨by omega, by omega, rfl⟩
  rw [hfilter]
  apply List.map_congr_left
  intro f hf
  have : f.time = s.1 := by simpa using (List.mem_filter.1 hf).2
  show (s.1, f.raw) = (f.time, f.raw)
  rw [this]

/-- A simulation with steps of a millisecond, in which two frames are sent, recorded and replayed. -/
example : ∃ (c c' : Ctl) (post post' : List In) (fs : List Pcap.Frame), fs.length = 2 ∧
    c.cfg.direction = .undefined ∧ enabledFor c'.cfg .send = true ∧ c.kind = .ethernet ∧ c'.kind = .ethernet ∧
    steps post' = steps post ∧ Contiguous (steps post) ∧ startOf (steps post) = 0 ∧ (∀ s ∈ steps post, s.1 % 1000 = 0 ∧ 0 < s.2) ∧
    fs = traced c.id (run [] (.create c :: post)).2 ∧ arrivals c.id post = [] ∧ (∀ f ∈ fs, Pcap.Spec.Recordable f) ∧
    sends c'.id (run [(1, fs.map ofFrame)] (.create c' :: post')).2 = fs.map (fun f => (f.time, f.raw)) := by
  refine ⟨⟨7, .ethernet, {}⟩, ⟨8, .ethernet, ⟨.send, some 1⟩⟩, [.step 0 1000000, .send 7 [1], .step 1000000 1000000, .send 7 [2]],
    [.step 0 1000000, .step 1000000 1000000], [⟨0, [1]⟩, ⟨1000000, [2]⟩], rfl, by decide, by decide, rfl, rfl, rfl, by simp [steps, Contiguous], rfl,
    by simp [steps], by decide +kernel, rfl, ?_, by decide +kernel⟩
  intro f hf
  simp only [List.mem_cons, List.not_mem_nil, or_false] at hf
  rcases hf with rfl | rfl <;> exact ⟨by decide, by decide, by decide⟩

/-- If the steps do not begin at multiples of a microsecond, then a frame can be replayed a step too early: here it was sent in the second step, and is
replayed in the first one. -/
theorem C46_replayed_too_early : ∃ (c c' : Ctl) (post post' : List In) (fs gs : List Pcap.Frame) (r : Pcap.Reader),
    c.cfg.direction = .undefined ∧ enabledFor c'.cfg .send = true ∧ steps post' = steps post ∧ Contiguous (steps post) ∧ startOf (steps post) = 0 ∧
    (∀ s ∈ steps post, 0 < s.2) ∧ (∀ f ∈ fs, Pcap.Spec.Recordable f) ∧
    fs = traced c.id (run [] (.create c :: post)).2 ∧ arrivals c.id post = [] ∧
    Pcap.openReader (Pcap.Sink.traceAll (Pcap.Sink.openFile {}) fs).file = .ok r ∧ Yields r gs ∧
    sends c'.id (run [(1, gs.map ofFrame)] (.create c' :: post')).2 = [(0, [1])] ∧ fs.map (fun f => (f.time, f.raw)) = [(1500, [1])] := by
  have hrec : ∀ f ∈ ([⟨1500, [1]⟩] : List Pcap.Frame), Pcap.Spec.Recordable f := by
    intro f hf
    simp only [List.mem_cons, List.not_mem_nil, or_false] at hf
    subst hf
    exact ⟨by decide, by decide, by decide⟩
  obtain ⟨r, h1, h2⟩ := pcap_roundtrip_whole {} [⟨1500, [1]⟩] hrec
  refine ⟨⟨7, .ethernet, {}⟩, ⟨8, .ethernet, ⟨.send, some 1⟩⟩, [.step 0 1500, .step 1500 1500, .send 7 [1]],
    [.step 0 1500, .step 1500 1500], [⟨1500, [1]⟩], [⟨1000, [1]⟩], r, by decide, by decide, rfl, by simp [steps, Contiguous], rfl,
    by simp [steps], hrec, by decide +kernel, rfl, h1, ?_, by decide +kernel, rfl⟩
  intro k
  refine ⟨(h2 k).1, fun hx => ?_⟩
  rw [(h2 k).2 hx]
  cases k with
  | zero => rfl
  | succ k => rfl

/-- If the first step of the participant was not at 0, because it joined a running simulation, then the replay in a simulation with the same steps sends
the frames too late (or not at all): here the frame was sent at 2 ms, and is replayed at 4 ms. -/
theorem C46_replayed_too_late : ∃ (c c' : Ctl) (post post' : List In) (fs gs : List Pcap.Frame) (r : Pcap.Reader),
    c.cfg.direction = .undefined ∧ enabledFor c'.cfg .send = true ∧ steps post' = steps post ∧ Contiguous (steps post) ∧
    (∀ s ∈ steps post, s.1 % 1000 = 0 ∧ 0 < s.2) ∧ (∀ f ∈ fs, Pcap.Spec.Recordable f) ∧
    fs = traced c.id (run [] (.create c :: post)).2 ∧ arrivals c.id post = [] ∧
    Pcap.openReader (Pcap.Sink.traceAll (Pcap.Sink.openFile {}) fs).file = .ok r ∧ Yields r gs ∧
    sends c'.id (run [(1, gs.map ofFrame)] (.create c' :: post')).2 = [(4000000, [1])] ∧ fs.map (fun f => (f.time, f.raw)) = [(2000000, [1])] := by
  have hrec : ∀ f ∈ ([⟨2000000, [1]⟩] : List Pcap.Frame), Pcap.Spec.Recordable f := by
    intro f hf
    simp only [List.mem_cons, List.not_mem_nil, or_false] at hf
    subst hf
    exact ⟨by decide, by decide, by decide⟩
  obtain ⟨r, h1, h2⟩ := pcap_roundtrip_whole {} [⟨2000000, [1]⟩] hrec
  refine ⟨⟨7, .ethernet, {}⟩, ⟨8, .ethernet, ⟨.send, some 1⟩⟩, [.step 2000000 1000000, .send 7 [1], .step 3000000 1000000, .step 4000000 1000000],
    [.step 2000000 1000000, .step 3000000 1000000, .step 4000000 1000000], [⟨2000000, [1]⟩], [⟨2000000, [1]⟩], r, by decide, by decide, rfl,
    by simp [steps, Contiguous], by simp [steps], hrec, by decide +kernel, rfl, h1, ?_, by decide +kernel, rfl⟩
  intro k
  refine ⟨(h2 k).1, fun hx => ?_⟩
  rw [(h2 k).2 hx]
  cases k with
  | zero => rfl
  | succ k => rfl

/-- The direction is not recorded: a frame that a controller received is sent by the controller that replays the recording. -/
theorem C46_received_frames_are_sent : ∃ (c c' : Ctl) (post post' : List In) (fs gs : List Pcap.Frame) (r : Pcap.Reader),
    c.cfg.direction = .undefined ∧ enabledFor c'.cfg .send = true ∧ steps post' = steps post ∧ Contiguous (steps post) ∧ startOf (steps post) = 0 ∧
    (∀ s ∈ steps post, s.1 % 1000 = 0 ∧ 0 < s.2) ∧ (∀ f ∈ fs, Pcap.Spec.Recordable f) ∧ fs = traced c.id (run [] (.create c :: post)).2 ∧
    Pcap.openReader (Pcap.Sink.traceAll (Pcap.Sink.openFile {}) fs).file = .ok r ∧ Yields r gs ∧
    sends c.id (run [] (.create c :: post)).2 = [] ∧ sends c'.id (run [(1, gs.map ofFrame)] (.create c' :: post')).2 = [(0, [1])] := by
  have hrec : ∀ f ∈ ([⟨0, [1]⟩] : List Pcap.Frame), Pcap.Spec.Recordable f := by
    intro f hf
    simp only [List.mem_cons, List.not_mem_nil, or_false] at hf
    subst hf
    exact ⟨by decide, by decide, by decide⟩
  obtain ⟨r, h1, h2⟩ := pcap_roundtrip_whole {} [⟨0, [1]⟩] hrec
  refine ⟨⟨7, .ethernet, {}⟩, ⟨8, .ethernet, ⟨.send, some 1⟩⟩, [.step 0 1000, .receive 7 0 [1]],
    [.step 0 1000], [⟨0, [1]⟩], [⟨0, [1]⟩], r, by decide, by decide, rfl,
    by simp [steps, Contiguous], rfl, by simp [steps], hrec, by decide +kernel, h1, ?_, by decide +kernel, by decide +kernel⟩
  intro k
  refine ⟨(h2 k).1, fun hx => ?_⟩
  rw [(h2 k).2 hx]
  cases k with
  | zero => rfl
  | succ k => rfl

/-- A controller that is configured to receive from a PCAP file does not receive anything, neither from the file nor from the network. -/
theorem C46_nothing_is_received_from_pcap (files : List (Nat × List Msg)) (c : Ctl) (pre post : List In) (hc : CreatedOnce c pre post)
    (hs : Contiguous (steps (pre ++ post))) (hk : c.kind ≠ .publisher) (he : enabledFor c.cfg .receive = true) (n : Nat) (gs : List Pcap.Frame)
    (hn : c.cfg.source = some n) (hl : files.lookup n = some (gs.map ofFrame)) :
    deliveries c.id (run files (pre ++ .create c :: post)).2 = [] := by
  rw [replay_deliveries files c pre post hc hs hk he n _ hn hl, List.map_eq_nil_iff, List.filter_eq_nil_iff]
  intro m hm
  have : m ∈ gs.map ofFrame := by
    unfold due at hm
    split at hm
    · cases hm
    · exact (List.takeWhile_prefix _).subset hm
  obtain ⟨f, _, rfl⟩ := List.mem_map.1 this
  simp [ofFrame]

end SilKit.Props
