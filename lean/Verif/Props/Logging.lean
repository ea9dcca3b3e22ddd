import Verif.Lemmas.Logging
import Verif.Lemmas.LoggingFlow
/-!
# C57, C58: logging

C57: a message that is logged appears once in every sink of the participant that admits it by level and topic, and nowhere else, in the
order of the calls; it is published once per admitting remote sink, and participants that log from remotes write it, in order and
without loss, to the sinks whose level it reaches.

C58: a line of a JSON sink is one JSON object that carries exactly the message.
-/
namespace SilKit.Props
open SilKit SilKit.Logging SilKit.Logging.Spec

/-- Participants at the start: loggers are built from the configurations (in any order of the sinks), nothing is on its way, remote
logging has not been set up. -/
structure LogStart (cfg : Nat → Logging.Config) (nm : Nat → Text) (n : Logging.Net) : Prop where
  built : ∀ p, (n.part p).logger.Built (cfg p) (nm p)
  receiver : ∀ p, (n.part p).receiver = (cfg p).logFromRemotes
  alone : ∀ p, (n.part p).logger.connected = false
  queue : ∀ p, (n.part p).queue = []
  chan : ∀ p q, n.chan p q = []

/-- The operations of a history: calls with the levels trace to critical; messages arrive only through the network. -/
def LogHistory (ops : List Logging.NetOp) : Prop := ∀ p op, Logging.NetOp.act p op ∈ ops → Regular op

private theorem stat_of {cfg : Nat → Logging.Config} {nm : Nat → Text} {n : Logging.Net} (h : LogStart cfg nm n) : Stat cfg nm n :=
  fun p => ⟨h.built p, h.receiver p⟩

private theorem regular_of {ops : List Logging.NetOp} (h : LogHistory ops) : ∀ o ∈ ops, RegularNet o := by
  intro o ho
  cases o with
  | act p op => exact h p op ho
  | deliver _ _ => trivial

/-! ## A simulation for the examples -/

/-- A: JSON on the terminal (info, without topic 3), remote from warnings on; B: logs from remotes into a file (errors). -/
def logCfg (p : Nat) : Logging.Config :=
  if p = 0 then { flushLevel := .error, sinks := [{ type := .stdout, format := .json, level := .info, disabled := [3] }, { type := .remote, level := .warn }] }
  else if p = 1 then { logFromRemotes := true, sinks := [{ type := .file, level := .error, logName := ['l'] }] }
  else {}

def logName (p : Nat) : Text := if p = 0 then ['A'] else ['B']

def buildLogger (c : Logging.Config) (name : Text) : Logger :=
  { name, flushLevel := c.flushLevel, locals := c.indexed.filter (fun e => decide (e.2.type ≠ .remote))
    remotes := c.indexed.filter (fun e => decide (e.2.type = .remote)) }

theorem buildLogger_built (c : Logging.Config) (name : Text) : (buildLogger c name).Built c name :=
  ⟨rfl, rfl, List.Perm.refl _, List.Perm.refl _⟩

def logNet (cfg : Nat → Logging.Config) (nm : Nat → Text) : Logging.Net :=
  { part := fun p => { logger := buildLogger (cfg p) (nm p), receiver := (cfg p).logFromRemotes } }

theorem logNet_start (cfg : Nat → Logging.Config) (nm : Nat → Text) : LogStart cfg nm (logNet cfg nm) :=
  ⟨fun _ => buildLogger_built _ _, fun _ => rfl, fun _ => rfl, fun _ => rfl, fun _ _ => rfl⟩

/-- A logs information, a warning and an error (and a message with topic 3); all is sent and delivered. -/
def logOps : List Logging.NetOp :=
  [.act 0 .connect, .act 0 (.user 1000 2 ['i']), .act 0 (.user 2000 3 ['w']), .act 0 (.user 3000 4 ['e']), .act 0 (.message 4000 4 3 ['m'] []),
   .act 0 .transmit, .act 0 .transmit, .act 0 .transmit, .deliver 0 1, .deliver 0 1, .deliver 0 1]

theorem logOps_regular : LogHistory logOps := by
  intro p op h
  simp only [logOps, List.mem_cons, Logging.NetOp.act.injEq, List.not_mem_nil, reduceCtorEq, or_false] at h
  rcases h with ⟨_, rfl⟩ | ⟨_, rfl⟩ | ⟨_, rfl⟩ | ⟨_, rfl⟩ | ⟨_, rfl⟩ | ⟨_, rfl⟩ | ⟨_, rfl⟩ | ⟨_, rfl⟩ <;>
    refine ⟨fun name m hm => ?_, nofun⟩ <;> cases hm <;> simp [Proper]

/-! ## C57: local sinks -/

/-- **C57.** In every history, a sink of a participant gets from the calls of this participant exactly the messages that it admits, each
once, as a line in its format, in the order of the calls, and a flush after every message that reaches the flush level. -/
theorem C57_own_messages {date : Nat → Text} {cfg : Nat → Logging.Config} {nm : Nat → Text} {n : Logging.Net} (h : LogStart cfg nm n)
    {ops : List Logging.NetOp} (hr : LogHistory ops) {p i : Nat} {s : Logging.Sink} (hs : (cfg p).sinks[i]? = some s) (ht : s.type ≠ .remote) :
    sinkEvents i (outsOfCalls p (n.run date ops).2) = (opsOf p ops).flatMap (callGets date (cfg p) (nm p) s) :=
  (own_run hs ht ops n (stat_of h) (regular_of hr)).1

/-- **C57.** If the participant does not log from remotes, that is everything that ever happens to the sink. -/
theorem C57_sink_contents {date : Nat → Text} {cfg : Nat → Logging.Config} {nm : Nat → Text} {n : Logging.Net} (h : LogStart cfg nm n)
    {ops : List Logging.NetOp} (hr : LogHistory ops) {p i : Nat} {s : Logging.Sink} (hs : (cfg p).sinks[i]? = some s) (ht : s.type ≠ .remote)
    (hl : (cfg p).logFromRemotes = false) :
    sinkEvents i (outsIn p (n.run date ops).2) = (opsOf p ops).flatMap (callGets date (cfg p) (nm p) s) :=
  (own_run hs ht ops n (stat_of h) (regular_of hr)).2 hl

/-- In the example the terminal of A gets three lines, and a flush after the error; the message with topic 3 is filtered out. -/
example : ((logNet logCfg logName).run (fun _ => []) logOps).2.length = 11 ∧
    (sinkEvents 0 (outsIn 0 ((logNet logCfg logName).run (fun _ => []) logOps).2)).map Option.isSome = [true, true, true, false] := by
  constructor <;> decide +kernel

example : LogStart logCfg logName (logNet logCfg logName) ∧ LogHistory logOps ∧ (logCfg 0).logFromRemotes = false :=
  ⟨logNet_start _ _, logOps_regular, rfl⟩

/-! ## C57: remote sinks -/

/-- **C57.** What participant `q`, which logs from remotes, has written to a sink because of messages from `p`, together with what is on
its way, is exactly what `p` has logged since remote logging was set up, once per remote sink of `p` that admits the message, in order;
`q`'s sink takes the messages that reach its level. -/
theorem C57_remote_messages {date : Nat → Text} {cfg : Nat → Logging.Config} {nm : Nat → Text} {n : Logging.Net} (h : LogStart cfg nm n)
    {ops : List Logging.NetOp} (hr : LogHistory ops) {p q i : Nat} {s : Logging.Sink} (hpq : p ≠ q) (hl : (cfg q).logFromRemotes = true)
    (hs : (cfg q).sinks[i]? = some s) (ht : s.type ≠ .remote) :
    sinkEvents i (outsFrom p q (n.run date ops).2) ++
        ((n.run date ops).1.chan p q ++ ((n.run date ops).1.part p).queue).flatMap (remoteGets date (cfg q).flushLevel s) =
      (published (cfg p) (nm p) false (opsOf p ops)).flatMap (remoteGets date (cfg q).flushLevel s) := by
  obtain ⟨d, hd, he⟩ := net_run (date := date) hpq hl hs ht ops n (stat_of h) (regular_of hr) (by rw [h.chan, h.queue]; exact nofun)
  rw [h.chan, h.queue, h.alone] at hd
  rw [he, ← List.flatMap_append, hd]; rfl

/-- **C57.** Once everything has been sent and delivered, nothing is missing. -/
theorem C57_remote_complete {date : Nat → Text} {cfg : Nat → Logging.Config} {nm : Nat → Text} {n : Logging.Net} (h : LogStart cfg nm n)
    {ops : List Logging.NetOp} (hr : LogHistory ops) {p q i : Nat} {s : Logging.Sink} (hpq : p ≠ q) (hl : (cfg q).logFromRemotes = true)
    (hs : (cfg q).sinks[i]? = some s) (ht : s.type ≠ .remote) (hq : ((n.run date ops).1.part p).queue = []) (hc : (n.run date ops).1.chan p q = []) :
    sinkEvents i (outsFrom p q (n.run date ops).2) =
      (published (cfg p) (nm p) false (opsOf p ops)).flatMap (remoteGets date (cfg q).flushLevel s) := by
  have := C57_remote_messages (date := date) h hr hpq hl hs ht
  rw [hq, hc] at this
  simpa using this

/-- In the example B's file gets the two errors of A (the warning is sent, but does not reach the level of the file). -/
example : (published (logCfg 0) (logName 0) false (opsOf 0 logOps)).length = 3 ∧
    (sinkEvents 0 (outsFrom 0 1 ((logNet logCfg logName).run (fun _ => []) logOps).2)) =
      [some "[] [A] [error] [User] e".toList, some ("[] [A] [error] [".toList ++ topicName 3 ++ "] m".toList)] ∧
    ((logNet logCfg logName).run (fun _ => []) logOps).1.chan 0 1 = [] ∧ (((logNet logCfg logName).run (fun _ => []) logOps).1.part 0).queue = [] := by
  refine ⟨?_, ?_, ?_, ?_⟩ <;> decide +kernel

/-- **C57.** A received message is only written: nothing is sent because of it, so log messages do not circulate. -/
theorem C57_received_not_forwarded (date : Nat → Text) (n : Logging.Net) (p q x : Nat) :
    (n.step date (.deliver p q)).1.part x = n.part x ∧ sends (n.step date (.deliver p q)).2 = [] := by
  cases hc : n.chan p q with
  | nil => rw [deliver_nil hc]; exact ⟨rfl, rfl⟩
  | cons m rest =>
    rw [deliver_cons hc]
    refine ⟨rfl, ?_⟩
    simp only []
    split
    · exact (received_quiet _ _ _).1
    · rfl

/-- **C57.** Calls with the levels trace to critical do not fail. -/
theorem C57_calls_succeed {c : Logging.Config} {name : Text} {l : Logger} (_ : l.Built c name) (date : Nat → Text) {time level : Nat}
    (hl : Proper level) (text : Text) : (l.user date time level text).thrown = false :=
  (call_thrown (op := .user time level text) (m := { name := l.name, level, topic := topicUser, time, text }) rfl hl).1

/-- **C57.** The level that a user can ask for is below or equal to a level exactly if some sink has such a level. -/
theorem C57_log_level {c : Logging.Config} {name : Text} {l : Logger} (hb : l.Built c name) {level : Nat} (hl : level < 5) :
    fromSpdlog l.logLevel ≤ level ↔ ∃ s ∈ c.sinks, s.level.code ≤ level := by
  rw [logLevel_le_iff hl]
  have hmem : ∀ e : Nat × Logging.Sink, e ∈ l.locals ++ l.remotes ↔ e ∈ c.indexed := by
    intro e
    rw [List.mem_append, hb.locals.mem_iff, hb.remotes.mem_iff, List.mem_filter, List.mem_filter, decide_eq_true_eq, decide_eq_true_eq]
    constructor
    · rintro (h | h) <;> exact h.1
    · intro h
      by_cases ht : e.2.type = .remote
      · exact Or.inr ⟨h, ht⟩
      · exact Or.inl ⟨h, ht⟩
  constructor
  · rintro ⟨e, he, h⟩
    exact ⟨e.2, by rw [← indexed_snd c]; exact List.mem_map_of_mem ((hmem e).mp he), h⟩
  · rintro ⟨s, hs, h⟩
    rw [← indexed_snd c] at hs
    obtain ⟨e, he, rfl⟩ := List.mem_map.mp hs
    exact ⟨e, (hmem e).mpr he, h⟩

example : fromSpdlog (buildLogger (logCfg 0) ['A']).logLevel = 2 := by decide +kernel

/-- **C57.** What a line of a simple sink looks like for a call of the API: date, name, level, topic and the text as it was given. -/
theorem C57_simple_line (date : Nat → Text) (time level : Nat) {name : Text} (hn : name ≠ []) (text : Text) :
    line date .simple time name level (body (.user time level text) .simple) =
      ['['] ++ date time ++ [']', ' ', '['] ++ name ++ [']', ' ', '['] ++ levelName level ++ [']', ' ', '[', 'U', 's', 'e', 'r', ']', ' '] ++ text := by
  have ht : topicName 1 = ['U', 's', 'e', 'r'] := by decide +kernel
  simp only [line, body, simpleLine, simpleText, if_neg hn, topicUser, topicNone, ht, if_true, Nat.one_ne_zero, if_false]
  rw [show "] ".toList = [']', ' '] from rfl]
  simp only [List.append_assoc, List.cons_append, List.nil_append, List.append_nil]

/-- **C57.** Different texts give different lines. -/
theorem C57_simple_line_injective {date : Nat → Text} {time level topic : Nat} {name text text' : Text}
    (h : line date .simple time name level (simpleText topic text []) = line date .simple time name level (simpleText topic text' [])) :
    text = text' := by
  unfold line simpleLine simpleText at h
  simp only [if_true, List.append_nil] at h
  exact List.append_cancel_left (List.append_cancel_left h)

/-! ## C57: files -/

/-- Letters, digits, `_`, `-`, `.` and `~`. -/
def SafeName (t : Text) : Prop :=
  ∀ c ∈ t, ('a' ≤ c ∧ c ≤ 'z') ∨ ('A' ≤ c ∧ c ≤ 'Z') ∨ ('0' ≤ c ∧ c ≤ '9') ∨ c = '_' ∨ c = '-' ∨ c = '.' ∨ c = '~'

private theorem printable_safe {t : Text} (h : SafeName t) : printable t = t := by
  induction t with
  | nil => rfl
  | cons c t ih =>
    unfold printable at ih ⊢
    rw [List.flatMap_cons, ih (fun a ha => h a (List.mem_cons_of_mem _ ha)), printableChar, if_pos (h c List.mem_cons_self)]; rfl

/-- **C57.** Participants with different names of ordinary characters do not write into the same file, nor does a participant in different
runs (the stamps have the same length). -/
theorem C57_files_differ {ln n1 n2 st1 st2 : Text} {f : Logging.Format} (h1 : SafeName n1) (h2 : SafeName n2) (hl : st1.length = st2.length)
    (h : fileName ln n1 st1 f = fileName ln n2 st2 f) : n1 = n2 ∧ st1 = st2 := by
  unfold fileName at h
  rw [printable_safe h1, printable_safe h2] at h
  have h3 := List.append_cancel_right h
  have h4 : n1 ++ '_' :: st1 = n2 ++ '_' :: st2 := by
    simpa [List.append_assoc] using h3
  have h5 := List.append_inj' h4 (by simp [hl])
  exact ⟨h5.1, (List.cons.inj h5.2).2⟩

example : SafeName "Node_1".toList ∧ fileName "log".toList "Node_1".toList "2024-01-01T00-00-00".toList .json =
    "log_Node_1_2024-01-01T00-00-00.jsonl".toList := by unfold SafeName; constructor <;> decide +kernel

/-! ## C57: deviations -/

/-- **C57, deviation.** Messages from other participants are written to sinks that have their topic disabled: only the level is
checked. -/
theorem C57_received_ignore_topics : ∃ (c : Logging.Config) (s : Logging.Sink) (m : Msg), c.sinks[0]? = some s ∧ s.type = .stdout ∧
    ¬ Admits s m.level m.topic ∧ sinkEvents 0 ((buildLogger c ['B']).received (fun _ => []) m).outs ≠ [] :=
  ⟨{ logFromRemotes := true, sinks := [{ type := .stdout, disabled := [1] }] }, { type := .stdout, disabled := [1] },
    { name := ['A'], level := 2, topic := 1, time := 0, text := ['x'] }, rfl, rfl, by decide, by decide +kernel⟩

/-- **C57, deviation.** A message with level `Off` is written, even to sinks that are off. -/
theorem C57_off_is_written : ∃ (c : Logging.Config) (s : Logging.Sink), c.sinks[0]? = some s ∧ s.level = .off ∧
    linesOf 0 ((buildLogger c ['A']).user (fun _ => []) 0 Level.off.code ['x']).outs = ["[] [A] [off] [User] x".toList] :=
  ⟨{ sinks := [{ type := .stdout, level := .off }] }, { type := .stdout, level := .off }, rfl, rfl, by decide +kernel⟩

/-- **C57, deviation.** A level outside the enumeration makes the call fail, after the sinks before have got nothing. -/
theorem C57_unknown_level_throws : ∃ c : Logging.Config, ((buildLogger c ['A']).user (fun _ => []) 0 7 ['x']).thrown = true :=
  ⟨{ sinks := [{ type := .stdout }] }, by decide +kernel⟩

/-- **C57, deviation.** A participant that logs from remotes and has a remote sink writes its own messages twice. -/
theorem C57_own_messages_twice : ∃ (c : Logging.Config) (ops : List Logging.NetOp), LogHistory ops ∧
    opsOf 0 ops = [.connect, .user 0 2 ['x'], .transmit] ∧
    linesOf 0 (outsIn 0 ((logNet (fun _ => c) (fun _ => ['A'])).run (fun _ => []) ops).2) =
      ["[] [A] [info] [User] x".toList, "[] [A] [info] [User] x".toList] := by
  refine ⟨{ logFromRemotes := true, sinks := [{ type := .stdout }, { type := .remote }] },
    [.act 0 .connect, .act 0 (.user 0 2 ['x']), .act 0 .transmit], ?_, rfl, by decide +kernel⟩
  intro p op h
  simp only [List.mem_cons, Logging.NetOp.act.injEq, List.not_mem_nil, or_false] at h
  rcases h with ⟨_, rfl⟩ | ⟨_, rfl⟩ | ⟨_, rfl⟩ <;> refine ⟨fun name m hm => ?_, nofun⟩ <;> cases hm <;> simp [Proper]

/-- **C57, deviation.** Messages that components log without structure carry their topic twice in the files of other participants. -/
theorem C57_topic_doubled : ∃ (ops : List Logging.NetOp), linesOf 0 (outsFrom 0 1 ((logNet logCfg logName).run (fun _ => []) ops).2) =
      ["[] [A] [error] [User] [User] x".toList] :=
  ⟨[.act 0 .connect, .act 0 (.plain 0 4 1 ['x']), .act 0 .transmit, .deliver 0 1], by decide +kernel⟩

/-- **C57, deviation.** What is logged before remote logging is set up is never published. -/
theorem C57_early_messages_lost (c : Logging.Config) (name : Text) (ops : List Logging.Op) (h : Logging.Op.connect ∉ ops) :
    published c name false ops = [] := by
  induction ops with
  | nil => rfl
  | cons op ops ih =>
    rw [published_cons, show connects op = false by
      cases op <;> first | rfl | exact absurd List.mem_cons_self h, Bool.or_self, ih (fun hx => h (List.mem_cons_of_mem _ hx)), List.append_nil]
    unfold pub1
    cases logged name op <;> rfl

/-- **C57, deviation.** Nothing can be logged through the logger of a registry. -/
theorem C57_registry_logger_rejected (l : Logger) : logAccepted (registryLogger l) = false ∧ logAccepted (participantLogger l) = true := ⟨rfl, rfl⟩

/-- **C57, deviation.** Participants with different names may share a log file. -/
theorem C57_files_collide : ∃ n1 n2 : Text, n1 ≠ n2 ∧ ∀ ln st f, fileName ln n1 st f = fileName ln n2 st f :=
  ⟨['a', '/', 'b'], ['a', '2', 'F', 'b'], by decide, fun ln st f => by
    have : printable ['a', '/', 'b'] = printable ['a', '2', 'F', 'b'] := by decide +kernel
    unfold fileName; rw [this]⟩

/-! ## C58 -/

/-- **C58.** A line for a JSON sink is a JSON object with exactly the fields of the message if, and only if, the name of the participant
needs no escapes and the text has no control characters other than `\b \t \n \f \r`. -/
theorem C58_json_line {time level topic : Nat} {name text : Text} {kvs : List (Text × Text)} (hk : PlainPairs kvs) :
    Reads (jsonLine time name level (jsonText topic text kvs)) (entry time name level topic text kvs) ↔ Clean name ∧ Plain text :=
  ⟨jsonLine_reads_only, fun h => jsonLine_reads h.1 h.2 hk⟩

example : PlainPairs [(['k'], ['"', '\n'])] ∧ Clean ['A'] ∧ Plain ['\\', '\t', 'ä'] := by
  unfold PlainPairs Clean Plain; decide

/-- **C58.** A text has at most one meaning. -/
theorem C58_meaning_unique {t : Text} {v w : Json} (hv : Reads t v) (hw : Reads t w) : v = w := reads_unique hv hw

/-- **C58.** It is one line, whatever the text of the message. -/
theorem C58_one_line {time level topic : Nat} {name text : Text} {kvs : List (Text × Text)} (hn : Clean name) (hk : PlainPairs kvs) :
    '\n' ∉ jsonLine time name level (jsonText topic text kvs) := jsonLine_no_newline (clean_no_newline hn) hk

/-- **C58.** In every history, every line that a call adds to a JSON sink is one line that stands for exactly the message of one of the
calls of the participant which the sink admits. -/
theorem C58_lines_of_calls {date : Nat → Text} {cfg : Nat → Logging.Config} {nm : Nat → Text} {n : Logging.Net} (h : LogStart cfg nm n)
    {ops : List Logging.NetOp} (hr : LogHistory ops) {p i : Nat} {s : Logging.Sink} (hs : (cfg p).sinks[i]? = some s) (ht : s.type ≠ .remote)
    (hj : s.format = .json) (hn : Clean (nm p))
    (hops : ∀ op ∈ opsOf p ops, (∃ t l x, op = .user t l x ∧ Plain x) ∨ (∃ t l tp x kv, op = .message t l tp x kv ∧ Plain x ∧ PlainPairs kv) ∨ logged [] op = none)
    {line : Text} (hline : some line ∈ sinkEvents i (outsOfCalls p (n.run date ops).2)) :
    ∃ op ∈ opsOf p ops, ∃ m, logged (nm p) op = some m ∧ Admits s m.level m.topic ∧
      Reads line (entry m.time m.name m.level m.topic m.text m.kvs) ∧ '\n' ∉ line := by
  rw [C57_own_messages h hr hs ht, List.mem_flatMap] at hline
  obtain ⟨op, hop, hline⟩ := hline
  unfold callGets at hline
  cases hm : logged (nm p) op with
  | none => rw [hm] at hline; cases hline
  | some m =>
    rw [hm] at hline
    simp only [sinkGets] at hline
    by_cases ha : Admits s m.level m.topic
    · rw [if_pos ha] at hline
      have hl : line = jsonLine m.time m.name m.level (body op .json) := by
        rcases List.mem_cons.mp hline with hx | hx
        · cases hx; rw [hj]; rfl
        · split at hx
          · simp at hx
          · cases hx
      refine ⟨op, hop, m, hm, ha, ?_⟩
      rcases hops op hop with ⟨t, l, x, rfl, hx⟩ | ⟨t, l, tp, x, kv, rfl, hx, hkv⟩ | hx
      · cases hm
        rw [hl]
        exact ⟨jsonLine_reads hn hx nofun, jsonLine_no_newline (clean_no_newline hn) nofun⟩
      · cases hm
        rw [hl]
        exact ⟨jsonLine_reads hn hx hkv, jsonLine_no_newline (clean_no_newline hn) hkv⟩
      · have := logged_any [] (nm p) op
        rw [hx, hm] at this; cases this
    · rw [if_neg ha] at hline; cases hline

example : ∀ op ∈ opsOf 0 logOps, (∃ t l x, op = Logging.Op.user t l x ∧ Plain x) ∨
    (∃ t l tp x kv, op = Logging.Op.message t l tp x kv ∧ Plain x ∧ PlainPairs kv) ∨ logged [] op = none := by
  intro op h
  simp only [opsOf, logOps, List.filterMap_cons, if_true, List.filterMap_nil, List.mem_cons, List.not_mem_nil, or_false] at h
  rcases h with rfl | rfl | rfl | rfl | rfl | rfl | rfl | rfl
  · exact Or.inr (Or.inr rfl)
  · exact Or.inl ⟨_, _, _, rfl, by unfold Plain; decide⟩
  · exact Or.inl ⟨_, _, _, rfl, by unfold Plain; decide⟩
  · exact Or.inl ⟨_, _, _, rfl, by unfold Plain; decide⟩
  · exact Or.inr (Or.inl ⟨_, _, _, _, _, rfl, by unfold Plain; decide, nofun⟩)
  · exact Or.inr (Or.inr rfl)
  · exact Or.inr (Or.inr rfl)
  · exact Or.inr (Or.inr rfl)

/-! ## C58: deviations -/

/-- **C58, deviation.** Another control character in the message makes the line unreadable. -/
theorem C58_control_characters_break_lines {time level topic : Nat} {name text : Text} {kvs : List (Text × Text)} (hn : Clean name)
    (ht : ¬ Plain text) (v : Json) : ¬ Reads (jsonLine time name level (jsonText topic text kvs)) v := jsonLine_unreadable hn ht v

example : Clean ['A'] ∧ ¬ Plain [Char.ofNat 27, '[', '0', 'm'] := by unfold Clean Plain; decide

/-- The name that looks like participant `a` with another level. -/
def forgedName (a : Text) (level : Nat) : Text :=
  a ++ ['"', ',', '"', 'l', 'v', 'l', '"', ':', '"'] ++ levelName level ++ ['"', ',', '"', 'k', '"', ':', '"']

/-- **C58, deviation.** A participant can pretend to be another one, and another level, since the name is not escaped. -/
theorem C58_name_forges_fields {a text : Text} (ha : Clean a) (ht : Plain text) (time level forged : Nat) :
    Reads (jsonLine time (forgedName a forged) level (jsonText topicNone text []))
      (.obj [(['t', 's'], .str (Nat.toDigits 10 (time / 1000))), (['l', 'o', 'g'], .str a), (['l', 'v', 'l'], .str (levelName forged)),
        (['k'], .str []), (['l', 'v', 'l'], .str (levelName level)), ("msg".toList, .str text)]) := by
  refine ⟨11, [], ?_, rfl⟩
  rw [jsonLine_eq, forgedName]
  simp only [List.append_assoc, List.cons_append, List.nil_append]
  refine value_obj (f := 10) (ws_open _) (ws_quote _) ?_
  refine members_more (f := 9) (ws_quote _) (pString_clean (t := ['t', 's']) (by unfold Clean; decide) _) (ws_colon _)
    (value_str (ws_quote _) (pString_clean (digits_clean _) _)) (ws_comma _) ?_
  refine members_more (f := 8) (ws_quote _) (pString_clean (t := ['l', 'o', 'g']) (by unfold Clean; decide) _) (ws_colon _)
    (value_str (ws_quote _) (pString_clean ha _)) (ws_comma _) ?_
  refine members_more (f := 7) (ws_quote _) (pString_clean (t := ['l', 'v', 'l']) (by unfold Clean; decide) _) (ws_colon _)
    (value_str (ws_quote _) (pString_clean (levelName_clean _) _)) (ws_comma _) ?_
  refine members_more (f := 6) (ws_quote _) (pString_clean (t := ['k']) (by unfold Clean; decide) _) (ws_colon _)
    (value_str (ws_quote _) (pString_clean (t := []) (by unfold Clean; decide) _)) (ws_comma _) ?_
  refine members_more (f := 5) (ws_quote _) (pString_clean (t := ['l', 'v', 'l']) (by unfold Clean; decide) _) (ws_colon _)
    (value_str (ws_quote _) (pString_clean (levelName_clean _) _)) (ws_comma _) ?_
  exact text_members (topic := topicNone) (kvs := []) ht nofun 0

example : forgedName ['A'] 4 = "A\",\"lvl\":\"error\",\"k\":\"".toList := by decide +kernel

/-- **C58, deviation.** A message to a sink with simple format can pretend to be several lines. -/
theorem C58_simple_lines_forged : ∃ text : Text, simpleLine (fun _ => ['d']) 0 ['A'] 2 (simpleText topicUser text []) =
    simpleLine (fun _ => ['d']) 0 ['A'] 2 (simpleText topicUser ['x'] []) ++ '\n' ::
      simpleLine (fun _ => ['d']) 0 ['B'] 4 (simpleText topicUser ['y'] []) :=
  ⟨"x\n[d] [B] [error] [User] y".toList, by decide +kernel⟩

end SilKit.Props
