import Verif.Spec.Logging
/-! # Lemmas: from calls to sinks -/
namespace SilKit.Logging
open Spec

theorem passes_iff {s : Sink} {level topic : Nat} : passes s level topic = true ↔ Admits s level topic := by
  unfold passes topicDisabled Admits
  by_cases h1 : topic ∈ s.disabled
  · simp [h1]
  · by_cases h2 : s.enabled = []
    · simp [h1, h2]
    · simp [h1, h2]

theorem toSpdlog_proper {level : Nat} (h : Proper level) : toSpdlog level = some level := if_pos h

theorem spd_le {l : Level} {level : Nat} (h : Proper level) : l.spd ≤ level ↔ l.code ≤ level := by
  unfold Proper at h
  cases l <;> simp [Level.spd, Level.code, toSpdlog] <;> omega

/-- The outcomes of the calls for one sink. -/
def localOuts (date : Nat → Text) (flushLevel : Level) (name : Text) (time level topic : Nat) (fmt : Format → Text) (e : Nat × Sink) : List Out :=
  if Admits e.2 level topic then
    .write e.1 (line date e.2.format time name level (fmt e.2.format)) :: (if flushLevel.code ≤ level then [.flush e.1] else [])
  else []

theorem dispatchLocal_proper {date : Nat → Text} {flushLevel : Level} {name : Text} {time level topic : Nat} {fmt : Format → Text}
    (h : Proper level) (ls : List (Nat × Sink)) :
    dispatchLocal date flushLevel name time level topic fmt ls = (ls.flatMap (localOuts date flushLevel name time level topic fmt), false) := by
  induction ls with
  | nil => rfl
  | cons e ls ih =>
    obtain ⟨i, s⟩ := e
    rw [dispatchLocal, List.flatMap_cons]
    by_cases hp : Admits s level topic
    · rw [if_pos (passes_iff.mpr hp), toSpdlog_proper h, ih]
      have h6 : level ≠ 6 := by unfold Proper at h; omega
      have hl : s.level.spd ≤ level := (spd_le h).mpr hp.1
      simp only [spdlogLog]
      rw [if_pos hl]
      simp only [localOuts, if_pos hp, spd_le h, ne_eq, h6, not_false_eq_true, and_true]
    · rw [if_neg (fun hx => hp (passes_iff.mp hx)), ih]
      simp only [localOuts, if_neg hp, List.nil_append]

theorem sinkEvents_append (i : Nat) (a b : List Out) : sinkEvents i (a ++ b) = sinkEvents i a ++ sinkEvents i b := List.filterMap_append

theorem sinkEvents_flatMap {α : Type} (i : Nat) (f : α → List Out) (l : List α) :
    sinkEvents i (l.flatMap f) = l.flatMap (fun a => sinkEvents i (f a)) := by
  induction l with
  | nil => rfl
  | cons a l ih => rw [List.flatMap_cons, sinkEvents_append, ih, List.flatMap_cons]

/-- The outcomes for the sinks of a logger do not mix. -/
theorem sinkEvents_unique {g : Nat × Sink → List Out} (hg : ∀ e i, i ≠ e.1 → sinkEvents i (g e) = []) {ls : List (Nat × Sink)}
    (hn : (ls.map Prod.fst).Nodup) {e : Nat × Sink} (he : e ∈ ls) : sinkEvents e.1 (ls.flatMap g) = sinkEvents e.1 (g e) := by
  have none_of : ∀ (ls : List (Nat × Sink)) (i : Nat), i ∉ ls.map Prod.fst → sinkEvents i (ls.flatMap g) = [] := by
    intro ls i
    induction ls with
    | nil => intro _; rfl
    | cons a ls ih =>
      intro h
      rw [List.map_cons, List.mem_cons, not_or] at h
      rw [List.flatMap_cons, sinkEvents_append, hg a i h.1, ih h.2]; rfl
  induction ls with
  | nil => cases he
  | cons a ls ih =>
    rw [List.map_cons, List.nodup_cons] at hn
    rw [List.flatMap_cons, sinkEvents_append]
    rcases List.mem_cons.mp he with rfl | he
    · rw [none_of ls _ hn.1, List.append_nil]
    · rw [ih hn.2 he, hg a e.1 (fun h => hn.1 (h ▸ List.mem_map_of_mem he)), List.nil_append]

/-- No sink is affected that is not in the list. -/
theorem sinkEvents_absent {g : Nat × Sink → List Out} (hg : ∀ e i, i ≠ e.1 → sinkEvents i (g e) = []) {ls : List (Nat × Sink)} {i : Nat}
    (h : i ∉ ls.map Prod.fst) : sinkEvents i (ls.flatMap g) = [] := by
  induction ls with
  | nil => rfl
  | cons a ls ih =>
    rw [List.map_cons, List.mem_cons, not_or] at h
    rw [List.flatMap_cons, sinkEvents_append, hg a i h.1, ih h.2]; rfl

theorem indexed_fst (c : Config) : c.indexed.map Prod.fst = List.range c.sinks.length := by
  unfold Config.indexed
  rw [List.map_map]
  simp [Function.comp_def, List.range_eq_range']

theorem indexed_snd (c : Config) : c.indexed.map Prod.snd = c.sinks := by
  unfold Config.indexed
  rw [List.map_map]
  simp [Function.comp_def]

theorem locals_nodup {c : Config} {name : Text} {l : Logger} (h : l.Built c name) : (l.locals.map Prod.fst).Nodup := by
  rw [(h.locals.map _).nodup_iff]
  refine List.Nodup.sublist (List.Sublist.map _ (List.filter_sublist)) ?_
  rw [indexed_fst]; exact List.nodup_range

theorem mem_locals {c : Config} {name : Text} {l : Logger} (h : l.Built c name) {i : Nat} {s : Sink} (hs : c.sinks[i]? = some s)
    (ht : s.type ≠ .remote) : (i, s) ∈ l.locals := by
  rw [h.locals.mem_iff, List.mem_filter]
  refine ⟨?_, decide_eq_true ht⟩
  unfold Config.indexed
  rw [List.mem_map]
  exact ⟨(s, i), List.mk_mem_zipIdx_iff_getElem?.mpr hs, rfl⟩

theorem copies_eq {c : Config} {name : Text} {l : Logger} (h : l.Built c name) (m : Msg) :
    dispatchRemote true m l.remotes = List.replicate (copies c m.level m.topic) m := by
  unfold dispatchRemote
  rw [List.map_const']
  congr 1
  have hp := (h.remotes.filter (fun e => passes e.2 m.level m.topic && true && decide (e.2.level.code ≤ m.level))).length_eq
  rw [hp, List.filter_filter]
  unfold copies
  rw [← indexed_snd c, List.filter_map, List.length_map]
  congr 1
  apply List.filter_congr
  intro e _
  rw [Bool.eq_iff_iff]
  simp only [Bool.and_eq_true, passes_iff, decide_eq_true_eq, Function.comp_apply, Bool.and_true]
  constructor
  · rintro ⟨⟨h1, h2⟩, h3⟩; exact ⟨h3, h1⟩
  · rintro ⟨h1, h2⟩; exact ⟨⟨h2, h2.1⟩, h1⟩

theorem localOuts_other (date : Nat → Text) (flushLevel : Level) (name : Text) (time level topic : Nat) (fmt : Format → Text)
    (e : Nat × Sink) (i : Nat) (h : i ≠ e.1) : sinkEvents i (localOuts date flushLevel name time level topic fmt e) = [] := by
  unfold localOuts
  split
  · split <;> simp [sinkEvents, Ne.symm h]
  · rfl

theorem localOuts_own (date : Nat → Text) (flushLevel : Level) (fmt : Format → Text)
    (i : Nat) (s : Sink) (m : Msg) : sinkEvents i (localOuts date flushLevel m.name m.time m.level m.topic fmt (i, s)) = sinkGets date flushLevel s m fmt := by
  unfold localOuts sinkGets
  split
  · split <;> simp [sinkEvents]
  · rfl

/-- The lowest level of the sinks. -/
theorem logLevel_fold (ls : List (Nat × Sink)) (a : Nat) :
    ls.foldl (fun lvl e => if lvl < e.2.level.spd then lvl else e.2.level.spd) a ≤ a ∧
      ∀ e ∈ ls, ls.foldl (fun lvl e => if lvl < e.2.level.spd then lvl else e.2.level.spd) a ≤ e.2.level.spd := by
  induction ls generalizing a with
  | nil => exact ⟨Nat.le_refl _, nofun⟩
  | cons x ls ih =>
    rw [List.foldl_cons]
    have h := ih (if a < x.2.level.spd then a else x.2.level.spd)
    have h1 : (if a < x.2.level.spd then a else x.2.level.spd) ≤ a ∧ (if a < x.2.level.spd then a else x.2.level.spd) ≤ x.2.level.spd := by
      split <;> omega
    refine ⟨Nat.le_trans h.1 h1.1, fun e he => ?_⟩
    rcases List.mem_cons.mp he with rfl | he
    · exact Nat.le_trans h.1 h1.2
    · exact h.2 e he

theorem logLevel_attained (ls : List (Nat × Sink)) (a : Nat) :
    ls.foldl (fun lvl e => if lvl < e.2.level.spd then lvl else e.2.level.spd) a = a ∨
      ∃ e ∈ ls, ls.foldl (fun lvl e => if lvl < e.2.level.spd then lvl else e.2.level.spd) a = e.2.level.spd := by
  induction ls generalizing a with
  | nil => exact Or.inl rfl
  | cons x ls ih =>
    rw [List.foldl_cons]
    rcases ih (if a < x.2.level.spd then a else x.2.level.spd) with h | ⟨e, he, h⟩
    · by_cases hx : a < x.2.level.spd
      · rw [if_pos hx] at h ⊢; exact Or.inl h
      · rw [if_neg hx] at h ⊢; exact Or.inr ⟨x, List.mem_cons_self, h⟩
    · exact Or.inr ⟨e, List.mem_cons_of_mem _ he, h⟩

theorem logLevel_le (l : Logger) : l.logLevel ≤ 5 := (logLevel_fold _ _).1

theorem fromSpdlog_le {n : Nat} (h : n ≤ 5) : fromSpdlog n = n := if_neg (by omega)

theorem logLevel_le_iff {l : Logger} {level : Nat} (h : level < 5) :
    fromSpdlog l.logLevel ≤ level ↔ ∃ e ∈ l.locals ++ l.remotes, e.2.level.code ≤ level := by
  have hp : Proper level := Nat.le_of_lt h
  rw [fromSpdlog_le (logLevel_le l)]
  constructor
  · intro hl
    rcases logLevel_attained (l.locals ++ l.remotes) Level.critical.spd with h5 | ⟨e, he, h5⟩
    · have : l.logLevel = 5 := h5
      omega
    · exact ⟨e, he, (spd_le hp).mp (by rw [← h5]; exact hl)⟩
  · rintro ⟨e, he, hl⟩
    exact Nat.le_trans ((logLevel_fold _ _).2 e he) ((spd_le hp).mpr hl)

/-- Below the lowest level nothing would have happened anyway. -/
theorem silent {l : Logger} {level topic : Nat} (hp : Proper level) (h : ¬ fromSpdlog l.logLevel ≤ level) {e : Nat × Sink}
    (he : e ∈ l.locals ++ l.remotes) : ¬ Admits e.2 level topic := by
  intro ha
  apply h
  rw [fromSpdlog_le (logLevel_le l)]
  exact Nat.le_trans ((logLevel_fold _ _).2 e he) ((spd_le hp).mpr ha.1)

/-- What a call leads to. -/
def callResult (date : Nat → Text) (l : Logger) : Op → Result
  | .user time level text => l.user date time level text
  | .message time level topic text kvs => l.message date time level topic text kvs
  | .plain time level topic text => l.plain date time level topic text
  | _ => {}

theorem dispatch_proper {l : Logger} {date : Nat → Text} {fmt : Format → Text} {m : Msg} (h : Proper m.level) :
    l.dispatch date fmt m = { outs := l.locals.flatMap (localOuts date l.flushLevel l.name m.time m.level m.topic fmt)
                              queued := dispatchRemote l.connected m l.remotes } := by
  unfold Logger.dispatch
  rw [dispatchLocal_proper h]
  exact if_neg (by simp)

theorem message_eq {l : Logger} {date : Nat → Text} {time level topic : Nat} {text : Text} {kvs : List (Text × Text)} (h : Proper level) :
    l.message date time level topic text kvs =
      l.dispatch date (fun f => match f with | .json => jsonText topic text kvs | .simple => simpleText topic text kvs)
        { name := l.name, level, topic, time, text, kvs } := by
  unfold Logger.message
  by_cases hl : fromSpdlog l.logLevel ≤ level
  · exact if_pos hl
  · rw [if_neg hl, dispatch_proper h]
    have h1 : l.locals.flatMap (localOuts date l.flushLevel l.name time level topic
        (fun f => match f with | .json => jsonText topic text kvs | .simple => simpleText topic text kvs)) = [] := by
      rw [List.flatMap_eq_nil_iff]
      intro e he
      exact if_neg (silent h hl (List.mem_append_left _ he))
    have h2 : dispatchRemote l.connected { name := l.name, level, topic, time, text, kvs } l.remotes = [] := by
      unfold dispatchRemote
      rw [List.map_eq_nil_iff, List.filter_eq_nil_iff]
      intro e he hx
      simp only [Bool.and_eq_true] at hx
      exact silent h hl (List.mem_append_right _ he) (passes_iff.mp hx.1.1)
    simp only [h1, h2]

theorem call_eq {l : Logger} {date : Nat → Text} {op : Op} {m : Msg} (hm : logged l.name op = some m) (h : Proper m.level) :
    callResult date l op = l.dispatch date (body op) m := by
  cases op with
  | user time level text =>
    cases hm
    unfold callResult Logger.user
    simp only [message_eq h]
    congr 1
    funext f; cases f <;> rfl
  | message time level topic text kvs =>
    cases hm
    unfold callResult
    simp only [message_eq h]
    congr 1
    funext f; cases f <;> rfl
  | plain time level topic text =>
    cases hm
    unfold callResult Logger.plain
    simp only []
    congr 1
    funext f; cases f <;> rfl
  | connect => cases hm
  | transmit => cases hm
  | arrive _ => cases hm

theorem step_call {date : Nat → Text} {p : Part} {op : Op} {m : Msg} (hm : logged p.logger.name op = some m) :
    p.step date op = p.take (callResult date p.logger op) := by
  cases op <;> first | rfl | cases hm

/-- A call: what the sinks get, and what is queued. -/
theorem call_events {c : Config} {name : Text} {l : Logger} (hb : l.Built c name) {date : Nat → Text} {op : Op} {m : Msg}
    (hm : logged name op = some m) (h : Proper m.level) {i : Nat} {s : Sink} (hs : c.sinks[i]? = some s) (ht : s.type ≠ .remote) :
    sinkEvents i (callResult date l op).outs = sinkGets date c.flushLevel s m (body op) := by
  rw [call_eq (by rw [hb.name]; exact hm) h, dispatch_proper h]
  have hn : l.name = m.name := by
    rw [hb.name]
    cases op <;> first | cases hm; rfl | cases hm
  simp only [hn]
  rw [sinkEvents_unique (localOuts_other date l.flushLevel m.name m.time m.level m.topic (body op)) (locals_nodup hb) (mem_locals hb hs ht),
    localOuts_own date l.flushLevel (body op) i s m, hb.flush]

theorem call_queued {c : Config} {name : Text} {l : Logger} (hb : l.Built c name) {date : Nat → Text} {op : Op} {m : Msg}
    (hm : logged name op = some m) (h : Proper m.level) :
    (callResult date l op).queued = if l.connected then List.replicate (copies c m.level m.topic) m else [] := by
  rw [call_eq (by rw [hb.name]; exact hm) h, dispatch_proper h]
  simp only []
  cases hc : l.connected with
  | true => rw [copies_eq hb]; rfl
  | false =>
    unfold dispatchRemote
    simp

theorem call_thrown {l : Logger} {date : Nat → Text} {op : Op} {m : Msg} (hm : logged l.name op = some m) (h : Proper m.level) :
    (callResult date l op).thrown = false ∧ sends (callResult date l op).outs = [] := by
  rw [call_eq hm h, dispatch_proper h]
  refine ⟨rfl, ?_⟩
  simp only []
  unfold sends
  rw [List.filterMap_flatMap, List.flatMap_eq_nil_iff]
  intro e _
  unfold localOuts
  split
  · split <;> rfl
  · rfl

/-! ## Received messages -/

theorem receivedSink_other (date : Nat → Text) (flushLevel : Level) (m : Msg) (spd : Nat) (e : Nat × Sink) (i : Nat) (h : i ≠ e.1) :
    sinkEvents i (receivedSink date flushLevel m e.1 e.2 spd) = [] := by
  unfold receivedSink
  split
  · rfl
  · split <;> simp [sinkEvents, Ne.symm h]

theorem receivedSink_own {date : Nat → Text} {flushLevel : Level} {m : Msg} (i : Nat) (s : Sink) (h : Proper m.level) :
    sinkEvents i (receivedSink date flushLevel (wire m) i s m.level) = remoteGets date flushLevel s m := by
  unfold receivedSink remoteGets
  by_cases hl : s.level.code ≤ m.level
  · rw [if_pos hl, if_neg (by have := (spd_le h).mpr hl; omega)]
    unfold wire
    simp only []
    cases s.format <;> by_cases hf : flushLevel.code ≤ m.level <;> simp [sinkEvents, hf]
  · rw [if_neg hl, if_pos (by have := mt (spd_le (l := s.level) h).mp hl; omega)]
    rfl

theorem received_events {c : Config} {name : Text} {l : Logger} (hb : l.Built c name) {date : Nat → Text} {m : Msg}
    (h : Proper m.level) {i : Nat} {s : Sink} (hs : c.sinks[i]? = some s) (ht : s.type ≠ .remote) :
    sinkEvents i (l.received date (wire m)).outs = remoteGets date c.flushLevel s m := by
  have hw : (wire m).level = m.level := rfl
  unfold Logger.received
  rw [hw, toSpdlog_proper h]
  have h1 := sinkEvents_unique (g := fun e => receivedSink date l.flushLevel (wire m) e.1 e.2 m.level)
    (receivedSink_other date l.flushLevel (wire m) m.level) (locals_nodup hb) (mem_locals hb hs ht)
  refine h1.trans ?_
  rw [receivedSink_own i s h, hb.flush]

theorem received_quiet (l : Logger) (date : Nat → Text) (m : Msg) :
    sends (l.received date m).outs = [] ∧ (l.received date m).queued = [] := by
  unfold Logger.received
  cases toSpdlog m.level with
  | none => exact ⟨rfl, rfl⟩
  | some spd =>
    refine ⟨?_, rfl⟩
    simp only []
    unfold sends
    rw [List.filterMap_flatMap, List.flatMap_eq_nil_iff]
    intro e _
    unfold receivedSink
    by_cases h1 : spd < e.2.level.spd
    · rw [if_pos h1]; rfl
    · rw [if_neg h1]
      by_cases h2 : l.flushLevel.code ≤ m.level <;> simp [h2]

/-! ## Simulations -/

/-- The configurations and names of the participants stay what they are. -/
def Stat (cfg : Nat → Config) (nm : Nat → Text) (n : Net) : Prop :=
  ∀ p, (n.part p).logger.Built (cfg p) (nm p) ∧ (n.part p).receiver = (cfg p).logFromRemotes

def pub1 (c : Config) (name : Text) (conn : Bool) (op : Op) : List Msg :=
  match logged name op with
  | some m => if conn then List.replicate (copies c m.level m.topic) m else []
  | none => []

def connects : Op → Bool
  | .connect => true
  | _ => false

theorem published_cons (c : Config) (name : Text) (conn : Bool) (op : Op) (l : List Op) :
    published c name conn (op :: l) = pub1 c name conn op ++ published c name (conn || connects op) l := by
  cases op <;> simp [published, pub1, connects, logged]

theorem logged_any (name name' : Text) (op : Op) : (logged name op).isSome = (logged name' op).isSome := by
  cases op <;> rfl

theorem sends_append (a b : List Out) : sends (a ++ b) = sends a ++ sends b := List.filterMap_append

/-- One local operation of a participant. -/
theorem part_step {date : Nat → Text} {c : Config} {name : Text} {p : Part} {op : Op} (hb : p.logger.Built c name) (hr : Regular op) :
    (p.step date op).1.logger.Built c name ∧ (p.step date op).1.receiver = p.receiver ∧
      (p.step date op).1.logger.connected = (p.logger.connected || connects op) ∧
      sends (p.step date op).2 ++ (p.step date op).1.queue = p.queue ++ pub1 c name p.logger.connected op := by
  cases hl : logged name op with
  | some m =>
    have hl' : logged p.logger.name op = some m := by rw [hb.name]; exact hl
    rw [step_call hl']
    have hq := call_queued (date := date) hb hl (hr.1 name m hl)
    have ht := call_thrown (date := date) hl' (hr.1 name m hl)
    refine ⟨hb, rfl, ?_, ?_⟩
    · unfold Part.take
      cases op <;> first | (simp [connects]; done) | cases hl
    · unfold Part.take pub1
      simp only [hl]
      rw [ht.2, hq]; rfl
  | none =>
    cases op with
    | user _ _ _ => cases hl
    | message _ _ _ _ _ => cases hl
    | plain _ _ _ _ => cases hl
    | connect =>
      refine ⟨⟨hb.name, hb.flush, hb.locals, hb.remotes⟩, rfl, by simp [Part.step, connects], ?_⟩
      simp [Part.step, pub1, logged, sends]
    | transmit =>
      unfold Part.step
      cases hq : p.queue with
      | nil => exact ⟨hb, rfl, by simp [connects], by simp [hq, sends, pub1, logged]⟩
      | cons m q =>
        refine ⟨hb, rfl, by simp [connects], ?_⟩
        simp only [pub1, hl, List.append_nil]
        have : sends (if p.receiver = true then (p.logger.received date m).outs else []) = [] := by
          split
          · exact (received_quiet _ _ _).1
          · rfl
        rw [show ∀ x : List Out, sends (.send m :: x) = m :: sends x from fun _ => rfl, this]
        rfl
    | arrive m => exact absurd rfl (hr.2 m)

/-- One local operation: what the sinks get from it, apart from self delivery. -/
theorem part_step_events {date : Nat → Text} {c : Config} {name : Text} {p : Part} {op : Op} (hb : p.logger.Built c name) (hr : Regular op)
    {i : Nat} {s : Sink} (hs : c.sinks[i]? = some s) (ht : s.type ≠ .remote) (h : (logged [] op).isSome ∨ p.receiver = false) :
    sinkEvents i (p.step date op).2 = callGets date c name s op := by
  unfold callGets
  cases hl : logged name op with
  | some m =>
    rw [step_call (by rw [hb.name]; exact hl)]
    exact call_events hb hl (hr.1 name m hl) hs ht
  | none =>
    have hf : p.receiver = false := by
      rcases h with h | h
      · rw [logged_any [] name, hl] at h; cases h
      · exact h
    cases op with
    | user _ _ _ => cases hl
    | message _ _ _ _ _ => cases hl
    | plain _ _ _ _ => cases hl
    | connect => rfl
    | transmit =>
      unfold Part.step
      cases hq : p.queue with
      | nil => rfl
      | cons m q => simp only [hf, Bool.false_eq_true, if_false]; rfl
    | arrive m => exact absurd rfl (hr.2 m)

def RegularNet : NetOp → Prop
  | .act _ op => Regular op
  | .deliver _ _ => True

theorem deliver_nil {date : Nat → Text} {n : Net} {p q : Nat} (h : n.chan p q = []) : n.step date (.deliver p q) = (n, []) := by
  simp only [Net.step, h]

theorem deliver_cons {date : Nat → Text} {n : Net} {p q : Nat} {m : Msg} {rest : List Msg} (h : n.chan p q = m :: rest) :
    n.step date (.deliver p q) = ({ n with chan := fun x y => if x = p ∧ y = q then rest else n.chan x y },
      if (n.part q).receiver then ((n.part q).logger.received date (wire m)).outs else []) := by
  simp only [Net.step, h, Part.step]
  congr 2
  funext x
  split
  · next hx => rw [hx]
  · rfl

theorem stat_step {date : Nat → Text} {cfg : Nat → Config} {nm : Nat → Text} {n : Net} (h : Stat cfg nm n) {o : NetOp} (hr : RegularNet o) :
    Stat cfg nm (n.step date o).1 := by
  intro x
  cases o with
  | act p op =>
    by_cases hx : x = p
    · subst hx
      have := part_step (date := date) (h x).1 hr
      simp only [Net.step, if_pos]
      exact ⟨this.1, this.2.1.trans (h x).2⟩
    · simp only [Net.step, if_neg hx]
      exact h x
  | deliver p q =>
    cases hc : n.chan p q with
    | nil => rw [deliver_nil hc]; exact h x
    | cons m rest => rw [deliver_cons hc]; exact h x

/-- One step: what is delivered, on its way, queued and published balances. -/
theorem net_step {date : Nat → Text} {cfg : Nat → Config} {nm : Nat → Text} {n : Net} (h : Stat cfg nm n) {o : NetOp} (hr : RegularNet o)
    {p q : Nat} (hpq : p ≠ q) (hf : (cfg q).logFromRemotes = true) {i : Nat} {s : Sink} (hs : (cfg q).sinks[i]? = some s)
    (ht : s.type ≠ .remote) (hprop : ∀ m ∈ n.chan p q, Proper m.level) :
    ∃ d : List Msg, d ++ ((n.step date o).1.chan p q ++ ((n.step date o).1.part p).queue) =
        n.chan p q ++ (n.part p).queue ++ (opsOf p [o]).flatMap (pub1 (cfg p) (nm p) (n.part p).logger.connected) ∧
      sinkEvents i (outsFrom p q [(o, (n.step date o).2)]) = d.flatMap (remoteGets date (cfg q).flushLevel s) ∧
      ((n.step date o).1.part p).logger.connected = ((n.part p).logger.connected || (opsOf p [o]).any connects) := by
  cases o with
  | act x op =>
    refine ⟨[], ?_, rfl, ?_⟩
    · by_cases hx : x = p
      · subst hx
        have := (part_step (date := date) (h x).1 hr).2.2.2
        simp only [Net.step, opsOf, List.filterMap_cons, if_true, List.filterMap_nil, List.flatMap_cons, List.flatMap_nil, List.append_nil,
          List.nil_append]
        rw [if_pos (show True ∧ q ≠ x from ⟨trivial, Ne.symm hpq⟩), List.append_assoc, this, List.append_assoc]
      · simp only [Net.step, opsOf, List.filterMap_cons, if_neg hx, List.filterMap_nil, List.flatMap_nil, List.append_nil, List.nil_append,
          if_neg (show ¬ (p = x ∧ q ≠ x) from fun hh => hx hh.1.symm), if_neg (Ne.symm hx)]
    · by_cases hx : x = p
      · subst hx
        have := (part_step (date := date) (h x).1 hr).2.2.1
        simp only [Net.step, opsOf, List.filterMap_cons, if_true, List.filterMap_nil, List.any_cons, List.any_nil, Bool.or_false, this]
      · simp only [Net.step, opsOf, List.filterMap_cons, if_neg hx, List.filterMap_nil, List.any_nil, Bool.or_false, if_neg (Ne.symm hx)]
  | deliver x y =>
    have hops : opsOf p [NetOp.deliver x y] = [] := rfl
    rw [hops]
    cases hc : n.chan x y with
    | nil => rw [deliver_nil hc]; exact ⟨[], by simp, by simp [outsFrom, sinkEvents], by simp⟩
    | cons m rest =>
      rw [deliver_cons hc]
      by_cases hxy : x = p ∧ y = q
      · obtain ⟨rfl, rfl⟩ := hxy
        refine ⟨[m], ?_, ?_, by simp⟩
        · simp [hc]
        · simp only [outsFrom, List.flatMap_cons, List.flatMap_nil, List.append_nil, if_pos (show x = x ∧ y = y from ⟨rfl, rfl⟩)]
          simp only [(h y).2, hf, if_true]
          exact received_events (h y).1 (hprop m (by rw [hc]; exact List.mem_cons_self)) hs ht
      · refine ⟨[], ?_, ?_, by simp⟩
        · have : ¬ (p = x ∧ q = y) := fun hh => hxy ⟨hh.1.symm, hh.2.symm⟩
          simp [this]
        · simp only [outsFrom, List.flatMap_cons, List.flatMap_nil, List.append_nil, if_neg hxy]; rfl

theorem outsFrom_cons (p q : Nat) (e : NetOp × List Out) (t : List (NetOp × List Out)) :
    outsFrom p q (e :: t) = outsFrom p q [e] ++ outsFrom p q t := by simp [outsFrom]

theorem opsOf_cons (p : Nat) (o : NetOp) (l : List NetOp) : opsOf p (o :: l) = opsOf p [o] ++ opsOf p l := by
  unfold opsOf
  rw [← List.filterMap_append]; rfl

theorem opsOf_one (p : Nat) (o : NetOp) : opsOf p [o] = [] ∨ ∃ op, o = .act p op ∧ opsOf p [o] = [op] := by
  cases o with
  | act x op =>
    by_cases hx : x = p
    · subst hx; exact Or.inr ⟨op, rfl, by simp [opsOf]⟩
    · exact Or.inl (by simp [opsOf, hx])
  | deliver x y => exact Or.inl rfl

theorem pub1_proper {c : Config} {name : Text} {conn : Bool} {op : Op} (hr : Regular op) : ∀ m ∈ pub1 c name conn op, Proper m.level := by
  intro m hm
  unfold pub1 at hm
  cases hl : logged name op with
  | none => rw [hl] at hm; cases hm
  | some m' =>
    rw [hl] at hm
    simp only [] at hm
    split at hm
    · rw [List.eq_of_mem_replicate hm]; exact hr.1 name m' hl
    · cases hm

/-- A whole history. -/
theorem net_run {date : Nat → Text} {cfg : Nat → Config} {nm : Nat → Text} {p q : Nat} (hpq : p ≠ q)
    (hf : (cfg q).logFromRemotes = true) {i : Nat} {s : Sink} (hs : (cfg q).sinks[i]? = some s) (ht : s.type ≠ .remote)
    (ops : List NetOp) : ∀ (n : Net), Stat cfg nm n → (∀ o ∈ ops, RegularNet o) → (∀ m ∈ n.chan p q ++ (n.part p).queue, Proper m.level) →
    ∃ d : List Msg, d ++ ((n.run date ops).1.chan p q ++ ((n.run date ops).1.part p).queue) =
        n.chan p q ++ (n.part p).queue ++ published (cfg p) (nm p) (n.part p).logger.connected (opsOf p ops) ∧
      sinkEvents i (outsFrom p q (n.run date ops).2) = d.flatMap (remoteGets date (cfg q).flushLevel s) := by
  induction ops with
  | nil =>
    intro n _ _ _
    exact ⟨[], by simp [Net.run, opsOf, published], rfl⟩
  | cons o ops ih =>
    intro n hst hr hprop
    have hro := hr o List.mem_cons_self
    obtain ⟨d, hd, he, hc⟩ := net_step (date := date) hst hro hpq hf hs ht (fun m hm => hprop m (List.mem_append_left _ hm))
    have hprop' : ∀ m ∈ (n.step date o).1.chan p q ++ ((n.step date o).1.part p).queue, Proper m.level := by
      intro m hm
      have hm2 : m ∈ d ++ ((n.step date o).1.chan p q ++ ((n.step date o).1.part p).queue) := List.mem_append_right _ hm
      rw [hd] at hm2
      rcases List.mem_append.mp hm2 with hm2 | hm2
      · exact hprop m hm2
      · rcases opsOf_one p o with h0 | ⟨op, rfl, h0⟩
        · rw [h0] at hm2; cases hm2
        · rw [h0, List.flatMap_cons, List.flatMap_nil, List.append_nil] at hm2
          exact pub1_proper hro m hm2
    obtain ⟨d', hd', he'⟩ := ih (n.step date o).1 (stat_step hst hro) (fun o' ho' => hr o' (List.mem_cons_of_mem _ ho')) hprop'
    refine ⟨d ++ d', ?_, ?_⟩
    · unfold Net.run
      simp only []
      rw [List.append_assoc, hd', ← List.append_assoc, hd, List.append_assoc, opsOf_cons p o ops]
      congr 1
      rcases opsOf_one p o with h0 | ⟨op, rfl, h0⟩
      · rw [h0] at hc ⊢
        rw [hc]; simp
      · rw [h0] at hc ⊢
        rw [hc, List.singleton_append, published_cons]; simp
    · unfold Net.run
      simp only []
      rw [outsFrom_cons, sinkEvents_append, he, he', List.flatMap_append]

/-- The events of single steps add up. -/
theorem own_run {date : Nat → Text} {cfg : Nat → Config} {nm : Nat → Text} {p : Nat} {i : Nat} {s : Sink}
    (hs : (cfg p).sinks[i]? = some s) (ht : s.type ≠ .remote) (ops : List NetOp) :
    ∀ (n : Net), Stat cfg nm n → (∀ o ∈ ops, RegularNet o) →
      sinkEvents i (outsOfCalls p (n.run date ops).2) = (opsOf p ops).flatMap (callGets date (cfg p) (nm p) s) ∧
      ((cfg p).logFromRemotes = false →
        sinkEvents i (outsIn p (n.run date ops).2) = (opsOf p ops).flatMap (callGets date (cfg p) (nm p) s)) := by
  induction ops with
  | nil => intro n _ _; exact ⟨rfl, fun _ => rfl⟩
  | cons o ops ih =>
    intro n hst hr
    have hro := hr o List.mem_cons_self
    obtain ⟨h1, h2⟩ := ih (n.step date o).1 (stat_step hst hro) (fun o' ho' => hr o' (List.mem_cons_of_mem _ ho'))
    unfold Net.run
    simp only []
    rw [opsOf_cons, List.flatMap_append]
    constructor
    · unfold outsOfCalls at h1 ⊢
      rw [List.flatMap_cons, sinkEvents_append, h1]
      congr 1
      cases o with
      | deliver x y => rfl
      | act x op =>
        by_cases hx : x = p
        · subst hx
          simp only [opsOf, List.filterMap_cons, if_true, List.filterMap_nil, List.flatMap_cons, List.flatMap_nil, List.append_nil, true_and]
          by_cases hl : (logged [] op).isSome
          · rw [if_pos hl]
            exact part_step_events (hst x).1 hro hs ht (Or.inl hl)
          · rw [if_neg hl]
            unfold callGets
            rw [logged_any [] (nm x)] at hl
            cases hx : logged (nm x) op with
            | none => rfl
            | some m => rw [hx] at hl; exact absurd rfl hl
        · simp [opsOf, hx, sinkEvents]
    · intro hfr
      have h2 := h2 hfr
      unfold outsIn at h2 ⊢
      rw [List.flatMap_cons, sinkEvents_append, h2]
      congr 1
      cases o with
      | deliver x y =>
        by_cases hy : y = p
        · subst hy
          simp only [if_true, opsOf, List.filterMap_cons, List.filterMap_nil, List.flatMap_nil]
          cases hc : n.chan x y with
          | nil => rw [deliver_nil hc]; rfl
          | cons m rest =>
            rw [deliver_cons hc]
            simp only [(hst y).2, hfr, Bool.false_eq_true, if_false]; rfl
        · simp [opsOf, hy, sinkEvents]
      | act x op =>
        by_cases hx : x = p
        · subst hx
          simp only [opsOf, List.filterMap_cons, if_true, List.filterMap_nil, List.flatMap_cons, List.flatMap_nil, List.append_nil]
          exact part_step_events (hst x).1 hro hs ht (Or.inr ((hst x).2.trans hfr))
        · simp [opsOf, hx, sinkEvents]

end SilKit.Logging
