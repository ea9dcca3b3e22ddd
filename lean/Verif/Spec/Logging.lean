import Verif.Model.Logging
/-!
# Specification: logging

Which sinks a message belongs to (docs/configuration/logging-configuration.rst), and what a line of JSON means (RFC 8259, restricted to
strings and objects, the only values in log lines).
-/
namespace SilKit.Logging.Spec
open SilKit.Logging

/-- "The minimum log level of a message to be logged by the sink"; "If EnabledTopics is empty or not set, all topics are allowed. If
EnabledTopics is set, only listed topics are allowed. DisabledTopics always has precedence and filters matching topics out." -/
def Admits (s : Sink) (level topic : Nat) : Prop :=
  s.level.code ≤ level ∧ topic ∉ s.disabled ∧ (s.enabled = [] ∨ topic ∈ s.enabled)

instance (s : Sink) (level topic : Nat) : Decidable (Admits s level topic) := by unfold Admits; infer_instance

/-- The levels of messages: trace to critical. -/
def Proper (level : Nat) : Prop := level ≤ 5

instance (level : Nat) : Decidable (Proper level) := by unfold Proper; infer_instance

/-- The lines that appear in sink `i`. -/
def linesOf (i : Nat) (outs : List Out) : List Text :=
  outs.filterMap (fun o => match o with | .write j t => if j = i then some t else none | _ => none)

/-- What happens to sink `i`, in order: `some line` is written, `none` is a flush. -/
def sinkEvents (i : Nat) (outs : List Out) : List (Option Text) :=
  outs.filterMap (fun o => match o with
    | .write j t => if j = i then some (some t) else none
    | .flush j => if j = i then some none else none
    | .send _ => none)

/-! ## Histories -/

/-- The text of a call, without date, name and level, in the formats. -/
def body : Op → Format → Text
  | .user _ _ text, .json => jsonText topicUser text []
  | .user _ _ text, .simple => simpleText topicUser text []
  | .message _ _ topic text kvs, .json => jsonText topic text kvs
  | .message _ _ topic text kvs, .simple => simpleText topic text kvs
  | .plain _ _ topic text, .json => jsonString topic text
  | .plain _ _ topic text, .simple => simpleString topic text
  | _, _ => []

/-- The message that participant `name` logs with a call. -/
def logged (name : Text) : Op → Option Msg
  | .user time level text => some { name, level, topic := topicUser, time, text }
  | .message time level topic text kvs => some { name, level, topic, time, text, kvs }
  | .plain time level topic text => some { name, level, topic, time, text := simpleString topic text }
  | _ => none

/-- The calls have one of the levels trace to critical, and messages arrive only from the network. -/
def Regular (op : Op) : Prop := (∀ name m, logged name op = some m → Proper m.level) ∧ ∀ m, op ≠ .arrive m

/-- What a sink gets from a message with the given text: the line, once, if the sink admits it, and a flush if the flush level is
reached. -/
def sinkGets (date : Nat → Text) (flushLevel : Level) (s : Sink) (m : Msg) (text : Format → Text) : List (Option Text) :=
  if Admits s m.level m.topic then
    some (line date s.format m.time m.name m.level (text s.format)) :: (if flushLevel.code ≤ m.level then [none] else [])
  else []

/-- What a sink gets from a call. -/
def callGets (date : Nat → Text) (c : Config) (name : Text) (s : Sink) (op : Op) : List (Option Text) :=
  match logged name op with
  | some m => sinkGets date c.flushLevel s m (body op)
  | none => []

/-- The number of remote sinks that let a message through. -/
def copies (c : Config) (level topic : Nat) : Nat := (c.sinks.filter (fun s => decide (s.type = .remote ∧ Admits s level topic))).length

/-- What a participant publishes with its calls, one copy per admitting remote sink; nothing before remote logging is set up. -/
def published (c : Config) (name : Text) : Bool → List Op → List Msg
  | _, [] => []
  | _, .connect :: l => published c name true l
  | conn, op :: l => (match logged name op with
    | some m => if conn then List.replicate (copies c m.level m.topic) m else []
    | none => []) ++ published c name conn l

/-- What a sink of another participant gets from a published message: only the level counts. -/
def remoteGets (date : Nat → Text) (flushLevel : Level) (s : Sink) (m : Msg) : List (Option Text) :=
  if s.level.code ≤ m.level then
    some (line date s.format (m.time / 1000 * 1000) m.name m.level (match s.format with
      | .json => jsonText (wire m).topic m.text m.kvs
      | .simple => simpleText (wire m).topic m.text m.kvs)) :: (if flushLevel.code ≤ m.level then [none] else [])
  else []

/-- The operations of participant `p` in a history. -/
def opsOf (p : Nat) (ops : List NetOp) : List Op := ops.filterMap (fun o => match o with | .act x op => if x = p then some op else none | _ => none)

/-- What happens in participant `p` in a history. -/
def outsIn (p : Nat) (trace : List (NetOp × List Out)) : List Out :=
  trace.flatMap (fun e => match e.1 with | .act x _ => if x = p then e.2 else [] | .deliver _ y => if y = p then e.2 else [])

/-- What deliveries from `p` lead to in `q`. -/
def outsFrom (p q : Nat) (trace : List (NetOp × List Out)) : List Out :=
  trace.flatMap (fun e => match e.1 with | .act _ _ => [] | .deliver x y => if x = p ∧ y = q then e.2 else [])

/-- What the calls of `p` lead to in `p`. -/
def outsOfCalls (p : Nat) (trace : List (NetOp × List Out)) : List Out :=
  trace.flatMap (fun e => match e.1 with | .act x op => if x = p ∧ (logged [] op).isSome then e.2 else [] | .deliver _ _ => [])

/-! ## JSON -/

inductive Json
  | str (t : Text)
  | obj (members : List (Text × Json))

/-- Insignificant whitespace. -/
def ws : Text → Text
  | c :: r => if c = ' ' ∨ c = '\t' ∨ c = '\n' ∨ c = '\r' then ws r else c :: r
  | [] => []

/-- The character after a backslash. -/
def unescape (c : Char) : Option Char :=
  if c = '"' then some '"' else if c = '\\' then some '\\' else if c = '/' then some '/' else if c = 'b' then some (Char.ofNat 8)
  else if c = 't' then some '\t' else if c = 'n' then some '\n' else if c = 'f' then some (Char.ofNat 12)
  else if c = 'r' then some '\r' else none

def hexDigit (c : Char) : Option Nat :=
  if '0' ≤ c ∧ c ≤ '9' then some (c.toNat - 48)
  else if 'a' ≤ c ∧ c ≤ 'f' then some (c.toNat - 87)
  else if 'A' ≤ c ∧ c ≤ 'F' then some (c.toNat - 55) else none

/-- The rest of a string after the opening quote: its content and what follows the closing quote. Control characters have to be
escaped. -/
def pString : Text → Option (Text × Text)
  | [] => none
  | '"' :: r => some ([], r)
  | '\\' :: 'u' :: a :: b :: c :: d :: r =>
    match hexDigit a, hexDigit b, hexDigit c, hexDigit d with
    | some a, some b, some c, some d => (pString r).map (fun x => (Char.ofNat (((a * 16 + b) * 16 + c) * 16 + d) :: x.1, x.2))
    | _, _, _, _ => none
  | '\\' :: c :: r => match unescape c with
    | some d => (pString r).map (fun x => (d :: x.1, x.2))
    | none => none
  | c :: r => if c.toNat < 32 ∨ c = '\\' then none else (pString r).map (fun x => (c :: x.1, x.2))

mutual
/-- A value; the number bounds the depth of the calls. -/
def pValue : Nat → Text → Option (Json × Text)
  | 0, _ => none
  | f + 1, s => match ws s with
    | '"' :: r => (pString r).map (fun x => (.str x.1, x.2))
    | '{' :: r => match ws r with
      | '}' :: r => some (.obj [], r)
      | r => (pMembers f r).map (fun x => (.obj x.1, x.2))
    | _ => none
/-- The members of an object and what follows the closing brace. -/
def pMembers : Nat → Text → Option (List (Text × Json) × Text)
  | 0, _ => none
  | f + 1, s => match ws s with
    | '"' :: r => match pString r with
      | none => none
      | some (k, r) => match ws r with
        | ':' :: r => match pValue f r with
          | none => none
          | some (v, r) => match ws r with
            | ',' :: r => (pMembers f r).map (fun x => ((k, v) :: x.1, x.2))
            | '}' :: r => some ([(k, v)], r)
            | _ => none
        | _ => none
    | _ => none
end

/-- The line is a JSON text with value `v`. -/
def Reads (t : Text) (v : Json) : Prop := ∃ f rest, pValue f t = some (v, rest) ∧ ws rest = []

/-- The object that a JSON line stands for, by the documentation: time stamp in microseconds, participant, level, topic unless there is
none, message, key-value pairs if there are any. -/
def entry (time : Nat) (name : Text) (level : Nat) (topic : Nat) (text : Text) (kvs : List (Text × Text)) : Json :=
  .obj ([("ts".toList, .str (Nat.toDigits 10 (time / 1000))), ("log".toList, .str name), ("lvl".toList, .str (levelName level))] ++
    (if topic = topicNone then [] else [("topic".toList, .str (topicName topic))]) ++ [("msg".toList, .str text)] ++
    (if kvs = [] then [] else [("kv".toList, .obj (kvs.map (fun e => (e.1, .str e.2))))]))

/-- No control character but those with an escape of their own. -/
def Plain (t : Text) : Prop := ∀ c ∈ t, 32 ≤ c.toNat ∨ c.toNat = 8 ∨ c.toNat = 9 ∨ c.toNat = 10 ∨ c.toNat = 12 ∨ c.toNat = 13

/-- Nothing that JSON wants to be escaped. -/
def Clean (t : Text) : Prop := ∀ c ∈ t, 32 ≤ c.toNat ∧ c ≠ '"' ∧ c ≠ '\\'

/-- Key-value pairs that are all given as texts. -/
def PlainPairs (kvs : List (Text × Text)) : Prop := ∀ e ∈ kvs, Plain e.1 ∧ Plain e.2 ∧ e.1 ≠ keyRaw

end SilKit.Logging.Spec
