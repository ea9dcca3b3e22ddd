/-!
# Model of the choice of the recorded channel that a controller replays

Source: `SilKit/source/tracing/ReplayScheduler.cpp:33-293, 317-390`, `Tracing.cpp:100-144`. The files and what they contain are arbitrary: MDF files are read by an
extension that is not part of the repository. What is done with the channel is `Model/Replay.lean` and `Model/LinReplay.lean`.
-/
namespace SilKit.ReplayChannel

abbrev Text := List Char

/-- `TraceMessageType`; `other`: the types that no network has. -/
inductive MessageType
  | ethernet | can | lin | flexray | data | other
deriving Repr, DecidableEq

/-- `Config::NetworkType`; `other`: `Undefined`, `Invalid` and `RPC`. -/
inductive NetworkType
  | ethernet | can | lin | flexray | data | other
deriving Repr, DecidableEq

/-- `IReplayChannel`: its type and the map of its attributes, `GetMetaInfos`. -/
structure Channel where
  type : MessageType
  infos : String → Option Text

/-- `IReplayFile`. -/
structure File where
  pcap : Bool
  channels : List Channel

/-- `Config::MdfChannel`. -/
structure Selection where
  channelName : Option Text := none
  channelSource : Option Text := none
  channelPath : Option Text := none
  groupName : Option Text := none
  groupSource : Option Text := none
  groupPath : Option Text := none
deriving Repr, DecidableEq

/-- `Config::Replay`; `directed`: the direction is not `Undefined`. -/
structure Config where
  directed : Bool
  source : Text
  selection : Selection := {}

/-- A controller: its name, the participant, the network and its type. -/
structure Controller where
  name : Text
  participant : Text
  network : Text
  type : NetworkType

/-- `ToTraceMessageType`, ReplayScheduler.cpp:33-50; `none`: a `SilKitError`. -/
def toMessageType : NetworkType → Option MessageType
  | .ethernet => some .ethernet
  | .can => some .can
  | .lin => some .lin
  | .flexray => some .flexray
  | .data => some .data
  | .other => none

/-- `splitString` for the separator "/", ReplayScheduler.cpp:52-65, in one pass; `acc` is the reversed part before. -/
def split (acc : Text) : Text → List Text
  | [] => if acc = [] then [] else [acc.reverse]
  | x :: xs => if x = '/' then acc.reverse :: split [] xs else split (x :: acc) xs

/-- `isSetAndEqual`, ReplayScheduler.cpp:163-168. -/
def setAndEqual (given : Option Text) (value : Text) : Bool := match given with
  | some g => g == value
  | none => true

/-- `MatchMdfChannel`, ReplayScheduler.cpp:157-178, with the names of `MetaInfos`, 78-106. `none`: `std::out_of_range` of `map::at`; the attributes are read before
it is looked at whether they are needed. -/
def matchMdf (sel : Selection) (ch : Channel) : Option Bool := do
  let name ← ch.infos "mdf/channel_name"
  let path ← ch.infos "mdf/source_info_path"
  let source ← ch.infos "mdf/source_info_name"
  let groupName ← ch.infos "mdf/channel_group_acquisition_name"
  let groupPath ← ch.infos "mdf/channel_group_path"
  let groupSource ← ch.infos "mdf/channel_group_name"
  some (setAndEqual sel.channelName name && setAndEqual sel.channelPath path && setAndEqual sel.channelSource source && setAndEqual sel.groupName groupName &&
    setAndEqual sel.groupPath groupPath && setAndEqual sel.groupSource groupSource)

/-- `MatchSilKitChannel`, ReplayScheduler.cpp:180-195. `none`: `std::out_of_range` of `map::at` or `vector::at`. -/
def matchSilKit (c : Controller) (ch : Channel) : Option Bool :=
  match ch.infos "mdf/source_info_name" with
  | none => none
  | some s => match split [] s with
    | link :: participant :: service :: _ => some (link == c.network && participant == c.participant && service == c.name)
    | _ => none

/-- `HasMdfChannelSelection`, ReplayScheduler.cpp:197-204. -/
def hasSelection (s : Selection) : Bool :=
  s.channelName.isSome || s.channelSource.isSome || s.channelPath.isSome || s.groupName.isSome || s.groupSource.isSome || s.groupPath.isSome

inductive Loop
  | pcapChannel (ch : Channel)
  | candidates (l : List Channel)
  | outOfRange

/-- The loop of `FindReplayChannel`, ReplayScheduler.cpp:236-276. -/
def loop (pcap : Bool) (type : MessageType) (sel : Selection) (c : Controller) (acc : List Channel) : List Channel → Loop
  | [] => .candidates acc
  | ch :: rest =>
    if pcap = true ∧ ch.type = type then .pcapChannel ch
    else if hasSelection sel then
      match matchMdf sel ch with
      | none => .outOfRange
      | some b => loop pcap type sel c (if b then acc ++ [ch] else acc) rest
    else if ch.type ≠ type then loop pcap type sel c acc rest
    else match matchSilKit c ch with
      | none => .outOfRange
      | some b => loop pcap type sel c (if b then acc ++ [ch] else acc) rest

/-- What the creation of a controller leads to. `warned`: the controller replays nothing, and this is logged. The last two are thrown at the creator of the
controller. -/
inductive Outcome
  | replays (ch : Channel)
  | notConfigured
  | warned
  | configurationError
  | outOfRange

/-- The end of `FindReplayChannel`, ReplayScheduler.cpp:278-292, and of `ConfigureController`, 347-374. -/
def choose (sel : Selection) : Loop → Outcome
  | .pcapChannel ch => .replays ch
  | .outOfRange => .outOfRange
  | .candidates l =>
    if hasSelection sel ∧ l.length ≠ 1 then .configurationError
    else match l with
      | [] => .warned
      | ch :: _ => .replays ch

/-- `ConfigureController`, ReplayScheduler.cpp:317-375. The files are a map in which the first source of a name is kept (Tracing.cpp:100-131); `none`: a file
that could not be opened. -/
def configure (files : List (Text × Option File)) (cfg : Config) (c : Controller) : Outcome :=
  if cfg.directed = false ∨ cfg.source = [] then .notConfigured
  else match files.lookup cfg.source with
    | none => .outOfRange
    | some none => .warned
    | some (some f) => match toMessageType c.type with
      | none => .warned
      | some type => choose cfg.selection (loop f.pcap type cfg.selection c [] f.channels)

end SilKit.ReplayChannel
