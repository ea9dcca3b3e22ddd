import Verif.Model.ReplayChannel
/-! # Which recorded channel belongs to a controller -/
namespace SilKit.ReplayChannel.Spec
open SilKit.ReplayChannel

/-- The text that names a controller in a recording: `network/participant/controller`. -/
def path (network participant name : Text) : Text := network ++ '/' :: (participant ++ '/' :: name)

/-- A name that can be part of such a text. -/
def Plain (t : Text) : Prop := t ≠ [] ∧ '/' ∉ t

instance (t : Text) : Decidable (Plain t) := inferInstanceAs (Decidable (_ ∧ _))

/-- Messages of the networks. -/
def Fits (n : NetworkType) (m : MessageType) : Prop :=
  (n = .ethernet ∧ m = .ethernet) ∨ (n = .can ∧ m = .can) ∨ (n = .lin ∧ m = .lin) ∨ (n = .flexray ∧ m = .flexray) ∨ (n = .data ∧ m = .data)

instance (n : NetworkType) (m : MessageType) : Decidable (Fits n m) := inferInstanceAs (Decidable (_ ∨ _))

/-- The channel was recorded for this controller. -/
def Belongs (c : Controller) (ch : Channel) : Prop :=
  Fits c.type ch.type ∧ ch.infos "mdf/source_info_name" = some (path c.network c.participant c.name)

instance (c : Controller) (ch : Channel) : Decidable (Belongs c ch) := inferInstanceAs (Decidable (_ ∧ _))

/-- The channel is named as SIL Kit names channels. -/
def Recorded (ch : Channel) : Prop :=
  ∃ n p s, Plain n ∧ Plain p ∧ Plain s ∧ ch.infos "mdf/source_info_name" = some (path n p s)

/-- The attributes of the selection, and their names in the recording. -/
def wanted (s : Selection) : List (String × Option Text) :=
  [("mdf/channel_name", s.channelName), ("mdf/source_info_name", s.channelSource), ("mdf/source_info_path", s.channelPath),
   ("mdf/channel_group_acquisition_name", s.groupName), ("mdf/channel_group_name", s.groupSource), ("mdf/channel_group_path", s.groupPath)]

/-- All attributes that the user gave are those of the channel. -/
def Selected (s : Selection) (ch : Channel) : Prop := ∀ k v, (k, some v) ∈ wanted s → ch.infos k = some v

/-- The user gave some attribute. -/
def Selects (s : Selection) : Prop := ∃ k v, (k, some v) ∈ wanted s

/-- The channel has all attributes of the standard. -/
def Complete (ch : Channel) : Prop := ∀ k o, (k, o) ∈ wanted {} → (ch.infos k).isSome = true

end SilKit.ReplayChannel.Spec
