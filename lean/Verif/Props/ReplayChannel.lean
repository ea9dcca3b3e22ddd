import Verif.Lemmas.ReplayChannel
/-!
# C77: which recorded channel a controller replays

`path`, `Belongs`, `Recorded`, `Selected`, `Complete` and `Selects` are in `Spec/ReplayChannel.lean`; what is done with the channel is C45, C46 and C76.
-/
namespace SilKit.Props
open SilKit.ReplayChannel SilKit.ReplayChannel.Spec

/-- A recorded channel with all attributes, a file and a controller. -/
def recordedChannel (type : MessageType) (source name : String) : Channel :=
  ⟨type, fun k => if k = "mdf/source_info_name" then some source.toList else if k = "mdf/channel_name" then some name.toList
    else if k = "mdf/source_info_path" ∨ k = "mdf/channel_group_acquisition_name" ∨ k = "mdf/channel_group_name" ∨ k = "mdf/channel_group_path" then some [] else none⟩
def replayController (type : NetworkType) : Controller := ⟨"C".toList, "P".toList, "N".toList, type⟩

theorem configure_file {files : List (Text × Option File)} {cfg : Config} {c : Controller} {f : File} (hcfg : cfg.directed = true ∧ cfg.source ≠ [])
    (hf : files.lookup cfg.source = some (some f)) {type : MessageType} (ht : toMessageType c.type = some type) :
    configure files cfg c = choose cfg.selection (loop f.pcap type cfg.selection c [] f.channels) := by
  unfold configure
  rw [if_neg (by simp [hcfg.1, hcfg.2]), hf]
  dsimp only
  rw [ht]

theorem configure_other {files : List (Text × Option File)} {cfg : Config} {c : Controller} {f : File} (hcfg : cfg.directed = true ∧ cfg.source ≠ [])
    (hf : files.lookup cfg.source = some (some f)) (ht : toMessageType c.type = none) : configure files cfg c = .warned := by
  unfold configure
  rw [if_neg (by simp [hcfg.1, hcfg.2]), hf]
  dsimp only
  rw [ht]

theorem not_selects {s : Selection} (h : ¬ Selects s) : hasSelection s = false := by
  rw [Bool.eq_false_iff]
  exact fun e => h ((hasSelection_iff s).mp e)

/-- **C77.** Without a selection, a controller replays the first channel that was recorded for it: of its type, and named by its network, its participant and its
name - and nothing if there is none -, in every file whose channels of this type are named as SIL Kit names them. -/
theorem C77_own_channel_is_replayed (files : List (Text × Option File)) (cfg : Config) (c : Controller) (f : File) (hcfg : cfg.directed = true ∧ cfg.source ≠ [])
    (hf : files.lookup cfg.source = some (some f)) (hpcap : f.pcap = false) (hsel : ¬ Selects cfg.selection) (hname : Plain c.name)
    (hrec : ∀ ch ∈ f.channels, Fits c.type ch.type → Recorded ch) :
    (∀ pre ch post, f.channels = pre ++ ch :: post → Belongs c ch → (∀ x ∈ pre, ¬ Belongs c x) → configure files cfg c = .replays ch) ∧
    ((∀ ch ∈ f.channels, ¬ Belongs c ch) → configure files cfg c = .warned) := by
  cases ht : toMessageType c.type with
  | none =>
    have hno : ∀ ch, ¬ Belongs c ch := fun ch hb => by have := (fits_iff _ _).mp hb.1; rw [ht] at this; cases this
    exact ⟨fun _ ch _ _ hb _ => absurd hb (hno ch), fun _ => configure_other hcfg hf ht⟩
  | some type =>
    have hfit : ∀ ch : Channel, Fits c.type ch.type ↔ ch.type = type := by
      intro ch
      rw [fits_iff, ht]
      simp [eq_comm]
    rw [configure_file hcfg hf ht, hpcap, loop_own type cfg.selection c (fun ch => decide (ch.infos "mdf/source_info_name" = some (path c.network c.participant c.name)))
      (not_selects hsel) f.channels [] (fun ch hm he => matchSilKit_recorded c ch hname (hrec ch hm ((hfit ch).mpr he)))]
    have hb : ∀ ch : Channel, (decide (ch.type = type) && decide (ch.infos "mdf/source_info_name" = some (path c.network c.participant c.name))) = true ↔ Belongs c ch := by
      intro ch
      unfold Belongs
      rw [hfit]
      simp
    unfold choose
    dsimp only
    rw [not_selects hsel, if_neg (by simp)]
    constructor
    · intro pre ch post e hch hpre
      rw [e, List.filter_append, List.filter_cons, if_pos ((hb ch).mpr hch), List.filter_eq_nil_iff.mpr (fun x hx => fun e' => hpre x hx ((hb x).mp e'))]
      rfl
    · intro hno
      rw [List.filter_eq_nil_iff.mpr (fun x hx => fun e' => hno x hx ((hb x).mp e'))]
      rfl

example : Belongs (replayController .can) (recordedChannel .can "N/P/C" "Frames") ∧ Plain (replayController .can).name ∧
    Recorded (recordedChannel .can "N/P/C" "Frames") := by
  refine ⟨by decide, by decide, "N".toList, "P".toList, "C".toList, by decide, by decide, by decide, by decide⟩
example : ¬ Selects {} := by
  rintro ⟨k, v, h⟩
  simp [wanted] at h

/-- **C77.** With a selection, a controller replays the one channel with all given attributes; if there is none, or more than one, its creation fails with a
configuration error. -/
theorem C77_selected_channel_is_replayed (files : List (Text × Option File)) (cfg : Config) (c : Controller) (f : File) (hcfg : cfg.directed = true ∧ cfg.source ≠ [])
    (hf : files.lookup cfg.source = some (some f)) (hpcap : f.pcap = false) (hsel : Selects cfg.selection) (htype : c.type ≠ .other)
    (hcomplete : ∀ ch ∈ f.channels, Complete ch) :
    (∀ pre ch post, f.channels = pre ++ ch :: post → Selected cfg.selection ch → (∀ x ∈ pre ++ post, ¬ Selected cfg.selection x) →
      configure files cfg c = .replays ch) ∧
    ((∀ ch ∈ f.channels, ¬ Selected cfg.selection ch) → configure files cfg c = .configurationError) ∧
    (∀ pre ch mid ch' post, f.channels = pre ++ ch :: (mid ++ ch' :: post) → Selected cfg.selection ch → Selected cfg.selection ch' →
      configure files cfg c = .configurationError) := by
  have hs := (hasSelection_iff _).mpr hsel
  obtain ⟨type, ht⟩ : ∃ type, toMessageType c.type = some type := by
    cases h : c.type <;> first | exact ⟨_, rfl⟩ | exact absurd h htype
  have hm : ∀ ch ∈ f.channels, matchMdf cfg.selection ch = some ((matchMdf cfg.selection ch).getD false) ∧
      ((matchMdf cfg.selection ch).getD false = true ↔ Selected cfg.selection ch) := by
    intro ch hch
    obtain ⟨b, e, hb⟩ := matchMdf_complete cfg.selection ch (hcomplete ch hch)
    rw [e]
    exact ⟨rfl, hb⟩
  rw [configure_file hcfg hf ht, hpcap, loop_selected type cfg.selection c (fun ch => (matchMdf cfg.selection ch).getD false) hs f.channels [] (fun ch h => (hm ch h).1)]
  unfold choose
  dsimp only
  rw [hs, List.nil_append]
  have hout : ∀ l : List Channel, (∀ x ∈ l, x ∈ f.channels) → (∀ x ∈ l, ¬ Selected cfg.selection x) → l.filter (fun ch => (matchMdf cfg.selection ch).getD false) = [] := by
    intro l hl hn
    rw [List.filter_eq_nil_iff]
    exact fun x hx e => hn x hx ((hm x (hl x hx)).2.mp e)
  refine ⟨fun pre ch post e hch hno => ?_, fun hno => ?_, fun pre ch mid ch' post e h1 h2 => ?_⟩
  · have hin : ch ∈ f.channels := by rw [e]; simp
    have e1 := hout pre (fun x hx => by rw [e]; simp [hx]) (fun x hx => hno x (List.mem_append_left _ hx))
    have e2 := hout post (fun x hx => by rw [e]; simp [hx]) (fun x hx => hno x (List.mem_append_right _ hx))
    rw [e, List.filter_append, List.filter_cons, if_pos ((hm ch hin).2.mpr hch), e1, e2]
    simp
  · rw [hout _ (fun _ h => h) hno]
    simp
  · have i1 : ch ∈ f.channels := by rw [e]; simp
    have i2 : ch' ∈ f.channels := by rw [e]; simp
    rw [e, List.filter_append, List.filter_cons, if_pos ((hm ch i1).2.mpr h1), List.filter_append, List.filter_cons, if_pos ((hm ch' i2).2.mpr h2), if_pos]
    refine ⟨rfl, ?_⟩
    simp only [List.length_append, List.length_cons]
    omega

example : Complete (recordedChannel .can "x" "Frames") ∧ Selected { channelName := some "Frames".toList } (recordedChannel .can "x" "Frames") ∧
    Selects { channelName := some "Frames".toList } ∧ ¬ Selected { channelName := some "Other".toList } (recordedChannel .can "x" "Frames") := by
  refine ⟨?_, ?_, ⟨"mdf/channel_name", "Frames".toList, by decide⟩, fun h => absurd (h "mdf/channel_name" "Other".toList (by decide)) (by decide)⟩
  · intro k o h
    simp only [wanted, List.mem_cons, Prod.mk.injEq, List.not_mem_nil, or_false] at h
    rcases h with ⟨rfl, _⟩ | ⟨rfl, _⟩ | ⟨rfl, _⟩ | ⟨rfl, _⟩ | ⟨rfl, _⟩ | ⟨rfl, _⟩ <;> decide
  · intro k v h
    simp [wanted] at h
    obtain ⟨rfl, rfl⟩ := h
    decide

theorem matchMdf_none (sel : Selection) {ch : Channel} (hn : ¬ Complete ch) : matchMdf sel ch = none := by
  cases h : matchMdf sel ch with
  | none => rfl
  | some b =>
    exfalso
    apply hn
    unfold matchMdf at h
    simp only [Option.bind_eq_bind, Option.bind_eq_some_iff] at h
    obtain ⟨_, e1, _, e2, _, e3, _, e4, _, e5, _, e6, _⟩ := h
    intro k o hk
    simp only [wanted, List.mem_cons, Prod.mk.injEq, List.not_mem_nil, or_false] at hk
    rcases hk with ⟨rfl, _⟩ | ⟨rfl, _⟩ | ⟨rfl, _⟩ | ⟨rfl, _⟩ | ⟨rfl, _⟩ | ⟨rfl, _⟩ <;> simp [e1, e2, e3, e4, e5, e6]

/-- **C77.** The frames of a PCAP file (one channel, without the attributes of MDF files) are replayed by Ethernet controllers, whatever is selected, and by no others;
other controllers are not created if something is selected. -/
theorem C77_pcap_files_are_for_ethernet (files : List (Text × Option File)) (cfg : Config) (c : Controller) (f : File) (hcfg : cfg.directed = true ∧ cfg.source ≠ [])
    (hf : files.lookup cfg.source = some (some f)) (hpcap : f.pcap = true) (ch : Channel) (hch : f.channels = [ch]) (ht : ch.type = .ethernet) (hc : ¬ Complete ch) :
    (c.type = .ethernet → configure files cfg c = .replays ch) ∧
    (c.type ≠ .ethernet → ¬ Selects cfg.selection → configure files cfg c = .warned) ∧
    (c.type ≠ .ethernet → c.type ≠ .other → Selects cfg.selection → configure files cfg c = .outOfRange) := by
  have hne : ∀ type, c.type ≠ .ethernet → toMessageType c.type = some type → ch.type ≠ type := by
    intro type hn h
    rw [ht]
    rintro rfl
    revert h
    cases h' : c.type <;> simp [toMessageType, h'] at hn ⊢
  refine ⟨fun he => ?_, fun hn hsel => ?_, fun hn ho hsel => ?_⟩
  · rw [configure_file hcfg hf (type := .ethernet) (by rw [he]; rfl), hpcap, hch]
    simp [loop, ht, choose]
  · cases h : toMessageType c.type with
    | none => exact configure_other hcfg hf h
    | some type =>
      rw [configure_file hcfg hf h, hch]
      simp [loop, hne type hn h, not_selects hsel, choose]
  · cases h : toMessageType c.type with
    | none =>
      revert h
      cases h' : c.type <;> simp [toMessageType, h'] at ho ⊢
    | some type =>
      rw [configure_file hcfg hf h, hch]
      simp [loop, hne type hn h, (hasSelection_iff _).mpr hsel, matchMdf_none cfg.selection hc, choose]

/-- **C77.** A controller without a direction or a source is not configured, and one whose source can not be opened replays nothing. -/
theorem C77_no_replay_without_configuration (files : List (Text × Option File)) (cfg : Config) (c : Controller) :
    (cfg.directed = false ∨ cfg.source = [] → configure files cfg c = .notConfigured) ∧
    (cfg.directed = true → cfg.source ≠ [] → files.lookup cfg.source = some none → configure files cfg c = .warned) := by
  constructor
  · intro h; unfold configure; rw [if_pos h]
  · intro h1 h2 h3; unfold configure; rw [if_neg (by simp [h1, h2]), h3]

/-! ## Where the code does something else -/

/-- **C77, violated.** One channel of the type whose source has no name, or fewer than three parts, is enough: the creation of the controller throws
`std::out_of_range`, wherever that channel is and even if the file has the channel of the controller. -/
theorem C77_foreign_channel_breaks_creation (files : List (Text × Option File)) (cfg : Config) (c : Controller) (f : File) (hcfg : cfg.directed = true ∧ cfg.source ≠ [])
    (hf : files.lookup cfg.source = some (some f)) (hpcap : f.pcap = false) (hsel : ¬ Selects cfg.selection)
    (hodd : ∃ ch ∈ f.channels, Fits c.type ch.type ∧ ∀ s, ch.infos "mdf/source_info_name" = some s → s.count '/' < 2) :
    configure files cfg c = .outOfRange := by
  obtain ⟨ch, hm, hfit, hs⟩ := hodd
  have ht := (fits_iff _ _).mp hfit
  have hn : matchSilKit c ch = none := by
    unfold matchSilKit
    split
    · rfl
    · rename_i s e
      split
      · rename_i x y z r he
        have := hs s e
        obtain ⟨_, h | ⟨_, h⟩⟩ := split_three _ _ _ _ _ he
        · rw [h.1] at this; simp [path, List.count_append] at this; omega
        · rw [h] at this; simp [path, List.count_append] at this; omega
      · rfl
  rw [configure_file hcfg hf ht, hpcap, loop_breaks_own _ _ _ (not_selects hsel) _ _ ⟨ch, hm, rfl, hn⟩]
  rfl

example : Fits (replayController .can).type (recordedChannel .can "CANoe" "CAN1").type ∧
    ∀ s, (recordedChannel .can "CANoe" "CAN1").infos "mdf/source_info_name" = some s → s.count '/' < 2 := by
  refine ⟨by decide, fun s h => ?_⟩
  have : s = "CANoe".toList := by simpa [recordedChannel] using h.symm
  rw [this]; decide

/-- **C77, violated.** With a selection, a channel without one of the six attributes is enough, also if the user did not give this attribute. -/
theorem C77_incomplete_channel_breaks_creation (files : List (Text × Option File)) (cfg : Config) (c : Controller) (f : File) (hcfg : cfg.directed = true ∧ cfg.source ≠ [])
    (hf : files.lookup cfg.source = some (some f)) (hpcap : f.pcap = false) (hsel : Selects cfg.selection) (htype : c.type ≠ .other)
    (hodd : ∃ ch ∈ f.channels, ¬ Complete ch) : configure files cfg c = .outOfRange := by
  obtain ⟨ch, hm, hn⟩ := hodd
  obtain ⟨type, ht⟩ : ∃ type, toMessageType c.type = some type := by
    cases h : c.type <;> first | exact ⟨_, rfl⟩ | exact absurd h htype
  have hnone := matchMdf_none cfg.selection hn
  rw [configure_file hcfg hf ht, hpcap, loop_breaks_selected _ _ _ ((hasSelection_iff _).mpr hsel) _ _ ⟨ch, hm, hnone⟩]
  rfl

example : ¬ Complete ⟨.can, fun k => if k = "mdf/channel_name" then some "Frames".toList else none⟩ := by
  intro h
  exact absurd (h "mdf/source_info_name" none (by decide)) (by decide)

/-- **C77, violated.** A controller with a slash in its name, or the name of its network or participant, never finds a channel of an MDF file, also not its own. -/
theorem C77_names_with_slashes_are_not_found (files : List (Text × Option File)) (cfg : Config) (c : Controller) (f : File)
    (hf : files.lookup cfg.source = some (some f)) (hpcap : f.pcap = false) (hsel : ¬ Selects cfg.selection)
    (hslash : '/' ∈ c.network ∨ '/' ∈ c.participant ∨ '/' ∈ c.name) (ch : Channel) : configure files cfg c ≠ .replays ch := by
  intro h
  by_cases hcfg : cfg.directed = false ∨ cfg.source = []
  · unfold configure at h; rw [if_pos hcfg] at h; cases h
  have hcfg : cfg.directed = true ∧ cfg.source ≠ [] := by
    constructor
    · cases hd : cfg.directed with
      | true => rfl
      | false => exact absurd (.inl hd) hcfg
    · exact fun e => hcfg (.inr e)
  have hm : ∀ x, matchSilKit c x ≠ some true := by
    intro x e
    unfold matchSilKit at e
    split at e
    · cases e
    · split at e
      · rename_i a b d r he
        obtain ⟨⟨s1, s2, s3⟩, _⟩ := split_three _ _ _ _ _ he
        simp only [Option.some.injEq, Bool.and_eq_true, beq_iff_eq] at e
        obtain ⟨⟨rfl, rfl⟩, rfl⟩ := e
        rcases hslash with h | h | h <;> contradiction
      · cases e
  cases ht : toMessageType c.type with
  | none => rw [configure_other hcfg hf ht] at h; cases h
  | some type =>
    rw [configure_file hcfg hf ht, hpcap] at h
    have hl : ∀ l : List Channel, loop false type cfg.selection c [] l = .candidates [] ∨ loop false type cfg.selection c [] l = .outOfRange := by
      intro l
      induction l with
      | nil => exact .inl rfl
      | cons x l ih =>
        unfold loop
        rw [if_neg (by simp), not_selects hsel]
        simp only [Bool.false_eq_true, if_false]
        split
        · exact ih
        · split
          · exact .inr rfl
          · rename_i b hb
            cases b with
            | true => exact absurd hb (hm x)
            | false => exact ih
    rcases hl f.channels with e | e <;> rw [e] at h
    · simp [choose, not_selects hsel] at h
    · cases h

/-- **C77, violated.** What was recorded for a controller on a network with a slash in its name is replayed by a controller of another participant. -/
theorem C77_channel_of_another_is_replayed (n m p s : Text) (hn : Plain n) (hm : Plain m) (hp : Plain p) (_hs : Plain s) (source : Text) (hsrc : source ≠ []) (ch : Channel)
    (ht : ch.type = .can) (hinfo : ch.infos "mdf/source_info_name" = some (path (n ++ '/' :: m) p s)) :
    configure [(source, some ⟨false, [ch]⟩)] ⟨true, source, {}⟩ ⟨p, m, n, .can⟩ = .replays ch := by
  have e : path (n ++ '/' :: m) p s = n ++ '/' :: (m ++ '/' :: (p ++ '/' :: s)) := by simp [path]
  have : matchSilKit ⟨p, m, n, .can⟩ ch = some true := by
    unfold matchSilKit
    rw [hinfo, e]
    dsimp only
    rw [split_slash _ _ _ hn.2, split_slash _ _ _ hm.2, split_slash _ _ _ hp.2]
    simp
  unfold configure
  simp [hsrc, toMessageType, loop, this, ht, hasSelection, choose]

/-- **C77, violated.** The type of a selected channel is not looked at: a controller is given frames of another kind. -/
theorem C77_selection_ignores_the_type (source : Text) (hsrc : source ≠ []) (c : Controller) (htype : c.type ≠ .other) (sel : Selection) (hsel : Selects sel) (ch : Channel)
    (hc : Complete ch) (hch : Selected sel ch) : configure [(source, some ⟨false, [ch]⟩)] ⟨true, source, sel⟩ c = .replays ch :=
  (C77_selected_channel_is_replayed _ ⟨true, source, sel⟩ c ⟨false, [ch]⟩ ⟨rfl, hsrc⟩ (by simp) rfl hsel htype (by simpa using hc)).1 [] ch [] rfl hch (by simp)

/-- **C77, violated.** A source that is not among the trace sources makes the creation throw `std::out_of_range`. -/
theorem C77_unknown_source_throws (files : List (Text × Option File)) (cfg : Config) (c : Controller) (hcfg : cfg.directed = true ∧ cfg.source ≠ [])
    (hf : files.lookup cfg.source = none) : configure files cfg c = .outOfRange := by
  unfold configure
  rw [if_neg (by simp [hcfg.1, hcfg.2]), hf]

end SilKit.Props
