import Verif.Lemmas.Names
/-!
# C69: participants and services with different names are told apart

Users identify participants and services by names. Inside, a participant is identified by a number computed from its name. See Model/Names.lean.
-/
namespace SilKit.Props
open SilKit SilKit.Names SilKit.Names.Spec

/-- **C69**: short names of similar characters have different identifiers: names of at most ten characters that all come from 33 consecutive ASCII
characters, e.g. only small letters and underscores, or only capital letters. -/
theorem C69_short_names_have_distinct_ids_partial (lo : Nat) (a b : Name) (ha : inWindow lo a) (hb : inWindow lo b) (la : a.length ≤ 10) (lb : b.length ≤ 10)
    (hn : a ≠ b) : nameId a ≠ nameId b := fun e => hn (nameId_inj lo a b ha hb la lb e)

example : inWindow 94 (bytes "can_writer") ∧ inWindow 94 (bytes "can_reader") ∧ nameId (bytes "can_writer") ≠ nameId (bytes "can_reader") := by
  refine ⟨⟨by decide, by decide⟩, ⟨by decide, by decide⟩, by decide +kernel⟩

/-- **C69**: no such participant is taken for the registry, whose identifier is zero. -/
theorem C69_short_names_are_not_the_registry_partial (a : Name) (ha : ∀ c ∈ a, c < 128) (la : a.length ≤ 10) (done : Bool) :
    onReply done (nameId a) = .peerReplied := by
  have h1 := val_small a ha la
  have h2 := val_lower a 5381
  have h3 : 0 < 33 ^ a.length := Nat.pow_pos (by decide)
  have : nameId a ≠ 0 := by
    rw [nameId_val a ha, Nat.mod_eq_of_lt h1]; omega
  simp [onReply, this]

example : onReply true (nameId (bytes "Writer 1")) = .peerReplied := by decide +kernel

/-- **C69** fails as stated: names that differ in two neighbouring characters can have the same identifier, in all surroundings: the first of the two is the next
character, and the second is smaller by 33. -/
theorem C69_neighbouring_characters_collide (p s : Name) (a b : Nat) (ha : a + 1 < 128) (hb : b + 33 < 128) :
    nameId (p ++ [a, b + 33] ++ s) = nameId (p ++ [a + 1, b] ++ s) ∧ p ++ [a, b + 33] ++ s ≠ p ++ [a + 1, b] ++ s := by
  refine ⟨nameId_neighbours p s a b ha hb, ?_⟩
  intro e
  simp at e

example : nameId (bytes "BusAb") = nameId (bytes "BusBA") := C69_neighbouring_characters_collide (bytes "Bus") [] 65 65 (by decide) (by decide) |>.1

/-- **C69** fails as stated: every identifier belongs to a name of thirteen printable characters, and to one of every greater length. -/
theorem C69_every_id_belongs_to_a_name (id n : Nat) (hid : id < word) (hn : 13 ≤ n) : ∃ a : Name, a.length = n ∧ isPrintable a ∧ nameId a = id := by
  have h1 := rep_mono hn
  have h2 : word ≤ 94 * rep 13 := by decide
  exact id_has_name n id (by omega) hid

/-- **C69** fails as stated: so every participant shares its identifier with others. -/
theorem C69_every_name_shares_its_id (a : Name) : ∃ b : Name, b ≠ a ∧ isPrintable b ∧ b.length ≤ 14 ∧ nameId b = nameId a := by
  by_cases h : a.length = 13
  · obtain ⟨b, h1, h2, h3⟩ := C69_every_id_belongs_to_a_name (nameId a) 14 (nameId_lt a) (by decide)
    exact ⟨b, fun e => by rw [e] at h1; omega, h2, by omega, h3⟩
  · obtain ⟨b, h1, h2, h3⟩ := C69_every_id_belongs_to_a_name (nameId a) 13 (nameId_lt a) (by decide)
    exact ⟨b, fun e => by rw [e] at h1; exact h h1, h2, by omega, h3⟩

/-- **C69** fails as stated: a participant can have the identifier of the registry. Its reply to an announcement throws in the I/O thread of every participant that
joins after it. -/
theorem C69_taken_for_the_registry : ∃ a : Name, a.length = 13 ∧ isPrintable a ∧ onReply true (nameId a) = .throws := by
  obtain ⟨a, h1, h2, h3⟩ := C69_every_id_belongs_to_a_name 0 13 (by decide) (by decide)
  exact ⟨a, h1, h2, by simp [onReply, h3]⟩

example : nameId (bytes "%.4$7'2@-9:9'") = 0 := by decide +kernel

/-- **C69**: as long as the names have different identifiers, a message on a link reaches exactly the participants that are connected and have
subscribed, each once, after every history of participants that come, subscribe and leave. -/
theorem C69_messages_reach_the_subscribers_partial (ops : List Op) (hw : wellFormed ops) (ht : toldApart (names ops)) :
    ∃ rs, (Link.run ops).send = .ok rs ∧ rs.Nodup ∧ ∀ p, p ∈ rs ↔ listens p ops = true := by
  have i := link_inv ops hw ht
  refine ⟨(Link.run ops).receivers, ?_, i.once, i.recv⟩
  unfold Link.send
  rw [if_pos]
  simp only [List.all_eq_true, List.contains_eq_mem, decide_eq_true_eq]
  intro p hp
  rw [i.alive]
  exact i.sub p hp

def namesA : Peer := ⟨1, bytes "BusAb"⟩
def namesB : Peer := ⟨2, bytes "BusBA"⟩
def namesC : Peer := ⟨3, bytes "BusCC"⟩

example : (Link.run [.connect namesA, .connect namesC, .subscribe namesC, .subscribe namesA, .leave namesC]).send = .ok [namesA]
    ∧ nameId namesA.name ≠ nameId namesC.name := by decide +kernel

/-- **C69** fails as stated: of two participants with the same identifier, the one that has subscribed first is removed when the other one leaves: it does not get
messages any more, and the next message is sent to a connection that does not exist any more. -/
theorem C69_leaving_removes_another (a b : Name) (hn : a ≠ b) (he : nameId a = nameId b) :
    let ops := [Op.connect ⟨1, a⟩, .connect ⟨2, b⟩, .subscribe ⟨1, a⟩, .subscribe ⟨2, b⟩, .leave ⟨2, b⟩]
    wellFormed ops ∧ listens ⟨1, a⟩ ops = true ∧ (Link.run ops).receivers = [⟨2, b⟩] ∧ (Link.run ops).send = .ub "dangling peer" := by
  refine ⟨?_, by simp [listens], by simp [Link.run, Link.step, Link.add, Link.remove, he], ?_⟩
  · intro pre o post e
    match pre, e with
    | [], e => simp at e; obtain ⟨rfl, _⟩ := e; simp [possible, present]
    | [x1], e => simp at e; obtain ⟨rfl, rfl, _⟩ := e; simp [possible, present, hn]
    | [x1, x2], e => simp at e; obtain ⟨rfl, rfl, rfl, _⟩ := e; simp [possible, present]
    | [x1, x2, x3], e => simp at e; obtain ⟨rfl, rfl, rfl, rfl, _⟩ := e; simp [possible, present]
    | [x1, x2, x3, x4], e => simp at e; obtain ⟨rfl, rfl, rfl, rfl, rfl, _⟩ := e; simp [possible, present]
    | x1 :: x2 :: x3 :: x4 :: x5 :: t, e => simp at e
  · simp [Link.run, Link.step, Link.add, Link.remove, Link.send, he]

example : namesA.name ≠ namesB.name ∧ nameId namesA.name = nameId namesB.name := by decide +kernel

/-- **C69**: as long as the names have different identifiers, a LIN controller knows, of every other controller, the last configuration it has sent. -/
theorem C69_lin_configurations_partial {C : Type} (own d : Desc) (ms : List (Desc × C))
    (ht : toldApart (own.participant :: d.participant :: ms.map (·.1.participant))) (hd : ¬ (d.participant = own.participant ∧ d.id = own.id)) :
    (ms.foldl (receiveConfig own) []).get d.address = lastConfig d.participant d.id ms := lin_nodes own d ms ht hd

/-- A LIN controller. -/
def namesLin (n : Name) : Desc := ⟨n, .controller, bytes "LIN", bytes "LIN1", bytes "LinController1", 7, some (bytes "LinController")⟩

example : toldApart [bytes "master", bytes "slave"] ∧ ([(namesLin (bytes "slave"), 5)].foldl (receiveConfig (namesLin (bytes "master"))) []).get
    (namesLin (bytes "slave")).address = some 5 := by
  refine ⟨?_, by decide +kernel⟩
  unfold toldApart
  decide +kernel

/-- **C69** fails as stated: the configuration of a controller of another participant with the same identifier is ignored, as if it were the own one. -/
theorem C69_lin_configuration_ignored {C : Type} (a b : Name) (he : nameId a = nameId b) (t : Nodes C) (c : C) :
    receiveConfig (namesLin a) t (namesLin b, c) = t := by
  simp [receiveConfig, Desc.same, namesLin, he]

/-- **C69** fails as stated: and a third participant has one entry for both; the configuration of one replaces the one of the other. -/
theorem C69_lin_configurations_merged {C : Type} (a b : Name) (he : nameId a = nameId b) (t : Nodes C) (c c' : C) (own : Desc) (ho : nameId own.participant ≠ nameId a) :
    (receiveConfig own (receiveConfig own t (namesLin a, c)) (namesLin b, c')).get (namesLin a).address = some c' := by
  have h1 : ∀ n, nameId n = nameId a → (namesLin n).same own = false := by
    intro n hn
    simp [Desc.same, namesLin, hn, Ne.symm ho]
  have e : (namesLin b).address = (namesLin a).address := by simp [Desc.address, namesLin, he]
  simp only [receiveConfig, h1 a rfl, h1 b he.symm]
  simp only [Bool.false_eq_true, if_false]
  rw [get_set, e, if_pos rfl]

/-- What the key of a service shows, by the type of the service. -/
def keyParts (d : Desc) : ServiceType × List Name :=
  (d.type, d.participant :: match d.type with
    | .link => [d.netType, d.network]
    | .controller => [d.controllerType.getD [], d.network, d.service]
    | .simulatedController => [d.controllerType.getD [], d.network, d.service]
    | .internalController => [d.service]
    | .undefined => [d.network, d.service])

/-- **C69**: services that differ in the names they are known by have different keys in the service discovery, as long as the names contain no slash. -/
theorem C69_services_have_distinct_keys_partial (a b : Desc) (k : Name) (ha : a.key = some k) (hb : b.key = some k)
    (pa : ∀ n ∈ (keyParts a).2, plain n) (pb : ∀ n ∈ (keyParts b).2, plain n) : keyParts a = keyParts b := by
  obtain ⟨x, hx, ex⟩ := key_rest ha
  obtain ⟨y, hy, ey⟩ := key_rest hb
  rw [ex] at ey
  obtain ⟨e1, e2⟩ := split_slash (pa _ (by simp [keyParts])) (pb _ (by simp [keyParts])) ey
  obtain ⟨e3, e4⟩ := split_slash (text_plain _) (text_plain _) e2
  have e5 := text_inj e3
  subst e4
  obtain ⟨a1, a2, a3, a4, a5, a6, a7⟩ := a
  obtain ⟨b1, b2, b3, b4, b5, b6, b7⟩ := b
  dsimp only at e1 e5
  subst e1
  subst e5
  cases a2 with
  | link =>
    simp only [keyRest] at hx hy
    rw [← hy] at hx
    obtain ⟨h1, h2⟩ := split_slash (pa a3 (by simp [keyParts])) (pb b3 (by simp [keyParts])) (Option.some.inj hx)
    simp [keyParts, h1, h2]
  | undefined =>
    simp only [keyRest] at hx hy
    rw [← hy] at hx
    obtain ⟨h1, h2⟩ := split_slash (pa a4 (by simp [keyParts])) (pb b4 (by simp [keyParts])) (Option.some.inj hx)
    simp [keyParts, h1, h2]
  | internalController =>
    simp only [keyRest] at hx hy
    rw [← hy] at hx
    simp [keyParts, Option.some.inj hx]
  | controller =>
    cases a7 with
    | none => cases hx
    | some t =>
      cases b7 with
      | none => cases hy
      | some u =>
        simp only [keyRest] at hx hy
        rw [← hy] at hx
        obtain ⟨h1, h2⟩ := split_slash (pa t (by simp [keyParts])) (pb u (by simp [keyParts])) (Option.some.inj hx)
        obtain ⟨h3, h4⟩ := split_slash (pa a4 (by simp [keyParts])) (pb b4 (by simp [keyParts])) h2
        simp [keyParts, h1, h3, h4]
  | simulatedController =>
    cases a7 with
    | none => cases hx
    | some t =>
      cases b7 with
      | none => cases hy
      | some u =>
        simp only [keyRest] at hx hy
        rw [← hy] at hx
        obtain ⟨h1, h2⟩ := split_slash (pa t (by simp [keyParts])) (pb u (by simp [keyParts])) (Option.some.inj hx)
        obtain ⟨h3, h4⟩ := split_slash (pa a4 (by simp [keyParts])) (pb b4 (by simp [keyParts])) h2
        simp [keyParts, h1, h3, h4]

example : (namesLin (bytes "P")).key = some (bytes "P/Controller/LinController/LIN1/LinController1") := by decide +kernel

/-- **C69** fails as stated: with slashes, different services have the same key: of the controllers `x/y` in the network `n` and `y` in the network `n/x`, only one
is known to the service discovery. -/
theorem C69_slashes_hide_services (d : Desc) (n x y : Name) :
    ({ d with network := n ++ slash :: x, service := y } : Desc).key = ({ d with network := n, service := x ++ slash :: y } : Desc).key
    ∨ d.type = .link ∨ d.type = .internalController := by
  obtain ⟨a1, a2, a3, a4, a5, a6, a7⟩ := d
  cases a2 with
  | link => simp
  | internalController => simp
  | undefined => left; simp [Desc.key]
  | controller => left; cases a7 <;> simp [Desc.key]
  | simulatedController => left; cases a7 <;> simp [Desc.key]

/-- **C69**: the name of a log file contains, of the name of the participant, only letters, digits and `_-.~`; and participants whose names consist of these have
different log files. -/
theorem C69_log_files_partial (l t e a b : Name) : ((∀ c ∈ a, c < 256) → ∀ c ∈ printable a, c ∈ fileChars)
    ∧ ((∀ c ∈ a, c ∈ fileChars) → (∀ c ∈ b, c ∈ fileChars) → logFile l a t e = logFile l b t e → a = b) := by
  refine ⟨fun h c hc => (isSafe_iff c).mp (printable_safe a h c hc), ?_⟩
  intro ha hb h
  have ha := fun c hc => (isSafe_iff c).mpr (ha c hc)
  have hb := fun c hc => (isSafe_iff c).mpr (hb c hc)
  unfold logFile at h
  rw [printable_id a ha, printable_id b hb] at h
  simp only [List.append_assoc, List.cons_append, List.append_cancel_left_eq, List.cons.injEq, true_and] at h
  exact List.append_cancel_right h

example : logFile (bytes "log") (bytes "Node 1") (bytes "2026-01-01T00-00-00") (bytes ".txt") = bytes "log_Node201_2026-01-01T00-00-00.txt" := by decide +kernel

/-- **C69** fails as stated: a character that is replaced gives the same file as its replacement: in a directory, the participants `Node 1` and `Node201` that are
created in the same second write into one file. -/
theorem C69_log_files_shared (p s : Name) (c : Nat) (hc : c < 256) (hs : c ∉ fileChars) (l t e : Name) :
    logFile l (p ++ [c] ++ s) t e = logFile l (p ++ [hexDigit (c / 16), hexDigit (c % 16)] ++ s) t e
    ∧ p ++ [c] ++ s ≠ p ++ [hexDigit (c / 16), hexDigit (c % 16)] ++ s := by
  have hex : ∀ d, d < 16 → isSafe (hexDigit d) = true := by decide
  have h1 := hex (c / 16) (by omega)
  have h2 := hex (c % 16) (by omega)
  have hs : isSafe c = false := by
    cases h : isSafe c with
    | false => rfl
    | true => exact absurd ((isSafe_iff c).mp h) hs
  constructor
  · unfold logFile
    simp [printable, hs, h1, h2]
  · intro h
    have := congrArg List.length h
    simp at this

end SilKit.Props
