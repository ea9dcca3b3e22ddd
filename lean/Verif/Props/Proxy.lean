import Verif.Lemmas.Proxy
/-!
# C49: Participants that use the registry as a proxy communicate as if they were connected directly

Participants `a` and `b` have no connection of their own; each message is sent to the registry, which relays it. Histories are any interleaving of connects,
sends, participants that leave, connections to the registry that are lost, reads of the registry and reads of participants.

* `proxy_received_is_prefix_of_sent`: at any time, `b` has received from `a` a prefix of what `a` sent to it, in order, once each and under the name of `a`; or it
  received everything and then was told once that `a` left, and then `a` did leave. The messages of other participants do not matter.
* `proxy_everything_arrives`: when nothing is on its way, everything has been received.
* `proxy_told_that_left_partial`: and if `a` left, and had ever written to `b`, `b` has been told so, last and once. Missing: participants that never wrote.
* `proxy_told_by_who_knew_partial`: in particular, if `a` knew `b` when it left.
* `proxy_events_are_named`: no event of an unknown participant is ever reported.
* `proxy_registry_lost_partial`: when the registry is lost, each participant that is known is reported once. Missing: participants that have been told before that
  somebody left; there the behaviour is undefined.
* `proxy_ub_iff_registry_lost_after_left`: and this is the only undefined behaviour.
-/
namespace SilKit.Props
open SilKit.Proxy SilKit.Proxy.Spec

/-- `b` observes a prefix of what `a` sent to it, or all of it and that `a` left. -/
theorem proxy_received_is_prefix_of_sent (os : List Op) (n : Net) (h : run {} os = .ok n) (a b : Nat) (hab : a ≠ b) (hb : (n.part b).connected = true) :
    (∃ r, r <+: sentTo n a b ∧ view n a b = r.map (.received (some a))) ∨
    ((n.part a).connected = false ∧ view n a b = (sentTo n a b).map (.received (some a)) ++ [.left (some a)]) := by
  have hi := inv_run inv_init h
  rcases ok_view (hi.ok a b hab hb) with h1 | ⟨h1, h2⟩
  · exact .inl h1
  · exact .inr ⟨obs_dead hi h1, h2⟩

/-- Nothing is lost. -/
theorem proxy_everything_arrives (os : List Op) (n : Net) (h : run {} os = .ok n) (a b : Nat) (hab : a ≠ b) (hb : (n.part b).connected = true) (hq : Quiet n a b) :
    view n a b = (sentTo n a b).map (.received (some a)) ∨
    ((n.part a).connected = false ∧ view n a b = (sentTo n a b).map (.received (some a)) ++ [.left (some a)]) := by
  have hi := inv_run inv_init h
  have hp : path n a b = [] := by unfold path; rw [hq.1, hq.2]; rfl
  rcases ok_quiet (hi.ok a b hab hb) hp with ⟨h1, _⟩ | ⟨h1, h2⟩
  · exact .inl h1
  · exact .inr ⟨obs_dead hi h1, h2⟩

/-- Who left is reported, to those it wrote to. -/
theorem proxy_told_that_left_partial (os : List Op) (n : Net) (h : run {} os = .ok n) (a b : Nat) (hab : a ≠ b) (hb : (n.part b).connected = true) (hq : Quiet n a b)
    (ha : (n.part a).connected = false) (hs : (a, b) ∈ n.spoke) : view n a b = (sentTo n a b).map (.received (some a)) ++ [.left (some a)] := by
  have hi := inv_run inv_init h
  have hp : path n a b = [] := by unfold path; rw [hq.1, hq.2]; rfl
  have hdead : n.reg.table a = false := by
    rcases hi.disc a ha with ⟨ms, h1, _⟩ | ⟨_, h1⟩
    · rw [hq.1] at h1; simp at h1
    · exact h1
  have has : (a, b) ∈ n.reg.assoc := by
    rcases hi.spoke a b hab hb hs with h1 | h1
    · exact h1
    · rw [hq.1] at h1; exact absurd rfl h1
  rcases ok_quiet (hi.ok a b hab hb) hp with ⟨_, h2⟩ | ⟨_, h2⟩
  · exfalso
    simp [obs, hdead, has] at h2
  · exact h2

/-- Who knows a participant has written to it; so a participant that leaves is reported to everybody it knows. -/
theorem proxy_told_by_who_knew_partial (os : List Op) (n : Net) (h : run {} os = .ok n) (a b : Nat) (hab : a ≠ b) (hb : (n.part b).connected = true) (hq : Quiet n a b)
    (ha : (n.part a).connected = false) (hk : (n.part a).table b ≠ none) : view n a b = (sentTo n a b).map (.received (some a)) ++ [.left (some a)] :=
  proxy_told_that_left_partial os n h a b hab hb hq ha (known_run (fun _ _ hx => absurd rfl hx) h a b hk)

/-- Participants are always named. -/
theorem proxy_events_are_named (os : List Op) (n : Net) (h : run {} os = .ok n) (b : Nat) (hb : (n.part b).connected = true) (e : Event) (he : e ∈ (n.part b).trace) :
    (∃ a k, e = .received (some a) k) ∨ ∃ a, e = .left (some a) := by
  obtain ⟨a, ha⟩ := ((inv_run inv_init h).loc b hb).named e he
  cases e with
  | received f k => simp only [about, decide_eq_true_eq] at ha; subst ha; exact .inl ⟨a, k, rfl⟩
  | left nm => simp only [about, decide_eq_true_eq] at ha; subst ha; exact .inr ⟨a, rfl⟩

/-- The registry is lost: everybody that is known is reported once. -/
theorem proxy_registry_lost_partial (os : List Op) (n : Net) (h : run {} os = .ok n) (b : Nat) (hb : (n.part b).connected = true)
    (hl : ∀ a, Event.left a ∉ (n.part b).trace) :
    ∃ (n' : Net) (gone : List Nat), run {} (os ++ [.loseRegistry b]) = .ok n' ∧ (n'.part b).trace = (n.part b).trace ++ gone.map (fun a => .left (some a)) ∧ gone.Nodup ∧
      (∀ a, a ∈ gone ↔ (n.part b).table a ≠ none) ∧ (n'.part b).connected = false := by
  have hi := inv_run inv_init h
  have hloc := hi.loc b hb
  obtain ⟨p, h1, h2, _, h4⟩ := loseRegistry_ok hi hb hl
  have hall : ∀ id ∈ (n.part b).proxied, ∃ a, (n.part b).peers id = some ⟨some a⟩ ∧ (n.part b).table a = some id := by
    intro id hid
    cases hx : (n.part b).peers id with
    | none => obtain ⟨nm, h5⟩ := hloc.left.1 ⟨id, hid, hx⟩; exact absurd h5 (hl nm)
    | some pr =>
      obtain ⟨_, a, h5, h6⟩ := hloc.peers id pr hx
      exact ⟨a, by cases pr; simp_all, h6⟩
  refine ⟨{ n with part := upd n.part b p, up := upd n.up b (n.up b ++ [.eof]) }, (n.part b).proxied.filterMap (fun id => ((n.part b).peers id).bind (·.name)), ?_, ?_, ?_, ?_, ?_⟩
  · rw [run_append, h]
    show (loseRegistry n b).bind (fun n' => .ok n') = _
    rw [h1]
    rfl
  · show (upd n.part b p b).trace = _
    rw [upd_same, h4]
    congr 1
    have : ∀ l : List Nat, (∀ id ∈ l, ∃ a, (n.part b).peers id = some ⟨some a⟩ ∧ (n.part b).table a = some id) →
        l.filterMap (fun id => ((n.part b).peers id).map (fun pr => Event.left pr.name)) = (l.filterMap (fun id => ((n.part b).peers id).bind (·.name))).map (fun a => .left (some a)) := by
      intro l
      induction l with
      | nil => intro _; rfl
      | cons id l ih =>
        intro hh
        obtain ⟨a, h5, _⟩ := hh id (by simp)
        rw [List.filterMap_cons, List.filterMap_cons, h5]
        simp [ih (fun i hi => hh i (by simp [hi]))]
    exact this _ hall
  · have : ∀ l : List Nat, l.Nodup → (∀ id ∈ l, ∃ a, (n.part b).peers id = some ⟨some a⟩ ∧ (n.part b).table a = some id) →
        (l.filterMap (fun id => ((n.part b).peers id).bind (·.name))).Nodup := by
      intro l
      induction l with
      | nil => intro _ _; exact List.nodup_nil
      | cons id l ih =>
        intro hn hh
        obtain ⟨a, h5, h6⟩ := hh id (by simp)
        rw [List.filterMap_cons, h5]
        simp only [Option.bind_some]
        rw [List.nodup_cons]
        refine ⟨fun hmem => ?_, ih (List.nodup_cons.1 hn).2 (fun i hi => hh i (by simp [hi]))⟩
        obtain ⟨i, hi1, hi2⟩ := List.mem_filterMap.1 hmem
        obtain ⟨a', h7, h8⟩ := hh i (by simp [hi1])
        rw [h7] at hi2
        simp only [Option.bind_some, Option.some.injEq] at hi2
        rw [hi2, h6] at h8
        cases h8
        exact (List.nodup_cons.1 hn).1 hi1
    exact this _ hloc.nodup hall
  · intro a
    rw [List.mem_filterMap]
    constructor
    · rintro ⟨id, h5, h6⟩
      obtain ⟨a', h7, h8⟩ := hall id h5
      rw [h7] at h6
      simp only [Option.bind_some, Option.some.injEq] at h6
      rw [← h6, h8]
      simp
    · intro h5
      obtain ⟨id, h6⟩ := Option.ne_none_iff_exists'.1 h5
      have h7 := hloc.table a id h6
      exact ⟨id, (hloc.peers id _ h7).1, by rw [h7]; rfl⟩
  · show (upd n.part b p b).connected = false
    rw [upd_same, h2]

/-- **Deviation**: a participant that has been told that somebody left uses a destroyed peer when it loses the registry. It is the only undefined behaviour. -/
theorem proxy_ub_iff_registry_lost_after_left (os : List Op) :
    (∀ n, run {} os ≠ .ok n) ↔
      ∃ pre b post n, os = pre ++ .loseRegistry b :: post ∧ run {} pre = .ok n ∧ (n.part b).connected = true ∧ ∃ a, Event.left a ∈ (n.part b).trace := by
  constructor
  · intro h
    rcases run_cases inv_init os with ⟨n, h1⟩ | ⟨_, h1⟩
    · exact absurd h1 (h n)
    · exact h1
  · rintro ⟨pre, b, post, n, rfl, h1, h2, h3⟩ n' h4
    rw [run_append, h1] at h4
    obtain ⟨w, hw⟩ := loseRegistry_ub (inv_run inv_init h1) h2 h3
    change (loseRegistry n b).bind (fun x => run x post) = .ok n' at h4
    rw [hw] at h4
    cases h4

/-! ### Examples -/

/-- Observed by `b`. -/
def proxyTrace (os : List Op) (b : Nat) : Option (List Event) :=
  match run {} os with
  | .ok n => some (n.part b).trace
  | _ => none

/-- Two participants that talk to each other and to a third; then one leaves. -/
def proxyTalk : List Op :=
  [.connect 2 1, .send 2 1 20, .regStep 2, .partStep 1, .send 1 2 10, .connect 3 1, .send 1 2 11, .regStep 2, .regStep 3, .partStep 1, .partStep 1, .send 1 3 12,
   .leave 1, .regStep 1, .regStep 1, .regStep 1, .regStep 1, .regStep 1, .regStep 1, .partStep 2, .partStep 2, .partStep 2]

example : proxyTrace proxyTalk 1 = some [.received (some 2) 20] ∧ proxyTrace proxyTalk 2 = some [.received (some 1) 10, .received (some 1) 11] ∧
    proxyTrace (proxyTalk ++ [.partStep 2, .partStep 3, .partStep 3, .partStep 3]) 2 = some [.received (some 1) 10, .received (some 1) 11, .left (some 1)] ∧
    proxyTrace (proxyTalk ++ [.partStep 2, .partStep 3, .partStep 3, .partStep 3]) 3 = some [.received (some 1) 12, .left (some 1)] := by decide +kernel

/-- The hypotheses of the theorems above are met: in the end it is quiet from 1 to 2, 1 has left and wrote to 2. -/
example : (match run {} (proxyTalk ++ [.partStep 2]) with
    | .ok n => decide ((n.part 2).connected = true ∧ (n.part 1).connected = false ∧ n.up 1 = [] ∧ n.down 2 = [] ∧ (1, 2) ∈ n.spoke ∧ (n.part 1).table 2 ≠ none)
    | _ => false) = true := by decide +kernel

/-- The loss of the registry. -/
example : proxyTrace (proxyTalk ++ [.loseRegistry 2]) 2 = some [.received (some 1) 10, .received (some 1) 11, .left (some 1)] := by decide +kernel

/-- **Deviation**: the participant 2 is told that 1 left; then the registry is lost. -/
theorem proxy_registry_lost_ub_example : proxyTrace (proxyTalk ++ [.partStep 2, .loseRegistry 2]) 2 = none := by decide +kernel

/-- **Deviation**: 2 connects to 1, and 1 leaves before it has answered. All messages are read, and 2 is never told that 1 left, although 1 is one of its peers. -/
theorem proxy_never_told_example :
    (match run {} [.connect 2 1, .leave 1, .regStep 2, .regStep 1, .regStep 1, .partStep 2] with
    | .ok n => decide (n.up 1 = [] ∧ n.up 2 = [] ∧ n.down 2 = [] ∧ (n.part 1).connected = false ∧ (n.part 2).connected = true ∧ (n.part 2).table 1 ≠ none ∧ (n.part 2).trace = [])
    | _ => false) = true := by decide +kernel

end SilKit.Props
