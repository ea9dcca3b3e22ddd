import Verif.Lemmas.ConnectingShown
import Verif.Lemmas.ConnectingCounts
/-!
# C68: two participants get connected in a way both have declared

A wants to connect to B; see Model/Connecting.lean. The schedules are all sequences of events that are possible from the beginning: messages may be
delayed, attempts may fail or succeed, the timer may expire at any time, and B may crash.
-/
namespace SilKit.Props
open SilKit SilKit.Connecting SilKit.Connecting.Spec

/-- Everybody can do everything. -/
def conAll : Setup := { a := ⟨true, true⟩, b := ⟨true, true⟩, r := ⟨true, true⟩, parses := true }

/-- Nobody asks the other to connect. -/
def conRelay : Setup := { a := ⟨true, false⟩, b := ⟨true, false⟩, r := ⟨true, false⟩, parses := true }

/-- **C68**: A asks B to connect only if both have declared that this is possible; A announces itself through the registry, and B accepts that, only if
both have declared that the registry may relay; and B accepts A only in a way in which A has announced itself. -/
theorem C68_only_declared_ways (c : Setup) (es : List Event) (s : State) (o : List Out) (h : run c {} es = some (s, o)) :
    (.asked ∈ o → mayAsk c) ∧ (.announced .proxy ∈ o ∨ .joined .proxy ∈ o → mayRelay c) ∧ ∀ w, .joined w ∈ o → .announced w ∈ o := by
  have k := Shown.run es (Inv.init c) (Shown.init c) h
  simp only [List.nil_append] at k
  exact ⟨k.ask, fun h => h.elim k.relayed (fun h => k.relayed (k.joined _ h)), k.joined⟩

example : run conAll {} [.directFailed, .up, .toB, .back, .down, .remoteFailed, .back, .down, .up, .toB, .back, .down] =
    some ({ armed := true, stage := .replied, peers := [.proxy] }, [.asked, .announced .proxy, .joined .proxy, .connected]) := by decide +kernel

/-- **C68**: A gives up only after its own attempt has failed, if the registry may not relay, and, if B may be asked to connect, after the attempt of B has
failed or the time for it has passed. -/
theorem C68_gives_up_only_if_nothing_is_left (c : Setup) (es : List Event) (s : State) (o : List Out) (h : run c {} es = some (s, o)) (hg : .gaveUp ∈ o) :
    .directFailed ∈ es ∧ ¬ mayRelay c ∧ (mayAsk c → .timer ∈ es ∨ .remoteFailed ∈ es) := by
  have k := Shown.run es (Inv.init c) (Shown.init c) h
  simp only [List.nil_append] at k
  have i := Inv.run es (Inv.init c) h
  have hs : s.stage = .failure := by
    have := k.gave
    have h2 := List.count_pos_iff.mpr hg
    by_cases hf : s.stage = .failure
    · exact hf
    · simp only [hf, if_false] at this; omega
  exact ⟨k.failed (Or.inr (Or.inr hs)), i.fail hs, k.why hs⟩

example : run { conAll with a := ⟨false, true⟩ } {} [.directFailed, .up, .toB, .back, .down, .remoteFailed, .back, .down] =
    some ({ armed := true, stage := .failure }, [.asked, .gaveUp]) := by decide +kernel

/-- **C68**: however messages are delayed and whatever fails, it is over after at most eighteen events. -/
theorem C68_every_schedule_ends (c : Setup) (es : List Event) (s : State) (o : List Out) (h : run c {} es = some (s, o)) : es.length ≤ 18 := by
  have := run_measure es h
  have h2 : measure {} = 18 := by decide
  omega

example : (run conAll {} [.directFailed, .up, .toB, .timer, .back, .down, .remoteFailed, .back, .down, .up, .toB, .back, .down, .crash]).isSome = true := by
  decide +kernel

/-- **C68**: A learns at most once that it is connected or that it has to give up, and never both. -/
theorem C68_one_end (c : Setup) (es : List Event) (s : State) (o : List Out) (h : run c {} es = some (s, o)) :
    o.count .connected + o.count .gaveUp ≤ 1 := by
  have k := Shown.run es (Inv.init c) (Shown.init c) h
  simp only [List.nil_append] at k
  rw [k.con, k.gave]
  cases s.stage <;> simp

/-- **C68**: if B lives, its declaration can be read and the registry relays, every schedule goes on until A is connected or gives up: when
nothing can happen any more, A knows the end. -/
theorem C68_reaches_the_end_partial (c : Setup) (es : List Event) (s : State) (o : List Out) (h : run c {} es = some (s, o)) (hp : c.parses = true)
    (hr : c.r.proxy = true) (hc : .crash ∉ es) (hl : ∀ e, e ≠ .crash → step c s e = none) : .connected ∈ o ∨ .gaveUp ∈ o := by
  have k := Shown.run es (Inv.init c) (Shown.init c) h
  simp only [List.nil_append] at k
  have i := Inv.run es (Inv.init c) h
  have hg : s.gone = false := run_gone es h hc rfl
  rcases i.last (i.brk hp) hg hr hl with hs | hs
  · left
    have := k.con
    rw [if_pos hs] at this
    exact List.count_pos_iff.mp (by omega)
  · right
    have := k.gave
    rw [if_pos hs] at this
    exact List.count_pos_iff.mp (by omega)

/-- **C68**: participants that have declared that the registry may relay get connected, whatever fails: when nothing can happen any more, A is connected, and
B has accepted A. -/
theorem C68_relaying_always_connects_partial (c : Setup) (es : List Event) (s : State) (o : List Out) (h : run c {} es = some (s, o)) (hm : mayRelay c)
    (hr : c.r.proxy = true) (hc : .crash ∉ es) (hl : ∀ e, e ≠ .crash → step c s e = none) :
    .connected ∈ o ∧ .gaveUp ∉ o ∧ .crashed ∉ o ∧ ∃ w, .joined w ∈ o := by
  have k := Shown.run es (Inv.init c) (Shown.init c) h
  simp only [List.nil_append] at k
  have i := Inv.run es (Inv.init c) h
  have hg : .gaveUp ∉ o := fun hg => (C68_gives_up_only_if_nothing_is_left c es s o h hg).2.1 hm
  have hb := i.brk hm.2.2
  have hcon : .connected ∈ o := (C68_reaches_the_end_partial c es s o h hm.2.2 hr hc hl).resolve_right hg
  exact ⟨hcon, hg, fun h => by have := k.crashed.mp h; simp [hb] at this, connected_joined es h hcon⟩

/-- Such a schedule: the attempts of both fail, and the registry relays; nothing can happen any more. -/
def conBothFail : List Event := [.directFailed, .up, .toB, .back, .down, .remoteFailed, .back, .down, .up, .timer, .toB, .back, .down]

example : run conAll {} conBothFail = some ({ stage := .replied, peers := [.proxy] }, [.asked, .announced .proxy, .joined .proxy, .connected])
    ∧ mayRelay conAll ∧ .crash ∉ conBothFail ∧ ∀ e, e ≠ .crash → step conAll { stage := .replied, peers := [.proxy] } e = none := by
  refine ⟨by decide +kernel, by decide, by decide, ?_⟩
  intro e he
  cases e <;> first | exact absurd rfl he | rfl

/-- **C68**: if the attempt of A succeeds, that is the only connection, and A neither asks nor is relayed. -/
theorem C68_direct_connection (c : Setup) (es : List Event) (s : State) (o : List Out) (h : run c {} (.directOk :: es) = some (s, o)) :
    announcements o = [.direct] ∧ .asked ∉ o ∧ .gaveUp ∉ o := direct_only es h

example : run conAll {} [.directOk, .directB, .directA] =
    some ({ stage := .replied, peers := [.direct] }, [.announced .direct, .joined .direct, .connected]) := by decide +kernel

/-- **C68**: there is at most one connection, except that a relayed one may be followed by one that B makes; for that the timer must have
expired and B must have connected. -/
theorem C68_one_connection_partial (c : Setup) (es : List Event) (s : State) (o : List Out) (h : run c {} es = some (s, o)) :
    ((announcements o).length ≤ 1 ∨ announcements o = [.proxy, .remote] ∧ .timer ∈ es ∧ .remoteOk ∈ es)
    ∧ (joins o).length ≤ (announcements o).length := by
  have k := Counted.run es (Inv.init c) Counted.init h
  simp only [List.nil_append] at k
  refine ⟨?_, by have := k.joins; omega⟩
  rcases k.form with h | ⟨w, h⟩ | h
  · simp [h]
  · simp [h]
  · refine Or.inr ⟨h, ?_, ?_⟩
    · apply Decidable.byContradiction
      intro ht
      have := k.calm ht
      simp [h] at this
      omega
    · apply Decidable.byContradiction
      intro ht
      have := (k.alone ht).2
      simp [h] at this

example : announcements [.asked, .announced .remote, .joined .remote, .connected] = [.remote]
    ∧ run conAll {} [.directFailed, .up, .toB, .back, .down, .remoteOk, .remoteA, .remoteB, .remoteA] =
      some ({ stage := .replied, armed := true, peers := [.remote] }, [.asked, .announced .remote, .joined .remote, .connected]) := by
  decide +kernel

/-- **C68** fails as stated: there can be two connections. The time for the attempt of B passes, and A is connected through the registry; then the attempt
succeeds, and A announces itself again. B knows A twice, and sends everything for A twice. -/
theorem C68_two_connections :
    run conAll {} [.directFailed, .up, .toB, .timer, .up, .toB, .back, .back, .down, .down, .remoteOk, .remoteA, .remoteB, .remoteA] =
      some ({ stage := .replied, peers := [.proxy, .remote] },
        [.asked, .announced .proxy, .joined .proxy, .connected, .announced .remote, .joined .remote]) := by
  decide +kernel

/-- **C68** fails as stated: B may accept A after A has given up: the time passes, A gives up, and B
then connects and accepts A. -/
theorem C68_accepted_after_giving_up :
    run { conAll with a := ⟨false, true⟩ } {} [.directFailed, .up, .toB, .timer, .remoteOk, .remoteA, .remoteB] =
      some ({ stage := .failure, back := [.connecting], remoteA := [.reply], peers := [.remote] },
        [.asked, .gaveUp, .announced .remote, .joined .remote]) := by
  decide +kernel

/-- The schedule of `C68_waits_for_ever`. -/
def conLost : List Event := [.directFailed, .up, .toB, .back, .down, .timer, .crash]

/-- **C68** fails as stated: if B crashes after it has told A that it is connecting, A waits for ever. Whatever happens afterwards, it is neither connected
nor does it give up, nor try the registry: the timer has no effect any more. -/
theorem C68_waits_for_ever (es : List Event) (s : State) (o : List Out) (h : run conAll {} (conLost ++ es) = some (s, o)) :
    .connected ∉ o ∧ .gaveUp ∉ o ∧ ∀ w, .announced w ∉ o := by
  have h1 : run conAll {} conLost = some ({ stage := .remoteConnecting, trying := 1, gone := true }, [.asked]) := by decide +kernel
  rw [run_append] at h
  rw [h1] at h
  dsimp only at h
  split at h
  · cases h
  · rename_i s2 o2 h2
    cases h
    have := Lost.run es (s := { stage := .remoteConnecting, trying := 1, gone := true }) ⟨rfl, rfl, by simp, by simp, by simp⟩ h2
    simpa using this

/-- **C68** fails as stated: if the declaration of B cannot be read, the failure of the attempt ends the I/O thread of A with an exception. -/
theorem C68_unreadable_declaration_crashes (c : Setup) (hp : c.parses = false) (ha : c.a.proxy = true) :
    run c {} [.directFailed] = some ({ stage := .waiting, broken := true }, [.crashed]) := by
  simp [run, step, onFailure, tryProxy, hp, ha]

/-- **C68**: this is the only reason. -/
theorem C68_crashes_only_if_unreadable (c : Setup) (es : List Event) (s : State) (o : List Out) (h : run c {} es = some (s, o)) (hc : .crashed ∈ o) :
    c.parses = false := by
  have k := Shown.run es (Inv.init c) (Shown.init c) h
  simp only [List.nil_append] at k
  have i := Inv.run es (Inv.init c) h
  cases hp : c.parses with
  | false => rfl
  | true => have := k.crashed.mp hc; simp [i.brk hp] at this

/-- **C68** fails as stated: a registry that does not relay drops the announcement, and A waits for an answer: nothing more can happen. -/
theorem C68_registry_without_relaying (e : Event) (he : e ≠ .crash) :
    run { conRelay with r := ⟨false, false⟩ } {} [.directFailed, .up] = some ({ stage := .waiting }, [.announced .proxy])
    ∧ step { conRelay with r := ⟨false, false⟩ } { stage := .waiting } e = none := by
  refine ⟨by decide +kernel, ?_⟩
  cases e <;> first | exact absurd rfl he | rfl

end SilKit.Props
