import Verif.Spec.Joining
import Verif.Lemmas.Util
/-! # Invariants of joining -/
namespace SilKit.Joining
open Spec SilKit.Util

theorem run_append (known : List String) (h : List Event) (e : Event) :
    run known (h ++ [e]) = ((on (run known h).1 e).1, (run known h).2 ++ (on (run known h).1 e).2) := by
  simp [run, List.foldl_append]

theorem nodup_eraseDups {α : Type} [BEq α] [LawfulBEq α] : ∀ (n : Nat) (l : List α), l.length ≤ n → l.eraseDups.Nodup
  | _, [], _ => by simp
  | 0, a :: l, h => by simp at h
  | n + 1, a :: l, h => by
      rw [List.eraseDups_cons, List.nodup_cons]
      refine ⟨?_, nodup_eraseDups n _ ?_⟩
      · rw [List.mem_eraseDups]; simp
      · have := List.length_filter_le (fun x => !x == a) l
        simp at h
        omega

abbrev Peers := List (String × PeerStage)

def AllR (ps : Peers) : Prop := ∀ x ∈ ps, x.2 = .replyReceived
def SomeF (ps : Peers) : Prop := ∃ x ∈ ps, x.2 = .failure

theorem allReplied_iff (s : State) : allReplied s = true ↔ AllR s.peers := by
  simp only [allReplied, AllR, List.all_eq_true, decide_eq_true_eq]
  constructor
  · intro h x hx
    have := h x hx
    cases hx2 : x.2 <;> simp_all [PeerStage.rank]
  · intro h x hx; rw [h x hx]; exact Nat.le_refl _

theorem anyFailed_iff (s : State) : anyFailed s = true ↔ SomeF s.peers := by
  simp [anyFailed, SomeF]

theorem allWaiting_of_allR {s : State} (h : AllR s.peers) : allWaiting s = true := by
  simp only [allWaiting, List.all_eq_true, decide_eq_true_eq]
  intro x hx; rw [h x hx]; decide

theorem not_someF_of_allR {ps : Peers} (h : AllR ps) : ¬ SomeF ps := by
  rintro ⟨x, hx, e⟩; have := h x hx; rw [e] at this; cases this

/-- What the next step of a thread relies on. -/
def PcOk (s : State) : Pc → Prop
  | .starting rest => rest.Nodup ∧ ∀ n ∈ rest, ∀ st, (n, st) ∈ s.peers → st = .invalid
  | .tryProxy n _ => ∀ st, (n, st) ∈ s.peers → st = .waitingForReply
  | .setFailure | .notifyFailure => SomeF s.peers
  | .setReplied | .notifySuccess => AllR s.peers
  | .notifyWaiting | .checkWaitingStage => s.stage ≠ .connecting
  | _ => True

/-- Steps in which a thread will still find out about a failed peer. -/
def Seeking : Pc → Prop
  | .starting _ | .checkStage | .checkFailed | .setFailure | .notifyFailure => True
  | _ => False

def isStarting : Pc → Bool | .starting _ => true | _ => false
def isTrying : Pc → Bool | .tryProxy .. => true | _ => false

/-- The invariant, for a thread that is to make step `p` and the other one that is to make step `q`. -/
structure Inv (known : List String) (s : State) (p q : Pc) (t : List Out) : Prop where
  names : ∀ n, n ∈ known ↔ ∃ st, (n, st) ∈ s.peers
  uniq : UniqueKeys s.peers
  rep : ∀ n, (n, .replyReceived) ∈ s.peers ↔ Out.replied n ∈ t
  fail : ∀ n, (n, .failure) ∈ s.peers ↔ Out.failed n ∈ t
  oneStart : ¬ (isStarting p = true ∧ isStarting q = true)
  oneTry : ¬ (isTrying p = true ∧ isTrying q = true)
  okP : PcOk s p
  okQ : PcOk s q
  stageAll : s.stage = .allRepliesReceived → AllR s.peers ∧ (Out.notified true ∈ t ∨ p = .notifySuccess ∨ q = .notifySuccess)
  stageFail : s.stage = .failure → SomeF s.peers ∧ (Out.notified false ∈ t ∨ p = .notifyFailure ∨ q = .notifyFailure)
  succ : Out.notified true ∈ t → AllR s.peers
  notF : Out.notified false ∈ t → SomeF s.peers
  live : AllR s.peers → Out.notified true ∈ t ∨ p ≠ .idle ∨ q ≠ .idle
  liveF : SomeF s.peers → Out.notified false ∈ t ∨ Seeking p ∨ Seeking q
  resN : ∀ r, Out.result r ∈ t → Out.notified r ∈ t
  resC : ∀ r, Out.notified r ∈ t → s.completed = true
  res0 : s.completed = false → t.filter isResult = []
  res1 : s.completed = true → ∃ r, t.filter isResult = [.result r]
  order : ∀ a r b, t = a ++ .notified r :: b → if r then ∀ n ∈ known, Out.replied n ∈ a else ∃ n ∈ known, Out.failed n ∈ a

theorem Inv.swap {known : List String} {s : State} {p q : Pc} {t : List Out} (i : Inv known s p q t) : Inv known s q p t where
  names := i.names
  uniq := i.uniq
  rep := i.rep
  fail := i.fail
  oneStart := fun h => i.oneStart ⟨h.2, h.1⟩
  oneTry := fun h => i.oneTry ⟨h.2, h.1⟩
  okP := i.okQ
  okQ := i.okP
  stageAll := fun h => ⟨(i.stageAll h).1, (i.stageAll h).2.imp id Or.symm⟩
  stageFail := fun h => ⟨(i.stageFail h).1, (i.stageFail h).2.imp id Or.symm⟩
  succ := i.succ
  notF := i.notF
  live := fun h => (i.live h).imp id Or.symm
  liveF := fun h => (i.liveF h).imp id Or.symm
  resN := i.resN
  resC := i.resC
  res0 := i.res0
  res1 := i.res1
  order := i.order

theorem pcOk_congr {s s' : State} (h1 : s'.peers = s.peers) (h2 : s'.stage = s.stage) {pc : Pc} (h : PcOk s pc) : PcOk s' pc := by
  cases pc with
  | starting rest => exact ⟨h.1, by rw [h1]; exact h.2⟩
  | tryProxy n ok => intro st hst; rw [h1] at hst; exact h st hst
  | _ => first | trivial | (simp only [PcOk, h1, h2] at h ⊢; exact h)

/-- The fields for user and io play no role. -/
theorem Inv.pcs {known : List String} {s s' : State} {p q : Pc} {t : List Out} (i : Inv known s p q t) (h1 : s'.peers = s.peers)
    (h2 : s'.stage = s.stage) (h3 : s'.completed = s.completed) : Inv known s' p q t := by
  have ok : ∀ pc, PcOk s pc → PcOk s' pc := fun pc h => pcOk_congr h1 h2 h
  exact ⟨h1 ▸ i.names, h1 ▸ i.uniq, h1 ▸ i.rep, h1 ▸ i.fail, i.oneStart, i.oneTry, ok _ i.okP, ok _ i.okQ, by rw [h1, h2]; exact i.stageAll,
    by rw [h1, h2]; exact i.stageFail, h1 ▸ i.succ, h1 ▸ i.notF, h1 ▸ i.live, h1 ▸ i.liveF, i.resN, by rw [h3]; exact i.resC,
    by rw [h3]; exact i.res0, by rw [h3]; exact i.res1, i.order⟩

theorem mem_set {s : State} {n m : String} {st st' : PeerStage} :
    (m, st') ∈ (s.set n st).peers ↔ (m ≠ n ∧ (m, st') ∈ s.peers) ∨ (m = n ∧ st' = st ∧ ∃ st0, (n, st0) ∈ s.peers) := by
  simp only [State.set, List.mem_map]
  constructor
  · rintro ⟨x, hx, e⟩
    split at e
    · rename_i h
      cases e
      exact Or.inr ⟨rfl, rfl, x.2, by rw [← h]; exact hx⟩
    · rename_i h
      subst e
      exact Or.inl ⟨h, hx⟩
  · rintro (⟨hne, h⟩ | ⟨rfl, rfl, st0, h⟩)
    · exact ⟨_, h, by simp [hne]⟩
    · exact ⟨_, h, by simp⟩

theorem unique_set {s : State} {n : String} {st : PeerStage} (h : UniqueKeys s.peers) : UniqueKeys (s.set n st).peers := by
  unfold UniqueKeys State.set
  dsimp only
  rw [List.pairwise_map]
  refine List.Pairwise.imp ?_ h
  intro x y hne
  split <;> split <;> simp_all

/-- Outputs other than notifications and results. -/
def Minor : Out → Prop
  | .notified _ | .result _ => False
  | _ => True

theorem order_minor {known : List String} {t u : List Out} (hu : ∀ o ∈ u, Minor o)
    (h : ∀ a r b, t = a ++ .notified r :: b → if r then ∀ n ∈ known, Out.replied n ∈ a else ∃ n ∈ known, Out.failed n ∈ a) :
    ∀ a r b, t ++ u = a ++ .notified r :: b → if r then ∀ n ∈ known, Out.replied n ∈ a else ∃ n ∈ known, Out.failed n ∈ a := by
  intro a r b e
  rcases split_append e with ⟨b', e1, -⟩ | ⟨a', -, e2⟩
  · exact h a r b' e1
  · exact absurd (hu (.notified r) (by rw [e2]; simp)) id

theorem filter_minor {u : List Out} (hu : ∀ o ∈ u, Minor o) : u.filter isResult = [] := by
  rw [List.filter_eq_nil_iff]
  intro o ho
  have := hu o ho
  cases o <;> simp_all [Minor, isResult]

theorem mem_minor {t u : List Out} (hu : ∀ o ∈ u, Minor o) {o : Out} (ho : ¬ Minor o) : o ∈ t ++ u ↔ o ∈ t := by
  simp only [List.mem_append]
  exact ⟨fun h => h.elim id (fun h => absurd (hu o h) ho), Or.inl⟩

/-- A thread changes the stage of a peer that has neither replied nor failed. -/
theorem Inv.change {known : List String} {s : State} {p p' q : Pc} {t u : List Out} {n : String} {st0 st : PeerStage}
    (i : Inv known s p q t) (h0 : (n, st0) ∈ s.peers) (hs0 : st0 ≠ .replyReceived ∧ st0 ≠ .failure) (hq0 : ∀ rest, q = .starting rest → n ∉ rest)
    (hq1 : ∀ ok, q ≠ .tryProxy n ok) (hu : ∀ o ∈ u, Minor o) (hr : ∀ m, Out.replied m ∈ u ↔ m = n ∧ st = .replyReceived)
    (hf : ∀ m, Out.failed m ∈ u ↔ m = n ∧ st = .failure) (hp : isStarting p' = true → isStarting p = true)
    (hpt : isTrying p' = true → isTrying p = true ∨ isTrying q = false) (hok : PcOk (s.set n st) p') (hidle : p' ≠ .idle)
    (hsk : st = .failure → Seeking p') (hsk' : Seeking p → Seeking p') (hns : p ≠ .notifySuccess) (hnf : p ≠ .notifyFailure) :
    Inv known (s.set n st) p' q (t ++ u) := by
  have hnotall : ¬ AllR s.peers := fun h => hs0.1 (h _ h0)
  have hsome : SomeF s.peers → SomeF (s.set n st).peers := by
    rintro ⟨⟨m, x⟩, hx, e⟩
    refine ⟨(m, x), mem_set.2 (Or.inl ⟨?_, hx⟩), e⟩
    intro he; subst he
    exact hs0.2 ((i.uniq.eq h0 hx).trans e)
  have hT : ¬ Minor (.notified true) := id
  have hF : ¬ Minor (.notified false) := id
  refine ⟨?_, unique_set i.uniq, ?_, ?_, ?_, ?_, hok, ?_, ?_, ?_, ?_, ?_, ?_, ?_, ?_, ?_, ?_, ?_, order_minor hu i.order⟩
  · intro m
    rw [i.names m]
    constructor
    · rintro ⟨x, hx⟩
      by_cases h : m = n
      · subst h; exact ⟨st, mem_set.2 (Or.inr ⟨rfl, rfl, x, hx⟩)⟩
      · exact ⟨x, mem_set.2 (Or.inl ⟨h, hx⟩)⟩
    · rintro ⟨x, hx⟩
      rcases mem_set.1 hx with ⟨-, h⟩ | ⟨rfl, -, h⟩
      · exact ⟨x, h⟩
      · exact h
  · intro m
    rw [mem_set, List.mem_append, hr m, ← i.rep m]
    constructor
    · rintro (⟨-, h⟩ | ⟨rfl, h, -⟩)
      · exact Or.inl h
      · exact Or.inr ⟨rfl, h.symm⟩
    · rintro (h | ⟨rfl, h⟩)
      · refine Or.inl ⟨?_, h⟩
        rintro rfl
        exact hs0.1 (i.uniq.eq h0 h)
      · exact Or.inr ⟨rfl, h.symm, _, h0⟩
  · intro m
    rw [mem_set, List.mem_append, hf m, ← i.fail m]
    constructor
    · rintro (⟨-, h⟩ | ⟨rfl, h, -⟩)
      · exact Or.inl h
      · exact Or.inr ⟨rfl, h.symm⟩
    · rintro (h | ⟨rfl, h⟩)
      · refine Or.inl ⟨?_, h⟩
        rintro rfl
        exact hs0.2 (i.uniq.eq h0 h)
      · exact Or.inr ⟨rfl, h.symm, _, h0⟩
  · rintro ⟨h1, h2⟩; exact i.oneStart ⟨hp h1, h2⟩
  · rintro ⟨h1, h2⟩
    rcases hpt h1 with h | h
    · exact i.oneTry ⟨h, h2⟩
    · rw [h] at h2; cases h2
  · have hq := i.okQ
    cases q with
    | starting rest =>
        refine ⟨hq.1, ?_⟩
        intro m hm x hx
        rcases mem_set.1 hx with ⟨-, h⟩ | ⟨rfl, -, -⟩
        · exact hq.2 m hm x h
        · exact absurd hm (hq0 rest rfl)
    | tryProxy m ok =>
        intro x hx
        rcases mem_set.1 hx with ⟨-, h⟩ | ⟨rfl, -, -⟩
        · exact hq x h
        · exact absurd rfl (hq1 ok)
    | setFailure => exact hsome hq
    | notifyFailure => exact hsome hq
    | setReplied => exact absurd hq hnotall
    | notifySuccess => exact absurd hq hnotall
    | notifyWaiting => exact hq
    | checkWaitingStage => exact hq
    | _ => trivial
  · intro h; exact absurd (i.stageAll h).1 hnotall
  · intro h
    obtain ⟨h1, h2⟩ := i.stageFail h
    refine ⟨hsome h1, ?_⟩
    rcases h2 with h2 | h2 | h2
    · exact Or.inl (List.mem_append_left _ h2)
    · exact absurd h2 hnf
    · exact Or.inr (Or.inr h2)
  · intro h; exact absurd (i.succ ((mem_minor hu hT).1 h)) hnotall
  · intro h; exact hsome (i.notF ((mem_minor hu hF).1 h))
  · intro _; exact Or.inr (Or.inl hidle)
  · rintro ⟨⟨m, x⟩, hx, e⟩
    rcases mem_set.1 hx with ⟨-, h⟩ | ⟨-, h, -⟩
    · rcases i.liveF ⟨_, h, e⟩ with h | h | h
      · exact Or.inl (List.mem_append_left _ h)
      · exact Or.inr (Or.inl (hsk' h))
      · exact Or.inr (Or.inr h)
    · exact Or.inr (Or.inl (hsk (h.symm.trans e)))
  · intro r h
    rw [mem_minor hu id] at h
    exact List.mem_append_left _ (i.resN r h)
  · intro r h
    rw [mem_minor hu id] at h
    exact i.resC r h
  · intro h; rw [List.filter_append, i.res0 h, filter_minor hu]; rfl
  · intro h; rw [List.filter_append, filter_minor hu, List.append_nil]; exact i.res1 h

/-- A thread advances without changing anything. -/
theorem Inv.advance {known : List String} {s : State} {p p' q : Pc} {t : List Out} (i : Inv known s p q t)
    (hs : isStarting p' = false) (htr : isTrying p' = false) (hok : PcOk s p') (hns : p ≠ .notifySuccess) (hnf : p ≠ .notifyFailure)
    (hl : AllR s.peers → Out.notified true ∈ t ∨ p' ≠ .idle ∨ q ≠ .idle)
    (hlf : SomeF s.peers → Out.notified false ∈ t ∨ Seeking p' ∨ Seeking q) : Inv known s p' q t := by
  refine ⟨i.names, i.uniq, i.rep, i.fail, ?_, ?_, hok, i.okQ, ?_, ?_, i.succ, i.notF, hl, hlf, i.resN, i.resC, i.res0, i.res1, i.order⟩
  · rintro ⟨h, -⟩; rw [hs] at h; cases h
  · rintro ⟨h, -⟩; rw [htr] at h; cases h
  · intro h
    obtain ⟨h1, h2⟩ := i.stageAll h
    refine ⟨h1, ?_⟩
    rcases h2 with h2 | h2 | h2
    · exact Or.inl h2
    · exact absurd h2 hns
    · exact Or.inr (Or.inr h2)
  · intro h
    obtain ⟨h1, h2⟩ := i.stageFail h
    refine ⟨h1, ?_⟩
    rcases h2 with h2 | h2 | h2
    · exact Or.inl h2
    · exact absurd h2 hnf
    · exact Or.inr (Or.inr h2)

/-- The stage of the manager changes. -/
theorem Inv.stageTo {known : List String} {s : State} {p p' q : Pc} {t : List Out} (i : Inv known s p q t) (st : Stage)
    (hst : st ≠ .connecting) (hs : isStarting p' = false) (htr : isTrying p' = false) (hok : PcOk { s with stage := st } p')
    (ha : st = .allRepliesReceived → AllR s.peers ∧ p' = .notifySuccess) (hf : st = .failure → SomeF s.peers ∧ p' = .notifyFailure)
    (hl : p' ≠ .idle) (hlf : SomeF s.peers → Out.notified false ∈ t ∨ Seeking p' ∨ Seeking q) :
    Inv known { s with stage := st } p' q t := by
  refine ⟨i.names, i.uniq, i.rep, i.fail, ?_, ?_, hok, ?_, ?_, ?_, i.succ, i.notF, fun _ => Or.inr (Or.inl hl), hlf, i.resN, i.resC, i.res0, i.res1, i.order⟩
  · rintro ⟨h, -⟩; rw [hs] at h; cases h
  · rintro ⟨h, -⟩; rw [htr] at h; cases h
  · have := i.okQ
    cases q <;> first | exact this | exact hst
  · intro h; exact ⟨(ha h).1, Or.inr (Or.inl (ha h).2)⟩
  · intro h; exact ⟨(hf h).1, Or.inr (Or.inl (hf h).2)⟩

theorem order_snoc {known : List String} {t : List Out} {r : Bool}
    (h : ∀ a r b, t = a ++ .notified r :: b → if r then ∀ n ∈ known, Out.replied n ∈ a else ∃ n ∈ known, Out.failed n ∈ a)
    (hr : if r then ∀ n ∈ known, Out.replied n ∈ t else ∃ n ∈ known, Out.failed n ∈ t) :
    ∀ a r' b, t ++ [.notified r] = a ++ .notified r' :: b →
      if r' then ∀ n ∈ known, Out.replied n ∈ a else ∃ n ∈ known, Out.failed n ∈ a := by
  intro a r' b e
  rcases split_append e with ⟨b', e1, -⟩ | ⟨a', e1, e2⟩
  · exact h a r' b' e1
  · cases a' with
    | nil =>
        simp at e2
        obtain ⟨rfl, -⟩ := e2
        rw [List.append_nil] at e1
        rw [e1]; exact hr
    | cons o a' => simp at e2

theorem order_more {known : List String} {t u : List Out} (hu : ∀ r, Out.notified r ∉ u)
    (h : ∀ a r b, t = a ++ .notified r :: b → if r then ∀ n ∈ known, Out.replied n ∈ a else ∃ n ∈ known, Out.failed n ∈ a) :
    ∀ a r b, t ++ u = a ++ .notified r :: b → if r then ∀ n ∈ known, Out.replied n ∈ a else ∃ n ∈ known, Out.failed n ∈ a := by
  intro a r b e
  rcases split_append e with ⟨b', e1, -⟩ | ⟨a', -, e2⟩
  · exact h a r b' e1
  · exact absurd (by rw [e2]; simp) (hu r)

/-- The listener is notified of success or failure. -/
theorem Inv.notify {known : List String} {s s' : State} {p q : Pc} {t : List Out} (i : Inv known s p q t) (r : Bool) (u : List Out)
    (hp : p = if r then .notifySuccess else .notifyFailure) (h1 : s'.peers = s.peers) (h2 : s'.stage = s.stage) (h3 : s'.completed = true)
    (hu1 : ∀ r, Out.notified r ∉ u) (hu3 : (∀ n, Out.replied n ∉ u) ∧ ∀ n, Out.failed n ∉ u) (hu2 : u.filter isResult = if s.completed then [] else [.result r]) :
    Inv known s' .idle q (t ++ .notified r :: u) := by
  have hpeer : if r then AllR s.peers else SomeF s.peers := by
    have := i.okP
    rw [hp] at this
    cases r <;> exact this
  have hres : ∀ r', Out.result r' ∈ u → r' = r := by
    intro r' h
    have : Out.result r' ∈ u.filter isResult := List.mem_filter.2 ⟨h, rfl⟩
    rw [hu2] at this
    split at this
    · cases this
    · simpa using this
  refine ⟨h1 ▸ i.names, h1 ▸ i.uniq, ?_, ?_, ?_, ?_, trivial, ?_, ?_, ?_, ?_, ?_, ?_, ?_, ?_, ?_, ?_, ?_, ?_⟩
  · intro n; rw [h1, i.rep n]; simp [hu3.1 n]
  · intro n; rw [h1, i.fail n]; simp [hu3.2 n]
  · rintro ⟨h, -⟩; cases h
  · rintro ⟨h, -⟩; cases h
  · exact pcOk_congr h1 h2 i.okQ
  · intro h
    rw [h2] at h
    obtain ⟨a, b⟩ := i.stageAll h
    refine ⟨h1 ▸ a, ?_⟩
    rcases b with b | b | b
    · exact Or.inl (List.mem_append_left _ b)
    · left
      cases r
      · rw [hp] at b; cases b
      · simp
    · exact Or.inr (Or.inr b)
  · intro h
    rw [h2] at h
    obtain ⟨a, b⟩ := i.stageFail h
    refine ⟨h1 ▸ a, ?_⟩
    rcases b with b | b | b
    · exact Or.inl (List.mem_append_left _ b)
    · left
      cases r
      · simp
      · rw [hp] at b; cases b
    · exact Or.inr (Or.inr b)
  · intro h
    rw [h1]
    rcases List.mem_append.1 h with h | h
    · exact i.succ h
    · rcases List.mem_cons.1 h with h | h
      · cases h; exact hpeer
      · exact absurd h (hu1 _)
  · intro h
    rw [h1]
    rcases List.mem_append.1 h with h | h
    · exact i.notF h
    · rcases List.mem_cons.1 h with h | h
      · cases h; exact hpeer
      · exact absurd h (hu1 _)
  · intro h
    rw [h1] at h
    cases r
    · exact absurd hpeer (not_someF_of_allR h)
    · exact Or.inl (by simp)
  · intro h
    rw [h1] at h
    cases r
    · exact Or.inl (by simp)
    · exact absurd h (not_someF_of_allR hpeer)
  · intro r' h
    rcases List.mem_append.1 h with h | h
    · exact List.mem_append_left _ (i.resN r' h)
    · rcases List.mem_cons.1 h with h | h
      · cases h
      · rw [hres r' h]; simp
  · intro _ _; exact h3
  · intro h; rw [h3] at h; cases h
  · intro _
    have e : (t ++ Out.notified r :: u).filter isResult = t.filter isResult ++ u.filter isResult := by
      rw [List.filter_append, List.filter_cons]; simp [isResult]
    rw [e, hu2]
    cases hc : s.completed
    · exact ⟨r, by rw [i.res0 hc]; rfl⟩
    · obtain ⟨r', h⟩ := i.res1 hc; exact ⟨r', by rw [h]; rfl⟩
  · have e : t ++ Out.notified r :: u = (t ++ [.notified r]) ++ u := by simp
    rw [e]
    refine order_more hu1 (order_snoc i.order ?_)
    cases r
    · obtain ⟨⟨n, x⟩, hx, hx2⟩ := hpeer
      have hx2' : x = .failure := hx2
      subst hx2'
      exact ⟨n, (i.names n).2 ⟨_, hx⟩, (i.fail n).1 hx⟩
    · intro n hn
      obtain ⟨x, hx⟩ := (i.names n).1 hn
      have : x = .replyReceived := hpeer _ hx
      subst this
      exact (i.rep n).1 hx

theorem starting_known {known : List String} {s : State} {p q : Pc} {t : List Out} (i : Inv known s p q t) (n : String)
    (hn : n ∈ known) : ∃ st, (n, st) ∈ s.peers := (i.names n).1 hn

/-- Every step preserves the invariant; the peers still to be started are known. -/
theorem Inv.step {known : List String} {s : State} {p q : Pc} {t : List Out} (i : Inv known s p q t)
    (hk : ∀ rest, p = .starting rest → ∀ n ∈ rest, n ∈ known) (hkt : ∀ n ok, p = .tryProxy n ok → n ∈ known)
    (hkq : ∀ rest, q = .starting rest → ∀ n ∈ rest, n ∈ known) :
    Inv known (step s p).1 (step s p).2.1 q (t ++ (step s p).2.2) := by
  cases p with
  | idle => simpa [Joining.step] using i
  | starting rest =>
      cases rest with
      | nil =>
          simp only [Joining.step, List.append_nil]
          refine i.advance rfl rfl trivial (by simp) (by simp) (fun _ => Or.inr (Or.inl (by simp))) (fun h => ?_)
          exact Or.inr (Or.inl trivial)
      | cons n rest =>
          simp only [Joining.step]
          have hok := i.okP
          obtain ⟨x, hx⟩ := (i.names n).1 (hk _ rfl n (by simp))
          have hinv := hok.2 n (by simp) x hx
          subst hinv
          have hnd := List.nodup_cons.1 hok.1
          refine i.change hx (by simp) ?_ ?_ (by simp [Minor]) (by simp) (by simp) (fun _ => rfl) (by simp [isTrying]) ?_ (by simp) (by simp)
            (fun _ => trivial) (by simp) (by simp)
          · rintro r rfl; exact absurd ⟨rfl, rfl⟩ i.oneStart
          · rintro ok rfl
            have := i.okQ _ hx
            cases this
          · refine ⟨hnd.2, ?_⟩
            intro m hm y hy
            rcases mem_set.1 hy with ⟨-, h⟩ | ⟨rfl, -, -⟩
            · exact hok.2 m (by simp [hm]) y h
            · exact absurd hm hnd.1
  | tryProxy n ok =>
      simp only [Joining.step]
      cases ok
      · simp only [Bool.false_eq_true, if_false]
        obtain ⟨x, hx⟩ := (i.names n).1 (hkt n _ rfl)
        have hw := i.okP x hx
        subst hw
        refine i.change hx (by simp) ?_ ?_ (by simp [Minor]) (by simp) (by simp) (by simp [isStarting]) (by simp [isTrying]) trivial (by simp)
          (fun _ => trivial) (fun _ => trivial) (by simp) (by simp)
        · rintro r rfl hn
          have := i.okQ.2 n hn _ hx
          cases this
        · rintro ok rfl; exact absurd ⟨rfl, rfl⟩ i.oneTry
      · simp only [if_true, List.append_nil]
        exact i.advance rfl rfl trivial (by simp) (by simp) (fun _ => Or.inr (Or.inl (by simp))) (fun _ => Or.inr (Or.inl trivial))
  | checkStage =>
      simp only [Joining.step, List.append_nil]
      split
      · rename_i hst
        refine i.advance rfl rfl trivial (by simp) (by simp) ?_ ?_
        · intro ha
          rcases hst with h | h
          · rcases (i.stageAll h).2 with h | h | h
            · exact Or.inl h
            · cases h
            · right; right; rw [h]; simp
          · exact absurd (i.stageFail h).1 (not_someF_of_allR ha)
        · intro hf
          rcases hst with h | h
          · exact absurd hf (not_someF_of_allR (i.stageAll h).1)
          · rcases (i.stageFail h).2 with h | h | h
            · exact Or.inl h
            · cases h
            · right; right; rw [h]; trivial
      · exact i.advance rfl rfl trivial (by simp) (by simp) (fun _ => Or.inr (Or.inl (by simp))) (fun _ => Or.inr (Or.inl trivial))
  | checkFailed =>
      simp only [Joining.step, List.append_nil]
      cases hf : anyFailed s
      · simp only [Bool.false_eq_true, if_false]
        refine i.advance rfl rfl trivial (by simp) (by simp) (fun _ => Or.inr (Or.inl (by simp))) (fun h => ?_)
        rw [(anyFailed_iff s).2 h] at hf; cases hf
      · simp only [if_true]
        exact i.advance rfl rfl ((anyFailed_iff s).1 hf) (by simp) (by simp) (fun _ => Or.inr (Or.inl (by simp))) (fun _ => Or.inr (Or.inl trivial))
  | setFailure =>
      simp only [Joining.step, List.append_nil]
      exact i.stageTo .failure (by simp) rfl rfl i.okP (by simp) (fun _ => ⟨i.okP, rfl⟩) (by simp) (fun _ => Or.inr (Or.inl trivial))
  | notifyFailure =>
      simp only [Joining.step, onFailure]
      refine i.notify false _ rfl rfl rfl rfl ?_ ?_ ?_
      · intro r h; simp only [List.mem_append] at h
        rcases h with h | h <;> split at h <;> simp at h
      · cases s.started <;> cases s.completed <;> simp
      · rw [List.filter_append]
        cases s.started <;> cases s.completed <;> simp [isResult]
  | checkConnecting =>
      simp only [Joining.step, List.append_nil]
      have hl : SomeF s.peers → Out.notified false ∈ t ∨ Seeking q := fun h => by
        rcases i.liveF h with h | h | h
        · exact Or.inl h
        · exact absurd h id
        · exact Or.inr h
      split
      · exact i.advance rfl rfl trivial (by simp) (by simp) (fun _ => Or.inr (Or.inl (by simp))) (fun h => (hl h).imp id Or.inr)
      · rename_i h
        exact i.advance rfl rfl h (by simp) (by simp) (fun _ => Or.inr (Or.inl (by simp))) (fun h => (hl h).imp id Or.inr)
  | checkWaiting =>
      simp only [Joining.step, List.append_nil]
      have hl : SomeF s.peers → Out.notified false ∈ t ∨ Seeking q := fun h => by
        rcases i.liveF h with h | h | h
        · exact Or.inl h
        · exact absurd h id
        · exact Or.inr h
      cases hw : allWaiting s
      · simp only [Bool.false_eq_true, if_false]
        refine i.advance rfl rfl trivial (by simp) (by simp) (fun h => ?_) (fun h => (hl h).imp id Or.inr)
        rw [allWaiting_of_allR h] at hw; cases hw
      · simp only [if_true]
        exact i.advance rfl rfl trivial (by simp) (by simp) (fun _ => Or.inr (Or.inl (by simp))) (fun h => (hl h).imp id Or.inr)
  | setWaiting =>
      simp only [Joining.step, List.append_nil]
      refine i.stageTo .waitingForAllReplies (by simp) rfl rfl ?_ (by simp) (by simp) (by simp) (fun h => ?_)
      · simp [PcOk]
      · rcases i.liveF h with h | h | h
        · exact Or.inl h
        · exact absurd h id
        · exact Or.inr (Or.inr h)
  | notifyWaiting =>
      simp only [Joining.step, onWaiting]
      have i' : Inv known s .checkWaitingStage q t := by
        refine i.advance rfl rfl i.okP (by simp) (by simp) (fun _ => Or.inr (Or.inl (by simp))) (fun h => ?_)
        rcases i.liveF h with h | h | h
        · exact Or.inl h
        · exact absurd h id
        · exact Or.inr (Or.inr h)
      have i2 := i'.pcs (s' := { s with started := true }) rfl rfl rfl
      have hu : ∀ o ∈ (if s.started then [] else [Out.startWaiting true]), Minor o := by
        intro o ho; split at ho <;> simp at ho; subst ho; simp [Minor]
      have hu' : ∀ n, Out.replied n ∉ (if s.started then [] else [Out.startWaiting true]) ∧
          Out.failed n ∉ (if s.started then [] else [Out.startWaiting true]) := by
        intro n; cases s.started <;> simp
      generalize (if s.started then [] else [Out.startWaiting true]) = u at hu hu'
      have hT : ¬ Minor (.notified true) := id
      have hF : ¬ Minor (.notified false) := id
      refine ⟨i2.names, i2.uniq, fun n => by rw [i2.rep n, List.mem_append]; simp [hu' n], fun n => by rw [i2.fail n, List.mem_append]; simp [hu' n], i2.oneStart,
        i2.oneTry, i2.okP, i2.okQ, ?_, ?_, ?_, ?_, ?_, ?_, ?_, ?_, ?_, ?_, order_minor hu i2.order⟩
      · rw [mem_minor hu hT]; exact i2.stageAll
      · rw [mem_minor hu hF]; exact i2.stageFail
      · rw [mem_minor hu hT]; exact i2.succ
      · rw [mem_minor hu hF]; exact i2.notF
      · rw [mem_minor hu hT]; exact i2.live
      · rw [mem_minor hu hF]; exact i2.liveF
      · intro r h; rw [mem_minor hu id] at h ⊢; exact i2.resN r h
      · intro r h; rw [mem_minor hu id] at h; exact i2.resC r h
      · intro h; rw [List.filter_append, i2.res0 h, filter_minor hu]; rfl
      · intro h; rw [List.filter_append, filter_minor hu, List.append_nil]; exact i2.res1 h
  | checkWaitingStage =>
      simp only [Joining.step, List.append_nil]
      have hl : SomeF s.peers → Out.notified false ∈ t ∨ Seeking q := fun h => by
        rcases i.liveF h with h | h | h
        · exact Or.inl h
        · exact absurd h id
        · exact Or.inr h
      split
      · exact i.advance rfl rfl trivial (by simp) (by simp) (fun _ => Or.inr (Or.inl (by simp))) (fun h => (hl h).imp id Or.inr)
      · rename_i hst
        refine i.advance rfl rfl trivial (by simp) (by simp) (fun h => ?_) (fun h => (hl h).imp id Or.inr)
        have hok : s.stage ≠ .connecting := i.okP
        cases hs : s.stage with
        | connecting => exact absurd hs hok
        | waitingForAllReplies => exact absurd hs hst
        | allRepliesReceived =>
            rcases (i.stageAll hs).2 with h | h | h
            · exact Or.inl h
            · cases h
            · right; right; rw [h]; simp
        | failure => exact absurd (i.stageFail hs).1 (not_someF_of_allR h)
  | checkReplied =>
      simp only [Joining.step, List.append_nil]
      have hl : SomeF s.peers → Out.notified false ∈ t ∨ Seeking q := fun h => by
        rcases i.liveF h with h | h | h
        · exact Or.inl h
        · exact absurd h id
        · exact Or.inr h
      cases hw : allReplied s
      · simp only [Bool.false_eq_true, if_false]
        refine i.advance rfl rfl trivial (by simp) (by simp) (fun h => ?_) (fun h => (hl h).imp id Or.inr)
        rw [(allReplied_iff s).2 h] at hw; cases hw
      · simp only [if_true]
        exact i.advance rfl rfl ((allReplied_iff s).1 hw) (by simp) (by simp) (fun _ => Or.inr (Or.inl (by simp))) (fun h => (hl h).imp id Or.inr)
  | setReplied =>
      simp only [Joining.step, List.append_nil]
      exact i.stageTo .allRepliesReceived (by simp) rfl rfl i.okP (fun _ => ⟨i.okP, rfl⟩) (by simp) (by simp)
        (fun h => absurd h (not_someF_of_allR i.okP))
  | notifySuccess =>
      simp only [Joining.step, onSuccess]
      refine i.notify true _ rfl rfl rfl rfl ?_ ?_ ?_
      · intro r h; split at h <;> simp at h
      · cases s.completed <;> simp
      · cases s.completed <;> simp [isResult]

theorem get_mem {s : State} {n : String} {st : PeerStage} (h : s.get n = some st) : (n, st) ∈ s.peers := find_mem h

/-- The I/O thread handles an event. -/
theorem Inv.handle {known : List String} {s : State} {q : Pc} {t : List Out} (i : Inv known s .idle q t) (hq : isTrying q = false) (e : Event) :
    Inv known (handle s e).1 (handle s e).2.1 q (t ++ (handle s e).2.2) := by
  have key : ∀ (n : String) (st0 st : PeerStage) (p' : Pc) (u : List Out), (n, st0) ∈ s.peers →
      st0 ≠ .replyReceived ∧ st0 ≠ .failure ∧ st0 ≠ .invalid →
      (∀ o ∈ u, Minor o) → (∀ m, Out.replied m ∈ u ↔ m = n ∧ st = .replyReceived) → (∀ m, Out.failed m ∈ u ↔ m = n ∧ st = .failure) → st ≠ .failure →
      (p' = .checkStage ∨ (∃ ok, p' = .tryProxy n ok) ∧ st = .waitingForReply) →
      Inv known (s.set n st) p' q (t ++ u) := by
    intro n st0 st p' u h0 hs0 hu hr hfu hf hp
    refine i.change h0 ⟨hs0.1, hs0.2.1⟩ ?_ ?_ hu hr hfu ?_ (fun _ => Or.inr hq) ?_ ?_ (fun h => absurd h hf) (fun h => absurd h id)
      (by simp) (by simp)
    · rintro r rfl hn
      exact hs0.2.2 (i.okQ.2 n hn _ h0)
    · rintro ok rfl; cases hq
    · rcases hp with rfl | ⟨⟨ok, rfl⟩, -⟩ <;> simp [isStarting]
    · rcases hp with rfl | ⟨⟨ok, rfl⟩, rfl⟩
      · trivial
      · intro x hx
        rcases mem_set.1 hx with ⟨h, -⟩ | ⟨-, h, -⟩
        · exact absurd rfl h
        · exact h
    · rcases hp with rfl | ⟨⟨ok, rfl⟩, -⟩ <;> simp
  cases e with
  | user => simpa [Joining.handle] using i
  | io => simpa [Joining.handle] using i
  | connected n =>
      simp only [Joining.handle]
      split
      · rename_i h
        exact key n _ _ _ _ (get_mem h) (by simp) (by simp) (by simp) (by simp) (by simp) (Or.inl rfl)
      · simpa using i
  | connectFailed n r p =>
      simp only [Joining.handle]
      split
      · rename_i h
        split
        · exact key n _ _ _ _ (get_mem h) (by simp) (by simp) (by simp) (by simp) (by simp) (Or.inl rfl)
        · exact key n _ _ _ _ (get_mem h) (by simp) (by simp) (by simp) (by simp) (by simp) (Or.inr ⟨⟨p, rfl⟩, rfl⟩)
      · simpa using i
  | timer n p =>
      simp only [Joining.handle]
      split
      · rename_i h
        exact key n _ _ _ _ (get_mem h) (by simp) (by simp) (by simp) (by simp) (by simp) (Or.inr ⟨⟨p, rfl⟩, rfl⟩)
      · simpa using i
  | remoteIsConnecting n =>
      simp only [Joining.handle]
      split
      · rename_i h
        exact key n _ _ _ _ (get_mem h) (by simp) (by simp) (by simp) (by simp) (by simp) (Or.inl rfl)
      · simpa using i
  | remoteFailed n p =>
      simp only [Joining.handle]
      split
      · rename_i h
        rcases h with h | h
        · exact key n _ _ _ _ (get_mem h) (by simp) (by simp) (by simp) (by simp) (by simp) (Or.inr ⟨⟨p, rfl⟩, rfl⟩)
        · exact key n _ _ _ _ (get_mem h) (by simp) (by simp) (by simp) (by simp) (by simp) (Or.inr ⟨⟨p, rfl⟩, rfl⟩)
      · simpa using i
  | remoteAnnouncement n =>
      simp only [Joining.handle]
      split
      · rename_i h
        rcases h with h | h
        · exact key n _ _ _ _ (get_mem h) (by simp) (by simp) (by simp) (by simp) (by simp) (Or.inl rfl)
        · exact key n _ _ _ _ (get_mem h) (by simp) (by simp) (by simp) (by simp) (by simp) (Or.inl rfl)
      · simpa using i
  | reply n =>
      simp only [Joining.handle]
      split
      · rename_i h
        exact key n _ _ _ _ (get_mem h) (by simp) (by simp [Minor]) (by simp) (by simp) (by simp) (Or.inl rfl)
      · simpa using i

theorem handle_user (s : State) (e : Event) : (handle s e).1.user = s.user := by
  cases e <;> simp only [handle] <;> (try split) <;> (try split) <;> rfl

theorem step_user (s : State) (p : Pc) : (step s p).1.user = s.user := by
  cases p with
  | starting rest => cases rest <;> rfl
  | tryProxy n ok => cases ok <;> rfl
  | _ => rfl

theorem step_io (s : State) (p : Pc) : (step s p).1.io = s.io := by
  cases p with
  | starting rest => cases rest <;> rfl
  | tryProxy n ok => cases ok <;> rfl
  | _ => rfl

/-- What the two threads can be doing. -/
structure Threads (known : List String) (s : State) (h : List Event) : Prop where
  user : isTrying s.user = false
  io : isStarting s.io = false
  start : ∀ rest, s.user = .starting rest → ∀ n ∈ rest, n ∈ known
  try_ : ∀ n ok, s.io = .tryProxy n ok → n ∈ known
  gives : ∀ n, s.io = .tryProxy n false → ∃ e ∈ h, GivesUp n e

theorem step_pcs (s : State) (p : Pc) :
    isTrying (step s p).2.1 = false ∧ (isStarting p = false → isStarting (step s p).2.1 = false) ∧
    (∀ rest, (step s p).2.1 = .starting rest → ∃ n, p = .starting (n :: rest)) := by
  cases p with
  | starting rest => cases rest <;> simp [step, isTrying, isStarting]
  | tryProxy n ok => cases ok <;> simp [step, isTrying, isStarting]
  | _ => simp only [step] <;> (try split) <;> simp [isTrying, isStarting]

theorem handle_pcs (s : State) (e : Event) :
    isStarting (handle s e).2.1 = false ∧
    (∀ n ok, (handle s e).2.1 = .tryProxy n ok → (∃ st, (n, st) ∈ s.peers) ∧ (ok = false → GivesUp n e)) := by
  cases e with
  | user => exact ⟨rfl, by simp [handle]⟩
  | io => exact ⟨rfl, by simp [handle]⟩
  | connectFailed n r p =>
      simp only [handle]
      split
      · rename_i h
        split
        · simp [isStarting]
        · rename_i hr
          refine ⟨rfl, ?_⟩
          intro m ok e
          cases e
          refine ⟨⟨_, get_mem h⟩, ?_⟩
          rintro rfl
          cases r
          · simp [GivesUp]
          · simp at hr
      · simp [isStarting]
  | timer n p =>
      simp only [handle]
      split
      · rename_i h
        refine ⟨rfl, ?_⟩
        intro m ok e
        cases e
        refine ⟨⟨_, get_mem h⟩, ?_⟩
        rintro rfl
        simp [GivesUp]
      · simp [isStarting]
  | remoteFailed n p =>
      simp only [handle]
      split
      · rename_i h
        refine ⟨rfl, ?_⟩
        intro m ok e
        cases e
        refine ⟨?_, ?_⟩
        · rcases h with h | h <;> exact ⟨_, get_mem h⟩
        · rintro rfl
          simp [GivesUp]
      · simp [isStarting]
  | _ => simp only [handle]; split <;> simp [isStarting]

theorem mem_step {s : State} {p : Pc} :
    (∀ n, Out.replied n ∉ (step s p).2.2) ∧ (∀ n, Out.failed n ∈ (step s p).2.2 → p = .tryProxy n false) := by
  cases p with
  | starting rest => cases rest <;> simp [step]
  | tryProxy n ok =>
      cases ok
      · simp only [step, Bool.false_eq_true, if_false]
        refine ⟨by simp, ?_⟩
        intro m h; simp at h; rw [h]
      · simp [step]
  | notifyFailure => simp only [step, onFailure]; cases s.started <;> cases s.completed <;> simp
  | notifyWaiting => simp only [step, onWaiting]; cases s.started <;> simp
  | notifySuccess => simp only [step, onSuccess]; cases s.completed <;> simp
  | _ => simp [step]

theorem mem_handle {s : State} {e : Event} :
    (∀ n, Out.replied n ∈ (handle s e).2.2 → e = .reply n) ∧ (∀ n, Out.failed n ∉ (handle s e).2.2) := by
  cases e with
  | connectFailed n r p => simp only [handle]; split <;> (try split) <;> simp
  | reply n => simp only [handle]; split <;> simp_all
  | user => simp [handle]
  | io => simp [handle]
  | _ => simp only [handle]; split <;> simp

/-- Everything that holds after a schedule. -/
structure All (known : List String) (s : State) (t : List Out) (h : List Event) : Prop where
  inv : Inv known s s.user s.io t
  thr : Threads known s h
  rep : ∀ n, Out.replied n ∈ t → Event.reply n ∈ h
  fail : ∀ n, Out.failed n ∈ t → ∃ e ∈ h, GivesUp n e

theorem all_init (known : List String) : All known (init known) [] [] := by
  have hm : ∀ n st, (n, st) ∈ (init known).peers ↔ n ∈ known ∧ st = .invalid := by
    intro n st
    simp only [init, List.mem_map, List.mem_eraseDups, Prod.mk.injEq]
    exact ⟨fun ⟨a, h1, h2, h3⟩ => ⟨h2 ▸ h1, h3.symm⟩, fun ⟨h1, h2⟩ => ⟨n, h1, rfl, h2.symm⟩⟩
  refine ⟨⟨?_, ?_, ?_, ?_, ?_, ?_, ?_, trivial, ?_, ?_, ?_, ?_, ?_, ?_, ?_, ?_, ?_, ?_, ?_⟩, ⟨rfl, rfl, ?_, ?_, ?_⟩, ?_, ?_⟩
  · intro n; simp [hm]
  · unfold UniqueKeys
    simp only [init]
    rw [List.pairwise_map]
    exact nodup_eraseDups _ _ (Nat.le_refl _)
  · intro n; simp [hm]
  · intro n; simp [hm]
  · simp [init, isStarting]
  · simp [init, isTrying]
  · refine ⟨nodup_eraseDups _ _ (Nat.le_refl _), ?_⟩
    intro n _ st h; exact ((hm n st).1 h).2
  · intro h; cases h
  · intro h; cases h
  · simp
  · simp
  · intro _; right; left; simp [init]
  · intro _; right; left; trivial
  · simp
  · simp
  · simp
  · intro h; cases h
  · intro a r b e; simp at e
  · intro rest e n hn
    cases e
    exact List.mem_eraseDups.1 hn
  · intro n ok e; cases e
  · intro n e; cases e
  · simp
  · simp

theorem all_on {known : List String} {s : State} {t : List Out} {h : List Event} (a : All known s t h) (e : Event) :
    All known (on s e).1 (t ++ (on s e).2) (h ++ [e]) := by
  have hin : ∀ {n}, (∃ x ∈ h, GivesUp n x) → ∃ x ∈ h ++ [e], GivesUp n x := fun ⟨x, hx, g⟩ => ⟨x, List.mem_append_left _ hx, g⟩
  have hev : ∀ {e : Event}, s.io = .idle → e ≠ .user → e ≠ .io →
      All known { (handle s e).1 with io := (handle s e).2.1 } (t ++ (handle s e).2.2) (h ++ [e]) := by
    intro e hi _ _
    have hu := handle_user s e
    have i0 : Inv known s .idle s.user t := by have := a.inv.swap; rw [hi] at this; exact this
    have i1 := (i0.handle a.thr.user e).swap
    have hp := handle_pcs s e
    have hm := mem_handle (s := s) (e := e)
    refine ⟨?_, ⟨?_, hp.1, ?_, ?_, ?_⟩, ?_, ?_⟩
    · dsimp only; rw [hu]; exact i1.pcs rfl rfl rfl
    · dsimp only; rw [hu]; exact a.thr.user
    · dsimp only; rw [hu]; exact a.thr.start
    · intro n ok he
      exact (a.inv.names n).2 (hp.2 n ok he).1
    · intro n he
      exact ⟨e, by simp, (hp.2 n false he).2 rfl⟩
    · intro n hn
      rcases List.mem_append.1 hn with hn | hn
      · exact List.mem_append_left _ (a.rep n hn)
      · rw [hm.1 n hn]; simp
    · intro n hn
      rcases List.mem_append.1 hn with hn | hn
      · obtain ⟨x, hx, g⟩ := a.fail n hn; exact ⟨x, List.mem_append_left _ hx, g⟩
      · exact absurd hn (hm.2 n)
  have hskip : All known s (t ++ []) (h ++ [e]) := by
    rw [List.append_nil]
    exact ⟨a.inv, ⟨a.thr.user, a.thr.io, a.thr.start, a.thr.try_, fun n hn => hin (a.thr.gives n hn)⟩,
      fun n hn => List.mem_append_left _ (a.rep n hn), fun n hn => hin (a.fail n hn)⟩
  cases e with
  | user =>
      simp only [on]
      have hi := step_io s s.user
      have hp := step_pcs s s.user
      have hm := mem_step (s := s) (p := s.user)
      have i1 := a.inv.step a.thr.start (fun n ok e => by have := a.thr.user; rw [e] at this; cases this)
        (fun rest e => by have := a.thr.io; rw [e] at this; cases this)
      refine ⟨?_, ⟨hp.1, ?_, ?_, ?_, ?_⟩, ?_, ?_⟩
      · dsimp only; rw [hi]; exact i1.pcs rfl rfl rfl
      · dsimp only; rw [hi]; exact a.thr.io
      · intro rest he n hn
        obtain ⟨m, hm⟩ := hp.2.2 rest he
        exact a.thr.start _ hm n (by simp [hn])
      · dsimp only; rw [hi]; exact a.thr.try_
      · dsimp only; rw [hi]; exact fun n hn => hin (a.thr.gives n hn)
      · intro n hn
        rcases List.mem_append.1 hn with hn | hn
        · exact List.mem_append_left _ (a.rep n hn)
        · exact absurd hn (hm.1 n)
      · intro n hn
        rcases List.mem_append.1 hn with hn | hn
        · exact hin (a.fail n hn)
        · have := hm.2 n hn
          have hu := a.thr.user
          rw [this] at hu; cases hu
  | io =>
      simp only [on]
      have hi := step_user s s.io
      have hp := step_pcs s s.io
      have hm := mem_step (s := s) (p := s.io)
      have i1 := (a.inv.swap.step (fun rest e => by have := a.thr.io; rw [e] at this; cases this) a.thr.try_ a.thr.start).swap
      refine ⟨?_, ⟨?_, hp.2.1 a.thr.io, ?_, ?_, ?_⟩, ?_, ?_⟩
      · dsimp only; rw [hi]; exact i1.pcs rfl rfl rfl
      · dsimp only; rw [hi]; exact a.thr.user
      · dsimp only; rw [hi]; exact a.thr.start
      · intro n ok he
        have := hp.1; rw [show (step s s.io).2.1 = _ from he] at this; cases this
      · intro n he
        have := hp.1; rw [show (step s s.io).2.1 = _ from he] at this; cases this
      · intro n hn
        rcases List.mem_append.1 hn with hn | hn
        · exact List.mem_append_left _ (a.rep n hn)
        · exact absurd hn (hm.1 n)
      · intro n hn
        rcases List.mem_append.1 hn with hn | hn
        · exact hin (a.fail n hn)
        · exact hin (a.thr.gives n (hm.2 n hn))
  | _ =>
      simp only [on]
      split
      · rename_i hi
        exact hev hi (by simp) (by simp)
      · exact hskip

theorem all_run (known : List String) (h : List Event) : All known (run known h).1 (run known h).2 h := by
  rw [← List.reverse_reverse h]
  induction h.reverse with
  | nil => exact all_init known
  | cons e h ih =>
      rw [List.reverse_cons, run_append]
      exact all_on ih e

end SilKit.Joining
