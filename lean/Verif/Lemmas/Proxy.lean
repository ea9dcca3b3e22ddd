import Verif.Spec.Proxy
/-!
# Lemmas about communication through the registry
-/
namespace SilKit.Proxy
open Spec

theorem upd_same {α : Type} (f : Nat → α) (i : Nat) (v : α) : upd f i v i = v := by simp [upd]

theorem upd_other {α : Type} (f : Nat → α) {i j : Nat} (v : α) (h : j ≠ i) : upd f i v j = f j := by simp [upd, h]

def msgTo (b : Nat) : Up → Option Payload
  | .msg m => if m.dst = b then some m.payload else none
  | .eof => none

def datum : Payload → Option Nat
  | .data k => some k
  | _ => none

/-- What is on its way from `a` to `b`. -/
def path (n : Net) (a b : Nat) : List Payload := ((n.down b).filter (fun m => decide (m.src = a))).map (·.payload) ++ (n.up a).filterMap (msgTo b)

def Traffic (l : List Payload) : Prop := ∀ x ∈ l, x ≠ .announce ∧ x ≠ .shutdown

/-- What matters for the messages from `a` to `b`. -/
structure Obs where
  ini : Bool
  rsp : Bool
  known : Bool
  path : List Payload
  alive : Bool
  assoc : Bool
  view : List Event
  sent : List Nat

def obs (n : Net) (a b : Nat) : Obs where
  ini := decide ((a, b) ∈ n.pairs)
  rsp := decide ((b, a) ∈ n.pairs)
  known := decide ((n.part b).table a ≠ none)
  path := path n a b
  alive := n.reg.table a
  assoc := decide ((a, b) ∈ n.reg.assoc)
  view := view n a b
  sent := sentTo n a b

def Ending (o : Obs) (t : List Payload) : Prop := (t = [] ∧ (o.alive = true ∨ o.assoc = false)) ∨ (t = [.shutdown] ∧ o.alive = false)

/-- The phases of a connection from `a` to `b`: not there, announced, there, and left. -/
inductive Ok (a : Nat) (o : Obs) : Prop
  | idle : o.ini = false → o.rsp = false → o.known = false → o.path = [] → o.assoc = false → o.view = [] → o.sent = [] → Ok a o
  | coming (l t : List Payload) : o.ini = true → o.known = false → o.path = .announce :: (l ++ t) → Traffic l → Ending o t → o.view = [] →
      o.sent = l.filterMap datum → Ok a o
  | there (l t : List Payload) (r : List Nat) : (o.ini = true ∨ o.rsp = true) → o.known = true → o.path = l ++ t → Traffic l → Ending o t →
      o.view = r.map (.received (some a)) → o.sent = r ++ l.filterMap datum → Ok a o
  | gone : (o.ini = true ∨ o.rsp = true) → o.known = false → o.path = [] → o.alive = false → o.view = o.sent.map (.received (some a)) ++ [.left (some a)] → Ok a o

theorem traffic_append {l : List Payload} {x : Payload} (h : Traffic l) (hx : x ≠ .announce ∧ x ≠ .shutdown) : Traffic (l ++ [x]) := by
  intro y hy
  rcases List.mem_append.1 hy with h1 | h1
  · exact h y h1
  · rw [List.mem_singleton] at h1; subst h1; exact hx

theorem ok_connect {a : Nat} {o : Obs} (h : Ok a o) (hi : o.ini = false) (hr : o.rsp = false) (ha : o.alive = true) :
    Ok a { o with ini := true, path := o.path ++ [.announce] } := by
  cases h with
  | idle h1 h2 h3 h4 h5 h6 h7 =>
    refine .coming [] [] rfl h3 ?_ (fun x hx => by cases hx) (.inl ⟨rfl, .inl ha⟩) h6 h7
    simp [h4]
  | coming l t h1 => rw [hi] at h1; cases h1
  | there l t r h1 => rw [hi, hr] at h1; simp at h1
  | gone h0 h1 h2 h3 => rw [ha] at h3; cases h3

theorem ok_connect_back {a : Nat} {o : Obs} (h : Ok a o) (hi : o.ini = false) (hr : o.rsp = false) :
    Ok a { o with rsp := true, known := true } := by
  cases h with
  | idle h1 h2 h3 h4 h5 h6 h7 =>
    refine .there [] [] [] (.inr rfl) rfl ?_ (fun x hx => by cases hx) (.inl ⟨rfl, .inr h5⟩) ?_ ?_
    · simp [h4]
    · simp [h6]
    · simp [h7]
  | coming l t h1 => rw [hi] at h1; cases h1
  | there l t r h1 => rw [hi, hr] at h1; simp at h1
  | gone h0 => rw [hi, hr] at h0; simp at h0

theorem ok_post {a : Nat} {o : Obs} (h : Ok a o) (ha : o.alive = true) (hp : o.ini = true ∨ o.rsp = true) (x : Payload) (hx : x ≠ .announce ∧ x ≠ .shutdown) :
    Ok a { o with path := o.path ++ [x], sent := o.sent ++ (datum x).toList } := by
  have key : ∀ t, Ending o t → t = [] := by
    rintro t (⟨h1, _⟩ | ⟨_, h1⟩)
    · exact h1
    · rw [ha] at h1; cases h1
  cases h with
  | idle h1 h2 => rw [h1, h2] at hp; simp at hp
  | coming l t h1 h2 h3 h4 h5 h6 h7 =>
    have := key t h5
    subst this
    refine .coming (l ++ [x]) [] h1 h2 ?_ (traffic_append h4 hx) (.inl ⟨rfl, .inl ha⟩) h6 ?_
    · simp [h3]
    · rw [h7, List.filterMap_append]; cases x <;> rfl
  | there l t r h1 h2 h3 h4 h5 h6 h7 =>
    have := key t h5
    subst this
    refine .there (l ++ [x]) [] r h1 h2 ?_ (traffic_append h4 hx) (.inl ⟨rfl, .inl ha⟩) h6 ?_
    · simp [h3]
    · rw [h7, List.filterMap_append, List.append_assoc]; cases x <;> rfl
  | gone h0 h1 h2 h3 => rw [ha] at h3; cases h3

theorem ok_relay {a : Nat} {o : Obs} (h : Ok a o) (ha : o.alive = true) (hp : o.path ≠ []) : Ok a { o with assoc := true } := by
  have key : ∀ t, Ending o t → t = [] := by
    rintro t (⟨h1, _⟩ | ⟨_, h1⟩)
    · exact h1
    · rw [ha] at h1; cases h1
  cases h with
  | idle h1 h2 h3 h4 => exact absurd h4 hp
  | coming l t h1 h2 h3 h4 h5 h6 h7 => exact .coming l t h1 h2 h3 h4 (.inl ⟨key t h5, .inl ha⟩) h6 h7
  | there l t r h1 h2 h3 h4 h5 h6 h7 => exact .there l t r h1 h2 h3 h4 (.inl ⟨key t h5, .inl ha⟩) h6 h7
  | gone h0 h1 h2 h3 => rw [ha] at h3; cases h3

theorem ok_eof {a : Nat} {o : Obs} (h : Ok a o) (ha : o.alive = true) :
    Ok a { o with alive := false, path := if o.assoc then o.path ++ [.shutdown] else o.path } := by
  have key : ∀ t, Ending o t → t = [] := by
    rintro t (⟨h1, _⟩ | ⟨_, h1⟩)
    · exact h1
    · rw [ha] at h1; cases h1
  cases h with
  | idle h1 h2 h3 h4 h5 h6 h7 => exact .idle h1 h2 h3 (by simp [h5, h4]) h5 h6 h7
  | coming l t h1 h2 h3 h4 h5 h6 h7 =>
    have := key t h5
    subst this
    cases has : o.assoc with
    | false => exact .coming l [] h1 h2 (by simpa [has] using h3) h4 (.inl ⟨rfl, .inr rfl⟩) h6 h7
    | true => exact .coming l [.shutdown] h1 h2 (by simp [h3]) h4 (.inr ⟨rfl, rfl⟩) h6 h7
  | there l t r h1 h2 h3 h4 h5 h6 h7 =>
    have := key t h5
    subst this
    cases has : o.assoc with
    | false => exact .there l [] r h1 h2 (by simpa [has] using h3) h4 (.inl ⟨rfl, .inr rfl⟩) h6 h7
    | true => exact .there l [.shutdown] r h1 h2 (by simp [h3]) h4 (.inr ⟨rfl, rfl⟩) h6 h7
  | gone h0 h1 h2 h3 => rw [ha] at h3; cases h3

theorem ok_recv_announce {a : Nat} {o : Obs} {rest : List Payload} (h : Ok a o) (hp : o.path = .announce :: rest) :
    o.known = false ∧ o.ini = true ∧ o.view = [] ∧ Ok a { o with path := rest, known := true } := by
  cases h with
  | idle h1 h2 h3 h4 => rw [h4] at hp; cases hp
  | coming l t h1 h2 h3 h4 h5 h6 h7 =>
    rw [h3] at hp
    have hr := (List.cons.inj hp).2
    exact ⟨h2, h1, h6, .there l t [] (.inl h1) rfl hr.symm h4 h5 (by simp [h6]) (by simp [h7])⟩
  | there l t r h1 h2 h3 h4 h5 h6 h7 =>
    exfalso
    rw [h3] at hp
    cases l with
    | nil =>
      rcases h5 with ⟨h8, _⟩ | ⟨h8, _⟩ <;> rw [h8] at hp <;> cases hp
    | cons x l => exact (h4 x (by simp)).1 (List.cons.inj hp).1
  | gone h0 h1 h2 => rw [h2] at hp; cases hp

theorem ok_recv_traffic {a : Nat} {o : Obs} {x : Payload} {rest : List Payload} (h : Ok a o) (hp : o.path = x :: rest) (hx : x ≠ .announce ∧ x ≠ .shutdown) :
    o.known = true ∧ Ok a { o with path := rest, view := o.view ++ ((datum x).toList.map (.received (some a))) } := by
  cases h with
  | idle h1 h2 h3 h4 => rw [h4] at hp; cases hp
  | coming l t h1 h2 h3 => rw [h3] at hp; exact absurd (List.cons.inj hp).1.symm hx.1
  | there l t r h1 h2 h3 h4 h5 h6 h7 =>
    refine ⟨h2, ?_⟩
    rw [h3] at hp
    cases l with
    | nil =>
      exfalso
      rcases h5 with ⟨h8, _⟩ | ⟨h8, _⟩ <;> rw [h8] at hp
      · cases hp
      · exact hx.2 (List.cons.inj hp).1.symm
    | cons y l =>
      obtain ⟨rfl, hr⟩ := List.cons.inj hp
      refine .there l t (r ++ (datum y).toList) h1 h2 hr.symm (fun z hz => h4 z (by simp [hz])) h5 (by simp [h6]) ?_
      rw [h7, List.filterMap_cons]
      cases y <;> simp [datum]
  | gone h0 h1 h2 => rw [h2] at hp; cases hp

theorem ok_recv_shutdown {a : Nat} {o : Obs} {rest : List Payload} (h : Ok a o) (hp : o.path = .shutdown :: rest) :
    o.known = true ∧ Ok a { o with path := rest, known := false, view := o.view ++ [.left (some a)] } := by
  cases h with
  | idle h1 h2 h3 h4 => rw [h4] at hp; cases hp
  | coming l t h1 h2 h3 => rw [h3] at hp; cases hp
  | there l t r h1 h2 h3 h4 h5 h6 h7 =>
    refine ⟨h2, ?_⟩
    rw [h3] at hp
    cases l with
    | nil =>
      rcases h5 with ⟨h8, _⟩ | ⟨h8, h9⟩ <;> rw [h8] at hp
      · cases hp
      · refine .gone h1 rfl (List.cons.inj hp).2.symm h9 ?_
        show o.view ++ _ = _
        rw [h6, h7]
        simp
    | cons y l => exact absurd (List.cons.inj hp).1 (h4 y (by simp)).2
  | gone h0 h1 h2 => rw [h2] at hp; cases hp

/-- What holds of the state of a connected participant. -/
structure Local (p : Part) : Prop where
  table : ∀ a id, p.table a = some id → p.peers id = some ⟨some a⟩
  peers : ∀ id pr, p.peers id = some pr → id ∈ p.proxied ∧ ∃ a, pr.name = some a ∧ p.table a = some id
  fresh : ∀ id ∈ p.proxied, id < p.next
  nodup : p.proxied.Nodup
  left : (∃ id ∈ p.proxied, p.peers id = none) ↔ ∃ nm, Event.left nm ∈ p.trace
  named : ∀ e ∈ p.trace, ∃ a, about a e = true

structure Inv (n : Net) : Prop where
  conn : ∀ a, (n.part a).connected = true → Up.eof ∉ n.up a ∧ n.reg.table a = true
  disc : ∀ a, (n.part a).connected = false → (∃ ms, n.up a = ms ++ [.eof] ∧ Up.eof ∉ ms ∧ n.reg.table a = true) ∨ (n.up a = [] ∧ n.reg.table a = false)
  upSrc : ∀ a m, Up.msg m ∈ n.up a → m.src = a ∧ m.dst ≠ a
  downDst : ∀ b m, m ∈ n.down b → m.dst = b ∧ m.src ≠ b
  loc : ∀ b, (n.part b).connected = true → Local (n.part b)
  ok : ∀ a b, a ≠ b → (n.part b).connected = true → Ok a (obs n a b)
  spoke : ∀ a b, a ≠ b → (n.part b).connected = true → (a, b) ∈ n.spoke → (a, b) ∈ n.reg.assoc ∨ (n.up a).filterMap (msgTo b) ≠ []
  noSelf : ∀ a, (a, a) ∉ n.reg.assoc
  self : ∀ b, (n.part b).connected = true → (n.part b).table b = none

theorem inv_init : Inv {} := by
  refine ⟨fun a _ => ⟨by simp, rfl⟩, fun a h => (nomatch h), fun a m h => (nomatch h), fun b m h => (nomatch h), fun b _ => ?_, fun a b _ _ => ?_, fun a b _ _ h => (nomatch h), fun a h => (nomatch h), fun _ _ => rfl⟩
  · exact ⟨fun a id h => (nomatch h), fun id pr h => (nomatch h), fun id h => (nomatch h), List.nodup_nil,
      ⟨fun ⟨id, h, _⟩ => (nomatch h), fun ⟨nm, h⟩ => (nomatch h)⟩, fun e h => (nomatch h)⟩
  · exact .idle rfl rfl rfl rfl rfl rfl rfl

/-! ### Steps of participants -/

theorem local_add {p : Part} (h : Local p) (b : Nat) (hb : p.table b = none) : Local (addPeer (associate p b p.next) (some b)) := by
  have hnext : p.peers p.next = none := by
    cases hx : p.peers p.next with
    | none => rfl
    | some pr => exact absurd (h.fresh _ (h.peers _ _ hx).1) (Nat.lt_irrefl _)
  unfold addPeer associate
  rw [if_pos hb]
  refine ⟨?_, ?_, ?_, ?_, ?_, h.named⟩
  · intro a id ha
    dsimp only at ha ⊢
    by_cases hab : a = b
    · subst hab
      rw [upd_same] at ha
      cases ha
      rw [upd_same]
    · rw [upd_other _ _ hab] at ha
      have := h.table a id ha
      rw [upd_other _ _ (fun e => by rw [e, hnext] at this; cases this)]
      exact this
  · intro id pr hpr
    dsimp only at hpr ⊢
    by_cases hid : id = p.next
    · subst hid
      rw [upd_same] at hpr
      cases hpr
      exact ⟨by simp, b, rfl, upd_same _ _ _⟩
    · rw [upd_other _ _ hid] at hpr
      obtain ⟨h1, a, h2, h3⟩ := h.peers id pr hpr
      refine ⟨by simp [h1], a, h2, ?_⟩
      rw [upd_other _ _ (fun e => by rw [e, hb] at h3; cases h3)]
      exact h3
  · intro id hid
    dsimp only at hid ⊢
    rcases List.mem_append.1 hid with h1 | h1
    · have := h.fresh id h1; omega
    · rw [List.mem_singleton] at h1; omega
  · show (p.proxied ++ [p.next]).Nodup
    rw [List.nodup_append]
    refine ⟨h.nodup, by simp, fun x hx y hy => ?_⟩
    rw [List.mem_singleton] at hy
    have := h.fresh x hx
    omega
  · dsimp only
    rw [← h.left]
    constructor
    · rintro ⟨id, h1, h2⟩
      rcases List.mem_append.1 h1 with h3 | h3
      · refine ⟨id, h3, ?_⟩
        rwa [upd_other _ _ (fun e => by have := h.fresh id h3; omega)] at h2
      · rw [List.mem_singleton] at h3
        subst h3
        rw [upd_same] at h2
        cases h2
    · rintro ⟨id, h1, h2⟩
      refine ⟨id, by simp [h1], ?_⟩
      rwa [upd_other _ _ (fun e => by have := h.fresh id h1; omega)]

theorem local_shutdown {p : Part} (h : Local p) {a id : Nat} (ha : p.table a = some id) :
    ∃ p', shutdownPeer p id = .ok p' ∧ p' = { p with trace := p.trace ++ [.left (some a)], table := upd p.table a none, peers := upd p.peers id none } ∧ Local p' := by
  have hp := h.table a id ha
  unfold shutdownPeer
  rw [hp]
  refine ⟨_, rfl, rfl, ?_, ?_, h.fresh, h.nodup, ?_, ?_⟩
  · intro b id' hb
    dsimp only at hb ⊢
    by_cases hba : b = a
    · subst hba; rw [upd_same] at hb; cases hb
    · rw [upd_other _ _ hba] at hb
      have h1 := h.table b id' hb
      rw [upd_other _ _ (fun e => by rw [e, hp] at h1; cases h1; exact hba rfl)]
      exact h1
  · intro id' pr hpr
    dsimp only at hpr ⊢
    by_cases hid : id' = id
    · subst hid; rw [upd_same] at hpr; cases hpr
    · rw [upd_other _ _ hid] at hpr
      obtain ⟨h1, b, h2, h3⟩ := h.peers id' pr hpr
      refine ⟨h1, b, h2, ?_⟩
      rw [upd_other _ _ (fun e => by rw [e, ha] at h3; cases h3; exact hid rfl)]
      exact h3
  · dsimp only
    constructor
    · intro _; exact ⟨some a, by simp⟩
    · intro _; exact ⟨id, (h.peers id _ hp).1, upd_same _ _ _⟩
  · intro e he
    rcases List.mem_append.1 he with h1 | h1
    · exact h.named e h1
    · rw [List.mem_singleton] at h1; subst h1; exact ⟨a, by simp [about]⟩

theorem local_announce {p : Part} {q a : Nat} (ha : p.table a = none) {m : Msg} (hm : m.payload = .announce) (hs : m.src = a) :
    onData q (addPeer p none) p.next m = .ok (addPeer (associate p a p.next) (some a), [⟨q, a, .reply⟩]) := by
  unfold onData addPeer
  dsimp only
  rw [upd_same]
  dsimp only
  rw [hm]
  dsimp only
  unfold associate
  dsimp only
  rw [hs, if_pos ha]
  congr 2
  congr 1
  funext j
  simp only [upd]
  by_cases hj : j = p.next <;> simp [hj]

/-! ### Paths and views -/

theorem path_append_up {n n' : Net} {a b : Nat} {m : Msg} (hu : n'.up a = n.up a ++ [.msg m]) (hd : n'.down b = n.down b) (hm : m.dst = b) :
    path n' a b = path n a b ++ [m.payload] := by
  unfold path
  rw [hu, hd, List.filterMap_append, ← List.append_assoc]
  simp [msgTo, hm]

theorem path_append_up_other {n n' : Net} {a b : Nat} {m : Msg} (hu : n'.up a = n.up a ++ [.msg m]) (hd : n'.down b = n.down b) (hm : m.dst ≠ b) :
    path n' a b = path n a b := by
  unfold path
  rw [hu, hd, List.filterMap_append]
  simp [msgTo, hm]

theorem path_congr {n n' : Net} {a b : Nat} (hu : n'.up a = n.up a) (hd : n'.down b = n.down b) : path n' a b = path n a b := by
  unfold path
  rw [hu, hd]

theorem view_congr {n n' : Net} {a b : Nat} (h : (n'.part b).trace = (n.part b).trace) : view n' a b = view n a b := by
  unfold view
  rw [h]

theorem sentTo_congr {n n' : Net} {a b : Nat} (h : (n'.part a).sent = (n.part a).sent) : sentTo n' a b = sentTo n a b := by
  unfold sentTo
  rw [h]

theorem obs_congr {n n' : Net} {a b : Nat} (h1 : (a, b) ∈ n'.pairs ↔ (a, b) ∈ n.pairs) (h2 : (b, a) ∈ n'.pairs ↔ (b, a) ∈ n.pairs)
    (h3 : (n'.part b).table a = (n.part b).table a) (h4 : path n' a b = path n a b) (h5 : n'.reg.table a = n.reg.table a)
    (h6 : (a, b) ∈ n'.reg.assoc ↔ (a, b) ∈ n.reg.assoc) (h7 : (n'.part b).trace = (n.part b).trace) (h8 : (n'.part a).sent = (n.part a).sent) :
    obs n' a b = obs n a b := by
  unfold obs
  rw [h3, h4, h5, view_congr h7, sentTo_congr h8]
  simp only [h1, h2, h6]

theorem inv_connect {n : Net} (h : Inv n) (a b : Nat) : Inv (connect n a b) := by
  unfold connect
  split
  · rename_i hc
    obtain ⟨hc, hab, hp1, hp2⟩ := hc
    have hk : (n.part a).table b = none := by
      have := h.ok b a (Ne.symm hab) hc
      cases this with
      | idle _ _ h3 => simpa [obs] using h3
      | coming l t h1 => simp only [obs, decide_eq_true_eq] at h1; exact absurd h1 hp2
      | there l t r h1 => simp only [obs, decide_eq_true_eq] at h1; rcases h1 with h1 | h1; exact absurd h1 hp2; exact absurd h1 hp1
      | gone h1 => simp only [obs, decide_eq_true_eq] at h1; rcases h1 with h1 | h1; exact absurd h1 hp2; exact absurd h1 hp1
    obtain ⟨k1, k2⟩ := h.conn a hc
    generalize hn' : ({ post n a ⟨a, b, .announce⟩ with part := upd n.part a (addPeer (associate (n.part a) b (n.part a).next) (some b)), pairs := (a, b) :: n.pairs } : Net) = n'
    have e_part : n'.part = upd n.part a (addPeer (associate (n.part a) b (n.part a).next) (some b)) := by subst hn'; rfl
    have e_up : n'.up = upd n.up a (n.up a ++ [.msg ⟨a, b, .announce⟩]) := by subst hn'; rfl
    have e_down : n'.down = n.down := by subst hn'; rfl
    have e_reg : n'.reg = n.reg := by subst hn'; rfl
    have e_pairs : n'.pairs = (a, b) :: n.pairs := by subst hn'; rfl
    have e_spoke : n'.spoke = (a, b) :: n.spoke := by subst hn'; rfl
    have hconn : ∀ c, (n'.part c).connected = (n.part c).connected := by
      intro c; rw [e_part]; by_cases hca : c = a
      · subst hca; rw [upd_same]; rfl
      · rw [upd_other _ _ hca]
    have htrace : ∀ c, (n'.part c).trace = (n.part c).trace := by
      intro c; rw [e_part]; by_cases hca : c = a
      · subst hca; rw [upd_same]; rfl
      · rw [upd_other _ _ hca]
    have hsent : ∀ c, (n'.part c).sent = (n.part c).sent := by
      intro c; rw [e_part]; by_cases hca : c = a
      · subst hca; rw [upd_same]; rfl
      · rw [upd_other _ _ hca]
    refine ⟨?_, ?_, ?_, ?_, ?_, ?_, ?_, by rw [e_reg]; exact h.noSelf, ?_⟩
    · intro c hcc
      rw [hconn] at hcc
      obtain ⟨j1, j2⟩ := h.conn c hcc
      rw [e_up, e_reg]
      refine ⟨?_, j2⟩
      by_cases hca : c = a
      · subst hca; rw [upd_same]; simp [j1]
      · rw [upd_other _ _ hca]; exact j1
    · intro c hcc
      rw [hconn] at hcc
      have hca : c ≠ a := fun e => by rw [e, hc] at hcc; cases hcc
      rw [e_up, upd_other _ _ hca, e_reg]
      exact h.disc c hcc
    · intro c m hm
      rw [e_up] at hm
      by_cases hca : c = a
      · subst hca
        rw [upd_same] at hm
        rcases List.mem_append.1 hm with h1 | h1
        · exact h.upSrc c m h1
        · rw [List.mem_singleton] at h1; cases h1; exact ⟨rfl, Ne.symm hab⟩
      · rw [upd_other _ _ hca] at hm; exact h.upSrc c m hm
    · intro c m hm; rw [e_down] at hm; exact h.downDst c m hm
    · intro c hcc
      rw [hconn] at hcc
      rw [e_part]
      by_cases hca : c = a
      · subst hca; rw [upd_same]; exact local_add (h.loc c hc) b hk
      · rw [upd_other _ _ hca]; exact h.loc c hcc
    · intro c d hcd hdc
      rw [hconn] at hdc
      have hold := h.ok c d hcd hdc
      by_cases hca : c = a
      · subst hca
        have htab : (n'.part d).table c = (n.part d).table c := by rw [e_part, upd_other _ _ (Ne.symm hcd)]
        by_cases hdb : d = b
        · subst hdb
          have : obs n' c d = { obs n c d with ini := true, path := (obs n c d).path ++ [.announce] } := by
            unfold obs
            rw [htab, path_append_up (n := n) (m := ⟨c, d, .announce⟩) (by rw [e_up, upd_same]) (by rw [e_down]) rfl, e_reg, view_congr (htrace d), sentTo_congr (hsent c), e_pairs]
            simp [hcd.symm]
          rw [this]
          exact ok_connect hold (by simpa [obs] using hp1) (by simpa [obs] using hp2) k2
        · rw [obs_congr (n := n) (by rw [e_pairs]; simp [hdb]) (by rw [e_pairs]; simp [Ne.symm hcd]) htab
            (path_append_up_other (m := ⟨c, b, .announce⟩) (by rw [e_up, upd_same]) (by rw [e_down]) (Ne.symm hdb)) (by rw [e_reg]) (by rw [e_reg]) (htrace d) (hsent c)]
          exact hold
      · have hpath : path n' c d = path n c d := path_congr (by rw [e_up, upd_other _ _ hca]) (by rw [e_down])
        by_cases hda : d = a
        · subst hda
          by_cases hcb : c = b
          · subst hcb
            have : obs n' c d = { obs n c d with rsp := true, known := true } := by
              unfold obs
              rw [hpath, e_reg, view_congr (htrace d), sentTo_congr (hsent c), e_pairs]
              simp only [Obs.mk.injEq, and_true]
              refine ⟨by simp [hcd], by simp, ?_⟩
              rw [e_part, upd_same]
              unfold addPeer associate
              rw [if_pos hk]
              simp [upd_same]
            rw [this]
            exact ok_connect_back hold (by simpa [obs] using hp2) (by simpa [obs] using hp1)
          · have htab : (n'.part d).table c = (n.part d).table c := by
              rw [e_part, upd_same]
              unfold addPeer associate
              rw [if_pos hk]
              exact upd_other _ _ hcb
            rw [obs_congr (n := n) (by rw [e_pairs]; simp [hca]) (by rw [e_pairs]; simp [hcb]) htab hpath (by rw [e_reg]) (by rw [e_reg]) (htrace d) (hsent c)]
            exact hold
        · rw [obs_congr (n := n) (by rw [e_pairs]; simp [hca]) (by rw [e_pairs]; simp [hda]) (by rw [e_part, upd_other _ _ hda]) hpath (by rw [e_reg]) (by rw [e_reg])
            (htrace d) (hsent c)]
          exact hold
    · intro c d hcd hdc hs
      rw [hconn] at hdc
      rw [e_reg, e_up]
      rw [e_spoke] at hs
      by_cases hca : c = a
      · subst hca
        rw [upd_same, List.filterMap_append]
        rcases List.mem_cons.1 hs with h1 | h1
        · cases h1
          right
          simp [msgTo]
        · rcases h.spoke c d hcd hdc h1 with h2 | h2
          · exact .inl h2
          · exact .inr (by simp [h2])
      · rw [upd_other _ _ hca]
        rcases List.mem_cons.1 hs with h1 | h1
        · cases h1; exact absurd rfl hca
        · exact h.spoke c d hcd hdc h1
    · intro c hcc
      rw [hconn] at hcc
      rw [e_part]
      by_cases hca : c = a
      · subst hca
        rw [upd_same]
        unfold addPeer associate
        rw [if_pos hk]
        dsimp only
        rw [upd_other _ _ hab]
        exact h.self c hc
      · rw [upd_other _ _ hca]; exact h.self c hcc
  · exact h

theorem inv_post {n : Net} (h : Inv n) {a b : Nat} (hc : (n.part a).connected = true) (hab : a ≠ b) (hp : (a, b) ∈ n.pairs ∨ (b, a) ∈ n.pairs) (x : Payload)
    (hx : x ≠ .announce ∧ x ≠ .shutdown) :
    Inv { post n a ⟨a, b, x⟩ with part := upd n.part a { n.part a with sent := (n.part a).sent ++ (datum x).toList.map (fun k => (b, k)) } } := by
  obtain ⟨k1, k2⟩ := h.conn a hc
  generalize hn' : ({ post n a ⟨a, b, x⟩ with part := upd n.part a { n.part a with sent := (n.part a).sent ++ (datum x).toList.map (fun k => (b, k)) } } : Net) = n'
  have e_part : n'.part = upd n.part a { n.part a with sent := (n.part a).sent ++ (datum x).toList.map (fun k => (b, k)) } := by subst hn'; rfl
  have e_up : n'.up = upd n.up a (n.up a ++ [.msg ⟨a, b, x⟩]) := by subst hn'; rfl
  have e_down : n'.down = n.down := by subst hn'; rfl
  have e_reg : n'.reg = n.reg := by subst hn'; rfl
  have e_pairs : n'.pairs = n.pairs := by subst hn'; rfl
  have e_spoke : n'.spoke = (a, b) :: n.spoke := by subst hn'; rfl
  have hconn : ∀ c, (n'.part c).connected = (n.part c).connected := by
    intro c; rw [e_part]; by_cases hca : c = a
    · subst hca; rw [upd_same]
    · rw [upd_other _ _ hca]
  have htrace : ∀ c, (n'.part c).trace = (n.part c).trace := by
    intro c; rw [e_part]; by_cases hca : c = a
    · subst hca; rw [upd_same]
    · rw [upd_other _ _ hca]
  have htable : ∀ c, (n'.part c).table = (n.part c).table := by
    intro c; rw [e_part]; by_cases hca : c = a
    · subst hca; rw [upd_same]
    · rw [upd_other _ _ hca]
  refine ⟨?_, ?_, ?_, ?_, ?_, ?_, ?_, by rw [e_reg]; exact h.noSelf, fun c hcc => by rw [htable]; rw [hconn] at hcc; exact h.self c hcc⟩
  · intro c hcc
    rw [hconn] at hcc
    obtain ⟨j1, j2⟩ := h.conn c hcc
    rw [e_up, e_reg]
    refine ⟨?_, j2⟩
    by_cases hca : c = a
    · subst hca; rw [upd_same]; simp [j1]
    · rw [upd_other _ _ hca]; exact j1
  · intro c hcc
    rw [hconn] at hcc
    have hca : c ≠ a := fun e => by rw [e, hc] at hcc; cases hcc
    rw [e_up, upd_other _ _ hca, e_reg]
    exact h.disc c hcc
  · intro c m hm
    rw [e_up] at hm
    by_cases hca : c = a
    · subst hca
      rw [upd_same] at hm
      rcases List.mem_append.1 hm with h1 | h1
      · exact h.upSrc c m h1
      · rw [List.mem_singleton] at h1; cases h1; exact ⟨rfl, Ne.symm hab⟩
    · rw [upd_other _ _ hca] at hm; exact h.upSrc c m hm
  · intro c m hm; rw [e_down] at hm; exact h.downDst c m hm
  · intro c hcc
    rw [hconn] at hcc
    rw [e_part]
    by_cases hca : c = a
    · subst hca
      rw [upd_same]
      have l := h.loc c hc
      exact ⟨l.table, l.peers, l.fresh, l.nodup, l.left, l.named⟩
    · rw [upd_other _ _ hca]; exact h.loc c hcc
  · intro c d hcd hdc
    rw [hconn] at hdc
    have hold := h.ok c d hcd hdc
    by_cases hca : c = a
    · subst hca
      by_cases hdb : d = b
      · subst hdb
        have hs : sentTo n' c d = sentTo n c d ++ (datum x).toList := by
          unfold sentTo
          rw [e_part, upd_same]
          cases x <;> simp [datum]
        have : obs n' c d = { obs n c d with path := (obs n c d).path ++ [x], sent := (obs n c d).sent ++ (datum x).toList } := by
          unfold obs
          rw [htable, path_append_up (n := n) (m := ⟨c, d, x⟩) (by rw [e_up, upd_same]) (by rw [e_down]) rfl, e_reg, view_congr (htrace d), hs, e_pairs]
        rw [this]
        exact ok_post hold k2 (by simpa [obs] using hp) x hx
      · have hs : sentTo n' c d = sentTo n c d := by
          unfold sentTo
          rw [e_part, upd_same]
          cases x <;> simp [datum, Ne.symm hdb]
        have : obs n' c d = obs n c d := by
          unfold obs
          rw [htable, path_append_up_other (n := n) (m := ⟨c, b, x⟩) (by rw [e_up, upd_same]) (by rw [e_down]) (Ne.symm hdb), e_reg, view_congr (htrace d), hs, e_pairs]
        rw [this]
        exact hold
    · rw [obs_congr (n := n) (by rw [e_pairs]) (by rw [e_pairs]) (by rw [htable]) (path_congr (by rw [e_up, upd_other _ _ hca]) (by rw [e_down])) (by rw [e_reg]) (by rw [e_reg])
        (htrace d) (by rw [e_part, upd_other _ _ hca])]
      exact hold
  · intro c d hcd hdc hs
    rw [hconn] at hdc
    rw [e_reg, e_up]
    rw [e_spoke] at hs
    by_cases hca : c = a
    · subst hca
      rw [upd_same, List.filterMap_append]
      rcases List.mem_cons.1 hs with h1 | h1
      · cases h1
        right
        simp [msgTo]
      · rcases h.spoke c d hcd hdc h1 with h2 | h2
        · exact .inl h2
        · exact .inr (by simp [h2])
    · rw [upd_other _ _ hca]
      rcases List.mem_cons.1 hs with h1 | h1
      · cases h1; exact absurd rfl hca
      · exact h.spoke c d hcd hdc h1

/-- Who is known is connected. -/
theorem known_pair {n : Net} (h : Inv n) {a b : Nat} (hab : a ≠ b) (hc : (n.part a).connected = true) (hk : (n.part a).table b ≠ none) :
    (a, b) ∈ n.pairs ∨ (b, a) ∈ n.pairs := by
  have := h.ok b a (Ne.symm hab) hc
  cases this with
  | idle _ _ h3 => simp only [obs, decide_eq_false_iff_not] at h3; exact absurd hk h3
  | coming l t _ h3 => simp only [obs, decide_eq_false_iff_not] at h3; exact absurd hk h3
  | there l t r h1 => simp only [obs, decide_eq_true_eq] at h1; exact h1.symm
  | gone _ h3 => simp only [obs, decide_eq_false_iff_not] at h3; exact absurd hk h3

theorem inv_send {n : Net} (h : Inv n) (a b k : Nat) : Inv (send n a b k) := by
  unfold send
  split
  · rename_i hc
    have hab : a ≠ b := fun e => hc.2 (by rw [← e]; exact h.self a hc.1)
    exact inv_post h hc.1 hab (known_pair h hab hc.1 hc.2) (.data k) (by simp)
  · exact h

theorem inv_leave {n : Net} (h : Inv n) (a : Nat) (p : Part) (hp : p.sent = (n.part a).sent) (hd : p.connected = false) (hc : (n.part a).connected = true) :
    Inv { n with part := upd n.part a p, up := upd n.up a (n.up a ++ [.eof]) } := by
  obtain ⟨k1, k2⟩ := h.conn a hc
  generalize hn' : ({ n with part := upd n.part a p, up := upd n.up a (n.up a ++ [.eof]) } : Net) = n'
  have e_part : n'.part = upd n.part a p := by subst hn'; rfl
  have e_up : n'.up = upd n.up a (n.up a ++ [.eof]) := by subst hn'; rfl
  have e_down : n'.down = n.down := by subst hn'; rfl
  have e_reg : n'.reg = n.reg := by subst hn'; rfl
  have e_pairs : n'.pairs = n.pairs := by subst hn'; rfl
  have e_spoke : n'.spoke = n.spoke := by subst hn'; rfl
  have hother : ∀ c, (n'.part c).connected = true → c ≠ a := by
    intro c hcc e
    rw [e, e_part, upd_same, hd] at hcc
    cases hcc
  have hfilter : ∀ c d, (n'.up c).filterMap (msgTo d) = (n.up c).filterMap (msgTo d) := by
    intro c d
    rw [e_up]
    by_cases hca : c = a
    · subst hca; rw [upd_same, List.filterMap_append]; simp [msgTo]
    · rw [upd_other _ _ hca]
  have hsent : ∀ c, (n'.part c).sent = (n.part c).sent := by
    intro c; rw [e_part]; by_cases hca : c = a
    · subst hca; rw [upd_same, hp]
    · rw [upd_other _ _ hca]
  refine ⟨?_, ?_, ?_, ?_, ?_, ?_, ?_, by rw [e_reg]; exact h.noSelf, fun c hcc => by have hca := hother c hcc; rw [e_part, upd_other _ _ hca] at hcc ⊢; exact h.self c hcc⟩
  · intro c hcc
    have hca := hother c hcc
    rw [e_part, upd_other _ _ hca] at hcc
    rw [e_up, upd_other _ _ hca, e_reg]
    exact h.conn c hcc
  · intro c hcc
    by_cases hca : c = a
    · subst hca
      rw [e_up, upd_same, e_reg]
      exact .inl ⟨n.up c, rfl, k1, k2⟩
    · rw [e_part, upd_other _ _ hca] at hcc
      rw [e_up, upd_other _ _ hca, e_reg]
      exact h.disc c hcc
  · intro c m hm
    rw [e_up] at hm
    by_cases hca : c = a
    · subst hca
      rw [upd_same] at hm
      rcases List.mem_append.1 hm with h1 | h1
      · exact h.upSrc c m h1
      · rw [List.mem_singleton] at h1; cases h1
    · rw [upd_other _ _ hca] at hm; exact h.upSrc c m hm
  · intro c m hm; rw [e_down] at hm; exact h.downDst c m hm
  · intro c hcc
    have hca := hother c hcc
    rw [e_part, upd_other _ _ hca] at hcc ⊢
    exact h.loc c hcc
  · intro c d hcd hdc
    have hda := hother d hdc
    have hpart : n'.part d = n.part d := by rw [e_part, upd_other _ _ hda]
    rw [hpart] at hdc
    rw [obs_congr (n := n) (by rw [e_pairs]) (by rw [e_pairs]) (by rw [hpart]) (by unfold path; rw [hfilter, e_down]) (by rw [e_reg]) (by rw [e_reg]) (by rw [hpart]) (hsent c)]
    exact h.ok c d hcd hdc
  · intro c d hcd hdc hs
    have hda := hother d hdc
    rw [e_part, upd_other _ _ hda] at hdc
    rw [e_spoke] at hs
    rw [hfilter, e_reg]
    exact h.spoke c d hcd hdc hs

/-! ### Steps of the registry -/

theorem inv_relay {n : Net} (h : Inv n) (a : Nat) : Inv (regStep n a) := by
  unfold regStep
  cases hu : n.up a with
  | nil => exact h
  | cons x r =>
    have halive : n.reg.table a = true := by
      cases hc : (n.part a).connected with
      | true => exact (h.conn a hc).2
      | false =>
        rcases h.disc a hc with ⟨_, _, _, h1⟩ | ⟨h1, _⟩
        · exact h1
        · rw [hu] at h1; cases h1
    cases x with
    | msg m =>
      obtain ⟨hsrc, hdst⟩ := h.upSrc a m (by rw [hu]; simp)
      dsimp only
      unfold relay
      rw [if_pos hsrc]
      dsimp only
      have hdisc : ∀ n' : Net, n'.part = n.part → n'.up = upd n.up a r → n'.reg.table = n.reg.table →
          (∀ c, (n'.part c).connected = true → Up.eof ∉ n'.up c ∧ n'.reg.table c = true) ∧
          (∀ c, (n'.part c).connected = false → (∃ ms, n'.up c = ms ++ [.eof] ∧ Up.eof ∉ ms ∧ n'.reg.table c = true) ∨ (n'.up c = [] ∧ n'.reg.table c = false)) ∧
          (∀ c m, Up.msg m ∈ n'.up c → m.src = c ∧ m.dst ≠ c) := by
        intro n' e1 e2 e3
        refine ⟨fun c hc => ?_, fun c hc => ?_, fun c m' hm => ?_⟩
        · rw [e1] at hc
          obtain ⟨j1, j2⟩ := h.conn c hc
          rw [e2, e3]
          refine ⟨?_, j2⟩
          by_cases hca : c = a
          · subst hca
            rw [upd_same]
            rw [hu] at j1
            exact fun hh => j1 (by simp [hh])
          · rw [upd_other _ _ hca]; exact j1
        · rw [e1] at hc
          rw [e2, e3]
          by_cases hca : c = a
          · subst hca
            rw [upd_same]
            rcases h.disc c hc with ⟨ms, h1, h2, h3⟩ | ⟨h1, _⟩
            · rw [hu] at h1
              cases ms with
              | nil => cases h1
              | cons y ms =>
                obtain ⟨_, h4⟩ := List.cons.inj h1
                exact .inl ⟨ms, h4, fun hh => h2 (by simp [hh]), h3⟩
            · rw [hu] at h1; cases h1
          · rw [upd_other _ _ hca]; exact h.disc c hc
        · rw [e2] at hm
          by_cases hca : c = a
          · subst hca
            rw [upd_same] at hm
            exact h.upSrc c m' (by rw [hu]; simp [hm])
          · rw [upd_other _ _ hca] at hm; exact h.upSrc c m' hm
      by_cases ht : n.reg.table m.dst = true
      · rw [if_pos ht]
        generalize hn' : ({ n with up := upd n.up a r, down := upd n.down m.dst (n.down m.dst ++ [m]), reg := { n.reg with assoc := if (m.src, m.dst) ∈ n.reg.assoc then n.reg.assoc else n.reg.assoc ++ [(m.src, m.dst)] } } : Net) = n'
        have e_part : n'.part = n.part := by subst hn'; rfl
        have e_up : n'.up = upd n.up a r := by subst hn'; rfl
        have e_down : n'.down = upd n.down m.dst (n.down m.dst ++ [m]) := by subst hn'; rfl
        have e_tab : n'.reg.table = n.reg.table := by subst hn'; rfl
        have e_assoc : ∀ x, x ∈ n'.reg.assoc ↔ x ∈ n.reg.assoc ∨ x = (a, m.dst) := by
          subst hn'
          intro x
          dsimp only
          rw [hsrc]
          by_cases hx : (a, m.dst) ∈ n.reg.assoc
          · rw [if_pos hx]
            constructor
            · exact .inl
            · rintro (h1 | h1)
              · exact h1
              · rw [h1]; exact hx
          · rw [if_neg hx]; simp
        have e_pairs : n'.pairs = n.pairs := by subst hn'; rfl
        have e_spoke : n'.spoke = n.spoke := by subst hn'; rfl
        obtain ⟨g1, g2, g3⟩ := hdisc n' e_part e_up e_tab
        refine ⟨g1, g2, g3, ?_, ?_, ?_, ?_, fun c hc => ((e_assoc _).1 hc).elim (h.noSelf c) (fun e => hdst (by cases e; rfl)), by rw [e_part]; exact h.self⟩
        · intro c m' hm
          rw [e_down] at hm
          by_cases hc : c = m.dst
          · subst hc
            rw [upd_same] at hm
            rcases List.mem_append.1 hm with h1 | h1
            · exact h.downDst _ m' h1
            · rw [List.mem_singleton] at h1
              subst h1
              exact ⟨rfl, by rw [hsrc]; exact Ne.symm hdst⟩
          · rw [upd_other _ _ hc] at hm; exact h.downDst c m' hm
        · intro c hc; rw [e_part] at hc ⊢; exact h.loc c hc
        · intro c d hcd hdc
          rw [e_part] at hdc
          have hold := h.ok c d hcd hdc
          by_cases hca : c = a
          · subst hca
            by_cases hdb : d = m.dst
            · subst hdb
              have hpath : path n' c m.dst = path n c m.dst := by
                unfold path
                rw [e_up, upd_same, e_down, upd_same, hu, List.filter_append, List.map_append, List.append_assoc]
                simp [hsrc, msgTo]
              have hne : path n c m.dst ≠ [] := by
                unfold path
                rw [hu]
                simp [msgTo]
              have : obs n' c m.dst = { obs n c m.dst with assoc := true } := by
                unfold obs
                rw [hpath, e_part, e_tab, view_congr (n' := n') (n := n) (by rw [e_part]), sentTo_congr (n' := n') (n := n) (by rw [e_part]), e_pairs]
                simp [e_assoc]
              rw [this]
              exact ok_relay hold halive hne
            · have hpath : path n' c d = path n c d := by
                unfold path
                rw [e_up, upd_same, e_down, upd_other _ _ hdb, hu]
                simp [msgTo, Ne.symm hdb]
              rw [obs_congr (n := n) (by rw [e_pairs]) (by rw [e_pairs]) (by rw [e_part]) hpath (by rw [e_tab]) (by rw [e_assoc]; simp [hdb]) (by rw [e_part]) (by rw [e_part])]
              exact hold
          · have hpath : path n' c d = path n c d := by
              unfold path
              rw [e_up, upd_other _ _ hca, e_down]
              by_cases hdb : d = m.dst
              · subst hdb
                rw [upd_same, List.filter_append]
                have : m.src ≠ c := by rw [hsrc]; exact Ne.symm hca
                simp [this]
              · rw [upd_other _ _ hdb]
            rw [obs_congr (n := n) (by rw [e_pairs]) (by rw [e_pairs]) (by rw [e_part]) hpath (by rw [e_tab]) (by rw [e_assoc]; simp [hca]) (by rw [e_part]) (by rw [e_part])]
            exact hold
        · intro c d hcd hdc hs
          rw [e_part] at hdc
          rw [e_spoke] at hs
          rcases h.spoke c d hcd hdc hs with h1 | h1
          · exact .inl ((e_assoc _).2 (.inl h1))
          · by_cases hca : c = a
            · subst hca
              by_cases hdb : d = m.dst
              · exact .inl ((e_assoc _).2 (.inr (by rw [hdb])))
              · right
                rw [e_up, upd_same]
                rw [hu] at h1
                simpa [msgTo, Ne.symm hdb] using h1
            · right
              rw [e_up, upd_other _ _ hca]
              exact h1
      · rw [if_neg ht]
        have hnc : ∀ d, (n.part d).connected = true → d ≠ m.dst := fun d hd e => ht (by rw [← e]; exact (h.conn d hd).2)
        generalize hn' : ({ n with up := upd n.up a r } : Net) = n'
        have e_part : n'.part = n.part := by subst hn'; rfl
        have e_up : n'.up = upd n.up a r := by subst hn'; rfl
        have e_down : n'.down = n.down := by subst hn'; rfl
        have e_reg : n'.reg = n.reg := by subst hn'; rfl
        have e_pairs : n'.pairs = n.pairs := by subst hn'; rfl
        have e_spoke : n'.spoke = n.spoke := by subst hn'; rfl
        obtain ⟨g1, g2, g3⟩ := hdisc n' e_part e_up (by rw [e_reg])
        have hf : ∀ c d, (n.part d).connected = true → (n'.up c).filterMap (msgTo d) = (n.up c).filterMap (msgTo d) := by
          intro c d hd
          rw [e_up]
          by_cases hca : c = a
          · subst hca
            rw [upd_same, hu]
            simp [msgTo, Ne.symm (hnc d hd)]
          · rw [upd_other _ _ hca]
        refine ⟨g1, g2, g3, ?_, ?_, ?_, ?_, by rw [e_reg]; exact h.noSelf, by rw [e_part]; exact h.self⟩
        · intro c m' hm; rw [e_down] at hm; exact h.downDst c m' hm
        · intro c hc; rw [e_part] at hc ⊢; exact h.loc c hc
        · intro c d hcd hdc
          rw [e_part] at hdc
          rw [obs_congr (n := n) (by rw [e_pairs]) (by rw [e_pairs]) (by rw [e_part]) (by unfold path; rw [hf c d hdc, e_down]) (by rw [e_reg]) (by rw [e_reg]) (by rw [e_part]) (by rw [e_part])]
          exact h.ok c d hcd hdc
        · intro c d hcd hdc hs
          rw [e_part] at hdc
          rw [e_spoke] at hs
          rw [hf c d hdc, e_reg]
          exact h.spoke c d hcd hdc hs
    | eof =>
      have hdisc : (n.part a).connected = false := by
        cases hc : (n.part a).connected with
        | false => rfl
        | true => exact absurd (by rw [hu]; simp) (h.conn a hc).1
      have hr : r = [] := by
        rcases h.disc a hdisc with ⟨ms, h1, h2, _⟩ | ⟨h1, _⟩
        · rw [hu] at h1
          cases ms with
          | nil => exact (List.cons.inj h1).2
          | cons y ms => exact absurd (by rw [← (List.cons.inj h1).1]; simp) h2
        · rw [hu] at h1; cases h1
      subst hr
      dsimp only
      generalize hn' : relayEof { n with up := upd n.up a [] } a = n'
      have e_part : n'.part = n.part := by subst hn'; rfl
      have e_up : n'.up = upd n.up a [] := by subst hn'; rfl
      have e_down : n'.down = fun d => if (a, d) ∈ n.reg.assoc ∧ n.reg.table d = true then n.down d ++ [⟨a, d, .shutdown⟩] else n.down d := by subst hn'; rfl
      have e_tab : n'.reg.table = upd n.reg.table a false := by subst hn'; rfl
      have e_assoc : n'.reg.assoc = n.reg.assoc := by subst hn'; rfl
      have e_pairs : n'.pairs = n.pairs := by subst hn'; rfl
      have e_spoke : n'.spoke = n.spoke := by subst hn'; rfl
      have hca' : ∀ c, (n.part c).connected = true → c ≠ a := fun c hc e => by rw [e, hdisc] at hc; cases hc
      refine ⟨?_, ?_, ?_, ?_, ?_, ?_, ?_, by rw [e_assoc]; exact h.noSelf, by rw [e_part]; exact h.self⟩
      · intro c hc
        rw [e_part] at hc
        rw [e_up, e_tab, upd_other _ _ (hca' c hc), upd_other _ _ (hca' c hc)]
        exact h.conn c hc
      · intro c hc
        rw [e_part] at hc
        rw [e_up, e_tab]
        by_cases hca : c = a
        · subst hca; rw [upd_same, upd_same]; exact .inr ⟨rfl, rfl⟩
        · rw [upd_other _ _ hca, upd_other _ _ hca]; exact h.disc c hc
      · intro c m hm
        rw [e_up] at hm
        by_cases hca : c = a
        · subst hca; rw [upd_same] at hm; cases hm
        · rw [upd_other _ _ hca] at hm; exact h.upSrc c m hm
      · intro c m hm
        rw [e_down] at hm
        dsimp only at hm
        split at hm
        · rename_i hx
          rcases List.mem_append.1 hm with h1 | h1
          · exact h.downDst c m h1
          · rw [List.mem_singleton] at h1
            subst h1
            refine ⟨rfl, fun e => ?_⟩
            dsimp only at e
            subst e
            exact absurd hx.1 (h.noSelf a)
        · exact h.downDst c m hm
      · intro c hc; rw [e_part] at hc ⊢; exact h.loc c hc
      · intro c d hcd hdc
        rw [e_part] at hdc
        have hold := h.ok c d hcd hdc
        have htd : n.reg.table d = true := (h.conn d hdc).2
        by_cases hca : c = a
        · subst hca
          have hpath : path n' c d = if (obs n c d).assoc then path n c d ++ [.shutdown] else path n c d := by
            unfold path
            rw [e_up, upd_same, e_down, hu]
            simp only [obs, htd, and_true]
            by_cases hx : (c, d) ∈ n.reg.assoc
            · simp [hx, msgTo]
            · simp [hx, msgTo]
          have : obs n' c d = { obs n c d with alive := false, path := if (obs n c d).assoc then (obs n c d).path ++ [.shutdown] else (obs n c d).path } := by
            show obs n' c d = { obs n c d with alive := false, path := if (obs n c d).assoc then path n c d ++ [.shutdown] else path n c d }
            rw [← hpath]
            unfold obs
            rw [e_part, e_tab, upd_same, e_assoc, view_congr (n' := n') (n := n) (by rw [e_part]), sentTo_congr (n' := n') (n := n) (by rw [e_part]), e_pairs]
          rw [this]
          exact ok_eof hold halive
        · have hpath : path n' c d = path n c d := by
            unfold path
            rw [e_up, upd_other _ _ hca, e_down]
            dsimp only
            split
            · rw [List.filter_append]; simp [Ne.symm hca]
            · rfl
          rw [obs_congr (n := n) (by rw [e_pairs]) (by rw [e_pairs]) (by rw [e_part]) hpath (by rw [e_tab, upd_other _ _ hca]) (by rw [e_assoc]) (by rw [e_part]) (by rw [e_part])]
          exact hold
      · intro c d hcd hdc hs
        rw [e_part] at hdc
        rw [e_spoke] at hs
        rw [e_assoc, e_up]
        rcases h.spoke c d hcd hdc hs with h1 | h1
        · exact .inl h1
        · by_cases hca : c = a
          · subst hca
            rw [hu] at h1
            simp [msgTo] at h1
          · rw [upd_other _ _ hca]; exact .inr h1

/-! ### Steps of a participant that reads -/

theorem inv_recv {n : Net} (h : Inv n) {b : Nat} (hc : (n.part b).connected = true) {m : Msg} {r : List Msg} (hd : n.down b = m :: r) {p : Part} (hl : Local p)
    (hcon : p.connected = true) (hsent : p.sent = (n.part b).sent) (ht : ∀ c, c ≠ m.src → p.table c = (n.part b).table c)
    (hv : ∀ c, c ≠ m.src → p.trace.filter (about c) = (n.part b).trace.filter (about c))
    (hok : ∀ rest, path n m.src b = m.payload :: rest →
      Ok m.src { obs n m.src b with path := rest, known := decide (p.table m.src ≠ none), view := p.trace.filter (about m.src) }) :
    Inv { n with part := upd n.part b p, down := upd n.down b r } := by
  obtain ⟨hdst, hsb⟩ := h.downDst b m (by rw [hd]; simp)
  generalize hn' : ({ n with part := upd n.part b p, down := upd n.down b r } : Net) = n'
  have e_part : n'.part = upd n.part b p := by subst hn'; rfl
  have e_up : n'.up = n.up := by subst hn'; rfl
  have e_down : n'.down = upd n.down b r := by subst hn'; rfl
  have e_reg : n'.reg = n.reg := by subst hn'; rfl
  have e_pairs : n'.pairs = n.pairs := by subst hn'; rfl
  have e_spoke : n'.spoke = n.spoke := by subst hn'; rfl
  have hconn : ∀ c, (n'.part c).connected = (n.part c).connected := by
    intro c; rw [e_part]; by_cases hcb : c = b
    · subst hcb; rw [upd_same, hcon, hc]
    · rw [upd_other _ _ hcb]
  have hs' : ∀ c, (n'.part c).sent = (n.part c).sent := by
    intro c; rw [e_part]; by_cases hcb : c = b
    · subst hcb; rw [upd_same, hsent]
    · rw [upd_other _ _ hcb]
  refine ⟨?_, ?_, ?_, ?_, ?_, ?_, ?_, by rw [e_reg]; exact h.noSelf, ?_⟩
  · intro c hcc; rw [hconn] at hcc; rw [e_up, e_reg]; exact h.conn c hcc
  · intro c hcc; rw [hconn] at hcc; rw [e_up, e_reg]; exact h.disc c hcc
  · intro c m' hm; rw [e_up] at hm; exact h.upSrc c m' hm
  · intro c m' hm
    rw [e_down] at hm
    by_cases hcb : c = b
    · subst hcb; rw [upd_same] at hm; exact h.downDst c m' (by rw [hd]; simp [hm])
    · rw [upd_other _ _ hcb] at hm; exact h.downDst c m' hm
  · intro c hcc
    rw [hconn] at hcc
    rw [e_part]
    by_cases hcb : c = b
    · subst hcb; rw [upd_same]; exact hl
    · rw [upd_other _ _ hcb]; exact h.loc c hcc
  · intro c d hcd hdc
    rw [hconn] at hdc
    have hold := h.ok c d hcd hdc
    by_cases hdb : d = b
    · subst hdb
      by_cases hcs : c = m.src
      · subst hcs
        have hpath : path n m.src d = m.payload :: path n' m.src d := by
          unfold path
          rw [e_up, e_down, upd_same, hd]
          simp
        have : obs n' m.src d = { obs n m.src d with path := path n' m.src d, known := decide (p.table m.src ≠ none), view := p.trace.filter (about m.src) } := by
          unfold obs
          rw [e_part, upd_same, e_reg, sentTo_congr (n' := n') (n := n) (hs' _), e_pairs]
          unfold view
          rw [e_part, upd_same]
        rw [this]
        exact hok _ hpath
      · have hpath : path n' c d = path n c d := by
          unfold path
          rw [e_up, e_down, upd_same, hd]
          simp [Ne.symm hcs]
        have : obs n' c d = obs n c d := by
          unfold obs
          rw [e_part, upd_same, ht c hcs, hpath, e_reg, sentTo_congr (n' := n') (n := n) (hs' _), e_pairs]
          unfold view
          rw [e_part, upd_same, hv c hcs]
        rw [this]
        exact hold
    · rw [obs_congr (n := n) (by rw [e_pairs]) (by rw [e_pairs]) (by rw [e_part, upd_other _ _ hdb]) (path_congr (by rw [e_up]) (by rw [e_down, upd_other _ _ hdb])) (by rw [e_reg]) (by rw [e_reg])
        (by rw [e_part, upd_other _ _ hdb]) (hs' c)]
      exact hold
  · intro c d hcd hdc hs
    rw [hconn] at hdc
    rw [e_spoke] at hs
    rw [e_reg, e_up]
    exact h.spoke c d hcd hdc hs
  · intro c hcc
    rw [hconn] at hcc
    rw [e_part]
    by_cases hcb : c = b
    · subst hcb; rw [upd_same, ht c (Ne.symm hsb)]; exact h.self c hc
    · rw [upd_other _ _ hcb]; exact h.self c hcc

theorem path_head {n : Net} {b : Nat} {m : Msg} {r : List Msg} (hd : n.down b = m :: r) : ∃ rest, path n m.src b = m.payload :: rest := by
  unfold path
  rw [hd]
  refine ⟨(r.filter (fun x => decide (x.src = m.src))).map (·.payload) ++ (n.up m.src).filterMap (msgTo b), ?_⟩
  simp

/-- A participant that reads never uses a destroyed peer. -/
theorem inv_partStep {n : Net} (h : Inv n) (b : Nat) : ∃ n', partStep n b = .ok n' ∧ Inv n' := by
  unfold partStep
  split
  · rename_i hc
    cases hd : n.down b with
    | nil => exact ⟨n, rfl, h⟩
    | cons m r =>
      dsimp only
      obtain ⟨hdst, hsb⟩ := h.downDst b m (by rw [hd]; simp)
      have hok := h.ok m.src b hsb hc
      have hl := h.loc b hc
      obtain ⟨rest, hrest⟩ := path_head hd
      unfold receive
      rw [if_neg (fun e => e hdst)]
      have known : (obs n m.src b).known = true → ∃ id, (n.part b).table m.src = some id := by
        intro hk
        simp only [obs, decide_eq_true_eq] at hk
        exact Option.ne_none_iff_exists'.1 hk
      have hpf : ∀ id, (n.part b).table m.src = some id → peerFor (n.part b) m.src = (n.part b, id) := by
        intro id hid; unfold peerFor; rw [hid]
      have traffic : ∀ x, m.payload = x → x ≠ .announce → x ≠ .shutdown → ∃ n', ((onData b (peerFor (n.part b) m.src).1 (peerFor (n.part b) m.src).2 m).bind fun s =>
          .ok (s.2.foldl (fun n' m' => post n' b m') { n with part := upd n.part b s.1, down := upd n.down b r })) = .ok n' ∧ Inv n' := by
        intro x hx hx1 hx2
        obtain ⟨hk, hok'⟩ := ok_recv_traffic hok hrest (by rw [hx]; exact ⟨hx1, hx2⟩)
        obtain ⟨id, hid⟩ := known hk
        rw [hpf id hid]
        have hp := hl.table _ _ hid
        have hon : onData b (n.part b) id m = .ok ({ n.part b with trace := (n.part b).trace ++ (datum x).toList.map (.received (some m.src)) }, []) := by
          unfold onData
          rw [hp]
          dsimp only
          rw [hx]
          cases x with
          | announce => exact absurd rfl hx1
          | shutdown => exact absurd rfl hx2
          | reply => simp [datum]
          | data k => simp [datum]
        rw [hon]
        refine ⟨_, rfl, ?_⟩
        refine inv_recv h hc hd ⟨hl.table, hl.peers, hl.fresh, hl.nodup, ?_, ?_⟩ hc rfl (fun _ _ => rfl) (fun c hcs => ?_) (fun rest' hr' => ?_)
        · dsimp only
          rw [hl.left]
          constructor
          · rintro ⟨nm, h1⟩; exact ⟨nm, by simp [h1]⟩
          · rintro ⟨nm, h1⟩
            refine ⟨nm, ?_⟩
            rcases List.mem_append.1 h1 with h2 | h2
            · exact h2
            · simp at h2
        · intro e he
          rcases List.mem_append.1 he with h1 | h1
          · exact hl.named e h1
          · obtain ⟨k, _, rfl⟩ := List.mem_map.1 h1
            exact ⟨m.src, by simp [about]⟩
        · dsimp only
          rw [List.filter_append]
          cases x <;> simp [datum, about, Ne.symm hcs]
        · rw [hrest] at hr'
          obtain ⟨_, rfl⟩ := List.cons.inj hr'
          have hvw : ({ n.part b with trace := (n.part b).trace ++ (datum x).toList.map (.received (some m.src)) } : Part).trace.filter (about m.src)
              = (obs n m.src b).view ++ (datum m.payload).toList.map (.received (some m.src)) := by
            dsimp only
            rw [List.filter_append, hx]
            unfold obs view
            congr 1
            cases x <;> simp [datum, about]
          rw [hvw]
          have hkn : decide ((n.part b).table m.src ≠ none) = (obs n m.src b).known := rfl
          dsimp only
          rw [hkn]
          exact hok'
      cases hpl : m.payload with
      | shutdown =>
        rw [if_pos rfl]
        rw [hpl] at hrest
        obtain ⟨hk, hok'⟩ := ok_recv_shutdown hok hrest
        obtain ⟨id, hid⟩ := known hk
        rw [hpf id hid]
        obtain ⟨p', hp1, hp2, hp3⟩ := local_shutdown hl hid
        dsimp only
        rw [hp1]
        refine ⟨_, rfl, ?_⟩
        refine inv_recv h hc hd hp3 (by rw [hp2]; exact hc) (by rw [hp2]) (fun c hcs => by rw [hp2]; exact upd_other _ _ hcs) (fun c hcs => ?_) (fun rest' hr' => ?_)
        · rw [hp2]
          dsimp only
          rw [List.filter_append]
          simp [about, Ne.symm hcs]
        · rw [hpl, hrest] at hr'
          obtain ⟨_, rfl⟩ := List.cons.inj hr'
          have hvw : p'.trace.filter (about m.src) = (obs n m.src b).view ++ [.left (some m.src)] := by
            rw [hp2]
            dsimp only
            rw [List.filter_append]
            unfold obs view
            simp [about]
          have hkn : decide (p'.table m.src ≠ none) = false := by
            simp [hp2, upd_same]
          rw [hvw, hkn]
          exact hok'
      | announce =>
        rw [if_neg (fun e => by cases e)]
        rw [hpl] at hrest
        obtain ⟨hk, hini, hview, hok'⟩ := ok_recv_announce hok hrest
        have hnone : (n.part b).table m.src = none := by simpa [obs] using hk
        have hpn : peerFor (n.part b) m.src = (addPeer (n.part b) none, (n.part b).next) := by unfold peerFor; rw [hnone]
        rw [hpn]
        dsimp only
        rw [local_announce hnone hpl rfl]
        refine ⟨_, rfl, ?_⟩
        have htab : (addPeer (associate (n.part b) m.src (n.part b).next) (some m.src)).table = upd (n.part b).table m.src (some (n.part b).next) := by
          unfold addPeer associate
          rw [if_pos hnone]
        have h1 : Inv { n with part := upd n.part b (addPeer (associate (n.part b) m.src (n.part b).next) (some m.src)), down := upd n.down b r } := by
          refine inv_recv h hc hd (local_add hl _ hnone) hc rfl (fun c hcs => by rw [htab]; exact upd_other _ _ hcs) (fun c hcs => rfl) (fun rest' hr' => ?_)
          rw [hpl, hrest] at hr'
          obtain ⟨_, rfl⟩ := List.cons.inj hr'
          have hkn : decide ((addPeer (associate (n.part b) m.src (n.part b).next) (some m.src)).table m.src ≠ none) = true := by
            rw [htab, upd_same]
            simp
          rw [hkn]
          exact hok'
        have hp : (b, m.src) ∈ n.pairs ∨ (m.src, b) ∈ n.pairs := by
          simp only [obs, decide_eq_true_eq] at hini
          exact .inr hini
        have h2 := inv_post h1 (a := b) (b := m.src) (by dsimp only; rw [upd_same]; exact hc) (Ne.symm hsb) hp .reply (by simp)
        refine Eq.mp (congrArg Inv ?_) h2
        simp only [List.foldl, post, datum, Option.toList_none, List.map_nil, List.append_nil]
        congr 1
        funext j
        by_cases hj : j = b
        · subst hj; rw [upd_same, upd_same]
        · rw [upd_other _ _ hj]
      | reply => rw [if_neg (fun e => by cases e)]; exact traffic _ hpl (by simp) (by simp)
      | data k => rw [if_neg (fun e => by cases e)]; exact traffic _ hpl (by simp) (by simp)
  · exact ⟨n, rfl, h⟩

/-! ### The loss of the registry -/

/-- All of them are there: they are shut down one after the other. -/
theorem shutdownPeers_ok (p : Part) (ids : List Nat) (hn : ids.Nodup) (hids : ∀ id ∈ ids, p.peers id ≠ none) :
    ∃ p', shutdownPeers p ids = .ok p' ∧ p'.trace = p.trace ++ ids.filterMap (fun id => (p.peers id).map (fun pr => Event.left pr.name)) ∧ p'.sent = p.sent := by
  induction ids generalizing p with
  | nil => exact ⟨p, rfl, by simp, rfl⟩
  | cons id ids ih =>
    obtain ⟨pr, hpr⟩ := Option.ne_none_iff_exists'.1 (hids id (by simp))
    obtain ⟨hid, hn'⟩ := List.nodup_cons.1 hn
    unfold shutdownPeers shutdownPeer
    rw [hpr]
    generalize hp' : ({ p with trace := p.trace ++ [.left pr.name], table := match pr.name with | none => p.table | some a => upd p.table a none, peers := upd p.peers id none } : Part) = p'
    have e_peers : ∀ i ∈ ids, p'.peers i = p.peers i := by
      intro i hi
      subst hp'
      exact upd_other _ _ (fun e => hid (by rw [← e]; exact hi))
    obtain ⟨q, h1, h2, h3⟩ := ih p' hn' (fun i hi => by rw [e_peers i hi]; exact hids i (by simp [hi]))
    refine ⟨q, ?_, ?_, ?_⟩
    · rw [← hp'] at h1; exact h1
    · rw [h2, List.filterMap_cons, hpr]
      have : ids.filterMap (fun id => (p'.peers id).map (fun pr => Event.left pr.name)) = ids.filterMap (fun id => (p.peers id).map (fun pr => Event.left pr.name)) := by
        have key : ∀ l : List Nat, (∀ i ∈ l, p'.peers i = p.peers i) →
            l.filterMap (fun id => (p'.peers id).map (fun pr => Event.left pr.name)) = l.filterMap (fun id => (p.peers id).map (fun pr => Event.left pr.name)) := by
          intro l
          induction l with
          | nil => intro _; rfl
          | cons i l ihl =>
            intro hh
            rw [List.filterMap_cons, List.filterMap_cons, hh i (by simp), ihl (fun j hj => hh j (by simp [hj]))]
        exact key ids e_peers
      rw [this]
      subst hp'
      simp
    · rw [h3]; subst hp'; rfl

/-- One of them was destroyed: it is used. -/
theorem shutdownPeers_ub (p : Part) (ids : List Nat) (h : ∃ id ∈ ids, p.peers id = none) : ∃ w, shutdownPeers p ids = .ub w := by
  induction ids generalizing p with
  | nil => obtain ⟨id, h1, _⟩ := h; cases h1
  | cons id ids ih =>
    unfold shutdownPeers shutdownPeer
    cases hpr : p.peers id with
    | none => exact ⟨_, rfl⟩
    | some pr =>
      dsimp only [Res.bind]
      apply ih
      obtain ⟨i, h1, h2⟩ := h
      rcases List.mem_cons.1 h1 with h3 | h3
      · subst h3; rw [hpr] at h2; cases h2
      · refine ⟨i, h3, ?_⟩
        dsimp only
        by_cases hi : i = id
        · subst hi; exact upd_same _ _ _
        · rw [upd_other _ _ hi]; exact h2

theorem loseRegistry_ok {n : Net} (h : Inv n) {b : Nat} (hc : (n.part b).connected = true) (hleft : ∀ nm, Event.left nm ∉ (n.part b).trace) :
    ∃ p, loseRegistry n b = .ok { n with part := upd n.part b p, up := upd n.up b (n.up b ++ [.eof]) } ∧ p.connected = false ∧ p.sent = (n.part b).sent ∧
      p.trace = (n.part b).trace ++ (n.part b).proxied.filterMap (fun id => ((n.part b).peers id).map (fun pr => Event.left pr.name)) := by
  have hl := h.loc b hc
  obtain ⟨p, h1, h2, h3⟩ := shutdownPeers_ok (n.part b) (n.part b).proxied hl.nodup (fun id hid he => by
    obtain ⟨nm, h4⟩ := hl.left.1 ⟨id, hid, he⟩
    exact hleft nm h4)
  refine ⟨{ p with proxied := [], connected := false }, ?_, rfl, h3, h2⟩
  unfold loseRegistry
  rw [if_pos hc, h1]
  rfl

theorem loseRegistry_ub {n : Net} (h : Inv n) {b : Nat} (hc : (n.part b).connected = true) (hleft : ∃ nm, Event.left nm ∈ (n.part b).trace) :
    ∃ w, loseRegistry n b = .ub w := by
  obtain ⟨w, hw⟩ := shutdownPeers_ub (n.part b) (n.part b).proxied ((h.loc b hc).left.2 hleft)
  refine ⟨w, ?_⟩
  unfold loseRegistry
  rw [if_pos hc, hw]
  rfl

theorem inv_step {n n' : Net} (h : Inv n) {o : Op} (hs : step n o = .ok n') : Inv n' := by
  cases o with
  | connect a b => cases hs; exact inv_connect h a b
  | send a b k => cases hs; exact inv_send h a b k
  | leave a =>
    cases hs
    unfold leave
    split
    · rename_i hc; exact inv_leave h a _ rfl rfl hc
    · exact h
  | loseRegistry b =>
    change loseRegistry n b = .ok n' at hs
    cases hc : (n.part b).connected with
    | false => unfold loseRegistry at hs; rw [if_neg (by simp [hc])] at hs; cases hs; exact h
    | true =>
      by_cases hleft : ∃ nm, Event.left nm ∈ (n.part b).trace
      · obtain ⟨w, hw⟩ := loseRegistry_ub h hc hleft
        rw [hw] at hs; cases hs
      · obtain ⟨p, h1, h2, h3, _⟩ := loseRegistry_ok h hc (fun nm hm => hleft ⟨nm, hm⟩)
        rw [h1] at hs
        cases hs
        exact inv_leave h b p h3 h2 hc
  | regStep a => cases hs; exact inv_relay h a
  | partStep b =>
    change partStep n b = .ok n' at hs
    obtain ⟨n'', h1, h2⟩ := inv_partStep h b
    rw [h1] at hs
    cases hs
    exact h2

theorem inv_run {n n' : Net} (h : Inv n) {os : List Op} (hs : run n os = .ok n') : Inv n' := by
  induction os generalizing n with
  | nil => cases hs; exact h
  | cons o os ih =>
    unfold run at hs
    cases hso : step n o with
    | ok n1 => rw [hso] at hs; exact ih (inv_step h hso) hs
    | throw w => rw [hso] at hs; cases hs
    | ub w => rw [hso] at hs; cases hs

theorem run_append (n : Net) (xs ys : List Op) : run n (xs ++ ys) = (run n xs).bind fun n' => run n' ys := by
  induction xs generalizing n with
  | nil => rfl
  | cons o xs ih =>
    show (step n o).bind (fun n' => run n' (xs ++ ys)) = ((step n o).bind fun n' => run n' xs).bind fun n' => run n' ys
    cases step n o with
    | ok n1 => exact ih n1
    | throw w => rfl
    | ub w => rfl

theorem step_cases {n : Net} (h : Inv n) (o : Op) : (∃ n', step n o = .ok n') ∨
    ((∃ w, step n o = .ub w) ∧ ∃ b, o = .loseRegistry b ∧ (n.part b).connected = true ∧ ∃ nm, Event.left nm ∈ (n.part b).trace) := by
  cases o with
  | connect a b => exact .inl ⟨_, rfl⟩
  | send a b k => exact .inl ⟨_, rfl⟩
  | leave a => exact .inl ⟨_, rfl⟩
  | regStep a => exact .inl ⟨_, rfl⟩
  | partStep b => obtain ⟨n', h1, _⟩ := inv_partStep h b; exact .inl ⟨n', h1⟩
  | loseRegistry b =>
    cases hc : (n.part b).connected with
    | false => left; refine ⟨n, ?_⟩; show loseRegistry n b = _; unfold loseRegistry; rw [if_neg (by simp [hc])]
    | true =>
      by_cases hleft : ∃ nm, Event.left nm ∈ (n.part b).trace
      · exact .inr ⟨loseRegistry_ub h hc hleft, b, rfl, hc, hleft⟩
      · obtain ⟨p, h1, _⟩ := loseRegistry_ok h hc (fun nm hm => hleft ⟨nm, hm⟩)
        exact .inl ⟨_, h1⟩

theorem run_cases {n : Net} (h : Inv n) (os : List Op) : (∃ n', run n os = .ok n') ∨
    ((∃ w, run n os = .ub w) ∧ ∃ pre b post n', os = pre ++ .loseRegistry b :: post ∧ run n pre = .ok n' ∧ (n'.part b).connected = true ∧
      ∃ nm, Event.left nm ∈ (n'.part b).trace) := by
  induction os generalizing n with
  | nil => exact .inl ⟨n, rfl⟩
  | cons o os ih =>
    rcases step_cases h o with ⟨n1, h1⟩ | ⟨⟨w, h1⟩, b, rfl, h2, h3⟩
    · have hb : ∀ xs, run n (o :: xs) = run n1 xs := by
        intro xs
        show (step n o).bind _ = _
        rw [h1]
        rfl
      rcases ih (inv_step h h1) with ⟨n', h4⟩ | ⟨⟨w, h4⟩, pre, b, post, n', h5, h6, h7, h8⟩
      · exact .inl ⟨n', by rw [hb]; exact h4⟩
      · exact .inr ⟨⟨w, by rw [hb]; exact h4⟩, o :: pre, b, post, n', by rw [h5]; rfl, by rw [hb]; exact h6, h7, h8⟩
    · refine .inr ⟨⟨w, ?_⟩, [], b, os, n, rfl, rfl, h2, h3⟩
      show (step n _).bind _ = _
      rw [h1]
      rfl

/-- The phase says what is observed. -/
theorem ok_view {a : Nat} {o : Obs} (h : Ok a o) :
    (∃ r, r <+: o.sent ∧ o.view = r.map (.received (some a))) ∨ (o.alive = false ∧ o.view = o.sent.map (.received (some a)) ++ [.left (some a)]) := by
  cases h with
  | idle h1 h2 h3 h4 h5 h6 h7 => exact .inl ⟨[], List.nil_prefix, by simp [h6]⟩
  | coming l t h1 h2 h3 h4 h5 h6 h7 => exact .inl ⟨[], List.nil_prefix, by simp [h6]⟩
  | there l t r h1 h2 h3 h4 h5 h6 h7 => exact .inl ⟨r, by rw [h7]; exact List.prefix_append _ _, h6⟩
  | gone h0 h1 h2 h3 h4 => exact .inr ⟨h3, h4⟩

theorem ok_quiet {a : Nat} {o : Obs} (h : Ok a o) (hp : o.path = []) :
    (o.view = o.sent.map (.received (some a)) ∧ (o.alive = true ∨ o.assoc = false)) ∨ (o.alive = false ∧ o.view = o.sent.map (.received (some a)) ++ [.left (some a)]) := by
  cases h with
  | idle h1 h2 h3 h4 h5 h6 h7 => exact .inl ⟨by rw [h6, h7]; rfl, .inr h5⟩
  | coming l t h1 h2 h3 => rw [h3] at hp; cases hp
  | there l t r h1 h2 h3 h4 h5 h6 h7 =>
    rw [h3] at hp
    obtain ⟨hl, ht⟩ := List.append_eq_nil_iff.1 hp
    subst hl ht
    left
    refine ⟨by rw [h6, h7]; simp, ?_⟩
    rcases h5 with ⟨_, h8⟩ | ⟨h8, _⟩
    · exact h8
    · cases h8
  | gone h0 h1 h2 h3 h4 => exact .inr ⟨h3, h4⟩

theorem obs_dead {n : Net} (h : Inv n) {a : Nat} (ha : n.reg.table a = false) : (n.part a).connected = false := by
  cases hc : (n.part a).connected with
  | false => rfl
  | true => rw [(h.conn a hc).2] at ha; cases ha

/-! ### Who knows somebody wrote to it -/

def Known (n : Net) : Prop := ∀ a b, (n.part a).table b ≠ none → (a, b) ∈ n.spoke

theorem associate_table {p : Part} {x id c : Nat} (h : (associate p x id).table c ≠ none) : p.table c ≠ none ∨ c = x := by
  unfold associate at h
  dsimp only at h
  split at h
  · by_cases hc : c = x
    · exact .inr hc
    · rw [upd_other _ _ hc] at h; exact .inl h
  · exact .inl h

theorem shutdownPeer_table {p p' : Part} {id : Nat} (h : shutdownPeer p id = .ok p') {c : Nat} (hc : p'.table c ≠ none) : p.table c ≠ none := by
  unfold shutdownPeer at h
  cases hp : p.peers id with
  | none => rw [hp] at h; cases h
  | some pr =>
    rw [hp] at h
    cases h
    obtain ⟨nm⟩ := pr
    cases nm with
    | none => exact hc
    | some a =>
      dsimp only at hc
      by_cases hca : c = a
      · subst hca; rw [upd_same] at hc; exact absurd rfl hc
      · rwa [upd_other _ _ hca] at hc

theorem shutdownPeers_table {ids : List Nat} {p p' : Part} (h : shutdownPeers p ids = .ok p') {c : Nat} (hc : p'.table c ≠ none) : p.table c ≠ none := by
  induction ids generalizing p with
  | nil => cases h; exact hc
  | cons id ids ih =>
    unfold shutdownPeers at h
    cases hs : shutdownPeer p id with
    | ok p1 => rw [hs] at h; exact shutdownPeer_table hs (ih h)
    | throw w => rw [hs] at h; cases h
    | ub w => rw [hs] at h; cases h

theorem peerFor_table (p : Part) (s : Nat) : (peerFor p s).1.table = p.table := by
  unfold peerFor
  split <;> rfl

theorem receive_table {q : Nat} {p : Part} {m : Msg} {s : Part × List Msg} (h : receive q p m = .ok s) {c : Nat} (hc : s.1.table c ≠ none) :
    p.table c ≠ none ∨ ∃ x ∈ s.2, x.dst = c := by
  unfold receive at h
  split at h
  · cases h; exact .inl hc
  · split at h
    · cases hs : shutdownPeer (peerFor p m.src).1 (peerFor p m.src).2 with
      | ok p1 =>
        rw [hs] at h
        cases h
        have := shutdownPeer_table hs hc
        rw [peerFor_table] at this
        exact .inl this
      | throw w => rw [hs] at h; cases h
      | ub w => rw [hs] at h; cases h
    · unfold onData at h
      cases hp : (peerFor p m.src).1.peers (peerFor p m.src).2 with
      | none => rw [hp] at h; cases h
      | some pr =>
        rw [hp] at h
        dsimp only at h
        split at h
        · cases h
          rcases associate_table hc with h1 | h1
          · dsimp only at h1
            rw [peerFor_table] at h1
            exact .inl h1
          · exact .inr ⟨_, List.mem_singleton.2 rfl, h1.symm⟩
        · cases h
          dsimp only at hc
          rw [peerFor_table] at hc
          exact .inl hc
        · cases h
          rw [peerFor_table] at hc
          exact .inl hc

theorem posts_part (b : Nat) (ms : List Msg) (n : Net) : (ms.foldl (fun n' m' => post n' b m') n).part = n.part := by
  induction ms generalizing n with
  | nil => rfl
  | cons m ms ih => rw [List.foldl_cons, ih]; rfl

theorem posts_spoke (b : Nat) (ms : List Msg) (n : Net) (x : Nat × Nat) (h : x ∈ n.spoke ∨ ∃ m ∈ ms, x = (b, m.dst)) :
    x ∈ (ms.foldl (fun n' m' => post n' b m') n).spoke := by
  induction ms generalizing n with
  | nil => rcases h with h | ⟨m, h, _⟩; exact h; cases h
  | cons m ms ih =>
    rw [List.foldl_cons]
    apply ih
    rcases h with h | ⟨m', h1, h2⟩
    · exact .inl (List.mem_cons_of_mem _ h)
    · rcases List.mem_cons.1 h1 with h3 | h3
      · subst h3; exact .inl (by rw [h2]; exact List.mem_cons_self ..)
      · exact .inr ⟨m', h3, h2⟩

theorem known_step {n n' : Net} (h : Known n) {o : Op} (hs : step n o = .ok n') : Known n' := by
  have relayKnown : ∀ a, Known (regStep n a) := by
    intro a c d hcd
    have hx : (regStep n a).part = n.part ∧ (regStep n a).spoke = n.spoke := by
      unfold regStep
      split
      · exact ⟨rfl, rfl⟩
      · unfold relay
        split
        · split <;> exact ⟨rfl, rfl⟩
        · exact ⟨rfl, rfl⟩
      · exact ⟨rfl, rfl⟩
    rw [hx.1] at hcd
    rw [hx.2]
    exact h c d hcd
  cases o with
  | connect a b =>
    cases hs
    unfold connect
    split
    · intro c d hcd
      show (c, d) ∈ (a, b) :: n.spoke
      change (upd n.part a _ c).table d ≠ none at hcd
      by_cases hca : c = a
      · subst hca
        rw [upd_same] at hcd
        rcases associate_table (p := n.part c) hcd with h1 | h1
        · exact List.mem_cons_of_mem _ (h c d h1)
        · rw [h1]; exact List.mem_cons_self ..
      · rw [upd_other _ _ hca] at hcd
        exact List.mem_cons_of_mem _ (h c d hcd)
    · exact h
  | send a b k =>
    cases hs
    unfold send
    split
    · intro c d hcd
      show (c, d) ∈ (a, b) :: n.spoke
      change (upd n.part a _ c).table d ≠ none at hcd
      refine List.mem_cons_of_mem _ (h c d ?_)
      by_cases hca : c = a
      · subst hca; rwa [upd_same] at hcd
      · rwa [upd_other _ _ hca] at hcd
    · exact h
  | leave a =>
    cases hs
    unfold leave
    split
    · intro c d hcd
      change (upd n.part a _ c).table d ≠ none at hcd
      refine h c d ?_
      by_cases hca : c = a
      · subst hca; rwa [upd_same] at hcd
      · rwa [upd_other _ _ hca] at hcd
    · exact h
  | loseRegistry b =>
    change loseRegistry n b = .ok n' at hs
    unfold loseRegistry at hs
    split at hs
    · cases hp : shutdownPeers (n.part b) (n.part b).proxied with
      | ok p =>
        rw [hp] at hs
        cases hs
        intro c d hcd
        change (upd n.part b _ c).table d ≠ none at hcd
        refine h c d ?_
        by_cases hca : c = b
        · subst hca; rw [upd_same] at hcd; exact shutdownPeers_table hp hcd
        · rwa [upd_other _ _ hca] at hcd
      | throw w => rw [hp] at hs; cases hs
      | ub w => rw [hp] at hs; cases hs
    · cases hs; exact h
  | regStep a => cases hs; exact relayKnown a
  | partStep b =>
    change partStep n b = .ok n' at hs
    unfold partStep at hs
    split at hs
    · cases hd : n.down b with
      | nil => rw [hd] at hs; cases hs; exact h
      | cons m r =>
        rw [hd] at hs
        dsimp only at hs
        cases hr : receive b (n.part b) m with
        | ok s =>
          rw [hr] at hs
          cases hs
          intro c d hcd
          rw [posts_part] at hcd
          change (upd n.part b s.1 c).table d ≠ none at hcd
          apply posts_spoke
          by_cases hcb : c = b
          · subst hcb
            rw [upd_same] at hcd
            rcases receive_table hr hcd with h1 | ⟨x, h1, h2⟩
            · exact .inl (h c d h1)
            · exact .inr ⟨x, h1, by rw [h2]⟩
          · rw [upd_other _ _ hcb] at hcd
            exact .inl (h c d hcd)
        | throw w => rw [hr] at hs; cases hs
        | ub w => rw [hr] at hs; cases hs
    · cases hs; exact h

theorem known_run {n n' : Net} (h : Known n) {os : List Op} (hs : run n os = .ok n') : Known n' := by
  induction os generalizing n with
  | nil => cases hs; exact h
  | cons o os ih =>
    unfold run at hs
    cases hso : step n o with
    | ok n1 => rw [hso] at hs; exact ih (known_step h hso) hs
    | throw w => rw [hso] at hs; cases hs
    | ub w => rw [hso] at hs; cases hs

end SilKit.Proxy
