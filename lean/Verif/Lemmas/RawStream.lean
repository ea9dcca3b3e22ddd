import Verif.Spec.RawStream
/-! # Lemmas: byte streams -/
namespace SilKit.RawStream

theorem openRead_append (p : Option Nat) (l r : List Event) : openRead p (l ++ r) = openRead (openRead p l) r := by
  induction l generalizing p with
  | nil => rfl
  | cons e l ih =>
    cases e with
    | readRequest n => exact ih _
    | writeRequest d => exact ih _
    | called c => cases c <;> exact ih _

theorem openWrite_append (p : Option Bytes) (l r : List Event) : openWrite p (l ++ r) = openWrite (openWrite p l) r := by
  induction l generalizing p with
  | nil => rfl
  | cons e l ih =>
    cases e with
    | readRequest n => exact ih _
    | writeRequest d => exact ih _
    | called c => cases c <;> exact ih _

theorem readsTakeTurns_append (p : Option Nat) (l r : List Event) :
    ReadsTakeTurns p (l ++ r) ↔ ReadsTakeTurns p l ∧ ReadsTakeTurns (openRead p l) r := by
  induction l generalizing p with
  | nil => simp [ReadsTakeTurns, openRead]
  | cons e l ih =>
    cases e with
    | readRequest n => simp only [List.cons_append, ReadsTakeTurns, openRead, ih, and_assoc]
    | writeRequest d => simp only [List.cons_append, ReadsTakeTurns, openRead, ih]
    | called c => cases c <;> simp only [List.cons_append, ReadsTakeTurns, openRead, ih, and_assoc]

theorem writesTakeTurns_append (p : Option Bytes) (l r : List Event) :
    WritesTakeTurns p (l ++ r) ↔ WritesTakeTurns p l ∧ WritesTakeTurns (openWrite p l) r := by
  induction l generalizing p with
  | nil => simp [WritesTakeTurns, openWrite]
  | cons e l ih =>
    cases e with
    | readRequest n => simp only [List.cons_append, WritesTakeTurns, openWrite, ih]
    | writeRequest d => simp only [List.cons_append, WritesTakeTurns, openWrite, ih, and_assoc]
    | called c => cases c <;> simp only [List.cons_append, WritesTakeTurns, openWrite, ih, and_assoc]

theorem readData_append (l r : List Event) : readData (l ++ r) = readData l ++ readData r := by
  induction l with
  | nil => rfl
  | cons e l ih =>
    cases e with
    | readRequest n => simpa [readData] using ih
    | writeRequest d => simpa [readData] using ih
    | called c => cases c <;> simp [readData, ih]

theorem writtenData_append (l r : List Event) : writtenData (l ++ r) = writtenData l ++ writtenData r := by
  induction l with
  | nil => rfl
  | cons e l ih =>
    cases e with
    | readRequest n => simpa [writtenData] using ih
    | writeRequest d => simpa [writtenData] using ih
    | called c => cases c <;> simp [writtenData, ih]

theorem receivedBy_append (l r : List Op) : receivedBy (l ++ r) = receivedBy l ++ receivedBy r := by
  induction l with
  | nil => rfl
  | cons o l ih => cases o <;> simp [receivedBy, ih]

theorem endsOnce_append {l : List Event} (h : .called .shutdown ∉ l) (e : Event) : EndsOnce (l ++ [e]) := by
  induction l with
  | nil =>
    cases e with
    | readRequest n => trivial
    | writeRequest d => trivial
    | called c => cases c <;> first | trivial | rfl
  | cons x l ih =>
    have hl : .called .shutdown ∉ l := fun hx => h (by simp [hx])
    cases x with
    | readRequest n => exact ih hl
    | writeRequest d => exact ih hl
    | called c =>
      cases c with
      | readDone d => exact ih hl
      | writeDone d => exact ih hl
      | shutdown => exact absurd (by simp) h

def callRead : Option Call → Bytes
  | some (.readDone data) => data
  | _ => []

def callWrite : Option Call → Bytes
  | some (.writeDone data) => data
  | _ => []

def isShutdown : Option Call → Nat
  | some .shutdown => 1
  | _ => 0

def ended (l : List Event) : Nat := if .called .shutdown ∈ l then 1 else 0

/-- What holds between the steps, except that the end has been posted if it has to be. `r` is what the peer sent. -/
structure Base (r : Bytes) (s : State) : Prop where
  valid : s.invalid = false
  readStarted : s.readStarted = s.reading
  writeStarted : s.writeStarted = s.writing
  posted : s.shutdownPosted = true → s.shutdownPending = true ∧ s.reading = false ∧ s.writing = false
  count : s.posted + isShutdown s.inCall + ended s.log = if s.shutdownPosted then 1 else 0
  ends : EndsOnce s.log
  idle : .called .shutdown ∈ s.log → s.inCall = none
  readBytes : ∃ rest, r = readData s.log ++ callRead s.inCall ++ rest ∧ (s.shutdownPending = false → rest = s.incoming)
  writeBytes : ∃ rest, s.outgoing = writtenData s.log ++ callWrite s.inCall ++ rest ∧ (s.shutdownPending = false → rest = [])

/-- The end has been posted if nothing is going on. -/
def Done (s : State) : Prop := s.shutdownPending = true → s.reading = false → s.writing = false → s.shutdownPosted = true

structure Inv (r : Bytes) (s : State) : Prop extends Base r s where
  done : Done s

theorem inv_init : Inv [] {} where
  valid := rfl
  readStarted := rfl
  writeStarted := rfl
  posted := nofun
  count := rfl
  ends := trivial
  idle := nofun
  readBytes := ⟨[], rfl, fun _ => rfl⟩
  writeBytes := ⟨[], rfl, fun _ => rfl⟩
  done := nofun

theorem base_pending {r : Bytes} {s : State} (h : Base r s) (c : Bool) : Base r { s with shutdownPending := true, closed := c } := by
  obtain ⟨rest, h1, _⟩ := h.readBytes
  obtain ⟨rest', h2, _⟩ := h.writeBytes
  exact { h with
    posted := fun hp => ⟨rfl, (h.posted hp).2⟩
    readBytes := ⟨rest, h1, nofun⟩
    writeBytes := ⟨rest', h2, nofun⟩ }

theorem inv_post {r : Bytes} {s : State} (h : Base r s) (hp : s.shutdownPending = true) : Inv r (postShutdown s) := by
  unfold postShutdown
  by_cases hc : s.reading = false ∧ s.writing = false ∧ s.shutdownPosted = false
  · rw [if_pos hc]
    have hcount := h.count
    rw [hc.2.2] at hcount
    exact { h with
      posted := fun _ => ⟨hp, hc.1, hc.2.1⟩
      count := by
        show s.posted + 1 + isShutdown s.inCall + ended s.log = 1
        have : s.posted + isShutdown s.inCall + ended s.log = 0 := hcount
        omega
      done := fun _ _ _ => rfl }
  · rw [if_neg hc]
    refine { h with done := fun _ h1 h2 => ?_ }
    cases e : s.shutdownPosted with
    | true => rfl
    | false => exact absurd ⟨h1, h2, e⟩ hc

theorem inv_handle {r : Bytes} {s : State} (h : Base r s) : Inv r (handleShutdown s) := by
  unfold handleShutdown
  cases e : s.shutdownPending with
  | true => rw [if_pos rfl]; exact inv_post h e
  | false => rw [if_neg (by simp)]; exact inv_post (base_pending h true) rfl

theorem not_ended_of_not_posted {r : Bytes} {s : State} (h : Base r s) (hp : s.shutdownPosted = false) :
    .called .shutdown ∉ s.log ∧ s.inCall ≠ some .shutdown ∧ s.posted = 0 := by
  have hc := h.count
  rw [hp] at hc
  have hc' : s.posted + isShutdown s.inCall + ended s.log = 0 := hc
  refine ⟨fun hm => ?_, fun hm => ?_, by omega⟩
  · have : ended s.log = 1 := by rw [ended, if_pos hm]
    omega
  · have : isShutdown s.inCall = 1 := by rw [hm]; rfl
    omega

theorem not_posted_of_not_pending {r : Bytes} {s : State} (h : Base r s) (hp : s.shutdownPending = false) : s.shutdownPosted = false := by
  cases e : s.shutdownPosted with
  | false => rfl
  | true => have := (h.posted e).1; rw [hp] at this; cases this

theorem ended_snoc {l : List Event} {e : Event} (he : e ≠ .called .shutdown) : ended (l ++ [e]) = ended l := by
  unfold ended
  have : (Event.called .shutdown ∈ l ++ [e]) ↔ Event.called .shutdown ∈ l := by
    simp only [List.mem_append, List.mem_singleton]
    exact ⟨fun h => h.resolve_right (fun h' => he h'.symm), .inl⟩
  by_cases hm : Event.called .shutdown ∈ l
  · rw [if_pos hm, if_pos (this.2 hm)]
  · rw [if_neg hm, if_neg (fun h => hm (this.1 h))]

theorem mem_snoc_ne {l : List Event} {e : Event} (he : e ≠ .called .shutdown) (h : .called .shutdown ∈ l ++ [e]) : .called .shutdown ∈ l := by
  simp only [List.mem_append, List.mem_singleton] at h
  exact h.resolve_right (fun h' => he h'.symm)

theorem inv_asyncRead {r : Bytes} {s : State} (h : Inv r s) (size : Nat) : Inv r (asyncRead s size).1 := by
  unfold asyncRead
  rcases Bool.eq_false_or_eq_true s.shutdownPending with hp | hp
  · rw [if_pos hp]; exact h
  · rw [if_neg (by simp [hp])]
    rcases Bool.eq_false_or_eq_true s.reading with hr | hr
    · rw [if_pos hr]; exact h
    · rw [if_neg (by simp [hr])]
      have hn := not_posted_of_not_pending h.toBase hp
      have he := not_ended_of_not_posted h.toBase hn
      obtain ⟨rest, h1, h1'⟩ := h.readBytes
      obtain ⟨rest', h2, h2'⟩ := h.writeBytes
      exact
        { valid := h.valid
          readStarted := rfl
          writeStarted := h.writeStarted
          posted := fun hq => absurd hq (by simp [hn])
          count := by
            show s.posted + isShutdown s.inCall + ended (s.log ++ [_]) = _
            rw [ended_snoc (by simp)]; exact h.count
          ends := endsOnce_append he.1 _
          idle := fun hm => absurd (mem_snoc_ne (by simp) hm) he.1
          readBytes := ⟨rest, by show r = readData (s.log ++ [_]) ++ _ ++ _; rw [readData_append]; simpa [readData] using h1, h1'⟩
          writeBytes := ⟨rest', by show s.outgoing = writtenData (s.log ++ [_]) ++ _ ++ _; rw [writtenData_append]; simpa [writtenData] using h2, h2'⟩
          done := fun hq => by have : s.shutdownPending = true := hq; rw [hp] at this; cases this }

theorem inv_asyncWrite {r : Bytes} {s : State} (h : Inv r s) (data : Bytes) : Inv r (asyncWrite s data).1 := by
  unfold asyncWrite
  rcases Bool.eq_false_or_eq_true s.shutdownPending with hp | hp
  · rw [if_pos hp]; exact h
  · rw [if_neg (by simp [hp])]
    rcases Bool.eq_false_or_eq_true s.writing with hr | hr
    · rw [if_pos hr]; exact h
    · rw [if_neg (by simp [hr])]
      have hn := not_posted_of_not_pending h.toBase hp
      have he := not_ended_of_not_posted h.toBase hn
      obtain ⟨rest, h1, h1'⟩ := h.readBytes
      obtain ⟨rest', h2, h2'⟩ := h.writeBytes
      exact
        { valid := h.valid
          readStarted := h.readStarted
          writeStarted := rfl
          posted := fun hq => absurd hq (by simp [hn])
          count := by
            show s.posted + isShutdown s.inCall + ended (s.log ++ [_]) = _
            rw [ended_snoc (by simp)]; exact h.count
          ends := endsOnce_append he.1 _
          idle := fun hm => absurd (mem_snoc_ne (by simp) hm) he.1
          readBytes := ⟨rest, by show r = readData (s.log ++ [_]) ++ _ ++ _; rw [readData_append]; simpa [readData] using h1, h1'⟩
          writeBytes := ⟨rest', by show s.outgoing = writtenData (s.log ++ [_]) ++ _ ++ _; rw [writtenData_append]; simpa [writtenData] using h2, h2'⟩
          done := fun hq => by have : s.shutdownPending = true := hq; rw [hp] at this; cases this }

theorem inv_readComplete {r : Bytes} {s : State} (h : Inv r s) (code : Code) (k : Nat) (hc : s.inCall = none) (hs : s.readStarted = true)
    (hk : code = .failure → k = 0) : Inv r (socketRead s code k) := by
  have hr : s.reading = true := by rw [← h.readStarted]; exact hs
  have hnp : s.shutdownPosted = false := by
    cases e : s.shutdownPosted with
    | false => rfl
    | true => have := (h.posted e).2.1; rw [hr] at this; cases this
  have he := not_ended_of_not_posted h.toBase hnp
  obtain ⟨rest, h1, h1'⟩ := h.readBytes
  obtain ⟨rest', h2, h2'⟩ := h.writeBytes
  rw [hc] at h1 h2
  have hcount : s.posted = 0 := he.2.2
  unfold socketRead onRead
  simp only [hr, if_true]
  unfold afterRead
  by_cases hp : s.shutdownPending = true ∨ code = .failure
  · rw [if_pos hp]
    apply inv_handle
    exact
      { valid := h.valid
        readStarted := rfl
        writeStarted := h.writeStarted
        posted := fun hq => absurd hq (by simp [hnp])
        count := h.count
        ends := h.ends
        idle := h.idle
        readBytes := ⟨rest, by rw [hc]; exact h1, fun hq => by
          rcases hp with hp | hp
          · have : s.shutdownPending = false := hq; rw [hp] at this; cases this
          · show rest = s.incoming.drop _
            rw [hk hp, h1' hq]; simp⟩
        writeBytes := ⟨rest', by rw [hc]; exact h2, h2'⟩ }
  · rw [if_neg hp]
    have hnpend : s.shutdownPending = false := by
      cases e : s.shutdownPending with
      | false => rfl
      | true => exact absurd (.inl e) hp
    by_cases ha : code ≠ .success ∧ (s.incoming.take (min k s.readBuffer)).length = 0
    · rw [if_pos ha]
      have hnil : s.incoming.take (min k s.readBuffer) = [] := List.length_eq_zero_iff.1 ha.2
      have hd : s.incoming.drop (min k s.readBuffer) = s.incoming := by
        have := List.take_append_drop (min k s.readBuffer) s.incoming
        rw [hnil] at this
        exact this
      exact
        { valid := h.valid
          readStarted := rfl
          writeStarted := h.writeStarted
          posted := fun hq => absurd hq (by simp [hnp])
          count := h.count
          ends := h.ends
          idle := h.idle
          readBytes := ⟨rest, by rw [hc]; exact h1, fun hq => by show rest = s.incoming.drop _; rw [hd]; exact h1' hq⟩
          writeBytes := ⟨rest', by rw [hc]; exact h2, h2'⟩
          done := fun hq => by have : s.shutdownPending = true := hq; rw [hnpend] at this; cases this }
    · rw [if_neg ha]
      exact
        { valid := h.valid
          readStarted := rfl
          writeStarted := h.writeStarted
          posted := fun hq => absurd hq (by simp [hnp])
          count := by have := h.count; rw [hc] at this; exact this
          ends := h.ends
          idle := fun hm => absurd hm he.1
          readBytes := ⟨s.incoming.drop (min k s.readBuffer), by
            show r = readData s.log ++ s.incoming.take _ ++ s.incoming.drop _
            rw [List.append_assoc, List.take_append_drop, ← h1' hnpend]
            simpa [callRead] using h1, fun _ => rfl⟩
          writeBytes := ⟨rest', h2, h2'⟩
          done := fun hq => by have : s.shutdownPending = true := hq; rw [hnpend] at this; cases this }

theorem inv_writeComplete {r : Bytes} {s : State} (h : Inv r s) (code : Code) (k : Nat) (hc : s.inCall = none) (hs : s.writeStarted = true)
    (hk : code = .failure → k = 0) : Inv r (socketWrite s code k) := by
  have hr : s.writing = true := by rw [← h.writeStarted]; exact hs
  have hnp : s.shutdownPosted = false := by
    cases e : s.shutdownPosted with
    | false => rfl
    | true => have := (h.posted e).2.2; rw [hr] at this; cases this
  have he := not_ended_of_not_posted h.toBase hnp
  obtain ⟨rest, h1, h1'⟩ := h.readBytes
  obtain ⟨rest', h2, h2'⟩ := h.writeBytes
  rw [hc] at h1 h2
  unfold socketWrite onWrite
  simp only [hr, if_true]
  unfold afterWrite
  by_cases hp : s.shutdownPending = true ∨ code = .failure
  · rw [if_pos hp]
    apply inv_handle
    exact
      { valid := h.valid
        readStarted := h.readStarted
        writeStarted := rfl
        posted := fun hq => absurd hq (by simp [hnp])
        count := h.count
        ends := h.ends
        idle := h.idle
        readBytes := ⟨rest, by rw [hc]; exact h1, h1'⟩
        writeBytes := ⟨rest' ++ s.writeBuffer.take k, by
          show s.outgoing ++ _ = _
          rw [hc, h2]; simp, fun hq => by
          rcases hp with hp | hp
          · have : s.shutdownPending = false := hq; rw [hp] at this; cases this
          · rw [hk hp, h2' hq]; simp⟩ }
  · rw [if_neg hp]
    have hnpend : s.shutdownPending = false := by
      cases e : s.shutdownPending with
      | false => rfl
      | true => exact absurd (.inl e) hp
    have hrest := h2' hnpend
    subst hrest
    by_cases ha : code ≠ .success ∧ (s.writeBuffer.take k).length = 0
    · rw [if_pos ha]
      have hnil : s.writeBuffer.take k = [] := List.length_eq_zero_iff.1 ha.2
      exact
        { valid := h.valid
          readStarted := h.readStarted
          writeStarted := rfl
          posted := fun hq => absurd hq (by simp [hnp])
          count := h.count
          ends := h.ends
          idle := h.idle
          readBytes := ⟨rest, by rw [hc]; exact h1, h1'⟩
          writeBytes := ⟨[], by show s.outgoing ++ _ = _; rw [hnil, hc, List.append_nil]; exact h2, fun _ => rfl⟩
          done := fun hq => by have : s.shutdownPending = true := hq; rw [hnpend] at this; cases this }
    · rw [if_neg ha]
      exact
        { valid := h.valid
          readStarted := h.readStarted
          writeStarted := rfl
          posted := fun hq => absurd hq (by simp [hnp])
          count := by have := h.count; rw [hc] at this; exact this
          ends := h.ends
          idle := fun hm => absurd hm he.1
          readBytes := ⟨rest, h1, h1'⟩
          writeBytes := ⟨[], by
            show s.outgoing ++ _ = writtenData s.log ++ s.writeBuffer.take k ++ []
            rw [h2]; simp [callWrite], fun _ => rfl⟩
          done := fun hq => by have : s.shutdownPending = true := hq; rw [hnpend] at this; cases this }

theorem inv_runPosted {r : Bytes} {s : State} (h : Inv r s) (hc : s.inCall = none) (hp : s.posted ≠ 0) :
    Inv r { s with posted := s.posted - 1, inCall := some .shutdown } := by
  have hcount := h.count
  rw [hc] at hcount
  have hcount' : s.posted + 0 + ended s.log = if s.shutdownPosted then 1 else 0 := hcount
  have he : ended s.log = 0 := by
    cases e : s.shutdownPosted with
    | true => rw [e] at hcount'; simp only [if_true] at hcount'; omega
    | false => rw [e] at hcount'; have : s.posted + 0 + ended s.log = 0 := hcount'; omega
  have hnm : .called .shutdown ∉ s.log := by
    intro hm
    rw [ended, if_pos hm] at he
    cases he
  obtain ⟨rest, h1, h1'⟩ := h.readBytes
  obtain ⟨rest', h2, h2'⟩ := h.writeBytes
  rw [hc] at h1 h2
  exact { h with
    count := by
      show s.posted - 1 + 1 + ended s.log = _
      rw [← hcount']; omega
    idle := fun hm => absurd hm hnm
    readBytes := ⟨rest, h1, h1'⟩
    writeBytes := ⟨rest', h2, h2'⟩ }

theorem inv_call {r : Bytes} {s : State} (h : Inv r s) {c : Call} (hc : s.inCall = some c) :
    Inv r { s with inCall := none, log := s.log ++ [.called c] } := by
  have hnm : .called .shutdown ∉ s.log := by
    intro hm
    have := h.idle hm
    rw [hc] at this
    cases this
  obtain ⟨rest, h1, h1'⟩ := h.readBytes
  obtain ⟨rest', h2, h2'⟩ := h.writeBytes
  rw [hc] at h1 h2
  have hcount := h.count
  rw [hc] at hcount
  exact { h with
    count := by
      show s.posted + 0 + ended (s.log ++ [_]) = _
      rw [← hcount]
      cases c with
      | shutdown =>
        have e0 : ended s.log = 0 := by rw [ended, if_neg hnm]
        have e1 : ended (s.log ++ [.called .shutdown]) = 1 := by rw [ended, if_pos (by simp)]
        rw [e0, e1]; rfl
      | readDone d => rw [ended_snoc (by simp)]; rfl
      | writeDone d => rw [ended_snoc (by simp)]; rfl
    ends := endsOnce_append hnm _
    idle := fun _ => rfl
    readBytes := ⟨rest, by
      show r = readData (s.log ++ [_]) ++ [] ++ rest
      rw [readData_append, h1]
      cases c <;> simp [readData, callRead], h1'⟩
    writeBytes := ⟨rest', by
      show s.outgoing = writtenData (s.log ++ [_]) ++ [] ++ rest'
      rw [writtenData_append, h2]
      cases c <;> simp [writtenData, callWrite], h2'⟩ }

theorem inv_receive {r : Bytes} {s : State} (h : Inv r s) (data : Bytes) : Inv (r ++ data) { s with incoming := s.incoming ++ data } := by
  obtain ⟨rest, h1, h1'⟩ := h.readBytes
  exact { h with
    readBytes := ⟨rest ++ data, by rw [h1]; simp, fun hq => by show rest ++ data = s.incoming ++ data; rw [h1' hq]⟩ }

theorem inv_step {r : Bytes} {s : State} (h : Inv r s) (o : Op) : Inv (r ++ receivedBy [o]) (step s o) := by
  cases o with
  | asyncRead size => rw [show receivedBy [Op.asyncRead size] = [] from rfl, List.append_nil]; exact inv_asyncRead h size
  | asyncWrite data => rw [show receivedBy [Op.asyncWrite data] = [] from rfl, List.append_nil]; exact inv_asyncWrite h data
  | shutdown => rw [show receivedBy [Op.shutdown] = [] from rfl, List.append_nil]; exact inv_handle h.toBase
  | receive data => rw [show receivedBy [Op.receive data] = data from by simp [receivedBy]]; exact inv_receive h data
  | readComplete code n =>
    rw [show receivedBy [Op.readComplete code n] = [] from rfl, List.append_nil]
    unfold step
    by_cases hc : s.inCall = none ∧ s.readStarted = true
    · simp only [if_pos hc]
      exact inv_readComplete h code _ hc.1 hc.2 (fun e => by rw [if_pos e])
    · simp only [if_neg hc]; exact h
  | writeComplete code n =>
    rw [show receivedBy [Op.writeComplete code n] = [] from rfl, List.append_nil]
    unfold step
    by_cases hc : s.inCall = none ∧ s.writeStarted = true
    · simp only [if_pos hc]
      exact inv_writeComplete h code _ hc.1 hc.2 (fun e => by rw [if_pos e])
    · simp only [if_neg hc]; exact h
  | runPosted =>
    rw [show receivedBy [Op.runPosted] = [] from rfl, List.append_nil]
    unfold step
    by_cases hc : s.inCall = none ∧ s.posted ≠ 0
    · simp only [if_pos hc]; exact inv_runPosted h hc.1 hc.2
    · simp only [if_neg hc]; exact h
  | call =>
    rw [show receivedBy [Op.call] = [] from rfl, List.append_nil]
    unfold step
    cases hc : s.inCall with
    | none => exact h
    | some c => exact inv_call h hc

theorem run_concat (ops : List Op) (o : Op) : run (ops ++ [o]) = step (run ops) o := by simp [run]

theorem inv_run (ops : List Op) : Inv (receivedBy ops) (run ops) := by
  suffices h : ∀ l : List Op, Inv (receivedBy l.reverse) (run l.reverse) by simpa using h ops.reverse
  intro l
  induction l with
  | nil => exact inv_init
  | cons o l ih =>
    rw [List.reverse_cons, run_concat, receivedBy_append]
    exact inv_step ih o

/-! ## Turns -/

structure Turns (s : State) : Prop where
  readTurns : ReadsTakeTurns none s.log
  readOpen : s.reading = true → openRead none s.log = some s.readBuffer
  readCall : ∀ d, s.inCall = some (.readDone d) → s.reading = false ∧ ∃ n, openRead none s.log = some n ∧ d.length ≤ n
  readFree : s.shutdownPending = false → s.reading = false → (∀ d, s.inCall ≠ some (.readDone d)) → openRead none s.log = none
  writeTurns : WritesTakeTurns none s.log
  writeOpen : s.writing = true → openWrite none s.log = some s.writeBuffer
  writeCall : ∀ d, s.inCall = some (.writeDone d) → s.writing = false ∧ ∃ a, openWrite none s.log = some a ∧ d <+: a
  writeFree : s.shutdownPending = false → s.writing = false → (∀ d, s.inCall ≠ some (.writeDone d)) → openWrite none s.log = none

theorem turns_init : Turns {} where
  readTurns := trivial
  readOpen := nofun
  readCall := nofun
  readFree := fun _ _ _ => rfl
  writeTurns := trivial
  writeOpen := nofun
  writeCall := nofun
  writeFree := fun _ _ _ => rfl

theorem turns_post {s : State} (h : Turns s) : Turns (postShutdown s) := by
  unfold postShutdown
  by_cases hc : s.reading = false ∧ s.writing = false ∧ s.shutdownPosted = false
  · rw [if_pos hc]; exact { h with }
  · rw [if_neg hc]; exact h

theorem turns_handle {s : State} (h1 : ReadsTakeTurns none s.log) (h2 : s.reading = true → openRead none s.log = some s.readBuffer)
    (h3 : ∀ d, s.inCall = some (.readDone d) → s.reading = false ∧ ∃ n, openRead none s.log = some n ∧ d.length ≤ n)
    (h4 : WritesTakeTurns none s.log) (h5 : s.writing = true → openWrite none s.log = some s.writeBuffer)
    (h6 : ∀ d, s.inCall = some (.writeDone d) → s.writing = false ∧ ∃ a, openWrite none s.log = some a ∧ d <+: a) :
    Turns (handleShutdown s) := by
  unfold handleShutdown
  apply turns_post
  rcases Bool.eq_false_or_eq_true s.shutdownPending with hp | hp
  · rw [if_pos hp]
    exact ⟨h1, h2, h3, (fun e => by rw [hp] at e; cases e), h4, h5, h6, (fun e => by rw [hp] at e; cases e)⟩
  · rw [if_neg (by simp [hp])]
    exact ⟨h1, h2, h3, nofun, h4, h5, h6, nofun⟩

theorem turns_asyncRead {s : State} (h : Turns s) (size : Nat) (ho : openRead none s.log = none) : Turns (asyncRead s size).1 := by
  unfold asyncRead
  rcases Bool.eq_false_or_eq_true s.shutdownPending with hp | hp
  · rw [if_pos hp]; exact h
  · rw [if_neg (by simp [hp])]
    rcases Bool.eq_false_or_eq_true s.reading with hr | hr
    · rw [if_pos hr]; exact h
    · rw [if_neg (by simp [hr])]
      have ew : openWrite none (s.log ++ [.readRequest size]) = openWrite none s.log := by rw [openWrite_append]; rfl
      have er : openRead none (s.log ++ [.readRequest size]) = some size := by rw [openRead_append]; rfl
      exact
        { readTurns := (readsTakeTurns_append _ _ _).2 ⟨h.readTurns, ho, trivial⟩
          readOpen := fun _ => er
          readCall := fun d hd => by
            obtain ⟨_, n, hn, _⟩ := h.readCall d hd
            rw [ho] at hn; cases hn
          readFree := nofun
          writeTurns := (writesTakeTurns_append _ _ _).2 ⟨h.writeTurns, trivial⟩
          writeOpen := fun hw => ew.trans (h.writeOpen hw)
          writeCall := fun d hd => by
            obtain ⟨h1, a, h2, h3⟩ := h.writeCall d hd
            exact ⟨h1, a, ew.trans h2, h3⟩
          writeFree := fun a b c => ew.trans (h.writeFree a b c) }

theorem turns_asyncWrite {s : State} (h : Turns s) (data : Bytes) (ho : openWrite none s.log = none) : Turns (asyncWrite s data).1 := by
  unfold asyncWrite
  rcases Bool.eq_false_or_eq_true s.shutdownPending with hp | hp
  · rw [if_pos hp]; exact h
  · rw [if_neg (by simp [hp])]
    rcases Bool.eq_false_or_eq_true s.writing with hr | hr
    · rw [if_pos hr]; exact h
    · rw [if_neg (by simp [hr])]
      have ew : openWrite none (s.log ++ [.writeRequest data]) = some data := by rw [openWrite_append]; rfl
      have er : openRead none (s.log ++ [.writeRequest data]) = openRead none s.log := by rw [openRead_append]; rfl
      exact
        { readTurns := (readsTakeTurns_append _ _ _).2 ⟨h.readTurns, trivial⟩
          readOpen := fun hw => er.trans (h.readOpen hw)
          readCall := fun d hd => by
            obtain ⟨h1, a, h2, h3⟩ := h.readCall d hd
            exact ⟨h1, a, er.trans h2, h3⟩
          readFree := fun a b c => er.trans (h.readFree a b c)
          writeTurns := (writesTakeTurns_append _ _ _).2 ⟨h.writeTurns, ho, trivial⟩
          writeOpen := fun _ => ew
          writeCall := fun d hd => by
            obtain ⟨_, n, hn, _⟩ := h.writeCall d hd
            rw [ho] at hn; cases hn
          writeFree := nofun }

theorem turns_read {s : State} (h : Turns s) (code : Code) (k : Nat) (hc : s.inCall = none) (hr : s.reading = true) : Turns (socketRead s code k) := by
  have hro := h.readOpen hr
  unfold socketRead onRead
  simp only [hr, if_true]
  unfold afterRead
  by_cases hp : s.shutdownPending = true ∨ code = .failure
  · rw [if_pos hp]
    exact turns_handle h.readTurns nofun (fun d hd => by rw [show s.inCall = _ from hd] at hc; cases hc) h.writeTurns h.writeOpen h.writeCall
  · rw [if_neg hp]
    by_cases ha : code ≠ .success ∧ (s.incoming.take (min k s.readBuffer)).length = 0
    · rw [if_pos ha]
      exact { h with
        readOpen := fun _ => hro
        readCall := fun d hd => by rw [show s.inCall = _ from hd] at hc; cases hc
        readFree := nofun }
    · rw [if_neg ha]
      exact { h with
        readOpen := nofun
        readCall := fun d hd => by
          cases hd
          exact ⟨rfl, _, hro, Nat.le_trans (List.length_take_le _ _) (Nat.min_le_right _ _)⟩
        readFree := fun _ _ hn => absurd rfl (hn _)
        writeCall := nofun
        writeFree := fun a b _ => h.writeFree a b (by rw [hc]; nofun) }

theorem turns_write {s : State} (h : Turns s) (code : Code) (k : Nat) (hc : s.inCall = none) (hr : s.writing = true) : Turns (socketWrite s code k) := by
  have hro := h.writeOpen hr
  unfold socketWrite onWrite
  simp only [hr, if_true]
  unfold afterWrite
  by_cases hp : s.shutdownPending = true ∨ code = .failure
  · rw [if_pos hp]
    exact turns_handle h.readTurns h.readOpen h.readCall h.writeTurns nofun (fun d hd => by rw [show s.inCall = _ from hd] at hc; cases hc)
  · rw [if_neg hp]
    by_cases ha : code ≠ .success ∧ (s.writeBuffer.take k).length = 0
    · rw [if_pos ha]
      exact { h with
        writeOpen := fun _ => hro
        writeCall := fun d hd => by rw [show s.inCall = _ from hd] at hc; cases hc
        writeFree := nofun }
    · rw [if_neg ha]
      exact { h with
        writeOpen := nofun
        writeCall := fun d hd => by
          cases hd
          exact ⟨rfl, _, hro, List.take_prefix _ _⟩
        writeFree := fun _ _ hn => absurd rfl (hn _)
        readCall := nofun
        readFree := fun a b _ => h.readFree a b (by rw [hc]; nofun) }

theorem turns_call {s : State} (h : Turns s) {c : Call} (hc : s.inCall = some c) :
    Turns { s with inCall := none, log := s.log ++ [.called c] } := by
  cases c with
  | readDone d =>
    have ew : openWrite none (s.log ++ [.called (.readDone d)]) = openWrite none s.log := by rw [openWrite_append]; rfl
    have er : openRead none (s.log ++ [.called (.readDone d)]) = none := by rw [openRead_append]; rfl
    obtain ⟨h1, n, h2, h3⟩ := h.readCall d hc
    exact
      { readTurns := (readsTakeTurns_append _ _ _).2 ⟨h.readTurns, ⟨n, h2, h3⟩, trivial⟩
        readOpen := fun e => by rw [show s.reading = true from e] at h1; cases h1
        readCall := nofun
        readFree := fun _ _ _ => er
        writeTurns := (writesTakeTurns_append _ _ _).2 ⟨h.writeTurns, trivial⟩
        writeOpen := fun e => ew.trans (h.writeOpen e)
        writeCall := nofun
        writeFree := fun a b _ => ew.trans (h.writeFree a b (by rw [hc]; nofun)) }
  | writeDone d =>
    have ew : openWrite none (s.log ++ [.called (.writeDone d)]) = none := by rw [openWrite_append]; rfl
    have er : openRead none (s.log ++ [.called (.writeDone d)]) = openRead none s.log := by rw [openRead_append]; rfl
    obtain ⟨h1, n, h2, h3⟩ := h.writeCall d hc
    exact
      { readTurns := (readsTakeTurns_append _ _ _).2 ⟨h.readTurns, trivial⟩
        readOpen := fun e => er.trans (h.readOpen e)
        readCall := nofun
        readFree := fun a b _ => er.trans (h.readFree a b (by rw [hc]; nofun))
        writeTurns := (writesTakeTurns_append _ _ _).2 ⟨h.writeTurns, ⟨n, h2, h3⟩, trivial⟩
        writeOpen := fun e => by rw [show s.writing = true from e] at h1; cases h1
        writeCall := nofun
        writeFree := fun _ _ _ => ew }
  | shutdown =>
    have ew : openWrite none (s.log ++ [.called .shutdown]) = openWrite none s.log := by rw [openWrite_append]; rfl
    have er : openRead none (s.log ++ [.called .shutdown]) = openRead none s.log := by rw [openRead_append]; rfl
    exact
      { readTurns := (readsTakeTurns_append _ _ _).2 ⟨h.readTurns, trivial⟩
        readOpen := fun e => er.trans (h.readOpen e)
        readCall := nofun
        readFree := fun a b _ => er.trans (h.readFree a b (by rw [hc]; nofun))
        writeTurns := (writesTakeTurns_append _ _ _).2 ⟨h.writeTurns, trivial⟩
        writeOpen := fun e => ew.trans (h.writeOpen e)
        writeCall := nofun
        writeFree := fun a b _ => ew.trans (h.writeFree a b (by rw [hc]; nofun)) }

theorem turns_step {r : Bytes} {s : State} (hi : Inv r s) (h : Turns s) (o : Op) (hr : ∀ n, o = .asyncRead n → openRead none s.log = none)
    (hw : ∀ d, o = .asyncWrite d → openWrite none s.log = none) : Turns (step s o) := by
  cases o with
  | asyncRead size => exact turns_asyncRead h size (hr _ rfl)
  | asyncWrite data => exact turns_asyncWrite h data (hw _ rfl)
  | shutdown => exact turns_handle h.readTurns h.readOpen h.readCall h.writeTurns h.writeOpen h.writeCall
  | receive data => exact { h with }
  | readComplete code n =>
    unfold step
    by_cases hc : s.inCall = none ∧ s.readStarted = true
    · simp only [if_pos hc]
      exact turns_read h code _ hc.1 (by rw [← hi.readStarted]; exact hc.2)
    · simp only [if_neg hc]; exact h
  | writeComplete code n =>
    unfold step
    by_cases hc : s.inCall = none ∧ s.writeStarted = true
    · simp only [if_pos hc]
      exact turns_write h code _ hc.1 (by rw [← hi.writeStarted]; exact hc.2)
    · simp only [if_neg hc]; exact h
  | runPosted =>
    unfold step
    by_cases hc : s.inCall = none ∧ s.posted ≠ 0
    · simp only [if_pos hc]
      exact { h with
        readCall := nofun
        readFree := fun a b _ => h.readFree a b (by rw [hc.1]; nofun)
        writeCall := nofun
        writeFree := fun a b _ => h.writeFree a b (by rw [hc.1]; nofun) }
    · simp only [if_neg hc]; exact h
  | call =>
    unfold step
    cases hc : s.inCall with
    | none => exact h
    | some c => exact turns_call h hc

theorem orderly_prefix {l r : List Op} (h : Orderly (l ++ r)) : Orderly l :=
  ⟨fun a n b e => h.1 a n (b ++ r) (by rw [e]; simp), fun a d b e => h.2 a d (b ++ r) (by rw [e]; simp)⟩

theorem turns_run (ops : List Op) (ho : Orderly ops) : Turns (run ops) := by
  suffices h : ∀ l : List Op, Orderly l.reverse → Turns (run l.reverse) by simpa using h ops.reverse (by simpa using ho)
  intro l
  induction l with
  | nil => intro _; exact turns_init
  | cons o l ih =>
    intro h
    rw [List.reverse_cons] at h ⊢
    rw [run_concat]
    refine turns_step (inv_run l.reverse) (ih (orderly_prefix h)) o (fun n e => ?_) (fun d e => ?_)
    · exact h.1 l.reverse n [] (by rw [e])
    · exact h.2 l.reverse d [] (by rw [e])

/-! ## The end -/

theorem run_append (a b : List Op) : run (a ++ b) = b.foldl step (run a) := by simp [run]

theorem pending_post {s : State} (h : s.shutdownPending = true) : (postShutdown s).shutdownPending = true := by
  unfold postShutdown
  by_cases hc : s.reading = false ∧ s.writing = false ∧ s.shutdownPosted = false
  · rw [if_pos hc]; exact h
  · rw [if_neg hc]; exact h

theorem pending_handle (s : State) : (handleShutdown s).shutdownPending = true := by
  unfold handleShutdown
  apply pending_post
  rcases Bool.eq_false_or_eq_true s.shutdownPending with hp | hp
  · rw [if_pos hp]; exact hp
  · rw [if_neg (by simp [hp])]

theorem log_handle (s : State) : (handleShutdown s).log = s.log ∧ (handleShutdown s).reading = s.reading ∧ (handleShutdown s).writing = s.writing ∧
    (handleShutdown s).inCall = s.inCall ∧ (handleShutdown s).readStarted = s.readStarted ∧ (handleShutdown s).writeStarted = s.writeStarted := by
  unfold handleShutdown postShutdown
  split <;> split <;> exact ⟨rfl, rfl, rfl, rfl, rfl, rfl⟩

theorem pending_step {s : State} (h : s.shutdownPending = true) (o : Op) : (step s o).shutdownPending = true := by
  cases o with
  | asyncRead size => show (asyncRead s size).1.shutdownPending = true; rw [asyncRead, if_pos h]; exact h
  | asyncWrite data => show (asyncWrite s data).1.shutdownPending = true; rw [asyncWrite, if_pos h]; exact h
  | shutdown => exact pending_handle s
  | receive data => exact h
  | readComplete code n =>
    unfold step
    by_cases hc : s.inCall = none ∧ s.readStarted = true
    · simp only [if_pos hc]
      unfold socketRead onRead afterRead
      simp only [h, true_or, if_true]
      split
      · exact pending_handle _
      · rfl
    · simp only [if_neg hc]; exact h
  | writeComplete code n =>
    unfold step
    by_cases hc : s.inCall = none ∧ s.writeStarted = true
    · simp only [if_pos hc]
      unfold socketWrite onWrite afterWrite
      simp only [h, true_or, if_true]
      split
      · exact pending_handle _
      · rfl
    · simp only [if_neg hc]; exact h
  | runPosted =>
    unfold step
    by_cases hc : s.inCall = none ∧ s.posted ≠ 0
    · simp only [if_pos hc]; exact h
    · simp only [if_neg hc]; exact h
  | call =>
    unfold step
    cases hc : s.inCall with
    | none => exact h
    | some c => exact h

theorem pending_foldl {s : State} (h : s.shutdownPending = true) (ops : List Op) : (ops.foldl step s).shutdownPending = true := by
  induction ops generalizing s with
  | nil => exact h
  | cons o l ih => exact ih (pending_step h o)

/-- Nothing is left to be done for the I/O thread. -/
def Quiet (s : State) : Prop := s.inCall = none ∧ s.readStarted = false ∧ s.writeStarted = false ∧ s.posted = 0

theorem ended_of_quiet {r : Bytes} {s : State} (h : Inv r s) (hp : s.shutdownPending = true) (hq : Quiet s) : .called .shutdown ∈ s.log := by
  obtain ⟨h1, h2, h3, h4⟩ := hq
  have hr : s.reading = false := by rw [← h.readStarted]; exact h2
  have hw : s.writing = false := by rw [← h.writeStarted]; exact h3
  have hc := h.count
  rw [h.done hp hr hw, h1, h4] at hc
  have hc' : 0 + 0 + ended s.log = 1 := hc
  by_cases hm : .called .shutdown ∈ s.log
  · exact hm
  · rw [ended, if_neg hm] at hc'; cases hc'

theorem quiet_of_ended {r : Bytes} {s : State} (h : Inv r s) (hm : .called .shutdown ∈ s.log) : Quiet s ∧ s.shutdownPending = true := by
  have hc := h.count
  have he : ended s.log = 1 := by rw [ended, if_pos hm]
  have hp : s.shutdownPosted = true := by
    cases e : s.shutdownPosted with
    | true => rfl
    | false => exact absurd hm (not_ended_of_not_posted h.toBase e).1
  rw [hp, he] at hc
  have hc' : s.posted + isShutdown s.inCall + 1 = 1 := hc
  obtain ⟨h1, h2, h3⟩ := h.posted hp
  exact ⟨⟨h.idle hm, by rw [h.readStarted]; exact h2, by rw [h.writeStarted]; exact h3, by omega⟩, h1⟩

theorem pending_call (s : State) :
    (step s .call).inCall = none ∧ (step s .call).readStarted = s.readStarted ∧ (step s .call).writeStarted = s.writeStarted ∧
      (step s .call).posted = s.posted := by
  unfold step
  cases hc : s.inCall with
  | none => exact ⟨hc, rfl, rfl, rfl⟩
  | some c => exact ⟨rfl, rfl, rfl, rfl⟩

theorem pending_read {r : Bytes} {s : State} (h : Inv r s) (hp : s.shutdownPending = true) (hc : s.inCall = none) (code : Code) (n : Nat) :
    (step s (.readComplete code n)).inCall = none ∧ (step s (.readComplete code n)).readStarted = false ∧
      (step s (.readComplete code n)).writeStarted = s.writeStarted ∧ (step s (.readComplete code n)).log = s.log := by
  unfold step
  rcases Bool.eq_false_or_eq_true s.readStarted with hs | hs
  · simp only [hc, hs, and_self, if_true]
    have hr : s.reading = true := by rw [← h.readStarted]; exact hs
    unfold socketRead onRead afterRead
    simp only [hr, hp, true_or, if_true]
    obtain ⟨l1, l2, l3, l4, l5, l6⟩ := log_handle { s with readStarted := false, reading := false, incoming := s.incoming.drop (min (if code = .failure then 0 else n) s.readBuffer) }
    rw [hp] at l1 l2 l3 l4 l5 l6
    exact ⟨l4.trans hc, l5, l6, l1⟩
  · simp only [hs, and_false, Bool.false_eq_true, if_false]
    exact ⟨hc, trivial, trivial, trivial⟩

theorem pending_write {r : Bytes} {s : State} (h : Inv r s) (hp : s.shutdownPending = true) (hc : s.inCall = none) (code : Code) (n : Nat) :
    (step s (.writeComplete code n)).inCall = none ∧ (step s (.writeComplete code n)).writeStarted = false ∧
      (step s (.writeComplete code n)).readStarted = s.readStarted ∧ (step s (.writeComplete code n)).log = s.log := by
  unfold step
  rcases Bool.eq_false_or_eq_true s.writeStarted with hs | hs
  · simp only [hc, hs, and_self, if_true]
    have hr : s.writing = true := by rw [← h.writeStarted]; exact hs
    unfold socketWrite onWrite afterWrite
    simp only [hr, hp, true_or, if_true]
    obtain ⟨l1, l2, l3, l4, l5, l6⟩ := log_handle { s with writeStarted := false, writing := false, outgoing := s.outgoing ++ s.writeBuffer.take (if code = .failure then 0 else n) }
    rw [hp] at l1 l2 l3 l4 l5 l6
    exact ⟨l4.trans hc, l6, l5, l1⟩
  · simp only [hs, and_false, Bool.false_eq_true, if_false]
    exact ⟨hc, trivial, trivial, trivial⟩

theorem pending_posted {r : Bytes} {s : State} (h : Inv r s) (hc : s.inCall = none) (h1 : s.readStarted = false) (h2 : s.writeStarted = false) :
    Quiet (step (step s .runPosted) .call) := by
  have hcount := h.count
  have hle : s.posted ≤ 1 := by
    have : s.posted + isShutdown s.inCall + ended s.log ≤ 1 := by rw [hcount]; split <;> omega
    omega
  by_cases hp : s.posted = 0
  · have e : step s .runPosted = s := by unfold step; simp only [hp, ne_eq, not_true_eq_false, and_false, if_false]
    have e' : step s .call = s := by unfold step; rw [hc]
    rw [e, e']
    exact ⟨hc, h1, h2, hp⟩
  · have e : step s .runPosted = { s with posted := s.posted - 1, inCall := some .shutdown } := by
      unfold step; simp only [hc, ne_eq, hp, not_false_eq_true, and_self, if_true]
    rw [e]
    exact ⟨rfl, h1, h2, by show s.posted - 1 = 0; omega⟩

theorem drain {r : Bytes} {s : State} (h : Inv r s) (hp : s.shutdownPending = true) (c c' : Code) (n n' : Nat) :
    .called .shutdown ∈ ([.call, .readComplete c n, .writeComplete c' n', .runPosted, .call].foldl step s).log := by
  have i1 := inv_step h .call
  have p1 := pending_step hp .call
  obtain ⟨a1, a2, a3, _⟩ := pending_call s
  have i2 := inv_step i1 (.readComplete c n)
  have p2 := pending_step p1 (.readComplete c n)
  obtain ⟨b1, b2, b3, _⟩ := pending_read i1 p1 a1 c n
  have i3 := inv_step i2 (.writeComplete c' n')
  have p3 := pending_step p2 (.writeComplete c' n')
  obtain ⟨c1, c2, c3, _⟩ := pending_write i2 p2 b1 c' n'
  have q := pending_posted i3 c1 (c3.trans b2) c2
  exact ended_of_quiet (inv_step (inv_step i3 .runPosted) .call) (pending_step (pending_step p3 .runPosted) .call) q

/-- An end makes the stream shut down, unless the operation that fails is not there. -/
theorem pending_of_end {r : Bytes} {s : State} (h : Inv r s) {o : Op} (he : isEnd o = true) :
    (step s o).shutdownPending = true ∨ (step s o = s ∧ o ≠ .shutdown) := by
  cases o with
  | shutdown => exact .inl (pending_handle s)
  | readComplete code n =>
    cases code with
    | failure =>
      unfold step
      by_cases hc : s.inCall = none ∧ s.readStarted = true
      · left
        have hr : s.reading = true := by rw [← h.readStarted]; exact hc.2
        simp only [if_pos hc]
        unfold socketRead onRead afterRead
        simp only [hr, or_true, if_true]
        exact pending_handle _
      · right; simp only [if_neg hc]; exact ⟨trivial, nofun⟩
    | success => cases he
    | again => cases he
  | writeComplete code n =>
    cases code with
    | failure =>
      unfold step
      by_cases hc : s.inCall = none ∧ s.writeStarted = true
      · left
        have hr : s.writing = true := by rw [← h.writeStarted]; exact hc.2
        simp only [if_pos hc]
        unfold socketWrite onWrite afterWrite
        simp only [hr, or_true, if_true]
        exact pending_handle _
      · right; simp only [if_neg hc]; exact ⟨trivial, nofun⟩
    | success => cases he
    | again => cases he
  | asyncRead n => cases he
  | asyncWrite n => cases he
  | receive n => cases he
  | runPosted => cases he
  | call => cases he

/-- Without an end, the stream does not shut down. -/
theorem not_pending_step {s : State} (h : s.shutdownPending = false) {o : Op} (he : isEnd o = false) (hi : s.readStarted = s.reading)
    (hw : s.writeStarted = s.writing) : (step s o).shutdownPending = false := by
  cases o with
  | asyncRead size =>
    show (asyncRead s size).1.shutdownPending = false
    unfold asyncRead
    rw [if_neg (by simp [h])]
    by_cases hr : s.reading = true
    · rw [if_pos hr]; exact h
    · rw [if_neg hr]; exact h
  | asyncWrite data =>
    show (asyncWrite s data).1.shutdownPending = false
    unfold asyncWrite
    rw [if_neg (by simp [h])]
    by_cases hr : s.writing = true
    · rw [if_pos hr]; exact h
    · rw [if_neg hr]; exact h
  | shutdown => cases he
  | receive data => exact h
  | readComplete code n =>
    have hc' : code ≠ .failure := by intro e; subst e; cases he
    unfold step
    by_cases hc : s.inCall = none ∧ s.readStarted = true
    · have hr : s.reading = true := by rw [← hi]; exact hc.2
      simp only [if_pos hc]
      unfold socketRead onRead afterRead
      simp only [hr, h, hc', if_true, Bool.false_eq_true, false_or, if_false]
      split <;> rfl
    · simp only [if_neg hc]; exact h
  | writeComplete code n =>
    have hc' : code ≠ .failure := by intro e; subst e; cases he
    unfold step
    by_cases hc : s.inCall = none ∧ s.writeStarted = true
    · have hr : s.writing = true := by rw [← hw]; exact hc.2
      simp only [if_pos hc]
      unfold socketWrite onWrite afterWrite
      simp only [hr, h, hc', if_true, Bool.false_eq_true, false_or, if_false]
      split <;> rfl
    · simp only [if_neg hc]; exact h
  | runPosted =>
    unfold step
    by_cases hc : s.inCall = none ∧ s.posted ≠ 0
    · simp only [if_pos hc]; exact h
    · simp only [if_neg hc]; exact h
  | call =>
    unfold step
    cases hc : s.inCall with
    | none => exact h
    | some c => exact h

theorem not_pending_run (ops : List Op) (h : ∀ o ∈ ops, isEnd o = false) : (run ops).shutdownPending = false := by
  suffices g : ∀ l : List Op, (∀ o ∈ l, isEnd o = false) → (run l.reverse).shutdownPending = false by
    simpa using g ops.reverse (by simpa using h)
  intro l
  induction l with
  | nil => intro _; rfl
  | cons o l ih =>
    intro h
    rw [List.reverse_cons, run_concat]
    have hi := inv_run l.reverse
    exact not_pending_step (ih fun o ho => h o (by simp [ho])) (h o (by simp)) hi.readStarted hi.writeStarted

/-- Once the stream shuts down, no further completion is reported. -/
theorem frozen_step {r : Bytes} {s : State} (h : Inv r s) (hp : s.shutdownPending = true) (hc : s.inCall = none ∨ s.inCall = some .shutdown) (o : Op) :
    ((step s o).inCall = none ∨ (step s o).inCall = some .shutdown) ∧ readData (step s o).log = readData s.log ∧
      writtenData (step s o).log = writtenData s.log := by
  cases o with
  | asyncRead size =>
    have e : step s (.asyncRead size) = s := by show (asyncRead s size).1 = s; rw [asyncRead, if_pos hp]
    rw [e]; exact ⟨hc, rfl, rfl⟩
  | asyncWrite data =>
    have e : step s (.asyncWrite data) = s := by show (asyncWrite s data).1 = s; rw [asyncWrite, if_pos hp]
    rw [e]; exact ⟨hc, rfl, rfl⟩
  | shutdown =>
    obtain ⟨l1, _, _, l4, _⟩ := log_handle s
    show ((handleShutdown s).inCall = none ∨ _) ∧ readData (handleShutdown s).log = _ ∧ writtenData (handleShutdown s).log = _
    rw [l1]
    exact ⟨by show (handleShutdown s).inCall = none ∨ (handleShutdown s).inCall = some .shutdown; rw [l4]; exact hc, rfl, rfl⟩
  | receive data => exact ⟨hc, rfl, rfl⟩
  | readComplete code n =>
    by_cases hn : s.inCall = none
    · obtain ⟨a, _, _, b⟩ := pending_read h hp hn code n
      rw [b]; exact ⟨.inl a, rfl, rfl⟩
    · have e : step s (.readComplete code n) = s := by unfold step; simp only [hn, false_and, if_false]
      rw [e]; exact ⟨hc, rfl, rfl⟩
  | writeComplete code n =>
    by_cases hn : s.inCall = none
    · obtain ⟨a, _, _, b⟩ := pending_write h hp hn code n
      rw [b]; exact ⟨.inl a, rfl, rfl⟩
    · have e : step s (.writeComplete code n) = s := by unfold step; simp only [hn, false_and, if_false]
      rw [e]; exact ⟨hc, rfl, rfl⟩
  | runPosted =>
    unfold step
    by_cases hn : s.inCall = none ∧ s.posted ≠ 0
    · simp only [if_pos hn]; exact ⟨.inr trivial, trivial, trivial⟩
    · simp only [if_neg hn]; exact ⟨hc, trivial, trivial⟩
  | call =>
    unfold step
    rcases hc with hc | hc
    · rw [hc]; exact ⟨.inl hc, rfl, rfl⟩
    · rw [hc]
      refine ⟨.inl rfl, ?_, ?_⟩
      · show readData (s.log ++ [_]) = _; rw [readData_append]; simp [readData]
      · show writtenData (s.log ++ [_]) = _; rw [writtenData_append]; simp [writtenData]

theorem frozen_foldl {r : Bytes} {s : State} (h : Inv r s) (hp : s.shutdownPending = true) (hc : s.inCall = none ∨ s.inCall = some .shutdown)
    (ops : List Op) : readData (ops.foldl step s).log = readData s.log ∧ writtenData (ops.foldl step s).log = writtenData s.log := by
  induction ops generalizing r s with
  | nil => exact ⟨rfl, rfl⟩
  | cons o l ih =>
    obtain ⟨a, b, c⟩ := frozen_step h hp hc o
    obtain ⟨d, e⟩ := ih (inv_step h o) (pending_step hp o) a
    exact ⟨d.trans b, e.trans c⟩

theorem inCall_receive (s : State) (data : Bytes) : (step s (.receive data)).inCall = s.inCall := rfl

end SilKit.RawStream
