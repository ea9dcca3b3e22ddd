import Verif.Spec.Replay
namespace SilKit.Replay
open SilKit.Replay.Spec

theorem snoc_induction {α : Type} {P : List α → Prop} (nil : P []) (snoc : ∀ l x, P l → P (l ++ [x])) (l : List α) : P l := by
  rw [← List.reverse_reverse l]
  induction l.reverse with
  | nil => exact nil
  | cons x l ih => rw [List.reverse_cons]; exact snoc _ _ ih

/-! ## One task -/

theorem play_spec (e : Int) (ms : List Msg) :
    (play e ms).1 = ms.takeWhile (fun m => decide (m.time < e)) ∧
      ((play e ms).2.2 = true → ∀ m ∈ ms, m.time < e) ∧
      ((play e ms).2.2 = false → (play e ms).2.1 = ms.dropWhile (fun m => decide (m.time < e)) ∧ (play e ms).2.1 ≠ []) := by
  induction ms with
  | nil => simp [play]
  | cons m ms ih =>
    unfold play
    by_cases hm : m.time ≥ e
    · have : ¬ m.time < e := by omega
      simp [hm, this]
    · have hlt : m.time < e := by omega
      rw [if_neg hm]
      cases ms with
      | nil => simp [hlt]
      | cons m' ms' =>
        obtain ⟨h1, h2, h3⟩ := ih
        simp only
        refine ⟨?_, ?_, ?_⟩
        · show m :: (play e (m' :: ms')).1 = _
          rw [h1, List.takeWhile_cons (a := m)]
          simp [hlt]
        · intro hd x hx
          rcases List.mem_cons.1 hx with rfl | hx'
          · exact hlt
          · exact h2 hd x hx'
        · intro hd
          obtain ⟨g1, g2⟩ := h3 hd
          refine ⟨?_, g2⟩
          show (play e (m' :: ms')).2.1 = _
          rw [g1, List.dropWhile_cons (x := m)]
          simp [hlt]

/-- What a task has left after it was played up to `b`. -/
def TaskInv (ms : List Msg) (b : Option Int) (t : Task) : Prop :=
  match b with
  | none => t.done = false ∧ t.rest = ms
  | some b => (t.done = false ∧ t.rest = ms.dropWhile (fun m => decide (m.time < b))) ∨ (t.done = true ∧ ∀ m ∈ ms, m.time < b)

/-- The messages up to a bound. -/
def upTo (b : Option Int) (ms : List Msg) : List Msg :=
  match b with
  | none => []
  | some b => ms.takeWhile (fun m => decide (m.time < b))

theorem takeWhile_all {p : Msg → Bool} {ms : List Msg} (h : ∀ m ∈ ms, p m = true) : ms.takeWhile p = ms := by
  induction ms with
  | nil => rfl
  | cons m ms ih => rw [List.takeWhile_cons, h m (by simp), ih (fun x hx => h x (by simp [hx]))]; rfl

theorem takeWhile_mem {p : Msg → Bool} {ms : List Msg} {x : Msg} (h : x ∈ ms.takeWhile p) : p x = true := by
  induction ms with
  | nil => cases h
  | cons m ms ih =>
    rw [List.takeWhile_cons] at h
    split at h
    · rename_i hp
      rcases List.mem_cons.1 h with rfl | h'
      · exact hp
      · exact ih h'
    · cases h

theorem dropWhile_all {p : Msg → Bool} {ms : List Msg} (h : ∀ m ∈ ms, p m = true) : ms.dropWhile p = [] := by
  induction ms with
  | nil => rfl
  | cons m ms ih => rw [List.dropWhile_cons, h m (by simp), ih (fun x hx => h x (by simp [hx]))]; rfl

theorem upTo_mono (ms : List Msg) {b e : Int} (h : b ≤ e) :
    ms.takeWhile (fun m => decide (m.time < e)) = ms.takeWhile (fun m => decide (m.time < b)) ++
      (ms.dropWhile (fun m => decide (m.time < b))).takeWhile (fun m => decide (m.time < e)) := by
  induction ms with
  | nil => rfl
  | cons m ms ih =>
    by_cases hb : m.time < b
    · have : m.time < e := by omega
      simp only [List.takeWhile_cons, List.dropWhile_cons, hb, this, decide_true, if_true, List.cons_append, ih]
    · simp only [List.takeWhile_cons (p := fun m : Msg => decide (m.time < b)), List.dropWhile_cons, hb, decide_false, Bool.false_eq_true, if_false, List.nil_append]

theorem dropWhile_mono (ms : List Msg) {b e : Int} (h : b ≤ e) :
    (ms.dropWhile (fun m => decide (m.time < b))).dropWhile (fun m => decide (m.time < e)) = ms.dropWhile (fun m => decide (m.time < e)) := by
  induction ms with
  | nil => rfl
  | cons m ms ih =>
    by_cases hb : m.time < b
    · have : m.time < e := by omega
      simp only [List.dropWhile_cons, hb, this, decide_true, if_true, ih]
    · simp only [List.dropWhile_cons (p := fun m : Msg => decide (m.time < b)), hb, decide_false, Bool.false_eq_true, if_false]

theorem task_play {ms : List Msg} {b : Option Int} {t : Task} (h : TaskInv ms b t) (e : Int) (hb : ∀ x, b = some x → x ≤ e) :
    TaskInv ms (some e) (t.play e).1 ∧ (t.play e).1.ctl = t.ctl ∧
      ∃ new, (t.play e).2 = new.map (fun m => (t.ctl, m)) ∧ upTo (some e) ms = upTo b ms ++ new := by
  unfold Task.play
  by_cases hd : t.done = true
  · rw [if_pos hd]
    cases b with
    | none => rw [h.1] at hd; cases hd
    | some b =>
      have hbe := hb b rfl
      rcases h with h | h
      · rw [h.1] at hd; cases hd
      · refine ⟨.inr ⟨hd, fun m hm => by have := h.2 m hm; omega⟩, rfl, [], rfl, ?_⟩
        show ms.takeWhile _ = ms.takeWhile _ ++ []
        rw [List.append_nil, takeWhile_all (fun m hm => by have := h.2 m hm; simp; omega), takeWhile_all (fun m hm => by have := h.2 m hm; simp; omega)]
  · rw [if_neg hd]
    have hrest : ∃ q, t.rest = q ∧ upTo (some e) ms = upTo b ms ++ q.takeWhile (fun m => decide (m.time < e)) ∧
        (q.dropWhile (fun m => decide (m.time < e)) = ms.dropWhile (fun m => decide (m.time < e))) ∧
        ((∀ m ∈ q, m.time < e) → ∀ m ∈ ms, m.time < e) := by
      cases b with
      | none => exact ⟨ms, h.2, by simp [upTo], rfl, id⟩
      | some b =>
        have hbe := hb b rfl
        rcases h with h | h
        · refine ⟨_, h.2, upTo_mono ms hbe, dropWhile_mono ms hbe, fun hq m hm => ?_⟩
          rw [← List.takeWhile_append_dropWhile (p := fun m : Msg => decide (m.time < b)) (l := ms)] at hm
          rcases List.mem_append.1 hm with hm' | hm'
          · have := takeWhile_mem hm'
            simp at this
            omega
          · exact hq m hm'
        · exact absurd h.1 hd
    obtain ⟨q, h1, h2, h3, h4⟩ := hrest
    rw [h1]
    obtain ⟨g1, g2, g3⟩ := play_spec e q
    refine ⟨?_, rfl, (play e q).1, rfl, by rw [h2, g1]⟩
    by_cases hx : (play e q).2.2 = true
    · exact .inr ⟨hx, h4 (g2 hx)⟩
    · have hx' : (play e q).2.2 = false := by simpa using hx
      exact .inl ⟨hx', (g3 hx').1.trans h3⟩

/-! ## Effects of one controller -/

def part (id : Nat) (es : List (Nat × Effect)) : List Effect := es.filterMap fun p => if p.1 = id then some p.2 else none

def sentOf (es : List Effect) : List (Int × List UInt8) := es.filterMap fun | .sent t d => some (t, d) | _ => none
def deliveredOf (es : List Effect) : List (Int × List UInt8) := es.filterMap fun | .delivered t d => some (t, d) | _ => none

theorem sends_eq (id : Nat) (es : List (Nat × Effect)) : sends id es = sentOf (part id es) := by
  induction es with
  | nil => rfl
  | cons e es ih =>
    obtain ⟨i, e⟩ := e
    unfold sends part sentOf at *
    by_cases h : i = id
    · cases e <;> simp [h, ih]
    · cases e <;> simp [h, ih]

theorem deliveries_eq (id : Nat) (es : List (Nat × Effect)) : deliveries id es = deliveredOf (part id es) := by
  induction es with
  | nil => rfl
  | cons e es ih =>
    obtain ⟨i, e⟩ := e
    unfold deliveries part deliveredOf at *
    by_cases h : i = id
    · cases e <;> simp [h, ih]
    · cases e <;> simp [h, ih]

theorem part_append (id : Nat) (a b : List (Nat × Effect)) : part id (a ++ b) = part id a ++ part id b := List.filterMap_append

theorem part_map (id i : Nat) (l : List Effect) : part id (l.map (fun e => (i, e))) = if i = id then l else [] := by
  induction l with
  | nil => simp [part]
  | cons e l ih =>
    unfold part at *
    by_cases h : i = id
    · simp [h] at ih ⊢; exact ih
    · simp [h] at ih ⊢

theorem part_at (s : State) (id i : Nat) (f : Ctl → List Effect) :
    part id (s.at i f) = if i = id then (match s.ctls.find? (fun c => decide (c.id = id)) with | none => [] | some c => f c) else [] := by
  unfold State.at
  by_cases h : i = id
  · subst h
    cases s.ctls.find? (fun c => decide (c.id = i)) with
    | none => simp [part]
    | some c => simp [part_map]
  · cases s.ctls.find? (fun c => decide (c.id = i)) with
    | none => simp [part, h]
    | some c => simp [part_map, h]

theorem part_flatMap_at (s : State) (id : Nat) (ps : List (Nat × Msg)) (g : Msg → Ctl → List Effect) {c : Ctl}
    (hc : s.ctls.find? (fun c => decide (c.id = id)) = some c) :
    part id (ps.flatMap (fun p => s.at p.1 (g p.2))) = ((ps.filter (fun p => decide (p.1 = id))).map (·.2)).flatMap (fun m => g m c) := by
  induction ps with
  | nil => rfl
  | cons p ps ih =>
    rw [List.flatMap_cons, part_append, ih, part_at, hc]
    by_cases h : p.1 = id
    · simp [h]
    · simp [h]

theorem part_flatMap_at_none (s : State) (id : Nat) (ps : List (Nat × Msg)) (g : Msg → Ctl → List Effect)
    (hc : s.ctls.find? (fun c => decide (c.id = id)) = none) :
    part id (ps.flatMap (fun p => s.at p.1 (g p.2))) = [] := by
  induction ps with
  | nil => rfl
  | cons p ps ih =>
    rw [List.flatMap_cons, part_append, ih, part_at, hc]
    simp

theorem play_others {ts : List Task} {id : Nat} {e : Int} :
    (playTasks e ts).1.filter (fun t => decide (t.ctl = id)) = (ts.filter (fun t => decide (t.ctl = id))).map (fun t => (t.play e).1) ∧
    (playTasks e ts).2.filter (fun p => decide (p.1 = id)) = (ts.filter (fun t => decide (t.ctl = id))).flatMap (fun t => (t.play e).2) := by
  have hctl : ∀ t : Task, (t.play e).1.ctl = t.ctl := by
    intro t; unfold Task.play; split <;> rfl
  have hout : ∀ t : Task, (t.play e).2.filter (fun p => decide (p.1 = id)) = if t.ctl = id then (t.play e).2 else [] := by
    intro t
    have hall : ∀ p ∈ (t.play e).2, p.1 = t.ctl := by
      intro p hp
      unfold Task.play at hp
      split at hp
      · cases hp
      · simp only [List.mem_map] at hp
        obtain ⟨m, _, rfl⟩ := hp
        rfl
    by_cases h : t.ctl = id
    · rw [if_pos h, List.filter_eq_self.2]
      intro p hp
      simp [hall p hp, h]
    · rw [if_neg h, List.filter_eq_nil_iff.2]
      intro p hp
      simp [hall p hp, h]
  induction ts with
  | nil => exact ⟨rfl, rfl⟩
  | cons t ts ih =>
    obtain ⟨h1, h2⟩ := ih
    unfold playTasks at *
    simp only at *
    by_cases h : t.ctl = id
    · constructor
      · rw [List.map_cons, List.filter_cons, List.filter_cons, hctl]
        simp [h, h1]
      · rw [List.flatMap_cons, List.filter_append, hout, h2, List.filter_cons]
        simp [h]
    · constructor
      · rw [List.map_cons, List.filter_cons, List.filter_cons, hctl]
        simp [h, h1]
      · rw [List.flatMap_cons, List.filter_append, hout, h2, List.filter_cons]
        simp [h]

/-! ## Histories -/

theorem run_snoc (files : List (Nat × List Msg)) (h : List In) (i : In) : run files (h ++ [i]) = exec (run files h) i := by
  unfold run
  rw [List.foldl_append]
  rfl

theorem steps_append (a b : List In) : steps (a ++ b) = steps a ++ steps b := List.filterMap_append

theorem create_ctls (s : State) (c : Ctl) : (create s c).ctls = s.ctls ++ [c] := by
  unfold create configure
  split
  · rfl
  · split
    · rfl
    · split <;> rfl

theorem create_rest (s : State) (c : Ctl) : (create s c).start = s.start ∧ (create s c).now = s.now ∧ (create s c).files = s.files := by
  unfold create configure
  split
  · exact ⟨rfl, rfl, rfl⟩
  · split
    · exact ⟨rfl, rfl, rfl⟩
    · split <;> exact ⟨rfl, rfl, rfl⟩

/-- The channel that a controller replays. -/
def channel (files : List (Nat × List Msg)) (cfg : Config) : Option (List Msg) :=
  if valid cfg then cfg.source.bind (fun n => files.lookup n) else none

theorem create_tasks (s : State) (c : Ctl) :
    (create s c).tasks = match channel s.files c.cfg with
      | none => s.tasks
      | some ms => s.tasks ++ [{ ctl := c.id, rest := ms }] := by
  unfold create configure channel
  by_cases he : s.files.isEmpty = true
  · have hn : s.files = [] := List.isEmpty_iff.1 he
    have : ∀ o : Option Nat, o.bind (fun n => s.files.lookup n) = none := by
      intro o; rw [hn]; cases o <;> rfl
    simp [hn]
  · simp only [he, Bool.false_eq_true, if_false]
    by_cases hv : valid c.cfg = true
    · simp only [hv, Bool.not_true, Bool.false_eq_true, if_false, if_true]
      cases c.cfg.source.bind (fun n => s.files.lookup n) <;> rfl
    · simp [hv]

/-- Facts that hold in every history. -/
structure Base (files : List (Nat × List Msg)) (h : List In) (s : State) : Prop where
  files : s.files = files
  start : s.start = (steps h).head?.map (·.1)
  now : s.now = nowAfter h

theorem nowAfter_snoc (h : List In) (n d : Int) : nowAfter (h ++ [.step n d]) = n := by
  unfold nowAfter
  rw [steps_append]
  show (match (steps h ++ [(n, d)]).getLast? with | none => _ | some (n, _) => n) = n
  rw [List.getLast?_concat]

theorem nowAfter_other (h : List In) (i : In) (hi : steps [i] = []) : nowAfter (h ++ [i]) = nowAfter h := by
  unfold nowAfter
  rw [steps_append, hi, List.append_nil]

theorem base (files : List (Nat × List Msg)) (h : List In) : Base files h (run files h).1 := by
  induction h using snoc_induction with
  | nil => exact ⟨rfl, rfl, rfl⟩
  | snoc h i ih =>
    rw [run_snoc]
    obtain ⟨h1, h2, h3⟩ := ih
    cases i with
    | create c =>
      obtain ⟨g1, g2, g3⟩ := create_rest (run files h).1 c
      refine ⟨g3.trans h1, ?_, ?_⟩
      · rw [steps_append]
        exact (g1.trans h2).trans (by simp [steps])
      · rw [nowAfter_other _ _ rfl]
        exact g2.trans h3
    | step n d =>
      refine ⟨h1, ?_, ?_⟩
      · show some ((run files h).1.start.getD n) = _
        rw [h2, steps_append]
        cases hs : steps h with
        | nil => rfl
        | cons x l => rfl
      · rw [nowAfter_snoc]
        rfl
    | send id data => exact ⟨h1, by rw [steps_append]; exact h2.trans (by simp [steps]), by rw [nowAfter_other _ _ rfl]; exact h3⟩
    | receive id t data => exact ⟨h1, by rw [steps_append]; exact h2.trans (by simp [steps]), by rw [nowAfter_other _ _ rfl]; exact h3⟩

/-- Before the controller is created. -/
structure Before (id : Nat) (p : State × List (Nat × Effect)) : Prop where
  ctl : p.1.ctls.find? (fun c => decide (c.id = id)) = none
  task : p.1.tasks.filter (fun t => decide (t.ctl = id)) = []
  effects : part id p.2 = []

theorem before (files : List (Nat × List Msg)) (id : Nat) (h : List In) (hc : ∀ c', .create c' ∈ h → c'.id ≠ id) : Before id (run files h) := by
  induction h using snoc_induction with
  | nil => exact ⟨rfl, rfl, rfl⟩
  | snoc h i ih =>
    have ih := ih (fun c' hm => hc c' (by simp [hm]))
    rw [run_snoc]
    obtain ⟨h1, h2, h3⟩ := ih
    cases i with
    | create c =>
      have hne : c.id ≠ id := hc c (by simp)
      refine ⟨?_, ?_, ?_⟩
      · show (create (run files h).1 c).ctls.find? _ = none
        rw [create_ctls, List.find?_append, h1]
        simp [hne]
      · show (create (run files h).1 c).tasks.filter _ = []
        rw [create_tasks]
        split
        · exact h2
        · rw [List.filter_append, h2]
          simp [hne]
      · show part id ((run files h).2 ++ []) = []
        rw [List.append_nil]; exact h3
    | step n d =>
      refine ⟨h1, ?_, ?_⟩
      · show (playTasks _ (run files h).1.tasks).1.filter _ = []
        rw [play_others.1, h2]
        rfl
      · show part id ((run files h).2 ++ _) = []
        rw [part_append, h3]
        exact part_flatMap_at_none _ id _ (fun m c => replayMessage c.kind c.cfg n m) h1
    | send i data =>
      refine ⟨h1, h2, ?_⟩
      show part id ((run files h).2 ++ (run files h).1.at i _) = []
      rw [part_append, h3, part_at, h1]
      simp
    | receive i t data =>
      refine ⟨h1, h2, ?_⟩
      show part id ((run files h).2 ++ (run files h).1.at i _) = []
      rw [part_append, h3, part_at, h1]
      simp

/-! ## Contiguous steps -/

theorem contiguous_snoc {l : List (Int × Int)} {n d : Int} (h : Contiguous (l ++ [(n, d)])) : Contiguous l ∧ 0 ≤ d ∧ (l ≠ [] → n = endOf l) := by
  induction l with
  | nil => exact ⟨trivial, h, fun h => absurd rfl h⟩
  | cons x l ih =>
    obtain ⟨n0, d0⟩ := x
    cases l with
    | nil =>
      obtain ⟨h1, h2, h3⟩ := h
      exact ⟨h1, h3, fun _ => h2⟩
    | cons y l =>
      obtain ⟨n1, d1⟩ := y
      obtain ⟨h1, h2, h3⟩ := h
      obtain ⟨g1, g2, g3⟩ := ih h3
      refine ⟨⟨h1, h2, g1⟩, g2, fun _ => ?_⟩
      rw [g3 (by simp)]
      unfold endOf
      rw [List.getLast?_cons_cons]

theorem endOf_snoc (l : List (Int × Int)) (n d : Int) : endOf (l ++ [(n, d)]) = n + d := by
  unfold endOf
  rw [List.getLast?_concat]

theorem startOf_snoc (l : List (Int × Int)) (n d : Int) : (l.head?.map (·.1)).getD n = startOf (l ++ [(n, d)]) := by
  cases l with
  | nil => rfl
  | cons x l => rfl

theorem startOf_snoc' {l : List (Int × Int)} (h : l ≠ []) (x : Int × Int) : startOf (l ++ [x]) = startOf l := by
  cases l with
  | nil => exact absurd rfl h
  | cons y l => rfl

/-! ## After the controller was created -/

/-- How far it has been replayed, relative to the start. -/
def bound (pre post : List In) : Option Int :=
  if steps post = [] then none else some (endOf (steps (pre ++ post)) - startOf (steps (pre ++ post)))

theorem due_eq (ms : List Msg) (pre post : List In) : due ms pre post = upTo (bound pre post) ms := by
  unfold due bound upTo
  split
  · rfl
  · simp only
    congr 1
    funext m
    exact decide_eq_decide.2 (by constructor <;> intro h <;> omega)

theorem bound_other (pre post : List In) (i : In) (hi : steps [i] = []) : bound pre (post ++ [i]) = bound pre post := by
  unfold bound
  rw [← List.append_assoc, steps_append, steps_append _ [i], hi, List.append_nil, List.append_nil]

structure After (files : List (Nat × List Msg)) (c : Ctl) (pre post : List In) (p : State × List (Nat × Effect)) : Prop where
  ctl : p.1.ctls.find? (fun c' => decide (c'.id = c.id)) = some c
  task : match channel files c.cfg with
    | none => p.1.tasks.filter (fun t => decide (t.ctl = c.id)) = []
    | some ms => ∃ t, p.1.tasks.filter (fun t => decide (t.ctl = c.id)) = [t] ∧ TaskInv ms (bound pre post) t

/-- What a step replays for the controller. -/
def newDue (files : List (Nat × List Msg)) (c : Ctl) (pre post : List In) (i : In) (new : List Msg) : Prop :=
  match channel files c.cfg with
  | none => new = []
  | some ms => upTo (bound pre (post ++ [i])) ms = upTo (bound pre post) ms ++ new

/-- The effects of an event at the controller. -/
def effectOf (c : Ctl) (now : Int) (new : List Msg) : In → List Effect
  | .create _ => []
  | .step n _ => new.flatMap (fun m => replayMessage c.kind c.cfg n m)
  | .send j data => if j = c.id then userSend c.kind c.cfg now data else []
  | .receive j t data => if j = c.id then networkReceive c.kind c.cfg t data else []

theorem steps_create (pre post : List In) (c : Ctl) : steps (pre ++ .create c :: post) = steps (pre ++ post) := by
  rw [steps_append, steps_append]
  rfl

theorem after_snoc {files : List (Nat × List Msg)} {c : Ctl} {pre post : List In} {i : In}
    (hc : ∀ c', i = .create c' → c'.id ≠ c.id) (hs : Contiguous (steps (pre ++ post ++ [i])))
    (h : After files c pre post (run files (pre ++ .create c :: post))) :
    After files c pre (post ++ [i]) (run files (pre ++ .create c :: (post ++ [i]))) ∧
    ∃ new, newDue files c pre post i new ∧
      part c.id (run files (pre ++ .create c :: (post ++ [i]))).2 = part c.id (run files (pre ++ .create c :: post)).2 ++
        effectOf c (nowAfter (pre ++ post)) new i := by
  have hrun : run files (pre ++ .create c :: (post ++ [i])) = exec (run files (pre ++ .create c :: post)) i := by
    rw [← run_snoc, List.append_assoc]; rfl
  have hb := base files (pre ++ .create c :: post)
  rw [hrun]
  obtain ⟨h1, h2⟩ := h
  cases i with
  | create c' =>
    have hne : c'.id ≠ c.id := hc c' rfl
    refine ⟨⟨?_, ?_⟩, [], ?_, ?_⟩
    · show (create _ c').ctls.find? _ = some c
      rw [create_ctls, List.find?_append, h1]
      rfl
    · have ht : (exec (run files (pre ++ .create c :: post)) (.create c')).1.tasks.filter (fun t => decide (t.ctl = c.id)) =
          (run files (pre ++ .create c :: post)).1.tasks.filter (fun t => decide (t.ctl = c.id)) := by
        show (create _ c').tasks.filter _ = _
        rw [create_tasks]
        split
        · rfl
        · rw [List.filter_append]
          simp [hne]
      rw [ht, bound_other _ _ _ rfl]
      exact h2
    · unfold newDue
      rw [bound_other _ _ _ rfl]
      split <;> simp
    · show part c.id ((run files (pre ++ .create c :: post)).2 ++ []) = part c.id (run files (pre ++ .create c :: post)).2 ++ []
      rw [List.append_nil, List.append_nil]
  | step n d =>
    have hsteps : steps (pre ++ (post ++ [.step n d])) = steps (pre ++ post) ++ [(n, d)] := by
      rw [← List.append_assoc, steps_append _ [.step n d]]; rfl
    have hcon : Contiguous (steps (pre ++ post) ++ [(n, d)]) := by
      rw [steps_append _ [.step n d]] at hs
      exact hs
    obtain ⟨k1, k2, k3⟩ := contiguous_snoc hcon
    have hbnew : bound pre (post ++ [.step n d]) = some (n + d - startOf (steps (pre ++ post) ++ [(n, d)])) := by
      unfold bound
      have hne : steps (post ++ [.step n d]) ≠ [] := by
        rw [steps_append]
        show steps post ++ [(n, d)] ≠ []
        simp
      rw [if_neg hne, hsteps, endOf_snoc]
    have hstart : (run files (pre ++ .create c :: post)).1.start.getD n = startOf (steps (pre ++ post) ++ [(n, d)]) := by
      rw [hb.start, steps_create, startOf_snoc]
    have he : n - (run files (pre ++ .create c :: post)).1.start.getD n + d = n + d - startOf (steps (pre ++ post) ++ [(n, d)]) := by
      rw [hstart]; omega
    have hmono : ∀ x, bound pre post = some x → x ≤ n + d - startOf (steps (pre ++ post) ++ [(n, d)]) := by
      intro x hx
      unfold bound at hx
      split at hx
      · cases hx
      · rename_i hne
        injection hx with hx
        have hne' : steps (pre ++ post) ≠ [] := by
          rw [steps_append]
          intro h0
          exact hne (List.append_eq_nil_iff.1 h0).2
        rw [startOf_snoc' hne']
        have := k3 hne'
        omega
    have htasks : (exec (run files (pre ++ .create c :: post)) (.step n d)).1.tasks =
        (playTasks (n + d - startOf (steps (pre ++ post) ++ [(n, d)])) (run files (pre ++ .create c :: post)).1.tasks).1 := by
      rw [← he]; rfl
    have heff : part c.id (exec (run files (pre ++ .create c :: post)) (.step n d)).2 = part c.id (run files (pre ++ .create c :: post)).2 ++
        (((playTasks (n + d - startOf (steps (pre ++ post) ++ [(n, d)])) (run files (pre ++ .create c :: post)).1.tasks).2.filter
          (fun p => decide (p.1 = c.id))).map (·.2)).flatMap (fun m => replayMessage c.kind c.cfg n m) := by
      rw [← he]
      show part c.id ((run files (pre ++ .create c :: post)).2 ++ _) = _
      rw [part_append]
      congr 1
      exact part_flatMap_at _ c.id _ (fun m c => replayMessage c.kind c.cfg n m) (c := c) h1
    rw [heff, play_others.2]
    cases hch : channel files c.cfg with
    | none =>
      rw [hch] at h2
      refine ⟨⟨h1, ?_⟩, [], ?_, ?_⟩
      · rw [hch]
        simp only at h2 ⊢
        rw [htasks, play_others.1, h2]
        rfl
      · unfold newDue
        rw [hch]
      · simp only at h2
        rw [h2]
        rfl
    | some ms =>
      rw [hch] at h2
      obtain ⟨t, h3, h4⟩ := h2
      obtain ⟨i1, i2, new, i3, i4⟩ := task_play h4 _ hmono
      have htc : t.ctl = c.id := by
        have : t ∈ (run files (pre ++ .create c :: post)).1.tasks.filter (fun t => decide (t.ctl = c.id)) := by rw [h3]; simp
        simpa using (List.mem_filter.1 this).2
      refine ⟨⟨h1, ?_⟩, new, ?_, ?_⟩
      · rw [hch]
        refine ⟨(t.play (n + d - startOf (steps (pre ++ post) ++ [(n, d)]))).1, ?_, ?_⟩
        · rw [htasks, play_others.1, h3]
          rfl
        · rw [hbnew]; exact i1
      · unfold newDue
        rw [hch]
        simp only
        rw [hbnew]
        exact i4
      · rw [h3]
        simp only [List.flatMap_cons, List.flatMap_nil, List.append_nil]
        rw [i3, List.map_map]
        congr 1
        show List.flatMap (fun m => replayMessage c.kind c.cfg n m) (List.map (fun m => m) new) = new.flatMap (fun m => replayMessage c.kind c.cfg n m)
        rw [List.map_id']
  | send j data =>
    refine ⟨⟨h1, ?_⟩, [], ?_, ?_⟩
    · rw [bound_other _ _ _ rfl]
      exact h2
    · unfold newDue
      rw [bound_other _ _ _ rfl]
      split <;> simp
    · show part c.id ((run files (pre ++ .create c :: post)).2 ++ (run files (pre ++ .create c :: post)).1.at j _) = _
      rw [part_append, part_at, h1, hb.now]
      have : nowAfter (pre ++ .create c :: post) = nowAfter (pre ++ post) := by unfold nowAfter; rw [steps_create]
      rw [this]
      rfl
  | receive j t data =>
    refine ⟨⟨h1, ?_⟩, [], ?_, ?_⟩
    · rw [bound_other _ _ _ rfl]
      exact h2
    · unfold newDue
      rw [bound_other _ _ _ rfl]
      split <;> simp
    · show part c.id ((run files (pre ++ .create c :: post)).2 ++ (run files (pre ++ .create c :: post)).1.at j _) = _
      rw [part_append, part_at, h1]
      rfl

theorem after_init {files : List (Nat × List Msg)} {c : Ctl} {pre : List In} (hc : ∀ c', .create c' ∈ pre → c'.id ≠ c.id) :
    After files c pre [] (run files (pre ++ [.create c])) ∧ part c.id (run files (pre ++ [.create c])).2 = [] := by
  rw [run_snoc]
  obtain ⟨h1, h2, h3⟩ := before files c.id pre hc
  have hb := base files pre
  refine ⟨⟨?_, ?_⟩, ?_⟩
  · show (create (run files pre).1 c).ctls.find? _ = some c
    rw [create_ctls, List.find?_append, h1]
    simp
  · have ht : (exec (run files pre) (.create c)).1.tasks = match channel files c.cfg with
        | none => (run files pre).1.tasks
        | some ms => (run files pre).1.tasks ++ [{ ctl := c.id, rest := ms }] := by
      have := create_tasks (run files pre).1 c
      rw [hb.files] at this
      exact this
    rw [ht]
    cases channel files c.cfg with
    | none => exact h2
    | some ms =>
      refine ⟨{ ctl := c.id, rest := ms }, ?_, ⟨rfl, rfl⟩⟩
      simp only
      rw [List.filter_append, h2]
      simp
  · show part c.id ((run files pre).2 ++ []) = []
    rw [List.append_nil]; exact h3

theorem contiguous_prefix {a b : List (Int × Int)} (h : Contiguous (a ++ b)) : Contiguous a := by
  induction b using snoc_induction with
  | nil => simpa using h
  | snoc b x ih =>
    obtain ⟨n, d⟩ := x
    rw [← List.append_assoc] at h
    exact ih (contiguous_snoc h).1

/-- Everything after the creation of the controller. -/
theorem after {files : List (Nat × List Msg)} {c : Ctl} {pre post : List In} (hc : CreatedOnce c pre post) (hs : Contiguous (steps (pre ++ post))) :
    After files c pre post (run files (pre ++ .create c :: post)) := by
  induction post using snoc_induction with
  | nil => exact (after_init hc.1).1
  | snoc post i ih =>
    have hs' : Contiguous (steps (pre ++ post ++ [i])) := by rw [List.append_assoc]; exact hs
    have hs0 : Contiguous (steps (pre ++ post)) := by
      rw [steps_append] at hs'
      exact contiguous_prefix hs'
    exact (after_snoc (fun c' hi => hc.2 c' (by simp [hi])) hs' (ih ⟨hc.1, fun c' hm => hc.2 c' (by simp [hm])⟩ hs0)).1

theorem sentOf_append (a b : List Effect) : sentOf (a ++ b) = sentOf a ++ sentOf b := List.filterMap_append
theorem deliveredOf_append (a b : List Effect) : deliveredOf (a ++ b) = deliveredOf a ++ deliveredOf b := List.filterMap_append

theorem channel_of {files : List (Nat × List Msg)} {cfg : Config} {n : Nat} {ms : List Msg} {d : Active} (he : enabledFor cfg d = true)
    (hn : cfg.source = some n) (hl : files.lookup n = some ms) : channel files cfg = some ms ∧ valid cfg = true := by
  have hv : valid cfg = true := by
    unfold enabledFor at he
    unfold valid
    rw [hn]
    split at he
    · cases he
    · rename_i h
      simp [h]
  unfold channel
  rw [if_pos hv, hn]
  exact ⟨hl, hv⟩

/-- The sends of a replaying controller for some messages. -/
theorem sentOf_replay {c : Ctl} (hk : c.kind ≠ .subscriber) (he : enabledFor c.cfg .send = true) (hv : valid c.cfg = true) (now : Int) (new : List Msg) :
    sentOf (new.flatMap (fun m => replayMessage c.kind c.cfg now m)) = (new.filter (fun m => decide (m.dir = .tx))).map (fun m => (now, m.data)) := by
  induction new with
  | nil => rfl
  | cons m new ih =>
    rw [List.flatMap_cons, sentOf_append, ih]
    cases hd : m.dir <;> cases hk' : c.kind <;> simp [replayMessage, hd, he, hv, sentOf, hk'] at hk ⊢
    all_goals (cases enabledFor c.cfg .receive <;> simp)

theorem sentOf_no_replay {c : Ctl} (he : enabledFor c.cfg .send = false) (now : Int) (new : List Msg) :
    sentOf (new.flatMap (fun m => replayMessage c.kind c.cfg now m)) = [] := by
  induction new with
  | nil => rfl
  | cons m new ih =>
    rw [List.flatMap_cons, sentOf_append, ih]
    cases hd : m.dir <;> cases hk' : c.kind <;> simp [replayMessage, hd, he, sentOf]
    all_goals (cases enabledFor c.cfg .receive <;> cases valid c.cfg <;> simp)

theorem deliveredOf_replay {c : Ctl} (hk : c.kind ≠ .publisher) (he : enabledFor c.cfg .receive = true) (hv : valid c.cfg = true) (now : Int) (new : List Msg) :
    deliveredOf (new.flatMap (fun m => replayMessage c.kind c.cfg now m)) = (new.filter (fun m => decide (m.dir = .rx))).map (fun m => (m.time, m.data)) := by
  induction new with
  | nil => rfl
  | cons m new ih =>
    rw [List.flatMap_cons, deliveredOf_append, ih]
    cases hd : m.dir <;> cases hk' : c.kind <;> simp [replayMessage, hd, he, hv, deliveredOf, hk'] at hk ⊢
    all_goals (cases enabledFor c.cfg .send <;> simp)

theorem deliveredOf_no_replay {c : Ctl} (he : enabledFor c.cfg .receive = false) (now : Int) (new : List Msg) :
    deliveredOf (new.flatMap (fun m => replayMessage c.kind c.cfg now m)) = [] := by
  induction new with
  | nil => rfl
  | cons m new ih =>
    rw [List.flatMap_cons, deliveredOf_append, ih]
    cases hd : m.dir <;> cases hk' : c.kind <;> simp [replayMessage, hd, he, deliveredOf]
    all_goals (cases enabledFor c.cfg .send <;> cases valid c.cfg <;> simp)

/-- One more event. -/
theorem sends_snoc {files : List (Nat × List Msg)} {c : Ctl} {pre post : List In} {i : In} (hc : CreatedOnce c pre (post ++ [i]))
    (hs : Contiguous (steps (pre ++ (post ++ [i])))) :
    ∃ new, newDue files c pre post i new ∧
      part c.id (run files (pre ++ .create c :: (post ++ [i]))).2 = part c.id (run files (pre ++ .create c :: post)).2 ++
        effectOf c (nowAfter (pre ++ post)) new i := by
  rw [← List.append_assoc] at hs
  have hs0 : Contiguous (steps (pre ++ post)) := by
    rw [steps_append] at hs
    exact contiguous_prefix hs
  exact (after_snoc (fun c' hi => hc.2 c' (by simp [hi])) hs (after ⟨hc.1, fun c' hm => hc.2 c' (by simp [hm])⟩ hs0)).2

theorem prefix_hyps {c : Ctl} {pre post : List In} {i : In} (hc : CreatedOnce c pre (post ++ [i])) (hs : Contiguous (steps (pre ++ (post ++ [i])))) :
    CreatedOnce c pre post ∧ Contiguous (steps (pre ++ post)) := by
  refine ⟨⟨hc.1, fun c' hm => hc.2 c' (by simp [hm])⟩, ?_⟩
  rw [← List.append_assoc, steps_append] at hs
  exact contiguous_prefix hs

theorem newDue_other {files : List (Nat × List Msg)} {c : Ctl} {pre post : List In} {i : In} {new : List Msg} (hi : steps [i] = [])
    (h : newDue files c pre post i new) : new = [] := by
  unfold newDue at h
  rw [bound_other _ _ _ hi] at h
  split at h
  · exact h
  · have := congrArg List.length h
    rw [List.length_append] at this
    exact List.eq_nil_of_length_eq_zero (by omega)

theorem userSends_snoc (id : Nat) (now : Int) (h : List In) (i : In) :
    userSends id now (h ++ [i]) = userSends id now h ++ userSends id ((steps h).getLast?.elim now (·.1)) [i] := by
  induction h generalizing now with
  | nil => rfl
  | cons x h ih =>
    cases x with
    | create c => exact ih now
    | step n d =>
      have e : ((steps (.step n d :: h)).getLast?.elim now (·.1)) = (steps h).getLast?.elim n (·.1) := by
        show (((n, d) :: steps h).getLast?.elim now (·.1)) = _
        cases steps h with
        | nil => rfl
        | cons y l => rw [List.getLast?_cons_cons, List.getLast?_cons]; rfl
      rw [e]
      exact ih n
    | send j data =>
      have e : ((steps (.send j data :: h)).getLast?.elim now (·.1)) = (steps h).getLast?.elim now (·.1) := rfl
      rw [e]
      show (if j = id then (now, data) :: userSends id now (h ++ [i]) else userSends id now (h ++ [i])) =
        (if j = id then (now, data) :: userSends id now h else userSends id now h) ++ _
      rw [ih now]
      split <;> rfl
    | receive j t data => exact ih now

theorem nowAfter_append (pre post : List In) : nowAfter (pre ++ post) = (steps post).getLast?.elim (nowAfter pre) (·.1) := by
  unfold nowAfter
  rw [steps_append, List.getLast?_append]
  cases (steps post).getLast? with
  | none => rfl
  | some x => rfl

theorem flatMap_congr' {α β : Type} {l : List α} {f g : α → List β} (h : ∀ a ∈ l, f a = g a) : l.flatMap f = l.flatMap g := by
  induction l with
  | nil => rfl
  | cons a l ih => rw [List.flatMap_cons, List.flatMap_cons, h a (by simp), ih (fun b hb => h b (by simp [hb]))]

theorem takeWhile_sorted {ms : List Msg} (h : ms.Pairwise (fun a b => a.time ≤ b.time)) (b : Int) :
    ms.takeWhile (fun m => decide (m.time < b)) = ms.filter (fun m => decide (m.time < b)) := by
  induction ms with
  | nil => rfl
  | cons m ms ih =>
    rw [List.takeWhile_cons, List.filter_cons, ih (List.pairwise_cons.1 h).2]
    by_cases hb : m.time < b
    · simp only [hb, decide_true, if_true]
    · simp only [hb, decide_false, Bool.false_eq_true, if_false]
      symm
      rw [List.filter_eq_nil_iff]
      intro x hx
      have := (List.pairwise_cons.1 h).1 x hx
      simp only [decide_eq_true_eq]
      omega

theorem contiguous_cons {n d : Int} {r : List (Int × Int)} (h : Contiguous ((n, d) :: r)) : 0 ≤ d ∧ Contiguous r ∧ ∀ s ∈ r, n + d ≤ s.1 := by
  induction r generalizing n d with
  | nil => exact ⟨h, trivial, by simp⟩
  | cons x r ih =>
    obtain ⟨n', d'⟩ := x
    obtain ⟨h1, h2, h3⟩ := h
    obtain ⟨k1, k2, k3⟩ := ih h3
    refine ⟨h1, h3, fun s hs => ?_⟩
    rcases List.mem_cons.1 hs with rfl | hs'
    · show n + d ≤ n'; omega
    · have := k3 s hs'; omega

theorem userSends_mem (id : Nat) (now : Int) (h : List In) : ∀ x ∈ userSends id now h, x.1 = now ∨ ∃ s ∈ steps h, x.1 = s.1 := by
  induction h generalizing now with
  | nil => intro x hx; cases hx
  | cons i h ih =>
    cases i with
    | create c => exact ih now
    | receive j t d => exact ih now
    | step n d =>
      intro x hx
      rcases ih n x hx with h1 | ⟨s, h1, h2⟩
      · exact .inr ⟨(n, d), by simp [steps], h1⟩
      · exact .inr ⟨s, List.mem_cons_of_mem _ h1, h2⟩
    | send j data =>
      intro x hx
      unfold userSends at hx
      by_cases hj : j = id
      · rw [if_pos hj] at hx
        rcases List.mem_cons.1 hx with rfl | hx'
        · exact .inl rfl
        · exact ih now x hx'
      · rw [if_neg hj] at hx
        exact ih now x hx

theorem userSends_sorted (id : Nat) (now : Int) (h : List In) (hs : Contiguous (steps h)) (hn : ∀ s ∈ steps h, now ≤ s.1) :
    (userSends id now h).Pairwise (fun a b => a.1 ≤ b.1) := by
  induction h generalizing now with
  | nil => exact List.Pairwise.nil
  | cons i h ih =>
    cases i with
    | create c => exact ih now hs hn
    | receive j t d => exact ih now hs hn
    | step n d =>
      obtain ⟨h1, h2, h3⟩ := contiguous_cons (n := n) (d := d) hs
      exact ih n h2 (fun s hx => by have := h3 s hx; omega)
    | send j data =>
      unfold userSends
      by_cases hj : j = id
      · rw [if_pos hj, List.pairwise_cons]
        refine ⟨fun x hx => ?_, ih now hs hn⟩
        rcases userSends_mem id now h x hx with h1 | ⟨s, h1, h2⟩
        · show now ≤ x.1; omega
        · have := hn s h1; show now ≤ x.1; omega
      · rw [if_neg hj]; exact ih now hs hn

/-- A sorted list, grouped by the steps in which its elements are. -/
theorem group_steps {α : Type} (S : List (Int × Int)) (hs : Contiguous S) (hd : ∀ s ∈ S, 0 < s.2) (l : List (Int × α))
    (hl : l.Pairwise (fun a b => a.1 ≤ b.1)) (ht : ∀ x ∈ l, ∃ s ∈ S, x.1 = s.1) :
    S.flatMap (fun s => l.filter (fun x => decide (x.1 = s.1))) = l := by
  induction S generalizing l with
  | nil =>
    cases l with
    | nil => rfl
    | cons x l => obtain ⟨s, h, _⟩ := ht x (by simp); cases h
  | cons s S ih =>
    obtain ⟨n, d⟩ := s
    obtain ⟨_, h2, h3⟩ := contiguous_cons hs
    have hd0 : 0 < d := hd (n, d) (by simp)
    have hsplit : l = l.filter (fun x => decide (x.1 = n)) ++ l.filter (fun x => !decide (x.1 = n)) := by
      clear ih
      induction l with
      | nil => rfl
      | cons x l ihl =>
        have ihl := ihl (List.pairwise_cons.1 hl).2 (fun y hy => ht y (by simp [hy]))
        have hle := (List.pairwise_cons.1 hl).1
        by_cases hx : x.1 = n
        · rw [List.filter_cons, List.filter_cons]
          simp only [hx, decide_true, if_true, Bool.not_true, Bool.false_eq_true, if_false, List.cons_append]
          rw [← ihl]
        · have hgt : ∀ y ∈ x :: l, y.1 ≠ n := by
            intro y hy
            obtain ⟨s, hs1, hs2⟩ := ht x (by simp)
            have hxn : n + d ≤ x.1 := by
              rcases List.mem_cons.1 hs1 with rfl | hs3
              · exact absurd hs2 hx
              · have := h3 s hs3; omega
            rcases List.mem_cons.1 hy with rfl | hy'
            · exact hx
            · have := hle y hy'; omega
          have e1 : (x :: l).filter (fun x => decide (x.1 = n)) = [] := by
            rw [List.filter_eq_nil_iff]
            intro y hy
            simpa using hgt y hy
          have e2 : (x :: l).filter (fun x => !decide (x.1 = n)) = x :: l := by
            rw [List.filter_eq_self]
            intro y hy
            simpa using hgt y hy
          rw [e1, e2]
          rfl
    rw [List.flatMap_cons]
    have hrest := ih h2 (fun s h => hd s (by simp [h])) (l.filter (fun x => !decide (x.1 = n))) (hl.filter _) (fun x hx => by
      obtain ⟨hx1, hx2⟩ := List.mem_filter.1 hx
      obtain ⟨s, hs1, hs2⟩ := ht x hx1
      rcases List.mem_cons.1 hs1 with rfl | hs3
      · simp only [hs2, decide_true, Bool.not_true, Bool.false_eq_true] at hx2
      · exact ⟨s, hs3, hs2⟩)
    have hsame : S.flatMap (fun s => l.filter (fun x => decide (x.1 = s.1))) =
        S.flatMap (fun s => (l.filter (fun x => !decide (x.1 = n))).filter (fun x => decide (x.1 = s.1))) := by
      apply flatMap_congr'
      intro s hs1
      rw [List.filter_filter]
      apply List.filter_congr
      intro x _
      have := h3 s hs1
      by_cases hxs : x.1 = s.1
      · have : x.1 ≠ n := by omega
        simp [hxs, this]
        omega
      · simp [hxs]
    rw [hsame, hrest]
    exact hsplit.symm

theorem steps_disjoint {S : List (Int × Int)} (hs : Contiguous S) (hd : ∀ s ∈ S, 0 < s.2) {s t : Int × Int} (h1 : s ∈ S) (h2 : t ∈ S)
    (h3 : t.1 ≤ s.1) (h4 : s.1 < t.1 + t.2) : s.1 = t.1 := by
  induction S with
  | nil => cases h1
  | cons x S ih =>
    obtain ⟨n, d⟩ := x
    obtain ⟨_, k2, k3⟩ := contiguous_cons hs
    have hd0 : 0 < d := hd (n, d) (by simp)
    rcases List.mem_cons.1 h1 with rfl | h1'
    · rcases List.mem_cons.1 h2 with rfl | h2'
      · rfl
      · have := k3 t h2'
        simp only at h3 h4 this ⊢
        omega
    · rcases List.mem_cons.1 h2 with rfl | h2'
      · have := k3 s h1'
        simp only at h3 h4 this ⊢
        omega
      · exact ih k2 (fun s h => hd s (by simp [h])) h1' h2'

theorem yields_unique {r : Pcap.Reader} {gs fs : List Pcap.Frame} (hg : Yields r gs) (hf : Yields r fs) : gs = fs := by
  have hlen : ∀ k, 0 < k → (k < gs.length ↔ k < fs.length) := by
    intro k hk
    have a := (hg k).1
    have b := (hf k).1
    constructor
    · intro h; have := b.1 (a.2 (.inr h)); omega
    · intro h; have := a.1 (b.2 (.inr h)); omega
  apply List.ext_getElem?
  intro k
  by_cases hk : (r.seek k).2 = true
  · rw [← (hg k).2 hk, ← (hf k).2 hk]
  · have a : ¬ (k = 0 ∨ k < gs.length) := fun h => hk ((hg k).1.2 h)
    have b : ¬ (k = 0 ∨ k < fs.length) := fun h => hk ((hf k).1.2 h)
    rw [List.getElem?_eq_none (by omega), List.getElem?_eq_none (by omega)]

theorem traced_sends {id : Nat} {es : List (Nat × Effect)} (h : deliveries id es = []) :
    sends id es = (traced id es).map (fun f => (f.time, f.raw)) := by
  induction es with
  | nil => rfl
  | cons e es ih =>
    obtain ⟨i, e⟩ := e
    by_cases hi : i = id
    · subst hi
      cases e with
      | sent t d => simpa [sends, traced, deliveries] using ih (by simpa [deliveries] using h)
      | delivered t d => simp [deliveries] at h
    · cases e with
      | sent t d => simpa [sends, traced, deliveries, hi] using ih (by simpa [deliveries] using h)
      | delivered t d => simpa [sends, traced, deliveries, hi] using ih (by simpa [deliveries, hi] using h)

end SilKit.Replay
