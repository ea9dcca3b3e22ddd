import Verif.Spec.DynamicStep
/-!
# Lemmas about dynamic simulation steps (C80)
-/
namespace SilKit.DynamicStep
open SilKit.DynamicStep.Spec

theorem snoc_induction {α : Type} {P : List α → Prop} (h0 : P []) (h1 : ∀ l x, P l → P (l ++ [x])) (l : List α) : P l := by
  have : ∀ l : List α, P l.reverse := by
    intro l
    induction l with
    | nil => exact h0
    | cons x l ih => rw [List.reverse_cons]; exact h1 _ _ ih
  have := this l.reverse
  rwa [List.reverse_reverse] at this

theorem run_snoc (own : String) (ops : List Op) (op : Op) :
    run own (ops ++ [op]) = ((step own (run own ops).1 op).1, (run own ops).2 ++ (step own (run own ops).1 op).2) := by
  simp only [run, List.foldl_append, List.foldl_cons, List.foldl_nil]

theorem calls_append (a b : List Out) : calls (a ++ b) = calls a ++ calls b := by simp only [calls, List.filterMap_append]

/-! ## The rule -/

theorem snoc_split {α : Type} {cs a b : List α} {x y : α} (h : cs ++ [x] = a ++ y :: b) : (b = [] ∧ x = y ∧ cs = a) ∨ ∃ b', b = b' ++ [x] ∧ cs = a ++ y :: b' := by
  rcases b.eq_nil_or_concat with rfl | ⟨b', z, rfl⟩
  · left
    have := List.append_inj' h rfl
    exact ⟨rfl, by simpa using this.2, this.1⟩
  · right
    simp only [List.concat_eq_append] at h ⊢
    have h : cs ++ [x] = (a ++ y :: b') ++ [z] := by simpa using h
    have := List.append_inj' h rfl
    refine ⟨b', by simpa using this.2.symm, this.1⟩

theorem setting_nil (c : Option Bool) : Setting [] c ↔ c = none := by
  constructor
  · rintro (h | ⟨a, b, h, _⟩)
    · exact h.1
    · simp at h
  · rintro rfl
    exact .inl ⟨rfl, by simp⟩

theorem setting_snoc (cs : List Call) (x : Call) (c : Option Bool) :
    Setting (cs ++ [x]) c ↔ x = .configure c ∨ ((∀ c', x ≠ .configure c') ∧ Setting cs c) := by
  constructor
  · rintro (⟨rfl, h⟩ | ⟨a, b, h, hb⟩)
    · exact .inr ⟨fun c' e => h c' (by simp [e]), .inl ⟨rfl, fun c' e => h c' (by simp [e])⟩⟩
    · rcases snoc_split h with ⟨rfl, h2, rfl⟩ | ⟨b', rfl, h2⟩
      · exact .inl h2
      · exact .inr ⟨fun c' e => hb c' (by simp [e]), .inr ⟨a, b', h2, fun c' e => hb c' (by simp [e])⟩⟩
  · rintro (rfl | ⟨hx, ⟨rfl, h⟩ | ⟨a, b, rfl, hb⟩⟩)
    · exact .inr ⟨cs, [], rfl, by simp⟩
    · refine .inl ⟨rfl, fun c' e => ?_⟩
      rcases List.mem_append.1 e with e | e
      · exact h c' e
      · exact hx c' (List.mem_singleton.1 e).symm
    · refine .inr ⟨a, b ++ [x], by simp, fun c' e => ?_⟩
      rcases List.mem_append.1 e with e | e
      · exact hb c' e
      · exact hx c' (List.mem_singleton.1 e).symm

theorem setting_unique (cs : List Call) : ∀ c c', Setting cs c → Setting cs c' → c = c' := by
  induction cs using snoc_induction with
  | h0 => intro c c' h h'; rw [setting_nil] at h h'; rw [h, h']
  | h1 cs x ih =>
    intro c c' h h'
    rw [setting_snoc] at h h'
    rcases h with h | h <;> rcases h' with h' | h'
    · rw [h] at h'; injection h'
    · exact absurd h (h'.1 c)
    · exact absurd h' (h.1 c')
    · exact ih c c' h.2 h'.2

theorem setting_exists (cs : List Call) : ∃ c, Setting cs c := by
  induction cs using snoc_induction with
  | h0 => exact ⟨none, (setting_nil _).2 rfl⟩
  | h1 cs x ih =>
    obtain ⟨c, hc⟩ := ih
    cases x with
    | configure c' => exact ⟨c', (setting_snoc _ _ _).2 (.inl rfl)⟩
    | _ => exact ⟨c, (setting_snoc _ _ _).2 (.inr ⟨by simp, hc⟩)⟩

theorem requests_nil (own q : String) : ¬ Requests own [] q := by
  rintro ⟨_, a, b, h, _⟩
  simp at h

theorem requests_snoc (own : String) (cs : List Call) (x : Call) (q : String) :
    Requests own (cs ++ [x]) q ↔ (q ≠ own ∧ x = .seen q true) ∨ (x ≠ .gone q ∧ Requests own cs q) := by
  constructor
  · rintro ⟨hq, a, b, h, hb⟩
    rcases snoc_split h with ⟨rfl, h2, rfl⟩ | ⟨b', rfl, h2⟩
    · exact .inl ⟨hq, h2⟩
    · exact .inr ⟨fun e => hb (by simp [e]), hq, a, b', h2, fun e => hb (by simp [e])⟩
  · rintro (⟨hq, rfl⟩ | ⟨hx, hq, a, b, rfl, hb⟩)
    · exact ⟨hq, cs, [], rfl, by simp⟩
    · refine ⟨hq, a, b ++ [x], by simp, fun e => ?_⟩
      rcases List.mem_append.1 e with e | e
      · exact hb e
      · exact hx (List.mem_singleton.1 e).symm

/-- The setting and the peers are those that have been heard of. -/
structure Known (own : String) (s : State) (cs : List Call) : Prop where
  setting : Setting cs s.config
  peers : ∀ q, q ∈ s.peers ↔ Requests own cs q

theorem Known.shall {own : String} {s : State} {cs : List Call} (h : Known own s cs) : Documented own cs s.shallBeEnabled := by
  refine ⟨fun e => ?_, fun e => ?_, fun e => ?_⟩ <;> have e := setting_unique _ _ _ h.setting e
  · simp [State.shallBeEnabled, e]
  · simp [State.shallBeEnabled, State.byRemote, e]
  · have h2 : s.shallBeEnabled = !s.peers.isEmpty := by simp [State.shallBeEnabled, State.byRemote, e]
    rw [h2]
    constructor
    · intro h3
      cases hp : s.peers with
      | nil => simp [hp] at h3
      | cons q l => exact ⟨q, (h.peers q).1 (by simp [hp])⟩
    · rintro ⟨q, hq⟩
      have := (h.peers q).2 hq
      cases hp : s.peers with
      | nil => simp [hp] at this
      | cons q l => rfl

theorem Known.mono {own : String} {s s' : State} {cs : List Call} (h : Known own s cs) (h1 : s'.config = s.config) (h2 : s'.peers = s.peers) : Known own s' cs :=
  ⟨h1 ▸ h.setting, fun q => by rw [h2]; exact h.peers q⟩

theorem known_begin {own : String} {s : State} {cs : List Call} (h : Known own s cs) (t : Bool) (c : Call) : Known own (begin own s t c).1 (cs ++ [c]) := by
  cases c with
  | configure c =>
    refine ⟨(setting_snoc _ _ _).2 (.inl rfl), fun q => ?_⟩
    rw [requests_snoc, ← h.peers]
    simp [begin, State.at]
  | start =>
    refine ⟨(setting_snoc _ _ _).2 (.inr ⟨by simp, h.setting⟩), fun q => ?_⟩
    rw [requests_snoc, ← h.peers]
    simp [begin]
  | seen q d =>
    have hs : Setting (cs ++ [.seen q d]) s.config := (setting_snoc _ _ _).2 (.inr ⟨by simp, h.setting⟩)
    dsimp only [begin]
    split
    · rename_i e
      refine ⟨hs, fun x => ?_⟩
      rw [requests_snoc, ← h.peers]
      grind
    · refine ⟨hs, fun x => ?_⟩
      rw [requests_snoc, ← h.peers]
      simp only [State.at]
      grind
  | gone q =>
    have hs : Setting (cs ++ [.gone q]) s.config := (setting_snoc _ _ _).2 (.inr ⟨by simp, h.setting⟩)
    dsimp only [begin]
    split
    · rename_i e
      refine ⟨hs, fun x => ?_⟩
      rw [requests_snoc, ← h.peers]
      have : x ∈ s.peers → x ≠ own := fun hx => ((h.peers x).1 hx).1
      grind
    · refine ⟨hs, fun x => ?_⟩
      rw [requests_snoc, ← h.peers]
      simp only [State.at, List.mem_filter]
      grind

theorem calls_begin (own : String) (s : State) (t : Bool) (c : Call) : calls (begin own s t c).2 = [c] := by
  cases c <;> dsimp only [begin] <;> (try split) <;> rfl

theorem known_step {own : String} {s : State} {cs : List Call} (h : Known own s cs) (op : Op) : Known own (step own s op).1 (cs ++ calls (step own s op).2) := by
  have triv : ∀ s' : State, s'.config = s.config → s'.peers = s.peers → Known own s' (cs ++ calls []) := fun s' h1 h2 => by
    rw [show calls [] = [] from rfl, List.append_nil]; exact h.mono h1 h2
  cases op with
  | call t c =>
    dsimp only [step]
    split
    · rw [calls_begin]; exact known_begin h t c
    · exact triv _ rfl rfl
  | compute t => dsimp only [step]; split <;> exact triv _ rfl rfl
  | store t => dsimp only [step]; split <;> exact triv _ rfl rfl
  | notify t =>
    dsimp only [step]
    split
    · split
      · exact triv _ rfl rfl
      · exact triv _ rfl rfl
    · exact triv _ rfl rfl

theorem known_run (own : String) (ops : List Op) : Known own (run own ops).1 (calls (run own ops).2) := by
  induction ops using snoc_induction with
  | h0 => exact ⟨(setting_nil _).2 rfl, fun q => ⟨fun h => (by cases h), fun h => absurd h (requests_nil own q)⟩⟩
  | h1 ops op ih => rw [run_snoc, calls_append]; exact known_step ih op

/-! ## One call at a time -/

structure Serial (s : State) : Prop where
  quiet : Quiet s → s.enabled = s.shallBeEnabled ∧ (s.byRemote = true → s.told = true)
  computed : ∀ t e r, s.pc t = .computed e r → e = s.shallBeEnabled ∧ r = s.byRemote
  stored : ∀ t r, s.pc t = .stored r → s.enabled = s.shallBeEnabled ∧ r = s.byRemote

theorem at_pc (s : State) (t t' : Bool) (p : Pc) : (s.at t p).pc t' = if t' = t then p else s.pc t' := rfl

/-- A call of a thread while nothing is going on. -/
theorem serial_enter {s : State} (t : Bool) (hi : ∀ t', t' ≠ t → s.pc t' = .idle) : Serial (s.at t .entered) := by
  refine ⟨fun h => ?_, fun t' e r h => ?_, fun t' r h => ?_⟩
  · have := h t; rw [at_pc, if_pos rfl] at this; cases this
  · rw [at_pc] at h; split at h
    · cases h
    · rename_i hn; rw [hi t' hn] at h; cases h
  · rw [at_pc] at h; split at h
    · cases h
    · rename_i hn; rw [hi t' hn] at h; cases h

def Alone (s : State) : Prop := ∀ t t', s.pc t ≠ .idle → s.pc t' ≠ .idle → t = t'

theorem Alone.others {s : State} (h : Alone s) {t t' : Bool} (ht : s.pc t ≠ .idle) (hn : t' ≠ t) : s.pc t' = .idle :=
  Classical.byContradiction fun h' => hn (h t' t h' ht)

theorem serial_step {own : String} {s : State} (hs : Serial s) (ha : Alone s) (op : Op) (ha' : Alone (step own s op).1) : Serial (step own s op).1 := by
  cases op with
  | call t c =>
    dsimp only [step] at ha' ⊢
    split
    · rename_i hi
      rw [if_pos hi] at ha'
      have key : ∀ s0 : State, s0.pc = s.pc → Alone (s0.at t .entered) → Serial (s0.at t .entered) := by
        intro s0 h0 h1
        refine serial_enter t fun t' hn => ?_
        have := h1.others (t := t) (t' := t') (by rw [at_pc, if_pos rfl]; simp) hn
        rw [at_pc, if_neg hn] at this
        exact this
      cases c with
      | configure c => exact key _ rfl ha'
      | start => exact hs
      | seen q d =>
        dsimp only [begin] at ha' ⊢
        split
        · exact hs
        · rename_i hq; rw [if_neg hq] at ha'; exact key _ rfl ha'
      | gone q =>
        dsimp only [begin] at ha' ⊢
        split
        · exact hs
        · rename_i hq; rw [if_neg hq] at ha'; exact key _ rfl ha'
    · exact hs
  | compute t =>
    dsimp only [step]
    split
    · rename_i hi
      have ho : ∀ t', t' ≠ t → s.pc t' = .idle := fun t' hn => ha.others (by rw [hi]; simp) hn
      refine ⟨fun h => ?_, fun t' e r h => ?_, fun t' r h => ?_⟩
      · have := h t; rw [at_pc, if_pos rfl] at this; cases this
      · rw [at_pc] at h; split at h
        · injection h with h1 h2; exact ⟨h1.symm, h2.symm⟩
        · rename_i hn; rw [ho t' hn] at h; cases h
      · rw [at_pc] at h; split at h
        · cases h
        · rename_i hn; rw [ho t' hn] at h; cases h
    · exact hs
  | store t =>
    dsimp only [step]
    split
    · rename_i e r hi
      have ho : ∀ t', t' ≠ t → s.pc t' = .idle := fun t' hn => ha.others (by rw [hi]; simp) hn
      obtain ⟨h1, h2⟩ := hs.computed t e r hi
      refine ⟨fun h => ?_, fun t' e' r' h => ?_, fun t' r' h => ?_⟩
      · have := h t; rw [at_pc, if_pos rfl] at this; cases this
      · rw [at_pc] at h; split at h
        · cases h
        · rename_i hn; rw [show ({ s with enabled := e } : State).pc t' = s.pc t' from rfl, ho t' hn] at h; cases h
      · rw [at_pc] at h; split at h
        · injection h with h; exact ⟨h1, h ▸ h2⟩
        · rename_i hn; rw [show ({ s with enabled := e } : State).pc t' = s.pc t' from rfl, ho t' hn] at h; cases h
    · exact hs
  | notify t =>
    dsimp only [step]
    split
    · rename_i r hi
      have ho : ∀ t', t' ≠ t → s.pc t' = .idle := fun t' hn => ha.others (by rw [hi]; simp) hn
      obtain ⟨h1, h2⟩ := hs.stored t r hi
      have key : ∀ s0 : State, s0.pc = s.pc → s0.enabled = s.enabled → s0.shallBeEnabled = s.shallBeEnabled → s0.byRemote = s.byRemote →
          (s.byRemote = true → s0.told = true) → Serial (s0.at t .idle) := by
        intro s0 e1 e2 e3 e4 e5
        have hid : ∀ t', (s0.at t .idle).pc t' = .idle := by
          intro t'; rw [at_pc]; split
          · rfl
          · rename_i hn; rw [e1]; exact ho t' hn
        refine ⟨fun _ => ⟨?_, ?_⟩, fun t' e' r' h => ?_, fun t' r' h => ?_⟩
        · show s0.enabled = s0.shallBeEnabled; rw [e2, e3, h1]
        · show s0.byRemote = true → s0.told = true; rw [e4]; exact e5
        · rw [hid] at h; cases h
        · rw [hid] at h; cases h
      split
      · exact key _ rfl rfl rfl rfl fun _ => rfl
      · rename_i hn
        refine key _ rfl rfl rfl rfl fun h => ?_
        simp only [h2, h, Bool.true_and, Bool.not_eq_true', Bool.not_eq_false] at hn
        exact hn
    · exact hs

theorem serial_run (own : String) (ops : List Op) (h : OneAtATime own ops) : Serial (run own ops).1 := by
  induction ops using snoc_induction with
  | h0 => exact ⟨fun _ => ⟨rfl, fun h => (by cases h)⟩, fun t e r h => (by cases h), fun t r h => (by cases h)⟩
  | h1 ops op ih =>
    have h0 : OneAtATime own ops := fun a b e => h a (b ++ [op]) (by rw [e, List.append_assoc])
    have ha := h ops [op] rfl
    have ha' := h (ops ++ [op]) [] (by simp)
    rw [run_snoc] at ha' ⊢
    exact serial_step (ih h0) ha op ha'

/-! ## All schedules -/

/-- A setting that stays. -/
structure Fixed (b : Bool) (s : State) : Prop where
  config : s.config = some b
  enabled : s.enabled = b
  computed : ∀ t e r, s.pc t = .computed e r → e = b

theorem fixed_shall {b : Bool} {s : State} (h : s.config = some b) : s.shallBeEnabled = b := by
  cases b <;> simp [State.shallBeEnabled, State.byRemote, h]

theorem fixed_step {own : String} {b : Bool} {s : State} (h : Fixed b s) (op : Op) (hop : ∀ t c, op ≠ .call t (.configure c)) : Fixed b (step own s op).1 := by
  have key : ∀ (s0 : State) (t : Bool) (p : Pc), s0.config = some b → s0.enabled = b → s0.pc = s.pc → (∀ e r, p = .computed e r → e = b) → Fixed b (s0.at t p) := by
    intro s0 t p h1 h2 h3 h4
    refine ⟨h1, h2, fun t' e r h' => ?_⟩
    rw [at_pc] at h'
    split at h'
    · exact h4 e r h'
    · rw [h3] at h'; exact h.computed t' e r h'
  cases op with
  | call t c =>
    dsimp only [step]
    split
    · cases c with
      | configure c => exact absurd rfl (hop t c)
      | start => exact h
      | seen q d =>
        dsimp only [begin]
        split
        · exact h
        · exact key _ t _ h.config h.enabled rfl (by simp)
      | gone q =>
        dsimp only [begin]
        split
        · exact h
        · exact key _ t _ h.config h.enabled rfl (by simp)
    · exact h
  | compute t =>
    dsimp only [step]
    split
    · refine key _ t _ h.config h.enabled rfl ?_
      rintro e r h'
      injection h' with h1 _
      rw [← h1, fixed_shall h.config]
    · exact h
  | store t =>
    dsimp only [step]
    split
    · rename_i e r hi
      exact key _ t _ h.config (h.computed t e r hi) rfl (by simp)
    · exact h
  | notify t =>
    dsimp only [step]
    split
    · split
      · exact key _ t _ h.config h.enabled rfl (by simp)
      · exact key _ t _ h.config h.enabled rfl (by simp)
    · exact h

theorem run_append (own : String) (a b : List Op) (P : State → Prop) (h : P (run own a).1) (hstep : ∀ s op, op ∈ b → P s → P (step own s op).1) : P (run own (a ++ b)).1 := by
  induction b using snoc_induction with
  | h0 => rw [List.append_nil]; exact h
  | h1 b op ih =>
    rw [← List.append_assoc, run_snoc]
    exact hstep _ op (by simp) (ih fun s x hx => hstep s x (by simp [hx]))

/-- A whole call, when nothing else is going on. -/
theorem run_whole (own : String) (ops : List Op) (hq : Quiet (run own ops).1) (t : Bool) (c : Call)
    (hc : (begin own (run own ops).1 t c).1.pc t = .entered) :
    (run own (ops ++ whole t c)).1.enabled = (run own (ops ++ whole t c)).1.shallBeEnabled ∧ (run own (ops ++ whole t c)).1.config = (begin own (run own ops).1 t c).1.config ∧
      Quiet (run own (ops ++ whole t c)).1 := by
  have e : ops ++ whole t c = (((ops ++ [.call t c]) ++ [.compute t]) ++ [.store t]) ++ [.notify t] := by simp [whole]
  have h1 : (run own (ops ++ [.call t c])).1 = (begin own (run own ops).1 t c).1 := by
    rw [run_snoc]; dsimp only [step]; rw [if_pos (hq t)]
  have hb : ∀ t', t' ≠ t → (begin own (run own ops).1 t c).1.pc t' = .idle := by
    intro t' hn
    cases c <;> dsimp only [begin] <;> (try split) <;> simp [State.at, hn, hq t']
  generalize hs : (begin own (run own ops).1 t c).1 = s1 at *
  have h2 : (run own ((ops ++ [.call t c]) ++ [.compute t])).1 = s1.at t (.computed s1.shallBeEnabled s1.byRemote) := by
    rw [run_snoc, h1]; dsimp only [step]; rw [if_pos hc]
  have h3 : (run own (((ops ++ [.call t c]) ++ [.compute t]) ++ [.store t])).1 =
      { s1.at t (.computed s1.shallBeEnabled s1.byRemote) with enabled := s1.shallBeEnabled }.at t (.stored s1.byRemote) := by
    rw [run_snoc, h2]; dsimp only [step]; rw [at_pc, if_pos rfl]
  rw [e, run_snoc, h3]
  dsimp only [step]
  rw [at_pc, if_pos rfl]
  dsimp only
  have hf : ∀ (p q r : Pc) (t' : Bool), (if t' = t then p else if t' = t then q else if t' = t then r else s1.pc t') = if t' = t then p else .idle := by
    intro p q r t'
    by_cases e : t' = t
    · simp [e]
    · simp [e, hb t' e]
  split
  · exact ⟨rfl, rfl, fun t' => (hf _ _ _ t').trans (by split <;> rfl)⟩
  · exact ⟨rfl, rfl, fun t' => (hf _ _ _ t').trans (by split <;> rfl)⟩

theorem info_step (own : String) (s : State) (op : Op) :
    s.told.toNat + ((step own s op).2.filter (· = .info)).length = (step own s op).1.told.toNat := by
  cases op with
  | call t c =>
    dsimp only [step]
    by_cases h : s.pc t = .idle
    · rw [if_pos h]
      cases c with
      | configure c => rfl
      | start => rfl
      | seen q d =>
        dsimp only [begin]
        by_cases hq : q = own
        · rw [if_pos hq]; rfl
        · rw [if_neg hq]; rfl
      | gone q =>
        dsimp only [begin]
        by_cases hq : q = own
        · rw [if_pos hq]; rfl
        · rw [if_neg hq]; rfl
    · rw [if_neg h]; rfl
  | compute t =>
    dsimp only [step]
    by_cases h : s.pc t = .entered
    · rw [if_pos h]; rfl
    · rw [if_neg h]; rfl
  | store t => dsimp only [step]; cases s.pc t <;> rfl
  | notify t =>
    dsimp only [step]
    cases s.pc t with
    | stored r =>
      dsimp only
      cases ht : s.told <;> cases r <;> simp [State.at, ht]
    | _ => rfl

theorem info_run (own : String) (ops : List Op) : ((run own ops).2.filter (· = .info)).length = (run own ops).1.told.toNat := by
  induction ops using snoc_induction with
  | h0 => rfl
  | h1 ops op ih =>
    rw [run_snoc]
    dsimp only
    rw [List.filter_append, List.length_append, ih, info_step]

theorem advertised_run (own : String) (ops : List Op) :
    ∀ a b x, (run own ops).2 = a ++ .advertised x :: b → ∃ c, Setting (calls a) c ∧ x = (c == some true) := by
  induction ops using snoc_induction with
  | h0 => intro a b x h; simp [run] at h
  | h1 ops op ih =>
    intro a b x h
    rw [run_snoc] at h
    dsimp only at h
    have hk := known_run own ops
    have nothing : ∀ (o b : List Out), (∀ y, Out.advertised y ∉ o) → (run own ops).2 ++ o = a ++ .advertised x :: b → ∃ c, Setting (calls a) c ∧ x = (c == some true) := by
      intro o b ho h
      rcases List.append_eq_append_iff.1 h with ⟨l, h1, h2⟩ | ⟨l, h1, h2⟩
      · exact absurd (by rw [h2]; simp) (ho x)
      · cases l with
        | nil => exact absurd (by rw [← (show Out.advertised x :: b = o by simpa using h2)]; simp) (ho x)
        | cons z l =>
          rw [List.cons_append] at h2
          injection h2 with h2 h3
          exact ih a l x (by rw [h1, h2])
    cases op with
    | compute t => refine nothing _ b ?_ h; dsimp only [step]; split <;> simp
    | store t => refine nothing _ b ?_ h; dsimp only [step]; split <;> simp
    | notify t =>
      refine nothing _ b ?_ h
      dsimp only [step]
      split
      · split <;> simp
      · simp
    | call t c =>
      dsimp only [step] at h
      split at h
      · cases c with
        | configure c => exact nothing _ b (by simp [begin]) h
        | seen q d => refine nothing _ b ?_ h; dsimp only [begin]; split <;> simp
        | gone q => refine nothing _ b ?_ h; dsimp only [begin]; split <;> simp
        | start =>
          have h : ((run own ops).2 ++ [.called .start]) ++ [.advertised ((run own ops).1.config == some true)] = a ++ .advertised x :: b := by
            rw [← h]; simp [begin]
          rcases snoc_split h with ⟨_, h2, h3⟩ | ⟨b', _, h3⟩
          · injection h2 with h2
            refine ⟨(run own ops).1.config, ?_, h2.symm⟩
            rw [← h3, calls_append]
            exact (setting_snoc _ _ _).2 (.inr ⟨by simp, hk.setting⟩)
          · exact nothing [.called .start] b' (by simp) h3
      · exact nothing [] b (by simp) h

/-! ## The message has a cause -/

theorem wasRequested_mono {own : String} {cs : List Call} (h : WasRequested own cs) (l : List Call) : WasRequested own (cs ++ l) := by
  obtain ⟨a, b, rfl, h⟩ := h
  exact ⟨a, b ++ l, by simp, h⟩

/-- What a thread carries with it was once true. -/
structure Caused (own : String) (s : State) (tr : List Out) : Prop where
  pc : ∀ t, ((∃ e, s.pc t = .computed e true) ∨ s.pc t = .stored true) → WasRequested own (calls tr)
  info : ∀ a b, tr = a ++ .info :: b → WasRequested own (calls a)

theorem caused_info {own : String} {tr o : List Out} (h : ∀ a b, tr = a ++ .info :: b → WasRequested own (calls a)) (ho : o = [] ∨ .info ∉ o ∨ (o = [.info] ∧ WasRequested own (calls tr))) :
    ∀ a b, tr ++ o = a ++ .info :: b → WasRequested own (calls a) := by
  intro a b e
  have key : .info ∉ o → WasRequested own (calls a) := by
    intro ho
    rcases List.append_eq_append_iff.1 e with ⟨l, h1, h2⟩ | ⟨l, h1, h2⟩
    · exact absurd (by rw [h2]; simp) ho
    · cases l with
      | nil => exact absurd (by rw [← (show Out.info :: b = o by simpa using h2)]; simp) ho
      | cons z l =>
        rw [List.cons_append] at h2
        injection h2 with h2 h3
        exact h a l (by rw [h1, h2])
  rcases ho with rfl | ho | ⟨rfl, ho⟩
  · exact key (by simp)
  · exact key ho
  · rcases snoc_split e with ⟨_, _, rfl⟩ | ⟨b', _, h2⟩
    · exact ho
    · exact h a b' h2

theorem byRemote_caused {own : String} {s : State} {cs : List Call} (h : Known own s cs) (hr : s.byRemote = true) : WasRequested own cs := by
  have hc : s.config = none := by
    rcases hc : s.config with _ | _ | _
    · rfl
    · simp [State.byRemote, hc] at hr
    · simp [State.byRemote, hc] at hr
  refine ⟨cs, [], by simp, hc ▸ h.setting, ?_⟩
  cases hp : s.peers with
  | nil => simp [State.byRemote, hp] at hr
  | cons q l => exact ⟨q, (h.peers q).1 (by simp [hp])⟩

theorem caused_step {own : String} {s : State} {tr : List Out} (hk : Known own s (calls tr)) (h : Caused own s tr) (op : Op) :
    Caused own (step own s op).1 (tr ++ (step own s op).2) := by
  have mono : ∀ o, WasRequested own (calls tr) → WasRequested own (calls (tr ++ o)) := fun o hw => by rw [calls_append]; exact wasRequested_mono hw _
  have same : Caused own s (tr ++ []) := by rw [List.append_nil]; exact h
  have move : ∀ (s' : State) (t : Bool) (p : Pc) (o : List Out), s'.pc = (s.at t p).pc → (((∃ e, p = .computed e true) ∨ p = .stored true) → WasRequested own (calls tr)) →
      (o = [] ∨ .info ∉ o ∨ (o = [.info] ∧ WasRequested own (calls tr))) → Caused own s' (tr ++ o) := by
    intro s' t p o hs hp ho
    refine ⟨fun t' ht => mono _ ?_, caused_info h.info ho⟩
    rw [hs, at_pc] at ht
    split at ht
    · exact hp ht
    · exact h.pc t' ht
  cases op with
  | call t c =>
    dsimp only [step]
    split
    · cases c with
      | configure c => exact move _ t .entered _ rfl (by simp) (.inr (.inl (by simp [begin])))
      | seen q d =>
        dsimp only [begin]
        split
        · exact ⟨fun t' ht => mono _ (h.pc t' ht), caused_info h.info (.inr (.inl (by simp)))⟩
        · exact move _ t .entered _ rfl (by simp) (.inr (.inl (by simp)))
      | gone q =>
        dsimp only [begin]
        split
        · exact ⟨fun t' ht => mono _ (h.pc t' ht), caused_info h.info (.inr (.inl (by simp)))⟩
        · exact move _ t .entered _ rfl (by simp) (.inr (.inl (by simp)))
      | start => exact ⟨fun t' ht => mono _ (h.pc t' ht), caused_info h.info (.inr (.inl (by simp [begin])))⟩
    · exact same
  | compute t =>
    dsimp only [step]
    split
    · refine move _ t _ _ rfl ?_ (.inl rfl)
      rintro (⟨e, he⟩ | he)
      · injection he with _ he
        exact byRemote_caused hk he
      · cases he
    · exact same
  | store t =>
    dsimp only [step]
    split
    · rename_i e r hi
      refine move _ t (.stored r) _ rfl ?_ (.inl rfl)
      rintro (⟨e', he⟩ | he)
      · cases he
      · injection he with he
        subst he
        exact h.pc t (.inl ⟨e, hi⟩)
    · exact same
  | notify t =>
    dsimp only [step]
    split
    · rename_i r hi
      split
      · rename_i hr
        simp only [Bool.and_eq_true] at hr
        rw [hr.1] at hi
        exact move _ t .idle _ rfl (by simp) (.inr (.inr ⟨rfl, h.pc t (.inr hi)⟩))
      · exact move _ t .idle _ rfl (by simp) (.inl rfl)
    · exact same

theorem caused_run (own : String) (ops : List Op) : Caused own (run own ops).1 (run own ops).2 := by
  induction ops using snoc_induction with
  | h0 => exact ⟨fun t h => (by rcases h with ⟨_, h⟩ | h <;> cases h), fun a b h => (by simp [run] at h)⟩
  | h1 ops op ih => rw [run_snoc]; exact caused_step (known_run own ops) ih op

end SilKit.DynamicStep
