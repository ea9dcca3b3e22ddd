import Verif.Model.CApiTable
import Verif.Spec.CApi

/-! Lemmas about the statements of the C interface: checks of the bodies, and that they are sound for all arguments. -/
namespace SilKit.CApi

open Spec HourglassValues

/-! ## Running -/

theorem fold_ended (a : Args) (s : Service) (xs : List Stmt) (c : Call) (h : c.ended ≠ .running) :
    xs.foldl (step a s) c = c := by
  induction xs with
  | nil => rfl
  | cons x xs ih =>
    have : step a s c x = c := by
      unfold step
      split
      · rename_i h'; exact absurd h' h
      · rfl
    rw [List.foldl_cons, this]; exact ih

theorem finish_ended (c : Call) (h : c.ended ≠ .running) : finish c = c := by
  unfold finish
  split
  · rename_i h'; exact absurd h' h
  · rfl

theorem step_running (a : Args) (s : Service) (c : Call) (x : Stmt) (h : c.ended = .running) : step a s c x = exec a s c x := by
  unfold step; rw [h]

/-! ## Refusing -/

def reachKnown (known : List Place) (p : Place) : Bool := p.before.all (fun q => known.contains q)

/-- Up to the check in question, there are only checks, and these are safe themselves. -/
def guards (target : Stmt) : List Place → List Stmt → Bool
  | _, [] => false
  | known, x :: xs =>
    if x = target then
      match x with
      | .ptr p => reachKnown known p
      | .header p => reachKnown known p && known.contains p
      | _ => false
    else
      match x with
      | .ptr p => reachKnown known p && guards target (p :: known) xs
      | .header p => reachKnown known p && known.contains p && guards target known xs
      | .bool p => reachKnown known p && guards target known xs
      | _ => false

/-- The check fails for these arguments. -/
def fails (a : Args) : Stmt → Prop
  | .ptr p => a.null p = true
  | .header p => idValid (a.num (p.dot "structHeader")) = false
  | _ => False

theorem reach_of_known {a : Args} {known : List Place} (hk : ∀ q ∈ known, a.null q = false) {p : Place}
    (h : reachKnown known p = true) : reach a p = true := by
  unfold reachKnown at h; unfold reach
  rw [List.all_eq_true] at h ⊢
  intro q hq
  have := h q hq
  rw [List.contains_iff_mem] at this
  simp [hk q this]

theorem guards_refuse (a : Args) (s : Service) (target : Stmt) (hf : fails a target) (xs : List Stmt) :
    ∀ known, (∀ q ∈ known, a.null q = false) → guards target known xs = true →
      (finish (xs.foldl (step a s) ⟨.running, false, [], []⟩)) = ⟨.returned .badParameter true, false, [], []⟩ := by
  induction xs with
  | nil => intro known hk hg; simp [guards] at hg
  | cons x xs ih =>
    intro known hk hg
    rw [List.foldl_cons, step_running _ _ _ _ rfl]
    unfold guards at hg
    have hbad : ∀ ys : List Stmt, finish (ys.foldl (step a s) (Call.bad ⟨.running, false, [], []⟩))
        = ⟨.returned .badParameter true, false, [], []⟩ := by
      intro ys
      rw [fold_ended _ _ _ _ (by simp [Call.bad]), finish_ended _ (by simp [Call.bad])]; rfl
    by_cases hx : x = target
    · rw [if_pos hx] at hg
      subst hx
      cases x <;> simp only [fails] at hf <;> simp only [Bool.and_eq_true, reduceCtorEq] at hg
      · rename_i p
        have hr := reach_of_known hk hg
        simp only [exec, hr, hf, Bool.not_true, Bool.false_eq_true, if_false, if_true]
        exact hbad xs
      · rename_i p
        have hr := reach_of_known hk hg.1
        have hn : a.null p = false := hk p (List.contains_iff_mem.mp hg.2)
        simp only [exec, live, hr, hn, hf, Bool.not_true, Bool.not_false, Bool.and_true, Bool.false_eq_true, if_false]
        exact hbad xs
    · rw [if_neg hx] at hg
      cases x <;> simp only [Bool.and_eq_true, reduceCtorEq] at hg
      · rename_i p
        have hr := reach_of_known hk hg.1
        cases hn : a.null p
        · simp only [exec, hr, hn, Bool.not_true, Bool.false_eq_true, if_false]
          refine ih (p :: known) ?_ hg.2
          intro q hq
          rcases List.mem_cons.mp hq with rfl | hq
          · exact hn
          · exact hk q hq
        · simp only [exec, hr, hn, Bool.not_true, Bool.false_eq_true, if_false, if_true]
          exact hbad xs
      · rename_i p
        have hr := reach_of_known hk hg.1.1
        have hn : a.null p = false := hk p (List.contains_iff_mem.mp hg.1.2)
        simp only [exec, live, hr, hn, Bool.not_true, Bool.not_false, Bool.and_true, Bool.false_eq_true, if_false]
        split
        · exact ih known hk hg.2
        · exact hbad xs
      · rename_i p
        have hr := reach_of_known hk hg.1
        simp only [exec, hr, Bool.not_true, Bool.false_eq_true, if_false]
        split
        · exact ih known hk hg.2
        · exact hbad xs

/-! ## Fitting arguments -/

def certain (f : Sig) : List Place := f.pointers.map (fun i => ⟨i, []⟩) ++ f.members

def certainly (f : Sig) (p : Place) : Bool := reachKnown (certain f) p && (certain f).contains p

/-- The statement does what it should for all fitting arguments. -/
def goodStmt (f : Sig) : Stmt → Bool
  | .ptr p => certainly f p
  | .ptrSilent p => certainly f p
  | .read p => certainly f p
  | .write p => certainly f p
  | .header p => certainly f p &&
      (f.identified.any (fun x => x.1 == p && idValid x.2) || f.events.any (fun e => e.at_ == p && e.identifiers.all idValid))
  | .bool p => reachKnown (certain f) p && f.bools.contains p
  | .ptrIf g p => reachKnown (certain f) g && reachKnown (certain f) p && f.given.contains (g, p)
  | .view p id => certainly f p && f.identified.contains (p, id)
  | .array p n ms => reachKnown (certain f) p && reachKnown (certain f) n && f.arrays.contains ⟨p, n, ms⟩
  | .oneOf p vs => reachKnown (certain f) p && f.choices.any (fun x => x.1 == p && (List.range x.2).all (fun v => vs.contains v))
  | .event p sv ks => certainly f p && f.events.any (fun e => e.at_ == p &&
      e.identifiers.all (fun id => ks.contains (datatypeOf id) && decide (serviceOf id = sv)))
  | .readIf p ks q => certainly f p && reachKnown (certain f) q && f.events.any (fun e => e.at_ == p &&
      e.identifiers.all (fun id => !ks.contains (datatypeOf id) || e.pointers.any (fun y => y.1 == q && y.2.contains id)))
  | .copyOut p n => certainly f n && decide (f.textTo = some p) && decide (f.textSize = some n)
  | .keep p => (certain f).contains p
  | .call => false

/-- What a statement leaves behind when it goes well. -/
def effect (c : Call) : Stmt → Call
  | .write p => { c with written := c.written ++ [p] }
  | .keep p => { c with kept := c.kept ++ [p] }
  | _ => c

theorem certain_null {a : Args} {f : Sig} (h : Fits a f) : ∀ q ∈ certain f, a.null q = false := by
  intro q hq
  unfold certain at hq
  rcases List.mem_append.mp hq with hq | hq
  · obtain ⟨i, hi, rfl⟩ := List.mem_map.mp hq
    exact h.pointers i hi
  · exact h.members q hq

theorem certainly_live {a : Args} {f : Sig} (h : Fits a f) {p : Place} (hp : certainly f p = true) :
    reach a p = true ∧ a.null p = false := by
  unfold certainly at hp
  rw [Bool.and_eq_true] at hp
  exact ⟨reach_of_known (certain_null h) hp.1, certain_null h p (List.contains_iff_mem.mp hp.2)⟩

set_option maxHeartbeats 1000000 in
theorem good_exec {a : Args} {f : Sig} (h : Fits a f) (s : Service) (c : Call) (x : Stmt) (hx : goodStmt f x = true) :
    exec a s c x = effect c x := by
  have hc := certain_null h
  cases x <;> simp only [goodStmt, Bool.and_eq_true, Bool.or_eq_true, List.any_eq_true, beq_iff_eq, decide_eq_true_eq, reduceCtorEq] at hx
  case ptr p =>
    obtain ⟨hr, hn⟩ := certainly_live h hx
    simp [exec, effect, hr, hn]
  case ptrSilent p =>
    obtain ⟨hr, hn⟩ := certainly_live h hx
    simp [exec, effect, hr, hn]
  case read p =>
    obtain ⟨hr, hn⟩ := certainly_live h hx
    simp [exec, effect, live, hr, hn]
  case write p =>
    obtain ⟨hr, hn⟩ := certainly_live h hx
    simp [exec, effect, live, hr, hn]
  case header p =>
    obtain ⟨hr, hn⟩ := certainly_live h hx.1
    have hid : idValid (a.num (p.dot "structHeader")) = true := by
      rcases hx.2 with ⟨y, hy, rfl, hv⟩ | ⟨e, he, rfl, hv⟩
      · rw [h.identified y hy]; exact hv
      · exact List.all_eq_true.mp hv _ (h.events e he).1
    simp [exec, effect, live, hr, hn, hid]
  case bool p =>
    have hr := reach_of_known hc hx.1
    have := h.bools p (List.contains_iff_mem.mp hx.2)
    have h1 : a.num p ≤ 1 := by omega
    simp [exec, effect, hr, h1]
  case ptrIf g p =>
    have hr := reach_of_known hc hx.1.1
    have hr' := reach_of_known hc hx.1.2
    have := h.given _ (List.contains_iff_mem.mp hx.2)
    simp only [exec, effect, hr, hr']
    by_cases hz : a.num g = 0
    · simp [hz]
    · simp [this hz]
  case view p id =>
    obtain ⟨hr, hn⟩ := certainly_live h hx.1
    have := h.identified _ (List.contains_iff_mem.mp hx.2)
    simp only at this
    simp [exec, effect, live, hr, hn, this]
  case array p n ms =>
    have hr := reach_of_known hc hx.1.1
    have hr' := reach_of_known hc hx.1.2
    have := h.arrays _ (List.contains_iff_mem.mp hx.2)
    simp only at this
    simp only [exec, effect, hr, hr', Bool.true_and]
    rw [if_pos]
    by_cases hz : a.num n = 0
    · simp [hz]
    · obtain ⟨h1, h2⟩ := this (by omega)
      rw [h1]
      simp only [Bool.not_false, Bool.true_and, Bool.or_eq_true, List.all_eq_true, List.mem_range, Bool.not_eq_true']
      exact Or.inr (fun i hi m hm => h2 i hi m hm)
  case oneOf p vs =>
    have hr := reach_of_known hc hx.1
    obtain ⟨y, hy, rfl, hv⟩ := hx.2
    have := h.choices y hy
    have hm : a.num y.1 ∈ vs := by
      have := List.all_eq_true.mp hv (a.num y.1) (List.mem_range.mpr this)
      exact List.contains_iff_mem.mp this
    simp [exec, effect, hr, hm]
  case event p sv ks =>
    obtain ⟨hr, hn⟩ := certainly_live h hx.1
    obtain ⟨e, he, rfl, hv⟩ := hx.2
    have := List.all_eq_true.mp hv _ (h.events e he).1
    rw [Bool.and_eq_true, List.contains_iff_mem, decide_eq_true_eq] at this
    simp [exec, effect, live, hr, hn, this.1, this.2]
  case readIf p ks q =>
    obtain ⟨hr, hn⟩ := certainly_live h hx.1.1
    have hq := reach_of_known hc hx.1.2
    obtain ⟨e, he, rfl, hv⟩ := hx.2
    have hh := h.events e he
    have := List.all_eq_true.mp hv _ hh.1
    simp only [exec, effect, live, hr, hn, hq]
    by_cases hk : datatypeOf (a.num (e.at_.dot "structHeader")) ∈ ks
    · rw [Bool.or_eq_true] at this
      rcases this with this | this
      · have hk' := List.contains_iff_mem.mpr hk
        rw [hk'] at this; cases this
      · obtain ⟨y, hy, hyq⟩ := List.any_eq_true.mp this
        rw [Bool.and_eq_true, beq_iff_eq, List.contains_iff_mem] at hyq
        have hz := hh.2 y hy hyq.2
        rw [hyq.1] at hz
        simp [hz]
    · simp [hk]
  case copyOut p n =>
    obtain ⟨hr, hn⟩ := certainly_live h hx.1.1
    have := h.text p n hx.1.2 hx.2
    simp only [exec, effect, live, hr, hn]
    by_cases hz : a.null p = false
    · by_cases hzz : a.num n = 0
      · simp [hzz]
      · simp [this hz (by omega)]
    · simp at hz; simp [hz]
  case keep p => rfl

/-- Statements before the call of the library, and after it. -/
def isBefore : Stmt → Bool
  | .call | .write _ | .keep _ | .copyOut _ _ => false
  | _ => true

def isAfter : Stmt → Bool
  | .write _ | .keep _ | .copyOut _ _ => true
  | _ => false

def pre (xs : List Stmt) : List Stmt := xs.takeWhile isBefore
def post (xs : List Stmt) : List Stmt := (xs.dropWhile isBefore).drop 1

/-- Checks and uses, then the call, then results. -/
def shaped (xs : List Stmt) : Bool :=
  (match xs.dropWhile isBefore with
   | .call :: ys => ys.all isAfter
   | _ => false)

def writes (xs : List Stmt) : List Place := xs.filterMap (fun | .write p => some p | _ => none)
def keeps (xs : List Stmt) : List Place := xs.filterMap (fun | .keep p => some p | _ => none)

theorem shaped_split {xs : List Stmt} (h : shaped xs = true) :
    xs = pre xs ++ .call :: post xs ∧ (∀ x ∈ pre xs, isBefore x = true) ∧ (∀ x ∈ post xs, isAfter x = true) := by
  unfold shaped at h
  have h0 := (List.takeWhile_append_dropWhile (p := isBefore) (l := xs)).symm
  unfold pre post
  cases hd : xs.dropWhile isBefore with
  | nil => rw [hd] at h; cases h
  | cons y ys =>
    rw [hd] at h h0
    cases y <;> simp only [reduceCtorEq] at h
    refine ⟨h0, ?_, fun x hx => List.all_eq_true.mp h x hx⟩
    intro x hx
    have := List.all_takeWhile (p := isBefore) (l := xs)
    exact List.all_eq_true.mp this x hx

theorem effect_before (c : Call) (x : Stmt) (h : isBefore x = true) : effect c x = c := by
  cases x <;> simp [isBefore] at h <;> rfl

theorem fold_good {a : Args} {f : Sig} (h : Fits a f) (s : Service) (xs : List Stmt) (hx : ∀ x ∈ xs, goodStmt f x = true) :
    ∀ c : Call, c.ended = .running → xs.foldl (step a s) c = { c with written := c.written ++ writes xs, kept := c.kept ++ keeps xs } := by
  induction xs with
  | nil => intro c hc; simp [writes, keeps]
  | cons x xs ih =>
    intro c hc
    rw [List.foldl_cons, step_running _ _ _ _ hc, good_exec h s c x (hx x (List.mem_cons_self ..))]
    rw [ih (fun y hy => hx y (List.mem_cons_of_mem _ hy))]
    · cases x <;> simp [effect, writes, keeps]
    · cases x <;> simp [effect, hc]

theorem writes_before {xs : List Stmt} (h : ∀ x ∈ xs, isBefore x = true) : writes xs = [] ∧ keeps xs = [] := by
  unfold writes keeps
  constructor
  · rw [List.filterMap_eq_nil_iff]
    intro x hx
    have := h x hx
    cases x <;> simp [isBefore] at this <;> rfl
  · rw [List.filterMap_eq_nil_iff]
    intro x hx
    have := h x hx
    cases x <;> simp [isBefore] at this <;> rfl

/-- The whole function. -/
def goodFn (f : Sig) (g : Fn) : Bool :=
  shaped g.body && (pre g.body).all (goodStmt f) && (post g.body).all (goodStmt f)
    && decide (writes (post g.body) = f.results) && decide (keeps (post g.body) = f.handlers)

theorem good_invoke {a : Args} {f : Sig} (h : Fits a f) (g : Fn) (s : Service) (hg : goodFn f g = true) :
    invoke g a s = match s with
      | .done => ⟨.returned .success false, true, f.results, f.handlers⟩
      | .threw e => ⟨.returned (caught "" e "").2 (decide (e ≠ .other)), true, [], []⟩ := by
  unfold goodFn at hg
  simp only [Bool.and_eq_true, decide_eq_true_eq] at hg
  obtain ⟨⟨⟨⟨hs, h1⟩, h2⟩, h3⟩, h4⟩ := hg
  obtain ⟨e1, e2, e3⟩ := shaped_split hs
  unfold invoke
  rw [e1, List.foldl_append, fold_good h s _ (fun x hx => List.all_eq_true.mp h1 x hx) _ rfl]
  rw [(writes_before e2).1, (writes_before e2).2, List.foldl_cons, step_running _ _ _ _ rfl]
  cases s with
  | done =>
    simp only [exec]
    rw [fold_good h .done _ (fun x hx => List.all_eq_true.mp h2 x hx) _ rfl, h3, h4]
    simp [finish]
  | threw e =>
    simp only [exec]
    rw [fold_ended _ _ _ _ (by simp [Call.failed]), finish_ended _ (by simp [Call.failed])]
    simp [Call.failed]

/-! ## All arguments -/

/-- Before the library is called, a call goes on unchanged, or ends with nothing done. -/
theorem before_exec (a : Args) (s : Service) (c : Call) (x : Stmt) (h : isBefore x = true) :
    exec a s c x = c ∨ ∃ e, e ≠ .running ∧ exec a s c x = { c with ended := e } ∧
      (e = .ub ∨ e = .returned .badParameter true ∨ (e = .returned .badParameter false ∧ (∃ p, x = .ptrSilent p) ∨ (e = .returned .badParameter false ∧ ∃ p v, x = .oneOf p v))
        ∨ (e = .returned .success false ∧ ∃ p v k, x = .event p v k)) := by
  cases x <;> simp only [isBefore, Bool.false_eq_true] at h <;> simp only [exec, Call.bad, Call.broken] <;> (repeat' split) <;>
    first
      | exact Or.inl rfl
      | exact Or.inr ⟨_, by simp, rfl, by simp⟩

theorem before_fold (a : Args) (s : Service) (xs : List Stmt) (h : ∀ x ∈ xs, isBefore x = true) :
    ∀ c : Call, c.ended = .running → xs.foldl (step a s) c = c ∨ ∃ e, e ≠ .running ∧ xs.foldl (step a s) c = { c with ended := e } ∧
      (e = .ub ∨ e = .returned .badParameter true ∨
        (e = .returned .badParameter false ∧ ∃ x ∈ xs, (∃ p, x = .ptrSilent p) ∨ ∃ p v, x = .oneOf p v)
        ∨ (e = .returned .success false ∧ ∃ x ∈ xs, ∃ p v k, x = .event p v k)) := by
  induction xs with
  | nil => intro c hc; exact Or.inl rfl
  | cons x xs ih =>
    intro c hc
    rw [List.foldl_cons, step_running _ _ _ _ hc]
    rcases before_exec a s c x (h x (List.mem_cons_self ..)) with h1 | ⟨e, he, h1, h2⟩
    · rw [h1]
      rcases ih (fun y hy => h y (List.mem_cons_of_mem _ hy)) c hc with h3 | ⟨e, he, h3, h4⟩
      · exact Or.inl h3
      · refine Or.inr ⟨e, he, h3, ?_⟩
        rcases h4 with h4 | h4 | ⟨h4, y, hy, h5⟩ | ⟨h4, y, hy, h5⟩
        · exact Or.inl h4
        · exact Or.inr (Or.inl h4)
        · exact Or.inr (Or.inr (Or.inl ⟨h4, y, List.mem_cons_of_mem _ hy, h5⟩))
        · exact Or.inr (Or.inr (Or.inr ⟨h4, y, List.mem_cons_of_mem _ hy, h5⟩))
    · rw [h1, fold_ended _ _ _ _ he]
      refine Or.inr ⟨e, he, rfl, ?_⟩
      rcases h2 with h2 | h2 | (⟨h2, h3⟩ | ⟨h2, h3⟩) | ⟨h2, h3⟩
      · exact Or.inl h2
      · exact Or.inr (Or.inl h2)
      · exact Or.inr (Or.inr (Or.inl ⟨h2, x, List.mem_cons_self .., Or.inl h3⟩))
      · exact Or.inr (Or.inr (Or.inl ⟨h2, x, List.mem_cons_self .., Or.inr h3⟩))
      · exact Or.inr (Or.inr (Or.inr ⟨h2, x, List.mem_cons_self .., h3⟩))

theorem after_exec (a : Args) (s : Service) (c : Call) (x : Stmt) (h : isAfter x = true) :
    exec a s c x = effect c x ∨ (exec a s c x).ended = .ub := by
  cases x <;> simp only [isAfter, Bool.false_eq_true] at h <;> simp only [exec, effect, Call.broken] <;> (repeat' split) <;> simp

theorem after_fold (a : Args) (s : Service) (xs : List Stmt) (h : ∀ x ∈ xs, isAfter x = true) :
    ∀ c : Call, c.ended = .running →
      xs.foldl (step a s) c = { c with written := c.written ++ writes xs, kept := c.kept ++ keeps xs }
        ∨ (xs.foldl (step a s) c).ended = .ub := by
  induction xs with
  | nil => intro c hc; left; simp [writes, keeps]
  | cons x xs ih =>
    intro c hc
    rw [List.foldl_cons, step_running _ _ _ _ hc]
    rcases after_exec a s c x (h x (List.mem_cons_self ..)) with h1 | h1
    · rw [h1]
      rcases ih (fun y hy => h y (List.mem_cons_of_mem _ hy)) (effect c x) (by cases x <;> simp [effect, hc]) with h2 | h2
      · left; rw [h2]; cases x <;> simp [effect, writes, keeps]
      · exact Or.inr h2
    · right
      rw [fold_ended _ _ _ _ (by rw [h1]; simp)]
      exact h1

/-- Everything a call can end with. -/
theorem invoke_cases (g : Fn) (a : Args) (s : Service) (hs : shaped g.body = true) :
    (invoke g a s).ended = .ub
      ∨ invoke g a s = ⟨.returned .badParameter true, false, [], []⟩
      ∨ (invoke g a s = ⟨.returned .badParameter false, false, [], []⟩ ∧ ∃ x ∈ g.body, (∃ p, x = .ptrSilent p) ∨ ∃ p v, x = .oneOf p v)
      ∨ (invoke g a s = ⟨.returned .success false, false, [], []⟩ ∧ ∃ x ∈ g.body, ∃ p v k, x = .event p v k)
      ∨ (∃ e, s = .threw e ∧ invoke g a s = ⟨.returned (caught "" e "").2 (decide (e ≠ .other)), true, [], []⟩)
      ∨ (s = .done ∧ invoke g a s = ⟨.returned .success false, true, writes (post g.body), keeps (post g.body)⟩) := by
  obtain ⟨e1, e2, e3⟩ := shaped_split hs
  have hmem : ∀ x ∈ pre g.body, x ∈ g.body := by
    intro x hx; rw [e1]; exact List.mem_append_left _ hx
  have hinv : invoke g a s
      = finish ((.call :: post g.body).foldl (step a s) ((pre g.body).foldl (step a s) ⟨.running, false, [], []⟩)) := by
    unfold invoke
    conv => lhs; rw [e1]
    rw [List.foldl_append]
  rcases before_fold a s (pre g.body) e2 ⟨.running, false, [], []⟩ rfl with h | ⟨e, he, h, h'⟩
  · rw [h, List.foldl_cons, step_running _ _ _ _ rfl] at hinv
    cases s with
    | threw e =>
      right; right; right; right; left
      refine ⟨e, rfl, ?_⟩
      rw [hinv]
      simp only [exec]
      rw [fold_ended _ _ _ _ (by simp [Call.failed]), finish_ended _ (by simp [Call.failed])]
      simp [Call.failed]
    | done =>
      simp only [exec] at hinv
      rcases after_fold a .done (post g.body) e3 ⟨.running, true, [], []⟩ rfl with h2 | h2
      · right; right; right; right; right
        refine ⟨rfl, ?_⟩
        rw [hinv, h2]; simp [finish]
      · left
        rw [hinv, finish_ended _ (by rw [h2]; simp)]; exact h2
  · rw [h, fold_ended _ _ _ _ he, finish_ended _ he] at hinv
    rw [hinv]
    rcases h' with rfl | rfl | ⟨rfl, x, hx, h5⟩ | ⟨rfl, x, hx, h5⟩
    · exact Or.inl rfl
    · exact Or.inr (Or.inl rfl)
    · exact Or.inr (Or.inr (Or.inl ⟨rfl, x, hmem x hx, h5⟩))
    · exact Or.inr (Or.inr (Or.inr (Or.inl ⟨rfl, x, hmem x hx, h5⟩)))

/-! ## No crash at all -/

/-- Every pointer is checked before it is followed. -/
def careful : List Place → List Stmt → Bool
  | _, [] => true
  | known, x :: xs =>
    match x with
    | .ptr p | .ptrSilent p => reachKnown known p && careful (p :: known) xs
    | .header p | .read p | .write p => reachKnown known p && known.contains p && careful known xs
    | .bool p | .oneOf p _ => reachKnown known p && careful known xs
    | .ptrIf f p => reachKnown known f && reachKnown known p && careful known xs
    | .call | .keep _ => careful known xs
    | _ => false

theorem careful_safe (a : Args) (s : Service) (xs : List Stmt) :
    ∀ known c, (∀ q ∈ known, a.null q = false) → careful known xs = true → c.ended ≠ .ub →
      (xs.foldl (step a s) c).ended ≠ .ub := by
  induction xs with
  | nil => intro known c hk hg hc; exact hc
  | cons x xs ih =>
    intro known c hk hg hc
    rw [List.foldl_cons]
    by_cases hr : c.ended = .running
    · rw [step_running _ _ _ _ hr]
      have hend : ∀ (c' : Call), c'.ended ≠ .running → c'.ended ≠ .ub → (xs.foldl (step a s) c').ended ≠ .ub := by
        intro c' h1 h2; rw [fold_ended _ _ _ _ h1]; exact h2
      have hok : ∀ p known', (∀ q ∈ p :: known', a.null q = false) → careful (p :: known') xs = true → (xs.foldl (step a s) c).ended ≠ .ub :=
        fun p known' h1 h2 => ih _ c h1 h2 hc
      cases x <;> simp only [careful, Bool.and_eq_true, reduceCtorEq] at hg
      case ptr p =>
        have hre := reach_of_known hk hg.1
        cases hn : a.null p
        · simp only [exec, hre, hn, Bool.not_true, Bool.false_eq_true, if_false]
          exact ih (p :: known) c (by intro q hq; rcases List.mem_cons.mp hq with rfl | hq <;> first | exact hn | exact hk q hq) hg.2 hc
        · simp only [exec, hre, hn, Bool.not_true, Bool.false_eq_true, if_false, if_true]
          exact hend _ (by simp [Call.bad]) (by simp [Call.bad])
      case ptrSilent p =>
        have hre := reach_of_known hk hg.1
        cases hn : a.null p
        · simp only [exec, hre, hn, Bool.not_true, Bool.false_eq_true, if_false]
          exact ih (p :: known) c (by intro q hq; rcases List.mem_cons.mp hq with rfl | hq <;> first | exact hn | exact hk q hq) hg.2 hc
        · simp only [exec, hre, hn, Bool.not_true, Bool.false_eq_true, if_false, if_true]
          exact hend _ (by simp) (by simp)
      case header p =>
        have hre := reach_of_known hk hg.1.1
        have hn := hk p (List.contains_iff_mem.mp hg.1.2)
        simp only [exec, live, hre, hn, Bool.not_true, Bool.not_false, Bool.and_true, Bool.false_eq_true, if_false]
        split
        · exact ih known c hk hg.2 hc
        · exact hend _ (by simp [Call.bad]) (by simp [Call.bad])
      case read p =>
        have hre := reach_of_known hk hg.1.1
        have hn := hk p (List.contains_iff_mem.mp hg.1.2)
        simp only [exec, live, hre, hn, Bool.not_false, Bool.and_true, if_true]
        exact ih known c hk hg.2 hc
      case write p =>
        have hre := reach_of_known hk hg.1.1
        have hn := hk p (List.contains_iff_mem.mp hg.1.2)
        simp only [exec, live, hre, hn, Bool.not_false, Bool.and_true, if_true]
        exact ih known _ hk hg.2 hc
      case bool p =>
        have hre := reach_of_known hk hg.1
        simp only [exec, hre, Bool.not_true, Bool.false_eq_true, if_false]
        split
        · exact ih known c hk hg.2 hc
        · exact hend _ (by simp [Call.bad]) (by simp [Call.bad])
      case oneOf p vs =>
        have hre := reach_of_known hk hg.1
        simp only [exec, hre, Bool.not_true, Bool.false_eq_true, if_false]
        split
        · exact ih known c hk hg.2 hc
        · exact hend _ (by simp) (by simp)
      case ptrIf f p =>
        have hre := reach_of_known hk hg.1.1
        have hre' := reach_of_known hk hg.1.2
        simp only [exec, hre, hre', Bool.not_true, Bool.or_self, Bool.false_eq_true, if_false]
        split
        · exact hend _ (by simp [Call.bad]) (by simp [Call.bad])
        · exact ih known c hk hg.2 hc
      case call =>
        cases s with
        | done => exact ih known _ hk hg hc
        | threw e => exact hend _ (by simp [exec, Call.failed]) (by simp [exec, Call.failed])
      case keep p => exact ih known _ hk hg hc
    · have : step a s c x = c := by
        unfold step; split
        · rename_i h'; exact absurd h' hr
        · rfl
      rw [this, fold_ended _ _ _ _ hr]; exact hc

theorem careful_invoke (g : Fn) (a : Args) (s : Service) (h : careful [] g.body = true) : (invoke g a s).ended ≠ .ub := by
  unfold invoke
  have := careful_safe a s g.body [] ⟨.running, false, [], []⟩ (by intro q hq; cases hq) h (by simp)
  unfold finish
  split
  · simp
  · exact this

/-! ## Identifiers -/

theorem identifier_of_valid (id : Nat) (hlt : id < 2 ^ 64) (h : idValid id = true) : Identifier id := by
  unfold idValid serviceOf datatypeOf versionOf at h
  simp only [Bool.and_eq_true, decide_eq_true_eq] at h
  refine ⟨id / 2 ^ 40 % 256, id / 2 ^ 32 % 256, id / 2 ^ 24 % 256, id % 2 ^ 24, ?_⟩
  unfold tag
  omega

theorem valid_of_tag (s d v r : Nat) (hs : 1 ≤ s) (hs' : s ≤ 8) (hd : 1 ≤ d) (hd' : d ≤ 255) (hv : 1 ≤ v) (hv' : v ≤ 255) (hr : r < 2 ^ 24) :
    idValid (tag s d v + r) = true := by
  unfold idValid serviceOf datatypeOf versionOf tag
  simp only [Bool.and_eq_true, decide_eq_true_eq]
  omega

end SilKit.CApi
