import Verif.Lemmas.CApi

/-! The checks of all bodies against all signatures, decided once. -/
namespace SilKit.CApi

open Spec HourglassValues

def nullUnchecked : List (String × Nat) := [("DataSubscriber_Create", 5), ("ReturnCodeToString", 0)]

def headerUnchecked : List (String × Nat) :=
  [("DataPublisher_Create", 3), ("DataSubscriber_Create", 3), ("EthernetController_SendFrame", 1), ("FlexrayController_UpdateTxBuffer", 1),
   ("Experimental_LinController_GetSlaveConfiguration", 1), ("Experimental_LinController_SendDynamicResponse", 1),
   ("Experimental_SystemController_SetWorkflowConfiguration", 1), ("RpcServer_Create", 3), ("RpcClient_Create", 3)]

def isEvent : Stmt → Bool
  | .event .. => true
  | _ => false

def isSilent : Stmt → Bool
  | .ptrSilent _ | .oneOf _ _ => true
  | _ => false

def checked (g : Fn) (f : Sig) : Bool :=
  goodFn f g
    && f.pointers.all (fun i => nullUnchecked.contains (g.name, i) || guards (.ptr ⟨i, []⟩) [] g.body)
    && (f.identified.map (·.1) ++ f.events.map (·.at_)).all (fun p => headerUnchecked.contains (g.name, p.arg) || guards (.header p) [] g.body)
    && (!f.identified.isEmpty || !f.events.isEmpty || !f.arrays.isEmpty || f.textTo.isSome || careful [] g.body)
    && (!f.events.isEmpty || !g.body.any isEvent)
    && (!f.choices.isEmpty || !g.body.any isSilent)

set_option maxRecDepth 100000 in
theorem all_checked : ∀ g ∈ api, ∀ f ∈ signatures, g.name = f.name → checked g f = true := by decide +kernel

set_option maxRecDepth 100000 in
theorem same_names : api.map (·.name) = signatures.map (·.name) := by decide +kernel

structure Checked (g : Fn) (f : Sig) : Prop where
  good : goodFn f g = true
  nulls : ∀ i ∈ f.pointers, (g.name, i) ∉ nullUnchecked → guards (.ptr ⟨i, []⟩) [] g.body = true
  headers : ∀ p ∈ f.identified.map (·.1) ++ f.events.map (·.at_), (g.name, p.arg) ∉ headerUnchecked → guards (.header p) [] g.body = true
  safe : f.identified = [] → f.events = [] → f.arrays = [] → f.textTo = none → careful [] g.body = true
  events : f.events = [] → ∀ x ∈ g.body, isEvent x = false
  silent : f.choices = [] → ∀ x ∈ g.body, isSilent x = false

theorem checked_all {g : Fn} {f : Sig} (hg : g ∈ api) (hf : f ∈ signatures) (hn : g.name = f.name) : Checked g f := by
  have h := all_checked g hg f hf hn
  unfold checked at h
  simp only [Bool.and_eq_true, Bool.or_eq_true, List.all_eq_true] at h
  obtain ⟨⟨⟨⟨⟨h1, h2⟩, h3⟩, h4⟩, h5⟩, h6⟩ := h
  refine ⟨h1, ?_, ?_, ?_, ?_, ?_⟩
  · intro i hi hx
    rcases h2 i hi with h | h
    · exact absurd (List.contains_iff_mem.mp h) hx
    · exact h
  · intro p hp hx
    rcases h3 p hp with h | h
    · exact absurd (List.contains_iff_mem.mp h) hx
    · exact h
  · intro a b c d
    rw [a, b, c, d] at h4
    simpa using h4
  · intro a x hx
    rw [a] at h5
    have := h5.resolve_left (by simp)
    rw [Bool.not_eq_true', List.any_eq_false] at this
    simpa using this x hx
  · intro a x hx
    rw [a] at h6
    have := h6.resolve_left (by simp)
    rw [Bool.not_eq_true', List.any_eq_false] at this
    simpa using this x hx

theorem goodFn_shaped {g : Fn} {f : Sig} (h : goodFn f g = true) :
    shaped g.body = true ∧ writes (post g.body) = f.results ∧ keeps (post g.body) = f.handlers := by
  unfold goodFn at h
  simp only [Bool.and_eq_true, decide_eq_true_eq] at h
  exact ⟨h.1.1.1.1, h.1.2, h.2⟩

/-! ## Identifiers that are not told apart -/

theorem sendFrame_other (x : Nat) (hv : idValid x = true) (hne : (x == idMake 1 1 1) = false) :
    (invoke fnCanControllerSendFrame
      ⟨fun _ => false, fun p => if p == ⟨1, ["structHeader"]⟩ then x else 1, fun _ _ _ => false⟩ .done).ended = .ub := by
  simp [invoke, fnCanControllerSendFrame, List.foldl, step, exec, reach, live, Place.before, Place.dot, hv, hne, Call.broken, finish]

theorem produce_other (x y : Nat) (hv : idValid x = true) (hr : idValid y = true)
    (hk : ¬(datatypeOf x = 3 ∨ datatypeOf x = 2 ∨ datatypeOf x = 4 ∨ datatypeOf x = 5)) (s : Service) :
    invoke fnExperimentalCanEventProducerProduce
      ⟨fun _ => false, fun p => if p == ⟨1, ["structHeader"]⟩ then x else if p == ⟨2, ["structHeader"]⟩ then y else 1, fun _ _ _ => false⟩ s
        = ⟨.returned .success false, false, [], []⟩ := by
  simp [invoke, fnExperimentalCanEventProducerProduce, List.foldl, step, exec, reach, live, Place.before, Place.dot, hv, hr, hk, finish]

/-! ## Arguments for examples -/

/-- Arguments that fit, but for the pointers named. -/
def argsFor (f : Sig) (nulls : List Place) : Args :=
  { null := fun q => nulls.contains q
    num := fun q =>
      match f.identified.find? (fun x => x.1.dot "structHeader" == q), f.events.find? (fun x => x.at_.dot "structHeader" == q) with
      | some x, _ => x.2
      | none, some e => e.identifiers.headD 0
      | none, none => 1
    elemNull := fun _ _ _ => false }

set_option maxRecDepth 100000 in
theorem argsFor_nums : ∀ f ∈ signatures, (∀ x ∈ f.identified, (argsFor f []).num (x.1.dot "structHeader") = x.2) ∧
    (∀ p ∈ f.bools, (argsFor f []).num p = 1) ∧ (∀ x ∈ f.choices, (argsFor f []).num x.1 < x.2) ∧
    (∀ x ∈ f.events, (argsFor f []).num (x.at_.dot "structHeader") ∈ x.identifiers) := by decide +kernel

theorem argsFor_fits {f : Sig} (hf : f ∈ signatures) : Fits (argsFor f []) f := by
  obtain ⟨h1, h2, h3, h4⟩ := argsFor_nums f hf
  exact ⟨fun i _ => rfl, fun p _ => rfl, h1, fun x _ _ => ⟨rfl, fun _ _ _ _ => rfl⟩, fun p hp => Or.inr (h2 p hp), fun _ _ _ => rfl, h3,
    fun x hx => ⟨h4 x hx, fun _ _ _ => rfl⟩, fun _ _ _ _ _ _ => rfl⟩

end SilKit.CApi
