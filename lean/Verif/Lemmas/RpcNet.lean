import Verif.Lemmas.RpcCall
import Verif.Lemmas.RpcServer
/-!
# Lemmas about clients and servers that are connected
-/
namespace SilKit.Rpc
open Spec

theorem net_snoc (h : List Act) (x : Act) : net (h ++ [x]) = onAct (net h) x := by simp [net, List.foldl_append]

theorem act_induction {P : List Act → Prop} (nil : P []) (snoc : ∀ l x, P l → P (l ++ [x])) (h : List Act) : P h := by
  rw [← List.reverse_reverse h]
  induction h.reverse with
  | nil => exact nil
  | cons x l ih => rw [List.reverse_cons]; exact snoc _ _ ih

/-! ## Projections of the trace -/

theorem inputs_append (i : Nat) (a b : List Ev) : inputs i (a ++ b) = inputs i a ++ inputs i b := List.filterMap_append
theorem outputs_append (i : Nat) (a b : List Ev) : outputs i (a ++ b) = outputs i a ++ outputs i b := List.filterMap_append
theorem repliesFrom_append (i j : Nat) (u : Uuid) (a b : List Ev) : repliesFrom i j u (a ++ b) = repliesFrom i j u a ++ repliesFrom i j u b := List.filterMap_append
theorem replies_append (i : Nat) (u : Uuid) (a b : List Ev) : replies i u (a ++ b) = replies i u a ++ replies i u b := List.filterMap_append

theorem inputs_client (i k : Nat) (o : List Out) : inputs i (o.map (.client k)) = [] := by
  induction o with
  | nil => rfl
  | cons x o ih => rw [List.map_cons, inputs, List.filterMap_cons_none rfl]; exact ih

theorem inputs_server (i k : Nat) (o : List SOut) : inputs i (o.map (.server k)) = [] := by
  induction o with
  | nil => rfl
  | cons x o ih => rw [List.map_cons, inputs, List.filterMap_cons_none rfl]; exact ih

theorem outputs_server (i k : Nat) (o : List SOut) : outputs i (o.map (.server k)) = [] := by
  induction o with
  | nil => rfl
  | cons x o ih => rw [List.map_cons, outputs, List.filterMap_cons_none rfl]; exact ih

theorem outputs_client (i k : Nat) (o : List Out) : outputs i (o.map (.client k)) = if k = i then o else [] := by
  induction o with
  | nil => simp [outputs]
  | cons x o ih =>
    rw [List.map_cons, outputs]
    by_cases h : k = i
    · rw [List.filterMap_cons_some (b := x) (by rw [outputOf, if_pos h]), if_pos h]
      unfold outputs at ih
      rw [ih, if_pos h]
    · rw [List.filterMap_cons_none (by rw [outputOf, if_neg h]), if_neg h]
      rw [if_neg h] at ih
      exact ih

theorem replies_client (i k : Nat) (u : Uuid) (o : List Out) : replies i u (o.map (.client k)) = [] := by
  induction o with
  | nil => rfl
  | cons x o ih => rw [List.map_cons, replies, List.filterMap_cons_none rfl]; exact ih

theorem replies_server (i k : Nat) (u : Uuid) (o : List SOut) : replies i u (o.map (.server k)) = [] := by
  induction o with
  | nil => rfl
  | cons x o ih => rw [List.map_cons, replies, List.filterMap_cons_none rfl]; exact ih

theorem repliesFrom_eq (i j : Nat) (u : Uuid) (t : List Ev) : repliesFrom i j u t = ((replies i u t).filter fun p => p.1 == j).map (·.2) := by
  induction t with
  | nil => rfl
  | cons e t ih =>
    unfold repliesFrom replies at ih ⊢
    cases e with
    | input k x => rw [List.filterMap_cons_none rfl, List.filterMap_cons_none rfl]; exact ih
    | client k x => rw [List.filterMap_cons_none rfl, List.filterMap_cons_none rfl]; exact ih
    | server k x => rw [List.filterMap_cons_none rfl, List.filterMap_cons_none rfl]; exact ih
    | heard k l m =>
      by_cases h : k = i ∧ m.uuid = u
      · rw [List.filterMap_cons_some (f := heardAny i u) (b := (l, m)) (by rw [heardAny, if_pos h])]
        by_cases hl : l = j
        · rw [List.filterMap_cons_some (b := m) (by rw [heardFrom, if_pos ⟨h.1, hl, h.2⟩]), List.filter_cons_of_pos (by simp [hl]), ih]; rfl
        · rw [List.filterMap_cons_none (by rw [heardFrom, if_neg (fun c => hl c.2.1)]), List.filter_cons_of_neg (by simp [hl]), ih]
      · rw [List.filterMap_cons_none (f := heardAny i u) (by rw [heardAny, if_neg h]),
          List.filterMap_cons_none (by rw [heardFrom, if_neg (fun c => h ⟨c.1, c.2.2⟩)])]
        exact ih

theorem repliesFrom_nil {i j : Nat} {u : Uuid} {t : List Ev} (h : replies i u t = []) : repliesFrom i j u t = [] := by
  rw [repliesFrom_eq, h]; rfl

/-- The events of a step of a client. -/
theorem onClient_ev (n : Net) (k : Nat) (x : In) : (n.onClient k x).2 = .input k x :: ((n.clients k).step x).2.map (.client k) := rfl

theorem inputs_onClient (n : Net) (i k : Nat) (x : In) : inputs i (n.onClient k x).2 = if k = i then [x] else [] := by
  rw [onClient_ev]
  by_cases h : k = i
  · rw [inputs, List.filterMap_cons_some (b := x) (by rw [inputOf, if_pos h]), if_pos h]
    have := inputs_client i k ((n.clients k).step x).2
    unfold inputs at this
    rw [this]
  · rw [inputs, List.filterMap_cons_none (by rw [inputOf, if_neg h]), if_neg h]
    exact inputs_client i k _

theorem outputs_onClient (n : Net) (i k : Nat) (x : In) : outputs i (n.onClient k x).2 = if k = i then ((n.clients k).step x).2 else [] := by
  rw [onClient_ev, outputs, List.filterMap_cons_none rfl]
  exact outputs_client i k _

theorem replies_onClient (n : Net) (i k : Nat) (u : Uuid) (x : In) : replies i u (n.onClient k x).2 = [] := by
  rw [onClient_ev, replies, List.filterMap_cons_none rfl]
  exact replies_client i k u _

theorem replies_onServer (n : Net) (i j : Nat) (u : Uuid) (r : Server × List SOut) : replies i u (n.onServer j r).2 = [] := replies_server i j u _
theorem inputs_onServer (n : Net) (i j : Nat) (r : Server × List SOut) : inputs i (n.onServer j r).2 = [] := inputs_server i j _
theorem outputs_onServer (n : Net) (i j : Nat) (r : Server × List SOut) : outputs i (n.onServer j r).2 = [] := outputs_server i j _

theorem upd_same {α : Type} (f : Nat → α) (i : Nat) (x : α) : upd f i x i = x := by simp [upd]
theorem upd_ne {α : Type} (f : Nat → α) {i k : Nat} (x : α) (h : k ≠ i) : upd f i x k = f k := by simp [upd, h]
theorem upd2_same {α : Type} (f : Nat → Nat → α) (i j : Nat) (x : α) : upd2 f i j x i j = x := by simp [upd2]
theorem upd2_ne {α : Type} (f : Nat → Nat → α) {i j k l : Nat} (x : α) (h : ¬ (k = i ∧ l = j)) : upd2 f i j x k l = f k l := by simp only [upd2, if_neg h]

/-! ## A client in a network is a client -/

def Own (i : Nat) (r : NR) : Prop := (r.1.clients i, outputs i r.2) = solo (inputs i r.2)

theorem own_client {i : Nat} {r : NR} (o : Own i r) (n : Net) (k : Nat) (x : In) (pre : List Ev) (hc : n.clients = r.1.clients)
    (h1 : inputs i pre = []) (h2 : outputs i pre = []) : Own i ((n.onClient k x).1, r.2 ++ (pre ++ (n.onClient k x).2)) := by
  unfold Own at o ⊢
  simp only [inputs_append, outputs_append, h1, h2, List.nil_append, inputs_onClient, outputs_onClient]
  by_cases h : k = i
  · rw [if_pos h, if_pos h, solo_snoc, ← o, h]
    simp only [Net.onClient, upd_same, onInput, hc]
  · rw [if_neg h, if_neg h, List.append_nil, List.append_nil, ← o]
    simp only [Net.onClient, upd_ne _ _ (fun c => h c.symm), hc]

theorem own_server {i : Nat} {r : NR} (o : Own i r) (n : Net) (j : Nat) (s : Server × List SOut) (hc : n.clients = r.1.clients) :
    Own i ((n.onServer j s).1, r.2 ++ (n.onServer j s).2) := by
  unfold Own at o ⊢
  simp only [inputs_append, outputs_append, inputs_onServer, outputs_onServer, List.append_nil]
  rw [← o]
  simp only [Net.onServer, hc]

theorem own_none {i : Nat} {r : NR} (o : Own i r) (n : Net) (hc : n.clients = r.1.clients) : Own i (n, r.2 ++ []) := by
  unfold Own at o ⊢
  simp only [List.append_nil]
  rw [← o]
  simp only [hc]

theorem own_step {i : Nat} {r : NR} (o : Own i r) (x : Act) : Own i (onAct r x) := by
  unfold onAct
  cases x with
  | client k x =>
    simp only [Net.step]
    split
    · exact own_client o r.1 k x [] rfl rfl rfl
    · exact own_none o r.1 rfl
  | meet k j => exact own_server o r.1 j _ rfl
  | enroll k j => exact own_server o r.1 j _ rfl
  | «open» k j =>
    simp only [Net.step]
    split
    · exact own_none o _ rfl
    · exact own_none o r.1 rfl
  | find k j =>
    simp only [Net.step]
    split
    · exact own_client o _ k _ [] rfl rfl rfl
    · exact own_none o r.1 rfl
  | part k j =>
    simp only [Net.step]
    split
    · exact own_client o _ k _ [] rfl rfl rfl
    · exact own_none o r.1 rfl
  | setHandler j b => exact own_server o r.1 j _ rfl
  | take k j now inl =>
    simp only [Net.step]
    split
    · exact own_none o r.1 rfl
    · exact own_server o _ j _ rfl
  | submit j now u d => exact own_server o r.1 j _ rfl
  | hear k j =>
    simp only [Net.step]
    split
    · exact own_none o r.1 rfl
    · exact own_client o _ k _ [_] rfl rfl rfl

theorem net_own (i : Nat) (h : List Act) : Own i (net h) := by
  refine act_induction (P := fun h => Own i (net h)) rfl (fun l x ih => ?_) h
  rw [net_snoc]
  exact own_step ih x

theorem net_outputs (i : Nat) (h : List Act) : outputs i (net h).2 = (solo (inputs i (net h).2)).2 := by
  rw [← net_own i h]

theorem net_client (i : Nat) (h : List Act) : (net h).1.clients i = (solo (inputs i (net h).2)).1 := by
  rw [← net_own i h]

/-! ## Responses -/

/-- The responses that a client gets are those that reach it. -/
theorem answers_replies (i : Nat) (u : Uuid) (h : List Act) : answers u (inputs i (net h).2) = (replies i u (net h).2).map (·.2) := by
  refine act_induction (P := fun h => answers u (inputs i (net h).2) = (replies i u (net h).2).map (·.2)) rfl (fun l x ih => ?_) h
  rw [net_snoc]
  generalize net l = r at ih ⊢
  have key : answers u (inputs i (r.1.step x).2) = (replies i u (r.1.step x).2).map (·.2) := by
    have noth : ∀ (n : Net) k y, (∀ m, y ≠ .hear m) → answers u (inputs i (n.onClient k y).2) = (replies i u (n.onClient k y).2).map (·.2) := by
      intro n k y hy
      rw [inputs_onClient, replies_onClient]
      split
      · cases y with
        | hear m => exact absurd rfl (hy m)
        | _ => rfl
      · rfl
    have srv : ∀ (n : Net) j s, answers u (inputs i (n.onServer j s).2) = (replies i u (n.onServer j s).2).map (·.2) := by
      intro n j s
      rw [inputs_onServer, replies_onServer]; rfl
    cases x with
    | client k x =>
      simp only [Net.step]
      split
      · rename_i hl
        exact noth r.1 k x (fun m c => by rw [c] at hl; cases hl)
      · rfl
    | meet k j => exact srv r.1 j _
    | enroll k j => exact srv r.1 j _
    | «open» k j =>
      simp only [Net.step]
      split <;> rfl
    | find k j =>
      simp only [Net.step]
      split
      · exact noth _ k _ (fun m c => by cases c)
      · rfl
    | part k j =>
      simp only [Net.step]
      split
      · exact noth _ k _ (fun m c => by cases c)
      · rfl
    | setHandler j b => exact srv r.1 j _
    | take k j now inl =>
      simp only [Net.step]
      split
      · rfl
      · exact srv _ j _
    | submit j now v d => exact srv r.1 j _
    | hear k j =>
      simp only [Net.step]
      split
      · rfl
      · rename_i m rest _
        have e1 : ∀ (n : Net), inputs i (.heard k j m :: (n.onClient k (.hear m)).2) = inputs i (n.onClient k (.hear m)).2 := fun n => by
          rw [inputs, List.filterMap_cons_none rfl]; rfl
        have e2 : ∀ (n : Net), replies i u (.heard k j m :: (n.onClient k (.hear m)).2) = if k = i ∧ m.uuid = u then [(j, m)] else [] := fun n => by
          have := replies_onClient n i k u (.hear m)
          unfold replies at this ⊢
          by_cases h : k = i ∧ m.uuid = u
          · rw [List.filterMap_cons_some (b := (j, m)) (by rw [heardAny, if_pos h]), this, if_pos h]
          · rw [List.filterMap_cons_none (by rw [heardAny, if_neg h]), this, if_neg h]
        rw [e1, e2, inputs_onClient]
        by_cases hk : k = i
        · rw [if_pos hk]
          by_cases hm : m.uuid = u
          · rw [if_pos ⟨hk, hm⟩]; simp [answers, answerTo, hm]
          · rw [if_neg (fun c => hm c.2)]; simp [answers, answerTo, hm]
        · rw [if_neg hk, if_neg (fun c => hk c.1)]; rfl
  simp only [onAct, inputs_append, replies_append, List.map_append, ← ih, ← key]
  simp [answers, List.filterMap_append]

end SilKit.Rpc
