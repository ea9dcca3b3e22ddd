import Verif.Lemmas.RpcNet
/-!
# A call is with the client, in a channel, with the server, or answered
-/
namespace SilKit.Rpc
open Spec

def callsN (n : Net) (i j : Nat) (u : Uuid) : Nat := (n.calls i j).countP (·.uuid == u)
def respsN (n : Net) (i j : Nat) (u : Uuid) : Nat := (n.resps i j).countP (·.uuid == u)

/-- The call `u` of client `i` and server `j`: how often it is under way, held, or answered. -/
def tok (i j : Nat) (u : Uuid) (r : NR) : Nat := callsN r.1 i j u + held (r.1.servers j) i u + respsN r.1 i j u + (repliesFrom i j u r.2).length

structure N (n : Net) : Prop where
  wf : ∀ j, Wf (n.servers j)
  opn : ∀ i j, n.opened i j = true → (n.servers j).has i = true
  chan : ∀ i j, n.calls i j ≠ [] → (n.servers j).has i = true
  fnd : ∀ i j, n.found i j = true → n.opened i j = true

theorem N_init : N {} where
  wf _ := wf_init
  opn _ _ h := by cases h
  chan _ _ h := absurd rfl h
  fnd _ _ h := by cases h

theorem N_server {n : Net} (h : N n) {j : Nat} {s : Server × List SOut} (w : Wf s.1) (hh : ∀ i, (n.servers j).has i = true → s.1.has i = true) :
    N (n.onServer j s).1 where
  wf k := by
    by_cases hk : k = j
    · subst hk; simp only [Net.onServer, upd_same]; exact w
    · simp only [Net.onServer, upd_ne _ _ hk]; exact h.wf k
  opn i k ho := by
    have := h.opn i k ho
    by_cases hk : k = j
    · subst hk; simp only [Net.onServer, upd_same]; exact hh i this
    · simp only [Net.onServer, upd_ne _ _ hk]; exact this
  chan i k ho := by
    have := h.chan i k ho
    by_cases hk : k = j
    · subst hk; simp only [Net.onServer, upd_same]; exact hh i this
    · simp only [Net.onServer, upd_ne _ _ hk]; exact this
  fnd := h.fnd

theorem N_client {n : Net} (h : N n) (k : Nat) (x : In) : N (n.onClient k x).1 where
  wf := h.wf
  opn := h.opn
  chan i j hc := by
    by_cases ho : i = k ∧ n.opened k j = true
    · exact ho.1 ▸ h.opn k j ho.2
    · simp only [Net.onClient, if_neg ho] at hc
      exact h.chan i j hc
  fnd := h.fnd

theorem N_step {n : Net} (h : N n) (x : Act) : N (n.step x).1 := by
  cases x with
  | client k x =>
    simp only [Net.step]
    split
    · exact N_client h k x
    · exact h
  | meet k j => exact N_server h (meet_wf (h.wf j) k) fun i => has_meet k i
  | enroll k j => exact N_server h (enroll_wf (h.wf j) k) fun i hi => (has_map (modEntry_key _ _) _ _ i).trans hi
  | «open» k j =>
    simp only [Net.step]
    split
    · rename_i hs
      refine ⟨h.wf, fun i l ho => ?_, h.chan, fun i l hf => ?_⟩
      · by_cases hk : i = k ∧ l = j
        · rw [hk.1, hk.2]; exact hs
        · simp only [upd2_ne _ _ hk] at ho
          exact h.opn i l ho
      · by_cases hk : i = k ∧ l = j
        · rw [hk.1, hk.2]; exact upd2_same _ _ _ _
        · simp only [upd2_ne _ _ hk]
          exact h.fnd i l hf
    · exact h
  | find k j =>
    simp only [Net.step]
    split
    · rename_i hs
      refine N_client (n := { n with found := upd2 n.found k j true }) ⟨h.wf, h.opn, h.chan, fun i l hf => ?_⟩ k .found
      by_cases hk : i = k ∧ l = j
      · rw [hk.1, hk.2]; exact hs.1
      · simp only [upd2_ne _ _ hk] at hf
        exact h.fnd i l hf
    · exact h
  | part k j =>
    simp only [Net.step]
    split
    · refine N_client (n := { n with opened := upd2 n.opened k j false, found := upd2 n.found k j false
                                     calls := upd2 n.calls k j [], resps := upd2 n.resps k j [] })
        ⟨h.wf, fun i l ho => ?_, fun i l hc => ?_, fun i l hf => ?_⟩ k .lost
      · by_cases hk : i = k ∧ l = j
        · rw [hk.1, hk.2] at ho; simp [upd2_same] at ho
        · simp only [upd2_ne _ _ hk] at ho
          exact h.opn i l ho
      · by_cases hk : i = k ∧ l = j
        · rw [hk.1, hk.2] at hc; simp [upd2_same] at hc
        · simp only [upd2_ne _ _ hk] at hc
          exact h.chan i l hc
      · by_cases hk : i = k ∧ l = j
        · rw [hk.1, hk.2] at hf; simp [upd2_same] at hf
        · simp only [upd2_ne _ _ hk] at hf ⊢
          exact h.fnd i l hf
    · exact h
  | setHandler j b => exact N_server h (setHandler_wf (h.wf j) b) fun i hi => (has_map (setEntry_key _) _ _ i).trans hi
  | take k j now inl =>
    simp only [Net.step]
    split
    · exact h
    · rename_i m rest hc
      have hn : N { n with calls := upd2 n.calls k j rest } := by
        refine ⟨h.wf, h.opn, fun i l hcc => ?_, h.fnd⟩
        by_cases hk : i = k ∧ l = j
        · rw [hk.1, hk.2]; exact h.chan k j (by rw [hc]; simp)
        · simp only [upd2_ne _ _ hk] at hcc
          exact h.chan i l hcc
      refine N_server hn ?_ fun i hi => (has_take _ k now m inl i).trans hi
      by_cases hb : (n.servers j).ub = true
      · simp only [Server.take, hb, if_true]; exact h.wf j
      · exact (take_token (h.wf j) (by simpa using hb) (h.chan k j (by rw [hc]; simp)) now m inl 0 0).1
  | submit j now u d => exact N_server h (submit_wf (h.wf j) now u d) fun i hi => (has_submit _ now u d i).trans hi
  | hear k j =>
    simp only [Net.step]
    split
    · exact h
    · exact N_client (n := { n with resps := upd2 n.resps k j _ }) ⟨h.wf, h.opn, h.chan, h.fnd⟩ k _

theorem net_N (h : List Act) : N (net h).1 := by
  refine act_induction (P := fun h => N (net h).1) N_init (fun l x ih => ?_) h
  rw [net_snoc]
  exact N_step ih x

/-! ## What a client sends -/

theorem expire_sends {now : Int} {r : R} {u : Uuid} (h : r.2.filterMap sentCall = []) : (expire now r u).2.filterMap sentCall = [] := by
  unfold expire
  split
  · exact h
  · split
    · simp [List.filterMap_append, h, sentCall]
    · split <;> simp [List.filterMap_append, h, sentCall]

theorem tick_sends (c : Client) (now : Int) (d : Nat) : (c.tick now d).2.filterMap sentCall = [] := by
  rw [tick_eq]
  have : ∀ (l : List Uuid) (r : R), r.2.filterMap sentCall = [] → (l.foldl (expire now) r).2.filterMap sentCall = [] := by
    intro l
    induction l with
    | nil => intro r h; exact h
    | cons x l ih => intro r h; exact ih _ (expire_sends h)
  exact this _ _ rfl

/-- A client sends only the calls that are made. -/
theorem sends_uuid (c : Client) (x : In) : ∀ m ∈ (c.step x).2.filterMap sentCall, uuidOf x = some m.uuid := by
  unfold Client.step
  split
  · intro m hm; cases hm
  · cases x with
    | found => intro m hm; cases hm
    | lost => intro m hm; cases hm
    | setHandler b => intro m hm; cases hm
    | call now u ctx data t =>
      intro m hm
      simp only at hm
      rcases call_cases c now u ctx data t with ⟨_, ec⟩ | ⟨_, ec⟩
      · rw [ec] at hm
        simp only at hm
        split at hm <;> simp [sentCall] at hm
      · rw [ec] at hm
        simp [sentCall] at hm
        rw [hm]; rfl
    | hear m =>
      intro m' hm
      simp only at hm
      rcases hear_cases c m with ⟨_, ec⟩ | ⟨i, _, ec⟩
      · rw [ec] at hm; cases hm
      · rw [ec] at hm
        simp only at hm
        split at hm <;> simp [sentCall] at hm
    | done =>
      intro m hm
      simp only at hm
      rcases done_cases c with ⟨_, ec⟩ | ⟨u, _, ⟨_, ec⟩ | ⟨i, hi, ⟨_, ec⟩ | ⟨_, ec⟩⟩⟩ <;> rw [ec] at hm <;> simp [sentCall] at hm
    | tick now d =>
      intro m hm
      simp only [tick_sends] at hm
      cases hm

/-! ## Conservation -/

/-- How often client `i` sends the call `u` to server `j`, in a step. -/
def newN (i j : Nat) (u : Uuid) (n : Net) : Act → Nat
  | .client k x => if k = i ∧ n.opened i j = true then ((n.clients i).step x).2.filterMap sentCall |>.countP (·.uuid == u) else 0
  | _ => 0

theorem tok_client {i j : Nat} {u : Uuid} {r : NR} (n : Net) (k : Nat) (x : In) (pre : List Ev) (hs : n.servers = r.1.servers) (c v : Nat)
    (hc : callsN n i j u = c) (hr : respsN n i j u + (repliesFrom i j u pre).length = v) :
    tok i j u ((n.onClient k x).1, r.2 ++ (pre ++ (n.onClient k x).2)) =
      c + held (r.1.servers j) i u + v + (repliesFrom i j u r.2).length +
        (if k = i ∧ n.opened i j = true then (((n.clients k).step x).2.filterMap sentCall).countP (·.uuid == u) else 0) := by
  unfold tok
  have h0 : repliesFrom i j u (n.onClient k x).2 = [] := repliesFrom_nil (replies_onClient n i k u x)
  simp only [repliesFrom_append, h0, List.append_nil, List.length_append]
  have h1 : callsN (n.onClient k x).1 i j u = c + (if k = i ∧ n.opened i j = true then (((n.clients k).step x).2.filterMap sentCall).countP (·.uuid == u) else 0) := by
    rw [← hc]
    unfold callsN
    simp only [Net.onClient]
    by_cases hk : k = i ∧ n.opened i j = true
    · have hk' : i = k ∧ n.opened k j = true := ⟨hk.1.symm, hk.1 ▸ hk.2⟩
      rw [if_pos hk, if_pos hk', List.countP_append]
    · have hk' : ¬ (i = k ∧ n.opened k j = true) := fun c => hk ⟨c.1.symm, c.1 ▸ c.2⟩
      rw [if_neg hk, if_neg hk', Nat.add_zero]
  have h2 : held ((n.onClient k x).1.servers j) i u = held (r.1.servers j) i u := by simp only [Net.onClient, hs]
  have h3 : respsN (n.onClient k x).1 i j u = respsN n i j u := rfl
  rw [h1, h2, h3, ← hr]
  omega

theorem tok_server {i j : Nat} {u : Uuid} {r : NR} (n : Net) (k : Nat) (s : Server × List SOut) (hs : n.servers = r.1.servers) (hr : n.resps = r.1.resps) :
    tok i j u ((n.onServer k s).1, r.2 ++ (n.onServer k s).2) =
      callsN n i j u + (if j = k then held s.1 i u + answersN i u s.2 else held (r.1.servers j) i u) + respsN r.1 i j u + (repliesFrom i j u r.2).length := by
  unfold tok
  have h0 : repliesFrom i j u (n.onServer k s).2 = [] := repliesFrom_nil (replies_onServer n i k u s)
  simp only [repliesFrom_append, h0, List.append_nil]
  by_cases hj : j = k
  · rw [if_pos hj, hj]
    simp only [callsN, respsN, answersN, Net.onServer, upd_same, if_true, List.countP_append, hr]
    omega
  · rw [if_neg hj]
    simp only [callsN, respsN, Net.onServer, upd_ne _ _ hj, if_neg hj, hr, hs]

/-- A call is neither lost nor duplicated, unless a server is in trouble or the connection ends. -/
theorem tok_step {i j : Nat} {u : Uuid} {r : NR} (h : N r.1) (x : Act) :
    tok i j u (onAct r x) ≤ tok i j u r + newN i j u r.1 x ∧
    ((∀ j, (r.1.servers j).ub = false) → x ≠ .part i j → tok i j u (onAct r x) = tok i j u r + newN i j u r.1 x) := by
  have both : tok i j u (onAct r x) = tok i j u r + newN i j u r.1 x → tok i j u (onAct r x) ≤ tok i j u r + newN i j u r.1 x ∧
    ((∀ j, (r.1.servers j).ub = false) → x ≠ .part i j → tok i j u (onAct r x) = tok i j u r + newN i j u r.1 x) := fun e => ⟨by omega, fun _ _ => e⟩
  have same : ∀ n : Net, callsN n i j u = callsN r.1 i j u → n.servers = r.1.servers → n.resps = r.1.resps → tok i j u (n, r.2 ++ []) = tok i j u r := by
    intro n h1 h2 h3
    unfold tok
    simp only [List.append_nil, h1, h2, respsN, h3]
  have quiet : ∀ (n : Net) (k : Nat) (y : In), uuidOf y = none → (if k = i ∧ n.opened i j = true then (((n.clients k).step y).2.filterMap sentCall).countP (·.uuid == u) else 0) = 0 := by
    intro n k y hy
    split
    · rw [List.countP_eq_zero]
      intro m hm
      have := sends_uuid _ _ m hm
      rw [hy] at this; cases this
    · rfl
  cases x with
  | client k x =>
    refine both ?_
    simp only [onAct, Net.step, newN]
    split
    · have := tok_client (i := i) (j := j) (u := u) (r := r) r.1 k x [] rfl _ _ rfl rfl
      rw [List.nil_append] at this
      rw [this, tok]
      by_cases hk : k = i ∧ r.1.opened i j = true
      · rw [if_pos hk, if_pos hk, hk.1]
        simp only [repliesFrom, List.filterMap_nil, List.length_nil]
        omega
      · rw [if_neg hk, if_neg hk]
        simp only [repliesFrom, List.filterMap_nil, List.length_nil]
        omega
    · rename_i hl
      rw [same r.1 rfl rfl rfl]
      split
      · have : (List.filterMap sentCall ((r.1.clients i).step x).2).countP (·.uuid == u) = 0 := by
          rw [List.countP_eq_zero]
          intro m hm
          have := sends_uuid _ _ m hm
          cases x <;> first | exact absurd rfl hl | cases this
        rw [this, Nat.add_zero]
      · rfl
  | meet k l =>
    refine both ?_
    simp only [onAct, Net.step, newN]
    rw [tok_server r.1 l _ rfl rfl, tok]
    have : answersN i u [] = 0 := rfl
    simp only [held_meet, this]
    split
    · rename_i hj; rw [hj]; omega
    · omega
  | enroll k l =>
    refine both ?_
    simp only [onAct, Net.step, newN]
    rw [tok_server r.1 l _ rfl rfl, tok]
    have : answersN i u [] = 0 := rfl
    simp only [held_enroll, this]
    split
    · rename_i hj; rw [hj]; omega
    · omega
  | «open» k l =>
    refine both ?_
    simp only [onAct, Net.step, newN]
    split
    · exact same _ rfl rfl rfl
    · exact same _ rfl rfl rfl
  | find k l =>
    refine both ?_
    simp only [onAct, Net.step, newN]
    split
    · have := tok_client (i := i) (j := j) (u := u) (r := r) { r.1 with found := upd2 r.1.found k l true } k .found [] rfl _ _ rfl rfl
      rw [List.nil_append] at this
      rw [this, quiet _ _ _ rfl]
      unfold tok
      simp only [callsN, respsN, repliesFrom, List.filterMap_nil, List.length_nil]
      omega
    · exact same _ rfl rfl rfl
  | part k l =>
    simp only [onAct, Net.step, newN]
    split
    · have := tok_client (i := i) (j := j) (u := u) (r := r) { r.1 with opened := upd2 r.1.opened k l false, found := upd2 r.1.found k l false
                                                                        calls := upd2 r.1.calls k l [], resps := upd2 r.1.resps k l [] } k .lost [] rfl _ _ rfl rfl
      rw [List.nil_append] at this
      rw [this, quiet _ _ _ rfl]
      by_cases hk : i = k ∧ j = l
      · refine ⟨?_, fun _ hx => absurd (by rw [hk.1, hk.2]) hx⟩
        unfold tok
        simp only [callsN, respsN, hk.1, hk.2, upd2_same, repliesFrom, List.filterMap_nil, List.length_nil, List.countP_nil]
        omega
      · have e : callsN { r.1 with opened := upd2 r.1.opened k l false, found := upd2 r.1.found k l false
                                   calls := upd2 r.1.calls k l [], resps := upd2 r.1.resps k l [] } i j u + held (r.1.servers j) i u +
            (respsN { r.1 with opened := upd2 r.1.opened k l false, found := upd2 r.1.found k l false
                               calls := upd2 r.1.calls k l [], resps := upd2 r.1.resps k l [] } i j u + (repliesFrom i j u []).length) + (repliesFrom i j u r.2).length + 0 =
            tok i j u r + 0 := by
          unfold tok
          simp only [callsN, respsN, upd2_ne _ _ hk, repliesFrom, List.filterMap_nil, List.length_nil]
          omega
        exact ⟨by rw [e]; omega, fun _ _ => e⟩
    · exact ⟨by rw [same _ rfl rfl rfl]; omega, fun _ _ => by rw [same _ rfl rfl rfl]; rfl⟩
  | setHandler l b =>
    refine both ?_
    simp only [onAct, Net.step, newN]
    rw [tok_server r.1 l _ rfl rfl, tok]
    have : answersN i u [] = 0 := rfl
    simp only [held_setHandler, this]
    split
    · rename_i hj; rw [hj]; omega
    · omega
  | take k l now inl =>
    simp only [onAct, Net.step, newN]
    split
    · exact ⟨by rw [same _ rfl rfl rfl]; omega, fun _ _ => by rw [same _ rfl rfl rfl]; rfl⟩
    · rename_i m rest hc
      rw [tok_server { r.1 with calls := upd2 r.1.calls k l rest } l _ rfl rfl]
      have hcn : callsN { r.1 with calls := upd2 r.1.calls k l rest } i j u + (if i = k ∧ j = l ∧ m.uuid = u then 1 else 0) = callsN r.1 i j u := by
        unfold callsN
        by_cases hk : i = k ∧ j = l
        · simp only [hk.1, hk.2, upd2_same, hc, List.countP_cons, true_and]
          by_cases hm : m.uuid = u <;> simp [hm]
        · simp only [upd2_ne _ _ hk]
          rw [if_neg (fun c => hk ⟨c.1, c.2.1⟩)]
          omega
      dsimp only at hcn ⊢
      by_cases hj : j = l
      · subst hj
        rw [if_pos rfl]
        by_cases hb : (r.1.servers j).ub = true
        · have e : (r.1.servers j).take k now m inl = (r.1.servers j, []) := by simp only [Server.take, hb, if_true]
          rw [e]
          refine ⟨?_, fun hf => absurd (hf j) (by rw [hb]; simp)⟩
          have : answersN i u [] = 0 := rfl
          unfold tok
          simp only [this]
          omega
        · have ht := (take_token (h.wf j) (by simpa using hb) (h.chan k j (by rw [hc]; simp)) now m inl i u).2
          have hcond : (if k = i ∧ m.uuid = u then 1 else 0) = (if i = k ∧ j = j ∧ m.uuid = u then 1 else 0) := by
            by_cases hki : k = i
            · subst hki
              by_cases hm : m.uuid = u <;> simp [hm]
            · rw [if_neg (fun c => hki c.1), if_neg (fun c => hki c.1.symm)]
          have e' : ∀ a b c d : Nat, a + (held ((r.1.servers j).take k now m inl).1 i u + answersN i u ((r.1.servers j).take k now m inl).2) + c + d =
            a + (held (r.1.servers j) i u + if i = k ∧ j = j ∧ m.uuid = u then 1 else 0) + c + d := fun a b c d => by rw [ht, hcond]
          rw [e' _ 0]
          unfold tok
          exact ⟨by omega, fun _ _ => by omega⟩
      · rw [if_neg hj]
        rw [if_neg (fun c => hj c.2.1)] at hcn
        unfold tok
        exact ⟨by omega, fun _ _ => by omega⟩
  | submit l now v d =>
    refine both ?_
    simp only [onAct, Net.step, newN]
    rw [tok_server r.1 l _ rfl rfl, tok]
    have := submit_token (h.wf l) now v u d i
    split
    · rename_i hj; subst hj; omega
    · omega
  | hear k l =>
    refine both ?_
    simp only [onAct, Net.step, newN]
    split
    · rw [same _ rfl rfl rfl]; rfl
    · rename_i m rest hc
      have := tok_client (i := i) (j := j) (u := u) (r := r) { r.1 with resps := upd2 r.1.resps k l rest } k (.hear m) [.heard k l m] rfl _ _ rfl rfl
      have e : [Ev.heard k l m] ++ (Net.onClient { r.1 with resps := upd2 r.1.resps k l rest } k (.hear m)).2 =
        .heard k l m :: (Net.onClient { r.1 with resps := upd2 r.1.resps k l rest } k (.hear m)).2 := rfl
      rw [e] at this
      simp only
      rw [this, quiet _ _ _ rfl]
      have hrn : respsN { r.1 with resps := upd2 r.1.resps k l rest } i j u + (repliesFrom i j u [.heard k l m]).length = respsN r.1 i j u := by
        unfold respsN repliesFrom
        by_cases hk : i = k ∧ j = l
        · simp only [hk.1, hk.2, upd2_same, hc, List.countP_cons]
          by_cases hm : m.uuid = u <;> simp [hm, heardFrom]
        · have hk' : ¬ (k = i ∧ l = j ∧ m.uuid = u) := fun c => hk ⟨c.1.symm, c.2.1.symm⟩
          simp only [upd2_ne _ _ hk]
          simp [heardFrom, hk']
      have hcn : callsN { r.1 with resps := upd2 r.1.resps k l rest } i j u = callsN r.1 i j u := rfl
      rw [hrn, hcn]
      rfl

end SilKit.Rpc
