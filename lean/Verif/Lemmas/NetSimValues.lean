import Verif.Spec.NetSimValues
import Verif.Lemmas.HourglassValues
import Verif.Lemmas.ConfigFiles
namespace SilKit.NetSimValues
open HourglassValues Spec
open SilKit.HourglassValues.Spec (Nanoseconds Text)

/-! ## Fields -/

theorem ofCCanFrame_toC (x : CanFrame) : ofCCanFrame (toCCanFrame x) = x := rfl
theorem ofCLinFrame_toC (x : LinFrame) : ofCLinFrame (toCLinFrame x) = x := rfl
theorem ofCCluster_toC (x : FlexrayClusterParameters) : ofCCluster (toCCluster x) = x := rfl
theorem ofCNode_toC (x : FlexrayNodeParameters) : ofCNode (toCNode x) = x := rfl
theorem toBool_ofBool' (b : Bool) : toBool (ofBool b) = b := by cases b <;> rfl
theorem isTrue_ofBool (b : Bool) : (ofBool b == 1) = b := by cases b <;> rfl
theorem ofCTxBufferConfig_toC (x : FlexrayTxBufferConfig) : ofCTxBufferConfig (toCTxBufferConfig x) = x := by
  unfold ofCTxBufferConfig toCTxBufferConfig
  simp only [isTrue_ofBool]
theorem ofCFlexrayFrame_toC (x : FlexrayFrame) (h : x.payload.length < 2 ^ 32) : ofCFlexrayFrame (toCFlexrayFrame x) = x := by
  unfold ofCFlexrayFrame toCFlexrayFrame
  simp only [toSpan_toByteVector32 _ h]
theorem ofCPocStatus_toC (x : PocStatus) : ofCPocStatus (toCPocStatus x) = x := by
  unfold ofCPocStatus toCPocStatus
  simp only [toBool_ofBool']

theorem modeFlags_eq (r c : Bool) : modeFlags r c = BitVec.ofNat 32 (r.toNat + 2 * c.toNat) := by
  cases r <;> cases c <;> rfl

/-! ## Arrays -/

theorem fillConfigs_eq (z : CFlexrayTxBufferConfig) (l : List FlexrayTxBufferConfig) :
    fillConfigs l (List.replicate l.length z) = some (l.map toCTxBufferConfig) := by
  induction l with
  | nil => rfl
  | cons x l ih =>
    rw [List.length_cons, List.replicate_succ]
    simp only [fillConfigs, ih, Option.map_some, List.map_cons]

theorem readConfigs_eq (l : List FlexrayTxBufferConfig) : readConfigs l.length (l.map toCTxBufferConfig) = some l := by
  induction l with
  | nil => rfl
  | cons x l ih =>
    simp only [List.length_cons, List.map_cons, readConfigs, ih, Option.map_some, ofCTxBufferConfig_toC]

def cell (b i : Nat) : CResponse := { header := structId .linFrameResponse, frame := (b, i), responseMode := 0 }

theorem storage_go (b c : Nat) (m : Nat) (l : List Nat) (s : Vec CLinFrame × List CResponse)
    (hs : s = (⟨b, c, List.replicate m zeroLinFrame⟩, (List.range m).map (cell b))) (hc : m + l.length ≤ c) :
    l.foldl (fun s _ => addCell s) s
      = (⟨b, c, List.replicate (m + l.length) zeroLinFrame⟩, (List.range (m + l.length)).map (cell b)) := by
  induction l generalizing m s with
  | nil => simpa using hs
  | cons x l ih =>
    rw [List.foldl_cons, ih (m + 1)]
    · simp only [List.length_cons]
      rw [show m + 1 + l.length = m + (l.length + 1) by omega]
    · subst hs
      simp only [List.length_cons] at hc
      unfold addCell Vec.push
      simp only [List.length_replicate]
      rw [if_pos (by omega)]
      simp only [Vec.back, List.length_append, List.length_replicate, List.length_singleton, List.range_succ, List.map_append, List.map_cons, List.map_nil,
        Nat.add_sub_cancel, cell, List.replicate_succ']
    · simp only [List.length_cons] at hc
      omega

theorem storage_eq (n : Nat) : ∃ b c, storage n = (⟨b, c, List.replicate n zeroLinFrame⟩, (List.range n).map (cell b)) := by
  unfold storage
  refine ⟨(Vec.reserve ({} : Vec CLinFrame) n).buffer, (Vec.reserve ({} : Vec CLinFrame) n).capacity, ?_⟩
  have := storage_go (Vec.reserve ({} : Vec CLinFrame) n).buffer (Vec.reserve ({} : Vec CLinFrame) n).capacity 0 (List.range n)
    (Vec.reserve {} n, []) ?_ ?_
  · simpa using this
  · unfold Vec.reserve
    split <;> rfl
  · unfold Vec.reserve
    split
    · simp at *; omega
    · simp

def filled (b i : Nat) (r : LinFrameResponse) : CResponse := { header := structId .linFrameResponse, frame := (b, i), responseMode := r.responseMode }

def filledFrom (b : Nat) : Nat → List LinFrameResponse → List CResponse
  | _, [] => []
  | i, r :: rs => filled b i r :: filledFrom b (i + 1) rs

theorem fillResponses_go (b c : Nat) (rs : List LinFrameResponse) (pre : List CLinFrame) :
    fillResponses ⟨b, c, pre ++ List.replicate rs.length zeroLinFrame⟩ rs ((List.range' pre.length rs.length).map (cell b))
      = some (⟨b, c, pre ++ rs.map fun r => toCLinFrame r.frame⟩, filledFrom b pre.length rs) := by
  induction rs generalizing pre with
  | nil => simp [fillResponses, filledFrom]
  | cons r rs ih =>
    rw [List.length_cons, List.range'_succ, List.map_cons]
    unfold fillResponses
    have hw : write (⟨b, c, pre ++ List.replicate (rs.length + 1) zeroLinFrame⟩ : Vec CLinFrame) (cell b pre.length).frame (toCLinFrame r.frame)
        = some ⟨b, c, (pre ++ [toCLinFrame r.frame]) ++ List.replicate rs.length zeroLinFrame⟩ := by
      unfold write cell
      rw [if_pos ⟨rfl, by simp⟩]
      simp [List.replicate_succ]
    rw [hw]
    have := ih (pre ++ [toCLinFrame r.frame])
    rw [List.length_append, List.length_singleton] at this
    simp only [this]
    simp [filledFrom, filled, cell]

theorem readResponses_go (b c : Nat) (rs : List LinFrameResponse) (pre : List CLinFrame) :
    readResponses ⟨b, c, pre ++ rs.map fun r => toCLinFrame r.frame⟩ rs.length (filledFrom b pre.length rs) = some rs := by
  induction rs generalizing pre with
  | nil => rfl
  | cons r rs ih =>
    have := ih (pre ++ [toCLinFrame r.frame])
    rw [List.length_append, List.length_singleton, List.append_assoc, List.singleton_append] at this
    simp only [filledFrom, List.length_cons, readResponses, List.map_cons, this]
    simp [readResponse, filled, Vec.deref, ofCLinFrame_toC]

/-- Packing gives responses that are read back as they were. -/
theorem packResponses_eq (l : List LinFrameResponse) (h : l.length < 2 ^ 32) :
    ∃ v cs, packResponses l = .given (v, cs) ∧ readResponses v l.length cs = some l := by
  obtain ⟨b, c, hs⟩ := storage_eq l.length
  refine ⟨⟨b, c, l.map fun r => toCLinFrame r.frame⟩, filledFrom b 0 l, ?_, ?_⟩
  · unfold packResponses
    rw [if_pos h, hs]
    have := fillResponses_go b c l []
    simp only [List.nil_append, List.length_nil] at this
    rw [List.range_eq_range', this]
  · exact readResponses_go b c l []

theorem packResponses_endless (l : List LinFrameResponse) (h : ¬ l.length < 2 ^ 32) : packResponses l = .endless := by
  unfold packResponses
  rw [if_neg h]

/-! ## Messages -/

theorem toNanoseconds_range (n : Nat) (h : n < 2 ^ 64) : Nanoseconds (toNanoseconds n) := by
  unfold Nanoseconds toNanoseconds
  split <;> omega

theorem toCount_lt (t : Int) : toCount t < 2 ^ 64 := by
  unfold toCount
  omega

theorem roundTrip_iff (t : Int) : toNanoseconds (toCount t) = t ↔ Nanoseconds t :=
  ⟨fun h => h ▸ toNanoseconds_range _ (toCount_lt t), toNanoseconds_toCount t⟩

theorem update_iff (u : FlexrayTxBufferUpdate) :
    ({ txBufferIndex := u.txBufferIndex, payloadDataValid := ofBool u.payloadDataValid == 1
       payload := if ofBool u.payloadDataValid ≠ 0 then toSpan (toByteVector u.payload) else [] } : FlexrayTxBufferUpdate) = u
      ↔ (u.payloadDataValid = true ∨ u.payload = []) := by
  obtain ⟨i, v, p⟩ := u
  cases v
  · simp [ofBool, eq_comm]
  · simp [ofBool, toSpan, toByteVector]

theorem deliver_linConfig (mem m b r s) : deliver mem (.linControllerConfig m b r s) =
    if r.length < 2 ^ 32 then .given (.linControllerConfig m b r (if s = 0 then 0 else if s = 1 then 1 else 0)) else .endless := by
  by_cases h : r.length < 2 ^ 32
  · obtain ⟨v, cs, hp, hr⟩ := packResponses_eq r h
    simp [deliver, route, pack, hp, End.bind, unpack, hr, ofOption, h]
  · simp [deliver, route, pack, packResponses_endless r h, End.bind, h]

theorem deliver_linUpdate (mem r) : deliver mem (.linFrameResponseUpdate r) =
    if r.length < 2 ^ 32 then .given (.linFrameResponseUpdate r) else .endless := by
  by_cases h : r.length < 2 ^ 32
  · obtain ⟨v, cs, hp, hr⟩ := packResponses_eq r h
    simp [deliver, route, pack, hp, End.bind, unpack, hr, ofOption, h]
  · simp [deliver, route, pack, packResponses_endless r h, End.bind, h]

theorem deliver_frConfig (mem c) : deliver mem (.frControllerConfig c) =
    if c.bufferConfigs.length < 2 ^ 32 then .given (.frControllerConfig c) else .endless := by
  by_cases h : c.bufferConfigs.length < 2 ^ 32
  · simp only [deliver, route, pack, fillConfigs_eq, if_pos h, End.bind, unpack, Nat.mod_eq_of_lt h, readConfigs_eq, ofOption, ofCCluster_toC, ofCNode_toC]
  · simp only [deliver, route, pack, if_neg h, End.bind]

theorem deliver_iff (w : Wire) : (∀ mem, deliver mem w = .given (expected w)) ↔ Carried w := by
  cases w with
  | canFrame t f d u => simp [deliver, route, pack, End.bind, unpack, expected, Carried, ofCCanFrame_toC]
  | canConfigureBaudrate b f x => simp [deliver, route, pack, End.bind, unpack, expected, Carried]
  | canSetControllerMode r c m => simp [deliver, route, pack, End.bind, unpack, expected, Carried, modeFlags_eq]
  | frHostCommand c => simp [deliver, route, pack, End.bind, unpack, expected, Carried]
  | frControllerConfig c =>
    simp only [deliver_frConfig, expected, Carried]
    split <;> simp_all
  | frTxBufferConfigUpdate i c => simp [deliver, route, pack, End.bind, unpack, expected, Carried, ofCTxBufferConfig_toC]
  | frTxBufferUpdate u =>
    simp only [deliver, route, pack, End.bind, unpack, expected, Carried, End.given.injEq, Message.frTxBufferUpdate.injEq, update_iff]
    exact ⟨fun h => h 0, fun h _ => h⟩
  | ethFrame t r d u => simp [deliver, route, pack, End.bind, unpack, expected, Carried, toSpan_toByteVector]
  | ethSetMode m =>
    simp only [deliver, route, pack, End.bind, unpack, expected, Carried, End.given.injEq, Message.ethControllerMode.injEq]
    constructor
    · intro h
      by_cases h1 : m = 1
      · exact .inr h1
      · by_cases h0 : m = 0
        · exact .inl h0
        · have ha := h 0
          simp only [if_neg h1, if_neg h0] at ha
          exact absurd ha.symm h0
    · rintro (rfl | rfl) _ <;> rfl
  | linSendFrameRequest f r => simp [deliver, route, pack, End.bind, unpack, expected, Carried, ofCLinFrame_toC]
  | linSendFrameHeaderRequest t i => simp [deliver, route, pack, End.bind, unpack, expected, Carried]
  | linWakeupPulse t d =>
    simp only [deliver, route, pack, End.bind, unpack, expected, Carried, End.given.injEq, Message.linWakeupPulse.injEq, roundTrip_iff]
    exact ⟨fun h => h 0, fun h _ => h⟩
  | linControllerConfig m b r s =>
    simp only [deliver_linConfig, expected, Carried]
    constructor
    · intro h
      have h := h 0
      split at h
      · rename_i hl
        simp only [End.given.injEq, Message.linControllerConfig.injEq, true_and] at h
        refine ⟨hl, ?_⟩
        by_cases h0 : s = 0
        · exact .inl h0
        · by_cases h1 : s = 1
          · exact .inr h1
          · simp only [if_neg h0, if_neg h1] at h
            exact absurd h.symm h0
      · cases h
    · rintro ⟨hl, rfl | rfl⟩ _ <;> simp [if_pos hl]
  | linFrameResponseUpdate r =>
    simp only [deliver_linUpdate, expected, Carried]
    split <;> simp_all
  | linControllerStatusUpdate t s =>
    simp only [deliver, route, pack, End.bind, unpack, expected, Carried, End.given.injEq, Message.linControllerStatusUpdate.injEq, and_true]
    have : toNanoseconds 0 = 0 := by decide
    rw [this]
    exact ⟨fun h => (h 0).symm, fun h _ => h.symm⟩

theorem deliver_defined (mem : BitVec 8) (w : Wire) : deliver mem w ≠ .undefined := by
  cases w with
  | frControllerConfig c => rw [deliver_frConfig]; split <;> simp
  | linControllerConfig m b r s => rw [deliver_linConfig]; split <;> simp
  | linFrameResponseUpdate r => rw [deliver_linUpdate]; split <;> simp
  | _ => simp [deliver, route, pack, End.bind, unpack]

/-! ## Events -/

theorem cProduce_pack (mem : BitVec 32) (e : Event) (h : Producible e) : cProduce mem e.bus (packEvent e) = .event e := by
  cases e <;> simp only [Producible] at h <;>
    simp only [cProduce, packEvent, headerOf, Event.bus, structId_valid, if_true]
  all_goals
    first
      | rw [show idDatatype (structId .canFrameEvent) = 3 by decide +kernel]
      | rw [show idDatatype (structId .canFrameTransmitEvent) = 2 by decide +kernel]
      | rw [show idDatatype (structId .canStateChangeEvent) = 4 by decide +kernel]
      | rw [show idDatatype (structId .canErrorStateChangeEvent) = 5 by decide +kernel]
      | rw [show idDatatype (structId .flexrayFrameEvent) = 1 by decide +kernel]
      | rw [show idDatatype (structId .flexrayFrameTransmitEvent) = 2 by decide +kernel]
      | rw [show idDatatype (structId .flexraySymbolEvent) = 3 by decide +kernel]
      | rw [show idDatatype (structId .flexraySymbolTransmitEvent) = 5 by decide +kernel]
      | rw [show idDatatype (structId .flexrayCycleStartEvent) = 6 by decide +kernel]
      | rw [show idDatatype (structId .flexrayPocStatusEvent) = 7 by decide +kernel]
      | rw [show idDatatype (structId .ethernetFrameEvent) = 1 by decide +kernel]
      | rw [show idDatatype (structId .ethernetFrameTransmitEvent) = 2 by decide +kernel]
      | rw [show idDatatype (structId .ethernetStateChangeEvent) = 3 by decide +kernel]
      | rw [show idDatatype (structId .ethernetBitrateChangeEvent) = 4 by decide +kernel]
      | rw [show idDatatype (structId .linFrameStatusEvent) = 4 by decide +kernel]
      | rw [show idDatatype (structId .linSendFrameHeaderRequest) = 11 by decide +kernel]
      | rw [show idDatatype (structId .linWakeupEvent) = 6 by decide +kernel]
  case canFrameTransmit =>
    have hv : idVersion (structId .canFrameTransmitEvent) ≥ 2 := by decide +kernel
    simp only [canCase, if_pos hv, toNanoseconds_toCount _ h]
  all_goals
    first
      | simp only [canCase, toNanoseconds_toCount _ h, ofCCanFrame_toC]
      | simp only [flexrayCase, toNanoseconds_toCount _ h.1, ofCFlexrayFrame_toC _ h.2]
      | simp only [flexrayCase, toNanoseconds_toCount _ h, ofCPocStatus_toC]
      | simp only [ethernetCase, toNanoseconds_toCount _ h, toSpan_toByteVector]
      | simp only [linCase, toNanoseconds_toCount _ h, ofCLinFrame_toC]

/-- The members of the producer after the events. -/
def After (p : Producer) (before : List Event) : Prop :=
  p = { controllerState := latest canState before, errorState := latest canErrorState before
        ethernetState := latest ethernetState before, ethernetBitrate := latest ethernetBitrate before }

theorem latest_snoc (f : Event → Option (BitVec 32)) (before : List Event) (e : Event) :
    latest f (before ++ [e]) = (f e).getD (latest f before) := by
  unfold latest
  rw [List.filterMap_append]
  cases h : f e with
  | none => simp [h]
  | some x => simp [h]

theorem send_eq (p : Producer) (before : List Event) (h : After p before) (e : Event) :
    (send p e).2 = message before e ∧ After (send p e).1 (before ++ [e]) := by
  unfold After at h ⊢
  subst h
  cases e <;> simp only [send, message, latest_snoc, canState, canErrorState, ethernetState, ethernetBitrate, Option.getD_some, Option.getD_none, and_self]
  simp [padded, List.rightpad]

theorem produceAll_eq (mem : BitVec 32) (p : Producer) (before : List Event) (h : After p before) (es : List (Event × List Nat))
    (hs : ∀ e ∈ es, Producible e.1) : produceAll mem p es = some (messages before es) := by
  induction es generalizing p before with
  | nil => rfl
  | cons x es ih =>
    obtain ⟨e, rs⟩ := x
    have he := hs (e, rs) (by simp)
    obtain ⟨h1, h2⟩ := send_eq p before h e
    unfold produceAll produce
    rw [cProduce_pack mem e he]
    simp only [ih _ _ h2 (fun e he => hs e (List.mem_cons_of_mem _ he)), Option.map_some, h1, messages]

theorem cProduce_bus (mem : BitVec 32) (b : Bus) (c : CEvent) (e : Event) (h : cProduce mem b c = .event e) : e.bus = b := by
  revert h
  unfold cProduce
  split
  · cases b <;> simp only [canCase, flexrayCase, ethernetCase, linCase]
    all_goals
      repeat' split
      all_goals
        intro h
        first
          | (cases h; done)
          | (cases h; rfl)
  · intro h; cases h

/-! ## Networks -/

theorem tableOf_eq (type : BitVec 32) : tableOf type = busOf type := by
  unfold tableOf busOf
  split
  · rfl
  · rfl
  · rfl
  · rfl
  · rename_i h1 h2 h3 h4
    have n1 : ¬ type.toNat = 1 := fun h => h1 (BitVec.eq_of_toNat_eq h)
    have n2 : ¬ type.toNat = 2 := fun h => h2 (BitVec.eq_of_toNat_eq h)
    have n3 : ¬ type.toNat = 3 := fun h => h3 (BitVec.eq_of_toNat_eq h)
    have n4 : ¬ type.toNat = 4 := fun h => h4 (BitVec.eq_of_toNat_eq h)
    rw [if_neg n1, if_neg n2, if_neg n3, if_neg n4]

theorem wrapperOf_eq (type : BitVec 32) : wrapperOf type = busOf type := by
  unfold wrapperOf busOf
  split
  · rfl
  · rfl
  · rfl
  · rfl
  · rename_i h1 h4 h3 h2
    have n1 : ¬ type.toNat = 1 := fun h => h1 (BitVec.eq_of_toNat_eq h)
    have n2 : ¬ type.toNat = 2 := fun h => h2 (BitVec.eq_of_toNat_eq h)
    have n3 : ¬ type.toNat = 3 := fun h => h3 (BitVec.eq_of_toNat_eq h)
    have n4 : ¬ type.toNat = 4 := fun h => h4 (BitVec.eq_of_toNat_eq h)
    rw [if_neg n1, if_neg n2, if_neg n3, if_neg n4]

theorem callAll_snoc (s : Networks) (os : List Op) (o : Op) :
    callAll s (os ++ [o]) = ((call (callAll s os).1 o).1, (callAll s os).2 ++ [(call (callAll s os).1 o).2]) := by
  induction os generalizing s with
  | nil => rfl
  | cons a os ih => simp only [List.cons_append, callAll, ih]

theorem simulated_nodup (os : List Op) : (callAll {} os).1.simulated.Nodup := by
  induction os using ConfigFiles.snoc_induction with
  | nil => exact List.nodup_nil
  | snoc os o ih =>
    rw [callAll_snoc]
    revert ih
    generalize (callAll {} os).1 = s
    intro ih
    cases o with
    | start => exact ih
    | simulate t n g =>
      unfold call
      dsimp only
      repeat' split
      all_goals first | exact ih | skip
      rename_i h
      exact List.nodup_cons.mpr ⟨h, ih⟩

/-- What the state says about the calls so far. -/
structure Told (ops : List Op) (s : Networks) : Prop where
  recorded : ∀ t n, (t, n) ∈ s.recorded ↔ Named ops t n
  started : s.started = true ↔ Op.start ∈ ops
  simulated : ∀ t n, (t, n) ∈ s.simulated ↔
    ∃ before after, ops = before ++ Op.simulate t n true :: after ∧ Op.start ∉ before ∧ busOf t ≠ none

theorem snoc_split {ops before after : List Op} {o x : Op} (h : ops ++ [o] = before ++ x :: after) :
    (ops = before ∧ o = x ∧ after = []) ∨ ∃ after', ops = before ++ x :: after' := by
  rcases List.eq_nil_or_concat after with rfl | ⟨a, y, rfl⟩
  · have := List.append_inj' h rfl
    exact .inl ⟨this.1, by simpa using this.2, rfl⟩
  · rw [List.concat_eq_append, ← List.cons_append, ← List.append_assoc] at h
    exact .inr ⟨a, (List.append_inj' h rfl).1⟩

theorem mem_before {ops before after : List Op} {x : Op} (h : ops = before ++ x :: after) : x ∈ ops := by subst h; simp

theorem told (ops : List Op) (h : TextNames ops) : Told ops (callAll {} ops).1 := by
  induction ops using ConfigFiles.snoc_induction with
  | nil =>
    constructor
    · intro t n; simp [callAll, Named]
    · simp [callAll]
    · intro t n; simp [callAll]
  | snoc os o ih =>
    have ih := ih (fun t n g hm => h t n g (List.mem_append_left _ hm))
    rw [callAll_snoc]
    generalize (callAll {} os).1 = s at ih
    -- what stays true if nothing is simulated by the call
    have keep : (∀ t n, (o = .simulate t n true ∧ Op.start ∉ os ∧ busOf t ≠ none) → (t, n) ∈ s.simulated) → ∀ t n, (t, n) ∈ s.simulated ↔
        ∃ before after, os ++ [o] = before ++ Op.simulate t n true :: after ∧ Op.start ∉ before ∧ busOf t ≠ none := by
      intro hk t n
      constructor
      · intro hm
        obtain ⟨b, a, e, hb, ht⟩ := (ih.simulated t n).mp hm
        exact ⟨b, a ++ [o], by rw [e, List.append_assoc, List.cons_append], hb, ht⟩
      · rintro ⟨b, a, e, hb, ht⟩
        rcases snoc_split e with ⟨rfl, ho, _⟩ | ⟨a', e'⟩
        · exact hk t n ⟨ho, hb, ht⟩
        · exact (ih.simulated t n).mpr ⟨b, a', e', hb, ht⟩
    cases o with
    | start =>
      constructor
      · intro t n
        rw [show (call s .start).1.recorded = s.recorded from rfl, ih.recorded]
        simp [Named]
      · simp [call]
      · exact keep (fun t n hx => by cases hx.1)
    | simulate t n g =>
      have hn : Text n := h t n g (by simp)
      unfold call
      dsimp only
      split
      · rename_i hg
        subst hg
        constructor
        · intro t' n'
          rw [ih.recorded]
          simp [Named]
        · rw [ih.started]; simp
        · exact keep (fun t n hx => by simp at hx)
      · rename_i hg
        have hg : g = true := by simpa using hg
        subst hg
        split
        · rename_i hr
          constructor
          · intro t' n'
            rw [ih.recorded]
            unfold Named
            constructor
            · exact fun hm => List.mem_append_left _ hm
            · intro hm
              rcases List.mem_append.mp hm with hm | hm
              · exact hm
              · simp only [List.mem_singleton, Op.simulate.injEq, and_true] at hm
                obtain ⟨rfl, rfl⟩ := hm
                exact (ih.recorded _ _).mp hr
          · rw [ih.started]; simp
          · refine keep ?_
            rintro t' n' ⟨hx, hs, ht⟩
            simp only [Op.simulate.injEq, and_true] at hx
            obtain ⟨rfl, rfl⟩ := hx
            obtain ⟨b, a, e⟩ := List.append_of_mem ((ih.recorded _ _).mp hr)
            refine (ih.simulated _ _).mpr ⟨b, a, e, ?_, ht⟩
            rw [e] at hs
            exact fun hb => hs (List.mem_append_left _ hb)
        · rename_i hr
          have hrec : ∀ t' n', (t', n') ∈ (t, n) :: s.recorded ↔ Named (os ++ [.simulate t n true]) t' n' := by
            intro t' n'
            unfold Named
            rw [List.mem_cons, ih.recorded, List.mem_append, List.mem_singleton, or_comm]
            simp [Named, and_comm, eq_comm]
          have hst : s.started = true ↔ Op.start ∈ os ++ [.simulate t n true] := by rw [ih.started]; simp
          split
          · rename_i htab
            refine ⟨hrec, hst, keep ?_⟩
            rintro t' n' ⟨hx, _, ht⟩
            simp only [Op.simulate.injEq, and_true] at hx
            obtain ⟨rfl, rfl⟩ := hx
            rw [tableOf_eq] at htab
            exact absurd htab ht
          · rename_i htab
            rw [tableOf_eq] at htab
            split
            · rename_i hstart
              refine ⟨hrec, hst, keep ?_⟩
              rintro t' n' ⟨_, hs, _⟩
              exact absurd (ih.started.mp hstart) hs
            · rename_i hstart
              rw [cString_eq n hn]
              split
              · rename_i hsim
                refine ⟨hrec, hst, keep ?_⟩
                rintro t' n' ⟨hx, _, _⟩
                simp only [Op.simulate.injEq, and_true] at hx
                obtain ⟨rfl, rfl⟩ := hx
                exact hsim
              · rename_i hsim
                refine ⟨hrec, hst, ?_⟩
                intro t' n'
                have hs : Op.start ∉ os := fun hm => hstart (ih.started.mpr hm)
                constructor
                · intro hm
                  rcases List.mem_cons.mp hm with hm | hm
                  · simp only [Prod.mk.injEq] at hm
                    obtain ⟨rfl, rfl⟩ := hm
                    exact ⟨os, [], rfl, hs, htab⟩
                  · obtain ⟨b, a, e, hb, ht⟩ := (ih.simulated t' n').mp hm
                    exact ⟨b, a ++ [_], by rw [e, List.append_assoc, List.cons_append], hb, ht⟩
                · rintro ⟨b, a, e, hb, ht⟩
                  rcases snoc_split e with ⟨rfl, ho, _⟩ | ⟨a', e'⟩
                  · simp only [Op.simulate.injEq, and_true] at ho
                    obtain ⟨rfl, rfl⟩ := ho
                    exact List.mem_cons_self
                  · exact List.mem_cons_of_mem _ ((ih.simulated t' n').mpr ⟨b, a', e', hb, ht⟩)

theorem call_returns (os : List Op) (t : BitVec 32) (n : Bytes) (g : Bool) (h : TextNames (os ++ [.simulate t n g])) :
    (call (callAll {} os).1 (.simulate t n g)).2 = true ↔ g = true ∧ ¬ Named os t n := by
  have ht := told os (fun t n g hm => h t n g (List.mem_append_left _ hm))
  generalize (callAll {} os).1 = s at ht
  have hn : Text n := h t n g (by simp)
  unfold call
  dsimp only
  split
  · rename_i hg; simp [hg]
  · rename_i hg
    have hg : g = true := by simpa using hg
    subst hg
    split
    · rename_i hr
      simp [(ht.recorded t n).mp hr]
    · rename_i hr
      have hnamed : ¬ Named os t n := fun hm => hr ((ht.recorded t n).mpr hm)
      split
      · simp [hnamed]
      · split
        · simp [hnamed]
        · rw [cString_eq n hn]
          split
          · rename_i hsim
            obtain ⟨b, a, e, _, _⟩ := (ht.simulated t n).mp hsim
            exact absurd (mem_before e) hnamed
          · simp [hnamed]

end SilKit.NetSimValues
