import Verif.Spec.HourglassValues
/-!
# Lemmas about the values that pass through the C interface
-/
namespace SilKit.HourglassValues
open SilKit.HourglassValues.Spec

theorem and_ff (n : Nat) : n &&& 0xff = n % 256 := Nat.and_two_pow_sub_one_eq_mod n 8

theorem makeId_eq (s d v : Nat) :
    makeId s d v = 83 * 2 ^ 56 + 75 * 2 ^ 48 + s % 256 * 2 ^ 40 + d % 256 * 2 ^ 32 + v % 256 * 2 ^ 24 := by
  unfold makeId
  rw [and_ff, and_ff, and_ff]
  have e1 : (83 <<< 56 ||| 75 <<< 48 : Nat) = 21323 <<< 48 := by decide
  have hs := Nat.mod_lt s (show 0 < 256 by omega)
  have hd := Nat.mod_lt d (show 0 < 256 by omega)
  have hv := Nat.mod_lt v (show 0 < 256 by omega)
  generalize s % 256 = a at *
  generalize d % 256 = b at *
  generalize v % 256 = c at *
  rw [e1, ← Nat.shiftLeft_add_eq_or_of_lt (b := a <<< 40) (i := 48) (by rw [Nat.shiftLeft_eq]; omega)]
  have e2 : (21323 <<< 48 + a <<< 40 : Nat) = (21323 * 256 + a) <<< 40 := by rw [Nat.shiftLeft_eq, Nat.shiftLeft_eq, Nat.shiftLeft_eq]; omega
  rw [e2, ← Nat.shiftLeft_add_eq_or_of_lt (b := b <<< 32) (i := 40) (by rw [Nat.shiftLeft_eq]; omega)]
  have e3 : ((21323 * 256 + a) <<< 40 + b <<< 32 : Nat) = ((21323 * 256 + a) * 256 + b) <<< 32 := by
    rw [Nat.shiftLeft_eq, Nat.shiftLeft_eq, Nat.shiftLeft_eq]; omega
  rw [e3, ← Nat.shiftLeft_add_eq_or_of_lt (b := c <<< 24) (i := 32) (by rw [Nat.shiftLeft_eq]; omega)]
  rw [Nat.shiftLeft_eq, Nat.shiftLeft_eq]; omega

theorem id_parts (s d v : Nat) (hs : s < 256) (hd : d < 256) (hv : v < 256) :
    idService (makeId s d v) = s ∧ idDatatype (makeId s d v) = d ∧ idVersion (makeId s d v) = v ∧
    (makeId s d v >>> 56) &&& 0xff = 83 ∧ (makeId s d v >>> 48) &&& 0xff = 75 := by
  unfold idService idDatatype idVersion
  rw [and_ff, and_ff, and_ff, and_ff, and_ff, makeId_eq]
  simp only [Nat.shiftRight_eq_div_pow]
  omega

theorem validId_iff (s d v : Nat) (hs : s < 256) (hd : d < 256) (hv : v < 256) :
    validId (makeId s d v) = true ↔ 0 < s ∧ s < 9 ∧ d ≠ 0 ∧ v ≠ 0 := by
  obtain ⟨h1, h2, h3, h4, h5⟩ := id_parts s d v hs hd hv
  unfold validId
  rw [h1, h2, h3, h4, h5]
  simp

theorem toNanoseconds_toCount (t : Int) (h : Nanoseconds t) : toNanoseconds (toCount t) = t := by
  unfold Nanoseconds at h
  unfold toNanoseconds toCount
  split <;> omega

theorem toSpan_toByteVector (s : Bytes) : toSpan (toByteVector s) = s := rfl

theorem toSpan_toByteVector32 (s : Bytes) (h : s.length < 2 ^ 32) : toSpan (toByteVector32 s) = s := by
  unfold toSpan toByteVector32
  rw [Nat.mod_eq_of_lt h]
  exact List.take_length

theorem cString_eq (s : Bytes) (h : Text s) : cString s = s := by
  unfold cString
  induction s with
  | nil => rfl
  | cons x s ih =>
      have hx : (x != 0) = true := by
        simp only [bne_iff_ne, ne_eq]
        intro c
        exact h (c ▸ List.mem_cons_self)
      rw [List.takeWhile_cons, if_pos hx, ih (fun c => h (List.mem_cons_of_mem _ c))]

theorem toBool_ofBool (b : Bool) : toBool (ofBool b) = b := by cases b <;> rfl
theorem ofBool_beq (b : Bool) : (ofBool b == 1) = b := by cases b <;> rfl
theorem validBool_ofBool (b : Bool) : validBool (ofBool b) = true := by cases b <;> rfl

theorem throughSpec_eq (s : HourglassValues.Spec) (h : SpecText s) : throughSpec s = s := by
  obtain ⟨name, mediaType, labels⟩ := s
  obtain ⟨h1, h2, h3⟩ := h
  unfold throughSpec
  simp only at h1 h2 h3 ⊢
  rw [cString_eq _ h1, cString_eq _ h2]
  congr
  conv => rhs; rw [← List.map_id labels]
  refine List.map_congr_left (fun l hl => ?_)
  obtain ⟨key, value, kind⟩ := l
  have := h3 _ hl
  unfold throughLabel
  simp only at this ⊢
  rw [cString_eq _ this.1, cString_eq _ this.2]; rfl

/-! ## LIN `Init` -/

theorem assignLinFrame_cLinFrame (f : LinFrame) : assignLinFrame (cLinFrame f) = f := rfl

/-- While the capacity suffices, nothing moves. -/
theorem packResponse_fold (l : List LinFrameResponse) (v : Vec CLinFrame) (rs : List (Pointer × BitVec 8))
    (hc : v.elements.length + l.length ≤ v.capacity) :
    (l.foldl packResponse (v, rs)).1.buffer = v.buffer ∧
    (l.foldl packResponse (v, rs)).1.elements = v.elements ++ l.map (fun r => cLinFrame r.frame) ∧
    (l.foldl packResponse (v, rs)).2 = rs ++ (List.range' v.elements.length l.length).zipWith (fun i r => ((v.buffer, i), r.responseMode)) l := by
  induction l generalizing v rs with
  | nil => simp
  | cons r l ih =>
      simp only [List.length_cons] at hc
      have hp : v.push (cLinFrame r.frame) = { v with elements := v.elements ++ [cLinFrame r.frame] } := by
        unfold Vec.push; rw [if_pos (by omega)]
      rw [List.foldl_cons]
      have hs : packResponse (v, rs) r =
          ({ v with elements := v.elements ++ [cLinFrame r.frame] }, rs ++ [((v.buffer, v.elements.length), r.responseMode)]) := by
        unfold packResponse
        simp only [hp, Vec.back, List.length_append, List.length_cons, List.length_nil, Nat.zero_add, Nat.add_sub_cancel]
      rw [hs]
      obtain ⟨h1, h2, h3⟩ := ih { v with elements := v.elements ++ [cLinFrame r.frame] } (rs ++ [((v.buffer, v.elements.length), r.responseMode)])
        (by simp; omega)
      refine ⟨h1, ?_, ?_⟩
      · rw [h2]; simp
      · rw [h3]; simp [List.range'_succ]

theorem assignResponses_eq (frames : Vec CLinFrame) (pre l : List LinFrameResponse)
    (he : frames.elements = (pre ++ l).map (fun r => cLinFrame r.frame)) :
    assignResponses frames ((List.range' pre.length l.length).zipWith (fun i r => ((frames.buffer, i), r.responseMode)) l) = some l := by
  induction l generalizing pre with
  | nil => rfl
  | cons r l ih =>
      rw [List.length_cons, List.range'_succ, List.zipWith_cons_cons]
      unfold assignResponses
      have h1 : assignResponse frames ((frames.buffer, pre.length), r.responseMode) = some r := by
        unfold assignResponse Vec.deref
        rw [if_pos rfl, he]
        simp [assignLinFrame_cLinFrame]
      have h2 := ih (pre ++ [r]) (by rw [he]; simp)
      rw [List.length_append, List.length_singleton] at h2
      rw [h1, h2]

theorem linInit_eq (c : LinControllerConfig) : linInit c = .given (.linInit c) := by
  obtain ⟨h1, h2, h3⟩ := packResponse_fold c.frameResponses (Vec.reserve {} c.frameResponses.length) []
    (by
      unfold Vec.reserve
      split
      · rename_i hle
        show 0 + _ ≤ _
        omega
      · show 0 + _ ≤ c.frameResponses.length
        omega)
  have he : (Vec.reserve ({} : Vec CLinFrame) c.frameResponses.length).elements = [] := by unfold Vec.reserve; split <;> rfl
  rw [he] at h2 h3
  have h4 := assignResponses_eq (packResponses c.frameResponses).1 [] c.frameResponses (by rw [packResponses, h2]; rfl)
  have h5 : (packResponses c.frameResponses).2 =
      (List.range' 0 c.frameResponses.length).zipWith (fun i r => (((packResponses c.frameResponses).1.buffer, i), r.responseMode)) c.frameResponses := by
    rw [packResponses, h3, h1]; rfl
  unfold linInit
  simp only []
  rw [h5, show validId (structId .linControllerConfig) = true from (validId_iff 4 3 1 (by omega) (by omega) (by omega)).2 (by omega), if_pos rfl]
  have h6 : assignResponses (packResponses c.frameResponses).1
      ((List.range' 0 c.frameResponses.length).zipWith (fun i r => (((packResponses c.frameResponses).1.buffer, i), r.responseMode)) c.frameResponses)
        = some c.frameResponses := h4
  rw [h6]

/-! ## The slave configuration -/

theorem mark_fold (l : List (BitVec 8)) (hl : ∀ id ∈ l, id.toNat < 64) (v : Vector (BitVec 8) 64) :
    ∃ w, l.foldl markResponding (some v) = some w ∧ ∀ i (h : i < 64), w[i] = if BitVec.ofNat 8 i ∈ l then 1 else v[i] := by
  induction l generalizing v with
  | nil => exact ⟨v, rfl, fun i h => by simp⟩
  | cons x l ih =>
      have hx := hl x (List.mem_cons_self)
      rw [List.foldl_cons]
      have hm : markResponding (some v) x = some (v.set x.toNat 1) := by unfold markResponding; simp only [hx, dif_pos]
      rw [hm]
      obtain ⟨w, hw, hv⟩ := ih (fun id h => hl id (List.mem_cons_of_mem _ h)) (v.set x.toNat 1)
      refine ⟨w, hw, fun i h => ?_⟩
      rw [hv i h, Vector.getElem_set]
      by_cases hi : BitVec.ofNat 8 i ∈ l
      · simp [hi]
      · rw [if_neg hi]
        have hxi : x.toNat = i ↔ BitVec.ofNat 8 i = x := by
          constructor
          · intro e; rw [← e, BitVec.ofNat_toNat]; simp
          · intro e; rw [← e, BitVec.toNat_ofNat]; omega
        by_cases e : x.toNat = i
        · rw [if_pos e, if_pos (by rw [hxi.1 e]; exact List.mem_cons_self)]
        · rw [if_neg e, if_neg]
          intro c
          rcases List.mem_cons.1 c with c | c
          · exact e (hxi.2 c)
          · exact hi c

theorem slaveConfiguration_eq (l : List (BitVec 8)) (hl : ∀ id ∈ l, id.toNat < 64) :
    slaveConfiguration l = some (((List.range 64).map (BitVec.ofNat 8)).filter (fun id => decide (id ∈ l))) := by
  obtain ⟨w, hw, hv⟩ := mark_fold l hl (Vector.replicate 64 0)
  unfold slaveConfiguration
  rw [hw]
  simp only [Option.some.injEq]
  rw [List.filter_map]
  have key : ∀ r : List Nat, (∀ i ∈ r, i < 64) →
      r.filterMap (fun i => if w[i]?.getD 0 != 0 then some (BitVec.ofNat 8 i) else none) =
      (r.filter ((fun id => decide (id ∈ l)) ∘ BitVec.ofNat 8)).map (BitVec.ofNat 8) := by
    intro r
    induction r with
    | nil => intro _; rfl
    | cons i r ih =>
        intro hr
        have hi := hr i List.mem_cons_self
        rw [List.filterMap_cons, List.filter_cons, ih (fun j hj => hr j (List.mem_cons_of_mem _ hj))]
        have hg : w[i]?.getD 0 = if BitVec.ofNat 8 i ∈ l then 1 else 0 := by
          rw [Vector.getElem?_eq_getElem hi, Option.getD_some, hv i hi, Vector.getElem_replicate]
        rw [hg]
        by_cases e : BitVec.ofNat 8 i ∈ l
        · simp [e]
        · simp [e]
  exact key _ (fun i hi => List.mem_range.1 hi)

theorem mark_none (l : List (BitVec 8)) : l.foldl markResponding none = none := by
  induction l with
  | nil => rfl
  | cons x l ih => exact ih

theorem slaveConfiguration_none (l : List (BitVec 8)) (hl : ∃ id ∈ l, 64 ≤ id.toNat) : slaveConfiguration l = none := by
  have key : ∀ (l : List (BitVec 8)) v, (∃ id ∈ l, 64 ≤ id.toNat) → l.foldl markResponding (some v) = none := by
    intro l
    induction l with
    | nil => intro v ⟨id, h, _⟩; exact absurd h List.not_mem_nil
    | cons x l ih =>
        intro v ⟨id, h, hid⟩
        rw [List.foldl_cons]
        by_cases hx : x.toNat < 64
        · have hm : markResponding (some v) x = some (v.set x.toNat 1) := by unfold markResponding; simp only [hx, dif_pos]
          rw [hm]
          rcases List.mem_cons.1 h with e | h2
          · rw [e] at hid; omega
          · exact ih _ ⟨id, h2, hid⟩
        · have hm : markResponding (some v) x = none := by unfold markResponding; simp only [hx, dif_neg, not_false_iff]
          rw [hm]; exact mark_none l
  unfold slaveConfiguration
  rw [key l _ hl]

/-! ## Structures -/

def allStructs : List Struct :=
  [.canFrame, .canFrameTransmitEvent, .canFrameEvent, .canStateChangeEvent, .canErrorStateChangeEvent, .ethernetFrameEvent,
   .ethernetFrameTransmitEvent, .ethernetStateChangeEvent, .ethernetBitrateChangeEvent, .ethernetFrame, .flexrayFrameEvent,
   .flexrayFrameTransmitEvent, .flexraySymbolEvent, .flexraySymbolTransmitEvent, .flexrayCycleStartEvent, .flexrayPocStatusEvent, .flexrayWakeupEvent,
   .flexrayControllerConfig, .flexrayClusterParameters, .flexrayNodeParameters, .flexrayHostCommand, .flexrayHeader, .flexrayFrame,
   .flexrayTxBufferConfig, .flexrayTxBufferUpdate, .linFrame, .linFrameResponse, .linControllerConfig, .linFrameStatusEvent, .linGoToSleepEvent,
   .linWakeupEvent, .linSlaveConfigurationEvent, .linSlaveConfiguration, .linControllerDynamicConfig, .linFrameHeaderEvent,
   .linSendFrameHeaderRequest, .dataMessageEvent, .dataSpec, .rpcCallEvent, .rpcCallResultEvent, .rpcSpec, .participantStatus,
   .lifecycleConfiguration, .workflowConfiguration, .participantConnectionInformation]

theorem mem_allStructs (s : Struct) : s ∈ allStructs := by cases s <;> decide

theorem allStructs_check : ∀ a ∈ allStructs, validId (structId a) = true ∧ ∀ b ∈ allStructs, structId a = structId b → a = b := by decide +kernel

theorem structId_valid (s : Struct) : validId (structId s) = true := (allStructs_check s (mem_allStructs s)).1
theorem structId_inj (a b : Struct) (h : structId a = structId b) : a = b := (allStructs_check a (mem_allStructs a)).2 b (mem_allStructs b) h

end SilKit.HourglassValues
