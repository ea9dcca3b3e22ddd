import Verif.Lemmas.ConfigSchema
import Verif.Lemmas.ConfigWrite
/-! # Lemmas: the reader and the writer use the paths of the schema

For every class of the configuration: `K_X P` says that the schema knows the keys of the class below `P`, `strip_X` that its reader looks only at these
keys, and `good_X` that its writer produces only these keys. -/
namespace SilKit.ConfigText

def Knows (P : String) : List String → Prop
  | [] => True
  | k :: ks => makePath P k ∈ schemaPaths ∧ Knows P ks

theorem knows_of_idx {P : String} {ks : List String} (is : List Nat)
    (h : is.map (fun i => schemaPaths[i]?) = ks.map (fun k => some (makePath P k))) : Knows P ks := by
  induction ks generalizing is with
  | nil => trivial
  | cons k ks ih =>
    cases is with
    | nil => cases h
    | cons i is =>
      simp only [List.map_cons, List.cons.injEq] at h
      exact ⟨List.mem_of_getElem? h.1, ih is h.2⟩

/-! ## Reading -/

/-- The reader looks only at elements that the schema knows. -/
def Blind {T : Type} (r : Rd T) (P : String) : Prop := ∀ o y, r o (strip P y) = r o y

theorem lookup_strip {P K : String} (h : makePath P K ∈ schemaPaths) (m : List (String × Yaml)) :
    (stripEntries P m).lookup K = (m.lookup K).map (strip (makePath P K)) := by
  induction m with
  | nil => rw [stripEntries]; rfl
  | cons e m ih =>
    obtain ⟨k, v⟩ := e
    rw [stripEntries]
    by_cases hk : K = k
    · subst hk
      rw [if_pos h]
      simp [List.lookup]
    · have e : (K == k) = false := by simpa using hk
      by_cases hs : makePath P k ∈ schemaPaths
      · rw [if_pos hs]
        simp only [List.lookup_cons, e, ih]
      · rw [if_neg hs]
        simp only [List.lookup_cons, e, ih]

theorem child_strip {P K : String} (h : makePath P K ∈ schemaPaths) (y : Yaml) :
    child (strip P y) K = (do let c ← child y K; pure (c.map (strip (makePath P K)))) := by
  cases y with
  | map m => rw [strip, child, lookup_strip h]; rfl
  | _ => rw [strip] <;> rfl

theorem hasKey_strip {P K : String} (h : makePath P K ∈ schemaPaths) (y : Yaml) : hasKey (strip P y) K = hasKey y K := by
  cases y with
  | map m => rw [strip, hasKey, lookup_strip h, hasKey]; simp
  | _ => rw [strip] <;> rfl

theorem isMap_strip (P : String) (y : Yaml) : isMap (strip P y) = isMap y := by
  cases y <;> rw [strip] <;> rfl

theorem optRead_strip {T : Type} {r : Rd T} {P K : String} (h : makePath P K ∈ schemaPaths) (hb : Blind r (makePath P K)) (old : T) (y : Yaml) :
    optRead r old (strip P y) K = optRead r old y K := by
  unfold optRead
  rw [child_strip h]
  cases child y K with
  | ok c =>
    cases c with
    | none => rfl
    | some c => exact hb old c
  | «throw» e => rfl
  | ub e => rfl

theorem optReadOpt_strip {T : Type} [Inhabited T] {r : Rd T} {P K : String} (h : makePath P K ∈ schemaPaths) (hb : Blind r (makePath P K))
    (old : Option T) (y : Yaml) : optReadOpt r old (strip P y) K = optReadOpt r old y K := by
  unfold optReadOpt
  rw [child_strip h]
  cases child y K with
  | ok c =>
    cases c with
    | none => rfl
    | some c => simp only [Res.bind_ok, Res.pure_eq, Option.map_some, hb default c]
  | «throw» e => rfl
  | ub e => rfl

theorem readKey_strip {T : Type} {r : Rd T} {P K : String} (h : makePath P K ∈ schemaPaths) (hb : Blind r (makePath P K)) (old : T) (y : Yaml) :
    readKey r old (strip P y) K = readKey r old y K := by
  unfold readKey
  rw [child_strip h]
  cases child y K with
  | ok c =>
    cases c with
    | none => rfl
    | some c => exact hb old c
  | «throw» e => rfl
  | ub e => rfl

theorem optReadInt_strip {T : Type} {r : Rd T} {P K : String} (h : makePath P K ∈ schemaPaths) (hb : Blind r (makePath P K)) (old : T) (y : Yaml) :
    optReadInt r old (strip P y) K = optReadInt r old y K := by
  cases y with
  | map m =>
    rw [strip, optReadInt, lookup_strip h, optReadInt]
    cases m.lookup K with
    | none => rfl
    | some c => exact hb old c
  | _ => rw [strip] <;> rfl

theorem readAll_strip {T : Type} [Inhabited T] {r : Rd T} {P : String} (hb : Blind r P) (l : List Yaml) :
    readAll r (stripItems P l) = readAll r l := by
  induction l with
  | nil => rw [stripItems]
  | cons x l ih => rw [stripItems, readAll, readAll, hb, ih]

theorem blind_vec {T : Type} [Inhabited T] {r : Rd T} {P : String} (hb : Blind r P) : Blind (readVec r) P := by
  intro o y
  cases y with
  | seq l => rw [strip, readVec, readAll_strip hb]; rfl
  | _ => rw [strip] <;> rfl

theorem readEach_strip {T : Type} {read : T → Yaml → String → Res T} {P : String} {names : List String}
    (h : ∀ K ∈ names, ∀ old y, read old (strip P y) K = read old y K) (old : T) (y : Yaml) :
    readEach read (strip P y) old names = readEach read y old names := by
  induction names generalizing old with
  | nil => rfl
  | cons K names ih =>
    rw [readEach, readEach, h K (by simp)]
    cases read old y K with
    | ok v => exact ih (fun K' hK' => h K' (by simp [hK'])) v
    | «throw» e => rfl
    | ub e => rfl

theorem filter_hasKey {P : String} {names : List String} (h : ∀ K ∈ names, makePath P K ∈ schemaPaths) (y : Yaml) :
    names.filter (hasKey (strip P y)) = names.filter (hasKey y) := by
  apply List.filter_congr
  intro K hK
  rw [hasKey_strip (h K hK)]

theorem optReadDeprecated_strip {T : Type} {read : T → Yaml → String → Res T} {P name : String} {deprecated : List String}
    (hk : ∀ K ∈ name :: deprecated, makePath P K ∈ schemaPaths)
    (h : ∀ K ∈ name :: deprecated, ∀ old y, read old (strip P y) K = read old y K) (old : T) (y : Yaml) :
    optReadDeprecated read old (strip P y) name deprecated = optReadDeprecated read old y name deprecated := by
  cases y with
  | map m =>
    have e : deprecatedConflict (strip P (.map m)) name deprecated = deprecatedConflict (.map m) name deprecated := by
      unfold deprecatedConflict
      rw [filter_hasKey (fun K hK => hk K (by simp [hK])), hasKey_strip (hk name (by simp))]
    have e2 := readEach_strip h old (.map m)
    rw [strip] at e e2 ⊢
    show (if _ then _ else _) = (if _ then _ else _)
    rw [e, e2]
  | _ => rw [strip] <;> rfl

theorem flat_readStr (P : String) : Blind readStr P := by intro o y; cases y <;> rw [strip] <;> rfl
theorem flat_readBool (P : String) : Blind readBool P := by intro o y; cases y <;> rw [strip] <;> rfl
theorem flat_readU8 (P : String) : Blind readU8 P := by intro o y; cases y <;> rw [strip] <;> rfl
theorem flat_readU16 (P : String) : Blind readU16 P := by intro o y; cases y <;> rw [strip] <;> rfl
theorem flat_readU64 (P : String) : Blind readU64 P := by intro o y; cases y <;> rw [strip] <;> rfl
theorem flat_readI32 (P : String) : Blind readI32 P := by intro o y; cases y <;> rw [strip] <;> rfl
theorem flat_readU8Checked (P : String) : Blind readU8Checked P := by intro o y; cases y <;> rw [strip] <;> rfl
theorem flat_readU16Checked (P : String) : Blind readU16Checked P := by intro o y; cases y <;> rw [strip] <;> rfl
theorem flat_readI32Checked (P : String) : Blind readI32Checked P := by intro o y; cases y <;> rw [strip] <;> rfl
theorem flat_readI64Checked (P : String) : Blind readI64Checked P := by intro o y; cases y <;> rw [strip] <;> rfl
theorem flat_readLevel (P : String) : Blind readLevel P := by intro o y; cases y <;> rw [strip] <;> rfl
theorem flat_readTopic (P : String) : Blind readTopic P := by intro o y; cases y <;> rw [strip] <;> rfl
theorem flat_readChannel (P : String) : Blind readChannel P := by intro o y; cases y <;> rw [strip] <;> rfl
theorem flat_readClockPeriod (P : String) : Blind readClockPeriod P := by intro o y; cases y <;> rw [strip] <;> rfl
theorem flat_readTransmissionMode (P : String) : Blind readTransmissionMode P := by intro o y; cases y <;> rw [strip] <;> rfl
theorem flat_readSinkType (P : String) : Blind readSinkType P := by intro o y; cases y <;> rw [strip] <;> rfl
theorem flat_readSinkFormat (P : String) : Blind readSinkFormat P := by intro o y; cases y <;> rw [strip] <;> rfl
theorem flat_readMetricsSinkType (P : String) : Blind readMetricsSinkType P := by intro o y; cases y <;> rw [strip] <;> rfl
theorem flat_readDirection (P : String) : Blind readDirection P := by intro o y; cases y <;> rw [strip] <;> rfl
theorem flat_readLabelKind (P : String) : Blind readLabelKind P := by intro o y; cases y <;> rw [strip] <;> rfl
theorem flat_readTraceSinkType (P : String) : Blind readTraceSinkType P := by intro o y; cases y <;> rw [strip] <;> rfl
theorem flat_readTraceSourceType (P : String) : Blind readTraceSourceType P := by intro o y; cases y <;> rw [strip] <;> rfl
theorem flat_readAggregation (P : String) : Blind readAggregation P := by intro o y; cases y <;> rw [strip] <;> rfl

/-! ## Writing -/

/-- The writer produces only elements that the schema knows. -/
def Good (P : String) (y : Yaml) : Prop := visit P y = []

theorem visitItems_nil {P : String} {l : List Yaml} (h : ∀ x ∈ l, Good P x) : visitItems P l = [] := by
  induction l with
  | nil => rw [visitItems]
  | cons x l ih => rw [visitItems, show visit P x = [] from h x (by simp), ih (fun y hy => h y (by simp [hy]))]; rfl

theorem good_keyed {P K : String} {y : Yaml} (h : Good (makePath P K) y) : visitKeyed P K y = [] := by
  unfold Good at h
  cases y with
  | none => rw [visit] at h; cases h
  | val s => rw [visitKeyed]
  | seq l => rw [visit] at h; rw [visitKeyed, h]
  | map m =>
    rw [visit, List.append_eq_nil_iff] at h
    have hd : (m.map Prod.fst).Nodup := ((clean_duplicates _ _ _).1 (by rw [h.1]; exact clean_nil)).1
    rw [visitKeyed, h.2, duplicates_of_nodup P hd (by simp)]
    rfl

theorem visitEntries_nil {P : String} {m : List (String × Yaml)}
    (h : ∀ e ∈ m, makePath P e.1 ∈ schemaPaths ∧ Good (makePath P e.1) e.2) : visitEntries P m = [] := by
  induction m with
  | nil => rw [visitEntries]
  | cons e m ih =>
    obtain ⟨k, v⟩ := e
    have h1 := h (k, v) (by simp)
    rw [visitEntries, checkKey, if_pos ((isSchemaPath_iff _).2 h1.1), good_keyed h1.2, ih (fun e he => h e (by simp [he]))]
    rfl

theorem good_val {P : String} (h : P ∈ schemaPaths) (s : String) : Good P (.val s) := by
  unfold Good
  rw [visit, checkScalar, if_pos ((isSchemaPath_iff _).2 h)]

theorem good_seq {T : Type} {P : String} {f : T → Yaml} (h : ∀ x, Good P (f x)) (l : List T) : Good P (.seq (l.map f)) := by
  unfold Good
  rw [visit]
  refine visitItems_nil (fun x hx => ?_)
  obtain ⟨a, _, rfl⟩ := List.mem_map.1 hx
  exact h a

/-- The same for a member that may be left out. -/
def GoodF (P : String) (f : String × Option Yaml) : Prop := ∀ v, f.2 = some v → makePath P f.1 ∈ schemaPaths ∧ Good (makePath P f.1) v

def GoodAll (P : String) : Fields → Prop
  | [] => True
  | f :: fs => GoodF P f ∧ GoodAll P fs

theorem gf_some {P K : String} {v : Yaml} (h : makePath P K ∈ schemaPaths) (hv : Good (makePath P K) v) : GoodF P (K, some v) := by
  intro w e; cases e; exact ⟨h, hv⟩

theorem gf_if {P K : String} {v : Yaml} {c : Prop} [Decidable c] (h : makePath P K ∈ schemaPaths) (hv : Good (makePath P K) v) :
    GoodF P (K, if c then none else some v) := by
  intro w e
  by_cases hc : c
  · rw [if_pos hc] at e; cases e
  · rw [if_neg hc] at e; cases e; exact ⟨h, hv⟩

theorem gf_if' {P K : String} {v : Yaml} {c : Prop} [Decidable c] (h : makePath P K ∈ schemaPaths) (hv : Good (makePath P K) v) :
    GoodF P (K, if c then some v else none) := by
  intro w e
  by_cases hc : c
  · rw [if_pos hc] at e; cases e; exact ⟨h, hv⟩
  · rw [if_neg hc] at e; cases e

theorem gf_opt {T : Type} {P K : String} {f : T → Yaml} {o : Option T} (h : makePath P K ∈ schemaPaths) (hv : ∀ x, Good (makePath P K) (f x)) :
    GoodF P (K, o.map f) := by
  intro w e
  cases o with
  | none => cases e
  | some x => cases e; exact ⟨h, hv x⟩

theorem entries_good {P : String} {fs : Fields} (h : GoodAll P fs) : ∀ e ∈ entries fs, makePath P e.1 ∈ schemaPaths ∧ Good (makePath P e.1) e.2 := by
  induction fs with
  | nil => intro e he; cases he
  | cons f fs ih =>
    obtain ⟨k, o⟩ := f
    intro e he
    cases o with
    | none => exact ih h.2 e he
    | some v =>
      have : e = (k, v) ∨ e ∈ entries fs := List.mem_cons.1 he
      rcases this with rfl | he
      · exact h.1 v rfl
      · exact ih h.2 e he

theorem entries_sublist (fs : Fields) : List.Sublist ((entries fs).map Prod.fst) (fs.map Prod.fst) := by
  induction fs with
  | nil => exact .slnil
  | cons f fs ih =>
    obtain ⟨k, o⟩ := f
    cases o with
    | none => exact .cons _ ih
    | some v => exact .cons_cons _ ih

theorem nodup_entries {fs : Fields} (h : (fs.map Prod.fst).Nodup) : ((entries fs).map Prod.fst).Nodup := h.sublist (entries_sublist fs)

theorem good_map {P : String} {fs : Fields} (hn : (fs.map Prod.fst).Nodup) (h : GoodAll P fs) : Good P (.map (entries fs)) := by
  unfold Good
  rw [visit, visitEntries_nil (entries_good h), duplicates_of_nodup P (nodup_entries hn) (by simp)]
  rfl

/-! ## The classes -/

structure K_Cluster (P : String) : Prop where
  keys : Knows P ["gColdstartAttempts", "gCycleCountMax", "gdActionPointOffset", "gdDynamicSlotIdlePhase", "gdMiniSlot", "gdMiniSlotActionPointOffset", "gdStaticSlot", "gdSymbolWindow", "gdSymbolWindowActionPointOffset", "gdTSSTransmitter", "gdWakeupTxActive", "gdWakeupTxIdle", "gListenNoise", "gMacroPerCycle", "gMaxWithoutClockCorrectionFatal", "gMaxWithoutClockCorrectionPassive", "gNumberOfMiniSlots", "gNumberOfStaticSlots", "gPayloadLengthStatic", "gSyncFrameIDCountMax"]

theorem strip_Cluster {P : String} (k : K_Cluster P) : Blind readCluster P := by
  intro o y
  unfold readCluster
  simp only [readKey_strip k.keys.1 (flat_readU8 _),
    readKey_strip k.keys.2.1 (flat_readU8 _),
    readKey_strip k.keys.2.2.1 (flat_readU16 _),
    readKey_strip k.keys.2.2.2.1 (flat_readU16 _),
    readKey_strip k.keys.2.2.2.2.1 (flat_readU16 _),
    readKey_strip k.keys.2.2.2.2.2.1 (flat_readU16 _),
    readKey_strip k.keys.2.2.2.2.2.2.1 (flat_readU16 _),
    readKey_strip k.keys.2.2.2.2.2.2.2.1 (flat_readU16 _),
    readKey_strip k.keys.2.2.2.2.2.2.2.2.1 (flat_readU16 _),
    readKey_strip k.keys.2.2.2.2.2.2.2.2.2.1 (flat_readU16 _),
    readKey_strip k.keys.2.2.2.2.2.2.2.2.2.2.1 (flat_readU16 _),
    readKey_strip k.keys.2.2.2.2.2.2.2.2.2.2.2.1 (flat_readU16 _),
    readKey_strip k.keys.2.2.2.2.2.2.2.2.2.2.2.2.1 (flat_readU8 _),
    readKey_strip k.keys.2.2.2.2.2.2.2.2.2.2.2.2.2.1 (flat_readU16 _),
    readKey_strip k.keys.2.2.2.2.2.2.2.2.2.2.2.2.2.2.1 (flat_readU8 _),
    readKey_strip k.keys.2.2.2.2.2.2.2.2.2.2.2.2.2.2.2.1 (flat_readU8 _),
    readKey_strip k.keys.2.2.2.2.2.2.2.2.2.2.2.2.2.2.2.2.1 (flat_readU16 _),
    readKey_strip k.keys.2.2.2.2.2.2.2.2.2.2.2.2.2.2.2.2.2.1 (flat_readU16 _),
    readKey_strip k.keys.2.2.2.2.2.2.2.2.2.2.2.2.2.2.2.2.2.2.1 (flat_readU16 _),
    readKey_strip k.keys.2.2.2.2.2.2.2.2.2.2.2.2.2.2.2.2.2.2.2.1 (flat_readU8 _)]

theorem good_Cluster {P : String} (k : K_Cluster P) (o : ClusterParameters) : Good P (yCluster o) :=
  good_map (nd_Cluster o) ⟨gf_some k.keys.1 (good_val k.keys.1 _),
    gf_some k.keys.2.1 (good_val k.keys.2.1 _),
    gf_some k.keys.2.2.1 (good_val k.keys.2.2.1 _),
    gf_some k.keys.2.2.2.1 (good_val k.keys.2.2.2.1 _),
    gf_some k.keys.2.2.2.2.1 (good_val k.keys.2.2.2.2.1 _),
    gf_some k.keys.2.2.2.2.2.1 (good_val k.keys.2.2.2.2.2.1 _),
    gf_some k.keys.2.2.2.2.2.2.1 (good_val k.keys.2.2.2.2.2.2.1 _),
    gf_some k.keys.2.2.2.2.2.2.2.1 (good_val k.keys.2.2.2.2.2.2.2.1 _),
    gf_some k.keys.2.2.2.2.2.2.2.2.1 (good_val k.keys.2.2.2.2.2.2.2.2.1 _),
    gf_some k.keys.2.2.2.2.2.2.2.2.2.1 (good_val k.keys.2.2.2.2.2.2.2.2.2.1 _),
    gf_some k.keys.2.2.2.2.2.2.2.2.2.2.1 (good_val k.keys.2.2.2.2.2.2.2.2.2.2.1 _),
    gf_some k.keys.2.2.2.2.2.2.2.2.2.2.2.1 (good_val k.keys.2.2.2.2.2.2.2.2.2.2.2.1 _),
    gf_some k.keys.2.2.2.2.2.2.2.2.2.2.2.2.1 (good_val k.keys.2.2.2.2.2.2.2.2.2.2.2.2.1 _),
    gf_some k.keys.2.2.2.2.2.2.2.2.2.2.2.2.2.1 (good_val k.keys.2.2.2.2.2.2.2.2.2.2.2.2.2.1 _),
    gf_some k.keys.2.2.2.2.2.2.2.2.2.2.2.2.2.2.1 (good_val k.keys.2.2.2.2.2.2.2.2.2.2.2.2.2.2.1 _),
    gf_some k.keys.2.2.2.2.2.2.2.2.2.2.2.2.2.2.2.1 (good_val k.keys.2.2.2.2.2.2.2.2.2.2.2.2.2.2.2.1 _),
    gf_some k.keys.2.2.2.2.2.2.2.2.2.2.2.2.2.2.2.2.1 (good_val k.keys.2.2.2.2.2.2.2.2.2.2.2.2.2.2.2.2.1 _),
    gf_some k.keys.2.2.2.2.2.2.2.2.2.2.2.2.2.2.2.2.2.1 (good_val k.keys.2.2.2.2.2.2.2.2.2.2.2.2.2.2.2.2.2.1 _),
    gf_some k.keys.2.2.2.2.2.2.2.2.2.2.2.2.2.2.2.2.2.2.1 (good_val k.keys.2.2.2.2.2.2.2.2.2.2.2.2.2.2.2.2.2.2.1 _),
    gf_some k.keys.2.2.2.2.2.2.2.2.2.2.2.2.2.2.2.2.2.2.2.1 (good_val k.keys.2.2.2.2.2.2.2.2.2.2.2.2.2.2.2.2.2.2.2.1 _), trivial⟩

structure K_Node (P : String) : Prop where
  keys : Knows P ["pAllowHaltDueToClock", "pAllowPassiveToActive", "pClusterDriftDamping", "pdAcceptedStartupRange", "pdListenTimeout", "pKeySlotId", "pKeySlotOnlyEnabled", "pKeySlotUsedForStartup", "pKeySlotUsedForSync", "pLatestTx", "pMacroInitialOffsetA", "pMacroInitialOffsetB", "pMicroInitialOffsetA", "pMicroInitialOffsetB", "pMicroPerCycle", "pOffsetCorrectionOut", "pOffsetCorrectionStart", "pRateCorrectionOut", "pWakeupPattern", "pSamplesPerMicrotick", "pWakeupChannel", "pdMicrotick", "pChannels", "pSecondKeySlotId", "pTwoKeySlotMode"]

theorem strip_Node {P : String} (k : K_Node P) : Blind readNode P := by
  intro o y
  unfold readNode
  simp only [readKey_strip k.keys.1 (flat_readU8 _),
    readKey_strip k.keys.2.1 (flat_readU8 _),
    readKey_strip k.keys.2.2.1 (flat_readU8 _),
    readKey_strip k.keys.2.2.2.1 (flat_readI32 _),
    readKey_strip k.keys.2.2.2.2.1 (flat_readI32 _),
    readKey_strip k.keys.2.2.2.2.2.1 (flat_readU16 _),
    readKey_strip k.keys.2.2.2.2.2.2.1 (flat_readU8 _),
    readKey_strip k.keys.2.2.2.2.2.2.2.1 (flat_readU8 _),
    readKey_strip k.keys.2.2.2.2.2.2.2.2.1 (flat_readU8 _),
    readKey_strip k.keys.2.2.2.2.2.2.2.2.2.1 (flat_readU16 _),
    readKey_strip k.keys.2.2.2.2.2.2.2.2.2.2.1 (flat_readU8 _),
    readKey_strip k.keys.2.2.2.2.2.2.2.2.2.2.2.1 (flat_readU8 _),
    readKey_strip k.keys.2.2.2.2.2.2.2.2.2.2.2.2.1 (flat_readI32 _),
    readKey_strip k.keys.2.2.2.2.2.2.2.2.2.2.2.2.2.1 (flat_readI32 _),
    readKey_strip k.keys.2.2.2.2.2.2.2.2.2.2.2.2.2.2.1 (flat_readI32 _),
    readKey_strip k.keys.2.2.2.2.2.2.2.2.2.2.2.2.2.2.2.1 (flat_readI32 _),
    readKey_strip k.keys.2.2.2.2.2.2.2.2.2.2.2.2.2.2.2.2.1 (flat_readU16 _),
    readKey_strip k.keys.2.2.2.2.2.2.2.2.2.2.2.2.2.2.2.2.2.1 (flat_readI32 _),
    readKey_strip k.keys.2.2.2.2.2.2.2.2.2.2.2.2.2.2.2.2.2.2.1 (flat_readU8 _),
    readKey_strip k.keys.2.2.2.2.2.2.2.2.2.2.2.2.2.2.2.2.2.2.2.1 (flat_readU8 _),
    readKey_strip k.keys.2.2.2.2.2.2.2.2.2.2.2.2.2.2.2.2.2.2.2.2.1 (flat_readChannel _),
    readKey_strip k.keys.2.2.2.2.2.2.2.2.2.2.2.2.2.2.2.2.2.2.2.2.2.1 (flat_readClockPeriod _),
    readKey_strip k.keys.2.2.2.2.2.2.2.2.2.2.2.2.2.2.2.2.2.2.2.2.2.2.1 (flat_readChannel _),
    optReadInt_strip k.keys.2.2.2.2.2.2.2.2.2.2.2.2.2.2.2.2.2.2.2.2.2.2.2.1 (flat_readU16Checked _),
    optReadInt_strip k.keys.2.2.2.2.2.2.2.2.2.2.2.2.2.2.2.2.2.2.2.2.2.2.2.2.1 (flat_readU8Checked _)]

theorem good_Node {P : String} (k : K_Node P) (o : NodeParameters) : Good P (yNode o) :=
  good_map (nd_Node o) ⟨gf_some k.keys.1 (good_val k.keys.1 _),
    gf_some k.keys.2.1 (good_val k.keys.2.1 _),
    gf_some k.keys.2.2.1 (good_val k.keys.2.2.1 _),
    gf_some k.keys.2.2.2.1 (good_val k.keys.2.2.2.1 _),
    gf_some k.keys.2.2.2.2.1 (good_val k.keys.2.2.2.2.1 _),
    gf_some k.keys.2.2.2.2.2.1 (good_val k.keys.2.2.2.2.2.1 _),
    gf_some k.keys.2.2.2.2.2.2.1 (good_val k.keys.2.2.2.2.2.2.1 _),
    gf_some k.keys.2.2.2.2.2.2.2.1 (good_val k.keys.2.2.2.2.2.2.2.1 _),
    gf_some k.keys.2.2.2.2.2.2.2.2.1 (good_val k.keys.2.2.2.2.2.2.2.2.1 _),
    gf_some k.keys.2.2.2.2.2.2.2.2.2.1 (good_val k.keys.2.2.2.2.2.2.2.2.2.1 _),
    gf_some k.keys.2.2.2.2.2.2.2.2.2.2.1 (good_val k.keys.2.2.2.2.2.2.2.2.2.2.1 _),
    gf_some k.keys.2.2.2.2.2.2.2.2.2.2.2.1 (good_val k.keys.2.2.2.2.2.2.2.2.2.2.2.1 _),
    gf_some k.keys.2.2.2.2.2.2.2.2.2.2.2.2.1 (good_val k.keys.2.2.2.2.2.2.2.2.2.2.2.2.1 _),
    gf_some k.keys.2.2.2.2.2.2.2.2.2.2.2.2.2.1 (good_val k.keys.2.2.2.2.2.2.2.2.2.2.2.2.2.1 _),
    gf_some k.keys.2.2.2.2.2.2.2.2.2.2.2.2.2.2.1 (good_val k.keys.2.2.2.2.2.2.2.2.2.2.2.2.2.2.1 _),
    gf_some k.keys.2.2.2.2.2.2.2.2.2.2.2.2.2.2.2.1 (good_val k.keys.2.2.2.2.2.2.2.2.2.2.2.2.2.2.2.1 _),
    gf_some k.keys.2.2.2.2.2.2.2.2.2.2.2.2.2.2.2.2.1 (good_val k.keys.2.2.2.2.2.2.2.2.2.2.2.2.2.2.2.2.1 _),
    gf_some k.keys.2.2.2.2.2.2.2.2.2.2.2.2.2.2.2.2.2.1 (good_val k.keys.2.2.2.2.2.2.2.2.2.2.2.2.2.2.2.2.2.1 _),
    gf_some k.keys.2.2.2.2.2.2.2.2.2.2.2.2.2.2.2.2.2.2.1 (good_val k.keys.2.2.2.2.2.2.2.2.2.2.2.2.2.2.2.2.2.2.1 _),
    gf_some k.keys.2.2.2.2.2.2.2.2.2.2.2.2.2.2.2.2.2.2.2.1 (good_val k.keys.2.2.2.2.2.2.2.2.2.2.2.2.2.2.2.2.2.2.2.1 _),
    gf_some k.keys.2.2.2.2.2.2.2.2.2.2.2.2.2.2.2.2.2.2.2.2.1 (good_val k.keys.2.2.2.2.2.2.2.2.2.2.2.2.2.2.2.2.2.2.2.2.1 _),
    gf_some k.keys.2.2.2.2.2.2.2.2.2.2.2.2.2.2.2.2.2.2.2.2.2.1 (good_val k.keys.2.2.2.2.2.2.2.2.2.2.2.2.2.2.2.2.2.2.2.2.2.1 _),
    gf_some k.keys.2.2.2.2.2.2.2.2.2.2.2.2.2.2.2.2.2.2.2.2.2.2.1 (good_val k.keys.2.2.2.2.2.2.2.2.2.2.2.2.2.2.2.2.2.2.2.2.2.2.1 _),
    gf_if k.keys.2.2.2.2.2.2.2.2.2.2.2.2.2.2.2.2.2.2.2.2.2.2.2.1 (good_val k.keys.2.2.2.2.2.2.2.2.2.2.2.2.2.2.2.2.2.2.2.2.2.2.2.1 _),
    gf_if k.keys.2.2.2.2.2.2.2.2.2.2.2.2.2.2.2.2.2.2.2.2.2.2.2.2.1 (good_val k.keys.2.2.2.2.2.2.2.2.2.2.2.2.2.2.2.2.2.2.2.2.2.2.2.2.1 _), trivial⟩

structure K_TxBuffer (P : String) : Prop where
  keys : Knows P ["channels", "slotId", "offset", "repetition", "PPindicator", "headerCrc", "transmissionMode"]

theorem strip_TxBuffer {P : String} (k : K_TxBuffer P) : Blind readTxBuffer P := by
  intro o y
  unfold readTxBuffer
  simp only [readKey_strip k.keys.1 (flat_readChannel _),
    readKey_strip k.keys.2.1 (flat_readU16 _),
    readKey_strip k.keys.2.2.1 (flat_readU8 _),
    readKey_strip k.keys.2.2.2.1 (flat_readU8 _),
    readKey_strip k.keys.2.2.2.2.1 (flat_readBool _),
    readKey_strip k.keys.2.2.2.2.2.1 (flat_readU16 _),
    readKey_strip k.keys.2.2.2.2.2.2.1 (flat_readTransmissionMode _)]

theorem good_TxBuffer {P : String} (k : K_TxBuffer P) (o : TxBufferConfig) : Good P (yTxBuffer o) :=
  good_map (nd_TxBuffer o) ⟨gf_some k.keys.1 (good_val k.keys.1 _),
    gf_some k.keys.2.1 (good_val k.keys.2.1 _),
    gf_some k.keys.2.2.1 (good_val k.keys.2.2.1 _),
    gf_some k.keys.2.2.2.1 (good_val k.keys.2.2.2.1 _),
    gf_some k.keys.2.2.2.2.1 (good_val k.keys.2.2.2.2.1 _),
    gf_some k.keys.2.2.2.2.2.1 (good_val k.keys.2.2.2.2.2.1 _),
    gf_some k.keys.2.2.2.2.2.2.1 (good_val k.keys.2.2.2.2.2.2.1 _), trivial⟩

structure K_SinkExp (P : String) : Prop where
  keys : Knows P ["DisabledTopics", "EnabledTopics"]

structure K_Sink (P : String) : Prop where
  keys : Knows P ["Type", "Level", "Format", "Experimental", "LogName"]
  Experimental : K_SinkExp (makePath P "Experimental")

theorem strip_SinkTopics {P : String} (k : K_Sink P) (o : Sink) (y : Yaml) : readSinkTopics o (strip P y) = readSinkTopics o y := by
  unfold readSinkTopics
  rw [child_strip k.keys.2.2.2.1]
  cases child y "Experimental" with
  | ok c =>
    cases c with
    | none => rfl
    | some c =>
      simp only [Res.bind_ok, Res.pure_eq, Option.map_some]
      rw [optRead_strip k.Experimental.keys.1 (blind_vec (flat_readTopic _)), 
        funext (fun d => congrArg (fun x => Bind.bind x _) (optRead_strip k.Experimental.keys.2.1 (blind_vec (flat_readTopic _)) o.enabledTopics c))]
  | «throw» e => rfl
  | ub e => rfl

theorem strip_LogName {P : String} (k : K_Sink P) (t : SinkType) (o : String) (y : Yaml) : readLogName t o (strip P y) = readLogName t o y := by
  unfold readLogName
  rw [hasKey_strip k.keys.2.2.2.2.1, readKey_strip k.keys.2.2.2.2.1 (flat_readStr _)]

theorem strip_Sink {P : String} (k : K_Sink P) : Blind readSink P := by
  intro o y
  unfold readSink
  simp only [optRead_strip k.keys.1 (flat_readSinkType _),
    optRead_strip k.keys.2.1 (flat_readLevel _),
    optRead_strip k.keys.2.2.1 (flat_readSinkFormat _),
    strip_SinkTopics k,
    strip_LogName k]

theorem good_Sink {P : String} (k : K_Sink P) (o : Sink) : Good P (ySink o) :=
  good_map (nd_Sink o) ⟨gf_some k.keys.1 (good_val k.keys.1 _),
    gf_if k.keys.2.1 (good_val k.keys.2.1 _),
    gf_if k.keys.2.2.2.2.1 (good_val k.keys.2.2.2.2.1 _), trivial⟩

structure K_Logging (P : String) : Prop where
  keys : Knows P ["LogFromRemotes", "FlushLevel", "Sinks"]
  Sinks : K_Sink (makePath P "Sinks")

theorem strip_Logging {P : String} (k : K_Logging P) : Blind readLogging P := by
  intro o y
  unfold readLogging
  simp only [optRead_strip k.keys.1 (flat_readBool _),
    optRead_strip k.keys.2.1 (flat_readLevel _),
    optRead_strip k.keys.2.2.1 (blind_vec (strip_Sink k.Sinks))]

theorem good_Logging {P : String} (k : K_Logging P) (o : Logging) : Good P (yLogging o) :=
  good_map (nd_Logging o) ⟨gf_if k.keys.1 (good_val k.keys.1 _),
    gf_if k.keys.2.1 (good_val k.keys.2.1 _),
    gf_some k.keys.2.2.1 (good_seq (fun _ => good_Sink k.Sinks _) _), trivial⟩

structure K_MetricsSink (P : String) : Prop where
  keys : Knows P ["Type", "Name"]

theorem strip_MetricsSink {P : String} (k : K_MetricsSink P) : Blind readMetricsSink P := by
  intro o y
  unfold readMetricsSink
  simp only [readKey_strip k.keys.1 (flat_readMetricsSinkType _),
    optRead_strip k.keys.2.1 (flat_readStr _)]

theorem good_MetricsSink {P : String} (k : K_MetricsSink P) (o : MetricsSink) : Good P (yMetricsSink o) :=
  good_map (nd_MetricsSink o) ⟨gf_some k.keys.1 (good_val k.keys.1 _),
    gf_if k.keys.2.1 (good_val k.keys.2.1 _), trivial⟩

structure K_Metrics (P : String) : Prop where
  keys : Knows P ["Sinks", "CollectFromRemote", "UpdateInterval"]
  Sinks : K_MetricsSink (makePath P "Sinks")

theorem strip_Metrics {P : String} (k : K_Metrics P) : Blind readMetrics P := by
  intro o y
  unfold readMetrics
  simp only [optRead_strip k.keys.1 (blind_vec (strip_MetricsSink k.Sinks)),
    optReadOpt_strip k.keys.2.1 (flat_readBool _),
    optReadInt_strip k.keys.2.2.1 (flat_readI64Checked _)]

theorem good_Metrics {P : String} (k : K_Metrics P) (o : Metrics) : Good P (yMetrics o) :=
  good_map (nd_Metrics o) ⟨gf_if k.keys.1 (good_seq (fun _ => good_MetricsSink k.Sinks _) _),
    gf_opt k.keys.2.1 (fun _ => good_val k.keys.2.1 _),
    gf_if k.keys.2.2.1 (good_val k.keys.2.2.1 _), trivial⟩

structure K_MdfChannel (P : String) : Prop where
  keys : Knows P ["ChannelName", "ChannelPath", "ChannelSource", "GroupName", "GroupPath", "GroupSource"]

theorem strip_MdfChannel {P : String} (k : K_MdfChannel P) : Blind readMdfChannel P := by
  intro o y
  unfold readMdfChannel
  simp only [optReadOpt_strip k.keys.1 (flat_readStr _),
    optReadOpt_strip k.keys.2.1 (flat_readStr _),
    optReadOpt_strip k.keys.2.2.1 (flat_readStr _),
    optReadOpt_strip k.keys.2.2.2.1 (flat_readStr _),
    optReadOpt_strip k.keys.2.2.2.2.1 (flat_readStr _),
    optReadOpt_strip k.keys.2.2.2.2.2.1 (flat_readStr _), isMap_strip]

theorem good_MdfChannel {P : String} (k : K_MdfChannel P) (o : MdfChannel) : Good P (yMdfChannel o) :=
  good_map (nd_MdfChannel o) ⟨gf_opt k.keys.1 (fun _ => good_val k.keys.1 _),
    gf_opt k.keys.2.1 (fun _ => good_val k.keys.2.1 _),
    gf_opt k.keys.2.2.1 (fun _ => good_val k.keys.2.2.1 _),
    gf_opt k.keys.2.2.2.1 (fun _ => good_val k.keys.2.2.2.1 _),
    gf_opt k.keys.2.2.2.2.1 (fun _ => good_val k.keys.2.2.2.2.1 _),
    gf_opt k.keys.2.2.2.2.2.1 (fun _ => good_val k.keys.2.2.2.2.2.1 _), trivial⟩

structure K_Replay (P : String) : Prop where
  keys : Knows P ["UseTraceSource", "Direction", "MdfChannel"]
  MdfChannel : K_MdfChannel (makePath P "MdfChannel")

theorem strip_Replay {P : String} (k : K_Replay P) : Blind readReplay P := by
  intro o y
  unfold readReplay
  simp only [readKey_strip k.keys.1 (flat_readStr _),
    optRead_strip k.keys.2.1 (flat_readDirection _),
    optRead_strip k.keys.2.2.1 (strip_MdfChannel k.MdfChannel)]

theorem good_Replay {P : String} (k : K_Replay P) (o : Replay) : Good P (yReplay o) :=
  good_map (nd_Replay o) ⟨gf_some k.keys.1 (good_val k.keys.1 _),
    gf_if k.keys.2.1 (good_val k.keys.2.1 _),
    gf_if k.keys.2.2.1 (good_MdfChannel k.MdfChannel _), trivial⟩

structure K_Controller (P : String) : Prop where
  keys : Knows P ["Name", "Network", "UseTraceSinks", "Replay"]
  Replay : K_Replay (makePath P "Replay")

theorem strip_Controller {P : String} (k : K_Controller P) : Blind readController P := by
  intro o y
  unfold readController
  simp only [readKey_strip k.keys.1 (flat_readStr _),
    optReadOpt_strip k.keys.2.1 (flat_readStr _),
    optRead_strip k.keys.2.2.1 (blind_vec (flat_readStr _)),
    optRead_strip k.keys.2.2.2.1 (strip_Replay k.Replay)]

theorem good_Controller {P : String} (k : K_Controller P) (o : Controller) : Good P (yController o) :=
  good_map (nd_Controller o) ⟨gf_some k.keys.1 (good_val k.keys.1 _),
    gf_opt k.keys.2.1 (fun _ => good_val k.keys.2.1 _),
    gf_if k.keys.2.2.1 (good_seq (fun _ => good_val k.keys.2.2.1 _) _),
    gf_if' k.keys.2.2.2.1 (good_Replay k.Replay _), trivial⟩

structure K_FlexrayController (P : String) : Prop where
  keys : Knows P ["Name", "Network", "UseTraceSinks", "Replay", "ClusterParameters", "NodeParameters", "TxBufferConfigurations"]
  Replay : K_Replay (makePath P "Replay")
  ClusterParameters : K_Cluster (makePath P "ClusterParameters")
  NodeParameters : K_Node (makePath P "NodeParameters")
  TxBufferConfigurations : K_TxBuffer (makePath P "TxBufferConfigurations")

theorem strip_FlexrayController {P : String} (k : K_FlexrayController P) : Blind readFlexrayController P := by
  intro o y
  unfold readFlexrayController
  simp only [readKey_strip k.keys.1 (flat_readStr _),
    optReadOpt_strip k.keys.2.1 (flat_readStr _),
    optRead_strip k.keys.2.2.1 (blind_vec (flat_readStr _)),
    optRead_strip k.keys.2.2.2.1 (strip_Replay k.Replay),
    optReadOpt_strip k.keys.2.2.2.2.1 (strip_Cluster k.ClusterParameters),
    optReadOpt_strip k.keys.2.2.2.2.2.1 (strip_Node k.NodeParameters),
    optRead_strip k.keys.2.2.2.2.2.2.1 (blind_vec (strip_TxBuffer k.TxBufferConfigurations))]

theorem good_FlexrayController {P : String} (k : K_FlexrayController P) (o : FlexrayController) : Good P (yFlexrayController o) :=
  good_map (nd_FlexrayController o) ⟨gf_some k.keys.1 (good_val k.keys.1 _),
    gf_opt k.keys.2.1 (fun _ => good_val k.keys.2.1 _),
    gf_opt k.keys.2.2.2.2.1 (fun _ => good_Cluster k.ClusterParameters _),
    gf_opt k.keys.2.2.2.2.2.1 (fun _ => good_Node k.NodeParameters _),
    gf_if k.keys.2.2.2.2.2.2.1 (good_seq (fun _ => good_TxBuffer k.TxBufferConfigurations _) _),
    gf_if k.keys.2.2.1 (good_seq (fun _ => good_val k.keys.2.2.1 _) _),
    gf_if' k.keys.2.2.2.1 (good_Replay k.Replay _), trivial⟩

structure K_Label (P : String) : Prop where
  keys : Knows P ["Key", "Value", "Kind"]

theorem strip_Label {P : String} (k : K_Label P) : Blind readLabel P := by
  intro o y
  unfold readLabel
  simp only [optRead_strip k.keys.1 (flat_readStr _),
    optRead_strip k.keys.2.1 (flat_readStr _),
    optRead_strip k.keys.2.2.1 (flat_readLabelKind _)]

theorem good_Label {P : String} (k : K_Label P) (o : Label) : Good P (yLabel o) :=
  good_map (nd_Label o) ⟨gf_some k.keys.1 (good_val k.keys.1 _),
    gf_some k.keys.2.1 (good_val k.keys.2.1 _),
    gf_some k.keys.2.2.1 (good_val k.keys.2.2.1 _), trivial⟩

structure K_DataPublisher (P : String) : Prop where
  keys : Knows P ["Name", "Topic", "Labels", "History", "UseTraceSinks", "Replay"]
  Labels : K_Label (makePath P "Labels")
  Replay : K_Replay (makePath P "Replay")

theorem strip_DataPublisher {P : String} (k : K_DataPublisher P) : Blind readDataPublisher P := by
  intro o y
  unfold readDataPublisher
  simp only [readKey_strip k.keys.1 (flat_readStr _),
    optReadOpt_strip k.keys.2.1 (flat_readStr _),
    optReadOpt_strip k.keys.2.2.1 (blind_vec (strip_Label k.Labels)),
    optReadOpt_strip k.keys.2.2.2.1 (flat_readU64 _),
    optRead_strip k.keys.2.2.2.2.1 (blind_vec (flat_readStr _)),
    optRead_strip k.keys.2.2.2.2.2.1 (strip_Replay k.Replay)]

theorem good_DataPublisher {P : String} (k : K_DataPublisher P) (o : DataPublisher) : Good P (yDataPublisher o) :=
  good_map (nd_DataPublisher o) ⟨gf_some k.keys.1 (good_val k.keys.1 _),
    gf_opt k.keys.2.1 (fun _ => good_val k.keys.2.1 _),
    gf_opt k.keys.2.2.1 (fun _ => good_seq (fun _ => good_Label k.Labels _) _),
    gf_opt k.keys.2.2.2.1 (fun _ => good_val k.keys.2.2.2.1 _),
    gf_if k.keys.2.2.2.2.1 (good_seq (fun _ => good_val k.keys.2.2.2.2.1 _) _),
    gf_if' k.keys.2.2.2.2.2.1 (good_Replay k.Replay _), trivial⟩

structure K_DataSubscriber (P : String) : Prop where
  keys : Knows P ["Name", "Topic", "Labels", "UseTraceSinks", "Replay"]
  Labels : K_Label (makePath P "Labels")
  Replay : K_Replay (makePath P "Replay")

theorem strip_DataSubscriber {P : String} (k : K_DataSubscriber P) : Blind readDataSubscriber P := by
  intro o y
  unfold readDataSubscriber
  simp only [readKey_strip k.keys.1 (flat_readStr _),
    optReadOpt_strip k.keys.2.1 (flat_readStr _),
    optReadOpt_strip k.keys.2.2.1 (blind_vec (strip_Label k.Labels)),
    optRead_strip k.keys.2.2.2.1 (blind_vec (flat_readStr _)),
    optRead_strip k.keys.2.2.2.2.1 (strip_Replay k.Replay)]

theorem good_DataSubscriber {P : String} (k : K_DataSubscriber P) (o : DataSubscriber) : Good P (yDataSubscriber o) :=
  good_map (nd_DataSubscriber o) ⟨gf_some k.keys.1 (good_val k.keys.1 _),
    gf_opt k.keys.2.1 (fun _ => good_val k.keys.2.1 _),
    gf_opt k.keys.2.2.1 (fun _ => good_seq (fun _ => good_Label k.Labels _) _),
    gf_if k.keys.2.2.2.1 (good_seq (fun _ => good_val k.keys.2.2.2.1 _) _),
    gf_if' k.keys.2.2.2.2.1 (good_Replay k.Replay _), trivial⟩

structure K_RpcEnd (P : String) : Prop where
  keys : Knows P ["Name", "FunctionName", "Channel", "RpcChannel", "Labels", "UseTraceSinks", "Replay"]
  Labels : K_Label (makePath P "Labels")
  Replay : K_Replay (makePath P "Replay")

theorem strip_RpcEnd {P : String} (k : K_RpcEnd P) : Blind readRpcEnd P := by
  intro o y
  unfold readRpcEnd
  have hd_FunctionName := optReadDeprecated_strip (read := optReadOpt readStr) (P := P) (name := "FunctionName") (deprecated := ["Channel", "RpcChannel"])
    (by intro K hK; simp only [List.mem_cons, List.not_mem_nil, or_false] at hK; rcases hK with rfl | rfl | rfl <;> first | exact k.keys.2.1 | exact k.keys.2.2.1 | exact k.keys.2.2.2.1)
    (by intro K hK; simp only [List.mem_cons, List.not_mem_nil, or_false] at hK; rcases hK with rfl | rfl | rfl <;> first | exact optReadOpt_strip k.keys.2.1 (flat_readStr _) | exact optReadOpt_strip k.keys.2.2.1 (flat_readStr _) | exact optReadOpt_strip k.keys.2.2.2.1 (flat_readStr _))
  simp only [readKey_strip k.keys.1 (flat_readStr _),
    hd_FunctionName,
    optReadOpt_strip k.keys.2.2.2.2.1 (blind_vec (strip_Label k.Labels)),
    optRead_strip k.keys.2.2.2.2.2.1 (blind_vec (flat_readStr _)),
    optRead_strip k.keys.2.2.2.2.2.2.1 (strip_Replay k.Replay)]

theorem good_RpcEnd_FunctionName {P : String} (k : K_RpcEnd P) (o : RpcEnd) : Good P (yRpcEnd "FunctionName" o) :=
  good_map (nd_RpcEnd o (by simp)) ⟨gf_some k.keys.1 (good_val k.keys.1 _), gf_opt k.keys.2.1 (fun _ => good_val k.keys.2.1 _), gf_opt k.keys.2.2.2.2.1 (fun _ => good_seq (fun _ => good_Label k.Labels _) _), gf_if k.keys.2.2.2.2.2.1 (good_seq (fun _ => good_val k.keys.2.2.2.2.2.1 _) _), gf_if' k.keys.2.2.2.2.2.2.1 (good_Replay k.Replay _), trivial⟩

theorem good_RpcEnd_Channel {P : String} (k : K_RpcEnd P) (o : RpcEnd) : Good P (yRpcEnd "Channel" o) :=
  good_map (nd_RpcEnd o (by simp)) ⟨gf_some k.keys.1 (good_val k.keys.1 _), gf_opt k.keys.2.2.1 (fun _ => good_val k.keys.2.2.1 _), gf_opt k.keys.2.2.2.2.1 (fun _ => good_seq (fun _ => good_Label k.Labels _) _), gf_if k.keys.2.2.2.2.2.1 (good_seq (fun _ => good_val k.keys.2.2.2.2.2.1 _) _), gf_if' k.keys.2.2.2.2.2.2.1 (good_Replay k.Replay _), trivial⟩

structure K_TraceSink (P : String) : Prop where
  keys : Knows P ["Name", "Type", "OutputPath"]

theorem strip_TraceSink {P : String} (k : K_TraceSink P) : Blind readTraceSink P := by
  intro o y
  unfold readTraceSink
  simp only [readKey_strip k.keys.1 (flat_readStr _),
    readKey_strip k.keys.2.1 (flat_readTraceSinkType _),
    readKey_strip k.keys.2.2.1 (flat_readStr _)]

theorem good_TraceSink {P : String} (k : K_TraceSink P) (o : TraceSink) : Good P (yTraceSink o) :=
  good_map (nd_TraceSink o) ⟨gf_some k.keys.1 (good_val k.keys.1 _),
    gf_some k.keys.2.1 (good_val k.keys.2.1 _),
    gf_some k.keys.2.2.1 (good_val k.keys.2.2.1 _), trivial⟩

structure K_TraceSource (P : String) : Prop where
  keys : Knows P ["Name", "Type", "InputPath"]

theorem strip_TraceSource {P : String} (k : K_TraceSource P) : Blind readTraceSource P := by
  intro o y
  unfold readTraceSource
  simp only [readKey_strip k.keys.1 (flat_readStr _),
    readKey_strip k.keys.2.1 (flat_readTraceSourceType _),
    readKey_strip k.keys.2.2.1 (flat_readStr _)]

theorem good_TraceSource {P : String} (k : K_TraceSource P) (o : TraceSource) : Good P (yTraceSource o) :=
  good_map (nd_TraceSource o) ⟨gf_some k.keys.1 (good_val k.keys.1 _),
    gf_some k.keys.2.1 (good_val k.keys.2.1 _),
    gf_some k.keys.2.2.1 (good_val k.keys.2.2.1 _), trivial⟩

structure K_Tracing (P : String) : Prop where
  keys : Knows P ["TraceSinks", "TraceSources"]
  TraceSinks : K_TraceSink (makePath P "TraceSinks")
  TraceSources : K_TraceSource (makePath P "TraceSources")

theorem strip_Tracing {P : String} (k : K_Tracing P) : Blind readTracing P := by
  intro o y
  unfold readTracing
  simp only [optRead_strip k.keys.1 (blind_vec (strip_TraceSink k.TraceSinks)),
    optRead_strip k.keys.2.1 (blind_vec (strip_TraceSource k.TraceSources))]

theorem good_Tracing {P : String} (k : K_Tracing P) (o : Tracing) : Good P (yTracing o) :=
  good_map (nd_Tracing o) ⟨gf_if k.keys.1 (good_seq (fun _ => good_TraceSink k.TraceSinks _) _),
    gf_if k.keys.2.1 (good_seq (fun _ => good_TraceSource k.TraceSources _) _), trivial⟩

structure K_Extensions (P : String) : Prop where
  keys : Knows P ["SearchPathHints"]

theorem strip_Extensions {P : String} (k : K_Extensions P) : Blind readExtensions P := by
  intro o y
  unfold readExtensions
  simp only [optRead_strip k.keys.1 (blind_vec (flat_readStr _))]

theorem good_Extensions {P : String} (k : K_Extensions P) (o : Extensions) : Good P (yExtensions o) :=
  good_map (nd_Extensions o) ⟨gf_if k.keys.1 (good_seq (fun _ => good_val k.keys.1 _) _), trivial⟩

structure K_Middleware (P : String) : Prop where
  keys : Knows P ["RegistryUri", "ConnectAttempts", "TcpNoDelay", "TcpQuickAck", "TcpReceiveBufferSize", "TcpSendBufferSize", "EnableDomainSockets", "AcceptorUris", "RegistryAsFallbackProxy", "ExperimentalRemoteParticipantConnection", "ConnectTimeoutSeconds"]

theorem strip_Middleware {P : String} (k : K_Middleware P) : Blind readMiddleware P := by
  intro o y
  unfold readMiddleware
  simp only [optRead_strip k.keys.1 (flat_readStr _),
    optReadInt_strip k.keys.2.1 (flat_readI32Checked _),
    optRead_strip k.keys.2.2.1 (flat_readBool _),
    optRead_strip k.keys.2.2.2.1 (flat_readBool _),
    optReadInt_strip k.keys.2.2.2.2.1 (flat_readI32Checked _),
    optReadInt_strip k.keys.2.2.2.2.2.1 (flat_readI32Checked _),
    optRead_strip k.keys.2.2.2.2.2.2.1 (flat_readBool _),
    optRead_strip k.keys.2.2.2.2.2.2.2.1 (blind_vec (flat_readStr _)),
    optRead_strip k.keys.2.2.2.2.2.2.2.2.1 (flat_readBool _),
    optRead_strip k.keys.2.2.2.2.2.2.2.2.2.1 (flat_readBool _),
    optRead_strip k.keys.2.2.2.2.2.2.2.2.2.2.1 (flat_readStr _)]

theorem good_Middleware {P : String} (k : K_Middleware P) (o : Middleware) : Good P (yMiddleware o) :=
  good_map (nd_Middleware o) ⟨gf_if k.keys.1 (good_val k.keys.1 _),
    gf_if k.keys.2.1 (good_val k.keys.2.1 _),
    gf_if k.keys.2.2.1 (good_val k.keys.2.2.1 _),
    gf_if k.keys.2.2.2.1 (good_val k.keys.2.2.2.1 _),
    gf_if k.keys.2.2.2.2.1 (good_val k.keys.2.2.2.2.1 _),
    gf_if k.keys.2.2.2.2.2.1 (good_val k.keys.2.2.2.2.2.1 _),
    gf_if k.keys.2.2.2.2.2.2.1 (good_val k.keys.2.2.2.2.2.2.1 _),
    gf_if k.keys.2.2.2.2.2.2.2.1 (good_seq (fun _ => good_val k.keys.2.2.2.2.2.2.2.1 _) _),
    gf_if k.keys.2.2.2.2.2.2.2.2.1 (good_val k.keys.2.2.2.2.2.2.2.2.1 _),
    gf_if k.keys.2.2.2.2.2.2.2.2.2.1 (good_val k.keys.2.2.2.2.2.2.2.2.2.1 _),
    gf_if k.keys.2.2.2.2.2.2.2.2.2.2.1 (good_val k.keys.2.2.2.2.2.2.2.2.2.2.1 _), trivial⟩

structure K_Includes (P : String) : Prop where
  keys : Knows P ["Files", "SearchPathHints"]

theorem strip_Includes {P : String} (k : K_Includes P) : Blind readIncludes P := by
  intro o y
  unfold readIncludes
  simp only [optRead_strip k.keys.1 (blind_vec (flat_readStr _)),
    optRead_strip k.keys.2.1 (blind_vec (flat_readStr _))]

theorem good_Includes {P : String} (k : K_Includes P) (o : Includes) : Good P (yIncludes o) :=
  good_map (nd_Includes o) ⟨gf_if k.keys.1 (good_seq (fun _ => good_val k.keys.1 _) _),
    gf_if k.keys.2.1 (good_seq (fun _ => good_val k.keys.2.1 _) _), trivial⟩

structure K_TimeSynchronization (P : String) : Prop where
  keys : Knows P ["AnimationFactor", "EnableMessageAggregation", "DynamicSimulationStep"]

theorem strip_TimeSynchronization {P : String} (k : K_TimeSynchronization P) : Blind readTimeSynchronization P := by
  intro o y
  unfold readTimeSynchronization
  simp only [optRead_strip k.keys.1 (flat_readStr _),
    optRead_strip k.keys.2.1 (flat_readAggregation _),
    optReadOpt_strip k.keys.2.2.1 (flat_readBool _)]

theorem good_TimeSynchronization {P : String} (k : K_TimeSynchronization P) (o : TimeSynchronization) : Good P (yTimeSynchronization o) :=
  good_map (nd_TimeSynchronization o) ⟨gf_if k.keys.1 (good_val k.keys.1 _),
    gf_if k.keys.2.1 (good_val k.keys.2.1 _),
    gf_opt k.keys.2.2.1 (fun _ => good_val k.keys.2.2.1 _), trivial⟩

structure K_Experimental (P : String) : Prop where
  keys : Knows P ["TimeSynchronization", "Metrics"]
  TimeSynchronization : K_TimeSynchronization (makePath P "TimeSynchronization")
  Metrics : K_Metrics (makePath P "Metrics")

theorem strip_Experimental {P : String} (k : K_Experimental P) : Blind readExperimental P := by
  intro o y
  unfold readExperimental
  simp only [optRead_strip k.keys.1 (strip_TimeSynchronization k.TimeSynchronization),
    optRead_strip k.keys.2.1 (strip_Metrics k.Metrics)]

theorem good_Experimental {P : String} (k : K_Experimental P) (o : Experimental) : Good P (yExperimental o) :=
  good_map (nd_Experimental o) ⟨gf_if k.keys.1 (good_TimeSynchronization k.TimeSynchronization _),
    gf_if k.keys.2.1 (good_Metrics k.Metrics _), trivial⟩

structure K_HealthCheck (P : String) : Prop where
  keys : Knows P ["SoftResponseTimeout", "HardResponseTimeout"]

theorem strip_HealthCheck {P : String} (k : K_HealthCheck P) : Blind readHealthCheck P := by
  intro o y
  unfold readHealthCheck
  simp only [optReadOpt_strip k.keys.1 (flat_readI64Checked _),
    optReadOpt_strip k.keys.2.1 (flat_readI64Checked _)]

theorem good_HealthCheck {P : String} (k : K_HealthCheck P) (o : HealthCheck) : Good P (yHealthCheck o) :=
  good_map (nd_HealthCheck o) ⟨gf_opt k.keys.1 (fun _ => good_val k.keys.1 _),
    gf_opt k.keys.2.1 (fun _ => good_val k.keys.2.1 _), trivial⟩

structure K_Participant (P : String) : Prop where
  keys : Knows P ["schemaVersion", "SchemaVersion", "Description", "ParticipantName", "CanControllers", "LinControllers", "EthernetControllers", "FlexrayControllers", "FlexRayControllers", "DataPublishers", "DataSubscribers", "RpcServers", "RpcClients", "Logging", "HealthCheck", "Tracing", "Extensions", "Middleware", "Includes", "Experimental"]
  CanControllers : K_Controller (makePath P "CanControllers")
  LinControllers : K_Controller (makePath P "LinControllers")
  EthernetControllers : K_Controller (makePath P "EthernetControllers")
  FlexrayControllers : K_FlexrayController (makePath P "FlexrayControllers")
  FlexRayControllers : K_FlexrayController (makePath P "FlexRayControllers")
  DataPublishers : K_DataPublisher (makePath P "DataPublishers")
  DataSubscribers : K_DataSubscriber (makePath P "DataSubscribers")
  RpcServers : K_RpcEnd (makePath P "RpcServers")
  RpcClients : K_RpcEnd (makePath P "RpcClients")
  Logging : K_Logging (makePath P "Logging")
  HealthCheck : K_HealthCheck (makePath P "HealthCheck")
  Tracing : K_Tracing (makePath P "Tracing")
  Extensions : K_Extensions (makePath P "Extensions")
  Middleware : K_Middleware (makePath P "Middleware")
  Includes : K_Includes (makePath P "Includes")
  Experimental : K_Experimental (makePath P "Experimental")

theorem strip_Participant {P : String} (k : K_Participant P) : Blind readParticipant P := by
  intro o y
  unfold readParticipant
  have hd_FlexrayControllers := optReadDeprecated_strip (read := optRead (readVec readFlexrayController)) (P := P) (name := "FlexrayControllers") (deprecated := ["FlexRayControllers"])
    (by intro K hK; simp only [List.mem_cons, List.not_mem_nil, or_false] at hK; rcases hK with rfl | rfl <;> first | exact k.keys.2.2.2.2.2.2.2.1 | exact k.keys.2.2.2.2.2.2.2.2.1)
    (by intro K hK; simp only [List.mem_cons, List.not_mem_nil, or_false] at hK; rcases hK with rfl | rfl <;> first | exact optRead_strip k.keys.2.2.2.2.2.2.2.1 (blind_vec (strip_FlexrayController k.FlexrayControllers)) | exact optRead_strip k.keys.2.2.2.2.2.2.2.2.1 (blind_vec (strip_FlexrayController k.FlexRayControllers)))
  simp only [optRead_strip k.keys.1 (flat_readStr _),
    optRead_strip k.keys.2.1 (flat_readStr _),
    optRead_strip k.keys.2.2.1 (flat_readStr _),
    optRead_strip k.keys.2.2.2.1 (flat_readStr _),
    optRead_strip k.keys.2.2.2.2.1 (blind_vec (strip_Controller k.CanControllers)),
    optRead_strip k.keys.2.2.2.2.2.1 (blind_vec (strip_Controller k.LinControllers)),
    optRead_strip k.keys.2.2.2.2.2.2.1 (blind_vec (strip_Controller k.EthernetControllers)),
    hd_FlexrayControllers,
    optRead_strip k.keys.2.2.2.2.2.2.2.2.2.1 (blind_vec (strip_DataPublisher k.DataPublishers)),
    optRead_strip k.keys.2.2.2.2.2.2.2.2.2.2.1 (blind_vec (strip_DataSubscriber k.DataSubscribers)),
    optRead_strip k.keys.2.2.2.2.2.2.2.2.2.2.2.1 (blind_vec (strip_RpcEnd k.RpcServers)),
    optRead_strip k.keys.2.2.2.2.2.2.2.2.2.2.2.2.1 (blind_vec (strip_RpcEnd k.RpcClients)),
    optRead_strip k.keys.2.2.2.2.2.2.2.2.2.2.2.2.2.1 (strip_Logging k.Logging),
    optRead_strip k.keys.2.2.2.2.2.2.2.2.2.2.2.2.2.2.1 (strip_HealthCheck k.HealthCheck),
    optRead_strip k.keys.2.2.2.2.2.2.2.2.2.2.2.2.2.2.2.1 (strip_Tracing k.Tracing),
    optRead_strip k.keys.2.2.2.2.2.2.2.2.2.2.2.2.2.2.2.2.1 (strip_Extensions k.Extensions),
    optRead_strip k.keys.2.2.2.2.2.2.2.2.2.2.2.2.2.2.2.2.2.1 (strip_Middleware k.Middleware),
    optRead_strip k.keys.2.2.2.2.2.2.2.2.2.2.2.2.2.2.2.2.2.2.1 (strip_Includes k.Includes),
    optRead_strip k.keys.2.2.2.2.2.2.2.2.2.2.2.2.2.2.2.2.2.2.2.1 (strip_Experimental k.Experimental)]

theorem good_Participant {P : String} (k : K_Participant P) (o : Participant) : Good P (yParticipant o) :=
  good_map (nd_Participant o) ⟨gf_some k.keys.2.1 (good_val k.keys.2.1 _),
    gf_if k.keys.2.2.1 (good_val k.keys.2.2.1 _),
    gf_if k.keys.2.2.2.1 (good_val k.keys.2.2.2.1 _),
    gf_if k.keys.2.2.2.2.1 (good_seq (fun _ => good_Controller k.CanControllers _) _),
    gf_if k.keys.2.2.2.2.2.1 (good_seq (fun _ => good_Controller k.LinControllers _) _),
    gf_if k.keys.2.2.2.2.2.2.1 (good_seq (fun _ => good_Controller k.EthernetControllers _) _),
    gf_if k.keys.2.2.2.2.2.2.2.1 (good_seq (fun _ => good_FlexrayController k.FlexrayControllers _) _),
    gf_if k.keys.2.2.2.2.2.2.2.2.2.1 (good_seq (fun _ => good_DataPublisher k.DataPublishers _) _),
    gf_if k.keys.2.2.2.2.2.2.2.2.2.2.1 (good_seq (fun _ => good_DataSubscriber k.DataSubscribers _) _),
    gf_if k.keys.2.2.2.2.2.2.2.2.2.2.2.1 (good_seq (fun _ => good_RpcEnd_FunctionName k.RpcServers _) _),
    gf_if k.keys.2.2.2.2.2.2.2.2.2.2.2.2.1 (good_seq (fun _ => good_RpcEnd_Channel k.RpcClients _) _),
    gf_if k.keys.2.2.2.2.2.2.2.2.2.2.2.2.2.1 (good_Logging k.Logging _),
    gf_if k.keys.2.2.2.2.2.2.2.2.2.2.2.2.2.2.1 (good_HealthCheck k.HealthCheck _),
    gf_if k.keys.2.2.2.2.2.2.2.2.2.2.2.2.2.2.2.1 (good_Tracing k.Tracing _),
    gf_if k.keys.2.2.2.2.2.2.2.2.2.2.2.2.2.2.2.2.1 (good_Extensions k.Extensions _),
    gf_if k.keys.2.2.2.2.2.2.2.2.2.2.2.2.2.2.2.2.2.1 (good_Middleware k.Middleware _),
    gf_if k.keys.2.2.2.2.2.2.2.2.2.2.2.2.2.2.2.2.2.2.1 (good_Includes k.Includes _),
    gf_if k.keys.2.2.2.2.2.2.2.2.2.2.2.2.2.2.2.2.2.2.2.1 (good_Experimental k.Experimental _), trivial⟩

/-! ## The schema knows all keys -/

theorem k_CanControllers : K_Controller (makePath "/" "CanControllers") :=
  ⟨knows_of_idx [2, 3, 14, 4] (by decide +kernel), ⟨knows_of_idx [13, 5, 6] (by decide +kernel), ⟨knows_of_idx [7, 8, 9, 10, 11, 12] (by decide +kernel)⟩⟩⟩

theorem k_LinControllers : K_Controller (makePath "/" "LinControllers") :=
  ⟨knows_of_idx [225, 226, 237, 227] (by decide +kernel), ⟨knows_of_idx [236, 228, 229] (by decide +kernel), ⟨knows_of_idx [230, 231, 232, 233, 234, 235] (by decide +kernel)⟩⟩⟩

theorem k_EthernetControllers : K_Controller (makePath "/" "EthernetControllers") :=
  ⟨knows_of_idx [54, 55, 66, 56] (by decide +kernel), ⟨knows_of_idx [65, 57, 58] (by decide +kernel), ⟨knows_of_idx [59, 60, 61, 62, 63, 64] (by decide +kernel)⟩⟩⟩

theorem k_FlexrayControllers : K_FlexrayController (makePath "/" "FlexrayControllers") :=
  ⟨knows_of_idx [124, 126, 216, 180, 82, 128, 200] (by decide +kernel), ⟨knows_of_idx [198, 182, 184] (by decide +kernel), ⟨knows_of_idx [186, 188, 190, 192, 194, 196] (by decide +kernel)⟩⟩, ⟨knows_of_idx [84, 86, 88, 90, 92, 94, 96, 98, 100, 102, 104, 106, 108, 110, 112, 114, 116, 118, 120, 122] (by decide +kernel)⟩, ⟨knows_of_idx [130, 132, 136, 138, 140, 144, 146, 148, 150, 152, 154, 156, 158, 160, 162, 164, 166, 168, 174, 170, 172, 142, 134, 176, 178] (by decide +kernel)⟩, ⟨knows_of_idx [202, 212, 206, 210, 208, 204, 214] (by decide +kernel)⟩⟩

theorem k_FlexRayControllers : K_FlexrayController (makePath "/" "FlexRayControllers") :=
  ⟨knows_of_idx [125, 127, 217, 181, 83, 129, 201] (by decide +kernel), ⟨knows_of_idx [199, 183, 185] (by decide +kernel), ⟨knows_of_idx [187, 189, 191, 193, 195, 197] (by decide +kernel)⟩⟩, ⟨knows_of_idx [85, 87, 89, 91, 93, 95, 97, 99, 101, 103, 105, 107, 109, 111, 113, 115, 117, 119, 121, 123] (by decide +kernel)⟩, ⟨knows_of_idx [131, 133, 137, 139, 141, 145, 147, 149, 151, 153, 155, 157, 159, 161, 163, 165, 167, 169, 175, 171, 173, 143, 135, 177, 179] (by decide +kernel)⟩, ⟨knows_of_idx [203, 213, 207, 211, 209, 205, 215] (by decide +kernel)⟩⟩

theorem k_DataPublishers : K_DataPublisher (makePath "/" "DataPublishers") :=
  ⟨knows_of_idx [20, 31, 16, 32, 33, 21] (by decide +kernel), ⟨knows_of_idx [17, 19, 18] (by decide +kernel)⟩, ⟨knows_of_idx [30, 22, 23] (by decide +kernel), ⟨knows_of_idx [24, 25, 26, 27, 28, 29] (by decide +kernel)⟩⟩⟩

theorem k_DataSubscribers : K_DataSubscriber (makePath "/" "DataSubscribers") :=
  ⟨knows_of_idx [39, 50, 35, 51, 40] (by decide +kernel), ⟨knows_of_idx [36, 38, 37] (by decide +kernel)⟩, ⟨knows_of_idx [49, 41, 42] (by decide +kernel), ⟨knows_of_idx [43, 44, 45, 46, 47, 48] (by decide +kernel)⟩⟩⟩

theorem k_RpcServers : K_RpcEnd (makePath "/" "RpcServers") :=
  ⟨knows_of_idx [290, 284, 283, 285, 286, 301, 291] (by decide +kernel), ⟨knows_of_idx [287, 289, 288] (by decide +kernel)⟩, ⟨knows_of_idx [300, 292, 293] (by decide +kernel), ⟨knows_of_idx [294, 295, 296, 297, 298, 299] (by decide +kernel)⟩⟩⟩

theorem k_RpcClients : K_RpcEnd (makePath "/" "RpcClients") :=
  ⟨knows_of_idx [270, 264, 263, 265, 266, 281, 271] (by decide +kernel), ⟨knows_of_idx [267, 269, 268] (by decide +kernel)⟩, ⟨knows_of_idx [280, 272, 273] (by decide +kernel), ⟨knows_of_idx [274, 275, 276, 277, 278, 279] (by decide +kernel)⟩⟩⟩

theorem k_Logging : K_Logging (makePath "/" "Logging") :=
  ⟨knows_of_idx [240, 239, 241] (by decide +kernel), ⟨knows_of_idx [245, 243, 242, 246, 244] (by decide +kernel), ⟨knows_of_idx [248, 247] (by decide +kernel)⟩⟩⟩

theorem k_HealthCheck : K_HealthCheck (makePath "/" "HealthCheck") :=
  ⟨knows_of_idx [220, 219] (by decide +kernel)⟩

theorem k_Tracing : K_Tracing (makePath "/" "Tracing") :=
  ⟨knows_of_idx [305, 309] (by decide +kernel), ⟨knows_of_idx [306, 308, 307] (by decide +kernel)⟩, ⟨knows_of_idx [311, 312, 310] (by decide +kernel)⟩⟩

theorem k_Extensions : K_Extensions (makePath "/" "Extensions") :=
  ⟨knows_of_idx [79] (by decide +kernel)⟩

theorem k_Middleware : K_Middleware (makePath "/" "Middleware") :=
  ⟨knows_of_idx [256, 251, 257, 258, 259, 260, 253, 250, 255, 254, 252] (by decide +kernel)⟩

theorem k_Includes : K_Includes (makePath "/" "Includes") :=
  ⟨knows_of_idx [222, 223] (by decide +kernel)⟩

theorem k_Experimental : K_Experimental (makePath "/" "Experimental") :=
  ⟨knows_of_idx [74, 68] (by decide +kernel), ⟨knows_of_idx [75, 77, 76] (by decide +kernel)⟩, ⟨knows_of_idx [70, 69, 73] (by decide +kernel), ⟨knows_of_idx [72, 71] (by decide +kernel)⟩⟩⟩

theorem k_Participant : K_Participant "/" :=
  ⟨knows_of_idx [302, 303, 52, 261, 1, 224, 53, 80, 81, 15, 34, 282, 262, 238, 218, 304, 78, 249, 221, 67] (by decide +kernel), k_CanControllers, k_LinControllers, k_EthernetControllers, k_FlexrayControllers, k_FlexRayControllers, k_DataPublishers, k_DataSubscribers, k_RpcServers, k_RpcClients, k_Logging, k_HealthCheck, k_Tracing, k_Extensions, k_Middleware, k_Includes, k_Experimental⟩

end SilKit.ConfigText
