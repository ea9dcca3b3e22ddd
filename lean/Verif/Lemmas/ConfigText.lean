import Verif.Spec.ConfigText
/-! # Lemmas: writing and reading configurations -/
namespace SilKit.ConfigText

/-! ## Numbers -/

theorem textNat_natText (n : Nat) : textNat (natText n) = some n := by
  unfold textNat natText digitsVal
  rw [String.toList_ofList, if_pos, Nat.ofDigitChars_toDigits (by decide) (by decide)]
  refine ⟨Nat.toDigits_ne_nil, ?_⟩
  rw [List.all_eq_true]
  exact fun c hc => Nat.isDigit_of_mem_toDigits (by decide) (by decide) hc

theorem digits_val (n : Nat) : digitsVal (Nat.toDigits 10 n) = some n := by
  have := textNat_natText n
  unfold textNat natText at this
  rwa [String.toList_ofList] at this

theorem textInt_intText (i : Int) : textInt (intText i) = some i := by
  unfold intText
  by_cases h : i < 0
  · rw [if_pos h]
    unfold textInt
    rw [String.toList_ofList]
    simp only [digits_val, Option.map_some, Option.some.injEq]
    omega
  · rw [if_neg h]
    unfold textInt natText
    rw [String.toList_ofList]
    split
    · next l e =>
      have : '-' ∈ Nat.toDigits 10 i.natAbs := by rw [e]; exact List.mem_cons_self
      have := Nat.isDigit_of_mem_toDigits (by decide) (by decide) this
      exact absurd this (by decide)
    · next l _ =>
      simp only [digits_val, Option.map_some, Option.some.injEq]
      omega

theorem textBool_boolText (b : Bool) : textBool (boolText b) = some b := by cases b <;> decide +kernel

@[simp] theorem rd_u8 (o : UInt8) (v : UInt8) : readU8 o (.val (natText v.toNat)) = .ok v := by
  simp [readU8, readNat, textNat_natText]
@[simp] theorem rd_u16 (o : UInt16) (v : UInt16) : readU16 o (.val (natText v.toNat)) = .ok v := by
  simp [readU16, readNat, textNat_natText]
@[simp] theorem rd_u64 (o : UInt64) (v : UInt64) : readU64 o (.val (natText v.toNat)) = .ok v := by
  simp [readU64, readNat, textNat_natText]
@[simp] theorem rd_u8c (o : UInt8) (v : UInt8) : readU8Checked o (.val (natText v.toNat)) = .ok v := by
  have := v.toNat_lt
  simp [readU8Checked, readNatChecked, textNat_natText, UInt8.size]; omega
@[simp] theorem rd_u16c (o : UInt16) (v : UInt16) : readU16Checked o (.val (natText v.toNat)) = .ok v := by
  have := v.toNat_lt
  simp [readU16Checked, readNatChecked, textNat_natText, UInt16.size]; omega
@[simp] theorem rd_i32 (o : Int32) (v : Int32) : readI32 o (.val (intText v.toInt)) = .ok v := by
  simp [readI32, textInt_intText]
@[simp] theorem rd_i32c (o : Int32) (v : Int32) : readI32Checked o (.val (intText v.toInt)) = .ok v := by
  have h1 := v.minValue_le_toInt
  have h2 := v.toInt_le
  simp only [readI32Checked, textInt_intText, Int32.ofInt_toInt]
  rw [if_pos]
  exact ⟨h1, h2⟩
@[simp] theorem rd_i64c (o : Int64) (v : Int64) : readI64Checked o (.val (intText v.toInt)) = .ok v := by
  have h1 := v.minValue_le_toInt
  have h2 := v.toInt_le
  simp only [readI64Checked, textInt_intText, Int64.ofInt_toInt]
  rw [if_pos]
  exact ⟨h1, h2⟩
@[simp] theorem rd_bool (o : Bool) (v : Bool) : readBool o (.val (boolText v)) = .ok v := by
  simp [readBool, textBool_boolText]
@[simp] theorem rd_str (o : String) (v : String) : readStr o (.val v) = .ok v := rfl

/-! ## Writing -/

/-- The entries of a map, with those that are not written. -/
abbrev Fields := List (String × Option Yaml)

def entry (f : String × Option Yaml) : List (String × Yaml) := match f.2 with | some y => [(f.1, y)] | none => []

def entries (fs : Fields) : List (String × Yaml) := fs.flatMap entry

def Emits (w : W) (f : String × Option Yaml) : Prop := ∀ acc, w (.map acc) = .ok (.map (acc ++ entry f))

def EmitsAll : List W → Fields → Prop
  | [], [] => True
  | w :: ws, f :: fs => Emits w f ∧ EmitsAll ws fs
  | _, _ => False

theorem block_cons (w : W) (ws : List W) (n : Yaml) : block (w :: ws) n = (w n >>= block ws) := rfl

theorem block_emits {ws : List W} {fs : Fields} (h : EmitsAll ws fs) (acc : List (String × Yaml)) : block ws (.map acc) = .ok (.map (acc ++ entries fs)) := by
  induction ws generalizing fs acc with
  | nil =>
    cases fs with
    | nil => simp [block, entries]
    | cons f fs => exact absurd h (by simp [EmitsAll])
  | cons w ws ih =>
    cases fs with
    | nil => exact absurd h (by simp [EmitsAll])
    | cons f fs =>
      rw [block_cons, h.1 acc, Res.bind_ok, ih h.2, entries, entries, List.flatMap_cons, List.append_assoc]

theorem block_map {ws : List W} {fs : Fields} (h : EmitsAll ws fs) : block (makeMap :: ws) .none = .ok (.map (entries fs)) := by
  rw [block_cons]
  show block ws (.map []) = _
  rw [block_emits h, List.nil_append]

theorem emits_key {w : W} {y : Yaml} {name : String} (h : w .none = .ok y) : Emits (writeKey name w) (name, some y) := by
  intro acc
  simp [writeKey, h, entry]

theorem emits_skip {name : String} : Emits skip (name, none) := by
  intro acc
  simp [skip, entry]

theorem emits_opt {T : Type} {w : T → W} {f : T → Yaml} {name : String} (h : ∀ x, w x .none = .ok (f x)) (v : Option T) :
    Emits (optWrite v name w) (name, v.map f) := by
  cases v with
  | none => exact emits_skip
  | some x => exact emits_key (h x)

theorem writeVec_ok {T : Type} {w : T → W} {f : T → Yaml} (h : ∀ x, w x .none = .ok (f x)) (l : List T) (n : Yaml) :
    writeVec w l n = .ok (.seq (l.map f)) := by
  have : writeAll w l = .ok (l.map f) := by
    induction l with
    | nil => rfl
    | cons x l ih => simp [writeAll, h x, ih]
  simp [writeVec, this]

theorem emits_vec {T : Type} {w : T → W} {f : T → Yaml} {name : String} (h : ∀ x, w x .none = .ok (f x)) (v : List T) :
    Emits (optWriteVec v name w) (name, if v.isEmpty then none else some (.seq (v.map f))) := by
  unfold optWriteVec
  split
  · exact emits_skip
  · exact emits_key (writeVec_ok h v _)

theorem emits_str {name : String} (v : String) : Emits (optWriteStr v name) (name, if v = "" then none else some (.val v)) := by
  unfold optWriteStr
  split
  · exact emits_skip
  · exact emits_key rfl

theorem emits_nonDefault {w : W} {y : Yaml} {name : String} (same : Bool) (h : w .none = .ok y) :
    Emits (nonDefault same name w) (name, if same then none else some y) := by
  unfold nonDefault
  split
  · exact emits_skip
  · exact emits_key h

/-! ## Reading what was written -/

def get : Fields → String → Option Yaml
  | [], _ => none
  | (k, o) :: fs, name => if name = k then o else get fs name

theorem get_absent {fs : Fields} {name : String} (h : name ∉ fs.map Prod.fst) : (entries fs).lookup name = none := by
  induction fs with
  | nil => rfl
  | cons f fs ih =>
    rw [List.map_cons, List.mem_cons, not_or] at h
    obtain ⟨k, o⟩ := f
    rw [entries, List.flatMap_cons]
    cases o with
    | none => exact ih h.2
    | some y =>
      show List.lookup name ((k, y) :: entries fs) = _
      have e : (name == k) = false := by simpa using h.1
      rw [List.lookup_cons, e]
      exact ih h.2

theorem lookup_entries {fs : Fields} (h : (fs.map Prod.fst).Nodup) (name : String) : (entries fs).lookup name = get fs name := by
  induction fs with
  | nil => rfl
  | cons f fs ih =>
    obtain ⟨k, o⟩ := f
    rw [List.map_cons, List.nodup_cons] at h
    unfold get
    split
    · next e =>
      subst e
      cases o with
      | none => exact get_absent (fs := fs) h.1
      | some y =>
        show List.lookup _ ((_, y) :: entries fs) = _
        simp
    · next e =>
      rw [← ih h.2]
      cases o with
      | none => rfl
      | some y =>
        show List.lookup _ ((_, y) :: entries fs) = _
        have e : (name == k) = false := by simpa using e
        rw [List.lookup_cons, e]

/-- Read an entry that may be missing. -/
def orOld {T : Type} (r : Rd T) (old : T) : Option Yaml → Res T
  | some c => r old c
  | none => .ok old

def orOldOpt {T : Type} [Inhabited T] (r : Rd T) (old : Option T) : Option Yaml → Res (Option T)
  | some c => r default c >>= fun v => .ok (some v)
  | none => .ok old

theorem optRead_map {T : Type} (r : Rd T) (old : T) (l : List (String × Yaml)) (name : String) : optRead r old (.map l) name = orOld r old (l.lookup name) := by
  unfold optRead child orOld
  simp only [Res.bind_ok]
  cases l.lookup name <;> rfl

theorem optReadInt_map {T : Type} (r : Rd T) (old : T) (l : List (String × Yaml)) (name : String) :
    optReadInt r old (.map l) name = orOld r old (l.lookup name) := by
  unfold optReadInt orOld
  simp only
  cases l.lookup name <;> rfl

theorem optReadOpt_map {T : Type} [Inhabited T] (r : Rd T) (old : Option T) (l : List (String × Yaml)) (name : String) :
    optReadOpt r old (.map l) name = orOldOpt r old (l.lookup name) := by
  unfold optReadOpt child orOldOpt
  simp only [Res.bind_ok]
  cases l.lookup name <;> rfl

def orMissing {T : Type} (r : Rd T) (old : T) : Option Yaml → Res T
  | some c => r old c
  | none => .throw "missing key"

theorem readKey_map {T : Type} (r : Rd T) (old : T) (l : List (String × Yaml)) (name : String) :
    readKey r old (.map l) name = orMissing r old (l.lookup name) := by
  unfold readKey child orMissing
  simp only [Res.bind_ok]
  cases l.lookup name <;> rfl

theorem orMissing_some {T : Type} (r : Rd T) (old : T) (c : Yaml) : orMissing r old (some c) = r old c := rfl

theorem orOld_some {T : Type} (r : Rd T) (old : T) (c : Yaml) : orOld r old (some c) = r old c := rfl
theorem orOld_none {T : Type} (r : Rd T) (old : T) : orOld r old none = .ok old := rfl

theorem orOld_nonDefault {T : Type} [DecidableEq T] (r : Rd T) (d v : T) (y : Yaml) (h : r d y = .ok v) :
    orOld r d (if decide (v = d) then none else some y) = .ok v := by
  by_cases e : v = d
  · subst e; simp [orOld]
  · simp [e, orOld, h]

theorem orOldOpt_map {T : Type} [Inhabited T] (r : Rd T) (f : T → Yaml) (v : Option T) (h : ∀ x, r default (f x) = .ok x) :
    orOldOpt r none (v.map f) = .ok v := by
  cases v with
  | none => rfl
  | some x => simp [orOldOpt, h]

theorem readAll_map {T : Type} [Inhabited T] {r : Rd T} {f : T → Yaml} {g : T → T} {l : List T} (h : ∀ x ∈ l, r default (f x) = .ok (g x)) :
    readAll r (l.map f) = .ok (l.map g) := by
  induction l with
  | nil => rfl
  | cons x l ih =>
    simp only [List.map_cons, readAll, h x List.mem_cons_self, Res.bind_ok, ih (fun y hy => h y (List.mem_cons_of_mem _ hy)), Res.pure_eq]

theorem readVec_map {T : Type} [Inhabited T] {r : Rd T} {f : T → Yaml} {g : T → T} {l : List T} (h : ∀ x ∈ l, r default (f x) = .ok (g x)) :
    readVec r [] (.seq (l.map f)) = .ok (l.map g) := by
  simp [readVec, readAll_map h]

theorem readVec_id {T : Type} [Inhabited T] {r : Rd T} {f : T → Yaml} {l : List T} (h : ∀ x, r default (f x) = .ok x) :
    readVec r [] (.seq (l.map f)) = .ok l := by
  have := readVec_map (r := r) (f := f) (g := id) (l := l) (fun x _ => h x)
  simpa using this

theorem orOld_vec {T : Type} [Inhabited T] {r : Rd T} {f : T → Yaml} {g : T → T} {l : List T} (h : ∀ x ∈ l, r default (f x) = .ok (g x)) :
    orOld (readVec r) [] (if l.isEmpty then none else some (.seq (l.map f))) = .ok (l.map g) := by
  cases l with
  | nil => rfl
  | cons x l => exact readVec_map h

theorem orOld_vecId {T : Type} [Inhabited T] {r : Rd T} {f : T → Yaml} {l : List T} (h : ∀ x, r default (f x) = .ok x) :
    orOld (readVec r) [] (if l.isEmpty then none else some (.seq (l.map f))) = .ok l := by
  have := orOld_vec (r := r) (f := f) (g := id) (l := l) (fun x _ => h x)
  simpa using this

end SilKit.ConfigText
