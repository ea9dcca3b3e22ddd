import Verif.Lemmas.BitSerdes
/-!
# Every call on the serializer is undone by the same call on the deserializer
-/
namespace SilKit.BitSerdes
open MessageBuffer Spec

/-! ## two's complement -/

theorem ofNat_shift_unsigned {w m x : Nat} (hm : m ≤ w) (hx : x < 2 ^ m) :
    ((BitVec.ofNat w x) <<< (w - m)) >>> (w - m) = BitVec.ofNat w x := by
  apply BitVec.eq_of_toNat_eq
  have hxw : x < 2 ^ w := Nat.lt_of_lt_of_le hx (Nat.pow_le_pow_right (by decide) hm)
  have hx2 : x * 2 ^ (w - m) < 2 ^ w := by
    calc x * 2 ^ (w - m) < 2 ^ m * 2 ^ (w - m) := Nat.mul_lt_mul_of_pos_right hx (Nat.two_pow_pos _)
      _ = 2 ^ w := by rw [← Nat.pow_add]; congr 1; omega
  simp only [BitVec.toNat_ushiftRight, BitVec.toNat_shiftLeft, BitVec.toNat_ofNat, Nat.shiftLeft_eq,
    Nat.shiftRight_eq_div_pow, Nat.mod_eq_of_lt hxw, Nat.mod_eq_of_lt hx2]
  exact Nat.mul_div_cancel _ (Nat.two_pow_pos _)

theorem toNat_ofInt_mod {w m : Nat} (hm : m ≤ w) (v : Int) :
    (((BitVec.ofInt w v).toNat % 2 ^ m : Nat) : Int) = v % (2 ^ m : Nat) := by
  rw [BitVec.toNat_ofInt]
  have hnn : (0 : Int) ≤ v % ((2 ^ w : Nat) : Int) := Int.emod_nonneg _ (by have := Nat.two_pow_pos w; omega)
  rw [Int.natCast_emod, Int.toNat_of_nonneg hnn]
  apply Int.emod_emod_of_dvd
  exact Int.natCast_dvd_natCast.mpr (Nat.pow_dvd_pow 2 hm)

theorem ofNat_shift_signed {w m : Nat} (h0 : 1 ≤ m) (hm : m ≤ w) (v : Int)
    (h1 : -(2 : Int) ^ (m - 1) ≤ v) (h2 : v < 2 ^ (m - 1)) :
    (((BitVec.ofNat w ((BitVec.ofInt w v).toNat % 2 ^ m)) <<< (w - m)).sshiftRight (w - m)).toInt = v := by
  generalize hx : (BitVec.ofInt w v).toNat % 2 ^ m = x
  have hxv : (x : Int) = v % (2 ^ m : Nat) := by rw [← hx]; exact toNat_ofInt_mod hm v
  have hxm : x < 2 ^ m := by rw [← hx]; exact Nat.mod_lt _ (Nat.two_pow_pos _)
  have hxw : x < 2 ^ w := Nat.lt_of_lt_of_le hxm (Nat.pow_le_pow_right (by decide) hm)
  rw [BitVec.toInt_sshiftRight, BitVec.toInt_shiftLeft, BitVec.toNat_ofNat, Nat.mod_eq_of_lt hxw]
  rw [Nat.shiftLeft_eq]
  have e : ((2 ^ w : Nat) : Int) = 2 ^ (w - m) * 2 ^ m := by
    push_cast
    rw [← Int.pow_add]
    congr 1
    omega
  have hdvd : ((2 ^ w : Nat) : Int) ∣ ((x * 2 ^ (w - m) : Nat) : Int) - v * 2 ^ (w - m) := by
    have : ((2 ^ m : Nat) : Int) ∣ (x : Int) - v := by
      rw [hxv]
      refine ⟨-(v / (2 ^ m : Nat)), ?_⟩
      have := Int.emod_add_mul_ediv v ((2 ^ m : Nat) : Int)
      rw [Int.mul_neg]
      omega
    obtain ⟨c, hc⟩ := this
    refine ⟨c, ?_⟩
    rw [e]
    push_cast
    rw [← Int.sub_mul, hc]
    push_cast
    rw [Int.mul_assoc, Int.mul_comm c, ← Int.mul_assoc, Int.mul_comm ((2 : Int) ^ m)]
  have hb : Int.bmod ((x * 2 ^ (w - m) : Nat) : Int) (2 ^ w) = v * 2 ^ (w - m) := by
    have hbm : Int.bmod ((x * 2 ^ (w - m) : Nat) : Int) (2 ^ w) = Int.bmod (v * 2 ^ (w - m)) (2 ^ w) := by
      obtain ⟨c, hc⟩ := hdvd
      rw [show ((x * 2 ^ (w - m) : Nat) : Int) = v * 2 ^ (w - m) + ((2 ^ w : Nat) : Int) * c by omega]
      exact Int.add_mul_bmod_self_left ..
    rw [hbm]
    have hp : (0 : Int) < 2 ^ (w - m) := by exact_mod_cast Nat.two_pow_pos (w - m)
    have e2 : ((2 ^ w : Nat) : Int) = 2 * (2 ^ (m - 1) * 2 ^ (w - m)) := by
      push_cast
      rw [← Int.pow_add, show w = (m - 1 + (w - m)) + 1 by omega, Int.pow_succ, Int.mul_comm]
      congr 2; congr 1; omega
    apply Int.bmod_eq_of_le
    · have : -(2 ^ (m - 1) * 2 ^ (w - m)) ≤ v * 2 ^ (w - m) := by
        rw [← Int.neg_mul]
        exact Int.mul_le_mul_of_nonneg_right h1 (Int.le_of_lt hp)
      omega
    · have : v * 2 ^ (w - m) < 2 ^ (m - 1) * 2 ^ (w - m) := Int.mul_lt_mul_of_pos_right h2 hp
      omega
  rw [hb, Int.shiftRight_eq_div_pow]
  push_cast
  have hp : (2 : Int) ^ (w - m) ≠ 0 := by
    have : (0 : Int) < 2 ^ (w - m) := by exact_mod_cast Nat.two_pow_pos (w - m)
    omega
  exact Int.mul_ediv_cancel _ hp

theorem leVal_inj {a : List UInt8} : ∀ {b : List UInt8}, a.length = b.length → leVal a = leVal b → a = b := by
  induction a with
  | nil => intro b h _; cases b with
    | nil => rfl
    | cons => simp at h
  | cons x a ih =>
    intro b h hv
    cases b with
    | nil => simp at h
    | cons y b =>
      simp only [leVal] at hv
      have hx : x.toNat < 256 := x.toNat_lt
      have hy : y.toNat < 256 := y.toNat_lt
      have hxy : x = y := UInt8.toNat_inj.mp (by omega)
      rw [hxy, ih (by simpa using h) (by omega)]

/-! ## one call -/

/-- `s'` is reached from `s` by writing something that `rd` reads back as `x`. -/
def Undone {α : Type} (s s' : Ser) (rd : Des → Res (α × Des)) (x : α) : Prop :=
  s'.Inv ∧ s.Ext s' ∧
  ∀ d : Des, d.At s.len → leVal d.buffer % 2 ^ s'.len = s'.val → s'.len ≤ 8 * d.buffer.length →
    ∃ d', rd d = .ok (x, d') ∧ d'.buffer = d.buffer ∧ d'.At s'.len

theorem aligned_roundtrip {s : Ser} (h : s.Inv) (w v n : Nat) (h0 : 0 < n) (hn : n ≤ w / 8) :
    ∃ s', s.aligned w v n = .ok s' ∧ s'.Inv ∧ s.Ext s' ∧ s'.unalignedBits = 0 ∧
    ∀ d : Des, d.At s.len → leVal d.buffer % 2 ^ s'.len = s'.val → s'.len ≤ 8 * d.buffer.length →
      ∃ bytes d', d.alignedRaw w n = .ok (bytes, d') ∧ leVal bytes = v % 2 ^ (8 * n) ∧ d'.buffer = d.buffer ∧
        d'.At s'.len ∧ d'.unalignedBits = 0 := by
  obtain ⟨s', e1, e2, e3, e4, e5⟩ := Ser.aligned_spec h w v n h0 hn
  obtain ⟨a1, a2, a3, a4, _⟩ := Ser.align_spec h
  refine ⟨s', e1, e2, Ser.ext_trans (Ser.align_ext h) (Ser.ext_add a1 e5 e4), e3, ?_⟩
  intro d hd hM hcap
  obtain ⟨bytes, d', f1, f2, f3, f4, f5, f6⟩ := Des.alignedRaw_spec hd w n h0 hn (by omega)
  refine ⟨bytes, d', f1, ?_, f4, by rw [e5, a3]; exact f5, f6⟩
  rw [f3, ← a3, field_of_mod hM _ _ (by omega), Ser.field_add a1 e4 (Nat.mod_lt _ (Nat.two_pow_pos _))]

theorem alignedU_roundtrip {s : Ser} (h : s.Inv) (w v n : Nat) (h0 : 0 < n) (hn : n ≤ w / 8) :
    ∃ s', s.aligned w v n = .ok s' ∧ s'.unalignedBits = 0 ∧
      Undone s s' (fun d => d.alignedU w n) (BitVec.ofNat w (v % 2 ^ (8 * n))) := by
  obtain ⟨s', e1, e2, e3, e4, e5⟩ := aligned_roundtrip h w v n h0 hn
  refine ⟨s', e1, e4, e2, e3, ?_⟩
  intro d hd hM hcap
  obtain ⟨bytes, d', f1, f2, f3, f4, _⟩ := e5 d hd hM hcap
  refine ⟨d', ?_, f3, f4⟩
  simp only [Des.alignedU, f1, f2]
  rw [ofNat_shift_unsigned (by omega) (Nat.mod_lt _ (Nat.two_pow_pos _))]

theorem uint_roundtrip {s : Ser} (h : s.Inv) {w n v : Nat} (hw : IntWidth w) (h0 : 1 ≤ n) (hn : n ≤ w) (hv : v < 2 ^ n) :
    ∃ s', s.uint w (BitVec.ofNat w v) n = .ok s' ∧ Undone s s' (fun d => d.uint w n) (BitVec.ofNat w v) := by
  have hvw : v < 2 ^ w := Nat.lt_of_lt_of_le hv (Nat.pow_le_pow_right (by decide) hn)
  have htn : (BitVec.ofNat w v).toNat = v := by rw [BitVec.toNat_ofNat, Nat.mod_eq_of_lt hvw]
  unfold Ser.uint Des.uint
  rw [htn]
  by_cases h8 : n % 8 ≠ 0
  · rw [if_pos h8]
    obtain ⟨s', e1, e2, e3, e4⟩ := Ser.unaligned_spec h w v n (by omega) hn hw h8 hv
    refine ⟨s', e1, e2, Ser.ext_add h e4 e3, ?_⟩
    intro d hd hM hcap
    obtain ⟨d', f1, f2, f3⟩ := Des.unaligned_spec hd w n hw (by omega) hn h8 (by omega)
    refine ⟨d', ?_, f2, by rw [e4]; exact f3⟩
    simp only [if_pos h8, f1]
    rw [field_of_mod hM _ _ (by omega), Ser.field_add h e3 hv]
  · rw [if_neg h8]
    obtain ⟨s', e1, e2, e3⟩ := alignedU_roundtrip h w v (n / 8) (by omega) (by omega)
    refine ⟨s', e1, ?_⟩
    rw [show 8 * (n / 8) = n by omega, Nat.mod_eq_of_lt hv] at e3
    simp only [if_neg h8]
    exact e3

theorem sint_roundtrip {s : Ser} (h : s.Inv) {w n : Nat} {v : Int} (hw : IntWidth w) (h0 : 1 ≤ n) (hn : n ≤ w)
    (h1 : -(2 : Int) ^ (n - 1) ≤ v) (h2 : v < 2 ^ (n - 1)) :
    ∃ s' r, s.sint w (BitVec.ofInt w v) n = .ok s' ∧ r.toInt = v ∧ Undone s s' (fun d => d.sint w n) r := by
  unfold Ser.sint Des.sint
  by_cases h8 : n % 8 ≠ 0
  · rw [if_pos h8]
    unfold Ser.unalignedS
    have hval : (if n < w then (BitVec.ofInt w v).toNat &&& (2 ^ n - 1) else (BitVec.ofInt w v).toNat) =
        (BitVec.ofInt w v).toNat % 2 ^ n := by
      split
      · rw [and_mask]
      · rw [show n = w by omega, Nat.mod_eq_of_lt (BitVec.isLt _)]
    rw [hval]
    have hlt : (BitVec.ofInt w v).toNat % 2 ^ n < 2 ^ n := Nat.mod_lt _ (Nat.two_pow_pos _)
    obtain ⟨s', e1, e2, e3, e4⟩ := Ser.unaligned_spec h w _ n (by omega) hn hw h8 hlt
    refine ⟨s', _, e1, ofNat_shift_signed h0 hn v h1 h2, e2, Ser.ext_add h e4 e3, ?_⟩
    intro d hd hM hcap
    obtain ⟨d', f1, f2, f3⟩ := Des.unaligned_spec hd w n hw (by omega) hn h8 (by omega)
    refine ⟨d', ?_, f2, by rw [e4]; exact f3⟩
    simp only [if_pos h8, Des.unalignedS, f1]
    rw [field_of_mod hM _ _ (by omega), Ser.field_add h e3 hlt]
  · rw [if_neg h8]
    obtain ⟨s', e1, e2, e3, e4, e5⟩ := aligned_roundtrip h w (BitVec.ofInt w v).toNat (n / 8) (by omega) (by omega)
    refine ⟨s', _, e1, ofNat_shift_signed h0 hn v h1 h2, e2, e3, ?_⟩
    intro d hd hM hcap
    obtain ⟨bytes, d', f1, f2, f3, f4, _⟩ := e5 d hd hM hcap
    refine ⟨d', ?_, f3, f4⟩
    simp only [if_neg h8, Des.alignedS, f1, f2]
    rw [show 8 * (n / 8) = n by omega]

theorem bool_roundtrip {s : Ser} (h : s.Inv) (b : Bool) :
    ∃ s', s.bool b = .ok s' ∧ Undone s s' Des.bool b := by
  obtain ⟨s', e1, _, e2, e3, e4⟩ := alignedU_roundtrip h 8 (if b then 1 else 0) 1 (by omega) (by omega)
  refine ⟨s', e1, e2, e3, ?_⟩
  intro d hd hM hcap
  obtain ⟨d', f1, f2, f3⟩ := e4 d hd hM hcap
  refine ⟨d', ?_, f2, f3⟩
  simp only [Des.bool, f1]
  cases b <;> rfl

/-- Raw bytes after an aligned position. -/
theorem raw_roundtrip {s : Ser} (h : s.Inv) (h0 : s.unalignedBits = 0) (bytes : List UInt8) :
    (s.raw bytes).Inv ∧ s.Ext (s.raw bytes) ∧
    ∀ d : Des, d.At s.len → d.unalignedBits = 0 → leVal d.buffer % 2 ^ (s.raw bytes).len = (s.raw bytes).val →
      (s.raw bytes).len ≤ 8 * d.buffer.length →
      ∃ d', d.take bytes.length = .ok (bytes, d') ∧ d'.buffer = d.buffer ∧ d'.At (s.raw bytes).len := by
  obtain ⟨r1, r2, r3, r4⟩ := Ser.raw_spec h h0 bytes
  refine ⟨r1, Ser.ext_add h r4 r3, ?_⟩
  intro d hd hb hM hcap
  obtain ⟨d', f1, f2, f3, _⟩ := Des.take_spec hd hb bytes.length (by omega)
  have hpos := hd.pos
  have hlen : ((d.buffer.drop d.readPos).take bytes.length).length = bytes.length := by
    simp; omega
  have heq : (d.buffer.drop d.readPos).take bytes.length = bytes := by
    apply leVal_inj hlen
    rw [leVal_fetch _ _ _ (by omega), hpos, hb, Nat.add_zero, field_of_mod hM _ _ (by omega),
      Ser.field_add h r3 (leVal_lt2 bytes)]
  rw [heq] at f1
  exact ⟨d', f1, f2, by rw [r4]; exact f3⟩

theorem float_roundtrip {s : Ser} (h : s.Inv) (raw : List UInt8) :
    ∃ s', s.float raw = .ok s' ∧ Undone s s' (fun d => d.float raw.length) raw := by
  obtain ⟨a1, a2, a3, a4, _⟩ := Ser.align_spec h
  obtain ⟨r1, r2, r3⟩ := raw_roundtrip a1 a4 raw
  refine ⟨_, rfl, r1, Ser.ext_trans (Ser.align_ext h) r2, ?_⟩
  intro d hd hM hcap
  have hda := Des.align_at hd
  rw [← a3] at hda
  obtain ⟨d', f1, f2, f3⟩ := r3 d.align hda rfl hM hcap
  exact ⟨d', f1, f2, f3⟩

theorem bytes_roundtrip {s : Ser} (h : s.Inv) (str : List UInt8) (hl : str.length < 2 ^ 32) :
    ∃ s', s.bytes str = .ok s' ∧ Undone s s' Des.bytes str := by
  obtain ⟨s1, e1, e2, e3, e4, e5⟩ := aligned_roundtrip h 32 (str.length % 2 ^ 32) 4 (by omega) (by omega)
  obtain ⟨r1, r2, r3⟩ := raw_roundtrip e2 e4 str
  refine ⟨s1.raw str, by simp only [Ser.bytes, e1], r1, Ser.ext_trans e3 r2, ?_⟩
  intro d hd hM hcap
  have hM1 : leVal d.buffer % 2 ^ s1.len = s1.val := by
    rw [← r2.2, ← hM, Nat.mod_mod_of_dvd _ (Nat.pow_dvd_pow 2 r2.1)]
  have hcap1 : s1.len ≤ 8 * d.buffer.length := Nat.le_trans r2.1 hcap
  obtain ⟨bytes, d1, f1, f2, f3, f4, f5⟩ := e5 d hd hM1 hcap1
  rw [← f3] at hM hcap
  obtain ⟨d', g1, g2, g3⟩ := r3 d1 f4 f5 hM hcap
  refine ⟨d', ?_, by rw [g2, f3], g3⟩
  simp only [Des.bytes, Des.alignedU, f1, f2]
  rw [ofNat_shift_unsigned (by omega) (Nat.mod_lt _ (Nat.two_pow_pos _)), BitVec.toNat_ofNat]
  rw [show str.length % 2 ^ 32 % 2 ^ (8 * 4) % 2 ^ 32 = str.length by omega]
  exact g1

theorem undone_readAs {α : Type} {s s' : Ser} {rd : Des → Res (α × Des)} {x : α} (h : Undone s s' rd x)
    (f : α → Item) : Undone s s' (fun d => readAs f (rd d)) (f x) := by
  refine ⟨h.1, h.2.1, ?_⟩
  intro d hd hM hcap
  obtain ⟨d', e1, e2, e3⟩ := h.2.2 d hd hM hcap
  exact ⟨d', by simp only [e1, readAs], e2, e3⟩

theorem undone_id {s : Ser} (h : s.Inv) (i : Item) : Undone s s (fun d => .ok (i, d)) i :=
  ⟨h, Ser.ext_refl h, fun d hd _ _ => ⟨d, rfl, rfl, hd⟩⟩

/-- Every call is undone by the corresponding call of the reader. -/
theorem item_roundtrip {s : Ser} (h : s.Inv) (i : Item) (hr : i.InRange) :
    ∃ s', i.write s = .ok s' ∧ Undone s s' (fun d => i.shape.read d) i := by
  cases i with
  | uint w n v =>
    obtain ⟨h1, h2, h3, h4⟩ := hr
    obtain ⟨s', e1, e2⟩ := uint_roundtrip h h1 h2 h3 h4
    refine ⟨s', e1, ?_⟩
    have := undone_readAs e2 (fun v : BitVec w => .uint w n v.toNat)
    rw [BitVec.toNat_ofNat, Nat.mod_eq_of_lt (Nat.lt_of_lt_of_le h4 (Nat.pow_le_pow_right (by decide) h3))] at this
    exact this
  | sint w n v =>
    obtain ⟨h1, h2, h3, h4, h5⟩ := hr
    obtain ⟨s', r, e1, e2, e3⟩ := sint_roundtrip h h1 h2 h3 h4 h5
    refine ⟨s', e1, ?_⟩
    have := undone_readAs e3 (fun v : BitVec w => .sint w n v.toInt)
    rw [e2] at this
    exact this
  | bool b =>
    obtain ⟨s', e1, e2⟩ := bool_roundtrip h b
    exact ⟨s', e1, undone_readAs e2 _⟩
  | float raw =>
    obtain ⟨s', e1, e2⟩ := float_roundtrip h raw
    exact ⟨s', e1, undone_readAs e2 _⟩
  | string str =>
    obtain ⟨s', e1, e2⟩ := bytes_roundtrip h str hr
    exact ⟨s', e1, undone_readAs e2 _⟩
  | beginStruct =>
    obtain ⟨a1, a2, a3, a4, _⟩ := Ser.align_spec h
    refine ⟨_, rfl, a1, Ser.align_ext h, ?_⟩
    intro d hd _ _
    exact ⟨d.align, rfl, rfl, by rw [a3]; exact Des.align_at hd⟩
  | beginArray n =>
    obtain ⟨s', e1, _, e2⟩ := alignedU_roundtrip h 32 (n % 2 ^ 32) 4 (by omega) (by omega)
    refine ⟨s', e1, ?_⟩
    have := undone_readAs e2 (fun v : BitVec 32 => .beginArray v.toNat)
    have hn : n < 2 ^ 32 := hr
    rw [BitVec.toNat_ofNat, show n % 2 ^ 32 % 2 ^ (8 * 4) % 2 ^ 32 = n by omega] at this
    exact this
  | beginOptional b =>
    obtain ⟨s', e1, e2⟩ := bool_roundtrip h b
    exact ⟨s', e1, undone_readAs e2 _⟩
  | beginUnion dsc =>
    obtain ⟨h1, h2⟩ := hr
    obtain ⟨s', e1, _, e2⟩ := alignedU_roundtrip h 32 (BitVec.ofInt 32 dsc).toNat 4 (by omega) (by omega)
    refine ⟨s', e1, ?_⟩
    have := undone_readAs e2 (fun v : BitVec 32 => .beginUnion v.toInt)
    rw [Nat.mod_eq_of_lt (BitVec.isLt _), BitVec.ofNat_toNat, BitVec.setWidth_eq, BitVec.toInt_ofInt,
      Int.bmod_eq_of_le (by omega) (by omega)] at this
    exact this
  | endStruct => exact ⟨s, rfl, undone_id h _⟩
  | endArray => exact ⟨s, rfl, undone_id h _⟩
  | endOptional => exact ⟨s, rfl, undone_id h _⟩
  | endUnion => exact ⟨s, rfl, undone_id h _⟩

/-! ## whole data sets -/

theorem all_roundtrip (items : List Item) : ∀ {s : Ser}, s.Inv → (∀ i ∈ items, i.InRange) →
    ∃ s', writeAll s items = .ok s' ∧ Undone s s' (fun d => readAll d (items.map Item.shape)) items := by
  induction items with
  | nil =>
    intro s h _
    exact ⟨s, rfl, h, Ser.ext_refl h, fun d hd _ _ => ⟨d, rfl, rfl, hd⟩⟩
  | cons i is ih =>
    intro s h hr
    obtain ⟨s1, e1, e2, e3, e4⟩ := item_roundtrip h i (hr i (by simp))
    obtain ⟨s2, g1, g2, g3, g4⟩ := ih e2 (fun j hj => hr j (by simp [hj]))
    refine ⟨s2, by simp only [writeAll, e1, g1], g2, Ser.ext_trans e3 g3, ?_⟩
    intro d hd hM hcap
    have hM1 : leVal d.buffer % 2 ^ s1.len = s1.val := by
      rw [← g3.2, ← hM, Nat.mod_mod_of_dvd _ (Nat.pow_dvd_pow 2 g3.1)]
    obtain ⟨d1, f1, f2, f3⟩ := e4 d hd hM1 (Nat.le_trans g3.1 hcap)
    rw [← f2] at hM hcap
    obtain ⟨d2, k1, k2, k3⟩ := g4 d1 f3 hM hcap
    exact ⟨d2, by simp only [List.map_cons, readAll, f1, k1], by rw [k2, f2], k3⟩

theorem released_roundtrip (items : List Item) (hr : ∀ i ∈ items, i.InRange) :
    ∃ s d, writeAll {} items = .ok s ∧ readAll { buffer := s.release.1 } (items.map Item.shape) = .ok (items, d) ∧
      d.readPos = d.buffer.length ∧ d.buffer = s.release.1 := by
  have h0 : (({} : Ser)).Inv := ⟨by decide, by decide⟩
  obtain ⟨s, e1, e2, e3, e4⟩ := all_roundtrip items h0 hr
  obtain ⟨a1, a2, a3, a4, a5⟩ := Ser.align_spec e2
  have hbuf : leVal s.align.buffer = s.val := by
    have := a2
    simp only [Ser.val, a5, Nat.mul_zero, Nat.add_zero] at this
    exact this
  have hlen : 8 * s.align.buffer.length = 8 * ((s.len + 7) / 8) := by
    rw [← a3]; simp only [Ser.len, a4, Nat.add_zero]
  obtain ⟨d, f1, f2, f3⟩ := e4 { buffer := s.release.1 } ⟨by simp, by simp [Ser.len], Nat.zero_le _, by simp [Nat.mod_one]⟩
    (by show leVal s.align.buffer % _ = _
        rw [hbuf]; exact Nat.mod_eq_of_lt (Ser.val_lt e2))
    (by show _ ≤ 8 * s.align.buffer.length
        omega)
  refine ⟨s, d, e1, f1, ?_, f2⟩
  have h1 := f3.pos
  have h2 := f3.bits
  have h3 : d.buffer.length = s.align.buffer.length := by rw [f2]; rfl
  omega

/-! ## arbitrary bytes -/

/-- Reader invariant: the read position never leaves the buffer. -/
def Des.Safe (d : Des) : Prop := d.readPos ≤ d.buffer.length ∧ d.unalignedBits < 8

/-- Either an exception or a result in a safe state. -/
def SafeRes {α : Type} (buf : List UInt8) : Res (α × Des) → Prop
  | .ok (_, d) => d.Safe ∧ d.buffer = buf
  | .throw _ => True
  | .ub _ => False

theorem take_safe {d : Des} (h : d.Safe) (n : Nat) : SafeRes d.buffer (d.take n) := by
  unfold Des.take
  split
  · trivial
  · rename_i hl
    simp only [Des.lacks, Bool.and_eq_true, decide_eq_true_eq, not_and, Nat.not_lt] at hl
    have := hl h.1
    have h1 := h.1
    simp only [Des.fetch]
    rw [if_pos (by omega)]
    exact ⟨⟨by simp only; omega, h.2⟩, rfl⟩

theorem align_safe {d : Des} (h : d.Safe) : d.align.Safe := ⟨h.1, by simp [Des.align]⟩

theorem alignedRaw_safe {d : Des} (h : d.Safe) {w n : Nat} (h0 : 0 < n) (hn : n ≤ w / 8) :
    SafeRes d.buffer (d.alignedRaw w n) := by
  have := take_safe (align_safe h) n
  unfold Des.take at this
  unfold Des.alignedRaw
  split
  · trivial
  · rename_i hl
    rw [if_neg hl] at this
    rw [if_neg (by omega)]
    exact this

theorem alignedU_safe {d : Des} (h : d.Safe) {w n : Nat} (h0 : 0 < n) (hn : n ≤ w / 8) :
    SafeRes d.buffer (d.alignedU w n) := by
  have := alignedRaw_safe h h0 hn
  unfold Des.alignedU
  revert this
  rcases d.alignedRaw w n with ⟨_, _⟩ | _ | _ <;> exact id

theorem alignedS_safe {d : Des} (h : d.Safe) {w n : Nat} (h0 : 0 < n) (hn : n ≤ w / 8) :
    SafeRes d.buffer (d.alignedS w n) := by
  have := alignedRaw_safe h h0 hn
  unfold Des.alignedS
  revert this
  rcases d.alignedRaw w n with ⟨_, _⟩ | _ | _ <;> exact id

theorem extract_safe {d : Des} {w n rd rb : Nat} (hn : n < 64) (h1 : d.readPos ≤ d.buffer.length)
    (hb : d.unalignedBits - n + rb < 8) : SafeRes d.buffer (d.extract w n rd rb) := by
  unfold Des.extract
  simp only
  rw [if_neg (by omega)]
  split
  · exact ⟨⟨h1, by simp only; omega⟩, rfl⟩
  · exact ⟨⟨h1, by simp only; omega⟩, rfl⟩

theorem unalignedU_safe {d : Des} (h : d.Safe) {w n : Nat} (hw : IntWidth w) (h0 : 0 < n) (h8 : n % 8 ≠ 0) :
    SafeRes d.buffer (d.unalignedU w n) := by
  unfold Des.unalignedU
  obtain ⟨h1, h2⟩ := h
  rw [if_neg (by omega)]
  by_cases hnw : n > w
  · rw [if_pos hnw]; trivial
  rw [if_neg hnw]
  have hn64 : n < 64 := by rcases hw with h | h | h | h <;> omega
  by_cases hlt : d.unalignedBits < n
  · rw [if_pos hlt]
    generalize hrb : (n - d.unalignedBits) / 8 + (if (n - d.unalignedBits) % 8 > 0 then 1 else 0) = rb
    have hrb1 : n - d.unalignedBits ≤ 8 * rb ∧ 8 * rb < n - d.unalignedBits + 8 := by
      rw [← hrb]; split <;> omega
    simp only [hrb]
    by_cases hl : d.lacks rb = true
    · rw [if_pos hl]; trivial
    rw [if_neg hl, if_neg (by omega)]
    simp only [Des.lacks, Bool.and_eq_true, decide_eq_true_eq, not_and, Nat.not_lt] at hl
    have := hl h1
    simp only [Des.fetch]
    rw [if_pos (by omega)]
    simp only
    split
    · exact extract_safe (d := { d with readPos := d.readPos + rb, unalignedData := _, unalignedBits := 64 })
        hn64 (by simp only; omega) (by simp only; omega)
    · exact extract_safe (d := { d with readPos := d.readPos + rb, unalignedData := _, unalignedBits := d.unalignedBits + rb * 8 })
        hn64 (by simp only; omega) (by simp only; omega)
  · rw [if_neg hlt]
    exact extract_safe hn64 h1 (by omega)

theorem readAs_safe {α : Type} {buf : List UInt8} {r : Res (α × Des)} (h : SafeRes buf r) (f : α → Item) :
    SafeRes buf (readAs f r) := by
  rcases r with ⟨_, _⟩ | _ | _ <;> exact h

theorem uint_safe {d : Des} (h : d.Safe) {w n : Nat} (hw : IntWidth w) (h0 : 1 ≤ n) (hn : n ≤ w ∨ n % 8 ≠ 0) :
    SafeRes d.buffer (d.uint w n) := by
  unfold Des.uint
  split
  · rename_i h8
    have := unalignedU_safe h hw (by omega) h8
    revert this
    rcases d.unalignedU w n with ⟨_, _⟩ | _ | _ <;> exact id
  · exact alignedU_safe h (by omega) (by omega)

theorem sint_safe {d : Des} (h : d.Safe) {w n : Nat} (hw : IntWidth w) (h0 : 1 ≤ n) (hn : n ≤ w ∨ n % 8 ≠ 0) :
    SafeRes d.buffer (d.sint w n) := by
  unfold Des.sint
  split
  · rename_i h8
    have := unalignedU_safe h hw (by omega) h8
    unfold Des.unalignedS
    revert this
    rcases d.unalignedU w n with ⟨_, _⟩ | _ | _ <;> exact id
  · exact alignedS_safe h (by omega) (by omega)

theorem bool_safe {d : Des} (h : d.Safe) : SafeRes d.buffer d.bool := by
  have := alignedU_safe h (w := 8) (n := 1) (by omega) (by omega)
  unfold Des.bool
  revert this
  rcases d.alignedU 8 1 with ⟨_, _⟩ | _ | _ <;> exact id

theorem bytes_safe {d : Des} (h : d.Safe) : SafeRes d.buffer d.bytes := by
  have := alignedU_safe h (w := 32) (n := 4) (by omega) (by omega)
  unfold Des.bytes
  revert this
  rcases d.alignedU 32 4 with ⟨v, d'⟩ | _ | _
  · intro hs
    have := take_safe hs.1 v.toNat
    rw [hs.2] at this
    exact this
  · exact id
  · exact id

theorem shape_safe {d : Des} (h : d.Safe) (sh : Shape) (ha : sh.Admissible) : SafeRes d.buffer (sh.read d) := by
  cases sh with
  | uint w n => exact readAs_safe (uint_safe h ha.1 ha.2.1 ha.2.2) _
  | sint w n => exact readAs_safe (sint_safe h ha.1 ha.2.1 ha.2.2) _
  | bool => exact readAs_safe (bool_safe h) _
  | float size => exact readAs_safe (take_safe (align_safe h) size) _
  | string => exact readAs_safe (bytes_safe h) _
  | beginStruct => exact ⟨align_safe h, rfl⟩
  | beginArray => exact readAs_safe (alignedU_safe h (by omega) (by omega)) _
  | beginOptional => exact readAs_safe (bool_safe h) _
  | beginUnion => exact readAs_safe (alignedU_safe h (by omega) (by omega)) _
  | endStruct => exact ⟨h, rfl⟩
  | endArray => exact ⟨h, rfl⟩
  | endOptional => exact ⟨h, rfl⟩
  | endUnion => exact ⟨h, rfl⟩

theorem all_safe (shapes : List Shape) : ∀ {d : Des}, d.Safe → (∀ sh ∈ shapes, sh.Admissible) →
    SafeRes d.buffer (readAll d shapes) := by
  induction shapes with
  | nil => intro d h _; exact ⟨h, rfl⟩
  | cons sh shs ih =>
    intro d h ha
    have h1 := shape_safe h sh (ha sh (by simp))
    unfold readAll
    revert h1
    rcases sh.read d with ⟨x, d'⟩ | _ | _
    · intro hs
      have h2 := ih hs.1 (fun j hj => ha j (by simp [hj]))
      rw [hs.2] at h2
      simp only
      revert h2
      rcases readAll d' shs with ⟨_, _⟩ | _ | _ <;> exact id
    · exact id
    · exact id

end SilKit.BitSerdes
