import Verif.Lemmas.Serdes
import Verif.Spec.BitSerdes
/-!
# The serializer writes and the deserializer reads one and the same bit stream
-/
namespace SilKit.BitSerdes
open MessageBuffer Spec

/-! ## numbers as bit streams -/

theorem leVal_append (a b : List UInt8) : leVal (a ++ b) = leVal a + 2 ^ (8 * a.length) * leVal b := by
  induction a with
  | nil => simp [leVal]
  | cons x a ih =>
    simp only [List.cons_append, leVal, ih, List.length_cons]
    rw [show 8 * (a.length + 1) = 8 + 8 * a.length by omega, Nat.pow_add]
    simp only [Nat.mul_add, ← Nat.mul_assoc, Nat.add_assoc]

theorem leVal_lt2 (a : List UInt8) : leVal a < 2 ^ (8 * a.length) := by
  have := leVal_lt a
  rwa [show (256 : Nat) = 2 ^ 8 from rfl, ← Nat.pow_mul] at this

theorem leVal_leBytes2 (n v : Nat) : leVal (leBytes n v) = v % 2 ^ (8 * n) := by
  rw [leVal_leBytes, show (256 : Nat) = 2 ^ 8 from rfl, ← Nat.pow_mul]

theorem leVal_fetch (buf : List UInt8) (r n : Nat) (h : r + n ≤ buf.length) :
    leVal ((buf.drop r).take n) = leVal buf / 2 ^ (8 * r) % 2 ^ (8 * n) := by
  have e : buf = buf.take r ++ ((buf.drop r).take n ++ (buf.drop r).drop n) := by
    rw [List.take_append_drop, List.take_append_drop]
  have hr : (buf.take r).length = r := by simp; omega
  have hn : ((buf.drop r).take n).length = n := by simp; omega
  have h1 := leVal_lt2 (buf.take r)
  have h2 := leVal_lt2 ((buf.drop r).take n)
  rw [hr] at h1
  rw [hn] at h2
  conv => rhs; rw [e]
  rw [leVal_append, leVal_append, hr, hn]
  rw [Nat.add_mul_div_left _ _ (Nat.two_pow_pos _), Nat.div_eq_of_lt h1, Nat.zero_add]
  rw [Nat.add_mul_mod_self_left, Nat.mod_eq_of_lt h2]

/-- Splitting a bit field. -/
theorem field_add (M p a b : Nat) :
    M / 2 ^ p % 2 ^ (a + b) = M / 2 ^ p % 2 ^ a + 2 ^ a * (M / 2 ^ (p + a) % 2 ^ b) := by
  rw [Nat.pow_add, Nat.mod_mul, Nat.div_div_eq_div_mul, ← Nat.pow_add]

/-- Low bits of a number determine its low bit fields. -/
theorem field_of_mod {M N L : Nat} (h : M % 2 ^ L = N) (p n : Nat) (hp : p + n ≤ L) :
    M / 2 ^ p % 2 ^ n = N / 2 ^ p % 2 ^ n := by
  subst h
  have e : 2 ^ L = 2 ^ p * (2 ^ n * 2 ^ (L - p - n)) := by
    rw [← Nat.pow_add, ← Nat.pow_add]; congr 1; omega
  rw [e, Nat.mod_mul_right_div_self, Nat.mod_mul_right_mod]

theorem or_eq_add {a b i : Nat} (h : b < 2 ^ i) : b ||| 2 ^ i * a = b + 2 ^ i * a := by
  rw [Nat.or_comm, ← Nat.two_pow_add_eq_or_of_lt h, Nat.add_comm]

/-- `data | (v << bits)` in 64-bit arithmetic. -/
theorem or_shift {d v b : Nat} (hd : d < 2 ^ b) (hb : b ≤ 64) :
    d ||| (v <<< b) % 2 ^ 64 = (d + 2 ^ b * v) % 2 ^ 64 := by
  have e : (2 : Nat) ^ 64 = 2 ^ b * 2 ^ (64 - b) := by rw [← Nat.pow_add]; congr 1; omega
  rw [Nat.shiftLeft_eq, Nat.mul_comm v, e, Nat.mul_mod_mul_left, or_eq_add hd]
  rw [Nat.mod_mul, Nat.add_mul_mod_self_left, Nat.mod_eq_of_lt hd, Nat.add_mul_div_left _ _ (Nat.two_pow_pos _),
    Nat.div_eq_of_lt hd, Nat.zero_add]

theorem and_mask (x n : Nat) : x &&& (2 ^ n - 1) = x % 2 ^ n := Nat.and_two_pow_sub_one_eq_mod x n

/-! ## writer -/

/-- The number written so far. -/
def Ser.val (s : Ser) : Nat := leVal s.buffer + 2 ^ (8 * s.buffer.length) * s.unalignedData
/-- The number of bits written so far. -/
def Ser.len (s : Ser) : Nat := 8 * s.buffer.length + s.unalignedBits
/-- Invariant of the writer. -/
def Ser.Inv (s : Ser) : Prop := s.unalignedBits < 8 ∧ s.unalignedData < 2 ^ s.unalignedBits

theorem Ser.val_lt {s : Ser} (h : s.Inv) : s.val < 2 ^ s.len := by
  have h1 := leVal_lt2 s.buffer
  have h2 := h.2
  unfold val len
  rw [Nat.pow_add]
  have : 2 ^ (8 * s.buffer.length) * (s.unalignedData + 1) ≤ 2 ^ (8 * s.buffer.length) * 2 ^ s.unalignedBits :=
    Nat.mul_le_mul_left _ h2
  rw [Nat.mul_add] at this
  omega

/-- The written bits are never changed any more. -/
def Ser.Ext (s s' : Ser) : Prop := s.len ≤ s'.len ∧ s'.val % 2 ^ s.len = s.val

theorem Ser.ext_refl {s : Ser} (h : s.Inv) : s.Ext s := ⟨Nat.le_refl _, Nat.mod_eq_of_lt (val_lt h)⟩

theorem Ser.ext_trans {a b c : Ser} (h1 : a.Ext b) (h2 : b.Ext c) : a.Ext c := by
  refine ⟨Nat.le_trans h1.1 h2.1, ?_⟩
  rw [← h1.2, ← h2.2]
  rw [Nat.mod_mod_of_dvd _ (Nat.pow_dvd_pow 2 h1.1)]

theorem Ser.ext_add {s s' : Ser} (h : s.Inv) {n v : Nat} (hl : s'.len = s.len + n) (hv : s'.val = s.val + 2 ^ s.len * v) :
    s.Ext s' := by
  refine ⟨by omega, ?_⟩
  rw [hv, Nat.add_mul_mod_self_left, Nat.mod_eq_of_lt (val_lt h)]

theorem Ser.field_add {s s' : Ser} (h : s.Inv) {n v : Nat} (hv : s'.val = s.val + 2 ^ s.len * v) (hn : v < 2 ^ n) :
    s'.val / 2 ^ s.len % 2 ^ n = v := by
  rw [hv, Nat.add_mul_div_left _ _ (Nat.two_pow_pos _), Nat.div_eq_of_lt (val_lt h), Nat.zero_add, Nat.mod_eq_of_lt hn]

theorem Ser.align_spec {s : Ser} (h : s.Inv) :
    s.align.Inv ∧ s.align.val = s.val ∧ s.align.len = 8 * ((s.len + 7) / 8) ∧ s.align.unalignedBits = 0 ∧
    s.align.unalignedData = 0 := by
  obtain ⟨h1, h2⟩ := h
  unfold align
  split
  · rename_i hb
    refine ⟨⟨by simp, by simp⟩, ?_, ?_, rfl, rfl⟩
    · simp only [val, leVal_append, leVal, Nat.mul_zero, Nat.add_zero]
      have : s.unalignedData < 256 := Nat.lt_of_lt_of_le h2 (by
        calc 2 ^ s.unalignedBits ≤ 2 ^ 8 := Nat.pow_le_pow_right (by decide) (by omega)
          _ = 256 := rfl)
      congr 2
      simp [UInt8.toNat_ofNat']
      omega
    · simp only [len, List.length_append, List.length_singleton]; omega
  · rename_i hb
    simp only [ne_eq, Decidable.not_not] at hb
    refine ⟨⟨h1, h2⟩, rfl, ?_, hb, ?_⟩
    · simp only [len, hb]; omega
    · rw [hb] at h2; simp at h2; exact h2

theorem Ser.raw_spec {s : Ser} (h : s.Inv) (h0 : s.unalignedBits = 0) (bytes : List UInt8) :
    (s.raw bytes).Inv ∧ (s.raw bytes).unalignedBits = 0 ∧
    (s.raw bytes).val = s.val + 2 ^ s.len * leVal bytes ∧ (s.raw bytes).len = s.len + 8 * bytes.length := by
  have hd : s.unalignedData = 0 := by have := h.2; rw [h0] at this; simpa using this
  refine ⟨h, h0, ?_, ?_⟩
  · simp [val, raw, len, leVal_append, hd, h0]
  · simp [raw, len, h0]; omega

theorem Ser.align_ext {s : Ser} (h : s.Inv) : s.Ext s.align := by
  obtain ⟨h1, h2, h3, _, _⟩ := align_spec h
  refine ⟨by rw [h3]; omega, ?_⟩
  rw [h2]; exact Nat.mod_eq_of_lt (val_lt h)

theorem Ser.aligned_spec {s : Ser} (h : s.Inv) (w v n : Nat) (h0 : 0 < n) (hn : n ≤ w / 8) :
    ∃ s', s.aligned w v n = .ok s' ∧ s'.Inv ∧ s'.unalignedBits = 0 ∧
      s'.val = s.align.val + 2 ^ s.align.len * (v % 2 ^ (8 * n)) ∧ s'.len = s.align.len + 8 * n := by
  obtain ⟨h1, h2, h3, h4, h5⟩ := align_spec h
  obtain ⟨g1, g2, g3, g4⟩ := raw_spec h1 h4 (leBytes n v)
  refine ⟨s.align.raw (leBytes n v), ?_, g1, g2, ?_, ?_⟩
  · unfold aligned
    rw [if_neg (by omega)]
    rfl
  · rw [g3, leVal_leBytes2]
  · rw [g4, leBytes_length]

theorem Ser.unaligned_spec {s : Ser} (h : s.Inv) (w v n : Nat) (h0 : 0 < n) (hn : n ≤ w) (hw : IntWidth w)
    (h8 : n % 8 ≠ 0) (hv : v < 2 ^ n) :
    ∃ s', s.unalignedU w v n = .ok s' ∧ s'.Inv ∧ s'.val = s.val + 2 ^ s.len * v ∧ s'.len = s.len + n := by
  obtain ⟨hb, hd⟩ := h
  have hw64 : w ≤ 64 := by rcases hw with h | h | h | h <;> omega
  generalize hB : s.unalignedBits = b at *
  generalize hD : s.unalignedData = dt at *
  have hfull : dt + 2 ^ b * v < 2 ^ (b + n) := by
    rw [Nat.pow_add]
    have : 2 ^ b * (v + 1) ≤ 2 ^ b * 2 ^ n := Nat.mul_le_mul_left _ hv
    rw [Nat.mul_add] at this
    omega
  have hval : s.val + 2 ^ s.len * v = leVal s.buffer + 2 ^ (8 * s.buffer.length) * (dt + 2 ^ b * v) := by
    simp only [val, len, hB, hD, Nat.pow_add, Nat.mul_add, Nat.mul_assoc, Nat.add_assoc]
  unfold unalignedU
  rw [hB, hD, if_neg (by omega), if_neg (by omega)]
  simp only [or_shift hd (by omega : b ≤ 64)]
  generalize hF : dt + 2 ^ b * v = F at *
  have hbn : b + n = 8 * ((b + n) / 8) + (b + n) % 8 := by omega
  by_cases hf0 : (b + n) / 8 = 0
  · rw [if_pos hf0]
    have hF64 : F % 2 ^ 64 = F := by
      apply Nat.mod_eq_of_lt
      exact Nat.lt_of_lt_of_le hfull (Nat.pow_le_pow_right (by decide) (by omega))
    refine ⟨_, rfl, ⟨?_, ?_⟩, ?_, ?_⟩
    · simp only; omega
    · simp only [hF64]
      rwa [show (b + n) % 8 = b + n by omega]
    · rw [hval]; simp only [val, hF64]
    · simp only [len, hB]; omega
  · rw [if_neg hf0, if_neg (by omega)]
    have hrest : F / 2 ^ (8 * ((b + n) / 8)) < 2 ^ ((b + n) % 8) := by
      rw [Nat.div_lt_iff_lt_mul (Nat.two_pow_pos _), ← Nat.pow_add]
      rwa [Nat.add_comm ((b + n) % 8), ← hbn]
    have key : ∀ (k : Nat), k = (b + n) / 8 → k ≤ 8 →
        leVal (s.buffer ++ leBytes k (F % 2 ^ 64)) + 2 ^ (8 * (s.buffer ++ leBytes k (F % 2 ^ 64)).length) *
          (F / 2 ^ (8 * ((b + n) / 8))) = leVal s.buffer + 2 ^ (8 * s.buffer.length) * F := by
      intro k hk hk8
      subst hk
      rw [leVal_append, leVal_leBytes2, List.length_append, leBytes_length, Nat.mul_add, Nat.pow_add]
      rw [Nat.mod_mod_of_dvd _ (Nat.pow_dvd_pow 2 (by omega)), Nat.mul_assoc, Nat.add_assoc, ← Nat.mul_add,
        Nat.mod_add_div]
    by_cases hf8 : (b + n) / 8 = 8
    · rw [if_pos hf8, if_neg (by rcases hw with h | h | h | h <;> omega)]
      have hsh : v >>> (64 - b) = F / 2 ^ 64 := by
        rw [Nat.shiftRight_eq_div_pow, ← hF, show (2 : Nat) ^ 64 = 2 ^ b * 2 ^ (64 - b) by
          rw [← Nat.pow_add]; congr 1; omega, ← Nat.div_div_eq_div_mul,
          Nat.add_mul_div_left _ _ (Nat.two_pow_pos _), Nat.div_eq_of_lt hd, Nat.zero_add]
      refine ⟨_, rfl, ⟨?_, ?_⟩, ?_, ?_⟩
      · simp only; omega
      · simp only [hsh]
        rw [hf8] at hrest
        exact hrest
      · rw [hval]
        have := key 8 hf8.symm (by omega)
        rw [hf8] at this
        simp only [val, hsh]
        exact this
      · simp only [len, List.length_append, leBytes_length, hB]; omega
    · rw [if_neg hf8]
      have hF64 : F % 2 ^ 64 = F := by
        apply Nat.mod_eq_of_lt
        exact Nat.lt_of_lt_of_le hfull (Nat.pow_le_pow_right (by decide) (by omega))
      refine ⟨_, rfl, ⟨?_, ?_⟩, ?_, ?_⟩
      · simp only; omega
      · simp only [hF64, Nat.shiftRight_eq_div_pow, Nat.mul_comm _ 8]
        exact hrest
      · rw [hval]
        have := key _ rfl (by omega)
        simp only [val, Nat.shiftRight_eq_div_pow, Nat.mul_comm _ 8]
        rw [hF64] at this ⊢
        exact this
      · simp only [len, List.length_append, leBytes_length, hB]; omega

/-! ## reader -/

/-- The reader is at bit position `p`; the bits between `p` and the next byte to fetch are in `unalignedData`. -/
structure Des.At (d : Des) (p : Nat) : Prop where
  bits : d.unalignedBits < 8
  pos : 8 * d.readPos = p + d.unalignedBits
  inside : d.readPos ≤ d.buffer.length
  data : d.unalignedData = leVal d.buffer / 2 ^ p % 2 ^ d.unalignedBits

theorem Des.align_at {d : Des} {p : Nat} (h : d.At p) : d.align.At (8 * ((p + 7) / 8)) := by
  obtain ⟨h1, h2, h3, h4⟩ := h
  have : 8 * ((p + 7) / 8) = 8 * d.readPos := by omega
  rw [this]
  exact ⟨by simp [align], by simp [align], by simpa [align] using h3, by simp [align, Nat.mod_one]⟩

theorem Des.extract_spec {d : Des} {w n rd rb : Nat} (hw : w ≤ 64) (hn : n ≤ w) (hn64 : n < 64)
    (F : Nat) (k : Nat) (hF : F < 2 ^ k) (hk : n ≤ k) (hdata : d.unalignedData = F % 2 ^ 64)
    (hcase : (k ≤ 64 ∧ d.unalignedBits = k ∧ rb = 0) ∨ (64 < k ∧ k < 72 ∧ k < n + 8 ∧ d.unalignedBits = 64 ∧ rb = k - 64 ∧ rd = F / 2 ^ 64)) :
    d.extract w n rd rb = .ok (F % 2 ^ n, { d with unalignedData := F / 2 ^ n, unalignedBits := k - n }) := by
  unfold extract
  have hres : (if n < w then d.unalignedData % 2 ^ w &&& (2 ^ n - 1) else d.unalignedData % 2 ^ w) = F % 2 ^ n := by
    rw [hdata, Nat.mod_mod_of_dvd _ (Nat.pow_dvd_pow 2 hw)]
    split
    · rw [and_mask, Nat.mod_mod_of_dvd _ (Nat.pow_dvd_pow 2 (by omega))]
    · rw [show w = n by omega]
  simp only [hres]
  rw [if_neg (by omega)]
  rcases hcase with ⟨hk64, hb, hr⟩ | ⟨hk64, hk72, hkn, hb, hr, hrd⟩
  · have hF64 : F % 2 ^ 64 = F :=
      Nat.mod_eq_of_lt (Nat.lt_of_lt_of_le hF (Nat.pow_le_pow_right (by decide) hk64))
    rw [if_neg (by omega)]
    rw [hdata, hF64, hb, Nat.shiftRight_eq_div_pow]
  · rw [if_pos (by omega)]
    have hlow : F % 2 ^ 64 / 2 ^ n < 2 ^ (64 - n) := by
      rw [Nat.div_lt_iff_lt_mul (Nat.two_pow_pos _), ← Nat.pow_add, show 64 - n + n = 64 by omega]
      exact Nat.mod_lt _ (Nat.two_pow_pos _)
    have hsum : F % 2 ^ 64 / 2 ^ n + 2 ^ (64 - n) * (F / 2 ^ 64) = F / 2 ^ n := by
      have e : (2 : Nat) ^ 64 = 2 ^ n * 2 ^ (64 - n) := by rw [← Nat.pow_add]; congr 1; omega
      rw [e, Nat.mod_mul_right_div_self, ← Nat.div_div_eq_div_mul, Nat.mod_add_div]
    have hsmall : F / 2 ^ n < 2 ^ 64 := by
      rw [Nat.div_lt_iff_lt_mul (Nat.two_pow_pos _), ← Nat.pow_add]
      exact Nat.lt_of_lt_of_le hF (Nat.pow_le_pow_right (by decide) (by omega))
    simp only [hb, hdata, Nat.shiftRight_eq_div_pow]
    rw [or_shift hlow (by omega), hrd, hsum, Nat.mod_eq_of_lt hsmall, hr,
      show 64 - n + (k - 64) = k - n by omega]

theorem Des.unaligned_spec {d : Des} {p : Nat} (h : d.At p) (w n : Nat) (hw : IntWidth w) (h0 : 0 < n) (hn : n ≤ w)
    (h8 : n % 8 ≠ 0) (hcap : p + n ≤ 8 * d.buffer.length) :
    ∃ d', d.unalignedU w n = .ok (leVal d.buffer / 2 ^ p % 2 ^ n, d') ∧ d'.buffer = d.buffer ∧ d'.At (p + n) := by
  obtain ⟨h1, h2, h3, h4⟩ := h
  have hw64 : w ≤ 64 := by rcases hw with h | h | h | h <;> omega
  have hn64 : n < 64 := by omega
  unfold unalignedU
  rw [if_neg (by omega), if_neg (by omega)]
  -- what the remaining bits are after extracting `n` out of `k` bits
  have hshift : ∀ k, n ≤ k → leVal d.buffer / 2 ^ p % 2 ^ k / 2 ^ n = leVal d.buffer / 2 ^ (p + n) % 2 ^ (k - n) := by
    intro k hk
    have := field_add (leVal d.buffer) p n (k - n)
    rw [show n + (k - n) = k by omega] at this
    rw [this, Nat.add_mul_div_left _ _ (Nat.two_pow_pos _), Nat.div_eq_of_lt (Nat.mod_lt _ (Nat.two_pow_pos _)),
      Nat.zero_add]
  have hlow : ∀ k, n ≤ k → leVal d.buffer / 2 ^ p % 2 ^ k % 2 ^ n = leVal d.buffer / 2 ^ p % 2 ^ n := by
    intro k hk
    exact Nat.mod_mod_of_dvd _ (Nat.pow_dvd_pow 2 hk)
  by_cases hlt : d.unalignedBits < n
  · rw [if_pos hlt]
    generalize hrb : (n - d.unalignedBits) / 8 + (if (n - d.unalignedBits) % 8 > 0 then 1 else 0) = rb
    have hrb1 : n - d.unalignedBits ≤ 8 * rb ∧ 8 * rb < n - d.unalignedBits + 8 := by
      rw [← hrb]; split <;> omega
    simp only [hrb]
    have hcap' : d.readPos + rb ≤ d.buffer.length := by omega
    have hlack : d.lacks rb = false := by
      unfold lacks; simp; omega
    have hfetch : d.fetch rb = .ok ((d.buffer.drop d.readPos).take rb) := by
      unfold fetch; rw [if_pos hcap']
    rw [hlack]
    simp only [Bool.false_eq_true, if_false, hfetch]
    rw [if_neg (by omega)]
    have hread := leVal_fetch d.buffer d.readPos rb hcap'
    have hF : leVal d.buffer / 2 ^ p % 2 ^ (d.unalignedBits + 8 * rb) =
        d.unalignedData + 2 ^ d.unalignedBits * leVal ((d.buffer.drop d.readPos).take rb) := by
      rw [field_add, ← h4, hread, h2]
    have hd : d.unalignedData < 2 ^ d.unalignedBits := by rw [h4]; exact Nat.mod_lt _ (Nat.two_pow_pos _)
    have hFlt : leVal d.buffer / 2 ^ p % 2 ^ (d.unalignedBits + 8 * rb) < 2 ^ (d.unalignedBits + 8 * rb) :=
      Nat.mod_lt _ (Nat.two_pow_pos _)
    rw [or_shift hd (by omega), ← hF]
    generalize hFF : leVal d.buffer / 2 ^ p % 2 ^ (d.unalignedBits + 8 * rb) = F at *
    by_cases hov : d.unalignedBits + rb * 8 > 64
    · rw [if_pos hov]
      have hcarry : leVal ((d.buffer.drop d.readPos).take rb) >>> (64 - d.unalignedBits) = F / 2 ^ 64 := by
        rw [Nat.shiftRight_eq_div_pow, hF, show (2 : Nat) ^ 64 = 2 ^ d.unalignedBits * 2 ^ (64 - d.unalignedBits) by
          rw [← Nat.pow_add]; congr 1; omega, ← Nat.div_div_eq_div_mul,
          Nat.add_mul_div_left _ _ (Nat.two_pow_pos _), Nat.div_eq_of_lt hd, Nat.zero_add]
      rw [extract_spec hw64 hn hn64 F (d.unalignedBits + 8 * rb) hFlt (by omega) rfl
        (Or.inr ⟨by omega, by omega, by omega, rfl, by omega, hcarry⟩)]
      rw [← hlow (d.unalignedBits + 8 * rb) (by omega), hFF]
      refine ⟨_, rfl, rfl, ?_⟩
      refine ⟨?_, ?_, hcap', ?_⟩
      · simp only; omega
      · simp only; omega
      · simp only; rw [← hFF, hshift _ (by omega)]
    · rw [if_neg hov]
      rw [extract_spec hw64 hn hn64 F (d.unalignedBits + 8 * rb) hFlt (by omega) rfl
        (Or.inl ⟨by omega, by simp only; omega, rfl⟩)]
      rw [← hlow (d.unalignedBits + 8 * rb) (by omega), hFF]
      refine ⟨_, rfl, rfl, ?_⟩
      refine ⟨?_, ?_, hcap', ?_⟩
      · simp only; omega
      · simp only; omega
      · simp only; rw [← hFF, hshift _ (by omega)]
  · rw [if_neg hlt]
    have hFlt : leVal d.buffer / 2 ^ p % 2 ^ d.unalignedBits < 2 ^ d.unalignedBits := Nat.mod_lt _ (Nat.two_pow_pos _)
    rw [extract_spec hw64 hn hn64 (leVal d.buffer / 2 ^ p % 2 ^ d.unalignedBits) d.unalignedBits hFlt (by omega)
      (by rw [← h4, Nat.mod_eq_of_lt]; rw [h4]; exact Nat.lt_of_lt_of_le hFlt (Nat.pow_le_pow_right (by decide) (by omega)))
      (Or.inl ⟨by omega, rfl, rfl⟩)]
    rw [hlow _ (by omega)]
    refine ⟨_, rfl, rfl, ?_⟩
    refine ⟨by simp only; omega, by simp only; omega, h3, ?_⟩
    simp only
    rw [hshift _ (by omega)]

theorem Des.take_spec {d : Des} {p : Nat} (h : d.At p) (h0 : d.unalignedBits = 0) (n : Nat)
    (hcap : p + 8 * n ≤ 8 * d.buffer.length) :
    ∃ d', d.take n = .ok ((d.buffer.drop d.readPos).take n, d') ∧ d'.buffer = d.buffer ∧ d'.At (p + 8 * n) ∧
      d'.unalignedBits = 0 := by
  obtain ⟨h1, h2, h3, h4⟩ := h
  have hcap' : d.readPos + n ≤ d.buffer.length := by omega
  refine ⟨{ d with readPos := d.readPos + n }, ?_, rfl, ⟨h1, by simp only; omega, hcap', ?_⟩, h0⟩
  · unfold take
    have hlack : d.lacks n = false := by unfold lacks; simp; omega
    rw [hlack]
    simp only [Bool.false_eq_true, if_false, fetch]
    rw [if_pos hcap']
  · simp only [h4, h0, Nat.pow_zero, Nat.mod_one]

theorem Des.alignedRaw_spec {d : Des} {p : Nat} (h : d.At p) (w n : Nat) (h0 : 0 < n) (hn : n ≤ w / 8)
    (hcap : 8 * ((p + 7) / 8) + 8 * n ≤ 8 * d.buffer.length) :
    ∃ bytes d', d.alignedRaw w n = .ok (bytes, d') ∧ bytes.length = n ∧
      leVal bytes = leVal d.buffer / 2 ^ (8 * ((p + 7) / 8)) % 2 ^ (8 * n) ∧
      d'.buffer = d.buffer ∧ d'.At (8 * ((p + 7) / 8) + 8 * n) ∧ d'.unalignedBits = 0 := by
  have ha := align_at h
  obtain ⟨d', e1, e2, e3, e4⟩ := take_spec ha rfl n hcap
  have hp := ha.pos
  refine ⟨(d.align.buffer.drop d.align.readPos).take n, d', ?_, ?_, ?_, e2, e3, e4⟩
  · unfold take at e1
    unfold alignedRaw
    by_cases hl : d.align.lacks n = true
    · rw [if_pos hl] at e1; cases e1
    · rw [if_neg hl] at e1 ⊢
      rw [if_neg (by omega)]
      exact e1
  · have := e3.inside
    have := e3.pos
    rw [e2] at *
    simp only [align] at *
    simp
    omega
  · have h5 := e3.pos
    have h6 := e3.inside
    rw [e4] at h5
    rw [e2] at h6
    simp only [align] at *
    rw [leVal_fetch _ _ _ (by omega), hp, Nat.add_zero]

end SilKit.BitSerdes
