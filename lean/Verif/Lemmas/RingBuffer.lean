import Verif.Model.RingBuffer
import Verif.Spec.ByteQueue
/-! Helper lemmas for the ring buffer refinement. -/
namespace SilKit.RingBuffer

/-- Abstraction: the stored bytes in FIFO order. -/
def contents (b : RingBuffer) : List UInt8 :=
  (List.range b.size).map fun i => b.buf.getD ((b.rPos + i) % b.capacity) 0

structure Inv (b : RingBuffer) : Prop where
  cap_pos : 0 < b.capacity
  r_lt : b.rPos < b.capacity
  size_le : b.size ≤ b.capacity
  w_eq : b.wPos = (b.rPos + b.size) % b.capacity

@[simp] theorem contents_length (b : RingBuffer) : b.contents.length = b.size := by simp [contents]

theorem contents_getElem? (b : RingBuffer) (i : Nat) :
    b.contents[i]? = if i < b.size then some (b.buf.getD ((b.rPos + i) % b.capacity) 0) else none := by
  unfold contents
  by_cases h : i < b.size
  · simp [h]
  · simp [h]

theorem mk'_inv {c : Nat} (h : 0 < c) : (mk' c).Inv := by
  constructor <;> simp [mk', capacity, h]

theorem mod_small {a c : Nat} (h : a < c) : a % c = a := Nat.mod_eq_of_lt h

theorem mod_wrap {a c : Nat} (h : c ≤ a) (h2 : a < 2 * c) : a % c = a - c := by
  rw [Nat.mod_eq_sub_mod h]; exact Nat.mod_eq_of_lt (by omega)

theorem peek_spec (b : RingBuffer) (h : b.Inv) (n : Nat) :
    b.peek n = .ok (if n ≤ b.size then some (b.contents.take n) else none) := by
  obtain ⟨hc, hr, hs, hw⟩ := h
  unfold peek
  by_cases hn : n > b.size
  · simp [hn]
  · have hn' : n ≤ b.size := by omega
    rw [if_neg hn, if_neg (by omega : ¬ b.rPos > b.capacity), if_pos hn']
    have hcap : b.buf.length = b.capacity := rfl
    have key : ∀ (l : List UInt8), l.length = n →
        (∀ i, i < n → l[i]? = some (b.buf.getD ((b.rPos + i) % b.capacity) 0)) → l = b.contents.take n := by
      intro l hl hi
      apply List.ext_getElem?
      intro i
      by_cases hin : i < n
      · rw [hi i hin, List.getElem?_take, if_pos hin, contents_getElem?, if_pos (by omega)]
      · rw [List.getElem?_eq_none (by omega), List.getElem?_eq_none (by simp; omega)]
    dsimp only
    by_cases hsplit : min (b.capacity - b.rPos) n < n
    · rw [if_pos hsplit]
      have h1 : min (b.capacity - b.rPos) n = b.capacity - b.rPos := by omega
      rw [if_neg (by omega), h1]
      congr 2
      apply key
      · simp; omega
      · intro i hi
        by_cases hfst : i < b.capacity - b.rPos
        · rw [List.getElem?_append_left (by simp; omega), List.getElem?_take, if_pos hfst, List.getElem?_drop,
            mod_small (by omega), List.getD_eq_getElem?_getD, List.getElem?_eq_getElem (by omega)]
          simp
        · rw [List.getElem?_append_right (by simp; omega)]
          simp only [List.length_take, List.length_drop, hcap]
          rw [List.getElem?_take, if_pos (by omega), mod_wrap (by omega) (by omega),
            List.getD_eq_getElem?_getD]
          have : i - min (b.capacity - b.rPos) (b.capacity - b.rPos) = b.rPos + i - b.capacity := by omega
          rw [this, List.getElem?_eq_getElem (by omega)]
          simp
    · rw [if_neg hsplit]
      have h1 : min (b.capacity - b.rPos) n = n := by omega
      rw [h1]
      congr 2
      apply key
      · simp; omega
      · intro i hi
        rw [List.getElem?_take, if_pos hi, List.getElem?_drop, mod_small (by omega), List.getD_eq_getElem?_getD,
          List.getElem?_eq_getElem (by omega)]
        simp

theorem advanceRPos_spec (b : RingBuffer) (h : b.Inv) (n : Nat) (hn : n ≤ b.size) :
    ∃ b', b.advanceRPos n = .ok b' ∧ b'.Inv ∧ b'.contents = b.contents.drop n ∧ b'.capacity = b.capacity := by
  obtain ⟨hc, hr, hs, hw⟩ := h
  refine ⟨{ b with rPos := (b.rPos + n) % b.capacity, size := b.size - n }, ?_, ?_, ?_, rfl⟩
  · unfold advanceRPos
    rw [if_neg (by omega), if_neg (by omega)]
    dsimp only
    rw [if_neg]
    simp only [capacity] at *; omega
  · constructor
    · exact hc
    · exact Nat.mod_lt _ hc
    · simp only [capacity] at *; omega
    · show b.wPos = ((b.rPos + n) % b.capacity + (b.size - n)) % b.capacity
      rw [Nat.mod_add_mod, hw]; congr 1; omega
  · apply List.ext_getElem?
    intro i
    rw [List.getElem?_drop, contents_getElem?, contents_getElem?]
    have e : ((b.rPos + n) % b.capacity + i) % b.capacity = (b.rPos + (n + i)) % b.capacity := by
      rw [Nat.mod_add_mod, Nat.add_assoc]
    by_cases hi : i < b.size - n
    · rw [if_pos hi, if_pos (by omega)]
      simp only [capacity] at *
      rw [e]
    · rw [if_neg hi, if_neg (by omega)]

theorem read_spec (b : RingBuffer) (h : b.Inv) (n : Nat) :
    ∃ b', b.read n = .ok (b', if n ≤ b.size then some (b.contents.take n) else none) ∧ b'.Inv ∧
      b'.contents = (if n ≤ b.size then b.contents.drop n else b.contents) ∧ b'.capacity = b.capacity := by
  unfold read
  rw [peek_spec b h n]
  by_cases hn : n ≤ b.size
  · rw [if_pos hn, if_pos hn]
    obtain ⟨b', h1, h2, h3, h4⟩ := advanceRPos_spec b h n hn
    exact ⟨b', by simp [h1], h2, h3, h4⟩
  · rw [if_neg hn, if_neg hn]
    exact ⟨b, rfl, h, rfl, rfl⟩

theorem reserve_spec (b : RingBuffer) (h : b.Inv) (n : Nat) :
    ∃ b', b.reserve n = .ok b' ∧ b'.Inv ∧ b'.contents = b.contents ∧ b'.capacity = max b.capacity n := by
  unfold reserve
  by_cases hn : n ≤ b.capacity
  · rw [if_pos hn]; exact ⟨b, rfl, h, rfl, by omega⟩
  · rw [if_neg hn, peek_spec b h b.size, if_pos (Nat.le_refl _)]
    obtain ⟨hc, hr, hs, hw⟩ := h
    have hl : (b.contents.take b.size) = b.contents := by
      apply List.take_of_length_le; simp
    rw [hl]
    refine ⟨_, rfl, ?_, ?_, ?_⟩
    · constructor
      · simp [capacity]; simp only [capacity] at *; omega
      · simp [capacity]; simp only [capacity] at *; omega
      · simp [capacity]
      · simp only [capacity, List.length_append, contents_length, List.length_replicate]
        rw [Nat.mod_eq_of_lt] <;> simp only [capacity] at * <;> omega
    · apply List.ext_getElem?
      intro i
      rw [contents_getElem?]
      by_cases hi : i < b.size
      · rw [if_pos hi]
        simp only [capacity, List.length_append, contents_length, List.length_replicate, Nat.zero_add]
        simp only [capacity] at *
        rw [Nat.mod_eq_of_lt (by omega), List.getD_eq_getElem?_getD,
          List.getElem?_append_left (by simp; omega), List.getElem?_eq_getElem (by simp; omega)]
        simp
      · rw [if_neg hi, List.getElem?_eq_none (by simp; omega)]
    · simp [capacity]; simp only [capacity] at *; omega

theorem freeTotal (b : RingBuffer) (h : b.Inv) : total b.getWritingBuffers = b.capacity - b.size := by
  obtain ⟨hc, hr, hs, hw⟩ := h
  have hwl : b.wPos < b.capacity := by rw [hw]; exact Nat.mod_lt _ hc
  have h1 : total b.getWritingBuffers = b.freeOne + b.freeTwo := by
    unfold getWritingBuffers total
    by_cases ha : b.freeOne > 0 <;> by_cases hb : b.freeTwo > 0 <;> simp [ha, hb] <;> omega
  rw [h1]
  unfold freeTwo freeOne empty
  by_cases he : b.size = 0
  · simp [he]; omega
  · simp [he]; omega

/-- Writing the bytes into the free regions yields a buffer that has them at the positions after the stored ones and
is unchanged elsewhere. -/
theorem scatter_spec (b : RingBuffer) (h : b.Inv) (bytes : List UInt8) (hn : bytes.length ≤ b.capacity - b.size) :
    ∃ buf', scatter b.buf b.getWritingBuffers bytes = .ok buf' ∧ buf'.length = b.capacity ∧
      (∀ i, i < b.size → buf'.getD ((b.rPos + i) % b.capacity) 0 = b.buf.getD ((b.rPos + i) % b.capacity) 0) ∧
      (∀ i, i < bytes.length → buf'[(b.rPos + b.size + i) % b.capacity]? = bytes[i]?) := by
  obtain ⟨hc, hr, hs, hw⟩ := h
  have hwl : b.wPos < b.capacity := by rw [hw]; exact Nat.mod_lt _ hc
  have hcap : b.buf.length = b.capacity := rfl
  -- the first region: up to the end or up to the read position
  let f1 := b.freeOne
  let f2 := b.freeTwo
  have hf1 : f1 = min (b.capacity - b.wPos) (b.capacity - b.size) := by
    show b.freeOne = _
    unfold freeOne empty
    by_cases he : b.size = 0 <;> simp [he]
  have hf2 : f2 = (b.capacity - b.size) - f1 := by
    show b.freeTwo = _
    rw [hf1]
    unfold freeTwo freeOne empty
    by_cases he : b.size = 0 <;> simp [he]; omega
  -- normal form of scatter over two (possibly empty) regions
  have hone : b.wPos + (bytes.take f1).length ≤ b.buf.length := by
    rw [hcap, List.length_take]; omega
  have hpos1 : b.capacity - b.size > 0 → f1 > 0 := by omega
  let buf1 := b.buf.take b.wPos ++ bytes.take f1 ++ b.buf.drop (b.wPos + (bytes.take f1).length)
  let rest := bytes.drop f1
  let buf2 := buf1.take 0 ++ rest.take f2 ++ buf1.drop (0 + (rest.take f2).length)
  have hl1 : buf1.length = b.capacity := by
    simp only [buf1, List.length_append, List.length_take, List.length_drop]; rw [hcap]
    rw [List.length_take] at hone; omega
  have hrest : rest.length ≤ f2 := by simp only [rest, List.length_drop]; omega
  have htake2 : rest.take f2 = rest := List.take_of_length_le hrest
  have hl2 : buf2.length = b.capacity := by
    simp only [buf2, List.length_append, List.length_take, List.length_drop, hl1]; omega
  have hscat : scatter b.buf b.getWritingBuffers bytes = .ok buf2 := by
    have hs1 : store b.buf b.wPos (bytes.take f1) = .ok buf1 := by
      unfold store; rw [if_neg (by omega)]
    have hs2 : store buf1 0 (rest.take f2) = .ok buf2 := by
      unfold store; rw [if_neg]; rw [hl1, htake2]; omega
    unfold getWritingBuffers
    show scatter b.buf ((if f1 > 0 then [(b.wPos, f1)] else []) ++ (if f2 > 0 then [(0, f2)] else [])) bytes = _
    by_cases h1 : f1 > 0
    · by_cases h2 : f2 > 0
      · simp only [if_pos h1, if_pos h2, List.cons_append, List.nil_append, scatter, hs1]
        simp only [rest] at hs2; rw [hs2]
      · have hrn : rest = [] := List.length_eq_zero_iff.mp (by omega)
        have : buf2 = buf1 := by simp [buf2, hrn]
        simp only [if_pos h1, if_neg h2, List.append_nil, scatter, hs1, this]
    · have hz : b.capacity - b.size = 0 := by omega
      have hbn : bytes = [] := List.length_eq_zero_iff.mp (by omega)
      have h2 : ¬ f2 > 0 := by omega
      have hb1 : buf1 = b.buf := by simp [buf1, hbn]
      have : buf2 = b.buf := by simp [buf2, rest, hbn, hb1]
      simp only [if_neg h1, if_neg h2, List.append_nil, scatter, this]
  refine ⟨buf2, hscat, hl2, ?_, ?_⟩
  · -- old bytes unchanged
    intro i hi
    have hpi : (b.rPos + i) % b.capacity < b.capacity := Nat.mod_lt _ hc
    generalize hp : (b.rPos + i) % b.capacity = p at *
    -- p is not in a written region
    have hwcase : (b.rPos + b.size < b.capacity ∧ b.wPos = b.rPos + b.size) ∨
        (b.capacity ≤ b.rPos + b.size ∧ b.wPos = b.rPos + b.size - b.capacity) := by
      by_cases hlt : b.rPos + b.size < b.capacity
      · left; exact ⟨hlt, by rw [hw, Nat.mod_eq_of_lt hlt]⟩
      · right; exact ⟨by omega, by rw [hw, mod_wrap (by omega) (by omega)]⟩
    have hpcase : (b.rPos + i < b.capacity ∧ p = b.rPos + i) ∨
        (b.capacity ≤ b.rPos + i ∧ p = b.rPos + i - b.capacity) := by
      by_cases hlt : b.rPos + i < b.capacity
      · left; exact ⟨hlt, by rw [← hp, Nat.mod_eq_of_lt hlt]⟩
      · right; exact ⟨by omega, by rw [← hp, mod_wrap (by omega) (by omega)]⟩
    have hlb : (bytes.take f1).length = min f1 bytes.length := List.length_take ..
    have hrl : rest.length = bytes.length - f1 := by simp [rest]
    have h2 : ¬ p < rest.length := by omega
    have h2' : buf2[p]? = buf1[p]? := by
      simp only [buf2, htake2, List.take_zero, List.nil_append, Nat.zero_add]
      rw [List.getElem?_append_right (by omega), List.getElem?_drop]
      congr 1; omega
    have h1 : p < b.wPos ∨ b.wPos + (bytes.take f1).length ≤ p := by omega
    have h1' : buf1[p]? = b.buf[p]? := by
      simp only [buf1]
      rcases h1 with h1 | h1
      · rw [List.append_assoc, List.getElem?_append_left (by simp; omega), List.getElem?_take, if_pos h1]
      · rw [List.getElem?_append_right (by simp only [List.length_append, List.length_take] at *; omega),
          List.getElem?_drop]
        congr 1
        simp only [List.length_append, List.length_take] at *; omega
    rw [List.getD_eq_getElem?_getD, List.getD_eq_getElem?_getD, h2', h1']
  · intro i hi
    have hwcase : (b.rPos + b.size < b.capacity ∧ b.wPos = b.rPos + b.size) ∨
        (b.capacity ≤ b.rPos + b.size ∧ b.wPos = b.rPos + b.size - b.capacity) := by
      by_cases hlt : b.rPos + b.size < b.capacity
      · left; exact ⟨hlt, by rw [hw, Nat.mod_eq_of_lt hlt]⟩
      · right; exact ⟨by omega, by rw [hw, mod_wrap (by omega) (by omega)]⟩
    have hlb : (bytes.take f1).length = min f1 bytes.length := List.length_take ..
    have hrl : rest.length = bytes.length - f1 := by simp [rest]
    have hp : (b.rPos + b.size + i) % b.capacity =
        if b.wPos + i < b.capacity then b.wPos + i else b.wPos + i - b.capacity := by
      have : (b.rPos + b.size + i) % b.capacity = (b.wPos + i) % b.capacity := by
        rw [hw, Nat.mod_add_mod]
      rw [this]
      split
      · rw [Nat.mod_eq_of_lt (by assumption)]
      · rw [mod_wrap (by omega) (by omega)]
    rw [hp]
    by_cases hif : i < f1
    · -- first region
      have hlt : b.wPos + i < b.capacity := by omega
      rw [if_pos hlt]
      have hnr : rest.length ≤ b.wPos + i := by omega
      have h2' : buf2[b.wPos + i]? = buf1[b.wPos + i]? := by
        simp only [buf2, htake2, List.take_zero, List.nil_append, Nat.zero_add]
        rw [List.getElem?_append_right (by omega), List.getElem?_drop]
        congr 1; omega
      rw [h2']
      simp only [buf1]
      rw [List.append_assoc, List.getElem?_append_right (by simp; omega), List.getElem?_append_left
        (by simp only [List.length_take]; omega), List.getElem?_take, if_pos (by simp only [List.length_take]; omega)]
      congr 1
      simp only [List.length_take]; omega
    · -- second region
      have hge : ¬ b.wPos + i < b.capacity := by omega
      rw [if_neg hge]
      simp only [buf2, htake2, List.take_zero, List.nil_append]
      have e : b.wPos + i - b.capacity = i - f1 := by omega
      rw [e, List.getElem?_append_left (by omega)]
      simp only [rest]
      rw [List.getElem?_drop]
      congr 1; omega

theorem receive_spec (b : RingBuffer) (h : b.Inv) (bytes : List UInt8) :
    ∃ b', b.receive bytes = .ok (b', min bytes.length (b.capacity - b.size)) ∧ b'.Inv ∧
      b'.contents = b.contents ++ bytes.take (b.capacity - b.size) ∧ b'.capacity = b.capacity := by
  have hft := freeTotal b h
  unfold receive
  dsimp only
  rw [hft]
  have htake : bytes.take (min bytes.length (b.capacity - b.size)) = bytes.take (b.capacity - b.size) := by
    by_cases hle : bytes.length ≤ b.capacity - b.size
    · rw [Nat.min_eq_left hle, List.take_of_length_le (Nat.le_refl _), List.take_of_length_le hle]
    · rw [Nat.min_eq_right (by omega)]
  rw [htake]
  have hlen : (bytes.take (b.capacity - b.size)).length = min bytes.length (b.capacity - b.size) := by
    rw [List.length_take]; omega
  obtain ⟨buf', hs, hl, hold, hnew⟩ := scatter_spec b h (bytes.take (b.capacity - b.size)) (by omega)
  rw [hs]
  dsimp only
  generalize hk : min bytes.length (b.capacity - b.size) = k at *
  obtain ⟨hc, hr, hsz, hw⟩ := h
  have hk' : b.size + k ≤ b.capacity := by omega
  refine ⟨{ buf := buf', size := b.size + k, wPos := (b.wPos + k) % b.capacity, rPos := b.rPos }, ?_, ?_, ?_, hl⟩
  · unfold advanceWPos
    simp only [capacity, hl] at *
    rw [if_neg (by omega), if_neg (by omega)]
  · constructor
    · simp only [capacity, hl] at *; omega
    · simp only [capacity, hl] at *; omega
    · simp only [capacity, hl] at *; omega
    · simp only [capacity, hl] at *
      rw [hw, Nat.mod_add_mod, Nat.add_assoc]
  · apply List.ext_getElem?
    intro i
    rw [contents_getElem?]
    have hcap : ({ buf := buf', size := b.size + k, wPos := (b.wPos + k) % b.capacity, rPos := b.rPos } :
      RingBuffer).capacity = b.capacity := hl
    rw [hcap]
    dsimp only
    by_cases hi : i < b.size
    · rw [if_pos (by omega), List.getElem?_append_left (by simpa using hi), contents_getElem?, if_pos hi, hold i hi]
    · rw [List.getElem?_append_right (by simp; omega), contents_length]
      by_cases hi2 : i < b.size + k
      · rw [if_pos hi2]
        have := hnew (i - b.size) (by rw [hlen]; omega)
        have e : b.rPos + b.size + (i - b.size) = b.rPos + i := by omega
        rw [e] at this
        rw [← this, List.getD_eq_getElem?_getD]
        have hlt : (b.rPos + i) % b.capacity < buf'.length := by
          rw [hl]; exact Nat.mod_lt _ hc
        rw [List.getElem?_eq_getElem hlt]; rfl
      · rw [if_neg hi2, List.getElem?_eq_none (by rw [hlen]; omega)]

/-- One step refines the queue. -/
theorem step_refines (b : RingBuffer) (h : b.Inv) (op : Op) :
    ∃ b' o, b.step op = .ok (b', o) ∧ b'.Inv ∧
      Spec.ByteQueue.step ⟨b.capacity, b.contents⟩ op = (⟨b'.capacity, b'.contents⟩, o) := by
  cases op with
  | receive bytes =>
    obtain ⟨b', h1, h2, h3, h4⟩ := receive_spec b h bytes
    refine ⟨b', _, by simp only [step, h1]; rfl, h2, ?_⟩
    simp [Spec.ByteQueue.step, h3, h4]
  | peek n =>
    refine ⟨b, .bytes (if n ≤ b.size then some (b.contents.take n) else none), by simp only [step, peek_spec b h n], h,
      ?_⟩
    simp [Spec.ByteQueue.step]
  | read n =>
    obtain ⟨b', h1, h2, h3, h4⟩ := read_spec b h n
    refine ⟨b', _, by simp only [step, h1]; rfl, h2, ?_⟩
    by_cases hn : n ≤ b.size
    · simp [Spec.ByteQueue.step, h3, h4, hn]
    · simp [Spec.ByteQueue.step, h3, h4, hn]
  | reserve n =>
    obtain ⟨b', h1, h2, h3, h4⟩ := reserve_spec b h n
    refine ⟨b', .unit, by simp only [step, h1], h2, ?_⟩
    simp [Spec.ByteQueue.step, h3, h4]

theorem run_refines (ops : List Op) : ∀ (b : RingBuffer), b.Inv →
    ∃ b' os, b.run ops = .ok (b', os) ∧ b'.Inv ∧
      Spec.ByteQueue.run ⟨b.capacity, b.contents⟩ ops = (⟨b'.capacity, b'.contents⟩, os) := by
  induction ops with
  | nil => intro b h; exact ⟨b, [], rfl, h, rfl⟩
  | cons op ops ih =>
    intro b h
    obtain ⟨b1, o, h1, h2, h3⟩ := step_refines b h op
    obtain ⟨b2, os, h4, h5, h6⟩ := ih b1 h2
    refine ⟨b2, o :: os, ?_, h5, ?_⟩
    · unfold run; rw [h1]; dsimp only; rw [h4]
    · simp [Spec.ByteQueue.run, h3, h6]

end SilKit.RingBuffer

namespace SilKit.Spec.ByteQueue

theorem step_fifo (q : ByteQueue) (op : RingBuffer.Op) :
    q.items ++ written [op] [(q.step op).2] = readOut [op] [(q.step op).2] ++ (q.step op).1.items := by
  cases op with
  | receive bytes =>
    simp [step, written, readOut]; omega
  | peek n => simp [step, written, readOut]
  | read n =>
    by_cases h : n ≤ q.items.length <;> simp [step, written, readOut, h]
  | reserve n => simp [step, written, readOut]

theorem written_cons (op : RingBuffer.Op) (o : RingBuffer.Obs) (ops os) :
    written (op :: ops) (o :: os) = written [op] [o] ++ written ops os := by
  cases op <;> cases o <;> simp [written]

theorem readOut_cons (op : RingBuffer.Op) (o : RingBuffer.Obs) (ops os) :
    readOut (op :: ops) (o :: os) = readOut [op] [o] ++ readOut ops os := by
  cases op <;> cases o with
  | bytes bs => cases bs <;> simp [readOut]
  | _ => simp [readOut]

theorem run_fifo (ops : List RingBuffer.Op) : ∀ q : ByteQueue,
    q.items ++ written ops (q.run ops).2 = readOut ops (q.run ops).2 ++ (q.run ops).1.items := by
  induction ops with
  | nil => intro q; simp [run, written, readOut]
  | cons op ops ih =>
    intro q
    have h1 := step_fifo q op
    have h2 := ih (q.step op).1
    simp only [run]
    rw [written_cons, readOut_cons, ← List.append_assoc, h1, List.append_assoc, h2, List.append_assoc]

end SilKit.Spec.ByteQueue
