import Verif.Lemmas.RingBuffer
/-!
# C01 – the receive buffer is a loss-free byte FIFO
-/
namespace SilKit.Props

/-- **C01 (refinement).** Started with any positive capacity, every finite history of receive/peek/read/reserve
operations runs without undefined behaviour and without exception, and the caller observes exactly what a plain byte
queue of the same capacity shows. -/
theorem C01_ringbuffer_is_byte_queue (cap : Nat) (hcap : 0 < cap) (ops : List RingBuffer.Op) :
    ∃ b, (RingBuffer.mk' cap).run ops = .ok (b, ((Spec.ByteQueue.empty cap).run ops).2) := by
  have h := RingBuffer.run_refines ops _ (RingBuffer.mk'_inv hcap)
  obtain ⟨b, os, h1, _, h3⟩ := h
  refine ⟨b, ?_⟩
  have : (⟨(RingBuffer.mk' cap).capacity, (RingBuffer.mk' cap).contents⟩ : Spec.ByteQueue)
      = Spec.ByteQueue.empty cap := by
    simp [RingBuffer.mk', RingBuffer.capacity, RingBuffer.contents, Spec.ByteQueue.empty]
  rw [this] at h3
  rw [h1, h3]

/-- **C01 (FIFO).** In every history the bytes read out so far, followed by the bytes still stored, are the bytes
accepted so far: nothing is lost, duplicated, altered or reordered. The number of bytes still stored is what `Size()`
reports. -/
theorem C01_ringbuffer_fifo (cap : Nat) (hcap : 0 < cap) (ops : List RingBuffer.Op) :
    ∃ b os stored, (RingBuffer.mk' cap).run ops = .ok (b, os) ∧ stored.length = b.size ∧
      Spec.ByteQueue.written ops os = Spec.ByteQueue.readOut ops os ++ stored ∧
      b.peek b.size = .ok (some stored) := by
  obtain ⟨b, os, h1, h2, h3⟩ := RingBuffer.run_refines ops _ (RingBuffer.mk'_inv hcap)
  have h4 := Spec.ByteQueue.run_fifo ops ⟨(RingBuffer.mk' cap).capacity, (RingBuffer.mk' cap).contents⟩
  rw [h3] at h4
  refine ⟨b, os, b.contents, h1, by simp, ?_, ?_⟩
  · simpa [RingBuffer.contents, RingBuffer.mk'] using h4
  · rw [RingBuffer.peek_spec b h2, if_pos (Nat.le_refl _)]
    rw [List.take_of_length_le (by simp)]

/-- A receive never accepts more than the free space, and accepts everything if there is room (so a positive amount of
free space always makes progress). -/
theorem C01_receive_accepts_what_fits (q : Spec.ByteQueue) (bytes : List UInt8) :
    (q.step (.receive bytes)).2 = .accepted (min bytes.length (q.cap - q.items.length)) := rfl

/-- Non-vacuity: a history with wrap-around and growth on a buffer of capacity 3. -/
example : (RingBuffer.mk' 3).run
    [.receive [1, 2], .read 1, .receive [3, 4, 5], .reserve 5, .receive [6, 7, 8], .read 4, .read 2, .peek 1] =
    .ok ({ buf := [2, 3, 4, 6, 7], size := 1, wPos := 0, rPos := 4 },
      [.accepted 2, .bytes (some [1]), .accepted 2, .unit, .accepted 2, .bytes (some [2, 3, 4, 6]), .bytes none,
       .bytes (some [7])]) := by decide

/-- The precondition `0 < cap` is needed: with capacity 0 the first operation that moves a position computes `% 0`. -/
example : (RingBuffer.mk' 0).run [.read 0] = .ub "modulo by zero" := by decide

end SilKit.Props
