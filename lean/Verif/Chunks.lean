import Verif.Basic
/-!
# A message as a sequence of blocks

Facts about cutting a byte string into blocks of `n` bytes, shared by the functions that buffer their input.
-/

namespace Noise

/-- The first `k` blocks of `n` bytes of `m`. -/
def chunks (n k : Nat) (m : Bytes) : List Bytes := (List.range k).map fun i => (m.drop (n * i)).take n

theorem chunks_zero (n : Nat) (m : Bytes) : chunks n 0 m = [] := rfl

theorem chunks_succ (n k : Nat) (m : Bytes) : chunks n (k + 1) m = m.take n :: chunks n k (m.drop n) := by
  simp only [chunks, List.range_succ_eq_map, List.map_cons, List.map_map, Nat.mul_zero, List.drop_zero,
    List.drop_drop, List.cons.injEq, true_and]
  apply List.map_congr_left
  intro i _
  simp only [Function.comp, Nat.succ_eq_add_one, Nat.mul_add, Nat.mul_one, Nat.add_comm]

theorem chunks_snoc (n k : Nat) (m : Bytes) : chunks n (k + 1) m = chunks n k m ++ [(m.drop (n * k)).take n] := by
  simp [chunks, List.range_succ]

theorem chunks_append (n a b : Nat) (m d : Bytes) (h : m.length = n * a) :
    chunks n (a + b) (m ++ d) = chunks n a m ++ chunks n b d := by
  induction a generalizing m with
  | zero => simp at h; simp [h, chunks_zero]
  | succ a ih =>
    rw [Nat.mul_succ] at h
    rw [show a + 1 + b = (a + b) + 1 by omega, chunks_succ, chunks_succ, List.take_append_of_le_length (by omega),
      List.drop_append_of_le_length (by omega), ih (m.drop n) (by simp; omega), List.cons_append]

theorem chunks_one (n : Nat) (m : Bytes) (h : m.length = n) : chunks n 1 m = [m] := by
  rw [chunks_succ, chunks_zero, ← h, List.take_length]

theorem chunks_prefix (n k : Nat) (m d : Bytes) (h : n * k ≤ m.length) : chunks n k (m ++ d) = chunks n k m := by
  apply List.map_congr_left
  intro i hi
  rw [List.mem_range] at hi
  have h1 : n * (i + 1) ≤ n * k := Nat.mul_le_mul_left n hi
  rw [Nat.mul_add, Nat.mul_one] at h1
  rw [List.drop_append_of_le_length (by omega), List.take_append_of_le_length (by simp; omega)]

theorem chunks_length (n k : Nat) (m : Bytes) : (chunks n k m).length = k := by simp [chunks]

theorem mem_chunks {n k : Nat} {m b : Bytes} (h : n * k ≤ m.length) (hb : b ∈ chunks n k m) : b.length = n := by
  simp only [chunks, List.mem_map, List.mem_range] at hb
  obtain ⟨i, hi, rfl⟩ := hb
  have h1 : n * (i + 1) ≤ n * k := Nat.mul_le_mul_left n hi
  rw [Nat.mul_add, Nat.mul_one] at h1
  simp; omega

/-- Storing after a known prefix. -/
theorem store_after {b x s : Bytes} (hx : b.take x.length = x) (h : x.length + s.length ≤ b.length) :
    ∃ b', store b x.length s = .ok b' ∧ b'.length = b.length ∧ b'.take (x ++ s).length = x ++ s := by
  have hs := store_ok (data := b) (src := s) (off := x.length) h
  refine ⟨_, hs, store_length hs, ?_⟩
  rw [hx, List.take_left]

end Noise
