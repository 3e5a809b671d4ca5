import Verif.ProtobufRead
/-!
# Dynamic arrays are lists (C48)
-/

namespace Noise
namespace DynArray

/-- The array holds the elements `l`, all of one size, and has room for `max` elements. -/
structure Holds (a : DynArray) (size : Nat) (l : List Bytes) : Prop where
  elems : ∀ b ∈ l, b.length = size
  count : a.count = l.length
  room : a.count ≤ a.max
  mem : match a.mem with
    | none => a.max = 0
    | some m => ∃ unused, m = l.flatten ++ unused ∧ m.length = a.max * size

/-- The array before the first call: all three variables zero. -/
def empty : DynArray := ⟨none, 0, 0⟩

theorem empty_holds (size : Nat) : empty.Holds size [] := ⟨by simp, rfl, Nat.le_refl _, rfl⟩

theorem flatten_length_of {l : List Bytes} {size : Nat} (h : ∀ b ∈ l, b.length = size) :
    l.flatten.length = l.length * size := by
  induction l with
  | nil => simp
  | cons b l ih =>
    rw [List.flatten_cons, List.length_append, ih fun b hb => h b (List.mem_cons_of_mem _ hb),
      h b List.mem_cons_self, List.length_cons, Nat.add_mul]
    omega

theorem lt_growArray (n : Nat) : n < growArray n := by
  unfold growArray
  split
  · omega
  · split <;> omega

/-- Growing keeps the contents and makes room for another element. -/
theorem grow_holds {a : DynArray} {size : Nat} {l : List Bytes} (h : a.Holds size l) (calloc : Bool) :
    (a.grow size calloc = .ok none ∧ calloc = false ∧ a.count = a.max) ∨
      ∃ b, a.grow size calloc = .ok (some b) ∧ b.Holds size l ∧ b.count < b.max ∧ b.mem ≠ none := by
  have hr := h.room
  unfold grow
  by_cases hg : a.count ≥ a.max
  · rw [if_pos hg]
    cases calloc with
    | false => exact .inl ⟨rfl, rfl, by omega⟩
    | true =>
      right
      have hlt := lt_growArray a.max
      have hle : l.length * size ≤ growArray a.max * size := Nat.mul_le_mul_right _ (by have := h.count; omega)
      have hfl := flatten_length_of h.elems
      simp only [Bool.true_eq_false, if_false]
      by_cases hc : a.count = 0
      · have hl : l = [] := List.length_eq_zero_iff.mp (by rw [← h.count, hc])
        subst hl
        simp only [hc, ne_eq, not_true_eq_false, if_false]
        refine ⟨_, rfl, ⟨h.elems, rfl, by simp, ?_⟩, by simp; omega, by simp⟩
        exact ⟨_, (List.nil_append _).symm, by simp⟩
      · have hm := h.mem
        cases hmem : a.mem with
        | none => rw [hmem] at hm; simp only at hm; omega
        | some m =>
          rw [hmem] at hm
          obtain ⟨u, hu, hul⟩ := hm
          have hload : load m 0 (a.count * size) = .ok l.flatten := by
            rw [load_ok (by rw [hul, Nat.zero_add]; exact Nat.mul_le_mul_right _ hr), List.drop_zero, hu,
              h.count, ← hfl, List.take_left]
          have hstore : store (List.replicate (growArray a.max * size) (0 : UInt8)) 0 l.flatten =
              .ok (l.flatten ++ (List.replicate (growArray a.max * size) 0).drop l.flatten.length) := by
            rw [store_ok (by rw [List.length_replicate]; omega)]
            simp
          simp only [ne_eq, hc, not_false_eq_true, if_true, hload, Out.bind_ok, hstore]
          refine ⟨_, rfl, ⟨h.elems, h.count, by simp; omega, _, rfl, ?_⟩, by simp; omega, by simp⟩
          rw [List.length_append, List.length_drop, List.length_replicate]
          show _ = growArray a.max * size
          omega
  · rw [if_neg hg]
    refine .inr ⟨a, rfl, h, by omega, ?_⟩
    intro hn
    have hm := h.mem
    rw [hn] at hm
    simp only at hm
    omega

/-- Writing the element `count` and counting it. -/
theorem push_holds {b : DynArray} {l : List Bytes} {value : Bytes} (h : b.Holds value.length l)
    (hlt : b.count < b.max) (hn : b.mem ≠ none) :
    ∃ c, b.write (b.count * value.length) value = .ok c ∧ c.count = b.count ∧
      Holds { c with count := c.count + 1 } value.length (l ++ [value]) := by
  have hm := h.mem
  have hfl := flatten_length_of h.elems
  cases hmem : b.mem with
  | none => exact absurd hmem hn
  | some m =>
    rw [hmem] at hm
    obtain ⟨u, hu, hul⟩ := hm
    have hle : (b.count + 1) * value.length ≤ b.max * value.length := Nat.mul_le_mul_right _ hlt
    rw [Nat.add_mul, Nat.one_mul] at hle
    have hst : store m (b.count * value.length) value =
        .ok (l.flatten ++ value ++ m.drop (b.count * value.length + value.length)) := by
      rw [store_ok (by omega)]
      congr 3
      rw [hu, h.count, ← hfl, List.take_left]
    unfold write
    rw [hmem]
    simp only [hst, Out.bind_ok]
    refine ⟨_, rfl, rfl, ?_, by simp [h.count], hlt,
      m.drop (b.count * value.length + value.length), ?_, ?_⟩
    · intro x hx
      rcases List.mem_append.mp hx with hx | hx
      · exact h.elems x hx
      · rw [List.mem_singleton.mp hx]
    · simp
    · simp only [List.length_append, List.length_drop]
      have := h.count
      rw [hfl, ← this]
      omega

/-- **C48**, adding is appending; if there is no room and memory cannot be had, the array is unchanged and
the error says so. -/
theorem C48_add {a : DynArray} {l : List Bytes} {value : Bytes} (h : a.Holds value.length l) (calloc : Bool) :
    (a.add value calloc = .ok (.noMemory, a) ∧ calloc = false ∧ a.count = a.max) ∨
      ∃ b, a.add value calloc = .ok (.none, b) ∧ b.Holds value.length (l ++ [value]) := by
  unfold add
  rcases grow_holds h calloc with ⟨hg, hc, hm⟩ | ⟨b, hg, hb, hlt, hn⟩
  · left
    rw [hg]
    exact ⟨rfl, hc, hm⟩
  · right
    obtain ⟨c, hw, -, hc⟩ := push_holds hb hlt hn
    rw [hg]
    simp only [Out.bind_ok, hw]
    exact ⟨_, rfl, hc⟩

theorem flatten_take {l : List Bytes} {size : Nat} (h : ∀ b ∈ l, b.length = size) (n : Nat) :
    (l.take n).flatten = l.flatten.take (n * size) ∧ (l.drop n).flatten = l.flatten.drop (n * size) := by
  induction n generalizing l with
  | zero => simp
  | succ n ih =>
    cases l with
    | nil => simp
    | cons b l =>
      have hb := h b List.mem_cons_self
      obtain ⟨h1, h2⟩ := ih fun b hb => h b (List.mem_cons_of_mem _ hb)
      constructor
      · rw [List.take_succ_cons, List.flatten_cons, List.flatten_cons, h1, Nat.add_mul, Nat.one_mul,
          List.take_append, hb, List.take_of_length_le (l := b) (by omega), Nat.add_sub_cancel]
      · rw [List.drop_succ_cons, List.flatten_cons, h2, Nat.add_mul, Nat.one_mul, List.drop_append, hb,
          List.drop_of_length_le (l := b) (by omega), List.nil_append, Nat.add_sub_cancel]

/-- **C48**, inserting puts the value before the element with the given index, or at the end if there is
none. -/
theorem C48_insert {a : DynArray} {l : List Bytes} {value : Bytes} (h : a.Holds value.length l) (index : Nat)
    (calloc : Bool) :
    (a.insert index value calloc = .ok (.noMemory, a) ∧ calloc = false ∧ a.count = a.max) ∨
      ∃ b, a.insert index value calloc = .ok (.none, b) ∧
        b.Holds value.length (l.take index ++ value :: l.drop index) := by
  unfold insert
  by_cases hi : index ≥ a.count
  · rw [if_pos hi]
    have hl := h.count
    rcases C48_add h calloc with ⟨hg, hc⟩ | ⟨b, hg, hb⟩
    · exact .inl ⟨hg, hc⟩
    · right
      rw [List.take_of_length_le (by omega), List.drop_of_length_le (by omega)]
      exact ⟨b, hg, hb⟩
  · rw [if_neg hi]
    rcases grow_holds h calloc with ⟨hg, hc, hm⟩ | ⟨b, hg, hb, hlt, hn⟩
    · left
      rw [hg]
      exact ⟨rfl, hc, hm⟩
    · right
      rw [hg]
      simp only [Out.bind_ok]
      have hl := h.count
      have hm := hb.mem
      have hbc := hb.count
      have hfl := flatten_length_of h.elems
      obtain ⟨ht, hd⟩ := flatten_take h.elems index
      cases hmem : b.mem with
      | none => exact absurd hmem hn
      | some m =>
        rw [hmem] at hm
        obtain ⟨u, hu, hul⟩ := hm
        have hle : (b.count + 1) * value.length ≤ b.max * value.length := Nat.mul_le_mul_right _ hlt
        have hil : index * value.length + (l.length - index) * value.length = l.length * value.length := by
          rw [← Nat.add_mul]; congr 1; omega
        rw [Nat.add_mul, Nat.one_mul, hbc] at hle
        have hload : load m (index * value.length) ((b.count - index) * value.length) =
            .ok (l.drop index).flatten := by
          rw [hbc, load_ok (by omega), hu, List.drop_append_of_le_length (by omega), hd,
            List.take_append_of_le_length (by rw [List.length_drop]; omega), List.take_of_length_le]
          rw [List.length_drop]; omega
        have hdl : (l.drop index).flatten.length = (l.length - index) * value.length := by
          rw [hd, List.length_drop, hfl]; omega
        have htl : (l.take index).flatten.length = index * value.length := by
          rw [ht, List.length_take, hfl]; omega
        have e1 : (index + 1) * value.length = index * value.length + value.length := by
          rw [Nat.add_mul, Nat.one_mul]
        have hs1 : store m ((index + 1) * value.length) (l.drop index).flatten =
            .ok (m.take ((index + 1) * value.length) ++ (l.drop index).flatten ++
              m.drop ((index + 1) * value.length + (l.drop index).flatten.length)) := by
          rw [store_ok (by omega)]
        have hml : (m.take ((index + 1) * value.length)).length = (index + 1) * value.length := by
          rw [List.length_take]; omega
        have hs2 : store (m.take ((index + 1) * value.length) ++ (l.drop index).flatten ++
              m.drop ((index + 1) * value.length + (l.drop index).flatten.length)) (index * value.length) value =
            .ok ((l.take index).flatten ++ value ++ ((l.drop index).flatten ++
              m.drop ((index + 1) * value.length + (l.drop index).flatten.length))) := by
          rw [store_ok (by simp only [List.length_append, hml]; omega)]
          congr 2
          · congr 1
            rw [List.append_assoc, List.take_append_of_le_length (by omega), List.take_take,
              Nat.min_eq_left (by omega), hu, List.take_append_of_le_length (by omega), ht]
          · rw [← e1, List.append_assoc, List.drop_append_of_le_length (by omega),
              List.drop_of_length_le (by omega), List.nil_append]
        simp only [hload, Out.bind_ok, hs1, hs2]
        refine ⟨_, rfl, ?_, ?_, hlt, m.drop ((index + 1) * value.length + (l.drop index).flatten.length), ?_, ?_⟩
        · intro x hx
          rcases List.mem_append.mp hx with hx | hx
          · exact h.elems x (List.mem_of_mem_take hx)
          · rcases List.mem_cons.mp hx with rfl | hx
            · rfl
            · exact h.elems x (List.mem_of_mem_drop hx)
        · simp only [List.length_append, List.length_cons, List.length_take, List.length_drop]
          omega
        · simp
        · simp only [List.length_append, List.length_drop, hdl, htl]
          omega

/-- A call on an array of elements of one size; the flag says whether memory can be had. -/
inductive Op
  | add (value : Bytes) (calloc : Bool)
  | insert (index : Nat) (value : Bytes) (calloc : Bool)

/-- The value of a call. -/
def Op.value : Op → Bytes
  | .add v _ => v
  | .insert _ v _ => v

/-- A call. -/
def Op.step (a : DynArray) : Op → Out (Err × DynArray)
  | .add v c => a.add v c
  | .insert i v c => a.insert i v c

/-- What a call does to the list, if it succeeds. -/
def Op.list (l : List Bytes) : Op → List Bytes
  | .add v _ => l ++ [v]
  | .insert i v _ => l.take i ++ v :: l.drop i

/-- A sequence of calls: their results and the final array. -/
def Op.run (a : DynArray) : List Op → Out (List Err × DynArray)
  | [] => .ok ([], a)
  | op :: ops => do
    let (e, a) ← op.step a
    let (es, a) ← Op.run a ops
    pure (e :: es, a)

/-- The list after a sequence of calls with the given results. -/
def Op.lists (l : List Bytes) : List Op → List Err → List Bytes
  | op :: ops, e :: es => Op.lists (if e = .none then op.list l else l) ops es
  | _, _ => l

/-- **C48**, every sequence of calls with any allocation failures: no undefined behaviour, every result is
success or "no memory", and the array holds what the successful calls put into the list. -/
theorem C48_run {a : DynArray} {size : Nat} {l : List Bytes} (h : a.Holds size l) (ops : List Op)
    (hs : ∀ op ∈ ops, op.value.length = size) :
    ∃ es b, Op.run a ops = .ok (es, b) ∧ es.length = ops.length ∧
      (∀ e ∈ es, e = .none ∨ e = .noMemory) ∧ b.Holds size (Op.lists l ops es) := by
  induction ops generalizing a l with
  | nil => exact ⟨[], a, rfl, rfl, by simp, h⟩
  | cons op ops ih =>
    have hv := hs op List.mem_cons_self
    have hstep : (op.step a = .ok (.noMemory, a)) ∨
        ∃ b, op.step a = .ok (.none, b) ∧ b.Holds size (op.list l) := by
      cases op with
      | add v c =>
        have hv : v.length = size := hv
        subst hv
        rcases C48_add h c with ⟨h1, -⟩ | h1
        · exact .inl h1
        · exact .inr h1
      | insert i v c =>
        have hv : v.length = size := hv
        subst hv
        rcases C48_insert h i c with ⟨h1, -⟩ | h1
        · exact .inl h1
        · exact .inr h1
    rcases hstep with hst | ⟨b, hst, hb⟩
    · obtain ⟨es, b, hr, hl, he, hh⟩ := ih h fun op hop => hs op (List.mem_cons_of_mem _ hop)
      refine ⟨.noMemory :: es, b, ?_, by simp [hl], ?_, ?_⟩
      · simp only [Op.run, hst, Out.bind_ok, hr]; rfl
      · intro e hm
        rcases List.mem_cons.mp hm with rfl | hm
        · exact .inr rfl
        · exact he e hm
      · simpa [Op.lists] using hh
    · obtain ⟨es, b, hr, hl, he, hh⟩ := ih hb fun op hop => hs op (List.mem_cons_of_mem _ hop)
      refine ⟨.none :: es, b, ?_, by simp [hl], ?_, ?_⟩
      · simp only [Op.run, hst, Out.bind_ok, hr]; rfl
      · intro e hm
        rcases List.mem_cons.mp hm with rfl | hm
        · exact .inl rfl
        · exact he e hm
      · simpa [Op.lists] using hh

/-- Five elements of two bytes, the fifth call growing the array, and an insertion that fails. -/
example : Op.run empty [.add [1, 1] true, .add [2, 2] true, .insert 0 [3, 3] false, .insert 1 [4, 4] true,
      .insert 9 [5, 5] false, .add [6, 6] true] =
    .ok ([.none, .none, .none, .none, .noMemory, .none],
      ⟨some [3, 3, 4, 4, 1, 1, 2, 2, 6, 6, 0, 0, 0, 0, 0, 0], 5, 8⟩) := by decide +kernel

end DynArray

namespace BlockArray

/-- The array holds the byte strings `l`, each followed by a zero byte where `nul` says so. -/
structure Holds (a : BlockArray) (nul : Bytes → Bool) (l : List Bytes) : Prop where
  count : a.count = l.length
  room : a.count ≤ a.max
  cells : a.slots.length = a.max
  slots : a.slots.take a.count = l.map fun b => (some (if nul b then b ++ [0] else b), b.length)

/-- The array before the first call. -/
def empty : BlockArray := ⟨[], 0, 0⟩

theorem empty_holds (nul : Bytes → Bool) : empty.Holds nul [] := ⟨rfl, Nat.le_refl _, rfl, rfl⟩

theorem put_holds {a : BlockArray} {nul : Bytes → Bool} {l : List Bytes} (h : a.Holds nul l)
    (hlt : a.count < a.max) (value : Bytes) :
    Holds { a with slots := a.slots.set a.count (some (if nul value then value ++ [0] else value), value.length),
                   count := a.count + 1 } nul (l ++ [value]) := by
  have hc := h.cells
  refine ⟨by simp [h.count], hlt, by simp [hc], ?_⟩
  simp only [List.map_append, List.map_cons, List.map_nil, ← h.slots]
  rw [List.take_add_one, List.getElem?_set_self (by omega)]
  simp only [List.take_set, Option.toList_some]
  rw [List.set_eq_of_length_le (by rw [List.length_take]; omega)]

/-- **C48**, adding a block is appending a copy of it; a failure of any allocation leaves the array as it
was. -/
theorem C48_add_block {a : BlockArray} {nul : Bytes → Bool} {l : List Bytes} (h : a.Holds nul l)
    (value : Bytes) (malloc calloc : Bool) :
    (a.add value (nul value) malloc calloc = .ok (.noMemory, a) ∧ (malloc = false ∨ calloc = false)) ∨
      ∃ b, a.add value (nul value) malloc calloc = .ok (.none, b) ∧ b.Holds nul (l ++ [value]) := by
  have hr := h.room
  have hc := h.cells
  unfold add
  cases malloc with
  | false => exact .inl ⟨rfl, .inl rfl⟩
  | true =>
    simp only [Bool.true_eq_false, if_false]
    by_cases hg : a.count ≥ a.max
    · rw [if_pos hg]
      cases calloc with
      | false => exact .inl ⟨rfl, .inr rfl⟩
      | true =>
        right
        have hlt := DynArray.lt_growArray a.max
        simp only [Bool.true_eq_false, if_false]
        rw [if_pos (by omega)]
        have hb : Holds (BlockArray.mk (a.slots.take a.count ++
            List.replicate (growArray a.max - a.count) (none, 0)) a.count (growArray a.max)) nul l := by
          refine ⟨h.count, by simp; omega, ?_, ?_⟩
          · simp only [List.length_append, List.length_take, List.length_replicate]; omega
          · rw [← h.slots]
            simp only
            rw [List.take_append_of_le_length (by rw [List.length_take]; omega), List.take_take,
              Nat.min_self]
        have := put_holds hb (by simp; omega) value
        rw [if_pos]
        · exact ⟨_, rfl, this⟩
        · simp only [List.length_append, List.length_take, List.length_replicate]; omega
    · rw [if_neg hg, if_pos (by omega)]
      exact .inr ⟨_, rfl, put_holds h (by omega) value⟩

/-- **C48**, for strings: every copy is followed by a zero byte. -/
theorem C48_add_string {a : BlockArray} {l : List Bytes} (h : a.Holds (fun _ => true) l) (value : Bytes)
    (malloc calloc : Bool) :
    (a.addString value malloc calloc = .ok (.noMemory, a) ∧ (malloc = false ∨ calloc = false)) ∨
      ∃ b, a.addString value malloc calloc = .ok (.none, b) ∧ b.Holds (fun _ => true) (l ++ [value]) :=
  C48_add_block h value malloc calloc

/-- **C48**, for byte strings: the copy of an empty string has one byte. -/
theorem C48_add_bytes {a : BlockArray} {l : List Bytes} (h : a.Holds (fun b => decide (b.length = 0)) l)
    (value : Bytes) (malloc calloc : Bool) :
    (a.addBytes value malloc calloc = .ok (.noMemory, a) ∧ (malloc = false ∨ calloc = false)) ∨
      ∃ b, a.addBytes value malloc calloc = .ok (.none, b) ∧
        b.Holds (fun b => decide (b.length = 0)) (l ++ [value]) :=
  C48_add_block h value malloc calloc

example : ∃ b, empty.addString [65, 66] true true = .ok (.none, b) ∧ b.Holds (fun _ => true) [[65, 66]] := by
  rcases C48_add_string (empty_holds _) [65, 66] true true with ⟨-, h⟩ | h
  · simp at h
  · exact h

end BlockArray
end Noise
