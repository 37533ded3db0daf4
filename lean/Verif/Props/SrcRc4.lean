import Verif.Rust.Rc4Api
import Verif.Proof.SrcRc4
import Verif.Props.Others
/-!
# C78: the text of `rc4` is RC4
-/
namespace Verif
open Spec Rust

theorem Rust.Rc4.map_zip (a b : List U8) (h : a.length = b.length) :
    (List.zipWith InOut.mk a b).map InOut.get_in = a ∧ (List.zipWith InOut.mk a b).map InOut.get_out = b := by
  induction a generalizing b with
  | nil => cases b with
    | nil => exact ⟨rfl, rfl⟩
    | cons _ _ => simp at h
  | cons x a ih => cases b with
    | nil => simp at h
    | cons y b =>
      obtain ⟨h1, h2⟩ := ih b (by simpa using h)
      exact ⟨congrArg (x :: ·) h1, congrArg (y :: ·) h2⟩

theorem Rust.Rc4.apply_length (d : List U8) (s : Verif.Rc4.State) : d.length = (Verif.Rc4.applyKeystream d s).1.length := by
  induction d generalizing s with
  | nil => rfl
  | cons x d ih => simp only [Verif.Rc4.applyKeystream, List.length_cons, ih (Verif.Rc4.prga s).2]

theorem Rust.Rc4.step_eq {tgt : Target} (ht : 16 ≤ tgt.bits) (s : Verif.Rc4.State) (op : Op) :
    Rust.Rc4.step tgt () (Rust.Rc4.repr s) op = (Verif.Rc4.step () s op).map fun r => (r.1, Rust.Rc4.repr r.2) := by
  cases op with
  | apply data =>
    have hm : (data.map fun b => (⟨b, b⟩ : InOut U8)).map InOut.get_in = data := by
      rw [List.map_map]; exact List.map_id data
    simp only [Rust.Rc4.step, Rust.Rc4.Rc4.check_remaining, pure_eq, ok_bind, Rust.Rc4.apply_eq ht, hm]
    rw [(Rust.Rc4.map_zip _ _ (Rust.Rc4.apply_length data s)).2]
    rfl
  | write data =>
    simp only [Rust.Rc4.step, Rust.Rc4.Rc4.check_remaining, pure_eq, ok_bind, Rust.Rc4.write_eq ht]
    rfl

theorem Rust.Rc4.history_eq {tgt : Target} (ht : 16 ≤ tgt.bits) (h : List (Unit × Op)) (s : Verif.Rc4.State) :
    runHistory (Rust.Rc4.step tgt) h (Rust.Rc4.repr s) = (runHistory Verif.Rc4.step h s).map fun r => (r.1, Rust.Rc4.repr r.2) := by
  induction h generalizing s with
  | nil => rfl
  | cons e h ih =>
    obtain ⟨⟨⟩, op⟩ := e
    simp only [runHistory, Rust.Rc4.step_eq ht]
    cases Verif.Rc4.step () s op with
    | error p => rfl
    | ok r =>
      obtain ⟨o, s'⟩ := r
      simp only [Except.map, ok_bind, ih]
      cases runHistory Verif.Rc4.step h s' with
      | error p => rfl
      | ok r => rfl

/-- **C78**.  The Rust text of `rc4`, read statement by statement, on every target: `new_from_slice` refuses exactly the keys that are empty or longer than
256 bytes; on every other key the object it returns cannot be told from the published RC4 keystream; `new` accepts every 32-byte key; nothing panics,
with or without overflow checks. -/
theorem C78_rc4 (tgt : Target) (ht : 16 ≤ tgt.bits) (key : List U8) :
    (key.length = 0 ∨ 256 < key.length → Rust.Rc4.Rc4.new_from_slice tgt key = .ok (.error ⟨⟩)) ∧
    (1 ≤ key.length ∧ key.length ≤ 256 → ∃ c, Rust.Rc4.Rc4.new_from_slice tgt key = .ok (.ok c) ∧ Rust.Rc4.Rc4.new tgt key = .ok c ∧
      Simulates (Rust.Rc4.step tgt) (FitsUsize tgt.bits) (Cursor.io (Spec.Rc4.stream key) none) c 0) := by
  refine ⟨fun h => Rust.Rc4.new_from_slice_err key (by omega), fun h => ?_⟩
  have hn := Rust.Rc4.new_from_slice_ok ht key h
  refine ⟨_, hn, by rw [Rust.Rc4.Rc4.new, hn, ok_bind]; rfl, fun hist hh => ?_⟩
  obtain ⟨s, hs, hsim⟩ := C38_rc4 tgt.bits key h
  rw [Rust.Rc4.model_new key h] at hs
  cases hs
  obtain ⟨w, hw⟩ := hsim hist hh
  exact ⟨Rust.Rc4.repr w, by rw [Rust.Rc4.history_eq ht, hw]; rfl⟩

/-- The output buffer: input and output buffers need not be the same, and what the output buffer held before is of no consequence. -/
theorem C78_rc4_buffers (tgt : Target) (ht : 16 ≤ tgt.bits) (key : List U8) (c : Rust.Rc4.Rc4)
    (hc : Rust.Rc4.Rc4.new_from_slice tgt key = .ok (.ok c)) (data : List (InOut U8)) :
    ∃ c' buf, Rust.Rc4.Rc4.unchecked_apply_keystream_inout tgt c data = .ok ((), c', buf) ∧
      buf.map InOut.get_in = data.map InOut.get_in ∧
      buf.map InOut.get_out = List.zipWith (· ^^^ ·) (data.map InOut.get_in) (window (Spec.Rc4.stream key) 0 data.length) := by
  have hk : 1 ≤ key.length ∧ key.length ≤ 256 := by
    apply Decidable.byContradiction
    intro h
    rw [Rust.Rc4.new_from_slice_err key h] at hc
    cases hc
  rw [Rust.Rc4.new_from_slice_ok ht key hk] at hc
  obtain ⟨s, hs, hr⟩ := Verif.Rc4.newFromSlice_ok key hk
  rw [Rust.Rc4.model_new key hk] at hs
  cases hs
  cases hc
  have hz := Rust.Rc4.map_zip _ _ (Rust.Rc4.apply_length (data.map InOut.get_in) ⟨(Rust.Rc4.rounds key 256).1, 0, 0⟩)
  refine ⟨_, _, Rust.Rc4.apply_eq ht _ data, hz.1, hz.2.trans ?_⟩
  have := (Verif.Rc4.apply_rel key (data.map InOut.get_in) _ 0 hr).1
  rw [List.length_map] at this
  exact this

/-- Separate buffers, the second one full of `0xff`. -/
example : ∃ (data : List (InOut U8)), data.map InOut.get_in = [1, 2, 3] ∧ data.map InOut.get_out = [0xff, 0xff, 0xff] :=
  ⟨[⟨1, 0xff⟩, ⟨2, 0xff⟩, ⟨3, 0xff⟩], rfl, rfl⟩

/-- A 16-bit target with overflow checks, key "Key". -/
example : ∃ (tgt : Target) (key : List U8), 16 ≤ tgt.bits ∧ 1 ≤ key.length ∧ key.length ≤ 256 :=
  ⟨⟨.debug, 16⟩, [0x4b, 0x65, 0x79], by decide⟩

end Verif
