import Verif.Proof.Packed
import Verif.Props.Streams
import Verif.Props.Rng
/-!
# The read position inside the buffer (C72)

`block-buffer` and `rand_core` keep the read position in the first byte (word) of the buffer.  The other properties are about a model with the
position in a field of its own; here the two are shown to be the same to every caller.
-/
namespace Verif
open Spec

/-- The memory of the object `w`: its position stored over the first byte of its buffer. -/
def Wrapper.packed {bs : Nat} {σ : Type} (h : 0 < bs) (w : Wrapper bs σ) : Packed bs σ := ⟨w.core, w.buf.set 0 (BitVec.ofNat 8 w.pos)⟩

/-- **C72**, any seekable core (an arbitrary function) with a block of at most 255 bytes, any object with a position from 1 to the block size, any
history: the object that keeps its position in the buffer shows the caller the same, panics included. -/
theorem C72_seekable {bs : Nat} {χ : Type} (C : SeekCore bs χ) (h : 0 < bs) (hb : bs ≤ 255) (w : Wrapper bs C.σ) (h1 : 1 ≤ w.pos) (h2 : w.pos ≤ bs)
    (l : List (χ × SeekOp)) :
    (runHistory (fun x p op => Packed.seekStep h C x p op) l (w.packed h)).map (·.1) = (runHistory (Wrapper.seekStep C) l w).map (·.1) := by
  have hr : Packed.Rel h w (w.packed h) := ⟨rfl, Packed.Holds.fresh _ _ h1 h2⟩
  exact ((Packed.runHistory_rel (Packed.Rel h) _ _ (fun x s t op hst => Packed.seekStep_rel C hb x s t hst op) l _ _ hr).map_eq _ _ fun _ _ e => e.1).symm

/-- **C72**, the same for cores without seeking. -/
theorem C72_plain {bs : Nat} {χ : Type} (C : Core bs χ) (h : 0 < bs) (hb : bs ≤ 255) (w : Wrapper bs C.σ) (h1 : 1 ≤ w.pos) (h2 : w.pos ≤ bs)
    (l : List (χ × Op)) :
    (runHistory (fun x p op => Packed.step h C x p op) l (w.packed h)).map (·.1) = (runHistory (Wrapper.step C) l w).map (·.1) := by
  have hr : Packed.Rel h w (w.packed h) := ⟨rfl, Packed.Holds.fresh _ _ h1 h2⟩
  exact ((Packed.runHistory_rel (Packed.Rel h) _ _ (fun x s t op hst => Packed.step_rel C hb x s t hst op) l _ _ hr).map_eq _ _ fun _ _ e => e.1).symm

/-- A core whose state is a counter and whose blocks repeat it. -/
def Sample.toy : SeekCore 4 Unit where
  σ := Nat
  process _ f s := (f 1).run (Backend.ofBlock 1 fun n => .ok (Vector.replicate 4 (BitVec.ofNat 8 n), n + 1)) s
  remaining _ := none
  ctrBits := 8
  getPos s := s
  setPos _ n := n

/-- Six bytes, then the position, then three bytes from position 1, on both representations. -/
example :
    runHistory (Wrapper.seekStep Sample.toy) [((), .io (.write (List.replicate 6 0))), ((), .pos 1000), ((), .seek 1), ((), .io (.write (List.replicate 3 0)))]
      ⟨(7 : Nat), #v[9, 9, 9, 9], 3⟩ = .ok ([.data (.ok ()) [9, 7, 7, 7, 7, 8], .num (.ok 33), .done (.ok ()), .data (.ok ()) [0, 0, 0]], ⟨(1 : Nat), #v[0, 0, 0, 0], 4⟩) ∧
    runHistory (fun x p op => Packed.seekStep (by decide) Sample.toy x p op)
      [((), .io (.write (List.replicate 6 0))), ((), .pos 1000), ((), .seek 1), ((), .io (.write (List.replicate 3 0)))]
      ⟨(7 : Nat), #v[3, 9, 9, 9]⟩ = .ok ([.data (.ok ()) [9, 7, 7, 7, 7, 8], .num (.ok 33), .done (.ok ()), .data (.ok ()) [0, 0, 0]], ⟨(1 : Nat), #v[4, 0, 0, 0]⟩) :=
  ⟨rfl, rfl⟩

/-- **C72**.  The position that `get_pos` declares unreachable is unreachable: after any history that has not panicked, the first byte of the buffer
is between 1 and the block size. -/
theorem C72_reachable {bs : Nat} {χ : Type} (C : SeekCore bs χ) (h : 0 < bs) (hb : bs ≤ 255) (s : C.σ) (l : List (χ × SeekOp))
    (os : List Obs) (p : Packed bs C.σ) (hrun : runHistory (fun x p op => Packed.seekStep h C x p op) l (Packed.fromCore h s) = .ok (os, p)) :
    1 ≤ p.buf[0].toNat ∧ p.buf[0].toNat ≤ bs := by
  have hr := Packed.runHistory_rel (Packed.Rel h) _ _ (fun x s t op hst => Packed.seekStep_rel C hb x s t hst op) l _ _ (Packed.fromCore_rel (h := h) s)
  rw [hrun] at hr
  generalize runHistory (Wrapper.seekStep C) l (Wrapper.fromCore s) = y at hr
  cases hr with
  | ok hq =>
    have hl := hq.2.holds.lower
    have hu := hq.2.holds.upper
    rw [hq.2.holds.first, BitVec.toNat_ofNat]
    omega

example : ∃ p : Packed 4 Nat, runHistory (fun x p op => Packed.seekStep (by decide) Sample.toy x p op) [((), .io (.write [0]))]
    (Packed.fromCore (by decide) (7 : Nat)) = .ok ([.data (.ok ()) [7]], p) ∧ p.buf[0].toNat = 1 :=
  ⟨⟨(8 : Nat), #v[1, 7, 7, 7]⟩, rfl, rfl⟩

/-- **C72**.  A block of 256 bytes would not do: on a new object `get_pos` finds 0. -/
theorem C72_limit {σ : Type} (s : σ) : Packed.getPos (by decide) (Packed.fromCore (bs := 256) (by decide) s).buf = .error .assertion := by
  have e : (Packed.fromCore (bs := 256) (by decide) s).buf[0] = 0#8 := by
    show ((Vector.replicate 256 (0 : U8)).set 0 (BitVec.ofNat 8 256))[0] = 0#8
    rw [Vector.getElem_set_self]
    rfl
  unfold Packed.getPos
  rw [e]
  rfl

example : Packed.getPos (by decide) (Packed.fromCore (bs := 255) (by decide) ()).buf = .ok 255 :=
  (Packed.fromCore_rel (h := (by decide : 0 < 255)) ()).holds.getPos (by decide)

theorem SeekCipher.create_pos {u : Nat} (c : SeekCipher) {w : c.Obj u} (h : c.create u = .ok w) : w.pos = 64 := by
  cases c with
  | chacha dr key nonce =>
    obtain ⟨s, _, e⟩ := bind_ok h
    exact (congrArg Wrapper.pos (Except.ok.inj e)).symm
  | chachaLegacy dr key nonce =>
    obtain ⟨s, _, e⟩ := bind_ok h
    exact (congrArg Wrapper.pos (Except.ok.inj e)).symm
  | xchacha dr key nonce =>
    obtain ⟨s, _, e⟩ := bind_ok h
    exact (congrArg Wrapper.pos (Except.ok.inj e)).symm
  | salsa m dr key nonce => exact (congrArg Wrapper.pos (Except.ok.inj h)).symm
  | xsalsa m dr key nonce => exact (congrArg Wrapper.pos (Except.ok.inj h)).symm

/-- **C72**.  Every seekable cipher of the repository, with its position in the buffer, answers every history of allowed calls as the published
keystream says. -/
theorem C72_ciphers (u : Nat) (c : SeekCipher) (l : List (ChaCha.Env × SeekOp)) (hl : ∀ e ∈ l, c.Allowed u e.2) :
    ∃ w₀, c.create u = .ok w₀ ∧
      (runHistory (fun x p op => Packed.seekStep (by decide) (c.core u) x p op) l (w₀.packed (by decide))).map (·.1) =
        .ok (Cursor.run (Cursor.step 64 c.stream (some (64 * c.blocks))) (l.map (·.2)) 0).1 := by
  obtain ⟨w, _, w₀, hc, hw⟩ := c.reach_exists u l hl
  have hp := c.create_pos hc
  refine ⟨w₀, hc, ?_⟩
  rw [C72_seekable (c.core u) (by decide) (by decide) w₀ (by omega) (by omega)]
  exact congrArg (Except.map (·.1)) hw

example : ∀ e ∈ Sample.history, Sample.chacha20.Allowed 64 e.2 := Sample.history_allowed _

namespace ChaCha
open Verif.Spec.Rng (RngOp RngObs)

/-- **C72**, generators.  The generator that keeps its index in the first word of its buffer shows the caller the same, panics included, for every
seed and every history. -/
theorem C72_rng (m : Mode) (dr : Nat) (seed : Vector U8 32) (l : List (Env × RngOp)) :
    (PackedRng.fromSeed seed >>= PackedRng.run m dr l).map (·.1) = (Rng.fromSeed seed >>= Rng.run m dr l).map (·.1) :=
  ((ExRel.bind (PackedRng.fromSeed_rel seed) fun _ _ h => PackedRng.run_rel m dr l h).map_eq _ _ fun _ _ e => e.1).symm

/-- **C72**, generators.  The index never lies over an unread word: after any history, the first word of the buffer is between 1 and 64. -/
theorem C72_rng_index (m : Mode) (dr : Nat) (seed : Vector U8 32) (l : List (Env × RngOp)) (os : List RngObs) (p : PackedRng)
    (hrun : (PackedRng.fromSeed seed >>= PackedRng.run m dr l) = .ok (os, p)) : 1 ≤ p.results[0].toNat ∧ p.results[0].toNat ≤ 64 := by
  have hr := ExRel.bind (PackedRng.fromSeed_rel seed) fun _ _ h => PackedRng.run_rel m dr l h
  rw [hrun] at hr
  generalize (Rng.fromSeed seed >>= Rng.run m dr l) = y at hr
  cases hr with
  | ok hq =>
    have hl := hq.2.lower
    have hu := hq.2.upper
    rw [hq.2.first, BitVec.toNat_ofNat]
    omega

/-- The history of the other examples, on the packed generator. -/
example : ∃ os p, (PackedRng.fromSeed (Sample.bytes 32 0) >>= PackedRng.run .debug 10 Sample.rngHistory) = .ok (os, p) ∧ 1 ≤ p.results[0].toNat := by
  obtain ⟨os, r, hr⟩ := Sample.rng_exists .debug 10 (Sample.bytes 32 0)
  obtain ⟨r₀, h0, h1⟩ := hr
  have e := C72_rng .debug 10 (Sample.bytes 32 0) Sample.rngHistory
  rw [h0] at e
  have e : _ = (Rng.run .debug 10 Sample.rngHistory r₀).map (·.1) := e
  rw [h1] at e
  generalize hx : (PackedRng.fromSeed (Sample.bytes 32 0) >>= PackedRng.run .debug 10 Sample.rngHistory) = x at e
  cases x with
  | error _ => exact nomatch e
  | ok y => exact ⟨y.1, y.2, rfl, (C72_rng_index _ _ _ _ _ _ hx).1⟩

end ChaCha
end Verif
