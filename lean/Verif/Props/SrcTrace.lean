import Verif.Spec.Isa
import Verif.Proof.TraceSse2
import Verif.Proof.TraceAvx2
import Verif.Proof.TraceAvx512
import Verif.Proof.TraceNeon
import Verif.Proof.TraceSalsa
import Verif.Proof.TraceRabbit
import Verif.Props.SrcSse2
import Verif.Props.SrcAvx2
import Verif.Props.SrcAvx512
import Verif.Props.SrcNeon
import Verif.Props.SrcSalsa
import Verif.Props.SrcRabbit
import Verif.Props.SrcDispatch
import Verif.Props.SrcRc4
import Verif.Props.SrcHc256
/-!
# C90: what can be seen of a run of the text
-/
namespace Verif

/-- Two clients make the same requests of a backend with `par` parallel blocks, whatever blocks they get, and no request that fails an assertion. -/
inductive SameRequests {α : Type} (par : Nat) : Prog 64 α → Prog 64 α → Prop
  | done (a b : α) : SameRequests par (.done a) (.done b)
  | block {k k' : Vector U8 64 → Prog 64 α} (h : ∀ b b', SameRequests par (k b) (k' b')) : SameRequests par (.block k) (.block k')
  | par {k k' : List (Vector U8 64) → Prog 64 α} (h : ∀ l l', SameRequests par (k l) (k' l')) : SameRequests par (.par k) (.par k')
  | tail (n : Nat) (hn : n < par) {k k' : List (Vector U8 64) → Prog 64 α} (h : ∀ l l', SameRequests par (k l) (k' l')) :
    SameRequests par (.tail n k) (.tail n k')

namespace Rust

/-- Neither run panics, the same things are seen of both, and they use vector instructions of these features only. -/
def SameSeen {α β : Type} (features : List String) (m : Tr α) (m' : Tr β) : Prop :=
  m.2 = m'.2 ∧ (∃ a, m.1 = .ok a) ∧ (∃ a, m'.1 = .ok a) ∧ ∀ s, Event.instr s ∈ m.2 → Spec.Isa.Has features s

theorem SameSeen.of {α β : Type} {I features : List String} {Q : α → β → Prop} {m : Tr α} {m' : Tr β} (h : Obl I Q m m') {x : α} {x' : β} (hm : m.1 = .ok x)
    (hm' : m'.1 = .ok x') (hI : ∀ s ∈ I, Spec.Isa.Has features s) : SameSeen features m m' :=
  let ⟨h1, h2, _⟩ := h x x' hm hm'
  ⟨h1, ⟨x, hm⟩, ⟨x', hm'⟩, fun s hs => hI s (h2 _ hs)⟩

theorem like_toList {n w : Nat} (v v' : Vector (BitVec w) n) : like v.toList v'.toList := like.words (by simp)

end Rust

namespace SameRequests

variable {α : Type} {par : Nat} {p p' : Prog 64 α}

theorem symm (h : SameRequests par p p') : SameRequests par p' p := by
  induction h with
  | done a b => exact .done b a
  | block _ ih => exact .block fun b b' => ih b' b
  | par _ ih => exact .par fun b b' => ih b' b
  | tail n hn _ ih => exact .tail n hn fun b b' => ih b' b

theorem alike (h : SameRequests par p p') : p.Alike p' := by
  induction h with
  | done a b => exact .done a b
  | block _ ih => exact .block ih
  | par _ ih => exact .par ih
  | tail n hn _ ih => exact .tail n ih

theorem ref_ok (h : SameRequests par p p') (ks : Nat → Vector U8 64) (n : Nat) : ∃ r, p.ref ks par n = .ok r := by
  induction h generalizing n with
  | done a b => exact ⟨_, rfl⟩
  | block _ ih => exact ih _ default _
  | par _ ih => exact ih _ [] _
  | tail t ht _ ih =>
    rw [Prog.ref, if_pos ht]
    exact ih _ [] _

theorem run_ok (h : SameRequests par p p') (dr : Nat) (v : ChaCha.Variant) (s : ChaCha.State) :
    ∃ r, p.run (.ofBlock par (ChaCha.softGenBlock dr v)) s = .ok r := by
  let st : Nat → ChaCha.State := fun n => n.rec s fun _ s => ChaCha.softAdvance v s
  obtain ⟨⟨a, n'⟩, hr⟩ := h.ref_ok (fun n => leBytes (ChaCha.runRounds dr (st n))) 0
  obtain ⟨s', h', _⟩ := run_ofBlock_ref par (ChaCha.softGenBlock dr v) _ (fun s n => s = st n) none
    (fun s n hs _ => ⟨st (n + 1), by rw [hs]; rfl, rfl⟩) p s 0 a n' rfl hr (fun _ h => nomatch h)
  exact ⟨_, h'⟩

theorem map {β : Type} {g g' : α → β} (h : SameRequests par p p') : SameRequests par (p.map g) (p'.map g') := by
  induction h with
  | done a b => exact .done _ _
  | block _ ih => exact .block ih
  | par _ ih => exact .par ih
  | tail n hn _ ih => exact .tail n hn ih

end SameRequests

/-! ### The closures of `cipher` -/

theorem lt_div_succ_mul (n par : Nat) (h : 0 < par) : n < (n / par + 1) * par := by
  have h1 := Nat.div_add_mod n par
  have h2 := Nat.mod_lt n h
  rw [Nat.add_mul, Nat.mul_comm (n / par)]
  omega

theorem sameRequests_singles {l l' : List (List U8)} {par : Nat} (h : l.length = l'.length) : SameRequests par (applySingles l) (applySingles l') := by
  induction l generalizing l' with
  | nil =>
    cases l' with
    | nil => exact .done _ _
    | cons d l' => exact absurd h (by simp)
  | cons d l ih =>
    cases l' with
    | nil => exact absurd h (by simp)
    | cons d' l' => exact .block fun b b' => (ih (by simpa using h)).map

theorem sameRequests_chunks {par : Nat} (m : Nat) {l l' : List (List U8)} (h : l.length = l'.length) (hm : l.length < (m + 1) * par) :
    SameRequests par (applyChunks par m l) (applyChunks par m l') := by
  induction m generalizing l l' with
  | zero =>
    rw [applyChunks, applyChunks, h]
    exact .tail _ (by omega) fun _ _ => .done _ _
  | succ m ih =>
    refine .par fun b b' => (ih (by simp [h]) ?_).map
    rw [List.length_drop]
    have := Nat.succ_mul (m + 1) par
    have h2 : 0 < (m + 1) * par := Nat.mul_pos (by omega) (Nat.pos_of_ne_zero fun h0 => by subst h0; omega)
    simp only [Nat.succ_eq_add_one] at this
    omega

/-- Encrypting two messages with the same number of blocks. -/
theorem sameRequests_apply {l l' : List (List U8)} (h : l.length = l'.length) (par : Nat) : SameRequests par (applyBlocksClosure l par) (applyBlocksClosure l' par) := by
  unfold applyBlocksClosure
  by_cases hp : par > 1
  · rw [if_pos hp, if_pos hp, ← h]
    exact sameRequests_chunks _ h (lt_div_succ_mul _ _ (by omega))
  · rw [if_neg hp, if_neg hp]
    exact sameRequests_singles h

/-- Producing one block. -/
theorem sameRequests_block (par : Nat) : SameRequests par (writeBlockClosure 64 par) (writeBlockClosure 64 par) := .block fun _ _ => .done _ _

theorem sameRequests_writeSingles (par n : Nat) : SameRequests par (writeSingles n) (writeSingles n) := by
  induction n with
  | zero => exact .done _ _
  | succ n ih => exact .block fun _ _ => ih.map

theorem sameRequests_writeChunks (par m len : Nat) (hm : len < (m + 1) * par) : SameRequests par (writeChunks par m len) (writeChunks par m len) := by
  induction m generalizing len with
  | zero => exact .tail _ (by omega) fun _ _ => .done _ _
  | succ m ih =>
    refine .par fun b b' => (ih _ ?_).map
    have := Nat.succ_mul (m + 1) par
    have h2 : 0 < (m + 1) * par := Nat.mul_pos (by omega) (Nat.pos_of_ne_zero fun h0 => by subst h0; omega)
    simp only [Nat.succ_eq_add_one] at this
    omega

/-- Producing keystream. -/
theorem sameRequests_write (len par : Nat) : SameRequests par (writeBlocksClosure len par) (writeBlocksClosure len par) := by
  unfold writeBlocksClosure
  by_cases hp : par > 1
  · rw [if_pos hp]
    exact sameRequests_writeChunks _ _ _ (lt_div_succ_mul _ _ (by omega))
  · rw [if_neg hp]
    exact sameRequests_writeSingles _ _

namespace Rust.ChaCha

variable {tgt : Target} {R V α : Type} [Rounds R] [Variant V]

theorem callee_like {f f' : Closure 64 α} (hf : ∀ n, SameRequests n (f n) (f' n)) : like (Callee.ready f) (Callee.ready f') := fun n => (hf n).alike

theorem call_ok {f f' : Closure 64 α} (hf : ∀ n, SameRequests n (f n) (f' n)) (par dr : Nat) (v : Verif.ChaCha.Variant) (s : Verif.ChaCha.State) :
    ∃ r, (Verif.Backend.ofBlock par (Verif.ChaCha.softGenBlock dr v)).call f s = .ok r := (hf par).run_ok dr v s

/-- The methods of the portable backend. -/
instance : Erases (Backend R V) where
  block _ _ _ := Backend_gen_ks_block_erase _ _
  par tgt s b := by
    show (Tr.loop _ >>= fun _ => genEach_tr _ s b : Tr _).1 = genEach _ s b
    rw [Tr.bind_fst, Tr.loop_fst, okBind, genEach_erase]
    exact congrArg (fun g => genEach g s b) (funext fun s => funext fun b => Backend_gen_ks_block_erase s b)
  tail tgt s b := (providedTail_erase s b).trans (congrArg (fun g => providedTail 1 g s b) (funext fun s => funext fun b => Backend_gen_ks_block_erase s b))

instance : OblBackend [] tgt (Backend R V) where
  block s s' h b b' hb := Backend_gen_ks_block_obl s s' h b b' hb
  par s s' h b b' hb := Obl.bind (Obl.loop hb.1) fun _ _ _ => genEach_obl (fun s s' h b b' hb => Backend_gen_ks_block_obl s s' h b b' hb) s s' h b b' hb
  tail s s' h b b' hb := providedTail_obl (fun s s' h b b' hb => Backend_gen_ks_block_obl s s' h b b' hb) s s' h b b' hb

/-- A condition known to be false. -/
theorem obl_false {β γ : Type} {I : List String} {Q : β → γ → Prop} {k : Bool → Tr β} {k' : Bool → Tr γ} (h : Obl I Q (k false) (k' false)) :
    Obl I Q (Tr.branch false >>= k) (Tr.branch false >>= k') :=
  Obl.bind (Q := fun a b => a = false ∧ b = false) (fun a a' h h' => by cases h; cases h'; exact ⟨rfl, by simp [Tr.branch, Tr.see, Allowed], rfl, rfl⟩)
    fun a b hab => by rw [hab.1, hab.2]; exact h

local macro_rules | `(tactic| obl_step) => `(tactic| (with_reducible refine obl_false ?_; simp only [Bool.false_eq_true, if_false]))

theorem sse2.inner_obl32 (hV : Is V .ietf) : ∀ x0 x0' : List U32, like x0 x0' → ∀ x1 x1' : Callee α, like x1 x1' →
    Obl sse2.used like (sse2.inner_tr (R := R) (V := V) tgt x0 x1) (sse2.inner_tr (R := R) (V := V) tgt x0' x1') := by
  elim; elim
  unfold sse2.inner_tr
  (try dsimp only)
  have h8 : (sizeOfTy tgt (Variant.Counter V) == 8) = false := by rw [counter_size hV]; rfl
  simp only [h8]
  obl

end Rust.ChaCha

namespace Rust

theorem ChaCha.newX_ok {tgt : Target} {R : Type} [Rounds R] (key : Vector U8 32) (iv : Vector U8 24) :
    XChaChaCore.new (R := R) tgt key.toList iv.toList = .ok ⟨repr R Ietf (Verif.ChaCha.ietfState (Verif.ChaCha.hchacha (Rounds.count R) key (Vector.ofFn fun i => iv[i.val]))
      (Vector.ofFn fun i : Fin 12 => if h : i.val < 4 then 0 else iv[12 + i.val]))⟩ := by
  rw [newX_eq, Verif.ChaCha.newX_eq, Verif.ChaCha.newIetf_eq]
  rfl

theorem Rabbit.new_ok {tgt : Target} (ht : 16 ≤ tgt.bits) (key : Vector U8 16) :
    RabbitKeyOnlyCore.new tgt key.toList = .ok ⟨repr (Verif.Rabbit.setupKeyPure key)⟩ := by
  rw [new_eq ht, Verif.Rabbit.setupKey_eq]
  rfl

theorem Rabbit.iv_ok {tgt : Target} (iv : Vector U8 8) (s : Verif.Rabbit.State) :
    RabbitCore.inner_iv_init tgt ⟨repr s⟩ iv.toList = .ok ⟨repr (Verif.Rabbit.next4Pure (Verif.Rabbit.ivXor iv s))⟩ := by
  rw [inner_iv_init_eq, Verif.Rabbit.setupIv_eq]
  rfl

theorem Rabbit.like_repr (s s' : Verif.Rabbit.State) : like (repr s) (repr s') := ⟨like_toList _ _, like_toList _ _, trivial⟩

end Rust

open Rust

/-- **C90**, client code on the SSE2 backend: for all keys, nonces and counters, and all clients that make the same requests - in particular for all messages of the same length. -/
theorem C90_sse2 (tgt : Target) (ht : 16 ≤ tgt.bits) (R V : Type) [Rust.ChaCha.Rounds R] [Rust.ChaCha.Variant V]
    (hV : RInt.width (Rust.ChaCha.Variant.Counter V) = 32 ∨ RInt.width (Rust.ChaCha.Variant.Counter V) = 64) (α : Type) (f f' : Closure 64 α)
    (hf : ∀ n, SameRequests n (f n) (f' n)) (s s' : Vector U32 16) :
    SameSeen Spec.Isa.sse41 (Rust.ChaCha.sse2.inner_tr (R := R) (V := V) tgt s.toList (Callee.ready f))
      (Rust.ChaCha.sse2.inner_tr (R := R) (V := V) tgt s'.toList (Callee.ready f')) ∧
    (Rust.ChaCha.sse2.inner_tr (R := R) (V := V) tgt s.toList (Callee.ready f)).1 = Rust.ChaCha.sse2.inner (R := R) (V := V) tgt s.toList (Callee.ready f) := by
  obtain ⟨v, hv⟩ := Rust.ChaCha.is_of_width hV
  have ok (f f' : Closure 64 α) (hf : ∀ n, SameRequests n (f n) (f' n)) (s : Vector U32 16) :
      ∃ x, (Rust.ChaCha.sse2.inner_tr (R := R) (V := V) tgt s.toList (Callee.ready f)).1 = .ok x := by
    obtain ⟨r, h⟩ := Rust.ChaCha.call_ok hf 4 (Rust.ChaCha.Rounds.count R) v s
    rw [Rust.ChaCha.sse2.inner_erase, Rust.ChaCha.sse2.inner_eq hv ht, ChaCha.Sse2.inner_eq, h]
    exact ⟨_, rfl⟩
  obtain ⟨x, hx⟩ := ok f f' hf s
  obtain ⟨x', hx'⟩ := ok f' f (fun n => (hf n).symm) s'
  exact ⟨.of (Rust.ChaCha.sse2.inner_obl _ _ (like_toList s s') _ _ (Rust.ChaCha.callee_like hf)) hx hx' (by decide), Rust.ChaCha.sse2.inner_erase _ _⟩

/-- **C90**, client code on the SSE2 backend with a 32-bit counter, which uses no instruction of SSE4.1. -/
theorem C90_sse2_ietf (tgt : Target) (ht : 16 ≤ tgt.bits) (R V : Type) [Rust.ChaCha.Rounds R] [Rust.ChaCha.Variant V]
    (hV : RInt.width (Rust.ChaCha.Variant.Counter V) = 32) (α : Type) (f f' : Closure 64 α)
    (hf : ∀ n, SameRequests n (f n) (f' n)) (s s' : Vector U32 16) :
    SameSeen Spec.Isa.sse2 (Rust.ChaCha.sse2.inner_tr (R := R) (V := V) tgt s.toList (Callee.ready f))
      (Rust.ChaCha.sse2.inner_tr (R := R) (V := V) tgt s'.toList (Callee.ready f')) ∧
    (Rust.ChaCha.sse2.inner_tr (R := R) (V := V) tgt s.toList (Callee.ready f)).1 = Rust.ChaCha.sse2.inner (R := R) (V := V) tgt s.toList (Callee.ready f) := by
  have hv : Rust.ChaCha.Is V .ietf := by rw [Rust.ChaCha.Is, hV]; rfl
  have ok (f f' : Closure 64 α) (hf : ∀ n, SameRequests n (f n) (f' n)) (s : Vector U32 16) :
      ∃ x, (Rust.ChaCha.sse2.inner_tr (R := R) (V := V) tgt s.toList (Callee.ready f)).1 = .ok x := by
    obtain ⟨r, h⟩ := Rust.ChaCha.call_ok hf 4 (Rust.ChaCha.Rounds.count R) .ietf s
    rw [Rust.ChaCha.sse2.inner_erase, Rust.ChaCha.sse2.inner_eq hv ht, ChaCha.Sse2.inner_eq, h]
    exact ⟨_, rfl⟩
  obtain ⟨x, hx⟩ := ok f f' hf s
  obtain ⟨x', hx'⟩ := ok f' f (fun n => (hf n).symm) s'
  exact ⟨.of (Rust.ChaCha.sse2.inner_obl32 hv _ _ (like_toList s s') _ _ (Rust.ChaCha.callee_like hf)) hx hx' (by decide), Rust.ChaCha.sse2.inner_erase _ _⟩

/-- **C90**, client code on the AVX2 backend: for all keys, nonces and counters, and all clients that make the same requests - in particular for all messages of the same length. -/
theorem C90_avx2 (tgt : Target) (ht : 16 ≤ tgt.bits) (R V : Type) [Rust.ChaCha.Rounds R] [Rust.ChaCha.Variant V]
    (hV : RInt.width (Rust.ChaCha.Variant.Counter V) = 32 ∨ RInt.width (Rust.ChaCha.Variant.Counter V) = 64) (α : Type) (f f' : Closure 64 α)
    (hf : ∀ n, SameRequests n (f n) (f' n)) (s s' : Vector U32 16) :
    SameSeen Spec.Isa.avx2 (Rust.ChaCha.avx2.inner_tr (R := R) (V := V) tgt s.toList (Callee.ready f))
      (Rust.ChaCha.avx2.inner_tr (R := R) (V := V) tgt s'.toList (Callee.ready f')) ∧
    (Rust.ChaCha.avx2.inner_tr (R := R) (V := V) tgt s.toList (Callee.ready f)).1 = Rust.ChaCha.avx2.inner (R := R) (V := V) tgt s.toList (Callee.ready f) := by
  obtain ⟨v, hv⟩ := Rust.ChaCha.is_of_width hV
  have ok (f f' : Closure 64 α) (hf : ∀ n, SameRequests n (f n) (f' n)) (s : Vector U32 16) :
      ∃ x, (Rust.ChaCha.avx2.inner_tr (R := R) (V := V) tgt s.toList (Callee.ready f)).1 = .ok x := by
    obtain ⟨r, h⟩ := Rust.ChaCha.call_ok hf 4 (Rust.ChaCha.Rounds.count R) v s
    rw [Rust.ChaCha.avx2.inner_erase, Rust.ChaCha.avx2.inner_eq hv ht, ChaCha.Avx2.inner_eq, h]
    exact ⟨_, rfl⟩
  obtain ⟨x, hx⟩ := ok f f' hf s
  obtain ⟨x', hx'⟩ := ok f' f (fun n => (hf n).symm) s'
  exact ⟨.of (Rust.ChaCha.avx2.inner_obl _ _ (like_toList s s') _ _ (Rust.ChaCha.callee_like hf)) hx hx' (by decide), Rust.ChaCha.avx2.inner_erase _ _⟩

/-- **C90**, client code on the AVX-512 backend: for all keys, nonces and counters, and all clients that make the same requests - in particular for all messages of the same length. -/
theorem C90_avx512 (tgt : Target) (ht : 16 ≤ tgt.bits) (R V : Type) [Rust.ChaCha.Rounds R] [Rust.ChaCha.Variant V]
    (hV : RInt.width (Rust.ChaCha.Variant.Counter V) = 32 ∨ RInt.width (Rust.ChaCha.Variant.Counter V) = 64) (α : Type) (f f' : Closure 64 α)
    (hf : ∀ n, SameRequests n (f n) (f' n)) (s s' : Vector U32 16) :
    SameSeen Spec.Isa.avx512 (Rust.ChaCha.avx512.inner_tr (R := R) (V := V) tgt s.toList (Callee.ready f))
      (Rust.ChaCha.avx512.inner_tr (R := R) (V := V) tgt s'.toList (Callee.ready f')) ∧
    (Rust.ChaCha.avx512.inner_tr (R := R) (V := V) tgt s.toList (Callee.ready f)).1 = Rust.ChaCha.avx512.inner (R := R) (V := V) tgt s.toList (Callee.ready f) := by
  obtain ⟨v, hv⟩ := Rust.ChaCha.is_of_width hV
  have ok (f f' : Closure 64 α) (hf : ∀ n, SameRequests n (f n) (f' n)) (s : Vector U32 16) :
      ∃ x, (Rust.ChaCha.avx512.inner_tr (R := R) (V := V) tgt s.toList (Callee.ready f)).1 = .ok x := by
    obtain ⟨r, h⟩ := Rust.ChaCha.call_ok hf 16 (Rust.ChaCha.Rounds.count R) v s
    rw [Rust.ChaCha.avx512.inner_erase, Rust.ChaCha.avx512.inner_eq hv ht, ChaCha.Avx512.inner_eq _ _ Rust.ChaCha.avx512.zeros (fun _ => List.length_replicate ..), h]
    exact ⟨_, rfl⟩
  obtain ⟨x, hx⟩ := ok f f' hf s
  obtain ⟨x', hx'⟩ := ok f' f (fun n => (hf n).symm) s'
  exact ⟨.of (Rust.ChaCha.avx512.inner_obl _ _ (like_toList s s') _ _ (Rust.ChaCha.callee_like hf)) hx hx' (by decide), Rust.ChaCha.avx512.inner_erase _ _⟩

/-- **C90**, client code on the NEON backend: for all keys, nonces and counters, and all clients that make the same requests - in particular for all messages of the same length. -/
theorem C90_neon (tgt : Target) (ht : 16 ≤ tgt.bits) (R V : Type) [Rust.ChaCha.Rounds R] [Rust.ChaCha.Variant V]
    (hV : RInt.width (Rust.ChaCha.Variant.Counter V) = 32 ∨ RInt.width (Rust.ChaCha.Variant.Counter V) = 64) (α : Type) (f f' : Closure 64 α)
    (hf : ∀ n, SameRequests n (f n) (f' n)) (s s' : Vector U32 16) :
    SameSeen Spec.Isa.neon (Rust.ChaCha.neon.inner_tr (R := R) (V := V) tgt s.toList (Callee.ready f))
      (Rust.ChaCha.neon.inner_tr (R := R) (V := V) tgt s'.toList (Callee.ready f')) ∧
    (Rust.ChaCha.neon.inner_tr (R := R) (V := V) tgt s.toList (Callee.ready f)).1 = Rust.ChaCha.neon.inner (R := R) (V := V) tgt s.toList (Callee.ready f) := by
  obtain ⟨v, hv⟩ := Rust.ChaCha.is_of_width hV
  have ok (f f' : Closure 64 α) (hf : ∀ n, SameRequests n (f n) (f' n)) (s : Vector U32 16) :
      ∃ x, (Rust.ChaCha.neon.inner_tr (R := R) (V := V) tgt s.toList (Callee.ready f)).1 = .ok x := by
    obtain ⟨r, h⟩ := Rust.ChaCha.call_ok hf 8 (Rust.ChaCha.Rounds.count R) v s
    rw [Rust.ChaCha.neon.inner_erase, Rust.ChaCha.neon.inner_eq hv ht, ChaCha.Neon.inner_eq, h]
    exact ⟨_, rfl⟩
  obtain ⟨x, hx⟩ := ok f f' hf s
  obtain ⟨x', hx'⟩ := ok f' f (fun n => (hf n).symm) s'
  exact ⟨.of (Rust.ChaCha.neon.inner_obl _ _ (like_toList s s') _ _ (Rust.ChaCha.callee_like hf)) hx hx' (by decide), Rust.ChaCha.neon.inner_erase _ _⟩

/-- **C90**, client code on the portable backend, which uses no vector instruction. -/
theorem C90_soft (tgt : Target) (R V : Type) [Rust.ChaCha.Rounds R] [Rust.ChaCha.Variant V]
    (hV : RInt.width (Rust.ChaCha.Variant.Counter V) = 32 ∨ RInt.width (Rust.ChaCha.Variant.Counter V) = 64) (α : Type) (f f' : Closure 64 α)
    (hf : ∀ n, SameRequests n (f n) (f' n)) (s s' : Vector U32 16) :
    SameSeen [] (StreamCipherClosure.call_tr tgt (Callee.ready f) (⟨⟨s.toList, ()⟩⟩ : Rust.ChaCha.Backend R V))
      (StreamCipherClosure.call_tr tgt (Callee.ready f') (⟨⟨s'.toList, ()⟩⟩ : Rust.ChaCha.Backend R V)) ∧
    (StreamCipherClosure.call_tr tgt (Callee.ready f) (⟨⟨s.toList, ()⟩⟩ : Rust.ChaCha.Backend R V)).1 =
      StreamCipherClosure.call tgt (Callee.ready f) (⟨⟨s.toList, ()⟩⟩ : Rust.ChaCha.Backend R V) := by
  obtain ⟨v, hv⟩ := Rust.ChaCha.is_of_width hV
  have ok (f f' : Closure 64 α) (hf : ∀ n, SameRequests n (f n) (f' n)) (s : Vector U32 16) :
      ∃ x, (StreamCipherClosure.call_tr tgt (Callee.ready f) (⟨⟨s.toList, ()⟩⟩ : Rust.ChaCha.Backend R V)).1 = .ok x := by
    obtain ⟨r, h⟩ := Rust.ChaCha.call_ok hf 1 (Rust.ChaCha.Rounds.count R) v s
    rw [call_erase]
    show ∃ x, ((asBackend tgt (Rust.ChaCha.Backend R V)).call f ⟨Rust.ChaCha.repr R V s⟩ >>= _) = .ok x
    rw [Rust.ChaCha.soft_call_eq hv, show (ChaCha.soft (Rust.ChaCha.Rounds.count R) v).call f s = .ok r from h]
    exact ⟨_, rfl⟩
  obtain ⟨x, hx⟩ := ok f f' hf s
  obtain ⟨x', hx'⟩ := ok f' f (fun n => (hf n).symm) s'
  exact ⟨.of (call_obl (I := []) (Rust.ChaCha.callee_like hf) (like_toList s s')) hx hx' (by decide), call_erase _ _⟩

/-- **C90**, construction: nothing is seen of the key and the nonce. -/
theorem C90_chacha_new (tgt : Target) (R : Type) [Rust.ChaCha.Rounds R] (key key' : Vector U8 32) (nonce nonce' : Vector U8 12) :
    SameSeen [] (Rust.ChaCha.ChaChaCore.new_tr (R := R) tgt key.toList nonce.toList) (Rust.ChaCha.ChaChaCore.new_tr (R := R) tgt key'.toList nonce'.toList) ∧
    (Rust.ChaCha.ChaChaCore.new_tr (R := R) tgt key.toList nonce.toList).1 = Rust.ChaCha.ChaChaCore.new (R := R) tgt key.toList nonce.toList :=
  ⟨.of (Rust.ChaCha.ChaChaCore_new_obl (I := []) _ _ (like_toList key key') _ _ (like_toList nonce nonce'))
    ((Rust.ChaCha.ChaChaCore_new_erase _ _).trans (Rust.ChaCha.new_eq key nonce))
    ((Rust.ChaCha.ChaChaCore_new_erase _ _).trans (Rust.ChaCha.new_eq key' nonce'))
    (by decide), Rust.ChaCha.ChaChaCore_new_erase _ _⟩

/-- **C90**, the legacy variant. -/
theorem C90_legacy_new (tgt : Target) (key key' : Vector U8 32) (nonce nonce' : Vector U8 8) :
    SameSeen [] (Rust.ChaCha.ChaCha20LegacyCore.new_tr tgt key.toList nonce.toList) (Rust.ChaCha.ChaCha20LegacyCore.new_tr tgt key'.toList nonce'.toList) ∧
    (Rust.ChaCha.ChaCha20LegacyCore.new_tr tgt key.toList nonce.toList).1 = Rust.ChaCha.ChaCha20LegacyCore.new tgt key.toList nonce.toList :=
  ⟨.of (Rust.ChaCha.ChaCha20LegacyCore_new_obl (I := []) _ _ (like_toList key key') _ _ (like_toList nonce nonce'))
    ((Rust.ChaCha.ChaCha20LegacyCore_new_erase _ _).trans (Rust.ChaCha.newLegacy_eq key nonce))
    ((Rust.ChaCha.ChaCha20LegacyCore_new_erase _ _).trans (Rust.ChaCha.newLegacy_eq key' nonce'))
    (by decide), Rust.ChaCha.ChaCha20LegacyCore_new_erase _ _⟩

/-- **C90**, HChaCha. -/
theorem C90_hchacha (tgt : Target) (R : Type) [Rust.ChaCha.Rounds R] (key key' : Vector U8 32) (input input' : Vector U8 16) :
    SameSeen [] (Rust.ChaCha.hchacha_tr (R := R) tgt key.toList input.toList) (Rust.ChaCha.hchacha_tr (R := R) tgt key'.toList input'.toList) ∧
    (Rust.ChaCha.hchacha_tr (R := R) tgt key.toList input.toList).1 = Rust.ChaCha.hchacha (R := R) tgt key.toList input.toList :=
  ⟨.of (Rust.ChaCha.hchacha_obl (I := []) _ _ (like_toList key key') _ _ (like_toList input input'))
    ((Rust.ChaCha.hchacha_erase _ _).trans (C82_hchacha tgt R key input))
    ((Rust.ChaCha.hchacha_erase _ _).trans (C82_hchacha tgt R key' input'))
    (by decide), Rust.ChaCha.hchacha_erase _ _⟩

/-- **C90**, XChaCha. -/
theorem C90_xchacha_new (tgt : Target) (R : Type) [Rust.ChaCha.Rounds R] (key key' : Vector U8 32) (nonce nonce' : Vector U8 24) :
    SameSeen [] (Rust.ChaCha.XChaChaCore.new_tr (R := R) tgt key.toList nonce.toList) (Rust.ChaCha.XChaChaCore.new_tr (R := R) tgt key'.toList nonce'.toList) ∧
    (Rust.ChaCha.XChaChaCore.new_tr (R := R) tgt key.toList nonce.toList).1 = Rust.ChaCha.XChaChaCore.new (R := R) tgt key.toList nonce.toList :=
  ⟨.of (Rust.ChaCha.XChaChaCore_new_obl (I := []) _ _ (like_toList key key') _ _ (like_toList nonce nonce'))
    ((Rust.ChaCha.XChaChaCore_new_erase _ _).trans (Rust.ChaCha.newX_ok key nonce))
    ((Rust.ChaCha.XChaChaCore_new_erase _ _).trans (Rust.ChaCha.newX_ok key' nonce'))
    (by decide), Rust.ChaCha.XChaChaCore_new_erase _ _⟩

/-- **C90**, HSalsa. -/
theorem C90_hsalsa (tgt : Target) (R : Type) [Unsigned R] (key key' : Vector U8 32) (input input' : Vector U8 16) :
    SameSeen [] (Rust.Salsa.hsalsa_tr (R := R) tgt key.toList input.toList) (Rust.Salsa.hsalsa_tr (R := R) tgt key'.toList input'.toList) ∧
    (Rust.Salsa.hsalsa_tr (R := R) tgt key.toList input.toList).1 = Rust.Salsa.hsalsa (R := R) tgt key.toList input.toList :=
  ⟨.of (Rust.Salsa.hsalsa_obl (I := []) _ _ (like_toList key key') _ _ (like_toList input input'))
    ((Rust.Salsa.hsalsa_erase _ _).trans (C81_hsalsa tgt R key input))
    ((Rust.Salsa.hsalsa_erase _ _).trans (C81_hsalsa tgt R key' input'))
    (by decide), Rust.Salsa.hsalsa_erase _ _⟩

/-- **C90**, construction of Salsa20. -/
theorem C90_salsa_new (tgt : Target) (ht : 16 ≤ tgt.bits) (R : Type) [Unsigned R] (key key' : Vector U8 32) (nonce nonce' : Vector U8 8) :
    SameSeen [] (Rust.Salsa.SalsaCore.new_tr (R := R) tgt key.toList nonce.toList) (Rust.Salsa.SalsaCore.new_tr (R := R) tgt key'.toList nonce'.toList) ∧
    (Rust.Salsa.SalsaCore.new_tr (R := R) tgt key.toList nonce.toList).1 = Rust.Salsa.SalsaCore.new (R := R) tgt key.toList nonce.toList :=
  ⟨.of (Rust.Salsa.SalsaCore_new_obl (I := []) _ _ (like_toList key key') _ _ (like_toList nonce nonce'))
    ((Rust.Salsa.SalsaCore_new_erase _ _).trans (Rust.Salsa.new_eq ht key nonce))
    ((Rust.Salsa.SalsaCore_new_erase _ _).trans (Rust.Salsa.new_eq ht key' nonce'))
    (by decide), Rust.Salsa.SalsaCore_new_erase _ _⟩

/-- **C90**, construction of XSalsa20. -/
theorem C90_xsalsa_new (tgt : Target) (ht : 16 ≤ tgt.bits) (R : Type) [Unsigned R] (key key' : Vector U8 32) (nonce nonce' : Vector U8 24) :
    SameSeen [] (Rust.Salsa.XSalsaCore.new_tr (R := R) tgt key.toList nonce.toList) (Rust.Salsa.XSalsaCore.new_tr (R := R) tgt key'.toList nonce'.toList) ∧
    (Rust.Salsa.XSalsaCore.new_tr (R := R) tgt key.toList nonce.toList).1 = Rust.Salsa.XSalsaCore.new (R := R) tgt key.toList nonce.toList :=
  ⟨.of (Rust.Salsa.XSalsaCore_new_obl (I := []) _ _ (like_toList key key') _ _ (like_toList nonce nonce'))
    ((Rust.Salsa.XSalsaCore_new_erase _ _).trans (Rust.Salsa.newX_eq ht key nonce))
    ((Rust.Salsa.XSalsaCore_new_erase _ _).trans (Rust.Salsa.newX_eq ht key' nonce'))
    (by decide), Rust.Salsa.XSalsaCore_new_erase _ _⟩

/-- **C90**, the key setup of Rabbit. -/
theorem C90_rabbit_key (tgt : Target) (ht : 16 ≤ tgt.bits) (key key' : Vector U8 16) :
    SameSeen [] (Rust.Rabbit.RabbitKeyOnlyCore.new_tr tgt key.toList) (Rust.Rabbit.RabbitKeyOnlyCore.new_tr tgt key'.toList) ∧
    (Rust.Rabbit.RabbitKeyOnlyCore.new_tr tgt key.toList).1 = Rust.Rabbit.RabbitKeyOnlyCore.new tgt key.toList :=
  ⟨.of (Rust.Rabbit.RabbitKeyOnlyCore_new_obl (I := []) _ _ (like_toList key key'))
    ((Rust.Rabbit.RabbitKeyOnlyCore_new_erase _).trans (Rust.Rabbit.new_ok ht key))
    ((Rust.Rabbit.RabbitKeyOnlyCore_new_erase _).trans (Rust.Rabbit.new_ok ht key'))
    (by decide), Rust.Rabbit.RabbitKeyOnlyCore_new_erase _⟩

/-- **C90**, the IV setup of Rabbit. -/
theorem C90_rabbit_iv (tgt : Target) (s s' : Rabbit.State) (iv iv' : Vector U8 8) :
    SameSeen [] (Rust.Rabbit.RabbitCore.inner_iv_init_tr tgt ⟨Rust.Rabbit.repr s⟩ iv.toList) (Rust.Rabbit.RabbitCore.inner_iv_init_tr tgt ⟨Rust.Rabbit.repr s'⟩ iv'.toList) ∧
    (Rust.Rabbit.RabbitCore.inner_iv_init_tr tgt ⟨Rust.Rabbit.repr s⟩ iv.toList).1 = Rust.Rabbit.RabbitCore.inner_iv_init tgt ⟨Rust.Rabbit.repr s⟩ iv.toList :=
  ⟨.of (Rust.Rabbit.RabbitCore_inner_iv_init_obl (I := []) _ _ (Rust.Rabbit.like_repr s s') _ _ (like_toList iv iv'))
    ((Rust.Rabbit.RabbitCore_inner_iv_init_erase _ _).trans (Rust.Rabbit.iv_ok iv s))
    ((Rust.Rabbit.RabbitCore_inner_iv_init_erase _ _).trans (Rust.Rabbit.iv_ok iv' s'))
    (by decide), Rust.Rabbit.RabbitCore_inner_iv_init_erase _ _⟩

/-- **C90**, a block of Rabbit. -/
theorem C90_rabbit_block (tgt : Target) (s s' : Rabbit.State) (block block' : Vector U8 16) :
    SameSeen [] (Rust.Rabbit.Backend.gen_ks_block_tr tgt ⟨Rust.Rabbit.repr s⟩ block.toList) (Rust.Rabbit.Backend.gen_ks_block_tr tgt ⟨Rust.Rabbit.repr s'⟩ block'.toList) ∧
    (Rust.Rabbit.Backend.gen_ks_block_tr tgt ⟨Rust.Rabbit.repr s⟩ block.toList).1 = Rust.Rabbit.Backend.gen_ks_block tgt ⟨Rust.Rabbit.repr s⟩ block.toList :=
  ⟨.of (Rust.Rabbit.Backend_gen_ks_block_obl (I := []) _ _ (Rust.Rabbit.like_repr s s') _ _ (like_toList block block'))
    ((Rust.Rabbit.Backend_gen_ks_block_erase _ _).trans ((C79_block tgt s block.toList (by simp)).1.choose_spec))
    ((Rust.Rabbit.Backend_gen_ks_block_erase _ _).trans ((C79_block tgt s' block'.toList (by simp)).1.choose_spec))
    (by decide), Rust.Rabbit.Backend_gen_ks_block_erase _ _⟩

/-- **C90**, a refill of the generators on this backend. -/
theorem C90_sse2_refill (tgt : Target) (ht : 16 ≤ tgt.bits) (R V : Type) [Rust.ChaCha.Rounds R] [Rust.ChaCha.Variant V]
    (hV : RInt.width (Rust.ChaCha.Variant.Counter V) = 32 ∨ RInt.width (Rust.ChaCha.Variant.Counter V) = 64) (s s' : Vector U32 16)
    (buffer buffer' : Vector U32 64) :
    SameSeen Spec.Isa.sse41 (Rust.ChaCha.sse2.rng_inner_tr tgt (⟨s.toList, ()⟩ : Rust.ChaCha.ChaChaCore R V) buffer.toList)
      (Rust.ChaCha.sse2.rng_inner_tr tgt (⟨s'.toList, ()⟩ : Rust.ChaCha.ChaChaCore R V) buffer'.toList) ∧
    (Rust.ChaCha.sse2.rng_inner_tr tgt (⟨s.toList, ()⟩ : Rust.ChaCha.ChaChaCore R V) buffer.toList).1 =
      Rust.ChaCha.sse2.rng_inner tgt (⟨s.toList, ()⟩ : Rust.ChaCha.ChaChaCore R V) buffer.toList := by
  obtain ⟨v, hv⟩ := Rust.ChaCha.is_of_width hV
  exact ⟨.of (Rust.ChaCha.sse2.rng_inner_obl _ _ (like_toList s s') _ _ (like_toList buffer buffer')) ((Rust.ChaCha.sse2.rng_inner_erase _ _).trans (Rust.ChaCha.sse2.rng_inner_eq hv ht s _ (by simp)))
    ((Rust.ChaCha.sse2.rng_inner_erase _ _).trans (Rust.ChaCha.sse2.rng_inner_eq hv ht s' _ (by simp))) (by decide), Rust.ChaCha.sse2.rng_inner_erase _ _⟩

/-- **C90**, a refill of the generators on this backend. -/
theorem C90_avx2_refill (tgt : Target) (ht : 16 ≤ tgt.bits) (R V : Type) [Rust.ChaCha.Rounds R] [Rust.ChaCha.Variant V] (s s' : Vector U32 16)
    (buffer buffer' : Vector U32 64) :
    SameSeen Spec.Isa.avx2 (Rust.ChaCha.avx2.rng_inner_tr tgt (⟨s.toList, ()⟩ : Rust.ChaCha.ChaChaCore R V) buffer.toList)
      (Rust.ChaCha.avx2.rng_inner_tr tgt (⟨s'.toList, ()⟩ : Rust.ChaCha.ChaChaCore R V) buffer'.toList) ∧
    (Rust.ChaCha.avx2.rng_inner_tr tgt (⟨s.toList, ()⟩ : Rust.ChaCha.ChaChaCore R V) buffer.toList).1 =
      Rust.ChaCha.avx2.rng_inner tgt (⟨s.toList, ()⟩ : Rust.ChaCha.ChaChaCore R V) buffer.toList := by
  exact ⟨.of (Rust.ChaCha.avx2.rng_inner_obl _ _ (like_toList s s') _ _ (like_toList buffer buffer')) ((Rust.ChaCha.avx2.rng_inner_erase _ _).trans (Rust.ChaCha.avx2.rng_inner_eq ht s _ (by simp)))
    ((Rust.ChaCha.avx2.rng_inner_erase _ _).trans (Rust.ChaCha.avx2.rng_inner_eq ht s' _ (by simp))) (by decide), Rust.ChaCha.avx2.rng_inner_erase _ _⟩

/-- **C90**, a refill of the generators on this backend. -/
theorem C90_neon_refill (tgt : Target) (ht : 16 ≤ tgt.bits) (R V : Type) [Rust.ChaCha.Rounds R] [Rust.ChaCha.Variant V]
    (hV : RInt.width (Rust.ChaCha.Variant.Counter V) = 32 ∨ RInt.width (Rust.ChaCha.Variant.Counter V) = 64) (s s' : Vector U32 16)
    (buffer buffer' : Vector U32 64) :
    SameSeen Spec.Isa.neon (Rust.ChaCha.neon.rng_inner_tr tgt (⟨s.toList, ()⟩ : Rust.ChaCha.ChaChaCore R V) buffer.toList)
      (Rust.ChaCha.neon.rng_inner_tr tgt (⟨s'.toList, ()⟩ : Rust.ChaCha.ChaChaCore R V) buffer'.toList) ∧
    (Rust.ChaCha.neon.rng_inner_tr tgt (⟨s.toList, ()⟩ : Rust.ChaCha.ChaChaCore R V) buffer.toList).1 =
      Rust.ChaCha.neon.rng_inner tgt (⟨s.toList, ()⟩ : Rust.ChaCha.ChaChaCore R V) buffer.toList := by
  obtain ⟨v, hv⟩ := Rust.ChaCha.is_of_width hV
  exact ⟨.of (Rust.ChaCha.neon.rng_inner_obl _ _ (like_toList s s') _ _ (like_toList buffer buffer')) ((Rust.ChaCha.neon.rng_inner_erase _ _).trans (Rust.ChaCha.neon.rng_inner_eq ht hv s _ (by simp)))
    ((Rust.ChaCha.neon.rng_inner_erase _ _).trans (Rust.ChaCha.neon.rng_inner_eq ht hv s' _ (by simp))) (by decide), Rust.ChaCha.neon.rng_inner_erase _ _⟩

/-- **C90**, a refill of the generators on the portable backend. -/
theorem C90_soft_refill (tgt : Target) (ht : 16 ≤ tgt.bits) (R V : Type) [Rust.ChaCha.Rounds R] [Rust.ChaCha.Variant V] (s s' : Vector U32 16)
    (buffer buffer' : Vector U32 64) :
    SameSeen [] (Rust.ChaCha.Backend.gen_ks_blocks_tr tgt ⟨(⟨s.toList, ()⟩ : Rust.ChaCha.ChaChaCore R V)⟩ buffer.toList)
      (Rust.ChaCha.Backend.gen_ks_blocks_tr tgt ⟨(⟨s'.toList, ()⟩ : Rust.ChaCha.ChaChaCore R V)⟩ buffer'.toList) ∧
    (Rust.ChaCha.Backend.gen_ks_blocks_tr tgt ⟨(⟨s.toList, ()⟩ : Rust.ChaCha.ChaChaCore R V)⟩ buffer.toList).1 =
      Rust.ChaCha.Backend.gen_ks_blocks tgt ⟨(⟨s.toList, ()⟩ : Rust.ChaCha.ChaChaCore R V)⟩ buffer.toList :=
  ⟨.of (Rust.ChaCha.Backend_gen_ks_blocks_obl (I := []) _ _ (like_toList s s') _ _ (like_toList buffer buffer'))
    ((Rust.ChaCha.Backend_gen_ks_blocks_erase _ _).trans (Rust.ChaCha.gen_ks_blocks_eq ht s _ (by simp)))
    ((Rust.ChaCha.Backend_gen_ks_blocks_erase _ _).trans (Rust.ChaCha.gen_ks_blocks_eq ht s' _ (by simp))) (by decide),
    Rust.ChaCha.Backend_gen_ks_blocks_erase _ _⟩

theorem salsa_block_ok {tgt : Target} {R : Type} [Unsigned R] (s : Vector U32 16) (hs : tgt.mode = .debug → salsaCounter s < 2 ^ 64 - 1) (block : Vector U8 64) :
    ∃ x, (Rust.Salsa.Backend.gen_ks_block_tr tgt ⟨(⟨s.toList⟩ : Rust.Salsa.SalsaCore R)⟩ block.toList).1 = .ok x := by
  have h := (C81_block tgt R s block.toList (by simp)).1
  rw [if_neg fun h => absurd (hs h.1) (by omega)] at h
  exact ⟨_, (Rust.Salsa.Backend_gen_ks_block_erase (R := R) _ _).trans h⟩

/-- **C90**, a block of Salsa20, short of the last counter if overflow is checked. -/
theorem C90_salsa_block (tgt : Target) (R : Type) [Unsigned R] (s s' : Vector U32 16) (hs : tgt.mode = .debug → salsaCounter s < 2 ^ 64 - 1)
    (hs' : tgt.mode = .debug → salsaCounter s' < 2 ^ 64 - 1) (block block' : Vector U8 64) :
    SameSeen [] (Rust.Salsa.Backend.gen_ks_block_tr tgt ⟨(⟨s.toList⟩ : Rust.Salsa.SalsaCore R)⟩ block.toList)
      (Rust.Salsa.Backend.gen_ks_block_tr tgt ⟨(⟨s'.toList⟩ : Rust.Salsa.SalsaCore R)⟩ block'.toList) ∧
    (Rust.Salsa.Backend.gen_ks_block_tr tgt ⟨(⟨s.toList⟩ : Rust.Salsa.SalsaCore R)⟩ block.toList).1 =
      Rust.Salsa.Backend.gen_ks_block tgt ⟨(⟨s.toList⟩ : Rust.Salsa.SalsaCore R)⟩ block.toList := by
  obtain ⟨x, hx⟩ := salsa_block_ok (R := R) s hs block
  obtain ⟨x', hx'⟩ := salsa_block_ok (R := R) s' hs' block'
  exact ⟨.of (Rust.Salsa.Backend_gen_ks_block_obl (I := []) _ _ (like_toList s s') _ _ (like_toList block block')) hx hx' (by decide),
    Rust.Salsa.Backend_gen_ks_block_erase _ _⟩

/-- What is seen first of two steps. -/
theorem Rust.head_bind {α β : Type} {m : Tr α} {k : α → Tr β} {e : Event} (h : m.2.head? = some e) : (m >>= k).2.head? = some e := by
  obtain ⟨m, t⟩ := m
  cases t with
  | nil => cases h
  | cons x t =>
    show (Tr.andThen (m, x :: t) k).2.head? = _
    cases m <;> exact h

theorem Rust.head_pure {α β : Type} {a : α} {k : α → Tr β} {e : Event} (h : (k a).2.head? = some e) : ((pure a : Tr α) >>= k).2.head? = some e := h

/-- **C90**, loops are seen: a record of a block of Salsa20 begins with the number of double rounds, so ciphers with different numbers of rounds are told apart. -/
theorem C90_rounds (tgt : Target) (R : Type) [Unsigned R] (s : Vector U32 16) (block : List U8) :
    (Rust.Salsa.Backend.gen_ks_block_tr tgt ⟨(⟨s.toList⟩ : Rust.Salsa.SalsaCore R)⟩ block).2.head? = some (.loop (Unsigned.USIZE R tgt).val) := by
  unfold Rust.Salsa.Backend.gen_ks_block_tr Rust.Salsa.run_rounds_tr
  exact head_pure <| head_pure <| head_bind <| head_pure <| head_bind rfl

/-- **C90**, the messages: encryption of as many blocks makes the same requests, whatever they contain, and so does producing keystream. -/
theorem C90_messages : (∀ (data data' : List (List U8)), data.length = data'.length → ∀ n, SameRequests n (applyBlocksClosure data n) (applyBlocksClosure data' n)) ∧
    (∀ len n, SameRequests n (writeBlocksClosure len n) (writeBlocksClosure len n)) ∧ ∀ n, SameRequests n (writeBlockClosure 64 n) (writeBlockClosure 64 n) :=
  ⟨fun _ _ h n => sameRequests_apply h n, sameRequests_write, sameRequests_block⟩

namespace Rust

/-- What is seen of two steps, if the first succeeds. -/
theorem seen_ok {α β : Type} {m : Tr α} {k : α → Tr β} {a : α} (h : m.1 = .ok a) : (m >>= k).2 = m.2 ++ (k a).2 := by
  obtain ⟨m, t⟩ := m
  cases h
  rfl

theorem seen_lift {α β : Type} {m : Except Panic α} {k : α → Tr β} {a : α} (h : m = .ok a) : ((liftM m : Tr α) >>= k).2 = (k a).2 := by
  cases h
  rfl

theorem seen_idx {α β : Type} {tgt : Target} {l : List α} {i : Usize tgt} {k : α → Tr β} {a : α} (h : idx l i = .ok a) :
    (Tr.idx l i >>= k).2 = .index i.val :: (k a).2 := seen_ok h

theorem seen_swap {α β : Type} {tgt : Target} {l l' : List α} {i j : Usize tgt} {k : List α → Tr β} (h : swap l i j = .ok l') :
    (Tr.swap l i j >>= k).2 = .slice i.val j.val :: (k l').2 := seen_ok h

theorem seen_pure {α β : Type} {k : α → Tr β} {a : α} : ((pure a : Tr α) >>= k).2 = (k a).2 := rfl

end Rust

theorem rc4_swap_left (t : Vector U8 256) (a b : U8) : Rc4.at_ (Rc4.swap t a b) a = Rc4.at_ t b := by
  simp only [Rc4.at_, Rc4.swap, Vector.getElem_set]
  split <;> simp_all

theorem rc4_swap_right (t : Vector U8 256) (a b : U8) : Rc4.at_ (Rc4.swap t a b) b = Rc4.at_ t a := by
  simp only [Rc4.at_, Rc4.swap, Vector.getElem_set]
  split <;> simp_all

/-- **C90**, RC4 is different: the places that the generator touches are secret.  In every state the new `j`, and the sum of the two entries exchanged, are
seen. -/
theorem C90_rc4 (tgt : Target) (ht : 16 ≤ tgt.bits) (S : Vector U8 256) (i j : U8) :
    (Rust.Rc4.Rc4.prga_tr tgt ⟨S.toList, i, j⟩).2 =
      [.index (i + 1).toNat, .slice (i + 1).toNat (j + S[(i + 1).toNat]'(i + 1).isLt).toNat, .index (i + 1).toNat,
        .index (j + S[(i + 1).toNat]'(i + 1).isLt).toNat,
        .index (S[(j + S[(i + 1).toNat]'(i + 1).isLt).toNat]'(BitVec.isLt _) + S[(i + 1).toNat]'(i + 1).isLt).toNat] := by
  have hi (t : Vector U8 256) (a : U8) : idx t.toList (cast (Usize tgt) a) = .ok (Rc4.at_ t a) := by
    rw [cast_byte ht, idx_vec _ _ a.isLt]; rfl
  have e (a : U8) : (cast (Usize tgt) a).val = a.toNat := congrArg Usize.val (cast_byte ht a)
  refine (seen_idx (hi S (i + 1))).trans ?_
  refine (congrArg (List.cons _) (seen_swap (Rust.Rc4.swap_eq ht S (i + 1) (j + Rc4.at_ S (i + 1))))).trans ?_
  refine (congrArg (List.cons _) (congrArg (List.cons _) (seen_idx (hi _ (i + 1))))).trans ?_
  refine (congrArg (List.cons _) (congrArg (List.cons _) (congrArg (List.cons _) (seen_idx (hi _ (j + Rc4.at_ S (i + 1))))))).trans ?_
  refine (congrArg (List.cons _) (congrArg (List.cons _) (congrArg (List.cons _) (congrArg (List.cons _) (seen_idx (hi _ _)))))).trans ?_
  rw [rc4_swap_left, rc4_swap_right]
  simp only [e]
  rfl

/-- **C90**, HC-256 is different too: each of its table functions shows its argument, `h1` and `h2` all of it. -/
theorem C90_hc256 (tgt : Target) (ht : 16 ≤ tgt.bits) (P Q : Vector U32 1024) (idx x y : U32) :
    (Rust.Hc256.Hc256Core.h1_tr tgt ⟨P.toList, Q.toList, idx⟩ x).2 =
      [.index (x.toNat % 256), .index (256 + x.toNat / 2 ^ 8 % 256), .index (512 + x.toNat / 2 ^ 16 % 256), .index (768 + x.toNat / 2 ^ 24)] ∧
    (Rust.Hc256.Hc256Core.h2_tr tgt ⟨P.toList, Q.toList, idx⟩ x).2 =
      [.index (x.toNat % 256), .index (256 + x.toNat / 2 ^ 8 % 256), .index (512 + x.toNat / 2 ^ 16 % 256), .index (768 + x.toNat / 2 ^ 24)] ∧
    (Rust.Hc256.Hc256Core.g1_tr tgt ⟨P.toList, Q.toList, idx⟩ x y).2 = [.index ((x ^^^ y).toNat % 1024)] ∧
    (Rust.Hc256.Hc256Core.g2_tr tgt ⟨P.toList, Q.toList, idx⟩ x y).2 = [.index ((x ^^^ y).toNat % 1024)] := by
  have e (a : U32) (h : a.toNat < 1024) : (cast (Usize tgt) a) = ⟨a.toNat⟩ := by
    show (⟨a.toNat % 2 ^ tgt.bits⟩ : Usize tgt) = _
    rw [Nat.mod_eq_of_lt (pow_bits ht (by omega))]
  have hn (a : U32) : (RInt.band a (255 : U32)).toNat = a.toNat % 256 := (BitVec.toNat_and ..).trans (Nat.and_two_pow_sub_one_eq_mod _ 8)
  have hb (n : Nat) (h768 : n ≤ 768) (a : U32) : add tgt (BitVec.ofNat 32 n) (RInt.band a 255) = .ok (BitVec.ofNat 32 (n + a.toNat % 256)) := by
    have h : RInt.toNat (BitVec.ofNat 32 n) + RInt.toNat (RInt.band a (255 : U32)) < 2 ^ RInt.width U32 := by
      show (BitVec.ofNat 32 n).toNat + (RInt.band a (255 : U32)).toNat < 2 ^ 32
      rw [hn, BitVec.toNat_ofNat]
      omega
    rw [add, if_pos h]
    refine congrArg Except.ok (BitVec.eq_of_toNat_eq ?_)
    show (BitVec.ofNat 32 n + RInt.band a (255 : U32)).toNat = _
    rw [BitVec.toNat_add, hn, BitVec.toNat_ofNat, BitVec.toNat_ofNat]
    omega
  have hl (n : Nat) (hn : n ≤ 768) (a : U32) : (BitVec.ofNat 32 (n + a.toNat % 256)).toNat = n + a.toNat % 256 := by
    rw [BitVec.toNat_ofNat]
    omega
  have hi (t : Vector U32 1024) (a : U32) (h : a.toNat < 1024) : Rust.idx t.toList (cast (Usize tgt) a) = .ok t[a.toNat] := by
    rw [e a h, idx_vec _ _ h]
  have hv (a : U32) (h : a.toNat < 1024) : (cast (Usize tgt) a).val = a.toNat := congrArg Usize.val (e a h)
  have hs (k : Nat) : (x >>> k).toNat = x.toNat / 2 ^ k := (BitVec.toNat_ushiftRight ..).trans (Nat.shiftRight_eq_div_pow ..)
  have hh (t : Vector U32 1024) :
      (do
        let r0 ← Tr.idx t.toList (cast (Usize tgt) (RInt.band x 255))
        let r1 ← liftM (shr tgt x 8)
        let r2 ← liftM (add tgt 256 (RInt.band r1 255))
        let r3 ← Tr.idx t.toList (cast (Usize tgt) r2)
        let r4 ← liftM (shr tgt x 16)
        let r5 ← liftM (add tgt 512 (RInt.band r4 255))
        let r6 ← Tr.idx t.toList (cast (Usize tgt) r5)
        let r7 ← liftM (shr tgt x 24)
        let r8 ← liftM (add tgt 768 (RInt.band r7 255))
        let r9 ← Tr.idx t.toList (cast (Usize tgt) r8)
        pure (RInt.wadd (RInt.wadd (RInt.wadd r0 r3) r6) r9) : Tr U32).2 =
      [.index (x.toNat % 256), .index (256 + x.toNat / 2 ^ 8 % 256), .index (512 + x.toNat / 2 ^ 16 % 256), .index (768 + x.toNat / 2 ^ 24)] := by
    have h0 : (RInt.band x (255 : U32)).toNat < 1024 := by rw [hn]; omega
    have hlt (n : Nat) (h : n ≤ 768) (a : U32) : (BitVec.ofNat 32 (n + a.toNat % 256)).toNat < 1024 := by rw [hl n h]; omega
    refine (seen_idx (hi t _ h0)).trans ?_
    refine (congrArg (List.cons _) (seen_lift (shr_ok _ 8 (show 8 < 32 by decide)))).trans ?_
    refine (congrArg (List.cons _) (seen_lift (hb 256 (by decide) _))).trans ?_
    refine (congrArg (List.cons _) (seen_idx (hi t _ (hlt 256 (by decide) _)))).trans ?_
    refine (congrArg (List.cons _) (congrArg (List.cons _) (seen_lift (shr_ok _ 16 (show 16 < 32 by decide))))).trans ?_
    refine (congrArg (List.cons _) (congrArg (List.cons _) (seen_lift (hb 512 (by decide) _)))).trans ?_
    refine (congrArg (List.cons _) (congrArg (List.cons _) (seen_idx (hi t _ (hlt 512 (by decide) _))))).trans ?_
    refine (congrArg (List.cons _) (congrArg (List.cons _) (congrArg (List.cons _) (seen_lift (shr_ok _ 24 (show 24 < 32 by decide)))))).trans ?_
    refine (congrArg (List.cons _) (congrArg (List.cons _) (congrArg (List.cons _) (seen_lift (hb 768 (by decide) _))))).trans ?_
    refine (congrArg (List.cons _) (congrArg (List.cons _) (congrArg (List.cons _) (seen_idx (hi t _ (hlt 768 (by decide) _)))))).trans ?_
    change [Event.index _, Event.index _, Event.index _, Event.index _] = _
    rw [hv _ h0, hn, hv _ (hlt 256 (by decide) _), hl 256 (by decide), hv _ (hlt 512 (by decide) _), hl 512 (by decide), hv _ (hlt 768 (by decide) _),
      hl 768 (by decide), hs, hs, hs, Nat.mod_eq_of_lt (show x.toNat / 2 ^ 24 < 256 from by have := x.isLt; omega)]
  have hg (t : Vector U32 1024) (f : U32 → U32) :
      (do
        let r0 ← liftM (Rust.Hc256.TABLE_MASK tgt)
        let r1 ← Tr.idx t.toList (RInt.band (cast (Usize tgt) (RInt.bxor x y)) r0)
        pure (f r1) : Tr U32).2 = [.index ((x ^^^ y).toNat % 1024)] := by
    have hm : (RInt.band (cast (Usize tgt) (RInt.bxor x y)) (⟨1023⟩ : Usize tgt)).val = (x ^^^ y).toNat % 1024 := by
      show (x ^^^ y).toNat % 2 ^ tgt.bits &&& 1023 = _
      rw [show (1023 : Nat) = 2 ^ 10 - 1 from rfl, Nat.and_two_pow_sub_one_eq_mod]
      exact Nat.mod_mod_of_dvd _ (Nat.pow_dvd_pow 2 (by omega))
    refine (seen_lift (Rust.Hc256.table_mask_eq ht)).trans ?_
    refine (seen_idx (idx_vec t _ (by rw [hm]; omega))).trans ?_
    exact congrArg (fun n => [Event.index n]) hm
  exact ⟨hh Q, hh P, hg Q _, hg P _⟩

namespace Rust

/-- Whenever the computation succeeds, this is seen. -/
def Sees {α : Type} (e : Event) (m : Tr α) : Prop := ∀ x, m.1 = .ok x → e ∈ m.2

theorem Sees.first {α β : Type} {e : Event} {m : Tr α} {k : α → Tr β} (h : Sees e m) : Sees e (m >>= k) := by
  obtain ⟨r, t⟩ := m
  cases r with
  | error p => exact nofun
  | ok a => exact fun _ _ => List.mem_append_left _ (h a rfl)

theorem Sees.later {α β : Type} {e : Event} {m : Tr α} {k : α → Tr β} (h : ∀ a, Sees e (k a)) : Sees e (m >>= k) := by
  obtain ⟨r, t⟩ := m
  cases r with
  | error p => exact nofun
  | ok a => exact fun x hx => List.mem_append_right _ (h a x hx)

theorem Sees.instr {α : Type} (name : String) (a : α) : Sees (.instr name) (Tr.instr name a) := fun _ _ => List.mem_cons_self

theorem Sees.branch {α : Type} {e : Event} {b : Bool} {k : Bool → Tr α} (h : Sees e (k b)) : Sees e (Tr.branch b >>= k) :=
  fun x hx => List.mem_append_right _ (h x hx)

/-- Look for the instruction, one step of the text after another. -/
macro "sees" : tactic => `(tactic| repeat first
  | exact Sees.first (Sees.instr _ _)
  | refine Sees.later fun _ => ?_)

end Rust

/-- **C90**, the SSE2 backend needs SSE4.1: with a 64-bit counter, and in a refill with any counter, `_mm_extract_epi32` is always executed, and this is not an
instruction of SSE2. -/
theorem C90_sse41 (tgt : Target) (ht : 16 ≤ tgt.bits) (R V : Type) [Rust.ChaCha.Rounds R] [Rust.ChaCha.Variant V] :
    (RInt.width (Rust.ChaCha.Variant.Counter V) = 64 → ∀ (α : Type) (f : Closure 64 α), (∀ n, SameRequests n (f n) (f n)) → ∀ s : Vector U32 16,
      Event.instr "_mm_extract_epi32" ∈ (Rust.ChaCha.sse2.inner_tr (R := R) (V := V) tgt s.toList (Callee.ready f)).2) ∧
    (RInt.width (Rust.ChaCha.Variant.Counter V) = 32 ∨ RInt.width (Rust.ChaCha.Variant.Counter V) = 64 → ∀ (s : Vector U32 16) (buffer : Vector U32 64),
      Event.instr "_mm_extract_epi32" ∈ (Rust.ChaCha.sse2.rng_inner_tr tgt (⟨s.toList, ()⟩ : Rust.ChaCha.ChaChaCore R V) buffer.toList).2) ∧
    ¬Spec.Isa.Has Spec.Isa.sse2 "_mm_extract_epi32" := by
  refine ⟨fun hV α f hf s => ?_, fun hV s buffer => ?_, by decide⟩
  · obtain ⟨_, ⟨x, hx⟩, _⟩ := (C90_sse2 tgt ht R V (.inr hV) α f f hf s s).1
    refine (?_ : Sees _ _) x hx
    have h8 : (Rust.sizeOfTy tgt (Rust.ChaCha.Variant.Counter V) == 8) = true := by
      refine (Rust.Rabbit.usize_beq _ _).trans (decide_eq_true ?_)
      show RInt.width (Rust.ChaCha.Variant.Counter V) / 8 = 8
      rw [hV]
    rw [Rust.ChaCha.sse2.inner_tr]
    iterate 19 refine Sees.later fun _ => ?_
    refine Sees.branch ?_
    rw [if_pos h8]
    sees
  · obtain ⟨_, ⟨x, hx⟩, _⟩ := (C90_sse2_refill tgt ht R V hV s s buffer buffer).1
    refine (?_ : Sees _ _) x hx
    rw [Rust.ChaCha.sse2.rng_inner_tr]
    sees

/-- Three blocks of zeros under the zero key, three blocks of another text under another key, on AVX2: the same instructions, on the same places. -/
example (s : Vector U32 16) (text : List (List U8)) (h : text.length = 3) : SameSeen Spec.Isa.avx2
    (Rust.ChaCha.avx2.inner_tr (R := Rust.ChaCha.R20) (V := Rust.ChaCha.Ietf) ⟨.debug, 32⟩ (Vector.replicate 16 0).toList
      (Callee.ready (applyBlocksClosure (List.replicate 3 (List.replicate 64 0)))))
    (Rust.ChaCha.avx2.inner_tr (R := Rust.ChaCha.R20) (V := Rust.ChaCha.Ietf) ⟨.debug, 32⟩ s.toList (Callee.ready (applyBlocksClosure text))) :=
  (C90_avx2 ⟨.debug, 32⟩ (by decide) Rust.ChaCha.R20 Rust.ChaCha.Ietf (.inl rfl) _ _ _ (C90_messages.1 _ _ ((List.length_replicate ..).trans h.symm)) _ _).1

/-- Something is seen: a refill of `ChaCha8Rng` on SSE2 executes 256 exclusive-ors (four blocks, four double rounds, eight on the quarter rounds of each half
of a double round) and stores sixteen vectors. -/
example : let t := (Rust.ChaCha.sse2.rng_inner_tr ⟨.debug, 32⟩
      (⟨List.replicate 16 0, ()⟩ : Rust.ChaCha.ChaChaCore Rust.ChaCha.R8 Rust.ChaCha.Legacy) (List.replicate 64 0)).2
    (t.filter (· = .instr "_mm_xor_si128")).length = 256 ∧ (t.filter (· = .instr "_mm_storeu_si128")).length = 16 ∧ Event.branch false ∈ t := by
  decide +kernel

/-- The key setup of Rabbit branches and indexes, but not on the key. -/
example : (Rust.Rabbit.RabbitKeyOnlyCore.new_tr ⟨.release, 16⟩ (List.replicate 16 0)).2 =
      (Rust.Rabbit.RabbitKeyOnlyCore.new_tr ⟨.release, 16⟩ (List.replicate 16 0xff)).2 ∧
    Event.branch true ∈ (Rust.Rabbit.RabbitKeyOnlyCore.new_tr ⟨.release, 16⟩ (List.replicate 16 0)).2 := by
  decide +kernel

/-- Ciphers with different numbers of rounds are told apart. -/
example (tgt : Target) (R R' : Type) [Unsigned R] [Unsigned R'] (h : Unsigned.value R ≠ Unsigned.value R') (s s' : Vector U32 16) (block : List U8) :
    (Rust.Salsa.Backend.gen_ks_block_tr tgt ⟨(⟨s.toList⟩ : Rust.Salsa.SalsaCore R)⟩ block).2 ≠
      (Rust.Salsa.Backend.gen_ks_block_tr tgt ⟨(⟨s'.toList⟩ : Rust.Salsa.SalsaCore R')⟩ block).2 := by
  intro he
  have h1 := (C90_rounds tgt R s block).symm.trans ((congrArg List.head? he).trans (C90_rounds tgt R' s' block))
  exact h (by simpa [Unsigned.USIZE] using h1)

/-- Two states of RC4 are told apart by the first step. -/
example : (Rust.Rc4.Rc4.prga_tr ⟨.release, 64⟩ ⟨(Vector.replicate 256 0).toList, 0, 0⟩).2 ≠
    (Rust.Rc4.Rc4.prga_tr ⟨.release, 64⟩ ⟨(Vector.replicate 256 1).toList, 0, 0⟩).2 := by
  rw [C90_rc4 _ (by decide), C90_rc4 _ (by decide)]
  decide +kernel

/-- Every argument of `h1` is told from every other. -/
example (tgt : Target) (ht : 16 ≤ tgt.bits) (P Q : Vector U32 1024) (idx x y : U32)
    (h : (Rust.Hc256.Hc256Core.h1_tr tgt ⟨P.toList, Q.toList, idx⟩ x).2 = (Rust.Hc256.Hc256Core.h1_tr tgt ⟨P.toList, Q.toList, idx⟩ y).2) : x = y := by
  rw [(C90_hc256 tgt ht P Q idx x x).1, (C90_hc256 tgt ht P Q idx y y).1] at h
  simp only [List.cons.injEq, Event.index.injEq, and_true] at h
  have := x.isLt
  have := y.isLt
  exact BitVec.eq_of_toNat_eq (by omega)

end Verif
