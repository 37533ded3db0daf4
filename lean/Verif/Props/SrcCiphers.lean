import Verif.Rust.Ciphers
import Verif.Proof.CoreHom
import Verif.Props.SrcDispatch
import Verif.Props.SrcSalsa
import Verif.Props.SrcRabbit
import Verif.Props.SrcHc256
import Verif.Props.SrcRc4
import Verif.Props.SeekEnd
import Verif.Props.CoreApi
/-!
# C89: the text and the model are the same machine
-/
namespace Verif.Rust

variable {tgt : Target}

/-- The circumstances of the model. -/
def Circumstances.env (x : Circumstances) : Verif.ChaCha.Env := ChaCha.envOf x.build x.detected

theorem rem_mk (r : Option Nat) : (r.map (Usize.mk (tgt := tgt))).map Usize.val = r := by cases r <;> rfl

/-- A backend made of a function for one block, under a change of state. -/
theorem call_ofBlock {bs : Nat} {σ τ α : Type} (f : σ → τ) (n : Nat) {gen : σ → Except Panic (Vector U8 bs × σ)} {gen' : τ → Except Panic (Vector U8 bs × τ)}
    (hb : ∀ s, gen' (f s) = (gen s).map (Prod.map id f)) (g : Closure bs α) (s : σ) :
    (Verif.Backend.ofBlock n gen').call g (f s) = ((Verif.Backend.ofBlock n gen).call g s).map (Prod.map id f) := by
  have hs (k : Nat) : ∀ s, genMany gen' k (f s) = (genMany gen k s).map (Prod.map id f) := by
    induction k with
    | zero => intro s; rfl
    | succ k ih =>
      intro s
      rw [genMany, genMany, hb]
      cases gen s with
      | error e => rfl
      | ok r =>
        show (genMany gen' k (f r.2) >>= _) = Except.map _ (genMany gen k r.2 >>= _)
        rw [ih]
        cases genMany gen k r.2 <;> rfl
  exact call_sim (B := Verif.Backend.ofBlock n gen) (B' := Verif.Backend.ofBlock n gen') f rfl hb (hs n)
    (fun k s => by
      show (if k < n then _ else _) = Except.map _ (if k < n then _ else _)
      by_cases h : k < n
      · rw [if_pos h, if_pos h, hs]
      · rw [if_neg h, if_neg h]; rfl) g s

theorem blockOf_eq {bs : Nat} {σ τ : Type} {f : σ → τ} {gen : τ → List U8 → Except Panic (Unit × τ × List U8)} {s : σ} {r : Except Panic (Vector U8 bs × σ)}
    (h : gen (f s) (List.replicate bs 0) = r.map fun x => ((), f x.2, x.1.toList)) : blockOf bs gen (f s) = r.map (Prod.map id f) := by
  cases r with
  | error p => rw [blockOf, h]; rfl
  | ok r => exact blockOf_ok h

namespace ChaCha

theorem hom_of (ht : 16 ≤ tgt.bits) {R V : Type} [Rounds R] [Variant V] {v : Verif.ChaCha.Variant} (hV : Is V v)
    (hc : RInt.width (Variant.Counter V) = 8 * v.ctrBytes)
    (hr : ∀ s, (core R V tgt).remaining (repr R V s) = Verif.ChaCha.remainingBlocks tgt.bits v s)
    (hg : ∀ s, (core R V tgt).getPos (repr R V s) = (Verif.ChaCha.getBlockPos v s).toNat)
    (hs : ∀ s n, (core R V tgt).setPos (repr R V s) n = repr R V (Verif.ChaCha.setBlockPos v s (BitVec.ofNat _ n))) :
    SeekHom (Verif.ChaCha.core tgt.bits (Rounds.count R) v) (coreOf R V tgt) Circumstances.env (repr R V) where
  process x g s := call_of (runs_dispatch_env ht x.build x.detected hV g s)
  remaining := hr
  ctrBits := hc
  getPos := hg
  setPos := hs

theorem hom_ietf (ht : 16 ≤ tgt.bits) (R : Type) [Rounds R] :
    SeekHom (Verif.ChaCha.core tgt.bits (Rounds.count R) .ietf) (coreOf R Ietf tgt) Circumstances.env (repr R Ietf) :=
  hom_of ht is_ietf rfl (fun s => by simp only [core, remaining_ietf, rem_mk]) (fun s => by simp only [core, get_ietf]; rfl)
    (fun s n => by simp only [core, set_ietf]; rfl)

theorem hom_legacy (ht : 16 ≤ tgt.bits) (R : Type) [Rounds R] :
    SeekHom (Verif.ChaCha.core tgt.bits (Rounds.count R) .legacy) (coreOf R Legacy tgt) Circumstances.env (repr R Legacy) :=
  hom_of ht is_legacy rfl (fun s => by simp only [core, remaining_legacy, rem_mk]) (fun s => by simp only [core, get_legacy]; rfl)
    (fun s n => by simp only [core, set_legacy]; rfl)

theorem hom_x (ht : 16 ≤ tgt.bits) (R : Type) [Rounds R] :
    SeekHom (Verif.ChaCha.core tgt.bits (Rounds.count R) .ietf) (coreXOf R tgt) Circumstances.env (fun s => (⟨repr R Ietf s⟩ : XChaChaCore R)) where
  process := fun x g (s : Verif.ChaCha.State) => by
    have h := (hom_ietf (tgt := tgt) ht R).process x g s
    have h' : (Process.dispatch x.build x.detected).call R Ietf tgt g (repr R Ietf s) =
      ((Verif.ChaCha.core tgt.bits (Rounds.count R) .ietf).process x.env g s).map (Prod.map id (repr R Ietf)) := h
    simp only [coreXOf, h']
    cases (Verif.ChaCha.core tgt.bits (Rounds.count R) .ietf).process x.env g s <;> rfl
  remaining := fun (s : Verif.ChaCha.State) => by
    refine Eq.trans ?_ ((hom_ietf (tgt := tgt) ht R).remaining s)
    simp only [coreXOf, coreOf, coreX, core, XChaChaCore.remaining_blocks]
  ctrBits := rfl
  getPos := fun (s : Verif.ChaCha.State) => by
    have h : XChaChaCore.get_block_pos tgt (⟨repr R Ietf s⟩ : XChaChaCore R) = .ok (Verif.ChaCha.Ietf.getBlockPos s) := get_ietf s
    simp only [coreXOf, coreX, h]
    rfl
  setPos := fun (s : Verif.ChaCha.State) n => by
    have h : XChaChaCore.set_block_pos tgt (⟨repr R Ietf s⟩ : XChaChaCore R) (BitVec.ofNat 32 n) =
        .ok ((), ⟨repr R Ietf (Verif.ChaCha.Ietf.setBlockPos s (BitVec.ofNat 32 n))⟩) := by
      rw [XChaChaCore.set_block_pos]
      dsimp only
      rw [set_ietf]
      rfl
    simp only [coreXOf, coreX, h]
    rfl

end ChaCha

namespace Salsa

theorem hom (R : Type) [Unsigned R] : SeekHom (Verif.Salsa.core Verif.ChaCha.Env tgt.bits tgt.mode (Unsigned.value R))
    ({ core R tgt with process := fun _ f s => (core R tgt).process () f s } : SeekCore 64 Circumstances) Circumstances.env (repr R) where
  process := fun x g (s : Verif.Salsa.State) => call_ofBlock (repr R) 1 (fun s => genBlock_eq s) g s
  remaining := fun (s : Verif.Salsa.State) => by simp only [core, remaining_blocks_eq, rem_mk]; rfl
  ctrBits := rfl
  getPos := fun (s : Verif.Salsa.State) => by simp only [core, get_block_pos_eq]; rfl
  setPos := fun (s : Verif.Salsa.State) n => by simp only [core, set_block_pos_eq]; rfl

theorem hom_x (R : Type) [Unsigned R] : SeekHom (Verif.Salsa.core Verif.ChaCha.Env tgt.bits tgt.mode (Unsigned.value R))
    ({ coreX R tgt with process := fun _ f s => (coreX R tgt).process () f s } : SeekCore 64 Circumstances) Circumstances.env
    (fun s => (⟨repr R s⟩ : XSalsaCore R)) where
  process := fun x g (s : Verif.Salsa.State) => by
    have h := call_ofBlock (repr R) 1 (gen' := genBlock R tgt) (fun s => genBlock_eq s) g s
    simp only [coreX, h]
    show _ = Except.map _ ((Verif.Backend.ofBlock 1 (Verif.Salsa.genBlock tgt.mode (Unsigned.value R))).call g s)
    cases (Verif.Backend.ofBlock 1 (Verif.Salsa.genBlock tgt.mode (Unsigned.value R))).call g s <;> rfl
  remaining := fun (s : Verif.Salsa.State) => by
    have h : XSalsaCore.remaining_blocks tgt (⟨repr R s⟩ : XSalsaCore R) = _ := remaining_blocks_eq s
    simp only [coreX, h, rem_mk]; rfl
  ctrBits := rfl
  getPos := fun (s : Verif.Salsa.State) => by
    have h : XSalsaCore.get_block_pos tgt (⟨repr R s⟩ : XSalsaCore R) = _ := get_block_pos_eq s
    simp only [coreX, h]; rfl
  setPos := fun (s : Verif.Salsa.State) n => by
    have h : XSalsaCore.set_block_pos tgt (⟨repr R s⟩ : XSalsaCore R) (BitVec.ofNat 64 n) =
        .ok ((), ⟨repr R (Verif.Salsa.setBlockPos s (BitVec.ofNat 64 n))⟩) := by
      rw [XSalsaCore.set_block_pos]
      dsimp only
      rw [set_block_pos_eq]
      rfl
    simp only [coreX, h]; rfl

end Salsa

theorem Rabbit.hom_keyOnly : CoreHom (Verif.Rabbit.core tgt.mode) (Rabbit.keyOnlyCore tgt) id (fun s => (⟨Rabbit.repr s⟩ : Rabbit.RabbitKeyOnlyCore)) where
  process := fun x g (s : Verif.Rabbit.State) => by
    have hb : ∀ s : Verif.Rabbit.State, blockOf 16 (fun (s : Rabbit.RabbitKeyOnlyCore) b => do
        let (_, backend, block) ← Rabbit.Backend.gen_ks_block tgt ⟨s.state⟩ b
        return ((), ⟨backend.f0⟩, block)) ⟨Rabbit.repr s⟩ =
          (Verif.Rabbit.genBlock tgt.mode s).map (Prod.map id fun s => (⟨Rabbit.repr s⟩ : Rabbit.RabbitKeyOnlyCore)) := fun s => by
      refine blockOf_eq (f := fun s => (⟨Rabbit.repr s⟩ : Rabbit.RabbitKeyOnlyCore)) ?_
      dsimp only
      rw [Rabbit.gen_ks_block_eq s _ List.length_replicate]
      generalize Verif.Rabbit.genBlock tgt.mode s = r
      cases r <;> rfl
    exact call_ofBlock (fun s => (⟨Rabbit.repr s⟩ : Rabbit.RabbitKeyOnlyCore)) 1 hb g s
  remaining _ := rfl

theorem Rabbit.hom : CoreHom (Verif.Rabbit.core tgt.mode) (Rabbit.core tgt) id (fun s => (⟨Rabbit.repr s⟩ : Rabbit.RabbitCore)) where
  process := fun x g (s : Verif.Rabbit.State) => by
    have hb : ∀ s : Verif.Rabbit.State, blockOf 16 (fun (s : Rabbit.RabbitCore) b => do
        let (_, backend, block) ← Rabbit.Backend.gen_ks_block tgt ⟨s.state⟩ b
        return ((), ⟨backend.f0⟩, block)) ⟨Rabbit.repr s⟩ =
          (Verif.Rabbit.genBlock tgt.mode s).map (Prod.map id fun s => (⟨Rabbit.repr s⟩ : Rabbit.RabbitCore)) := fun s => by
      refine blockOf_eq (f := fun s => (⟨Rabbit.repr s⟩ : Rabbit.RabbitCore)) ?_
      dsimp only
      rw [Rabbit.gen_ks_block_eq s _ List.length_replicate]
      generalize Verif.Rabbit.genBlock tgt.mode s = r
      cases r <;> rfl
    exact call_ofBlock (fun s => (⟨Rabbit.repr s⟩ : Rabbit.RabbitCore)) 1 hb g s
  remaining _ := rfl

theorem Hc256.hom (ht : 16 ≤ tgt.bits) : CoreHom (Verif.Hc256.core tgt.mode tgt.bits) (Hc256.core tgt) id Hc256.repr where
  process x g s := call_ofBlock Hc256.repr 1 (fun s => blockOf_eq (by
    rw [Hc256.gen_ks_block_eq ht s _ List.length_replicate]
    cases Verif.Hc256.genBlock tgt.mode tgt.bits s <;> rfl)) g s
  remaining _ := rfl

/-- The cipher of the model that a cipher of the text is, in builds of mode `m`. -/
def SeekText.cipher (m : Mode) : SeekText → SeekCipher
  | @chacha R _ key nonce => .chacha (ChaCha.Rounds.count R) key nonce
  | .chachaLegacy key nonce => .chachaLegacy 10 key nonce
  | @xchacha R _ key nonce => .xchacha (ChaCha.Rounds.count R) key nonce
  | @salsa R _ key nonce => .salsa m (Unsigned.value R) key nonce
  | @xsalsa R _ key nonce => .xsalsa m (Unsigned.value R) key nonce

/-- The same for the ciphers without seeking. -/
def PlainText.cipher (m : Mode) : PlainText → PlainCipher
  | .hc256 key iv => .hc256 m key iv
  | .rabbitKeyOnly key => .rabbitKeyOnly m key
  | .rabbit key iv => .rabbit m key iv
  | .rc4 key hkey => .rc4 key hkey

theorem SeekText.same (ht : 16 ≤ tgt.bits) (c : SeekText) : ∃ (f : ((c.cipher tgt.mode).core tgt.bits).σ → (c.core tgt).σ) (s : ((c.cipher tgt.mode).core tgt.bits).σ),
    SeekHom ((c.cipher tgt.mode).core tgt.bits) (c.core tgt) Circumstances.env f ∧
    (c.cipher tgt.mode).create tgt.bits = .ok (Wrapper.fromCore s) ∧ c.create tgt = .ok (f s) := by
  cases c with
  | chacha R key nonce =>
    refine ⟨_, Verif.ChaCha.ietfState key nonce, ChaCha.hom_ietf ht R, ?_, ChaCha.new_eq key nonce⟩
    show Verif.ChaCha.cipherIetf key nonce = _
    simp only [Verif.ChaCha.cipherIetf, Verif.ChaCha.newIetf_eq]; rfl
  | chachaLegacy key nonce =>
    refine ⟨_, Verif.ChaCha.legacyState key nonce, ChaCha.hom_legacy ht ChaCha.R20, ?_, ChaCha.newLegacy_eq key nonce⟩
    show Verif.ChaCha.cipherLegacy key nonce = _
    simp only [Verif.ChaCha.cipherLegacy, Verif.ChaCha.newLegacy_eq]; rfl
  | xchacha R key nonce =>
    have hn : Verif.ChaCha.newX (ChaCha.Rounds.count R) key nonce =
        .ok (Verif.ChaCha.ietfState (Spec.ChaCha.xSubkey (ChaCha.Rounds.count R) key nonce) (Spec.ChaCha.xNonce nonce)) := by
      simp only [Verif.ChaCha.newX_eq, Verif.ChaCha.hchacha_eq]
      rw [Verif.ChaCha.newIetf_eq]; rfl
    refine ⟨_, _, ChaCha.hom_x ht R, ?_, (ChaCha.newX_eq key nonce).trans (by rw [hn]; rfl)⟩
    show Verif.ChaCha.cipherX (ChaCha.Rounds.count R) key nonce = _
    rw [Verif.ChaCha.cipherX, hn]; rfl
  | salsa R key nonce => exact ⟨_, Verif.Salsa.new key nonce, Salsa.hom R, rfl, Salsa.new_eq ht key nonce⟩
  | xsalsa R key nonce => exact ⟨_, Verif.Salsa.newX (Unsigned.value R) key nonce, Salsa.hom_x R, rfl, Salsa.newX_eq ht key nonce⟩

theorem Hc256.created (ht : 16 ≤ tgt.bits) (key iv : Vector U8 32) :
    (PlainText.hc256 key iv).create tgt = ((PlainCipher.hc256 tgt.mode key iv).create tgt.bits).map (Wrapper.mapCore Hc256.repr) := by
  rw [PlainText.create, PlainCipher.create, Verif.Hc256.cipher, Hc256.new_eq ht]
  generalize Verif.Hc256.new tgt.mode tgt.bits key iv = r
  cases r <;> rfl

theorem Rabbit.created_keyOnly (ht : 16 ≤ tgt.bits) (key : Vector U8 16) : (PlainText.rabbitKeyOnly key).create tgt =
    ((PlainCipher.rabbitKeyOnly tgt.mode key).create tgt.bits).map (Wrapper.mapCore fun s => (⟨Rabbit.repr s⟩ : Rabbit.RabbitKeyOnlyCore)) := by
  rw [PlainText.create, PlainCipher.create, Verif.Rabbit.cipherKeyOnly, Rabbit.new_eq ht]
  generalize Verif.Rabbit.setupKey tgt.mode key = r
  cases r <;> rfl

theorem bind_map_bind {A A' B B' C C' : Type} (r : Except Panic A) (f : A → A') (F : A → Except Panic B) (g : B → B') (G : A' → Except Panic B')
    (hI : ∀ s, G (f s) = (F s).map g) (h : B → C) (h' : B' → C') (k : C → C') (hk : ∀ s, h' (g s) = k (h s)) :
    (r.map f >>= fun a => G a >>= fun b => pure (h' b)) = (r >>= fun s => F s >>= fun s => pure (h s)).map k := by
  cases r with
  | error e => rfl
  | ok s =>
    show (G (f s) >>= _) = Except.map _ (F s >>= _)
    rw [hI]
    cases F s with
    | error e => rfl
    | ok s => exact congrArg Except.ok (hk s)

theorem Rabbit.created (ht : 16 ≤ tgt.bits) (key : Vector U8 16) (iv : Vector U8 8) : (PlainText.rabbit key iv).create tgt =
    ((PlainCipher.rabbit tgt.mode key iv).create tgt.bits).map (Wrapper.mapCore fun s => (⟨Rabbit.repr s⟩ : Rabbit.RabbitCore)) := by
  rw [PlainText.create, PlainCipher.create, Verif.Rabbit.cipher, Rabbit.new_eq ht]
  exact bind_map_bind _ _ (Verif.Rabbit.setupIv tgt.mode iv) (fun s => (⟨Rabbit.repr s⟩ : Rabbit.RabbitCore))
    (fun k => Rabbit.RabbitCore.inner_iv_init tgt k iv.toList) (Rabbit.inner_iv_init_eq iv) Wrapper.fromCore Wrapper.fromCore _ (fun _ => rfl)

theorem Rc4.created (ht : 16 ≤ tgt.bits) (key : List U8) (hkey : 1 ≤ key.length ∧ key.length ≤ 256) :
    (PlainText.rc4 key hkey).create tgt = ((PlainCipher.rc4 key hkey).create tgt.bits).map Rc4.repr := by
  rw [PlainText.create, PlainCipher.create, Rc4.new_from_slice_ok ht key hkey, Rc4.model_new key hkey]
  generalize (Verif.Rc4.State.mk (Rc4.rounds key 256).1 0 0) = s
  rfl

theorem PlainText.same (ht : 16 ≤ tgt.bits) (c : PlainText) : ∃ f : (c.cipher tgt.mode).Obj → c.Obj,
    (∀ x w op, c.step tgt x (f w) op = ((c.cipher tgt.mode).step tgt.bits (id x) w op).map (Prod.map id f)) ∧
    c.create tgt = ((c.cipher tgt.mode).create tgt.bits).map f := by
  cases c with
  | hc256 key iv => exact ⟨_, fun x w op => (Hc256.hom ht).step x w op, Hc256.created ht key iv⟩
  | rabbitKeyOnly key => exact ⟨_, fun x w op => Rabbit.hom_keyOnly.step x w op, Rabbit.created_keyOnly ht key⟩
  | rabbit key iv => exact ⟨_, fun x w op => Rabbit.hom.step x w op, Rabbit.created ht key iv⟩
  | rc4 key hkey => exact ⟨_, fun x w op => Rc4.step_eq ht w op, Rc4.created ht key hkey⟩

end Verif.Rust

namespace Verif
open Spec Rust

/-- **C89**, seekable ciphers.  What the Rust text shows a caller - data, errors, positions, panics - is what the model shows, for every history of calls and
seeks, in or out of range, on every target with at least 16-bit `usize`, however each call is compiled and on whatever processor it runs. -/
theorem C89_seekable (tgt : Target) (ht : 16 ≤ tgt.bits) (c : SeekText) (h : List (Circumstances × SeekOp)) :
    (c.create tgt >>= fun s => runHistory (fun x w op => Wrapper.seekStep (c.core tgt) x w op) h (Wrapper.fromCore s)).map (·.1) =
      ((c.cipher tgt.mode).create tgt.bits >>= runHistory ((c.cipher tgt.mode).step tgt.bits) (h.map fun e => (e.1.env, e.2))).map (·.1) := by
  obtain ⟨f, s, H, h1, h2⟩ := c.same ht
  rw [h1, h2, ok_bind, ok_bind, ← Wrapper.mapCore_fromCore]
  rw [runHistory_hom Circumstances.env (Wrapper.mapCore f) (fun x w op => H.seekStep x w op)]
  generalize hr : runHistory _ _ (Wrapper.fromCore s : Wrapper 64 _) = r
  rw [show runHistory ((c.cipher tgt.mode).step tgt.bits) (h.map fun e => (e.1.env, e.2)) (Wrapper.fromCore s) = r from hr]
  cases r <;> rfl

/-- **C89**, the other ciphers. -/
theorem C89_plain (tgt : Target) (ht : 16 ≤ tgt.bits) (c : PlainText) (h : List (Unit × Op)) :
    (c.create tgt >>= runHistory (c.step tgt) h).map (·.1) =
      ((c.cipher tgt.mode).create tgt.bits >>= runHistory ((c.cipher tgt.mode).step tgt.bits) h).map (·.1) := by
  obtain ⟨f, H, h1⟩ := c.same ht
  rw [h1]
  generalize (c.cipher tgt.mode).create tgt.bits = w
  cases w with
  | error e => rfl
  | ok w =>
    show (runHistory (c.step tgt) h (f w)).map _ = (runHistory _ h w).map _
    rw [runHistory_hom id f H h w, show h.map (Prod.map id id) = h by simp]
    generalize runHistory _ h w = r
    cases r <;> rfl

/-- **C89**, the cores: the same for calls on the cores without the wrapper, and for a last call `try_apply_keystream_partial` after them. -/
theorem C89_core (tgt : Target) (ht : 16 ≤ tgt.bits) (c : SeekText) (h : List (Circumstances × SeekCoreOp 64)) (x : Circumstances) (buf : List U8) :
    ∃ s₀, (c.cipher tgt.mode).create tgt.bits = .ok (Wrapper.fromCore s₀) ∧
      (c.create tgt >>= runCalls (c.core tgt).call h).map (·.1) =
        (runCalls ((c.cipher tgt.mode).core tgt.bits).call (h.map fun e => (e.1.env, e.2)) s₀).map (·.1) ∧
      (c.create tgt >>= runCalls (c.core tgt).call h >>= fun r => (c.core tgt).tryApplyPartial x r.2 buf) =
        runCalls ((c.cipher tgt.mode).core tgt.bits).call (h.map fun e => (e.1.env, e.2)) s₀ >>= fun r =>
          ((c.cipher tgt.mode).core tgt.bits).tryApplyPartial x.env r.2 buf := by
  obtain ⟨f, s, H, h1, h2⟩ := c.same ht
  refine ⟨s, h1, ?_⟩
  rw [h2, ok_bind, runCalls_hom Circumstances.env f (fun x w op => H.call x w op)]
  show Except.map _ (Except.map _ (runCalls _ (h.map fun e => (e.1.env, e.2)) s)) = _ ∧ (Except.map _ (runCalls _ (h.map fun e => (e.1.env, e.2)) s) >>= _) = _
  generalize runCalls _ (h.map fun e => (e.1.env, e.2)) s = r
  cases r with
  | error e => exact ⟨rfl, rfl⟩
  | ok r => exact ⟨rfl, H.tryApplyPartial x r.2 buf⟩

/-- The text of a cipher, run from its creation: what the caller sees. -/
theorem text_simulates (tgt : Target) (ht : 16 ≤ tgt.bits) (c : SeekText) {w : (c.cipher tgt.mode).Obj tgt.bits}
    (hw : (c.cipher tgt.mode).create tgt.bits = .ok w) {ok : SeekOp → Prop} {cstep : Nat → SeekOp → Obs × Nat} {p : Nat}
    (hs : Simulates ((c.cipher tgt.mode).step tgt.bits) ok cstep w p) (h : List (Circumstances × SeekOp)) (hh : ∀ e ∈ h, ok e.2) :
    (c.create tgt >>= fun s => runHistory (fun x w op => Wrapper.seekStep (c.core tgt) x w op) h (Wrapper.fromCore s)).map (·.1) =
      .ok (Cursor.run cstep (h.map (·.2)) p).1 := by
  obtain ⟨w', h1⟩ := hs (h.map fun e => (e.1.env, e.2)) (by
    intro e he
    obtain ⟨e', h1, rfl⟩ := List.mem_map.1 he
    exact hh e' h1)
  rw [C89_seekable tgt ht, hw, ok_bind, h1, List.map_map]
  rfl

/-- **C89**, seeking anywhere: under every history whatever of calls and seeks the text of a cipher whose counter wraps (all but Salsa and XSalsa with overflow
checks) is a cursor that leaves the last block for the first. -/
theorem C89_all_seeks (tgt : Target) (ht : 16 ≤ tgt.bits) (c : SeekText) (hw : (c.cipher tgt.mode).Wraps) (h : List (Circumstances × SeekOp))
    (hh : ∀ e ∈ h, FitsAny tgt.bits e.2) :
    (c.create tgt >>= fun s => runHistory (fun x w op => Wrapper.seekStep (c.core tgt) x w op) h (Wrapper.fromCore s)).map (·.1) =
      .ok (Cursor.run (Edge.step 64 (c.cipher tgt.mode).stream (c.cipher tgt.mode).blocks) (h.map (·.2)) 64).1 := by
  obtain ⟨w, h1, h2⟩ := C51_all_seeks tgt.bits (c.cipher tgt.mode) hw
  exact text_simulates tgt ht c h1 h2 h hh

/-- **C89**, backends: two histories of the same calls show the caller the same, panics included, however the calls are compiled and on whatever processors they run. -/
theorem C89_backend (tgt : Target) (ht : 16 ≤ tgt.bits) (c : SeekText) (h h' : List (Circumstances × SeekOp)) (heq : h.map (·.2) = h'.map (·.2))
    (hh : ∀ e ∈ h, FitsAny tgt.bits e.2) :
    (c.create tgt >>= fun s => runHistory (fun x w op => Wrapper.seekStep (c.core tgt) x w op) h (Wrapper.fromCore s)).map (·.1) =
      (c.create tgt >>= fun s => runHistory (fun x w op => Wrapper.seekStep (c.core tgt) x w op) h' (Wrapper.fromCore s)).map (·.1) := by
  have hh' : ∀ e ∈ h', FitsAny tgt.bits e.2 := by
    intro e he
    have : e.2 ∈ h.map (·.2) := heq ▸ List.mem_map_of_mem he
    obtain ⟨e', h1, h2⟩ := List.mem_map.1 this
    exact h2 ▸ hh e' h1
  have salsa : ∀ (C : SeekCore 64 Unit) (s : C.σ), runHistory (fun (x : Circumstances) w op => Wrapper.seekStep
      ({ C with process := fun _ f s => C.process () f s } : SeekCore 64 Circumstances) x w op) h (Wrapper.fromCore s) =
      runHistory (fun (x : Circumstances) w op => Wrapper.seekStep
      ({ C with process := fun _ f s => C.process () f s } : SeekCore 64 Circumstances) x w op) h' (Wrapper.fromCore s) := by
    intro C s
    clear hh hh'
    generalize (Wrapper.fromCore s : Wrapper 64 C.σ) = w
    induction h generalizing h' w with
    | nil => cases h' with
      | nil => rfl
      | cons => cases heq
    | cons e h ih => cases h' with
      | nil => cases heq
      | cons e' h' =>
        simp only [List.map_cons, List.cons.injEq] at heq
        obtain ⟨x, op⟩ := e
        obtain ⟨x', op'⟩ := e'
        obtain ⟨rfl, heq⟩ := heq
        simp only [runHistory]
        show (Wrapper.seekStep ({ C with process := fun _ f s => C.process () f s } : SeekCore 64 Circumstances) x w op >>= _) =
          (Wrapper.seekStep ({ C with process := fun _ f s => C.process () f s } : SeekCore 64 Circumstances) x w op >>= _)
        cases Wrapper.seekStep ({ C with process := fun _ f s => C.process () f s } : SeekCore 64 Circumstances) x w op with
        | error e => rfl
        | ok r => simp only [ok_bind, ih h' heq r.2]
  cases c with
  | chacha R key nonce => rw [C89_all_seeks tgt ht (.chacha R key nonce) (show True from trivial) h hh, C89_all_seeks tgt ht (.chacha R key nonce) (show True from trivial) h' hh', heq]
  | chachaLegacy key nonce => rw [C89_all_seeks tgt ht (.chachaLegacy key nonce) (show True from trivial) h hh, C89_all_seeks tgt ht (.chachaLegacy key nonce) (show True from trivial) h' hh', heq]
  | xchacha R key nonce => rw [C89_all_seeks tgt ht (.xchacha R key nonce) (show True from trivial) h hh, C89_all_seeks tgt ht (.xchacha R key nonce) (show True from trivial) h' hh', heq]
  | salsa R key nonce => exact congrArg (Except.map _) (congrArg (_ >>= ·) (funext fun s => salsa (Rust.Salsa.core R tgt) s))
  | xsalsa R key nonce => exact congrArg (Except.map _) (congrArg (_ >>= ·) (funext fun s => salsa (Rust.Salsa.coreX R tgt) s))

/-- **C89**, Salsa and XSalsa with overflow checks: a seek into the middle of the last block panics, after every history of calls in range. -/
theorem C89_salsa_panics (tgt : Target) (ht : 16 ≤ tgt.bits) (c : SeekText) (hc : ¬ (c.cipher tgt.mode).Wraps) (h : List (Circumstances × SeekOp))
    (hh : ∀ e ∈ h, (c.cipher tgt.mode).Allowed tgt.bits e.2) (x : Circumstances) (r : Nat) (hr : 0 < r) (hr' : r < 64) :
    (c.create tgt >>= fun s => runHistory (fun x w op => Wrapper.seekStep (c.core tgt) x w op)
      (h ++ [(x, .seek (64 * (c.cipher tgt.mode).blocks + r))]) (Wrapper.fromCore s)).map (·.1) = .error .overflow := by
  obtain ⟨w, h0, w₀, h1, h2⟩ := (c.cipher tgt.mode).reach_exists tgt.bits (h.map fun e => (e.1.env, e.2)) (by
    intro e he
    obtain ⟨e', h1, rfl⟩ := List.mem_map.1 he
    exact hh e' h1)
  rw [C89_seekable tgt ht, h1, ok_bind, List.map_append, runHistory_append, h2]
  show Except.map _ (runHistory _ [(x.env, SeekOp.seek (64 * (c.cipher tgt.mode).blocks + r))] w >>= _) = _
  rw [runHistory, C51_salsa_panics tgt.bits _ hc w x.env r hr hr']
  rfl

/-! ## Concrete instances -/

deriving instance DecidableEq for Except
deriving instance DecidableEq for Obs

/-- A history in two circumstances: the first three bytes, then a seek into the last block of ChaCha20. -/
def Sample.textHistory (d d' : ChaCha.Config.Detected) : List (Circumstances × SeekOp) :=
  [(⟨Sample.x86_64, d⟩, .io (.apply [1, 2, 3])), (⟨Sample.x86_64, d'⟩, .seek (64 * (2 ^ 32 - 1) + 7)), (⟨Sample.x86_64, d⟩, .io (.write [9, 9])),
    (⟨Sample.x86_64, d'⟩, .pos (2 ^ 64 - 1))]

theorem Sample.textHistory_fits (d d' : ChaCha.Config.Detected) : ∀ e ∈ Sample.textHistory d d', FitsAny 64 e.2 := by
  intro e he
  simp only [Sample.textHistory, List.mem_cons, List.not_mem_nil, or_false] at he
  rcases he with rfl | rfl | rfl | rfl
  · exact (by decide : 3 < 2 ^ 64)
  · trivial
  · exact (by decide : 2 < 2 ^ 64)
  · trivial

/-- The text of ChaCha20 with the zero key under that history, on processors with and without AVX2: the seek is accepted, the bytes are those of the last block, and
the position cannot be told. -/
example : ((SeekText.chacha Rust.ChaCha.R20 (Vector.replicate 32 0) (Vector.replicate 12 0)).create ⟨.debug, 64⟩ >>= fun s =>
    runHistory (fun x w op => Wrapper.seekStep ((SeekText.chacha Rust.ChaCha.R20 (Vector.replicate 32 0) (Vector.replicate 12 0)).core ⟨.debug, 64⟩) x w op)
      (Sample.textHistory ⟨false, true, true⟩ ⟨false, false, true⟩) (Wrapper.fromCore s)).map (·.1) =
    .ok [.data (.ok ()) [0x77, 0xba, 0xe3], .done (.ok ()), .data (.ok ()) [0x91, 0x2d], .num (.error .overflowError)] := by
  rw [C89_all_seeks ⟨.debug, 64⟩ (by decide) (.chacha Rust.ChaCha.R20 (Vector.replicate 32 0) (Vector.replicate 12 0)) (show True from trivial) _
    (Sample.textHistory_fits _ _)]
  decide +kernel

/-- The text of XSalsa with overflow checks under that history, on two machines. -/
example : ((SeekText.xsalsa U10 (Sample.bytes 32 0) (Sample.bytes 24 1)).create ⟨.debug, 64⟩ >>= fun s =>
    runHistory (fun x w op => Wrapper.seekStep ((SeekText.xsalsa U10 (Sample.bytes 32 0) (Sample.bytes 24 1)).core ⟨.debug, 64⟩) x w op)
      (Sample.textHistory ⟨false, true, true⟩ ⟨false, false, true⟩) (Wrapper.fromCore s)).map (·.1) =
    ((SeekText.xsalsa U10 (Sample.bytes 32 0) (Sample.bytes 24 1)).create ⟨.debug, 64⟩ >>= fun s =>
    runHistory (fun x w op => Wrapper.seekStep ((SeekText.xsalsa U10 (Sample.bytes 32 0) (Sample.bytes 24 1)).core ⟨.debug, 64⟩) x w op)
      (Sample.textHistory ⟨true, true, true⟩ ⟨false, false, false⟩) (Wrapper.fromCore s)).map (·.1) :=
  C89_backend ⟨.debug, 64⟩ (by decide) _ _ _ rfl (Sample.textHistory_fits _ _)

/-- The text of Salsa20 with overflow checks: a seek to the second byte of the last block. -/
example (x : Circumstances) : ((SeekText.salsa U10 (Sample.bytes 32 0) (Sample.bytes 8 1)).create ⟨.debug, 32⟩ >>= fun s =>
    runHistory (fun x w op => Wrapper.seekStep ((SeekText.salsa U10 (Sample.bytes 32 0) (Sample.bytes 8 1)).core ⟨.debug, 32⟩) x w op)
      [(x, .seek (64 * (2 ^ 64 - 1) + 1))] (Wrapper.fromCore s)).map (·.1) = .error .overflow :=
  C89_salsa_panics ⟨.debug, 32⟩ (by decide) (.salsa U10 (Sample.bytes 32 0) (Sample.bytes 8 1)) (by intro h; cases (show Mode.debug = .release from h)) []
    (fun _ he => nomatch he) x 1 (by decide) (by decide)

/-- The text of RC4 with the key "Key", twice three bytes. -/
example : ((PlainText.rc4 [0x4b, 0x65, 0x79] (by decide)).create ⟨.debug, 64⟩ >>=
    runHistory ((PlainText.rc4 [0x4b, 0x65, 0x79] (by decide)).step ⟨.debug, 64⟩) [((), .write [0, 0, 0]), ((), .apply [0, 0, 0])]).map (·.1) =
    .ok [.data (.ok ()) [0xeb, 0x9f, 0x77], .data (.ok ()) [0x81, 0xb7, 0x34]] := by
  rw [C89_plain ⟨.debug, 64⟩ (by decide)]
  decide +kernel

/-- The text of the core of the legacy ChaCha20: its block counter after a jump and one block. -/
example (x : Circumstances) (hx : x = ⟨Sample.x86_64, ⟨false, true, true⟩⟩) :
    ((SeekText.chachaLegacy (Sample.bytes 32 0) (Sample.bytes 8 1)).create ⟨.debug, 64⟩ >>=
      runCalls ((SeekText.chachaLegacy (Sample.bytes 32 0) (Sample.bytes 8 1)).core ⟨.debug, 64⟩).call
        [(x, .setPos (2 ^ 32 - 1)), (x, .io .writeBlock), (x, .getPos)]).map (·.1) =
      .ok [.unit, .blocks [(Spec.ChaCha.djbBlock 10 (Sample.bytes 32 0) (Sample.bytes 8 1) (2 ^ 32 - 1)).toList], .pos (2 ^ 32)] := by
  obtain ⟨s₀, h1, h2, -⟩ := C89_core ⟨.debug, 64⟩ (by decide) (.chachaLegacy (Sample.bytes 32 0) (Sample.bytes 8 1))
    [(x, .setPos (2 ^ 32 - 1)), (x, .io .writeBlock), (x, .getPos)] x []
  have h3 : s₀ = Verif.ChaCha.legacyState (Sample.bytes 32 0) (Sample.bytes 8 1) := by
    exact congrArg Wrapper.core (Except.ok.inj (h1.symm.trans (show SeekCipher.create 64 (.chachaLegacy 10 (Sample.bytes 32 0) (Sample.bytes 8 1)) =
      .ok (Wrapper.fromCore (Verif.ChaCha.legacyState (Sample.bytes 32 0) (Sample.bytes 8 1))) by rfl)))
  rw [h2, h3, hx]
  decide +kernel

end Verif
