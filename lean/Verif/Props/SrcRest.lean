import Verif.Rust.Src.ChaChaRng
import Verif.Props.SrcCiphers
import Verif.Proof.TraceDispatch
import Verif.Model.Hygiene
/-!
# C92: the remaining functions of the text
-/
namespace Verif.Rust

variable {tgt : Target}

/-- `f.call(&mut Backend(…))` for a backend around a part of the state. -/
theorem blockCall_eq {n : Nat} {σ τ α : Type} [BlockBackend n τ] (w : σ → τ) (u : τ → σ) (hwu : ∀ t, w (u t) = t) (huw : ∀ s, u (w s) = s)
    (f : Closure n α) (s : σ) :
    (BlockClosure.call n tgt (BlockCallee.ready f) (w s) >>= fun r => pure ((), u r.2.2, r.2.1)) =
      ((Verif.Backend.ofBlock 1 (blockOf n fun s b => do
        let (_, backend, block) ← BlockBackend.gen_ks_block n tgt (w s) b
        return ((), u backend, block))).call f s).map fun r => ((), r.2, BlockCallee.done r.1) := by
  have hb (s : σ) : blockOf n (BlockBackend.gen_ks_block n tgt) (w s) = (blockOf n (fun s b => do
        let (_, backend, block) ← BlockBackend.gen_ks_block n tgt (w s) b
        return ((), u backend, block)) s).map (Prod.map id w) := by
    unfold blockOf
    dsimp only
    cases BlockBackend.gen_ks_block n tgt (w s) (List.replicate n 0) with
    | error p => rfl
    | ok r =>
      obtain ⟨x, t, b⟩ := r
      show (if h : b.length = n then _ else _) = Except.map _ (if h : b.length = n then _ else _)
      split
      · show Except.ok (_, t) = Except.ok (_, w (u t))
        rw [hwu]
        rfl
      · rfl
  show (((Verif.Backend.ofBlock 1 (blockOf n (BlockBackend.gen_ks_block n tgt))).call f (w s) >>= _) >>= _) = _
  rw [call_ofBlock w 1 hb f s]
  generalize (Verif.Backend.ofBlock 1 _).call f s = r
  cases r with
  | error p => rfl
  | ok r =>
    show Except.ok ((), u (w r.2), BlockCallee.done r.1) = Except.ok ((), r.2, BlockCallee.done r.1)
    rw [huw]

theorem Salsa.call_eq {R : Type} [Unsigned R] {α : Type} (c : Closure 64 α) (s : Verif.Salsa.State) :
    (asBackend tgt (Salsa.Backend R)).call c ⟨Salsa.repr R s⟩ =
      ((Verif.Backend.ofBlock 1 (Salsa.genBlock R tgt)).call c (Salsa.repr R s)).map (Prod.map id fun s => ⟨s⟩) := by
  have hb (s : Verif.Salsa.State) (b : List U8) (h : b.length = 64) : Salsa.Backend.gen_ks_block tgt ⟨Salsa.repr R s⟩ b =
      (Verif.Salsa.genBlock tgt.mode (Unsigned.value R) s).map fun r => ((), ⟨Salsa.repr R r.2⟩, r.1.toList) :=
    Salsa.gen_ks_block_eq s b h
  rw [call_ofBlock (Salsa.repr R) 1 (gen' := Salsa.genBlock R tgt) (fun s => Salsa.genBlock_eq s) c s]
  refine (call_sim (B := Verif.Backend.ofBlock 1 (Verif.Salsa.genBlock tgt.mode (Unsigned.value R)))
    (fun s => (⟨Salsa.repr R s⟩ : Salsa.Backend R)) rfl ?_ ?_ ?_ c s).trans ?_
  · exact blockOf_sim _ hb
  · exact blocksOf_sim (g := genMany (Verif.Salsa.genBlock tgt.mode (Unsigned.value R)) 1) _ (fun s b h => genEach_sim _ hb b 1 h s)
  · intro n s
    exact blocksOf_sim (g := (Verif.Backend.ofBlock 1 (Verif.Salsa.genBlock tgt.mode (Unsigned.value R))).genTail n) _
      (fun s b h => providedTail_sim _ 1 hb n b h s) s
  · generalize (Verif.Backend.ofBlock 1 _).call c s = r
    cases r <;> rfl

/-- A formatter that takes everything. -/
def fmt.Formatter.Open (f : fmt.Formatter) : Prop := ∀ n, f.refuses n = false

theorem foldl_append_str (l : List String) (a b : String) : l.foldl (· ++ ·) (a ++ b) = a ++ l.foldl (· ++ ·) b := by
  induction l generalizing b with
  | nil => rfl
  | cons s l ih => rw [List.foldl_cons, List.foldl_cons, String.append_assoc, ih]

theorem join_append (a b : List String) : String.join (a ++ b) = String.join a ++ String.join b := by
  rw [String.join, String.join, String.join, List.foldl_append]
  rw [← foldl_append_str, String.append_empty]

theorem write_str_open {f : fmt.Formatter} (h : f.Open) (s : String) :
    f.write_str tgt s = .ok (.ok (), { f with pieces := f.pieces ++ [s] }) := by
  rw [fmt.Formatter.write_str, h, if_neg (by simp)]

theorem writePieces_open (l : List String) : ∀ {f : fmt.Formatter}, f.Open →
    writePieces tgt l f = .ok (.ok (), { f with pieces := f.pieces ++ l }) := by
  induction l with
  | nil => intro f h; rw [writePieces, List.append_nil]
  | cons s l ih =>
    intro f h
    rw [writePieces, write_str_open h]
    refine (ih (f := { f with pieces := f.pieces ++ [s] }) h).trans ?_
    show Except.ok (_, (⟨(f.pieces ++ [s]) ++ l, _⟩ : fmt.Formatter)) = _
    rw [List.append_assoc]
    rfl

/-- What one call writes. -/
def Writes (r : fmt.Formatter → Except Panic (fmt.Result × fmt.Formatter)) (t : String) : Prop :=
  ∀ f, f.Open → ∃ f', r f = .ok (.ok (), f') ∧ f'.Open ∧ f'.text = f.text ++ t

theorem writes_pieces {r : fmt.Formatter → Except Panic (fmt.Result × fmt.Formatter)} (l : List String) (t : String)
    (hr : ∀ f, r f = writePieces tgt l f) (ht : String.join l = t) : Writes r t := by
  intro f h
  refine ⟨_, (hr f).trans (writePieces_open l h), h, ?_⟩
  rw [← ht]
  exact join_append f.pieces l

theorem writePieces_one (s : String) (f : fmt.Formatter) : writePieces tgt [s] f = f.write_str tgt s := by
  rw [writePieces, fmt.Formatter.write_str]
  split <;> rfl

namespace ChaCha

/-- The pieces of the text of `Debug`. -/
theorem core_fmt_eq (ht : 16 ≤ tgt.bits) {R V : Type} [Rounds R] [Variant V] {v : Verif.ChaCha.Variant} (hV : Is V v) (c : ChaChaCore R V) (f : fmt.Formatter) :
    ChaChaCore.fmt tgt c f = writePieces tgt ["ChaChaCore<R: ", toString (Rounds.count R), ", V: ", toString (v.ctrBytes * 8), "-bit)> { ... }"] f := by
  have h2 : (2 : Nat) ^ 16 ≤ 2 ^ tgt.bits := Nat.pow_le_pow_right (by decide) ht
  have hm : mul tgt (sizeOfTy tgt (Variant.Counter V)) 8 = .ok (⟨v.ctrBytes * 8⟩ : Usize tgt) := by
    have h8 : (8 : Usize tgt).val = 8 := rfl
    have hs : (sizeOfTy tgt (Variant.Counter V)).val = v.ctrBytes := hV
    rw [mul_usize _ _ (by rw [h8, hs]; cases v <;> exact Nat.lt_of_lt_of_le (by decide) h2), h8, hs]
  rw [ChaChaCore.fmt]
  dsimp only
  rw [hm, ok_bind]
  have hp (a b : String) : fmtPieces "ChaChaCore<R: {}, V: {}-bit)> {{ ... }}".toList [] [a, b] =
      some ["ChaChaCore<R: ", a, ", V: ", b, "-bit)> { ... }"] := by
    rfl
  rw [writeFmt, hp]
  show (writePieces tgt _ f >>= fun r => pure (r.1, r.2)) = _
  exact bind_pure _

/-- The three types of the crate. -/
def Three (R : Type) [Rounds R] (r : Verif.ChaCha.Rounds) : Prop := Rounds.count R = r.count

theorem rng_fmt_eq {R : Type} [Rounds R] {r : Verif.ChaCha.Rounds} (h : Three R r) (c : Rng R) (f : fmt.Formatter) :
    Rng.fmt tgt c f = writePieces tgt [Verif.ChaCha.Rng.typeName r ++ " { ... }"] f := by
  have hn : Rng.stringify (Rng R) = Verif.ChaCha.Rng.typeName r := by
    show (if Rounds.count R = 4 then _ else if Rounds.count R = 6 then _ else _) = _
    rw [h]
    cases r <;> rfl
  rw [Rng.fmt]
  dsimp only
  rw [hn]
  have hp : fmtPieces (String.join [Verif.ChaCha.Rng.typeName r, " {{ ... }}"]).toList [] [] = some [Verif.ChaCha.Rng.typeName r ++ " { ... }"] := by
    cases r <;> rfl
  rw [writeFmt, hp]
  show (writePieces tgt _ f >>= fun r => pure (r.1, r.2)) = _
  exact bind_pure _

end ChaCha

end Verif.Rust

namespace Verif
open Spec Rust

/-- **C92**, the calls of backends: in `rabbit` and `hc-256` the text of `process_with_backend` runs the client's code once, on the backend around the
state of the core, and leaves the state that the backend left, whatever the client does and whatever the state; that is the core of C89. -/
theorem C92_process (tgt : Target) (α : Type) :
    (∀ (f : Closure 16 α) (s : Rust.Rabbit.RabbitKeyOnlyCore), Rust.Rabbit.RabbitKeyOnlyCore.process_with_backend tgt s (BlockCallee.ready f) =
      ((Rust.Rabbit.keyOnlyCore tgt).process () f s).map fun r => ((), r.2, BlockCallee.done r.1)) ∧
    (∀ (f : Closure 16 α) (s : Rust.Rabbit.RabbitCore), Rust.Rabbit.RabbitCore.process_with_backend tgt s (BlockCallee.ready f) =
      ((Rust.Rabbit.core tgt).process () f s).map fun r => ((), r.2, BlockCallee.done r.1)) ∧
    ∀ (f : Closure 4 α) (s : Rust.Hc256.Hc256Core), Rust.Hc256.Hc256Core.process_with_backend tgt s (BlockCallee.ready f) =
      ((Rust.Hc256.core tgt).process () f s).map fun r => ((), r.2, BlockCallee.done r.1) :=
  ⟨fun f s => blockCall_eq (fun s => (⟨s.state⟩ : Rust.Rabbit.Backend)) (fun b => ⟨b.f0⟩) (fun _ => rfl) (fun _ => rfl) f s,
   fun f s => blockCall_eq (fun s => (⟨s.state⟩ : Rust.Rabbit.Backend)) (fun b => ⟨b.f0⟩) (fun _ => rfl) (fun _ => rfl) f s,
   fun f s => blockCall_eq (fun s => (⟨s⟩ : Rust.Hc256.Backend)) (fun b => b.f0) (fun _ => rfl) (fun _ => rfl) f s⟩

/-- **C92**, `salsa20`: the same for `SalsaCore` and `XSalsaCore`. -/
theorem C92_salsa (tgt : Target) (R : Type) [Unsigned R] (α : Type) (f : Closure 64 α) (s : Vector U32 16) :
    Rust.Salsa.SalsaCore.process_with_backend tgt (⟨s.toList⟩ : Rust.Salsa.SalsaCore R) (Callee.ready f) =
      ((Rust.Salsa.core R tgt).process () f (⟨s.toList⟩ : Rust.Salsa.SalsaCore R)).map (fun r => ((), r.2, Callee.done r.1)) ∧
    Rust.Salsa.XSalsaCore.process_with_backend tgt (⟨⟨s.toList⟩⟩ : Rust.Salsa.XSalsaCore R) (Callee.ready f) =
      ((Rust.Salsa.coreX R tgt).process () f (⟨⟨s.toList⟩⟩ : Rust.Salsa.XSalsaCore R)).map fun r => ((), r.2, Callee.done r.1) := by
  have h : Rust.Salsa.SalsaCore.process_with_backend tgt (⟨s.toList⟩ : Rust.Salsa.SalsaCore R) (Callee.ready f) =
      ((Rust.Salsa.core R tgt).process () f (⟨s.toList⟩ : Rust.Salsa.SalsaCore R)).map fun r => ((), r.2, Callee.done r.1) := by
    show (((asBackend tgt (Rust.Salsa.Backend R)).call f ⟨Rust.Salsa.repr R s⟩ >>= _) >>= _) =
      Except.map _ ((Verif.Backend.ofBlock 1 (Rust.Salsa.genBlock R tgt)).call f (Rust.Salsa.repr R s))
    rw [Rust.Salsa.call_eq]
    generalize (Verif.Backend.ofBlock 1 _).call f _ = r
    cases r <;> rfl
  refine ⟨h, ?_⟩
  rw [Rust.Salsa.XSalsaCore.process_with_backend]
  dsimp only
  rw [h]
  show (Except.map _ ((Verif.Backend.ofBlock 1 (Rust.Salsa.genBlock R tgt)).call f (Rust.Salsa.repr R s)) >>= _) =
    Except.map _ ((Verif.Backend.ofBlock 1 (Rust.Salsa.genBlock R tgt)).call f (Rust.Salsa.repr R s) >>= _)
  generalize (Verif.Backend.ofBlock 1 _).call f _ = r
  cases r <;> rfl

/-- **C92**, `XChaChaCore`: the same in every build on every processor; the call is handed to the core inside. -/
theorem C92_xchacha (b : ChaCha.Config.Build) (d : ChaCha.Config.Detected) (tgt : Target) (ht : 16 ≤ tgt.bits) (R : Type) [Rust.ChaCha.Rounds R] (α : Type)
    (f : Closure 64 α) (s : Vector U32 16) :
    letI : Rust.ChaCha.Dispatcher := ⟨Rust.ChaCha.Process.dispatch b d, Rust.ChaCha.processTr b d⟩
    Rust.ChaCha.XChaChaCore.process_with_backend tgt (⟨⟨s.toList, ()⟩⟩ : Rust.ChaCha.XChaChaCore R) (Callee.ready f) =
      ((Rust.ChaCha.coreXOf R tgt).process ⟨b, d⟩ f (⟨⟨s.toList, ()⟩⟩ : Rust.ChaCha.XChaChaCore R)).map fun r => ((), r.2, Callee.done r.1) := by
  have h := Rust.ChaCha.runs_dispatch_env ht b d (R := R) Rust.ChaCha.is_ietf f s
  have h' := Rust.ChaCha.call_of h
  show ((Rust.ChaCha.Process.dispatch b d).run R Rust.ChaCha.Ietf tgt (Rust.ChaCha.repr R Rust.ChaCha.Ietf s) (Callee.ready f) >>= _) =
    Except.map _ ((Rust.ChaCha.Process.dispatch b d).call R Rust.ChaCha.Ietf tgt f (Rust.ChaCha.repr R Rust.ChaCha.Ietf s) >>= _)
  rw [h, h']
  generalize ChaCha.process _ _ _ f s = r
  cases r <;> rfl

/-- **C92**, seeking: the functions of the trait are the inherent ones. -/
theorem C92_seek (tgt : Target) (R V : Type) [Rust.ChaCha.Rounds R] [Rust.ChaCha.Variant V] (c : Rust.ChaCha.ChaChaCore R V) :
    Rust.ChaCha.ChaChaCore.StreamCipherSeekCore.get_block_pos tgt c = Rust.ChaCha.ChaChaCore.get_block_pos tgt c ∧
    ∀ pos, Rust.ChaCha.ChaChaCore.StreamCipherSeekCore.set_block_pos tgt c pos = Rust.ChaCha.ChaChaCore.set_block_pos tgt c pos :=
  ⟨rfl, fun pos => bind_pure (Rust.ChaCha.ChaChaCore.set_block_pos tgt c pos)⟩

/-- **C92**, `Debug` and the name of the algorithm: the text writes what the model says, and nothing of the object. -/
theorem C92_debug (tgt : Target) (ht : 16 ≤ tgt.bits) :
    (∀ (R V : Type) [Rust.ChaCha.Rounds R] [Rust.ChaCha.Variant V] (r : ChaCha.Rounds) (v : ChaCha.Variant) (o : ChaCha.CoreObj),
      Rust.ChaCha.Rounds.count R = r.count → RInt.width (Rust.ChaCha.Variant.Counter V) / 8 = v.ctrBytes → ∀ c : Rust.ChaCha.ChaChaCore R V,
      Writes (Rust.ChaCha.ChaChaCore.fmt tgt c) (o.debug r v)) ∧
    (∀ (R : Type) [Rust.ChaCha.Rounds R] (r : ChaCha.Rounds) (o : ChaCha.Rng), Rust.ChaCha.Rounds.count R = r.count → ∀ c : Rust.ChaCha.Rng R,
      Writes (Rust.ChaCha.Rng.fmt tgt c) (o.debug r)) ∧
    (∀ (o : Hc256.State) (c : Rust.Hc256.Hc256Core), Writes (Rust.Hc256.Hc256Core.fmt tgt c) (Hc256.debug o)) ∧
    Writes (Rust.Hc256.Hc256Core.write_alg_name tgt) Hc256.algName := by
  refine ⟨fun R V _ _ r v o hR hV c => ?_, fun R _ r o hR c => ?_, fun o c => ?_, ?_⟩
  · refine writes_pieces (tgt := tgt) _ _ (Rust.ChaCha.core_fmt_eq ht hV c) ?_
    rw [hR]
    simp only [String.join, List.foldl_cons, List.foldl_nil, String.empty_append, ChaCha.CoreObj.debug]
  · refine writes_pieces (tgt := tgt) _ _ (Rust.ChaCha.rng_fmt_eq hR c) ?_
    simp only [String.join, List.foldl_cons, List.foldl_nil, String.empty_append, ChaCha.Rng.debug]
  · refine writes_pieces (tgt := tgt) ["Hc256Core { ... }"] _ (fun f => ?_) ?_
    · rw [writePieces_one]
      exact bind_pure (fmt.Formatter.write_str tgt f "Hc256Core { ... }")
    · simp only [String.join, List.foldl_cons, List.foldl_nil, String.empty_append, Hc256.debug]
  · refine writes_pieces (tgt := tgt) ["Hc256"] _ (fun f => ?_) ?_
    · rw [writePieces_one]
      exact bind_pure (fmt.Formatter.write_str tgt f "Hc256")
    · simp only [String.join, List.foldl_cons, List.foldl_nil, String.empty_append, Hc256.algName]

/-- **C92**, secrecy: also where the formatter refuses a piece, what is written and what is returned is the same for all objects. -/
theorem C92_blind (tgt : Target) (f : fmt.Formatter) :
    (∀ (R V : Type) [Rust.ChaCha.Rounds R] [Rust.ChaCha.Variant V] (c c' : Rust.ChaCha.ChaChaCore R V),
      Rust.ChaCha.ChaChaCore.fmt tgt c f = Rust.ChaCha.ChaChaCore.fmt tgt c' f) ∧
    (∀ (R : Type) [Rust.ChaCha.Rounds R] (c c' : Rust.ChaCha.Rng R), Rust.ChaCha.Rng.fmt tgt c f = Rust.ChaCha.Rng.fmt tgt c' f) ∧
    ∀ c c' : Rust.Hc256.Hc256Core, Rust.Hc256.Hc256Core.fmt tgt c f = Rust.Hc256.Hc256Core.fmt tgt c' f :=
  ⟨fun _ _ _ _ _ _ => rfl, fun _ _ _ _ => rfl, fun _ _ => rfl⟩

/-- **C92**, `Drop` of `rc4`: nothing is left of the permutation and the two indices, whatever they are. -/
theorem C92_drop (tgt : Target) (s : Rust.Rc4.Rc4) :
    Rust.Rc4.Rc4.drop tgt s = .ok ((), ⟨List.replicate s.state.length 0, 0, 0⟩) := by
  have h : (Zeroize.zeroize s.state : List U8) = List.replicate s.state.length 0 := List.map_const' ..
  rw [Rust.Rc4.Rc4.drop]
  dsimp only
  rw [h]
  rfl

/-- Something is written about a core that holds a key. -/
example : ((Rust.ChaCha.ChaChaCore.fmt (R := Rust.ChaCha.R20) (V := Rust.ChaCha.Legacy) ⟨.debug, 64⟩ ⟨List.replicate 16 7, ()⟩ ⟨["x: "], fun _ => false⟩).toOption.map
    fun r => r.2.text) = some "x: ChaChaCore<R: 10, V: 64-bit)> { ... }" := by decide +kernel

/-- A formatter that refuses the third piece. -/
example : ((Rust.ChaCha.ChaChaCore.fmt (R := Rust.ChaCha.R8) (V := Rust.ChaCha.Ietf) ⟨.release, 32⟩ ⟨List.replicate 16 7, ()⟩ ⟨[], fun n => n == 2⟩).toOption.map
    fun r => (r.1.toOption, r.2.text)) = some (none, "ChaChaCore<R: 4") := by decide +kernel

/-- Client code that asks for one block of HC-256 gets the block of the core, and the core goes on from there. -/
example (s : Rust.Hc256.Hc256Core) (f : Closure 4 Nat) (t : Rust.Hc256.Hc256Core) (h : (Rust.Hc256.core ⟨.debug, 64⟩).process () f s = .ok (3, t)) :
    Rust.Hc256.Hc256Core.process_with_backend ⟨.debug, 64⟩ s (BlockCallee.ready f) = .ok ((), t, BlockCallee.done 3) := by
  rw [(C92_process _ _).2.2, h]
  rfl

/-- The seeking functions of the trait on a core with a 32-bit counter. -/
example : Rust.ChaCha.ChaChaCore.StreamCipherSeekCore.set_block_pos ⟨.debug, 64⟩ (⟨List.replicate 16 7, ()⟩ : Rust.ChaCha.ChaChaCore Rust.ChaCha.R20 Rust.ChaCha.Ietf)
    (9 : BitVec 32) = .ok ((), ⟨List.replicate 12 7 ++ [9, 7, 7, 7], ()⟩) := rfl

/-- The drop code of RC4 on a state of three bytes. -/
example : Rust.Rc4.Rc4.drop ⟨.debug, 64⟩ ⟨[1, 2, 3], 4, 5⟩ = .ok ((), ⟨[0, 0, 0], 0, 0⟩) := C92_drop _ _

end Verif
