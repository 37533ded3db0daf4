import Verif.Proof.Requests
import Verif.Props.Sample
/-!
# What is asked of the backends depends on public information only (C60)
-/
namespace Verif
open Spec
open ChaCha.Isa (Req)

/-- The same cipher, up to key and nonce. -/
def SeekCipher.SameKind : SeekCipher → SeekCipher → Prop
  | .chacha dr _ _, .chacha dr' _ _ => dr = dr'
  | .chachaLegacy dr _ _, .chachaLegacy dr' _ _ => dr = dr'
  | .xchacha dr _ _, .xchacha dr' _ _ => dr = dr'
  | .salsa m dr _ _, .salsa m' dr' _ _ => m = m' ∧ dr = dr'
  | .xsalsa m dr _ _, .xsalsa m' dr' _ _ => m = m' ∧ dr = dr'
  | _, _ => False

/-- Two histories of the same calls in the same circumstances, which may differ in the contents of the buffers. -/
abbrev SameCalls : List (ChaCha.Env × SeekOp) → List (ChaCha.Env × SeekOp) → Prop :=
  Each fun e e' => e.1 = e'.1 ∧ SeekOp.Like e.2 e'.2

theorem record_blind {C : SeekCore 64 ChaCha.Env} {R : C.σ → C.σ → Prop} (hb : SeekBlind C R) (x y : Except Panic (Wrapper 64 C.σ))
    (s s' : C.σ) (hx : x = .ok (Wrapper.fromCore s)) (hy : y = .ok (Wrapper.fromCore s')) (hs : R s s')
    (h h' : List (ChaCha.Env × SeekOp)) (hh : SameCalls h h') :
    ExRel (fun r r' => Each SameShape r.1 r'.1 ∧ r.2 = r'.2) (C.record x h) (C.record y h') := by
  rw [hx, hy]
  have := history_blind _ SeekOp.Like (WRel fun s s' => R s.1 s'.1 ∧ s.2 = s'.2)
    (fun x w w' op op' hw hop => seekStep_blind hb.logged x w w' hw op op' hop) h h' (Wrapper.fromCore s).withLog (Wrapper.fromCore s').withLog
    hh ⟨⟨hs, rfl⟩, rfl⟩
  refine ExRel.bind (Q := fun w w' => w = Wrapper.fromCore s ∧ w' = Wrapper.fromCore s') (.ok ⟨rfl, rfl⟩) ?_
  rintro _ _ ⟨rfl, rfl⟩
  refine ExRel.bind this ?_
  rintro ⟨os, v⟩ ⟨os', v'⟩ ⟨h1, h2⟩
  exact .ok ⟨h1, h2.core.2⟩

theorem Salsa.ctr_new (key key' : Vector U8 32) (iv iv' : Vector U8 8) : Salsa.SameCtr (Salsa.new key iv) (Salsa.new key' iv') := by
  have : ∀ key iv, Salsa.getBlockPos (Salsa.new key iv) = 0 := by
    intro key iv
    have h : Salsa.new key iv = Salsa.at' (Salsa.new key iv) 0 := Salsa.rel_new key iv
    rw [h]
    exact Salsa.getBlockPos_setBlockPos _ _
  exact (this key iv).trans (this key' iv').symm

theorem ChaCha.cipherX_eq (dr : Nat) (key : Vector U8 32) (nonce : Vector U8 24) :
    ChaCha.cipherX dr key nonce = .ok (Wrapper.fromCore (ChaCha.ietfState (Spec.ChaCha.xSubkey dr key nonce) (Spec.ChaCha.xNonce nonce))) := by
  simp only [ChaCha.cipherX, ChaCha.newX_eq, ChaCha.hchacha_eq]
  rw [ChaCha.newIetf_eq]; rfl

theorem ChaCha.cipherIetf_eq (key : Vector U8 32) (nonce : Vector U8 12) :
    ChaCha.cipherIetf key nonce = .ok (Wrapper.fromCore (ChaCha.ietfState key nonce)) := by
  simp only [ChaCha.cipherIetf, ChaCha.newIetf_eq]; rfl

theorem ChaCha.cipherLegacy_eq (key : Vector U8 32) (nonce : Vector U8 8) :
    ChaCha.cipherLegacy key nonce = .ok (Wrapper.fromCore (ChaCha.legacyState key nonce)) := by
  simp only [ChaCha.cipherLegacy, ChaCha.newLegacy_eq]; rfl

theorem ChaCha.ctr_ietf (key key' : Vector U8 32) (n n' : Vector U8 12) :
    ChaCha.SameCtr .ietf (ChaCha.ietfState key n) (ChaCha.ietfState key' n') := rfl

theorem ChaCha.ctr_legacy (key key' : Vector U8 32) (n n' : Vector U8 8) :
    ChaCha.SameCtr .legacy (ChaCha.legacyState key n) (ChaCha.legacyState key' n') := rfl

/-- **C60**.  Two objects of the same cipher with different keys and nonces, called in the same way with different data: they ask their
backends for exactly the same things in the same order, succeed, fail and panic at the same calls, and report the same positions. -/
theorem C60_same (u : Nat) (c c' : SeekCipher) (hk : c.SameKind c') (h h' : List (ChaCha.Env × SeekOp)) (hh : SameCalls h h') :
    ExRel (fun r r' => Each SameShape r.1 r'.1 ∧ r.2 = r'.2) (c.record u h) (c'.record u h') := by
  cases c <;> cases c' <;> first | exact hk.elim | skip
  · have hk : _ = _ := hk
    subst hk
    exact record_blind (ChaCha.blind u _ .ietf) _ _ _ _ (ChaCha.cipherIetf_eq ..) (ChaCha.cipherIetf_eq ..) (ChaCha.ctr_ietf ..) h h' hh
  · have hk : _ = _ := hk
    subst hk
    exact record_blind (ChaCha.blind u _ .legacy) _ _ _ _ (ChaCha.cipherLegacy_eq ..) (ChaCha.cipherLegacy_eq ..) (ChaCha.ctr_legacy ..) h h' hh
  · have hk : _ = _ := hk
    subst hk
    exact record_blind (ChaCha.blind u _ .ietf) _ _ _ _ (ChaCha.cipherX_eq ..) (ChaCha.cipherX_eq ..) (ChaCha.ctr_ietf ..) h h' hh
  · obtain ⟨rfl, rfl⟩ := hk
    exact record_blind (Salsa.blind ChaCha.Env u _ _) _ _ _ _ rfl rfl (Salsa.ctr_new ..) h h' hh
  · obtain ⟨rfl, rfl⟩ := hk
    exact record_blind (Salsa.blind ChaCha.Env u _ _) _ _ _ _ rfl rfl (Salsa.ctr_new ..) h h' hh

/-- The hypotheses of `C60` are satisfiable with different keys, nonces and data, and the log is not trivial: encrypting 300 bytes on AVX2
(four blocks at a time) asks for four blocks together, an empty tail, and a single block. -/
example : Sample.chacha20.SameKind (.chacha 10 (Sample.bytes 32 7) (Sample.bytes 12 9)) ∧
    SameCalls [(Sample.avx2, .io (.apply (List.replicate 300 0))), (Sample.soft, .seek 5)]
      [(Sample.avx2, .io (.apply (List.replicate 300 1))), (Sample.soft, .seek 5)] :=
  ⟨rfl, ⟨rfl, (List.length_replicate ..).trans (List.length_replicate ..).symm⟩, ⟨rfl, rfl⟩, trivial⟩

/-- **C60**.  Hence the vector instructions executed in each call of each backend are the same. -/
theorem C60_instructions (u : Nat) (c c' : SeekCipher) (hk : c.SameKind c') (h h' : List (ChaCha.Env × SeekOp)) (hh : SameCalls h h')
    (dr : Nat) (V : ChaCha.Variant) :
    (c.record u h).map (fun r => ChaCha.Isa.ofLog dr V r.2) = (c'.record u h').map (fun r => ChaCha.Isa.ofLog dr V r.2) := by
  have := C60_same u c c' hk h h' hh
  generalize c.record u h = x at this
  generalize c'.record u h' = y at this
  cases this with
  | ok h => simp only [Except.map, h.2]
  | error e => rfl

example : (Sample.chacha20.record 64 [(Sample.avx2, .io (.apply (List.replicate 300 0)))]).map (fun r => ChaCha.Isa.ofLog 10 .ietf r.2) =
    ((SeekCipher.chacha 10 (Sample.bytes 32 7) (Sample.bytes 12 9)).record 64 [(Sample.avx2, .io (.apply (List.replicate 300 1)))]).map
      (fun r => ChaCha.Isa.ofLog 10 .ietf r.2) :=
  C60_instructions 64 Sample.chacha20 (.chacha 10 (Sample.bytes 32 7) (Sample.bytes 12 9)) rfl
    [(Sample.avx2, .io (.apply (List.replicate 300 0)))] [(Sample.avx2, .io (.apply (List.replicate 300 1)))] ⟨⟨rfl, (List.length_replicate ..).trans (List.length_replicate ..).symm⟩, trivial⟩ 10 .ietf

/-- **C60**.  Writing the log changes nothing: the object with a log shows its caller what the object shows. -/
theorem C60_faithful (u : Nat) (c : SeekCipher) (h : List (ChaCha.Env × SeekOp)) :
    (c.record u h).map (·.1) = (c.create u >>= fun w => runHistory (c.step u) h w).map (·.1) := by
  have hn : Natural (c.core u).toCore := by
    cases c
    · exact ChaCha.natural u _ _
    · exact ChaCha.natural u _ _
    · exact ChaCha.natural u _ _
    · exact Salsa.natural _ u _ _
    · exact Salsa.natural _ u _ _
  unfold SeekCipher.record SeekCore.record
  cases c.create u with
  | error e => rfl
  | ok w =>
    have := history_erase (fun x w op => Wrapper.seekStep (c.core u).logged x w op) (c.step u) Erases
      (fun x w' w op hw => seekStep_erase hn x w' w hw op) h w.withLog w ⟨rfl, rfl, rfl⟩
    show Except.map (·.1) (runHistory (fun x w op => Wrapper.seekStep (c.core u).logged x w op) h w.withLog >>= fun r => pure (r.1, r.2.core.2)) =
      Except.map (·.1) (runHistory (c.step u) h w)
    generalize runHistory (fun x w op => Wrapper.seekStep (c.core u).logged x w op) h w.withLog = x at this
    generalize runHistory (c.step u) h w = y at this
    cases this with
    | ok h => exact congrArg Except.ok h.1
    | error e => rfl

/-- A recorded history that runs to its end. -/
example (h : List (ChaCha.Env × SeekOp)) (hal : ∀ e ∈ h, Sample.chacha20.Allowed 64 e.2) :
    ∃ r, (Sample.chacha20.record 64 h).map (·.1) = .ok r := by
  obtain ⟨w, hr⟩ := Sample.chacha20.reach_exists 64 h hal
  obtain ⟨w₀, hc, hrun⟩ := hr.run
  have h := C60_faithful 64 Sample.chacha20 h
  rw [hc] at h
  exact ⟨_, h.trans (congrArg (Except.map Prod.fst) hrun)⟩

/-! ### HC-256 and Rabbit -/

theorem record_blind_plain {bs : Nat} {χ : Type} {C : Core bs χ} {R : C.σ → C.σ → Prop} (hb : Blind C R) (x y : Except Panic (Wrapper bs C.σ))
    (s s' : C.σ) (hx : x = .ok (Wrapper.fromCore s)) (hy : y = .ok (Wrapper.fromCore s')) (hs : R s s')
    (h h' : List (χ × Op)) (hh : Each (fun e e' => e.1 = e'.1 ∧ Op.Like e.2 e'.2) h h') :
    ExRel (fun r r' => Each SameShape r.1 r'.1 ∧ r.2 = r'.2) (C.record x h) (C.record y h') := by
  rw [hx, hy]
  have := history_blind _ Op.Like (WRel fun s s' => R s.1 s'.1 ∧ s.2 = s'.2)
    (fun x w w' op op' hw hop => step_blind hb.logged x w w' hw op op' hop) h h' (Wrapper.fromCore s).withLog (Wrapper.fromCore s').withLog
    hh ⟨⟨hs, rfl⟩, rfl⟩
  refine ExRel.bind (Q := fun w w' => w = Wrapper.fromCore s ∧ w' = Wrapper.fromCore s') (.ok ⟨rfl, rfl⟩) ?_
  rintro _ _ ⟨rfl, rfl⟩
  refine ExRel.bind this ?_
  rintro ⟨os, v⟩ ⟨os', v'⟩ ⟨h1, h2⟩
  exact .ok ⟨h1, h2.core.2⟩

/-- A non-seekable core that follows a block sequence never panics and shows nothing. -/
theorem blind_ofBlock {bs : Nat} {σ : Type} (gen : σ → Except Panic (Vector U8 bs × σ)) (R : σ → σ → Prop)
    (hgen : ∀ s s', R s s' → ExRel (fun r r' => R r.2 r'.2) (gen s) (gen s')) :
    Blind (χ := Unit) ⟨σ, fun _ f s => (Backend.ofBlock 1 gen).call f s, fun _ => none⟩ R where
  process _ := ⟨1, fun _ _ f f' s s' hr hf => run_blind gen R hgen 1 (f 1) (f' 1) s s' hr hf⟩
  remaining _ _ _ := rfl

/-- **C60** (HC-256). -/
theorem C60_hc256 (m : Mode) (u : Nat) (hu : 16 ≤ u) (key iv key' iv' : Vector U8 32) (h h' : List (Unit × Op))
    (hh : Each (fun e e' => e.1 = e'.1 ∧ Op.Like e.2 e'.2) h h') :
    ExRel (fun r r' => Each SameShape r.1 r'.1 ∧ r.2 = r'.2)
      ((Hc256.core m u).record (Hc256.cipher m u key iv) h) ((Hc256.core m u).record (Hc256.cipher m u key' iv') h') := by
  obtain ⟨s, h1, hr⟩ := Hc256.new_eq m hu key iv
  obtain ⟨s', h1', hr'⟩ := Hc256.new_eq m hu key' iv'
  have hb := blind_ofBlock (Hc256.genBlock m u)
    (fun s s' => ∃ n, Hc256.Rel (Spec.Hc256.initialise key iv) s n ∧ Hc256.Rel (Spec.Hc256.initialise key' iv') s' n) (by
      rintro s s' ⟨n, h1, h2⟩
      obtain ⟨t, e1, e2⟩ := Hc256.genBlock_rel m hu key iv s n h1
      obtain ⟨t', e1', e2'⟩ := Hc256.genBlock_rel m hu key' iv' s' n h2
      rw [e1, e1']
      exact .ok ⟨n + 1, e2, e2'⟩)
  exact record_blind_plain hb _ _ s s' (by rw [Hc256.cipher, h1]; rfl) (by rw [Hc256.cipher, h1']; rfl) ⟨0, hr, hr'⟩ h h' hh

example : Each (fun e e' : Unit × Op => e.1 = e'.1 ∧ Op.Like e.2 e'.2) [((), .apply [1, 2, 3, 4, 5]), ((), .write [0, 0])]
    [((), .apply [6, 7, 8, 9, 10]), ((), .write [1, 1])] := ⟨⟨rfl, rfl⟩, ⟨rfl, rfl⟩, trivial⟩

theorem Rabbit.blind (m : Mode) (i i' : Spec.Rabbit.Inner) : Blind (Rabbit.core m) (fun s s' => ∃ n, Rabbit.Rel i s n ∧ Rabbit.Rel i' s' n) :=
  blind_ofBlock (Rabbit.genBlock m) _ (by
    rintro s s' ⟨n, h1, h2⟩
    obtain ⟨t, e1, e2⟩ := Rabbit.genBlock_rel m i s n h1
    obtain ⟨t', e1', e2'⟩ := Rabbit.genBlock_rel m i' s' n h2
    rw [e1, e1']
    exact .ok ⟨n + 1, e2, e2'⟩)

/-- **C60** (Rabbit, with an IV and without). -/
theorem C60_rabbit (m : Mode) (key key' : Vector U8 16) (iv iv' : Vector U8 8) (h h' : List (Unit × Op))
    (hh : Each (fun e e' => e.1 = e'.1 ∧ Op.Like e.2 e'.2) h h') :
    ExRel (fun r r' => Each SameShape r.1 r'.1 ∧ r.2 = r'.2)
      ((Rabbit.core m).record (Rabbit.cipher m key iv) h) ((Rabbit.core m).record (Rabbit.cipher m key' iv') h') ∧
    ExRel (fun r r' => Each SameShape r.1 r'.1 ∧ r.2 = r'.2)
      ((Rabbit.core m).record (Rabbit.cipherKeyOnly m key) h) ((Rabbit.core m).record (Rabbit.cipherKeyOnly m key') h') := by
  have e1 : ∀ key iv, Rabbit.cipher m key iv = .ok (Wrapper.fromCore (Rabbit.next4Pure (Rabbit.ivXor iv (Rabbit.setupKeyPure key)))) := by
    intro key iv
    rw [Rabbit.cipher, Rabbit.setupKey_eq, Rabbit.ok_bind, Rabbit.setupIv_eq]; rfl
  have e2 : ∀ key, Rabbit.cipherKeyOnly m key = .ok (Wrapper.fromCore (Rabbit.setupKeyPure key)) := by
    intro key
    rw [Rabbit.cipherKeyOnly, Rabbit.setupKey_eq]; rfl
  exact ⟨record_blind_plain (Rabbit.blind m _ _) _ _ _ _ (e1 key iv) (e1 key' iv') ⟨0, Rabbit.rel_iv key iv, Rabbit.rel_iv key' iv'⟩ h h' hh,
    record_blind_plain (Rabbit.blind m _ _) _ _ _ _ (e2 key) (e2 key') ⟨0, Rabbit.rel_keyOnly key, Rabbit.rel_keyOnly key'⟩ h h' hh⟩

example : ((applyBlocksClosure (bs := 64) (List.replicate 6 (List.replicate 64 0)) 4).logged.ref (fun _ => Vector.replicate 64 0) 4 0).map
    (fun r => r.1.2) = .ok [.par, .tail 2] := rfl

/-- A backend that keeps a list of the methods called on it. -/
def Watched {bs : Nat} {σ : Type} (B : Backend bs σ) : Backend bs (σ × List Req) where
  parSize := B.parSize
  genBlock s := (B.genBlock s.1).map fun r => (r.1, r.2, s.2 ++ [.block])
  genPar s := (B.genPar s.1).map fun r => (r.1, r.2, s.2 ++ [.par])
  genTail n s := (B.genTail n s.1).map fun r => (r.1, r.2, s.2 ++ [.tail n])

/-- **C60**, what the log says: for every client and every backend, the log of the client is the list of the methods that the backend saw. -/
theorem C60_log {bs : Nat} {σ α : Type} (B : Backend bs σ) (f : Closure bs α) (s : σ) (l : List Req) :
    (Watched B).call f (s, l) = (B.call (fun par => (f par).logged) s).map fun r => (r.1.1, r.2, l ++ r.1.2) := by
  have hm : ∀ {β γ : Type} (p : Prog bs β) (g : β → γ) (s : σ), (p.map g).run B s = (p.run B s).map fun r => (g r.1, r.2) := by
    intro β γ p g
    induction p with
    | done a => intro s; rfl
    | block k ih =>
      intro s
      show (B.genBlock s >>= _) = Except.map _ (B.genBlock s >>= _)
      cases B.genBlock s with
      | error e => rfl
      | ok r => exact ih r.1 r.2
    | par k ih =>
      intro s
      show (B.genPar s >>= _) = Except.map _ (B.genPar s >>= _)
      cases B.genPar s with
      | error e => rfl
      | ok r => exact ih r.1 r.2
    | tail n k ih =>
      intro s
      show (B.genTail n s >>= _) = Except.map _ (B.genTail n s >>= _)
      cases B.genTail n s with
      | error e => rfl
      | ok r => exact ih r.1 r.2
  have hr : ∀ (p : Prog bs α) (s : σ) (l : List Req), p.run (Watched B) (s, l) = (p.logged.run B s).map fun r => (r.1.1, r.2, l ++ r.1.2) := by
    intro p
    induction p with
    | done a => intro s l; exact congrArg (fun x => Except.ok (a, s, x)) (List.append_nil l).symm
    | block k ih =>
      intro s l
      show (Except.map _ (B.genBlock s) >>= _) = Except.map _ (B.genBlock s >>= _)
      cases B.genBlock s with
      | error e => rfl
      | ok r =>
        show (k r.1).run (Watched B) (r.2, l ++ [.block]) = Except.map _ (((k r.1).logged.map _).run B r.2)
        rw [ih, hm]
        cases (k r.1).logged.run B r.2 with
        | error e => rfl
        | ok x => exact congrArg (fun y => Except.ok (x.1.1, x.2, y)) (List.append_assoc ..)
    | par k ih =>
      intro s l
      show (Except.map _ (B.genPar s) >>= _) = Except.map _ (B.genPar s >>= _)
      cases B.genPar s with
      | error e => rfl
      | ok r =>
        show (k r.1).run (Watched B) (r.2, l ++ [.par]) = Except.map _ (((k r.1).logged.map _).run B r.2)
        rw [ih, hm]
        cases (k r.1).logged.run B r.2 with
        | error e => rfl
        | ok x => exact congrArg (fun y => Except.ok (x.1.1, x.2, y)) (List.append_assoc ..)
    | tail n k ih =>
      intro s l
      show (Except.map _ (B.genTail n s) >>= _) = Except.map _ (B.genTail n s >>= _)
      cases B.genTail n s with
      | error e => rfl
      | ok r =>
        show (k r.1).run (Watched B) (r.2, l ++ [.tail n]) = Except.map _ (((k r.1).logged.map _).run B r.2)
        rw [ih, hm]
        cases (k r.1).logged.run B r.2 with
        | error e => rfl
        | ok x => exact congrArg (fun y => Except.ok (x.1.1, x.2, y)) (List.append_assoc ..)
  exact hr (f B.parSize) s l

/-- Six blocks from a backend of four: one group and a tail of two. -/
example : ((Watched (Backend.ofBlock 4 fun n : Nat => .ok (Vector.replicate 64 0, n + 1))).call (applyBlocksClosure (bs := 64) (List.replicate 6 (List.replicate 64 0)))
    (0, [])).map (fun r => r.2) = .ok (6, [.par, .tail 2]) := rfl

end Verif
