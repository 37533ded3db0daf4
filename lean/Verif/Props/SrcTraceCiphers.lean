import Verif.Proof.TraceCiphers
import Verif.Props.Requests
/-!
# C95: what can be seen of a whole history of calls on a seekable cipher of the text
-/
namespace Verif

namespace Rust

theorem SameOps.each {χ χ' : Type} {h h' : List (χ × SeekOp)} (hh : SameOps h h') (e : χ → χ') :
    Each (fun a b => a.1 = b.1 ∧ SeekOp.Like a.2 b.2) (h.map fun c => (e c.1, c.2)) (h'.map fun c => (e c.1, c.2)) := by
  induction hh with
  | nil => trivial
  | cons x ho hh ih =>
    refine ⟨⟨rfl, ?_⟩, ih⟩
    cases ho with
    | apply _ _ h => exact h
    | write _ _ h => exact h
    | seek q => exact (rfl : q = q)
    | pos n => exact (rfl : n = n)

theorem SameOps.refl {χ : Type} (h : List (χ × SeekOp)) : SameOps h h := by
  induction h with
  | nil => exact .nil
  | cons c h ih =>
    obtain ⟨x, op⟩ := c
    refine .cons x ?_ ih
    cases op with
    | io op =>
      cases op with
      | apply d => exact .apply _ _ rfl
      | write d => exact .write _ _ rfl
    | seek q => exact .seek q
    | pos n => exact .pos n

section
variable {bs : Nat} {χ χ' : Type} {M : SeekCore bs χ'} {C : SeenCore bs χ} {e : χ → χ'} {f : M.σ → C.σ} {K : M.σ → M.σ → Prop} {used : χ → List String}

theorem Faithful.life (H : Faithful M C e f) {m : Tr C.σ} {s : M.σ} (hm : m.1 = .ok (f s)) (h : List (χ × SeekOp)) :
    (C.life m h).1 = (runHistory (fun x w op => Wrapper.seekStep M x w op) (h.map fun c => (e c.1, c.2)) (Wrapper.fromCore s)).map (·.1) := by
  rw [SeenCore.life, Tr.bind_fst, hm, okBind, ← Wrapper.mapCore_fromCore, Tr.bind_fst, H.run]
  cases runHistory (fun x w op => Wrapper.seekStep M x w op) (h.map fun c => (e c.1, c.2)) (Wrapper.fromCore s) <;> rfl

theorem Faithful.same (H : Faithful M C e f) (S : SeekBlind M K) {m m' : Tr C.σ} {s s' : M.σ} (hm : m.1 = .ok (f s)) (hm' : m'.1 = .ok (f s')) (hk : K s s')
    {h h' : List (χ × SeekOp)} (hh : SameOps h h') : ExRel (Each SameShape) (C.life m h).1 (C.life m' h').1 := by
  rw [H.life hm, H.life hm']
  have := history_blind _ SeekOp.Like (WRel K) (fun x w w' op op' hw ho => seekStep_blind S x w w' hw op op' ho) _ _ (Wrapper.fromCore s) (Wrapper.fromCore s') (hh.each e) ⟨hk, rfl⟩
  generalize runHistory _ _ (Wrapper.fromCore s) = r at this
  generalize runHistory _ _ (Wrapper.fromCore s') = r' at this
  cases this with
  | ok h => exact .ok h.1
  | error p => exact .error p

theorem BlindCore.life (B : BlindCore M C f K used) {m m' : Tr C.σ} {s s' : M.σ} (hm : m.1 = .ok (f s)) (hm' : m'.1 = .ok (f s')) (hk : K s s')
    (ho : Obl [] (fun _ _ => True) m m') {I : List String} {h h' : List (χ × SeekOp)} (hh : SameOps h h') (hI : ∀ c ∈ h, ∀ s ∈ used c.1, s ∈ I) :
    Obl I (fun _ _ => True) (C.life m h) (C.life m' h') := by
  refine .bind (Q := fun a b => a = f s ∧ b = f s') ((ChaCha.Obl.and (ho.weaken (fun _ h => nomatch h)) fun a b ha hb => ?_).mono fun _ _ h => h.2) fun a b hab => ?_
  · rw [hm] at ha
    rw [hm'] at hb
    exact ⟨(Except.ok.inj ha).symm, (Except.ok.inj hb).symm⟩
  · obtain ⟨rfl, rfl⟩ := hab
    exact .bind (B.run hh hI ⟨rfl, s, s', rfl, rfl, hk⟩) fun _ _ _ => .pure trivial

end

/-- The same type of cipher, with any keys and nonces. -/
inductive SeekText.SameType : SeekText → SeekText → Prop
  | chacha (R : Type) [ChaCha.Rounds R] (key key' : Vector U8 32) (nonce nonce' : Vector U8 12) : SameType (.chacha R key nonce) (.chacha R key' nonce')
  | chachaLegacy (key key' : Vector U8 32) (nonce nonce' : Vector U8 8) : SameType (.chachaLegacy key nonce) (.chachaLegacy key' nonce')
  | xchacha (R : Type) [ChaCha.Rounds R] (key key' : Vector U8 32) (nonce nonce' : Vector U8 24) : SameType (.xchacha R key nonce) (.xchacha R key' nonce')
  | salsa (R : Type) [Unsigned R] (key key' : Vector U8 32) (nonce nonce' : Vector U8 8) : SameType (.salsa R key nonce) (.salsa R key' nonce')
  | xsalsa (R : Type) [Unsigned R] (key key' : Vector U8 32) (nonce nonce' : Vector U8 24) : SameType (.xsalsa R key nonce) (.xsalsa R key' nonce')

theorem SeekText.SameType.refl (c : SeekText) : c.SameType c := by
  cases c with
  | chacha R => exact .chacha R ..
  | chachaLegacy => exact .chachaLegacy ..
  | xchacha R => exact .xchacha R ..
  | salsa R => exact .salsa R ..
  | xsalsa R => exact .xsalsa R ..

/-- The instructions in the text of what is called for a cipher. -/
def SeekText.used (x : Circumstances) : SeekText → List String
  | @chacha _ _ _ _ => ChaCha.used false (ChaCha.Config.select x.build x.detected)
  | .chachaLegacy _ _ => ChaCha.used true (ChaCha.Config.select x.build x.detected)
  | @xchacha _ _ _ _ => ChaCha.used false (ChaCha.Config.select x.build x.detected)
  | @salsa _ _ _ _ => []
  | @xsalsa _ _ _ _ => []

theorem ChaCha.newX_created {tgt : Target} {R : Type} [Rounds R] (key : Vector U8 32) (nonce : Vector U8 24) :
    XChaChaCore.new (R := R) tgt key.toList nonce.toList = .ok ⟨repr R Ietf (Verif.ChaCha.ietfState (Spec.ChaCha.xSubkey (Rounds.count R) key nonce) (Spec.ChaCha.xNonce nonce))⟩ := by
  refine (newX_eq key nonce).trans ?_
  simp only [Verif.ChaCha.newX_eq, Verif.ChaCha.hchacha_eq]
  rw [Verif.ChaCha.newIetf_eq]
  rfl

/-- All that is shown of the lives of two ciphers of the same type. -/
theorem SeekText.life_same {tgt : Target} (ht : 16 ≤ tgt.bits) {c c' : SeekText} (hc : c.SameType c') {h h' : List (Circumstances × SeekOp)} (hh : SameOps h h') {I : List String}
    (hI : ∀ e ∈ h, ∀ s ∈ c.used e.1, s ∈ I) : ExRel (Each SameShape) (c.life tgt h).1 (c'.life tgt h').1 ∧ Obl I (fun _ _ => True) (c.life tgt h) (c'.life tgt h') := by
  cases hc with
  | chacha R key key' nonce nonce' =>
    have H := ChaCha.faithful_ietf ht R
    have B := ChaCha.blind_of ChaCha.counts_ietf false (fun _ => ChaCha.is_ietf) H
    have n1 := (ChaCha.ChaChaCore_new_erase (R := R) (tgt := tgt) key.toList nonce.toList).trans (ChaCha.new_eq key nonce)
    have n2 := (ChaCha.ChaChaCore_new_erase (R := R) (tgt := tgt) key'.toList nonce'.toList).trans (ChaCha.new_eq key' nonce')
    exact ⟨H.same (Verif.ChaCha.blind _ _ _) n1 n2 (Verif.ChaCha.ctr_ietf ..) hh, B.life n1 n2 (Verif.ChaCha.ctr_ietf ..)
      ((ChaCha.ChaChaCore_new_obl _ _ (like_toList key key') _ _ (like_toList nonce nonce')).mono fun _ _ _ => trivial) hh hI⟩
  | chachaLegacy key key' nonce nonce' =>
    have H := ChaCha.faithful_legacy ht ChaCha.R20
    have B := ChaCha.blind_of ChaCha.counts_legacy true nofun H
    have n1 := (ChaCha.ChaCha20LegacyCore_new_erase (tgt := tgt) key.toList nonce.toList).trans (ChaCha.newLegacy_eq key nonce)
    have n2 := (ChaCha.ChaCha20LegacyCore_new_erase (tgt := tgt) key'.toList nonce'.toList).trans (ChaCha.newLegacy_eq key' nonce')
    exact ⟨H.same (Verif.ChaCha.blind _ _ _) n1 n2 (Verif.ChaCha.ctr_legacy ..) hh, B.life n1 n2 (Verif.ChaCha.ctr_legacy ..)
      ((ChaCha.ChaCha20LegacyCore_new_obl _ _ (like_toList key key') _ _ (like_toList nonce nonce')).mono fun _ _ _ => trivial) hh hI⟩
  | xchacha R key key' nonce nonce' =>
    have H := ChaCha.faithful_x ht R
    have B := ChaCha.blind_x ht R
    have n1 := (ChaCha.XChaChaCore_new_erase (R := R) (tgt := tgt) key.toList nonce.toList).trans (ChaCha.newX_created key nonce)
    have n2 := (ChaCha.XChaChaCore_new_erase (R := R) (tgt := tgt) key'.toList nonce'.toList).trans (ChaCha.newX_created key' nonce')
    exact ⟨H.same (Verif.ChaCha.blind _ _ _) n1 n2 (Verif.ChaCha.ctr_ietf ..) hh, B.life n1 n2 (Verif.ChaCha.ctr_ietf ..)
      ((ChaCha.XChaChaCore_new_obl _ _ (like_toList key key') _ _ (like_toList nonce nonce')).mono fun _ _ _ => trivial) hh hI⟩
  | salsa R key key' nonce nonce' =>
    have H := Salsa.faithful (tgt := tgt) R
    have B := Salsa.blind (tgt := tgt) R
    have n1 := (Salsa.SalsaCore_new_erase (R := R) (tgt := tgt) key.toList nonce.toList).trans (Salsa.new_eq ht key nonce)
    have n2 := (Salsa.SalsaCore_new_erase (R := R) (tgt := tgt) key'.toList nonce'.toList).trans (Salsa.new_eq ht key' nonce')
    exact ⟨H.same (Verif.Salsa.blind _ _ _ _) n1 n2 (Verif.Salsa.ctr_new ..) hh, B.life n1 n2 (Verif.Salsa.ctr_new ..)
      ((Salsa.SalsaCore_new_obl _ _ (like_toList key key') _ _ (like_toList nonce nonce')).mono fun _ _ _ => trivial) hh hI⟩
  | xsalsa R key key' nonce nonce' =>
    have H := Salsa.faithful_x (tgt := tgt) R
    have B := Salsa.blind_x (tgt := tgt) R
    have n1 := (Salsa.XSalsaCore_new_erase (R := R) (tgt := tgt) key.toList nonce.toList).trans (Salsa.newX_eq ht key nonce)
    have n2 := (Salsa.XSalsaCore_new_erase (R := R) (tgt := tgt) key'.toList nonce'.toList).trans (Salsa.newX_eq ht key' nonce')
    exact ⟨H.same (Verif.Salsa.blind _ _ _ _) n1 n2 (Verif.Salsa.ctr_new ..) hh, B.life n1 n2 (Verif.Salsa.ctr_new ..)
      ((Salsa.XSalsaCore_new_obl _ _ (like_toList key key') _ _ (like_toList nonce nonce')).mono fun _ _ _ => trivial) hh hI⟩

/-- The life of a cipher, without the record. -/
theorem SeekText.life_erase {tgt : Target} (ht : 16 ≤ tgt.bits) (c : SeekText) (h : List (Circumstances × SeekOp)) : (c.life tgt h).1 =
    ((c.cipher tgt.mode).create tgt.bits >>= runHistory ((c.cipher tgt.mode).step tgt.bits) (h.map fun e => (e.1.env, e.2))).map (·.1) := by
  cases c with
  | chacha R key nonce =>
    refine ((ChaCha.faithful_ietf ht R).life ((ChaCha.ChaChaCore_new_erase (R := R) (tgt := tgt) key.toList nonce.toList).trans (ChaCha.new_eq key nonce)) h).trans ?_
    rw [show (SeekCipher.create tgt.bits ((SeekText.chacha R key nonce).cipher tgt.mode)) = _ from Verif.ChaCha.cipherIetf_eq key nonce]
    rfl
  | chachaLegacy key nonce =>
    refine ((ChaCha.faithful_legacy ht ChaCha.R20).life ((ChaCha.ChaCha20LegacyCore_new_erase (tgt := tgt) key.toList nonce.toList).trans (ChaCha.newLegacy_eq key nonce)) h).trans ?_
    rw [show (SeekCipher.create tgt.bits ((SeekText.chachaLegacy key nonce).cipher tgt.mode)) = _ from Verif.ChaCha.cipherLegacy_eq key nonce]
    rfl
  | xchacha R key nonce =>
    refine ((ChaCha.faithful_x ht R).life ((ChaCha.XChaChaCore_new_erase (R := R) (tgt := tgt) key.toList nonce.toList).trans (ChaCha.newX_created key nonce)) h).trans ?_
    rw [show (SeekCipher.create tgt.bits ((SeekText.xchacha R key nonce).cipher tgt.mode)) = _ from Verif.ChaCha.cipherX_eq _ key nonce]
    rfl
  | salsa R key nonce =>
    exact (Salsa.faithful (tgt := tgt) R).life ((Salsa.SalsaCore_new_erase (R := R) (tgt := tgt) key.toList nonce.toList).trans (Salsa.new_eq ht key nonce)) h
  | xsalsa R key nonce =>
    exact (Salsa.faithful_x (tgt := tgt) R).life ((Salsa.XSalsaCore_new_erase (R := R) (tgt := tgt) key.toList nonce.toList).trans (Salsa.newX_eq ht key nonce)) h

end Rust
end Verif

namespace Verif
open Spec Rust
open Verif.ChaCha (Config.Build Config.Detected Config.Features)
open Verif.ChaCha.Config (select detect)

/-- The instructions of all modules for the ciphers. -/
def cipherNames : List String := Rust.ChaCha.sse2.used41 ++ Rust.ChaCha.sse2.used ++ Rust.ChaCha.avx2.used ++ Rust.ChaCha.avx512.used ++ Rust.ChaCha.neon.used

theorem mem_cipherNames (wide : Bool) (i : ChaCha.Config.Impl) : ∀ s ∈ Rust.ChaCha.used wide i, s ∈ cipherNames := by
  intro s hs
  cases wide <;> cases i <;>
    simp only [Rust.ChaCha.used, cipherNames, List.mem_append, List.not_mem_nil, if_true, Bool.false_eq_true, if_false] at hs ⊢ <;> simp [hs]

theorem Rust.SeekText.mem_names (c : SeekText) (x : Circumstances) : ∀ s ∈ c.used x, s ∈ cipherNames := by
  cases c with
  | chacha R => exact mem_cipherNames _ _
  | chachaLegacy => exact mem_cipherNames _ _
  | xchacha R => exact mem_cipherNames _ _
  | salsa R => exact fun _ h => nomatch h
  | xsalsa R => exact fun _ h => nomatch h

/-- **C95**, the record: without it, the lives of the ciphers are those of C89. -/
theorem C95_erase (tgt : Target) (ht : 16 ≤ tgt.bits) (c : SeekText) (h : List (Circumstances × SeekOp)) : (c.life tgt h).1 =
    (c.create tgt >>= fun s => runHistory (fun x w op => Wrapper.seekStep (c.core tgt) x w op) h (Wrapper.fromCore s)).map (·.1) :=
  (SeekText.life_erase ht c h).trans (C89_seekable tgt ht c h).symm

/-- **C95**.  Nothing secret can be seen of the text of a seekable cipher: two histories of the same calls in the same circumstances, on ciphers of one type with any two keys
and nonces, and with any data of the same lengths, both panic for the same reason or both return, with answers of the same shape; and if they return, they have the same
conditions, places and instructions. -/
theorem C95_blind (tgt : Target) (ht : 16 ≤ tgt.bits) (c c' : SeekText) (hc : c.SameType c') (h h' : List (Circumstances × SeekOp)) (hh : SameOps h h') :
    ExRel (Each SameShape) (c.life tgt h).1 (c'.life tgt h').1 ∧ ((c.life tgt h).1.isOk → (c.life tgt h).2 = (c'.life tgt h').2) := by
  obtain ⟨h1, ho⟩ := SeekText.life_same ht hc hh (I := cipherNames) fun e _ => c.mem_names e.1
  refine ⟨h1, fun hok => ?_⟩
  cases h2 : (c.life tgt h).1 with
  | error p => rw [h2] at hok; cases hok
  | ok a =>
    cases h3 : (c'.life tgt h').1 with
    | error p => rw [h2, h3] at h1; cases h1
    | ok b => exact (ho a b h2 h3).1

/-- **C95**, no panics: if the counter of the cipher wraps (all but Salsa and XSalsa with overflow checks), the same is seen of both. -/
theorem C95_same (tgt : Target) (ht : 16 ≤ tgt.bits) (c c' : SeekText) (hc : c.SameType c') (hw : (c.cipher tgt.mode).Wraps) (h h' : List (Circumstances × SeekOp))
    (hh : SameOps h h') (hf : ∀ e ∈ h, FitsAny tgt.bits e.2) : SameEvents (c.life tgt h) (c'.life tgt h') := by
  have h1 := (C95_erase tgt ht c h).trans (C89_all_seeks tgt ht c hw h hf)
  obtain ⟨h2, h3⟩ := C95_blind tgt ht c c' hc h h' hh
  refine ⟨h3 (by rw [h1]; rfl), ⟨_, h1⟩, ?_⟩
  rw [h1] at h2
  generalize (c'.life tgt h').1 = r at h2
  cases h2 with
  | ok => exact ⟨_, rfl⟩

/-- Whether the cipher is `ChaCha20Legacy`, the only one with a counter of 64 bits in SIMD code. -/
def Rust.SeekText.wide : SeekText → Bool
  | .chachaLegacy _ _ => true
  | _ => false

/-- The instructions that may be executed on a processor. -/
def cipherAllowed (wide : Bool) (cpu : Config.Features) : List String :=
  cipherNames.filter fun s => decide (Spec.Isa.Has (featureNames cpu) s ∨ s = "_mm_extract_epi32" ∧ wide = true ∧ cpu.sse41 = false)

theorem used_allowed (wide : Bool) (b : Config.Build) (cpu : Config.Features) (hl : ChaCha.Isa.Lawful cpu) (hr : TextRuns b cpu) :
    ∀ s ∈ Rust.ChaCha.used wide (select b (detect cpu)), s ∈ cipherAllowed wide cpu := by
  obtain ⟨h1, h2, h5, h4⟩ := ChaCha.select_has b cpu hr.runs
  generalize select b (detect cpu) = i at *
  intro s hs
  refine List.mem_filter.2 ⟨mem_cipherNames wide i s hs, decide_eq_true ?_⟩
  cases i with
  | soft => cases hs
  | sse2 =>
    have k1 := h1 rfl
    cases wide with
    | false =>
      have hh : Spec.Isa.Has Spec.Isa.sse2 s := (by decide : ∀ s ∈ Rust.ChaCha.sse2.used, Spec.Isa.Has Spec.Isa.sse2 s) s hs
      exact .inl (has_mono (by simp [mem_featureNames, Spec.Isa.sse2, k1]) hh)
    | true =>
      have hh : Spec.Isa.Has Spec.Isa.sse41 s := (by decide : ∀ s ∈ Rust.ChaCha.sse2.used41, Spec.Isa.Has Spec.Isa.sse41 s) s hs
      cases h41 : cpu.sse41
      · rcases has_sse41 hh with hx | hx
        · exact .inl (has_mono (by simp [mem_featureNames, Spec.Isa.sse2, k1]) hx)
        · exact .inr ⟨hx, rfl, rfl⟩
      · exact .inl (has_mono (by simp [mem_featureNames, Spec.Isa.sse41, Spec.Isa.sse2, k1, h41]) hh)
  | avx2 =>
    have hh : Spec.Isa.Has Spec.Isa.avx2 s := (by decide : ∀ s ∈ Rust.ChaCha.avx2.used, Spec.Isa.Has Spec.Isa.avx2 s) s hs
    have k2 := h2 rfl
    have k1 := hl.avx2 k2
    exact .inl (has_mono (by simp [mem_featureNames, Spec.Isa.avx2, Spec.Isa.sse41, Spec.Isa.sse2, k2, k1, hl.avx k1, hl.sse41 (hl.avx k1)]) hh)
  | avx512 =>
    have hh : Spec.Isa.Has Spec.Isa.avx512 s := (by decide : ∀ s ∈ Rust.ChaCha.avx512.used, Spec.Isa.Has Spec.Isa.avx512 s) s hs
    have k5 := h5 rfl
    have k2 := hl.f k5.1
    have k1 := hl.avx2 k2
    exact .inl (has_mono (by
      simp [mem_featureNames, Spec.Isa.avx512, Spec.Isa.avx2, Spec.Isa.sse41, Spec.Isa.sse2, k5.1, k5.2, k2, k1, hl.avx k1, hl.sse41 (hl.avx k1)]) hh)
  | neon =>
    have hh : Spec.Isa.Has Spec.Isa.neon s := (by decide : ∀ s ∈ Rust.ChaCha.neon.used, Spec.Isa.Has Spec.Isa.neon s) s hs
    exact .inl (has_mono (by simp [mem_featureNames, Spec.Isa.neon, h4 rfl]) hh)

/-- **C95**, instructions: on a processor that has what the targets of the builds promise, every instruction executed by a history of calls that does not panic is one of that
processor, except that `ChaCha20Legacy` may execute `_mm_extract_epi32` without SSE4.1. -/
theorem C95_instructions (cpu : Config.Features) (hl : ChaCha.Isa.Lawful cpu) (tgt : Target) (ht : 16 ≤ tgt.bits) (c : SeekText) (h : List (Circumstances × SeekOp))
    (hc : ∀ e ∈ h, e.1.detected = detect cpu ∧ TextRuns e.1.build cpu) (hok : (c.life tgt h).1.isOk) (s : String) (hs : Event.instr s ∈ (c.life tgt h).2) :
    Spec.Isa.Has (featureNames cpu) s ∨ s = "_mm_extract_epi32" ∧ c.wide = true ∧ cpu.sse41 = false := by
  obtain ⟨-, ho⟩ := SeekText.life_same ht (.refl c) (.refl h) (I := cipherAllowed c.wide cpu) fun e hm => by
    obtain ⟨h1, h2⟩ := hc e hm
    cases c with
    | chacha R => rw [SeekText.used, h1]; exact used_allowed false _ cpu hl h2
    | chachaLegacy => rw [SeekText.used, h1]; exact used_allowed true _ cpu hl h2
    | xchacha R => rw [SeekText.used, h1]; exact used_allowed false _ cpu hl h2
    | salsa R => exact fun _ h => nomatch h
    | xsalsa R => exact fun _ h => nomatch h
  cases h1 : (c.life tgt h).1 with
  | error p => rw [h1] at hok; cases hok
  | ok a => exact of_decide_eq_true (List.mem_filter.1 ((ho a a h1 h1).2.1 _ hs)).2

/-- **C95**, Salsa: the text of Salsa and XSalsa executes no vector instruction. -/
theorem C95_salsa (tgt : Target) (ht : 16 ≤ tgt.bits) (R : Type) [Unsigned R] (key : Vector U8 32) (h : List (Circumstances × SeekOp)) :
    (∀ nonce, ((SeekText.salsa R key nonce).life tgt h).1.isOk → ∀ s, Event.instr s ∉ ((SeekText.salsa R key nonce).life tgt h).2) ∧
    (∀ nonce, ((SeekText.xsalsa R key nonce).life tgt h).1.isOk → ∀ s, Event.instr s ∉ ((SeekText.xsalsa R key nonce).life tgt h).2) := by
  have none (c : SeekText) (hc : ∀ x, c.used x = []) (hok : (c.life tgt h).1.isOk) (s : String) : Event.instr s ∉ (c.life tgt h).2 := by
    obtain ⟨-, ho⟩ := SeekText.life_same ht (.refl c) (.refl h) (I := []) fun e _ => by rw [hc]; exact fun _ h => h
    cases h1 : (c.life tgt h).1 with
    | error p => rw [h1] at hok; cases hok
    | ok a => exact fun hs => nomatch (ho a a h1 h1).2.1 _ hs
  exact ⟨fun nonce => none _ fun _ => rfl, fun nonce => none _ fun _ => rfl⟩

/-- Two keys, two nonces, two messages of three bytes: the same is seen of ChaCha20, whatever the processors. -/
example (key key' : Vector U8 32) (nonce nonce' : Vector U8 12) (x y : Circumstances) (a b c a' b' c' : U8) : SameEvents
    ((SeekText.chacha Rust.ChaCha.R20 key nonce).life ⟨.debug, 64⟩ [(x, .io (.apply [a, b, c])), (y, .seek (64 * (2 ^ 32 - 1) + 7)), (x, .io (.write [a, a])), (y, .pos (2 ^ 64 - 1))])
    ((SeekText.chacha Rust.ChaCha.R20 key' nonce').life ⟨.debug, 64⟩ [(x, .io (.apply [a', b', c'])), (y, .seek (64 * (2 ^ 32 - 1) + 7)), (x, .io (.write [b', c'])),
      (y, .pos (2 ^ 64 - 1))]) :=
  C95_same _ (by decide) _ _ (.chacha ..) (show True from trivial) _ _
    (.cons _ (.apply _ _ rfl) <| .cons _ (.seek _) <| .cons _ (.write _ _ rfl) <| .cons _ (.pos _) .nil) (by
      simp only [List.mem_cons, List.not_mem_nil, or_false]
      rintro e (rfl | rfl | rfl | rfl)
      · exact (by decide : 3 < 2 ^ 64)
      · trivial
      · exact (by decide : 2 < 2 ^ 64)
      · trivial)

/-- Salsa20 with overflow checks, with any two keys: a seek into the last block panics for both. -/
example (key key' : Vector U8 32) (nonce nonce' : Vector U8 8) (x : Circumstances) :
    ((SeekText.salsa U10 key' nonce').life ⟨.debug, 64⟩ [(x, .seek (64 * (2 ^ 64 - 1) + 7))]).1 = .error .overflow := by
  have h1 : ((SeekText.salsa U10 key nonce).life ⟨.debug, 64⟩ [(x, .seek (64 * (2 ^ 64 - 1) + 7))]).1 = .error .overflow :=
    (C95_erase _ (by decide) _ _).trans (C89_salsa_panics ⟨.debug, 64⟩ (by decide) (.salsa U10 key nonce) (by intro h; cases (show Mode.debug = .release from h)) []
      (fun _ he => nomatch he) x 7 (by decide) (by decide))
  have h2 := (C95_blind ⟨.debug, 64⟩ (by decide) _ _ (.salsa U10 key key' nonce nonce') _ _ (SameOps.refl [(x, SeekOp.seek (64 * (2 ^ 64 - 1) + 7))])).1
  rw [h1] at h2
  generalize ((SeekText.salsa U10 key' nonce').life ⟨.debug, 64⟩ [(x, .seek (64 * (2 ^ 64 - 1) + 7))]).1 = r at h2
  cases h2
  rfl

/-- The lengths of the data and the positions can be seen: the hypotheses are needed. -/
example : let t (op : SeekOp) := ((SeekText.salsa U10 (Sample.bytes 32 0) (Sample.bytes 8 1)).life ⟨.release, 64⟩ [(Sample.portable, op), (Sample.portable, .io (.write [1]))]).2
    t (.io (.write [1])) ≠ t (.io (.write (List.replicate 65 1))) ∧ t (.seek 64) ≠ t (.seek 65) := by
  refine ⟨fun h => ?_, fun h => ?_⟩
  · exact absurd (congrArg List.length h) (by decide +kernel)
  · exact absurd (congrArg List.length h) (by decide +kernel)

end Verif
