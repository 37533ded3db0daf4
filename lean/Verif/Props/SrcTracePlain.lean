import Verif.Proof.TracePlain
import Verif.Proof.TraceCount
import Verif.Props.SrcTraceCiphers
import Verif.Props.SrcTraceTables
/-!
# C97: what can be seen of a whole history of calls on Rabbit, HC-256 and RC4 of the text
-/
namespace Verif

namespace Rust

variable {tgt : Target}

theorem Tr.bind_snd {α β : Type} {m : Tr α} {a : α} (h : m.1 = .ok a) (k : α → Tr β) : (m >>= k).2 = m.2 ++ (k a).2 := by
  obtain ⟨r, t⟩ := m
  cases h
  rfl

/-- The same calls, up to the data. -/
inductive SameIo : List (Unit × Op) → List (Unit × Op) → Prop
  | nil : SameIo [] []
  | apply (data data' : List U8) (hl : data.length = data'.length) {h h' : List (Unit × Op)} (hh : SameIo h h') : SameIo (((), .apply data) :: h) (((), .apply data') :: h')
  | write (buf buf' : List U8) (hl : buf.length = buf'.length) {h h' : List (Unit × Op)} (hh : SameIo h h') : SameIo (((), .write buf) :: h) (((), .write buf') :: h')

theorem SameIo.ops {h h' : List (Unit × Op)} (hh : SameIo h h') : SameOps (h.map fun e => (e.1, SeekOp.io e.2)) (h'.map fun e => (e.1, SeekOp.io e.2)) := by
  induction hh with
  | nil => exact .nil
  | apply d d' hl _ ih => exact .cons _ (.apply _ _ hl) ih
  | write d d' hl _ ih => exact .cons _ (.write _ _ hl) ih

theorem SameIo.fits {h h' : List (Unit × Op)} (hh : SameIo h h') {u : Nat} (hf : ∀ e ∈ h, Spec.FitsUsize u e.2) : ∀ e ∈ h', Spec.FitsUsize u e.2 := by
  induction hh with
  | nil => exact nofun
  | apply d d' hl _ ih =>
    intro e he
    rcases List.mem_cons.1 he with rfl | he
    · exact lt_of_eq_of_lt hl.symm (hf _ (List.mem_cons_self ..))
    · exact ih (fun e he => hf e (List.mem_cons_of_mem _ he)) e he
  | write d d' hl _ ih =>
    intro e he
    rcases List.mem_cons.1 he with rfl | he
    · exact lt_of_eq_of_lt hl.symm (hf _ (List.mem_cons_self ..))
    · exact ih (fun e he => hf e (List.mem_cons_of_mem _ he)) e he

theorem SameIo.refl (h : List (Unit × Op)) : SameIo h h := by
  induction h with
  | nil => exact .nil
  | cons e h ih =>
    obtain ⟨⟨⟩, op⟩ := e
    cases op with
    | apply d => exact .apply d d rfl ih
    | write d => exact .write d d rfl ih

/-- The life of a cipher in a wrapper, without the record. -/
theorem Faithful.plain {bs : Nat} {C : Core bs Unit} {T : SeenCore bs Unit} {f : C.σ → T.σ} (H : Faithful C.still T id f) {m : Tr T.σ} {s : C.σ} (hm : m.1 = .ok (f s))
    (h : List (Unit × Op)) : (T.life m (h.map fun e => (e.1, .io e.2))).1 = (runHistory (fun x w op => Wrapper.step C x w op) h (Wrapper.fromCore s)).map (·.1) := by
  refine (H.life hm _).trans ?_
  rw [← Core.still_run, List.map_map]
  rfl

theorem Hc256.new_ok (ht : 16 ≤ tgt.bits) (key iv : Vector U8 32) : ∃ s, Verif.Hc256.new tgt.mode tgt.bits key iv = .ok s ∧ s.idx.toNat < 2048 ∧
    (Hc256Core.new_tr tgt key.toList iv.toList).1 = .ok (repr s) := by
  obtain ⟨s, h1, h2⟩ := Verif.Hc256.new_eq tgt.mode ht key iv
  exact ⟨s, h1, by rw [h2.2]; decide, (new_erase key.toList iv.toList).trans ((new_eq ht key iv).trans (by rw [h1]; rfl))⟩

theorem Rabbit.newKeyOnly_ok (ht : 16 ≤ tgt.bits) (key : Vector U8 16) : (RabbitKeyOnlyCore.new_tr tgt key.toList).1 = .ok ⟨repr (Verif.Rabbit.setupKeyPure key)⟩ :=
  (RabbitKeyOnlyCore_new_erase _).trans ((new_eq ht key).trans (by rw [Verif.Rabbit.setupKey_eq]; rfl))

theorem Rabbit.newIv_ok (ht : 16 ≤ tgt.bits) (key : Vector U8 16) (iv : Vector U8 8) :
    (RabbitKeyOnlyCore.new_tr tgt key.toList >>= fun k => RabbitCore.inner_iv_init_tr tgt k iv.toList).1 =
      .ok ⟨repr (Verif.Rabbit.next4Pure (Verif.Rabbit.ivXor iv (Verif.Rabbit.setupKeyPure key)))⟩ := by
  rw [Tr.bind_fst, newKeyOnly_ok ht]
  exact (RabbitCore_inner_iv_init_erase _ _).trans ((inner_iv_init_eq iv _).trans (by rw [Verif.Rabbit.setupIv_eq]; rfl))

namespace Rc4

/-- The initial state. -/
def start (key : List U8) : Verif.Rc4.State := ⟨(rounds key 256).1, 0, 0⟩

/-- The length of the data of a call. -/
def size : Op → Nat
  | .apply d => d.length
  | .write d => d.length

/-- What is seen of a call. -/
def shown (s : Verif.Rc4.State) (n : Nat) : List Event := .branch true :: .loop n :: (List.range n).flatMap fun k => seen (after s k)

theorem step_runs (ht : 16 ≤ tgt.bits) (s : Verif.Rc4.State) (op : Op) : ∃ o, step_tr tgt (repr s) op = (.ok (o, repr (after s (size op))), shown s (size op)) := by
  cases op with
  | apply d =>
    obtain ⟨l, h⟩ := apply_runs (tgt := tgt) ht s (d.map fun b => ⟨b, b⟩)
    rw [List.length_map] at h
    refine ⟨.data (.ok ()) (l.map InOut.get_out), ?_⟩
    rw [step_tr, show Rc4.check_remaining_tr tgt (repr s) (len tgt d) = pure (.ok ()) from rfl, pure_bind]
    dsimp only
    rw [Tr.ok_then (show Tr.branch (Except.ok () : Except StreamCipherError Unit).isOk = (.ok true, [.branch true]) from rfl), Tr.ok_then h]
    exact congrArg (Prod.mk _) (congrArg (List.cons _) (List.append_nil _))
  | write d =>
    obtain ⟨l, h⟩ := write_runs (tgt := tgt) ht s d
    refine ⟨.data (.ok ()) l, ?_⟩
    rw [step_tr, show Rc4.check_remaining_tr tgt (repr s) (len tgt d) = pure (.ok ()) from rfl, pure_bind]
    dsimp only
    rw [Tr.ok_then (show Tr.branch (Except.ok () : Except StreamCipherError Unit).isOk = (.ok true, [.branch true]) from rfl), Tr.ok_then h]
    exact congrArg (Prod.mk _) (congrArg (List.cons _) (List.append_nil _))

theorem step_erase (c : Rc4) (op : Op) : (step_tr tgt c op).1 = step tgt () c op := by
  cases op with
  | apply d =>
    rw [step_tr, show Rc4.check_remaining_tr tgt c (len tgt d) = pure (.ok ()) from rfl, pure_bind]
    simp only [erase]
    rfl
  | write d =>
    rw [step_tr, show Rc4.check_remaining_tr tgt c (len tgt d) = pure (.ok ()) from rfl, pure_bind]
    simp only [erase]
    rfl

theorem run_erase (h : List (Unit × Op)) (c : Rc4) : (run_tr tgt h c).1 = (runHistory (step tgt) h c).map (·.1) := by
  induction h generalizing c with
  | nil => rfl
  | cons e h ih =>
    obtain ⟨⟨⟩, op⟩ := e
    rw [run_tr, Tr.bind_fst, step_erase, runHistory]
    cases step tgt () c op with
    | error p => rfl
    | ok r =>
      show (run_tr tgt h r.2 >>= _ : Tr _).1 = (runHistory (step tgt) h r.2 >>= _).map _
      rw [Tr.bind_fst, ih]
      cases runHistory (step tgt) h r.2 <;> rfl

theorem run_same (ht : 16 ≤ tgt.bits) {h h' : List (Unit × Op)} (hh : SameIo h h') (s : Verif.Rc4.State) : (run_tr tgt h (repr s)).2 = (run_tr tgt h' (repr s)).2 := by
  have one (op op' : Op) (hl : size op = size op') {h h' : List (Unit × Op)} (ih : ∀ s, (run_tr tgt h (repr s)).2 = (run_tr tgt h' (repr s)).2) (s : Verif.Rc4.State) :
      (run_tr tgt (((), op) :: h) (repr s)).2 = (run_tr tgt (((), op') :: h') (repr s)).2 := by
    obtain ⟨o, ho⟩ := step_runs (tgt := tgt) ht s op
    obtain ⟨o', ho'⟩ := step_runs (tgt := tgt) ht s op'
    have end_ (m : Tr (List Obs)) (o : Obs) : (m >>= fun os => pure (o :: os) : Tr (List Obs)).2 = m.2 := by
      obtain ⟨r, t⟩ := m
      cases r with
      | error p => rfl
      | ok a => exact List.append_nil _
    rw [run_tr, run_tr, Tr.ok_then ho, Tr.ok_then ho', hl]
    show _ ++ (run_tr tgt h _ >>= fun os => pure (o :: os) : Tr _).2 = _ ++ (run_tr tgt h' _ >>= fun os => pure (o' :: os) : Tr _).2
    rw [end_, end_, ih]
  induction hh generalizing s with
  | nil => rfl
  | apply d d' hl _ ih => exact one (.apply d) (.apply d') hl ih s
  | write d d' hl _ ih => exact one (.write d) (.write d') hl ih s

theorem create_runs (ht : 16 ≤ tgt.bits) (key : List U8) (hk : 1 ≤ key.length ∧ key.length ≤ 256) :
    create_tr tgt key = (.ok (repr (start key)), (Rc4.new_from_slice_tr tgt key).2 ++ [.branch true]) := by
  have h : Rc4.new_from_slice_tr tgt key = (.ok (.ok (repr (start key))), (Rc4.new_from_slice_tr tgt key).2) :=
    Tr.ext ((Rc4_new_from_slice_erase key).trans (new_from_slice_ok ht key hk)) rfl
  rw [create_tr, Tr.ok_then h]
  rfl

end Rc4

/-- The life of a cipher, without the record. -/
theorem PlainText.life_erase (ht : 16 ≤ tgt.bits) (c : PlainText) (h : List (Unit × Op)) : (c.life tgt h).1 =
    ((c.cipher tgt.mode).create tgt.bits >>= runHistory ((c.cipher tgt.mode).step tgt.bits) h).map (·.1) := by
  cases c with
  | hc256 key iv =>
    obtain ⟨s, h1, -, h2⟩ := Hc256.new_ok ht key iv
    refine ((Hc256.faithful ht).plain h2 h).trans ?_
    rw [show PlainCipher.create tgt.bits ((PlainText.hc256 key iv).cipher tgt.mode) = .ok (Wrapper.fromCore s) from by
      show Verif.Hc256.cipher tgt.mode tgt.bits key iv = _
      rw [Verif.Hc256.cipher, h1]; rfl]
    rfl
  | rabbitKeyOnly key =>
    refine (Rabbit.faithful_keyOnly.plain (Rabbit.newKeyOnly_ok ht key) h).trans ?_
    rw [show PlainCipher.create tgt.bits ((PlainText.rabbitKeyOnly key).cipher tgt.mode) = .ok (Wrapper.fromCore (Verif.Rabbit.setupKeyPure key)) from by
      show Verif.Rabbit.cipherKeyOnly tgt.mode key = _
      rw [Verif.Rabbit.cipherKeyOnly, Verif.Rabbit.setupKey_eq]; rfl]
    rfl
  | rabbit key iv =>
    have h1 := Rabbit.newIv_ok ht key iv
    have h2 : PlainCipher.create tgt.bits ((PlainText.rabbit key iv).cipher tgt.mode) =
        .ok (Wrapper.fromCore (Verif.Rabbit.next4Pure (Verif.Rabbit.ivXor iv (Verif.Rabbit.setupKeyPure key)))) := by
      show Verif.Rabbit.cipher tgt.mode key iv = _
      rw [Verif.Rabbit.cipher, Verif.Rabbit.setupKey_eq, ok_bind, Verif.Rabbit.setupIv_eq]
      generalize Verif.Rabbit.next4Pure _ = s
      rfl
    generalize Verif.Rabbit.next4Pure _ = s at h1 h2
    refine (Rabbit.faithful.plain h1 h).trans ?_
    rw [h2]
    rfl
  | rc4 key hk =>
    rw [← C89_plain tgt ht (.rc4 key hk) h]
    show (Rc4.create_tr tgt key >>= Rc4.run_tr tgt h : Tr _).1 = _
    rw [Tr.bind_fst, Rc4.create_runs ht key hk]
    show (Rc4.run_tr tgt h (Rc4.repr (Rc4.start key))).1 = _
    rw [Rc4.run_erase]
    rw [PlainText.create, Rc4.new_from_slice_ok ht key hk]
    rfl

/-- Calls whose data fit in memory do not panic. -/
theorem PlainText.life_ok (ht : 16 ≤ tgt.bits) (c : PlainText) (h : List (Unit × Op)) (hf : ∀ e ∈ h, Spec.FitsUsize tgt.bits e.2) : ∃ a, (c.life tgt h).1 = .ok a := by
  obtain ⟨w, -, w₀, hc, hw⟩ := (c.cipher tgt.mode).reach_exists tgt.bits ht h hf
  rw [life_erase ht, hc]
  show ∃ a, (runHistory _ h w₀).map _ = _
  rw [hw]
  exact ⟨_, rfl⟩

/-- The ciphers of which the same may be seen: Rabbit with any two keys, the other ciphers with one. -/
inductive PlainText.Alike : PlainText → PlainText → Prop
  | hc256 (key iv : Vector U8 32) : Alike (.hc256 key iv) (.hc256 key iv)
  | rabbitKeyOnly (key key' : Vector U8 16) : Alike (.rabbitKeyOnly key) (.rabbitKeyOnly key')
  | rabbit (key key' : Vector U8 16) (iv iv' : Vector U8 8) : Alike (.rabbit key iv) (.rabbit key' iv')
  | rc4 (key : List U8) (h : 1 ≤ key.length ∧ key.length ≤ 256) : Alike (.rc4 key h) (.rc4 key h)

theorem Hc256.new_obl (ht : 16 ≤ tgt.bits) (key iv : List U8) : Obl [] (fun _ _ => True) (Hc256Core.new_tr tgt key iv) (Hc256Core.new_tr tgt key iv) := by
  obtain ⟨n, h⟩ := new_count ht
  exact fun a b ha hb => ⟨rfl, (h key iv a ha).1.2, trivial⟩

/-- What is seen of two lives. -/
theorem PlainText.life_same (ht : 16 ≤ tgt.bits) {c c' : PlainText} (hc : c.Alike c') {h h' : List (Unit × Op)} (hh : SameIo h h') (hf : ∀ e ∈ h, Spec.FitsUsize tgt.bits e.2) :
    SameEvents (c.life tgt h) (c'.life tgt h') := by
  obtain ⟨a, ha⟩ := c.life_ok ht h hf
  obtain ⟨a', ha'⟩ := c'.life_ok ht h' (hh.fits hf)
  refine ⟨?_, ⟨a, ha⟩, a', ha'⟩
  cases hc with
  | hc256 key iv =>
    obtain ⟨s, -, h1, h2⟩ := Hc256.new_ok ht key iv
    exact (((Hc256.blind ht).life h2 h2 ⟨rfl, h1⟩ (Hc256.new_obl ht _ _) hh.ops (I := []) fun _ _ _ h => nomatch h) a a' ha ha').1
  | rabbitKeyOnly key key' =>
    exact ((Rabbit.blind_keyOnly.life (Rabbit.newKeyOnly_ok ht key) (Rabbit.newKeyOnly_ok ht key') trivial
      ((Rabbit.RabbitKeyOnlyCore_new_obl _ _ (like_toList key key')).mono fun _ _ _ => trivial) hh.ops (I := []) fun _ _ _ h => nomatch h) a a' ha ha').1
  | rabbit key key' iv iv' =>
    exact ((Rabbit.blind.life (Rabbit.newIv_ok ht key iv) (Rabbit.newIv_ok ht key' iv') trivial
      ((Obl.bind (Rabbit.RabbitKeyOnlyCore_new_obl _ _ (like_toList key key')) fun _ _ hk => Rabbit.RabbitCore_inner_iv_init_obl _ _ hk _ _ (like_toList iv iv')).mono
        fun _ _ _ => trivial) hh.ops (I := []) fun _ _ _ h => nomatch h) a a' ha ha').1
  | rc4 key hk =>
    show (Rc4.create_tr tgt key >>= Rc4.run_tr tgt h : Tr _).2 = (Rc4.create_tr tgt key >>= Rc4.run_tr tgt h' : Tr _).2
    have := Rc4.create_runs (tgt := tgt) ht key hk
    rw [Tr.bind_snd (congrArg Prod.fst this), Tr.bind_snd (congrArg Prod.fst this), Rc4.run_same ht hh]

end Rust

open Rust

/-- **C97**, the record: without it, the lives of the ciphers are those of C89. -/
theorem C97_erase (tgt : Target) (ht : 16 ≤ tgt.bits) (c : PlainText) (h : List (Unit × Op)) :
    (c.life tgt h).1 = (c.create tgt >>= runHistory (c.step tgt) h).map (·.1) :=
  (PlainText.life_erase ht c h).trans (C89_plain tgt ht c h).symm

/-- **C97**, Rabbit: nothing secret can be seen.  Two histories of the same calls with any data of the same lengths, with any two keys and any two initialisation vectors, have the
same conditions and places, and neither panics. -/
theorem C97_rabbit (tgt : Target) (ht : 16 ≤ tgt.bits) (key key' : Vector U8 16) (h h' : List (Unit × Op)) (hh : SameIo h h') (hf : ∀ e ∈ h, Spec.FitsUsize tgt.bits e.2) :
    (∀ iv iv', SameEvents ((PlainText.rabbit key iv).life tgt h) ((PlainText.rabbit key' iv').life tgt h')) ∧
    SameEvents ((PlainText.rabbitKeyOnly key).life tgt h) ((PlainText.rabbitKeyOnly key').life tgt h') :=
  ⟨fun iv iv' => PlainText.life_same ht (.rabbit key key' iv iv') hh hf, PlainText.life_same ht (.rabbitKeyOnly key key') hh hf⟩

/-- **C97**, the data: of all these ciphers, nothing can be seen of the data but their lengths. -/
theorem C97_data (tgt : Target) (ht : 16 ≤ tgt.bits) (c : PlainText) (h h' : List (Unit × Op)) (hh : SameIo h h') (hf : ∀ e ∈ h, Spec.FitsUsize tgt.bits e.2) :
    SameEvents (c.life tgt h) (c.life tgt h') := by
  refine PlainText.life_same ht ?_ hh hf
  cases c with
  | hc256 key iv => exact .hc256 key iv
  | rabbitKeyOnly key => exact .rabbitKeyOnly key key
  | rabbit key iv => exact .rabbit key key iv iv
  | rc4 key hk => exact .rc4 key hk

/-- **C97**, RC4: two lives of which the same is seen, with whatever calls, have the same key, up to repetition. -/
theorem C97_rc4 (tgt : Target) (ht : 16 ≤ tgt.bits) (key key' : List U8) (hk : 1 ≤ key.length ∧ key.length ≤ 256) (hk' : 1 ≤ key'.length ∧ key'.length ≤ 256)
    (h h' : List (Unit × Op)) (e : ((PlainText.rc4 key hk).life tgt h).2 = ((PlainText.rc4 key' hk').life tgt h').2) :
    ∀ k, k < 256 → key[k % key.length]'(Nat.mod_lt _ hk.1) = key'[k % key'.length]'(Nat.mod_lt _ hk'.1) := by
  refine (C96_rc4_key tgt ht key key' hk hk').1 ?_
  replace e : (Rust.Rc4.create_tr tgt key >>= Rust.Rc4.run_tr tgt h : Tr _).2 = (Rust.Rc4.create_tr tgt key' >>= Rust.Rc4.run_tr tgt h' : Tr _).2 := e
  have h1 := Rust.Rc4.create_runs (tgt := tgt) ht key hk
  have h2 := Rust.Rc4.create_runs (tgt := tgt) ht key' hk'
  rw [Tr.bind_snd (congrArg Prod.fst h1), Tr.bind_snd (congrArg Prod.fst h2), h1, h2] at e
  have hl (key : List U8) (hk : 1 ≤ key.length ∧ key.length ≤ 256) : (Rust.Rc4.Rc4.new_from_slice_tr tgt key).2.length = 516 := by
    have (n : Nat) : ((List.range n).flatMap (Rust.Rc4.round key)).length = 2 * n := by
      induction n with
      | zero => rfl
      | succ n ih => rw [List.range_succ, List.flatMap_append, List.length_append, ih]; rfl
    rw [Rust.Rc4.new_seen ht key hk, List.length_append, this]
    rfl
  simp only [List.append_assoc] at e
  exact (List.append_inj e ((hl key hk).trans (hl key' hk').symm)).1

/-- **C97**, HC-256: two lives of which the same is seen, with whatever calls, have the same key and the same initialisation vector. -/
theorem C97_hc256 (tgt : Target) (ht : 16 ≤ tgt.bits) (key iv key' iv' : Vector U8 32) (h h' : List (Unit × Op))
    (e : ((PlainText.hc256 key iv).life tgt h).2 = ((PlainText.hc256 key' iv').life tgt h').2) : key = key' ∧ iv = iv' := by
  refine C96_hc256_key tgt ht key iv key' iv' ?_
  obtain ⟨n, hn⟩ := Rust.Hc256.new_count ht
  obtain ⟨s, -, -, h1⟩ := Rust.Hc256.new_ok ht key iv
  obtain ⟨s', -, -, h2⟩ := Rust.Hc256.new_ok ht key' iv'
  replace e : (Rust.Hc256.Hc256Core.new_tr tgt key.toList iv.toList >>= fun s => (Rust.Hc256.seenCore tgt).run _ (Wrapper.fromCore s) >>= fun r => pure r.1 : Tr _).2 =
    (Rust.Hc256.Hc256Core.new_tr tgt key'.toList iv'.toList >>= fun s => (Rust.Hc256.seenCore tgt).run _ (Wrapper.fromCore s) >>= fun r => pure r.1 : Tr _).2 := e
  rw [Tr.bind_snd h1, Tr.bind_snd h2] at e
  exact (List.append_inj e (((hn _ _ _ h1).1.1).trans ((hn _ _ _ h2).1.1).symm)).1

/-- Rabbit with any two keys, initialisation vectors and messages. -/
example (key key' : Vector U8 16) (iv iv' : Vector U8 8) (a b c a' b' c' : U8) : SameEvents
    ((PlainText.rabbit key iv).life ⟨.debug, 32⟩ [((), .apply [a, b, c]), ((), .write (List.replicate 70 c))])
    ((PlainText.rabbit key' iv').life ⟨.debug, 32⟩ [((), .apply [a', b', c']), ((), .write (List.replicate 70 a'))]) :=
  (C97_rabbit ⟨.debug, 32⟩ (by decide) key key' _ _ (.apply [a, b, c] [a', b', c'] rfl (.write (List.replicate 70 c) (List.replicate 70 a') (by simp only [List.length_replicate]) .nil)) (by
    simp only [List.mem_cons, List.not_mem_nil, or_false]
    rintro e (rfl | rfl)
    · exact (by decide : 3 < 2 ^ 32)
    · show (List.replicate 70 c).length < 2 ^ 32
      rw [List.length_replicate]
      decide)).1 iv iv'

/-- HC-256 with one key and any two messages. -/
example (key iv : Vector U8 32) (a b a' b' : U8) :
    SameEvents ((PlainText.hc256 key iv).life ⟨.release, 64⟩ [((), .apply [a, b])]) ((PlainText.hc256 key iv).life ⟨.release, 64⟩ [((), .apply [a', b'])]) :=
  C97_data ⟨.release, 64⟩ (by decide) (.hc256 key iv) _ _ (.apply [a, b] [a', b'] rfl .nil) (by
    simp only [List.mem_cons, List.not_mem_nil, or_false]
    rintro e rfl
    exact (by decide : 2 < 2 ^ 64))

/-- The lengths of the data can be seen: the hypothesis is needed. -/
example : let t (op : Op) := ((PlainText.rabbitKeyOnly (Sample.bytes 16 0)).life ⟨.release, 64⟩ [((), op)]).2
    t (.write [1]) ≠ t (.write (List.replicate 17 1)) := fun h => absurd (congrArg List.length h) (by decide +kernel)

/-- What the record leaves of a life of RC4 is the published keystream. -/
example : ((PlainText.rc4 [0x4b, 0x65, 0x79] (by decide)).life ⟨.debug, 64⟩ [((), .write [0, 0, 0]), ((), .apply [0, 0, 0])]).1 =
    .ok [.data (.ok ()) [0xeb, 0x9f, 0x77], .data (.ok ()) [0x81, 0xb7, 0x34]] := by
  rw [C97_erase ⟨.debug, 64⟩ (by decide), C89_plain ⟨.debug, 64⟩ (by decide)]
  decide +kernel

/-- Two keys of RC4 and different calls: something different is seen. -/
example (h h' : List (Unit × Op)) : ((PlainText.rc4 [1, 2] (by decide)).life ⟨.release, 64⟩ h).2 ≠ ((PlainText.rc4 [1, 2, 3] (by decide)).life ⟨.release, 64⟩ h').2 :=
  fun e => absurd (C97_rc4 ⟨.release, 64⟩ (by decide) [1, 2] [1, 2, 3] (by decide) (by decide) h h' e 2 (by decide)) (by decide)

/-- Two keys of HC-256 and different calls: something different is seen. -/
example (iv iv' : Vector U8 32) (h h' : List (Unit × Op)) :
    ((PlainText.hc256 (Vector.replicate 32 0) iv).life ⟨.release, 64⟩ h).2 ≠ ((PlainText.hc256 ((Vector.replicate 32 0).set 31 128) iv').life ⟨.release, 64⟩ h').2 :=
  fun e => absurd (congrArg (fun v : Vector U8 32 => v[31]) (C97_hc256 ⟨.release, 64⟩ (by decide) _ iv _ iv' h h' e).1)
    (by rw [Vector.getElem_set_self, Vector.getElem_replicate]; decide)

end Verif
