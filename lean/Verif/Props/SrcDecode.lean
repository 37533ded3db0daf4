import Verif.Proof.Decode
import Verif.Props.SrcExtent
import Verif.Props.SrcTracePlain
/-!
# C101: the requests of client code are seen
-/
namespace Verif
open ChaCha.Isa (Req)

/-- Two lives on two cores that are seen alike, with the same record: their last calls have asked for the same. -/
theorem sameAsked {bs : Nat} {χ : Type} {C : Rust.SeenCore bs χ} {x : χ} (E : C.Telling x) {m m' : Rust.Tr C.σ} {h h' : List (χ × ClientOp bs)} {op op' : ClientOp bs}
    {qs : List Asked} {l l' : List Req} (hl : (qs ++ [Asked.run l]).length = (h ++ [(x, op)]).length)
    (h1 : ∃ os os' u, C.clientLife m (h ++ [(x, op)]) = (.ok os, u) ∧ C.clientLife m (askedIn (h ++ [(x, op)]) (qs ++ [.run l])) = (.ok os', u) ∧ Each SameAnswer os os')
    (h2 : ∃ os os' u, C.clientLife m' (h' ++ [(x, op')]) = (.ok os, u) ∧ C.clientLife m' (askedIn (h' ++ [(x, op')]) (qs ++ [.run l'])) = (.ok os', u) ∧ Each SameAnswer os os')
    (hr : ExRel (Each SameAnswer) (C.clientLife m' (askedIn (h' ++ [(x, op')]) (qs ++ [.run l']))).1 (C.clientLife m (askedIn (h ++ [(x, op)]) (qs ++ [.run l']))).1)
    (ht : (C.clientLife m' (askedIn (h' ++ [(x, op')]) (qs ++ [.run l']))).1.isOk →
      (C.clientLife m' (askedIn (h' ++ [(x, op')]) (qs ++ [.run l']))).2 = (C.clientLife m (askedIn (h ++ [(x, op)]) (qs ++ [.run l']))).2)
    (he : (C.clientLife m (h ++ [(x, op)])).2 = (C.clientLife m' (h' ++ [(x, op')])).2) : l = l' := by
  obtain ⟨_, _, u, e1, e2, -⟩ := h1
  obtain ⟨_, _, u', e3, e4, -⟩ := h2
  have hl' : (qs ++ [Asked.run l']).length = (h ++ [(x, op)]).length := by
    simp only [List.length_append, List.length_cons, List.length_nil] at hl ⊢
    exact hl
  have k1 := ht (by rw [e4]; rfl)
  have k2 : (C.clientLife m (askedIn (h ++ [(x, op)]) (qs ++ [.run l']))).1.isOk := by
    rw [e4] at hr
    cases hr' : (C.clientLife m (askedIn (h ++ [(x, op)]) (qs ++ [.run l']))).1 with
    | ok => rfl
    | error p => rw [hr'] at hr; cases hr
  have k3 : (C.clientLife m (askedIn (h ++ [(x, op)]) (qs ++ [.run l]))).1.isOk := by rw [e2]; rfl
  have k4 : (C.clientLife m (askedIn (h ++ [(x, op)]) (qs ++ [.run l]))).2 = (C.clientLife m (askedIn (h ++ [(x, op)]) (qs ++ [.run l']))).2 := by
    rw [← k1, e2, e4]
    rw [e1, e3] at he
    exact he
  rw [askedIn_last hl'] at k2 k4
  rw [askedIn_last hl] at k3 k4
  exact E.life m (askedIn h qs) l l' k3 k2 k4

open Rust

/-- **C101**.  On every core, and on whatever backend: of two histories of any client code, in the same circumstances, on cores of one type with any two keys
and nonces, that have asked for the same until the last call, the records are the same if and only if the last calls have made the same requests. -/
theorem C101_requests (tgt : Target) (ht : 16 ≤ tgt.bits) (c c' : SeekText) (hc : c.SameType c') (h h' : List (Circumstances × ClientOp 64))
    (hx : h.map (·.1) = h'.map (·.1)) (x : Circumstances) (op op' : ClientOp 64) (qs : List Asked) (l l' : List Req)
    (ha : c.asked tgt (h ++ [(x, op)]) = .ok (qs ++ [.run l])) (ha' : c'.asked tgt (h' ++ [(x, op')]) = .ok (qs ++ [.run l'])) :
    (c.clientLife tgt (h ++ [(x, op)])).2 = (c'.clientLife tgt (h' ++ [(x, op')])).2 ↔ l = l' := by
  have hx' : (h' ++ [(x, op')]).map (·.1) = (h ++ [(x, op)]).map (·.1) := by rw [List.map_append, List.map_append, hx]; rfl
  refine ⟨fun he => ?_, fun e => ?_⟩
  · obtain ⟨hr, hs⟩ := C98_blind tgt ht c' c hc.symm _ _ (askedIn_same (h' ++ [(x, op')]) (h ++ [(x, op)]) hx' (qs ++ [.run l']))
    obtain ⟨f, s, H, h1, h2⟩ := c.faithful ht
    have hl : (qs ++ [Asked.run l]).length = (h ++ [(x, op)]).length :=
      (SeekCore.asked_length ((c.asked_eq ht _ h1).symm.trans ha)).trans (List.length_map _)
    have r1 := C99_requests tgt ht c _ _ ha
    have r2 := C99_requests tgt ht c' _ _ ha'
    have E := c.telling tgt ht x
    cases hc <;> exact sameAsked E hl r1 r2 hr hs he
  · subst e
    obtain ⟨_, _, _, e1, e2, -⟩ := C99_blind tgt ht c c' hc _ _ hx'.symm _ ha ha'
    exact (congrArg Prod.snd e1).trans (congrArg Prod.snd e2).symm

/-- **C101**, the keystream: what the published keystream makes client code ask for is seen. -/
theorem C101_keystream (tgt : Target) (ht : 16 ≤ tgt.bits) (c c' : SeekText) (hc : c.SameType c') (x : Circumstances) (op op' : ClientOp 64)
    (l l' : List Req) (ha : Asking (c.cipher tgt.mode).block (c.cipher tgt.mode).blocks 0 [(x, op)] [.run l])
    (ha' : Asking (c'.cipher tgt.mode).block (c'.cipher tgt.mode).blocks 0 [(x, op')] [.run l']) :
    (c.clientLife tgt [(x, op)]).2 = (c'.clientLife tgt [(x, op')]).2 ↔ l = l' :=
  C101_requests tgt ht c c' hc [] [] rfl x op op' [] l l' (C99_keystream tgt ht c [(x, op)] _ ha).1 (C99_keystream tgt ht c' [(x, op')] _ ha').1

/-- **C101**, Rabbit: the same for its two cores, with any two keys and initialisation vectors. -/
theorem C101_rabbit (tgt : Target) (ht : 16 ≤ tgt.bits) (key key' : Vector U8 16) (iv iv' : Vector U8 8) (h h' : List (Unit × ClientOp 16)) (hx : h.map (·.1) = h'.map (·.1))
    (op op' : ClientOp 16) (qs : List Asked) (l l' : List Req) :
    let a (key : Vector U8 16) h := (Rust.Rabbit.seenKeyOnly tgt).clientLife (Rust.Rabbit.RabbitKeyOnlyCore.new_tr tgt key.toList) h
    let b (key : Vector U8 16) (iv : Vector U8 8) h := (Rust.Rabbit.seenCore tgt).clientLife (do
      Rust.Rabbit.RabbitCore.inner_iv_init_tr tgt (← Rust.Rabbit.RabbitKeyOnlyCore.new_tr tgt key.toList) iv.toList) h
    let p (key : Vector U8 16) h := Rust.Rabbit.RabbitKeyOnlyCore.new tgt key.toList >>= (Rust.Rabbit.keyOnlyCore tgt).still.asked h
    let k (key : Vector U8 16) (iv : Vector U8 8) h := (Rust.Rabbit.RabbitKeyOnlyCore.new tgt key.toList >>= fun k => Rust.Rabbit.RabbitCore.inner_iv_init tgt k iv.toList) >>=
      (Rust.Rabbit.core tgt).still.asked h
    (p key (h ++ [((), op)]) = .ok (qs ++ [.run l]) → p key' (h' ++ [((), op')]) = .ok (qs ++ [.run l']) →
      ((a key (h ++ [((), op)])).2 = (a key' (h' ++ [((), op')])).2 ↔ l = l')) ∧
    (k key iv (h ++ [((), op)]) = .ok (qs ++ [.run l]) → k key' iv' (h' ++ [((), op')]) = .ok (qs ++ [.run l']) →
      ((b key iv (h ++ [((), op)])).2 = (b key' iv' (h' ++ [((), op')])).2 ↔ l = l')) := by
  dsimp only
  have hx' : (h' ++ [((), op')]).map (·.1) = (h ++ [((), op)]).map (·.1) := by rw [List.map_append, List.map_append, hx]; rfl
  obtain ⟨⟨r1, r2⟩, r3, r4⟩ := C98_rabbit tgt ht key' key iv' iv _ _ (askedIn_same (h' ++ [((), op')]) (h ++ [((), op)]) hx' (qs ++ [.run l']))
  have n1 := fun key => (Rust.Rabbit.RabbitKeyOnlyCore_new_erase (tgt := tgt) _).symm.trans (Rust.Rabbit.newKeyOnly_ok ht key)
  have n2 : ∀ (key : Vector U8 16) (iv : Vector U8 8), (Rust.Rabbit.RabbitKeyOnlyCore.new tgt key.toList >>= fun k => Rust.Rabbit.RabbitCore.inner_iv_init tgt k iv.toList) = _ := fun key iv => by
    rw [n1 key, ok_bind, Rust.Rabbit.inner_iv_init_eq iv, Verif.Rabbit.setupIv_eq]
  refine ⟨fun h1 h2 => ⟨sameAsked (Rust.Rabbit.telling_keyOnly tgt) (plain_length (T := Rust.Rabbit.keyOnlyCore tgt) h1)
      (plain_asked Rust.Rabbit.hom_keyOnly Rust.Rabbit.faithful_keyOnly (Rust.Rabbit.follows_keyOnly tgt) (n1 key) (Rust.Rabbit.newKeyOnly_ok ht key) _ h1)
      (plain_asked Rust.Rabbit.hom_keyOnly Rust.Rabbit.faithful_keyOnly (Rust.Rabbit.follows_keyOnly tgt) (n1 key') (Rust.Rabbit.newKeyOnly_ok ht key') _ h2) r1 r2, fun e => ?_⟩,
    fun h1 h2 => ⟨sameAsked (Rust.Rabbit.telling tgt) (plain_length (T := Rust.Rabbit.core tgt) h1)
      (plain_asked Rust.Rabbit.hom Rust.Rabbit.faithful (Rust.Rabbit.follows tgt) (n2 key iv) (Rust.Rabbit.newIv_ok ht key iv) _ h1)
      (plain_asked Rust.Rabbit.hom Rust.Rabbit.faithful (Rust.Rabbit.follows tgt) (n2 key' iv') (Rust.Rabbit.newIv_ok ht key' iv') _ h2) r3 r4, fun e => ?_⟩⟩
  · subst e
    obtain ⟨_, _, _, e1, e2, -⟩ := (C99_rabbit tgt ht key key' iv iv' _ _ hx'.symm _).1 h1 h2
    exact (congrArg Prod.snd e1).trans (congrArg Prod.snd e2).symm
  · subst e
    obtain ⟨_, _, _, e1, e2, -⟩ := (C99_rabbit tgt ht key key' iv iv' _ _ hx'.symm _).2 h1 h2
    exact (congrArg Prod.snd e1).trans (congrArg Prod.snd e2).symm

/-- **C101**, HC-256: the same for one key and initialisation vector. -/
theorem C101_hc256 (tgt : Target) (ht : 16 ≤ tgt.bits) (key iv : Vector U8 32) (h h' : List (Unit × ClientOp 4)) (hx : h.map (·.1) = h'.map (·.1)) (op op' : ClientOp 4)
    (qs : List Asked) (l l' : List Req) :
    let a h := (Rust.Hc256.seenCore tgt).clientLife (Rust.Hc256.Hc256Core.new_tr tgt key.toList iv.toList) h
    let p h := Rust.Hc256.Hc256Core.new tgt key.toList iv.toList >>= (Rust.Hc256.core tgt).still.asked h
    p (h ++ [((), op)]) = .ok (qs ++ [.run l]) → p (h' ++ [((), op')]) = .ok (qs ++ [.run l']) → ((a (h ++ [((), op)])).2 = (a (h' ++ [((), op')])).2 ↔ l = l') := by
  dsimp only
  intro h1 h2
  have hx' : (h' ++ [((), op')]).map (·.1) = (h ++ [((), op)]).map (·.1) := by rw [List.map_append, List.map_append, hx]; rfl
  obtain ⟨s, e1, -, e2⟩ := Rust.Hc256.new_ok ht key iv
  have n1 : Rust.Hc256.Hc256Core.new tgt key.toList iv.toList = .ok (Rust.Hc256.repr s) := (Rust.Hc256.new_eq ht key iv).trans (by rw [e1]; rfl)
  obtain ⟨r1, r2⟩ := C98_hc256 tgt ht key iv _ _ (askedIn_same (h' ++ [((), op')]) (h ++ [((), op)]) hx' (qs ++ [.run l']))
  refine ⟨sameAsked (Rust.Hc256.telling tgt) (plain_length (T := Rust.Hc256.core tgt) h1) (plain_asked (Rust.Hc256.hom ht) (Rust.Hc256.faithful ht) (Rust.Hc256.follows tgt) n1 e2 _ h1)
    (plain_asked (Rust.Hc256.hom ht) (Rust.Hc256.faithful ht) (Rust.Hc256.follows tgt) n1 e2 _ h2) r1 r2, fun e => ?_⟩
  subst e
  obtain ⟨_, _, _, e3, e4, -⟩ := C99_hc256 tgt ht key iv _ _ hx'.symm _ h1 h2
  exact (congrArg Prod.snd e3).trans (congrArg Prod.snd e4).symm

/-- **C101**, HC-256, the key: two lives of any client code of which the same is seen, with whatever calls, have the same key and the same initialisation vector. -/
theorem C101_hc256_key (tgt : Target) (ht : 16 ≤ tgt.bits) (key iv key' iv' : Vector U8 32) (h h' : List (Unit × ClientOp 4))
    (e : ((Rust.Hc256.seenCore tgt).clientLife (Rust.Hc256.Hc256Core.new_tr tgt key.toList iv.toList) h).2 =
      ((Rust.Hc256.seenCore tgt).clientLife (Rust.Hc256.Hc256Core.new_tr tgt key'.toList iv'.toList) h').2) : key = key' ∧ iv = iv' := by
  refine C96_hc256_key tgt ht key iv key' iv' ?_
  obtain ⟨n, hn⟩ := Rust.Hc256.new_count ht
  obtain ⟨s, -, -, h1⟩ := Rust.Hc256.new_ok ht key iv
  obtain ⟨s', -, -, h2⟩ := Rust.Hc256.new_ok ht key' iv'
  replace e : (Rust.Hc256.Hc256Core.new_tr tgt key.toList iv.toList >>= fun s => (Rust.Hc256.seenCore tgt).clients h s >>= fun r => pure r.1 : Tr _).2 =
    (Rust.Hc256.Hc256Core.new_tr tgt key'.toList iv'.toList >>= fun s => (Rust.Hc256.seenCore tgt).clients h' s >>= fun r => pure r.1 : Tr _).2 := e
  rw [Tr.bind_snd h1, Tr.bind_snd h2] at e
  exact (List.append_inj e (((hn _ _ _ h1).1.1).trans ((hn _ _ _ h2).1.1).symm)).1

/-- **C101**, HC-256, any two keys: the records are the same if and only if the keys, the initialisation vectors and the requests of the last calls are. -/
theorem C101_hc256_keys (tgt : Target) (ht : 16 ≤ tgt.bits) (key iv key' iv' : Vector U8 32) (h h' : List (Unit × ClientOp 4)) (hx : h.map (·.1) = h'.map (·.1)) (op op' : ClientOp 4)
    (qs : List Asked) (l l' : List Req) :
    let a (key iv : Vector U8 32) h := (Rust.Hc256.seenCore tgt).clientLife (Rust.Hc256.Hc256Core.new_tr tgt key.toList iv.toList) h
    let p (key iv : Vector U8 32) h := Rust.Hc256.Hc256Core.new tgt key.toList iv.toList >>= (Rust.Hc256.core tgt).still.asked h
    p key iv (h ++ [((), op)]) = .ok (qs ++ [.run l]) → p key' iv' (h' ++ [((), op')]) = .ok (qs ++ [.run l']) →
      ((a key iv (h ++ [((), op)])).2 = (a key' iv' (h' ++ [((), op')])).2 ↔ key = key' ∧ iv = iv' ∧ l = l') := by
  dsimp only
  intro h1 h2
  refine ⟨fun e => ?_, fun e => ?_⟩
  · obtain ⟨rfl, rfl⟩ := C101_hc256_key tgt ht key iv key' iv' _ _ e
    exact ⟨rfl, rfl, (C101_hc256 tgt ht key iv h h' hx op op' qs l l' h1 h2).1 e⟩
  · obtain ⟨rfl, rfl, e⟩ := e
    exact (C101_hc256 tgt ht key iv h h' hx op op' qs l l' h1 h2).2 e

/-- Keys that differ in one bit are told apart by any client code, also by one that asks for nothing. -/
example (iv iv' : Vector U8 32) (h h' : List (Unit × ClientOp 4)) :
    ((Rust.Hc256.seenCore ⟨.release, 64⟩).clientLife (Rust.Hc256.Hc256Core.new_tr ⟨.release, 64⟩ (Vector.replicate 32 0).toList iv.toList) h).2 ≠
      ((Rust.Hc256.seenCore ⟨.release, 64⟩).clientLife (Rust.Hc256.Hc256Core.new_tr ⟨.release, 64⟩ ((Vector.replicate 32 0).set 31 128).toList iv'.toList) h').2 :=
  fun e => absurd (congrArg (fun v : Vector U8 32 => v[31]) (C101_hc256_key ⟨.release, 64⟩ (by decide) _ iv _ iv' h h' e).1)
    (by rw [Vector.getElem_set_self, Vector.getElem_replicate]; decide)

/-- Salsa with any number of double rounds, also none, whatever the circumstances: a block and then a group is told from a group and then a block, though both have one block. -/
example (R : Type) [Unsigned R] (key key' : Vector U8 32) (nonce nonce' : Vector U8 8) (x : Circumstances) (op op' : ClientOp 64)
    (h : (SeekText.salsa R key nonce).asked ⟨.release, 64⟩ ([] ++ [(x, op)]) = .ok ([] ++ [.run [.block, .par]]))
    (h' : (SeekText.salsa R key' nonce').asked ⟨.release, 64⟩ ([] ++ [(x, op')]) = .ok ([] ++ [.run [.par, .block]])) :
    ((SeekText.salsa R key nonce).clientLife ⟨.release, 64⟩ ([] ++ [(x, op)])).2 ≠ ((SeekText.salsa R key' nonce').clientLife ⟨.release, 64⟩ ([] ++ [(x, op')])).2 :=
  fun e => nomatch (C101_requests ⟨.release, 64⟩ (by decide) _ _ (.salsa R key key' nonce nonce') [] [] rfl x op op' []
    [.block, .par] [.par, .block] h h').1 e

/-- ChaCha20 on whatever backend: it is seen whether a block was asked for as such or as a group, also where a group has one block. -/
example (key key' : Vector U8 32) (nonce nonce' : Vector U8 12) (x : Circumstances) (op op' : ClientOp 64)
    (h : (SeekText.chacha Rust.ChaCha.R20 key nonce).asked ⟨.debug, 32⟩ ([] ++ [(x, op)]) = .ok ([] ++ [.run [.block]]))
    (h' : (SeekText.chacha Rust.ChaCha.R20 key' nonce').asked ⟨.debug, 32⟩ ([] ++ [(x, op')]) = .ok ([] ++ [.run [.par]])) :
    ((SeekText.chacha Rust.ChaCha.R20 key nonce).clientLife ⟨.debug, 32⟩ ([] ++ [(x, op)])).2 ≠
      ((SeekText.chacha Rust.ChaCha.R20 key' nonce').clientLife ⟨.debug, 32⟩ ([] ++ [(x, op')])).2 :=
  fun e => nomatch (C101_requests ⟨.debug, 32⟩ (by decide) _ _ (.chacha Rust.ChaCha.R20 key key' nonce nonce') [] [] rfl x
    op op' [] [.block] [.par] h h').1 e

/-- ChaCha8: it is seen whether four blocks were asked for one after the other or as a group, also on SSE2 and AVX2, where the same rounds compute a block and a group. -/
example (key key' : Vector U8 32) (nonce nonce' : Vector U8 12) (x : Circumstances) (op op' : ClientOp 64)
    (h : (SeekText.chacha Rust.ChaCha.R8 key nonce).asked ⟨.debug, 32⟩ ([] ++ [(x, op)]) = .ok ([] ++ [.run [.block, .block, .block, .block]]))
    (h' : (SeekText.chacha Rust.ChaCha.R8 key' nonce').asked ⟨.debug, 32⟩ ([] ++ [(x, op')]) = .ok ([] ++ [.run [.par]])) :
    ((SeekText.chacha Rust.ChaCha.R8 key nonce).clientLife ⟨.debug, 32⟩ ([] ++ [(x, op)])).2 ≠
      ((SeekText.chacha Rust.ChaCha.R8 key' nonce').clientLife ⟨.debug, 32⟩ ([] ++ [(x, op')])).2 :=
  fun e => nomatch (C101_requests ⟨.debug, 32⟩ (by decide) _ _ (.chacha Rust.ChaCha.R8 key key' nonce nonce') [] [] rfl x
    op op' [] [.block, .block, .block, .block] [.par] h h').1 e

/-- XChaCha12: a tail of thirteen blocks is told from one of fourteen, also on AVX-512, where both run through the same code for sixteen. -/
example (key key' : Vector U8 32) (nonce nonce' : Vector U8 24) (x y : Circumstances) (b : Nat) (op op' : ClientOp 64)
    (h : (SeekText.xchacha Rust.ChaCha.R12 key nonce).asked ⟨.debug, 64⟩ ([(y, .setPos b)] ++ [(x, op)]) = .ok ([.setPos b] ++ [.run [.tail 13]]))
    (h' : (SeekText.xchacha Rust.ChaCha.R12 key' nonce').asked ⟨.debug, 64⟩ ([(y, .setPos b)] ++ [(x, op')]) = .ok ([.setPos b] ++ [.run [.tail 14]])) :
    ((SeekText.xchacha Rust.ChaCha.R12 key nonce).clientLife ⟨.debug, 64⟩ ([(y, .setPos b)] ++ [(x, op)])).2 ≠
      ((SeekText.xchacha Rust.ChaCha.R12 key' nonce').clientLife ⟨.debug, 64⟩ ([(y, .setPos b)] ++ [(x, op')])).2 :=
  fun e => by
  have e := (C101_requests ⟨.debug, 64⟩ (by decide) _ _ (.xchacha Rust.ChaCha.R12 key key' nonce nonce')
    [(y, .setPos b)] [(y, .setPos b)] rfl x op op' [.setPos b] [.tail 13] [.tail 14] h h').1 e
  cases e

/-- XSalsa20: client code that asks for a second block if the first byte of the first says so, from the published keystream. -/
example (key key' : Vector U8 32) (nonce nonce' : Vector U8 24) (x : Circumstances) (again : U8 → Bool) :
    ((SeekText.xsalsa U10 key nonce).clientLife ⟨.debug, 64⟩ [(x, .run (Sample.adapt again) fun l => [l])]).2 =
      ((SeekText.xsalsa U10 key' nonce').clientLife ⟨.debug, 64⟩ [(x, .run (Sample.adapt again) fun l => [l])]).2 ↔
    (if again ((Spec.Salsa.xBlock 10 key nonce 0).toList.headD 0) then [Req.block, .block] else [.block]) =
      (if again ((Spec.Salsa.xBlock 10 key' nonce' 0).toList.headD 0) then [Req.block, .block] else [.block]) :=
  C101_keystream ⟨.debug, 64⟩ (by decide) _ _ (.xsalsa U10 key key' nonce nonce') x _ _ _ _
    (.run x (Sample.adapt again) (fun l => [l]) (Sample.adapt_ref _ again 0) (by split <;> exact show _ ≤ 2 ^ 64 - 1 by decide) (.nil _))
    (.run x (Sample.adapt again) (fun l => [l]) (Sample.adapt_ref _ again 0) (by split <;> exact show _ ≤ 2 ^ 64 - 1 by decide) (.nil _))

/-- Rabbit and HC-256: a block as such or as a group of one. -/
example (key key' : Vector U8 16) (iv iv' : Vector U8 8) (op op' : ClientOp 16)
    (h : Rust.Rabbit.RabbitKeyOnlyCore.new ⟨.debug, 32⟩ key.toList >>= (Rust.Rabbit.keyOnlyCore ⟨.debug, 32⟩).still.asked ([] ++ [((), op)]) = .ok ([] ++ [.run [.block]]))
    (h' : Rust.Rabbit.RabbitKeyOnlyCore.new ⟨.debug, 32⟩ key'.toList >>= (Rust.Rabbit.keyOnlyCore ⟨.debug, 32⟩).still.asked ([] ++ [((), op')]) = .ok ([] ++ [.run [.par]])) :
    ((Rust.Rabbit.seenKeyOnly ⟨.debug, 32⟩).clientLife (Rust.Rabbit.RabbitKeyOnlyCore.new_tr ⟨.debug, 32⟩ key.toList) ([] ++ [((), op)])).2 ≠
      ((Rust.Rabbit.seenKeyOnly ⟨.debug, 32⟩).clientLife (Rust.Rabbit.RabbitKeyOnlyCore.new_tr ⟨.debug, 32⟩ key'.toList) ([] ++ [((), op')])).2 :=
  fun e => nomatch ((C101_rabbit ⟨.debug, 32⟩ (by decide) key key' iv iv' [] [] rfl op op' [] [.block] [.par]).1 h h').1 e

example (key iv : Vector U8 32) (op op' : ClientOp 4)
    (h : Rust.Hc256.Hc256Core.new ⟨.debug, 32⟩ key.toList iv.toList >>= (Rust.Hc256.core ⟨.debug, 32⟩).still.asked ([] ++ [((), op)]) = .ok ([] ++ [.run [.block]]))
    (h' : Rust.Hc256.Hc256Core.new ⟨.debug, 32⟩ key.toList iv.toList >>= (Rust.Hc256.core ⟨.debug, 32⟩).still.asked ([] ++ [((), op')]) = .ok ([] ++ [.run [.par]])) :
    ((Rust.Hc256.seenCore ⟨.debug, 32⟩).clientLife (Rust.Hc256.Hc256Core.new_tr ⟨.debug, 32⟩ key.toList iv.toList) ([] ++ [((), op)])).2 ≠
      ((Rust.Hc256.seenCore ⟨.debug, 32⟩).clientLife (Rust.Hc256.Hc256Core.new_tr ⟨.debug, 32⟩ key.toList iv.toList) ([] ++ [((), op')])).2 :=
  fun e => nomatch (C101_hc256 ⟨.debug, 32⟩ (by decide) key iv [] [] rfl op op' [] [.block] [.par] h h').1 e

end Verif
