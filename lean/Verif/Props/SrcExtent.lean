import Verif.Proof.Extent
import Verif.Props.SrcFollow
/-!
# C100: how much client code has asked for is seen
-/
namespace Verif
open ChaCha.Isa (Req)

/-- The record of the second life is longer than that of the first, and both return. -/
def SeenLonger (m m' : Rust.Tr (List CoreObs)) : Prop := m.1.isOk ∧ m'.1.isOk ∧ m.2.length < m'.2.length

theorem SeenLonger.ne {m m' : Rust.Tr (List CoreObs)} (h : SeenLonger m m') : m.2 ≠ m'.2 := fun e => absurd (e ▸ h.2.2) (Nat.lt_irrefl _)

/-- Two lives, of which the second has asked for more in its last call, on two cores that are seen alike. -/
theorem SeenLonger.of {bs : Nat} {χ : Type} {C : Rust.SeenCore bs χ} (E : C.Extends) {m m' : Rust.Tr C.σ} {h h' : List (χ × ClientOp bs)} {e e' : χ × ClientOp bs}
    {qs : List Asked} {l : List Req} {q : Req} {l' : List Req} (hl : (qs ++ [Asked.run l]).length = (h ++ [e]).length)
    (h1 : ∃ os os' u, C.clientLife m (h ++ [e]) = (.ok os, u) ∧ C.clientLife m (askedIn (h ++ [e]) (qs ++ [.run l])) = (.ok os', u) ∧ Each SameAnswer os os')
    (h2 : ∃ os os' u, C.clientLife m' (h' ++ [e']) = (.ok os, u) ∧ C.clientLife m' (askedIn (h' ++ [e']) (qs ++ [.run (l ++ q :: l')])) = (.ok os', u) ∧ Each SameAnswer os os')
    (hr : ExRel (Each SameAnswer) (C.clientLife m' (askedIn (h' ++ [e']) (qs ++ [.run (l ++ q :: l')]))).1 (C.clientLife m (askedIn (h ++ [e]) (qs ++ [.run (l ++ q :: l')]))).1)
    (ht : (C.clientLife m' (askedIn (h' ++ [e']) (qs ++ [.run (l ++ q :: l')]))).1.isOk →
      (C.clientLife m' (askedIn (h' ++ [e']) (qs ++ [.run (l ++ q :: l')]))).2 = (C.clientLife m (askedIn (h ++ [e]) (qs ++ [.run (l ++ q :: l')]))).2) :
    SeenLonger (C.clientLife m (h ++ [e])) (C.clientLife m' (h' ++ [e'])) := by
  obtain ⟨_, _, u, e1, e2, -⟩ := h1
  obtain ⟨_, _, u', e3, e4, -⟩ := h2
  have hl' : (qs ++ [Asked.run (l ++ q :: l')]).length = (h ++ [e]).length := by
    simp only [List.length_append, List.length_cons, List.length_nil] at hl ⊢
    exact hl
  have k1 := ht (by rw [e4]; rfl)
  have k2 : (C.clientLife m (askedIn (h ++ [e]) (qs ++ [.run (l ++ q :: l')]))).1.isOk := by
    rw [e4] at hr
    cases hr' : (C.clientLife m (askedIn (h ++ [e]) (qs ++ [.run (l ++ q :: l')]))).1 with
    | ok => rfl
    | error p => rw [hr'] at hr; cases hr
  have k3 : (C.clientLife m (askedIn (h ++ [e]) (qs ++ [.run l]))).1.isOk := by rw [e2]; rfl
  rw [askedIn_last hl'] at k1 k2
  rw [askedIn_last hl] at k3
  have k4 := E.life m (askedIn h qs) e.1 l q l' k3 k2
  rw [← k1, e4, ← askedIn_last (h := h) (l := qs) hl, e2] at k4
  rw [e1, e3]
  exact ⟨rfl, rfl, k4⟩

/-- If one of two lists of requests begins with the other, they are told apart where it is longer. -/
theorem told {l l' : List Req} (hp : l <+: l' ∨ l' <+: l) {α : Type} {r r' : List α} (he : l = l' → r = r') (h1 : ∀ q k, l' = l ++ q :: k → r.length < r'.length)
    (h2 : ∀ q k, l = l' ++ q :: k → r'.length < r.length) : r = r' ↔ l = l' := by
  refine ⟨fun e => ?_, he⟩
  subst e
  rcases hp with ⟨k, hk⟩ | ⟨k, hk⟩ <;> cases k with
  | nil => first | simpa using hk | simpa using hk.symm
  | cons q k => first | exact absurd (h1 q k hk.symm) (Nat.lt_irrefl _) | exact absurd (h2 q k hk.symm) (Nat.lt_irrefl _)

theorem prefix_blocks (n m : Nat) : List.replicate n Req.block <+: List.replicate m Req.block ∨ List.replicate m Req.block <+: List.replicate n Req.block := by
  rcases Nat.le_total n m with h | h
  · exact .inl ⟨List.replicate (m - n) .block, by rw [List.replicate_append_replicate, Nat.add_sub_cancel' h]⟩
  · exact .inr ⟨List.replicate (n - m) .block, by rw [List.replicate_append_replicate, Nat.add_sub_cancel' h]⟩

open Rust

theorem Rust.SeekText.SameType.symm {c c' : SeekText} (h : c.SameType c') : c'.SameType c := by
  cases h <;> constructor

/-- **C100**.  More requests have a longer record: of two histories of any client code, in the same circumstances, on cores of one type with any two keys and nonces, that have asked for
the same until the last call, and in that the second has asked for all that the first has asked for and then for more, the second has the longer record. -/
theorem C100_longer (tgt : Target) (ht : 16 ≤ tgt.bits) (c c' : SeekText) (hc : c.SameType c') (h h' : List (Circumstances × ClientOp 64)) (hx : h.map (·.1) = h'.map (·.1))
    (x : Circumstances) (op op' : ClientOp 64) (qs : List Asked) (l : List Req) (q : Req) (l' : List Req)
    (ha : c.asked tgt (h ++ [(x, op)]) = .ok (qs ++ [.run l])) (ha' : c'.asked tgt (h' ++ [(x, op')]) = .ok (qs ++ [.run (l ++ q :: l')])) :
    (c.clientLife tgt (h ++ [(x, op)])).1.isOk ∧ (c'.clientLife tgt (h' ++ [(x, op')])).1.isOk ∧
      (c.clientLife tgt (h ++ [(x, op)])).2.length < (c'.clientLife tgt (h' ++ [(x, op')])).2.length := by
  have hx' : (h' ++ [(x, op')]).map (·.1) = (h ++ [(x, op)]).map (·.1) := by rw [List.map_append, List.map_append, hx]; rfl
  obtain ⟨hr, hs⟩ := C98_blind tgt ht c' c hc.symm _ _ (askedIn_same (h' ++ [(x, op')]) (h ++ [(x, op)]) hx' (qs ++ [.run (l ++ q :: l')]))
  obtain ⟨f, s, H, h1, h2⟩ := c.faithful ht
  have hl : (qs ++ [Asked.run l]).length = (h ++ [(x, op)]).length :=
    (SeekCore.asked_length ((c.asked_eq ht _ h1).symm.trans ha)).trans (List.length_map _)
  have r1 := C99_requests tgt ht c _ _ ha
  have r2 := C99_requests tgt ht c' _ _ ha'
  cases hc <;> exact SeenLonger.of (SeekText.extends tgt _) hl r1 r2 hr hs

/-- **C100**, exactly: if of what the two have asked for in their last calls one begins with the other, their records are the same if and only if they have asked for the same. -/
theorem C100_exact (tgt : Target) (ht : 16 ≤ tgt.bits) (c c' : SeekText) (hc : c.SameType c') (h h' : List (Circumstances × ClientOp 64)) (hx : h.map (·.1) = h'.map (·.1))
    (x : Circumstances) (op op' : ClientOp 64) (qs : List Asked) (l l' : List Req) (hp : l <+: l' ∨ l' <+: l)
    (ha : c.asked tgt (h ++ [(x, op)]) = .ok (qs ++ [.run l])) (ha' : c'.asked tgt (h' ++ [(x, op')]) = .ok (qs ++ [.run l'])) :
    (c.clientLife tgt (h ++ [(x, op)])).2 = (c'.clientLife tgt (h' ++ [(x, op')])).2 ↔ l = l' := by
  have hx' : (h ++ [(x, op)]).map (·.1) = (h' ++ [(x, op')]).map (·.1) := by rw [List.map_append, List.map_append, hx]; rfl
  refine told hp (fun e => ?_) (fun q k e => ?_) fun q k e => ?_
  · subst e
    obtain ⟨_, _, _, e1, e2, -⟩ := C99_blind tgt ht c c' hc _ _ hx' _ ha ha'
    rw [e1, e2]
  · subst e
    exact (C100_longer tgt ht c c' hc h h' hx x op op' qs l q k ha ha').2.2
  · subst e
    exact (C100_longer tgt ht c' c hc.symm h' h hx.symm x op' op qs l' q k ha' ha).2.2

/-- **C100**, blocks: of client code that asks for one block after the other, the number of blocks is seen, and nothing else. -/
theorem C100_blocks (tgt : Target) (ht : 16 ≤ tgt.bits) (c c' : SeekText) (hc : c.SameType c') (h h' : List (Circumstances × ClientOp 64)) (hx : h.map (·.1) = h'.map (·.1))
    (x : Circumstances) (op op' : ClientOp 64) (qs : List Asked) (n n' : Nat)
    (ha : c.asked tgt (h ++ [(x, op)]) = .ok (qs ++ [.run (List.replicate n .block)])) (ha' : c'.asked tgt (h' ++ [(x, op')]) = .ok (qs ++ [.run (List.replicate n' .block)])) :
    (c.clientLife tgt (h ++ [(x, op)])).2 = (c'.clientLife tgt (h' ++ [(x, op')])).2 ↔ n = n' := by
  refine (C100_exact tgt ht c c' hc h h' hx x op op' qs _ _ (prefix_blocks n n') ha ha').trans ⟨fun e => ?_, fun e => e ▸ rfl⟩
  simpa using congrArg List.length e

/-- **C100**, the keystream: what the published keystream tells client code that asks for one block after the other, so far as it makes it ask for more, is seen. -/
theorem C100_keystream (tgt : Target) (ht : 16 ≤ tgt.bits) (c c' : SeekText) (hc : c.SameType c') (x : Circumstances) (op op' : ClientOp 64) (n n' : Nat)
    (hp : Asking (c.cipher tgt.mode).block (c.cipher tgt.mode).blocks 0 [(x, op)] [.run (List.replicate n .block)])
    (hp' : Asking (c'.cipher tgt.mode).block (c'.cipher tgt.mode).blocks 0 [(x, op')] [.run (List.replicate n' .block)]) :
    (c.clientLife tgt [(x, op)]).2 = (c'.clientLife tgt [(x, op')]).2 ↔ n = n' :=
  C100_blocks tgt ht c c' hc [] [] rfl x op op' [] n n' (C99_keystream tgt ht c [(x, op)] _ hp).1 (C99_keystream tgt ht c' [(x, op')] _ hp').1

theorem plain_length {bs : Nat} {T : Core bs Unit} {n : Except Panic T.σ} {h : List (Unit × ClientOp bs)} {l : List Asked} (ha : n >>= T.still.asked h = .ok l) :
    l.length = h.length := by
  cases n with
  | error p => exact nomatch ha
  | ok s => exact SeekCore.asked_length (C := T.still) ha

/-- **C100**, Rabbit: the same for its two cores, with any two keys and initialisation vectors. -/
theorem C100_rabbit (tgt : Target) (ht : 16 ≤ tgt.bits) (key key' : Vector U8 16) (iv iv' : Vector U8 8) (h h' : List (Unit × ClientOp 16)) (hx : h.map (·.1) = h'.map (·.1))
    (op op' : ClientOp 16) (qs : List Asked) (l : List Req) (q : Req) (l' : List Req) :
    let a (key : Vector U8 16) h := (Rust.Rabbit.seenKeyOnly tgt).clientLife (Rust.Rabbit.RabbitKeyOnlyCore.new_tr tgt key.toList) h
    let b (key : Vector U8 16) (iv : Vector U8 8) h := (Rust.Rabbit.seenCore tgt).clientLife (do
      Rust.Rabbit.RabbitCore.inner_iv_init_tr tgt (← Rust.Rabbit.RabbitKeyOnlyCore.new_tr tgt key.toList) iv.toList) h
    let p (key : Vector U8 16) h := Rust.Rabbit.RabbitKeyOnlyCore.new tgt key.toList >>= (Rust.Rabbit.keyOnlyCore tgt).still.asked h
    let k (key : Vector U8 16) (iv : Vector U8 8) h := (Rust.Rabbit.RabbitKeyOnlyCore.new tgt key.toList >>= fun k => Rust.Rabbit.RabbitCore.inner_iv_init tgt k iv.toList) >>=
      (Rust.Rabbit.core tgt).still.asked h
    (p key (h ++ [((), op)]) = .ok (qs ++ [.run l]) → p key' (h' ++ [((), op')]) = .ok (qs ++ [.run (l ++ q :: l')]) →
      SeenLonger (a key (h ++ [((), op)])) (a key' (h' ++ [((), op')]))) ∧
    (k key iv (h ++ [((), op)]) = .ok (qs ++ [.run l]) → k key' iv' (h' ++ [((), op')]) = .ok (qs ++ [.run (l ++ q :: l')]) →
      SeenLonger (b key iv (h ++ [((), op)])) (b key' iv' (h' ++ [((), op')]))) := by
  dsimp only
  have hx' : (h' ++ [((), op')]).map (·.1) = (h ++ [((), op)]).map (·.1) := by rw [List.map_append, List.map_append, hx]; rfl
  obtain ⟨⟨r1, r2⟩, r3, r4⟩ := C98_rabbit tgt ht key' key iv' iv _ _ (askedIn_same (h' ++ [((), op')]) (h ++ [((), op)]) hx' (qs ++ [.run (l ++ q :: l')]))
  have n1 := fun key => (Rust.Rabbit.RabbitKeyOnlyCore_new_erase (tgt := tgt) _).symm.trans (Rust.Rabbit.newKeyOnly_ok ht key)
  have n2 : ∀ (key : Vector U8 16) (iv : Vector U8 8), (Rust.Rabbit.RabbitKeyOnlyCore.new tgt key.toList >>= fun k => Rust.Rabbit.RabbitCore.inner_iv_init tgt k iv.toList) = _ := fun key iv => by
    rw [n1 key, ok_bind, Rust.Rabbit.inner_iv_init_eq iv, Verif.Rabbit.setupIv_eq]
  exact ⟨fun h1 h2 => SeenLonger.of (Rust.Rabbit.extends_keyOnly tgt) (plain_length (T := Rust.Rabbit.keyOnlyCore tgt) h1)
      (plain_asked Rust.Rabbit.hom_keyOnly Rust.Rabbit.faithful_keyOnly (Rust.Rabbit.follows_keyOnly tgt) (n1 key) (Rust.Rabbit.newKeyOnly_ok ht key) _ h1)
      (plain_asked Rust.Rabbit.hom_keyOnly Rust.Rabbit.faithful_keyOnly (Rust.Rabbit.follows_keyOnly tgt) (n1 key') (Rust.Rabbit.newKeyOnly_ok ht key') _ h2) r1 r2,
    fun h1 h2 => SeenLonger.of (Rust.Rabbit.extends tgt) (plain_length (T := Rust.Rabbit.core tgt) h1)
      (plain_asked Rust.Rabbit.hom Rust.Rabbit.faithful (Rust.Rabbit.follows tgt) (n2 key iv) (Rust.Rabbit.newIv_ok ht key iv) _ h1)
      (plain_asked Rust.Rabbit.hom Rust.Rabbit.faithful (Rust.Rabbit.follows tgt) (n2 key' iv') (Rust.Rabbit.newIv_ok ht key' iv') _ h2) r3 r4⟩

/-- **C100**, HC-256: the same for one key and initialisation vector. -/
theorem C100_hc256 (tgt : Target) (ht : 16 ≤ tgt.bits) (key iv : Vector U8 32) (h h' : List (Unit × ClientOp 4)) (hx : h.map (·.1) = h'.map (·.1)) (op op' : ClientOp 4)
    (qs : List Asked) (l : List Req) (q : Req) (l' : List Req) :
    let a h := (Rust.Hc256.seenCore tgt).clientLife (Rust.Hc256.Hc256Core.new_tr tgt key.toList iv.toList) h
    let p h := Rust.Hc256.Hc256Core.new tgt key.toList iv.toList >>= (Rust.Hc256.core tgt).still.asked h
    p (h ++ [((), op)]) = .ok (qs ++ [.run l]) → p (h' ++ [((), op')]) = .ok (qs ++ [.run (l ++ q :: l')]) → SeenLonger (a (h ++ [((), op)])) (a (h' ++ [((), op')])) := by
  dsimp only
  intro h1 h2
  have hx' : (h' ++ [((), op')]).map (·.1) = (h ++ [((), op)]).map (·.1) := by rw [List.map_append, List.map_append, hx]; rfl
  obtain ⟨s, e1, -, e2⟩ := Rust.Hc256.new_ok ht key iv
  have n1 : Rust.Hc256.Hc256Core.new tgt key.toList iv.toList = .ok (Rust.Hc256.repr s) := (Rust.Hc256.new_eq ht key iv).trans (by rw [e1]; rfl)
  obtain ⟨r1, r2⟩ := C98_hc256 tgt ht key iv _ _ (askedIn_same (h' ++ [((), op')]) (h ++ [((), op)]) hx' (qs ++ [.run (l ++ q :: l')]))
  exact SeenLonger.of (Rust.Hc256.extends tgt) (plain_length (T := Rust.Hc256.core tgt) h1) (plain_asked (Rust.Hc256.hom ht) (Rust.Hc256.faithful ht) (Rust.Hc256.follows tgt) n1 e2 _ h1)
    (plain_asked (Rust.Hc256.hom ht) (Rust.Hc256.faithful ht) (Rust.Hc256.follows tgt) n1 e2 _ h2) r1 r2

theorem Sample.blocks_ref {bs : Nat} (ks : Nat → Vector U8 bs) (n par m : Nat) :
    (Prog.ofReqs (bs := bs) (List.replicate n .block)).logged.ref ks par m = .ok (((), List.replicate n .block), m + n) := by
  induction n generalizing m with
  | zero => rfl
  | succ n ih =>
    have e : ∀ {α β : Type} (p : Prog bs α) (f : α → β) (m : Nat), (p.map f).ref ks par m = (p.ref ks par m).map fun r => (f r.1, r.2) := fun p f => by
      induction p with
      | done a => exact fun _ => rfl
      | block k ih => exact fun _ => ih _ _
      | par k ih => exact fun _ => ih _ _
      | tail n k ih =>
        intro m
        simp only [Prog.map, Prog.ref]
        split
        · exact ih _ _
        · rfl
    show ((Prog.ofReqs (List.replicate n Req.block)).logged.map fun r => (r.1, Req.block :: r.2)).ref ks par (m + 1) = _
    rw [e, ih]
    simp only [Except.map, List.replicate_succ]
    rw [Nat.add_right_comm, Nat.add_assoc]

/-- ChaCha20 with any two keys and nonces, on whatever backend: the records of `n` and of `n'` blocks are the same if and only if `n = n'`. -/
example (key key' : Vector U8 32) (nonce nonce' : Vector U8 12) (x : Circumstances) (n n' : Nat) (hn : n ≤ 2 ^ 32 - 1) (hn' : n' ≤ 2 ^ 32 - 1) :
    ((SeekText.chacha Rust.ChaCha.R20 key nonce).clientLife ⟨.release, 64⟩ [(x, .run (fun _ => Prog.ofReqs (List.replicate n .block)) fun _ => [])]).2 =
      ((SeekText.chacha Rust.ChaCha.R20 key' nonce').clientLife ⟨.release, 64⟩ [(x, .run (fun _ => Prog.ofReqs (List.replicate n' .block)) fun _ => [])]).2 ↔ n = n' :=
  C100_keystream ⟨.release, 64⟩ (by decide) _ _ (.chacha Rust.ChaCha.R20 key key' nonce nonce') x _ _ n n'
    (.run x _ _ (fun par _ => ⟨(), (Sample.blocks_ref _ n par 0).trans (by rw [Nat.zero_add])⟩) hn (.nil _))
    (.run x _ _ (fun par _ => ⟨(), (Sample.blocks_ref _ n' par 0).trans (by rw [Nat.zero_add])⟩) hn' (.nil _))

/-- Client code that asks for a second block if the first byte of the first says so, on XSalsa20 with two keys: that it says so of one and not of the other is seen. -/
example (key key' : Vector U8 32) (nonce nonce' : Vector U8 24) (x : Circumstances) (again : U8 → Bool) :
    ((SeekText.xsalsa U10 key nonce).clientLife ⟨.debug, 64⟩ [(x, .run (Sample.adapt again) fun l => [l])]).2 =
      ((SeekText.xsalsa U10 key' nonce').clientLife ⟨.debug, 64⟩ [(x, .run (Sample.adapt again) fun l => [l])]).2 ↔
    again ((Spec.Salsa.xBlock 10 key nonce 0).toList.headD 0) = again ((Spec.Salsa.xBlock 10 key' nonce' 0).toList.headD 0) := by
  have e : ∀ b : Bool, (if b then [Req.block, .block] else [.block]) = List.replicate (if b then 2 else 1) Req.block := fun b => by cases b <;> rfl
  have k := fun (key : Vector U8 32) (nonce : Vector U8 24) => (C99_keystream ⟨.debug, 64⟩ (by decide) (.xsalsa U10 key nonce) _ _
    (.run x (Sample.adapt again) (fun l => [l]) (Sample.adapt_ref _ again 0) (by split <;> exact show _ ≤ 2 ^ 64 - 1 by decide) (.nil _))).1
  simp only [e] at k
  refine (C100_blocks ⟨.debug, 64⟩ (by decide) _ _ (.xsalsa U10 key key' nonce nonce') [] [] rfl x (.run (Sample.adapt again) fun l => [l]) (.run (Sample.adapt again) fun l => [l]) [] _ _
    (k key nonce) (k key' nonce')).trans ?_
  show (if again ((Spec.Salsa.xBlock 10 key nonce 0).toList.headD 0) then 2 else 1) = (if again ((Spec.Salsa.xBlock 10 key' nonce' 0).toList.headD 0) then 2 else 1) ↔ _
  cases again ((Spec.Salsa.xBlock 10 key nonce 0).toList.headD 0) <;> cases again ((Spec.Salsa.xBlock 10 key' nonce' 0).toList.headD 0) <;> decide

/-- After a seek, a tail of two blocks after a group: it is seen that there was one. -/
example (key key' : Vector U8 32) (nonce nonce' : Vector U8 24) (x y : Circumstances) (b : Nat) (op op' : ClientOp 64)
    (h : (SeekText.xchacha Rust.ChaCha.R12 key nonce).asked ⟨.debug, 32⟩ ([(x, .setPos b)] ++ [(y, op)]) = .ok ([.setPos b] ++ [.run [.par]]))
    (h' : (SeekText.xchacha Rust.ChaCha.R12 key' nonce').asked ⟨.debug, 32⟩ ([(x, .setPos b)] ++ [(y, op')]) = .ok ([.setPos b] ++ [.run [.par, .tail 2]])) :
    ((SeekText.xchacha Rust.ChaCha.R12 key nonce).clientLife ⟨.debug, 32⟩ ([(x, .setPos b)] ++ [(y, op)])).2.length <
      ((SeekText.xchacha Rust.ChaCha.R12 key' nonce').clientLife ⟨.debug, 32⟩ ([(x, .setPos b)] ++ [(y, op')])).2.length :=
  (C100_longer ⟨.debug, 32⟩ (by decide) _ _ (.xchacha Rust.ChaCha.R12 key key' nonce nonce') [(x, .setPos b)] [(x, .setPos b)] rfl y op op' [.setPos b] [.par] (.tail 2) [] h h').2.2

/-- Even a tail of no blocks is seen. -/
example (key key' : Vector U8 32) (nonce nonce' : Vector U8 8) (x : Circumstances) (op op' : ClientOp 64)
    (h : (SeekText.salsa U10 key nonce).asked ⟨.release, 64⟩ ([] ++ [(x, op)]) = .ok ([] ++ [.run [.block]]))
    (h' : (SeekText.salsa U10 key' nonce').asked ⟨.release, 64⟩ ([] ++ [(x, op')]) = .ok ([] ++ [.run [.block, .tail 0]])) :
    ((SeekText.salsa U10 key nonce).clientLife ⟨.release, 64⟩ ([] ++ [(x, op)])).2 ≠ ((SeekText.salsa U10 key' nonce').clientLife ⟨.release, 64⟩ ([] ++ [(x, op')])).2 :=
  fun e => nomatch (C100_exact ⟨.release, 64⟩ (by decide) _ _ (.salsa U10 key key' nonce nonce') [] [] rfl x op op' [] [.block] [.block, .tail 0] (.inl ⟨[.tail 0], rfl⟩) h h').1 e

/-- Rabbit and HC-256: whether a piece of client code has asked for a second block. -/
example (key key' : Vector U8 16) (iv iv' : Vector U8 8) (op op' : ClientOp 16)
    (h : Rust.Rabbit.RabbitKeyOnlyCore.new ⟨.debug, 32⟩ key.toList >>= (Rust.Rabbit.keyOnlyCore ⟨.debug, 32⟩).still.asked ([] ++ [((), op)]) = .ok ([] ++ [.run [.block]]))
    (h' : Rust.Rabbit.RabbitKeyOnlyCore.new ⟨.debug, 32⟩ key'.toList >>= (Rust.Rabbit.keyOnlyCore ⟨.debug, 32⟩).still.asked ([] ++ [((), op')]) = .ok ([] ++ [.run [.block, .block]])) :
    ((Rust.Rabbit.seenKeyOnly ⟨.debug, 32⟩).clientLife (Rust.Rabbit.RabbitKeyOnlyCore.new_tr ⟨.debug, 32⟩ key.toList) ([] ++ [((), op)])).2 ≠
      ((Rust.Rabbit.seenKeyOnly ⟨.debug, 32⟩).clientLife (Rust.Rabbit.RabbitKeyOnlyCore.new_tr ⟨.debug, 32⟩ key'.toList) ([] ++ [((), op')])).2 :=
  ((C100_rabbit ⟨.debug, 32⟩ (by decide) key key' iv iv' [] [] rfl op op' [] [.block] .block []).1 h h').ne

example (key iv : Vector U8 32) (op op' : ClientOp 4)
    (h : Rust.Hc256.Hc256Core.new ⟨.debug, 32⟩ key.toList iv.toList >>= (Rust.Hc256.core ⟨.debug, 32⟩).still.asked ([] ++ [((), op)]) = .ok ([] ++ [.run [.block]]))
    (h' : Rust.Hc256.Hc256Core.new ⟨.debug, 32⟩ key.toList iv.toList >>= (Rust.Hc256.core ⟨.debug, 32⟩).still.asked ([] ++ [((), op')]) = .ok ([] ++ [.run [.block, .block]])) :
    ((Rust.Hc256.seenCore ⟨.debug, 32⟩).clientLife (Rust.Hc256.Hc256Core.new_tr ⟨.debug, 32⟩ key.toList iv.toList) ([] ++ [((), op)])).2 ≠
      ((Rust.Hc256.seenCore ⟨.debug, 32⟩).clientLife (Rust.Hc256.Hc256Core.new_tr ⟨.debug, 32⟩ key.toList iv.toList) ([] ++ [((), op')])).2 :=
  (C100_hc256 ⟨.debug, 32⟩ (by decide) key iv [] [] rfl op op' [] [.block] .block [] h h').ne

end Verif
