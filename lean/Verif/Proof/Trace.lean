import Verif.Model.Trace
import Verif.Proof.Word
import Verif.Proof.ChaChaCore
import Verif.Proof.SalsaCore
/-!
# The access-recording programs compute what the models compute, with a fixed list of accesses
-/
namespace Verif.Trace

/-! ## The language -/

namespace T

theorem result_pure {σ α : Type} (a : α) (s : σ) : (Pure.pure a : T σ α).result s = .ok (a, s) := rfl

theorem result_bind {σ α β : Type} (m : T σ α) (f : α → T σ β) (s : σ) :
    (m >>= f).result s = (m.result s >>= fun p => (f p.1).result p.2) := by
  show (T.bind m f s).2 = _
  unfold T.bind T.result
  rcases (m s).2 with e | ⟨a, s'⟩ <;> rfl

theorem result_lift {σ α : Type} (e : Except Panic α) (s : σ) : (T.lift e : T σ α).result s = e.map (·, s) := rfl

theorem trace_bind {σ α β : Type} (m : T σ α) (f : α → T σ β) (s : σ) (a : α) (s' : σ) (h : m.result s = .ok (a, s')) :
    (m >>= f).trace s = m.trace s ++ (f a).trace s' := by
  show (T.bind m f s).1 = _
  unfold T.bind T.trace
  unfold T.result at h
  rw [h]

end T

theorem result_rd {σ β : Type} {n : Nat} (L : Place σ β n) (i : Fin n) (s : σ) : (rd L i).result s = .ok ((L.get s)[i], s) := rfl

theorem result_wr {σ β : Type} {n : Nat} (L : Place σ β n) (i : Fin n) (x : β) (s : σ) :
    (wr L i x).result s = .ok ((), L.set s ((L.get s).set i x)) := rfl

theorem ok_bind {α β : Type} (a : α) (f : α → Except Panic β) : ((.ok a : Except Panic α) >>= f) = f a := rfl

/-! ## Obliviousness -/

/-- Every run that does not panic makes the accesses `l`. -/
def Obl {σ α : Type} (m : T σ α) (l : List Acc) : Prop := ∀ s r, m.result s = .ok r → m.trace s = l

namespace Obl

theorem pure {σ α : Type} (a : α) : Obl (Pure.pure a : T σ α) [] := fun _ _ _ => rfl

theorem lift {σ α : Type} (e : Except Panic α) : Obl (T.lift e : T σ α) [] := fun _ _ _ => rfl

theorem rd {σ β : Type} {n : Nat} (L : Place σ β n) (i : Fin n) : Obl (rd L i) [.rd L.arr i.val] := fun _ _ _ => rfl

theorem wr {σ β : Type} {n : Nat} (L : Place σ β n) (i : Fin n) (x : β) : Obl (wr L i x) [.wr L.arr i.val] := fun _ _ _ => rfl

theorem bind {σ α β : Type} {m : T σ α} {f : α → T σ β} {l l' : List Acc} (hm : Obl m l) (hf : ∀ a, Obl (f a) l') :
    Obl (m >>= f) (l ++ l') := by
  intro s r h
  rw [T.result_bind] at h
  rcases hr : m.result s with e | ⟨a, s'⟩
  · rw [hr] at h; exact absurd h (by intro h; cases h)
  · rw [hr] at h
    rw [T.trace_bind m f s a s' hr, hm s _ hr, hf a s' r h]

theorem rep {σ : Type} {m : T σ Unit} {l : List Acc} (hm : Obl m l) : ∀ n, Obl (rep n m) (List.replicate n l).flatten
  | 0 => pure ()
  | n + 1 => by
    rw [List.replicate_succ, List.flatten_cons]
    exact bind hm fun _ => rep hm n

theorem each {σ ι : Type} {m : ι → T σ Unit} {l : ι → List Acc} (hm : ∀ i, Obl (m i) (l i)) : ∀ is, Obl (each m is) (is.flatMap l)
  | [] => pure ()
  | i :: is => by
    rw [List.flatMap_cons]
    exact bind (hm i) fun _ => each hm is

end Obl

/-- Solve `Obl m ?l` for a straight-line program. -/
macro "oblivious" : tactic => `(tactic|
  repeat' (with_reducible first
    | exact Obl.rd _ _
    | exact Obl.wr _ _ _
    | exact Obl.lift _
    | exact Obl.pure _
    | apply Obl.bind
    | intro _))

/-! ## Effects of loops -/

theorem rep_result {σ : Type} {m : T σ Unit} {f : σ → σ} (h : ∀ s, m.result s = .ok ((), f s)) :
    ∀ n s, (rep n m).result s = .ok ((), iter n f s)
  | 0, s => rfl
  | n + 1, s => by
    show (m >>= fun _ => rep n m).result s = _
    rw [T.result_bind, h]
    exact rep_result h n (f s)

theorem each_result {σ ι : Type} {m : ι → T σ Unit} {f : σ → ι → σ} (h : ∀ i s, (m i).result s = .ok ((), f s i)) :
    ∀ is s, (each m is).result s = .ok ((), is.foldl f s)
  | [], s => rfl
  | i :: is, s => by
    show (m i >>= fun _ => each m is).result s = _
    rw [T.result_bind, h]
    exact each_result h is (f s i)

theorem foldl_set_getElem {β : Type} {n : Nat} (f : Fin n → β) (k : Nat) (hk : k < n) : ∀ (is : List (Fin n)) (v : Vector β n),
    (is.foldl (fun v i => v.set i (f i)) v)[k] = if (⟨k, hk⟩ : Fin n) ∈ is then f ⟨k, hk⟩ else v[k]
  | [], v => by simp
  | i :: is, v => by
    rw [List.foldl_cons, foldl_set_getElem f k hk is]
    by_cases h : (⟨k, hk⟩ : Fin n) ∈ is
    · simp [h]
    · rw [if_neg h, Vector.getElem_set]
      by_cases hik : i.val = k
      · subst hik; simp
      · have : (⟨k, hk⟩ : Fin n) ≠ i := fun e => hik (by rw [← e])
        simp [h, this, hik]

theorem foldl_set {β : Type} {n : Nat} (f : Fin n → β) (v : Vector β n) :
    (List.finRange n).foldl (fun v i => v.set i (f i)) v = Vector.ofFn f := by
  apply Vector.ext
  intro k hk
  rw [foldl_set_getElem, if_pos (List.mem_finRange _), Vector.getElem_ofFn]

/-- `v[o + i] = f(i)` for `i` in `is`. -/
def fill {β : Type} {n m o : Nat} (ho : o + m ≤ n) (f : Fin m → β) (is : List (Fin m)) (v : Vector β n) : Vector β n :=
  is.foldl (fun v i => v.set (o + i.val) (f i) (by omega)) v

theorem fill_getElem {β : Type} {n m o : Nat} (ho : o + m ≤ n) (f : Fin m → β) (k : Nat) (hk : k < n) :
    ∀ (is : List (Fin m)) (v : Vector β n),
    (fill ho f is v)[k] = if h : ∃ j : Fin m, o + j.val = k ∧ j ∈ is then f ⟨k - o, by obtain ⟨j, e, _⟩ := h; omega⟩ else v[k]
  | [], v => by
    rw [dif_neg (by rintro ⟨_, _, h⟩; exact absurd h List.not_mem_nil)]
    rfl
  | i :: is, v => by
    show (fill ho f is (v.set (o + i.val) (f i) (by omega)))[k] = _
    rw [fill_getElem ho f k hk is]
    by_cases h : ∃ j : Fin m, o + j.val = k ∧ j ∈ is
    · rw [dif_pos h, dif_pos (by obtain ⟨j, e, hj⟩ := h; exact ⟨j, e, List.mem_cons_of_mem _ hj⟩)]
    · rw [dif_neg h, Vector.getElem_set]
      by_cases hik : o + i.val = k
      · rw [if_pos hik, dif_pos ⟨i, hik, List.mem_cons_self⟩]
        congr 1
        apply Fin.ext
        show i.val = k - o
        omega
      · rw [if_neg hik, dif_neg]
        rintro ⟨j, e, hj⟩
        rcases List.mem_cons.mp hj with rfl | hj
        · exact hik e
        · exact h ⟨j, e, hj⟩

theorem fill_all {β : Type} {n m o : Nat} (ho : o + m ≤ n) (f : Fin m → β) (v : Vector β n) (k : Nat) (hk : k < n) :
    (fill ho f (List.finRange m) v)[k] = if h : o ≤ k ∧ k < o + m then f ⟨k - o, by omega⟩ else v[k] := by
  rw [fill_getElem]
  by_cases h : o ≤ k ∧ k < o + m
  · rw [dif_pos h, dif_pos ⟨⟨k - o, by omega⟩, by show o + (k - o) = k; omega, List.mem_finRange _⟩]
  · rw [dif_neg h, dif_neg]
    rintro ⟨j, e, _⟩
    omega

/-- Four bytes stored. -/
def put4 {k : Nat} (v : Vector U8 (4 * k)) (i : Fin k) (x : U32) : Vector U8 (4 * k) :=
  (((v.set (4 * i.val) (toLe32 x)[0] (by omega)).set (4 * i.val + 1) (toLe32 x)[1] (by omega)).set (4 * i.val + 2) (toLe32 x)[2]
    (by omega)).set (4 * i.val + 3) (toLe32 x)[3] (by omega)

theorem put4_getElem {k : Nat} (v : Vector U8 (4 * k)) (i : Fin k) (x : U32) (j : Nat) (hj : j < 4 * k) :
    (put4 v i x)[j] = if j / 4 = i.val then (toLe32 x)[j % 4]'(by omega) else v[j] := by
  unfold put4
  simp only [Vector.getElem_set]
  by_cases h : j / 4 = i.val
  · rw [if_pos h]
    have h4 : j % 4 = 0 ∨ j % 4 = 1 ∨ j % 4 = 2 ∨ j % 4 = 3 := by omega
    rcases h4 with e | e | e | e <;> simp only [e]
    · rw [if_neg (by omega), if_neg (by omega), if_neg (by omega), if_pos (by omega)]
    · rw [if_neg (by omega), if_neg (by omega), if_pos (by omega)]
    · rw [if_neg (by omega), if_pos (by omega)]
    · rw [if_pos (by omega)]
  · rw [if_neg h, if_neg (by omega), if_neg (by omega), if_neg (by omega), if_neg (by omega)]

theorem foldl_put4_getElem {k : Nat} (w : Fin k → U32) (j : Nat) (hj : j < 4 * k) : ∀ (is : List (Fin k)) (v : Vector U8 (4 * k)),
    (is.foldl (fun v i => put4 v i (w i)) v)[j] =
      if (⟨j / 4, by omega⟩ : Fin k) ∈ is then (toLe32 (w ⟨j / 4, by omega⟩))[j % 4]'(by omega) else v[j]
  | [], v => by simp
  | i :: is, v => by
    rw [List.foldl_cons, foldl_put4_getElem w j hj is]
    by_cases h : (⟨j / 4, by omega⟩ : Fin k) ∈ is
    · simp [h]
    · rw [if_neg h, put4_getElem]
      by_cases hik : j / 4 = i.val
      · have : (⟨j / 4, by omega⟩ : Fin k) = i := Fin.ext hik
        rw [if_pos hik, if_pos (by rw [this]; exact List.mem_cons_self)]
        simp only [this]
      · have : (⟨j / 4, by omega⟩ : Fin k) ≠ i := fun e => hik (by rw [← e])
        rw [if_neg hik, if_neg (by simp [h, this])]

theorem foldl_put4 {k : Nat} (w : Vector U32 k) (v : Vector U8 (4 * k)) :
    (List.finRange k).foldl (fun v i => put4 v i w[i]) v = leBytes w := by
  apply Vector.ext
  intro j hj
  rw [foldl_put4_getElem (fun i => w[i]) j hj, if_pos (List.mem_finRange _)]
  unfold leBytes
  rw [Vector.getElem_ofFn]
  rfl

/-- The laws of an array in memory. -/
structure Place.Lawful {σ β : Type} {n : Nat} (L : Place σ β n) : Prop where
  get_set : ∀ s v, L.get (L.set s v) = v
  set_set : ∀ s v w, L.set (L.set s v) w = L.set s w
  set_get : ∀ s, L.set s (L.get s) = s

theorem resP_lawful : BlockMem.resP.Lawful := ⟨fun _ _ => rfl, fun _ _ _ => rfl, fun _ => rfl⟩
theorem stateP_lawful : HashMem.stateP.Lawful := ⟨fun _ _ => rfl, fun _ _ _ => rfl, fun _ => rfl⟩

theorem storeLe_result {σ : Type} {k : Nat} {L : Place σ U8 (4 * k)} (hL : L.Lawful) (i : Fin k) (x : U32) (s : σ) :
    (storeLe L i x).result s = .ok ((), L.set s (put4 (L.get s) i x)) := by
  simp only [storeLe, T.result_bind, result_wr, ok_bind, hL.get_set, hL.set_set]
  rfl

theorem loadLe_result {σ : Type} {k : Nat} (L : Place σ U8 (4 * k)) (i : Fin k) (s : σ) :
    (loadLe L i).result s = .ok (wordAt (L.get s) i.val (by omega), s) := by
  simp only [loadLe, T.result_bind, result_rd, ok_bind, T.result_pure]
  rfl

theorem storeLe_obl {σ : Type} {k : Nat} (L : Place σ U8 (4 * k)) (i : Fin k) : ∃ l, ∀ x, Obl (storeLe L i x) l := by
  apply Exists.intro
  intro x
  unfold storeLe
  oblivious

theorem loadLe_obl {σ : Type} {k : Nat} (L : Place σ U8 (4 * k)) (i : Fin k) : ∃ l, Obl (loadLe L i) l := by
  apply Exists.intro
  unfold loadLe
  oblivious

attribute [local irreducible] each rep

/-! ## ChaCha and Salsa -/

/-- The accesses do not depend on the memory. -/
def Const {σ α : Type} (m : T σ α) : Prop := ∃ l, Obl m l

theorem Const.same {σ α : Type} {m : T σ α} (h : Const m) (s s' : σ) (r r' : α × σ) (hr : m.result s = .ok r)
    (hr' : m.result s' = .ok r') : m.trace s = m.trace s' := by
  obtain ⟨l, h⟩ := h
  rw [h s r hr, h s' r' hr']

theorem Const.bind {σ α β : Type} {m : T σ α} {f : α → T σ β} (hm : Const m) (hf : ∃ l, ∀ a, Obl (f a) l) : Const (m >>= f) := by
  obtain ⟨l, hm⟩ := hm
  obtain ⟨l', hf⟩ := hf
  exact ⟨_, hm.bind hf⟩

theorem Const.seq {σ β : Type} {m : T σ Unit} {f : T σ β} (hm : Const m) (hf : Const f) : Const (m >>= fun _ => f) :=
  hm.bind (hf.imp fun _ h _ => h)

theorem Const.rep {σ : Type} {m : T σ Unit} (hm : Const m) (n : Nat) : Const (rep n m) := by
  obtain ⟨l, hm⟩ := hm
  exact ⟨_, hm.rep n⟩

theorem Const.each {σ ι : Type} {m : ι → T σ Unit} (hm : ∀ i, Const (m i)) (is : List ι) : Const (each m is) :=
  ⟨_, Obl.each (fun i => (hm i).choose_spec) is⟩

theorem rd_bind_obl {σ β γ : Type} {n : Nat} (L : Place σ β n) (i : Fin n) {f : β → T σ γ} (hf : ∃ l, ∀ a, Obl (f a) l) :
    Const (rd L i >>= f) := Const.bind ⟨_, Obl.rd L i⟩ hf

theorem copyState_const : Const copyState := by
  unfold copyState
  exact Const.each (fun _ => by apply Exists.intro; oblivious) _

theorem addState_const : Const addState := by
  unfold addState
  exact Const.each (fun _ => by apply Exists.intro; oblivious) _

theorem storeRes_const : Const storeRes := by
  unfold storeRes
  exact Const.each (fun _ => rd_bind_obl _ _ (storeLe_obl _ _)) _

theorem emit_const (idx : Vector (Fin 16) 8) : Const (emit idx) := by
  unfold emit
  exact Const.each (fun _ => rd_bind_obl _ _ (storeLe_obl _ _)) _

theorem copyState_result (s : BlockMem) : copyState.result s = .ok ((), { s with res := s.state }) := by
  unfold copyState
  rw [each_result (f := fun s (i : Fin 16) => { s with res := s.res.set i s.state[i] }) (fun i s => rfl)]
  have h : ∀ (is : List (Fin 16)) (s : BlockMem), is.foldl (fun s i => { s with res := s.res.set i s.state[i] }) s =
      { s with res := is.foldl (fun v (i : Fin 16) => v.set i s.state[i]) s.res } := by
    intro is
    induction is with
    | nil => intro s; rfl
    | cons i is ih => intro s; rw [List.foldl_cons, ih]; rfl
  rw [h, foldl_set]
  congr 3
  apply Vector.ext
  intro k hk
  rw [Vector.getElem_ofFn]
  rfl

theorem addState_result (s : BlockMem) : addState.result s = .ok ((), { s with res := Vector.zipWith (· + ·) s.res s.state }) := by
  unfold addState
  rw [each_result (f := fun s (i : Fin 16) => { s with res := s.res.set i (s.res[i] + s.state[i]) }) (fun i s => rfl)]
  have h : ∀ (is : List (Fin 16)) (s : BlockMem) (r : Vector U32 16), is.Nodup → (∀ i ∈ is, s.res[i] = r[i]) →
      is.foldl (fun s i => { s with res := s.res.set i (s.res[i] + s.state[i]) }) s =
      { s with res := is.foldl (fun v (i : Fin 16) => v.set i (r[i] + s.state[i])) s.res } := by
    intro is
    induction is with
    | nil => intro s r _ _; rfl
    | cons i is ih =>
      intro s r hn hr
      rw [List.nodup_cons] at hn
      rw [List.foldl_cons, ih _ r hn.2]
      · rw [List.foldl_cons, hr i List.mem_cons_self]
      · intro j hj
        have hij : i.val ≠ j.val := fun e => hn.1 (by rw [Fin.ext e]; exact hj)
        show (s.res.set i.val _)[j.val] = _
        rw [Vector.getElem_set, if_neg hij]
        exact hr j (List.mem_cons_of_mem _ hj)
  rw [h _ s s.res (List.nodup_finRange 16) (fun _ _ => rfl), foldl_set]
  congr 3
  apply Vector.ext
  intro k hk
  rw [Vector.getElem_ofFn, Vector.getElem_zipWith]
  rfl

theorem storeRes_result (s : BlockMem) : storeRes.result s = .ok ((), { s with out := leBytes s.res }) := by
  unfold storeRes
  rw [each_result (f := fun s (i : Fin 16) => { s with out := put4 s.out i s.res[i] }) (fun i s => rfl)]
  have h : ∀ (is : List (Fin 16)) (s : BlockMem), is.foldl (fun s i => { s with out := put4 s.out i s.res[i] }) s =
      { s with out := is.foldl (fun v (i : Fin 16) => put4 v i s.res[i]) s.out } := by
    intro is
    induction is with
    | nil => intro s; rfl
    | cons i is ih => intro s; rw [List.foldl_cons, ih]; rfl
  rw [h, foldl_put4]

theorem emit_result (idx : Vector (Fin 16) 8) (s : HashMem) :
    (emit idx).result s = .ok ((), { s with out := leBytes (Vector.ofFn fun i => s.state[idx[i]]) }) := by
  unfold emit
  rw [each_result (f := fun s (i : Fin 8) => { s with out := put4 s.out i s.state[idx[i]] }) (fun i s => rfl)]
  have h : ∀ (is : List (Fin 8)) (s : HashMem), is.foldl (fun s i => { s with out := put4 s.out i s.state[idx[i]] }) s =
      { s with out := is.foldl (fun v (i : Fin 8) => put4 v i (Vector.ofFn fun i : Fin 8 => s.state[idx[i]])[i]) s.out } := by
    intro is
    induction is with
    | nil => intro s; rfl
    | cons i is ih =>
      intro s
      rw [List.foldl_cons, ih, List.foldl_cons]
      congr 2
      show put4 _ _ _ = put4 _ _ (Vector.ofFn _)[i.val]
      rw [Vector.getElem_ofFn]
  rw [h, foldl_put4]

namespace ChaCha

theorem quarterRound_const {σ : Type} (L : Place σ U32 16) (a b c d : Fin 16) : Const (quarterRound L a b c d) := by
  apply Exists.intro
  unfold quarterRound
  oblivious

theorem quarterRound_result {σ : Type} {L : Place σ U32 16} (hL : L.Lawful) (a b c d : Fin 16) (s : σ) :
    (quarterRound L a b c d).result s = .ok ((), L.set s (Verif.ChaCha.quarterRound a b c d (L.get s))) := by
  simp only [quarterRound, T.result_bind, result_wr, result_rd, ok_bind, hL.get_set, hL.set_set]
  rfl

theorem doubleRound_const {σ : Type} (L : Place σ U32 16) : Const (doubleRound L) :=
  .seq (quarterRound_const ..) <| .seq (quarterRound_const ..) <| .seq (quarterRound_const ..) <| .seq (quarterRound_const ..) <|
  .seq (quarterRound_const ..) <| .seq (quarterRound_const ..) <| .seq (quarterRound_const ..) (quarterRound_const ..)

theorem doubleRound_result {σ : Type} {L : Place σ U32 16} (hL : L.Lawful) (s : σ) :
    (doubleRound L).result s = .ok ((), L.set s (Verif.ChaCha.doubleRound (L.get s))) := by
  simp only [doubleRound, T.result_bind, quarterRound_result hL, ok_bind, hL.get_set, hL.set_set]
  rfl

theorem rounds_result {σ : Type} {L : Place σ U32 16} (hL : L.Lawful) (dr : Nat) (s : σ) :
    (rep dr (doubleRound L)).result s = .ok ((), L.set s (iter dr Verif.ChaCha.doubleRound (L.get s))) := by
  rw [rep_result (doubleRound_result hL)]
  congr 2
  induction dr generalizing s with
  | zero => exact (hL.set_get s).symm
  | succ n ih =>
    show iter n _ (L.set s _) = L.set s (iter n _ _)
    rw [ih, hL.get_set, hL.set_set]

theorem advance_const (V : Verif.ChaCha.Variant) : Const (advance V) := by
  cases V
  · exact ⟨_, Obl.bind (l' := _ ++ (_ ++ [])) (Obl.rd _ _) fun _ => Obl.bind (Obl.rd _ _) fun _ =>
      Obl.bind (Obl.wr _ _ _) fun _ => Obl.pure ()⟩
  · exact ⟨_, Obl.bind (l' := _ ++ (_ ++ _)) (Obl.rd _ _) fun _ => Obl.bind (Obl.rd _ _) fun _ =>
      Obl.bind (Obl.wr _ _ _) fun _ => Obl.wr _ _ _⟩

theorem advance_result (V : Verif.ChaCha.Variant) (s : BlockMem) :
    (advance V).result s = .ok ((), { s with state := Verif.ChaCha.softAdvance V s.state }) := by
  cases V <;> rfl

theorem genBlock_const (dr : Nat) (V : Verif.ChaCha.Variant) : Const (genBlock dr V) := by
  unfold genBlock
  exact .seq copyState_const (.seq (.rep (doubleRound_const _) dr) (.seq addState_const (.seq (advance_const V) storeRes_const)))

theorem genBlock_result (dr : Nat) (V : Verif.ChaCha.Variant) (s : BlockMem) : (genBlock dr V).result s =
    .ok ((), ⟨Verif.ChaCha.softAdvance V s.state, Verif.ChaCha.runRounds dr s.state, leBytes (Verif.ChaCha.runRounds dr s.state)⟩) := by
  unfold genBlock
  rw [T.result_bind, copyState_result, ok_bind, T.result_bind, rounds_result resP_lawful, ok_bind, T.result_bind, addState_result, ok_bind,
    T.result_bind, advance_result, ok_bind, storeRes_result]
  rfl

theorem hashSetup_const : Const hashSetup := by
  unfold hashSetup
  refine .seq (.each (fun _ => ⟨_, Obl.wr _ _ _⟩) _) (.seq (.each (fun i => ?_) _) (.each (fun i => ?_) _))
  · exact (loadLe_obl _ _).imp' _ fun _ h => h.bind fun _ => Obl.wr _ _ _
  · exact (loadLe_obl _ _).imp' _ fun _ h => h.bind fun _ => Obl.wr _ _ _

theorem hchacha_const (dr : Nat) : Const (hchacha dr) := by
  unfold hchacha
  exact .seq hashSetup_const (.seq (.rep (doubleRound_const _) dr) (emit_const _))

theorem fill_result {m o : Nat} (ho : o + m ≤ 16) (body : Fin m → T HashMem Unit) (f : HashMem → Fin m → U32)
    (hb : ∀ i s, (body i).result s = .ok ((), { s with state := s.state.set (o + i.val) (f s i) (by omega) }))
    (hf : ∀ s v, f { s with state := v } = f s) (s : HashMem) :
    (each body (List.finRange m)).result s = .ok ((), { s with state := fill ho (f s) (List.finRange m) s.state }) := by
  rw [each_result hb]
  have h : ∀ (is : List (Fin m)) (s : HashMem),
      is.foldl (fun s i => { s with state := s.state.set (o + i.val) (f s i) (by omega) }) s = { s with state := fill ho (f s) is s.state } := by
    intro is
    induction is with
    | nil => intro s; rfl
    | cons i is ih =>
      intro s
      rw [List.foldl_cons, ih]
      exact congrArg (fun g => HashMem.mk s.key s.input (fill ho g is _) s.out) (hf s _)
  rw [h]

theorem hashSetup_result (s : HashMem) :
    hashSetup.result s = .ok ((), { s with state := Verif.ChaCha.hchachaState s.key s.input }) := by
  unfold hashSetup
  rw [T.result_bind, fill_result (o := 0) (by decide) _ (fun _ i => Verif.ChaCha.constants[i]) (fun i s => by
      simp only [result_wr, Nat.zero_add]; rfl) (fun _ _ => rfl), ok_bind,
    T.result_bind, fill_result (o := 4) (by decide) _ (fun s i => wordAt s.key i.val (by omega)) (fun i s => by
      simp only [T.result_bind, loadLe_result, ok_bind, result_wr]; rfl) (fun _ _ => rfl), ok_bind,
    fill_result (o := 12) (by decide) _ (fun s i => wordAt s.input i.val (by omega)) (fun i s => by
      simp only [T.result_bind, loadLe_result, ok_bind, result_wr]; rfl) (fun _ _ => rfl)]
  refine congrArg Except.ok (congrArg (Prod.mk ()) (congrArg (fun v => HashMem.mk s.key s.input v s.out) ?_))
  apply Vector.ext
  intro k hk
  unfold Verif.ChaCha.hchachaState
  rw [Vector.getElem_ofFn, fill_all, fill_all, fill_all]
  by_cases h4 : k < 4
  · rw [dif_neg (by omega), dif_neg (by omega), dif_pos (by omega), dif_pos h4]; rfl
  · by_cases h12 : k < 12
    · rw [dif_neg (by omega), dif_pos (by omega), dif_neg h4, dif_pos h12]
    · rw [dif_pos (by omega), dif_neg h4, dif_neg h12]

theorem hchacha_result (dr : Nat) (s : HashMem) : (hchacha dr).result s =
    .ok ((), ⟨s.key, s.input, iter dr Verif.ChaCha.doubleRound (Verif.ChaCha.hchachaState s.key s.input),
      Verif.ChaCha.hchacha dr s.key s.input⟩) := by
  unfold hchacha Verif.ChaCha.hchacha
  rw [T.result_bind, hashSetup_result, ok_bind, T.result_bind, rounds_result stateP_lawful, ok_bind, emit_result]
  dsimp only [HashMem.stateP]
  generalize iter dr Verif.ChaCha.doubleRound _ = v
  refine congrArg Except.ok (congrArg (Prod.mk ()) (congrArg (HashMem.mk s.key s.input v) (congrArg (leBytes (k := 8)) ?_)))
  rfl

end ChaCha

namespace Salsa

theorem quarterRound_const {σ : Type} (L : Place σ U32 16) (a b c d : Fin 16) : Const (quarterRound L a b c d) := by
  apply Exists.intro
  unfold quarterRound
  oblivious

theorem quarterRound_result {σ : Type} {L : Place σ U32 16} (hL : L.Lawful) (a b c d : Fin 16) (s : σ) :
    (quarterRound L a b c d).result s = .ok ((), L.set s (Verif.Salsa.quarterRound a b c d (L.get s))) := by
  simp only [quarterRound, T.result_bind, result_wr, result_rd, ok_bind, hL.get_set, hL.set_set]
  rfl

theorem doubleRound_const {σ : Type} (L : Place σ U32 16) : Const (doubleRound L) :=
  .seq (quarterRound_const ..) <| .seq (quarterRound_const ..) <| .seq (quarterRound_const ..) <| .seq (quarterRound_const ..) <|
  .seq (quarterRound_const ..) <| .seq (quarterRound_const ..) <| .seq (quarterRound_const ..) (quarterRound_const ..)

theorem doubleRound_result {σ : Type} {L : Place σ U32 16} (hL : L.Lawful) (s : σ) :
    (doubleRound L).result s = .ok ((), L.set s (Verif.Salsa.doubleRound (L.get s))) := by
  simp only [doubleRound, T.result_bind, quarterRound_result hL, ok_bind, hL.get_set, hL.set_set]
  rfl

theorem rounds_result {σ : Type} {L : Place σ U32 16} (hL : L.Lawful) (dr : Nat) (s : σ) :
    (rep dr (doubleRound L)).result s = .ok ((), L.set s (iter dr Verif.Salsa.doubleRound (L.get s))) := by
  rw [rep_result (doubleRound_result hL)]
  congr 2
  induction dr generalizing s with
  | zero => exact (hL.set_get s).symm
  | succ n ih =>
    show iter n _ (L.set s _) = L.set s (iter n _ _)
    rw [ih, hL.get_set, hL.set_set]

theorem advance_const (m : Mode) : Const (advance m) := by
  apply Exists.intro
  unfold advance
  oblivious

theorem advance_result (m : Mode) (s : BlockMem) : (advance m).result s =
    (Verif.Salsa.incr m (Verif.Salsa.getBlockPos s.state)).map fun p => ((), { s with state := Verif.Salsa.setBlockPos s.state p }) := by
  unfold advance
  simp only [T.result_bind, result_rd, ok_bind, T.result_lift]
  show ((Verif.Salsa.incr m (Verif.Salsa.getBlockPos s.state)).map (·, s) >>= _) = _
  rcases Verif.Salsa.incr m (Verif.Salsa.getBlockPos s.state) with e | p <;> rfl

theorem genBlock_const (m : Mode) (dr : Nat) : Const (genBlock m dr) := by
  unfold genBlock
  exact .seq copyState_const (.seq (.rep (doubleRound_const _) dr) (.seq addState_const (.seq (advance_const m) storeRes_const)))

theorem genBlock_result (m : Mode) (dr : Nat) (s : BlockMem) : (genBlock m dr).result s =
    (Verif.Salsa.genBlock m dr s.state).map fun p => ((), ⟨p.2, Verif.Salsa.runRounds dr s.state, p.1⟩) := by
  unfold genBlock Verif.Salsa.genBlock
  rw [T.result_bind, copyState_result, ok_bind, T.result_bind, rounds_result resP_lawful, ok_bind, T.result_bind, addState_result, ok_bind,
    T.result_bind, advance_result]
  dsimp only [BlockMem.resP]
  rcases Verif.Salsa.incr m (Verif.Salsa.getBlockPos s.state) with e | p
  · exact Eq.refl (Except.error e)
  · show T.result storeRes _ = _
    rw [storeRes_result]
    rfl

theorem hashSetup_const : Const hashSetup := by
  unfold hashSetup
  refine .seq ⟨_, Obl.wr _ _ _⟩ (.seq (.each (fun i => ?_) _) (.seq ⟨_, Obl.wr _ _ _⟩ (.seq (.each (fun i => ?_) _)
    (.seq ⟨_, Obl.wr _ _ _⟩ (.seq (.each (fun i => ?_) _) ⟨_, Obl.wr _ _ _⟩)))))
  · exact (loadLe_obl _ _).imp' _ fun _ h => h.bind fun _ => Obl.wr _ _ _
  · exact (loadLe_obl _ _).imp' _ fun _ h => h.bind fun _ => Obl.wr _ _ _
  · exact (loadLe_obl _ _).imp' _ fun _ h => h.bind fun _ => Obl.wr _ _ _

theorem hsalsa_const (dr : Nat) : Const (hsalsa dr) := by
  unfold hsalsa
  exact .seq hashSetup_const (.seq (.rep (doubleRound_const _) dr) (emit_const _))

theorem hashSetup_result (s : HashMem) :
    hashSetup.result s = .ok ((), { s with state := Verif.Salsa.hsalsaState s.key s.input }) := by
  unfold hashSetup
  rw [T.result_bind, result_wr, ok_bind,
    T.result_bind, ChaCha.fill_result (o := 1) (by decide) _ (fun s i => wordAt s.key i.val (by omega)) (fun i s => by
      simp only [T.result_bind, loadLe_result, ok_bind, result_wr]; rfl) (fun _ _ => rfl), ok_bind,
    T.result_bind, result_wr, ok_bind,
    T.result_bind, ChaCha.fill_result (o := 6) (by decide) _ (fun s i => wordAt s.input i.val (by omega)) (fun i s => by
      simp only [T.result_bind, loadLe_result, ok_bind, result_wr]; rfl) (fun _ _ => rfl), ok_bind,
    T.result_bind, result_wr, ok_bind,
    T.result_bind, ChaCha.fill_result (o := 11) (by decide) _ (fun s i => wordAt s.key (4 + i.val) (by omega)) (fun i s => by
      simp only [T.result_bind, loadLe_result, ok_bind, result_wr]; rfl) (fun _ _ => rfl), ok_bind,
    result_wr]
  refine congrArg Except.ok (congrArg (Prod.mk ()) (congrArg (fun v => HashMem.mk s.key s.input v s.out) ?_))
  dsimp only [HashMem.stateP]
  apply Vector.ext
  unfold Verif.Salsa.hsalsaState
  simp only [Vector.getElem_set, fill_all]
  have e5 : ((5 : Fin 16) : Nat) = 5 := rfl
  have e10 : ((10 : Fin 16) : Nat) = 10 := rfl
  have e15 : ((15 : Fin 16) : Nat) = 15 := rfl
  apply forall_lt16 <;> simp [e5, e10, e15]

theorem hsalsa_result (dr : Nat) (s : HashMem) : (hsalsa dr).result s =
    .ok ((), ⟨s.key, s.input, iter dr Verif.Salsa.doubleRound (Verif.Salsa.hsalsaState s.key s.input),
      Verif.Salsa.hsalsa dr s.key s.input⟩) := by
  unfold hsalsa Verif.Salsa.hsalsa
  rw [T.result_bind, hashSetup_result, ok_bind, T.result_bind, rounds_result stateP_lawful, ok_bind, emit_result]
  dsimp only [HashMem.stateP]
  generalize iter dr Verif.Salsa.doubleRound _ = v
  refine congrArg Except.ok (congrArg (Prod.mk ()) (congrArg (HashMem.mk s.key s.input v) (congrArg (leBytes (k := 8)) ?_)))
  rfl

end Salsa

end Verif.Trace
